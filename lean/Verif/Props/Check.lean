/-
C69: the check of boundary conditions compared with the analysis it is meant to protect.
-/
import Verif.Model.Check
import Verif.Props.Reported

namespace OpenPile.Props.Check
open OpenPile.Check OpenPile.BC OpenPile.Spec.BC OpenPile.Mesh OpenPile.Spec.Mesh OpenPile.Kernel OpenPile.Analysis
  OpenPile.Props.Analysis OpenPile.Props.Mesh OpenPile.Props.Refine OpenPile.Props.Element OpenPile.Props.Reported

section counts
variable {K : Type} [Field K] [LinearOrder K] [IsStrictOrderedRing K] [FloorRing K]

/-- The number of nodes with a property. -/
def nodesWith (n : ℕ) (P : ℕ → Bool) : ℕ := ((Finset.range n).filter (fun i => P i = true)).card

/-- Node `i` is fixed on an axis. -/
def Fixed (nodes : List K) (bcs : List (Cond K)) (a : Axis) (i : ℕ) : Prop :=
  left storeBool false nodes bcs .fixation a i = true

/-- Node `i` carries a load (in whole units) on an axis. -/
def Loaded (nodes : List K) (bcs : List (Cond K)) (a : Axis) (i : ℕ) : Prop :=
  left storeInt 0 nodes bcs .force a i ≠ 0

theorem countP_eq {β : Type} (l : List β) (f : β → Bool) (P : ℕ → Bool)
    (h : ∀ (i : ℕ) (b : β), l[i]? = some b → P i = f b) : l.countP f = nodesWith l.length P := by
  unfold nodesWith
  induction l using List.reverseRecOn with
  | nil => rfl
  | append_singleton l b ih =>
    rw [List.countP_append, List.length_append, List.length_singleton, Finset.range_add_one, Finset.filter_insert,
      ih]
    · have := h l.length b (by simp)
      rw [List.countP_singleton, this]
      by_cases hb : f b = true
      · rw [if_pos hb, if_pos hb, Finset.card_insert_of_notMem (by simp)]
      · rw [if_neg hb, if_neg hb, Nat.add_zero]
    · intro i c hc
      refine h i c ?_
      rw [List.getElem?_append_left]
      · exact hc
      · exact (List.getElem?_eq_some_iff.1 hc).1

theorem pos_iff (n : ℕ) (P : ℕ → Bool) : 0 < nodesWith n P ↔ ∃ i < n, P i = true := by
  unfold nodesWith
  rw [Finset.card_pos]
  constructor
  · rintro ⟨i, hi⟩
    rw [Finset.mem_filter, Finset.mem_range] at hi
    exact ⟨i, hi⟩
  · rintro ⟨i, hi⟩
    exact ⟨i, by rw [Finset.mem_filter, Finset.mem_range]; exact hi⟩

theorem two_iff (n : ℕ) (P : ℕ → Bool) :
    2 ≤ nodesWith n P ↔ ∃ i < n, ∃ k < n, k ≠ i ∧ P i = true ∧ P k = true := by
  unfold nodesWith
  rw [show (2 ≤ ((Finset.range n).filter (fun i => P i = true)).card)
    ↔ 1 < ((Finset.range n).filter (fun i => P i = true)).card from Iff.rfl, Finset.one_lt_card]
  simp only [Finset.mem_filter, Finset.mem_range]
  constructor
  · rintro ⟨i, ⟨h1, h2⟩, k, ⟨h3, h4⟩, h⟩
    exact ⟨i, h1, k, h3, Ne.symm h, h2, h4⟩
  · rintro ⟨i, h1, k, h3, h, h2, h4⟩
    exact ⟨i, ⟨h1, h2⟩, k, ⟨h3, h4⟩, Ne.symm h⟩

theorem count_left {β : Type} (store : Val K → β) (init : β) (nodes : List K) (bcs : List (Cond K)) (cls : Cls)
    (a : Axis) (f : β → Bool) :
    ((applyBc store nodes ⟨nodes.map (fun _ => init), nodes.map (fun _ => init), nodes.map (fun _ => init)⟩
      bcs cls).get a).countP f = nodesWith nodes.length (fun i => f (left store init nodes bcs cls a i)) := by
  have hl : ((applyBc store nodes ⟨nodes.map (fun _ => init), nodes.map (fun _ => init), nodes.map (fun _ => init)⟩
      bcs cls).get a).length = nodes.length := by
    rw [applyBc_length]
    cases a <;> simp [Nodal.get]
  rw [countP_eq _ _ (fun i => f (left store init nodes bcs cls a i)), hl]
  intro i b hb
  have hi : i < nodes.length := by
    rw [← hl]
    exact (List.getElem?_eq_some_iff.1 hb).1
  rw [applyBc_left store init nodes bcs cls a i hi] at hb
  rw [Option.some.inj hb]

theorem decision (x y z fx fy fz : ℕ) :
    (if x + y + z = 0 ∧ false = false then (.error .noSupport : Except Complaint Unit)
      else if fx + fy + fz = 0 then .error .noLoad
      else if false = false then
        if ¬ (0 < fz ∧ 0 < z) ∧ 0 < fz ∧ z = 0 then .error .noNormalSupport
        else if 2 ≤ y + x ∧ 0 < fy then .ok ()
        else if 2 ≤ y + x ∧ 0 < fx then .ok ()
        else if fx + fy = 0 then .ok ()
        else .error .noBendingSupport
      else .error .soilInMesh) = .ok () ↔
    (0 < x ∨ 0 < y ∨ 0 < z) ∧ (0 < fx ∨ 0 < fy ∨ 0 < fz) ∧ (0 < fz → 0 < z) ∧ (0 < fx ∨ 0 < fy → 2 ≤ y + x) := by
  split_ifs <;> first | exact iff_of_true rfl (by omega) | exact iff_of_false (by simp) (by omega) | tauto

/-- **C69, exact behaviour.** The check is passed exactly by models without soil whose supports and loads do not
contradict each other, with at least one support, at least one load, an axial support if there is an axial load, and
two supports against bending if there is a transverse load or a moment: two lateral ones, two rotational ones or one
of each. -/
theorem C69_accepts_iff (soil : Bool) (nodes : List K) (bcs : List (Cond K)) :
    checkModel soil nodes bcs = .ok () ↔ soil = false ∧
      validateBc bcs .fixation = .ok () ∧ validateBc bcs .force = .ok () ∧
      (∃ a, ∃ i < nodes.length, Fixed nodes bcs a i) ∧ (∃ a, ∃ i < nodes.length, Loaded nodes bcs a i) ∧
      ((∃ i < nodes.length, Loaded nodes bcs .z i) → ∃ i < nodes.length, Fixed nodes bcs .z i) ∧
      ((∃ i < nodes.length, Loaded nodes bcs .x i ∨ Loaded nodes bcs .y i) →
        (∃ i < nodes.length, ∃ k < nodes.length, k ≠ i ∧ Fixed nodes bcs .y i ∧ Fixed nodes bcs .y k) ∨
        (∃ i < nodes.length, ∃ k < nodes.length, k ≠ i ∧ Fixed nodes bcs .x i ∧ Fixed nodes bcs .x k) ∨
        ((∃ i < nodes.length, Fixed nodes bcs .y i) ∧ ∃ k < nodes.length, Fixed nodes bcs .x k)) := by
  unfold checkModel globalRestrained globalForces
  cases h1 : validateBc bcs .fixation with
  | error f => simp [bind, Except.bind]
  | ok u =>
  cases h2 : validateBc bcs .force with
  | error f => simp [bind, Except.bind, pure, Except.pure]
  | ok u' =>
  simp only [bind, Except.bind, pure, Except.pure]
  unfold check
  rw [show ∀ g : Nodal Bool, g.x = g.get .x from fun _ => rfl, show ∀ g : Nodal Bool, g.y = g.get .y from fun _ => rfl,
    show ∀ g : Nodal Bool, g.z = g.get .z from fun _ => rfl, show ∀ g : Nodal ℤ, g.x = g.get .x from fun _ => rfl,
    show ∀ g : Nodal ℤ, g.y = g.get .y from fun _ => rfl, show ∀ g : Nodal ℤ, g.z = g.get .z from fun _ => rfl]
  simp only [count_left]
  have p1 : ∀ a, 0 < nodesWith nodes.length (fun i => left storeBool false nodes bcs .fixation a i)
      ↔ ∃ i < nodes.length, Fixed nodes bcs a i := fun a => pos_iff _ _
  have p2 : ∀ a, 2 ≤ nodesWith nodes.length (fun i => left storeBool false nodes bcs .fixation a i)
      ↔ ∃ i < nodes.length, ∃ k < nodes.length, k ≠ i ∧ Fixed nodes bcs a i ∧ Fixed nodes bcs a k :=
    fun a => two_iff _ _
  have p3 : ∀ a, 0 < nodesWith nodes.length (fun i => decide (left storeInt 0 nodes bcs .force a i ≠ 0))
      ↔ ∃ i < nodes.length, Loaded nodes bcs a i := fun a => by
    rw [pos_iff]
    simp only [decide_eq_true_eq]
    rfl
  have ax : ∀ P : Axis → Prop, (∃ a, P a) ↔ P .x ∨ P .y ∨ P .z := by
    intro P
    constructor
    · rintro ⟨a, h⟩
      cases a
      · exact Or.inl h
      · exact Or.inr (Or.inl h)
      · exact Or.inr (Or.inr h)
    · rintro (h | h | h)
      exacts [⟨_, h⟩, ⟨_, h⟩, ⟨_, h⟩]
  have sp : ∀ m k : ℕ, 2 ≤ m + k ↔ 2 ≤ m ∨ 2 ≤ k ∨ (0 < m ∧ 0 < k) := by intro m k; omega
  have lo : (∃ i < nodes.length, Loaded nodes bcs .x i ∨ Loaded nodes bcs .y i) ↔
      (∃ i < nodes.length, Loaded nodes bcs .x i) ∨ ∃ i < nodes.length, Loaded nodes bcs .y i := by
    constructor
    · rintro ⟨i, hi, h | h⟩
      exacts [Or.inl ⟨i, hi, h⟩, Or.inr ⟨i, hi, h⟩]
    · rintro (⟨i, hi, h⟩ | ⟨i, hi, h⟩)
      exacts [⟨i, hi, Or.inl h⟩, ⟨i, hi, Or.inr h⟩]
  cases soil with
  | true =>
    simp only [Bool.true_eq_false, and_false, if_false, false_and, iff_false]
    split_ifs <;> simp
  | false =>
    rw [decision, ax, ax, lo, ← p1, ← p1, ← p1, ← p3, ← p3, ← p3, ← p2, ← p2, sp]
    simp only [true_and]

end counts

section solve
variable {K : Type} [Field K] [LinearOrder K] [IsStrictOrderedRing K] [FloorRing K]
variable (pi : K) (hpi : 0 < pi) (ty : ElementType) (uw E nu : K) (p : Pile.Pile K)
  (hm : Pile.mkMaterial uw E nu = some p.material) (hnu : ty = .timoshenko → -(3 / 4) ≤ nu) (top tip : K)
  (hp : Stack p top tip) (hb : ∀ s ∈ p.sections, Spec.Pile.Built s ∧ s.thickness < s.diameter)
  (C : Coordinates K) (h : MeshOn p top tip C) (bcs : List (Cond K))
include hpi hm hnu hp hb h

/-- **C69, what passing the check gives.** If a laterally loaded model passes the check, also has one axial and one
lateral support, and its prescribed displacements do not contradict each other, the analysis succeeds. -/
theorem C69_sound_partial (hc : checkModel false C.nodes bcs = .ok ())
    (hd : validateBc bcs .displacement = .ok ())
    (hl : ∃ i < C.nodes.length, Loaded C.nodes bcs .x i ∨ Loaded C.nodes bcs .y i)
    (hz : ∃ i < C.nodes.length, Fixed C.nodes bcs .z i) (hy : ∃ i < C.nodes.length, Fixed C.nodes bcs .y i) :
    solveOn pi ty p C bcs ≠ none := by
  obtain ⟨-, v1, v2, -, -, -, hs⟩ := (C69_accepts_iff _ _ _).1 hc
  refine (C20_tables pi hpi ty uw E nu p hm hnu top tip hp hb C h bcs).2 ⟨?_, ?_, ?_⟩
  · intro cls
    cases cls
    exacts [v1, hd, v2]
  · obtain ⟨i, hi, hf⟩ := hz
    exact ⟨i, hi, Or.inl hf⟩
  · rcases hs hl with ⟨i, hi, k, hk, hne, f1, f2⟩ | ⟨i, hi, k, hk, hne, f1, f2⟩ | ⟨⟨i, hi, f1⟩, k, hk, f2⟩
    · exact ⟨i, hi, Or.inl f1, Or.inr ⟨k, hk, hne, Or.inl f2⟩⟩
    · obtain ⟨j, hj, f⟩ := hy
      exact ⟨j, hj, Or.inl f, Or.inl ⟨i, hi, Or.inl f1⟩⟩
    · exact ⟨i, hi, Or.inl f1, Or.inl ⟨k, hk, Or.inl f2⟩⟩

/-- **C69, what the check does not reject.** A model without soil that can be analysed, is loaded and has no prescribed
displacement passes the check. -/
theorem C69_complete_partial (hs : solveOn pi ty p C bcs ≠ none)
    (hd : ∀ a, ∀ i < C.nodes.length, left storeFloat 0 C.nodes bcs .displacement a i = 0)
    (hl : ∃ a, ∃ i < C.nodes.length, Loaded C.nodes bcs a i) : checkModel false C.nodes bcs = .ok () := by
  obtain ⟨hv, ⟨j, hj, hz⟩, i, hi, hy, h2⟩ := (C20_tables pi hpi ty uw E nu p hm hnu top tip hp hb C h bcs).1 hs
  have hz : Fixed C.nodes bcs .z j := hz.resolve_right (fun h => h (hd _ _ hj))
  have hy : Fixed C.nodes bcs .y i := hy.resolve_right (fun h => h (hd _ _ hi))
  refine (C69_accepts_iff _ _ _).2 ⟨rfl, hv _, hv _, ⟨_, _, hj, hz⟩, hl, fun _ => ⟨_, hj, hz⟩, fun _ => ?_⟩
  rcases h2 with ⟨k, hk, h2⟩ | ⟨k, hk, hne, h2⟩
  · exact Or.inr (Or.inr ⟨⟨i, hi, hy⟩, k, hk, h2.resolve_right (fun h => h (hd _ _ hk))⟩)
  · exact Or.inl ⟨i, hi, k, hk, hne, hy, h2.resolve_right (fun h => h (hd _ _ hk))⟩

/-- **C69 is violated by laterally loaded models.** With loads across the axis only, a node fixed laterally and in
rotation, and nothing that holds the pile along its axis, the check is passed and the analysis fails. -/
theorem C69_violated_no_axial_support (v1 : validateBc bcs .fixation = .ok ()) (v2 : validateBc bcs .force = .ok ())
    (hl : ∃ i < C.nodes.length, Loaded C.nodes bcs .y i)
    (hz : ∀ i < C.nodes.length, ¬ Loaded C.nodes bcs .z i ∧ ¬ Fixed C.nodes bcs .z i ∧
      left storeFloat 0 C.nodes bcs .displacement .z i = 0)
    (hf : ∃ i < C.nodes.length, Fixed C.nodes bcs .y i ∧ Fixed C.nodes bcs .x i) :
    checkModel false C.nodes bcs = .ok () ∧ solveOn pi ty p C bcs = none := by
  obtain ⟨i, hi, fy, fx⟩ := hf
  obtain ⟨k, hk, lk⟩ := hl
  refine ⟨(C69_accepts_iff _ _ _).2 ⟨rfl, v1, v2, ⟨_, i, hi, fy⟩, ⟨_, k, hk, lk⟩, ?_, ?_⟩, ?_⟩
  · rintro ⟨j, hj, l⟩
    exact absurd l (hz j hj).1
  · intro _
    exact Or.inr (Or.inr ⟨⟨i, hi, fy⟩, i, hi, fx⟩)
  · by_contra hn
    obtain ⟨-, ⟨j, hj, h1⟩, -⟩ := (C20_tables pi hpi ty uw E nu p hm hnu top tip hp hb C h bcs).1 hn
    rcases h1 with h1 | h1
    · exact (hz j hj).2.1 h1
    · exact h1 (hz j hj).2.2

/-- **C69 is violated by rotational supports.** Two rotational supports and none in the lateral direction pass the
check although the analysis of the laterally loaded pile fails. -/
theorem C69_violated_rotations_only (v1 : validateBc bcs .fixation = .ok ()) (v2 : validateBc bcs .force = .ok ())
    (hl : ∃ i < C.nodes.length, Loaded C.nodes bcs .y i)
    (hz : ∃ i < C.nodes.length, Fixed C.nodes bcs .z i)
    (hy : ∀ i < C.nodes.length, ¬ Fixed C.nodes bcs .y i ∧ left storeFloat 0 C.nodes bcs .displacement .y i = 0)
    (hf : ∃ i < C.nodes.length, ∃ k < C.nodes.length, k ≠ i ∧ Fixed C.nodes bcs .x i ∧ Fixed C.nodes bcs .x k) :
    checkModel false C.nodes bcs = .ok () ∧ solveOn pi ty p C bcs = none := by
  obtain ⟨k, hk, lk⟩ := hl
  obtain ⟨j, hj, fz⟩ := hz
  refine ⟨(C69_accepts_iff _ _ _).2 ⟨rfl, v1, v2, ⟨_, j, hj, fz⟩, ⟨_, k, hk, lk⟩, fun _ => ⟨j, hj, fz⟩,
    fun _ => Or.inr (Or.inl hf)⟩, ?_⟩
  by_contra hn
  obtain ⟨-, -, i, hi, h1, -⟩ := (C20_tables pi hpi ty uw E nu p hm hnu top tip hp hb C h bcs).1 hn
  rcases h1 with h1 | h1
  · exact (hy i hi).1 h1
  · exact h1 (hy i hi).2

end solve

section rejected
variable {K : Type} [Field K] [LinearOrder K] [IsStrictOrderedRing K] [FloorRing K]

/-- **C69 is violated by prescribed displacements.** Without loads the check always raises, also for the
displacement-controlled analyses that `solve` carries out (see the example below). -/
theorem C69_violated_displacements (soil : Bool) (nodes : List K) (bcs : List (Cond K))
    (hl : ∀ c ∈ bcs, c.cls ≠ .force) : checkModel soil nodes bcs ≠ .ok () := by
  intro hc
  obtain ⟨-, -, -, -, ⟨a, i, hi, hl'⟩, -⟩ := (C69_accepts_iff _ _ _).1 hc
  apply hl'
  unfold left
  have : lastWrite none (bcs.map (writeTo nodes .force i a)) = none := by
    have : ∀ c ∈ bcs, writeTo nodes .force i a c = none := by
      intro c hc
      rw [Option.eq_none_iff_forall_ne_some]
      intro v hv
      exact hl c hc ((BC.writeTo_eq_some nodes .force i a c v).1 hv).1
    clear hl hc hl'
    induction bcs with
    | nil => rfl
    | cons c l ih =>
      rw [List.map_cons, this c (by simp)]
      exact ih (fun d hd => this d (by simp [hd]))
  rw [this]

/-- **C69 is violated by soil.** With a soil profile the check always raises. -/
theorem C69_violated_soil (nodes : List K) (bcs : List (Cond K)) : checkModel true nodes bcs ≠ .ok () := by
  intro hc
  exact absurd ((C69_accepts_iff _ _ _).1 hc).1 (by simp)

end rejected

/-! ### cases that meet the hypotheses -/

/-- The check is passed and the analysis succeeds. -/
example : checkModel false nodesE.nodes [⟨.force, 0, none, some (.num 100), some (.num (-500))⟩,
      ⟨.fixation, -10, some (.flag true), some (.flag true), some (.flag true)⟩] = .ok () := by decide +kernel

example : checkModel false nodesE.nodes bcsE = .ok () ∧ solveOn (22 / 7) .timoshenko pileE nodesE bcsE ≠ none :=
  have hc : checkModel false nodesE.nodes bcsE = .ok () := by decide +kernel
  ⟨hc, C69_sound_partial (22 / 7) (by norm_num) .timoshenko 78 210000000 (3 / 10) pileE (by decide +kernel)
    (fun _ => by norm_num) 0 (-10) stackE builtE nodesE meshE bcsE hc (by decide +kernel)
    ⟨0, by decide, Or.inr (by unfold Loaded; decide +kernel)⟩ ⟨5, by decide, by unfold Fixed; decide +kernel⟩
    ⟨5, by decide, by unfold Fixed; decide +kernel⟩⟩

/-- A lateral load on a pile with a clamped tip that is free to slide along its axis. -/
def slidingE : List (Cond ℚ) :=
  [⟨.force, 0, none, some (.num 100), none⟩, ⟨.fixation, -10, some (.flag true), some (.flag true), none⟩]

example : checkModel false nodesE.nodes slidingE = .ok () ∧ solveOn (22 / 7) .timoshenko pileE nodesE slidingE = none :=
  C69_violated_no_axial_support (22 / 7) (by norm_num) .timoshenko 78 210000000 (3 / 10) pileE (by decide +kernel)
    (fun _ => by norm_num) 0 (-10) stackE builtE nodesE meshE slidingE (by decide +kernel) (by decide +kernel)
    ⟨0, by decide, by unfold Loaded; decide +kernel⟩ (by unfold Loaded Fixed; decide +kernel)
    ⟨5, by decide, by unfold Fixed; decide +kernel⟩

/-- A lateral load on a pile whose head and tip cannot rotate and whose tip cannot move along the axis. -/
def rotationsE : List (Cond ℚ) :=
  [⟨.force, 0, none, some (.num 100), none⟩, ⟨.fixation, 0, some (.flag true), none, none⟩,
   ⟨.fixation, -10, some (.flag true), none, some (.flag true)⟩]

example : checkModel false nodesE.nodes rotationsE = .ok () ∧
    solveOn (22 / 7) .timoshenko pileE nodesE rotationsE = none :=
  C69_violated_rotations_only (22 / 7) (by norm_num) .timoshenko 78 210000000 (3 / 10) pileE (by decide +kernel)
    (fun _ => by norm_num) 0 (-10) stackE builtE nodesE meshE rotationsE (by decide +kernel) (by decide +kernel)
    ⟨0, by decide, by unfold Loaded; decide +kernel⟩ ⟨5, by decide, by unfold Fixed; decide +kernel⟩
    (by unfold Fixed; decide +kernel)
    ⟨0, by decide, 5, by decide, by decide, by unfold Fixed; decide +kernel⟩

/-- A displacement of the head prescribed for a pile with a clamped tip: rejected by the check, solved by the
analysis. -/
example : checkModel false nodesE.nodes [⟨.displacement, 0, none, some (.num (1 / 10)), none⟩,
      ⟨.fixation, -10, some (.flag true), some (.flag true), some (.flag true)⟩] = .error .noLoad ∧
    solveOn (22 / 7) .timoshenko pileE nodesE [⟨.displacement, 0, none, some (.num (1 / 10)), none⟩,
      ⟨.fixation, -10, some (.flag true), some (.flag true), some (.flag true)⟩] ≠ none := by
  refine ⟨by decide +kernel, (C20_tables (22 / 7) (by norm_num) .timoshenko 78 210000000 (3 / 10) pileE
    (by decide +kernel) (fun _ => by norm_num) 0 (-10) stackE builtE nodesE meshE _).2 ⟨?_, ?_, ?_⟩⟩
  · intro cls
    cases cls <;> rfl
  · exact ⟨5, by decide, Or.inl (by decide +kernel)⟩
  · exact ⟨5, by decide, Or.inl (by decide +kernel), Or.inl ⟨5, by decide, Or.inl (by decide +kernel)⟩⟩

/-- A load of half a kilonewton is stored as zero, so the check finds no load. -/
example : checkModel (K := ℚ) false [0, -10] [⟨.force, 0, none, some (.num (1 / 2)), none⟩,
    ⟨.fixation, -10, some (.flag true), some (.flag true), some (.flag true)⟩] = .error .noLoad := by decide +kernel

/-- Every other exception of the check is raised by some model. -/
example : checkModel (K := ℚ) false [0, -10] [] = .error .noSupport ∧
    checkModel (K := ℚ) false [0, -10] [⟨.force, 0, none, none, some (.num 5)⟩,
      ⟨.fixation, -10, some (.flag true), some (.flag true), none⟩] = .error .noNormalSupport ∧
    checkModel (K := ℚ) false [0, -10] [⟨.force, 0, none, some (.num 5), none⟩,
      ⟨.fixation, -10, none, some (.flag true), some (.flag true)⟩] = .error .noBendingSupport ∧
    checkModel (K := ℚ) true [0, -10] [⟨.force, 0, none, some (.num 5), none⟩] = .error .soilInMesh := by
  decide +kernel

end OpenPile.Props.Check
