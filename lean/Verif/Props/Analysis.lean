/-
Property C55 from the public calls to the result tables: the tables of a beam analysis do not depend on the mesh.
-/
import Verif.Model.Analysis
import Verif.Props.MeshIndep
import Verif.Props.Mesh
import Verif.Props.BC
import Verif.Props.Result

namespace OpenPile.Props.Analysis
open OpenPile.Analysis OpenPile.BC OpenPile.Spec.BC OpenPile.Mesh OpenPile.Spec.Mesh OpenPile.Kernel
  OpenPile.Spec.Kernel OpenPile.Spec.March OpenPile.Winkler OpenPile.Result OpenPile.Props.Refine
  OpenPile.Props.Element OpenPile.Props.Solve OpenPile.Props.Beam OpenPile.Props.Mesh

variable {K : Type} [Field K] [LinearOrder K] [IsStrictOrderedRing K] [FloorRing K]

/-! ### node elevations -/

/-- Depth below the head in terms of elevations. -/
theorem depth_of_elevations {n : ℕ} (z : Fin (n + 1) → K) (hz : StrictAnti z) (j : Fin (n + 1)) :
    nodeDepth (fun i : Fin n => |z i.castSucc - z i.succ|) j = z 0 - z j := by
  induction j using Fin.induction with
  | zero => rw [nodeDepth_zero, sub_self]
  | succ i ih =>
    have : z i.succ < z i.castSucc := hz Fin.castSucc_lt_succ
    rw [nodeDepth_succ, ih, abs_of_pos (by linarith)]
    ring

/-- A mesh whose nodes contain those of another one. -/
theorem refines_of_elevations {n m : ℕ} (z : Fin (n + 1) → K) (z' : Fin (m + 1) → K) (hz : StrictAnti z)
    (hz' : StrictAnti z') (hfirst : z 0 = z' 0) (hlast : z (Fin.last n) = z' (Fin.last m))
    (σ : Fin (n + 1) → Fin (m + 1)) (hσ : ∀ j, z' (σ j) = z j) :
    Refines (fun i : Fin n => |z i.castSucc - z i.succ|) (fun k : Fin m => |z' k.castSucc - z' k.succ|) σ where
  first := hz'.injective (by rw [hσ, hfirst])
  last := hz'.injective (by rw [hσ, hlast])
  mono := by
    intro a b hab
    have := hz hab
    rw [← hσ, ← hσ] at this
    exact hz'.lt_iff_gt.1 this
  depth := by
    intro j
    rw [depth_of_elevations z' hz', depth_of_elevations z hz, hσ, hfirst]

/-! ### sections -/

theorem elemAt_of_filter (pi : K) (p : Pile.Pile K) (e : K × K) (s : Pile.Section K)
    (h : p.sections.filter (fun s => decide (e.1 ≤ s.top ∧ e.2 ≥ s.bottom)) = [s]) :
    elemAt pi p e = some (elemOf pi p.material s |e.1 - e.2|) := by
  unfold elemAt
  rw [parameterOf_of_filter _ _ _ _ e s h, parameterOf_of_filter _ _ _ _ e s h,
    parameterOf_of_filter _ _ _ _ e s h, parameterOf_of_filter _ _ _ _ e s h]
  rfl

/-- What the analysis needs to know about a pile. -/
structure Stack (p : Pile.Pile K) (top tip : K) : Prop where
  chain : p.sections.IsChain (fun u v => v.top = u.bottom)
  built : ∀ s ∈ p.sections, s.bottom < s.top
  first : p.topElevation = some top
  last : p.bottomElevation = some tip

/-- Each element lies in exactly one section. -/
theorem one_section {p : Pile.Pile K} {top tip : K} (hp : Stack p top tip) {n : ℕ} (z : Fin (n + 1) → K)
    (hz : StrictAnti z) (h0 : z 0 = top) (hn : z (Fin.last n) = tip)
    (hs : ∀ s ∈ p.sections, s.top ∈ Set.range z ∧ s.bottom ∈ Set.range z) (i : Fin n) :
    ∃ s, p.sections.filter (fun s => decide (z i.castSucc ≤ s.top ∧ z i.succ ≥ s.bottom)) = [s] := by
  refine stack_unique (·.top) (·.bottom) p.sections hp.built hp.chain (z i.castSucc, z i.succ)
    (hz Fin.castSucc_lt_succ) ?_ ?_ ?_ ?_
  · intro s hss t ht
    have : t ∈ Set.range z := by
      rcases ht with rfl | rfl
      · exact (hs s hss).1
      · exact (hs s hss).2
    obtain ⟨k, rfl⟩ := this
    rcases Nat.lt_or_ge i.1 k.1 with h | h
    · left
      exact hz.antitone (by rw [Fin.le_def]; simp; omega)
    · right
      exact hz.antitone (by rw [Fin.le_def]; simpa using h)
  · intro f hf
    have h := hp.first
    unfold Pile.Pile.topElevation at h
    rw [hf] at h
    have h : f.top = top := by simpa using h
    show z i.castSucc ≤ f.top
    rw [h, ← h0]
    exact hz.antitone (Fin.zero_le _)
  · intro f hf
    have h := hp.last
    unfold Pile.Pile.bottomElevation at h
    rw [hf] at h
    have h : f.bottom = tip := by simpa using h
    show f.bottom ≤ z i.succ
    rw [h, ← hn]
    exact hz.antitone (Fin.le_last _)
  · intro h
    have h' := hp.first
    unfold Pile.Pile.topElevation at h'
    rw [h] at h'
    cases h'

/-- The elements of a mesh on a pile. -/
def ElementsOn (pi : K) (p : Pile.Pile K) {n : ℕ} (z : Fin (n + 1) → K) (el : Fin n → Elem K) : Prop :=
  ∀ i, ∃ s, p.sections.filter (fun s => decide (z i.castSucc ≤ s.top ∧ z i.succ ≥ s.bottom)) = [s] ∧
    el i = elemOf pi p.material s |z i.castSucc - z i.succ|

theorem length_of_elementsOn {pi : K} {p : Pile.Pile K} {n : ℕ} {z : Fin (n + 1) → K} {el : Fin n → Elem K}
    (h : ElementsOn pi p z el) (i : Fin n) : (el i).L = |z i.castSucc - z i.succ| := by
  obtain ⟨s, -, e⟩ := h i
  rw [e]
  rfl

/-- A refined mesh on the same pile is a refined mesh of the same beam. -/
theorem sameBeam_of_elements {pi : K} {p : Pile.Pile K} {n m : ℕ} {z : Fin (n + 1) → K} {z' : Fin (m + 1) → K}
    (hz : StrictAnti z) (hz' : StrictAnti z') (hfirst : z 0 = z' 0) (hlast : z (Fin.last n) = z' (Fin.last m))
    (σ : Fin (n + 1) → Fin (m + 1)) (hσ : ∀ j, z' (σ j) = z j) {el : Fin n → Elem K} {el' : Fin m → Elem K}
    (he : ElementsOn pi p z el) (he' : ElementsOn pi p z' el') : SameBeam el el' σ where
  refines := by
    have h := refines_of_elevations z z' hz hz' hfirst hlast σ hσ
    have e1 : (fun i => (el i).L) = fun i : Fin n => |z i.castSucc - z i.succ| := by
      funext i; exact length_of_elementsOn he i
    have e2 : (fun i => (el' i).L) = fun i : Fin m => |z' i.castSucc - z' i.succ| := by
      funext i; exact length_of_elementsOn he' i
    rw [e1, e2]
    exact h
  same := by
    intro i k hin
    obtain ⟨s, hs, e⟩ := he i
    obtain ⟨s', hs', e'⟩ := he' k
    have hmem : s ∈ p.sections.filter (fun s => decide (z i.castSucc ≤ s.top ∧ z i.succ ≥ s.bottom)) := by
      rw [hs]; simp
    have h1 : z' k.castSucc ≤ z i.castSucc := by
      rw [← hσ]
      exact hz'.antitone (by rw [Fin.le_def]; exact hin.1)
    have h2 : z i.succ ≤ z' k.succ := by
      rw [← hσ]
      exact hz'.antitone (by rw [Fin.le_def]; exact hin.2)
    rw [List.mem_filter, decide_eq_true_eq] at hmem
    have hmem' : s ∈ p.sections.filter
        (fun s => decide (z' k.castSucc ≤ s.top ∧ z' k.succ ≥ s.bottom)) := by
      rw [List.mem_filter, decide_eq_true_eq]
      exact ⟨hmem.1, h1.trans hmem.2.1, hmem.2.2.trans h2⟩
    rw [hs'] at hmem'
    have : s = s' := by simpa using hmem'
    subst this
    rw [e, e']
    rfl

/-! ### boundary conditions -/

/-- The value that a list of conditions leaves at node `i`. -/
def left {β : Type} (store : Val K → β) (init : β) (nodes : List K) (bcs : List (Cond K)) (cls : Cls) (a : Axis)
    (i : ℕ) : β :=
  match lastWrite none (bcs.map (writeTo nodes cls i a)) with
  | some v => store v
  | none => init

/-- Axis of degree of freedom `d`. -/
def axisOf (d : Fin 3) : Axis := ![Axis.z, Axis.y, Axis.x] d

theorem applyBc_left {β : Type} (store : Val K → β) (init : β) (nodes : List K) (bcs : List (Cond K)) (cls : Cls)
    (a : Axis) (i : ℕ) (hi : i < nodes.length) :
    ((applyBc store nodes ⟨nodes.map (fun _ => init), nodes.map (fun _ => init), nodes.map (fun _ => init)⟩
      bcs cls).get a)[i]? = some (left store init nodes bcs cls a i) := by
  have hg : ((⟨nodes.map (fun _ => init), nodes.map (fun _ => init), nodes.map (fun _ => init)⟩ :
      Nodal β).get a) = nodes.map (fun _ => init) := by cases a <;> rfl
  rw [applyBc_entry _ _ _ _ _ _ _ (by rw [hg]; simpa using hi), hg]
  unfold left
  generalize lastWrite none (bcs.map (writeTo nodes cls i a)) = w
  cases w with
  | some v => rfl
  | none => simp [hi]

theorem dofList_get {β : Type} (g : Nodal β) (n : ℕ) (hz : g.z.length = n) (hy : g.y.length = n)
    (hx : g.x.length = n) :
    (dofList g).length = 3 * n ∧ ∀ j, j < n → ∀ d : Fin 3, (dofList g)[3 * j + d.1]? = (g.get (axisOf d))[j]? := by
  have hflat : dofList g = ((g.z.zip (g.y.zip g.x)).map (fun r => [r.1, r.2.1, r.2.2])).flatten := by
    rw [dofList, List.flatMap]
  have h3 : ∀ r ∈ (g.z.zip (g.y.zip g.x)).map (fun r => [r.1, r.2.1, r.2.2]), r.length = 3 := by
    intro r hr
    obtain ⟨x, -, rfl⟩ := List.mem_map.1 hr
    rfl
  refine ⟨?_, ?_⟩
  · rw [hflat, Result.flatten_length 3 _ h3]
    simp [hz, hy, hx]
  · intro j hj d
    rw [hflat, Result.flatten_get 3 _ h3 j d.1 d.2, List.getElem?_map,
      List.getElem?_eq_getElem (by simp; omega)]
    simp only [Option.map_some, Option.bind_some, List.getElem_zip]
    fin_cases d <;> simp [axisOf, Nodal.get, hz, hy, hx, hj]

/-- The vector that enters the analysis. -/
theorem asVec_left {β γ : Type} (store : Val K → β) (init : β) (f : β → γ) (nodes : List K) (bcs : List (Cond K))
    (cls : Cls) (n : ℕ) (hn : nodes.length = n + 1) :
    ∃ v, asVec n ((dofList (applyBc store nodes
        ⟨nodes.map (fun _ => init), nodes.map (fun _ => init), nodes.map (fun _ => init)⟩ bcs cls)).map f)
      = some v ∧ ∀ (j : Fin (n + 1)) (d : Fin 3), v (dof j d) = f (left store init nodes bcs cls (axisOf d) j.1) := by
  set g := applyBc store nodes
    ⟨nodes.map (fun _ => init), nodes.map (fun _ => init), nodes.map (fun _ => init)⟩ bcs cls with hg
  have hlen : ∀ a, (g.get a).length = n + 1 := by
    intro a
    rw [hg, applyBc_length]
    cases a <;> simp [Nodal.get, hn]
  obtain ⟨h1, h2⟩ := dofList_get g (n + 1) (hlen .z) (hlen .y) (hlen .x)
  have hl : ((dofList g).map f).length = 3 * n + 3 := by rw [List.length_map, h1]; ring
  refine ⟨fun r => ((dofList g).map f)[r.1]'(by omega), by unfold asVec; rw [dif_pos hl], ?_⟩
  intro j d
  have h3 := h2 j.1 j.2 d
  have h4 := applyBc_left store init nodes bcs cls (axisOf d) j.1 (by rw [hn]; exact j.2)
  rw [← hg] at h4
  rw [h4, List.getElem?_eq_some_iff] at h3
  obtain ⟨h5, h6⟩ := h3
  have h7 : ∀ hh, ((dofList g).map f)[3 * j.1 + d.1]'hh = f (left store init nodes bcs cls (axisOf d) j.1) := by
    intro hh
    rw [List.getElem_map, h6]
  exact h7 _

/-- Two meshes whose nodes near the conditions are common to both. -/
theorem left_common {β : Type} (store : Val K → β) (init : β) (bcs : List (Cond K)) (cls : Cls) (a : Axis) {n₁ n₂ : ℕ}
    (z₁ : Fin (n₁ + 1) → K) (z₂ : Fin (n₂ + 1) → K) (hz₁ : StrictAnti z₁) (hz₂ : StrictAnti z₂)
    (h12 : ∀ c ∈ bcs, ∀ k, Near (z₁ k) c.elevation → z₁ k ∈ Set.range z₂)
    (h21 : ∀ c ∈ bcs, ∀ k, Near (z₂ k) c.elevation → z₂ k ∈ Set.range z₁) (k₁ : Fin (n₁ + 1))
    (k₂ : Fin (n₂ + 1)) (hk : z₁ k₁ = z₂ k₂) :
    left store init (List.ofFn z₁) bcs cls a k₁.1 = left store init (List.ofFn z₂) bcs cls a k₂.1 := by
  have half : ∀ {m₁ m₂ : ℕ} (y₁ : Fin (m₁ + 1) → K) (y₂ : Fin (m₂ + 1) → K), StrictAnti y₁ → StrictAnti y₂ →
      (∀ c ∈ bcs, ∀ k, Near (y₂ k) c.elevation → y₂ k ∈ Set.range y₁) → ∀ i₁ i₂, y₁ i₁ = y₂ i₂ →
      ∀ c ∈ bcs, ActsAt (List.ofFn y₁) c.elevation i₁.1 → ActsAt (List.ofFn y₂) c.elevation i₂.1 := by
    intro m₁ m₂ y₁ y₂ hy₁ hy₂ hh i₁ i₂ hi c hc hact
    obtain ⟨⟨x, hx, hnear⟩, hno⟩ := hact
    have hxe : x = y₁ i₁ := by
      rw [List.getElem?_ofFn, dif_pos i₁.2, Option.some.injEq] at hx
      exact hx.symm
    refine ⟨⟨y₂ i₂, by rw [List.getElem?_ofFn, dif_pos i₂.2], by rw [← hi, ← hxe]; exact hnear⟩, ?_⟩
    intro j hj y hy hyn
    have hjm : j < m₂ + 1 := by have := i₂.2; omega
    have hye : y = y₂ ⟨j, hjm⟩ := by
      rw [List.getElem?_ofFn, dif_pos hjm, Option.some.injEq] at hy
      exact hy.symm
    rw [hye] at hyn
    obtain ⟨i, hi'⟩ := hh c hc ⟨j, hjm⟩ hyn
    have hlt : i < i₁ := by
      have h1 : y₂ i₂ < y₂ ⟨j, hjm⟩ := hy₂ hj
      rw [← hi, ← hi'] at h1
      exact hy₁.lt_iff_gt.1 h1
    exact hno i.1 hlt (y₁ i) (by rw [List.getElem?_ofFn, dif_pos i.2]) (by rw [hi']; exact hyn)
  have key : bcs.map (writeTo (List.ofFn z₁) cls k₁.1 a) = bcs.map (writeTo (List.ofFn z₂) cls k₂.1 a) := by
    apply List.map_congr_left
    intro c hc
    have : nodeIdx (List.ofFn z₁) c.elevation = some k₁.1 ↔ nodeIdx (List.ofFn z₂) c.elevation = some k₂.1 := by
      rw [(Props.BC.C14_node_choice _ _).1, (Props.BC.C14_node_choice _ _).1]
      exact ⟨half z₁ z₂ hz₁ hz₂ h21 k₁ k₂ hk c hc, half z₂ z₁ hz₂ hz₁ h12 k₂ k₁ hk.symm c hc⟩
    unfold writeTo
    simp only [this]
  unfold left
  rw [key]

/-- Nodes that are not common carry nothing. -/
theorem left_other {β : Type} (store : Val K → β) (init : β) (bcs : List (Cond K)) (cls : Cls) (a : Axis) {n₁ n₂ : ℕ}
    (z₁ : Fin (n₁ + 1) → K) (z₂ : Fin (n₂ + 1) → K)
    (h12 : ∀ c ∈ bcs, ∀ k, Near (z₁ k) c.elevation → z₁ k ∈ Set.range z₂) (k : Fin (n₁ + 1))
    (hk : z₁ k ∉ Set.range z₂) : left store init (List.ofFn z₁) bcs cls a k.1 = init := by
  have hnone : ∀ l : List (Cond K), (∀ c ∈ l, c ∈ bcs) →
      lastWrite none (l.map (writeTo (List.ofFn z₁) cls k.1 a)) = none := by
    intro l hl
    induction l with
    | nil => rfl
    | cons c l ih =>
      have : writeTo (List.ofFn z₁) cls k.1 a c = none := by
        cases hw : writeTo (List.ofFn z₁) cls k.1 a c with
        | none => rfl
        | some v =>
          obtain ⟨-, ⟨⟨x, hx, hn⟩, -⟩, -, -⟩ := (Props.BC.writeTo_eq_some _ _ _ _ _ _).1 hw
          rw [List.getElem?_ofFn, dif_pos k.2, Option.some.injEq] at hx
          rw [← hx] at hn
          exact absurd (h12 c (hl c (by simp)) k hn) hk
      rw [List.map_cons, this]
      exact ih (fun c hc => hl c (List.mem_cons_of_mem _ hc))
  unfold left
  rw [hnone bcs (fun _ h => h)]

/-! ### tables -/

/-- What the tables contain. -/
theorem tables_spec (ty : ElementType) {n : ℕ} (hn : 1 ≤ n) (z : Fin (n + 1) → K) (hz : StrictAnti z)
    (el : Fin n → Elem K) (u Q : Fin (3 * n + 3) → K) :
    ∃ T, tables ty (List.ofFn z) el u Q = some T ∧
      (∀ row, row ∈ T.disp ↔ ∃ j, row = (z j, u (dof j 0), u (dof j 1), u (dof j 2))) ∧
      (∀ row, row ∈ T.forces ↔ ∃ i : Fin n,
        row = (z i.castSucc, (sectionForces (el i).L (internalForces ty el u i)).1) ∨
        row = (z i.succ, (sectionForces (el i).L (internalForces ty el u i)).2)) ∧
      (∀ e v, (e, v) ∈ T.reactions ↔ ∃ j, e = z j ∧ (∃ d, 1 / 1000 < |Q (dof j d)|) ∧
        v = [maskSmall (Q (dof j 0)), maskSmall (Q (dof j 1)), maskSmall (Q (dof j 2))]) ∧
      T.reactions.Pairwise (fun a b => b.1 < a.1) := by
  obtain ⟨d, d1, d2, d3⟩ := Result.C43_displacements (List.ofFn z) (List.ofFn u) (n + 1) (by simp)
    (by simp; ring)
  obtain ⟨f, f1, f2, f3⟩ := Result.C43_forces (List.ofFn z)
    (List.ofFn (fun i => List.ofFn (internalForces ty el u i))) (List.ofFn (fun i => (el i).L)) n hn (by simp)
    (by simp) (by simp) (by
      intro r hr
      obtain ⟨i, rfl⟩ := List.mem_ofFn.1 hr
      simp)
  obtain ⟨r, r1, r2⟩ := Result.C43_reactions (List.ofFn z) (List.ofFn Q) (n + 1) (by simp) (by simp; ring)
  refine ⟨⟨d, f, r⟩, by unfold tables; rw [d1, f1, r1]; rfl, ?_, ?_, ?_, ?_⟩
  · intro row
    show row ∈ d ↔ _
    rw [List.mem_iff_getElem?]
    constructor
    · rintro ⟨j, hj⟩
      have hjn : j < n + 1 := by
        rw [← d2]
        exact (List.getElem?_eq_some_iff.1 hj).1
      rw [d3 j hjn, Option.some.injEq] at hj
      refine ⟨⟨j, hjn⟩, ?_⟩
      rw [← hj]
      simp only [List.getElem_ofFn]
      rfl
    · rintro ⟨j, rfl⟩
      refine ⟨j.1, ?_⟩
      rw [d3 j.1 j.2]
      simp only [List.getElem_ofFn]
      rfl
  · have hq : ∀ e (he : e < n), (List.ofFn (fun i => List.ofFn (internalForces ty el u i)))[e]'(by simpa using he)
        = [internalForces ty el u ⟨e, he⟩ 0, internalForces ty el u ⟨e, he⟩ 1, internalForces ty el u ⟨e, he⟩ 2,
          internalForces ty el u ⟨e, he⟩ 3, internalForces ty el u ⟨e, he⟩ 4, internalForces ty el u ⟨e, he⟩ 5] := by
      intro e he
      rw [List.getElem_ofFn]
      rfl
    have hrow : ∀ e (he : e < n),
        f[2 * e]? = some (z (⟨e, he⟩ : Fin n).castSucc,
          (sectionForces (el ⟨e, he⟩).L (internalForces ty el u ⟨e, he⟩)).1) ∧
        f[2 * e + 1]? = some (z (⟨e, he⟩ : Fin n).succ,
          (sectionForces (el ⟨e, he⟩).L (internalForces ty el u ⟨e, he⟩)).2) := by
      intro e he
      obtain ⟨h1, h2⟩ := f3 e he _ _ _ _ _ _ (hq e he)
      rw [h1, h2]
      simp only [List.getElem_ofFn]
      exact ⟨rfl, rfl⟩
    intro row
    show row ∈ f ↔ _
    rw [List.mem_iff_getElem?]
    constructor
    · rintro ⟨k, hk⟩
      have hkn : k < 2 * n := by
        rw [← f2]
        exact (List.getElem?_eq_some_iff.1 hk).1
      rcases Nat.even_or_odd' k with ⟨e, rfl | rfl⟩
      · refine ⟨⟨e, by omega⟩, Or.inl ?_⟩
        rw [(hrow e (by omega)).1, Option.some.injEq] at hk
        exact hk.symm
      · refine ⟨⟨e, by omega⟩, Or.inr ?_⟩
        rw [(hrow e (by omega)).2, Option.some.injEq] at hk
        exact hk.symm
    · rintro ⟨i, rfl | rfl⟩
      · exact ⟨_, (hrow i.1 i.2).1⟩
      · exact ⟨_, (hrow i.1 i.2).2⟩
  · intro e v
    show (e, v) ∈ r ↔ _
    rw [r2]
    constructor
    · rintro ⟨j, hj, h1, ⟨a, ha, h2⟩, h3, h4⟩
      simp only [List.getElem_ofFn] at h1 h2
      refine ⟨⟨j, hj⟩, h1, ⟨⟨a, ha⟩, h2⟩, ?_⟩
      rcases v with _ | ⟨v0, _ | ⟨v1, _ | ⟨v2, _ | ⟨v3, v⟩⟩⟩⟩
      · simp at h3
      · simp at h3
      · simp at h3
      · have g0 := h4 0 (by omega)
        have g1 := h4 1 (by omega)
        have g2 := h4 2 (by omega)
        simp only [List.getElem?_cons_zero, List.getElem?_cons_succ, Option.some.injEq, List.getElem_ofFn]
          at g0 g1 g2
        rw [g0, g1, g2]
        rfl
      · simp at h3
    · rintro ⟨j, h1, ⟨d, h2⟩, rfl⟩
      refine ⟨j.1, j.2, by simp only [List.getElem_ofFn]; exact h1, ⟨d.1, d.2, by
        simp only [List.getElem_ofFn]; exact h2⟩, rfl, ?_⟩
      intro a ha
      simp only [List.getElem_ofFn]
      rcases a with _ | _ | _ | a
      · rfl
      · rfl
      · rfl
      · omega
  · show r.Pairwise _
    unfold reactionRows at r1
    simp only [Option.bind_eq_bind, Option.bind_eq_some_iff] at r1
    obtain ⟨rows, -, h⟩ := r1
    split_ifs at h
    simp only [Option.pure_def, Option.some.injEq] at h
    rw [← h]
    apply List.Pairwise.sublist List.filter_sublist
    have hp : (List.ofFn z).Pairwise (fun a b => b < a) := by
      rw [List.pairwise_ofFn]
      intro i j hij
      exact hz hij
    have gen : ∀ (l : List K) (l' : List (List K)), l.Pairwise (fun a b => b < a) →
        (l.zip l').Pairwise (fun a b => b.1 < a.1) := by
      intro l
      induction l with
      | nil => intro l' _; simp
      | cons a l ih =>
        intro l' hl
        cases l' with
        | nil => simp
        | cons b l' =>
          rw [List.zip_cons_cons, List.pairwise_cons]
          rw [List.pairwise_cons] at hl
          refine ⟨?_, ih l' hl.2⟩
          rintro ⟨x, y⟩ hxy
          exact hl.1 x (List.of_mem_zip hxy).1
    exact gen _ _ hp

/-! ### a mesh on a pile -/

/-- Published coordinates that fit a pile: decreasing nodes from the head to the tip, with a node at each end of
each section. -/
structure MeshOn (p : Pile.Pile K) (top tip : K) (C : Coordinates K) : Prop where
  elements : C.elements = C.nodes.zip C.nodes.tail
  dec : C.nodes.Pairwise (· > ·)
  first : C.nodes.head? = some top
  last : C.nodes.getLast? = some tip
  sections : ∀ s ∈ p.sections, s.top ∈ C.nodes ∧ s.bottom ∈ C.nodes

/-- A decreasing list as a function. -/
theorem fn_of_list (l : List K) (n : ℕ) (hl : l.length = n + 1) (hd : l.Pairwise (· > ·)) :
    ∃ z : Fin (n + 1) → K, l = List.ofFn z ∧ StrictAnti z ∧ (∀ x, x ∈ l ↔ x ∈ Set.range z) := by
  have he : l = List.ofFn (fun j : Fin (n + 1) => l[j.1]'(by omega)) := by
    apply List.ext_getElem?
    intro i
    rw [List.getElem?_ofFn]
    by_cases hi : i < n + 1
    · rw [dif_pos hi, List.getElem?_eq_getElem (by omega)]
    · rw [dif_neg hi, List.getElem?_eq_none (by omega)]
  refine ⟨fun j : Fin (n + 1) => l[j.1]'(by omega), he, ?_, ?_⟩
  · intro i j hij
    exact List.pairwise_iff_getElem.1 hd i.1 j.1 (by omega) (by omega) hij
  · intro x
    conv_lhs => rw [he, List.mem_ofFn']

theorem mesh_fn {p : Pile.Pile K} {top tip : K} {C : Coordinates K} (h : MeshOn p top tip C) :
    ∃ z : Fin (C.elements.length + 1) → K, C.nodes = List.ofFn z ∧ StrictAnti z ∧
      (∀ x, x ∈ C.nodes ↔ x ∈ Set.range z) ∧ z 0 = top ∧ z (Fin.last _) = tip ∧
      ∀ i : Fin C.elements.length, C.elements[i.1] = (z i.castSucc, z i.succ) := by
  have hne : C.nodes ≠ [] := by
    intro h0
    have := h.first
    rw [h0] at this
    cases this
  have hlen : C.nodes.length = C.elements.length + 1 := by
    have : 0 < C.nodes.length := List.length_pos_iff.2 hne
    rw [h.elements]
    simp
    omega
  obtain ⟨z, h1, h2, h3⟩ := fn_of_list C.nodes _ hlen h.dec
  refine ⟨z, h1, h2, h3, ?_, ?_, ?_⟩
  · have := h.first
    rw [h1, List.head?_eq_getElem?, List.getElem?_ofFn, dif_pos (by omega), Option.some.injEq] at this
    exact this
  · have := h.last
    rw [List.getLast?_eq_getElem?, h1, List.getElem?_ofFn, dif_pos (by simp), Option.some.injEq] at this
    rw [← this]
    congr 1
    exact Fin.ext (by simp)
  · intro i
    have hi : C.elements[i.1]? = some (z i.castSucc, z i.succ) := by
      have he : ∀ k : ℕ, C.elements[k]? = (C.nodes.zip C.nodes.tail)[k]? := fun k => by rw [← h.elements]
      rw [he, List.getElem?_zip_eq_some, List.getElem?_tail, h1, List.getElem?_ofFn, List.getElem?_ofFn,
        dif_pos (by omega), dif_pos (by omega)]
      exact ⟨rfl, rfl⟩
    rw [List.getElem?_eq_getElem i.2, Option.some.injEq] at hi
    exact hi

theorem allSome_eq {n : ℕ} {α : Type} (f : Fin n → Option α) (g : Fin n → α) (h : ∀ i, f i = some (g i)) :
    allSome f = some g := by
  unfold allSome
  have hs : ∀ i, (f i).isSome := by
    intro i
    rw [h i]
    rfl
  rw [dif_pos hs, Option.some.injEq]
  funext i
  simp [h i]

/-- What an analysis reads, in terms of elevations, elements and the values the conditions leave at the nodes. -/
theorem read_eq (pi : K) {p : Pile.Pile K} {top tip : K} (hp : Stack p top tip)
    {C : Coordinates K} (h : MeshOn p top tip C) (bcs : List (Cond K))
    (hv : ∀ cls, validateBc bcs cls = .ok ()) :
    ∃ (z : Fin (C.elements.length + 1) → K) (el : Fin C.elements.length → Elem K)
      (F U : Fin (3 * C.elements.length + 3) → K) (R : Fin (3 * C.elements.length + 3) → Bool),
      1 ≤ C.elements.length ∧ StrictAnti z ∧ (∀ x, x ∈ C.nodes ↔ x ∈ Set.range z) ∧ z 0 = top ∧
      z (Fin.last _) = tip ∧ ElementsOn pi p z el ∧
      (∀ j d, F (dof j d) = (left storeInt 0 (List.ofFn z) bcs .force (axisOf d) j.1 : ℤ)) ∧
      (∀ j d, U (dof j d) = left storeFloat 0 (List.ofFn z) bcs .displacement (axisOf d) j.1) ∧
      (∀ j d, R (dof j d) = left storeBool false (List.ofFn z) bcs .fixation (axisOf d) j.1) ∧
      C.nodes = List.ofFn z ∧
      (∃ g, globalForces C.nodes bcs = .ok g ∧
        asVec C.elements.length ((dofList g).map (fun i : ℤ => (i : K))) = some F) ∧
      (∃ g, globalDisp C.nodes bcs = .ok g ∧ asVec C.elements.length (dofList g) = some U) ∧
      (∃ g, globalRestrained C.nodes bcs = .ok g ∧ asVec C.elements.length (dofList g) = some R) ∧
      allSome (fun i : Fin C.elements.length => elemAt pi p C.elements[i.1]) = some el := by
  obtain ⟨z, h1, h2, h3, h4, h5, h6⟩ := mesh_fn h
  have hlen : C.nodes.length = C.elements.length + 1 := by rw [h1]; simp
  obtain ⟨F, F1, F2⟩ := asVec_left storeInt 0 (fun i : ℤ => (i : K)) C.nodes bcs .force _ hlen
  obtain ⟨U, U1, U2⟩ := asVec_left storeFloat 0 id C.nodes bcs .displacement _ hlen
  obtain ⟨R, R1, R2⟩ := asVec_left storeBool false id C.nodes bcs .fixation _ hlen
  rw [List.map_id] at U1 R1
  have hsec : ∀ s ∈ p.sections, s.top ∈ Set.range z ∧ s.bottom ∈ Set.range z := by
    intro s hs
    exact ⟨(h3 _).1 (h.sections s hs).1, (h3 _).1 (h.sections s hs).2⟩
  choose s hs using one_section hp z h2 h4 h5 hsec
  refine ⟨z, fun i => elemOf pi p.material (s i) |z i.castSucc - z i.succ|, F, U, R, ?_, h2, h3, h4, h5, ?_, ?_, ?_,
    ?_, h1, ?_, ?_, ?_, ?_⟩
  · by_contra h0
    have h0 : C.elements.length = 0 := by omega
    rcases hps : p.sections with _ | ⟨s0, rest⟩
    · have := hp.first
      unfold Pile.Pile.topElevation at this
      rw [hps] at this
      cases this
    · have hs0 : s0 ∈ p.sections := by rw [hps]; simp
      obtain ⟨⟨a, ha⟩, ⟨b, hb⟩⟩ := hsec s0 hs0
      have hab : a = b := Fin.ext (by have := a.2; have := b.2; omega)
      have := hp.built s0 hs0
      rw [← ha, ← hb, hab] at this
      exact lt_irrefl _ this
  · intro i
    exact ⟨s i, hs i, rfl⟩
  · intro j d
    rw [F2, h1]
  · intro j d
    rw [U2, h1]
    rfl
  · intro j d
    rw [R2, h1]
    rfl
  · refine ⟨_, ?_, F1⟩
    unfold globalForces
    rw [hv]
    rfl
  · refine ⟨_, ?_, U1⟩
    unfold globalDisp
    rw [hv]
    rfl
  · refine ⟨_, ?_, R1⟩
    unfold globalRestrained
    rw [hv]
    rfl
  · have hel : allSome (fun i : Fin C.elements.length => elemAt pi p C.elements[i.1])
        = some (fun i => elemOf pi p.material (s i) |z i.castSucc - z i.succ|) := by
      apply allSome_eq
      intro i
      rw [h6 i]
      exact elemAt_of_filter pi p (z i.castSucc, z i.succ) (s i) (hs i)
    exact hel

/-- The analysis in terms of elevations, elements and the values the conditions leave at the nodes. -/
theorem solveOn_eq (pi : K) (ty : ElementType) {p : Pile.Pile K} {top tip : K} (hp : Stack p top tip)
    {C : Coordinates K} (h : MeshOn p top tip C) (bcs : List (Cond K))
    (hv : ∀ cls, validateBc bcs cls = .ok ()) :
    ∃ (z : Fin (C.elements.length + 1) → K) (el : Fin C.elements.length → Elem K)
      (F U : Fin (3 * C.elements.length + 3) → K) (R : Fin (3 * C.elements.length + 3) → Bool),
      1 ≤ C.elements.length ∧ StrictAnti z ∧ (∀ x, x ∈ C.nodes ↔ x ∈ Set.range z) ∧ z 0 = top ∧
      z (Fin.last _) = tip ∧ ElementsOn pi p z el ∧
      (∀ j d, F (dof j d) = (left storeInt 0 (List.ofFn z) bcs .force (axisOf d) j.1 : ℤ)) ∧
      (∀ j d, U (dof j d) = left storeFloat 0 (List.ofFn z) bcs .displacement (axisOf d) j.1) ∧
      (∀ j d, R (dof j d) = left storeBool false (List.ofFn z) bcs .fixation (axisOf d) j.1) ∧
      solveOn pi ty p C bcs = (beam ty el F U R).bind (fun r => tables ty (List.ofFn z) el r.1 r.2.1) := by
  obtain ⟨z, el, F, U, R, a1, a2, a3, a4, a5, a6, a7, a8, a9, h1, ⟨gF, F0, F1⟩, ⟨gU, U0, U1⟩, ⟨gR, R0, R1⟩, hel⟩ :=
    read_eq pi hp h bcs hv
  refine ⟨z, el, F, U, R, a1, a2, a3, a4, a5, a6, a7, a8, a9, ?_⟩
  unfold solveOn
  rw [F0, U0, R0]
  simp only [bind, Except.toOption, Option.bind_some]
  rw [F1, U1, R1]
  simp only [Option.bind_some]
  rw [hel]
  simp only [Option.bind_some]
  rw [← h1]

theorem solveOn_raises (pi : K) (ty : ElementType) (p : Pile.Pile K) (C : Coordinates K) (bcs : List (Cond K))
    (hv : ¬ ∀ cls, validateBc bcs cls = .ok ()) : solveOn pi ty p C bcs = none := by
  unfold solveOn globalForces globalDisp globalRestrained
  by_contra hne
  apply hv
  have key : ∀ cls, (∃ f, validateBc bcs cls = .error f) ∨ validateBc bcs cls = .ok () := by
    intro cls
    cases h : validateBc bcs cls with
    | error f => exact Or.inl ⟨f, rfl⟩
    | ok u => exact Or.inr rfl
  rcases key .force with ⟨f, hf⟩ | hf
  · rw [hf] at hne
    exact absurd rfl hne
  rcases key .displacement with ⟨f, hd⟩ | hd
  · rw [hf, hd] at hne
    exact absurd rfl hne
  rcases key .fixation with ⟨f, hx⟩ | hx
  · rw [hf, hd, hx] at hne
    exact absurd rfl hne
  intro cls
  cases cls
  · exact hx
  · exact hd
  · exact hf

theorem regular_of_elements {pi : K} {ty : ElementType} {p : Pile.Pile K}
    (hreg : ∀ s ∈ p.sections, ∀ L : K, 0 < L → Regular ty (elemOf pi p.material s L)) {n : ℕ}
    {z : Fin (n + 1) → K} (hz : StrictAnti z) {el : Fin n → Elem K} (he : ElementsOn pi p z el) (i : Fin n) :
    Regular ty (el i) := by
  obtain ⟨s, hs, e⟩ := he i
  have hmem : s ∈ p.sections.filter (fun s => decide (z i.castSucc ≤ s.top ∧ z i.succ ≥ s.bottom)) := by
    rw [hs]; simp
  rw [e]
  exact hreg s (List.mem_filter.1 hmem).1 _ (abs_pos.2 (sub_ne_zero.2 (hz Fin.castSucc_lt_succ).ne'))

/-- **C55, tables.** Two meshes on the same pile, such that every node near the level of a boundary condition
belongs to both: either both analyses fail, or both give the same table of reactions, and the displacements and
section forces listed for any common node agree. -/
theorem C55_tables (pi : K) (ty : ElementType) (p : Pile.Pile K) (top tip : K) (hp : Stack p top tip)
    (hreg : ∀ s ∈ p.sections, ∀ L : K, 0 < L → Regular ty (elemOf pi p.material s L)) (C₁ C₂ : Coordinates K)
    (h₁ : MeshOn p top tip C₁) (h₂ : MeshOn p top tip C₂) (bcs : List (Cond K))
    (h12 : ∀ c ∈ bcs, ∀ x ∈ C₁.nodes, Near x c.elevation → x ∈ C₂.nodes)
    (h21 : ∀ c ∈ bcs, ∀ x ∈ C₂.nodes, Near x c.elevation → x ∈ C₁.nodes) :
    (solveOn pi ty p C₁ bcs = none ∧ solveOn pi ty p C₂ bcs = none) ∨
    ∃ T₁ T₂, solveOn pi ty p C₁ bcs = some T₁ ∧ solveOn pi ty p C₂ bcs = some T₂ ∧
      T₁.reactions = T₂.reactions ∧
      ∀ x, x ∈ C₁.nodes → x ∈ C₂.nodes → ∀ r, ((x, r) ∈ T₁.disp ↔ (x, r) ∈ T₂.disp) ∧
        ((x, r) ∈ T₁.forces ↔ (x, r) ∈ T₂.forces) := by
  by_cases hv : ∀ cls, validateBc bcs cls = .ok ()
  swap
  · exact Or.inl ⟨solveOn_raises pi ty p C₁ bcs hv, solveOn_raises pi ty p C₂ bcs hv⟩
  obtain ⟨z₁, el₁, F₁, U₁, R₁, n₁, s₁, m₁, a₁, b₁, e₁, f₁, u₁, r₁, hs₁⟩ := solveOn_eq pi ty hp h₁ bcs hv
  obtain ⟨z₂, el₂, F₂, U₂, R₂, n₂, s₂, m₂, a₂, b₂, e₂, f₂, u₂, r₂, hs₂⟩ := solveOn_eq pi ty hp h₂ bcs hv
  -- the mesh of the common nodes
  obtain ⟨n, z, hz, hmem⟩ : ∃ (n : ℕ) (z : Fin (n + 1) → K), StrictAnti z ∧
      ∀ x, x ∈ Set.range z ↔ x ∈ Set.range z₁ ∧ x ∈ Set.range z₂ := by
    have hpos : 0 < (C₁.nodes.filter (fun x => decide (x ∈ C₂.nodes))).length := by
      apply List.length_pos_of_mem (a := top)
      rw [List.mem_filter, decide_eq_true_eq, m₁, m₂]
      exact ⟨⟨0, a₁⟩, ⟨0, a₂⟩⟩
    obtain ⟨z, g1, g2, g3⟩ := fn_of_list (C₁.nodes.filter (fun x => decide (x ∈ C₂.nodes)))
      ((C₁.nodes.filter (fun x => decide (x ∈ C₂.nodes))).length - 1) (by omega) (h₁.dec.filter _)
    refine ⟨_, z, g2, fun x => ?_⟩
    rw [← g3, List.mem_filter, decide_eq_true_eq, m₁, m₂]
  have z0 : z 0 = top := by
    obtain ⟨j, hj⟩ := (hmem top).2 ⟨⟨0, a₁⟩, ⟨0, a₂⟩⟩
    obtain ⟨⟨k, hk⟩, -⟩ := (hmem (z 0)).1 ⟨0, rfl⟩
    apply le_antisymm
    · rw [← hk, ← a₁]; exact s₁.antitone (Fin.zero_le _)
    · rw [← hj]; exact hz.antitone (Fin.zero_le _)
  have zl : z (Fin.last n) = tip := by
    obtain ⟨j, hj⟩ := (hmem tip).2 ⟨⟨_, b₁⟩, ⟨_, b₂⟩⟩
    obtain ⟨⟨k, hk⟩, -⟩ := (hmem (z (Fin.last n))).1 ⟨_, rfl⟩
    apply le_antisymm
    · rw [← hj]; exact hz.antitone (Fin.le_last _)
    · rw [← hk, ← b₁]; exact s₁.antitone (Fin.le_last _)
  have hsec : ∀ s ∈ p.sections, s.top ∈ Set.range z ∧ s.bottom ∈ Set.range z := by
    intro s hs
    rw [hmem, hmem, ← m₁, ← m₂, ← m₁, ← m₂]
    exact ⟨⟨(h₁.sections s hs).1, (h₂.sections s hs).1⟩, ⟨(h₁.sections s hs).2, (h₂.sections s hs).2⟩⟩
  choose sc hsc using one_section hp z hz z0 zl hsec
  have hel : ElementsOn pi p z (fun i => elemOf pi p.material (sc i) |z i.castSucc - z i.succ|) :=
    fun i => ⟨sc i, hsc i, rfl⟩
  have ex₁ : ∀ j, ∃ k, z₁ k = z j := fun j => ((hmem (z j)).1 ⟨j, rfl⟩).1
  have ex₂ : ∀ j, ∃ k, z₂ k = z j := fun j => ((hmem (z j)).1 ⟨j, rfl⟩).2
  choose σ₁ hσ₁ using ex₁
  choose σ₂ hσ₂ using ex₂
  have sb₁ := sameBeam_of_elements hz s₁ (z0.trans a₁.symm) (zl.trans b₁.symm) σ₁ hσ₁ hel e₁
  have sb₂ := sameBeam_of_elements hz s₂ (z0.trans a₂.symm) (zl.trans b₂.symm) σ₂ hσ₂ hel e₂
  have c12 : ∀ c ∈ bcs, ∀ k, Near (z₁ k) c.elevation → z₁ k ∈ Set.range z₂ := by
    intro c hc k hk
    rw [← m₂]
    exact h12 c hc _ ((m₁ _).2 ⟨k, rfl⟩) hk
  have c21 : ∀ c ∈ bcs, ∀ k, Near (z₂ k) c.elevation → z₂ k ∈ Set.range z₁ := by
    intro c hc k hk
    rw [← m₁]
    exact h21 c hc _ ((m₂ _).2 ⟨k, rfl⟩) hk
  have off₁ : ∀ k, k ∉ Set.range σ₁ → z₁ k ∉ Set.range z₂ := by
    intro k hk h
    obtain ⟨j, hj⟩ := (hmem (z₁ k)).2 ⟨⟨k, rfl⟩, h⟩
    exact hk ⟨j, s₁.injective (by rw [hσ₁, hj])⟩
  have off₂ : ∀ k, k ∉ Set.range σ₂ → z₂ k ∉ Set.range z₁ := by
    intro k hk h
    obtain ⟨j, hj⟩ := (hmem (z₂ k)).2 ⟨h, ⟨k, rfl⟩⟩
    exact hk ⟨j, s₂.injective (by rw [hσ₂, hj])⟩
  have l₁ : SameLoads σ₁ (restrict σ₁ F₁) (restrict σ₁ U₁) (restrict σ₁ R₁) F₁ U₁ R₁ := by
    refine ⟨fun j d => ⟨(restrict_dof _ _ _ _).symm, (restrict_dof _ _ _ _).symm, (restrict_dof _ _ _ _).symm⟩, ?_⟩
    intro k hk d
    rw [f₁, u₁, r₁, left_other _ _ _ _ _ z₁ z₂ c12 k (off₁ k hk), left_other _ _ _ _ _ z₁ z₂ c12 k (off₁ k hk),
      left_other _ _ _ _ _ z₁ z₂ c12 k (off₁ k hk)]
    exact ⟨Int.cast_zero, rfl, rfl⟩
  have l₂ : SameLoads σ₂ (restrict σ₁ F₁) (restrict σ₁ U₁) (restrict σ₁ R₁) F₂ U₂ R₂ := by
    refine ⟨?_, ?_⟩
    · intro j d
      have hj : z₁ (σ₁ j) = z₂ (σ₂ j) := by rw [hσ₁, hσ₂]
      rw [restrict_dof, restrict_dof, restrict_dof, f₁, u₁, r₁, f₂, u₂, r₂,
        left_common _ _ _ _ _ z₁ z₂ s₁ s₂ c12 c21 _ _ hj, left_common _ _ _ _ _ z₁ z₂ s₁ s₂ c12 c21 _ _ hj,
        left_common _ _ _ _ _ z₁ z₂ s₁ s₂ c12 c21 _ _ hj]
      exact ⟨rfl, rfl, rfl⟩
    · intro k hk d
      rw [f₂, u₂, r₂, left_other _ _ _ _ _ z₂ z₁ c21 k (off₂ k hk), left_other _ _ _ _ _ z₂ z₁ c21 k (off₂ k hk),
        left_other _ _ _ _ _ z₂ z₁ c21 k (off₂ k hk)]
      exact ⟨Int.cast_zero, rfl, rfl⟩
  rcases C55_two_meshes ty _ el₁ el₂ σ₁ σ₂ sb₁ sb₂ (regular_of_elements hreg hz hel)
    (regular_of_elements hreg s₁ e₁) (regular_of_elements hreg s₂ e₂) _ _ _ F₁ U₁ R₁ F₂ U₂ R₂ l₁ l₂ with
    ⟨g₁, g₂⟩ | ⟨v₁, Q₁, q₁, v₂, Q₂, q₂, g₁, g₂, gd, go₁, go₂, gt, gb⟩
  · left
    rw [hs₁, hs₂, g₁, g₂]
    exact ⟨rfl, rfl⟩
  · right
    have hq₁ : q₁ = fun i => sectionForces (el₁ i).L (internalForces ty el₁ v₁ i) := by
      unfold beam at g₁
      simp only [Option.map_eq_some_iff, Prod.mk.injEq] at g₁
      obtain ⟨⟨_, _⟩, -, rfl, rfl, rfl⟩ := g₁
      rfl
    have hq₂ : q₂ = fun i => sectionForces (el₂ i).L (internalForces ty el₂ v₂ i) := by
      unfold beam at g₂
      simp only [Option.map_eq_some_iff, Prod.mk.injEq] at g₂
      obtain ⟨⟨_, _⟩, -, rfl, rfl, rfl⟩ := g₂
      rfl
    obtain ⟨T₁, t₁, td₁, tf₁, tr₁, ts₁⟩ := tables_spec ty n₁ z₁ s₁ el₁ v₁ Q₁
    obtain ⟨T₂, t₂, td₂, tf₂, tr₂, ts₂⟩ := tables_spec ty n₂ z₂ s₂ el₂ v₂ Q₂
    refine ⟨T₁, T₂, by rw [hs₁, g₁]; exact t₁, by rw [hs₂, g₂]; exact t₂, ?_, ?_⟩
    · have hiff : ∀ r, r ∈ T₁.reactions ↔ r ∈ T₂.reactions := by
        rintro ⟨e, v⟩
        rw [tr₁, tr₂]
        constructor
        · rintro ⟨k, rfl, ⟨d, hd⟩, rfl⟩
          by_cases hk : k ∈ Set.range σ₁
          · obtain ⟨j, rfl⟩ := hk
            refine ⟨σ₂ j, by rw [hσ₁, hσ₂], ⟨d, by rw [← (gd j d).2]; exact hd⟩, ?_⟩
            rw [(gd j 0).2, (gd j 1).2, (gd j 2).2]
          · rw [go₁ k hk d, abs_zero] at hd
            exact absurd hd (by norm_num)
        · rintro ⟨k, rfl, ⟨d, hd⟩, rfl⟩
          by_cases hk : k ∈ Set.range σ₂
          · obtain ⟨j, rfl⟩ := hk
            refine ⟨σ₁ j, by rw [hσ₁, hσ₂], ⟨d, by rw [(gd j d).2]; exact hd⟩, ?_⟩
            rw [(gd j 0).2, (gd j 1).2, (gd j 2).2]
          · rw [go₂ k hk d, abs_zero] at hd
            exact absurd hd (by norm_num)
      have hperm : T₁.reactions.Perm T₂.reactions := by
        rw [List.perm_ext_iff_of_nodup (ts₁.imp fun h => by rintro rfl; exact lt_irrefl _ h)
          (ts₂.imp fun h => by rintro rfl; exact lt_irrefl _ h)]
        exact hiff
      refine hperm.eq_of_pairwise ?_ ts₁ ts₂
      intro a b _ _ hab hba
      exact absurd hab (not_lt.2 hba.le)
    · intro x hx₁ hx₂ r
      obtain ⟨j, rfl⟩ := (hmem x).2 ⟨(m₁ x).1 hx₁, (m₂ x).1 hx₂⟩
      constructor
      · rw [td₁, td₂]
        constructor
        · rintro ⟨k, hk⟩
          have e : k = σ₁ j := s₁.injective (by rw [hσ₁]; exact (congrArg Prod.fst hk).symm)
          subst e
          refine ⟨σ₂ j, ?_⟩
          rw [hk, (gd j 0).1, (gd j 1).1, (gd j 2).1, hσ₁, hσ₂]
        · rintro ⟨k, hk⟩
          have e : k = σ₂ j := s₂.injective (by rw [hσ₂]; exact (congrArg Prod.fst hk).symm)
          subst e
          refine ⟨σ₁ j, ?_⟩
          rw [hk, (gd j 0).1, (gd j 1).1, (gd j 2).1, hσ₁, hσ₂]
      · have topk : ∀ {m : ℕ} {y : Fin (m + 1) → K} (_ : StrictAnti y) (σ : Fin (n + 1) → Fin (m + 1))
            (_ : ∀ j, y (σ j) = z j) (_ : σ (Fin.last n) = Fin.last m) (k : Fin m), z j = y k.castSucc →
            ∃ i : Fin n, j = i.castSucc ∧ k.castSucc = σ i.castSucc := by
          intro m y hy σ hσ hl k hk
          have hk' : k.castSucc = σ j := hy.injective (by rw [hσ]; exact hk.symm)
          have hjn : j.1 < n := by
            by_contra h
            have : j = Fin.last n := Fin.ext (by have := j.2; simp; omega)
            rw [this, hl] at hk'
            have := congrArg Fin.val hk'
            have h2 := k.2
            rw [Fin.val_castSucc, Fin.val_last] at this
            omega
          exact ⟨⟨j.1, hjn⟩, rfl, hk'⟩
        have botk : ∀ {m : ℕ} {y : Fin (m + 1) → K} (_ : StrictAnti y) (σ : Fin (n + 1) → Fin (m + 1))
            (_ : ∀ j, y (σ j) = z j) (_ : σ 0 = 0) (k : Fin m), z j = y k.succ →
            ∃ i : Fin n, j = i.succ ∧ k.succ = σ i.succ := by
          intro m y hy σ hσ hl k hk
          have hk' : k.succ = σ j := hy.injective (by rw [hσ]; exact hk.symm)
          have hj0 : j ≠ 0 := by
            rintro rfl
            rw [hl] at hk'
            exact absurd hk' (Fin.succ_ne_zero k)
          obtain ⟨i, rfl⟩ := Fin.exists_succ_eq.2 hj0
          exact ⟨i, rfl, hk'⟩
        have mk_top : ∀ {m : ℕ} {el' : Fin m → Elem K} {σ : Fin (n + 1) → Fin (m + 1)}
            (_ : SameBeam (fun i => elemOf pi p.material (sc i) |z i.castSucc - z i.succ|) el' σ) (i : Fin n),
            ∃ k : Fin m, k.castSucc = σ i.castSucc := by
          intro m el' σ hs i
          have := sigma_lt hs i
          have h2 := (σ i.succ).2
          exact ⟨⟨(σ i.castSucc).1, by omega⟩, rfl⟩
        have mk_bot : ∀ {m : ℕ} {el' : Fin m → Elem K} {σ : Fin (n + 1) → Fin (m + 1)}
            (_ : SameBeam (fun i => elemOf pi p.material (sc i) |z i.castSucc - z i.succ|) el' σ) (i : Fin n),
            ∃ k : Fin m, k.succ = σ i.succ := by
          intro m el' σ hs i
          have := sigma_lt hs i
          have h2 := (σ i.succ).2
          exact ⟨⟨(σ i.succ).1 - 1, by omega⟩, Fin.ext (by simp; omega)⟩
        rw [tf₁, tf₂]
        subst hq₁ hq₂
        constructor
        · rintro ⟨k, hk | hk⟩
          · obtain ⟨i, rfl, hki⟩ := topk s₁ σ₁ hσ₁ sb₁.refines.last k (congrArg Prod.fst hk)
            obtain ⟨k', hk'⟩ := mk_top sb₂ i
            refine ⟨k', Or.inl ?_⟩
            rw [hk', hσ₂, ← gt i k k' hki hk']
            exact Prod.ext rfl ((Prod.mk.inj hk).2)
          · obtain ⟨i, rfl, hki⟩ := botk s₁ σ₁ hσ₁ sb₁.refines.first k (congrArg Prod.fst hk)
            obtain ⟨k', hk'⟩ := mk_bot sb₂ i
            refine ⟨k', Or.inr ?_⟩
            rw [hk', hσ₂, ← gb i k k' hki hk']
            exact Prod.ext rfl ((Prod.mk.inj hk).2)
        · rintro ⟨k, hk | hk⟩
          · obtain ⟨i, rfl, hki⟩ := topk s₂ σ₂ hσ₂ sb₂.refines.last k (congrArg Prod.fst hk)
            obtain ⟨k', hk'⟩ := mk_top sb₁ i
            refine ⟨k', Or.inl ?_⟩
            rw [hk', hσ₁, gt i k' k hk' hki]
            exact Prod.ext rfl ((Prod.mk.inj hk).2)
          · obtain ⟨i, rfl, hki⟩ := botk s₂ σ₂ hσ₂ sb₂.refines.first k (congrArg Prod.fst hk)
            obtain ⟨k', hk'⟩ := mk_bot sb₁ i
            refine ⟨k', Or.inr ?_⟩
            rw [hk', hσ₁, gb i k' k hk' hki]
            exact Prod.ext rfl ((Prod.mk.inj hk).2)

/-! ### meshes of the model -/

theorem pair_above (l : List K) (hl : l.Pairwise (· > ·)) (x e : K) (hx : x ∈ l) (he : e ∈ l) (h : e < x) :
    ∃ y, (y, e) ∈ l.zip l.tail ∧ y ≤ x := by
  obtain ⟨i, hi, rfl⟩ := List.getElem_of_mem hx
  obtain ⟨j, hj, rfl⟩ := List.getElem_of_mem he
  rw [List.pairwise_iff_getElem] at hl
  have hij : i < j := by
    rcases lt_trichotomy i j with g | g | g
    · exact g
    · subst g; exact absurd h (lt_irrefl _)
    · exact absurd h (not_lt.2 (hl j i hj hi g).le)
  obtain ⟨m, rfl⟩ : ∃ m, j = m + 1 := ⟨j - 1, by omega⟩
  refine ⟨l[m], ?_, ?_⟩
  · rw [List.mem_iff_getElem?]
    refine ⟨m, ?_⟩
    rw [List.getElem?_zip_eq_some, List.getElem?_tail]
    exact ⟨List.getElem?_eq_getElem _, List.getElem?_eq_getElem _⟩
  · rcases Nat.lt_or_ge i m with g | g
    · exact (hl i m hi (by omega) g).le
    · have : i = m := by omega
      subst this; exact le_refl _

theorem pair_below (l : List K) (hl : l.Pairwise (· > ·)) (x e : K) (hx : x ∈ l) (he : e ∈ l) (h : x < e) :
    ∃ y, (e, y) ∈ l.zip l.tail ∧ x ≤ y := by
  obtain ⟨i, hi, rfl⟩ := List.getElem_of_mem hx
  obtain ⟨j, hj, rfl⟩ := List.getElem_of_mem he
  rw [List.pairwise_iff_getElem] at hl
  have hij : j < i := by
    rcases lt_trichotomy j i with g | g | g
    · exact g
    · subst g; exact absurd h (lt_irrefl _)
    · exact absurd h (not_lt.2 (hl i j hi hj g).le)
  refine ⟨l[j + 1], ?_, ?_⟩
  · rw [List.mem_iff_getElem?]
    refine ⟨j, ?_⟩
    rw [List.getElem?_zip_eq_some, List.getElem?_tail]
    exact ⟨List.getElem?_eq_getElem _, List.getElem?_eq_getElem _⟩
  · rcases Nat.lt_or_ge (j + 1) i with g | g
    · exact (hl (j + 1) i (by omega) hi g).le
    · have : i = j + 1 := by omega
      subst this; exact le_refl _

/-- The elevation `e` is one of the elevations asked for, and the others are further away than the tolerance with
which boundary conditions are placed. -/
structure Clear (p : Pile.Pile K) (tip : K) (soil : Option (Soil.Profile K)) (x2mesh : List K) (e : K) : Prop where
  mem : Required p tip soil x2mesh e
  alone : ∀ r, Required p tip soil x2mesh r → Near r e → r = e

theorem near_node (p : Pile.Pile K) (soil : Option (Soil.Profile K)) (x2mesh : List K) (c tip : K) (hc : 1 / 100 ≤ c)
    (htip : p.bottomElevation = some tip) (hgrid : ∀ r, Required p tip soil x2mesh r → OnGrid r)
    (e : K) (he : |e| ≤ 300) (hcl : Clear p tip soil x2mesh e) (C : Coordinates K)
    (hC : getCoordinates p soil x2mesh c = some C) : ∀ x ∈ C.nodes, Near x e → x = e := by
  have hc0 : 0 < c := lt_of_lt_of_le (by norm_num) hc
  obtain ⟨z, hz, hel⟩ := C06_element_lengths p soil x2mesh c tip hc0 htip
  obtain ⟨z', hz', hdec, hreq, -⟩ := C05_exact_nodes p soil x2mesh c tip hc0 htip
  rw [hz] at hz'
  cases hz'
  have hgr : ∀ r, Required p tip soil x2mesh r → round4 r = r := by
    intro r hr
    obtain ⟨n, rfl⟩ := hgrid r hr
    exact round4_grid n
  have step : ∀ a ∈ z.zip z.tail, 1 / 200 ≤ a.1 - a.2 ∨
      (Required p tip soil x2mesh a.1 ∧ Required p tip soil x2mesh a.2) := by
    intro a ha
    obtain ⟨hpos, _, A, B, n, ⟨hA, hB, hBA, _⟩, hBe, heA, ⟨k, hk, h1, hlen⟩, hn⟩ := hel a ha
    rcases Nat.lt_or_ge 1 n with h | h
    · left
      have h2 := hn (n - 1) (by omega) (by omega)
      obtain ⟨m, rfl⟩ : ∃ m, n = m + 2 := ⟨n - 2, by omega⟩
      have h3 : c * (m + 1) < A - B := by
        rw [lt_div_iff₀ (by simp; positivity)] at h2
        simpa using h2
      have h4 : (A - B) / ((m + 2 : ℕ) : K) ≥ c / 2 := by
        rw [ge_iff_le, le_div_iff₀ (by positivity)]
        push_cast
        have : (0 : K) ≤ m := by positivity
        nlinarith
      linarith
    · right
      have hn1 : n = 1 := by omega
      subst hn1
      have hk0 : k = 0 := by omega
      subst hk0
      have e1 : a.1 = A := by rw [h1]; simp
      have e2 : a.2 = B := by
        have : a.1 - a.2 = A - B := by rw [hlen]; simp
        rw [e1] at this; linarith
      rw [e1, e2]
      exact ⟨hA, hB⟩
  rw [getCoordinates, hz] at hC
  cases hC
  intro x hx hnear
  obtain ⟨y, hy, rfl⟩ := List.mem_map.1 hx
  have hez : e ∈ z := hreq e hcl.mem
  have hre := hgr e hcl.mem
  have hclose := abs_le.1 (round4_close y)
  unfold Near at hnear
  have hn := abs_le.1 hnear
  rcases lt_trichotomy y e with h | h | h
  · obtain ⟨w, hw, hyw⟩ := pair_below z hdec y e hy hez h
    rcases step _ hw with g | ⟨-, g⟩
    · simp only at g
      linarith [hn.1, hclose.2]
    · have hrw := round4_mono _ _ hyw
      have hwe : w < e := by
        have := (hel _ hw).1
        simp only at this
        linarith
      rw [hgr w g] at hrw
      refine absurd (hcl.alone w g ?_) hwe.ne
      unfold Near
      rw [abs_le]
      constructor <;> linarith [hn.1, abs_nonneg e]
  · rw [h, hre]
  · obtain ⟨w, hw, hyw⟩ := pair_above z hdec y e hy hez h
    rcases step _ hw with g | ⟨g, -⟩
    · simp only at g
      linarith [hn.2, hclose.1]
    · have hrw := round4_mono _ _ hyw
      have hwe : e < w := by
        have := (hel _ hw).1
        simp only at this
        linarith
      rw [hgr w g] at hrw
      refine absurd (hcl.alone w g ?_) hwe.ne'
      unfold Near
      rw [abs_le]
      constructor <;> linarith [hn.2, abs_nonneg e]

/-- The published coordinates of a model fit its pile. -/
theorem meshOn_model (sections : List (Pile.Section K)) (mat : Pile.Material K) (p : Pile.Pile K)
    (hp : Pile.mkPile sections mat = .ok p) (hb : ∀ s ∈ sections, Spec.Pile.Built s) (x2mesh : List K)
    (c top tip : K) (hc : 1 / 100 ≤ c) (htop : p.topElevation = some top) (htip : p.bottomElevation = some tip)
    (hgrid : ∀ r, Required p tip none x2mesh r → OnGrid r) (hx : ∀ x ∈ x2mesh, tip ≤ x ∧ x ≤ top) :
    ∃ C, getCoordinates p none x2mesh c = some C ∧ MeshOn p top tip C := by
  have hc0 : 0 < c := lt_of_lt_of_le (by norm_num) hc
  have hgr : ∀ r : K, OnGrid r → round4 r = r := by
    rintro r ⟨n, rfl⟩
    exact round4_grid n
  obtain ⟨C, hC, h1, -, h3⟩ := C05_published_nodes p none x2mesh c tip hc0 htip
  obtain ⟨C', hC', h4, -⟩ := C07_no_merge_partial p none x2mesh c tip hc htip
    (fun r r' hr hr' _ => Or.inr ⟨hgrid r hr, hgrid r' hr'⟩)
  rw [hC] at hC'
  cases hC'
  obtain ⟨z, hz, h5, h6⟩ := C51_spans_pile_partial sections mat p hp hb none x2mesh c tip top hc0 htip htop
    (fun _ h => by cases h) hx
  have hnodes : C.nodes = z.map round4 := by
    rw [getCoordinates, hz] at hC
    cases hC
    rfl
  have gtop : OnGrid top := by
    unfold Pile.Pile.topElevation at htop
    cases hs : p.sections with
    | nil => rw [hs] at htop; cases htop
    | cons f l =>
      rw [hs] at htop
      exact hgrid top (Or.inl ⟨f, by rw [hs]; simp, Or.inl (by simpa using htop.symm)⟩)
  have gtip : OnGrid tip := by
    unfold Pile.Pile.bottomElevation at htip
    cases hs : p.sections.getLast? with
    | none => rw [hs] at htip; cases htip
    | some f =>
      rw [hs] at htip
      exact hgrid tip (Or.inl ⟨f, List.mem_of_getLast? hs, Or.inr (by simpa using htip.symm)⟩)
  refine ⟨C, hC, h1, h4, ?_, ?_, ?_⟩
  · rw [hnodes, List.head?_map, h5, Option.map_some, hgr top gtop]
  · rw [hnodes, List.getLast?_map, h6, Option.map_some, hgr tip gtip]
  · intro s hs
    have a : Required p tip none x2mesh s.top := Or.inl ⟨s, hs, Or.inl rfl⟩
    have b : Required p tip none x2mesh s.bottom := Or.inl ⟨s, hs, Or.inr rfl⟩
    exact ⟨h3 _ a (hgrid _ a), h3 _ b (hgrid _ b)⟩

/-- The elements of an accepted pile have the stiffness the analysis needs. -/
theorem regular_of_built (pi : K) (hpi : 0 < pi) (ty : ElementType) (uw E nu : K) (mat : Pile.Material K)
    (hm : Pile.mkMaterial uw E nu = some mat) (hnu : ty = .timoshenko → -(3 / 4) ≤ nu) (s : Pile.Section K)
    (hs : Spec.Pile.Built s) (ht : s.thickness < s.diameter) (L : K) (hL : 0 < L) :
    Regular ty (elemOf pi mat s L) := by
  obtain ⟨top, bottom, d, t, hs⟩ := hs
  have hg := goodElem_of_built pi hpi uw E nu mat hm top bottom d t s hs ht L hL
  have hm' : mat.nu = nu := by
    unfold Pile.mkMaterial at hm
    split_ifs at hm
    cases hm
    rfl
  have hphi := phi_nonneg ty _ hg (fun h => by rw [show (elemOf pi mat s L).nu = nu from hm']; exact hnu h)
  exact ⟨hg.L.ne', hg.E.ne', hg.A.ne', hg.I.ne', by linarith⟩

/-- **C55, from the public calls to the tables.** The same pile and the same boundary conditions, meshed with any two
coarsenesses and any two lists of extra elevations.  If the elevations asked for are multiples of 0.1 mm within the
pile, and boundary conditions act at section ends or at elevations listed in both meshes, away from other
listed ones, then either both analyses fail or both give the same reactions, and the displacements and section
forces listed for each node common to both meshes agree. -/
theorem C55_model_partial (pi : K) (hpi : 0 < pi) (ty : ElementType) (uw E nu : K) (mat : Pile.Material K)
    (hm : Pile.mkMaterial uw E nu = some mat) (hnu : ty = .timoshenko → -(3 / 4) ≤ nu)
    (sections : List (Pile.Section K)) (hb : ∀ s ∈ sections, Spec.Pile.Built s ∧ s.thickness < s.diameter)
    (p : Pile.Pile K) (hp : Pile.mkPile sections mat = .ok p) (top tip : K) (htop : p.topElevation = some top)
    (htip : p.bottomElevation = some tip) (x₁ x₂ : List K) (c₁ c₂ : K) (hc₁ : 1 / 100 ≤ c₁) (hc₂ : 1 / 100 ≤ c₂)
    (g₁ : ∀ r, Required p tip none x₁ r → OnGrid r) (g₂ : ∀ r, Required p tip none x₂ r → OnGrid r)
    (i₁ : ∀ x ∈ x₁, tip ≤ x ∧ x ≤ top) (i₂ : ∀ x ∈ x₂, tip ≤ x ∧ x ≤ top) (bcs : List (Cond K))
    (hbc : ∀ b ∈ bcs, |b.elevation| ≤ 300 ∧ Clear p tip none x₁ b.elevation ∧ Clear p tip none x₂ b.elevation) :
    (solveModel pi ty p x₁ c₁ bcs = none ∧ solveModel pi ty p x₂ c₂ bcs = none) ∨
    ∃ C₁ C₂ T₁ T₂, getCoordinates p none x₁ c₁ = some C₁ ∧ getCoordinates p none x₂ c₂ = some C₂ ∧
      solveModel pi ty p x₁ c₁ bcs = some T₁ ∧ solveModel pi ty p x₂ c₂ bcs = some T₂ ∧
      T₁.reactions = T₂.reactions ∧
      ∀ x, x ∈ C₁.nodes → x ∈ C₂.nodes → ∀ r, ((x, r) ∈ T₁.disp ↔ (x, r) ∈ T₂.disp) ∧
        ((x, r) ∈ T₁.forces ↔ (x, r) ∈ T₂.forces) := by
  obtain ⟨hch, hmem⟩ := mkPile_sections sections mat p hp
  have hmat : p.material = mat := by
    unfold Pile.mkPile at hp
    split at hp
    · cases hp
    · simp only at hp
      split at hp
      · cases hp; rfl
      · cases hp
  have hst : Stack p top tip :=
    ⟨hch, fun s hs => ((Pile.built_iff s).1 (hb s ((hmem s).1 hs)).1).1, htop, htip⟩
  have hreg : ∀ s ∈ p.sections, ∀ L : K, 0 < L → Regular ty (elemOf pi p.material s L) := by
    intro s hs L hL
    rw [hmat]
    obtain ⟨h1, h2⟩ := hb s ((hmem s).1 hs)
    exact regular_of_built pi hpi ty uw E nu mat hm hnu s h1 h2 L hL
  obtain ⟨C₁, e₁, m₁⟩ := meshOn_model sections mat p hp (fun s hs => (hb s hs).1) x₁ c₁ top tip hc₁ htop htip g₁ i₁
  obtain ⟨C₂, e₂, m₂⟩ := meshOn_model sections mat p hp (fun s hs => (hb s hs).1) x₂ c₂ top tip hc₂ htop htip g₂ i₂
  have node : ∀ (x2 : List K) (c : K) (C : Coordinates K), 1 / 100 ≤ c →
      (∀ r, Required p tip none x2 r → OnGrid r) → getCoordinates p none x2 c = some C →
      ∀ e, Required p tip none x2 e → e ∈ C.nodes := by
    intro x2 c C hc g hC e he
    obtain ⟨C', hC', -, -, h⟩ := C05_published_nodes p none x2 c tip (lt_of_lt_of_le (by norm_num) hc) htip
    rw [hC] at hC'
    cases hC'
    exact h e he (g e he)
  have h12 : ∀ b ∈ bcs, ∀ x ∈ C₁.nodes, Near x b.elevation → x ∈ C₂.nodes := by
    intro b hb' x hx hn
    obtain ⟨h1, h2, h3⟩ := hbc b hb'
    rw [near_node p none x₁ c₁ tip hc₁ htip g₁ _ h1 h2 C₁ e₁ x hx hn]
    exact node x₂ c₂ C₂ hc₂ g₂ e₂ _ h3.mem
  have h21 : ∀ b ∈ bcs, ∀ x ∈ C₂.nodes, Near x b.elevation → x ∈ C₁.nodes := by
    intro b hb' x hx hn
    obtain ⟨h1, h2, h3⟩ := hbc b hb'
    rw [near_node p none x₂ c₂ tip hc₂ htip g₂ _ h1 h3 C₂ e₂ x hx hn]
    exact node x₁ c₁ C₁ hc₁ g₁ e₁ _ h2.mem
  have s₁ : solveModel pi ty p x₁ c₁ bcs = solveOn pi ty p C₁ bcs := by
    unfold solveModel; rw [e₁]; rfl
  have s₂ : solveModel pi ty p x₂ c₂ bcs = solveOn pi ty p C₂ bcs := by
    unfold solveModel; rw [e₂]; rfl
  rw [s₁, s₂]
  rcases C55_tables pi ty p top tip hst hreg C₁ C₂ m₁ m₂ bcs h12 h21 with h | ⟨T₁, T₂, h⟩
  · exact Or.inl h
  · exact Or.inr ⟨C₁, C₂, T₁, T₂, e₁, e₂, h⟩

/-- **C20, from the public calls.** An analysis without soil on a mesh of an accepted pile fails exactly if the
boundary conditions are rejected or leave the pile movable: a support along the axis is needed, and a lateral
support together with a rotational one or a second lateral one.  A support is a fixation or a non-zero prescribed
displacement left at the node by the boundary conditions. -/
theorem C20_tables (pi : K) (hpi : 0 < pi) (ty : ElementType) (uw E nu : K) (p : Pile.Pile K)
    (hm : Pile.mkMaterial uw E nu = some p.material) (hnu : ty = .timoshenko → -(3 / 4) ≤ nu) (top tip : K)
    (hp : Stack p top tip) (hb : ∀ s ∈ p.sections, Spec.Pile.Built s ∧ s.thickness < s.diameter)
    (C : Coordinates K) (h : MeshOn p top tip C) (bcs : List (Cond K)) :
    let held : Axis → ℕ → Prop := fun a i =>
      left storeBool false C.nodes bcs .fixation a i = true ∨ left storeFloat 0 C.nodes bcs .displacement a i ≠ 0
    solveOn pi ty p C bcs ≠ none ↔ (∀ cls, validateBc bcs cls = .ok ()) ∧
      (∃ i < C.nodes.length, held .z i) ∧ ∃ i < C.nodes.length, held .y i ∧
        ((∃ k < C.nodes.length, held .x k) ∨ ∃ k < C.nodes.length, k ≠ i ∧ held .y k) := by
  intro held
  by_cases hv : ∀ cls, validateBc bcs cls = .ok ()
  swap
  · exact iff_of_false (fun h => h (solveOn_raises pi ty p C bcs hv)) (fun h => hv h.1)
  obtain ⟨z, el, F, U, R, n1, s1, m1, a1, b1, e1, f1, u1, r1, hs⟩ := solveOn_eq pi ty hp h bcs hv
  obtain ⟨z', hz', s1', m1', -⟩ := mesh_fn h
  have hzz : C.nodes = List.ofFn z := by
    have h1 : C.nodes.length = C.elements.length + 1 := by rw [hz']; simp
    obtain ⟨w, hw, sw, mw⟩ := fn_of_list C.nodes _ h1 h.dec
    have hperm : C.nodes.Perm (List.ofFn z) := by
      rw [List.perm_ext_iff_of_nodup (h.dec.imp fun h => h.ne')
        (List.nodup_ofFn.2 s1.injective)]
      intro x
      rw [m1, List.mem_ofFn']
    refine hperm.eq_of_pairwise (le := (· > ·)) ?_ h.dec ?_
    · intro a b _ _ hab hba
      exact absurd hab (not_lt.2 (le_of_lt hba))
    · rw [List.pairwise_ofFn]
      intro i j hij
      exact s1 hij
  have hlen : C.nodes.length = C.elements.length + 1 := by rw [hzz]; simp
  have hgood : GoodElems ty el := by
    intro i
    obtain ⟨s, hsf, e⟩ := e1 i
    have hmem : s ∈ p.sections.filter (fun s => decide (z i.castSucc ≤ s.top ∧ z i.succ ≥ s.bottom)) := by
      rw [hsf]; simp
    obtain ⟨⟨t, b, d, th, hbs⟩, ht⟩ := hb s (List.mem_filter.1 hmem).1
    have hg := goodElem_of_built pi hpi uw E nu p.material hm t b d th s hbs ht |z i.castSucc - z i.succ|
      (abs_pos.2 (sub_ne_zero.2 (s1 Fin.castSucc_lt_succ).ne'))
    rw [← e] at hg
    refine ⟨hg, fun hty => ?_⟩
    have hm' : p.material.nu = nu := by
      unfold Pile.mkMaterial at hm
      split_ifs at hm
      rw [← Option.some.inj hm]
    rw [e, show (elemOf pi p.material s |z i.castSucc - z i.succ|).nu = nu from hm']
    exact hnu hty
  have hheld : ∀ (j : Fin (C.elements.length + 1)) (d : Fin 3),
      (R (dof j d) || decide (U (dof j d) ≠ 0)) = true ↔ held (axisOf d) j.1 := by
    intro j d
    rw [Bool.or_eq_true, decide_eq_true_eq, r1, u1, ← hzz]
  have hbeam : solveOn pi ty p C bcs ≠ none ↔ beam ty el F U R ≠ none := by
    rw [hs]
    cases hq : beam ty el F U R with
    | none => simp
    | some r =>
      obtain ⟨T, t, -⟩ := tables_spec ty n1 z s1 el r.1 r.2.1
      rw [Option.bind_some, t]
      simp
  rw [hbeam]
  unfold beam
  rw [Ne, Option.map_eq_none_iff, ← Ne, C20_beam_supports ty el hgood F U]
  simp only [hheld]
  constructor
  · rintro ⟨⟨j, hj⟩, i, hi, h3⟩
    refine ⟨hv, ⟨j.1, by omega, hj⟩, i.1, by omega, hi, ?_⟩
    rcases h3 with ⟨k, hk⟩ | ⟨k, hne, hk⟩
    · exact Or.inl ⟨k.1, by omega, hk⟩
    · exact Or.inr ⟨k.1, by omega, fun h => hne (Fin.ext h), hk⟩
  · rintro ⟨-, ⟨j, hjl, hj⟩, i, hil, hi, h3⟩
    refine ⟨⟨⟨j, by omega⟩, hj⟩, ⟨i, by omega⟩, hi, ?_⟩
    rcases h3 with ⟨k, hkl, hk⟩ | ⟨k, hkl, hne, hk⟩
    · exact Or.inl ⟨⟨k, by omega⟩, hk⟩
    · exact Or.inr ⟨⟨k, by omega⟩, fun h => hne (congrArg Fin.val h), hk⟩

/-! ### a case that meets the hypotheses -/

/-- A pile of two sections. -/
def pileE : Pile.Pile ℚ := ⟨[⟨0, -4, 1, 1 / 20⟩, ⟨-4, -10, 1, 1 / 10⟩], Pile.steel⟩

/-- A head load, a prescribed displacement inside the pile and a fixed tip. -/
def bcsE : List (Cond ℚ) :=
  [⟨.force, 0, none, some (.num 100), some (.num (-500))⟩, ⟨.displacement, -2, none, some (.num (1 / 10)), none⟩,
   ⟨.fixation, -10, some (.flag true), some (.flag true), some (.flag true)⟩]

theorem requiredE (x2 : List ℚ) (r : ℚ) :
    Required pileE (-10) none x2 r ↔ r = 0 ∨ r = -4 ∨ r = -10 ∨ r ∈ x2 := by
  unfold Required pileE
  simp
  tauto

theorem gridE (n : ℤ) : OnGrid (n : ℚ) := ⟨10000 * n, by push_cast; ring⟩

theorem clearE (x2 : List ℚ) (e : ℚ) (he : e = 0 ∨ e = -2 ∨ e = -10) (hx : ∀ x ∈ x2, x = -2 ∨ x = -7)
    (h2 : -2 ∈ x2) : Clear pileE (-10) none x2 e := by
  constructor
  · rw [requiredE]
    rcases he with rfl | rfl | rfl
    · simp
    · simp [h2]
    · simp
  · intro r hr hn
    rw [requiredE] at hr
    have hr : r = 0 ∨ r = -4 ∨ r = -10 ∨ r = -2 ∨ r = -7 := by
      rcases hr with h | h | h | h
      · exact Or.inl h
      · exact Or.inr (Or.inl h)
      · exact Or.inr (Or.inr (Or.inl h))
      · exact Or.inr (Or.inr (Or.inr (hx r h)))
    unfold Near at hn
    rcases he with rfl | rfl | rfl <;> rcases hr with rfl | rfl | rfl | rfl | rfl <;>
      first | rfl | (exfalso; revert hn; norm_num [abs_le])

example : (solveModel (22 / 7) .timoshenko pileE [-2] 2 bcsE = none ∧
      solveModel (22 / 7) .timoshenko pileE [-2, -7] (1 / 2) bcsE = none) ∨
    ∃ C₁ C₂ T₁ T₂, getCoordinates pileE none [-2] 2 = some C₁ ∧
      getCoordinates pileE none [-2, -7] (1 / 2) = some C₂ ∧
      solveModel (22 / 7) .timoshenko pileE [-2] 2 bcsE = some T₁ ∧
      solveModel (22 / 7) .timoshenko pileE [-2, -7] (1 / 2) bcsE = some T₂ ∧
      T₁.reactions = T₂.reactions ∧
      ∀ x, x ∈ C₁.nodes → x ∈ C₂.nodes → ∀ r, ((x, r) ∈ T₁.disp ↔ (x, r) ∈ T₂.disp) ∧
        ((x, r) ∈ T₁.forces ↔ (x, r) ∈ T₂.forces) := by
  have hgrid : ∀ x2 : List ℚ, (∀ x ∈ x2, x = -2 ∨ x = -7) → ∀ r, Required pileE (-10) none x2 r → OnGrid r := by
    intro x2 hx r hr
    rw [requiredE] at hr
    rcases hr with rfl | rfl | rfl | h
    · simpa using gridE 0
    · simpa using gridE (-4)
    · simpa using gridE (-10)
    · rcases hx r h with rfl | rfl
      · simpa using gridE (-2)
      · simpa using gridE (-7)
  refine C55_model_partial (22 / 7) (by norm_num) .timoshenko 78 210000000 (3 / 10) Pile.steel (by decide +kernel)
    (fun _ => by norm_num) [⟨-4, -10, 1, 1 / 10⟩, ⟨0, -4, 1, 1 / 20⟩] ?_ pileE (by decide +kernel) 0 (-10) rfl rfl
    [-2] [-2, -7] 2 (1 / 2) (by norm_num) (by norm_num) (hgrid _ (by simp)) (hgrid _ (by simp)) (by norm_num)
    (by norm_num) bcsE ?_
  · simp only [Pile.built_iff]
    norm_num
  · intro b hb
    have he : b.elevation = 0 ∨ b.elevation = -2 ∨ b.elevation = -10 := by
      simp only [bcsE, List.mem_cons, List.not_mem_nil, or_false] at hb
      rcases hb with rfl | rfl | rfl <;> simp
    refine ⟨?_, clearE _ _ he (by simp) (by simp), clearE _ _ he (by simp) (by simp)⟩
    rcases he with h | h | h <;> rw [h] <;> norm_num [abs_le]

/-- The analysis of this case succeeds. -/
example : solveModel (22 / 7) .timoshenko pileE [-2] 2 bcsE ≠ none := by
  have hC : getCoordinates pileE none [-2] 2 = some ⟨[0, -2, -4, -6, -8, -10],
      [(0, -2), (-2, -4), (-4, -6), (-6, -8), (-8, -10)]⟩ := by decide +kernel
  unfold solveModel
  rw [hC]
  refine (C20_tables (22 / 7) (by norm_num) .timoshenko 78 210000000 (3 / 10) pileE (by decide +kernel)
    (fun _ => by norm_num) 0 (-10) ⟨by simp [pileE], by simp [pileE]; norm_num, rfl, rfl⟩ ?_
    ⟨[0, -2, -4, -6, -8, -10], [(0, -2), (-2, -4), (-4, -6), (-6, -8), (-8, -10)]⟩
    ⟨by decide +kernel, by decide +kernel, rfl, rfl, by decide +kernel⟩ bcsE).2 ⟨?_, ?_, ?_⟩
  · simp only [Pile.built_iff, pileE]
    norm_num
  · intro cls
    cases cls <;> decide +kernel
  · exact ⟨5, by norm_num, Or.inl (by decide +kernel)⟩
  · exact ⟨5, by norm_num, Or.inl (by decide +kernel), Or.inl ⟨5, by norm_num, Or.inl (by decide +kernel)⟩⟩

end OpenPile.Props.Analysis
