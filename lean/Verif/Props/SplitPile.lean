/-
C92: describing a part of the pile as two sections of the same cross-section.
-/
import Verif.Props.Pile
import Verif.Props.Create
import Verif.Props.Split

namespace OpenPile.Props.SplitPile
open OpenPile OpenPile.Assemble OpenPile.Analysis OpenPile.SoilAnalysis OpenPile.Pile

section generic
variable {K : Type} [Field K] [LinearOrder K] [IsStrictOrderedRing K] [FloorRing K]

/-! ## Specification -/

/-- The part of a section above the elevation `s`. -/
def upper (s : K) (g : Section K) : Section K := { g with bottom := s }

/-- The part of a section below the elevation `s`. -/
def lower (s : K) (g : Section K) : Section K := { g with top := s }

/-- The pile with the section `g` described as two sections. -/
def cutPile (p : Pile K) (P : List (Section K)) (g : Section K) (Q : List (Section K)) (s : K) : Pile K :=
  { p with sections := P ++ upper s g :: lower s g :: Q }

/-- A pile that was accepted. -/
def Valid (p : Pile K) : Prop := ∃ sections mat, mkPile sections mat = .ok p ∧ ∀ x ∈ sections, Spec.Pile.Built x

/-- An elevation where the mesh has a node anyway. -/
def Meshed (soil : Option (Soil.Profile K)) (x2mesh : List K) (s : K) : Prop :=
  s ∈ x2mesh ∨ ∃ sp, soil = some sp ∧ ∃ l ∈ sp.layers, s = l.top ∨ s = l.bottom

/-! ## Geometry -/

omit [IsStrictOrderedRing K] [FloorRing K] in
omit [Field K] [LinearOrder K] in
theorem stacked_cut {a b : List (Section K)} {g : Section K} {s : K} (hst : Spec.Pile.Stacked (a ++ g :: b)) :
    Spec.Pile.Stacked (a ++ upper s g :: lower s g :: b) := by
  unfold Spec.Pile.Stacked at *
  rw [List.isChain_append] at hst ⊢
  obtain ⟨g1, g2, g3⟩ := hst
  refine ⟨g1, ?_, ?_⟩
  · rw [List.isChain_cons_cons]
    refine ⟨rfl, ?_⟩
    rw [List.isChain_cons] at g2 ⊢
    exact ⟨fun y hy => g2.1 y hy, g2.2⟩
  · intro x hx y hy
    simp only [List.head?_cons, Option.mem_def, Option.some.injEq] at hy
    subst hy
    exact g3 x hx g (by simp)

omit [FloorRing K] in
/-- **C92, pile.** The two descriptions are accepted alike and give the same elevations, lengths, areas and volumes. -/
theorem C92_pile (pi : K) {l₁ l₂ : List (Section K)} {g : Section K} {s : K} {m : Material K}
    (hs : ∀ x ∈ l₁ ++ g :: l₂, Spec.Pile.Built x) (h1 : g.bottom < s) (h2 : s < g.top) {p : Pile K}
    (hp : mkPile (l₁ ++ g :: l₂) m = .ok p) :
    ∃ P Q, p.sections = P ++ g :: Q ∧ mkPile (l₁ ++ upper s g :: lower s g :: l₂) m = .ok (cutPile p P g Q s) ∧
      (cutPile p P g Q s).topElevation = p.topElevation ∧ (cutPile p P g Q s).bottomElevation = p.bottomElevation ∧
      (cutPile p P g Q s).length = p.length ∧ (cutPile p P g Q s).volume pi = p.volume pi ∧
      (cutPile p P g Q s).weight pi = p.weight pi ∧ (cutPile p P g Q s).innerVolume pi = p.innerVolume pi ∧
      (cutPile p P g Q s).tipArea pi = p.tipArea pi ∧ (cutPile p P g Q s).tipFootprint pi = p.tipFootprint pi := by
  obtain ⟨q, hq, e1, e2, e3, e4, e5, e6⟩ := OpenPile.Props.Pile.C03_split pi l₁ l₂ g s m hs ⟨h1, h2⟩ p hp
  obtain ⟨-, hst, rfl⟩ := (mkPile_ok_iff _ _ _).1 hp
  have hperm := sortSections_perm (l₁ ++ g :: l₂)
  obtain ⟨a, b, hab⟩ := List.append_of_mem (hperm.symm.subset (by simp : g ∈ l₁ ++ g :: l₂))
  have hrest : (a ++ b).Perm (l₁ ++ l₂) := by
    rw [hab] at hperm
    exact (List.perm_cons g).1 ((List.perm_middle.symm.trans hperm).trans List.perm_middle)
  have hperm' : (a ++ upper s g :: lower s g :: b).Perm (l₁ ++ upper s g :: lower s g :: l₂) := by
    have f1 : (a ++ upper s g :: lower s g :: b).Perm (upper s g :: lower s g :: (a ++ b)) :=
      List.perm_middle.trans ((List.perm_cons _).2 List.perm_middle)
    have f2 : (l₁ ++ upper s g :: lower s g :: l₂).Perm (upper s g :: lower s g :: (l₁ ++ l₂)) :=
      List.perm_middle.trans ((List.perm_cons _).2 List.perm_middle)
    exact f1.trans ((((List.perm_cons _).2 hrest).cons _).trans f2.symm)
  have hst' : Spec.Pile.Stacked (a ++ upper s g :: lower s g :: b) := stacked_cut (by rw [hab] at hst; exact hst)
  have hb : ∀ x ∈ a ++ upper s g :: lower s g :: b, x.bottom < x.top := by
    intro x hx
    have hx' := hperm'.subset hx
    simp only [List.mem_append, List.mem_cons] at hx'
    rcases hx' with h | rfl | rfl | h
    · exact ((built_iff x).1 (hs x (by simp [h]))).1
    · exact h2
    · exact h1
    · exact ((built_iff x).1 (hs x (by simp [h]))).1
  have hsort := sort_of_stacked _ _ hperm'.symm hb hst'
  have hq' : mkPile (l₁ ++ upper s g :: lower s g :: l₂) m = .ok ⟨a ++ upper s g :: lower s g :: b, m⟩ :=
    (mkPile_ok_iff _ _ _).2 ⟨by simp, by rw [hsort]; exact hst', by rw [hsort]⟩
  have hqe : q = ⟨a ++ upper s g :: lower s g :: b, m⟩ := by
    have : mkPile (l₁ ++ upper s g :: lower s g :: l₂) m = .ok q := hq
    rw [hq'] at this
    cases this
    rfl
  subst hqe
  refine ⟨a, b, hab, hq', e1, e2, e3, e4, e6, e5, ?_, ?_⟩
  · simp only [Pile.tipArea, cutPile, hab]
    cases b with
    | nil => simp [lower, Section.area]
    | cons c b => simp [List.getLast?_append, List.getLast?_cons_cons]
  · simp only [Pile.tipFootprint, cutPile, hab]
    cases b with
    | nil => simp [lower, Section.footprint]
    | cons c b => simp [List.getLast?_append, List.getLast?_cons_cons]

variable {p : Pile K} {P Q : List (Section K)} {g : Section K} {s : K}

omit [FloorRing K] in
theorem Valid.stack (h : Valid p) : p.sections.IsChain (fun u v => v.top = u.bottom) ∧ (∀ x ∈ p.sections, x.bottom < x.top) ∧
    p.sections ≠ [] := by
  obtain ⟨sections, mat, hp, hb⟩ := h
  obtain ⟨hst, hmem⟩ := Mesh.mkPile_sections sections mat p hp
  refine ⟨hst, fun x hx => ((built_iff x).1 (hb x ((hmem x).1 hx))).1, ?_⟩
  obtain ⟨h1, -, rfl⟩ := (mkPile_ok_iff _ _ _).1 hp
  intro h
  have := (sortSections_perm sections).length_eq
  have h' : sortSections sections = [] := h
  rw [h'] at this
  exact h1 (List.length_eq_zero_iff.1 this.symm)

omit [FloorRing K] in
/-- The other description of a valid pile is a valid pile. -/
theorem C92_valid (h : Valid p) (hp : p.sections = P ++ g :: Q) (h1 : g.bottom < s) (h2 : s < g.top) : Valid (cutPile p P g Q s) := by
  obtain ⟨hst, hbt, -⟩ := h.stack
  obtain ⟨sections, mat, hmk, hb⟩ := h
  obtain ⟨-, hmem⟩ := Mesh.mkPile_sections sections mat p hmk
  have hbuilt : ∀ x ∈ P ++ g :: Q, Spec.Pile.Built x := fun x hx => hb x ((hmem x).1 (by rw [hp]; exact hx))
  have hb' : ∀ x ∈ (cutPile p P g Q s).sections, Spec.Pile.Built x := by
    intro x hx
    have hg := (built_iff g).1 (hbuilt g (by simp))
    simp only [cutPile, List.mem_append, List.mem_cons] at hx
    rcases hx with hx | rfl | rfl | hx
    · exact hbuilt x (by simp [hx])
    · exact (built_iff _).2 ⟨h2, hg.2⟩
    · exact (built_iff _).2 ⟨h1, hg.2⟩
    · exact hbuilt x (by simp [hx])
  refine ⟨(cutPile p P g Q s).sections, p.material, ?_, hb'⟩
  have hch : Spec.Pile.Stacked (cutPile p P g Q s).sections := stacked_cut (by rw [hp] at hst; exact hst)
  have := sort_of_stacked _ _ (List.Perm.refl _) (fun x hx => ((built_iff x).1 (hb' x hx)).1) hch
  exact (mkPile_ok_iff _ _ _).2 ⟨by simp [cutPile], by rw [this]; exact hch, by rw [this]; rfl⟩

/-! ## Mesh and element data -/

omit [FloorRing K] in
omit [Field K] [LinearOrder K] [IsStrictOrderedRing K] in
theorem bottom_cut (hp : p.sections = P ++ g :: Q) : (cutPile p P g Q s).bottomElevation = p.bottomElevation := by
  simp only [Pile.bottomElevation, cutPile, hp]
  cases Q with
  | nil => simp [lower]
  | cons c b => simp [List.getLast?_append, List.getLast?_cons_cons]

omit [FloorRing K] in
theorem tip_le (h : Valid p) {tip : K} (ht : p.bottomElevation = some tip) {x : Section K} (hx : x ∈ p.sections) : tip ≤ x.bottom := by
  obtain ⟨hst, hbt, -⟩ := h.stack
  obtain ⟨f, -, g, hg, -, h2⟩ := Mesh.stack_bounds p.sections hbt hst x hx
  unfold Pile.bottomElevation at ht
  rw [hg, Option.map_some, Option.some.injEq] at ht
  rw [← ht]
  exact h2

/-- **C92, mesh.** -/
theorem C92_mesh (h : Valid p) (hp : p.sections = P ++ g :: Q) (h1 : g.bottom < s) {soil : Option (Soil.Profile K)}
    {x2mesh : List K} (hm : Meshed soil x2mesh s) (c : K) :
    Mesh.getCoordinates (cutPile p P g Q s) soil x2mesh c = Mesh.getCoordinates p soil x2mesh c := by
  unfold Mesh.getCoordinates Mesh.exactNodes
  rw [bottom_cut hp]
  cases ht : p.bottomElevation with
  | none => rfl
  | some tip =>
    have hle : tip ≤ s := (tip_le h ht (x := g) (by rw [hp]; simp)).trans h1.le
    have hprim : Mesh.primary (cutPile p P g Q s) tip soil x2mesh = Mesh.primary p tip soil x2mesh := by
      refine Py.uniqueDesc_congr _ _ (fun x => ?_)
      have hE : x ∈ Mesh.pileElevations (cutPile p P g Q s) ↔ x = s ∨ x ∈ Mesh.pileElevations p := by
        unfold Mesh.pileElevations
        rw [hp]
        simp only [cutPile, upper, lower, List.flatMap_append, List.flatMap_cons, List.mem_append, List.mem_cons]
        tauto
      have hs : s ∈ Mesh.soilElevations tip soil ∨ s ∈ x2mesh := by
        rcases hm with hm | ⟨sp, rfl, l, hl, hls⟩
        · exact Or.inr hm
        · left
          have he : s ∈ sp.layers.map (·.top) ++ sp.layers.map (·.bottom) := by
            rw [List.mem_append, List.mem_map, List.mem_map]
            exact hls.imp (fun e => ⟨l, hl, e.symm⟩) (fun e => ⟨l, hl, e.symm⟩)
          unfold Mesh.soilElevations
          simp only
          split_ifs
          · exact List.mem_filter.2 ⟨List.mem_cons_of_mem _ he, by simpa using hle⟩
          · exact he
      simp only [List.mem_append, hE]
      constructor
      · rintro (((rfl | h3) | h3) | h3)
        · exact hs.imp Or.inr id
        · exact Or.inl (Or.inl h3)
        · exact Or.inl (Or.inr h3)
        · exact Or.inr h3
      · rintro ((h3 | h3) | h3)
        · exact Or.inl (Or.inl (Or.inr h3))
        · exact Or.inl (Or.inr h3)
        · exact Or.inr h3
    simp only [Option.bind_eq_bind, Option.bind_some, hprim]

omit [Field K] [IsStrictOrderedRing K] [FloorRing K] in
/-- An element that the cut does not cross reads the same value of the section it lies in. -/
theorem parameter_cut {β : Type} (key : Section K → β) (hu : key (upper s g) = key g) (hl : key (lower s g) = key g)
    (hp : p.sections = P ++ g :: Q) (h1 : g.bottom < s) (h2 : s < g.top) {e : K × K} (he : s ≤ e.2 ∨ e.1 ≤ s) :
    Mesh.parameterOf (·.top) (·.bottom) key (cutPile p P g Q s).sections e =
      Mesh.parameterOf (·.top) (·.bottom) key p.sections e := by
  unfold Mesh.parameterOf
  rw [hp]
  simp only [cutPile, List.foldl_append, List.foldl_cons, hu, hl]
  congr 1
  by_cases hg : e.1 ≤ g.top ∧ g.bottom ≤ e.2
  · rw [if_pos (show e.1 ≤ g.top ∧ e.2 ≥ g.bottom from hg)]
    rcases he with hs | hs
    · rw [if_pos (show e.1 ≤ (upper s g).top ∧ e.2 ≥ (upper s g).bottom from ⟨hg.1, hs⟩)]
      split_ifs <;> rfl
    · rw [if_pos (show e.1 ≤ (lower s g).top ∧ e.2 ≥ (lower s g).bottom from ⟨hs, hg.2⟩)]
  · rw [if_neg (show ¬ (e.1 ≤ g.top ∧ e.2 ≥ g.bottom) from hg),
      if_neg (show ¬ (e.1 ≤ (lower s g).top ∧ e.2 ≥ (lower s g).bottom) from fun h3 => hg ⟨h3.1.trans h2.le, h3.2⟩),
      if_neg (show ¬ (e.1 ≤ (upper s g).top ∧ e.2 ≥ (upper s g).bottom) from fun h3 => hg ⟨h3.1, h1.le.trans h3.2⟩)]

omit [IsStrictOrderedRing K] [FloorRing K] in
theorem elem_cut (pi : K) (hp : p.sections = P ++ g :: Q) (h1 : g.bottom < s) (h2 : s < g.top) {e : K × K} (he : s ≤ e.2 ∨ e.1 ≤ s) :
    elemAt pi (cutPile p P g Q s) e = elemAt pi p e := by
  unfold elemAt
  rw [parameter_cut (·.inertia pi) rfl rfl hp h1 h2 he, parameter_cut (·.area pi) rfl rfl hp h1 h2 he,
    parameter_cut (·.width) rfl rfl hp h1 h2 he, parameter_cut (·.thickness) rfl rfl hp h1 h2 he]
  rfl

/-- No element crosses the cut. -/
theorem no_cross (h : Valid p) (hp : p.sections = P ++ g :: Q) (h1 : g.bottom < s) {soil : Option (Soil.Profile K)} {x2mesh : List K}
    (hm : Meshed soil x2mesh s) (hg : Spec.Mesh.OnGrid s) {c : K} (hc : 1 / 100 ≤ c) {C : Mesh.Coordinates K}
    (hC : Mesh.getCoordinates p soil x2mesh c = some C) {e : K × K} (he : e ∈ C.elements) : s ≤ e.2 ∨ e.1 ≤ s := by
  have hc0 : 0 < c := lt_of_lt_of_le (by norm_num) hc
  cases ht : p.bottomElevation with
  | none => simp [Mesh.getCoordinates, Mesh.exactNodes, ht] at hC
  | some tip =>
    have hle : tip ≤ s := (tip_le h ht (x := g) (by rw [hp]; simp)).trans h1.le
    refine Mesh.published_no_straddle p soil x2mesh c tip hc0 ht C hC e he s ?_ hg
    rcases hm with hm | ⟨sp, rfl, l, hl, hls⟩
    · exact Or.inr (Or.inr hm)
    · exact Or.inr (Or.inl ⟨sp, rfl, l, hl, hls, hle⟩)

/-- **C92, beam.** The analysis of a pile without soil, with a node at the cut anyway. -/
theorem C92_beam (pi : K) (ty : Kernel.ElementType) (h : Valid p) (hp : p.sections = P ++ g :: Q) (h1 : g.bottom < s) (h2 : s < g.top)
    {x2mesh : List K} (hm : s ∈ x2mesh) (hg : Spec.Mesh.OnGrid s) {c : K} (hc : 1 / 100 ≤ c) (bcs : List (BC.Cond K)) :
    solveModel pi ty (cutPile p P g Q s) x2mesh c bcs = solveModel pi ty p x2mesh c bcs := by
  unfold solveModel
  rw [C92_mesh h hp h1 (Or.inl hm)]
  cases hC : Mesh.getCoordinates p none x2mesh c with
  | none => rfl
  | some C =>
    simp only [Option.bind_eq_bind, Option.bind_some]
    unfold solveOn
    have : (fun i : Fin C.elements.length => elemAt pi (cutPile p P g Q s) C.elements[i.1]) =
        fun i : Fin C.elements.length => elemAt pi p C.elements[i.1] := by
      funext i
      exact elem_cut pi hp h1 h2 (no_cross h hp h1 (Or.inl hm) hg hc hC (List.getElem_mem _))
    rw [this]

/-! ## The section that an element reads -/

theorem of_takeWhile {α : Type} {f : α → Bool} {l : List α} {x : α} (h : x ∈ l.takeWhile f) : f x = true := by
  induction l with
  | nil => cases h
  | cons a l ih =>
    by_cases ha : f a = true
    · rw [List.takeWhile_cons_of_pos ha, List.mem_cons] at h
      rcases h with rfl | h
      · exact ha
      · exact ih h
    · rw [List.takeWhile_cons_of_neg ha] at h
      cases h

omit [Field K] [IsStrictOrderedRing K] [FloorRing K] in
/-- Two tables that read the same diameters. -/
def SameDiameters (table table' : List (K × Section K)) : Prop :=
  ∀ z, (Model.elementSection table' z).map (·.diameter) = (Model.elementSection table z).map (·.diameter)

/-- With the stable order an element reads the lowest of the sections that end at or above its top, or the uppermost
section. -/
theorem stable_section (h : Valid p) (z : K) :
    Model.elementSection (Model.stableRows p) z =
      match (p.sections.takeWhile (fun x => decide (z ≤ x.bottom))).getLast? with
      | some y => some y
      | none => p.sections.head?.bind (fun x => if z ≤ x.top then some x else none) := by
  obtain ⟨hst, hbt, hne⟩ := h.stack
  obtain ⟨sections, mat, hmk, hb⟩ := h
  have hrows : Model.SortedRows p (Model.stableRows p) := ⟨Py.sortedBy_perm _ _, Py.sortedBy_pairwise _ _⟩
  have hord := Model.stack_order p.sections hbt hst
  have happ := List.takeWhile_append_dropWhile (p := fun x : Section K => decide (z ≤ x.bottom)) (l := p.sections)
  have hall : ∀ x ∈ p.sections.takeWhile (fun x : Section K => decide (z ≤ x.bottom)), z ≤ x.bottom := fun x hx => by
    simpa using of_takeWhile hx
  rcases List.eq_nil_or_concat (p.sections.takeWhile (fun x : Section K => decide (z ≤ x.bottom))) with hT | ⟨A, y, hT⟩
  · rw [hT]
    simp only [List.getLast?_nil]
    cases hs : p.sections with
    | nil => exact absurd hs hne
    | cons x L =>
      have hx : x ∈ p.sections := by rw [hs]; simp
      have hxb : ¬ z ≤ x.bottom := by
        intro hle
        rw [hs, List.takeWhile_cons_of_pos (by simpa using hle)] at hT
        cases hT
      simp only [List.head?_cons, Option.bind_some]
      by_cases hz : z ≤ x.top
      · rw [if_pos hz]
        obtain ⟨t, ht, ht'⟩ := Props.Model.C09_own_or_above sections mat p hmk hb _ hrows x hx z (not_le.1 hxb) hz
        rcases ht' with rfl | ⟨h3, h4⟩
        · exact ht
        · exfalso
          rw [hs, List.pairwise_cons] at hord
          rw [hs, List.mem_cons] at h3
          rcases h3 with rfl | h3
          · exact (hbt t hx).ne h4
          · have := hord.1 t h3
            have := hbt t (by rw [hs]; exact List.mem_cons_of_mem _ h3)
            have := hbt x hx
            linarith
      · rw [if_neg hz]
        unfold Model.elementSection Model.mergeForward
        rw [Option.map_eq_none_iff, List.find?_eq_none]
        intro r hr
        rw [hrows.1.mem_iff, Model.mem_pileRows] at hr
        obtain ⟨f, hf, g, -, h3, -⟩ := Mesh.stack_bounds p.sections hbt hst r.2 hr.1
        rw [hs, List.head?_cons, Option.some.injEq] at hf
        subst hf
        have := hbt r.2 hr.1
        simp only [decide_eq_true_eq, not_le]
        rw [not_le] at hz
        rcases hr.2 with e | e <;> rw [e] <;> linarith
  · rw [List.concat_eq_append] at hT
    rw [hT]
    simp only [List.getLast?_concat]
    have hyz : z ≤ y.bottom := hall y (by rw [hT]; simp)
    rw [hT] at happ
    cases hD : p.sections.dropWhile (fun x => decide (z ≤ x.bottom)) with
    | cons x B =>
      rw [hD] at happ
      have hxb : ¬ z ≤ x.bottom := by
        have := List.head?_dropWhile_not (fun x : Section K => decide (z ≤ x.bottom)) p.sections
        rw [hD] at this
        simpa using this
      have hinf : [y, x] <:+: p.sections := ⟨A, B, by rw [← happ]; simp⟩
      have hxy : x.top = y.bottom := by simpa using List.IsChain.infix hst hinf
      exact (Props.Model.C09_violated_stable sections mat p hmk hb y x hinf z (not_le.1 hxb) (by rw [hxy]; exact hyz)).2
    | nil =>
      rw [hD, List.append_nil] at happ
      have hy : y ∈ p.sections := by rw [← happ]; simp
      have hmem : (y.bottom, y) ∈ Model.stableRows p := by
        rw [hrows.1.mem_iff, Model.mem_pileRows]
        exact ⟨hy, Or.inr rfl⟩
      obtain ⟨r, hr⟩ := Model.mergeForward_isSome (·.1) (Model.stableRows p) z _ hmem hyz
      unfold Model.elementSection
      rw [hr]
      simp only [Option.map_some, Option.some.injEq]
      have hr' := hr
      unfold Model.mergeForward at hr'
      rw [List.find?_eq_some_iff_append] at hr'
      obtain ⟨-, as, bs, hab, has⟩ := hr'
      have hasn : as = [] := by
        rw [List.eq_nil_iff_forall_not_mem]
        intro q hq
        have h3 := has q hq
        have hqm : q ∈ Model.stableRows p := by rw [hab]; simp [hq]
        rw [hrows.1.mem_iff, Model.mem_pileRows] at hqm
        have h4 : z ≤ q.2.bottom := hall q.2 (by rw [hT, happ]; exact hqm.1)
        have h5 := hbt q.2 hqm.1
        have h6 : z ≤ q.1 := by rcases hqm.2 with e | e <;> rw [e] <;> linarith
        simp [h6] at h3
      rw [hasn, List.nil_append] at hab
      have hsort := hrows.2
      rw [hab, List.pairwise_cons] at hsort
      rw [hab, List.mem_cons] at hmem
      have hle : r.1 ≤ y.bottom := by
        rcases hmem with e | e
        · rw [← e]
        · exact hsort.1 _ e
      have hrm : r ∈ Model.stableRows p := by rw [hab]; simp
      rw [hrows.1.mem_iff, Model.mem_pileRows] at hrm
      by_contra hne'
      rw [← happ, List.pairwise_append] at hord
      have hrA : r.2 ∈ A := by
        have := hrm.1
        rw [← happ, List.mem_append, List.mem_singleton] at this
        exact this.resolve_right hne'
      have h3 := hord.2.2 r.2 hrA y (by simp)
      have h4 := hbt y hy
      have h5 := hbt r.2 hrm.1
      rcases hrm.2 with e | e <;> rw [e] at hle <;> linarith

/-- With the stable order, an element in a section reads the section above, if there is one. -/
theorem stable_in (h : Valid p) (hp : p.sections = P ++ g :: Q) {z : K} (h1 : g.bottom < z) (h2 : z ≤ g.top) :
    Model.elementSection (Model.stableRows p) z = some (P.getLast?.getD g) := by
  obtain ⟨hst, hbt, -⟩ := h.stack
  have hord := Model.stack_order p.sections hbt hst
  rw [hp, List.pairwise_append] at hord
  have hP : ∀ x ∈ P, (fun x : Section K => decide (z ≤ x.bottom)) x = true := fun x hx =>
    decide_eq_true (h2.trans (hord.2.2 x hx g (List.mem_cons_self ..)))
  rw [stable_section h, hp, List.takeWhile_append_of_pos hP,
    List.takeWhile_cons_of_neg (a := g) (fun h3 => not_le.2 h1 (of_decide_eq_true h3)), List.append_nil]
  cases hl : P.getLast? with
  | some x => rfl
  | none =>
    rw [List.getLast?_eq_none_iff] at hl
    subst hl
    simp [h2]

/-- With the stable order, cutting a section changes what the elements of its lower part read: the diameter of the
section itself instead of that of the section above. -/
theorem stable_cut (h : Valid p) (hp : p.sections = P ++ g :: Q) (h1 : g.bottom < s) (h2 : s < g.top) (z : K) :
    (Model.elementSection (Model.stableRows (cutPile p P g Q s)) z).map (·.diameter) =
      if g.bottom < z ∧ z ≤ s then some g.diameter else (Model.elementSection (Model.stableRows p) z).map (·.diameter) := by
  have hv := C92_valid h hp h1 h2
  by_cases hz : g.bottom < z ∧ z ≤ s
  · rw [if_pos hz]
    have hp' : (cutPile p P g Q s).sections = (P ++ [upper s g]) ++ lower s g :: Q := by simp [cutPile]
    rw [stable_in hv hp' hz.1 hz.2]
    simp [upper]
  rw [if_neg hz, stable_section h, stable_section hv, hp]
  simp only [cutPile]
  by_cases hP : ∀ x ∈ P, (fun x : Section K => decide (z ≤ x.bottom)) x = true
  · rw [List.takeWhile_append_of_pos hP, List.takeWhile_append_of_pos hP]
    by_cases hg : z ≤ g.bottom
    · rw [List.takeWhile_cons_of_pos (a := g) (by simpa using hg), List.takeWhile_cons_of_pos (a := upper s g) (decide_eq_true (hg.trans h1.le)),
        List.takeWhile_cons_of_pos (a := lower s g) (decide_eq_true hg)]
      rcases List.eq_nil_or_concat (Q.takeWhile (fun x : Section K => decide (z ≤ x.bottom))) with hQ | ⟨A, y, hQ⟩
      · rw [hQ]
        simp [lower]
      · rw [hQ]
        simp only [List.concat_eq_append, ← List.cons_append, ← List.append_assoc, List.getLast?_concat]
    · have hs : ¬ z ≤ s := fun hs => hz ⟨not_le.1 hg, hs⟩
      rw [List.takeWhile_cons_of_neg (a := g) (by simpa using hg), List.append_nil,
        List.takeWhile_cons_of_neg (a := upper s g) (fun h3 => hs (of_decide_eq_true h3)), List.append_nil]
      cases hl : P.getLast? with
      | some x => rfl
      | none =>
        rw [List.getLast?_eq_none_iff] at hl
        subst hl
        simp only [List.nil_append, List.head?_cons, Option.bind_some, upper]
        split_ifs <;> rfl
  · push Not at hP
    obtain ⟨x, hx, hxf⟩ := hP
    have hlen : (P.takeWhile (fun x => decide (z ≤ x.bottom))).length ≠ P.length := by
      intro he
      have := (List.takeWhile_prefix (fun x : Section K => decide (z ≤ x.bottom)) (l := P)).eq_of_length he
      rw [← this] at hx
      exact hxf (of_takeWhile (f := fun x : Section K => decide (z ≤ x.bottom)) hx)
    rw [List.takeWhile_append, List.takeWhile_append, if_neg hlen, if_neg hlen]
    cases P with
    | nil => cases hx
    | cons a P => rfl

/-- With the stable order, cutting a section with no section of another diameter directly above changes no diameter. -/
theorem stable_same (h : Valid p) (hp : p.sections = P ++ g :: Q) (h1 : g.bottom < s) (h2 : s < g.top)
    (hd : ∀ x, P.getLast? = some x → x.diameter = g.diameter) :
    SameDiameters (Model.stableRows p) (Model.stableRows (cutPile p P g Q s)) := by
  intro z
  rw [stable_cut h hp h1 h2]
  split_ifs with hz
  · rw [stable_in h hp hz.1 (hz.2.trans h2.le)]
    cases hl : P.getLast? with
    | some x => simp [hd x hl]
    | none => rfl
  · rfl

omit [Field K] [IsStrictOrderedRing K] [FloorRing K] in
/-- If all sections have the same diameter it does not matter how the rows are sorted. -/
theorem one_diameter_cut (hp : p.sections = P ++ g :: Q) (h2 : s < g.top) (hd : ∀ x ∈ p.sections, x.diameter = g.diameter)
    {table table' : List (K × Section K)} (ht : Model.SortedRows p table) (ht' : Model.SortedRows (cutPile p P g Q s) table') :
    SameDiameters table table' := by
  intro z
  have hd' : ∀ x ∈ (cutPile p P g Q s).sections, x.diameter = g.diameter := by
    intro x hx
    simp only [cutPile, List.mem_append, List.mem_cons] at hx
    rcases hx with hx | rfl | rfl | hx
    · exact hd x (by rw [hp]; simp [hx])
    · rfl
    · rfl
    · exact hd x (by rw [hp]; simp [hx])
  unfold Model.elementSection Model.mergeForward
  cases he : table.find? (fun r => decide (z ≤ r.1)) with
  | none =>
    rw [List.find?_eq_none] at he
    have : table'.find? (fun r => decide (z ≤ r.1)) = none := by
      rw [List.find?_eq_none]
      intro r hr
      have hg : ¬ z ≤ g.top := by
        have := he (g.top, g) (by rw [ht.1.mem_iff, Model.mem_pileRows, hp]; simp)
        simpa using this
      rw [ht'.1.mem_iff, Model.mem_pileRows] at hr
      obtain ⟨hr, hk⟩ := hr
      simp only [cutPile, List.mem_append, List.mem_cons] at hr
      have hother : r.2 ∈ p.sections → ¬ decide (z ≤ r.1) = true := fun hm => by
        have := he r (by rw [ht.1.mem_iff, Model.mem_pileRows]; exact ⟨hm, hk⟩)
        simpa using this
      rcases hr with hr | hr | hr | hr
      · exact hother (by rw [hp]; simp [hr])
      · rw [hr] at hk
        simp only [decide_eq_true_eq]
        intro hle
        rcases hk with e | e
        · exact hg (by rw [e] at hle; exact hle)
        · exact hg (by rw [e] at hle; exact le_trans hle h2.le)
      · rw [hr] at hk
        simp only [decide_eq_true_eq]
        intro hle
        rcases hk with e | e
        · exact hg (by rw [e] at hle; exact le_trans hle h2.le)
        · have := he (g.bottom, g) (by rw [ht.1.mem_iff, Model.mem_pileRows, hp]; simp)
          rw [e] at hle
          exact this (by simpa [lower] using hle)
      · exact hother (by rw [hp]; simp [hr])
    rw [this]
  | some r =>
    have hrm := List.mem_of_find?_eq_some he
    have hrz := List.find?_some he
    cases he' : table'.find? (fun r => decide (z ≤ r.1)) with
    | some r' =>
      have hrm' := List.mem_of_find?_eq_some he'
      rw [ht'.1.mem_iff, Model.mem_pileRows] at hrm'
      rw [ht.1.mem_iff, Model.mem_pileRows] at hrm
      simp only [Option.map_some]
      rw [hd _ hrm.1, hd' _ hrm'.1]
    | none =>
      exfalso
      rw [List.find?_eq_none] at he'
      rw [ht.1.mem_iff, Model.mem_pileRows] at hrm
      obtain ⟨hm, hk⟩ := hrm
      rw [hp, List.mem_append, List.mem_cons] at hm
      have hin : r.2 ∈ (cutPile p P g Q s).sections → False := fun h3 =>
        he' r (by rw [ht'.1.mem_iff, Model.mem_pileRows]; exact ⟨h3, hk⟩) hrz
      rcases hm with hm | hm | hm
      · exact hin (by simp [cutPile, hm])
      · have := he' (g.top, upper s g) (by rw [ht'.1.mem_iff, Model.mem_pileRows]; exact ⟨by simp [cutPile], Or.inl rfl⟩)
        have h4 := he' (g.bottom, lower s g) (by rw [ht'.1.mem_iff, Model.mem_pileRows]; exact ⟨by simp [cutPile], Or.inr rfl⟩)
        simp only [decide_eq_true_eq] at this h4 hrz
        rcases hk with e | e <;> rw [e, hm] at hrz
        · exact this hrz
        · exact h4 hrz
      · exact hin (by simp [cutPile, hm])

end generic
/-! ## Springs -/

/-- What the springs depend on of the section of an element: its diameter. -/
noncomputable def norm (r : Row) : Row := { r with sec := r.sec.map (fun x => ⟨0, 0, x.diameter, 0⟩) }

section norm
variable (S : Input) (env : Draws) (l : SoilLayer) (r : Row)

/-- The same input with sections of which only the diameter is known. -/
noncomputable def normInput : Input := { S with rows := S.rows.map norm }

theorem sigTip_norm : sigTip (normInput S) = sigTip S := by
  simp only [sigTip, normInput, List.getLast?_map]
  cases S.rows.getLast? <;> rfl

theorem nodeArgs_norm (b : Bool) : nodeArgs (normInput S) l (norm r) b = nodeArgs S l r b := by
  rcases r with ⟨_, _, _, _, _ | x⟩ <;> rfl

theorem baseArgs_norm : baseArgs (normInput S) l (norm r) = baseArgs S l r := by
  unfold baseArgs
  rw [sigTip_norm]
  rcases r with ⟨_, _, _, _, _ | x⟩ <;> rfl

theorem tzNode_norm (m : AxialModel) (b : Bool) (e : SoilModel.Env) : tzNode (normInput S) l m (norm r) b e = tzNode S l m r b e := by
  rcases r with ⟨_, _, _, _, _ | x⟩ <;> rfl

theorem qzTip_norm (m : AxialModel) (e : SoilModel.Env) : qzTip (normInput S) l m (norm r) e = qzTip S l m r e := by
  unfold qzTip
  rw [sigTip_norm]
  rcases r with ⟨_, _, _, _, _ | x⟩ <;> rfl

theorem step_norm (i : ℕ) (A : Arrays) : step (normInput S) env l A (norm r, i) = step S env l A (r, i) := by
  have h1 : ∀ (b : Bool) (m : SoilModel.Model) (e : SoilModel.Env), pyNode (normInput S) l m (norm r) b e = pyNode S l m r b e := fun b m e => by
    unfold pyNode
    rw [nodeArgs_norm]
  have h2 : ∀ (b : Bool) (m : SoilModel.Model) (e : SoilModel.Env), mtNode (normInput S) l m (norm r) b e = mtNode S l m r b e := fun b m e => by
    unfold mtNode
    rw [nodeArgs_norm]
  have h3 : ∀ m : SoilModel.Model, hbTip (normInput S) l m (norm r) = hbTip S l m r := fun m => by
    unfold hbTip
    rw [baseArgs_norm]
  have h4 : ∀ m : SoilModel.Model, mbTip (normInput S) l m (norm r) = mbTip S l m r := fun m => by
    unfold mbTip
    rw [baseArgs_norm]
  unfold step axialStep lateralStep pyStep mtStep hbStep mbStep
  simp only [h1, h2, h3, h4, tzNode_norm, qzTip_norm]
  rfl

theorem selected_norm : selected (normInput S) l = (selected S l).map (fun x => (norm x.1, x.2)) := by
  unfold selected normInput
  rw [List.zipIdx_map, List.filter_map]
  rfl

/-- The springs depend on the sections through the diameters. -/
theorem create_norm : createSprings (normInput S) env = createSprings S env := by
  unfold createSprings fillArrays
  have : (fun A l => (selected (normInput S) l).foldlM (step (normInput S) env l) A) = fun A l => (selected S l).foldlM (step S env l) A := by
    funext A l
    rw [selected_norm, List.foldlM_map]
    congr 1
    funext A x
    exact step_norm S env l x.1 x.2 A
  rw [this]
  rfl

end norm

variable {p : Pile ℝ} {P Q : List (Section ℝ)} {g : Section ℝ} {s : ℝ}

theorem springs_cut (h : Valid p) (hp : p.sections = P ++ g :: Q) (h1 : g.bottom < s) (sp : SoilProfile) {x2mesh : List ℝ}
    (hm : Meshed (some sp.geometry) x2mesh s) (c : ℝ) (w : Switches) {table table' : List (ℝ × Section ℝ)}
    (ht : SameDiameters table table') (env : Draws) :
    modelSprings (cutPile p P g Q s) sp x2mesh c w table' env = modelSprings p sp x2mesh c w table env := by
  unfold modelSprings input Model.soilProperties
  have ha : (cutPile p P g Q s).tipArea Real.pi = p.tipArea Real.pi := by
    simp only [Pile.tipArea, cutPile, hp]
    cases Q with
    | nil => simp [lower, Section.area]
    | cons c b => simp [List.getLast?_append, List.getLast?_cons_cons]
  have hf : (cutPile p P g Q s).tipFootprint Real.pi = p.tipFootprint Real.pi := by
    simp only [Pile.tipFootprint, cutPile, hp]
    cases Q with
    | nil => simp [lower, Section.footprint]
    | cons c b => simp [List.getLast?_append, List.getLast?_cons_cons]
  rw [C92_mesh h hp h1 hm, bottom_cut hp, ha, hf]
  have hrow : ∀ r : Model.SoilRow ℝ, norm (rowOf table' r) = norm (rowOf table r) := by
    intro r
    have := ht r.element.1
    unfold rowOf norm
    simp only
    generalize Model.elementSection table' r.element.1 = a at this
    generalize Model.elementSection table r.element.1 = b at this
    rcases a with _ | a <;> rcases b with _ | b
    · rfl
    · cases this
    · cases this
    · simp only [Option.map_some, Option.some.injEq] at this ⊢
      rw [this]
  cases Mesh.getCoordinates p (some sp.geometry) x2mesh c with
  | none => rfl
  | some C =>
    cases (Model.soilRows sp.geometry C.elements).toOption with
    | none => rfl
    | some rows =>
      cases p.bottomElevation with
      | none => rfl
      | some tip =>
        cases p.tipArea Real.pi with
        | none => rfl
        | some a =>
          cases p.tipFootprint Real.pi with
          | none => rfl
          | some f =>
            simp only [Option.bind_eq_bind, Option.bind_some, Option.pure_def]
            rw [← create_norm, ← create_norm (S := { rows := rows.map (rowOf table), .. })]
            simp only [normInput, List.map_map]
            have : norm ∘ rowOf table' = norm ∘ rowOf table := funext hrow
            rw [this]

/-! ## Results -/

/-- **C92, springs and results of a Model with soil.** The cut lies where the mesh has a node anyway, and the tables of
`element_properties` read the same diameters. -/
theorem C92_results (h : Valid p) (hp : p.sections = P ++ g :: Q) (h1 : g.bottom < s) (h2 : s < g.top) (sp : SoilProfile)
    {x2mesh : List ℝ} (hm : Meshed (some sp.geometry) x2mesh s) (hg : Spec.Mesh.OnGrid s) {c : ℝ} (hc : 1 / 100 ≤ c) (w : Switches)
    {table table' : List (ℝ × Section ℝ)} (ht : SameDiameters table table') (env : Draws) :
    modelSprings (cutPile p P g Q s) sp x2mesh c w table' env = modelSprings p sp x2mesh c w table env ∧
    (∀ ty bcs, solveSoil ty (cutPile p P g Q s) sp x2mesh c w table' env bcs = solveSoil ty p sp x2mesh c w table env bcs) ∧
    Capacity.shaft (cutPile p P g Q s) sp x2mesh c w table' env = Capacity.shaft p sp x2mesh c w table env ∧
    Capacity.tip (cutPile p P g Q s) sp x2mesh c w table' env = Capacity.tip p sp x2mesh c w table env := by
  have hsp := springs_cut h hp h1 sp hm c w ht env
  refine ⟨hsp, fun ty bcs => ?_, ?_, ?_⟩
  · unfold solveSoil
    rw [C92_mesh h hp h1 hm, hsp]
    cases hC : Mesh.getCoordinates p (some sp.geometry) x2mesh c with
    | none => rfl
    | some C =>
      simp only [Option.bind_eq_bind, Option.bind_some]
      congr 1
      funext A
      unfold solveSoilOn
      have : (fun i : Fin C.elements.length => elemAt Real.pi (cutPile p P g Q s) C.elements[i.1]) =
          fun i : Fin C.elements.length => elemAt Real.pi p C.elements[i.1] := by
        funext i
        exact elem_cut Real.pi hp h1 h2 (no_cross h hp h1 hm hg hc hC (List.getElem_mem _))
      rw [this]
  · unfold Capacity.shaft
    rw [C92_mesh h hp h1 hm, hsp]
  · unfold Capacity.tip
    rw [hsp]

/-- **C92, stable order.** No section of another diameter lies directly above the one that is cut. -/
theorem C92_soil_partial (h : Valid p) (hp : p.sections = P ++ g :: Q) (h1 : g.bottom < s) (h2 : s < g.top)
    (hd : ∀ x, P.getLast? = some x → x.diameter = g.diameter) (sp : SoilProfile)
    {x2mesh : List ℝ} (hm : Meshed (some sp.geometry) x2mesh s) (hg : Spec.Mesh.OnGrid s) {c : ℝ} (hc : 1 / 100 ≤ c) (w : Switches)
    (env : Draws) :
    modelSprings (cutPile p P g Q s) sp x2mesh c w (Model.stableRows (cutPile p P g Q s)) env =
      modelSprings p sp x2mesh c w (Model.stableRows p) env ∧
    (∀ ty bcs, solveSoil ty (cutPile p P g Q s) sp x2mesh c w (Model.stableRows (cutPile p P g Q s)) env bcs =
      solveSoil ty p sp x2mesh c w (Model.stableRows p) env bcs) ∧
    Capacity.shaft (cutPile p P g Q s) sp x2mesh c w (Model.stableRows (cutPile p P g Q s)) env =
      Capacity.shaft p sp x2mesh c w (Model.stableRows p) env ∧
    Capacity.tip (cutPile p P g Q s) sp x2mesh c w (Model.stableRows (cutPile p P g Q s)) env =
      Capacity.tip p sp x2mesh c w (Model.stableRows p) env :=
  C92_results h hp h1 h2 sp hm hg hc w (stable_same h hp h1 h2 hd) env

/-- **C92, one diameter.** All sections have the same diameter (the wall thickness may vary); the rows of `pile.data` may
be sorted in any way. -/
theorem C92_one_diameter (h : Valid p) (hp : p.sections = P ++ g :: Q) (h1 : g.bottom < s) (h2 : s < g.top)
    (hd : ∀ x ∈ p.sections, x.diameter = g.diameter) (sp : SoilProfile)
    {x2mesh : List ℝ} (hm : Meshed (some sp.geometry) x2mesh s) (hg : Spec.Mesh.OnGrid s) {c : ℝ} (hc : 1 / 100 ≤ c) (w : Switches)
    {table table' : List (ℝ × Section ℝ)} (ht : Model.SortedRows p table) (ht' : Model.SortedRows (cutPile p P g Q s) table')
    (env : Draws) :
    modelSprings (cutPile p P g Q s) sp x2mesh c w table' env = modelSprings p sp x2mesh c w table env ∧
    (∀ ty bcs, solveSoil ty (cutPile p P g Q s) sp x2mesh c w table' env bcs = solveSoil ty p sp x2mesh c w table env bcs) ∧
    Capacity.shaft (cutPile p P g Q s) sp x2mesh c w table' env = Capacity.shaft p sp x2mesh c w table env ∧
    Capacity.tip (cutPile p P g Q s) sp x2mesh c w table' env = Capacity.tip p sp x2mesh c w table env :=
  C92_results h hp h1 h2 sp hm hg hc w (one_diameter_cut hp h2 hd ht ht') env

/-- **C92, weights.** -/
theorem C92_weights {K : Type} [Field K] [LinearOrder K] [IsStrictOrderedRing K] [FloorRing K] (pi : K)
    {p : Pile K} {P Q : List (Section K)} {g : Section K} {s : K} (h : Valid p) (hp : p.sections = P ++ g :: Q) (h1 : g.bottom < s)
    (h2 : s < g.top) (sp : Soil.Profile K) {x2mesh : List K} (hm : Meshed (some sp) x2mesh s) (hg : Spec.Mesh.OnGrid s) {c : K}
    (hc : 1 / 100 ≤ c) {C : Mesh.Coordinates K} (hC : Mesh.getCoordinates p (some sp) x2mesh c = some C) :
    Mesh.getCoordinates (cutPile p P g Q s) (some sp) x2mesh c = some C ∧
    OpenPile.Weight.effectivePileWeight pi (cutPile p P g Q s) sp C.elements = OpenPile.Weight.effectivePileWeight pi p sp C.elements ∧
    OpenPile.Weight.entrappedSoilWeight pi (cutPile p P g Q s) sp C.elements = OpenPile.Weight.entrappedSoilWeight pi p sp C.elements := by
  have hcut : ∀ e ∈ C.elements, s ≤ e.2 ∨ e.1 ≤ s := fun e he => no_cross h hp h1 hm hg hc hC he
  have hmap : ∀ (f f' : K × K → Option K) (els : List (K × K)), (∀ e ∈ els, f e = f' e) → els.mapM f = els.mapM f' := by
    intro f f' els he
    induction els with
    | nil => rfl
    | cons e L ih =>
      rw [List.mapM_cons, List.mapM_cons, he e (List.mem_cons_self ..), ih (fun e h3 => he e (List.mem_cons_of_mem _ h3))]
  refine ⟨by rw [C92_mesh h hp h1 hm, hC], ?_, ?_⟩
  · unfold OpenPile.Weight.effectivePileWeight
    rw [hmap _ (OpenPile.Weight.effectiveWeight pi p sp.waterLine) _ (fun e he => ?_)]
    unfold OpenPile.Weight.effectiveWeight OpenPile.Weight.elementVolume
    rw [parameter_cut (·.area pi) rfl rfl hp h1 h2 (hcut e he)]
    rfl
  · unfold OpenPile.Weight.entrappedSoilWeight
    rw [hmap _ (OpenPile.Weight.soilWeight pi p sp) _ (fun e he => ?_)]
    unfold OpenPile.Weight.soilWeight OpenPile.Weight.elementVolume
    rw [parameter_cut (·.entrappedArea pi) rfl rfl hp h1 h2 (hcut e he)]

/-! ## A pile that is wider below -/

theorem friction_scale {S S' : Input} {r r' : Row} {b : Bool} {fc ft fc' ft' : ℝ} (hl : S'.layers = S.layers)
    (hd : S.distributedAxial = true) (hd' : S'.distributedAxial = true) (e1 : r'.top = r.top) (e2 : r'.bottom = r.bottom) (e3 : r'.sigTop = r.sigTop)
    (e4 : r'.sigBottom = r.sigBottom) {x x' : Section ℝ} (hx : r.sec = some x) (hx' : r'.sec = some x')
    (hclay : ∀ l ∈ S.layers, ∃ m, l.axial = some (.clay m)) (H : Props.Capacity.Friction S r b fc ft)
    (H' : Props.Capacity.Friction S' r' b fc' ft') : fc' * x.diameter = fc * x'.diameter := by
  have ho : Props.Assemble.owners S' r' = Props.Assemble.owners S r := by
    unfold Props.Assemble.owners
    rw [hl, e1, e2]
  have hno : ∀ l, Props.Assemble.owners S r = [l] → ∃ m, l.axial = some (.clay m) := by
    intro l h3
    have : l ∈ Props.Assemble.owners S r := by rw [h3]; exact List.mem_singleton.2 rfl
    exact hclay l (List.mem_filter.1 this).1
  cases H with
  | outside h3 =>
    have h3' := ho.trans h3
    cases H' with
    | outside => ring
    | off l h4 _ => rw [h3'] at h4; cases h4
    | clay l m y sig Su f h4 => rw [h3'] at h4; cases h4
    | sand l m y sig de lim f h4 => rw [h3'] at h4; cases h4
  | off l h3 h4 =>
    obtain ⟨m, hm⟩ := hno l h3
    rcases h4 with h4 | h4
    · rw [h4] at hm; cases hm
    · rw [h4] at hd; cases hd
  | sand l m y sig de lim f h3 h4 =>
    obtain ⟨m, hm⟩ := hno l h3
    rw [h4] at hm; cases hm
  | clay l m y sig Su f h3 h4 h5 h6 h7 h8 h9 h10 h11 =>
    have h3' := ho.trans h3
    cases H' with
    | outside h4' => rw [h3'] at h4'; cases h4'
    | off l' h4' h5' =>
      rw [h3'] at h4'
      cases h4'
      rcases h5' with h5' | h5'
      · rw [h4] at h5'; cases h5'
      · rw [h5'] at hd'; cases hd'
    | sand l' m' y' sig' de lim f' h4' h5' =>
      rw [h3'] at h4'
      cases h4'
      rw [h4] at h5'; cases h5'
    | clay l' m' y' sig' Su' f' h4' h5' h6' h7' h8' h9' h10' h11' h12' =>
      rw [h3'] at h4'
      cases h4'
      rw [h4] at h5'
      cases h5'
      rw [e3, e4, h6] at h7'
      cases h7'
      rw [e1, e2, h9] at h10'
      cases h10'
      rw [hx] at h7
      cases h7
      rw [hx'] at h8'
      cases h8'
      rw [h11, h12']
      ring

theorem friction_pos {S : Input} {r : Row} {b : Bool} {fc ft : ℝ} {l : SoilLayer} {m : Axial.ClayAxial}
    (hl : Props.Assemble.owners S r = [l]) (hm : l.axial = some (.clay m)) (htm : 0 < m.tMul) (hd : S.distributedAxial = true)
    (H : Props.Capacity.Friction S r b fc ft) : 0 < fc := by
  cases H with
  | outside h3 => rw [hl] at h3; cases h3
  | off l' h3 h4 =>
    rw [hl] at h3
    cases h3
    rcases h4 with h4 | h4
    · rw [h4] at hm; cases hm
    · rw [h4] at hd; cases hd
  | sand l' m' y sig de lim f h3 h4 =>
    rw [hl] at h3
    cases h3
    rw [h4] at hm; cases hm
  | clay l' m' y sig Su f h3 h4 h5 h6 h7 h8 h9 h10 h11 h12 =>
    rw [hl] at h3
    cases h3
    rw [h4] at hm
    cases hm
    have hsig : 0 < (if sig = 0 then 1 / 1000 else sig : ℝ) := by
      split_ifs with h0
      · norm_num
      · exact lt_of_le_of_ne h8 (Ne.symm h0)
    have hf : 0 < f := by
      rw [h11]
      exact mul_pos (lt_min (Props.Friction.adhesion_pos (div_pos h10 hsig)) one_pos) h10
    have hsd : 0 < Props.Capacity.sides (Props.AxialModel.PluggedC m.plugging) := by
      unfold Props.Capacity.sides
      split_ifs <;> norm_num
    positivity

/-! ## A cut where the mesh has no node otherwise -/

section extra
variable {K : Type} [Field K] [LinearOrder K] [IsStrictOrderedRing K] [FloorRing K]

omit [IsStrictOrderedRing K] in
/-- The joint of the two sections is a node, whether or not it is asked for. -/
theorem mesh_extra (p : Pile K) (P Q : List (Section K)) (g : Section K) (s : K) (soil : Option (Soil.Profile K)) (x2mesh : List K) (c : K) :
    Mesh.getCoordinates (cutPile p P g Q s) soil (s :: x2mesh) c = Mesh.getCoordinates (cutPile p P g Q s) soil x2mesh c := by
  unfold Mesh.getCoordinates Mesh.exactNodes
  have hprim : ∀ tip, Mesh.primary (cutPile p P g Q s) tip soil (s :: x2mesh) = Mesh.primary (cutPile p P g Q s) tip soil x2mesh := by
    intro tip
    refine Py.uniqueDesc_congr _ _ (fun x => ?_)
    have hE : s ∈ Mesh.pileElevations (cutPile p P g Q s) := by
      unfold Mesh.pileElevations
      rw [List.mem_flatMap]
      exact ⟨upper s g, by simp [cutPile], by simp [upper]⟩
    simp only [List.mem_append, List.mem_cons]
    constructor
    · rintro (h3 | rfl | h3)
      · exact Or.inl h3
      · exact Or.inl (Or.inl hE)
      · exact Or.inr h3
    · rintro (h3 | h3)
      · exact Or.inl h3
      · exact Or.inr (Or.inr h3)
  simp only [hprim]

variable {p : Pile K} {P Q : List (Section K)} {g : Section K} {s : K}

/-- **C92, nodes.** Describing a part of the pile as two sections has the effect of asking for a node at the joint. -/
theorem C92_node (h : Valid p) (hp : p.sections = P ++ g :: Q) (h1 : g.bottom < s) (soil : Option (Soil.Profile K))
    (x2mesh : List K) (c : K) :
    Mesh.getCoordinates (cutPile p P g Q s) soil x2mesh c = Mesh.getCoordinates p soil (s :: x2mesh) c := by
  rw [← mesh_extra, C92_mesh h hp h1 (Or.inl (List.mem_cons_self ..))]

/-- **C92, beam, any cut.** The analysis without soil is the one with a node asked for at the joint. -/
theorem C92_beam_node (pi : K) (ty : Kernel.ElementType) (h : Valid p) (hp : p.sections = P ++ g :: Q) (h1 : g.bottom < s) (h2 : s < g.top)
    (x2mesh : List K) (hg : Spec.Mesh.OnGrid s) {c : K} (hc : 1 / 100 ≤ c) (bcs : List (BC.Cond K)) :
    solveModel pi ty (cutPile p P g Q s) x2mesh c bcs = solveModel pi ty p (s :: x2mesh) c bcs := by
  rw [← C92_beam pi ty h hp h1 h2 (List.mem_cons_self ..) hg hc bcs]
  unfold solveModel
  rw [mesh_extra]

/-- **C92, beam, any cut, tables.** The analysis of a pile without soil gives the same reactions, and the same displacements and
section forces at every node common to both meshes, for boundary conditions at section ends or listed elevations away from
the joint. -/
theorem C92_beam_any (pi : K) (hpi : 0 < pi) (ty : Kernel.ElementType) (uw E nu : K) (mat : Material K)
    (hmat : mkMaterial uw E nu = some mat) (hnu : ty = .timoshenko → -(3 / 4) ≤ nu)
    (sections : List (Section K)) (hb : ∀ x ∈ sections, Spec.Pile.Built x ∧ x.thickness < x.diameter)
    (hmk : mkPile sections mat = .ok p) {top tip : K} (htop : p.topElevation = some top)
    (htip : p.bottomElevation = some tip) (hp : p.sections = P ++ g :: Q) (h1 : g.bottom < s) (h2 : s < g.top)
    (x2mesh : List K) {c : K} (hc : 1 / 100 ≤ c)
    (hgrid : ∀ r, Spec.Mesh.Required p tip none (s :: x2mesh) r → Spec.Mesh.OnGrid r)
    (hin : ∀ x ∈ s :: x2mesh, tip ≤ x ∧ x ≤ top) (bcs : List (BC.Cond K))
    (hbc : ∀ b ∈ bcs, |b.elevation| ≤ 300 ∧ Props.Analysis.Clear p tip none x2mesh b.elevation ∧
      Props.Analysis.Clear p tip none (s :: x2mesh) b.elevation) :
    (solveModel pi ty p x2mesh c bcs = none ∧ solveModel pi ty (cutPile p P g Q s) x2mesh c bcs = none) ∨
    ∃ C C' T T', Mesh.getCoordinates p none x2mesh c = some C ∧ Mesh.getCoordinates (cutPile p P g Q s) none x2mesh c = some C' ∧
      solveModel pi ty p x2mesh c bcs = some T ∧ solveModel pi ty (cutPile p P g Q s) x2mesh c bcs = some T' ∧
      T.reactions = T'.reactions ∧
      ∀ x, x ∈ C.nodes → x ∈ C'.nodes → ∀ r, ((x, r) ∈ T.disp ↔ (x, r) ∈ T'.disp) ∧
        ((x, r) ∈ T.forces ↔ (x, r) ∈ T'.forces) := by
  have hv : Valid p := ⟨sections, mat, hmk, fun x hx => (hb x hx).1⟩
  rw [C92_node hv hp h1, C92_beam_node pi ty hv hp h1 h2 x2mesh (hgrid s (Or.inr (Or.inr (List.mem_cons_self ..)))) hc bcs]
  refine Props.Analysis.C55_model_partial pi hpi ty uw E nu mat hmat hnu sections hb p hmk top tip htop htip x2mesh (s :: x2mesh) c c
    hc hc (fun r hr => hgrid r ?_) hgrid (fun x hx => hin x (List.mem_cons_of_mem _ hx)) hin bcs hbc
  exact hr.imp_right (Or.imp_right (List.mem_cons_of_mem _))

end extra

/-- **C92, soil, any cut.** The Model is the one with a node asked for at the joint: same springs, analyses and capacities. -/
theorem C92_soil_node (h : Valid p) (hp : p.sections = P ++ g :: Q) (h1 : g.bottom < s) (h2 : s < g.top) (sp : SoilProfile)
    (x2mesh : List ℝ) (hg : Spec.Mesh.OnGrid s) {c : ℝ} (hc : 1 / 100 ≤ c) (w : Switches)
    {table table' : List (ℝ × Section ℝ)} (ht : SameDiameters table table') (env : Draws) :
    modelSprings (cutPile p P g Q s) sp x2mesh c w table' env = modelSprings p sp (s :: x2mesh) c w table env ∧
    (∀ ty bcs, solveSoil ty (cutPile p P g Q s) sp x2mesh c w table' env bcs = solveSoil ty p sp (s :: x2mesh) c w table env bcs) ∧
    Capacity.shaft (cutPile p P g Q s) sp x2mesh c w table' env = Capacity.shaft p sp (s :: x2mesh) c w table env ∧
    Capacity.tip (cutPile p P g Q s) sp x2mesh c w table' env = Capacity.tip p sp (s :: x2mesh) c w table env := by
  obtain ⟨r1, r2, r3, r4⟩ := C92_results h hp h1 h2 sp (x2mesh := s :: x2mesh) (Or.inl (List.mem_cons_self ..)) hg hc w ht env
  have hs : modelSprings (cutPile p P g Q s) sp (s :: x2mesh) c w table' env = modelSprings (cutPile p P g Q s) sp x2mesh c w table' env := by
    unfold modelSprings input Model.soilProperties
    rw [mesh_extra]
  refine ⟨by rw [← r1, hs], fun ty bcs => ?_, ?_, ?_⟩
  · rw [← r2]
    unfold solveSoil
    rw [hs, mesh_extra]
  · rw [← r3]
    unfold Capacity.shaft
    rw [hs, mesh_extra]
  · rw [← r4]
    unfold Capacity.tip
    rw [hs]

theorem top_cut {K : Type} [Field K] [LinearOrder K] {p : Pile K} {P Q : List (Section K)} {g : Section K} {s : K}
    (hp : p.sections = P ++ g :: Q) : (cutPile p P g Q s).topElevation = p.topElevation := by
  simp only [Pile.topElevation, cutPile, hp]
  cases P <;> simp [upper]

/-- The Model with the cut pile is as good as the given one. -/
theorem C92_setup {K : Type} [Field K] [LinearOrder K] [IsStrictOrderedRing K] [FloorRing K] {p : Pile K} {sp : Soil.Profile K}
    {x2mesh : List K} {c top tip : K} (h : Weight.Setup p sp x2mesh c top tip) {P Q : List (Section K)} {g : Section K} {s : K}
    (hp : p.sections = P ++ g :: Q) (h1 : g.bottom < s) (h2 : s < g.top) (hg : Spec.Mesh.OnGrid s) :
    Weight.Setup (cutPile p P g Q s) sp x2mesh c top tip where
  coarse := h.coarse
  tip_eq := by rw [bottom_cut hp]; exact h.tip_eq
  built := h.built
  exact := h.exact
  first := h.first
  last := h.last
  grid := by
    rintro r (⟨x, hx, he⟩ | hr)
    · simp only [cutPile, List.mem_append, List.mem_cons] at hx
      have hold : ∀ y ∈ p.sections, (r = y.top ∨ r = y.bottom) → Spec.Mesh.OnGrid r := fun y hy e => h.grid r (Or.inl ⟨y, hy, e⟩)
      rcases hx with hx | rfl | rfl | hx
      · exact hold x (by rw [hp]; simp [hx]) he
      · rcases he with he | he
        · exact hold g (by rw [hp]; simp) (Or.inl he)
        · rw [he]; exact hg
      · rcases he with he | he
        · rw [he]; exact hg
        · exact hold g (by rw [hp]; simp) (Or.inr he)
      · exact hold x (by rw [hp]; simp [hx]) he
    · exact h.grid r (Or.inr hr)
  ground := h.ground
  extra := h.extra
  sections := by
    intro x hx
    have hgb := h.sections g (by rw [hp]; simp)
    simp only [cutPile, List.mem_append, List.mem_cons] at hx
    rcases hx with hx | rfl | rfl | hx
    · exact h.sections x (by rw [hp]; simp [hx])
    · exact ⟨hgb.1.trans h1.le, h2⟩
    · exact ⟨hgb.1, h1⟩
    · exact h.sections x (by rw [hp]; simp [hx])
  pile := C92_valid h.pile hp h1 h2
  head := by rw [top_cut hp]; exact h.head
  below := h.below
  inside := h.inside

theorem span_pos {z : ℕ → ℝ} {n i : ℕ} (hz : Extract.Descending z n) (hn : 0 < n) (hi : i ≤ n) : 0 < Props.Capacity.span z n i := by
  unfold Props.Capacity.span
  split_ifs with h0 h3
  · linarith [hz 0 hn]
  · have := hz (n - 1) (by omega)
    rw [Nat.sub_add_cancel hn] at this
    linarith
  · have e1 := hz (i - 1) (by omega)
    rw [Nat.sub_add_cancel (by omega)] at e1
    linarith [hz i (by omega)]

/-- **Violation of C92.** A pile whose section `g` is wider than the section `h` above it, in clay with axial springs; the
order of tied rows is the stable one.  Describing `g` as two sections raises the shaft resistance that the Model reports,
although the mesh has a node at the joint anyway: the elements below the joint take the perimeter of `g`, those of `g`
uncut that of `h`. -/
theorem C92_violated_shaft {sp : SoilProfile} {x2mesh : List ℝ} {c top tipz : ℝ} (hset : Weight.Setup p sp.geometry x2mesh c top tipz)
    {h : Section ℝ} (hp : p.sections = P ++ h :: g :: Q) (hd : h.diameter < g.diameter) (h1 : g.bottom < s) (h2 : s < g.top)
    (hm : Meshed (some sp.geometry) x2mesh s) (hs : s ≤ sp.topElevation) (w : Switches) (hw : w.distributedAxial = true)
    {env : Draws} (henv : Props.Capacity.GoodDraws env) (henv' : Props.Capacity.GoodTip env) (henv'' : Props.Capacity.GoodLateral env)
    (hclay : ∀ l ∈ sp.layers, ∃ m, l.axial = some (.clay m) ∧ Props.Capacity.Sound (l.top - l.bottom) (.clay m) ∧ 0 < m.tMul)
    (hlat : ∀ l ∈ sp.layers, ∀ m, l.lateral = some m → ∀ x ∈ p.sections, Spec.Sound.Lateral x.diameter (sp.topElevation - tipz) m) :
    ∃ v v', Capacity.shaft p sp x2mesh c w (Model.stableRows p) env = some v ∧
      Capacity.shaft (cutPile p (P ++ [h]) g Q s) sp x2mesh c w (Model.stableRows (cutPile p (P ++ [h]) g Q s)) env = some v' ∧
      v.1 < v'.1 := by
  have hv : Valid p := hset.pile
  have hp' : p.sections = (P ++ [h]) ++ g :: Q := by rw [hp]; simp
  have htip : tipz ≤ s := (tip_le hv hset.tip_eq (x := g) (by rw [hp]; simp)).trans h1.le
  have hreq : Spec.Mesh.Required p tipz (some sp.geometry) x2mesh s := by
    rcases hm with hm | ⟨q, hq, l, hl, hls⟩
    · exact Or.inr (Or.inr hm)
    · exact Or.inr (Or.inl ⟨q, hq, l, hl, hls, htip⟩)
  have hgrid := hset.grid s hreq
  set q := cutPile p (P ++ [h]) g Q s with hq
  have hset' : Weight.Setup q sp.geometry x2mesh c top tipz := C92_setup hset hp' h1 h2 hgrid
  have hsound : ∀ l ∈ sp.layers, ∀ m, l.axial = some m → Props.Capacity.Sound (l.top - l.bottom) m := by
    intro l hl m hm'
    obtain ⟨m', e, h3, -⟩ := hclay l hl
    rw [hm'] at e
    cases e
    exact h3
  have hlat' : ∀ l ∈ sp.layers, ∀ m, l.lateral = some m → ∀ x ∈ q.sections, Spec.Sound.Lateral x.diameter (sp.topElevation - tipz) m := by
    intro l hl m hm' x hx
    simp only [hq, cutPile, List.mem_append, List.mem_cons] at hx
    have hold : ∀ y ∈ p.sections, Spec.Sound.Lateral y.diameter (sp.topElevation - tipz) m := hlat l hl m hm'
    rcases hx with hx | rfl | rfl | hx
    · exact hold x (by rw [hp', List.mem_append]; exact Or.inl (List.mem_append.2 (by simpa using hx)))
    · exact hold g (by rw [hp]; simp)
    · exact hold g (by rw [hp]; simp)
    · exact hold x (by rw [hp]; simp [hx])
  have hr : ∀ y : Pile ℝ, Model.SortedRows y (Model.stableRows y) := fun y => ⟨Py.sortedBy_perm _ _, Py.sortedBy_pairwise _ _⟩
  obtain ⟨C, S, water, fc, ft, A, hC, hS, -, -, hlay, -, -, hrows, -, hf, hA⟩ :=
    Props.Capacity.C64_setup hset w (hr p) henv henv' henv'' hsound hlat
  obtain ⟨C', S', water', fc', ft', A', hC', hS', -, -, hlay', -, -, hrows', -, hf', hA'⟩ :=
    Props.Capacity.C64_setup hset' w (hr q) henv henv' henv'' hsound hlat'
  obtain ⟨C₁, e₁, hel, hsh⟩ := Props.Capacity.C56_model_shaft_partial hset w _ hS hA henv hf
  obtain ⟨C₂, e₂, hel', hsh'⟩ := Props.Capacity.C56_model_shaft_partial hset' w _ hS' hA' henv hf'
  rw [hq, C92_mesh hv hp' h1 hm] at hC' e₂
  rw [hC, Option.some.injEq] at hC' e₁ e₂
  subst hC' e₁ e₂
  obtain ⟨C₃, e₃, hmf⟩ := Weight.mesh_facts hset
  rw [hC, Option.some.injEq] at e₃
  subst e₃
  obtain ⟨hz, hnl⟩ := Props.Capacity.elevations_descending (sp := sp) hmf
  -- the rows of both Models differ in the sections only
  have hpair : ∀ (i : ℕ) (r r' : Row), S.rows[i]? = some r → S'.rows[i]? = some r' → r'.top = r.top ∧ r'.bottom = r.bottom ∧ r'.sigTop = r.sigTop ∧
      r'.sigBottom = r.sigBottom ∧ r.sec = Model.elementSection (Model.stableRows p) r.top ∧
      r'.sec = Model.elementSection (Model.stableRows q) r.top := by
    have hS1 := hS
    have hS2 := hS'
    simp only [input, Option.bind_eq_bind, Option.bind_eq_some_iff, Option.pure_def, Option.some.injEq] at hS1 hS2
    obtain ⟨rows, a1, -, -, -, -, -, -, rfl⟩ := hS1
    obtain ⟨rows', a2, -, -, -, -, -, -, rfl⟩ := hS2
    have : rows' = rows := by
      unfold Model.soilProperties at a1 a2
      rw [hq, C92_mesh hv hp' h1 hm, hC] at a2
      rw [hC] at a1
      exact Option.some.inj (a2.symm.trans a1)
    subst this
    intro i r r' hi hi'
    rw [List.getElem?_map] at hi hi'
    cases hri : rows'[i]? with
    | none => rw [hri] at hi; cases hi
    | some x =>
      rw [hri, Option.map_some, Option.some.injEq] at hi hi'
      subst hi hi'
      exact ⟨rfl, rfl, rfl, rfl, rfl, rfl⟩
  have hax : S.distributedAxial = true ∧ S'.distributedAxial = true := by
    have hS1 := hS
    have hS2 := hS'
    simp only [input, Option.bind_eq_bind, Option.bind_eq_some_iff, Option.pure_def, Option.some.injEq] at hS1 hS2
    obtain ⟨rows, -, -, -, -, -, -, -, rfl⟩ := hS1
    obtain ⟨rows', -, -, -, -, -, -, -, rfl⟩ := hS2
    exact ⟨hw, hw⟩
  have hlen : S.rows.length = C.elements.length := by rw [hel, List.length_map]
  have hlen' : S'.rows.length = C.elements.length := by rw [hel', List.length_map]
  have hpos : ∀ x ∈ p.sections, 0 < x.diameter := by
    obtain ⟨sections, mat, hmk, hb⟩ := hv
    obtain ⟨-, hmem⟩ := Mesh.mkPile_sections sections mat p hmk
    intro x hx
    exact ((built_iff x).1 (hb x ((hmem x).1 hx))).2.1
  -- comparison of one friction
  have hcmp : ∀ i, i < C.elements.length → ∃ r, S.rows[i]? = some r ∧ ∀ b, fc i b ≤ fc' i b ∧ (r.top = s → fc i b < fc' i b) := by
    intro i hi
    have hi1 : S.rows[i]? = some (S.rows[i]'(by omega)) := List.getElem?_eq_getElem _
    have hi2 : S'.rows[i]? = some (S'.rows[i]'(by omega)) := List.getElem?_eq_getElem _
    refine ⟨_, hi1, fun b => ?_⟩
    generalize (S.rows[i]'(by omega)) = r at hi1 ⊢
    generalize (S'.rows[i]'(by omega)) = r' at hi2
    obtain ⟨q1, q2, q3, q4, q5, q6⟩ := hpair i r r' hi1 hi2
    obtain ⟨hrb, ⟨x, hx, hxs⟩, hro⟩ := hrows r (List.mem_of_getElem? hi1)
    obtain ⟨-, ⟨x', hx', hxs'⟩, -⟩ := hrows' r' (List.mem_of_getElem? hi2)
    have hsc := friction_scale (b := b) (by rw [hlay', hlay]) hax.1 hax.2 q1 q2 q3 q4 hxs hxs'
      (fun l hl => by rw [hlay] at hl; exact (hclay l hl).imp (fun m h3 => h3.1)) (hf i r b hi1) (hf' i r' b hi2)
    have hfn := (Props.Capacity.friction_ends hA henv hi1 (hf i r b hi1)).2.2.1
    have hD := hpos x hx
    have hcut := stable_cut hv hp' h1 h2 r.top
    rw [← hq, ← q6, ← q5, hxs, hxs', Option.map_some, Option.map_some] at hcut
    by_cases hin : g.bottom < r.top ∧ r.top ≤ s
    · rw [if_pos hin, Option.some.injEq] at hcut
      have hxh : x = h := by
        have := stable_in hv hp' hin.1 (hin.2.trans h2.le)
        rw [← q5, hxs] at this
        simpa using this
      rw [hxh] at hsc hD
      rw [hcut] at hsc
      constructor
      · by_contra hlt
        rw [not_le] at hlt
        nlinarith
      · intro hrs
        obtain ⟨⟨l, hl⟩, -⟩ := hro (by rw [hrs]; exact hs)
        have hlm : l ∈ sp.layers := by
          have : l ∈ Props.Assemble.owners S r := by rw [hl]; exact List.mem_singleton.2 rfl
          rw [← hlay]
          exact (List.mem_filter.1 this).1
        obtain ⟨m, hm1, -, hm2⟩ := hclay l hlm
        have hfp := friction_pos hl hm1 hm2 hax.1 (hf i r b hi1)
        by_contra hlt
        rw [not_lt] at hlt
        nlinarith
    · rw [if_neg hin, Option.some.injEq] at hcut
      rw [hcut] at hsc
      have : fc' i b = fc i b := mul_right_cancel₀ hD.ne' hsc
      exact ⟨this.ge, fun hrs => absurd ⟨by rw [hrs]; exact h1, hrs.le⟩ hin⟩
  -- an element that begins at the joint
  have hsn : s ∈ C.nodes := by
    obtain ⟨C₄, e₄, -, -, h5⟩ := Mesh.C05_published_nodes p (some sp.geometry) x2mesh c tipz (lt_of_lt_of_le (by norm_num) hset.coarse) hset.tip_eq
    rw [hC, Option.some.injEq] at e₄
    subst e₄
    exact h5 s hreq hgrid
  obtain ⟨k, hk, hks⟩ := List.mem_iff_getElem.1 hsn
  have hkn : k < C.elements.length := by
    by_contra hge
    have hke : k = C.nodes.length - 1 := by omega
    have hl := hmf.last
    rw [List.getLast?_eq_getElem?, ← hke, List.getElem?_eq_getElem hk, hks, Option.some.injEq] at hl
    have := tip_le hv hset.tip_eq (x := g) (by rw [hp]; simp)
    linarith
  obtain ⟨rk, hrk, hcmpk⟩ := hcmp k hkn
  have hrks : rk.top = s := by
    have e5 : C.elements[k]? = some (rk.top, rk.bottom) := by rw [hel, List.getElem?_map, hrk]; rfl
    rw [hmf.pairs, Mesh.pairs, List.getElem?_zip_eq_some, List.getElem?_eq_getElem hk, hks] at e5
    exact (Option.some.inj e5.1).symm
  have hn : 0 < C.elements.length := by omega
  refine ⟨_, _, hsh, hsh', ?_⟩
  simp only
  refine Finset.sum_lt_sum (fun i hi => ?_) ⟨k, Finset.mem_range.2 hkn, ?_⟩
  · obtain ⟨r, -, h5⟩ := hcmp i (Finset.mem_range.1 hi)
    have hi := Finset.mem_range.1 hi
    have a1 := span_pos hz hn hi.le
    have a2 := span_pos hz hn (show i + 1 ≤ C.elements.length from hi)
    have b1 := (h5 false).1
    have b2 := (h5 true).1
    have := mul_le_mul_of_nonneg_right b1 (half_pos a1).le
    have := mul_le_mul_of_nonneg_right b2 (half_pos a2).le
    linarith
  · have a1 := span_pos hz hn hkn.le
    have a2 := span_pos hz hn (show k + 1 ≤ C.elements.length from hkn)
    have b1 := (hcmpk false).2 hrks
    have b2 := (hcmpk true).2 hrks
    have := mul_lt_mul_of_pos_right b1 (half_pos a1)
    have := mul_lt_mul_of_pos_right b2 (half_pos a2)
    linarith

/-! ## Cases -/

theorem tube_valid : Valid Creation.tube := (Props.Assemble.setup_example none none).pile

/-- The tube in clay, described as two sections that meet at -4 m: the analysis is the one with a node asked for at -4 m. -/
example (w : Switches) : ∀ ty bcs,
    solveSoil ty (cutPile Creation.tube [] ⟨1, -10, 2, 1 / 20⟩ [] (-4)) (Creation.soil (.matlock (Creation.clay true))) [] 1 w
      (Model.stableRows (cutPile Creation.tube [] ⟨1, -10, 2, 1 / 20⟩ [] (-4))) Props.Assemble.drawsExample bcs =
    solveSoil ty Creation.tube (Creation.soil (.matlock (Creation.clay true))) [-4] 1 w (Model.stableRows Creation.tube)
      Props.Assemble.drawsExample bcs :=
  (C92_soil_node tube_valid rfl (by norm_num) (by norm_num) _ [] ⟨-40000, by norm_num⟩ (by norm_num) w
    (stable_same tube_valid rfl (by norm_num) (by norm_num) (fun x hx => by cases hx)) _).2.1

/-- The same Model can be created. -/
example (w : Switches) : ∃ A, modelSprings (cutPile Creation.tube [] ⟨1, -10, 2, 1 / 20⟩ [] 0) (Creation.soil (.matlock (Creation.clay true))) [] 1 w
    (Model.stableRows (cutPile Creation.tube [] ⟨1, -10, 2, 1 / 20⟩ [] 0)) Props.Assemble.drawsExample = some A := by
  obtain ⟨C, S, water, fc, ft, A, -, hS, -, -, -, -, -, -, -, -, hA⟩ := Creation.created (Creation.sound_clay true) w
  rw [(C92_soil_partial (s := 0) tube_valid rfl (by norm_num) (by norm_num) (fun x hx => by cases hx) _
    (Or.inr ⟨_, rfl, _, List.mem_singleton.2 rfl, Or.inl rfl⟩) ⟨0, by norm_num⟩ (by norm_num) w _).1]
  exact ⟨A, by rw [modelSprings, hS]; exact hA⟩

/-- 1 m of diameter down to -4 m, 2 m below. -/
noncomputable def wide : Pile ℝ := ⟨[⟨1, -4, 1, 1 / 20⟩, ⟨-4, -10, 2, 1 / 20⟩], steel⟩

theorem setup_wide : Weight.Setup wide (SoilProfile.geometry ⟨0, -1, [⟨⟨0, -20, 18⟩, none, some (.clay Props.Assemble.axialExample)⟩]⟩) [-6] 1 1 (-10) where
  coarse := by norm_num
  tip_eq := rfl
  built := (Props.Assemble.setup_example none (some (.clay Props.Assemble.axialExample))).built
  exact := (Props.Assemble.setup_example none (some (.clay Props.Assemble.axialExample))).exact
  first := (Props.Assemble.setup_example none (some (.clay Props.Assemble.axialExample))).first
  last := (Props.Assemble.setup_example none (some (.clay Props.Assemble.axialExample))).last
  grid := by
    rintro r (⟨s, hs, h⟩ | ⟨sp', hsp, h⟩ | h)
    · simp only [wide, List.mem_cons, List.not_mem_nil, or_false] at hs
      rcases hs with rfl | rfl <;> rcases h with rfl | rfl
      · exact ⟨10000, by norm_num⟩
      · exact ⟨-40000, by norm_num⟩
      · exact ⟨-40000, by norm_num⟩
      · exact ⟨-100000, by norm_num⟩
    · exact (Props.Assemble.setup_example none (some (.clay Props.Assemble.axialExample))).grid r (Or.inr (Or.inl ⟨sp', hsp, h⟩))
    · rw [List.mem_singleton] at h
      exact ⟨-60000, by rw [h]; norm_num⟩
  ground := by norm_num [SoilProfile.geometry]
  extra := by
    intro x hx
    rw [List.mem_singleton] at hx
    rw [hx]; norm_num
  sections := by
    intro s hs
    simp only [wide, List.mem_cons, List.not_mem_nil, or_false] at hs
    rcases hs with rfl | rfl <;> norm_num
  pile := by
    have hb : ∀ s ∈ wide.sections, Spec.Pile.Built s := by
      intro s hs
      simp only [wide, List.mem_cons, List.not_mem_nil, or_false] at hs
      rcases hs with rfl | rfl <;> exact (built_iff _).2 (by norm_num)
    have hst : Spec.Pile.Stacked wide.sections := by simp [wide, Spec.Pile.Stacked]
    have := sort_of_stacked wide.sections _ (List.Perm.refl _) (fun s hs => ((built_iff s).1 (hb s hs)).1) hst
    exact ⟨wide.sections, steel, (mkPile_ok_iff _ _ _).2 ⟨by simp [wide], by rw [this]; exact hst, by rw [this]; rfl⟩, hb⟩
  head := rfl
  below := by norm_num [SoilProfile.geometry]
  inside := by
    intro x hx
    rw [List.mem_singleton] at hx
    rw [hx]; norm_num

/-- The hypotheses of the violation hold for this pile, cut at -6 m, where a node is asked for. -/
example : ∃ v v',
    Capacity.shaft wide ⟨0, -1, [⟨⟨0, -20, 18⟩, none, some (.clay Props.Assemble.axialExample)⟩]⟩ [-6] 1 ⟨true, true, true, true, true, true⟩
      (Model.stableRows wide) Props.Assemble.drawsExample = some v ∧
    Capacity.shaft (cutPile wide [⟨1, -4, 1, 1 / 20⟩] ⟨-4, -10, 2, 1 / 20⟩ [] (-6))
      ⟨0, -1, [⟨⟨0, -20, 18⟩, none, some (.clay Props.Assemble.axialExample)⟩]⟩ [-6] 1 ⟨true, true, true, true, true, true⟩
      (Model.stableRows (cutPile wide [⟨1, -4, 1, 1 / 20⟩] ⟨-4, -10, 2, 1 / 20⟩ [] (-6))) Props.Assemble.drawsExample = some v' ∧
    v.1 < v'.1 := by
  refine C92_violated_shaft (P := []) (Q := []) setup_wide rfl (by norm_num) (by norm_num) (by norm_num)
    (Or.inl (List.mem_singleton.2 rfl)) (by norm_num) _ rfl Props.Capacity.good_draws.1 Props.Capacity.good_draws.2 Props.Capacity.good_lateral ?_ ?_
  · intro l hl
    rw [List.mem_singleton] at hl
    subst hl
    refine ⟨_, rfl, ⟨fun d _ _ => ⟨50, ?_, by norm_num⟩, ?_, ?_, ?_, ?_, ?_⟩, ?_⟩
    · norm_num [Props.Assemble.axialExample, Params.layered, Params.topBottom]
    all_goals norm_num [Props.Assemble.axialExample]
  · intro l hl m hm
    rw [List.mem_singleton] at hl
    subst hl
    cases hm

/-- A cantilever of two sections, the lower one described as two that meet at -6 m, where a node is asked for. -/
example (pi : ℝ) (ty : Kernel.ElementType) (bcs : List (BC.Cond ℝ)) :
    solveModel pi ty (cutPile wide [⟨1, -4, 1, 1 / 20⟩] ⟨-4, -10, 2, 1 / 20⟩ [] (-6)) [-6] 1 bcs = solveModel pi ty wide [-6] 1 bcs :=
  C92_beam pi ty setup_wide.pile rfl (by norm_num) (by norm_num) (List.mem_singleton.2 rfl) ⟨-60000, by norm_num⟩ (by norm_num) bcs

end OpenPile.Props.SplitPile
