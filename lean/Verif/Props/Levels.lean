/-
Property C106: which levels a Model can have.

Published elevations are rounded to 0.1 mm, section ends and layer boundaries are not.  Universal versions of the
witnesses `C08_violated_rounding`, `C08_violated_layer_rounding` and `C51_violated_head_below_ground`.
-/
import Verif.Props.Mesh
import Verif.Props.Model
import Verif.Props.SoilStiffness
import Verif.Props.Assemble
import Verif.Props.NoModels
import Verif.Model.SoilAnalysis

namespace OpenPile.Props.Levels
open OpenPile.Mesh OpenPile.Spec.Mesh OpenPile.Props.Mesh OpenPile.Kernel OpenPile.Winkler OpenPile.Analysis

section field

variable {K : Type} [Field K] [LinearOrder K] [IsStrictOrderedRing K] [FloorRing K]

/-! ## Nodes and elements -/

omit [IsStrictOrderedRing K] in
theorem onGrid_round4 (x : K) : OnGrid (round4 x) := ⟨rint (x * 10000), rfl⟩

/-- Neighbouring nodes of the exact mesh are more than 0.1 mm apart, or both multiples of 0.1 mm. -/
theorem gap {p : Pile.Pile K} {soil : Option (Soil.Profile K)} {x2mesh : List K} {c tip : K} (hc : 1 / 100 ≤ c)
    (htip : p.bottomElevation = some tip) (hsep : Separated (Required p tip soil x2mesh)) {z : List K}
    (hz : exactNodes p soil x2mesh c = some z) {e : K × K} (he : e ∈ pairs z) :
    e.2 + 1 / 10000 < e.1 ∨ (OnGrid e.1 ∧ OnGrid e.2) := by
  have hc0 : 0 < c := lt_of_lt_of_le (by norm_num) hc
  obtain ⟨z', hz', hel⟩ := C06_element_lengths p soil x2mesh c tip hc0 htip
  rw [hz] at hz'
  cases hz'
  obtain ⟨hpos, -, A, B, n, ⟨hA, hB, hBA, -⟩, hBe, heA, ⟨k, hk, h1, hlen⟩, hn⟩ := hel e he
  rcases Nat.lt_or_ge 1 n with h | h
  · left
    have h2 := hn (n - 1) (by omega) (by omega)
    have hn1 : (0 : K) < ((n - 1 : ℕ) : K) := by exact_mod_cast (by omega : 0 < n - 1)
    have hn0 : (0 : K) < (n : K) := by exact_mod_cast (by omega : 0 < n)
    rw [lt_div_iff₀ hn1] at h2
    have hcast : (n : K) ≤ 2 * ((n - 1 : ℕ) : K) := by exact_mod_cast (by omega : n ≤ 2 * (n - 1))
    have hc2 : c / 2 < (A - B) / n := by
      rw [lt_div_iff₀ hn0]
      have : c / 2 * n ≤ c / 2 * (2 * ((n - 1 : ℕ) : K)) := mul_le_mul_of_nonneg_left hcast (by linarith)
      linarith
    have : (1 : K) / 10000 < 1 / 200 := by norm_num
    linarith
  · have hn1 : n = 1 := by omega
    subst hn1
    have hk0 : k = 0 := by omega
    subst hk0
    have e1 : e.1 = A := by rw [h1]; simp
    have e2 : e.2 = B := by
      have : e.1 - e.2 = A - B := by rw [hlen]; simp
      linarith
    rw [e1, e2]
    rcases hsep B A hB hA hBA with h | ⟨h, h'⟩
    · exact Or.inl h
    · exact Or.inr ⟨h', h⟩

omit [IsStrictOrderedRing K] in
theorem mesh_eq {p : Pile.Pile K} {soil : Option (Soil.Profile K)} {x2mesh : List K} {c : K} {z : List K}
    (hz : exactNodes p soil x2mesh c = some z) :
    getCoordinates p soil x2mesh c =
      some ⟨z.map round4, (pairs z).map (fun e => (round4 e.1, round4 e.2))⟩ := by
  simp [getCoordinates, hz]

/-- A level that the mesh must contain, above another and below a third, and no multiple of 0.1 mm: some element
of the published mesh reaches across it. -/
theorem cut_node (p : Pile.Pile K) (soil : Option (Soil.Profile K)) (x2mesh : List K) (c tip : K)
    (hc : 1 / 100 ≤ c) (htip : p.bottomElevation = some tip) (hsep : Separated (Required p tip soil x2mesh))
    {x lo hi : K} (hx : Required p tip soil x2mesh x) (hg : ¬ OnGrid x)
    (hlo : Required p tip soil x2mesh lo) (hhi : Required p tip soil x2mesh hi) (h1 : lo < x) (h2 : x < hi) :
    ∃ C, getCoordinates p soil x2mesh c = some C ∧ ∃ e ∈ C.elements, e.2 < x ∧ x < e.1 := by
  have hc0 : 0 < c := lt_of_lt_of_le (by norm_num) hc
  obtain ⟨z, hz, hpw, hreq, -⟩ := C05_exact_nodes p soil x2mesh c tip hc0 htip
  refine ⟨_, mesh_eq hz, ?_⟩
  obtain ⟨l1, l2, hsplit⟩ := List.append_of_mem (hreq x hx)
  rw [hsplit, List.pairwise_append, List.pairwise_cons] at hpw
  obtain ⟨-, ⟨hxl, -⟩, hcross⟩ := hpw
  have hmem : ∀ y, Required p tip soil x2mesh y → y ∈ l1 ∨ y = x ∨ y ∈ l2 := by
    intro y hy
    have := hreq y hy
    rw [hsplit] at this
    simpa using this
  have hb : ∃ b l, l2 = b :: l := by
    rcases hmem lo hlo with h | h | h
    · exact absurd (hcross lo h x (by simp)) (by simpa using h1.le)
    · exact absurd h h1.ne
    · cases l2 with
      | nil => cases h
      | cons b l => exact ⟨b, l, rfl⟩
  have ha : ∃ l a, l1 = l ++ [a] := by
    rcases hmem hi hhi with h | h | h
    · rcases List.eq_nil_or_concat l1 with h0 | ⟨l, a, h0⟩
      · rw [h0] at h; cases h
      · exact ⟨l, a, by rw [h0, List.concat_eq_append]⟩
    · exact absurd h h2.ne'
    · exact absurd (hxl hi h) (by simpa using h2.le)
  obtain ⟨b, m2, rfl⟩ := hb
  obtain ⟨m1, a, rfl⟩ := ha
  have hab : (a, x) ∈ pairs z := (pairs_infix _ _).2 ⟨m1, b :: m2, by rw [hsplit]; simp⟩
  have hbb : (x, b) ∈ pairs z := (pairs_infix _ _).2 ⟨m1 ++ [a], m2, by rw [hsplit]; simp⟩
  have hne : round4 x ≠ x := fun h => hg (h ▸ onGrid_round4 x)
  rcases lt_or_gt_of_ne hne with h | h
  · refine ⟨_, List.mem_map_of_mem hab, h, ?_⟩
    rcases gap hc htip hsep hz hab with h' | ⟨-, h'⟩
    · have := (abs_le.1 (round4_close a)).1
      simp only at h' ⊢
      linarith
    · exact absurd h' hg
  · refine ⟨_, List.mem_map_of_mem hbb, ?_, h⟩
    rcases gap hc htip hsep hz hbb with h' | ⟨h', -⟩
    · have := (abs_le.1 (round4_close b)).2
      simp only at h' ⊢
      linarith
    · exact absurd h' hg

/-- The first published element starts at the rounding of the highest level, the last one ends at the rounding of
the lowest. -/
theorem end_elements (p : Pile.Pile K) (soil : Option (Soil.Profile K)) (x2mesh : List K) (c tip : K)
    (hc : 0 < c) (htip : p.bottomElevation = some tip) {lo hi : K} (hlo : Required p tip soil x2mesh lo)
    (hhi : Required p tip soil x2mesh hi) (h : lo < hi) :
    ∃ C, getCoordinates p soil x2mesh c = some C ∧ (∃ e ∈ C.elements, round4 hi ≤ e.1) ∧
      ∃ e ∈ C.elements, e.2 ≤ round4 lo := by
  obtain ⟨z, hz, hpw, hreq, -⟩ := C05_exact_nodes p soil x2mesh c tip hc htip
  refine ⟨_, mesh_eq hz, ?_, ?_⟩
  · have hm := hreq hi hhi
    have hm' := hreq lo hlo
    match z, hpw, hm, hm' with
    | [], _, hm, _ => cases hm
    | [a], _, hm, hm' =>
      simp only [List.mem_singleton] at hm hm'
      exact absurd (hm'.trans hm.symm) h.ne
    | a :: b :: l, hpw, hm, _ =>
      refine ⟨(round4 a, round4 b), List.mem_map.2 ⟨(a, b), by simp [pairs], rfl⟩, round4_mono _ _ ?_⟩
      rcases List.mem_cons.1 hm with h | h
      · exact h.le
      · exact ((List.pairwise_cons.1 hpw).1 _ h).le
  · have hm := hreq hi hhi
    have hm' := hreq lo hlo
    rcases List.eq_nil_or_concat z with rfl | ⟨l, b, rfl⟩
    · cases hm
    · rcases List.eq_nil_or_concat l with rfl | ⟨l, a, rfl⟩
      · simp only [List.nil_append, List.concat_eq_append, List.mem_singleton] at hm hm'
        exact absurd (hm'.trans hm.symm) h.ne
      · have hp : (a, b) ∈ pairs ((l.concat a).concat b) :=
          (pairs_infix _ _).2 ⟨l, [], by simp⟩
        refine ⟨_, List.mem_map_of_mem hp, round4_mono _ _ ?_⟩
        simp only [List.concat_eq_append] at hm' hpw
        rw [List.pairwise_append] at hpw
        rcases List.mem_append.1 hm' with h | h
        · exact (hpw.2.2 _ h b (by simp)).le
        · exact (List.mem_singleton.1 h).ge

/-! ## Data of the elements -/

omit [Field K] [FloorRing K] [IsStrictOrderedRing K] in
/-- A value is found only if some object contains the element. -/
theorem contained_of_parameter {α β : Type} (top bottom : α → K) (key : α → β) (l : List α) (e : K × K) (v : β)
    (h : parameterOf top bottom key l e = some v) : ∃ o ∈ l, e.1 ≤ top o ∧ bottom o ≤ e.2 := by
  by_contra hn
  push Not at hn
  have : ∀ (l : List α) (acc : Option β), (∀ o ∈ l, e.1 ≤ top o → e.2 < bottom o) →
      l.foldl (fun acc o => if e.1 ≤ top o ∧ e.2 ≥ bottom o then some (key o) else acc) acc = acc := by
    intro l
    induction l with
    | nil => intro acc _; rfl
    | cons o l ih =>
      intro acc hl
      rw [List.foldl_cons, if_neg (fun h => absurd h.2 (not_le.2 (hl o (by simp) h.1))),
        ih _ (fun o ho => hl o (List.mem_cons_of_mem _ ho))]
  rw [parameterOf, this l none hn] at h
  cases h

omit [IsStrictOrderedRing K] [FloorRing K] in
theorem elemAt_some {pi : K} {p : Pile.Pile K} {e : K × K} (h : (elemAt pi p e).isSome) :
    ∃ s ∈ p.sections, e.1 ≤ s.top ∧ s.bottom ≤ e.2 := by
  obtain ⟨x, hx⟩ := Option.isSome_iff_exists.1 h
  cases hp : parameterOf (·.top) (·.bottom) (·.inertia pi) p.sections e with
  | none =>
    rw [elemAt, hp] at hx
    cases hx
  | some v => exact contained_of_parameter _ _ _ _ _ _ hp

/-- Every element of the published mesh has the data of a section: the stiffness of the pile is known. -/
def Known (pi : K) (p : Pile.Pile K) (soil : Option (Soil.Profile K)) (x2mesh : List K) (c : K) : Prop :=
  ∃ C, getCoordinates p soil x2mesh c = some C ∧ ∀ e ∈ C.elements, (elemAt pi p e).isSome

/-- The sections of an accepted pile: stacked, each of positive length, from `top` down to `tip`. -/
structure PileFrom (p : Pile.Pile K) (top tip : K) : Prop where
  stack : p.sections.IsChain (fun u v => v.top = u.bottom)
  pos : ∀ s ∈ p.sections, s.bottom < s.top
  top_eq : p.sections.head?.map (·.top) = some top
  tip_eq : p.bottomElevation = some tip

omit [Field K] [IsStrictOrderedRing K] [FloorRing K] in
theorem PileFrom.last {p : Pile.Pile K} {top tip : K} (h : PileFrom p top tip) :
    ∃ g, p.sections.getLast? = some g ∧ g.bottom = tip := by
  have := h.tip_eq
  unfold Pile.Pile.bottomElevation at this
  cases hg : p.sections.getLast? with
  | none => rw [hg] at this; cases this
  | some g =>
    rw [hg] at this
    exact ⟨g, rfl, by simpa using this⟩

omit [Field K] [IsStrictOrderedRing K] [FloorRing K] in
theorem PileFrom.first {p : Pile.Pile K} {top tip : K} (h : PileFrom p top tip) :
    ∃ f, p.sections.head? = some f ∧ f.top = top := by
  have := h.top_eq
  cases hg : p.sections.head? with
  | none => rw [hg] at this; cases this
  | some g =>
    rw [hg] at this
    exact ⟨g, rfl, by simpa using this⟩

omit [IsStrictOrderedRing K] [FloorRing K] in
theorem PileFrom.bounds {p : Pile.Pile K} {top tip : K} (h : PileFrom p top tip) {s : Pile.Section K}
    (hs : s ∈ p.sections) : s.top ≤ top ∧ tip ≤ s.bottom := by
  obtain ⟨f, hf, g, hg, h1, h2⟩ := stack_bounds _ h.pos h.stack s hs
  obtain ⟨f', hf', rfl⟩ := h.first
  obtain ⟨g', hg', rfl⟩ := h.last
  rw [hf] at hf'
  rw [hg] at hg'
  cases hf'
  cases hg'
  exact ⟨h1, h2⟩

omit [IsStrictOrderedRing K] [FloorRing K] in
theorem PileFrom.ends {p : Pile.Pile K} {top tip : K} (h : PileFrom p top tip) (soil : Option (Soil.Profile K))
    (x2mesh : List K) : Required p tip soil x2mesh top ∧ Required p tip soil x2mesh tip ∧ tip < top := by
  obtain ⟨f, hf, rfl⟩ := h.first
  obtain ⟨g, hg, rfl⟩ := h.last
  have hfm := List.mem_of_head? hf
  have hgm := List.mem_of_getLast? hg
  exact ⟨Or.inl ⟨f, hfm, Or.inl rfl⟩, Or.inl ⟨g, hgm, Or.inr rfl⟩,
    lt_of_lt_of_le (h.pos g hgm) (h.bounds hgm).1⟩

/-- A joint between two sections that is no multiple of 0.1 mm: an element has no section data. -/
theorem joint_unknown {pi : K} {p : Pile.Pile K} {soil : Option (Soil.Profile K)} {x2mesh : List K}
    {c top tip : K} (hc : 1 / 100 ≤ c) (hp : PileFrom p top tip) (hsep : Separated (Required p tip soil x2mesh))
    {u : Pile.Section K} (hu : u ∈ p.sections) (hne : u.bottom ≠ tip) (hg : ¬ OnGrid u.bottom) :
    ¬ Known pi p soil x2mesh c := by
  rintro ⟨C, hC, hk⟩
  obtain ⟨htop, htipR, -⟩ := hp.ends soil x2mesh
  have hlt : tip < u.bottom := lt_of_le_of_ne (hp.bounds hu).2 hne.symm
  obtain ⟨C', hC', e, he, h1, h2⟩ := cut_node p soil x2mesh c tip hc hp.tip_eq hsep
    (Or.inl ⟨u, hu, Or.inr rfl⟩) hg htipR htop hlt (lt_of_lt_of_le (hp.pos u hu) (hp.bounds hu).1)
  rw [hC] at hC'
  cases hC'
  obtain ⟨s, hs, h3, h4⟩ := elemAt_some (hk e he)
  rcases OpenPile.Model.disjoint_of_stack (fun s : Pile.Section K => s.top) (fun s => s.bottom) p.sections hp.pos hp.stack u s
    hu hs with h | h | h
  · subst h; linarith
  · have := hp.pos u hu
    linarith
  · linarith

/-- A level more than 0.05 mm above the head, or more than 0.05 mm below the tip: an element has no section
data. -/
theorem outside_unknown {pi : K} {p : Pile.Pile K} {soil : Option (Soil.Profile K)} {x2mesh : List K}
    {c top tip : K} (hc : 0 < c) (hp : PileFrom p top tip) {x : K} (hx : Required p tip soil x2mesh x)
    (ho : top + 1 / 20000 < x ∨ x < tip - 1 / 20000) : ¬ Known pi p soil x2mesh c := by
  rintro ⟨C, hC, hk⟩
  obtain ⟨htop, htipR, hlt⟩ := hp.ends soil x2mesh
  have hpos : (0 : K) < 1 / 20000 := by norm_num
  rcases ho with ho | ho
  · obtain ⟨C', hC', ⟨e, he, h1⟩, -⟩ := end_elements p soil x2mesh c tip hc hp.tip_eq htipR hx (by linarith)
    rw [hC] at hC'
    cases hC'
    obtain ⟨s, hs, h3, h4⟩ := elemAt_some (hk e he)
    have := (abs_le.1 (round4_close x)).1
    have := (hp.bounds hs).1
    linarith
  · obtain ⟨C', hC', -, e, he, h1⟩ := end_elements p soil x2mesh c tip hc hp.tip_eq hx htop (by linarith)
    rw [hC] at hC'
    cases hC'
    obtain ⟨s, hs, h3, h4⟩ := elemAt_some (hk e he)
    have := (abs_le.1 (round4_close x)).2
    have := (hp.bounds hs).2
    linarith

/-- Exactly when every element has section data, for levels between tip and head that are more than 0.1 mm apart
or multiples of 0.1 mm: every joint is a multiple of 0.1 mm, the head is not rounded up and the tip not down. -/
theorem known_iff {pi : K} {p : Pile.Pile K} {soil : Option (Soil.Profile K)} {x2mesh : List K}
    {c top tip : K} (hc : 1 / 100 ≤ c) (hp : PileFrom p top tip) (hsep : Separated (Required p tip soil x2mesh))
    (hin : ∀ x, Required p tip soil x2mesh x → tip ≤ x ∧ x ≤ top) :
    Known pi p soil x2mesh c ↔
      (∀ s ∈ p.sections, s.bottom ≠ tip → OnGrid s.bottom) ∧ round4 top ≤ top ∧ tip ≤ round4 tip := by
  have hc0 : 0 < c := lt_of_lt_of_le (by norm_num) hc
  obtain ⟨htop, htipR, hlt⟩ := hp.ends soil x2mesh
  constructor
  · intro hk
    refine ⟨?_, ?_, ?_⟩
    · intro s hs hne
      by_contra hg
      exact joint_unknown hc hp hsep hs hne hg hk
    · obtain ⟨C, hC, hk⟩ := hk
      obtain ⟨C', hC', ⟨e, he, h1⟩, -⟩ := end_elements p soil x2mesh c tip hc0 hp.tip_eq htipR htop hlt
      rw [hC] at hC'
      cases hC'
      obtain ⟨s, hs, h3, -⟩ := elemAt_some (hk e he)
      exact h1.trans (h3.trans (hp.bounds hs).1)
    · obtain ⟨C, hC, hk⟩ := hk
      obtain ⟨C', hC', -, e, he, h1⟩ := end_elements p soil x2mesh c tip hc0 hp.tip_eq htipR htop hlt
      rw [hC] at hC'
      cases hC'
      obtain ⟨s, hs, -, h4⟩ := elemAt_some (hk e he)
      exact (hp.bounds hs).2.trans (h4.trans h1)
  · rintro ⟨hj, hT, hB⟩
    obtain ⟨C, hC, -, hord⟩ := C07_no_merge_partial p soil x2mesh c tip hc hp.tip_eq hsep
    refine ⟨C, hC, fun e he => ?_⟩
    obtain ⟨z, hz, hpw, hreq, hbet⟩ := C05_exact_nodes p soil x2mesh c tip hc0 hp.tip_eq
    have hCe := hC
    rw [mesh_eq hz, Option.some.injEq] at hCe
    have hrange : e.1 ≤ top ∧ tip ≤ e.2 := by
      have he' := he
      rw [← hCe] at he'
      obtain ⟨⟨a, b⟩, hab, rfl⟩ := List.mem_map.1 he'
      have hinf := (pairs_infix _ _).1 hab
      have ha : a ∈ z := hinf.subset (by simp)
      have hb : b ∈ z := hinf.subset (by simp)
      obtain ⟨a', -, ha1, -, -, ha2⟩ := hbet a ha
      obtain ⟨-, b', -, hb1, hb2, -⟩ := hbet b hb
      exact ⟨(round4_mono _ _ (ha2.trans (hin _ ha1).2)).trans hT,
        hB.trans (round4_mono _ _ ((hin _ hb1).1.trans hb2))⟩
    have hcutB : ∀ s ∈ p.sections, s.bottom ≤ e.2 ∨ e.1 ≤ s.bottom := by
      intro s hs
      by_cases hb : s.bottom = tip
      · left; rw [hb]; exact hrange.2
      · exact published_no_straddle p soil x2mesh c tip hc0 hp.tip_eq C hC e he _ (Or.inl ⟨s, hs, Or.inr rfl⟩)
          (hj s hs hb)
    have hcutT : ∀ s ∈ p.sections, s.top ≤ e.2 ∨ e.1 ≤ s.top := by
      intro s hs
      by_cases hb : s.top = top
      · right; rw [hb]; exact hrange.1
      · -- the section above ends here
        have : ∃ u ∈ p.sections, u.bottom = s.top := by
          obtain ⟨l1, l2, hspl⟩ := List.append_of_mem hs
          rcases List.eq_nil_or_concat l1 with rfl | ⟨l, u, rfl⟩
          · obtain ⟨f, hf, rfl⟩ := hp.first
            rw [hspl] at hf
            simp only [List.nil_append, List.head?_cons, Option.some.injEq] at hf
            exact absurd (by rw [hf]) hb
          · refine ⟨u, by rw [hspl]; simp, ?_⟩
            have := hp.stack
            rw [hspl] at this
            simp only [List.concat_eq_append, List.append_assoc, List.cons_append, List.nil_append] at this
            have := (List.isChain_append.1 this).2.1
            rw [List.isChain_cons_cons] at this
            exact this.1.symm
        obtain ⟨u, hu, hus⟩ := this
        rw [← hus]
        exact hcutB u hu
    obtain ⟨s, hs⟩ := stack_unique (fun s : Pile.Section K => s.top) (fun s => s.bottom) p.sections hp.pos hp.stack e
      (hord e he) (by
        rintro s hs t (rfl | rfl)
        · exact hcutT s hs
        · exact hcutB s hs)
      (by
        intro f hf
        obtain ⟨f', hf', h⟩ := hp.first
        rw [hf] at hf'
        cases hf'
        simp only [h]
        exact hrange.1)
      (by
        intro g hg
        obtain ⟨g', hg', h⟩ := hp.last
        rw [hg] at hg'
        cases hg'
        simp only [h]
        exact hrange.2)
      (by
        intro h
        obtain ⟨f, hf, -⟩ := hp.first
        rw [h] at hf
        cases hf)
    simp only [elemAt, parameterOf_of_filter _ _ _ _ _ _ hs, Option.bind_eq_bind, Option.bind_some,
      Option.pure_def, Option.isSome_some]

/-! ## Analyses without soil -/

theorem allSome_none {n : ℕ} {α : Type} (f : Fin n → Option α) (i : Fin n) (h : ¬ (f i).isSome) :
    allSome f = none := by
  unfold allSome
  rw [dif_neg (fun hh => h (hh i))]

omit [IsStrictOrderedRing K] in
/-- Without section data for some element no analysis gives numbers. -/
theorem no_numbers {pi : K} {ty : ElementType} {p : Pile.Pile K} {x2mesh : List K} {c : K}
    (h : ¬ Known pi p none x2mesh c) (bcs : List (BC.Cond K)) : solveModel pi ty p x2mesh c bcs = none := by
  unfold solveModel
  cases hC : getCoordinates p none x2mesh c with
  | none => rfl
  | some C =>
    have : ∃ e ∈ C.elements, ¬ (elemAt pi p e).isSome := by
      by_contra hn
      push Not at hn
      exact h ⟨C, hC, fun e he => by simpa using hn e he⟩
    obtain ⟨e, he, hne⟩ := this
    obtain ⟨i, hi, rfl⟩ := List.getElem_of_mem he
    have ha : allSome (fun i : Fin C.elements.length => elemAt pi p C.elements[i.1]) = none :=
      allSome_none _ ⟨i, hi⟩ hne
    show solveOn pi ty p C bcs = none
    unfold solveOn
    simp only [ha, Option.bind_eq_bind, Option.bind_none, Option.bind_fun_none]

omit [IsStrictOrderedRing K] [FloorRing K] in
/-- Every pile that `Pile` accepts, of sections that `PileSection` accepts, is such a stack. -/
theorem accepted {sections : List (Pile.Section K)} {mat : Pile.Material K} {p : Pile.Pile K}
    (hp : Pile.mkPile sections mat = .ok p) (hb : ∀ s ∈ sections, s.bottom < s.top) :
    ∃ top tip, PileFrom p top tip := by
  obtain ⟨hst, hmem⟩ := mkPile_sections sections mat p hp
  have hne : p.sections ≠ [] := by
    intro h
    cases sections with
    | nil => cases hp
    | cons s l =>
      have := (hmem s).2 (by simp)
      rw [h] at this
      cases this
  obtain ⟨f, hf⟩ : ∃ f, p.sections.head? = some f := by
    cases h : p.sections with
    | nil => exact absurd h hne
    | cons a l => exact ⟨a, rfl⟩
  obtain ⟨g, hg⟩ : ∃ g, p.sections.getLast? = some g :=
    ⟨_, List.getLast?_eq_some_getLast hne⟩
  exact ⟨f.top, g.bottom, hst, fun s hs => hb s ((hmem s).1 hs), by rw [hf]; rfl,
    by rw [Pile.Pile.bottomElevation, hg]; rfl⟩

/-! ## C106 -/

/-- A joint between two sections at a level that is no multiple of 0.1 mm: no analysis without soil gives
numbers, whatever the loads, the supports, the coarseness and the extra levels. -/
theorem C106_violated_joint {pi : K} {p : Pile.Pile K} {x2mesh : List K} {c top tip : K} (hc : 1 / 100 ≤ c)
    (hp : PileFrom p top tip) (hsep : Separated (Required p tip none x2mesh)) {u : Pile.Section K}
    (hu : u ∈ p.sections) (hne : u.bottom ≠ tip) (hg : ¬ OnGrid u.bottom) (ty : ElementType)
    (bcs : List (BC.Cond K)) : solveModel pi ty p x2mesh c bcs = none :=
  no_numbers (joint_unknown hc hp hsep hu hne hg) bcs

/-- A level of `x2mesh` more than 0.05 mm above the head or below the tip: no analysis without soil gives
numbers. -/
theorem C106_violated_outside {pi : K} {p : Pile.Pile K} {x2mesh : List K} {c top tip : K} (hc : 0 < c)
    (hp : PileFrom p top tip) {x : K} (hx : x ∈ x2mesh) (ho : top + 1 / 20000 < x ∨ x < tip - 1 / 20000)
    (ty : ElementType) (bcs : List (BC.Cond K)) : solveModel pi ty p x2mesh c bcs = none :=
  no_numbers (outside_unknown hc hp (Or.inr (Or.inr hx)) ho) bcs

/-- Levels from tip to head, more than 0.1 mm apart or multiples of 0.1 mm: the data of every element are known
exactly if every joint is a multiple of 0.1 mm, the head is not rounded up and the tip is not rounded down; the
stiffness of the pile, hence a result, needs them all. -/
theorem C106_exactly_partial {pi : K} {p : Pile.Pile K} {soil : Option (Soil.Profile K)} {x2mesh : List K}
    {c top tip : K} (hc : 1 / 100 ≤ c) (hp : PileFrom p top tip) (hsep : Separated (Required p tip soil x2mesh))
    (hin : ∀ x, Required p tip soil x2mesh x → tip ≤ x ∧ x ≤ top) :
    (∃ C, getCoordinates p soil x2mesh c = some C ∧ ∀ e ∈ C.elements, (elemAt pi p e).isSome) ↔
      (∀ s ∈ p.sections, s.bottom ≠ tip → OnGrid s.bottom) ∧ round4 top ≤ top ∧ tip ≤ round4 tip :=
  known_iff hc hp hsep hin

end field

/-! ## Analyses with soil -/

open OpenPile.Assemble OpenPile.SoilAnalysis

/-- Without section data for some element no analysis with soil gives numbers. -/
theorem no_soil_numbers {p : Pile.Pile ℝ} {sp : SoilProfile} {x2mesh : List ℝ} {c : ℝ}
    (h : ¬ Known Real.pi p (some sp.geometry) x2mesh c) (ty : ElementType) (w : Switches)
    (table : List (ℝ × Pile.Section ℝ)) (env : Draws) (bcs : List (BC.Cond ℝ)) (t : SoilTables) :
    solveSoil ty p sp x2mesh c w table env bcs ≠ some (.numbers t) := by
  unfold solveSoil
  cases hC : getCoordinates p (some sp.geometry) x2mesh c with
  | none => intro h; cases h
  | some C =>
    have : ∃ e ∈ C.elements, ¬ (elemAt Real.pi p e).isSome := by
      by_contra hn
      push Not at hn
      exact h ⟨C, hC, fun e he => by simpa using hn e he⟩
    obtain ⟨e, he, hne⟩ := this
    obtain ⟨i, hi, rfl⟩ := List.getElem_of_mem he
    have ha : allSome (fun i : Fin C.elements.length => elemAt Real.pi p C.elements[i.1]) = none :=
      allSome_none _ ⟨i, hi⟩ hne
    cases hA : modelSprings p sp x2mesh c w table env with
    | none => intro h; cases h
    | some A =>
      show solveSoilOn ty p C w A bcs 100 ≠ _
      unfold solveSoilOn
      simp only [ha, Option.bind_eq_bind, Option.bind_none, Option.bind_fun_none]
      intro h
      cases h

/-- The same with soil: an odd joint. -/
theorem C106_violated_soil_joint {p : Pile.Pile ℝ} {sp : SoilProfile} {x2mesh : List ℝ} {c top tip : ℝ}
    (hc : 1 / 100 ≤ c) (hp : PileFrom p top tip) (hsep : Separated (Required p tip (some sp.geometry) x2mesh))
    {u : Pile.Section ℝ} (hu : u ∈ p.sections) (hne : u.bottom ≠ tip) (hg : ¬ OnGrid u.bottom)
    (ty : ElementType) (w : Switches) (table : List (ℝ × Pile.Section ℝ)) (env : Draws)
    (bcs : List (BC.Cond ℝ)) (t : SoilTables) : solveSoil ty p sp x2mesh c w table env bcs ≠ some (.numbers t) :=
  no_soil_numbers (joint_unknown hc hp hsep hu hne hg) ty w table env bcs t

/-- The same with soil: a head more than 0.05 mm below the top of some layer (a buried pile), or an extra level
off the pile. -/
theorem C106_violated_buried {p : Pile.Pile ℝ} {sp : SoilProfile} {x2mesh : List ℝ} {c top tip : ℝ}
    (hc : 0 < c) (hp : PileFrom p top tip)
    (h : (∃ l ∈ sp.layers, top + 1 / 20000 < l.top) ∨
      ∃ x ∈ x2mesh, top + 1 / 20000 < x ∨ x < tip - 1 / 20000)
    (ty : ElementType) (w : Switches) (table : List (ℝ × Pile.Section ℝ)) (env : Draws)
    (bcs : List (BC.Cond ℝ)) (t : SoilTables) : solveSoil ty p sp x2mesh c w table env bcs ≠ some (.numbers t) := by
  refine no_soil_numbers ?_ ty w table env bcs t
  rcases h with ⟨l, hl, hlt⟩ | ⟨x, hx, ho⟩
  · refine outside_unknown hc hp (x := l.top) (Or.inr (Or.inl ⟨_, rfl, l.toLayer, ?_, Or.inl rfl, ?_⟩)) (Or.inl hlt)
    · exact List.mem_map_of_mem hl
    · have := (hp.ends none []).2.2
      linarith
  · exact outside_unknown hc hp (Or.inr (Or.inr hx)) ho

/-! ## Layers -/

theorem whereTop_lt {K : Type} [LinearOrder K] (t : K) (els : List (K × K)) (i j : ℕ)
    (h : j ∈ Model.whereTop t i els) : j < i + els.length := by
  induction els generalizing i with
  | nil => cases h
  | cons e l ih =>
    rw [Model.whereTop] at h
    split at h
    · rcases List.mem_cons.1 h with rfl | h
      · simp
      · have := ih _ h
        simp only [List.length_cons]
        omega
    · have := ih _ h
      simp only [List.length_cons]
      omega

theorem cumsum_length {K : Type} [Field K] (acc : K) (l : List (Option K)) :
    (Model.cumsum acc l).length = l.length := by
  induction l generalizing acc with
  | nil => rfl
  | cons a l ih =>
    cases a <;> simp [Model.cumsum, ih]

/-- The rows of the soil table are the elements of the mesh. -/
theorem soilRows_elements {sp : Soil.Profile ℝ} {els : List (ℝ × ℝ)} {rows : List (Model.SoilRow ℝ)}
    (h : (Model.soilRows sp els).toOption = some rows) : rows.map (·.element) = els := by
  unfold Model.soilRows Model.stressColumns at h
  rcases hw : Model.whereTop sp.topElevation 0 els with _ | ⟨i, _ | ⟨j, l⟩⟩
  · rw [hw] at h; cases h
  · rw [hw] at h
    have hi := whereTop_lt sp.topElevation els 0 i (by rw [hw]; simp)
    have h' := (Option.some.inj h).symm
    rw [h', List.map_zipWith]
    have : ∀ (a : List (ℝ × ℝ)) (b : List (Option ℝ × Option ℝ)), a.length = b.length →
        List.zipWith (fun e (x : Option ℝ × Option ℝ) => e) a b = a := by
      intro a
      induction a with
      | nil => intro b _; rfl
      | cons x a ih =>
        intro b hb
        cases b with
        | nil => cases hb
        | cons y b => simp [ih b (by simpa using hb)]
    apply this
    rw [List.length_zip, List.length_insertIdx_of_le_length, List.length_dropLast, cumsum_length, List.length_map]
    · omega
    · rw [List.length_dropLast, cumsum_length, List.length_map]; omega
  · rw [hw] at h; cases h

/-- A boundary between layers at a level that is no multiple of 0.1 mm, between tip and head, and inside no other
layer: some element across it has no springs along its length at all.  No error is raised. -/
theorem C106_violated_layer {p : Pile.Pile ℝ} {sp : SoilProfile} {x2mesh : List ℝ} {c top tip : ℝ}
    (hc : 1 / 100 ≤ c) (hp : PileFrom p top tip) (hsep : Separated (Required p tip (some sp.geometry) x2mesh))
    {l : SoilLayer} (hl : l ∈ sp.layers) {x : ℝ} (hx : x = l.top ∨ x = l.bottom) (h1 : tip < x) (h2 : x < top)
    (hg : ¬ OnGrid x) (hno : ∀ l' ∈ sp.layers, ¬ (l'.bottom < x ∧ x < l'.top))
    {w : Switches} {table : List (ℝ × Pile.Section ℝ)} {env : Draws} {A : Arrays}
    (hA : modelSprings p sp x2mesh c w table env = some A) :
    ∃ (C : Coordinates ℝ) (j : ℕ) (e : ℝ × ℝ), getCoordinates p (some sp.geometry) x2mesh c = some C ∧
      C.elements[j]? = some e ∧ e.2 < x ∧ x < e.1 ∧
      ∀ b, A.py j b = List.replicate 15 (0, 0) ∧ A.tz j b = List.replicate 15 (0, 0) ∧
        A.mt j b = List.replicate 15 (List.replicate 15 (0, 0)) := by
  obtain ⟨htop, htipR, -⟩ := hp.ends (some sp.geometry) x2mesh
  obtain ⟨C, hC, e, he, he1, he2⟩ := cut_node p (some sp.geometry) x2mesh c tip hc hp.tip_eq hsep (x := x)
    (Or.inr (Or.inl ⟨_, rfl, l.toLayer, List.mem_map_of_mem hl, hx, h1.le⟩)) hg htipR htop h1 h2
  obtain ⟨j, hj⟩ := List.getElem?_of_mem he
  refine ⟨C, j, e, hC, hj, he1, he2, fun b => ?_⟩
  unfold modelSprings at hA
  cases hS : input p sp x2mesh c w table with
  | none => rw [hS] at hA; cases hA
  | some S =>
    rw [hS] at hA
    change createSprings S env = some A at hA
    unfold input at hS
    cases hrows : (Model.soilProperties p sp.geometry x2mesh c).toOption with
    | none => rw [hrows] at hS; cases hS
    | some rows =>
      have hel : rows.map (·.element) = C.elements := by
        simp only [Model.soilProperties, hC] at hrows
        exact soilRows_elements hrows
      obtain ⟨r0, hr0, hre⟩ : ∃ r0, rows[j]? = some r0 ∧ r0.element = e := by
        rw [← hel, List.getElem?_map] at hj
        cases hr : rows[j]? with
        | none => rw [hr] at hj; cases hj
        | some r0 => rw [hr] at hj; exact ⟨r0, rfl, by simpa using hj⟩
      have hSr : S.rows = rows.map (rowOf table) ∧ S.layers = sp.layers := by
        obtain ⟨g, hgl, -⟩ := hp.last
        simp only [hrows, hp.tip_eq, Pile.Pile.tipArea, Pile.Pile.tipFootprint, hgl, Option.map_some,
          Option.bind_eq_bind, Option.bind_some, Option.pure_def, Option.some.injEq] at hS
        rw [← hS]
        exact ⟨rfl, rfl⟩
      refine Props.Assemble.C54_outside (S := S) hA (j := j) (r := rowOf table r0) ?_ ?_ b
      · rw [hSr.1, List.getElem?_map, hr0]
        rfl
      · unfold Props.Assemble.owners
        rw [List.filter_eq_nil_iff]
        intro l' hl' hd
        rw [hSr.2] at hl'
        rw [decide_eq_true_eq] at hd
        have ht : (rowOf table r0).top = e.1 := by rw [← hre]; rfl
        have hb : (rowOf table r0).bottom = e.2 := by rw [← hre]; rfl
        rw [ht, hb] at hd
        exact hno l' hl' ⟨by linarith [hd.2], by linarith [hd.1]⟩

/-! ## Examples -/

theorem third_off_grid : ¬ OnGrid (-10 / 3 : ℝ) := by
  rintro ⟨n, hn⟩
  have h : (3 * n : ℝ) = -100000 := by linarith
  have h' : 3 * n = -100000 := by exact_mod_cast h
  omega

/-- Two sections that meet at -10/3 m. -/
noncomputable def thirds : Pile.Pile ℝ := ⟨[⟨0, -10 / 3, 1, 1 / 20⟩, ⟨-10 / 3, -10, 1, 1 / 10⟩], Pile.steel⟩

theorem thirds_from : PileFrom thirds 0 (-10) :=
  ⟨by simp [thirds], by simp only [thirds, List.forall_mem_cons]; norm_num, rfl, rfl⟩

theorem thirds_levels {r : ℝ} (h : Required thirds (-10) none [-5] r) : r = 0 ∨ r = -10 / 3 ∨ r = -5 ∨ r = -10 := by
  rcases h with ⟨s, hs, h⟩ | ⟨sp, h, -⟩ | h
  · simp only [thirds, List.mem_cons, List.not_mem_nil, or_false] at hs
    rcases hs with rfl | rfl <;> rcases h with h | h <;> simp [h]
  · cases h
  · simp only [List.mem_singleton] at h
    simp [h]

/-- The pile of `C106_violated_joint`: accepted, levels apart, and not analysed, here with a fixed tip and a load
on the head. -/
example (ty : ElementType) : Pile.mkPile thirds.sections Pile.steel = .ok thirds ∧
    solveModel Real.pi ty thirds [-5] 1 [{ cls := .force, elevation := 0, y := some (.num 1) },
      { cls := .fixation, elevation := -10, x := some (.flag true), y := some (.flag true), z := some (.flag true) }] = none := by
  refine ⟨?_, C106_violated_joint (by norm_num) thirds_from ?_ (u := ⟨0, -10 / 3, 1, 1 / 20⟩) (by simp [thirds])
    (by norm_num) third_off_grid ty _⟩
  · have hs : Pile.sortSections thirds.sections = thirds.sections := by
      refine Py.sortedBy_eq_of_strict _ _ _ (List.Perm.refl _) ?_
      simp only [thirds, List.pairwise_cons, List.mem_cons, List.not_mem_nil, or_false, forall_eq]
      norm_num
    simp only [Pile.mkPile, hs]
    simp [thirds, Pile.connected]
  · intro r r' hr hr' hlt
    left
    rcases thirds_levels hr with rfl | rfl | rfl | rfl <;> rcases thirds_levels hr' with rfl | rfl | rfl | rfl <;>
      norm_num at hlt <;> norm_num

/-- The same pile with an extra level 1 m above its head. -/
example (ty : ElementType) (bcs : List (BC.Cond ℝ)) : solveModel Real.pi ty thirds [1] 1 bcs = none :=
  C106_violated_outside (by norm_num) thirds_from (x := 1) (by simp) (Or.inl (by norm_num)) ty bcs

/-- A pile from 0 to -10 m, below ground level 2 m. -/
example (ty : ElementType) (w : Switches) (env : Draws) (bcs : List (BC.Cond ℝ)) (t : SoilTables) :
    solveSoil ty thirds ⟨2, 0, [⟨⟨2, -20, 18⟩, none, none⟩]⟩ [] 1 w (Model.stableRows thirds) env bcs ≠
      some (.numbers t) :=
  C106_violated_buried (by norm_num) thirds_from
    (Or.inl ⟨⟨⟨2, -20, 18⟩, none, none⟩, by simp, by norm_num⟩) ty w _ env bcs t

/-- A pile of one section. -/
noncomputable def single : Pile.Pile ℝ := ⟨[⟨0, -10, 1, 1 / 20⟩], Pile.steel⟩

theorem single_from : PileFrom single 0 (-10) :=
  ⟨by simp [single], by simp only [single, List.forall_mem_cons]; norm_num, rfl, rfl⟩

/-- Two layers that meet at -10/3 m. -/
noncomputable def layered : SoilProfile := ⟨0, 0, [⟨⟨0, -10 / 3, 18⟩, none, none⟩, ⟨⟨-10 / 3, -20, 18⟩, none, none⟩]⟩

theorem layered_levels {r : ℝ} (h : Required single (-10) (some layered.geometry) [] r) :
    r = 0 ∨ r = -10 / 3 ∨ r = -10 := by
  rcases h with ⟨s, hs, h⟩ | ⟨sp, h, l, hl, hr, hge⟩ | h
  · simp only [single, List.mem_cons, List.not_mem_nil, or_false] at hs
    subst hs
    rcases h with h | h <;> simp [h]
  · cases h
    simp only [SoilProfile.geometry, layered, List.map_cons, List.map_nil, List.mem_cons, List.not_mem_nil,
      or_false] at hl
    rcases hl with rfl | rfl <;> rcases hr with rfl | rfl <;> norm_num at hge <;> norm_num
  · cases h

theorem layered_separated : Separated (Required single (-10) (some layered.geometry) []) := by
  intro r r' hr hr' hlt
  left
  rcases layered_levels hr with rfl | rfl | rfl <;> rcases layered_levels hr' with rfl | rfl | rfl <;>
    norm_num at hlt <;> norm_num

/-- The data of every element of this pile are known: its only section ends at multiples of 0.1 mm. -/
example : ∃ C, getCoordinates single (some layered.geometry) [] 1 = some C ∧
    ∀ e ∈ C.elements, (elemAt Real.pi single e).isSome := by
  have g0 : round4 (0 : ℝ) = 0 := by simpa using round4_grid (K := ℝ) 0
  have g1 : round4 (-10 : ℝ) = -10 := by
    have := round4_grid (K := ℝ) (-100000)
    norm_num at this
    exact this
  refine (C106_exactly_partial (by norm_num) single_from layered_separated ?_).2 ⟨?_, g0.le, g1.ge⟩
  · intro x hx
    rcases layered_levels hx with rfl | rfl | rfl <;> norm_num
  · intro s hs hne
    simp only [single, List.mem_singleton] at hs
    subst hs
    exact absurd rfl hne

/-- On strictly decreasing nodes exactly one element starts at a node that is not the last. -/
theorem whereTop_single (t : ℝ) (z : List ℝ) (hz : z.Pairwise (· > ·)) (ht : t ∈ z) {y : ℝ} (hy : y ∈ z)
    (hlt : y < t) (i : ℕ) : ∃ j, Model.whereTop t i (z.zip z.tail) = [j] := by
  induction z generalizing i with
  | nil => cases ht
  | cons a l ih =>
    cases l with
    | nil =>
      simp only [List.mem_singleton] at ht hy
      exact absurd (hy.trans ht.symm) hlt.ne
    | cons b l =>
      rw [List.pairwise_cons] at hz
      simp only [List.tail_cons, List.zip_cons_cons, Model.whereTop]
      by_cases h : a = t
      · rw [if_pos h]
        refine ⟨i, ?_⟩
        rw [Model.whereTop_none]
        intro e he
        have := hz.1 e.1 (List.of_mem_zip he).1
        rw [← h]
        exact this.ne
      · rw [if_neg h]
        have ht' : t ∈ b :: l := by
          rcases List.mem_cons.1 ht with h' | h'
          · exact absurd h'.symm h
          · exact h'
        have hy' : y ∈ b :: l := by
          rcases List.mem_cons.1 hy with h' | h'
          · have := hz.1 t ht'
            rw [← h'] at this
            exact absurd this (not_lt.2 hlt.le)
          · exact h'
        exact ih hz.2 ht' hy' (i + 1)

/-- `C106_violated_layer` speaks about Models that exist. -/
example (w : Switches) (env : Draws) :
    ∃ A C j e, modelSprings single layered [] 1 w (Model.stableRows single) env = some A ∧
      getCoordinates single (some layered.geometry) [] 1 = some C ∧ C.elements[j]? = some e ∧ e.2 < -10 / 3 ∧
      -10 / 3 < e.1 ∧ ∀ b, A.py j b = List.replicate 15 (0, 0) := by
  have hA : ∃ A, modelSprings single layered [] 1 w (Model.stableRows single) env = some A := by
    obtain ⟨C, hC, hpw, -⟩ := C07_no_merge_partial single (some layered.geometry) [] 1 (-10) (by norm_num) rfl
      layered_separated
    obtain ⟨C', hC', hel, -, hgrid⟩ := C05_published_nodes single (some layered.geometry) [] 1 (-10) (by norm_num) rfl
    rw [hC] at hC'
    cases hC'
    obtain ⟨r1, r2, -⟩ := single_from.ends (some layered.geometry) []
    obtain ⟨j, hj⟩ := whereTop_single 0 C.nodes hpw (hgrid 0 r1 ⟨0, by norm_num⟩)
      (hgrid (-10) r2 ⟨-100000, by norm_num⟩) (by norm_num) 0
    rw [← hel] at hj
    have : ∃ S, input single layered [] 1 w (Model.stableRows single) = some S ∧ S.layers = layered.layers := by
      have htop : layered.geometry.topElevation = 0 := rfl
      simp only [input, Model.soilProperties, hC, Model.soilRows, Model.stressColumns, htop, hj]
      exact ⟨_, rfl, rfl⟩
    obtain ⟨S, hS, hl⟩ := this
    unfold modelSprings
    rw [hS]
    refine ⟨_, Props.NoModels.create_none ?_⟩
    rw [hl]
    simp [layered]
  obtain ⟨A, hA⟩ := hA
  obtain ⟨C, j, e, h1, h2, h3, h4, h5⟩ := C106_violated_layer (by norm_num) single_from layered_separated
    (l := ⟨⟨0, -10 / 3, 18⟩, none, none⟩) (by simp [layered]) (x := -10 / 3) (Or.inr rfl) (by norm_num) (by norm_num)
    third_off_grid (by simp only [layered, List.forall_mem_cons]; norm_num) hA
  exact ⟨A, C, j, e, hA, h1, h2, h3, h4, fun b => (h5 b).1⟩

end OpenPile.Props.Levels
