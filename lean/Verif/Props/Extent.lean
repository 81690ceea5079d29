/-
C67: the extent and the embedment of a model.
-/
import Verif.Model.Extent
import Verif.Props.Weight

namespace OpenPile.Props.Extent
open OpenPile.Model OpenPile.Mesh OpenPile.Spec.Mesh OpenPile.Props.Weight OpenPile.Props.Model
open OpenPile.Props.Mesh
open OpenPile.Pile (Pile)
open OpenPile.Soil (Profile Layer)

variable {K : Type} [Field K] [LinearOrder K] [IsStrictOrderedRing K] [FloorRing K]

/-- An accepted model is made of its arguments. -/
theorem accepted_eq {p : Pile K} {soil : Option (Profile K)} {x2mesh : List K} {c : K} {m : Model K}
    (h : mkModel p soil x2mesh c = .ok m) : m = ⟨p, soil, x2mesh, c⟩ := by
  unfold mkModel at h
  by_cases h1 : (1 / 100 : K) ≤ c
  swap
  · rw [if_pos h1] at h; cases h
  rw [if_neg (by simpa using h1)] at h
  cases soil with
  | none =>
    simp only [bind, Except.bind, pure, Except.pure] at h
    cases hl : p.length with
    | none => rw [hl] at h; cases h
    | some len =>
      rw [hl] at h
      simp only at h
      by_cases h2 : len ≥ 5 * c
      · rw [if_neg (not_not.2 h2)] at h
        cases h
        rfl
      · rw [if_pos h2] at h; cases h
  | some sp =>
    simp only [bind, Except.bind, pure, Except.pure] at h
    cases hs : soilProperties p sp x2mesh c with
    | error e => rw [hs] at h; cases h
    | ok rows =>
      rw [hs] at h
      cases hl : p.length with
      | none => rw [hl] at h; cases h
      | some len =>
        rw [hl] at h
        simp only at h
        by_cases h2 : len ≥ 5 * c
        · rw [if_neg (not_not.2 h2)] at h
          cases hb : p.bottomElevation with
          | none => rw [hb] at h; cases h; rfl
          | some b =>
            rw [hb] at h
            simp only at h
            by_cases h3 : b < sp.bottomElevation
            · rw [if_pos h3] at h; cases h
            · rw [if_neg h3] at h; cases h; rfl
        · rw [if_pos h2] at h; cases h

omit [FloorRing K] in
theorem ends_of_pile (sections : List (Pile.Section K)) (mat : Pile.Material K) (p : Pile K)
    (hp : Pile.mkPile sections mat = .ok p) (hb : ∀ s ∈ sections, Spec.Pile.Built s) :
    ∃ top tip, p.topElevation = some top ∧ p.bottomElevation = some tip ∧
      ∀ s ∈ p.sections, tip ≤ s.bottom ∧ s.bottom < s.top ∧ s.top ≤ top := by
  obtain ⟨hst, hmem⟩ := mkPile_sections sections mat p hp
  have hbuilt : ∀ s ∈ p.sections, s.bottom < s.top := fun s hs =>
    ((Pile.built_iff s).1 (hb s ((hmem s).1 hs))).1
  have hne : ∃ s, s ∈ p.sections := by
    cases sections with
    | nil => simp [Pile.mkPile] at hp
    | cons s l => exact ⟨s, (hmem s).2 (by simp)⟩
  obtain ⟨s, hs⟩ := hne
  obtain ⟨f, hf, g, hg, -, -⟩ := stack_bounds p.sections hbuilt hst s hs
  refine ⟨f.top, g.bottom, by rw [Pile.Pile.topElevation, hf]; rfl, by rw [Pile.Pile.bottomElevation, hg]; rfl, ?_⟩
  intro s hs
  obtain ⟨f', hf', g', hg', h1, h2⟩ := stack_bounds p.sections hbuilt hst s hs
  rw [hf] at hf'
  rw [hg] at hg'
  cases hf'
  cases hg'
  exact ⟨h2, hbuilt s hs, h1⟩

omit [IsStrictOrderedRing K] [FloorRing K] in
theorem layers_below (sp : Profile K) (h : ∃ te wl ls, Soil.mkProfile te wl ls = .ok sp) :
    ∀ l ∈ sp.layers, l.top ≤ sp.topElevation := by
  obtain ⟨te, wl, ls, h⟩ := h
  unfold Soil.mkProfile at h
  cases hs : Soil.sortLayers ls with
  | nil => rw [hs] at h; cases h
  | cons a l =>
    rw [hs] at h
    simp only at h
    by_cases h1 : a.top ≠ te
    · rw [if_pos h1] at h; cases h
    · rw [if_neg h1] at h
      by_cases h2 : Soil.layersConnect (a :: l) = true
      · rw [if_pos h2] at h
        cases h
        intro x hx
        rw [← not_not.1 h1]
        exact tops_le ls a (by rw [hs]; rfl) x hx
      · rw [if_neg h2] at h; cases h

/-- **C67, extent.** `top` and `bottom` enclose the pile, the soil, the water line (from above) and, up to the
rounding by 0.05 mm, all nodes of the mesh, as long as the extra elevations of the user lie between them. -/
theorem C67_contains (sections : List (Pile.Section K)) (mat : Pile.Material K) (p : Pile K)
    (hp : Pile.mkPile sections mat = .ok p) (hb : ∀ s ∈ sections, Spec.Pile.Built s) (soil : Option (Profile K))
    (hs : ∀ sp, soil = some sp → (∃ te wl ls, Soil.mkProfile te wl ls = .ok sp) ∧
      ∀ l ∈ sp.layers, Spec.Soil.Built l)
    (x2mesh : List K) (c : K) (m : Model K) (hm : mkModel p soil x2mesh c = .ok m) :
    ∃ t b, m.top = some t ∧ m.bottom = some b ∧ b < t ∧
      (∀ s ∈ p.sections, b ≤ s.bottom ∧ s.top ≤ t) ∧
      (∀ sp, soil = some sp → b = sp.bottomElevation ∧ sp.topElevation ≤ t ∧ sp.waterLine ≤ t ∧
        ∀ l ∈ sp.layers, l.top ≤ t) ∧
      ((∀ x ∈ x2mesh, b ≤ x ∧ x ≤ t) → ∃ C, getCoordinates p soil x2mesh c = some C ∧
        ∀ n ∈ C.nodes, b - 1 / 20000 ≤ n ∧ n ≤ t + 1 / 20000) := by
  obtain ⟨top, tip, htop, htip, hends⟩ := ends_of_pile sections mat p hp hb
  have hm' := accepted_eq hm
  subst hm'
  have hacc : 1 / 100 ≤ c ∧ 5 * c ≤ top - tip ∧ ∀ sp, soil = some sp → sp.bottomElevation ≤ tip := by
    cases soil with
    | none =>
      have := (C46_accepted_without_soil p x2mesh c top tip htop htip).1 ⟨_, hm⟩
      exact ⟨this.1, this.2, fun _ h => by cases h⟩
    | some sp =>
      have := (C46_accepted_with_soil p sp x2mesh c top tip htop htip).1 ⟨_, hm⟩
      exact ⟨this.1, this.2.1, fun _ h => by cases h; exact this.2.2.1⟩
  obtain ⟨hc, hlen, hdeep⟩ := hacc
  have hc0 : 0 < c := lt_of_lt_of_le (by norm_num) hc
  have htt : tip < top := by linarith
  have key : ∃ t b, (⟨p, soil, x2mesh, c⟩ : Model K).top = some t ∧ (⟨p, soil, x2mesh, c⟩ : Model K).bottom = some b ∧
      b ≤ tip ∧ top ≤ t ∧ ∀ sp, soil = some sp → b = sp.bottomElevation ∧ sp.topElevation ≤ t ∧ sp.waterLine ≤ t := by
    cases soil with
    | none =>
      exact ⟨top, tip, by simp [Model.top, htop], by simp [Model.bottom, htip], le_rfl, le_rfl, fun _ h => by cases h⟩
    | some sp =>
      refine ⟨max (max top sp.topElevation) sp.waterLine, sp.bottomElevation, by simp [Model.top, htop], ?_,
        hdeep sp rfl, (le_max_left _ _).trans (le_max_left _ _), ?_⟩
      · simp [Model.bottom, htip, hdeep sp rfl]
      · intro sp' h
        cases h
        exact ⟨rfl, (le_max_right _ _).trans (le_max_left _ _), le_max_right _ _⟩
  obtain ⟨t, b, e1, e2, h1, h2, h3⟩ := key
  refine ⟨t, b, e1, e2, lt_of_le_of_lt h1 (lt_of_lt_of_le htt h2), ?_, ?_, ?_⟩
  · intro s hs
    exact ⟨h1.trans (hends s hs).1, (hends s hs).2.2.trans h2⟩
  · intro sp hsp
    obtain ⟨q1, q2, q3⟩ := h3 sp hsp
    exact ⟨q1, q2, q3, fun l hl => (layers_below sp (hs sp hsp).1 l hl).trans q2⟩
  · intro hx
    obtain ⟨z, C, hz, hC, -, -⟩ := C07_close_and_ordered p soil x2mesh c tip hc0 htip
    obtain ⟨z', hz', -, -, hbet⟩ := C05_exact_nodes p soil x2mesh c tip hc0 htip
    rw [hz] at hz'
    cases hz'
    have hin : ∀ r, Required p tip soil x2mesh r → b ≤ r ∧ r ≤ t := by
      rintro r (⟨s, hs', h⟩ | ⟨sp, hsp, l, hl, h, h'⟩ | h)
      · obtain ⟨a1, a2, a3⟩ := hends s hs'
        rcases h with rfl | rfl <;> constructor <;> linarith
      · have l1 := layers_below sp (hs sp hsp).1 l hl
        have l2 := ((Soil.built_iff l).1 ((hs sp hsp).2 l hl)).1
        have l3 := (h3 sp hsp).2.1
        rcases h with rfl | rfl <;> constructor <;> linarith
      · exact hx r h
    refine ⟨C, hC, ?_⟩
    intro n hn
    have hCz : C.nodes = z.map round4 := by
      rw [getCoordinates, hz] at hC
      cases hC
      rfl
    rw [hCz, List.mem_map] at hn
    obtain ⟨y, hy, rfl⟩ := hn
    have hny := round4_close y
    obtain ⟨a, b', ha, hb', q1, q2⟩ := hbet y hy
    rw [abs_le] at hny
    have := (hin _ ha).2
    have := (hin _ hb').1
    constructor <;> linarith

omit [Field K] [FloorRing K] [IsStrictOrderedRing K] in
theorem whereTop_mem (t : K) (i : ℕ) (els : List (K × K)) (j : ℕ) (h : j ∈ whereTop t i els) :
    ∃ e ∈ els, e.1 = t := by
  induction els generalizing i with
  | nil => cases h
  | cons e l ih =>
    unfold whereTop at h
    by_cases he : e.1 = t
    · exact ⟨e, by simp, he⟩
    · rw [if_neg he] at h
      obtain ⟨e', h1, h2⟩ := ih _ h
      exact ⟨e', by simp [h1], h2⟩

/-- **C67, embedment.** A model with soil is accepted only if the pile reaches below ground: its embedment is
positive, for section ends, layer boundaries and extra elevations that are multiples of 0.1 mm, if no extra elevation
lies below the tip. -/
theorem C67_embedment_positive_partial (sections : List (Pile.Section K)) (mat : Pile.Material K) (p : Pile K)
    (hp : Pile.mkPile sections mat = .ok p) (hb : ∀ s ∈ sections, Spec.Pile.Built s) (sp : Profile K)
    (x2mesh : List K) (c : K) (m : Model K) (hm : mkModel p (some sp) x2mesh c = .ok m) (tip : K)
    (htip : p.bottomElevation = some tip) (hgrid : ∀ r, Required p tip (some sp) x2mesh r → OnGrid r)
    (hx : ∀ x ∈ x2mesh, tip ≤ x) :
    ∃ d, m.embedment = some (some d) ∧ d = sp.topElevation - tip ∧ 0 < d := by
  obtain ⟨top, tip', htop, htip', hends⟩ := ends_of_pile sections mat p hp hb
  rw [htip] at htip'
  cases htip'
  have hm' := accepted_eq hm
  subst hm'
  obtain ⟨hc, -, -, rows, hrows⟩ := (C46_accepted_with_soil p sp x2mesh c top tip htop htip).1 ⟨_, hm⟩
  have hc0 : 0 < c := lt_of_lt_of_le (by norm_num) hc
  refine ⟨sp.topElevation - tip, by simp [Model.embedment, htip], rfl, sub_pos.2 ?_⟩
  obtain ⟨C, hC, hdec, hpos⟩ := C07_no_merge_partial p (some sp) x2mesh c tip hc htip
    (fun r r' hr hr' _ => Or.inr ⟨hgrid r hr, hgrid r' hr'⟩)
  obtain ⟨z, C', hz, hC', -, -⟩ := C07_close_and_ordered p (some sp) x2mesh c tip hc0 htip
  obtain ⟨z', hz', -, -, hbet⟩ := C05_exact_nodes p (some sp) x2mesh c tip hc0 htip
  rw [hC] at hC'
  cases hC'
  rw [hz] at hz'
  cases hz'
  have hCz : C.nodes = z.map round4 := by
    rw [getCoordinates, hz] at hC
    cases hC
    rfl
  have hge : ∀ n ∈ C.nodes, tip ≤ n := by
    intro n hn
    rw [hCz, List.mem_map] at hn
    obtain ⟨y, hy, rfl⟩ := hn
    obtain ⟨-, r, -, hr, h1, -⟩ := hbet y hy
    have hr' : tip ≤ r := by
      rcases hr with ⟨s, hs, h⟩ | ⟨sp', -, l, -, -, h⟩ | h
      · obtain ⟨a1, a2, a3⟩ := hends s hs
        rcases h with rfl | rfl
        · linarith
        · exact a1
      · exact h
      · exact hx r h
    have gt : OnGrid tip := by
      unfold Pile.Pile.bottomElevation at htip
      cases hs : p.sections.getLast? with
      | none => rw [hs] at htip; cases htip
      | some f =>
        rw [hs] at htip
        exact hgrid tip (Or.inl ⟨f, List.mem_of_getLast? hs, Or.inr (by simpa using htip.symm)⟩)
    obtain ⟨k, hk⟩ := gt
    have := round4_mono _ _ (hr'.trans h1)
    rwa [hk, round4_grid, ← hk] at this
  unfold soilProperties soilRows stressColumns at hrows
  rw [hC] at hrows
  simp only [bind, Except.bind, pure, Except.pure] at hrows
  have hw : ∃ i, i ∈ whereTop sp.topElevation 0 C.elements := by
    cases h : whereTop sp.topElevation 0 C.elements with
    | nil => rw [h] at hrows; cases hrows
    | cons i l => exact ⟨i, by simp⟩
  obtain ⟨i, hi⟩ := hw
  obtain ⟨e, he, het⟩ := whereTop_mem _ _ _ _ hi
  have hel : e.2 ∈ C.nodes := by
    obtain ⟨C3, hC3, hzip, -, -⟩ := C05_published_nodes p (some sp) x2mesh c tip hc0 htip
    rw [hC] at hC3
    cases hC3
    rw [hzip] at he
    exact List.mem_of_mem_tail (List.of_mem_zip (show (e.1, e.2) ∈ _ from he)).2
  rw [← het]
  exact lt_of_le_of_lt (hge _ hel) (hpos e he)

/-- **C67, embedment and mesh.** For a pile whose head is not below ground the embedment is the total length of the
elements below ground, and at most the length of the pile. -/
theorem C67_embedded_length_partial {p : Pile K} {sp : Profile K} {x2mesh : List K} {c top tip : K}
    (h : Setup p sp x2mesh c top tip) :
    ∃ C d, getCoordinates p (some sp) x2mesh c = some C ∧
      (⟨p, some sp, x2mesh, c⟩ : Model K).embedment = some (some d) ∧
      d = ((C.elements.filter (fun e => decide (e.1 ≤ sp.topElevation))).map (fun e => e.1 - e.2)).sum ∧
      ∃ len, p.length = some len ∧ d ≤ len := by
  obtain ⟨C, hC, hF⟩ := mesh_facts h
  refine ⟨C, sp.topElevation - tip, hC, by simp [Model.embedment, h.tip_eq], ?_, top - tip,
    by simp [Pile.Pile.length, h.head, h.tip_eq], by linarith [h.below]⟩
  have ht := telescope (fun y => min y sp.topElevation) C.nodes top tip hF.head hF.last
  rw [min_eq_right h.below, min_eq_left h.ground.le] at ht
  rw [← ht, ← hF.pairs]
  have hcut : ∀ e ∈ C.elements, sp.topElevation ≤ e.2 ∨ e.1 ≤ sp.topElevation := by
    obtain ⟨f, hf, hft⟩ := h.first
    intro e he
    rw [← hft]
    exact hF.layCut e he f ((Soil.sortLayers_perm _).mem_iff.1 (List.mem_of_head? hf)) _ (Or.inl rfl)
  have hpos := hF.pos
  revert hcut hpos
  generalize C.elements = els
  intro hcut hpos
  induction els with
  | nil => simp
  | cons e l ih =>
    have hi := min_increment (fun y => y) e (hpos e (by simp)) sp.topElevation (hcut e (by simp))
    rw [List.map_cons, List.sum_cons, hi, ih (fun e he => hcut e (by simp [he])) (fun e he => hpos e (by simp [he])),
      List.filter_cons]
    by_cases h1 : e.1 ≤ sp.topElevation
    · simp [h1]
    · simp [h1]

/-- **C67 is violated by buried piles.** If the head is below ground, the embedment exceeds the length of the pile. -/
theorem C67_violated_head_below_ground (p : Pile K) (sp : Profile K) (x2mesh : List K) (c top tip : K)
    (htop : p.topElevation = some top) (htip : p.bottomElevation = some tip) (h : top < sp.topElevation) (m : Model K)
    (hm : mkModel p (some sp) x2mesh c = .ok m) :
    ∃ d len, m.embedment = some (some d) ∧ p.length = some len ∧ len < d := by
  have hm' := accepted_eq hm
  subst hm'
  exact ⟨sp.topElevation - tip, top - tip, by simp [Model.embedment, htip], by simp [Pile.Pile.length, htop, htip],
    by linarith⟩

/-- A buried pile that is accepted. -/
example : ∃ p sp m, Pile.mkPile [(⟨-2, -10, 1, 1 / 20⟩ : Pile.Section ℚ)] Pile.steel = .ok p ∧
    Soil.mkProfile 0 0 [⟨0, -20, 18⟩] = .ok sp ∧ mkModel p (some sp) [] 1 = .ok m ∧
    m.embedment = some (some 10) ∧ p.length = some 8 :=
  ⟨⟨[⟨-2, -10, 1, 1 / 20⟩], Pile.steel⟩, ⟨0, 0, [⟨0, -20, 18⟩]⟩,
    ⟨⟨[⟨-2, -10, 1, 1 / 20⟩], Pile.steel⟩, some ⟨0, 0, [⟨0, -20, 18⟩]⟩, [], 1⟩, by decide +kernel, by decide +kernel,
    by decide +kernel, by decide +kernel, by decide +kernel⟩

/-- **C67 is violated by extra elevations below the tip.** A pile that ends 5 m above ground is accepted if an extra
elevation lies below ground; its embedment is negative. -/
theorem C67_violated_above_ground : ∃ (p : Pile ℚ) (sp : Profile ℚ) (m : Model ℚ),
    Pile.mkPile [(⟨10, 5, 1, 1 / 20⟩ : Pile.Section ℚ)] Pile.steel = .ok p ∧
    Soil.mkProfile 0 0 [⟨0, -20, 18⟩] = .ok sp ∧ mkModel p (some sp) [0, -5] 1 = .ok m ∧
    m.embedment = some (some (-5)) :=
  ⟨⟨[⟨10, 5, 1, 1 / 20⟩], Pile.steel⟩, ⟨0, 0, [⟨0, -20, 18⟩]⟩,
    ⟨⟨[⟨10, 5, 1, 1 / 20⟩], Pile.steel⟩, some ⟨0, 0, [⟨0, -20, 18⟩]⟩, [0, -5], 1⟩, by decide +kernel,
    by decide +kernel, by decide +kernel, by decide +kernel⟩

/-! ### cases that meet the hypotheses -/

/-- The pile and the soil of `setup_example`. -/
example : ∃ d, (⟨⟨[⟨1, -3, 1, 1/20⟩, ⟨-3, -10, 1, 1/10⟩], Pile.steel⟩, some ⟨0, 2, [⟨-5, -20, 18⟩, ⟨0, -5, 19⟩]⟩, [],
      1⟩ : Model ℚ).embedment = some (some d) ∧ d = 0 - -10 ∧ 0 < d := by
  have hm : mkModel (⟨[⟨1, -3, 1, 1/20⟩, ⟨-3, -10, 1, 1/10⟩], Pile.steel⟩ : Pile ℚ)
      (some ⟨0, 2, [⟨-5, -20, 18⟩, ⟨0, -5, 19⟩]⟩) [] 1 = .ok ⟨⟨[⟨1, -3, 1, 1/20⟩, ⟨-3, -10, 1, 1/10⟩], Pile.steel⟩,
        some ⟨0, 2, [⟨-5, -20, 18⟩, ⟨0, -5, 19⟩]⟩, [], 1⟩ := by decide +kernel
  obtain ⟨secs, mat, hp, hb⟩ := (setup_example 2).pile
  exact C67_embedment_positive_partial secs mat _ hp hb _ _ _ _ hm (-10) rfl (setup_example 2).grid (by simp)

example : ∃ t b, (⟨⟨[⟨1, -3, 1, 1/20⟩, ⟨-3, -10, 1, 1/10⟩], Pile.steel⟩, some ⟨0, 2, [⟨-5, -20, 18⟩, ⟨0, -5, 19⟩]⟩, [],
      1⟩ : Model ℚ).top = some t ∧ (⟨⟨[⟨1, -3, 1, 1/20⟩, ⟨-3, -10, 1, 1/10⟩], Pile.steel⟩,
      some ⟨0, 2, [⟨-5, -20, 18⟩, ⟨0, -5, 19⟩]⟩, [], 1⟩ : Model ℚ).bottom = some b ∧ t = 2 ∧ b = -20 ∧ b < t := by
  have hm : mkModel (⟨[⟨1, -3, 1, 1/20⟩, ⟨-3, -10, 1, 1/10⟩], Pile.steel⟩ : Pile ℚ)
      (some ⟨0, 2, [⟨-5, -20, 18⟩, ⟨0, -5, 19⟩]⟩) [] 1 = .ok ⟨⟨[⟨1, -3, 1, 1/20⟩, ⟨-3, -10, 1, 1/10⟩], Pile.steel⟩,
        some ⟨0, 2, [⟨-5, -20, 18⟩, ⟨0, -5, 19⟩]⟩, [], 1⟩ := by decide +kernel
  obtain ⟨secs, mat, hp, hb⟩ := (setup_example 2).pile
  obtain ⟨t, b, h1, h2, h3, -⟩ := C67_contains secs mat _ hp hb _ (by
    intro sp h
    cases h
    exact ⟨⟨0, 2, [⟨-5, -20, 18⟩, ⟨0, -5, 19⟩], by decide +kernel⟩, (setup_example 2).built⟩) _ _ _ hm
  refine ⟨t, b, h1, h2, ?_, ?_, h3⟩
  · have h : (some 2 : Option ℚ) = some t := by rw [← h1]; decide +kernel
    exact (Option.some.inj h).symm
  · have h : (some (-20) : Option ℚ) = some b := by rw [← h2]; decide +kernel
    exact (Option.some.inj h).symm

example : ∃ C d, getCoordinates (⟨[⟨1, -3, 1, 1/20⟩, ⟨-3, -10, 1, 1/10⟩], Pile.steel⟩ : Pile ℚ)
      (some ⟨0, 2, [⟨-5, -20, 18⟩, ⟨0, -5, 19⟩]⟩) [] 1 = some C ∧
    d = ((C.elements.filter (fun e => decide (e.1 ≤ 0))).map (fun e => e.1 - e.2)).sum ∧ d ≤ 11 := by
  obtain ⟨C, d, h1, -, h3, len, h4, h5⟩ := C67_embedded_length_partial (setup_example 2)
  have h : (some 11 : Option ℚ) = some len := by rw [← h4]; decide +kernel
  exact ⟨C, d, h1, h3, by rw [Option.some.inj h]; exact h5⟩

end OpenPile.Props.Extent
