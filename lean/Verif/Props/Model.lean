/-
Properties C09 (element properties), C10 (effective stress), C46 (model acceptance).
-/
import Verif.Lemmas.Model
import Verif.Props.Mesh

namespace OpenPile.Props.Model
open OpenPile.Pile (Pile Section)
open OpenPile.Soil (Layer Profile)
open OpenPile.Mesh OpenPile.Model OpenPile.Spec.Mesh OpenPile.Spec.Soil

variable {K : Type} [Field K] [LinearOrder K] [IsStrictOrderedRing K] [FloorRing K]

/-! ## C09 -/

/-- Whatever the order of tied rows, an element whose top lies in section `s` gets the properties of
`s` or of the section directly above it. -/
theorem C09_own_or_above (sections : List (Section K)) (mat : Pile.Material K) (p : Pile K)
    (hp : Pile.mkPile sections mat = .ok p) (hb : ∀ s ∈ sections, Spec.Pile.Built s)
    (rows : List (K × Section K)) (hrows : SortedRows p rows) (s : Section K) (hs : s ∈ p.sections)
    (z : K) (hz1 : s.bottom < z) (hz2 : z ≤ s.top) :
    ∃ t, elementSection rows z = some t ∧ (t = s ∨ (t ∈ p.sections ∧ t.bottom = s.top)) := by
  obtain ⟨hst, hmem⟩ := mkPile_sections sections mat p hp
  have hbuilt : ∀ s ∈ p.sections, s.bottom < s.top := fun s hs =>
    ((Pile.built_iff s).1 (hb s ((hmem s).1 hs))).1
  obtain ⟨r, hr, _, h⟩ := merged_row p rows hrows hbuilt hst s hs z hz1 hz2
  exact ⟨r.2, by simp [elementSection, hr], h⟩

/-- A pile of one section: every element gets its properties. -/
theorem C09_one_section_partial (s : Section K) (mat : Pile.Material K) (p : Pile K)
    (hp : Pile.mkPile [s] mat = .ok p) (hb : Spec.Pile.Built s)
    (rows : List (K × Section K)) (hrows : SortedRows p rows)
    (z : K) (hz1 : s.bottom < z) (hz2 : z ≤ s.top) : elementSection rows z = some s := by
  obtain ⟨hst, hmem⟩ := mkPile_sections [s] mat p hp
  obtain ⟨t, ht, h⟩ := C09_own_or_above [s] mat p hp (by simpa using hb) rows hrows s
    ((hmem s).2 (by simp)) z hz1 hz2
  rcases h with rfl | ⟨h, h'⟩
  · exact ht
  · have := (hmem t).1 h
    simp only [List.mem_cons, List.not_mem_nil, or_false] at this
    rw [this] at ht
    exact ht

/-- For several sections the properties are right if, among rows with equal elevation, the row of
the lower section comes first. -/
theorem C09_lower_first_partial (sections : List (Section K)) (mat : Pile.Material K) (p : Pile K)
    (hp : Pile.mkPile sections mat = .ok p) (hb : ∀ s ∈ sections, Spec.Pile.Built s)
    (rows : List (K × Section K)) (hrows : SortedRows p rows)
    (hfirst : rows.Pairwise (fun a b => a.1 = b.1 → a.2.top ≤ b.2.top))
    (s : Section K) (hs : s ∈ p.sections) (z : K) (hz1 : s.bottom < z) (hz2 : z ≤ s.top) :
    elementSection rows z = some s := by
  obtain ⟨hst, hmem⟩ := mkPile_sections sections mat p hp
  have hbuilt : ∀ s ∈ p.sections, s.bottom < s.top := fun s hs =>
    ((Pile.built_iff s).1 (hb s ((hmem s).1 hs))).1
  obtain ⟨r, hr, hk, h⟩ := merged_row p rows hrows hbuilt hst s hs z hz1 hz2
  rcases h with h | ⟨h, h'⟩
  · simp [elementSection, hr, h]
  · exfalso
    have hm : (s.top, s) ∈ rows := by
      rw [hrows.1.mem_iff, mem_pileRows]
      exact ⟨hs, Or.inl rfl⟩
    -- `r` is the first row with key at least `z`
    unfold mergeForward at hr
    rw [List.find?_eq_some_iff_append] at hr
    obtain ⟨_, as, bs, hab, has⟩ := hr
    have hup := hbuilt r.2 h
    rw [hab] at hm hfirst
    rw [List.pairwise_append, List.pairwise_cons] at hfirst
    rcases List.mem_append.1 hm with hm | hm
    · have := has _ hm
      simp [hz2] at this
    · rcases List.mem_cons.1 hm with hm | hm
      · have e : r.2 = s := by rw [← hm]
        rw [e] at h' hup
        exact hup.ne h'
      · have := hfirst.2.1.1 _ hm hk
        simp only at this
        rw [← h'] at this
        exact absurd hup (not_lt.2 this)

/-- **Violation.**  With the stable order every element of a section that has a section above it
gets the properties of the section *above*. -/
theorem C09_violated_stable (sections : List (Section K)) (mat : Pile.Material K) (p : Pile K)
    (hp : Pile.mkPile sections mat = .ok p) (hb : ∀ s ∈ sections, Spec.Pile.Built s)
    (u s : Section K) (hus : [u, s] <:+: p.sections)
    (z : K) (hz1 : s.bottom < z) (hz2 : z ≤ s.top) :
    SortedRows p (stableRows p) ∧ elementSection (stableRows p) z = some u := by
  have hrows : SortedRows p (stableRows p) := ⟨Py.sortedBy_perm _ _, Py.sortedBy_pairwise _ _⟩
  refine ⟨hrows, ?_⟩
  obtain ⟨hst, hmem⟩ := mkPile_sections sections mat p hp
  have hbuilt : ∀ s ∈ p.sections, s.bottom < s.top := fun s hs =>
    ((Pile.built_iff s).1 (hb s ((hmem s).1 hs))).1
  have hu : u ∈ p.sections := hus.sublist.subset (by simp)
  have hs : s ∈ p.sections := hus.sublist.subset (by simp)
  have hcon : s.top = u.bottom := by
    have := List.IsChain.infix hst hus
    simpa using this
  obtain ⟨r, hr, hk, h⟩ := merged_row p _ hrows hbuilt hst s hs z hz1 hz2
  have hru : r.2 = u := by
    rcases h with h | ⟨h, h'⟩
    · exfalso
      -- the row of `u` precedes the row of `s`
      have hsub : List.Sublist [((u.bottom, u) : K × Section K), (s.top, s)] (pileRows p) := by
        have h1 : List.Sublist (pileRows ⟨[u, s], p.material⟩) (pileRows p) :=
by
          obtain ⟨x, y, hxy⟩ := hus
          unfold pileRows
          rw [← hxy, List.flatMap_append, List.flatMap_append]
          exact ((List.sublist_append_right _ _).trans (List.sublist_append_left _ _))
        refine List.Sublist.trans ?_ h1
        simp only [pileRows, List.flatMap_cons, List.flatMap_nil, List.append_nil, List.cons_append,
          List.nil_append]
        exact List.Sublist.cons _ ((List.Sublist.cons_cons _ (List.Sublist.cons_cons _ (List.nil_sublist _))))
      have hsub2 : List.Sublist [((u.bottom, u) : K × Section K), (s.top, s)] (stableRows p) := by
        unfold stableRows Py.sortedBy
        exact List.pair_sublist_insertionSort (by rw [hcon]) hsub
      have hnd : (stableRows p).Nodup :=
        (Py.sortedBy_perm _ _).nodup_iff.2 (pileRows_nodup p hbuilt hst)
      unfold mergeForward at hr
      rw [List.find?_eq_some_iff_append] at hr
      obtain ⟨_, as, bs, hab, has⟩ := hr
      have hrs : r = (s.top, s) := Prod.ext hk h
      rw [hab, hrs] at hnd hsub2
      have hune : (u.bottom, u) ∉ as := by
        intro hm
        have := has _ hm
        rw [hcon] at hz2
        simp [hz2] at this
      rw [List.sublist_append_iff] at hsub2
      obtain ⟨l1, l2, e12, hl1, hl2⟩ := hsub2
      cases l1 with
      | cons x l1 =>
        simp only [List.cons_append, List.cons.injEq] at e12
        exact hune (hl1.subset (by simp [e12.1]))
      | nil =>
        rw [List.nil_append] at e12
        rw [← e12] at hl2
        have hne : (u.bottom, u) ≠ (s.top, s) := by
          intro e
          have e' : u = s := congrArg Prod.snd e
          rw [e'] at hcon
          exact (hbuilt s hs).ne' hcon
        have hl3 : List.Sublist [((u.bottom, u) : K × Section K), (s.top, s)] bs := by
          rcases List.sublist_cons_iff.1 hl2 with h | ⟨r', hr', h⟩
          · exact h
          · exact absurd (List.cons.inj hr').1 hne
        have : (s.top, s) ∈ bs := hl3.subset (by simp)
        rw [List.nodup_append, List.nodup_cons] at hnd
        exact hnd.2.1.1 this
    · -- the section ending at `s.top` is `u`
      rcases stack_trichotomy p.sections hbuilt hst r.2 u h hu with e | e | e
      · exact e
      · have := hbuilt r.2 h
        rw [h', hcon] at this
        exact absurd this (not_lt.2 e)
      · have := hbuilt u hu
        rw [h', hcon] at e
        exact absurd this (not_lt.2 e)
  simp [elementSection, hr, hru]

/-- A concrete instance: wall thickness 50 mm above -5 m, 100 mm below; the elements of the lower
half get 50 mm. -/
theorem C09_violated_example :
    ∃ p : Pile ℚ, Pile.mkPile [⟨0, -5, 1, 1/20⟩, ⟨-5, -10, 1, 1/10⟩] Pile.steel = .ok p ∧
      SortedRows p (stableRows p) ∧
      (elementSection (stableRows p) (-6)).map (·.thickness) = some (1/20) ∧
      parameterOf (·.top) (·.bottom) (·.thickness) p.sections (-6, -7) = some (1/10) := by
  refine ⟨⟨[⟨0, -5, 1, 1/20⟩, ⟨-5, -10, 1, 1/10⟩], Pile.steel⟩, by decide +kernel,
    ⟨Py.sortedBy_perm _ _, Py.sortedBy_pairwise _ _⟩, by decide +kernel, by decide +kernel⟩

/-! ## C10 -/

/-- What `get_soil_properties` tabulates, relative to a water line `w`: zero stress at ground level,
and at top and bottom of every embedded element the integral of the effective unit weight of the soil
above; no values for elements above ground. -/
def StressTable (sp : Profile K) (w : K) (els : List (K × K)) (rows : List (SoilRow K)) : Prop :=
  rows.map (·.element) = els ∧ ∀ r ∈ rows,
    (r.element.1 ≤ sp.topElevation →
      r.sigTop = some (stressAt w r.element.1 sp.layers) ∧
      r.sigBottom = some (stressAt w r.element.2 sp.layers)) ∧
    (sp.topElevation < r.element.1 → r.weight = none ∧ r.sigTop = none ∧ r.sigBottom = none)

/-- A soil profile whose layers meet exactly, reaching at least to the pile tip, on a mesh whose
required elevations are multiples of 0.1 mm, with ground level above the pile tip. -/
structure GoodSetup (p : Pile K) (sp : Profile K) (x2mesh : List K) (c tip : K) : Prop where
  coarse : 1 / 100 ≤ c
  tip_eq : p.bottomElevation = some tip
  built : ∀ l ∈ sp.layers, Built l
  exact : (Soil.sortLayers sp.layers).IsChain (fun u l => l.top = u.bottom)
  first : ∃ f, (Soil.sortLayers sp.layers).head? = some f ∧ f.top = sp.topElevation
  last : ∃ f, (Soil.sortLayers sp.layers).getLast? = some f ∧ f.bottom ≤ tip
  grid : ∀ r, Required p tip (some sp) x2mesh r → OnGrid r
  ground : tip < sp.topElevation
  extra : ∀ x ∈ x2mesh, tip ≤ x
  sections : ∀ s ∈ p.sections, tip ≤ s.bottom ∧ s.bottom < s.top

omit [IsStrictOrderedRing K] [FloorRing K] in
theorem tops_le (l : List (Layer K)) (f : Layer K)
    (hf : (Soil.sortLayers l).head? = some f) : ∀ x ∈ l, x.top ≤ f.top := by
  intro x hx
  have hs := Soil.sortLayers_sorted l
  have hx' : x ∈ Soil.sortLayers l := (Soil.sortLayers_perm l).mem_iff.2 hx
  cases h : Soil.sortLayers l with
  | nil => rw [h] at hf; cases hf
  | cons a t =>
    rw [h] at hf hs hx'
    cases hf
    rcases List.mem_cons.1 hx' with rfl | hx'
    · exact le_rfl
    · exact (List.pairwise_cons.1 hs).1 x hx'

/-- The table for a given water line `w'` that separates element tops as the actual one does and is
inside no element. -/
theorem stress_core (p : Pile K) (sp : Profile K) (x2mesh : List K) (c tip : K)
    (h : GoodSetup p sp x2mesh c tip) (C : Coordinates K)
    (hC : getCoordinates p (some sp) x2mesh c = some C) (w' : K)
    (hw1 : ∀ e ∈ C.elements, w' ≤ e.2 ∨ e.1 ≤ w')
    (hw2 : ∀ e ∈ C.elements, (e.1 ≤ sp.waterLine ↔ e.1 ≤ w')) :
    ∃ rows, soilProperties p sp x2mesh c = .ok rows ∧ StressTable sp w' C.elements rows := by
  have hc0 : 0 < c := lt_of_lt_of_le (by norm_num) h.coarse
  obtain ⟨f, hf, hft⟩ := h.first
  obtain ⟨g, hg, hgt⟩ := h.last
  have hbuilt : ∀ l ∈ sp.layers, l.bottom < l.top ∧ l.top ≤ sp.topElevation := fun l hl =>
    ⟨((Soil.built_iff l).1 (h.built l hl)).1, by rw [← hft]; exact tops_le _ f hf l hl⟩
  obtain ⟨C1, hC1, hone⟩ := Mesh.C08_one_layer_partial sp h.built h.exact f g hf hg p x2mesh c tip
    h.coarse h.tip_eq hgt h.grid
  rw [hC] at hC1; cases hC1
  obtain ⟨C2, hC2, hN, hlt⟩ := Mesh.C07_no_merge_partial p (some sp) x2mesh c tip h.coarse h.tip_eq
    (fun r r' hr hr' _ => Or.inr ⟨h.grid r hr, h.grid r' hr'⟩)
  rw [hC] at hC2; cases hC2
  obtain ⟨C3, hC3, hel, _, hreq⟩ := Mesh.C05_published_nodes p (some sp) x2mesh c tip hc0 h.tip_eq
  rw [hC] at hC3; cases hC3
  -- all nodes are at or above the tip
  have htipnode : ∀ n ∈ C.nodes, tip ≤ n := by
    obtain ⟨z, hz, _, _, hbet⟩ := Mesh.C05_exact_nodes p (some sp) x2mesh c tip hc0 h.tip_eq
    simp only [getCoordinates, hz, Option.bind_eq_bind, Option.bind_some, Option.pure_def,
      Option.some.injEq] at hC
    intro n hn
    rw [← hC] at hn
    obtain ⟨x, hx, rfl⟩ := List.mem_map.1 hn
    obtain ⟨a, b, _, hb, h1, _⟩ := hbet x hx
    have hb' : tip ≤ b := by
      rcases hb with ⟨s, hs, h' | h'⟩ | ⟨sp', hsp, l, hl, _, h'⟩ | h'
      · rw [h']; exact (h.sections s hs).1.trans (h.sections s hs).2.le
      · rw [h']; exact (h.sections s hs).1
      · exact h'
      · exact h.extra b h'
    have htr : OnGrid tip := by
      obtain ⟨s, hs, hst⟩ : ∃ s ∈ p.sections, tip = s.bottom := by
        have := h.tip_eq
        unfold Pile.Pile.bottomElevation at this
        cases hl : p.sections.getLast? with
        | none => rw [hl] at this; cases this
        | some s =>
          rw [hl] at this
          exact ⟨s, List.mem_of_getLast? hl, (Option.some.inj this).symm⟩
      exact h.grid tip (Or.inl ⟨s, hs, Or.inr hst⟩)
    have := round4_mono _ _ (hb'.trans h1)
    obtain ⟨m, hm⟩ := htr
    rw [hm, round4_grid, ← hm] at this
    exact this
  have htipe : ∀ e ∈ C.elements, tip ≤ e.2 := by
    intro e he
    rw [hel] at he
    exact htipnode _ (List.mem_of_mem_tail (List.of_mem_zip he).2)
  -- ground level and tip are nodes
  have hfm : f ∈ sp.layers := by
    have : f ∈ Soil.sortLayers sp.layers := List.mem_of_head? hf
    exact (Soil.sortLayers_perm _).mem_iff.1 this
  have hgroundReq : Required p tip (some sp) x2mesh sp.topElevation :=
    Or.inr (Or.inl ⟨sp, rfl, f, hfm, Or.inl hft.symm, h.ground.le⟩)
  have hgn := hreq _ hgroundReq (h.grid _ hgroundReq)
  obtain ⟨s0, hs0, hst0⟩ : ∃ s ∈ p.sections, tip = s.bottom := by
    have := h.tip_eq
    unfold Pile.Pile.bottomElevation at this
    cases hl : p.sections.getLast? with
    | none => rw [hl] at this; cases this
    | some s =>
      rw [hl] at this
      exact ⟨s, List.mem_of_getLast? hl, (Option.some.inj this).symm⟩
  have htipReq : Required p tip (some sp) x2mesh tip := Or.inl ⟨s0, hs0, Or.inr hst0⟩
  have htn := hreq _ htipReq (h.grid _ htipReq)
  obtain ⟨y, hy⟩ := exists_element_from C.nodes hN _ _ hgn htn h.ground
  obtain ⟨rows, hr1, hr2, hr3⟩ := soilRows_spec sp C.elements
    (by rw [hel]; exact elements_chain _) hlt ⟨_, by rw [hel]; exact hy, rfl⟩ hbuilt
    (fun l hl l' hl' => disjoint_of_stack (·.top) (·.bottom) (Soil.sortLayers sp.layers)
      (fun s hs => (hbuilt s ((Soil.sortLayers_perm _).mem_iff.1 hs)).1) h.exact l l'
      ((Soil.sortLayers_perm _).mem_iff.2 hl) ((Soil.sortLayers_perm _).mem_iff.2 hl'))
    (fun e he het => hone e he (by rw [hft]; exact het) (htipe e he))
    (by
      intro e he het l hl
      have key2 : ∀ t, (t = l.top ∨ t = l.bottom) → t ≤ e.2 ∨ e.1 ≤ t := by
        intro t ht
        rcases lt_or_ge t tip with h' | h'
        · exact Or.inl (h'.le.trans (htipe e he))
        · have hr : Required p tip (some sp) x2mesh t :=
            Or.inr (Or.inl ⟨sp, rfl, l, hl, ht, h'⟩)
          exact published_no_straddle p (some sp) x2mesh c tip hc0 h.tip_eq C hC e he t hr
            (h.grid t hr)
      have h1 := key2 l.top (Or.inl rfl)
      have h2 := key2 l.bottom (Or.inr rfl)
      tauto)
    w' hw1 hw2
  exact ⟨rows, by simp [soilProperties, hC, hr1], hr2, hr3⟩

/-- If no element has the water line strictly inside, the tabulated stresses are exact. -/
theorem C10_exact_partial (p : Pile K) (sp : Profile K) (x2mesh : List K) (c tip : K)
    (h : GoodSetup p sp x2mesh c tip) (C : Coordinates K)
    (hC : getCoordinates p (some sp) x2mesh c = some C)
    (hw : ∀ e ∈ C.elements, sp.waterLine ≤ e.2 ∨ e.1 ≤ sp.waterLine) :
    ∃ rows, soilProperties p sp x2mesh c = .ok rows ∧
      StressTable sp sp.waterLine C.elements rows :=
  stress_core p sp x2mesh c tip h C hC sp.waterLine hw (fun _ _ => Iff.rfl)

/-- In general the tabulated stresses are exact for a water line that is lowered by no more than one
element (the water line is not meshed): at most the coarseness plus 0.1 mm. -/
theorem C10_snapped_water_line (p : Pile K) (sp : Profile K) (x2mesh : List K) (c tip : K)
    (h : GoodSetup p sp x2mesh c tip) :
    ∃ C rows w', getCoordinates p (some sp) x2mesh c = some C ∧
      soilProperties p sp x2mesh c = .ok rows ∧
      StressTable sp w' C.elements rows ∧ w' ≤ sp.waterLine ∧
      sp.waterLine - w' ≤ c + 1 / 10000 := by
  have hc0 : 0 < c := lt_of_lt_of_le (by norm_num) h.coarse
  obtain ⟨C, hC, hN, hlt⟩ := Mesh.C07_no_merge_partial p (some sp) x2mesh c tip h.coarse h.tip_eq
    (fun r r' hr hr' _ => Or.inr ⟨h.grid r hr, h.grid r' hr'⟩)
  obtain ⟨C3, hC3, hel, _, _⟩ := Mesh.C05_published_nodes p (some sp) x2mesh c tip hc0 h.tip_eq
  rw [hC] at hC3; cases hC3
  by_cases hcut : ∀ e ∈ C.elements, sp.waterLine ≤ e.2 ∨ e.1 ≤ sp.waterLine
  · obtain ⟨rows, hr1, hr2⟩ := C10_exact_partial p sp x2mesh c tip h C hC hcut
    exact ⟨C, rows, sp.waterLine, hC, hr1, hr2, le_rfl, by
      have : (0 : K) < 1 / 10000 := by norm_num
      linarith⟩
  · push Not at hcut
    obtain ⟨e0, he0, h1, h2⟩ := hcut
    have hnb : ∀ r ∈ C.nodes, ¬ (e0.2 < r ∧ r < e0.1) := by
      have : [e0.1, e0.2] <:+: C.nodes := (pairs_infix _ e0).1 (by rw [hel] at he0; exact he0)
      exact (neighbours_of_infix _ hN _ _ this).2.2.2
    have hbot : ∀ e ∈ C.elements, e0.2 ≤ e.2 ∨ e.1 ≤ e0.2 := by
      intro e he
      have hinf : [e.1, e.2] <:+: C.nodes := (pairs_infix _ e).1 (by rw [hel] at he; exact he)
      have hno := (neighbours_of_infix _ hN _ _ hinf).2.2.2 e0.2 (by
        rw [hel] at he0
        exact List.mem_of_mem_tail (List.of_mem_zip he0).2)
      by_contra hcon
      push Not at hcon
      exact hno hcon
    obtain ⟨rows, hr1, hr2⟩ := stress_core p sp x2mesh c tip h C hC e0.2 hbot (by
      intro e he
      constructor
      · intro hle
        by_contra hcon
        push Not at hcon
        refine hnb e.1 ?_ ⟨hcon, lt_of_le_of_lt hle h2⟩
        rw [hel] at he
        exact (List.of_mem_zip he).1
      · intro hle
        exact hle.trans h1.le)
    refine ⟨C, rows, e0.2, hC, hr1, hr2, h1.le, ?_⟩
    -- length of the published element
    obtain ⟨z, hz, hlen⟩ := Mesh.C06_element_lengths p (some sp) x2mesh c tip hc0 h.tip_eq
    simp only [getCoordinates, hz, Option.bind_eq_bind, Option.bind_some, Option.pure_def,
      Option.some.injEq] at hC
    rw [← hC] at he0
    obtain ⟨x, hx, rfl⟩ := List.mem_map.1 he0
    have h3 := (hlen x hx).2.1
    have h4 := abs_le.1 (round4_close x.1)
    have h5 := abs_le.1 (round4_close x.2)
    simp only at h1 h2 ⊢
    have e1 : (1 / 20000 : K) + 1 / 20000 = 1 / 10000 := by norm_num
    linarith [h4.2, h5.1]

/-- The stress of the specification is zero at ground level, non-negative, and increases downwards;
so do the tabulated stresses. -/
theorem C10_monotone (water : K) (layers : List (Layer K)) (hb : ∀ l ∈ layers, Built l)
    (z z' : K) (hz : z' ≤ z) : stressAt water z layers ≤ stressAt water z' layers := by
  have : 0 ≤ stressAt water z' layers - stressAt water z layers := by
    rw [stressAt_sub]
    apply List.sum_nonneg
    intro y hy
    obtain ⟨l, hl, rfl⟩ := List.mem_map.1 hy
    obtain ⟨h1, h2⟩ := (Soil.built_iff l).1 (hb l hl)
    unfold layerStress
    simp only
    have hbb : max l.bottom (min z' l.top) ≤ max l.bottom (min z l.top) :=
      max_le_max le_rfl (min_le_min hz le_rfl)
    have htop : max l.bottom (min z l.top) ≤ l.top := max_le h1.le (min_le_right _ _)
    generalize max l.bottom (min z' l.top) = b' at *
    generalize max l.bottom (min z l.top) = b at *
    have hm : min l.top (max water b') ≤ min l.top (max water b) :=
      min_le_min le_rfl (max_le_max le_rfl hbb)
    have : 10 * (b - b') ≤ l.weight * (b - b') :=
      mul_le_mul_of_nonneg_right h2.le (by linarith)
    linarith
  linarith

theorem C10_nonneg (sp : Profile K) (water z : K) (hb : ∀ l ∈ sp.layers, Built l)
    (htop : ∀ l ∈ sp.layers, l.top ≤ sp.topElevation) (hz : z ≤ sp.topElevation) :
    stressAt water sp.topElevation sp.layers = 0 ∧ 0 ≤ stressAt water z sp.layers := by
  have h0 := stressAt_ground water sp.topElevation sp.layers
    (fun l hl => ⟨((Soil.built_iff l).1 (hb l hl)).1, htop l hl⟩)
  exact ⟨h0, by rw [← h0]; exact C10_monotone water sp.layers hb _ _ hz⟩

/-- A setup that meets the hypotheses: pile from 1 m above ground, two layers. -/
theorem goodSetup_example :
    GoodSetup (⟨[⟨1, -3, 1, 1/20⟩, ⟨-3, -10, 1, 1/10⟩], Pile.steel⟩ : Pile ℚ)
      ⟨0, -1, [⟨-5, -20, 18⟩, ⟨0, -5, 19⟩]⟩ [] 1 (-10) where
  coarse := by norm_num
  tip_eq := rfl
  built := by
    intro l hl
    simp only [List.mem_cons, List.not_mem_nil, or_false] at hl
    rw [Soil.built_iff]
    rcases hl with rfl | rfl <;> norm_num
  exact := by decide +kernel
  first := ⟨⟨0, -5, 19⟩, by decide +kernel, rfl⟩
  last := ⟨⟨-5, -20, 18⟩, by decide +kernel, by norm_num⟩
  grid := by
    rintro r (⟨s, hs, h⟩ | ⟨sp', hsp, l, hl, h, _⟩ | h)
    · simp only [List.mem_cons, List.not_mem_nil, or_false] at hs
      rcases hs with rfl | rfl <;> rcases h with rfl | rfl
      · exact ⟨10000, by norm_num⟩
      · exact ⟨-30000, by norm_num⟩
      · exact ⟨-30000, by norm_num⟩
      · exact ⟨-100000, by norm_num⟩
    · cases hsp
      simp only [List.mem_cons, List.not_mem_nil, or_false] at hl
      rcases hl with rfl | rfl <;> rcases h with rfl | rfl
      · exact ⟨-50000, by norm_num⟩
      · exact ⟨-200000, by norm_num⟩
      · exact ⟨0, by norm_num⟩
      · exact ⟨-50000, by norm_num⟩
    · cases h
  ground := by norm_num
  extra := by simp
  sections := by
    intro s hs
    simp only [List.mem_cons, List.not_mem_nil, or_false] at hs
    rcases hs with rfl | rfl <;> norm_num

/-- The pile of the two violations below. -/
def pile10 : Pile ℚ := ⟨[⟨0, -10, 1, 1/20⟩], Pile.steel⟩

/-- **Violation.** Water line at -0.5 m inside the first element: the stress at the pile tip is 120
instead of 105 (the whole first element counts as dry). -/
theorem C10_violated_water_line :
    ∃ sp : Profile ℚ, Soil.mkProfile 0 (-1/2) [⟨0, -20, 20⟩] = .ok sp ∧
      ∃ rows r, soilProperties pile10 sp [] 2 = .ok rows ∧ rows.getLast? = some r ∧
        r.element.2 = -10 ∧ r.sigBottom = some 120 ∧ stressAt (-1/2) (-10) sp.layers = 105 := by
  refine ⟨⟨0, -1/2, [⟨0, -20, 20⟩]⟩, by decide +kernel,
    [⟨(0, -20000/10000), some 20, some 0, some 40⟩,
     ⟨(-20000/10000, -40000/10000), some 10, some 40, some 60⟩,
     ⟨(-40000/10000, -60000/10000), some 10, some 60, some 80⟩,
     ⟨(-60000/10000, -80000/10000), some 10, some 80, some 100⟩,
     ⟨(-80000/10000, -100000/10000), some 10, some 100, some 120⟩],
    ⟨(-80000/10000, -100000/10000), some 10, some 100, some 120⟩, by decide +kernel, rfl,
    by decide +kernel, rfl, by decide +kernel⟩

/-- **Violation.** Ground level at -1/3 m, not a multiple of 0.1 mm: the table cannot be built, the
model raises. -/
theorem C10_violated_ground_off_grid :
    ∃ sp : Profile ℚ, Soil.mkProfile (-1/3) 0 [⟨-1/3, -20, 20⟩] = .ok sp ∧
      soilProperties pile10 sp [] 2 = .error .lengthMismatch := by
  refine ⟨⟨-1/3, 0, [⟨-1/3, -20, 20⟩]⟩, by decide +kernel, by decide +kernel⟩

/-! ## C46 -/

omit [IsStrictOrderedRing K] in
/-- Exact acceptance condition of a model without soil. -/
theorem C46_accepted_without_soil (p : Pile K) (x2mesh : List K) (c top tip : K)
    (htop : p.topElevation = some top) (htip : p.bottomElevation = some tip) :
    (∃ m, mkModel p none x2mesh c = .ok m) ↔ 1 / 100 ≤ c ∧ 5 * c ≤ top - tip := by
  have hlen : p.length = some (top - tip) := by simp [Pile.Pile.length, htop, htip]
  unfold mkModel
  simp only [hlen]
  generalize (1 / 100 : K) = q
  by_cases h1 : q ≤ c
  · by_cases h2 : top - tip ≥ 5 * c
    · simp [h1, h2]
    · simp [h1, h2]
  · simp [h1]

omit [IsStrictOrderedRing K] in
/-- A model with soil is accepted exactly if moreover the stress table can be built and the pile tip
is not below the bottom of the soil profile. -/
theorem C46_accepted_with_soil (p : Pile K) (sp : Profile K) (x2mesh : List K) (c top tip : K)
    (htop : p.topElevation = some top) (htip : p.bottomElevation = some tip) :
    (∃ m, mkModel p (some sp) x2mesh c = .ok m) ↔
      1 / 100 ≤ c ∧ 5 * c ≤ top - tip ∧ sp.bottomElevation ≤ tip ∧
      ∃ rows, soilProperties p sp x2mesh c = .ok rows := by
  have hlen : p.length = some (top - tip) := by simp [Pile.Pile.length, htop, htip]
  unfold mkModel
  simp only [hlen, htip, bind, Except.bind]
  generalize (1 / 100 : K) = q
  by_cases h1 : q ≤ c
  · cases h3 : soilProperties p sp x2mesh c with
    | error e => simp [h1]
    | ok rows =>
      by_cases h2 : top - tip ≥ 5 * c
      · by_cases h4 : tip < sp.bottomElevation
        · simp [h1, h2, h4, not_le.2 h4]
        · simp [h1, h2, h4, not_lt.1 h4]
      · simp [h1, h2]
  · simp [h1]

omit [FloorRing K] in
theorem drop_le_count (c : K) (N : List K) (h : ∀ e ∈ N.zip N.tail, e.1 - e.2 ≤ c) (hc : 0 ≤ c)
    (a b : K) (ha : a ∈ N) (hb : b ∈ N) (hN : N.Pairwise (· > ·)) :
    a - b ≤ c * (N.zip N.tail).length := by
  -- between the head and any member
  have gen : ∀ (N : List K) (x : K), (∀ e ∈ (x :: N).zip N, e.1 - e.2 ≤ c) → ∀ b ∈ x :: N,
      x - b ≤ c * ((x :: N).zip N).length := by
    intro N
    induction N with
    | nil => intro x _ b hb; simp at hb; simp [hb]
    | cons y N ih =>
      intro x h b hb
      have h1 := h (x, y) (by simp)
      rw [List.zip_cons_cons, List.length_cons]
      push_cast
      rcases List.mem_cons.1 hb with rfl | hb
      · have : (0 : K) ≤ ((y :: N).zip N).length := by positivity
        nlinarith
      · have := ih y (fun e he => h e (by rw [List.zip_cons_cons]; exact List.mem_cons_of_mem _ he)) b hb
        simp only at h1
        linarith
  cases N with
  | nil => cases ha
  | cons x N =>
    have hxa : a ≤ x := by
      rcases List.mem_cons.1 ha with rfl | ha
      · exact le_rfl
      · exact le_of_lt ((List.pairwise_cons.1 hN).1 a ha)
    have := gen N x (by simpa using h) b hb
    simp only [List.tail_cons]
    linarith

/-- Every accepted model has a mesh with at least five elements. -/
theorem C46_five_elements (p : Pile K) (soil : Option (Profile K)) (x2mesh : List K) (c top tip : K)
    (htop : p.topElevation = some top) (htip : p.bottomElevation = some tip) (m : Model K)
    (hm : mkModel p soil x2mesh c = .ok m) :
    ∃ C, getCoordinates p soil x2mesh c = some C ∧ 5 ≤ C.elements.length := by
  have hacc : 1 / 100 ≤ c ∧ 5 * c ≤ top - tip := by
    cases soil with
    | none => exact (C46_accepted_without_soil p x2mesh c top tip htop htip).1 ⟨m, hm⟩
    | some sp =>
      have := (C46_accepted_with_soil p sp x2mesh c top tip htop htip).1 ⟨m, hm⟩
      exact ⟨this.1, this.2.1⟩
  have hc0 : 0 < c := lt_of_lt_of_le (by norm_num) hacc.1
  obtain ⟨z, hz, hdec, hreq, _⟩ := Mesh.C05_exact_nodes p soil x2mesh c tip hc0 htip
  obtain ⟨z', hz', hel⟩ := Mesh.C06_element_lengths p soil x2mesh c tip hc0 htip
  rw [hz] at hz'; cases hz'
  refine ⟨_, by simp only [getCoordinates, hz]; rfl, ?_⟩
  simp only [List.length_map, pairs]
  have ht : top ∈ z := by
    unfold Pile.Pile.topElevation at htop
    cases hs : p.sections with
    | nil => rw [hs] at htop; cases htop
    | cons f l =>
      rw [hs] at htop
      exact hreq top (Or.inl ⟨f, by rw [hs]; simp, Or.inl (by simpa using htop.symm)⟩)
  have hb : tip ∈ z := by
    unfold Pile.Pile.bottomElevation at htip
    cases hs : p.sections.getLast? with
    | none => rw [hs] at htip; cases htip
    | some f =>
      rw [hs] at htip
      exact hreq tip (Or.inl ⟨f, List.mem_of_getLast? hs, Or.inr (by simpa using htip.symm)⟩)
  have := drop_le_count c z (fun e he => (hel e he).2.1) hc0.le top tip ht hb hdec
  have h5 : (5 : K) * c ≤ c * (z.zip z.tail).length := hacc.2.trans this
  have h6 : (5 : K) ≤ ((z.zip z.tail).length : K) := by
    rw [mul_comm] at h5
    exact le_of_mul_le_mul_left h5 hc0
  exact_mod_cast h6

example : ∃ m, mkModel pile10 (some ⟨0, -1, [⟨-5, -20, 18⟩, ⟨0, -5, 19⟩]⟩) [-1/2] 2 = .ok m :=
  ⟨⟨pile10, some ⟨0, -1, [⟨-5, -20, 18⟩, ⟨0, -5, 19⟩]⟩, [-1/2], 2⟩, by decide +kernel⟩

end OpenPile.Props.Model
