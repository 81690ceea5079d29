/-
Properties C05, C06, C07, C08, C51 (mesh generation).

`exactNodes` is the mesh before rounding, `getCoordinates` the published (rounded) mesh.
-/
import Verif.Lemmas.Mesh
import Verif.Lemmas.Pile
import Verif.Spec.Pile
import Verif.Props.Soil
import Mathlib.Data.Rat.Floor

namespace OpenPile.Props.Mesh
open OpenPile.Mesh OpenPile.Spec.Mesh

variable {K : Type} [Field K] [LinearOrder K] [IsStrictOrderedRing K] [FloorRing K]

/-! ## C05 -/

/-- Every required elevation is a node of the exact mesh; the nodes are strictly decreasing and lie
between required elevations, so the first node is the highest and the last the lowest required
elevation. -/
theorem C05_exact_nodes (p : Pile.Pile K) (soil : Option (Soil.Profile K)) (x2mesh : List K)
    (c tip : K) (hc : 0 < c) (htip : p.bottomElevation = some tip) :
    ∃ z, exactNodes p soil x2mesh c = some z ∧ z.Pairwise (· > ·) ∧
      (∀ r, Required p tip soil x2mesh r → r ∈ z) ∧
      (∀ x ∈ z, ∃ a b, Required p tip soil x2mesh a ∧ Required p tip soil x2mesh b ∧
        b ≤ x ∧ x ≤ a) := by
  have hl : (primary p tip soil x2mesh).Pairwise (· > ·) := Py.uniqueDesc_pairwise _
  refine ⟨_, exactNodes_eq p soil x2mesh c tip hc htip, refine_pairwise c _ hc hl, ?_, ?_⟩
  · intro r hr
    exact mem_of_refine c _ hc hl r ((mem_primary p soil x2mesh tip r htip).2 hr)
  · intro x hx
    obtain ⟨a, ha, b, hb, h1, h2⟩ := mem_refine_between c _ hc hl x hx
    exact ⟨a, b, (mem_primary p soil x2mesh tip a htip).1 ha,
      (mem_primary p soil x2mesh tip b htip).1 hb, h1, h2⟩

/-- The published mesh: each required elevation is a published node up to 0.05 mm, exactly when it is
a multiple of 0.1 mm; there is a node no more than 0.05 mm away for nothing but exact nodes; the
elements are the pairs of consecutive published nodes. -/
theorem C05_published_nodes (p : Pile.Pile K) (soil : Option (Soil.Profile K)) (x2mesh : List K)
    (c tip : K) (hc : 0 < c) (htip : p.bottomElevation = some tip) :
    ∃ C, getCoordinates p soil x2mesh c = some C ∧
      C.elements = C.nodes.zip C.nodes.tail ∧
      (∀ r, Required p tip soil x2mesh r → ∃ n ∈ C.nodes, |n - r| ≤ 1 / 20000) ∧
      (∀ r, Required p tip soil x2mesh r → OnGrid r → r ∈ C.nodes) := by
  obtain ⟨z, hz, _, hreq, _⟩ := C05_exact_nodes p soil x2mesh c tip hc htip
  refine ⟨⟨z.map round4, (pairs z).map (fun e => (round4 e.1, round4 e.2))⟩,
    by simp [getCoordinates, hz], ?_, ?_, ?_⟩
  · simp only [pairs, ← List.map_tail, List.zip_map]
    rfl
  · intro r hr
    exact ⟨round4 r, List.mem_map_of_mem (hreq r hr), round4_close r⟩
  · rintro r hr ⟨n, rfl⟩
    exact List.mem_map.2 ⟨_, hreq _ hr, round4_grid n⟩

/-! ## C06 -/

/-- The subdivision loop terminates for every positive gap and coarseness, with the least divider
that respects the coarseness. -/
theorem C06_loop_terminates (spacing c : K) (hs : 0 < spacing) (hc : 0 < c) :
    ∃ n, divLoop spacing c (fuelFor spacing c) 1 = some n ∧ 1 ≤ n ∧ spacing / n ≤ c ∧
      ∀ m, 1 ≤ m → m < n → c < spacing / m := by
  obtain ⟨n, hn⟩ := divLoop_terminates spacing c hs hc
  obtain ⟨h1, h2, h3⟩ := divLoop_spec _ _ _ _ _ hn
  exact ⟨n, hn, h1, h2, h3⟩

/-- More iterations do not change the result of the loop: the bound on the number of iterations
in the model is no restriction. -/
theorem C06_loop_fuel_irrelevant (spacing c : K) (hs : 0 < spacing) (hc : 0 < c) (fuel : ℕ)
    (hf : fuelFor spacing c ≤ fuel) :
    divLoop spacing c fuel 1 = divLoop spacing c (fuelFor spacing c) 1 := by
  obtain ⟨n, hn⟩ := divLoop_terminates spacing c hs hc
  rw [hn]
  exact divLoop_mono _ _ _ _ _ _ hn hf

/-- Between two neighbouring required elevations `A > B` the elements are the equal division of the
gap into the smallest number `n` of parts no longer than the coarseness. -/
theorem C06_element_lengths (p : Pile.Pile K) (soil : Option (Soil.Profile K)) (x2mesh : List K)
    (c tip : K) (hc : 0 < c) (htip : p.bottomElevation = some tip) :
    ∃ z, exactNodes p soil x2mesh c = some z ∧ ∀ e ∈ z.zip z.tail,
      0 < e.1 - e.2 ∧ e.1 - e.2 ≤ c ∧
      ∃ (A B : K) (n : ℕ), Neighbours (Required p tip soil x2mesh) A B ∧ B ≤ e.2 ∧ e.1 ≤ A ∧
        (∃ k : ℕ, k < n ∧ e.1 = A - k * ((A - B) / n) ∧ e.1 - e.2 = (A - B) / n) ∧
        ∀ m : ℕ, 1 ≤ m → m < n → c < (A - B) / m := by
  have hl : (primary p tip soil x2mesh).Pairwise (· > ·) := Py.uniqueDesc_pairwise _
  refine ⟨_, exactNodes_eq p soil x2mesh c tip hc htip, ?_⟩
  intro e he
  have hst := isChain_of_infix _ (refine_chain c _ hc hl) _ _ ((pairs_infix _ e).1 he)
  have hlt := step_lt c _ hc hl _ _ hst
  obtain ⟨a, b, hab, k, hk, h1, h2⟩ := hst
  obtain ⟨ha, hb, hba, hno⟩ := neighbours_of_infix _ hl a b hab
  obtain ⟨_, hd1, hd2, hd3⟩ := dividerOf_spec c a b hc hba
  have hdpos : (0 : K) < dividerOf c a b := by exact_mod_cast hd1
  have hlen : e.1 - e.2 = (a - b) / dividerOf c a b := by rw [h1, h2]; push_cast; ring
  have hs : 0 < (a - b) / dividerOf c a b := div_pos (by linarith) hdpos
  have hmem := fun r => mem_primary p soil x2mesh tip r htip
  refine ⟨by linarith, by rw [hlen]; exact hd2, a, b, dividerOf c a b,
    ⟨(hmem a).1 ha, (hmem b).1 hb, hba, fun r hr => hno r ((hmem r).2 hr)⟩, ?_, ?_,
    ⟨k, hk, h1, hlen⟩, hd3⟩
  · have hk' : ((k + 1 : ℕ) : K) ≤ dividerOf c a b := by exact_mod_cast hk
    have h3 : ((k + 1 : ℕ) : K) * ((a - b) / dividerOf c a b) ≤ a - b := by
      calc _ ≤ (dividerOf c a b : K) * ((a - b) / dividerOf c a b) := by gcongr
        _ = a - b := by field_simp
    rw [h2]; linarith
  · rw [h1]
    have : (0 : K) ≤ (k : K) * ((a - b) / dividerOf c a b) := by positivity
    linarith

/-! ## C07 -/

/-- Published nodes are the exact nodes moved by at most 0.05 mm, in the same order. -/
theorem C07_close_and_ordered (p : Pile.Pile K) (soil : Option (Soil.Profile K)) (x2mesh : List K)
    (c tip : K) (hc : 0 < c) (htip : p.bottomElevation = some tip) :
    ∃ z C, exactNodes p soil x2mesh c = some z ∧ getCoordinates p soil x2mesh c = some C ∧
      List.Forall₂ (fun n x => |n - x| ≤ 1 / 20000) C.nodes z ∧
      C.nodes.Pairwise (· ≥ ·) := by
  obtain ⟨z, hz, hdec, _, _⟩ := C05_exact_nodes p soil x2mesh c tip hc htip
  refine ⟨z, _, hz, by simp only [getCoordinates, hz]; rfl, ?_, ?_⟩
  · simp only [List.forall₂_map_left_iff]
    exact List.forall₂_same.2 (fun x _ => round4_close x)
  · rw [List.pairwise_map]
    exact hdec.imp (fun h => round4_mono _ _ h.le)

/-- Distinct required elevations are more than 0.1 mm apart, or multiples of 0.1 mm. -/
def Separated (R : K → Prop) : Prop :=
  ∀ r r', R r → R r' → r < r' → r + 1 / 10000 < r' ∨ (OnGrid r ∧ OnGrid r')

/-- No two nodes are merged by the rounding if the required elevations are separated and the
coarseness is one the Model accepts. -/
theorem C07_no_merge_partial (p : Pile.Pile K) (soil : Option (Soil.Profile K)) (x2mesh : List K)
    (c tip : K) (hc : 1 / 100 ≤ c) (htip : p.bottomElevation = some tip)
    (hsep : Separated (Required p tip soil x2mesh)) :
    ∃ C, getCoordinates p soil x2mesh c = some C ∧ C.nodes.Pairwise (· > ·) ∧
      ∀ e ∈ C.elements, e.2 < e.1 := by
  have hc0 : 0 < c := lt_of_lt_of_le (by norm_num) hc
  obtain ⟨z, hz, hel⟩ := C06_element_lengths p soil x2mesh c tip hc0 htip
  have hlt : ∀ e ∈ z.zip z.tail, round4 e.2 < round4 e.1 := by
    intro e he
    obtain ⟨hpos, _, A, B, n, ⟨hA, hB, hBA, _⟩, hBe, heA, ⟨k, hk, h1, hlen⟩, hn⟩ := hel e he
    rcases Nat.lt_or_ge 1 n with h | h
    · apply round4_strict
      have h2 := hn (n - 1) (by omega) (by omega)
      obtain ⟨m, rfl⟩ : ∃ m, n = m + 2 := ⟨n - 2, by omega⟩
      have h3 : c * (m + 1) < A - B := by
        rw [lt_div_iff₀ (by simp; positivity)] at h2
        simpa using h2
      have h4 : (A - B) / ((m + 2 : ℕ) : K) ≥ c / 2 := by
        rw [ge_iff_le, le_div_iff₀ (by positivity)]
        push_cast
        have : (0 : K) ≤ m := by positivity
        nlinarith
      have : (1 / 10000 : K) < 1 / 200 := by norm_num
      have h5 : (1 / 200 : K) ≤ c / 2 := by linarith
      linarith
    · have hn1 : n = 1 := by omega
      subst hn1
      have hk0 : k = 0 := by omega
      subst hk0
      have e1 : e.1 = A := by rw [h1]; simp
      have e2 : e.2 = B := by
        have : e.1 - e.2 = A - B := by rw [hlen]; simp
        rw [e1] at this; linarith
      rw [e1, e2]
      rcases hsep B A hB hA hBA with h' | ⟨⟨nb, hb⟩, ⟨na, ha⟩⟩
      · exact round4_strict _ _ h'
      · rw [ha, hb, round4_grid, round4_grid, ← ha, ← hb]; exact hBA
  refine ⟨_, by simp only [getCoordinates, hz]; rfl, ?_, ?_⟩
  · rw [← List.isChain_iff_pairwise]
    exact isChain_of_pairs _ (by
      intro e he
      rw [← List.map_tail, List.zip_map, List.mem_map] at he
      obtain ⟨e', he', rfl⟩ := he
      exact hlt e' he')
  · intro e he
    obtain ⟨e', he', rfl⟩ := List.mem_map.1 he
    exact hlt e' he'

/-- A pile of 10 m in two sections, used in the examples below. -/
def pileQ : Pile.Pile ℚ :=
  ⟨[⟨0, -10/3, 1, 1/20⟩, ⟨-10/3, -10, 1, 1/10⟩], Pile.steel⟩

example : ∃ tip, (pileQ.bottomElevation = some tip) ∧ (1 / 100 : ℚ) ≤ 2 := ⟨-10, rfl, by norm_num⟩

/-- Without the separation hypothesis the rounding merges nodes: an extra mesh point 0.01 mm below
the pile head produces an element of zero length. -/
theorem C07_violated_merge :
    ∃ C, getCoordinates pileQ none [(-1 / 100000 : ℚ)] 2 = some C ∧ (0, 0) ∈ C.elements := by
  refine ⟨⟨[0, 0, -16667/10000, -33333/10000, -50000/10000, -66667/10000, -83333/10000, -100000/10000],
    [(0, 0), (0, -16667/10000), (-16667/10000, -33333/10000), (-33333/10000, -50000/10000), (-50000/10000, -66667/10000), (-66667/10000, -83333/10000), (-83333/10000, -100000/10000)]⟩, ?_⟩
  decide +kernel

/-! ## C08 -/

/-- Within the pile, no boundary of a section lies inside an element, and none of a layer either:
each section and each layer either contains the element or does not overlap it. -/
theorem C08_no_straddle (p : Pile.Pile K) (soil : Option (Soil.Profile K)) (x2mesh : List K)
    (c tip : K) (hc : 0 < c) (htip : p.bottomElevation = some tip) :
    ∃ z, exactNodes p soil x2mesh c = some z ∧ ∀ e ∈ z.zip z.tail,
      (∀ s ∈ p.sections, s.bottom < s.top →
        e.1 ≤ s.bottom ∨ s.top ≤ e.2 ∨ (s.bottom ≤ e.2 ∧ e.1 ≤ s.top)) ∧
      (∀ sp, soil = some sp → ∀ l ∈ sp.layers, l.bottom < l.top → tip ≤ e.2 →
        e.1 ≤ l.bottom ∨ l.top ≤ e.2 ∨ (l.bottom ≤ e.2 ∧ e.1 ≤ l.top)) := by
  obtain ⟨z, hz, hel⟩ := C06_element_lengths p soil x2mesh c tip hc htip
  refine ⟨z, hz, fun e he => ?_⟩
  obtain ⟨hpos, _, A, B, n, ⟨hA, hB, hBA, hno⟩, hBe, heA, _, _⟩ := hel e he
  have key : ∀ t, Required p tip soil x2mesh t → t ≤ e.2 ∨ e.1 ≤ t := by
    intro t ht
    by_contra hcon
    push Not at hcon
    exact hno t ht ⟨lt_of_le_of_lt hBe hcon.1, lt_of_lt_of_le hcon.2 heA⟩
  constructor
  · intro s hs _
    have h1 := key s.top (Or.inl ⟨s, hs, Or.inl rfl⟩)
    have h2 := key s.bottom (Or.inl ⟨s, hs, Or.inr rfl⟩)
    tauto
  · intro sp hsp l hl _ htl
    have key2 : ∀ t, (t = l.top ∨ t = l.bottom) → t ≤ e.2 ∨ e.1 ≤ t := by
      intro t ht
      rcases lt_or_ge t tip with h | h
      · exact Or.inl (h.le.trans htl)
      · exact key t (Or.inr (Or.inl ⟨sp, hsp, l, hl, ht, h⟩))
    have h1 := key2 l.top (Or.inl rfl)
    have h2 := key2 l.bottom (Or.inr rfl)
    tauto

/-- If all required elevations are multiples of 0.1 mm, every published element within the pile is
selected by exactly one section: the section loops visit each element exactly once. -/
theorem C08_one_section_partial (sections : List (Pile.Section K)) (mat : Pile.Material K)
    (p : Pile.Pile K) (hp : Pile.mkPile sections mat = .ok p)
    (hb : ∀ s ∈ sections, Spec.Pile.Built s)
    (soil : Option (Soil.Profile K)) (x2mesh : List K) (c tip top : K) (hc : 1 / 100 ≤ c)
    (htip : p.bottomElevation = some tip) (htop : p.topElevation = some top)
    (hgrid : ∀ r, Required p tip soil x2mesh r → OnGrid r) :
    ∃ C, getCoordinates p soil x2mesh c = some C ∧ ∀ e ∈ C.elements, e.1 ≤ top → tip ≤ e.2 →
      ∃ s, p.sections.filter (fun s => decide (e.1 ≤ s.top ∧ e.2 ≥ s.bottom)) = [s] ∧
        ∀ {β : Type} (key : Pile.Section K → β),
          parameterOf (·.top) (·.bottom) key p.sections e = some (key s) := by
  have hc0 : 0 < c := lt_of_lt_of_le (by norm_num) hc
  obtain ⟨C, hC, _, hstrict⟩ := C07_no_merge_partial p soil x2mesh c tip hc htip
    (fun r r' hr hr' _ => Or.inr ⟨hgrid r hr, hgrid r' hr'⟩)
  refine ⟨C, hC, fun e he het heb => ?_⟩
  have hne := published_no_straddle p soil x2mesh c tip hc0 htip C hC e he
  obtain ⟨hst, hmem⟩ := mkPile_sections sections mat p hp
  have hbuilt : ∀ s ∈ p.sections, s.bottom < s.top := fun s hs =>
    ((Pile.built_iff s).1 (hb s ((hmem s).1 hs))).1
  obtain ⟨s, hs⟩ := stack_unique (·.top) (·.bottom) p.sections hbuilt hst e (hstrict e he)
    (fun s hs t ht => hne t (by
      rcases ht with rfl | rfl
      · exact Or.inl ⟨s, hs, Or.inl rfl⟩
      · exact Or.inl ⟨s, hs, Or.inr rfl⟩) (hgrid _ (by
      rcases ht with rfl | rfl
      · exact Or.inl ⟨s, hs, Or.inl rfl⟩
      · exact Or.inl ⟨s, hs, Or.inr rfl⟩)))
    (by
      intro f hf
      have : f.top = top := by
        unfold Pile.Pile.topElevation at htop
        rw [hf] at htop
        simpa using htop
      rw [this]; exact het)
    (by
      intro f hf
      have : f.bottom = tip := by
        unfold Pile.Pile.bottomElevation at htip
        rw [hf] at htip
        simpa using htip
      rw [this]; exact heb)
    (by
      intro h
      unfold Pile.Pile.topElevation at htop
      rw [h] at htop
      cases htop)
  exact ⟨s, hs, fun key => parameterOf_of_filter _ _ key _ e s hs⟩

/-- The same for soil layers that meet exactly: each published element between ground level and pile
tip is selected by exactly one layer, so `create_springs` visits each embedded element once. -/
theorem C08_one_layer_partial (sp : Soil.Profile K)
    (hb : ∀ l ∈ sp.layers, Spec.Soil.Built l)
    (hst : (Soil.sortLayers sp.layers).IsChain (fun u l => l.top = u.bottom))
    (first last : Soil.Layer K) (hfirst : (Soil.sortLayers sp.layers).head? = some first)
    (hlast : (Soil.sortLayers sp.layers).getLast? = some last)
    (p : Pile.Pile K) (x2mesh : List K) (c tip : K) (hc : 1 / 100 ≤ c)
    (htip : p.bottomElevation = some tip) (hdeep : last.bottom ≤ tip)
    (hgrid : ∀ r, Required p tip (some sp) x2mesh r → OnGrid r) :
    ∃ C, getCoordinates p (some sp) x2mesh c = some C ∧
      ∀ e ∈ C.elements, e.1 ≤ first.top → tip ≤ e.2 →
      ∃ l, sp.layers.filter (fun l => decide (e.1 ≤ l.top ∧ e.2 ≥ l.bottom)) = [l] := by
  have hc0 : 0 < c := lt_of_lt_of_le (by norm_num) hc
  obtain ⟨C, hC, _, hstrict⟩ := C07_no_merge_partial p (some sp) x2mesh c tip hc htip
    (fun r r' hr hr' _ => Or.inr ⟨hgrid r hr, hgrid r' hr'⟩)
  refine ⟨C, hC, fun e he het heb => ?_⟩
  have hne := published_no_straddle p (some sp) x2mesh c tip hc0 htip C hC e he
  have hperm := Props.Soil.sortLayers_perm sp.layers
  have hbuilt : ∀ s ∈ Soil.sortLayers sp.layers, s.bottom < s.top := fun s hs =>
    ((Props.Soil.built_iff s).1 (hb s (hperm.mem_iff.1 hs))).1
  obtain ⟨s, hs⟩ := stack_unique (·.top) (·.bottom) (Soil.sortLayers sp.layers) hbuilt hst e
    (hstrict e he)
    (by
      intro l hl t ht
      have ht' : t = l.top ∨ t = l.bottom := ht
      rcases lt_or_ge t tip with h | h
      · exact Or.inl (h.le.trans heb)
      · have hr : Required p tip (some sp) x2mesh t :=
          Or.inr (Or.inl ⟨sp, rfl, l, hperm.mem_iff.1 hl, ht', h⟩)
        exact hne t hr (hgrid t hr))
    (by
      intro f hf
      rw [hfirst] at hf
      cases hf
      exact het)
    (by
      intro f hf
      rw [hlast] at hf
      cases hf
      exact hdeep.trans heb)
    (by intro h; rw [h] at hfirst; cases hfirst)
  refine ⟨s, ?_⟩
  have := hperm.filter (fun l => decide (e.1 ≤ l.top ∧ e.2 ≥ l.bottom))
  rw [hs] at this
  exact List.perm_singleton.1 this.symm

/-- Section boundary at -10/3, not a multiple of 0.1 mm: the published element below it starts at
-3.3333, above the section it belongs to, and no section is found for it. -/
theorem C08_violated_rounding :
    ∃ C, getCoordinates pileQ none [] 2 = some C ∧ ∃ e ∈ C.elements, e.1 ≤ 0 ∧ -10 ≤ e.2 ∧
      parameterOf (·.top) (·.bottom) (·.thickness) pileQ.sections e = none := by
  refine ⟨⟨[0, -16667/10000, -33333/10000, -50000/10000, -66667/10000, -83333/10000, -100000/10000],
    [(0, -16667/10000), (-16667/10000, -33333/10000), (-33333/10000, -50000/10000), (-50000/10000, -66667/10000), (-66667/10000, -83333/10000), (-83333/10000, -100000/10000)]⟩, by decide +kernel,
    (-33333/10000, -50000/10000), ?_⟩
  decide +kernel

/-- The same for a soil profile: a layer boundary at -10/3 leaves an embedded element without a
layer, hence without springs. -/
theorem C08_violated_layer_rounding :
    ∃ sp : Soil.Profile ℚ, Soil.mkProfile 0 0 [⟨0, -10/3, 18⟩, ⟨-10/3, -20, 18⟩] = .ok sp ∧
    ∃ C, getCoordinates pileQ (some sp) [] 2 = some C ∧ ∃ e ∈ C.elements, e.1 ≤ 0 ∧ -10 ≤ e.2 ∧
      sp.layers.filter (fun l => decide (e.1 ≤ l.top ∧ e.2 ≥ l.bottom)) = [] := by
  refine ⟨⟨0, 0, [⟨0, -10/3, 18⟩, ⟨-10/3, -20, 18⟩]⟩, by decide +kernel,
    ⟨[0, -16667/10000, -33333/10000, -50000/10000, -66667/10000, -83333/10000, -100000/10000],
    [(0, -16667/10000), (-16667/10000, -33333/10000), (-33333/10000, -50000/10000), (-50000/10000, -66667/10000), (-66667/10000, -83333/10000), (-83333/10000, -100000/10000)]⟩, by decide +kernel,
    (-33333/10000, -50000/10000), ?_⟩
  decide +kernel

/-- Hypotheses of the two theorems above are met by a two-section pile in two layers. -/
example :
    let p : Pile.Pile ℚ := ⟨[⟨1, -3, 1, 1/20⟩, ⟨-3, -10, 1, 1/10⟩], Pile.steel⟩
    let sp : Soil.Profile ℚ := ⟨0, 0, [⟨-5, -20, 18⟩, ⟨0, -5, 18⟩]⟩
    Pile.mkPile p.sections Pile.steel = .ok p ∧ Soil.mkProfile 0 0 sp.layers = .ok sp ∧
    (∀ r, Required p (-10) (some sp) [-1/2] r → OnGrid r) := by
  refine ⟨by decide +kernel, by decide +kernel, ?_⟩
  rintro r (⟨s, hs, h⟩ | ⟨sp', hsp, l, hl, h, _⟩ | h)
  · simp only [List.mem_cons, List.not_mem_nil, or_false] at hs
    rcases hs with rfl | rfl <;> rcases h with rfl | rfl
    · exact ⟨10000, by norm_num⟩
    · exact ⟨-30000, by norm_num⟩
    · exact ⟨-30000, by norm_num⟩
    · exact ⟨-100000, by norm_num⟩
  · cases hsp
    simp only [List.mem_cons, List.not_mem_nil, or_false] at hl
    rcases hl with rfl | rfl <;> rcases h with rfl | rfl
    · exact ⟨-50000, by norm_num⟩
    · exact ⟨-200000, by norm_num⟩
    · exact ⟨0, by norm_num⟩
    · exact ⟨-50000, by norm_num⟩
  · simp only [List.mem_cons, List.not_mem_nil, or_false] at h
    subst h
    exact ⟨-5000, by norm_num⟩

/-! ## C51 -/

/-- If neither the soil nor the extra elevations reach beyond the pile, the mesh starts at the pile
head and ends at the pile tip. -/
theorem C51_spans_pile_partial (sections : List (Pile.Section K)) (mat : Pile.Material K)
    (p : Pile.Pile K) (hp : Pile.mkPile sections mat = .ok p)
    (hb : ∀ s ∈ sections, Spec.Pile.Built s)
    (soil : Option (Soil.Profile K)) (x2mesh : List K) (c tip top : K) (hc : 0 < c)
    (htip : p.bottomElevation = some tip) (htop : p.topElevation = some top)
    (hsoil : ∀ sp, soil = some sp → ∀ l ∈ sp.layers, l.bottom < l.top ∧ l.top ≤ top)
    (hx : ∀ x ∈ x2mesh, tip ≤ x ∧ x ≤ top) :
    ∃ z, exactNodes p soil x2mesh c = some z ∧ z.head? = some top ∧ z.getLast? = some tip := by
  obtain ⟨z, hz, hdec, hreq, hbet⟩ := C05_exact_nodes p soil x2mesh c tip hc htip
  obtain ⟨hst, hmem⟩ := mkPile_sections sections mat p hp
  have hbuilt : ∀ s ∈ p.sections, s.bottom < s.top := fun s hs =>
    ((Pile.built_iff s).1 (hb s ((hmem s).1 hs))).1
  have hin : ∀ r, Required p tip soil x2mesh r → tip ≤ r ∧ r ≤ top := by
    rintro r (⟨s, hs, h⟩ | ⟨sp, hsp, l, hl, h, h'⟩ | h)
    · have := stack_bounds p.sections hbuilt hst s hs
      obtain ⟨f, hf, g, hg, h1, h2⟩ := this
      have e1 : f.top = top := by
        unfold Pile.Pile.topElevation at htop
        rw [hf] at htop; simpa using htop
      have e2 : g.bottom = tip := by
        unfold Pile.Pile.bottomElevation at htip
        rw [hg] at htip; simpa using htip
      have := hbuilt s hs
      rcases h with rfl | rfl
      · exact ⟨by rw [← e2]; exact h2.trans this.le, by rw [← e1]; exact h1⟩
      · exact ⟨by rw [← e2]; exact h2, by rw [← e1]; exact this.le.trans h1⟩
    · obtain ⟨h1, h2⟩ := hsoil sp hsp l hl
      refine ⟨h', ?_⟩
      rcases h with rfl | rfl
      · exact h2
      · exact h1.le.trans h2
    · exact hx r h
  have hzin : ∀ x ∈ z, tip ≤ x ∧ x ≤ top := by
    intro x hxz
    obtain ⟨a, b, ha, hb', h1, h2⟩ := hbet x hxz
    exact ⟨(hin b hb').1.trans h1, h2.trans (hin a ha).2⟩
  have htopm : top ∈ z := by
    unfold Pile.Pile.topElevation at htop
    cases hs : p.sections with
    | nil => rw [hs] at htop; cases htop
    | cons f l =>
      rw [hs] at htop
      refine hreq top (Or.inl ⟨f, by rw [hs]; simp, Or.inl ?_⟩)
      simpa using htop.symm
  have htipm : tip ∈ z := by
    unfold Pile.Pile.bottomElevation at htip
    cases hs : p.sections.getLast? with
    | none => rw [hs] at htip; cases htip
    | some f =>
      rw [hs] at htip
      exact hreq tip (Or.inl ⟨f, List.mem_of_getLast? hs, Or.inr (by simpa using htip.symm)⟩)
  exact ⟨z, hz, head_eq_max z hdec top htopm (fun x h => (hzin x h).2),
    last_eq_min z hdec tip htipm (fun x h => (hzin x h).1)⟩

/-- A pile whose head is below ground level: the mesh starts at ground level, and the first element
lies outside the pile and has no section. -/
theorem C51_violated_head_below_ground :
    ∃ (p : Pile.Pile ℚ) (sp : Soil.Profile ℚ),
      Pile.mkPile [⟨-2, -10, 1, 1/20⟩] Pile.steel = .ok p ∧
      Soil.mkProfile 0 0 [⟨0, -20, 18⟩] = .ok sp ∧
      ∃ C, getCoordinates p (some sp) [] 1 = some C ∧ C.nodes.head? = some 0 ∧
        ∃ e, C.elements.head? = some e ∧
          parameterOf (·.top) (·.bottom) (·.thickness) p.sections e = none := by
  refine ⟨⟨[⟨-2, -10, 1, 1/20⟩], Pile.steel⟩, ⟨0, 0, [⟨0, -20, 18⟩]⟩, by decide +kernel,
    by decide +kernel, ⟨[0, -10000/10000, -20000/10000, -30000/10000, -40000/10000, -50000/10000, -60000/10000, -70000/10000, -80000/10000, -90000/10000, -100000/10000],
    [(0, -10000/10000), (-10000/10000, -20000/10000), (-20000/10000, -30000/10000), (-30000/10000, -40000/10000), (-40000/10000, -50000/10000), (-50000/10000, -60000/10000), (-60000/10000, -70000/10000), (-70000/10000, -80000/10000), (-80000/10000, -90000/10000), (-90000/10000, -100000/10000)]⟩, by decide +kernel, ?_, (0, -10000/10000), ?_⟩
  · decide +kernel
  · decide +kernel

end OpenPile.Props.Mesh
