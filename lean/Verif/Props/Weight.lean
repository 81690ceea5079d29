/-
C45: effective pile weight and weight of the soil plug.
-/
import Verif.Model.Weight
import Verif.Spec.Weight
import Verif.Props.Model

namespace OpenPile.Props.Weight
open OpenPile.Pile (Pile Section)
open OpenPile.Soil (Layer Profile)
open OpenPile.Mesh OpenPile.Spec.Mesh OpenPile.Weight OpenPile.Spec.Weight
open OpenPile.Props.Model (GoodSetup)

variable {K : Type} [Field K] [LinearOrder K] [IsStrictOrderedRing K]

/-! ## Clamping and telescoping -/

theorem clamp_inside {t b z : K} (h1 : b ≤ z) (h2 : z ≤ t) : clamp t b z = z := by
  unfold clamp
  rw [min_eq_left h2, max_eq_right h1]

theorem clamp_below {t b z : K} (h : b ≤ t) (h1 : z ≤ b) : clamp t b z = b := by
  unfold clamp
  rw [min_eq_left (h1.trans h), max_eq_left h1]

theorem clamp_above {t b z : K} (h : b ≤ t) (h1 : t ≤ z) : clamp t b z = t := by
  unfold clamp
  rw [min_eq_right h1, max_eq_right h]

theorem clamp_mono {t b z z' : K} (h : z ≤ z') : clamp t b z ≤ clamp t b z' :=
  max_le_max le_rfl (min_le_min h le_rfl)

theorem below_sub (A : Section K → K) (p : Pile K) (z z' : K) :
    below A p z - below A p z' =
      (p.sections.map (fun s => A s * (clamp s.top s.bottom z - clamp s.top s.bottom z'))).sum := by
  unfold below
  induction p.sections with
  | nil => simp
  | cons s l ih =>
    simp only [List.map_cons, List.sum_cons, ← ih]
    ring

/-- The volume below grows with the elevation when no area is negative. -/
theorem below_mono (A : Section K → K) (p : Pile K) (hA : ∀ s ∈ p.sections, 0 ≤ A s) {z z' : K}
    (h : z' ≤ z) : below A p z' ≤ below A p z := by
  have : 0 ≤ below A p z - below A p z' := by
    rw [below_sub]
    refine List.sum_nonneg fun y hy => ?_
    obtain ⟨s, hs, rfl⟩ := List.mem_map.1 hy
    exact mul_nonneg (hA s hs) (sub_nonneg.2 (clamp_mono h))
  linarith

/-- Below the tip there is nothing. -/
theorem below_tip (A : Section K → K) (p : Pile K) (hb : ∀ s ∈ p.sections, s.bottom < s.top) {z : K}
    (h : ∀ s ∈ p.sections, z ≤ s.bottom) : below A p z = 0 := by
  unfold below
  apply List.sum_eq_zero
  intro y hy
  obtain ⟨s, hs, rfl⟩ := List.mem_map.1 hy
  rw [clamp_below (hb s hs).le (h s hs)]
  ring

/-- Below the head there is everything. -/
theorem below_head (A : Section K → K) (p : Pile K) (hb : ∀ s ∈ p.sections, s.bottom < s.top) {z : K}
    (h : ∀ s ∈ p.sections, s.top ≤ z) :
    below A p z = (p.sections.map (fun s => A s * s.length)).sum := by
  unfold below
  congr 1
  refine List.map_congr_left fun s hs => ?_
  rw [clamp_above (hb s hs).le (h s hs)]
  rfl

theorem telescope (F : K → K) (N : List K) (a b : K) (ha : N.head? = some a) (hb : N.getLast? = some b) :
    ((pairs N).map (fun e => F e.1 - F e.2)).sum = F a - F b := by
  induction N generalizing a with
  | nil => cases ha
  | cons x l ih =>
    cases ha
    cases l with
    | nil =>
      cases hb
      simp [pairs]
    | cons y l =>
      rw [List.getLast?_cons_cons] at hb
      have := ih y rfl hb
      simp only [pairs, List.tail_cons, List.zip_cons_cons, List.map_cons, List.sum_cons] at this ⊢
      rw [this]
      ring

/-- Increment of the volume over an element that lies in exactly one section and overlaps no other. -/
theorem below_element (A : Section K → K) (p : Pile K) (e : K × K) (he : e.2 < e.1)
    (hb : ∀ s ∈ p.sections, s.bottom < s.top) (s : Section K)
    (hone : p.sections.filter (fun s => decide (e.1 ≤ s.top ∧ e.2 ≥ s.bottom)) = [s])
    (hcut : ∀ s ∈ p.sections, ∀ t, (t = s.top ∨ t = s.bottom) → t ≤ e.2 ∨ e.1 ≤ t) :
    below A p e.1 - below A p e.2 = A s * (e.1 - e.2) := by
  rw [below_sub, OpenPile.Model.sum_of_filter (fun s => decide (e.1 ≤ s.top ∧ e.2 ≥ s.bottom)), hone]
  · have hs : s ∈ p.sections.filter (fun s => decide (e.1 ≤ s.top ∧ e.2 ≥ s.bottom)) := by
      rw [hone]
      exact List.mem_singleton.2 rfl
    have h := (List.mem_filter.1 hs).2
    simp only [decide_eq_true_eq] at h
    simp only [List.map_cons, List.map_nil, List.sum_cons, List.sum_nil, add_zero]
    rw [clamp_inside (h.2.trans he.le) h.1, clamp_inside h.2 (he.le.trans h.1)]
  · intro r hr hsel
    simp only [decide_eq_false_iff_not, not_and, ge_iff_le, not_le] at hsel
    rcases hcut r hr r.top (Or.inl rfl) with h1 | h1
    · rw [clamp_above (hb r hr).le h1, clamp_above (hb r hr).le (h1.trans he.le)]
      ring
    · have h2 := hsel h1
      have h3 : e.1 ≤ r.bottom := by
        rcases hcut r hr r.bottom (Or.inr rfl) with h | h
        · exact absurd h (not_le.2 h2)
        · exact h
      rw [clamp_below (hb r hr).le h3, clamp_below (hb r hr).le h2.le]
      ring

theorem mapM_some {α β : Type} (f : α → Option β) (g : α → β) (l : List α)
    (h : ∀ a ∈ l, f a = some (g a)) : l.mapM f = some (l.map g) := by
  induction l with
  | nil => rfl
  | cons a l ih =>
    rw [List.mapM_cons, h a (by simp), ih fun b hb => h b (List.mem_cons_of_mem _ hb)]
    rfl

/-! ## The mesh of a Model whose pile head is not below ground -/

variable [FloorRing K]

/-- A validated pile in a good setup, with neither soil nor extra elevations above the pile head. -/
structure Setup (p : Pile K) (sp : Profile K) (x2mesh : List K) (c top tip : K) : Prop
    extends GoodSetup p sp x2mesh c tip where
  pile : ∃ sections mat, Pile.mkPile sections mat = .ok p ∧ ∀ s ∈ sections, Spec.Pile.Built s
  head : p.topElevation = some top
  below : sp.topElevation ≤ top
  inside : ∀ x ∈ x2mesh, x ≤ top

/-- What is known about the published mesh. -/
structure MeshFacts (p : Pile K) (sp : Profile K) (top tip c : K) (C : Coordinates K) : Prop where
  pairs : C.elements = Mesh.pairs C.nodes
  head : C.nodes.head? = some top
  last : C.nodes.getLast? = some tip
  sorted : C.nodes.Pairwise (· > ·)
  pos : ∀ e ∈ C.elements, e.2 < e.1
  len : ∀ e ∈ C.elements, e.1 - e.2 ≤ c + 1 / 10000
  range : ∀ e ∈ C.elements, e.1 ≤ top ∧ tip ≤ e.2
  section_ : ∀ e ∈ C.elements, ∃ s,
    p.sections.filter (fun s => decide (e.1 ≤ s.top ∧ e.2 ≥ s.bottom)) = [s]
  layer : ∀ e ∈ C.elements, e.1 ≤ sp.topElevation → ∃ l,
    sp.layers.filter (fun l => decide (e.1 ≤ l.top ∧ e.2 ≥ l.bottom)) = [l]
  ground : sp.topElevation ∈ C.nodes
  secCut : ∀ e ∈ C.elements, ∀ s ∈ p.sections, ∀ t, (t = s.top ∨ t = s.bottom) → t ≤ e.2 ∨ e.1 ≤ t
  layCut : ∀ e ∈ C.elements, ∀ l ∈ sp.layers, ∀ t, (t = l.top ∨ t = l.bottom) → t ≤ e.2 ∨ e.1 ≤ t
  secs : ∀ s ∈ p.sections, s.bottom < s.top ∧ tip ≤ s.bottom ∧ s.top ≤ top
  lays : ∀ l ∈ sp.layers, l.bottom < l.top ∧ 10 < l.weight ∧ l.top ≤ sp.topElevation

theorem mesh_facts {p : Pile K} {sp : Profile K} {x2mesh : List K} {c top tip : K}
    (h : Setup p sp x2mesh c top tip) :
    ∃ C, getCoordinates p (some sp) x2mesh c = some C ∧ MeshFacts p sp top tip c C := by
  have hc0 : 0 < c := lt_of_lt_of_le (by norm_num) h.coarse
  obtain ⟨sections, mat, hp, hsb⟩ := h.pile
  obtain ⟨f, hf, hft⟩ := h.first
  obtain ⟨g, hg, hgt⟩ := h.last
  obtain ⟨hst, hmem⟩ := mkPile_sections sections mat p hp
  have hbuilt : ∀ s ∈ p.sections, s.bottom < s.top := fun s hs =>
    ((Pile.built_iff s).1 (hsb s ((hmem s).1 hs))).1
  have hlb : ∀ l ∈ sp.layers, l.bottom < l.top ∧ 10 < l.weight ∧ l.top ≤ sp.topElevation :=
    fun l hl => ⟨((Soil.built_iff l).1 (h.built l hl)).1, ((Soil.built_iff l).1 (h.built l hl)).2, by
      rw [← hft]; exact Model.tops_le _ f hf l hl⟩
  obtain ⟨C, hC, hN, hlt⟩ := Mesh.C07_no_merge_partial p (some sp) x2mesh c tip h.coarse h.tip_eq
    (fun r r' hr hr' _ => Or.inr ⟨h.grid r hr, h.grid r' hr'⟩)
  obtain ⟨C3, hC3, hel, _, hreq⟩ := Mesh.C05_published_nodes p (some sp) x2mesh c tip hc0 h.tip_eq
  rw [hC] at hC3; cases hC3
  obtain ⟨C1, hC1, hlay⟩ := Mesh.C08_one_layer_partial sp h.built h.exact f g hf hg p x2mesh c tip
    h.coarse h.tip_eq hgt h.grid
  rw [hC] at hC1; cases hC1
  obtain ⟨C2, hC2, hsec⟩ := Mesh.C08_one_section_partial sections mat p hp hsb (some sp) x2mesh c tip
    top h.coarse h.tip_eq h.head h.grid
  rw [hC] at hC2; cases hC2
  obtain ⟨z, hz, hzh, hzl⟩ := Mesh.C51_spans_pile_partial sections mat p hp hsb (some sp) x2mesh c tip
    top hc0 h.tip_eq h.head
    (by
      intro sp' hsp l hl
      cases hsp
      exact ⟨(hlb l hl).1, (hlb l hl).2.2.trans h.below⟩)
    (fun x hx => ⟨h.extra x hx, h.inside x hx⟩)
  have hCz : C = { nodes := z.map round4
                   elements := (Mesh.pairs z).map (fun e => (round4 e.1, round4 e.2)) } := by
    simp only [getCoordinates, hz, Option.bind_eq_bind, Option.bind_some, Option.pure_def,
      Option.some.injEq] at hC
    exact hC.symm
  have hround : ∀ r, Required p tip (some sp) x2mesh r → round4 r = r := by
    intro r hr
    obtain ⟨n, hn⟩ := h.grid r hr
    rw [hn, round4_grid]
  have htopReq : Required p tip (some sp) x2mesh top := by
    have := h.head
    unfold Pile.Pile.topElevation at this
    cases hl : p.sections.head? with
    | none => rw [hl] at this; cases this
    | some s =>
      rw [hl] at this
      exact Or.inl ⟨s, List.mem_of_head? hl, Or.inl (Option.some.inj this).symm⟩
  have htipReq : Required p tip (some sp) x2mesh tip := by
    have := h.tip_eq
    unfold Pile.Pile.bottomElevation at this
    cases hl : p.sections.getLast? with
    | none => rw [hl] at this; cases this
    | some s =>
      rw [hl] at this
      exact Or.inl ⟨s, List.mem_of_getLast? hl, Or.inr (Option.some.inj this).symm⟩
  have hgroundReq : Required p tip (some sp) x2mesh sp.topElevation :=
    Or.inr (Or.inl ⟨sp, rfl, f, (Soil.sortLayers_perm _).mem_iff.1 (List.mem_of_head? hf),
      Or.inl hft.symm, h.ground.le⟩)
  have hhead : C.nodes.head? = some top := by
    rw [hCz]
    simp only [List.head?_map, hzh, Option.map_some, hround top htopReq]
  have hlast : C.nodes.getLast? = some tip := by
    rw [hCz]
    simp only [List.getLast?_map, hzl, Option.map_some, hround tip htipReq]
  have hnode : ∀ n ∈ C.nodes, n ≤ top ∧ tip ≤ n := by
    intro n hn
    constructor
    · cases hN' : C.nodes with
      | nil => rw [hN'] at hn; cases hn
      | cons a l =>
        rw [hN'] at hhead hn hN
        cases hhead
        rcases List.mem_cons.1 hn with rfl | h'
        · exact le_rfl
        · exact ((List.pairwise_cons.1 hN).1 n h').le
    · rcases List.eq_nil_or_concat C.nodes with h0 | ⟨l', a, h0⟩
      · rw [h0] at hn; cases hn
      · rw [List.concat_eq_append] at h0
        rw [h0] at hn hN hlast
        rw [List.getLast?_concat] at hlast
        cases hlast
        rcases List.mem_append.1 hn with h' | h'
        · exact ((List.pairwise_append.1 hN).2.2 n h' tip (by simp)).le
        · simp only [List.mem_cons, List.not_mem_nil, or_false] at h'
          rw [h']
  have hrange : ∀ e ∈ C.elements, e.1 ≤ top ∧ tip ≤ e.2 := by
    intro e he
    rw [hel] at he
    exact ⟨(hnode _ (List.of_mem_zip he).1).1, (hnode _ (List.mem_of_mem_tail (List.of_mem_zip he).2)).2⟩
  refine ⟨C, hC, ⟨hel, hhead, hlast, hN, hlt, ?_, hrange, ?_, ?_, hreq _ hgroundReq (h.grid _ hgroundReq),
    ?_, ?_, ?_, hlb⟩⟩
  · intro e he
    obtain ⟨z', hz', hlen⟩ := Mesh.C06_element_lengths p (some sp) x2mesh c tip hc0 h.tip_eq
    rw [hz] at hz'; cases hz'
    rw [hCz] at he
    obtain ⟨x, hx, rfl⟩ := List.mem_map.1 he
    have h3 := (hlen x hx).2.1
    have h4 := abs_le.1 (round4_close x.1)
    have h5 := abs_le.1 (round4_close x.2)
    have e1 : (1 / 20000 : K) + 1 / 20000 = 1 / 10000 := by norm_num
    simp only
    linarith [h4.2, h5.1]
  · intro e he
    obtain ⟨s, hs, _⟩ := hsec e he (hrange e he).1 (hrange e he).2
    exact ⟨s, hs⟩
  · intro e he hg'
    exact hlay e he (by rw [hft]; exact hg') (hrange e he).2
  · intro e he s hs t ht
    have hr : Required p tip (some sp) x2mesh t := Or.inl ⟨s, hs, ht⟩
    exact published_no_straddle p (some sp) x2mesh c tip hc0 h.tip_eq C hC e he t hr (h.grid t hr)
  · intro e he l hl t ht
    rcases lt_or_ge t tip with h' | h'
    · exact Or.inl (h'.le.trans (hrange e he).2)
    · have hr : Required p tip (some sp) x2mesh t := Or.inr (Or.inl ⟨sp, rfl, l, hl, ht, h'⟩)
      exact published_no_straddle p (some sp) x2mesh c tip hc0 h.tip_eq C hC e he t hr (h.grid t hr)
  · intro s hs
    obtain ⟨f', hf', g', hg', h1, h2⟩ := stack_bounds p.sections hbuilt hst s hs
    have e1 : f'.top = top := by
      have := h.head
      unfold Pile.Pile.topElevation at this
      rw [hf'] at this; simpa using this
    have e2 : g'.bottom = tip := by
      have := h.tip_eq
      unfold Pile.Pile.bottomElevation at this
      rw [hg'] at this; simpa using this
    exact ⟨hbuilt s hs, by rw [← e2]; exact h2, by rw [← e1]; exact h1⟩

/-- The water line as the mesh sees it. -/
structure Snapped (water w : K) (els : List (K × K)) : Prop where
  free : ∀ e ∈ els, w ≤ e.2 ∨ e.1 ≤ w
  same : ∀ e ∈ els, (e.1 ≤ water ↔ e.1 ≤ w)

theorem exists_snapped {p : Pile K} {sp : Profile K} {c top tip : K} {C : Coordinates K} (hc : 0 < c)
    (hm : MeshFacts p sp top tip c C) (water : K) :
    ∃ w, Snapped water w C.elements ∧ w ≤ water ∧ water - w ≤ c + 1 / 10000 ∧
      ((∀ e ∈ C.elements, water ≤ e.2 ∨ e.1 ≤ water) → w = water) ∧
      (∀ e ∈ C.elements, e.2 < water → water < e.1 → w = e.2) := by
  by_cases hcut : ∀ e ∈ C.elements, water ≤ e.2 ∨ e.1 ≤ water
  · have : (0 : K) < 1 / 10000 := by norm_num
    exact ⟨water, ⟨hcut, fun _ _ => Iff.rfl⟩, le_rfl, by linarith, fun _ => rfl, fun e he h1 h2 => by
      rcases hcut e he with h | h
      · exact absurd h1 (not_lt.2 h)
      · exact absurd h2 (not_lt.2 h)⟩
  · have hcut' := hcut
    push Not at hcut
    obtain ⟨e0, he0, h1, h2⟩ := hcut
    have hnodes : ∀ e ∈ C.elements, e.1 ∈ C.nodes ∧ e.2 ∈ C.nodes := by
      intro e he
      rw [hm.pairs] at he
      exact ⟨(List.of_mem_zip he).1, List.mem_of_mem_tail (List.of_mem_zip he).2⟩
    have hno : ∀ e ∈ C.elements, ∀ r ∈ C.nodes, ¬ (e.2 < r ∧ r < e.1) := by
      intro e he
      have : [e.1, e.2] <:+: C.nodes := (pairs_infix _ e).1 (by rw [hm.pairs] at he; exact he)
      exact (neighbours_of_infix _ hm.sorted _ _ this).2.2.2
    refine ⟨e0.2, ⟨?_, ?_⟩, h1.le, ?_, fun h => absurd h hcut', ?_⟩
    · intro e he
      by_contra hcon
      push Not at hcon
      exact hno e he e0.2 (hnodes e0 he0).2 hcon
    · intro e he
      constructor
      · intro hle
        by_contra hcon
        push Not at hcon
        exact hno e0 he0 e.1 (hnodes e he).1 ⟨hcon, lt_of_le_of_lt hle h2⟩
      · intro hle
        exact hle.trans h1.le
    · have := hm.len e0 he0
      linarith
    · intro e he h3 h4
      have a1 := hno e he e0.2 (hnodes e0 he0).2
      have a2 := hno e0 he0 e.2 (hnodes e he).2
      push Not at a1 a2
      rcases lt_trichotomy e0.2 e.2 with h | h | h
      · exact absurd (a2 h) (not_le.2 (h3.trans h2))
      · exact h
      · exact absurd (a1 h) (not_le.2 (h1.trans h4))

/-! ## Effective pile weight -/

/-- Contribution of one element to a function of elevation that stops at `w`. -/
theorem min_increment (F : K → K) (e : K × K) (he : e.2 < e.1) (w : K) (hw : w ≤ e.2 ∨ e.1 ≤ w) :
    F (min e.1 w) - F (min e.2 w) = if e.1 ≤ w then F e.1 - F e.2 else 0 := by
  rcases hw with hw | hw
  · rw [if_neg (by intro h; linarith), min_eq_right (hw.trans he.le), min_eq_right hw, sub_self]
  · rw [if_pos hw, min_eq_left hw, min_eq_left (he.le.trans hw)]

theorem pile_core (pi : K) {p : Pile K} {sp : Profile K} {c top tip : K} {C : Coordinates K}
    (hm : MeshFacts p sp top tip c C) {w : K} (hw : Snapped sp.waterLine w C.elements) :
    effectivePileWeight pi p sp C.elements = some (p.weight pi - 10 * below (·.area pi) p w) := by
  have hb : ∀ s ∈ p.sections, s.bottom < s.top := fun s hs => (hm.secs s hs).1
  have hel : ∀ e ∈ C.elements, effectiveWeight pi p sp.waterLine e = some
      (p.material.uw * (below (·.area pi) p e.1 - below (·.area pi) p e.2)
        - 10 * (below (·.area pi) p (min e.1 w) - below (·.area pi) p (min e.2 w))) := by
    intro e he
    obtain ⟨s, hs⟩ := hm.section_ e he
    rw [min_increment _ e (hm.pos e he) w (hw.free e he),
      below_element _ p e (hm.pos e he) hb s hs (hm.secCut e he)]
    simp only [effectiveWeight, elementVolume,
      parameterOf_of_filter (·.top) (·.bottom) (fun s : Section K => s.area pi) p.sections e s hs,
      Option.map_some, hw.same e he]
    by_cases hcase : e.1 ≤ w
    · rw [if_pos hcase, if_pos hcase]
      congr 1
      ring
    · rw [if_neg hcase, if_neg hcase]
      congr 1
      ring
  unfold effectivePileWeight
  rw [mapM_some _ _ _ hel, Option.map_some]
  congr 1
  have hsplit : ∀ (F : K → K), ∀ l : List (K × K),
      (l.map (fun e => p.material.uw * (F e.1 - F e.2) - 10 * (F (min e.1 w) - F (min e.2 w)))).sum
        = p.material.uw * (l.map (fun e => F e.1 - F e.2)).sum
          - 10 * (l.map (fun e => F (min e.1 w) - F (min e.2 w))).sum := by
    intro F l
    induction l with
    | nil => simp
    | cons a l ih =>
      simp only [List.map_cons, List.sum_cons, ih]
      ring
  rw [hsplit, hm.pairs, telescope _ _ _ _ hm.head hm.last,
    telescope (fun z => below (·.area pi) p (min z w)) _ _ _ hm.head hm.last,
    below_head _ p hb fun s hs => (hm.secs s hs).2.2,
    below_tip _ p hb fun s hs => (hm.secs s hs).2.1,
    below_tip (z := min tip w) _ p hb fun s hs => (min_le_left _ _).trans (hm.secs s hs).2.1]
  have hwtop : below (·.area pi) p (min top w) = below (·.area pi) p w := by
    rcases le_total w top with h | h
    · rw [min_eq_right h]
    · rw [min_eq_left h, below_head _ p hb fun s hs => (hm.secs s hs).2.2,
        below_head _ p hb fun s hs => (hm.secs s hs).2.2.trans h]
  rw [hwtop]
  unfold Pile.Pile.weight Pile.Pile.volume
  ring

/-- **C45, pile, for the water line of the mesh.** The effective pile weight is the pile weight minus 10 kN/m3
times the volume of the pile below a water line that is at most one element lower than the actual one. -/
theorem C45_pile_snapped (pi : K) {p : Pile K} {sp : Profile K} {x2mesh : List K} {c top tip : K}
    (h : Setup p sp x2mesh c top tip) :
    ∃ C w, getCoordinates p (some sp) x2mesh c = some C ∧ w ≤ sp.waterLine ∧
      sp.waterLine - w ≤ c + 1 / 10000 ∧
      effectivePileWeight pi p sp C.elements = some (p.weight pi - 10 * below (·.area pi) p w) := by
  obtain ⟨C, hC, hm⟩ := mesh_facts h
  obtain ⟨w, hw, h1, h2, _, _⟩ := exists_snapped (lt_of_lt_of_le (by norm_num) h.coarse) hm sp.waterLine
  exact ⟨C, w, hC, h1, h2, pile_core pi hm hw⟩

/-- **C45, pile, exact.** If no element has the water line strictly inside, the effective weight is the pile
weight minus the buoyancy of the submerged volume. -/
theorem C45_pile_exact_partial (pi : K) {p : Pile K} {sp : Profile K} {x2mesh : List K} {c top tip : K}
    (h : Setup p sp x2mesh c top tip) {C : Coordinates K}
    (hC : getCoordinates p (some sp) x2mesh c = some C)
    (hw : ∀ e ∈ C.elements, sp.waterLine ≤ e.2 ∨ e.1 ≤ sp.waterLine) :
    effectivePileWeight pi p sp C.elements =
      some (p.weight pi - 10 * below (·.area pi) p sp.waterLine) := by
  obtain ⟨C', hC', hm⟩ := mesh_facts h
  rw [hC] at hC'; cases hC'
  exact pile_core pi hm ⟨hw, fun _ _ => Iff.rfl⟩

/-- **C45, pile, bounds.** Whatever the water line, the effective weight lies between the weight less 10 kN/m3
times the volume and the weight, provided no section has a negative area (C01). -/
theorem C45_pile_bounds (pi : K) {p : Pile K} {sp : Profile K} {x2mesh : List K} {c top tip : K}
    (h : Setup p sp x2mesh c top tip) (hA : ∀ s ∈ p.sections, 0 ≤ s.area pi) :
    ∃ C W, getCoordinates p (some sp) x2mesh c = some C ∧
      effectivePileWeight pi p sp C.elements = some W ∧
      p.weight pi - 10 * p.volume pi ≤ W ∧ W ≤ p.weight pi := by
  obtain ⟨C, hC, hm⟩ := mesh_facts h
  obtain ⟨w, hw, h1, h2, _, _⟩ := exists_snapped (lt_of_lt_of_le (by norm_num) h.coarse) hm sp.waterLine
  have hb : ∀ s ∈ p.sections, s.bottom < s.top := fun s hs => (hm.secs s hs).1
  refine ⟨C, _, hC, pile_core pi hm hw, ?_, ?_⟩
  · have hle := below_mono (·.area pi) p hA (le_max_left w top)
    rw [below_head (z := max w top) _ p hb fun s hs => (hm.secs s hs).2.2.trans (le_max_right _ _)] at hle
    unfold Pile.Pile.volume
    linarith
  · have hle := below_mono (·.area pi) p hA (min_le_left w tip)
    rw [below_tip (z := min w tip) _ p hb fun s hs => (min_le_right _ _).trans (hm.secs s hs).2.1] at hle
    linarith

/-- **C45 is violated by every element that the water line cuts.** The wet part of that element counts as
dry: the effective weight is too large by 10 kN/m3 times its volume. -/
theorem C45_violated_water_line (pi : K) {p : Pile K} {sp : Profile K} {x2mesh : List K}
    {c top tip : K} (h : Setup p sp x2mesh c top tip) {C : Coordinates K}
    (hC : getCoordinates p (some sp) x2mesh c = some C) {e : K × K} (he : e ∈ C.elements)
    (h1 : e.2 < sp.waterLine) (h2 : sp.waterLine < e.1) :
    ∃ s ∈ p.sections, e.1 ≤ s.top ∧ s.bottom ≤ e.2 ∧
      effectivePileWeight pi p sp C.elements = some (p.weight pi - 10 * below (·.area pi) p sp.waterLine
        + 10 * (s.area pi * (sp.waterLine - e.2))) := by
  obtain ⟨C', hC', hm⟩ := mesh_facts h
  rw [hC] at hC'; cases hC'
  obtain ⟨w, hw, _, _, _, h3⟩ := exists_snapped (lt_of_lt_of_le (by norm_num) h.coarse) hm sp.waterLine
  have hwe := h3 e he h1 h2
  subst hwe
  obtain ⟨s, hs⟩ := hm.section_ e he
  have hsm : s ∈ p.sections.filter (fun s => decide (e.1 ≤ s.top ∧ e.2 ≥ s.bottom)) := by
      rw [hs]
      exact List.mem_singleton.2 rfl
  obtain ⟨hsm, hcont⟩ := List.mem_filter.1 hsm
  simp only [decide_eq_true_eq] at hcont
  refine ⟨s, hsm, hcont.1, hcont.2, ?_⟩
  rw [pile_core pi hm hw]
  have hb : ∀ s ∈ p.sections, s.bottom < s.top := fun s hs => (hm.secs s hs).1
  have hpart : below (·.area pi) p sp.waterLine - below (·.area pi) p e.2
      = s.area pi * (sp.waterLine - e.2) := by
    have := below_element (·.area pi) p (sp.waterLine, e.2) h1 hb s
      (by
        rw [← hs]
        refine List.filter_congr fun r hr => ?_
        have h4 := hm.secCut e he r hr r.top (Or.inl rfl)
        simp only [decide_eq_decide]
        constructor
        · rintro ⟨a, b⟩
          refine ⟨?_, b⟩
          rcases h4 with h4 | h4
          · linarith
          · exact h4
        · rintro ⟨a, b⟩
          exact ⟨h2.le.trans a, b⟩)
      (by
        intro r hr t ht
        rcases hm.secCut e he r hr t ht with h4 | h4
        · exact Or.inl h4
        · exact Or.inr (h2.le.trans h4))
    exact this
  congr 1
  linarith

/-! ## Weight of the soil plug -/

theorem soil_element (pi : K) {p : Pile K} {sp : Profile K} {c top tip : K} {C : Coordinates K}
    (hm : MeshFacts p sp top tip c C) {w : K} (hw : Snapped sp.waterLine w C.elements) {e : K × K}
    (he : e ∈ C.elements) :
    soilWeight pi p sp e = some ((sp.layers.map (fun l =>
      l.weight * (below (·.entrappedArea pi) p (clamp l.top l.bottom e.1)
          - below (·.entrappedArea pi) p (clamp l.top l.bottom e.2))
        - 10 * (below (·.entrappedArea pi) p (clamp l.top l.bottom (min e.1 w))
          - below (·.entrappedArea pi) p (clamp l.top l.bottom (min e.2 w))))).sum) := by
  have hb : ∀ s ∈ p.sections, s.bottom < s.top := fun s hs => (hm.secs s hs).1
  have hpos := hm.pos e he
  set G := below (·.entrappedArea pi) p with hG
  -- a layer that does not contain the element contributes nothing
  have hout : ∀ l ∈ sp.layers, decide (e.1 ≤ l.top ∧ e.2 ≥ l.bottom) = false →
      l.weight * (G (clamp l.top l.bottom e.1) - G (clamp l.top l.bottom e.2))
        - 10 * (G (clamp l.top l.bottom (min e.1 w)) - G (clamp l.top l.bottom (min e.2 w))) = 0 := by
    intro l hl hsel
    simp only [decide_eq_false_iff_not, not_and, ge_iff_le, not_le] at hsel
    have hlt := (hm.lays l hl).1.le
    have key : clamp l.top l.bottom e.1 = clamp l.top l.bottom e.2 := by
      rcases hm.layCut e he l hl l.top (Or.inl rfl) with h1 | h1
      · rw [clamp_above hlt h1, clamp_above hlt (h1.trans hpos.le)]
      · have h2 := hsel h1
        rcases hm.layCut e he l hl l.bottom (Or.inr rfl) with h3 | h3
        · exact absurd h3 (not_le.2 h2)
        · rw [clamp_below hlt h3, clamp_below hlt h2.le]
    have key2 := min_increment (fun z => G (clamp l.top l.bottom z)) e hpos w (hw.free e he)
    simp only [key, sub_self, ite_self] at key2
    rw [key2, key]
    ring
  rw [OpenPile.Model.sum_of_filter (fun l => decide (e.1 ≤ l.top ∧ e.2 ≥ l.bottom)) _ _ hout]
  -- the loop over the layers
  have hloop : ∀ (v : Layer K → Option K) (ls : List (Layer K)) (acc : Option K),
      ls.foldl (fun acc l => if e.1 ≤ l.top ∧ e.2 ≥ l.bottom then v l else acc) acc =
      (ls.filter (fun l => decide (e.1 ≤ l.top ∧ e.2 ≥ l.bottom))).foldl (fun _ l => v l) acc := by
    intro v ls
    induction ls with
    | nil => intro acc; rfl
    | cons o ls ih =>
      intro acc
      rw [List.foldl_cons, ih, List.filter_cons]
      by_cases hc : e.1 ≤ o.top ∧ e.2 ≥ o.bottom
      · rw [if_pos hc, if_pos (by simpa using hc)]; rfl
      · rw [if_neg hc, if_neg (by simpa using hc)]
  unfold soilWeight
  rw [hloop]
  by_cases hgr : e.1 ≤ sp.topElevation
  · obtain ⟨l, hl⟩ := hm.layer e he hgr
    have hlm : l ∈ sp.layers.filter (fun l => decide (e.1 ≤ l.top ∧ e.2 ≥ l.bottom)) := by
      rw [hl]
      exact List.mem_singleton.2 rfl
    obtain ⟨hlm, hcont⟩ := List.mem_filter.1 hlm
    simp only [decide_eq_true_eq] at hcont
    obtain ⟨s, hs⟩ := hm.section_ e he
    have hc1 : clamp l.top l.bottom e.1 = e.1 := clamp_inside (hcont.2.trans hpos.le) hcont.1
    have hc2 : clamp l.top l.bottom e.2 = e.2 := clamp_inside hcont.2 (hpos.le.trans hcont.1)
    have key2 := min_increment (fun z => G (clamp l.top l.bottom z)) e hpos w (hw.free e he)
    simp only [hc1, hc2] at key2
    rw [hl]
    simp only [List.foldl_cons, List.foldl_nil, List.map_cons, List.map_nil, List.sum_cons, List.sum_nil,
      add_zero, elementVolume,
      parameterOf_of_filter (·.top) (·.bottom) (fun s : Section K => s.entrappedArea pi) p.sections e s hs,
      Option.map_some]
    rw [key2, hc1, hc2, hG, below_element _ p e hpos hb s hs (hm.secCut e he)]
    congr 1
    by_cases hcase : e.1 ≤ w
    · rw [if_neg (not_lt.2 ((hw.same e he).2 hcase)), if_pos hcase]
      ring
    · rw [if_pos (lt_of_not_ge fun h => hcase ((hw.same e he).1 h)), if_neg hcase]
      ring
  · have hnil : sp.layers.filter (fun l => decide (e.1 ≤ l.top ∧ e.2 ≥ l.bottom)) = [] := by
      rw [List.filter_eq_nil_iff]
      intro l hl
      simp only [decide_eq_true_eq, not_and]
      intro h1
      exact absurd (h1.trans (hm.lays l hl).2.2) hgr
    rw [hnil]
    rfl

theorem sum_comm_list {α β : Type} (f : α → β → K) (as : List α) (bs : List β) :
    (as.map (fun a => (bs.map (f a)).sum)).sum = (bs.map (fun b => (as.map (fun a => f a b)).sum)).sum := by
  induction as with
  | nil => simp
  | cons a as ih =>
    simp only [List.map_cons, List.sum_cons, ih]
    clear ih
    induction bs with
    | nil => simp
    | cons b bs ih =>
      simp only [List.map_cons, List.sum_cons, ← ih]
      ring

theorem soil_core (pi : K) {p : Pile K} {sp : Profile K} {c top tip : K} {C : Coordinates K}
    (hm : MeshFacts p sp top tip c C) (hgt : sp.topElevation ≤ top) {w : K}
    (hw : Snapped sp.waterLine w C.elements) :
    entrappedSoilWeight pi p sp C.elements =
      some ((sp.layers.map (plug (·.entrappedArea pi) p w)).sum) := by
  have hb : ∀ s ∈ p.sections, s.bottom < s.top := fun s hs => (hm.secs s hs).1
  unfold entrappedSoilWeight
  rw [mapM_some _ _ _ fun e he => soil_element pi hm hw he, Option.map_some, sum_comm_list]
  congr 2
  refine List.map_congr_left fun l hl => ?_
  set G := below (·.entrappedArea pi) p with hG
  obtain ⟨hlt, _, hlg⟩ := hm.lays l hl
  have hsplit : ∀ (A B : K × K → K), ∀ es : List (K × K),
      (es.map (fun e => l.weight * A e - 10 * B e)).sum
        = l.weight * (es.map A).sum - 10 * (es.map B).sum := by
    intro A B es
    induction es with
    | nil => simp
    | cons a es ih =>
      simp only [List.map_cons, List.sum_cons, ih]
      ring
  rw [hsplit (fun e => G (clamp l.top l.bottom e.1) - G (clamp l.top l.bottom e.2))
      (fun e => G (clamp l.top l.bottom (min e.1 w)) - G (clamp l.top l.bottom (min e.2 w))), hm.pairs,
    telescope (fun z => G (clamp l.top l.bottom z)) _ _ _ hm.head hm.last,
    telescope (fun z => G (clamp l.top l.bottom (min z w))) _ _ _ hm.head hm.last]
  have hzero : ∀ z, z ≤ tip → G z = 0 := fun z hz =>
    below_tip _ p hb fun s hs => hz.trans (hm.secs s hs).2.1
  have htop : clamp l.top l.bottom top = l.top := clamp_above hlt.le (hlg.trans hgt)
  -- the tip clamped into the layer has the same volume below as the bottom of the layer
  have htip : ∀ z, z ≤ tip → G (clamp l.top l.bottom z) = G l.bottom := by
    intro z hz
    rcases le_total z l.bottom with h | h
    · rw [clamp_below hlt.le h]
    · rw [hzero l.bottom (h.trans hz)]
      apply hzero
      unfold clamp
      exact max_le (h.trans hz) ((min_le_left _ _).trans hz)
  have hwt : clamp l.top l.bottom (min top w) = clamp l.top l.bottom w := by
    rcases le_total w top with h | h
    · rw [min_eq_right h]
    · rw [min_eq_left h, htop, clamp_above hlt.le ((hlg.trans hgt).trans h)]
  rw [htop, htip tip le_rfl, hwt, htip _ (min_le_left _ _)]
  rfl

/-- **C45, soil plug, for the water line of the mesh.** The weight of the soil inside the pile is the sum over the layers
of their total weight inside the pile less 10 kN/m3 times the volume below a water line that is at most one
element lower than the actual one; whatever the order of the layers. -/
theorem C45_soil_snapped (pi : K) {p : Pile K} {sp : Profile K} {x2mesh : List K} {c top tip : K}
    (h : Setup p sp x2mesh c top tip) :
    ∃ C w, getCoordinates p (some sp) x2mesh c = some C ∧ w ≤ sp.waterLine ∧
      sp.waterLine - w ≤ c + 1 / 10000 ∧
      ((∀ e ∈ C.elements, sp.waterLine ≤ e.2 ∨ e.1 ≤ sp.waterLine) → w = sp.waterLine) ∧
      entrappedSoilWeight pi p sp C.elements =
        some ((sp.layers.map (plug (·.entrappedArea pi) p w)).sum) := by
  obtain ⟨C, hC, hm⟩ := mesh_facts h
  obtain ⟨w, hw, h1, h2, h3, _⟩ := exists_snapped (lt_of_lt_of_le (by norm_num) h.coarse) hm sp.waterLine
  exact ⟨C, w, hC, h1, h2, h3, soil_core pi hm h.below hw⟩

/-- **C45, soil plug, bounds.** The weight lies between zero and the dry weight, whatever the water line. -/
theorem C45_soil_bounds (pi : K) (hpi : 0 < pi) {p : Pile K} {sp : Profile K} {x2mesh : List K}
    {c top tip : K} (h : Setup p sp x2mesh c top tip) :
    ∃ C W, getCoordinates p (some sp) x2mesh c = some C ∧
      entrappedSoilWeight pi p sp C.elements = some W ∧
      0 ≤ W ∧ W ≤ (sp.layers.map (dryPlug (·.entrappedArea pi) p)).sum := by
  obtain ⟨C, hC, hm⟩ := mesh_facts h
  obtain ⟨w, hw, h1, h2, h3, _⟩ := exists_snapped (lt_of_lt_of_le (by norm_num) h.coarse) hm sp.waterLine
  have hA : ∀ s ∈ p.sections, 0 ≤ Pile.Section.entrappedArea pi s := fun s _ => by
    unfold Pile.Section.entrappedArea
    positivity
  have hmono : ∀ {z z' : K}, z' ≤ z → below (·.entrappedArea pi) p z' ≤ below (·.entrappedArea pi) p z :=
    fun hz => below_mono _ p hA hz
  refine ⟨C, _, hC, soil_core pi hm h.below hw, ?_, ?_⟩
  · refine List.sum_nonneg fun y hy => ?_
    obtain ⟨l, hl, rfl⟩ := List.mem_map.1 hy
    obtain ⟨hlt, hlw, _⟩ := hm.lays l hl
    unfold plug
    have m1 : below (·.entrappedArea pi) p (clamp l.top l.bottom w) ≤ below (·.entrappedArea pi) p l.top :=
      hmono (by unfold clamp; exact max_le hlt.le (min_le_right _ _))
    have m2 := hmono (z := l.top) (z' := l.bottom) hlt.le
    have := mul_nonneg (sub_nonneg.2 hlw.le) (sub_nonneg.2 m2)
    linarith
  · refine List.sum_le_sum fun l hl => ?_
    unfold plug dryPlug
    have m1 : below (·.entrappedArea pi) p l.bottom ≤ below (·.entrappedArea pi) p (clamp l.top l.bottom w) :=
      hmono (by unfold clamp; exact le_max_left _ _)
    linarith

/-- **C45 is violated: the effective weight is NaN whenever the pile head is below ground level** (the mesh then
starts at ground level and its first element is outside the pile). -/
theorem C45_violated_head_below_ground (pi : K) {p : Pile K} {sp : Profile K} {x2mesh : List K}
    {c top tip : K} (h : GoodSetup p sp x2mesh c tip) (htop : ∀ s ∈ p.sections, s.top ≤ top)
    (hg : top < sp.topElevation) :
    ∃ C, getCoordinates p (some sp) x2mesh c = some C ∧
      effectivePileWeight pi p sp C.elements = none := by
  have hc0 : 0 < c := lt_of_lt_of_le (by norm_num) h.coarse
  obtain ⟨f, hf, hft⟩ := h.first
  obtain ⟨C, hC, hN, hlt⟩ := Mesh.C07_no_merge_partial p (some sp) x2mesh c tip h.coarse h.tip_eq
    (fun r r' hr hr' _ => Or.inr ⟨h.grid r hr, h.grid r' hr'⟩)
  obtain ⟨C3, hC3, hel, _, hreq⟩ := Mesh.C05_published_nodes p (some sp) x2mesh c tip hc0 h.tip_eq
  rw [hC] at hC3; cases hC3
  have hgroundReq : Required p tip (some sp) x2mesh sp.topElevation :=
    Or.inr (Or.inl ⟨sp, rfl, f, (Soil.sortLayers_perm _).mem_iff.1 (List.mem_of_head? hf),
      Or.inl hft.symm, h.ground.le⟩)
  have htipReq : Required p tip (some sp) x2mesh tip := by
    have := h.tip_eq
    unfold Pile.Pile.bottomElevation at this
    cases hl : p.sections.getLast? with
    | none => rw [hl] at this; cases this
    | some s =>
      rw [hl] at this
      exact Or.inl ⟨s, List.mem_of_getLast? hl, Or.inr (Option.some.inj this).symm⟩
  obtain ⟨y, hy⟩ := OpenPile.Model.exists_element_from C.nodes hN _ _ (hreq _ hgroundReq (h.grid _ hgroundReq))
    (hreq _ htipReq (h.grid _ htipReq)) h.ground
  refine ⟨C, hC, ?_⟩
  have hnone : effectiveWeight pi p sp.waterLine (sp.topElevation, y) = none := by
    have hpar : parameterOf (·.top) (·.bottom) (fun s : Section K => s.area pi) p.sections
        (sp.topElevation, y) = none := by
      unfold parameterOf
      have : ∀ ls : List (Section K), (∀ s ∈ ls, s.top ≤ top) →
          ls.foldl (fun acc o => if sp.topElevation ≤ o.top ∧ y ≥ o.bottom then some (o.area pi) else acc)
            none = none := by
        intro ls
        induction ls with
        | nil => intro _; rfl
        | cons o ls ih =>
          intro ho
          rw [List.foldl_cons, if_neg (by
            rintro ⟨h1, -⟩
            exact absurd (h1.trans (ho o (by simp))) (not_le.2 hg))]
          exact ih fun s hs => ho s (List.mem_cons_of_mem _ hs)
      exact this p.sections htop
    simp only [effectiveWeight, elementVolume, hpar, Option.map_none]
  have hmap : ∀ els : List (K × K), (sp.topElevation, y) ∈ els →
      els.mapM (effectiveWeight pi p sp.waterLine) = none := by
    intro els
    induction els with
    | nil => intro hmem; cases hmem
    | cons e els ih =>
      intro hmem
      rw [List.mapM_cons]
      rcases List.mem_cons.1 hmem with h' | h'
      · rw [← h', hnone]
        rfl
      · rw [ih h']
        cases effectiveWeight pi p sp.waterLine e <;> rfl
  unfold effectivePileWeight
  rw [hmap _ (by rw [hel]; exact hy)]
  rfl

/-- The hypotheses are met by a pile with two wall thicknesses in two layers, head above ground, for every
water line. -/
theorem setup_example (water : ℚ) :
    Setup (⟨[⟨1, -3, 1, 1/20⟩, ⟨-3, -10, 1, 1/10⟩], Pile.steel⟩ : Pile ℚ)
      ⟨0, water, [⟨-5, -20, 18⟩, ⟨0, -5, 19⟩]⟩ [] 1 1 (-10) where
  coarse := Model.goodSetup_example.coarse
  tip_eq := Model.goodSetup_example.tip_eq
  built := Model.goodSetup_example.built
  exact := Model.goodSetup_example.exact
  first := Model.goodSetup_example.first
  last := Model.goodSetup_example.last
  grid := by
    rintro r (h | ⟨sp', hsp, l, hl, h, h'⟩ | h)
    · exact Model.goodSetup_example.grid r (Or.inl h)
    · cases hsp
      exact Model.goodSetup_example.grid r (Or.inr (Or.inl ⟨_, rfl, l, hl, h, h'⟩))
    · cases h
  ground := Model.goodSetup_example.ground
  extra := Model.goodSetup_example.extra
  sections := Model.goodSetup_example.sections
  pile := ⟨[⟨1, -3, 1, 1/20⟩, ⟨-3, -10, 1, 1/10⟩], Pile.steel, by decide +kernel, by
    intro s hs
    simp only [List.mem_cons, List.not_mem_nil, or_false] at hs
    rw [Pile.built_iff]
    rcases hs with rfl | rfl <;> norm_num⟩
  head := rfl
  below := by norm_num
  inside := by simp

/-- In that setup the element from 0 to -1 m is cut by a water line at -0.5 m. -/
example : ∃ C, getCoordinates (⟨[⟨1, -3, 1, 1/20⟩, ⟨-3, -10, 1, 1/10⟩], Pile.steel⟩ : Pile ℚ)
      (some ⟨0, -1/2, [⟨-5, -20, 18⟩, ⟨0, -5, 19⟩]⟩) [] 1 = some C ∧
    ∃ e ∈ C.elements, e.2 < -1/2 ∧ -1/2 < e.1 := by
  obtain ⟨C, hC, -⟩ := mesh_facts (setup_example (-1/2))
  refine ⟨C, hC, ?_⟩
  by_contra hcon
  push Not at hcon
  have hC' : getCoordinates (⟨[⟨1, -3, 1, 1/20⟩, ⟨-3, -10, 1, 1/10⟩], Pile.steel⟩ : Pile ℚ)
      (some ⟨0, -1/2, [⟨-5, -20, 18⟩, ⟨0, -5, 19⟩]⟩) [] 1 =
      some ⟨[1, 0, -1, -2, -3, -4, -5, -6, -7, -8, -9, -10],
        [(1, 0), (0, -1), (-1, -2), (-2, -3), (-3, -4), (-4, -5), (-5, -6), (-6, -7), (-7, -8), (-8, -9),
          (-9, -10)]⟩ := by decide +kernel
  rw [hC'] at hC
  cases hC
  exact absurd (hcon (0, -1) (by simp) (by norm_num)) (by norm_num)

/-- A pile whose head is two metres below ground. -/
example : GoodSetup (⟨[⟨-2, -10, 1, 1/20⟩], Pile.steel⟩ : Pile ℚ) ⟨0, -1, [⟨0, -20, 18⟩]⟩ [] 1 (-10) where
  coarse := by norm_num
  tip_eq := rfl
  built := by
    intro l hl
    simp only [List.mem_cons, List.not_mem_nil, or_false] at hl
    rw [Soil.built_iff]
    subst hl
    norm_num
  exact := by decide +kernel
  first := ⟨⟨0, -20, 18⟩, by decide +kernel, rfl⟩
  last := ⟨⟨0, -20, 18⟩, by decide +kernel, by norm_num⟩
  grid := by
    rintro r (⟨s, hs, h⟩ | ⟨sp', hsp, l, hl, h, _⟩ | h)
    · simp only [List.mem_cons, List.not_mem_nil, or_false] at hs
      subst hs
      rcases h with rfl | rfl
      · exact ⟨-20000, by norm_num⟩
      · exact ⟨-100000, by norm_num⟩
    · cases hsp
      simp only [List.mem_cons, List.not_mem_nil, or_false] at hl
      subst hl
      rcases h with rfl | rfl
      · exact ⟨0, by norm_num⟩
      · exact ⟨-200000, by norm_num⟩
    · cases h
  ground := by norm_num
  extra := by simp
  sections := by
    intro s hs
    simp only [List.mem_cons, List.not_mem_nil, or_false] at hs
    subst hs
    norm_num

end OpenPile.Props.Weight
