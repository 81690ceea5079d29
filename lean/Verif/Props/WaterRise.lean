/-
C98: raising the water line never raises effective stresses, effective weights, axial capacities or, with one exception, the
resistance of the p-y springs that depend on effective stress.
-/
import Verif.Props.Water
import Verif.Props.Stronger

namespace OpenPile.Props.WaterRise
open OpenPile.Pile (Pile Section)

/-! ## Stresses -/

section generic
variable {K : Type} [Field K] [LinearOrder K]

/-- Both NaN, or two numbers of which the first is not larger. -/
inductive NotAbove : Option K → Option K → Prop
  | nan : NotAbove none none
  | num {x y : K} (h : x ≤ y) : NotAbove (some x) (some y)

/-- The same element with stresses and effective weight not larger. -/
structure RowBelow (r' r : Model.SoilRow K) : Prop where
  element : r'.element = r.element
  weight : NotAbove r'.weight r.weight
  top : NotAbove r'.sigTop r.sigTop
  bottom : NotAbove r'.sigBottom r.sigBottom

variable [IsStrictOrderedRing K]

theorem weight_rise (sp : Soil.Profile K) {w : K} (hw : sp.waterLine ≤ w) (e : K × K) :
    NotAbove (Model.elementWeight { sp with waterLine := w } e) (Model.elementWeight sp e) := by
  unfold Model.elementWeight Model.soilTable
  cases Model.mergeForward (·.top) (Py.sortedBy (·.top) (Soil.sortLayers sp.layers)) e.1 with
  | none => exact .nan
  | some l =>
    refine .num ?_
    dsimp only
    by_cases h1 : e.1 ≤ sp.waterLine
    · rw [if_pos h1, if_pos (h1.trans hw)]
    · rw [if_neg h1]
      split_ifs <;> linarith

theorem cumsum_rise {a b : List (Option K)} (h : List.Forall₂ NotAbove a b) :
    ∀ {x y : K}, x ≤ y → List.Forall₂ NotAbove (Model.cumsum x a) (Model.cumsum y b) := by
  induction h with
  | nil => intro x y _; exact .nil
  | cons h _ ih =>
    intro x y hxy
    cases h with
    | nan => exact .cons .nan (ih hxy)
    | num h => exact .cons (.num (add_le_add hxy h)) (ih (add_le_add hxy h))

omit [Field K] [LinearOrder K] [IsStrictOrderedRing K] in
theorem forall2_dropLast {R : Option K → Option K → Prop} {a b : List (Option K)} (h : List.Forall₂ R a b) :
    List.Forall₂ R a.dropLast b.dropLast := by
  rw [List.dropLast_eq_take, List.dropLast_eq_take, h.length_eq]
  exact List.forall₂_take _ h

omit [Field K] [LinearOrder K] [IsStrictOrderedRing K] in
theorem forall2_insertIdx {R : Option K → Option K → Prop} {a b : List (Option K)} (h : List.Forall₂ R a b) {x : Option K}
    (hx : R x x) : ∀ i : ℕ, List.Forall₂ R (a.insertIdx i x) (b.insertIdx i x) := by
  induction h with
  | nil =>
    intro i
    cases i with
    | zero => exact .cons hx .nil
    | succ i => exact .nil
  | cons h1 h2 ih =>
    intro i
    cases i with
    | zero => exact .cons hx (.cons h1 h2)
    | succ i =>
      rw [List.insertIdx_succ_cons, List.insertIdx_succ_cons]
      exact .cons h1 (ih i)

variable [FloorRing K]

/-- **C98, stresses.** Raising the water line keeps the mesh and never raises an effective weight or a vertical effective
stress in the table of soil properties; the same entries are NaN, and building the table fails in the same cases.  No
restriction on pile, layers or mesh. -/
theorem C98_stress (p : Pile K) (sp : Soil.Profile K) {w : K} (hw : sp.waterLine ≤ w) (x2mesh : List K) {c : K} (hc : 0 < c) :
    Mesh.getCoordinates p (some { sp with waterLine := w }) x2mesh c = Mesh.getCoordinates p (some sp) x2mesh c ∧
    ((∃ e, Model.soilProperties p { sp with waterLine := w } x2mesh c = .error e ∧
        Model.soilProperties p sp x2mesh c = .error e) ∨
      ∃ T' T, Model.soilProperties p { sp with waterLine := w } x2mesh c = .ok T' ∧
        Model.soilProperties p sp x2mesh c = .ok T ∧ List.Forall₂ RowBelow T' T) := by
  have hcc : Mesh.getCoordinates p (some { sp with waterLine := w }) x2mesh c = Mesh.getCoordinates p (some sp) x2mesh c := rfl
  refine ⟨hcc, ?_⟩
  unfold Model.soilProperties
  rw [hcc]
  cases hC : Mesh.getCoordinates p (some sp) x2mesh c with
  | none => exact Or.inl ⟨_, rfl, rfl⟩
  | some C =>
    have hord : ∀ e ∈ C.elements, e.2 ≤ e.1 := fun e he => Water.element_order hc hC he
    have hs : List.Forall₂ NotAbove
        (C.elements.map (fun e => (Model.elementWeight { sp with waterLine := w } e).map (fun v => (e.1 - e.2) * v)))
        (C.elements.map (fun e => (Model.elementWeight sp e).map (fun v => (e.1 - e.2) * v))) := by
      rw [List.forall₂_map_left_iff, List.forall₂_map_right_iff, List.forall₂_same]
      intro e he
      have := weight_rise sp hw e
      generalize Model.elementWeight { sp with waterLine := w } e = a at this ⊢
      generalize Model.elementWeight sp e = b at this ⊢
      cases this with
      | nan => exact .nan
      | num h => exact .num (mul_le_mul_of_nonneg_left h (sub_nonneg.2 (hord e he)))
    have hcs := cumsum_rise hs le_rfl (x := 0)
    have ht : sp.topElevation = ({ sp with waterLine := w } : Soil.Profile K).topElevation := rfl
    simp only [Model.soilRows, Model.stressColumns]
    rw [← ht]
    generalize Model.cumsum 0 (C.elements.map
      (fun e => (Model.elementWeight { sp with waterLine := w } e).map (fun v => (e.1 - e.2) * v))) = a at hcs ⊢
    generalize Model.cumsum 0 (C.elements.map (fun e => (Model.elementWeight sp e).map (fun v => (e.1 - e.2) * v))) = b
      at hcs ⊢
    rcases hwt : Model.whereTop sp.topElevation 0 C.elements with _ | ⟨i, _ | ⟨j, l⟩⟩
    · exact Or.inl ⟨_, rfl, rfl⟩
    · refine Or.inr ⟨_, _, rfl, rfl, ?_⟩
      have htop : List.Forall₂ NotAbove (a.dropLast.insertIdx i (some 0)) (b.dropLast.insertIdx i (some 0)) :=
        forall2_insertIdx (forall2_dropLast hcs) (.num le_rfl) i
      generalize a.dropLast.insertIdx i (some 0) = t at htop ⊢
      generalize b.dropLast.insertIdx i (some 0) = u at htop ⊢
      clear hwt hs hord hC ht
      generalize C.elements = L
      induction L generalizing a b t u with
      | nil => exact .nil
      | cons e L ih =>
        cases htop with
        | nil => exact .nil
        | cons h1 h2 =>
          cases hcs with
          | nil => exact .nil
          | cons h3 h4 => exact .cons ⟨rfl, weight_rise sp hw e, h1, h3⟩ (ih _ _ h4 _ _ h2)
    · exact Or.inl ⟨_, rfl, rfl⟩

/-! ## Weights -/

omit [FloorRing K] in
theorem mapM_rise {α : Type} {f g : α → Option K} (L : List α)
    (h : ∀ x ∈ L, NotAbove (f x) (g x)) :
    NotAbove ((L.mapM f).map List.sum) ((L.mapM g).map List.sum) := by
  induction L with
  | nil => exact .num le_rfl
  | cons x L ih =>
    have h1 := h x (List.mem_cons_self ..)
    have h2 := ih (fun y hy => h y (List.mem_cons_of_mem _ hy))
    rw [List.mapM_cons, List.mapM_cons]
    generalize f x = a at h1 ⊢
    generalize g x = b at h1 ⊢
    cases h1 with
    | nan => exact .nan
    | num h1 =>
      generalize L.mapM f = a at h2 ⊢
      generalize L.mapM g = b at h2 ⊢
      rcases a with _ | a <;> rcases b with _ | b
      · exact .nan
      · cases h2
      · cases h2
      · cases h2 with
        | num h2 =>
          refine .num ?_
          rw [List.sum_cons, List.sum_cons]
          exact add_le_add h1 h2

omit [Field K] [IsStrictOrderedRing K] [FloorRing K] in
theorem parameter_mem {α β : Type} (top bottom : α → K) (key : α → β) (objects : List α) (e : K × K) {a : β}
    (h : Mesh.parameterOf top bottom key objects e = some a) : ∃ o ∈ objects, key o = a := by
  unfold Mesh.parameterOf at h
  have key' : ∀ (L : List α) (init : Option β),
      L.foldl (fun acc o => if e.1 ≤ top o ∧ e.2 ≥ bottom o then some (key o) else acc) init = some a →
      init = some a ∨ ∃ o ∈ L, key o = a := by
    intro L
    induction L with
    | nil => intro init h; exact Or.inl h
    | cons o L ih =>
      intro init h
      rw [List.foldl_cons] at h
      rcases ih _ h with h | ⟨o', ho', h⟩
      · split_ifs at h with hc
        · exact Or.inr ⟨o, List.mem_cons_self .., Option.some.inj h⟩
        · exact Or.inl h
      · exact Or.inr ⟨o', List.mem_cons_of_mem _ ho', h⟩
  rcases key' objects none h with h | h
  · cases h
  · exact h

omit [FloorRing K] in
theorem volume_nonneg (key : Section K → K) (p : Pile K) {e : K × K} (he : e.2 ≤ e.1) (hk : ∀ s ∈ p.sections, 0 ≤ key s) {V : K}
    (hV : OpenPile.Weight.elementVolume key p e = some V) : 0 ≤ V := by
  unfold OpenPile.Weight.elementVolume at hV
  obtain ⟨a, ha, rfl⟩ := Option.map_eq_some_iff.1 hV
  obtain ⟨s, hs, rfl⟩ := parameter_mem _ _ _ _ _ ha
  exact mul_nonneg (sub_nonneg.2 he) (hk s hs)

omit [FloorRing K] in
/-- **C98, weights.** Raising the water line never raises the effective weight of the pile nor that of the soil plug; they are
NaN in the same cases. -/
theorem C98_weights (pi : K) (hpi : 0 ≤ pi) (p : Pile K) (hs : ∀ s ∈ p.sections, 0 ≤ s.thickness ∧ s.thickness ≤ s.diameter)
    (sp : Soil.Profile K) {w : K} (hw : sp.waterLine ≤ w) (els : List (K × K)) (he : ∀ e ∈ els, e.2 ≤ e.1) :
    NotAbove (OpenPile.Weight.effectivePileWeight pi p { sp with waterLine := w } els)
      (OpenPile.Weight.effectivePileWeight pi p sp els) ∧
    NotAbove (OpenPile.Weight.entrappedSoilWeight pi p { sp with waterLine := w } els)
      (OpenPile.Weight.entrappedSoilWeight pi p sp els) := by
  have harea : ∀ s ∈ p.sections, 0 ≤ s.area pi := by
    intro s h
    obtain ⟨h1, h2⟩ := hs s h
    unfold Pile.Section.area
    have : 0 ≤ s.diameter ^ 2 - (s.diameter - 2 * s.thickness) ^ 2 := by nlinarith
    have : 0 ≤ pi * (s.diameter ^ 2 - (s.diameter - 2 * s.thickness) ^ 2) := mul_nonneg hpi this
    linarith
  have hentr : ∀ s ∈ p.sections, 0 ≤ s.entrappedArea pi := by
    intro s h
    unfold Pile.Section.entrappedArea
    have : 0 ≤ pi * (s.diameter - 2 * s.thickness) ^ 2 := mul_nonneg hpi (sq_nonneg _)
    linarith
  constructor
  · refine mapM_rise els (fun e h => ?_)
    unfold OpenPile.Weight.effectiveWeight
    cases hV : OpenPile.Weight.elementVolume (·.area pi) p e with
    | none => exact .nan
    | some V =>
      have := volume_nonneg _ p (he e h) harea hV
      refine .num ?_
      dsimp only
      by_cases h1 : e.1 ≤ sp.waterLine
      · rw [if_pos h1, if_pos (h1.trans hw)]
      · rw [if_neg h1]
        split_ifs
        · linarith
        · exact le_rfl
  · refine mapM_rise els (fun e h => ?_)
    unfold OpenPile.Weight.soilWeight
    have : ∀ (L : List (Soil.Layer K)) (a b : Option K), NotAbove a b → NotAbove
        (L.foldl (fun acc l => if e.1 ≤ l.top ∧ e.2 ≥ l.bottom then
          (OpenPile.Weight.elementVolume (·.entrappedArea pi) p e).map (fun V => if e.1 > w then l.weight * V else (l.weight - 10) * V)
          else acc) a)
        (L.foldl (fun acc l => if e.1 ≤ l.top ∧ e.2 ≥ l.bottom then
          (OpenPile.Weight.elementVolume (·.entrappedArea pi) p e).map (fun V => if e.1 > sp.waterLine then l.weight * V else (l.weight - 10) * V)
          else acc) b) := by
      intro L
      induction L with
      | nil => intro a b h; exact h
      | cons l L ih =>
        intro a b hab
        simp only [List.foldl_cons]
        refine ih _ _ ?_
        by_cases hin : e.1 ≤ l.top ∧ e.2 ≥ l.bottom
        · rw [if_pos hin, if_pos hin]
          cases hV : OpenPile.Weight.elementVolume (·.entrappedArea pi) p e with
          | none => exact .nan
          | some V =>
            have := volume_nonneg _ p (he e h) hentr hV
            refine .num ?_
            dsimp only
            by_cases h1 : e.1 > w
            · rw [if_pos h1, if_pos (lt_of_le_of_lt hw h1)]
            · rw [if_neg h1]
              split_ifs
              · linarith
              · exact le_rfl
        · rw [if_neg hin, if_neg hin]
          exact hab
    exact this sp.layers _ _ (.num le_rfl)

end generic

/-! ## Capacities -/

section capacity
open OpenPile.Assemble OpenPile.Props.Assemble OpenPile.Props.Capacity OpenPile.Capacity OpenPile.Axial
open OpenPile.Props.Friction OpenPile.Props.Water

/-- The same element with stresses not larger, and zero in the same cases. -/
structure Lower (r' r : Row) : Prop where
  top : r'.top = r.top
  bottom : r'.bottom = r.bottom
  sec : r'.sec = r.sec
  sig : ∀ b : Bool, NotAbove (if b then r'.sigBottom else r'.sigTop) (if b then r.sigBottom else r.sigTop)

theorem owners_rise {S S' : Input} {r r' : Row} (hlay : S'.layers = S.layers) (h : Lower r' r) :
    owners S' r' = owners S r := by
  unfold owners
  rw [hlay, h.top, h.bottom]

/-- The limit friction at a node does not grow. -/
theorem friction_rise {S S' : Input} {r r' : Row} (hlay : S'.layers = S.layers)
    (hda : S'.distributedAxial = S.distributedAxial) (h : Lower r' r) (hord : r.bottom ≤ r.top) (b : Bool)
    (h0 : ∀ x', (if b then r'.sigBottom else r'.sigTop) = some x' → 0 ≤ x' ∧
      (x' = 0 → (if b then r.sigBottom else r.sigTop) = some 0))
    (hsound : ∀ l ∈ owners S r, ∀ m, l.axial = some m → Sound (l.top - l.bottom) m) {fc ft fc' ft' : ℝ}
    (hf : Friction S r b fc ft) (hf' : Friction S' r' b fc' ft') : fc' ≤ fc ∧ ft' ≤ ft := by
  have ho := owners_rise hlay h
  have hz : (if b then r'.bottom else r'.top) = if b then r.bottom else r.top := by rw [h.top, h.bottom]
  have hsig := h.sig b
  have hs0 : ∀ (P : Prop) [Decidable P], (0 : ℝ) ≤ sides P := by
    intro P _
    unfold sides
    split_ifs <;> norm_num
  have hpi := Real.pi_pos
  cases hf with
  | outside h1 =>
    cases hf' with
    | outside _ => exact ⟨le_rfl, le_rfl⟩
    | off _ _ _ => exact ⟨le_rfl, le_rfl⟩
    | clay l _ _ _ _ _ hl => rw [ho, h1] at hl; cases hl
    | sand l _ _ _ _ _ _ hl => rw [ho, h1] at hl; cases hl
  | off l hl h1 =>
    cases hf' with
    | outside _ => exact ⟨le_rfl, le_rfl⟩
    | off _ _ _ => exact ⟨le_rfl, le_rfl⟩
    | clay l' _ _ _ _ _ hl' hm' hd' =>
      rw [ho, hl] at hl'
      cases hl'
      rw [hda] at hd'
      rcases h1 with h1 | h1
      · rw [h1] at hm'; cases hm'
      · rw [h1] at hd'; cases hd'
    | sand l' _ _ _ _ _ _ hl' hm' hd' =>
      rw [ho, hl] at hl'
      cases hl'
      rw [hda] at hd'
      rcases h1 with h1 | h1
      · rw [h1] at hm'; cases hm'
      · rw [h1] at hd'; cases hd'
  | clay l m s sig Su f hl hm hd hsg hs hsig0 hSu hSu0 hfe hD htm hten hres hres' =>
    cases hf' with
    | outside h1 => rw [ho, hl] at h1; cases h1
    | off l' hl' h1 =>
      rw [ho, hl] at hl'
      cases hl'
      rw [hda] at h1
      rcases h1 with h1 | h1
      · rw [h1] at hm; cases hm
      · rw [h1] at hd; cases hd
    | sand l' _ _ _ _ _ _ hl' hm' =>
      rw [ho, hl] at hl'
      cases hl'
      rw [hm] at hm'
      cases hm'
    | clay l' m' s' sig' Su' f' hl' hm' _ hsg' hs' hsig0' hSu' _ hfe' =>
      rw [ho, hl] at hl'
      cases hl'
      rw [hm] at hm'
      cases hm'
      rw [h.sec, hs] at hs'
      cases hs'
      rw [hz, hSu] at hSu'
      cases hSu'
      obtain ⟨-, hx⟩ := h0 _ hsg'
      rw [hsg] at hsig hx
      rw [hsg'] at hsig
      cases hsig with
      | num hle =>
        have hff : f' ≤ f := by
          rw [hfe, hfe']
          refine mul_le_mul_of_nonneg_right (min_le_min_right _ ?_) hSu0.le
          by_cases hz' : sig' = 0
          · have := Option.some.inj (hx hz')
            rw [if_pos hz', if_pos this]
          · have hp' : 0 < sig' := lt_of_le_of_ne hsig0' (Ne.symm hz')
            have hp : 0 < sig := lt_of_lt_of_le hp' hle
            rw [if_neg hz', if_neg hp.ne']
            exact C35_clay_adhesion_antitone _ _ (div_pos hSu0 hp) (div_le_div_of_nonneg_left hSu0.le hp' hle)
        have h1 := hs0 (AxialModel.PluggedC m.plugging)
        have h2 := hs0 (AxialModel.PluggedT m.plugging)
        constructor <;> gcongr
  | sand l m s sig delta lim f hl hm hd hsg hs hde hlim hfe hf0 hD htm hten =>
    cases hf' with
    | outside h1 => rw [ho, hl] at h1; cases h1
    | off l' hl' h1 =>
      rw [ho, hl] at hl'
      cases hl'
      rw [hda] at h1
      rcases h1 with h1 | h1
      · rw [h1] at hm; cases hm
      · rw [h1] at hd; cases hd
    | clay l' _ _ _ _ _ hl' hm' =>
      rw [ho, hl] at hl'
      cases hl'
      rw [hm] at hm'
      cases hm'
    | sand l' m' s' sig' delta' lim' f' hl' hm' _ hsg' hs' hde' hlim' hfe' hf0' =>
      rw [ho, hl] at hl'
      cases hl'
      rw [hm] at hm'
      cases hm'
      rw [h.sec, hs] at hs'
      cases hs'
      rw [hz, hde] at hde'
      cases hde'
      obtain ⟨hn, -⟩ := h0 _ hsg'
      rw [hsg, hsg'] at hsig
      have hlo : l ∈ owners S r := by
        rw [hl]
        exact List.mem_singleton.2 rfl
      have hin : r.top ≤ l.top ∧ l.bottom ≤ r.bottom := of_decide_eq_true (List.mem_filter.1 hlo).2
      obtain ⟨q1, q2, -⟩ := hsound l hlo _ hm
      obtain ⟨d, hd1, hd2, hd3⟩ := q1 (l.top - if b then r.bottom else r.top)
        (by split_ifs <;> linarith [hin.1]) (by split_ifs <;> linarith [hin.2])
      rw [hde, Option.some.injEq] at hd1
      subst hd1
      cases hsig with
      | num hle =>
        have hff : f' ≤ f := C35_sand_mono sig' sig delta delta m.K m.K f' f hn hle q2 le_rfl hd2 le_rfl hd3
          ((C35_sand_law _ _ _ _).2 ⟨lim', hlim', hfe'⟩) ((C35_sand_law _ _ _ _).2 ⟨lim, hlim, hfe⟩)
        have h1 := hs0 (AxialModel.PluggedC m.plugging)
        have h2 := hs0 (AxialModel.PluggedT m.plugging)
        constructor <;> gcongr

/-- Below ground the vertical effective stress is positive, whatever the water line. -/
theorem stress_pos (water z : ℝ) (sp : Soil.Profile ℝ) (hb : ∀ l ∈ sp.layers, l.bottom < l.top ∧ 10 < l.weight)
    (hf : ∃ l ∈ sp.layers, l.top = sp.topElevation) (hz : z < sp.topElevation) :
    0 < Spec.Soil.stressAt water z sp.layers := by
  have hn : ∀ l ∈ sp.layers, 0 ≤ Spec.Soil.layerStress water z l ∧ (z < l.top → 0 < Spec.Soil.layerStress water z l) := by
    intro l hl
    obtain ⟨h1, h2⟩ := hb l hl
    unfold Spec.Soil.layerStress
    dsimp only
    have b1 : max l.bottom (min z l.top) ≤ l.top := max_le h1.le (min_le_right _ _)
    have b2 : z < l.top → max l.bottom (min z l.top) < l.top := fun hz => max_lt h1 ((min_le_left _ _).trans_lt hz)
    generalize max l.bottom (min z l.top) = bot at b1 b2 ⊢
    have b3 : min l.top (max water bot) ≤ l.top := min_le_left _ _
    constructor
    · nlinarith
    · intro hz
      have := b2 hz
      nlinarith
  obtain ⟨l, hl, ht⟩ := hf
  unfold Spec.Soil.stressAt
  have hge := List.single_le_sum (l := sp.layers.map (Spec.Soil.layerStress water z)) (by
    intro x hx
    obtain ⟨l', hl', rfl⟩ := List.mem_map.1 hx
    exact (hn l' hl').1) _ (List.mem_map.2 ⟨l, hl, rfl⟩)
  exact lt_of_lt_of_le ((hn l hl).2 (by rw [ht]; exact hz)) hge

/-- The inputs of `create_springs` for the two water lines. -/
theorem input_rise {p : Pile ℝ} {sp : SoilProfile} {w : ℝ} (hw : sp.waterLine ≤ w) {x2mesh : List ℝ} {c : ℝ} (hc : 0 < c)
    {sw : Switches} {table : List (ℝ × Section ℝ)} {S S' : Input} (hS : input p sp x2mesh c sw table = some S)
    (hS' : input p (withWater sp w) x2mesh c sw table = some S') :
    List.Forall₂ Lower S'.rows S.rows ∧ S'.layers = S.layers ∧ S'.distributedAxial = S.distributedAxial ∧
      S'.baseAxial = S.baseAxial ∧ S'.tip = S.tip ∧ S'.tipArea = S.tipArea ∧ S'.tipFootprint = S.tipFootprint := by
  obtain ⟨-, hrise⟩ := C98_stress p sp.geometry hw x2mesh hc
  have hg : (withWater sp w).geometry = { sp.geometry with waterLine := w } := rfl
  unfold input at hS hS'
  rw [hg] at hS'
  rcases hrise with ⟨e, -, h2⟩ | ⟨T', T, h1, h2, hr⟩
  · rw [h2] at hS
    cases hS
  · rw [h2] at hS
    rw [h1] at hS'
    simp only [Except.toOption, Option.bind_eq_bind, Option.bind_some, Option.bind_eq_some_iff, Option.pure_def,
      Option.some.injEq] at hS hS'
    obtain ⟨t, ht, a, ha, f, hf, rfl⟩ := hS
    obtain ⟨t', ht', a', ha', f', hf', rfl⟩ := hS'
    rw [ht] at ht'
    rw [ha] at ha'
    rw [hf] at hf'
    cases ht'
    cases ha'
    cases hf'
    refine ⟨?_, rfl, rfl, rfl, rfl, rfl, rfl⟩
    rw [List.forall₂_map_left_iff, List.forall₂_map_right_iff]
    refine hr.imp ?_
    intro r' r h
    refine ⟨?_, ?_, ?_, ?_⟩
    · exact congrArg Prod.fst h.element
    · exact congrArg Prod.snd h.element
    · show Model.elementSection table r'.element.1 = Model.elementSection table r.element.1
      rw [h.element]
    · intro b
      cases b
      · exact h.top
      · exact h.bottom

theorem forall2_get {α β : Type} {R : α → β → Prop} {a : List α} {b : List β} (h : List.Forall₂ R a b) :
    ∀ {i : ℕ} {x : α}, a[i]? = some x → ∃ y, b[i]? = some y ∧ R x y := by
  induction h with
  | nil => intro i x hx; simp at hx
  | cons h1 _ ih =>
    intro i x hx
    cases i with
    | zero =>
      simp only [List.getElem?_cons_zero, Option.some.injEq] at hx
      subst hx
      exact ⟨_, rfl, h1⟩
    | succ i =>
      simp only [List.getElem?_cons_succ] at hx ⊢
      exact ih hx

theorem friction_outside {S : Input} {r : Row} {b : Bool} {fc ft : ℝ} (h : Friction S r b fc ft) (ho : owners S r = []) :
    fc = 0 ∧ ft = 0 := by
  cases h with
  | outside _ => exact ⟨rfl, rfl⟩
  | off _ _ _ => exact ⟨rfl, rfl⟩
  | clay l _ _ _ _ _ hl => rw [ho] at hl; cases hl
  | sand l _ _ _ _ _ _ hl => rw [ho] at hl; cases hl

/-- **C98, capacities.** For every Model with sound soil models: raising the water line leaves the Model valid and raises
neither of the shaft resistances nor the tip resistance.  Partial: pile, layers and mesh as in C56 (layers meet exactly, levels
on the 0.1 mm grid, pile head not below ground). -/
theorem C98_capacity_partial {p : Pile ℝ} {sp : SoilProfile} {w : ℝ} (hw : sp.waterLine ≤ w) {x2mesh : List ℝ}
    {c top tipz : ℝ} (h : Weight.Setup p sp.geometry x2mesh c top tipz) (sw : Switches) {table : List (ℝ × Section ℝ)}
    (htab : Model.SortedRows p table) {env : Draws} (henv : GoodDraws env) (henv' : GoodTip env) (henv'' : GoodLateral env)
    (hsound : ∀ l ∈ sp.layers, ∀ m, l.axial = some m → Sound (l.top - l.bottom) m)
    (hlat : ∀ l ∈ sp.layers, ∀ m, l.lateral = some m → ∀ s ∈ p.sections,
      Spec.Sound.Lateral s.diameter (sp.topElevation - tipz) m)
    {g : Section ℝ} (hg : p.sections.getLast? = some g) (hwall : g.thickness ≤ g.diameter) :
    ∃ fc ft q fc' ft' q', shaft p sp x2mesh c sw table env = some (fc, ft) ∧ tip p sp x2mesh c sw table env = some q ∧
      shaft p (withWater sp w) x2mesh c sw table env = some (fc', ft') ∧
      tip p (withWater sp w) x2mesh c sw table env = some q' ∧ fc' ≤ fc ∧ ft' ≤ ft ∧ q' ≤ q := by
  have h2 : Weight.Setup p (withWater sp w).geometry x2mesh c top tipz := setup_water h w
  obtain ⟨C, S, wa, fc, ft, A, hC, hS, -, -, hlay, htip, hstress, hrows, ⟨r, hr, hrg⟩, hfr, hA⟩ :=
    C64_setup h sw htab henv henv' henv'' hsound hlat
  obtain ⟨C', S', wa', fc', ft', A', hC', hS', -, -, hlay', htip', hstress', hrows', ⟨r', hr', hrg'⟩, hfr', hA'⟩ :=
    C64_setup h2 sw htab henv henv' henv'' hsound hlat
  have hCC : C' = C := by
    have : Mesh.getCoordinates p (some (withWater sp w).geometry) x2mesh c
        = Mesh.getCoordinates p (some sp.geometry) x2mesh c := rfl
    rw [this, hC] at hC'
    exact (Option.some.inj hC').symm
  subst hCC
  have hc0 : 0 < c := lt_of_lt_of_le (by norm_num) h.coarse
  obtain ⟨hlow, hl1, hl2, hl3, hl4, -, -⟩ := input_rise hw hc0 hS hS'
  obtain ⟨D, hD, hm⟩ := Weight.mesh_facts h
  rw [hC, Option.some.injEq] at hD
  subst hD
  obtain ⟨C₁, hC₁, hel₁, hsh⟩ := C56_model_shaft_partial h sw table hS hA henv hfr
  rw [hC, Option.some.injEq] at hC₁
  subst hC₁
  obtain ⟨C₂, hC₂, -, hsh'⟩ := C56_model_shaft_partial h2 sw table hS' hA' henv hfr'
  rw [hC', Option.some.injEq] at hC₂
  subst hC₂
  have hfirst : ∃ l ∈ sp.geometry.layers, l.top = sp.geometry.topElevation := by
    obtain ⟨f, hf, hft⟩ := h.first
    exact ⟨f, by
      have := List.mem_of_mem_head? hf
      unfold Soil.sortLayers at this
      rwa [List.mem_reverse, (Py.sortedBy_perm _ _).mem_iff] at this, hft⟩
  have hbl : ∀ l ∈ sp.geometry.layers, l.bottom < l.top ∧ 10 < l.weight := fun l hl => ⟨(hm.lays l hl).1, (hm.lays l hl).2.1⟩
  -- every node
  have hnode : ∀ i < C'.elements.length, ∀ b : Bool, fc' i b ≤ fc i b ∧ ft' i b ≤ ft i b := by
    intro i hi b
    have hlenS : i < S.rows.length := by
      rw [hel₁, List.length_map] at hi
      exact hi
    have hi' : i < S'.rows.length := by
      rw [hlow.length_eq]
      exact hlenS
    obtain ⟨q, hq, hL⟩ := forall2_get hlow (List.getElem?_eq_getElem hi')
    have hqm : q ∈ S.rows := List.mem_of_getElem? hq
    have hqm' : S'.rows[i] ∈ S'.rows := List.getElem_mem hi'
    obtain ⟨ho1, -, hin⟩ := hrows q hqm
    obtain ⟨-, -, hin'⟩ := hrows' _ hqm'
    have f1 := hfr i q b hq
    have f2 := hfr' i _ b (List.getElem?_eq_getElem hi')
    rcases le_or_gt q.top sp.topElevation with hle | hgt
    · obtain ⟨-, s1, s2⟩ := hin hle
      obtain ⟨-, s3, s4⟩ := hin' (by rw [hL.top]; exact hle)
      refine friction_rise hl1 hl2 hL ho1.le b ?_ ?_ f1 f2
      · intro x' hx'
        cases b
        · simp only [Bool.false_eq_true, if_false] at hx' ⊢
          rw [s3, Option.some.injEq, hL.top] at hx'
          refine ⟨hx' ▸ hstress' _ hle, fun h0 => ?_⟩
          rw [s1, Option.some.injEq]
          rcases hle.lt_or_eq with hlt | heq
          · exact absurd (hx'.trans h0) (stress_pos wa' q.top sp.geometry hbl hfirst hlt).ne'
          · have := (Model.C10_nonneg sp.geometry wa q.top h.built (fun l hl => (hm.lays l hl).2.2) hle).1
            rw [heq]
            exact this
        · simp only [if_true] at hx' ⊢
          rw [s4, Option.some.injEq, hL.bottom] at hx'
          refine ⟨hx' ▸ hstress' _ (ho1.le.trans hle), fun h0 => ?_⟩
          exact absurd (hx'.trans h0)
            (stress_pos wa' q.bottom sp.geometry hbl hfirst (lt_of_lt_of_le ho1 hle)).ne'
      · intro l hl
        exact hsound l (hlay ▸ (List.mem_filter.1 hl).1)
    · have hno : owners S q = [] := by
        unfold owners
        rw [List.filter_eq_nil_iff, hlay]
        intro l hl
        have := (hm.lays l.toLayer (List.mem_map.2 ⟨l, hl, rfl⟩)).2.2
        simp only [decide_eq_true_eq, not_and]
        intro h1
        exact absurd (hgt.trans_le (h1.trans this)) (lt_irrefl _)
      obtain ⟨a1, a2⟩ := friction_outside f1 hno
      obtain ⟨b1, b2⟩ := friction_outside f2 (by rw [owners_rise hl1 hL]; exact hno)
      rw [a1, a2, b1, b2]
      exact ⟨le_rfl, le_rfl⟩
  have hspan : ∀ i ≤ C'.elements.length, 0 < C'.elements.length → 0 ≤ span (elevations C') C'.elements.length i := by
    intro i hi hn
    obtain ⟨hz, -⟩ := elevations_descending hm
    rw [← gradient_span hz hn hi]
    exact (Extract.gradient_pos hz hn hi).le
  -- the tip
  have hrm : r ∈ S.rows := List.mem_of_getLast? hr.last
  obtain ⟨hr1, -, hr3⟩ := hrows r hrm
  obtain ⟨⟨l, hl⟩, -, e2⟩ := hr3 hrg
  obtain ⟨hr1', -, hr3'⟩ := hrows' r' (List.mem_of_getLast? hr'.last)
  obtain ⟨-, -, e2'⟩ := hr3' hrg'
  have hlow2 : Lower r' r := by
    have h1 := hr'.last
    have h2 := hr.last
    rw [List.getLast?_eq_getElem?] at h1 h2
    obtain ⟨y, hy, hL⟩ := forall2_get hlow h1
    rw [hlow.length_eq, h2, Option.some.injEq] at hy
    rw [hy]
    exact hL
  have hlo' : owners S' r' = [l] := by rw [owners_rise hl1 hlow2, hl]
  have hlo : l ∈ owners S r := by
    rw [hl]
    exact List.mem_singleton.2 rfl
  have hlm : l ∈ sp.layers := by
    rw [← hlay]
    exact (List.mem_filter.1 hlo).1
  have hin : r.top ≤ l.top ∧ l.bottom ≤ r.bottom := of_decide_eq_true (List.mem_filter.1 hlo).2
  have hrt : r.bottom = S.tip := hr.tip
  obtain ⟨sections, mat, hp, hb⟩ := h.pile
  obtain ⟨hst, hmemp⟩ := Mesh.mkPile_sections sections mat p hp
  have hgb := (Pile.built_iff g).1 (hb g ((hmemp g).1 (List.mem_of_getLast? hg)))
  obtain ⟨hts, -⟩ := tip_section hS hg ⟨hgb.2.2.le, hwall⟩
  obtain ⟨hts', -⟩ := tip_section hS' hg ⟨hgb.2.2.le, hwall⟩
  have htipE : tip p sp x2mesh c sw table env = Extract.tipResistance (rows A.qz) := by
    simp only [tip, modelSprings, hS, hA, Option.bind_eq_bind, Option.bind_some]
  have htipE' : tip p (withWater sp w) x2mesh c sw table env = Extract.tipResistance (rows A'.qz) := by
    simp only [tip, modelSprings, hS', hA', Option.bind_eq_bind, Option.bind_some]
  have htipq : ∃ q q', tip p sp x2mesh c sw table env = some q ∧ tip p (withWater sp w) x2mesh c sw table env = some q' ∧
      q' ≤ q := by
    rw [htipE, htipE']
    by_cases hn : l.axial = none ∨ S.baseAxial = false
    · exact ⟨0, 0, C56_tip_none hA hr hr1.le hl hn, C56_tip_none hA' hr' hr1'.le hlo' (by rw [hl3]; exact hn), le_rfl⟩
    · push Not at hn
      obtain ⟨hn1, hn2⟩ := hn
      have hn2 : S.baseAxial = true := by simpa using hn2
      obtain ⟨m, hm'⟩ := Option.ne_none_iff_exists'.1 hn1
      cases m with
      | clay m =>
        obtain ⟨k1, -, -, -, -, k6⟩ := hsound l hlm _ hm'
        obtain ⟨Su, e, hSu⟩ := k1 (l.top - S.tip) (by rw [← hrt]; linarith [hin.1]) (by rw [← hrt]; linarith [hin.2])
        refine ⟨_, _, C56_tip_clay hA hr hr1.le hl hm' hn2 hts (henv' _ _).1 (henv' _ _).2 e hSu.le k6,
          C56_tip_clay hA' hr' hr1'.le hlo' hm' (hl3.trans hn2) hts' (henv' _ _).1 (henv' _ _).2 (by rw [hl4]; exact e) hSu.le k6,
          le_rfl⟩
      | sand m =>
        obtain ⟨k1, -, -, -, k6⟩ := hsound l hlm _ hm'
        obtain ⟨δ, e, -⟩ := k1 (l.top - S.tip) (by rw [← hrt]; linarith [hin.1]) (by rw [← hrt]; linarith [hin.2])
        obtain ⟨f, hf⟩ := C35_bearing_total 1 δ
        obtain ⟨lim, nq, hlim, hnq, -⟩ := (C35_bearing_law _ _ _).1 hf
        have hle := hlow2.sig true
        simp only [if_true] at hle
        rw [e2, e2'] at hle
        have hb1 := hstress _ (hr1.le.trans hrg)
        have hb2 := hstress' _ (hr1'.le.trans hrg')
        refine ⟨_, _, C56_tip_sand hA hr hr1.le hl hm' hn2 hts (henv' _ _).1 (henv' _ _).2 e2 hb1 e hlim hnq k6,
          C56_tip_sand hA' hr' hr1'.le hlo' hm' (hl3.trans hn2) hts' (henv' _ _).1 (henv' _ _).2 e2' hb2
            (by rw [hl4]; exact e) hlim hnq k6, ?_⟩
        have hq : min lim (nq * Spec.Soil.stressAt wa' r'.bottom (withWater sp w).geometry.layers)
            ≤ min lim (nq * Spec.Soil.stressAt wa r.bottom sp.geometry.layers) :=
          C35_bearing_mono _ _ δ δ _ _ hb2 (by cases hle with | num h => exact h) le_rfl
            ((C35_bearing_law _ _ _).2 ⟨lim, nq, hlim, hnq, rfl⟩) ((C35_bearing_law _ _ _).2 ⟨lim, nq, hlim, hnq, rfl⟩)
        exact mul_le_mul_of_nonneg_right (mul_le_mul_of_nonneg_right hq k6) (endArea_nonneg _ hts.wall)
  obtain ⟨q, q', hq, hq', hqq⟩ := htipq
  refine ⟨_, _, q, _, _, q', hsh, hq, hsh', hq', ?_, ?_, hqq⟩
  · refine Finset.sum_le_sum fun i hi => ?_
    have hi := Finset.mem_range.1 hi
    have g1 := hspan i hi.le (by omega)
    have g2 := hspan (i + 1) hi (by omega)
    have a1 := (hnode i hi false).1
    have a2 := (hnode i hi true).1
    gcongr
  · refine Finset.sum_le_sum fun i hi => ?_
    have hi := Finset.mem_range.1 hi
    have g1 := hspan i hi.le (by omega)
    have g2 := hspan (i + 1) hi (by omega)
    have a1 := (hnode i hi false).2
    have a2 := (hnode i hi true).2
    gcongr

end capacity

/-! ## Lateral springs of sand -/

section lateral
open OpenPile.Lateral OpenPile.Conic OpenPile.Props.Stronger

/-- **C98, p-y curves of sand.** With less stress, or becoming submerged, `api_sand` resists no more at any displacement.
Partial: with the default modulus only for friction angles from 24 to 28 degrees and from 30 degrees, see
`C98_violated_modulus`. -/
theorem C98_api_sand_partial {sig sig' X phi D k ymax ymax' : ℝ} {kind : Loading} {w w' : Bool} {len len' : ℕ}
    {l l' : List (ℝ × ℝ)} (h0 : 0 ≤ phi) (h1 : phi < 90) (hs0 : 0 ≤ sig') (hs : sig' ≤ sig) (hw : w = true → w' = true)
    (hX : 0 ≤ X) (hD : 0 < D) (hy : 0 ≤ ymax') (hk : 0 ≤ k) (hphi : k = 0 → 24 ≤ phi ∧ phi ≤ 28 ∨ 30 ≤ phi)
    (h : apiSand sig X phi D kind w k ymax len = some l) (h' : apiSand sig' X phi D kind w' k ymax' len' = some l') :
    Outresists l' l := by
  have hm : ∃ m m', kPhi phi k w = some m ∧ kPhi phi k w' = some m' ∧ m' ≤ m := by
    rcases hk.eq_or_lt with rfl | hk
    · have hphi := hphi rfl
      cases w <;> cases w'
      · exact ⟨_, _, (kPhi_default phi).2, (kPhi_default phi).2, le_rfl⟩
      · refine ⟨_, _, (kPhi_default phi).2, (kPhi_default phi).1, max_le ?_ (le_max_right _ _)⟩
        rcases hphi with ⟨a, b⟩ | a
        · refine le_trans ?_ (le_max_right _ _)
          nlinarith [mul_nonneg (sub_nonneg.2 a) (sub_nonneg.2 b)]
        · refine le_trans ?_ (le_max_left _ _)
          nlinarith
      · exact absurd (hw rfl) (by simp)
      · exact ⟨_, _, (kPhi_default phi).1, (kPhi_default phi).1, le_rfl⟩
    · have e : ∀ w, kPhi phi k w = some k := fun w => (OpenPile.Lateral.C30_modulus phi k w).2.1 hk
      exact ⟨k, k, e w, e w', le_rfl⟩
  obtain ⟨m, m', e, e', hmm⟩ := hm
  exact sand_curves h0 le_rfl h1 hs0 hs hX hD hy e' e hmm h' h

/-! ### clay -/

/-- At equal displacements the points of `t'` resist no more than those of `t`. -/
def NoStronger (t' t : List (ℝ × ℝ)) : Prop := ∀ q' ∈ t', ∀ q ∈ t, q'.1 = q.1 → q'.2 ≤ q.2

/-- The transition depth does not fall with the stress. -/
theorem transition_rise {sig sig' X Su D J Xr Xr' : ℝ} (hD : 0 < D) (hJ : 0 < J) (hX : 0 < X) (hSu : 0 < Su)
    (hs0 : 0 ≤ sig') (hs : sig' ≤ sig) (T : Transition sig X Su D J Xr) (T' : Transition sig' X Su D J Xr') : Xr ≤ Xr' := by
  rcases T.value with e | e
  · rw [e]; exact T'.shallow
  · rcases T'.larger with k | k
    · have hX' : 0 < Xr' := lt_of_lt_of_le (by positivity) T'.shallow
      have hp : 0 < sig * D + J * Su * X := by have : 0 ≤ sig := hs0.trans hs; positivity
      refine le_of_mul_le_mul_left (a := sig * D + J * Su * X) ?_ hp
      rw [e]
      refine k.trans ?_
      have := mul_le_mul_of_nonneg_right hs hD.le
      gcongr
    · exact absurd k hSu.ne'

theorem cyclic_rise {Pu Pu' y50 c a r r' : ℝ} {deep deep' : Prop} {q q' : ℝ × ℝ} (hy : 0 < y50) (hc : 0 < c)
    (ha1 : a < 15) (hP0 : 0 ≤ Pu') (hP : Pu' ≤ Pu) (hdd : deep' → deep) (hr' : ¬ deep' → 0 ≤ r' ∧ r' ≤ 1)
    (hr : ¬ deep → r' ≤ r ∧ r ≤ 1) (h0 : 0 ≤ q.1) (he : q'.1 = q.1) (h : CyclicLaw Pu y50 c a r deep q)
    (h' : CyclicLaw Pu' y50 c a r' deep' q') : q'.2 ≤ q.2 := by
  have hcP : c * Pu' ≤ c * Pu := by gcongr
  have hcP0 : 0 ≤ c * Pu' := by positivity
  by_cases h1 : q.1 ≤ a * y50
  · rw [h.rise h1, h'.rise (by rw [he]; exact h1), he]
    have : 0 ≤ (q.1 / y50) ^ (33 / 100 : ℝ) := Real.rpow_nonneg (div_nonneg h0 hy.le) _
    nlinarith
  · push Not at h1
    by_cases d' : deep'
    · rw [h'.plateau d' (by rw [he]; exact h1), h.plateau (hdd d') h1]
      exact hcP
    · obtain ⟨k0, k1⟩ := hr' d'
      by_cases h2 : q.1 ≤ 15 * y50
      · have ht0 : 0 ≤ (q.1 - a * y50) / ((15 - a) * y50) :=
          div_nonneg (by linarith) (mul_nonneg (by linarith) hy.le)
        have ht1 : (q.1 - a * y50) / ((15 - a) * y50) ≤ 1 := by
          rw [div_le_one (mul_pos (by linarith) hy)]; linarith
        rw [h'.fall d' (by rw [he]; exact h1) (by rw [he]; exact h2), he]
        set t := (q.1 - a * y50) / ((15 - a) * y50)
        have e1 : c * Pu' - (c * Pu' - c * Pu' * r') * t = c * Pu' * (1 - (1 - r') * t) := by ring
        have hle1 : 1 - (1 - r') * t ≤ 1 := by nlinarith
        have hge : 0 ≤ 1 - (1 - r') * t := by nlinarith
        rw [e1]
        by_cases d : deep
        · rw [h.plateau d h1]
          nlinarith
        · obtain ⟨m1, m2⟩ := hr d
          rw [h.fall d h1 h2]
          have e2 : c * Pu - (c * Pu - c * Pu * r) * t = c * Pu * (1 - (1 - r) * t) := by ring
          rw [e2]
          exact mul_le_mul hcP (by nlinarith) hge (hcP0.trans hcP)
      · push Not at h2
        rw [h'.residual d' (by rw [he]; exact h2)]
        by_cases d : deep
        · rw [h.plateau d h1]
          nlinarith
        · rw [h.residual d h2]
          exact mul_le_mul hcP (hr d).1 k0 (hcP0.trans hcP)

theorem clay_rise {kind : Loading} {n n' : ℕ} {sig sig' X Su eps D J c a : ℝ} {l l' : List (ℝ × ℝ)}
    (hd : ClayData sig' X Su eps D J) (hs : sig' ≤ sig) (hc : 0 < c) (ha1 : a < 15)
    (h : ClayCurve kind n sig X Su eps D J c a l) (h' : ClayCurve kind n' sig' X Su eps D J c a l') : NoStronger l' l := by
  cases kind with
  | static => exact fun q' hq' q hq e => clay_curves hd hs le_rfl hd.eps le_rfl h' h q' hq' q hq e.le
  | cyclic =>
    intro q' hq' q hq he
    obtain ⟨Xr, T, H⟩ := h.law
    obtain ⟨Xr', T', H'⟩ := h'.law
    have hD := hd.D
    have hXr : 0 < Xr := lt_of_lt_of_le (by positivity) T.shallow
    have hXr' : 0 < Xr' := lt_of_lt_of_le (by positivity) T'.shallow
    have hy : 0 < 5 / 2 * eps * D := by have := hd.eps; positivity
    have hP0 := clayUltimate_nonneg hd.sig hd.X hd.Su hD.le hd.J.le
    have hP := clayUltimate_mono (sig := sig') (Su := Su) hd.X hD.le hd.J.le hs le_rfl
    have hzero : ∀ s, 0 ≤ s → Su = 0 → clayUltimate s X Su D J = 0 := by
      rintro s hs0 rfl
      unfold clayUltimate clayDeep clayWedge
      simp only [mul_zero, zero_mul, zero_add, add_zero]
      exact min_eq_left (by positivity)
    rcases hd.Su.eq_or_lt with e | e
    · have b' := (h'.table.bounded q' hq')
      have b := (h.table.nonneg q hq).2
      refine b'.trans (le_trans (le_of_eq ?_) b)
      rw [hzero sig' hd.sig e.symm]
      simp [capOf]
    · have hXX : X ≠ 0 → Xr ≤ Xr' := fun hX0 =>
        transition_rise hD hd.J (lt_of_le_of_ne hd.X (Ne.symm hX0)) e hd.sig hs T T'
      have hdd : Xr' < X → Xr < X := fun k => lt_of_le_of_lt (hXX (by linarith)) k
      refine cyclic_rise hy hc ha1 hP0 hP hdd ?_ ?_ (h.table.nonneg q hq).1 he ((H q hq).2 rfl) ((H' q' hq').2 rfl)
      · intro k
        exact ⟨div_nonneg hd.X hXr'.le, (div_le_one hXr').2 (not_lt.1 k)⟩
      · intro k
        refine ⟨?_, (div_le_one hXr).2 (not_lt.1 k)⟩
        by_cases hX0 : X = 0
        · simp [hX0]
        · exact div_le_div_of_nonneg_left hd.X hXr (hXX hX0)

/-- **C98, p-y curves of clay.** With less effective stress `api_clay`, `matlock` and `modified_Matlock` resist no more at any
displacement, static or cyclic. -/
theorem C98_clay {kind : Loading} {sig sig' X Su eps D J ymax ymax' : ℝ} {len len' : ℕ} {draws draws' : List ℝ}
    {l l' : List (ℝ × ℝ)} (hc : ClayData sig' X Su eps D J) (hs : sig' ≤ sig) (hd : Draws (max 9 len) draws)
    (hd' : Draws (max 9 len') draws') (hy : 0 ≤ ymax) (hy' : 0 ≤ ymax') :
    (apiClay sig X Su eps D J kind ymax len draws = some l → apiClay sig' X Su eps D J kind ymax' len' draws' = some l' →
      NoStronger l' l) ∧
    (matlock sig X Su eps D J kind ymax len draws = some l → matlock sig' X Su eps D J kind ymax' len' draws' = some l' →
      NoStronger l' l) ∧
    (modMatlock sig X Su eps D J kind ymax len draws = some l → modMatlock sig' X Su eps D J kind ymax' len' draws' = some l' →
      NoStronger l' l) := by
  have hc0 : ClayData sig X Su eps D J := ⟨hc.sig.trans hs, hc.X, hc.Su, hc.eps, hc.D, hc.J⟩
  have h8 : Draws (max 8 len) draws := ⟨le_trans (max_le_max (by norm_num) le_rfl) hd.enough, hd.range⟩
  have h8' : Draws (max 8 len') draws' := ⟨le_trans (max_le_max (by norm_num) le_rfl) hd'.enough, hd'.range⟩
  refine ⟨fun h h' => ?_, fun h h' => ?_, fun h h' => ?_⟩
  · obtain ⟨_, e, k⟩ := C31_api_clay (kind := kind) hc0 h8 hy
    obtain ⟨_, e', k'⟩ := C31_api_clay (kind := kind) hc h8' hy'
    rw [h, Option.some.injEq] at e
    rw [h', Option.some.injEq] at e'
    subst e e'
    exact clay_rise hc hs (by norm_num) (by norm_num) k k'
  · obtain ⟨_, e, k⟩ := C31_matlock (kind := kind) hc0 hd hy
    obtain ⟨_, e', k'⟩ := C31_matlock (kind := kind) hc hd' hy'
    rw [h, Option.some.injEq] at e
    rw [h', Option.some.injEq] at e'
    subst e e'
    exact clay_rise hc hs (by norm_num) (by norm_num) k k'
  · obtain ⟨_, e, k⟩ := C31_modified_matlock (kind := kind) hc0 h8 hy
    obtain ⟨_, e', k'⟩ := C31_modified_matlock (kind := kind) hc h8' hy'
    rw [h, Option.some.injEq] at e
    rw [h', Option.some.injEq] at e'
    subst e e'
    exact clay_rise hc hs (by norm_num) (by norm_num) k k'

/-! ### sand, stiffness -/

/-- The first segment of the table `api_sand` makes with `ymax = 0`: its slope is the modulus times the depth times a number
that depends only on how many points the table has. -/
theorem first_segment {sig X phi D m : ℝ} {kind : Loading} {w : Bool} {len : ℕ} (h0 : 0 < phi) (h1 : phi < 90) (hs : 0 < sig)
    (hX : 1 / 10 ≤ X) (hD : 0 < D) (hm0 : 0 < m) (hk : kPhi phi 0 w = some m) :
    ∃ l q, apiSand sig X phi D kind w 0 0 len = some l ∧ l[0]? = some (0, 0) ∧ l[1]? = some q ∧ 0 < q.1 ∧
      q.2 / q.1 = m * X * (Real.tanh (4 / ((max 8 len : ℕ) - 1)) / (4 / ((max 8 len : ℕ) - 1))) := by
  have hX0 : 0 < X := by linarith
  have hP := (C30_ultimate h0.le h1 hs.le hX0.le hD).2 ⟨hs, h0⟩
  have hA : 0 < factor kind X D := lt_of_lt_of_le (by norm_num) (factor_pos kind X D)
  have hym : ymaxSand sig X phi D (factor kind X D) m 0 =
      4 * factor kind X D * sandUltimate sig X phi D / (m * X) := by
    unfold ymaxSand
    rw [pmaxSand_eq h0.le h1]
    simp only [↓reduceIte, hP.ne', max_eq_left hX]
  have hn : 8 ≤ max 8 len := le_max_left _ _
  generalize hN : max 8 len = n at hn ⊢
  have hn' : (8 : ℝ) ≤ n := by exact_mod_cast hn
  have hn1 : (0 : ℝ) < n - 1 := by linarith
  set A := factor kind X D
  set P := sandUltimate sig X phi D
  refine ⟨_, (4 * A * P / (m * X) / (n - 1), apiSandP A P m X (4 * A * P / (m * X) / (n - 1))), apiSand_eq h0.le h1 hD hk,
    ?_, ?_, by positivity, ?_⟩
  · rw [hym, hN]
    unfold linspace
    rw [if_neg (by omega), List.getElem?_map, List.getElem?_map, List.getElem?_range (by omega)]
    simp [apiSandP]
  · rw [hym, hN]
    unfold linspace
    rw [if_neg (by omega), List.getElem?_map, List.getElem?_map, List.getElem?_range (by omega)]
    simp
    rfl
  · unfold apiSandP
    rw [if_neg hP.ne']
    have : m * X * (4 * A * P / (m * X) / (n - 1)) / (A * P) = 4 / (n - 1) := by field_simp
    rw [this]
    field_simp

/-- **C98, violated.** Sand of 15 to 23 degrees with the default modulus, as a Model calls `api_sand` (`ymax = 0`): wherever a
spring becomes submerged its initial stiffness rises, however much effective stress is lost. -/
theorem C98_violated_modulus {sig sig' X phi D : ℝ} {kind : Loading} {len : ℕ} (h0 : 15 ≤ phi) (h1 : phi ≤ 23) (hs : 0 < sig)
    (hs' : 0 < sig') (hX : 1 / 10 ≤ X) (hD : 0 < D) :
    ∃ l l' q q', apiSand sig X phi D kind false 0 0 len = some l ∧ apiSand sig' X phi D kind true 0 0 len = some l' ∧
      l[0]? = some (0, 0) ∧ l'[0]? = some (0, 0) ∧ l[1]? = some q ∧ l'[1]? = some q' ∧ 0 < q.1 ∧ 0 < q'.1 ∧
      q.2 / q.1 < q'.2 / q'.1 := by
  have hlt : max ((2153 / 10000 * phi ^ 2 - 8232 / 1000 * phi + 63657 / 1000) * 1000) 5400 <
      max ((1978 / 10000 * phi ^ 2 - 10232 / 1000 * phi + 13682 / 100) * 1000) 5400 := by
    refine max_lt (lt_max_of_lt_left ?_) (lt_max_of_lt_left ?_) <;>
      nlinarith [mul_nonneg (sub_nonneg.2 h0) (sub_nonneg.2 h1)]
  obtain ⟨l, q, a, b, c, d, e⟩ := first_segment (kind := kind) (len := len) (by linarith) (by linarith) hs hX hD
    (lt_of_lt_of_le (by norm_num) (le_max_right _ _)) (kPhi_default phi).2
  obtain ⟨l', q', a', b', c', d', e'⟩ := first_segment (kind := kind) (len := len) (by linarith) (by linarith) hs' hX hD
    (lt_of_lt_of_le (by norm_num) (le_max_right _ _)) (kPhi_default phi).1
  refine ⟨l, l', q, q', a, a', b, b', c, c', d, d', ?_⟩
  rw [e, e']
  have hn : (8 : ℝ) ≤ (max 8 len : ℕ) := by exact_mod_cast le_max_left _ _
  have hc : (0 : ℝ) < 4 / ((max 8 len : ℕ) - 1) := div_pos (by norm_num) (by linarith)
  have ht : 0 < Real.tanh (4 / ((max 8 len : ℕ) - 1)) := by
    rw [Real.tanh_eq_sinh_div_cosh]
    exact div_pos (Real.sinh_pos_iff.2 hc) (Real.cosh_pos _)
  have hX0 : 0 < X := by linarith
  exact mul_lt_mul_of_pos_right (mul_lt_mul_of_pos_right hlt hX0) (div_pos ht hc)

end lateral

/-! ## Examples -/

/-- A pile in clay, the water rising from 10 m below ground to 5 m above. -/
example (sw : Assemble.Switches) : ∃ fc ft q fc' ft' q',
    Capacity.shaft Creation.tube (Water.withWater (Creation.soil (.matlock (Creation.clay true))) (-10)) [] 1 sw
      (Model.stableRows Creation.tube) Props.Assemble.drawsExample = some (fc, ft) ∧
    Capacity.tip Creation.tube (Water.withWater (Creation.soil (.matlock (Creation.clay true))) (-10)) [] 1 sw
      (Model.stableRows Creation.tube) Props.Assemble.drawsExample = some q ∧
    Capacity.shaft Creation.tube (Water.withWater (Creation.soil (.matlock (Creation.clay true))) 5) [] 1 sw
      (Model.stableRows Creation.tube) Props.Assemble.drawsExample = some (fc', ft') ∧
    Capacity.tip Creation.tube (Water.withWater (Creation.soil (.matlock (Creation.clay true))) 5) [] 1 sw
      (Model.stableRows Creation.tube) Props.Assemble.drawsExample = some q' ∧ fc' ≤ fc ∧ ft' ≤ ft ∧ q' ≤ q := by
  have hSu : ∀ d, Params.layered Props.Assemble.axialExample.Su d (0 - -20) = some 50 := by
    intro d
    norm_num [Props.Assemble.axialExample, Params.layered, Params.topBottom]
  have h := C98_capacity_partial (p := Creation.tube)
    (sp := Water.withWater (Creation.soil (.matlock (Creation.clay true))) (-10)) (w := 5) (by norm_num [Water.withWater])
    (Water.setup_water (Props.Assemble.setup_example (some (.matlock (Creation.clay true)))
      (some (.clay Props.Assemble.axialExample))) (-10)) sw
    (table := Model.stableRows Creation.tube) ⟨Py.sortedBy_perm _ _, Py.sortedBy_pairwise _ _⟩ Props.Capacity.good_draws.1
    Props.Capacity.good_draws.2 Props.Capacity.good_lateral (by
      intro l hl m hm
      simp only [List.mem_singleton, Water.withWater, Creation.soil] at hl
      subst hl
      cases hm
      refine ⟨fun d _ _ => ⟨50, hSu d, by norm_num⟩, ?_, ?_, ?_, ?_, ?_⟩ <;> norm_num [Props.Assemble.axialExample]) (by
      intro l hl m' hm' s hs
      simp only [List.mem_singleton, Water.withWater, Creation.soil, Creation.tube] at hl hs
      subst hl hs
      cases hm'
      norm_num [Water.withWater, Creation.soil]
      exact Creation.sound_clay true) (by rfl) (by norm_num)
  exact h

/-- The rise matters: an element of soil of 18 kN/m³ counts with 18 above water and with 8 below. -/
example : Model.elementWeight (⟨0, -10, [⟨0, -20, 18⟩]⟩ : Soil.Profile ℚ) (0, -1 / 2) = some 18 ∧
    Model.elementWeight (⟨0, 0, [⟨0, -20, 18⟩]⟩ : Soil.Profile ℚ) (0, -1 / 2) = some 8 := by
  decide +kernel

/-- Sand of 20 degrees loses half of its effective stress and is stiffer for it. -/
example : ∃ l l' q q', Lateral.apiSand 50 3 20 1 .static false 0 0 20 = some l ∧
    Lateral.apiSand 25 3 20 1 .static true 0 0 20 = some l' ∧ l[0]? = some (0, 0) ∧ l'[0]? = some (0, 0) ∧
    l[1]? = some q ∧ l'[1]? = some q' ∧ 0 < q.1 ∧ 0 < q'.1 ∧ q.2 / q.1 < q'.2 / q'.1 :=
  C98_violated_modulus (by norm_num) (by norm_num) (by norm_num) (by norm_num) (by norm_num) (by norm_num)

/-- Sand of 33 degrees behaves. -/
example {l l' : List (ℝ × ℝ)} (h : Lateral.apiSand 50 3 33 1 .static false 0 0 20 = some l)
    (h' : Lateral.apiSand 25 3 33 1 .static true 0 0 20 = some l') : Stronger.Outresists l' l :=
  C98_api_sand_partial (by norm_num) (by norm_num) (by norm_num) (by norm_num) (by simp) (by norm_num) (by norm_num) le_rfl
    le_rfl (fun _ => Or.inr (by norm_num)) h h'

end OpenPile.Props.WaterRise
