/-
C105: a stronger soil, or a wider and thicker pile, has not less axial capacity.
-/
import Verif.Props.WaterRise

namespace OpenPile.Props.StrongerCapacity
open OpenPile.Assemble OpenPile.Axial OpenPile.Capacity OpenPile.Props.Capacity OpenPile.Props.Assemble OpenPile.Props.AxialModel
open OpenPile.Props.WaterRise (forall2_get)
open OpenPile.Props.Friction
open OpenPile.Pile (Pile Section)

/-! ## What is compared -/

/-- The second axial model is not weaker than the first over a layer of height `H`: same kind and same plugging, no strength
smaller at any depth, no multiplier smaller.  No model is weaker than any. -/
inductive NotWeaker (H : ℝ) : Option AxialModel → Option AxialModel → Prop
  | absent (m : Option AxialModel) : NotWeaker H none m
  | clay (m m' : ClayAxial) (hp : m'.plugging = m.plugging) (ht : m.tMul ≤ m'.tMul) (hq : m.qMul ≤ m'.qMul)
      (hten : m.tensionMul ≤ m'.tensionMul)
      (h : ∀ d Su Su', 0 ≤ d → d ≤ H → Params.layered m.Su d H = some Su → Params.layered m'.Su d H = some Su' → Su ≤ Su') :
      NotWeaker H (some (.clay m)) (some (.clay m'))
  | sand (m m' : SandAxial) (hp : m'.plugging = m.plugging) (hK : m.K ≤ m'.K) (ht : m.tMul ≤ m'.tMul) (hq : m.qMul ≤ m'.qMul)
      (hten : m.tensionMul ≤ m'.tensionMul)
      (h : ∀ d x x', 0 ≤ d → d ≤ H → Params.layered m.delta d H = some x → Params.layered m'.delta d H = some x' → x ≤ x') :
      NotWeaker H (some (.sand m)) (some (.sand m'))

/-- The same layer with a soil not weaker; the lateral soil models are free. -/
def LayerUp (l l' : SoilLayer) : Prop := l'.toLayer = l.toLayer ∧ NotWeaker (l.top - l.bottom) l.axial l'.axial

/-- The same section, wider and thicker. -/
structure SectionUp (s s' : Section ℝ) : Prop where
  top : s'.top = s.top
  bottom : s'.bottom = s.bottom
  diameter : s.diameter ≤ s'.diameter
  thickness : s.thickness ≤ s'.thickness

/-- The same row of an element for a section not narrower. -/
structure RowUp (r r' : Row) : Prop where
  top : r'.top = r.top
  bottom : r'.bottom = r.bottom
  sigTop : r'.sigTop = r.sigTop
  sigBottom : r'.sigBottom = r.sigBottom
  sec : ∀ s s', r.sec = some s → r'.sec = some s' → s.diameter ≤ s'.diameter

/-! ## Friction -/

theorem owners_up {S S' : Input} {r r' : Row} (hl : List.Forall₂ LayerUp S.layers S'.layers) (h : RowUp r r') :
    List.Forall₂ LayerUp (owners S r) (owners S' r') := by
  unfold owners
  rw [h.top, h.bottom]
  generalize S.layers = a at hl
  generalize S'.layers = b at hl
  induction hl with
  | nil => exact .nil
  | @cons x y a b hxy _ ih =>
    have e1 : y.top = x.top := congrArg Soil.Layer.top hxy.1
    have e2 : y.bottom = x.bottom := congrArg Soil.Layer.bottom hxy.1
    by_cases hc : r.top ≤ x.top ∧ r.bottom ≥ x.bottom
    · have hc' : r.top ≤ y.top ∧ r.bottom ≥ y.bottom := by rw [e1, e2]; exact hc
      rw [List.filter_cons_of_pos (by simpa using hc), List.filter_cons_of_pos (by simpa using hc')]
      exact .cons hxy ih
    · have hc' : ¬ (r.top ≤ y.top ∧ r.bottom ≥ y.bottom) := by rw [e1, e2]; exact hc
      rw [List.filter_cons_of_neg (by simpa using hc), List.filter_cons_of_neg (by simpa using hc')]
      exact ih

theorem sides_nonneg (P : Prop) [Decidable P] : (0 : ℝ) ≤ sides P := by
  unfold sides
  split_ifs <;> norm_num

theorem friction_nonneg {S : Input} {r : Row} {b : Bool} {fc ft : ℝ} (h : Friction S r b fc ft) : 0 ≤ fc ∧ 0 ≤ ft := by
  have hpi := Real.pi_pos
  cases h with
  | outside _ => exact ⟨le_rfl, le_rfl⟩
  | off _ _ _ => exact ⟨le_rfl, le_rfl⟩
  | clay l m s sig Su f hl hm hd hsg hs hsig0 hSu hSu0 hfe hD htm hten hres hres' =>
    have hf : 0 ≤ f := by
      rw [hfe]
      have : 0 < Su / if sig = 0 then (1 / 1000 : ℝ) else sig := by
        split_ifs with h0
        · positivity
        · exact div_pos hSu0 (lt_of_le_of_ne hsig0 (Ne.symm h0))
      exact mul_nonneg (le_min (adhesion_pos this).le zero_le_one) hSu0.le
    have h1 := sides_nonneg (PluggedC m.plugging)
    have h2 := sides_nonneg (PluggedT m.plugging)
    constructor <;> positivity
  | sand l m s sig delta lim f hl hm hd hsg hs hde hlim hfe hf0 hD htm hten =>
    have h1 := sides_nonneg (PluggedC m.plugging)
    have h2 := sides_nonneg (PluggedT m.plugging)
    constructor <;> positivity

/-- The limit friction at a node does not fall. -/
theorem friction_up {S S' : Input} {r r' : Row} (hlay : List.Forall₂ LayerUp S.layers S'.layers)
    (hda : S'.distributedAxial = S.distributedAxial) (h : RowUp r r') (hord : r.bottom ≤ r.top) (b : Bool)
    (h0 : ∀ x, (if b then r.sigBottom else r.sigTop) = some x → 0 ≤ x)
    (hsound : ∀ l ∈ owners S r, ∀ m, l.axial = some m → Sound (l.top - l.bottom) m)
    (hsound' : ∀ l ∈ owners S' r', ∀ m, l.axial = some m → Sound (l.top - l.bottom) m) {fc ft fc' ft' : ℝ}
    (hf : Friction S r b fc ft) (hf' : Friction S' r' b fc' ft') : fc ≤ fc' ∧ ft ≤ ft' := by
  have ho := owners_up hlay h
  have hz : (if b then r'.bottom else r'.top) = if b then r.bottom else r.top := by rw [h.top, h.bottom]
  have hg : (if b then r'.sigBottom else r'.sigTop) = if b then r.sigBottom else r.sigTop := by rw [h.sigTop, h.sigBottom]
  have hn := friction_nonneg hf'
  have hpi := Real.pi_pos
  have step : ∀ l l', owners S r = [l] → owners S' r' = [l'] → LayerUp l l' ∧ r.top ≤ l.top ∧ l.bottom ≤ r.bottom := by
    intro l l' e e'
    rw [e, e'] at ho
    cases ho with
    | cons k _ =>
      have hm : l ∈ owners S r := by rw [e]; exact List.mem_singleton.2 rfl
      exact ⟨k, of_decide_eq_true (List.mem_filter.1 hm).2⟩
  cases hf with
  | outside h1 => exact hn
  | off l hl h1 => exact hn
  | clay l m s sig Su f hl hm hd hsg hs hsig0 hSu hSu0 hfe hD htm hten hres hres' =>
    cases hf' with
    | outside h1 => rw [hl, h1] at ho; cases ho
    | off l' hl' h1 =>
      obtain ⟨⟨-, k⟩, -⟩ := step l l' hl hl'
      rw [hda] at h1
      rcases h1 with h1 | h1
      · rw [h1, hm] at k; cases k
      · rw [h1] at hd; cases hd
    | sand l' _ _ _ _ _ _ hl' hm' =>
      obtain ⟨⟨-, k⟩, -⟩ := step l l' hl hl'
      rw [hm', hm] at k
      cases k
    | clay l' m' s' sig' Su' f' hl' hm' _ hsg' hs' hsig0' hSu' hSu0' hfe' hD' htm' hten' =>
      obtain ⟨⟨e, k⟩, hin⟩ := step l l' hl hl'
      have e1 : l'.top = l.top := congrArg Soil.Layer.top e
      have e2 : l'.bottom = l.bottom := congrArg Soil.Layer.bottom e
      rw [hm', hm] at k
      have hsec := h.sec _ _ hs hs'
      rw [hg, hsg, Option.some.injEq] at hsg'
      subst hsg'
      rw [hz, e1, e2] at hSu'
      cases k with
      | clay _ _ hp ht hq hten1 hS =>
        have hSS := hS _ _ _ (by split_ifs <;> linarith [hin.1]) (by split_ifs <;> linarith [hin.2]) hSu hSu'
        have hff : f ≤ f' := by
          have hpos : 0 < if sig = 0 then (1 / 1000 : ℝ) else sig := by
            split_ifs with k0
            · norm_num
            · exact lt_of_le_of_ne hsig0 (Ne.symm k0)
          rw [hfe, hfe']
          exact C35_clay_strength _ Su Su' 1 _ _ hpos hSu0 hSS zero_le_one (C35_clay_law _ _ _ hpos hSu0)
            (C35_clay_law _ _ _ hpos hSu0')
        have hf0 : 0 ≤ f := by
          rw [hfe]
          have : 0 < Su / if sig = 0 then (1 / 1000 : ℝ) else sig := by
            split_ifs with h0
            · positivity
            · exact div_pos hSu0 (lt_of_le_of_ne hsig0 (Ne.symm h0))
          exact mul_nonneg (le_min (adhesion_pos this).le zero_le_one) hSu0.le
        have h1 := sides_nonneg (PluggedC m.plugging)
        have h2 := sides_nonneg (PluggedT m.plugging)
        have hf0' := hf0.trans hff
        rw [hp]
        constructor <;> gcongr
  | sand l m s sig delta lim f hl hm hd hsg hs hde hlim hfe hf0 hD htm hten =>
    cases hf' with
    | outside h1 => rw [hl, h1] at ho; cases ho
    | off l' hl' h1 =>
      obtain ⟨⟨-, k⟩, -⟩ := step l l' hl hl'
      rw [hda] at h1
      rcases h1 with h1 | h1
      · rw [h1, hm] at k; cases k
      · rw [h1] at hd; cases hd
    | clay l' _ _ _ _ _ hl' hm' =>
      obtain ⟨⟨-, k⟩, -⟩ := step l l' hl hl'
      rw [hm', hm] at k
      cases k
    | sand l' m' s' sig' delta' lim' f' hl' hm' _ hsg' hs' hde' hlim' hfe' hf0' hD' htm' hten' =>
      obtain ⟨⟨e, k⟩, hin⟩ := step l l' hl hl'
      have e1 : l'.top = l.top := congrArg Soil.Layer.top e
      have e2 : l'.bottom = l.bottom := congrArg Soil.Layer.bottom e
      rw [hm', hm] at k
      have hsec := h.sec _ _ hs hs'
      rw [hg, hsg, Option.some.injEq] at hsg'
      subst hsg'
      have hlo : l ∈ owners S r := by rw [hl]; exact List.mem_singleton.2 rfl
      have hlo' : l' ∈ owners S' r' := by rw [hl']; exact List.mem_singleton.2 rfl
      obtain ⟨q1, q2, -⟩ := hsound l hlo _ hm
      obtain ⟨q1', -, -⟩ := hsound' l' hlo' _ hm'
      rw [hz, e1, e2] at hde'
      rw [e1, e2] at q1'
      have i1 : 0 ≤ l.top - if b then r.bottom else r.top := by split_ifs <;> linarith [hin.1]
      have i2 : (l.top - if b then r.bottom else r.top) ≤ l.top - l.bottom := by split_ifs <;> linarith [hin.2]
      obtain ⟨d, hd1, hd2, hd3⟩ := q1 _ i1 i2
      rw [hde, Option.some.injEq] at hd1
      subst hd1
      obtain ⟨d, hd1, hd2', hd3'⟩ := q1' _ i1 i2
      rw [hde', Option.some.injEq] at hd1
      subst hd1
      cases k with
      | sand _ _ hp hK ht hq hten1 hS =>
        have hSS := hS _ _ _ i1 i2 hde hde'
        have hff : f ≤ f' := C35_sand_mono sig sig delta delta' m.K m'.K f f' (h0 _ hsg) le_rfl q2 hK hd2 hSS hd3'
          ((C35_sand_law _ _ _ _).2 ⟨lim, hlim, hfe⟩) ((C35_sand_law _ _ _ _).2 ⟨lim', hlim', hfe'⟩)
        have h1 := sides_nonneg (PluggedC m.plugging)
        have h2 := sides_nonneg (PluggedT m.plugging)
        rw [hp]
        constructor <;> gcongr

/-! ## The two Models -/

/-- The pile is not narrower and its wall not thinner, section by section. -/
def PileUp (p p' : Pile ℝ) : Prop := List.Forall₂ SectionUp p.sections p'.sections

/-- Two sorted pile tables with the sections in the same order; sorting looks at the elevations only. -/
def TableUp (t t' : List (ℝ × Section ℝ)) : Prop := List.Forall₂ (fun a b => b.1 = a.1 ∧ a.2.diameter ≤ b.2.diameter) t t'

/-- The same profile with soil not weaker. -/
structure ProfileUp (sp sp' : SoilProfile) : Prop where
  top : sp'.topElevation = sp.topElevation
  water : sp'.waterLine = sp.waterLine
  layers : List.Forall₂ LayerUp sp.layers sp'.layers

theorem geometry_up {sp sp' : SoilProfile} (h : ProfileUp sp sp') : sp'.geometry = sp.geometry := by
  unfold SoilProfile.geometry
  rw [h.top, h.water]
  congr 1
  have := h.layers
  generalize sp.layers = a at this
  generalize sp'.layers = b at this
  induction this with
  | nil => rfl
  | cons hxy _ ih => rw [List.map_cons, List.map_cons, hxy.1, ih]

theorem forall2_last {α β : Type} {R : α → β → Prop} {a : List α} {b : List β} (h : List.Forall₂ R a b) {x : α}
    (hx : a.getLast? = some x) : ∃ y, b.getLast? = some y ∧ R x y := by
  rw [List.getLast?_eq_getElem?] at hx ⊢
  rw [← h.length_eq]
  exact forall2_get h hx

theorem elevations_up {p p' : Pile ℝ} (h : PileUp p p') : Mesh.pileElevations p' = Mesh.pileElevations p ∧
    p'.bottomElevation = p.bottomElevation := by
  unfold PileUp at h
  constructor
  · unfold Mesh.pileElevations
    generalize p.sections = a at h
    generalize p'.sections = b at h
    induction h with
    | nil => rfl
    | cons hxy _ ih => rw [List.flatMap_cons, List.flatMap_cons, hxy.top, hxy.bottom, ih]
  · unfold Pile.bottomElevation
    cases hx : p.sections.getLast? with
    | none =>
      rw [List.getLast?_eq_none_iff] at hx
      rw [hx] at h
      cases h1 : p'.sections with
      | nil => rfl
      | cons a b => rw [h1] at h; cases h
    | some x =>
      obtain ⟨y, hy, k⟩ := forall2_last h hx
      rw [hy, Option.map_some, Option.map_some, k.bottom]

theorem coordinates_up {p p' : Pile ℝ} (h : PileUp p p') (sp : Option (Soil.Profile ℝ)) (x2mesh : List ℝ) (c : ℝ) :
    Mesh.getCoordinates p' sp x2mesh c = Mesh.getCoordinates p sp x2mesh c := by
  obtain ⟨h1, h2⟩ := elevations_up h
  unfold Mesh.getCoordinates Mesh.exactNodes Mesh.primary
  rw [h1, h2]

theorem section_up {t t' : List (ℝ × Section ℝ)} (h : TableUp t t') (z : ℝ) {s s' : Section ℝ}
    (hs : Model.elementSection t z = some s) (hs' : Model.elementSection t' z = some s') : s.diameter ≤ s'.diameter := by
  unfold Model.elementSection Model.mergeForward at hs hs'
  unfold TableUp at h
  induction h with
  | nil => cases hs
  | @cons x y a b hxy _ ih =>
    by_cases hc : z ≤ x.1
    · rw [List.find?_cons_of_pos (by simpa using hc)] at hs
      rw [List.find?_cons_of_pos (by simpa [hxy.1] using hc)] at hs'
      cases hs
      cases hs'
      exact hxy.2
    · rw [List.find?_cons_of_neg (by simpa using hc)] at hs
      rw [List.find?_cons_of_neg (by simpa [hxy.1] using hc)] at hs'
      exact ih hs hs'

/-- What `create_springs` reads in the two Models. -/
theorem input_up {p p' : Pile ℝ} (hp : PileUp p p') {sp sp' : SoilProfile} (h : ProfileUp sp sp') {x2mesh : List ℝ} {c : ℝ}
    {sw : Switches} {t t' : List (ℝ × Section ℝ)} (ht : TableUp t t') {S S' : Input}
    (hS : input p sp x2mesh c sw t = some S) (hS' : input p' sp' x2mesh c sw t' = some S') :
    List.Forall₂ RowUp S.rows S'.rows ∧ List.Forall₂ LayerUp S.layers S'.layers ∧
      S'.distributedAxial = S.distributedAxial ∧ S'.baseAxial = S.baseAxial ∧ S'.tip = S.tip := by
  have hprop : Model.soilProperties p' sp'.geometry x2mesh c = Model.soilProperties p sp.geometry x2mesh c := by
    unfold Model.soilProperties
    rw [geometry_up h, coordinates_up hp]
  unfold input at hS hS'
  rw [hprop, (elevations_up hp).2] at hS'
  simp only [Option.bind_eq_bind, Option.bind_eq_some_iff, Option.pure_def, Option.some.injEq] at hS hS'
  obtain ⟨rows, e1, tip, e2, a, -, f, -, rfl⟩ := hS
  obtain ⟨rows', e1', tip', e2', a', -, f', -, rfl⟩ := hS'
  rw [e1] at e1'
  rw [e2] at e2'
  cases e1'
  cases e2'
  refine ⟨?_, h.layers, rfl, rfl, rfl⟩
  rw [List.forall₂_map_left_iff, List.forall₂_map_right_iff]
  refine List.forall₂_same.2 fun r _ => ⟨rfl, rfl, rfl, rfl, fun s s' hs hs' => section_up ht _ hs hs'⟩

/-- A valid pile with the levels of a pile of a good Model gives a good Model. -/
theorem setup_up {p p' : Pile ℝ} (hp : PileUp p p')
    (hp' : ∃ sections mat, Pile.mkPile sections mat = .ok p' ∧ ∀ s ∈ sections, Spec.Pile.Built s) {sp : Soil.Profile ℝ}
    {x2mesh : List ℝ} {c top tipz : ℝ} (h : Weight.Setup p sp x2mesh c top tipz) : Weight.Setup p' sp x2mesh c top tipz := by
  obtain ⟨h1, h2⟩ := elevations_up hp
  have hback : ∀ s' ∈ p'.sections, ∃ s ∈ p.sections, SectionUp s s' := by
    intro s' hs'
    obtain ⟨i, hi⟩ := List.mem_iff_getElem?.1 hs'
    obtain ⟨s, hs, k⟩ := forall2_get hp.flip hi
    exact ⟨s, List.mem_of_getElem? hs, k⟩
  refine
    { coarse := h.coarse, tip_eq := by rw [h2]; exact h.tip_eq, built := h.built, exact := h.exact, first := h.first,
      last := h.last, grid := ?_, ground := h.ground, extra := h.extra, sections := ?_, pile := hp', head := ?_,
      below := h.below, inside := h.inside }
  · intro r hr
    refine h.grid r (hr.imp_left ?_)
    rintro ⟨s', hs', k⟩
    obtain ⟨s, hs, e⟩ := hback s' hs'
    exact ⟨s, hs, by rw [← e.top, ← e.bottom]; exact k⟩
  · intro s' hs'
    obtain ⟨s, hs, e⟩ := hback s' hs'
    rw [e.top, e.bottom]
    exact h.sections s hs
  · have ht := h.head
    unfold Pile.topElevation at ht ⊢
    unfold PileUp at hp
    cases hs : p.sections with
    | nil => rw [hs] at ht; cases ht
    | cons a l =>
      rw [hs] at ht hp
      cases hs' : p'.sections with
      | nil => rw [hs'] at hp; cases hp
      | cons b l' =>
        rw [hs'] at hp
        cases hp with
        | cons k _ =>
          rw [List.head?_cons, Option.map_some] at ht ⊢
          rw [k.top]
          exact ht

/-- A wider and thicker section has not less area at its end, if the thicker wall is not more than half the diameter. -/
theorem endArea_up {g g' : Section ℝ} (h : SectionUp g g') (h0 : 0 ≤ g.thickness) (hD : 0 ≤ g.diameter)
    (hw : 2 * g'.thickness ≤ g'.diameter) (pl : Plugging) : endArea pl g ≤ endArea pl g' := by
  have hpi := Real.pi_pos
  have h1 := h.diameter
  have h2 := h.thickness
  unfold endArea
  split_ifs
  · gcongr
  · have : g.diameter ^ 2 - (g.diameter - 2 * g.thickness) ^ 2 ≤ g'.diameter ^ 2 - (g'.diameter - 2 * g'.thickness) ^ 2 := by
      nlinarith [mul_nonneg h0 (sub_nonneg.2 h1), mul_nonneg (sub_nonneg.2 h2) (show 0 ≤ g'.diameter - g.thickness - g'.thickness by linarith)]
    gcongr

/-- **C105.** For every pair of valid Models with sound soil models, of which the second differs by a soil not weaker in any
layer, by layers that gain an axial soil model, and by sections not narrower with walls not thinner: neither of the shaft
resistances nor the tip resistance is smaller.  Partial: pile, layers and mesh as in C56; the wall at the tip is not thicker
than the radius, see `C105_violated_wall`; where two sections meet, the tables of the two piles are sorted alike. -/
theorem C105_capacity_partial {p p' : Pile ℝ} (hp : PileUp p p') {sp sp' : SoilProfile} (hsp : ProfileUp sp sp')
    {x2mesh : List ℝ} {c top tipz : ℝ} (h : Weight.Setup p sp.geometry x2mesh c top tipz)
    (hp' : ∃ sections mat, Pile.mkPile sections mat = .ok p' ∧ ∀ s ∈ sections, Spec.Pile.Built s) (sw : Switches) {t t' : List (ℝ × Section ℝ)} (ht : TableUp t t')
    (htab : Model.SortedRows p t) (htab' : Model.SortedRows p' t') {env : Draws} (henv : GoodDraws env) (henv' : GoodTip env)
    (henv'' : GoodLateral env) (hsound : ∀ l ∈ sp.layers, ∀ m, l.axial = some m → Sound (l.top - l.bottom) m)
    (hsound' : ∀ l ∈ sp'.layers, ∀ m, l.axial = some m → Sound (l.top - l.bottom) m)
    (hlat : ∀ l ∈ sp.layers, ∀ m, l.lateral = some m → ∀ s ∈ p.sections, Spec.Sound.Lateral s.diameter (sp.topElevation - tipz) m)
    (hlat' : ∀ l ∈ sp'.layers, ∀ m, l.lateral = some m → ∀ s ∈ p'.sections,
      Spec.Sound.Lateral s.diameter (sp'.topElevation - tipz) m)
    {g g' : Section ℝ} (hg : p.sections.getLast? = some g) (hg' : p'.sections.getLast? = some g')
    (hwall : g.thickness ≤ g.diameter) (hwall' : 2 * g'.thickness ≤ g'.diameter) :
    ∃ fc ft q fc' ft' q', shaft p sp x2mesh c sw t env = some (fc, ft) ∧ tip p sp x2mesh c sw t env = some q ∧
      shaft p' sp' x2mesh c sw t' env = some (fc', ft') ∧ tip p' sp' x2mesh c sw t' env = some q' ∧
      fc ≤ fc' ∧ ft ≤ ft' ∧ q ≤ q' := by
  have h' : Weight.Setup p' sp'.geometry x2mesh c top tipz := by
    rw [geometry_up hsp]
    exact setup_up hp hp' h
  obtain ⟨C, S, wa, fc, ft, A, hC, hS, -, -, hlay, htip, hstress, hrows, ⟨r, hr, hrg⟩, hfr, hA⟩ :=
    C64_setup h sw htab henv henv' henv'' hsound hlat
  obtain ⟨C', S', wa', fc', ft', A', hC', hS', -, -, hlay', htip', hstress', hrows', ⟨r', hr', hrg'⟩, hfr', hA'⟩ :=
    C64_setup h' sw htab' henv henv' henv'' hsound' hlat'
  have hCC : C' = C := by
    rw [geometry_up hsp, coordinates_up hp, hC] at hC'
    exact (Option.some.inj hC').symm
  subst hCC
  obtain ⟨hup, hl1, hl2, hl3, hl4⟩ := input_up hp hsp ht hS hS'
  obtain ⟨D, hD, hm⟩ := Weight.mesh_facts h
  rw [hC, Option.some.injEq] at hD
  subst hD
  obtain ⟨C₁, hC₁, hel₁, hsh⟩ := C56_model_shaft_partial h sw t hS hA henv hfr
  rw [hC, Option.some.injEq] at hC₁
  subst hC₁
  obtain ⟨C₂, hC₂, -, hsh'⟩ := C56_model_shaft_partial h' sw t' hS' hA' henv hfr'
  rw [hC', Option.some.injEq] at hC₂
  subst hC₂
  have hnode : ∀ i < C'.elements.length, ∀ b : Bool, fc i b ≤ fc' i b ∧ ft i b ≤ ft' i b := by
    intro i hi b
    have hlenS : i < S.rows.length := by
      rw [hel₁, List.length_map] at hi
      exact hi
    obtain ⟨q, hq, hL⟩ := forall2_get hup (List.getElem?_eq_getElem hlenS)
    have hqm : S.rows[i] ∈ S.rows := List.getElem_mem hlenS
    obtain ⟨ho1, -, hin⟩ := hrows _ hqm
    have f1 := hfr i _ b (List.getElem?_eq_getElem hlenS)
    have f2 := hfr' i q b hq
    rcases le_or_gt (S.rows[i]).top sp.topElevation with hle | hgt
    · obtain ⟨-, s1, s2⟩ := hin hle
      refine friction_up hl1 hl2 hL ho1.le b ?_ ?_ ?_ f1 f2
      · intro x hx
        cases b
        · simp only [Bool.false_eq_true, if_false] at hx
          rw [s1, Option.some.injEq] at hx
          exact hx ▸ hstress _ hle
        · simp only [if_true] at hx
          rw [s2, Option.some.injEq] at hx
          exact hx ▸ hstress _ (ho1.le.trans hle)
      · intro l hl
        exact hsound l (hlay ▸ (List.mem_filter.1 hl).1)
      · intro l hl
        exact hsound' l (hlay' ▸ (List.mem_filter.1 hl).1)
    · have hno : owners S S.rows[i] = [] := by
        unfold owners
        rw [List.filter_eq_nil_iff, hlay]
        intro l hl
        have := (hm.lays l.toLayer (List.mem_map.2 ⟨l, hl, rfl⟩)).2.2
        simp only [decide_eq_true_eq, not_and]
        intro h1
        exact absurd (hgt.trans_le (h1.trans this)) (lt_irrefl _)
      obtain ⟨a1, a2⟩ := WaterRise.friction_outside f1 hno
      rw [a1, a2]
      exact friction_nonneg f2
  have hspan : ∀ i ≤ C'.elements.length, 0 < C'.elements.length → 0 ≤ span (elevations C') C'.elements.length i := by
    intro i hi hn
    obtain ⟨hz, -⟩ := elevations_descending hm
    rw [← gradient_span hz hn hi]
    exact (Extract.gradient_pos hz hn hi).le
  -- the tip
  have hrm : r ∈ S.rows := List.mem_of_getLast? hr.last
  obtain ⟨hr1, -, hr3⟩ := hrows r hrm
  obtain ⟨⟨l, hl⟩, -, e2⟩ := hr3 hrg
  obtain ⟨hr1', -, hr3'⟩ := hrows' r' (List.mem_of_getLast? hr'.last)
  obtain ⟨⟨l', hl'⟩, -, e2'⟩ := hr3' hrg'
  have hrow : RowUp r r' := by
    obtain ⟨y, hy, hL⟩ := forall2_last hup hr.last
    rw [hr'.last, Option.some.injEq] at hy
    rw [hy]
    exact hL
  have hLU : LayerUp l l' := by
    have := owners_up hl1 hrow
    rw [hl, hl'] at this
    cases this with
    | cons k _ => exact k
  have t1 : l'.top = l.top := congrArg Soil.Layer.top hLU.1
  have t2 : l'.bottom = l.bottom := congrArg Soil.Layer.bottom hLU.1
  have hlo : l ∈ owners S r := by rw [hl]; exact List.mem_singleton.2 rfl
  have hlo' : l' ∈ owners S' r' := by rw [hl']; exact List.mem_singleton.2 rfl
  have hlm : l ∈ sp.layers := by rw [← hlay]; exact (List.mem_filter.1 hlo).1
  have hlm' : l' ∈ sp'.layers := by rw [← hlay']; exact (List.mem_filter.1 hlo').1
  have hin : r.top ≤ l.top ∧ l.bottom ≤ r.bottom := of_decide_eq_true (List.mem_filter.1 hlo).2
  have hrt : r.bottom = S.tip := hr.tip
  have d0 : 0 ≤ l.top - S.tip := by rw [← hrt]; linarith [hin.1]
  have d1 : l.top - S.tip ≤ l.top - l.bottom := by rw [← hrt]; linarith [hin.2]
  obtain ⟨sections, mat, hpk, hb⟩ := h.pile
  obtain ⟨hst, hmemp⟩ := Mesh.mkPile_sections sections mat p hpk
  have hgb := (Pile.built_iff g).1 (hb g ((hmemp g).1 (List.mem_of_getLast? hg)))
  have hgg : SectionUp g g' := by
    obtain ⟨y, hy, k⟩ := forall2_last hp hg
    rw [hg', Option.some.injEq] at hy
    rw [hy]
    exact k
  have ht0 := hgb.2.2.le.trans hgg.thickness
  obtain ⟨hts, -⟩ := tip_section hS hg ⟨hgb.2.2.le, hwall⟩
  obtain ⟨hts', -⟩ := tip_section hS' hg' ⟨ht0, by linarith⟩
  have htipE : tip p sp x2mesh c sw t env = Extract.tipResistance (rows A.qz) := by
    simp only [tip, modelSprings, hS, hA, Option.bind_eq_bind, Option.bind_some]
  have htipE' : tip p' sp' x2mesh c sw t' env = Extract.tipResistance (rows A'.qz) := by
    simp only [tip, modelSprings, hS', hA', Option.bind_eq_bind, Option.bind_some]
  have harea := fun pl => endArea_up hgg hgb.2.2.le hgb.2.1.le hwall' pl
  have harea0 := fun pl => endArea_nonneg pl hts.wall
  have harea0' := fun pl => endArea_nonneg pl hts'.wall
  have hss : Spec.Soil.stressAt wa' r'.bottom sp'.geometry.layers = Spec.Soil.stressAt wa r.bottom sp.geometry.layers := by
    have := hrow.sigBottom
    rw [e2, e2', Option.some.injEq] at this
    exact this
  have hs0 := hstress _ (hr1.le.trans hrg)
  have hs0' : 0 ≤ Spec.Soil.stressAt wa' r'.bottom sp'.geometry.layers := by rw [hss]; exact hs0
  have htipq : ∃ q q', tip p sp x2mesh c sw t env = some q ∧ tip p' sp' x2mesh c sw t' env = some q' ∧ q ≤ q' := by
    rw [htipE, htipE']
    -- the value of the second Model
    have second : S.baseAxial = true → ∀ m, l'.axial = some m → ∃ q', Extract.tipResistance (rows A'.qz) = some q' ∧ 0 ≤ q' ∧
        (∀ mc, m = .clay mc → ∃ Su, Params.layered mc.Su (l.top - S.tip) (l.top - l.bottom) = some Su ∧ 0 < Su ∧
          q' = 9 * Su * mc.qMul * endArea mc.plugging g') ∧
        (∀ ms, m = .sand ms → ∃ x f, Params.layered ms.delta (l.top - S.tip) (l.top - l.bottom) = some x ∧
          qmaxSand (Spec.Soil.stressAt wa r.bottom sp.geometry.layers) x = some f ∧ q' = f * ms.qMul * endArea ms.plugging g') := by
      intro hbase m hm'
      cases m with
      | clay m =>
        obtain ⟨k1, -, -, -, -, k6⟩ := hsound' l' hlm' _ hm'
        rw [t1, t2] at k1
        obtain ⟨Su, e, hSu⟩ := k1 (l.top - S.tip) d0 d1
        refine ⟨_, C56_tip_clay hA' hr' hr1'.le hl' hm' (hl3.trans hbase) hts' (henv' _ _).1 (henv' _ _).2
          (by rw [hl4, t1, t2]; exact e) hSu.le k6, ?_, ?_, ?_⟩
        · have := harea0' m.plugging
          positivity
        · intro mc hmc
          cases hmc
          exact ⟨Su, e, hSu, rfl⟩
        · intro ms hms
          cases hms
      | sand m =>
        obtain ⟨k1, -, -, -, k6⟩ := hsound' l' hlm' _ hm'
        rw [t1, t2] at k1
        obtain ⟨δ, e, -⟩ := k1 (l.top - S.tip) d0 d1
        obtain ⟨f, hf⟩ := C35_bearing_total (Spec.Soil.stressAt wa r.bottom sp.geometry.layers) δ
        obtain ⟨lim, nq, hlim, hnq, rfl⟩ := (C35_bearing_law _ _ _).1 hf
        refine ⟨_, C56_tip_sand hA' hr' hr1'.le hl' hm' (hl3.trans hbase) hts' (henv' _ _).1 (henv' _ _).2 e2' hs0'
          (by rw [hl4, t1, t2]; exact e) hlim hnq k6, ?_, ?_, ?_⟩
        · have k0 := (C35_bearing_bounds _ _ _ hs0 hf).1
          rw [hss]
          exact mul_nonneg (mul_nonneg k0 k6) (harea0' _)
        · intro mc hmc
          cases hmc
        · intro ms hms
          cases hms
          exact ⟨δ, _, e, hf, by rw [hss]⟩
    have none' : S.baseAxial = false ∨ l'.axial = none → Extract.tipResistance (rows A'.qz) = some 0 := fun k =>
      C56_tip_none hA' hr' hr1'.le hl' (k.symm.imp id fun k => hl3.trans k)
    by_cases hn : l.axial = none ∨ S.baseAxial = false
    · refine ⟨0, ?_⟩
      rw [C56_tip_none hA hr hr1.le hl hn]
      by_cases hbase : S.baseAxial = true
      · cases hm' : l'.axial with
        | none => exact ⟨0, rfl, none' (Or.inr hm'), le_rfl⟩
        | some m =>
          obtain ⟨q', e, k, -⟩ := second hbase m hm'
          exact ⟨q', rfl, e, k⟩
      · exact ⟨0, rfl, none' (Or.inl (by simpa using hbase)), le_rfl⟩
    · push Not at hn
      obtain ⟨hn1, hn2⟩ := hn
      have hn2 : S.baseAxial = true := by simpa using hn2
      obtain ⟨m, hm'⟩ := Option.ne_none_iff_exists'.1 hn1
      obtain ⟨-, k⟩ := hLU
      cases hm'' : l'.axial with
      | none => rw [hm', hm''] at k; cases k
      | some m' =>
        rw [hm', hm''] at k
        obtain ⟨q', e, -, kc, ks⟩ := second hn2 m' hm''
        cases k with
        | clay m m' hp1 ht1 hq1 hten1 hS1 =>
          obtain ⟨k1, -, -, -, -, k6⟩ := hsound l hlm _ hm'
          obtain ⟨Su, e0, hSu⟩ := k1 (l.top - S.tip) d0 d1
          obtain ⟨Su', e1, -, rfl⟩ := kc _ rfl
          have := hS1 _ _ _ d0 d1 e0 e1
          refine ⟨_, _, C56_tip_clay hA hr hr1.le hl hm' hn2 hts (henv' _ _).1 (henv' _ _).2 e0 hSu.le k6, e, ?_⟩
          rw [hp1]
          have a1 := harea m.plugging
          have a0 := harea0 m.plugging
          have a2 := k6.trans hq1
          have a3 := hSu.le.trans this
          gcongr
        | sand m m' hp1 hK1 ht1 hq1 hten1 hS1 =>
          obtain ⟨k1, -, -, -, k6⟩ := hsound l hlm _ hm'
          obtain ⟨δ, e0, -⟩ := k1 (l.top - S.tip) d0 d1
          obtain ⟨x, f, e1, hf, rfl⟩ := ks _ rfl
          obtain ⟨f0, hf0⟩ := C35_bearing_total (Spec.Soil.stressAt wa r.bottom sp.geometry.layers) δ
          have hle := C35_bearing_mono _ _ _ _ _ _ hs0 le_rfl (hS1 _ _ _ d0 d1 e0 e1) hf0 hf
          have hf00 := (C35_bearing_bounds _ _ _ hs0 hf0).1
          obtain ⟨lim, nq, hlim, hnq, rfl⟩ := (C35_bearing_law _ _ _).1 hf0
          refine ⟨_, _, C56_tip_sand hA hr hr1.le hl hm' hn2 hts (henv' _ _).1 (henv' _ _).2 e2 hs0 e0 hlim hnq k6, e, ?_⟩
          rw [hp1]
          have a2 := k6.trans hq1
          have a3 := hf00.trans hle
          exact mul_le_mul (mul_le_mul hle hq1 k6 a3) (harea _) (harea0 _) (mul_nonneg a3 a2)
  obtain ⟨q, q', hq, hq', hqq⟩ := htipq
  refine ⟨_, _, q, _, _, q', hsh, hq, hsh', hq', ?_, ?_, hqq⟩
  · refine Finset.sum_le_sum fun i hi => ?_
    have hi := Finset.mem_range.1 hi
    have g1 := hspan i hi.le (by omega)
    have g2 := hspan (i + 1) hi (by omega)
    have a1 := (hnode i hi false).1
    have a2 := (hnode i hi true).1
    gcongr
  · refine Finset.sum_le_sum fun i hi => ?_
    have hi := Finset.mem_range.1 hi
    have g1 := hspan i hi.le (by omega)
    have g2 := hspan (i + 1) hi (by omega)
    have a1 := (hnode i hi false).2
    have a2 := (hnode i hi true).2
    gcongr

/-- **C105, violated.** A wall may be thicker than the radius, even thicker than the diameter.  Beyond the radius a thicker wall
counts as a smaller area of steel: the tip resistance in unplugged clay falls. -/
theorem C105_violated_wall {p p' : Pile ℝ} (hp : PileUp p p') {sp : SoilProfile} {x2mesh : List ℝ} {c top tipz : ℝ}
    (h : Weight.Setup p sp.geometry x2mesh c top tipz)
    (hp' : ∃ sections mat, Pile.mkPile sections mat = .ok p' ∧ ∀ s ∈ sections, Spec.Pile.Built s) {sw : Switches}
    (hsw : sw.baseAxial = true) {t t' : List (ℝ × Section ℝ)}
    (htab : Model.SortedRows p t) (htab' : Model.SortedRows p' t') {env : Draws} (henv : GoodDraws env) (henv' : GoodTip env)
    (henv'' : GoodLateral env) {l : SoilLayer} (hl : sp.layers = [l]) (hlat : l.lateral = none) {m : ClayAxial}
    (hm : l.axial = some (.clay m)) (hsound : Sound (l.top - l.bottom) (.clay m)) (hpl : ¬ PluggedC m.plugging)
    (hq : 0 < m.qMul) {g g' : Section ℝ} (hg : p.sections.getLast? = some g) (hg' : p'.sections.getLast? = some g')
    (hD : g'.diameter = g.diameter) (hlt : g.thickness < g'.thickness) (hmid : g.diameter ≤ 2 * g.thickness)
    (hwall : g'.thickness ≤ g.diameter) :
    ∃ q q', tip p sp x2mesh c sw t env = some q ∧ tip p' sp x2mesh c sw t' env = some q' ∧ q' < q := by
  have hs : ∀ l' ∈ sp.layers, ∀ m', l'.axial = some m' → Sound (l'.top - l'.bottom) m' := by
    intro l' hl' m' hm'
    rw [hl, List.mem_singleton] at hl'
    subst hl'
    rw [hm] at hm'
    cases hm'
    exact hsound
  have hno : ∀ l' ∈ sp.layers, l'.lateral = none := by
    intro l' hl'
    rw [hl, List.mem_singleton] at hl'
    subst hl'
    exact hlat
  obtain ⟨C, S, water, fc, ft, a, -, -, -, -, -, -, ha, ha1, ha2, hc, -⟩ := C56_model_partial h sw htab henv henv' henv'' hs
    (fun l' hl' m' hm' => by rw [hno l' hl'] at hm'; cases hm') hg (by linarith)
  obtain ⟨C, S, water, fc, ft, b, -, -, -, -, -, -, hb, -, -, hc', -⟩ := C56_model_partial (setup_up hp hp' h) sw htab' henv
    henv' henv'' hs (fun l' hl' m' hm' => by rw [hno l' hl'] at hm'; cases hm') hg' (by linarith)
  rw [hl, List.mem_singleton] at ha hb
  subst ha hb
  obtain ⟨Su, e, k⟩ := hc m hm hsw
  obtain ⟨Su', e', k'⟩ := hc' m hm hsw
  rw [e, Option.some.injEq] at e'
  subst e'
  obtain ⟨k1, -⟩ := hsound
  obtain ⟨Su', e', h0⟩ := k1 (b.top - tipz) (by linarith) (by linarith)
  rw [e, Option.some.injEq] at e'
  subst e'
  refine ⟨_, _, k, k', ?_⟩
  have hpi := Real.pi_pos
  have : endArea m.plugging g' < endArea m.plugging g := by
    unfold endArea
    rw [if_neg hpl, if_neg hpl, hD]
    have : g.diameter ^ 2 - (g.diameter - 2 * g'.thickness) ^ 2 < g.diameter ^ 2 - (g.diameter - 2 * g.thickness) ^ 2 := by
      nlinarith
    gcongr
  gcongr

/-! ## Examples -/

/-- Clay of 60 to 80 kPa. -/
noncomputable def stiff : ClayAxial := { axialExample with Su := .list [60, 80] }

noncomputable def wideTube : Pile ℝ := ⟨[⟨1, -10, 3, 1 / 10⟩], Pile.steel⟩

theorem wide_valid (D t : ℝ) (hD : 0 < D) (ht : 0 < t) : ∃ sections mat,
    Pile.mkPile sections mat = .ok (⟨[⟨1, -10, D, t⟩], Pile.steel⟩ : Pile ℝ) ∧ ∀ s ∈ sections, Spec.Pile.Built s := by
  refine ⟨[⟨1, -10, D, t⟩], Pile.steel, ?_, ?_⟩
  · simp [Pile.mkPile, Pile.sortSections, Py.sortedBy, Pile.connected]
  · intro s hs
    rw [List.mem_singleton] at hs
    subst hs
    rw [Pile.built_iff]
    exact ⟨by norm_num, hD, ht⟩

theorem one_up {D D' t t' : ℝ} (h : D ≤ D') (h' : t ≤ t') :
    PileUp ⟨[⟨1, -10, D, t⟩], Pile.steel⟩ ⟨[⟨1, -10, D', t'⟩], Pile.steel⟩ := .cons ⟨rfl, rfl, h, h'⟩ .nil

theorem sound_soft : Sound (0 - -20) (.clay axialExample) := by
  refine ⟨fun d _ _ => ⟨50, by norm_num [axialExample, Params.layered, Params.topBottom], by norm_num⟩, ?_, ?_, ?_, ?_, ?_⟩ <;>
    norm_num [axialExample]

/-- A tube of 2 m in clay of 50 kPa against a tube of 3 m in clay of 60 to 80 kPa. -/
example (sw : Switches) : ∃ fc ft q fc' ft' q',
    shaft Creation.tube ⟨0, -1, [⟨⟨0, -20, 18⟩, none, some (.clay axialExample)⟩]⟩ [] 1 sw (Model.stableRows Creation.tube)
      drawsExample = some (fc, ft) ∧
    tip Creation.tube ⟨0, -1, [⟨⟨0, -20, 18⟩, none, some (.clay axialExample)⟩]⟩ [] 1 sw (Model.stableRows Creation.tube)
      drawsExample = some q ∧
    shaft wideTube ⟨0, -1, [⟨⟨0, -20, 18⟩, none, some (.clay stiff)⟩]⟩ [] 1 sw (Model.stableRows wideTube)
      drawsExample = some (fc', ft') ∧
    tip wideTube ⟨0, -1, [⟨⟨0, -20, 18⟩, none, some (.clay stiff)⟩]⟩ [] 1 sw (Model.stableRows wideTube)
      drawsExample = some q' ∧ fc ≤ fc' ∧ ft ≤ ft' ∧ q ≤ q' := by
  have e : ∀ d, Params.layered stiff.Su d (0 - -20) = some (60 + (80 - 60) * d / 20) := by
    intro d
    norm_num [stiff, Params.layered, Params.topBottom]
  refine C105_capacity_partial (p := Creation.tube) (p' := wideTube) (one_up (by norm_num) (by norm_num))
    (sp := ⟨0, -1, [⟨⟨0, -20, 18⟩, none, some (.clay axialExample)⟩]⟩)
    (sp' := ⟨0, -1, [⟨⟨0, -20, 18⟩, none, some (.clay stiff)⟩]⟩)
    ⟨rfl, rfl, .cons ⟨rfl, .clay axialExample stiff rfl le_rfl le_rfl le_rfl ?_⟩ .nil⟩ (setup_example none (some (.clay axialExample)))
    (wide_valid 3 (1 / 10) (by norm_num) (by norm_num)) sw ?_ ⟨Py.sortedBy_perm _ _, Py.sortedBy_pairwise _ _⟩
    ⟨Py.sortedBy_perm _ _, Py.sortedBy_pairwise _ _⟩ good_draws.1 good_draws.2 good_lateral ?_ ?_ ?_ ?_
    (g := ⟨1, -10, 2, 1 / 20⟩) (g' := ⟨1, -10, 3, 1 / 10⟩) rfl rfl (by norm_num) (by norm_num)
  · intro d Su Su' h0 h1 k k'
    simp only [e, Option.some.injEq] at k'
    norm_num [axialExample, Params.layered, Params.topBottom] at k
    rw [← k, ← k']
    have : 0 ≤ (80 - 60) * d / 20 := by positivity
    linarith
  · norm_num [Model.stableRows, Model.pileRows, Creation.tube, wideTube, Py.sortedBy, TableUp]
  · intro l hl m hm
    rw [List.mem_singleton] at hl
    subst hl
    cases hm
    exact sound_soft
  · intro l hl m hm
    rw [List.mem_singleton] at hl
    subst hl
    cases hm
    refine ⟨fun d h0 _ => ⟨_, e d, by positivity⟩, ?_, ?_, ?_, ?_, ?_⟩ <;> norm_num [stiff, axialExample]
  · intro l hl m hm
    rw [List.mem_singleton] at hl
    subst hl
    cases hm
  · intro l hl m hm
    rw [List.mem_singleton] at hl
    subst hl
    cases hm

/-- Walls of 1.2 m and 1.5 m of a tube of 2 m. -/
example : ∃ q q', tip ⟨[⟨1, -10, 2, 12 / 10⟩], Pile.steel⟩ ⟨0, -1, [⟨⟨0, -20, 18⟩, none, some (.clay axialExample)⟩]⟩ [] 1
      ⟨false, false, true, false, false, true⟩ (Model.stableRows ⟨[⟨1, -10, 2, 12 / 10⟩], Pile.steel⟩) drawsExample = some q ∧
    tip ⟨[⟨1, -10, 2, 15 / 10⟩], Pile.steel⟩ ⟨0, -1, [⟨⟨0, -20, 18⟩, none, some (.clay axialExample)⟩]⟩ [] 1
      ⟨false, false, true, false, false, true⟩ (Model.stableRows ⟨[⟨1, -10, 2, 15 / 10⟩], Pile.steel⟩) drawsExample = some q' ∧
    q' < q := by
  refine C105_violated_wall (one_up le_rfl (by norm_num)) (top := 1) (tipz := -10)
    (setup_up (p := Creation.tube) (one_up le_rfl (by norm_num)) (wide_valid 2 (12 / 10) (by norm_num) (by norm_num))
      (setup_example none (some (.clay axialExample))))
    (wide_valid 2 (15 / 10) (by norm_num) (by norm_num)) rfl ⟨Py.sortedBy_perm _ _, Py.sortedBy_pairwise _ _⟩
    ⟨Py.sortedBy_perm _ _, Py.sortedBy_pairwise _ _⟩ good_draws.1 good_draws.2 good_lateral rfl rfl rfl sound_soft
    (by simp [axialExample, PluggedC]) (by norm_num [axialExample]) (g := ⟨1, -10, 2, 12 / 10⟩) (g' := ⟨1, -10, 2, 15 / 10⟩) rfl rfl rfl
    (by norm_num) (by norm_num) (by norm_num)

end OpenPile.Props.StrongerCapacity
