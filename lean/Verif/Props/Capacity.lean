/-
C56: the axial capacities that a Model reports.
-/
import Verif.Model.Capacity
import Verif.Props.Assemble
import Verif.Props.Extract
import Verif.Props.Defined

namespace OpenPile.Props.Capacity
open OpenPile.Assemble OpenPile.Axial OpenPile.Capacity OpenPile.Props.Assemble OpenPile.Props.AxialModel
open OpenPile.Spec.Spring OpenPile.Props.Friction OpenPile.Props.Axial

/-! ## Extreme resistances of the stored springs -/

/-- A spring stored with the signs of the axial models changed: its smallest resistance is the capacity in
compression, its largest one the capacity in tension. -/
theorem stored_ends {c : List ℝ × List ℝ} {hi lo : ℝ} (h1 : IsGreatest (forces c) hi)
    (h2 : IsLeast (forces c) lo) :
    Extract.rowMin (rows ((c.1.zip c.2).map (fun q => (-q.1, -q.2)))).r = some (-hi) ∧
      Extract.rowMax (rows ((c.1.zip c.2).map (fun q => (-q.1, -q.2)))).r = some (-lo) := by
  have key : ∀ y, y ∈ (rows ((c.1.zip c.2).map (fun q => (-q.1, -q.2)))).r ↔ -y ∈ forces c := by
    intro y
    simp only [rows, List.map_map, List.mem_map, Function.comp_def, forces, Set.mem_setOf_eq]
    constructor
    · rintro ⟨q, hq, rfl⟩
      exact ⟨q.1, by rw [neg_neg]; exact hq⟩
    · rintro ⟨x, hx⟩
      exact ⟨_, hx, neg_neg y⟩
  constructor
  · unfold Extract.rowMin
    rw [List.min?_eq_some_iff]
    refine ⟨(key _).2 (by rw [neg_neg]; exact h1.1), fun y hy => ?_⟩
    have := h1.2 ((key y).1 hy)
    linarith
  · unfold Extract.rowMax
    rw [List.max?_eq_some_iff]
    refine ⟨(key _).2 (by rw [neg_neg]; exact h2.1), fun y hy => ?_⟩
    have := h2.2 ((key y).1 hy)
    linarith

theorem zero_ends : Extract.rowMin (rows (List.replicate 15 (0, 0))).r = some 0 ∧
    Extract.rowMax (rows (List.replicate 15 (0, 0))).r = some 0 := by
  constructor
  · simp [Extract.rowMin, rows, List.min?_eq_some_iff]
  · simp [Extract.rowMax, rows, List.max?_eq_some_iff]

/-! ## End bearing -/

theorem backbone_peaks (len : ℕ) (draws : ℕ → ℝ) (argsort : List ℝ → List ℕ) (hr : IsRandom draws)
    (hs : ∀ z, IsArgsort z (argsort z)) :
    ∃ b, backboneTip len draws argsort = some b ∧ IsGreatest (forces b) 1 ∧ IsLeast (forces b) 0 := by
  obtain ⟨b, h1, -, h3, h4, -⟩ := C33_backbone_tip len draws argsort hr hs
  refine ⟨b, h1, ⟨⟨0.1, h3 _ (by simp [tipNodes])⟩, ?_⟩, ⟨⟨0, h3 _ (by simp [tipNodes])⟩, ?_⟩⟩
  all_goals
    rintro y ⟨x, hx⟩
    rcases h4 _ hx with h | ⟨-, -, h⟩ | ⟨-, -, h⟩
    · simp only [tipNodes, List.mem_cons, Prod.mk.injEq, List.not_mem_nil, or_false] at h
      rcases h with ⟨-, rfl⟩ | ⟨-, rfl⟩ | ⟨-, rfl⟩ | ⟨-, rfl⟩ | ⟨-, rfl⟩ | ⟨-, rfl⟩ <;> norm_num
    · simp only at h
      linarith
    · simp only at h
      linarith

/-- The area that carries the end bearing: the full footprint with a plug in compression, else the steel. -/
noncomputable def endArea (pl : Plugging) (s : Pile.Section ℝ) : ℝ :=
  if PluggedC pl then Real.pi * s.diameter ^ 2 / 4
  else Real.pi * (s.diameter ^ 2 - (s.diameter - 2 * s.thickness) ^ 2) / 4

theorem bearing_endArea (pl : Plugging) (g : Pile.Section ℝ) :
    bearingArea pl (g.area Real.pi) (g.footprint Real.pi) = endArea pl g := by
  unfold endArea Pile.Section.area Pile.Section.footprint
  cases pl <;> simp [bearingArea, PluggedC] <;> ring

/-- `S` has the tip of the section `g`. -/
structure TipSection (S : Input) (g : Pile.Section ℝ) : Prop where
  area : S.tipArea = g.area Real.pi
  footprint : S.tipFootprint = g.footprint Real.pi
  wall : 0 ≤ g.thickness ∧ g.thickness ≤ g.diameter

/-- The tip areas that `create_springs` uses are those of the lowest section of the pile. -/
theorem tip_section {p : Pile.Pile ℝ} {sp : SoilProfile} {x2mesh : List ℝ} {c : ℝ} {w : Switches}
    {table : List (ℝ × Pile.Section ℝ)} {S : Input} (hS : input p sp x2mesh c w table = some S)
    {g : Pile.Section ℝ} (hg : p.sections.getLast? = some g)
    (hw : 0 ≤ g.thickness ∧ g.thickness ≤ g.diameter) : TipSection S g ∧ S.tip = g.bottom := by
  simp only [input, Option.bind_eq_bind, Option.bind_eq_some_iff, Option.pure_def, Option.some.injEq,
    Pile.Pile.tipArea, Pile.Pile.tipFootprint, Pile.Pile.bottomElevation, hg, Option.map_some] at hS
  obtain ⟨rows, -, tip, e, -, rfl, -, rfl, rfl⟩ := hS
  exact ⟨⟨rfl, rfl, hw⟩, e.symm⟩

theorem endArea_nonneg (pl : Plugging) {g : Pile.Section ℝ}
    (hw : 0 ≤ g.thickness ∧ g.thickness ≤ g.diameter) : 0 ≤ endArea pl g := by
  have := Real.pi_pos
  unfold endArea
  split_ifs
  · positivity
  · apply div_nonneg (mul_nonneg this.le _) (by norm_num)
    nlinarith [hw.1, hw.2]

theorem tip_of_peaks {b : List ℝ × List ℝ} (sz sz' f v : ℝ) (h1 : IsGreatest (forces b) 1)
    (h2 : IsLeast (forces b) 0) (hf : 0 ≤ f) (hv : 0 ≤ v) :
    IsGreatest (forces (scaleCurve sz' v (scaleCurve sz f b))) (f * v) ∧
      IsLeast (forces (scaleCurve sz' v (scaleCurve sz f b))) 0 := by
  obtain ⟨p1, p2⟩ := scale_peaks sz f hf h1 h2
  obtain ⟨q1, q2⟩ := scale_peaks sz' v hv p1 p2
  exact ⟨by simpa using q1, by simpa using q2⟩

variable {S : Input} {env : Draws}

/-- **C56, end bearing in clay.** The reported tip resistance is nine times the undrained shear strength at the
tip, times the multiplier, times the area that the plugging option selects. -/
theorem C56_tip_clay {A : Arrays} (hA : createSprings S env = some A) {r : Row} (ht : TipRow S r)
    (hp : r.bottom ≤ r.top) {l : SoilLayer} (hl : owners S r = [l]) {m : ClayAxial}
    (hm : l.axial = some (.clay m)) (hb : S.baseAxial = true) {g : Pile.Section ℝ} (hg : TipSection S g)
    (hr : IsRandom (env.qz l.top (S.rows.length - 1)).tzDraws)
    (hs : ∀ z, IsArgsort z ((env.qz l.top (S.rows.length - 1)).argsort z)) {Su : ℝ}
    (hSu : Params.layered m.Su (l.top - S.tip) (l.top - l.bottom) = some Su) (hSu0 : 0 ≤ Su)
    (hq : 0 ≤ m.qMul) :
    Extract.tipResistance (rows A.qz) = some (9 * Su * m.qMul * endArea m.plugging g) := by
  obtain ⟨s, c, -, e, hqz⟩ := (C47_qz hA ht hp hl).1 m hm hb
  obtain ⟨b, e1, h1, h2⟩ := backbone_peaks 15 _ _ hr hs
  have hv : 0 ≤ m.qMul * endArea m.plugging g := mul_nonneg hq (endArea_nonneg _ hg.wall)
  simp only [ClayAxial.qzSpring, qzApiClay, qmaxClay, hSu, e1, Option.bind_eq_bind, Option.bind_some,
    Option.pure_def, Option.some.injEq, hg.area, hg.footprint, bearing_endArea] at e
  obtain ⟨q1, q2⟩ := tip_of_peaks s.diameter m.wMul (9 * Su) _ h1 h2 (by linarith) hv
  rw [e] at q1 q2
  rw [hqz]
  simp only [Extract.tipResistance, (stored_ends q1 q2).1, Option.bind_eq_bind, Option.bind_some,
    Option.pure_def, Option.some.injEq]
  rw [abs_neg, abs_of_nonneg (mul_nonneg (by linarith) hv)]
  ring

/-- **C56, end bearing in sand.** The reported tip resistance is the bearing capacity factor times the vertical
effective stress at the tip, at most the limit value, times the multiplier, times the area that the plugging
option selects. -/
theorem C56_tip_sand {A : Arrays} (hA : createSprings S env = some A) {r : Row} (ht : TipRow S r)
    (hp : r.bottom ≤ r.top) {l : SoilLayer} (hl : owners S r = [l]) {m : SandAxial}
    (hm : l.axial = some (.sand m)) (hb : S.baseAxial = true) {g : Pile.Section ℝ} (hg : TipSection S g)
    (hr : IsRandom (env.qz l.top (S.rows.length - 1)).tzDraws)
    (hs : ∀ z, IsArgsort z ((env.qz l.top (S.rows.length - 1)).argsort z)) {sig delta lim nq : ℝ}
    (hsig : r.sigBottom = some sig) (hsig0 : 0 ≤ sig)
    (hd : Params.layered m.delta (l.top - S.tip) (l.top - l.bottom) = some delta)
    (hlim : OnCurveBoth bearingLimit delta lim) (hnq : OnCurveBoth bearingFactor delta nq)
    (hq : 0 ≤ m.qMul) :
    Extract.tipResistance (rows A.qz) = some (min lim (nq * sig) * m.qMul * endArea m.plugging g) := by
  obtain ⟨sig', s, c, e0, -, e, hqz⟩ := (C47_qz hA ht hp hl).2.1 m hm hb
  rw [hsig, Option.some.injEq] at e0
  subst e0
  obtain ⟨b, e1, h1, h2⟩ := backbone_peaks 15 _ _ hr hs
  have hf : qmaxSand sig delta = some (min lim (nq * sig)) :=
    (C35_bearing_law _ _ _).2 ⟨lim, nq, hlim, hnq, rfl⟩
  have hf0 := (C35_bearing_bounds sig delta _ hsig0 hf).1
  have hv : 0 ≤ m.qMul * endArea m.plugging g := mul_nonneg hq (endArea_nonneg _ hg.wall)
  simp only [SandAxial.qzSpring, qzApiSand, hf, hd, e1, Option.bind_eq_bind, Option.bind_some,
    Option.pure_def, Option.some.injEq, hg.area, hg.footprint, bearing_endArea] at e
  obtain ⟨q1, q2⟩ := tip_of_peaks s.diameter m.wMul (min lim (nq * sig)) _ h1 h2 hf0 hv
  rw [e] at q1 q2
  rw [hqz]
  simp only [Extract.tipResistance, (stored_ends q1 q2).1, Option.bind_eq_bind, Option.bind_some,
    Option.pure_def, Option.some.injEq]
  rw [abs_neg, abs_of_nonneg (mul_nonneg hf0 hv)]
  ring

/-- **C56, no end bearing.** Without an axial model at the tip, or with `base_axial` off, it is zero. -/
theorem C56_tip_none {A : Arrays} (hA : createSprings S env = some A) {r : Row} (ht : TipRow S r)
    (hp : r.bottom ≤ r.top) {l : SoilLayer} (hl : owners S r = [l])
    (h : l.axial = none ∨ S.baseAxial = false) : Extract.tipResistance (rows A.qz) = some 0 := by
  rw [(C47_qz hA ht hp hl).2.2 h, Extract.tipResistance, zero_ends.1]
  simp

/-! ## Shaft -/

/-- Perimeters in contact: the code hands the outer perimeter over as inner perimeter too. -/
noncomputable def sides (plugged : Prop) [Decidable plugged] : ℝ := if plugged then 1 else 2

/-- Limit shaft friction per metre of pile, in compression and in tension, at the top (`b = false`) or bottom
(`b = true`) of an element: none outside the soil, without an axial model or with `distributed_axial` off; in
clay and sand the API unit friction times the multiplier times the outer perimeter, twice if there is no plug.
`alpha_limit` is ignored, see `C36_violated_alpha_limit`. -/
inductive Friction (S : Input) (r : Row) (b : Bool) : ℝ → ℝ → Prop
  | outside (h : owners S r = []) : Friction S r b 0 0
  | off (l : SoilLayer) (hl : owners S r = [l]) (h : l.axial = none ∨ S.distributedAxial = false) :
      Friction S r b 0 0
  | clay (l : SoilLayer) (m : ClayAxial) (s : Pile.Section ℝ) (sig Su f : ℝ) (hl : owners S r = [l])
      (hm : l.axial = some (.clay m)) (hd : S.distributedAxial = true)
      (hsig : (if b then r.sigBottom else r.sigTop) = some sig) (hs : r.sec = some s) (hsig0 : 0 ≤ sig)
      (hSu : Params.layered m.Su (l.top - if b then r.bottom else r.top) (l.top - l.bottom) = some Su)
      (hSu0 : 0 < Su) (hf : f = min (adhesion (Su / if sig = 0 then 1 / 1000 else sig)) 1 * Su)
      (hD : 0 < s.diameter) (htm : 0 ≤ m.tMul) (hten : 0 ≤ m.tensionMul) (hres : 0 ≤ m.tResidual)
      (hres' : m.tResidual ≤ 1) :
      Friction S r b (f * (sides (PluggedC m.plugging) * (Real.pi * s.diameter)) * m.tMul)
        (m.tensionMul * f * (sides (PluggedT m.plugging) * (Real.pi * s.diameter)) * m.tMul)
  | sand (l : SoilLayer) (m : SandAxial) (s : Pile.Section ℝ) (sig delta lim f : ℝ) (hl : owners S r = [l])
      (hm : l.axial = some (.sand m)) (hd : S.distributedAxial = true)
      (hsig : (if b then r.sigBottom else r.sigTop) = some sig) (hs : r.sec = some s)
      (hde : Params.layered m.delta (l.top - if b then r.bottom else r.top) (l.top - l.bottom) = some delta)
      (hlim : OnCurveBoth frictionLimit delta lim)
      (hf : f = min lim (m.K * sig * Real.tan (delta * (Real.pi / 180)))) (hf0 : 0 ≤ f)
      (hD : 0 < s.diameter) (htm : 0 ≤ m.tMul) (hten : 0 ≤ m.tensionMul) :
      Friction S r b (f * (sides (PluggedC m.plugging) * (Real.pi * s.diameter)) * m.tMul)
        (m.tensionMul * f * (sides (PluggedT m.plugging) * (Real.pi * s.diameter)) * m.tMul)

/-- Random numbers and sorting as the library promises them. -/
def GoodDraws (env : Draws) : Prop :=
  ∀ z j b, IsRandom (env.tz z j b).tzDraws ∧ ∀ x, IsArgsort x ((env.tz z j b).argsort x)

theorem sides_contact (pl : Plugging) (D tm f x : ℝ) {ct tens : ℝ}
    (h1 : ct = contact (PluggedC pl) (D * Real.pi) (D * Real.pi))
    (h3 : tens * ct = tm * (if PluggedT pl then D * Real.pi else D * Real.pi + D * Real.pi)) :
    f * (x * ct) = f * (sides (PluggedC pl) * (Real.pi * D)) * x ∧
      -(-(tens * f) * (x * ct)) = tm * f * (sides (PluggedT pl) * (Real.pi * D)) * x := by
  have e1 : ct = sides (PluggedC pl) * (Real.pi * D) := by
    rw [h1]
    unfold contact sides
    split_ifs <;> ring
  have e2 : tens * ct = tm * (sides (PluggedT pl) * (Real.pi * D)) := by
    rw [h3]
    unfold sides
    split_ifs <;> ring
  constructor
  · rw [e1]
    ring
  · linear_combination (f * x) * e2

/-- The smallest and the largest stored resistance of every t-z spring are the limit frictions. -/
theorem friction_ends {A : Arrays} (hA : createSprings S env = some A) (henv : GoodDraws env) {j : ℕ} {r : Row}
    (hr : S.rows[j]? = some r) {b : Bool} {fc ft : ℝ} (h : Friction S r b fc ft) :
    Extract.rowMin (rows (A.tz j b)).r = some (-fc) ∧ Extract.rowMax (rows (A.tz j b)).r = some ft ∧
      0 ≤ fc ∧ 0 ≤ ft := by
  have hs0 : ∀ (P : Prop) [Decidable P], (0 : ℝ) ≤ sides P := by
    intro P _
    unfold sides
    split_ifs <;> norm_num
  cases h with
  | outside h =>
    rw [(C54_outside hA hr h b).2.1, neg_zero]
    exact ⟨zero_ends.1, zero_ends.2, le_rfl, le_rfl⟩
  | off l hl h =>
    rw [(C54_tz hA hr hl b).2.2 h, neg_zero]
    exact ⟨zero_ends.1, zero_ends.2, le_rfl, le_rfl⟩
  | clay l m s sig Su f hl hm hd hsig hs hsig0 hSu hSu0 hf hD htm hten hres hres' =>
    obtain ⟨sig', s', c, e1, e2, e3, e4⟩ := (C54_tz hA hr hl b).1 m hm hd
    rw [hsig, Option.some.injEq] at e1
    rw [hs, Option.some.injEq] at e2
    subst e1 e2
    have hper : 0 < s.diameter * Real.pi := mul_pos hD Real.pi_pos
    have hpsi : psi sig Su = Su / if sig = 0 then 1 / 1000 else sig := by
      unfold psi
      split_ifs <;> rfl
    have hpos : 0 < psi sig Su := by
      rw [hpsi]
      split_ifs with h
      · positivity
      · exact div_pos hSu0 (lt_of_le_of_ne hsig0 (Ne.symm h))
    have hf1 : fmaxClay sig Su 1 = some f := by rw [fmaxClay_eq hpos, hf, hpsi]
    have hf0 : 0 ≤ f := by
      obtain ⟨g, hg, hg0, -⟩ := C35_clay_bounds sig Su 1 hsig0 hSu0.le zero_le_one
      rw [hf1, Option.some.injEq] at hg
      rwa [hg]
    obtain ⟨ct, tens, e, h1, h2, h3, h4⟩ :=
      circumference_eq m.plugging (s.diameter * Real.pi) (s.diameter * Real.pi) m.tensionMul hper.le hper
    obtain ⟨c', e5, g1, g2⟩ := clay_peaks m (s.diameter * Real.pi) (s.diameter * Real.pi) sig
      (l.top - l.bottom) (l.top - if b then r.bottom else r.top) s.diameter Su f ct tens 15 _ _
      (henv _ _ _).1 (henv _ _ _).2 hD hSu hf1 hf0 e h2.le (h4 hten) htm hres hres'
    rw [e3, Option.some.injEq] at e5
    subst e5
    obtain ⟨p1, p2⟩ := stored_ends g1 g2
    obtain ⟨k1, k2⟩ := sides_contact m.plugging s.diameter m.tensionMul f m.tMul h1 h3
    rw [e4, p1, p2, k1, k2]
    have := Real.pi_pos
    have := hs0 (PluggedC m.plugging)
    have := hs0 (PluggedT m.plugging)
    exact ⟨rfl, rfl, by positivity, by positivity⟩
  | sand l m s sig delta lim f hl hm hd hsig hs hde hlim hf hf0 hD htm hten =>
    obtain ⟨sig', s', c, e1, e2, e3, e4⟩ := (C54_tz hA hr hl b).2.1 m hm hd
    rw [hsig, Option.some.injEq] at e1
    rw [hs, Option.some.injEq] at e2
    subst e1 e2
    have hper : 0 < s.diameter * Real.pi := mul_pos hD Real.pi_pos
    have hf1 : fmaxSand sig delta m.K = some f := (C35_sand_law _ _ _ _).2 ⟨lim, hlim, hf⟩
    obtain ⟨ct, tens, e, h1, h2, h3, h4⟩ :=
      circumference_eq m.plugging (s.diameter * Real.pi) (s.diameter * Real.pi) m.tensionMul hper.le hper
    obtain ⟨c', e5, g1, g2⟩ := sand_peaks m (s.diameter * Real.pi) (s.diameter * Real.pi) sig
      (l.top - l.bottom) (l.top - if b then r.bottom else r.top) delta f ct tens 15 _ _
      (henv _ _ _).1 (henv _ _ _).2 hde hf1 hf0 e h2.le (h4 hten) htm
    rw [e3, Option.some.injEq] at e5
    subst e5
    obtain ⟨p1, p2⟩ := stored_ends g1 g2
    obtain ⟨k1, k2⟩ := sides_contact m.plugging s.diameter m.tensionMul f m.tMul h1 h3
    rw [e4, p1, p2, k1, k2]
    have := Real.pi_pos
    have := hs0 (PluggedC m.plugging)
    have := hs0 (PluggedT m.plugging)
    exact ⟨rfl, rfl, by positivity, by positivity⟩

/-- The frictions of all elements. -/
def Frictions (S : Input) (fc ft : ℕ → Bool → ℝ) : Prop :=
  ∀ (j : ℕ) (r : Row) (b : Bool), S.rows[j]? = some r → Friction S r b (fc j b) (ft j b)

theorem limits {A : Arrays} (hA : createSprings S env = some A) (henv : GoodDraws env)
    {fc ft : ℕ → Bool → ℝ} (h : Frictions S fc ft) :
    Extract.Limits (fun i b => rows (A.tz i b)) S.rows.length (fun i => -fc i false) (fun i => -fc i true)
      (fun i => ft i false) (fun i => ft i true) := by
  refine ⟨?_, ?_, ?_, ?_⟩ <;> intro i hi <;>
    have hr := List.getElem?_eq_getElem hi
  · exact (friction_ends hA henv hr (h i _ false hr)).1
  · exact (friction_ends hA henv hr (h i _ true hr)).1
  · exact (friction_ends hA henv hr (h i _ false hr)).2.1
  · exact (friction_ends hA henv hr (h i _ true hr)).2.1

/-- Length that the code attributes to node `i`: half of the distance between its neighbours, and the whole
length of the first and last element at the ends. -/
noncomputable def span (z : ℕ → ℝ) (n i : ℕ) : ℝ :=
  if i = 0 then z 0 - z 1 else if i = n then z (n - 1) - z n else (z (i - 1) - z (i + 1)) / 2

theorem gradient_span {z : ℕ → ℝ} {n : ℕ} (hz : Extract.Descending z n) (hn : 0 < n) {i : ℕ} (hi : i ≤ n) :
    Extract.gradient z n i = span z n i := by
  unfold span
  by_cases h0 : i = 0
  · subst h0
    rw [if_pos rfl]
    exact Extract.gradient_head hz hn
  · rw [if_neg h0]
    by_cases h1 : i = n
    · subst h1
      rw [if_pos rfl]
      exact Extract.gradient_tip hz hn
    · rw [if_neg h1]
      exact Extract.gradient_inner hz (by omega) (by omega)

/-- **C56, shaft.** The reported resistances are the sums over all elements of the limit frictions at both ends
times half of the length attributed to the node.  Partial: perimeters and lengths are not those of the pile, see
`C36_violated_circumference` and `C44_violated_embedment`. -/
theorem C56_shaft_partial {A : Arrays} (hA : createSprings S env = some A) (henv : GoodDraws env)
    {fc ft : ℕ → Bool → ℝ} (h : Frictions S fc ft) {z : ℕ → ℝ} (hz : Extract.Descending z S.rows.length)
    (hn : 0 < S.rows.length) :
    Extract.shaftResistance z S.rows.length (fun i b => rows (A.tz i b)) = some
      (∑ i ∈ Finset.range S.rows.length, (fc i false * (span z S.rows.length i / 2) +
          fc i true * (span z S.rows.length (i + 1) / 2)),
       ∑ i ∈ Finset.range S.rows.length, (ft i false * (span z S.rows.length i / 2) +
          ft i true * (span z S.rows.length (i + 1) / 2))) := by
  rw [Extract.shaft_eq (limits hA henv h)]
  congr 2 <;> refine Finset.sum_congr rfl fun i hi => ?_
  all_goals
    have hi := Finset.mem_range.1 hi
    have hr := List.getElem?_eq_getElem hi
    have g1 := Extract.gradient_pos hz hn hi.le
    have g2 := Extract.gradient_pos hz hn (i := i + 1) hi
    obtain ⟨-, -, a1, a2⟩ := friction_ends hA henv hr (h i _ false hr)
    obtain ⟨-, -, a3, a4⟩ := friction_ends hA henv hr (h i _ true hr)
    rw [gradient_span hz hn hi.le] at *
    rw [gradient_span hz hn (i := i + 1) hi] at *
  · rw [neg_mul, neg_mul, ← neg_add, abs_neg, abs_of_nonneg (by positivity)]
  · rw [abs_of_nonneg (by positivity)]

/-! ## The springs can be computed -/

/-- Both vectors have 15 entries. -/
def Sized (c : List ℝ × List ℝ) : Prop := c.1.length = 15 ∧ c.2.length = 15

theorem Sized.scale {c : List ℝ × List ℝ} (h : Sized c) (sz st : ℝ) : Sized (scaleCurve sz st c) := by
  unfold Sized scaleCurve
  simp only [List.length_map]
  exact h

theorem store_defined {c : List ℝ × List ℝ} (h : Sized c) : (store (c.1.zip c.2)).isSome := by
  unfold store
  rw [if_pos]
  · rfl
  · rw [List.length_zip, h.1, h.2]
    rfl

theorem tz_defined (henv : GoodDraws env) {j : ℕ} {r : Row} {b : Bool} {fc ft : ℝ}
    (h : Friction S r b fc ft) {l : SoilLayer} (hl : l ∈ owners S r) {m : AxialModel}
    (hm : l.axial = some m) (hd : S.distributedAxial = true) :
    (tzNode S l m r b (env.tz l.top j b)).isSome := by
  cases h with
  | outside h =>
    rw [h] at hl
    cases hl
  | off l' hl' h =>
    rw [hl', List.mem_singleton] at hl
    subst hl
    rw [hm, hd] at h
    simp at h
  | clay l' m' s sig Su f hl' hm' hd' hsig hs hsig0 hSu hSu0 hf hD htm hten hres hres' =>
    rw [hl', List.mem_singleton] at hl
    subst hl
    rw [hm, Option.some.injEq] at hm'
    subst hm'
    have hper : 0 < s.diameter * Real.pi := mul_pos hD Real.pi_pos
    obtain ⟨g, hg, -, -⟩ := C35_clay_bounds sig Su 1 hsig0 hSu0.le zero_le_one
    obtain ⟨ct, tens, e, -⟩ :=
      circumference_eq m'.plugging (s.diameter * Real.pi) (s.diameter * Real.pi) m'.tensionMul hper.le hper
    obtain ⟨c, e2, h2, -⟩ := C33_tz_clay sig Su s.diameter 1 m'.tResidual tens g 15
      (env.tz l.top j b).tzDraws (env.tz l.top j b).argsort (henv _ _ _).1 (henv _ _ _).2 hD hg
    have hsig' : r.sig b = some sig := hsig
    have hSu' : Params.layered m'.Su (l.top - r.z b) (l.top - l.bottom) = some Su := hSu
    simp only [tzNode, hsig', hs, ClayAxial.tzSpring, hSu', Pile.Section.outerPerimeter, Pile.Section.width,
      e, e2, Option.bind_eq_bind, Option.bind_some, Option.pure_def]
    exact store_defined (Sized.scale ⟨h2.disp, h2.force⟩ _ _)
  | sand l' m' s sig delta lim f hl' hm' hd' hsig hs hde hlim hf hf0 hD htm hten =>
    rw [hl', List.mem_singleton] at hl
    subst hl
    rw [hm, Option.some.injEq] at hm'
    subst hm'
    have hper : 0 < s.diameter * Real.pi := mul_pos hD Real.pi_pos
    have hf1 : fmaxSand sig delta m'.K = some f := (C35_sand_law _ _ _ _).2 ⟨lim, hlim, hf⟩
    obtain ⟨ct, tens, e, -⟩ :=
      circumference_eq m'.plugging (s.diameter * Real.pi) (s.diameter * Real.pi) m'.tensionMul hper.le hper
    obtain ⟨c, e2, h2, -⟩ := C33_backbone_sand tens 15
      (env.tz l.top j b).tzDraws (env.tz l.top j b).argsort (henv _ _ _).1 (henv _ _ _).2
    have hsig' : r.sig b = some sig := hsig
    have hde' : Params.layered m'.delta (l.top - r.z b) (l.top - l.bottom) = some delta := hde
    simp only [tzNode, hsig', hs, SandAxial.tzSpring, hde', Pile.Section.outerPerimeter, tzApiSand,
      e, e2, hf1, Option.bind_eq_bind, Option.bind_some, Option.pure_def]
    exact store_defined (Sized.scale (Sized.scale ⟨h2.disp, h2.force⟩ _ _) _ _)

/-- Random numbers of the end bearing springs. -/
def GoodTip (env : Draws) : Prop :=
  ∀ z j, IsRandom (env.qz z j).tzDraws ∧ ∀ x, IsArgsort x ((env.qz z j).argsort x)

/-- The strength of the axial model of the layer can be evaluated at the tip. -/
def TipStrength (S : Input) (l : SoilLayer) : Prop :=
  (∀ m, l.axial = some (.clay m) →
    ∃ Su, Params.layered m.Su (l.top - S.tip) (l.top - l.bottom) = some Su) ∧
  (∀ m, l.axial = some (.sand m) →
    ∃ d, Params.layered m.delta (l.top - S.tip) (l.top - l.bottom) = some d)

theorem qz_defined (henv : GoodTip env) {i : ℕ} {r : Row} {l : SoilLayer} {m : AxialModel}
    (hm : l.axial = some m) (hl : TipStrength S l) {s : Pile.Section ℝ} (hs : r.sec = some s) {sig : ℝ}
    (hsig : sigTip S = some sig) : (qzTip S l m r (env.qz l.top i)).isSome := by
  obtain ⟨b, e1, h2, -⟩ := C33_backbone_tip 15 (env.qz l.top i).tzDraws (env.qz l.top i).argsort
    (henv _ _).1 (henv _ _).2
  cases m with
  | clay m =>
    obtain ⟨Su, hSu⟩ := hl.1 m hm
    simp only [qzTip, hsig, hs, ClayAxial.qzSpring, qzApiClay, hSu, e1, Option.bind_eq_bind,
      Option.bind_some, Option.pure_def]
    exact store_defined (Sized.scale (Sized.scale ⟨h2.disp, h2.force⟩ _ _) _ _)
  | sand m =>
    obtain ⟨d, hd⟩ := hl.2 m hm
    obtain ⟨f, hf⟩ := C35_bearing_total sig d
    simp only [qzTip, hsig, hs, SandAxial.qzSpring, qzApiSand, hd, hf, e1, Option.bind_eq_bind,
      Option.bind_some, Option.pure_def]
    exact store_defined (Sized.scale (Sized.scale ⟨h2.disp, h2.force⟩ _ _) _ _)

/-- Random numbers of the lateral springs. -/
def GoodLateral (env : Draws) : Prop :=
  (∀ z j b, OpenPile.Lateral.Draws 15 (env.py z j b).draws) ∧
  ∀ z j b, IsRandom (env.mt z j b).tzDraws ∧ ∀ x, IsArgsort x ((env.mt z j b).argsort x)

/-- The lateral models of the layer are sound for the section of the element, which lies inside the layer and below
ground; the tip below it. -/
structure SoundRow (S : Input) (l : SoilLayer) (r : Row) : Prop where
  layer : l.bottom < l.top
  inside : r.top ≤ l.top ∧ l.bottom ≤ r.bottom
  order : r.bottom ≤ r.top
  ground : r.top ≤ S.ground
  tip : S.tip ≤ r.bottom
  profile : S.profileBottom ≤ S.ground
  section_ : ∃ s, r.sec = some s ∧ 0 < s.diameter ∧
    ∀ m, l.lateral = some m → Spec.Sound.Lateral s.diameter (S.ground - S.tip) m
  stress : ∀ b, ∃ sig, r.sig b = some sig ∧ 0 ≤ sig
  tipStress : ∃ sig, sigTip S = some sig ∧ 0 ≤ sig

theorem SoundRow.node {l : SoilLayer} {r : Row} (h : SoundRow S l r) (b : Bool) :
    ∃ a, nodeArgs S l r b = some a ∧ Defined.Inside a ∧ a.X ≤ a.L ∧
      ∀ m, l.lateral = some m → Spec.Sound.Lateral a.D a.L m := by
  obtain ⟨s, hs, hD, hm⟩ := h.section_
  obtain ⟨sig, hsig, h0⟩ := h.stress b
  have hz : r.bottom ≤ r.z b ∧ r.z b ≤ r.top := by
    unfold Row.z
    cases b
    · exact ⟨h.order, le_rfl⟩
    · exact ⟨le_rfl, h.order⟩
  have hab : |r.z b - S.ground| ≤ S.ground - S.tip := by
    rw [abs_sub_comm, abs_of_nonneg (by linarith [hz.2, h.ground])]
    linarith [hz.1, h.tip]
  refine ⟨_, by unfold nodeArgs; rw [hsig, hs]; rfl,
    ⟨h0, abs_nonneg _, sub_pos.2 h.layer, ?_, ?_, hD, rfl, rfl⟩, hab, hm⟩
  · exact sub_nonneg.2 (hz.2.trans h.inside.1)
  · exact sub_le_sub_left (h.inside.2.trans hz.1) _

theorem SoundRow.base {l : SoilLayer} {r : Row} (h : SoundRow S l r) (ht : tipIn S l = true) :
    ∃ a, baseArgs S l r = some a ∧ Defined.Inside a ∧ ∀ m, l.lateral = some m → Spec.Sound.Lateral a.D a.L m := by
  obtain ⟨s, hs, hD, hm⟩ := h.section_
  obtain ⟨sig, hsig, h0⟩ := h.tipStress
  have ht : l.top ≥ S.tip ∧ l.bottom ≤ S.tip := of_decide_eq_true ht
  refine ⟨_, by unfold baseArgs; rw [hsig, hs]; rfl,
    ⟨h0, sub_nonneg.2 h.profile, sub_pos.2 h.layer, sub_nonneg.2 ht.1, sub_le_sub_left ht.2 _, hD, rfl, rfl⟩, hm⟩

theorem storeTable_defined {t : SoilModel.Table} (h : t.length = 15) (h' : ∀ r ∈ t, r.length = 15) :
    storeTable t = some t := if_pos ⟨h, h'⟩

/-- The lateral part of the loop body raises no exception. -/
theorem lateral_defined (henv : GoodLateral env) {l : SoilLayer} {r : Row} (h : SoundRow S l r) (i : ℕ) (A : Arrays) :
    ∃ A', lateralStep S env l r i A = some A' := by
  unfold lateralStep
  cases hm : l.lateral with
  | none => exact ⟨A, rfl⟩
  | some m =>
    have hpy : ∀ b, ∃ c, pyNode S l m r b (env.py l.top i b) = some c := by
      intro b
      obtain ⟨a, e1, ha, hX, hs⟩ := h.node b
      obtain ⟨c, e2, hc⟩ := Defined.model_py (hs m hm) ha hX (henv.1 l.top i b)
      exact ⟨c, by simp only [pyNode, e1, e2, Option.bind_eq_bind, Option.bind_some, store, if_pos hc]⟩
    have hmt : m.signature.2.2.1 = true → ∀ b, ∃ c, mtNode S l m r b (env.mt l.top i b) = some c := by
      intro hsg b
      obtain ⟨a, e1, ha, hX, hs⟩ := h.node b
      obtain ⟨c, e2, h1, h2⟩ := Defined.model_mt (hs m hm) ha hX (henv.2 l.top i b).1 (henv.2 l.top i b).2 hsg
      exact ⟨c, by simp only [mtNode, e1, e2, Option.bind_eq_bind, Option.bind_some, storeTable_defined h1 h2]⟩
    have hhb : tipIn S l = true → m.signature.2.1 = true → ∃ c, hbTip S l m r = some c := by
      intro ht hsg
      obtain ⟨a, e1, ha, hs⟩ := h.base ht
      obtain ⟨c, e2, hc⟩ := Defined.model_hb (hs m hm) ha hsg
      exact ⟨c, by simp only [hbTip, e1, e2, Option.bind_eq_bind, Option.bind_some, store, if_pos hc]⟩
    have hmb : tipIn S l = true → m.signature.2.2.2 = true → ∃ c, mbTip S l m r = some c := by
      intro ht hsg
      obtain ⟨a, e1, ha, hs⟩ := h.base ht
      obtain ⟨c, e2, hc⟩ := Defined.model_mb (hs m hm) ha hsg
      exact ⟨c, by simp only [mbTip, e1, e2, Option.bind_eq_bind, Option.bind_some, store, if_pos hc]⟩
    have s1 : ∀ A, ∃ A', pyStep S env l m r i A = some A' := by
      intro A
      unfold pyStep
      split_ifs
      · obtain ⟨t, e1⟩ := hpy false
        obtain ⟨b, e2⟩ := hpy true
        exact ⟨_, by rw [e1, e2]; rfl⟩
      · exact ⟨_, rfl⟩
    have s2 : ∀ A, ∃ A', mtStep S env l m r i A = some A' := by
      intro A
      unfold mtStep
      split_ifs with h
      · rw [Bool.and_eq_true] at h
        obtain ⟨t, e1⟩ := hmt h.1 false
        obtain ⟨b, e2⟩ := hmt h.1 true
        exact ⟨_, by rw [e1, e2]; rfl⟩
      · exact ⟨_, rfl⟩
    have s3 : ∀ A, ∃ A', hbStep S l m r A = some A' := by
      intro A
      unfold hbStep
      split_ifs with h
      · simp only [Bool.and_eq_true] at h
        obtain ⟨t, e1⟩ := hhb h.1 h.2.1
        exact ⟨_, by rw [e1]; rfl⟩
      · exact ⟨_, rfl⟩
    have s4 : ∀ A, ∃ A', mbStep S l m r A = some A' := by
      intro A
      unfold mbStep
      split_ifs with h
      · simp only [Bool.and_eq_true] at h
        obtain ⟨t, e1⟩ := hmb h.1 h.2.1
        exact ⟨_, by rw [e1]; rfl⟩
      · exact ⟨_, rfl⟩
    obtain ⟨A1, e1⟩ := s1 A
    obtain ⟨A2, e2⟩ := s2 A1
    obtain ⟨A3, e3⟩ := s3 A2
    obtain ⟨A4, e4⟩ := s4 A3
    exact ⟨A4, by simp only [e1, e2, e3, e4, Option.bind_eq_bind, Option.bind_some]⟩

/-- **C64, the springs exist.** If every node has a limit friction, the tip layer a strength at the tip, and every
element a sound lateral model, creating the springs raises no exception. -/
theorem C64_input (henv : GoodDraws env) (henv' : GoodTip env) (henv'' : GoodLateral env) {fc ft : ℕ → Bool → ℝ}
    (h : Frictions S fc ft) (hlat : ∀ r ∈ S.rows, ∀ l ∈ owners S r, SoundRow S l r)
    (htip : ∀ l ∈ S.layers, tipIn S l = true → TipStrength S l) :
    ∃ A, createSprings S env = some A := by
  have : (fillArrays S env).isSome := by
    rw [fill_eq, foldlM_success _ body_success]
    rintro ⟨l, r, i⟩ hk
    obtain ⟨h1, h2⟩ := mem_calls.1 hk
    have h3 : l ∈ S.layers := (List.mem_filter.1 h2).1
    have h4 : r ∈ S.rows := List.mem_of_getElem? h1
    have hrow := hlat r h4 l h2
    obtain ⟨s, hs, -⟩ := hrow.section_
    obtain ⟨sig, hsg, -⟩ := hrow.tipStress
    have hax : ∃ A, axialStep S env l r i Arrays.zero = some A := by
      unfold axialStep
      cases hm : l.axial with
      | none => exact ⟨_, rfl⟩
      | some m =>
        obtain ⟨q, hq⟩ : ∃ q, tipIn S l = true → qzTip S l m r (env.qz l.top i) = some q := by
          by_cases ht : tipIn S l = true
          · obtain ⟨q, hq⟩ := Option.isSome_iff_exists.1 (qz_defined henv' hm (htip l h3 ht) hs hsg)
            exact ⟨q, fun _ => hq⟩
          · exact ⟨[], fun h => absurd h ht⟩
        have ht : ∀ b, ∃ c, S.distributedAxial = true → tzNode S l m r b (env.tz l.top i b) = some c := by
          intro b
          by_cases hd : S.distributedAxial = true
          · obtain ⟨c, hc⟩ := Option.isSome_iff_exists.1 (tz_defined henv (h i r b h1) h2 hm hd)
            exact ⟨c, fun _ => hc⟩
          · exact ⟨[], fun h => absurd h hd⟩
        obtain ⟨t, e1⟩ := ht false
        obtain ⟨u, e2⟩ := ht true
        rw [← Option.isSome_iff_exists]
        cases hd : S.distributedAxial <;> cases hi : tipIn S l <;> cases hb : S.baseAxial <;>
          simp [hd, hi, hb, e1, e2, hq]
    obtain ⟨A, hA⟩ := hax
    obtain ⟨A', hA'⟩ := lateral_defined henv'' hrow i A
    simp only [body, step, hA, hA', Option.bind_eq_bind, Option.bind_some, Option.isSome_some]
  obtain ⟨A, hA⟩ := Option.isSome_iff_exists.1 this
  exact ⟨_, by rw [createSprings, hA]; rfl⟩

/-! ## Models -/

theorem elevations_descending {p : Pile.Pile ℝ} {sp : SoilProfile} {C : Mesh.Coordinates ℝ} {top tip c : ℝ}
    (hm : Weight.MeshFacts p sp.geometry top tip c C) :
    Extract.Descending (elevations C) C.elements.length ∧ C.nodes.length = C.elements.length + 1 := by
  have hlen : C.elements.length = C.nodes.length - 1 := by
    rw [hm.pairs, Mesh.pairs, List.length_zip, List.length_tail]
    omega
  have hne : 0 < C.nodes.length := List.length_pos_of_mem hm.ground
  refine ⟨fun i hi => ?_, by omega⟩
  have h1 : i + 1 < C.nodes.length := by omega
  unfold elevations
  rw [List.getD_eq_getElem _ _ h1, List.getD_eq_getElem _ _ (by omega)]
  exact List.pairwise_iff_getElem.1 hm.sorted i (i + 1) (by omega) h1 (by omega)

/-- **C56 for a Model, shaft.** -/
theorem C56_model_shaft_partial {p : Pile.Pile ℝ} {sp : SoilProfile} {x2mesh : List ℝ} {c top tip : ℝ}
    (h : Weight.Setup p sp.geometry x2mesh c top tip) (w : Switches) (table : List (ℝ × Pile.Section ℝ))
    {S : Input} (hS : input p sp x2mesh c w table = some S) {A : Arrays}
    (hA : createSprings S env = some A) (henv : GoodDraws env) {fc ft : ℕ → Bool → ℝ}
    (hf : Frictions S fc ft) :
    ∃ C, Mesh.getCoordinates p (some sp.geometry) x2mesh c = some C ∧
      C.elements = S.rows.map (fun r => (r.top, r.bottom)) ∧
      shaft p sp x2mesh c w table env = some
        (∑ i ∈ Finset.range C.elements.length, (fc i false * (span (elevations C) C.elements.length i / 2) +
            fc i true * (span (elevations C) C.elements.length (i + 1) / 2)),
         ∑ i ∈ Finset.range C.elements.length, (ft i false * (span (elevations C) C.elements.length i / 2) +
            ft i true * (span (elevations C) C.elements.length (i + 1) / 2))) := by
  obtain ⟨C, hC, hm⟩ := Weight.mesh_facts h
  obtain ⟨C', S', w', hC', hS', -, -, -, -, -, -, helts, -, r, hr, -⟩ := C54_mesh h w table
  rw [hC, Option.some.injEq] at hC'
  subst hC'
  rw [hS, Option.some.injEq] at hS'
  subst hS'
  have hlen : C.elements.length = S.rows.length := by rw [← helts, List.length_map]
  obtain ⟨hz, -⟩ := elevations_descending hm
  have hn : 0 < S.rows.length := List.length_pos_of_mem (List.mem_of_getLast? hr.last)
  refine ⟨C, hC, helts.symm, ?_⟩
  rw [hlen] at hz
  have := C56_shaft_partial hA henv hf hz hn
  simp only [shaft, hC, modelSprings, hS, hA, hlen, Option.bind_eq_bind, Option.bind_some, this]

/-- An axial model that gives a friction and an end bearing at every depth of a layer of the given height. -/
def Sound (height : ℝ) : AxialModel → Prop
  | .clay m => (∀ d, 0 ≤ d → d ≤ height → ∃ Su, Params.layered m.Su d height = some Su ∧ 0 < Su) ∧
      0 ≤ m.tMul ∧ 0 ≤ m.tensionMul ∧ 0 ≤ m.tResidual ∧ m.tResidual ≤ 1 ∧ 0 ≤ m.qMul
  | .sand m => (∀ d, 0 ≤ d → d ≤ height → ∃ δ, Params.layered m.delta d height = some δ ∧ 0 ≤ δ ∧ δ < 90) ∧
      0 ≤ m.K ∧ 0 ≤ m.tMul ∧ 0 ≤ m.tensionMul ∧ 0 ≤ m.qMul

/-- Every node of an element inside one sound layer has a limit friction. -/
theorem friction_exists {r : Row} {l : SoilLayer} (hl : owners S r = [l]) (hr : r.bottom ≤ r.top)
    (hs : ∀ m, l.axial = some m → Sound (l.top - l.bottom) m) {s : Pile.Section ℝ} (hsec : r.sec = some s)
    (hD : 0 < s.diameter) (b : Bool) {sig : ℝ} (hsig : (if b then r.sigBottom else r.sigTop) = some sig)
    (hsig0 : 0 ≤ sig) : ∃ fc ft, Friction S r b fc ft := by
  have hmem : l ∈ owners S r := by
    rw [hl]
    exact List.mem_singleton.2 rfl
  have hin : r.top ≤ l.top ∧ l.bottom ≤ r.bottom := of_decide_eq_true (List.mem_filter.1 hmem).2
  have hd0 : 0 ≤ l.top - if b then r.bottom else r.top := by
    split_ifs <;> linarith [hin.1]
  have hd1 : (l.top - if b then r.bottom else r.top) ≤ l.top - l.bottom := by
    split_ifs <;> linarith [hin.2]
  cases hd : S.distributedAxial with
  | false => exact ⟨0, 0, .off l hl (Or.inr hd)⟩
  | true =>
    cases hm : l.axial with
    | none => exact ⟨0, 0, .off l hl (Or.inl hm)⟩
    | some m =>
      have hsm := hs m hm
      cases m with
      | clay m =>
        obtain ⟨h1, h2, h3, h4, h5, -⟩ := hsm
        obtain ⟨Su, e, hSu⟩ := h1 _ hd0 hd1
        exact ⟨_, _, .clay l m s sig Su _ hl hm hd hsig hsec hsig0 e hSu rfl hD h2 h3 h4 h5⟩
      | sand m =>
        obtain ⟨h1, h2, h3, h4, -⟩ := hsm
        obtain ⟨δ, e, hδ, hδ'⟩ := h1 _ hd0 hd1
        obtain ⟨f, hf⟩ := C35_sand_total sig δ m.K
        obtain ⟨lim, hlim, hfe⟩ := (C35_sand_law _ _ _ _).1 hf
        exact ⟨_, _, .sand l m s sig δ lim f hl hm hd hsig hsec e hlim hfe
          (C35_sand_bounds_partial sig δ m.K f hsig0 h2 hδ hδ' hf).1 hD h3 h4⟩

/-- **C64 with what is known about the Model.** -/
theorem C64_setup {p : Pile.Pile ℝ} {sp : SoilProfile} {x2mesh : List ℝ} {c top tipz : ℝ}
    (h : Weight.Setup p sp.geometry x2mesh c top tipz) (w : Switches) {table : List (ℝ × Pile.Section ℝ)}
    (htab : Model.SortedRows p table) (henv : GoodDraws env) (henv' : GoodTip env) (henv'' : GoodLateral env)
    (hsound : ∀ l ∈ sp.layers, ∀ m, l.axial = some m → Sound (l.top - l.bottom) m)
    (hlat : ∀ l ∈ sp.layers, ∀ m, l.lateral = some m → ∀ s ∈ p.sections,
      Spec.Sound.Lateral s.diameter (sp.topElevation - tipz) m) :
    ∃ (C : Mesh.Coordinates ℝ) (S : Input) (water : ℝ) (fc ft : ℕ → Bool → ℝ) (A : Arrays),
      Mesh.getCoordinates p (some sp.geometry) x2mesh c = some C ∧
      input p sp x2mesh c w table = some S ∧ water ≤ sp.waterLine ∧ sp.waterLine - water ≤ c + 1 / 10000 ∧
      S.layers = sp.layers ∧ S.tip = tipz ∧
      (∀ z, z ≤ sp.topElevation → 0 ≤ Spec.Soil.stressAt water z sp.geometry.layers) ∧
      (∀ r ∈ S.rows, r.bottom < r.top ∧ (∃ s ∈ p.sections, r.sec = some s) ∧
        (r.top ≤ sp.topElevation → (∃ l, owners S r = [l]) ∧
          r.sigTop = some (Spec.Soil.stressAt water r.top sp.geometry.layers) ∧
          r.sigBottom = some (Spec.Soil.stressAt water r.bottom sp.geometry.layers))) ∧
      (∃ r, TipRow S r ∧ r.top ≤ sp.topElevation) ∧ Frictions S fc ft ∧ createSprings S env = some A := by
  obtain ⟨C, hC, hm⟩ := Weight.mesh_facts h
  obtain ⟨C', S, water, hC', hS, hw1, hw2, hlay, hgr, -, htip, helts, hrows, r, hr, hrg⟩ := C54_mesh h w table
  rw [hC, Option.some.injEq] at hC'
  subst hC'
  obtain ⟨sections, mat, hp, hb⟩ := h.pile
  obtain ⟨hst, hmemp⟩ := Mesh.mkPile_sections sections mat p hp
  have hpb : S.profileBottom = sp.geometry.bottomElevation := by
    have hS' := hS
    simp only [input, Option.bind_eq_bind, Option.bind_eq_some_iff, Option.pure_def, Option.some.injEq] at hS'
    obtain ⟨rows, -, tip, -, -, -, -, -, rfl⟩ := hS'
    rfl
  have hprof : S.profileBottom ≤ S.ground := by
    rw [hpb, hgr]
    unfold Soil.Profile.bottomElevation
    have : 0 ≤ (sp.geometry.layers.map (fun l => |l.top - l.bottom|)).sum :=
      List.sum_nonneg (by simp)
    simp only [SoilProfile.geometry] at this ⊢
    linarith
  have hstress : ∀ z, z ≤ sp.topElevation → 0 ≤ Spec.Soil.stressAt water z sp.geometry.layers := fun z hz =>
    (Model.C10_nonneg sp.geometry water z h.built (fun l hl => (hm.lays l hl).2.2) hz).2
  -- sections
  have hsec : ∀ q ∈ S.rows, ∃ s ∈ p.sections, q.sec = some s ∧ 0 < s.diameter := by
    intro q hq
    obtain ⟨h1, h2, -, -⟩ := hrows q hq
    have he : (q.top, q.bottom) ∈ C.elements := by
      rw [← helts]
      exact List.mem_map.2 ⟨q, hq, rfl⟩
    obtain ⟨s, hs⟩ := hm.section_ _ he
    have hs' : s ∈ p.sections.filter (fun s => decide (q.top ≤ s.top ∧ q.bottom ≥ s.bottom)) := by
      rw [hs]
      exact List.mem_singleton.2 rfl
    obtain ⟨hs1, hs2⟩ := List.mem_filter.1 hs'
    have hs2 : q.top ≤ s.top ∧ q.bottom ≥ s.bottom := of_decide_eq_true hs2
    obtain ⟨t, ht, ht'⟩ := Model.C09_own_or_above sections mat p hp hb table htab s hs1 q.top
      (lt_of_le_of_lt hs2.2 h1) hs2.1
    have htm : t ∈ p.sections := by
      rcases ht' with rfl | ht'
      · exact hs1
      · exact ht'.1
    exact ⟨t, htm, by rw [h2, ht], ((Pile.built_iff t).1 (hb t ((hmemp t).1 htm))).2.1⟩
  -- frictions
  have hfr : ∀ (j : ℕ) (b : Bool), ∃ fc ft : ℝ, ∀ q, S.rows[j]? = some q → Friction S q b fc ft := by
    intro j b
    cases hq : S.rows[j]? with
    | none => exact ⟨0, 0, fun q hq' => by cases hq'⟩
    | some q =>
      have hqm : q ∈ S.rows := List.mem_of_getElem? hq
      obtain ⟨h1, -, h3, h4⟩ := hrows q hqm
      rcases le_or_gt q.top sp.topElevation with hle | hlt
      · obtain ⟨⟨l, hl⟩, e1, e2⟩ := h3 hle
        obtain ⟨s, -, hs, hD⟩ := hsec q hqm
        have hlm : l ∈ sp.layers := by
          have : l ∈ owners S q := by
            rw [hl]
            exact List.mem_singleton.2 rfl
          rw [← hlay]
          exact (List.mem_filter.1 this).1
        have hsig : ∃ sig, (if b then q.sigBottom else q.sigTop) = some sig ∧ 0 ≤ sig := by
          cases b
          · exact ⟨_, e1, hstress _ hle⟩
          · exact ⟨_, e2, hstress _ (h1.le.trans hle)⟩
        obtain ⟨sig, hsig, hsig0⟩ := hsig
        obtain ⟨fc, ft, hf⟩ := friction_exists hl h1.le (hsound l hlm) hs hD b hsig hsig0
        exact ⟨fc, ft, fun q' hq' => by cases hq'; exact hf⟩
      · exact ⟨0, 0, fun q' hq' => by cases hq'; exact .outside (h4 hlt)⟩
  choose fc ft hf using hfr
  have hfr : Frictions S fc ft := fun j q b hq => hf j b q hq
  have hstr : ∀ l ∈ sp.layers, tipIn S l = true → TipStrength S l := by
    intro l' hl' hti
    have hti : l'.top ≥ S.tip ∧ l'.bottom ≤ S.tip := of_decide_eq_true hti
    refine ⟨fun m hm' => ?_, fun m hm' => ?_⟩
    · obtain ⟨Su, e, -⟩ := (hsound l' hl' _ hm').1 (l'.top - S.tip) (by linarith [hti.1]) (by linarith [hti.2])
      exact ⟨Su, e⟩
    · obtain ⟨d, e, -⟩ := (hsound l' hl' _ hm').1 (l'.top - S.tip) (by linarith [hti.1]) (by linarith [hti.2])
      exact ⟨d, e⟩
  have hrm : r ∈ S.rows := List.mem_of_getLast? hr.last
  obtain ⟨hr1, -, hr3, -⟩ := hrows r hrm
  obtain ⟨-, -, e2⟩ := hr3 hrg
  have hrt : r.bottom = tipz := by rw [hr.tip, htip]
  have hsr : ∀ q ∈ S.rows, ∀ l ∈ owners S q, SoundRow S l q := by
    intro q hq l hl
    obtain ⟨h1, -, h3, h4⟩ := hrows q hq
    have hle : q.top ≤ sp.topElevation := by
      by_contra hlt
      rw [h4 (not_le.1 hlt)] at hl
      cases hl
    obtain ⟨-, e3, e4⟩ := h3 hle
    have hlm : l ∈ sp.layers := by
      rw [← hlay]
      exact (List.mem_filter.1 hl).1
    have he : (q.top, q.bottom) ∈ C.elements := by
      rw [← helts]
      exact List.mem_map.2 ⟨q, hq, rfl⟩
    obtain ⟨s, hsm, hs, hD⟩ := hsec q hq
    exact {
      layer := (hm.lays l.toLayer (List.mem_map.2 ⟨l, hlm, rfl⟩)).1
      inside := of_decide_eq_true (List.mem_filter.1 hl).2
      order := h1.le
      ground := by rw [hgr]; exact hle
      tip := by rw [htip]; exact (hm.range _ he).2
      profile := hprof
      section_ := ⟨s, hs, hD, fun m hm' => by rw [hgr, htip]; exact hlat l hlm m hm' s hsm⟩
      stress := fun b => by
        cases b
        · exact ⟨_, e3, hstress _ hle⟩
        · exact ⟨_, e4, hstress _ (h1.le.trans hle)⟩
      tipStress := ⟨_, by rw [sigTip, hr.last, Option.bind_some, e2], hstress _ (hr1.le.trans hrg)⟩ }
  obtain ⟨A, hA⟩ := C64_input henv henv' henv'' hfr hsr (fun l hl => hstr l (hlay ▸ hl))
  exact ⟨C, S, water, fc, ft, A, hC, hS, hw1, hw2, hlay, htip, hstress,
    fun q hq => ⟨(hrows q hq).1, (hsec q hq).imp (fun _ h => ⟨h.1, h.2.1⟩), (hrows q hq).2.2.1⟩, ⟨r, hr, hrg⟩, hfr, hA⟩

/-- **C64, a Model with sound soil models can be created.** Pile and profile as in C54, axial and lateral models with
parameters in the stated ranges: creating the springs of the Model raises no exception, whatever the switches and
random numbers.  Partial: layers meet exactly and lie on the 0.1 mm grid like all other levels, and the pile head is not
below ground; PISA models with slenderness between 1 and 6 and, for Dunkirk sand, relative density up to 50 %. -/
theorem C64_model_partial {p : Pile.Pile ℝ} {sp : SoilProfile} {x2mesh : List ℝ} {c top tipz : ℝ}
    (h : Weight.Setup p sp.geometry x2mesh c top tipz) (w : Switches) {table : List (ℝ × Pile.Section ℝ)}
    (htab : Model.SortedRows p table) (henv : GoodDraws env) (henv' : GoodTip env) (henv'' : GoodLateral env)
    (hsound : ∀ l ∈ sp.layers, ∀ m, l.axial = some m → Sound (l.top - l.bottom) m)
    (hlat : ∀ l ∈ sp.layers, ∀ m, l.lateral = some m → ∀ s ∈ p.sections,
      Spec.Sound.Lateral s.diameter (sp.topElevation - tipz) m) :
    ∃ A, modelSprings p sp x2mesh c w table env = some A := by
  obtain ⟨C, S, water, fc, ft, A, -, hS, -, -, -, -, -, -, -, -, hA⟩ :=
    C64_setup h w htab henv henv' henv'' hsound hlat
  exact ⟨A, by rw [modelSprings, hS]; exact hA⟩

/-- **C56 for every Model with sound soil models.** Both capacities are reported: the shaft
resistances are the sums of the limit frictions of the nodes times the lengths attributed to them, the tip
resistance is the unit end bearing of the layer at the tip times the area that its plugging option selects, and
zero if there is no axial model or the switch is off.  Partial: layers meet exactly and the pile head is not below
ground; perimeters and lengths are those of `Friction` and `span`. -/
theorem C56_model_partial {p : Pile.Pile ℝ} {sp : SoilProfile} {x2mesh : List ℝ} {c top tipz : ℝ}
    (h : Weight.Setup p sp.geometry x2mesh c top tipz) (w : Switches) {table : List (ℝ × Pile.Section ℝ)}
    (htab : Model.SortedRows p table) (henv : GoodDraws env) (henv' : GoodTip env) (henv'' : GoodLateral env)
    (hsound : ∀ l ∈ sp.layers, ∀ m, l.axial = some m → Sound (l.top - l.bottom) m)
    (hlat : ∀ l ∈ sp.layers, ∀ m, l.lateral = some m → ∀ s ∈ p.sections,
      Spec.Sound.Lateral s.diameter (sp.topElevation - tipz) m)
    {g : Pile.Section ℝ} (hg : p.sections.getLast? = some g) (hwall : g.thickness ≤ g.diameter) :
    ∃ (C : Mesh.Coordinates ℝ) (S : Input) (water : ℝ) (fc ft : ℕ → Bool → ℝ) (l : SoilLayer),
      Mesh.getCoordinates p (some sp.geometry) x2mesh c = some C ∧
      input p sp x2mesh c w table = some S ∧ Frictions S fc ft ∧
      water ≤ sp.waterLine ∧ sp.waterLine - water ≤ c + 1 / 10000 ∧
      shaft p sp x2mesh c w table env = some
        (∑ i ∈ Finset.range C.elements.length, (fc i false * (span (elevations C) C.elements.length i / 2) +
            fc i true * (span (elevations C) C.elements.length (i + 1) / 2)),
         ∑ i ∈ Finset.range C.elements.length, (ft i false * (span (elevations C) C.elements.length i / 2) +
            ft i true * (span (elevations C) C.elements.length (i + 1) / 2))) ∧
      l ∈ sp.layers ∧ l.bottom ≤ tipz ∧ tipz < l.top ∧
      (∀ m, l.axial = some (.clay m) → w.baseAxial = true →
        ∃ Su, Params.layered m.Su (l.top - tipz) (l.top - l.bottom) = some Su ∧
          tip p sp x2mesh c w table env = some (9 * Su * m.qMul * endArea m.plugging g)) ∧
      (∀ m, l.axial = some (.sand m) → w.baseAxial = true →
        ∃ delta lim nq, Params.layered m.delta (l.top - tipz) (l.top - l.bottom) = some delta ∧
          OnCurveBoth bearingLimit delta lim ∧ OnCurveBoth bearingFactor delta nq ∧
          tip p sp x2mesh c w table env = some
            (min lim (nq * Spec.Soil.stressAt water tipz sp.geometry.layers) * m.qMul *
              endArea m.plugging g)) ∧
      (l.axial = none ∨ w.baseAxial = false → tip p sp x2mesh c w table env = some 0) := by
  obtain ⟨C, S, water, fc, ft, A, hC, hS, hw1, hw2, hlay, htip, hstress, hrows, ⟨r, hr, hrg⟩, hfr, hA⟩ :=
    C64_setup h w htab henv henv' henv'' hsound hlat
  obtain ⟨sections, mat, hp, hb⟩ := h.pile
  obtain ⟨hst, hmemp⟩ := Mesh.mkPile_sections sections mat p hp
  have hgm : g ∈ p.sections := List.mem_of_getLast? hg
  have hgb := (Pile.built_iff g).1 (hb g ((hmemp g).1 hgm))
  have hsw : S.baseAxial = w.baseAxial := by
    have hS' := hS
    simp only [input, Option.bind_eq_bind, Option.bind_eq_some_iff, Option.pure_def, Option.some.injEq] at hS'
    obtain ⟨rows, -, tip, -, -, -, -, -, rfl⟩ := hS'
    rfl
  obtain ⟨hts, -⟩ := tip_section hS hg ⟨hgb.2.2.le, hwall⟩
  -- the last element
  have hrm : r ∈ S.rows := List.mem_of_getLast? hr.last
  obtain ⟨hr1, -, hr3⟩ := hrows r hrm
  obtain ⟨⟨l, hl⟩, e1, e2⟩ := hr3 hrg
  have hlo : l ∈ owners S r := by
    rw [hl]
    exact List.mem_singleton.2 rfl
  have hlm : l ∈ sp.layers := by
    rw [← hlay]
    exact (List.mem_filter.1 hlo).1
  have hin : r.top ≤ l.top ∧ l.bottom ≤ r.bottom := of_decide_eq_true (List.mem_filter.1 hlo).2
  have hrt : r.bottom = tipz := by rw [hr.tip, htip]
  obtain ⟨C', hC', -, hsh⟩ := C56_model_shaft_partial h w table hS hA henv hfr
  rw [hC, Option.some.injEq] at hC'
  subst hC'
  have htipE : tip p sp x2mesh c w table env = Extract.tipResistance (rows A.qz) := by
    simp only [tip, modelSprings, hS, hA, Option.bind_eq_bind, Option.bind_some]
  have htin : tipIn S l = true := by
    unfold tipIn
    exact decide_eq_true ⟨by rw [htip, ← hrt]; linarith [hin.1], by rw [htip, ← hrt]; exact hin.2⟩
  refine ⟨C, S, water, fc, ft, l, hC, hS, hfr, hw1, hw2, hsh, hlm, by rw [← hrt]; exact hin.2,
    by rw [← hrt]; linarith [hin.1], fun m hm' hw => ?_, fun m hm' hw => ?_, fun hn => ?_⟩
  · obtain ⟨h1, -, -, -, -, h6⟩ := hsound l hlm _ hm'
    obtain ⟨Su, e, hSu⟩ := h1 (l.top - S.tip) (by rw [htip, ← hrt]; linarith [hin.1])
      (by rw [htip, ← hrt]; linarith [hin.2])
    refine ⟨Su, by rw [← htip]; exact e, ?_⟩
    rw [htipE]
    exact C56_tip_clay hA hr hr1.le hl hm' (hsw.trans hw) hts (henv' _ _).1 (henv' _ _).2 e hSu.le h6
  · obtain ⟨h1, -, -, -, h6⟩ := hsound l hlm _ hm'
    obtain ⟨δ, e, -⟩ := h1 (l.top - S.tip) (by rw [htip, ← hrt]; linarith [hin.1])
      (by rw [htip, ← hrt]; linarith [hin.2])
    obtain ⟨f, hf'⟩ := C35_bearing_total (Spec.Soil.stressAt water tipz sp.geometry.layers) δ
    obtain ⟨lim, nq, hlim, hnq, -⟩ := (C35_bearing_law _ _ _).1 hf'
    refine ⟨δ, lim, nq, by rw [← htip]; exact e, hlim, hnq, ?_⟩
    rw [htipE]
    refine C56_tip_sand hA hr hr1.le hl hm' (hsw.trans hw) hts (henv' _ _).1 (henv' _ _).2
      (by rw [e2, hrt]) (hstress _ ?_) e hlim hnq h6
    exact h.ground.le
  · rw [htipE]
    exact C56_tip_none hA hr hr1.le hl (by rw [hsw]; exact hn)

/-! ## A case -/

theorem good_draws : GoodDraws drawsExample ∧ GoodTip drawsExample :=
  ⟨fun _ _ _ => ⟨fun _ => ⟨by norm_num [drawsExample], by norm_num [drawsExample]⟩, stableArgsort_spec⟩,
   fun _ _ => ⟨fun _ => ⟨by norm_num [drawsExample], by norm_num [drawsExample]⟩, stableArgsort_spec⟩⟩

theorem good_lateral : GoodLateral drawsExample :=
  ⟨fun _ _ _ => ⟨by simp [drawsExample], by norm_num [drawsExample]⟩,
   fun _ _ _ => ⟨fun _ => ⟨by norm_num [drawsExample], by norm_num [drawsExample]⟩, stableArgsort_spec⟩⟩

/-- A tube of 2 m diameter and 50 mm wall in clay of 50 kPa, without plug: the reported tip resistance is nine
times 50 kPa on the steel only. -/
example : tip ⟨[⟨1, -10, 2, 1 / 20⟩], Pile.steel⟩ ⟨0, -1, [⟨⟨0, -20, 18⟩, none, some (.clay axialExample)⟩]⟩ [] 1
    ⟨false, false, true, false, false, true⟩ (Model.stableRows ⟨[⟨1, -10, 2, 1 / 20⟩], Pile.steel⟩) drawsExample =
      some (9 * 50 * (Real.pi * (2 ^ 2 - (2 - 2 * (1 / 20)) ^ 2) / 4)) := by
  have hSu : ∀ d, Params.layered axialExample.Su d (0 - -20) = some 50 := by
    intro d
    norm_num [axialExample, Params.layered, Params.topBottom]
  obtain ⟨C, S, water, fc, ft, l, -, -, -, -, -, -, hl, -, -, h, -⟩ := C56_model_partial
    (env := drawsExample) (setup_example none (some (.clay axialExample)))
    ⟨false, false, true, false, false, true⟩
    (table := Model.stableRows ⟨[⟨1, -10, 2, 1 / 20⟩], Pile.steel⟩)
    ⟨Py.sortedBy_perm _ _, Py.sortedBy_pairwise _ _⟩ good_draws.1 good_draws.2 good_lateral
    (by
      intro l hl m hm
      simp only [List.mem_singleton] at hl
      subst hl
      cases hm
      refine ⟨fun d _ _ => ⟨50, hSu d, by norm_num⟩, ?_, ?_, ?_, ?_, ?_⟩ <;> norm_num [axialExample])
    (by
      intro l hl m hm
      simp only [List.mem_singleton] at hl
      subst hl
      cases hm)
    (g := ⟨1, -10, 2, 1 / 20⟩) rfl (by norm_num)
  simp only [List.mem_singleton] at hl
  subst hl
  obtain ⟨Su, e, h⟩ := h _ rfl rfl
  rw [hSu, Option.some.injEq] at e
  subst e
  rw [h]
  simp [endArea, axialExample, PluggedC]

end OpenPile.Props.Capacity
