/-
C117: an analysis holds no pull beyond the shaft resistance in tension that the Model reports.
-/
import Verif.Props.UltimateTables
import Verif.Props.Capacity
import Verif.Props.Creation

namespace OpenPile.Props.PullCapacity
open OpenPile.Kernel OpenPile.Winkler OpenPile.Spring OpenPile.Result OpenPile.BC OpenPile.Mesh OpenPile.Analysis
open OpenPile.Spec.Spring OpenPile.Assemble OpenPile.SoilAnalysis OpenPile.Axial OpenPile.SoilModel
open OpenPile.Props.Spring OpenPile.Props.SoilTables OpenPile.Props.Ultimate OpenPile.Props.Capacity
open OpenPile.Props.Assemble (C54_tz C54_outside owners C54_mesh)
open OpenPile.Props.AxialModel OpenPile.Props.Friction OpenPile.Props.Axial
open OpenPile.Props.SoilStiffness (seenNode)
open OpenPile.Props.Uplift (TipShape)
open OpenPile.Props.Reproducible (complete_full)
open OpenPile.Props.Refine (Regular)
open OpenPile.Spec.Kernel OpenPile.Props.Beam OpenPile.Props.Analysis OpenPile.Props.Reported

/-! ### the upper half of a t-z table -/

/-- A table around an unloaded point at rest whose points for upward movement resist at most `P`. -/
def Pulled (tab : Curve) (P : ℝ) : Prop :=
  ∃ up down, tab = up ++ (0, 0) :: down ∧ up.length = down.length ∧ up.length % 2 = 1 ∧ (∀ q ∈ down, q.1 ≤ 0) ∧
    ∀ q ∈ up, |q.2| ≤ P

theorem Pulled.nonneg {tab : Curve} {P : ℝ} (h : Pulled tab P) : 0 ≤ P := by
  obtain ⟨up, down, -, -, h1, -, h2⟩ := h
  rcases up with _ | ⟨q, up⟩
  · simp at h1
  · exact (abs_nonneg _).trans (h2 q (by simp))

theorem interp_skip {x : ℝ} (hx : 0 ≤ x) (rest : Curve) : ∀ pre : Curve, (∀ q ∈ pre, q.1 ≤ 0) →
    interp x (pre ++ (0, 0) :: rest) = interp x ((0, 0) :: rest)
  | [], _ => rfl
  | [(a, f)], h => by
    have ha : a ≤ 0 := h (a, f) (by simp)
    rw [List.singleton_append, interp, if_neg (by linarith), if_neg (by linarith)]
  | (a, f) :: (b, g) :: pre, h => by
    have ha : a ≤ 0 := h (a, f) (by simp)
    have hb : b ≤ 0 := h (b, g) (by simp)
    rw [List.cons_append, List.cons_append, interp, if_neg (by linarith), if_neg (by linarith)]
    exact interp_skip hx rest ((b, g) :: pre) (fun q hq => h q (List.mem_cons_of_mem _ hq))

/-- Secant stiffness times an upward movement stays below the greatest resistance of the upper half. -/
theorem tz_pulled {tab : Curve} {P u k : ℝ} (h0 : Pulled tab P) (hu : 0 ≤ u) (h : tzStiffness tab .secant u = some k) :
    k * |u| ≤ P := by
  have hP := h0.nonneg
  unfold tzStiffness at h
  by_cases hs : (tab.map (fun q => |q.1|)).sum = 0
  · rw [if_pos hs, Option.some.injEq] at h
    rw [← h, zero_mul]
    exact hP
  rw [if_neg hs] at h
  by_cases hu0 : u = 0
  · rw [hu0, abs_zero, mul_zero]
    exact hP
  obtain ⟨up, down, rfl, heq, hodd, hdown, hup⟩ := h0
  obtain ⟨g1, g2⟩ := zeroIndex_mid up down ((0 : ℝ), (0 : ℝ)) heq hodd
  unfold axialCurveStiffness at h
  rw [g1, g2] at h
  rcases hd : down.head? with _ | ⟨x1, p1⟩
  · simp [hd] at h
  · simp only [hd, Option.bind_eq_bind, Option.bind_some, reduceCtorEq, hu0, or_self, if_false] at h
    rcases hr : interp u (up ++ (0, 0) :: down).reverse with _ | r
    · rw [hr] at h
      simp at h
    · simp only [hr, Option.bind_some, sub_zero] at h
      unfold absQuot at h
      rw [if_neg hu0, Option.some.injEq] at h
      rw [← h, abs_div, div_mul_cancel₀ _ (abs_pos.2 hu0).ne']
      rw [List.reverse_append, List.reverse_cons, List.append_assoc, List.singleton_append,
        interp_skip hu _ _ (fun q hq => hdown q (List.mem_reverse.1 hq))] at hr
      refine interp_within u _ P r ?_ hr
      intro q hq
      rcases List.mem_cons.1 hq with rfl | hq
      · simpa using hP
      · exact hup q (List.mem_reverse.1 hq)

/-- A table around an unloaded point at rest whose points for upward movement resist at most `U` and whose points for downward
movement resist at most `D`. -/
def Halves (tab : Curve) (U D : ℝ) : Prop :=
  ∃ up down, tab = up ++ (0, 0) :: down ∧ up.length = down.length ∧ up.length % 2 = 1 ∧ (∀ q ∈ down, q.1 ≤ 0) ∧
    (∀ q ∈ up, |q.2| ≤ U) ∧ ∀ q ∈ down, |q.2| ≤ D

theorem Halves.pulled {tab : Curve} {U D : ℝ} (h : Halves tab U D) : Pulled tab U := by
  obtain ⟨up, down, h1, h2, h3, h4, h5, -⟩ := h
  exact ⟨up, down, h1, h2, h3, h4, h5⟩

/-- The backbones of API, scaled. -/
theorem backbone_halves (z1 z2 z3 z4 z5 z6 z7 t1 t2 t3 t4 t5 t6 t7 : ℝ)
    (hz : 0 ≤ z1 ∧ 0 ≤ z2 ∧ 0 ≤ z3 ∧ 0 ≤ z4 ∧ 0 ≤ z5 ∧ 0 ≤ z6 ∧ 0 ≤ z7)
    (ht : ∀ t ∈ [t1, t2, t3, t4, t5, t6, t7], 0 ≤ t ∧ t ≤ 1) (tens a b c d : ℝ) (hn : 0 ≤ tens)
    (ha : 0 ≤ a) (hb : 0 ≤ b) (hc : 0 ≤ c) (hd : 0 ≤ d) :
    Halves (((scaleCurve c d (scaleCurve a b (Axial.mirror 1 [0, z1, z2, z3, z4, z5, z6, z7],
      Axial.mirror tens [0, t1, t2, t3, t4, t5, t6, t7]))).1.zip (scaleCurve c d (scaleCurve a b
      (Axial.mirror 1 [0, z1, z2, z3, z4, z5, z6, z7], Axial.mirror tens [0, t1, t2, t3, t4, t5, t6, t7]))).2).map
      (fun q => (-q.1, -q.2))) (tens * b * d) (b * d) := by
  obtain ⟨h1, h2, h3, h4, h5, h6, h7⟩ := hz
  refine ⟨[z7, z6, z5, z4, z3, z2, z1].zip [t7, t6, t5, t4, t3, t2, t1] |>.map (fun q => (q.1 * a * c, tens * q.2 * b * d)),
    [z1, z2, z3, z4, z5, z6, z7].zip [t1, t2, t3, t4, t5, t6, t7] |>.map (fun q => (-(q.1 * a * c), -(q.2 * b * d))),
    ?_, by simp, by simp, ?_, ?_, ?_⟩
  · simp [scaleCurve, Axial.mirror]
  · intro q hq
    obtain ⟨⟨x, y⟩, hm, rfl⟩ := List.mem_map.1 hq
    have hx := (List.of_mem_zip hm).1
    have : 0 ≤ x := by
      simp only [List.mem_cons, List.not_mem_nil, or_false] at hx
      rcases hx with rfl | rfl | rfl | rfl | rfl | rfl | rfl <;> assumption
    simp only [neg_nonpos]
    positivity
  · intro q hq
    obtain ⟨⟨x, y⟩, hm, rfl⟩ := List.mem_map.1 hq
    have hy : y ∈ [t1, t2, t3, t4, t5, t6, t7] := by
      have := (List.of_mem_zip hm).2
      simp only [List.mem_cons, List.not_mem_nil, or_false] at this ⊢
      tauto
    obtain ⟨y0, y1⟩ := ht y hy
    simp only
    rw [abs_of_nonneg (by positivity)]
    have : tens * y ≤ tens * 1 := mul_le_mul_of_nonneg_left y1 hn
    rw [mul_one] at this
    gcongr
  · intro q hq
    obtain ⟨⟨x, y⟩, hm, rfl⟩ := List.mem_map.1 hq
    obtain ⟨y0, y1⟩ := ht y (List.of_mem_zip hm).2
    simp only
    rw [abs_neg, abs_of_nonneg (by positivity)]
    have : y * b * d ≤ 1 * b * d := by gcongr
    rwa [one_mul] at this

theorem zeros_halves : Halves (List.replicate 15 (0, 0)) 0 0 :=
  ⟨List.replicate 7 (0, 0), List.replicate 7 (0, 0), rfl, rfl, rfl, fun q hq => by rw [List.eq_of_mem_replicate hq],
    fun q hq => by rw [List.eq_of_mem_replicate hq]; simp, fun q hq => by rw [List.eq_of_mem_replicate hq]; simp⟩

/-- The displacement multipliers of the shaft friction are not negative. -/
def ZNonneg (layers : List SoilLayer) : Prop :=
  ∀ l ∈ layers, (∀ a, l.axial = some (.clay a) → 0 ≤ a.zMul) ∧ ∀ a, l.axial = some (.sand a) → 0 ≤ a.zMul

variable {S : Input} {env : Draws}

/-- Every t-z spring of a Model resists with no more than its limit friction in tension and in compression. -/
theorem friction_halves {A : Arrays} (hA : createSprings S env = some A) (henv : GoodDraws env) (hz : ZNonneg S.layers) {j : ℕ} {r : Row}
    (hr : S.rows[j]? = some r) {b : Bool} {fc ft : ℝ} (h : Friction S r b fc ft) : Halves (A.tz j b) ft fc := by
  cases h with
  | outside h =>
    rw [(C54_outside hA hr h b).2.1]
    exact zeros_halves
  | off l hl h =>
    rw [(C54_tz hA hr hl b).2.2 h]
    exact zeros_halves
  | clay l m s sig Su f hl hm hd hsig hs hsig0 hSu hSu0 hf hD htm hten hres hres' =>
    obtain ⟨sig', s', c, e1, e2, e3, e4⟩ := (C54_tz hA hr hl b).1 m hm hd
    rw [hsig, Option.some.injEq] at e1
    rw [hs, Option.some.injEq] at e2
    subst e1 e2
    have hper : 0 < s.diameter * Real.pi := mul_pos hD Real.pi_pos
    have hpsi : psi sig Su = Su / if sig = 0 then 1 / 1000 else sig := by
      unfold psi
      split_ifs <;> rfl
    have hpos : 0 < psi sig Su := by
      rw [hpsi]
      split_ifs with h
      · positivity
      · exact div_pos hSu0 (lt_of_le_of_ne hsig0 (Ne.symm h))
    have hf1 : fmaxClay sig Su 1 = some f := by rw [fmaxClay_eq hpos, hf, hpsi]
    have hf0 : 0 ≤ f := by
      obtain ⟨g, hg, hg0, -⟩ := C35_clay_bounds sig Su 1 hsig0 hSu0.le zero_le_one
      rw [hf1, Option.some.injEq] at hg
      rwa [hg]
    obtain ⟨ct, tens, e, h1, h2, h3, h4⟩ :=
      circumference_eq m.plugging (s.diameter * Real.pi) (s.diameter * Real.pi) m.tensionMul hper.le hper
    have hlm : l ∈ S.layers := by
      have : l ∈ owners S r := by rw [hl]; exact List.mem_singleton.2 rfl
      exact List.mem_of_mem_filter this
    simp only [ClayAxial.tzSpring, tzApiClay, backboneClay, max_self, hSu, e, hf1, Option.bind_eq_bind, Option.bind_some,
      Option.pure_def, Option.bind_eq_some_iff, Option.some.injEq] at e3
    obtain ⟨c1, ⟨c2, hc2, rfl⟩, rfl⟩ := e3
    rw [complete_full (henv _ _ _).2 (by simp [Axial.mirror]; norm_num) (by simp [Axial.mirror]) (by simp [Axial.mirror])] at hc2
    cases hc2
    obtain ⟨k1, k2⟩ := sides_contact m.plugging s.diameter m.tensionMul f m.tMul h1 h3
    rw [e4, ← k1, ← k2, show -(-(tens * f) * (m.tMul * ct)) = tens * f * (m.tMul * ct) by ring]
    refine backbone_halves _ _ _ _ _ _ _ _ _ _ _ _ _ _ (by norm_num) ?_ _ _ _ _ _ (h4 hten) hD.le hf0 ((hz l hlm).1 m hm)
      (mul_nonneg htm h2.le)
    intro t ht
    simp only [List.mem_cons, List.not_mem_nil, or_false] at ht
    rcases ht with rfl | rfl | rfl | rfl | rfl | rfl | rfl
    all_goals first | exact ⟨hres, hres'⟩ | norm_num
  | sand l m s sig delta lim f hl hm hd hsig hs hde hlim hf hf0 hD htm hten =>
    obtain ⟨sig', s', c, e1, e2, e3, e4⟩ := (C54_tz hA hr hl b).2.1 m hm hd
    rw [hsig, Option.some.injEq] at e1
    rw [hs, Option.some.injEq] at e2
    subst e1 e2
    have hper : 0 < s.diameter * Real.pi := mul_pos hD Real.pi_pos
    have hf1 : fmaxSand sig delta m.K = some f := (C35_sand_law _ _ _ _).2 ⟨lim, hlim, hf⟩
    obtain ⟨ct, tens, e, h1, h2, h3, h4⟩ :=
      circumference_eq m.plugging (s.diameter * Real.pi) (s.diameter * Real.pi) m.tensionMul hper.le hper
    have hlm : l ∈ S.layers := by
      have : l ∈ owners S r := by rw [hl]; exact List.mem_singleton.2 rfl
      exact List.mem_of_mem_filter this
    simp only [SandAxial.tzSpring, tzApiSand, backboneSand, max_self, hde, e, hf1, Option.bind_eq_bind, Option.bind_some,
      Option.pure_def, Option.bind_eq_some_iff, Option.some.injEq] at e3
    obtain ⟨c1, ⟨c2, hc2, rfl⟩, rfl⟩ := e3
    rw [complete_full (henv _ _ _).2 (by simp [Axial.mirror]; norm_num) (by simp [Axial.mirror]) (by simp [Axial.mirror])] at hc2
    cases hc2
    obtain ⟨k1, k2⟩ := sides_contact m.plugging s.diameter m.tensionMul f m.tMul h1 h3
    rw [e4, ← k1, ← k2, show -(-(tens * f) * (m.tMul * ct)) = tens * f * (m.tMul * ct) by ring]
    refine backbone_halves _ _ _ _ _ _ _ _ _ _ _ _ _ _ (by norm_num) ?_ _ _ _ _ _ (h4 hten) zero_le_one hf0 ((hz l hlm).2 m hm)
      (mul_nonneg htm h2.le)
    intro t ht
    simp only [List.mem_cons, List.not_mem_nil, or_false] at ht
    rcases ht with rfl | rfl | rfl | rfl | rfl | rfl | rfl
    all_goals norm_num

/-- Every t-z spring of a Model resists a pull with no more than its limit friction in tension. -/
theorem friction_pulled {A : Arrays} (hA : createSprings S env = some A) (henv : GoodDraws env) (hz : ZNonneg S.layers) {j : ℕ} {r : Row}
    (hr : S.rows[j]? = some r) {b : Bool} {fc ft : ℝ} (h : Friction S r b fc ft) : Pulled (A.tz j b) ft :=
  (friction_halves hA henv hz hr h).pulled

/-! ### the analysis and the reported resistance -/

/-- Each element is at most `κ` times as long as the lengths that `shaft_resistance` gives to its two ends. -/
def Graded (C : Coordinates ℝ) (κ : ℝ) : Prop :=
  ∀ i, i + 1 < C.nodes.length → ∀ j, j = i ∨ j = i + 1 →
    C.nodes.getD i 0 - C.nodes.getD (i + 1) 0 ≤ κ * span (Capacity.elevations C) C.elements.length j

/-- **C117, from the tables (partial).** A pile without axial supports that moves down nowhere carries a pull of at most `ρ` times
what the upper halves of its t-z springs can resist, up to the residual. -/
theorem C117_tables_partial {ty : ElementType} {p : Pile.Pile ℝ} {top tip : ℝ} (hp : Analysis.Stack p top tip)
    (hreg : ∀ s ∈ p.sections, ∀ L : ℝ, 0 < L → Regular ty (elemOf Real.pi p.material s L)) {C : Coordinates ℝ}
    (hm : MeshOn p top tip C) {w : Switches} {A : Arrays} (hA : ∃ c, A.qz = negate c ∧ TipShape c) {bcs : List (Cond ℝ)}
    {t : SoilTables} (ht : solveSoilOn ty p C w A bcs 100 = some (.numbers t)) (hu : Unheld C.nodes bcs .z)
    (hlift : ∀ row ∈ t.disp, 0 ≤ row.2.1) {T : ℕ → Bool → ℝ}
    (hT : ∀ e < C.elements.length, ∀ b, Pulled (A.tz e b) (T e b)) {ρ : ℝ}
    (hρ : 0 ≤ ρ) (hev : ∀ {n : ℕ} (z s y r : Fin (n + 1) → ℝ), Listed t.toTables z s y r → EvenRows s ρ) :
    ∃ (n : ℕ) (z : Fin (n + 1) → ℝ) (g : Nodal ℤ), C.nodes = List.ofFn z ∧ globalForces C.nodes bcs = .ok g ∧
      |(g.z.map (fun i : ℤ => (i : ℝ))).sum| ≤ ρ * Ultimate.shaft z T + Real.sqrt C.nodes.length * t.error := by
  obtain ⟨n, z, s, y, r, tz, g, h1, h2, h3, h4, h5⟩ := Uplift.C111_balance hp hreg hm hA ht hu
    (fun row hr => hlift row (List.mem_of_getLast? hr))
  have anti : StrictAnti z := by
    obtain ⟨n', z', -, -, -, -, -, -, -, -, -, -, -, e1, e2, -⟩ := soil_balance hp hreg hm ht
    have hn : n' = n := by
      have := congrArg List.length (e1.symm.trans h1)
      simpa using this
    subst hn
    rwa [← List.ofFn_injective (e1.symm.trans h1)]
  have hlen : C.elements.length = n := by
    rw [hm.elements, h1]
    simp
  have hpull : ∀ (e : Fin n) b, Pulled (A.tz e.1 b) (T e.1 b) := fun e b => hT e.1 (by rw [hlen]; exact e.2) b
  have hs : ∀ j, 0 ≤ s j := by
    intro j
    refine hlift (z j, s j, y j, r j) ?_
    rw [show t.disp = _ from h2, List.mem_ofFn]
    exact ⟨j, rfl⟩
  refine ⟨n, z, g, h1, h4, ?_⟩
  have hsum : |∑ e, axialOf z s y r tz e| ≤ ρ * Ultimate.shaft z T := by
    refine (Finset.abs_sum_le_sum_abs _ _).trans ?_
    unfold Ultimate.shaft
    rw [Finset.mul_sum]
    refine Finset.sum_le_sum (fun e _ => axial_bound (T := T) anti (fun b => ?_) hρ (hev z s y r h2))
    have := h3 e b
    split_ifs at this
    · exact ⟨C24_nonneg _ _ _ _ (Or.inr (Or.inr (Or.inl this))), tz_pulled (hpull e b) (hs _) this⟩
    · rw [this, zero_mul]
      exact ⟨le_rfl, (hpull e b).nonneg⟩
  have a1 := abs_le.1 h5
  have a2 := abs_le.1 hsum
  rw [abs_le]
  constructor <;> linarith

/-- **C117 (partial).** A pile that moves down nowhere carries a pull of at most `ρ κ` times the shaft resistance in tension that
`Model.shaft_resistance` reports, up to the residual. -/
theorem C117_graded_partial {ty : ElementType} {p : Pile.Pile ℝ} {sp : SoilProfile} {x2mesh : List ℝ} {c top tip : ℝ}
    (h : Weight.Setup p sp.geometry x2mesh c top tip) (hb : ∀ s ∈ p.sections, Spec.Pile.Built s)
    (hreg : ∀ s ∈ p.sections, ∀ L : ℝ, 0 < L → Regular ty (elemOf Real.pi p.material s L)) {w : Switches}
    {table : List (ℝ × Pile.Section ℝ)} (htab : Model.SortedRows p table) (henv : GoodDraws env) (henv' : GoodTip env)
    (hpos : Uplift.WPos sp) (hz : ZNonneg sp.layers) {bcs : List (Cond ℝ)} {t : SoilTables}
    (ht : solveSoil ty p sp x2mesh c w table env bcs = some (.numbers t))
    (hu : ∀ C, getCoordinates p (some sp.geometry) x2mesh c = some C → Unheld C.nodes bcs .z)
    (hlift : ∀ row ∈ t.disp, 0 ≤ row.2.1) {fc ft : ℕ → Bool → ℝ}
    (hf : ∀ S, input p sp x2mesh c w table = some S → Frictions S fc ft) {ρ κ : ℝ}
    (hρ : 0 ≤ ρ) (hev : ∀ {n : ℕ} (z s y r : Fin (n + 1) → ℝ), Listed t.toTables z s y r → EvenRows s ρ)
    (hκ : ∀ C, getCoordinates p (some sp.geometry) x2mesh c = some C → Graded C κ) :
    ∃ (C : Coordinates ℝ) (g : Nodal ℤ) (compression tension : ℝ),
      getCoordinates p (some sp.geometry) x2mesh c = some C ∧ globalForces C.nodes bcs = .ok g ∧
      Capacity.shaft p sp x2mesh c w table env = some (compression, tension) ∧
      |(g.z.map (fun i : ℤ => (i : ℝ))).sum| ≤ ρ * (κ * tension) + Real.sqrt C.nodes.length * t.error := by
  unfold solveSoil at ht
  simp only [Option.bind_eq_bind, Option.bind_eq_some_iff] at ht
  obtain ⟨C, hC, A, hA, ht⟩ := ht
  obtain ⟨C', hC', hm⟩ := NoModels.meshOn_setup h
  rw [hC] at hC'
  cases hC'
  have hshape := Uplift.modelSprings_shape hb htab henv' hpos hA
  unfold modelSprings at hA
  simp only [Option.bind_eq_bind, Option.bind_eq_some_iff] at hA
  obtain ⟨S, hS, hA⟩ := hA
  obtain ⟨C', hC', helts, hrep⟩ := C56_model_shaft_partial h w table hS hA henv (hf S hS)
  rw [hC] at hC'
  cases hC'
  have hlay : S.layers = sp.layers := by
    have hS' := hS
    simp only [input, Option.bind_eq_bind, Option.bind_eq_some_iff, Option.pure_def, Option.some.injEq] at hS'
    obtain ⟨rows, -, tip, -, -, -, -, -, rfl⟩ := hS'
    rfl
  have hlen' : C.elements.length = S.rows.length := by rw [helts, List.length_map]
  have hpull : ∀ e < C.elements.length, ∀ b, Pulled (A.tz e b) (ft e b) := fun e he b =>
    friction_pulled hA henv (by rw [hlay]; exact hz) (List.getElem?_eq_getElem (hlen' ▸ he))
      (hf S hS e _ b (List.getElem?_eq_getElem (hlen' ▸ he)))
  obtain ⟨n, z, g, h1, h4, h5⟩ := C117_tables_partial (NoModels.stack_setup h) hreg hm hshape ht (hu C hC) hlift hpull hρ hev
  have hlen : C.elements.length = n := by
    rw [hm.elements, h1]
    simp
  refine ⟨C, g, _, _, hC, h4, hrep, h5.trans (add_le_add_left (mul_le_mul_of_nonneg_left ?_ hρ) _)⟩
  unfold Ultimate.shaft
  rw [hlen, Finset.sum_range, Finset.mul_sum]
  refine Finset.sum_le_sum (fun e _ => ?_)
  have hg := hκ C hC e.1 (by rw [h1]; simp)
  have z1 : C.nodes.getD e.1 0 = z e.castSucc := by
    rw [h1, List.getD_eq_getElem?_getD, List.getElem?_ofFn, dif_pos (by omega)]
    rfl
  have z2 : C.nodes.getD (e.1 + 1) 0 = z e.succ := by
    rw [h1, List.getD_eq_getElem?_getD, List.getElem?_ofFn, dif_pos (by omega)]
    rfl
  rw [z1, z2, hlen] at hg
  have he : e.1 < C.elements.length := by rw [hlen]; exact e.2
  have g1 := mul_le_mul_of_nonneg_left (hg _ (Or.inl rfl)) (hpull e.1 he false).nonneg
  have g2 := mul_le_mul_of_nonneg_left (hg _ (Or.inr rfl)) (hpull e.1 he true).nonneg
  linarith

/-- Any mesh is graded with the factor 2. -/
theorem graded_two {p : Pile.Pile ℝ} {top tip : ℝ} {C : Coordinates ℝ} (hm : MeshOn p top tip C) : Graded C 2 := by
  intro i hi j hj
  have hlen : C.elements.length = C.nodes.length - 1 := by
    rw [hm.elements]
    simp
  have step : ∀ k, k + 1 < C.nodes.length → C.nodes.getD (k + 1) 0 < C.nodes.getD k 0 := by
    intro k hk
    rw [List.getD_eq_getElem _ _ hk, List.getD_eq_getElem _ _ (by omega)]
    exact List.pairwise_iff_getElem.1 hm.dec k (k + 1) (by omega) hk (by omega)
  unfold span Capacity.elevations
  have h0 := step i hi
  rw [hlen]
  split_ifs with c1 c2
  · obtain rfl : i = 0 := by omega
    rw [zero_add] at h0 ⊢
    linarith
  · obtain rfl : i = C.nodes.length - 1 - 1 := by omega
    rw [show C.nodes.length - 1 - 1 + 1 = C.nodes.length - 1 by omega] at h0 ⊢
    linarith
  · rcases hj with rfl | rfl
    · have := step (j - 1) (by omega)
      rw [Nat.sub_add_cancel (by omega)] at this
      linarith
    · have := step (i + 1) (by omega)
      rw [Nat.add_sub_cancel]
      linarith

/-- A mesh of elements of one length is graded with the factor 1. -/
theorem graded_one {p : Pile.Pile ℝ} {top tip : ℝ} {C : Coordinates ℝ} (hm : MeshOn p top tip C) {l : ℝ}
    (hl : ∀ e ∈ C.elements, e.1 - e.2 = l) : Graded C 1 := by
  intro i hi j hj
  have hlen : C.elements.length = C.nodes.length - 1 := by
    rw [hm.elements]
    simp
  have step : ∀ k, k + 1 < C.nodes.length → C.nodes.getD k 0 - C.nodes.getD (k + 1) 0 = l := by
    intro k hk
    rw [List.getD_eq_getElem _ _ hk, List.getD_eq_getElem _ _ (by omega)]
    refine hl (C.nodes[k], C.nodes[k + 1]) ?_
    rw [hm.elements]
    refine List.mem_iff_getElem.2 ⟨k, by simp; omega, by simp⟩
  unfold span Capacity.elevations
  have h0 := step i hi
  rw [hlen, one_mul]
  split_ifs with c1 c2
  · obtain rfl : i = 0 := by omega
    rw [zero_add] at h0 ⊢
  · obtain rfl : i = C.nodes.length - 1 - 1 := by omega
    rw [show C.nodes.length - 1 - 1 + 1 = C.nodes.length - 1 by omega] at h0 ⊢
  · rcases hj with rfl | rfl
    · have := step (j - 1) (by omega)
      rw [Nat.sub_add_cancel (by omega)] at this
      linarith
    · have := step (i + 1) (by omega)
      rw [Nat.add_sub_cancel]
      linarith

/-- **C117, any mesh (partial).** From the calls to the tables, for piles in layers with valid axial soil models: the pull that an
analysis holds is at most twice `ρ` times the shaft resistance in tension that the Model reports. -/
theorem C117_partial {ty : ElementType} {p : Pile.Pile ℝ} {sp : SoilProfile} {x2mesh : List ℝ} {c top tip : ℝ}
    (h : Weight.Setup p sp.geometry x2mesh c top tip) (hb : ∀ s ∈ p.sections, Spec.Pile.Built s)
    (hreg : ∀ s ∈ p.sections, ∀ L : ℝ, 0 < L → Regular ty (elemOf Real.pi p.material s L)) {w : Switches}
    {table : List (ℝ × Pile.Section ℝ)} (htab : Model.SortedRows p table) (henv : GoodDraws env) (henv' : GoodTip env)
    (henv'' : GoodLateral env) (hsound : ∀ l ∈ sp.layers, ∀ m, l.axial = some m → Sound (l.top - l.bottom) m)
    (hlat : ∀ l ∈ sp.layers, ∀ m, l.lateral = some m → ∀ s ∈ p.sections,
      Spec.Sound.Lateral s.diameter (sp.topElevation - tip) m)
    (hpos : Uplift.WPos sp) (hz : ZNonneg sp.layers) {bcs : List (Cond ℝ)} {t : SoilTables}
    (ht : solveSoil ty p sp x2mesh c w table env bcs = some (.numbers t))
    (hu : ∀ C, getCoordinates p (some sp.geometry) x2mesh c = some C → Unheld C.nodes bcs .z)
    (hlift : ∀ row ∈ t.disp, 0 ≤ row.2.1) {ρ : ℝ}
    (hρ : 0 ≤ ρ) (hev : ∀ {n : ℕ} (z s y r : Fin (n + 1) → ℝ), Listed t.toTables z s y r → EvenRows s ρ) :
    ∃ (C : Coordinates ℝ) (g : Nodal ℤ) (compression tension : ℝ),
      getCoordinates p (some sp.geometry) x2mesh c = some C ∧ globalForces C.nodes bcs = .ok g ∧
      Capacity.shaft p sp x2mesh c w table env = some (compression, tension) ∧
      |(g.z.map (fun i : ℤ => (i : ℝ))).sum| ≤ ρ * (2 * tension) + Real.sqrt C.nodes.length * t.error := by
  obtain ⟨C₀, S, water, fc, ft, A, hC₀, hS, -, -, -, -, -, -, -, hf, -⟩ := C64_setup h w htab henv henv' henv'' hsound hlat
  have hf' : ∀ S', input p sp x2mesh c w table = some S' → Frictions S' fc ft := by
    intro S' hS'
    rw [hS] at hS'
    cases hS'
    exact hf
  obtain ⟨C', hC', hm⟩ := NoModels.meshOn_setup h
  exact C117_graded_partial h hb hreg htab henv henv' hpos hz ht hu hlift hf' hρ hev (fun C hC => by
    rw [hC] at hC'
    cases hC'
    exact graded_two hm)

/-- **C117, elements of one length (partial).** On such a mesh the factor 2 is not needed. -/
theorem C117_uniform_partial {ty : ElementType} {p : Pile.Pile ℝ} {sp : SoilProfile} {x2mesh : List ℝ} {c top tip : ℝ}
    (h : Weight.Setup p sp.geometry x2mesh c top tip) (hb : ∀ s ∈ p.sections, Spec.Pile.Built s)
    (hreg : ∀ s ∈ p.sections, ∀ L : ℝ, 0 < L → Regular ty (elemOf Real.pi p.material s L)) {w : Switches}
    {table : List (ℝ × Pile.Section ℝ)} (htab : Model.SortedRows p table) (henv : GoodDraws env) (henv' : GoodTip env)
    (henv'' : GoodLateral env) (hsound : ∀ l ∈ sp.layers, ∀ m, l.axial = some m → Sound (l.top - l.bottom) m)
    (hlat : ∀ l ∈ sp.layers, ∀ m, l.lateral = some m → ∀ s ∈ p.sections,
      Spec.Sound.Lateral s.diameter (sp.topElevation - tip) m)
    (hpos : Uplift.WPos sp) (hz : ZNonneg sp.layers) {bcs : List (Cond ℝ)} {t : SoilTables}
    (ht : solveSoil ty p sp x2mesh c w table env bcs = some (.numbers t))
    (hu : ∀ C, getCoordinates p (some sp.geometry) x2mesh c = some C → Unheld C.nodes bcs .z)
    (hlift : ∀ row ∈ t.disp, 0 ≤ row.2.1) {ρ : ℝ}
    (hρ : 0 ≤ ρ) (hev : ∀ {n : ℕ} (z s y r : Fin (n + 1) → ℝ), Listed t.toTables z s y r → EvenRows s ρ)
    {l : ℝ} (hl : ∀ C, getCoordinates p (some sp.geometry) x2mesh c = some C → ∀ e ∈ C.elements, e.1 - e.2 = l) :
    ∃ (C : Coordinates ℝ) (g : Nodal ℤ) (compression tension : ℝ),
      getCoordinates p (some sp.geometry) x2mesh c = some C ∧ globalForces C.nodes bcs = .ok g ∧
      Capacity.shaft p sp x2mesh c w table env = some (compression, tension) ∧
      |(g.z.map (fun i : ℤ => (i : ℝ))).sum| ≤ ρ * tension + Real.sqrt C.nodes.length * t.error := by
  obtain ⟨C₀, S, water, fc, ft, A, hC₀, hS, -, -, -, -, -, -, -, hf, -⟩ := C64_setup h w htab henv henv' henv'' hsound hlat
  have hf' : ∀ S', input p sp x2mesh c w table = some S' → Frictions S' fc ft := by
    intro S' hS'
    rw [hS] at hS'
    cases hS'
    exact hf
  obtain ⟨C', hC', hm⟩ := NoModels.meshOn_setup h
  obtain ⟨C, g, a, b, h1, h2, h3, h4⟩ := C117_graded_partial (κ := 1) h hb hreg htab henv henv' hpos hz ht hu hlift hf' hρ hev
    (fun C hC => by
      have := hl C hC
      rw [hC] at hC'
      cases hC'
      exact graded_one hm this)
  rw [one_mul] at h4
  exact ⟨C, g, a, b, h1, h2, h3, h4⟩

/-! ### concrete cases -/

/-- The pile of `Uplift` under a pull of 120 kN; both its nodes move up alike. -/
example : ∃ t, solveSoilOn .eulerBernoulli pileS meshS switchesS Uplift.arraysV Uplift.bcsV 100 = some (.numbers t) ∧
    ∃ (n : ℕ) (z : Fin (n + 1) → ℝ) (g : Nodal ℤ), meshS.nodes = List.ofFn z ∧ globalForces meshS.nodes Uplift.bcsV = .ok g ∧
      |(g.z.map (fun i : ℤ => (i : ℝ))).sum| ≤ 1 * Ultimate.shaft z (fun _ _ => 1200) + Real.sqrt meshS.nodes.length * t.error := by
  obtain ⟨t, ht, hd⟩ := Uplift.solvedV
  refine ⟨t, ht, C117_tables_partial stackS regularS meshOnS ⟨zeros, ?_, .inl rfl⟩ ht (unheldV .z) ?_
    (fun e _ b => ⟨[(1, 1200)], [(-1, -1200)], rfl, rfl, rfl, ?_, ?_⟩) zero_le_one ?_⟩
  · simp [Uplift.arraysV, negate, zeros]
  · intro row hrow
    rw [hd] at hrow
    simp only [List.mem_cons, List.not_mem_nil, or_false] at hrow
    rcases hrow with rfl | rfl <;> norm_num
  · simp
  · simp
  · intro n z s y r hl e b
    have := listedV hd hl
    rw [(this _).1, (this _).1, (this _).1]
    norm_num

/-- A tube in clay with an API axial model: every t-z spring resists a pull up to its friction in tension, whose sum the Model reports. -/
example (w : Switches) : ∃ (S : Input) (A : Arrays) (fc ft : ℕ → Bool → ℝ) (compression tension : ℝ),
    createSprings S Props.Assemble.drawsExample = some A ∧
    (∀ (j : ℕ) (r : Row) (b : Bool), S.rows[j]? = some r → Friction S r b (fc j b) (ft j b) ∧ Pulled (A.tz j b) (ft j b)) ∧
    Capacity.shaft Creation.tube (Creation.soil (.matlock (Creation.clay true))) [] 1 w (Model.stableRows Creation.tube)
      Props.Assemble.drawsExample = some (compression, tension) := by
  obtain ⟨C, S, water, fc, ft, A, hC, hS, -, -, hlay, -, -, -, -, hf, hA⟩ := Creation.created (Creation.sound_clay true) w
  have hset := Props.Assemble.setup_example (some (.matlock (Creation.clay true))) (some (.clay Props.Assemble.axialExample))
  obtain ⟨C', -, -, hrep⟩ := C56_model_shaft_partial hset w _ hS hA good_draws.1 hf
  refine ⟨S, A, fc, ft, _, _, hA, fun j r b hr => ⟨hf j r b hr, friction_pulled hA good_draws.1 ?_ hr (hf j r b hr)⟩, hrep⟩
  rw [hlay]
  intro l hl
  simp only [Creation.soil, List.mem_singleton] at hl
  subst hl
  constructor <;> intro a ha <;> cases ha
  norm_num [Props.Assemble.axialExample]

end OpenPile.Props.PullCapacity
