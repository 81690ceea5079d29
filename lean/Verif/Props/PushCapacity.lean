/-
C118: an analysis holds no push beyond the shaft resistance in compression and the tip resistance that the Model reports.
-/
import Verif.Props.PullCapacity

namespace OpenPile.Props.PushCapacity
open OpenPile.Kernel OpenPile.Winkler OpenPile.Spring OpenPile.Result OpenPile.BC OpenPile.Mesh OpenPile.Analysis
open OpenPile.Spec.Spring OpenPile.Assemble OpenPile.SoilAnalysis OpenPile.Axial OpenPile.SoilModel
open OpenPile.Props.Spring OpenPile.Props.SoilTables OpenPile.Props.Ultimate OpenPile.Props.Capacity
open OpenPile.Props.Assemble (C54_tz C54_outside owners C54_mesh)
open OpenPile.Props.AxialModel OpenPile.Props.Friction OpenPile.Props.Axial
open OpenPile.Props.SoilStiffness (seenNode)
open OpenPile.Props.Uplift (TipShape)
open OpenPile.Props.Reproducible (complete_full)
open OpenPile.Props.Refine (Regular)
open OpenPile.Spec.Kernel OpenPile.Props.Beam OpenPile.Props.Analysis OpenPile.Props.Reported

open OpenPile.Props.PullCapacity
open OpenPile.Props.Assemble (TipRow C47_qz)

/-! ### the lower half of a t-z table -/

theorem interp_upto {x P r : ℝ} (hx : x < 0) (hP : 0 ≤ P) (rest : Curve) : ∀ pre : Curve, (∀ q ∈ pre, |q.2| ≤ P) →
    interp x (pre ++ (0, 0) :: rest) = some r → |r| ≤ P
  | [], _, h => by
    rcases rest with _ | ⟨⟨a, f⟩, rest⟩
    · simp only [List.nil_append, interp, Option.some.injEq] at h
      rw [← h, abs_zero]
      exact hP
    · rw [List.nil_append, interp, if_pos hx, Option.some.injEq] at h
      rw [← h, abs_zero]
      exact hP
  | [(a, f)], hq, h => by
    by_cases h1 : x < a
    · rw [List.singleton_append, interp, if_pos h1, Option.some.injEq] at h
      rw [← h]
      exact hq (a, f) (by simp)
    · rw [List.singleton_append, interp, if_neg h1, if_pos hx] at h
      refine interp_within x [(a, f), (0, 0)] P r ?_ ?_
      · intro q hq'
        simp only [List.mem_cons, List.not_mem_nil, or_false] at hq'
        rcases hq' with rfl | rfl
        · exact hq _ (by simp)
        · simpa using hP
      · rw [interp, if_neg h1, if_pos hx]
        exact h
  | (a, f) :: (b, g) :: pre, hq, h => by
    rw [List.cons_append, List.cons_append, interp] at h
    by_cases h1 : x < a
    · rw [if_pos h1, Option.some.injEq] at h
      rw [← h]
      exact hq (a, f) (by simp)
    rw [if_neg h1] at h
    by_cases h2 : x < b
    · refine interp_within x [(a, f), (b, g)] P r ?_ ?_
      · intro q hq'
        simp only [List.mem_cons, List.not_mem_nil, or_false] at hq'
        rcases hq' with rfl | rfl
        · exact hq _ (by simp)
        · exact hq _ (by simp)
      · rw [interp, if_neg h1, if_pos h2]
        rwa [if_pos h2] at h
    · rw [if_neg h2] at h
      exact interp_upto hx hP rest ((b, g) :: pre) (fun q hq' => hq q (List.mem_cons_of_mem _ hq')) h

theorem halves_nonneg {tab : Curve} {U D : ℝ} (h : Halves tab U D) : 0 ≤ U ∧ 0 ≤ D := by
  obtain ⟨up, down, -, h0, h1, -, h2, h3⟩ := h
  rcases up with _ | ⟨q, up⟩
  · simp at h1
  rcases down with _ | ⟨q', down⟩
  · simp at h0
  exact ⟨(abs_nonneg _).trans (h2 q (by simp)), (abs_nonneg _).trans (h3 q' (by simp))⟩

/-- Secant stiffness times a downward movement stays below the greatest resistance of the lower half. -/
theorem tz_pushed {tab : Curve} {U D u k : ℝ} (h0 : Halves tab U D) (hu : u ≤ 0) (h : tzStiffness tab .secant u = some k) :
    k * |u| ≤ D := by
  have hP := (halves_nonneg h0).2
  unfold tzStiffness at h
  by_cases hs : (tab.map (fun q => |q.1|)).sum = 0
  · rw [if_pos hs, Option.some.injEq] at h
    rw [← h, zero_mul]
    exact hP
  rw [if_neg hs] at h
  by_cases hu0 : u = 0
  · rw [hu0, abs_zero, mul_zero]
    exact hP
  obtain ⟨up, down, rfl, heq, hodd, -, -, hdown⟩ := h0
  obtain ⟨g1, g2⟩ := zeroIndex_mid up down ((0 : ℝ), (0 : ℝ)) heq hodd
  unfold axialCurveStiffness at h
  rw [g1, g2] at h
  rcases hd : down.head? with _ | ⟨x1, p1⟩
  · simp [hd] at h
  · simp only [hd, Option.bind_eq_bind, Option.bind_some, reduceCtorEq, hu0, or_self, if_false] at h
    rcases hr : interp u (up ++ (0, 0) :: down).reverse with _ | r
    · rw [hr] at h
      simp at h
    · simp only [hr, Option.bind_some, sub_zero] at h
      unfold absQuot at h
      rw [if_neg hu0, Option.some.injEq] at h
      rw [← h, abs_div, div_mul_cancel₀ _ (abs_pos.2 hu0).ne']
      rw [List.reverse_append, List.reverse_cons, List.append_assoc, List.singleton_append] at hr
      exact interp_upto (lt_of_le_of_ne hu hu0) hP _ _ (fun q hq => hdown q (List.mem_reverse.1 hq)) hr

/-! ### the spring under the tip -/

theorem stored_within {c : List ℝ × List ℝ} {hi : ℝ} (h1 : IsGreatest (forces c) hi) (h2 : IsLeast (forces c) 0) :
    Within ((c.1.zip c.2).map (fun q => (-q.1, -q.2))) hi := by
  intro q hq
  obtain ⟨a, ha, rfl⟩ := List.mem_map.1 hq
  have hm : a.2 ∈ forces c := ⟨a.1, ha⟩
  simp only
  rw [abs_neg, abs_of_nonneg (h2.2 hm)]
  exact h1.2 hm

variable {S : Input} {env : Draws}

/-- The spring under the tip resists with no more than the tip resistance that is reported. -/
theorem tip_within {p : Pile.Pile ℝ} {sp : SoilProfile} {x2mesh : List ℝ} {c top tipz : ℝ}
    (h : Weight.Setup p sp.geometry x2mesh c top tipz) (w : Switches) {table : List (ℝ × Pile.Section ℝ)}
    (htab : Model.SortedRows p table) (henv : GoodDraws env) (henv' : GoodTip env) (henv'' : GoodLateral env)
    (hsound : ∀ l ∈ sp.layers, ∀ m, l.axial = some m → Sound (l.top - l.bottom) m)
    (hlat : ∀ l ∈ sp.layers, ∀ m, l.lateral = some m → ∀ s ∈ p.sections,
      Spec.Sound.Lateral s.diameter (sp.topElevation - tipz) m)
    {g : Pile.Section ℝ} (hg : p.sections.getLast? = some g) (hwall : g.thickness ≤ g.diameter) :
    ∃ A q, modelSprings p sp x2mesh c w table env = some A ∧ Capacity.tip p sp x2mesh c w table env = some q ∧ Within A.qz q := by
  obtain ⟨C, S, water, fc, ft, A, hC, hS, hw1, hw2, hlay, htip, hstress, hrows, ⟨r, hr, hrg⟩, hfr, hA⟩ :=
    C64_setup h w htab henv henv' henv'' hsound hlat
  obtain ⟨sections, mat, hp, hb⟩ := h.pile
  obtain ⟨hst, hmemp⟩ := Mesh.mkPile_sections sections mat p hp
  have hgm : g ∈ p.sections := List.mem_of_getLast? hg
  have hgb := (Pile.built_iff g).1 (hb g ((hmemp g).1 hgm))
  obtain ⟨hts, -⟩ := tip_section hS hg ⟨hgb.2.2.le, hwall⟩
  have hrm : r ∈ S.rows := List.mem_of_getLast? hr.last
  obtain ⟨hr1, -, hr3⟩ := hrows r hrm
  obtain ⟨⟨l, hl⟩, e1, e2⟩ := hr3 hrg
  have hlo : l ∈ owners S r := by
    rw [hl]
    exact List.mem_singleton.2 rfl
  have hlm : l ∈ sp.layers := by
    rw [← hlay]
    exact (List.mem_filter.1 hlo).1
  have hin : r.top ≤ l.top ∧ l.bottom ≤ r.bottom := of_decide_eq_true (List.mem_filter.1 hlo).2
  have hrt : r.bottom = tipz := by rw [hr.tip, htip]
  have hM : modelSprings p sp x2mesh c w table env = some A := by
    rw [modelSprings, hS]
    exact hA
  have htipE : Capacity.tip p sp x2mesh c w table env = Extract.tipResistance (Capacity.rows A.qz) := by
    simp only [Capacity.tip, hM, Option.bind_eq_bind, Option.bind_some]
  obtain ⟨b, e3, h1, h2⟩ := backbone_peaks 15 _ _ (henv' l.top (S.rows.length - 1)).1 (henv' l.top (S.rows.length - 1)).2
  have fin : ∀ {z : ℝ × ℝ} {f v : ℝ} {cc : List ℝ × List ℝ}, 0 ≤ f → 0 ≤ v →
      scaleCurve z.2 v (scaleCurve z.1 f b) = cc → A.qz = (cc.1.zip cc.2).map (fun q => (-q.1, -q.2)) →
      ∃ A q, modelSprings p sp x2mesh c w table env = some A ∧ Capacity.tip p sp x2mesh c w table env = some q ∧
        Within A.qz q := by
    intro z f v cc hf hv e hqz
    obtain ⟨q1, q2⟩ := tip_of_peaks z.1 z.2 f v h1 h2 hf hv
    rw [e] at q1 q2
    refine ⟨A, f * v, hM, ?_, ?_⟩
    · rw [htipE, hqz]
      simp only [Extract.tipResistance, (stored_ends q1 q2).1, Option.bind_eq_bind, Option.bind_some,
        Option.pure_def, Option.some.injEq]
      rw [abs_neg, abs_of_nonneg (mul_nonneg hf hv)]
    · rw [hqz]
      exact stored_within q1 q2
  have none_ : (l.axial = none ∨ S.baseAxial = false) →
      ∃ A q, modelSprings p sp x2mesh c w table env = some A ∧ Capacity.tip p sp x2mesh c w table env = some q ∧
        Within A.qz q := by
    intro hn
    refine ⟨A, 0, hM, by rw [htipE]; exact C56_tip_none hA hr hr1.le hl hn, ?_⟩
    rw [(C47_qz hA hr hr1.le hl).2.2 hn]
    intro q hq
    rw [List.eq_of_mem_replicate hq]
    simp
  cases hd : S.baseAxial with
  | false => exact none_ (Or.inr hd)
  | true =>
    cases hm : l.axial with
    | none => exact none_ (Or.inl hm)
    | some m =>
      cases m with
      | clay m =>
        obtain ⟨k1, -, -, -, -, k6⟩ := hsound l hlm _ hm
        obtain ⟨Su, eS, hSu⟩ := k1 (l.top - S.tip) (by rw [htip, ← hrt]; linarith [hin.1])
          (by rw [htip, ← hrt]; linarith [hin.2])
        obtain ⟨s, cc, -, e, hqz⟩ := (C47_qz hA hr hr1.le hl).1 m hm hd
        simp only [ClayAxial.qzSpring, qzApiClay, qmaxClay, eS, e3, Option.bind_eq_bind, Option.bind_some,
          Option.pure_def, Option.some.injEq, hts.area, hts.footprint, bearing_endArea] at e
        exact fin (z := (s.diameter, m.wMul)) (by linarith) (mul_nonneg k6 (endArea_nonneg _ hts.wall)) e hqz
      | sand m =>
        obtain ⟨k1, -, -, -, k6⟩ := hsound l hlm _ hm
        obtain ⟨δ, eS, -⟩ := k1 (l.top - S.tip) (by rw [htip, ← hrt]; linarith [hin.1])
          (by rw [htip, ← hrt]; linarith [hin.2])
        obtain ⟨sig, s, cc, e0, -, e, hqz⟩ := (C47_qz hA hr hr1.le hl).2.1 m hm hd
        rw [e2, Option.some.injEq] at e0
        obtain ⟨f, hf⟩ := C35_bearing_total sig δ
        have hsig0 : 0 ≤ sig := by
          rw [← e0, hrt]
          exact hstress _ h.ground.le
        simp only [SandAxial.qzSpring, qzApiSand, hf, eS, e3, Option.bind_eq_bind, Option.bind_some,
          Option.pure_def, Option.some.injEq, hts.area, hts.footprint, bearing_endArea] at e
        exact fin (z := (s.diameter, m.wMul)) (C35_bearing_bounds sig δ _ hsig0 hf).1
          (mul_nonneg k6 (endArea_nonneg _ hts.wall)) e hqz

theorem tipShape_two {c : Curve} (h : TipShape c) : TwoSided (negate c) := by
  rcases h with rfl | ⟨w, Q, -, rfl⟩
  · exact ⟨List.replicate 7 (0, 0), List.replicate 7 (0, 0), by simp [negate, zeros, List.replicate], rfl, rfl⟩
  · refine ⟨((Uplift.tipPoints w Q).take 7).map (fun q => (-q.1, -q.2)), ((Uplift.tipPoints w Q).drop 8).map (fun q => (-q.1, -q.2)),
      ?_, ?_, ?_⟩ <;> simp [negate, Uplift.tipPoints]

/-! ### the analysis and the reported resistances -/

/-- **C118, from the tables (partial).** A pile without axial supports that moves up nowhere carries a push of at most `ρ` times
what the lower halves of its t-z springs can resist, plus what the spring under its tip can, up to the residual. -/
theorem C118_tables_partial {ty : ElementType} {p : Pile.Pile ℝ} {top tip : ℝ} (hp : Analysis.Stack p top tip)
    (hreg : ∀ s ∈ p.sections, ∀ L : ℝ, 0 < L → Regular ty (elemOf Real.pi p.material s L)) {C : Coordinates ℝ}
    (hm : MeshOn p top tip C) {w : Switches} {A : Arrays} {bcs : List (Cond ℝ)}
    {t : SoilTables} (ht : solveSoilOn ty p C w A bcs 100 = some (.numbers t)) (hu : Unheld C.nodes bcs .z)
    (hsink : ∀ row ∈ t.disp, row.2.1 ≤ 0) {U D : ℕ → Bool → ℝ}
    (hT : ∀ e < C.elements.length, ∀ b, Halves (A.tz e b) (U e b) (D e b)) {q : ℝ} (hq : TwoSided A.qz ∧ Within A.qz q) {ρ : ℝ}
    (hρ : 0 ≤ ρ) (hev : ∀ {n : ℕ} (z s y r : Fin (n + 1) → ℝ), Listed t.toTables z s y r → EvenRows s ρ) :
    ∃ (n : ℕ) (z : Fin (n + 1) → ℝ) (g : Nodal ℤ), C.nodes = List.ofFn z ∧ globalForces C.nodes bcs = .ok g ∧
      |(g.z.map (fun i : ℤ => (i : ℝ))).sum| ≤ ρ * Ultimate.shaft z D + q + Real.sqrt C.nodes.length * t.error := by
  obtain ⟨n, z, s, y, r, py, tz, mt, hh, m, k, g, h1, h2, h3, h4, h5⟩ := C59_tables_axial hp hreg hm ht hu
  have anti : StrictAnti z := by
    obtain ⟨n', z', -, -, -, -, -, -, -, -, -, -, -, e1, e2, -⟩ := soil_balance hp hreg hm ht
    have hn : n' = n := by
      have := congrArg List.length (e1.symm.trans h1)
      simpa using this
    subst hn
    rwa [← List.ofFn_injective (e1.symm.trans h1)]
  have hlen : C.elements.length = n := by
    rw [hm.elements, h1]
    simp
  have hhalf : ∀ (e : Fin n) b, Halves (A.tz e.1 b) (U e.1 b) (D e.1 b) := fun e b => hT e.1 (by rw [hlen]; exact e.2) b
  have hs : ∀ j, s j ≤ 0 := by
    intro j
    refine hsink (z j, s j, y j, r j) ?_
    rw [show t.disp = _ from h2, List.mem_ofFn]
    exact ⟨j, rfl⟩
  refine ⟨n, z, g, h1, h4, ?_⟩
  have htip : |k * s (Fin.last n)| ≤ q := by
    have := h3.baseAxial
    split_ifs at this
    · have k0 : 0 ≤ k := C24_nonneg _ _ _ _ (Or.inr (Or.inr (Or.inr this)))
      rw [abs_mul, abs_of_nonneg k0]
      exact qz_within _ _ _ _ hq.2 hq.1 this
    · rw [this, zero_mul, abs_zero]
      obtain ⟨⟨up, down, e, -⟩, hw⟩ := hq
      exact hw.nonneg (by rw [e]; simp)
  have hsum : |∑ e, axialOf z s y r tz e| ≤ ρ * Ultimate.shaft z D := by
    refine (Finset.abs_sum_le_sum_abs _ _).trans ?_
    unfold Ultimate.shaft
    rw [Finset.mul_sum]
    refine Finset.sum_le_sum (fun e _ => axial_bound (T := D) anti (fun b => ?_) hρ (hev z s y r h2))
    have := h3.axial e b
    split_ifs at this
    · exact ⟨C24_nonneg _ _ _ _ (Or.inr (Or.inr (Or.inl this))), tz_pushed (hhalf e b) (hs _) this⟩
    · rw [this, zero_mul]
      exact ⟨le_rfl, (halves_nonneg (hhalf e b)).2⟩
  have a1 := abs_le.1 h5
  have a2 := abs_le.1 hsum
  have a3 := abs_le.1 htip
  rw [abs_le]
  constructor <;> linarith

/-- **C118 (partial).** From the calls to the tables. -/
theorem C118_graded_partial {ty : ElementType} {p : Pile.Pile ℝ} {sp : SoilProfile} {x2mesh : List ℝ} {c top tipz : ℝ}
    (h : Weight.Setup p sp.geometry x2mesh c top tipz) (hb : ∀ s ∈ p.sections, Spec.Pile.Built s)
    (hreg : ∀ s ∈ p.sections, ∀ L : ℝ, 0 < L → Regular ty (elemOf Real.pi p.material s L)) {w : Switches}
    {table : List (ℝ × Pile.Section ℝ)} (htab : Model.SortedRows p table) (henv : GoodDraws env) (henv' : GoodTip env)
    (henv'' : GoodLateral env) (hsound : ∀ l ∈ sp.layers, ∀ m, l.axial = some m → Sound (l.top - l.bottom) m)
    (hlat : ∀ l ∈ sp.layers, ∀ m, l.lateral = some m → ∀ s ∈ p.sections,
      Spec.Sound.Lateral s.diameter (sp.topElevation - tipz) m)
    {gs : Pile.Section ℝ} (hg : p.sections.getLast? = some gs) (hwall : gs.thickness ≤ gs.diameter)
    (hpos : Uplift.WPos sp) (hz : ZNonneg sp.layers) {bcs : List (Cond ℝ)} {t : SoilTables}
    (ht : solveSoil ty p sp x2mesh c w table env bcs = some (.numbers t))
    (hu : ∀ C, getCoordinates p (some sp.geometry) x2mesh c = some C → Unheld C.nodes bcs .z)
    (hsink : ∀ row ∈ t.disp, row.2.1 ≤ 0) {ρ κ : ℝ}
    (hρ : 0 ≤ ρ) (hev : ∀ {n : ℕ} (z s y r : Fin (n + 1) → ℝ), Listed t.toTables z s y r → EvenRows s ρ)
    (hκ : ∀ C, getCoordinates p (some sp.geometry) x2mesh c = some C → Graded C κ) :
    ∃ (C : Coordinates ℝ) (g : Nodal ℤ) (compression tension end_ : ℝ),
      getCoordinates p (some sp.geometry) x2mesh c = some C ∧ globalForces C.nodes bcs = .ok g ∧
      Capacity.shaft p sp x2mesh c w table env = some (compression, tension) ∧
      Capacity.tip p sp x2mesh c w table env = some end_ ∧
      |(g.z.map (fun i : ℤ => (i : ℝ))).sum| ≤ ρ * (κ * compression) + end_ + Real.sqrt C.nodes.length * t.error := by
  obtain ⟨C₀, S, water, fc, ft, A, hC, hS, -, -, hlay, -, -, -, -, hf, hA⟩ := C64_setup h w htab henv henv' henv'' hsound hlat
  obtain ⟨A', q, hM, hq, hw'⟩ := tip_within h w htab henv henv' henv'' hsound hlat hg hwall
  have hM' : modelSprings p sp x2mesh c w table env = some A := by
    rw [modelSprings, hS]
    exact hA
  rw [hM'] at hM
  cases hM
  obtain ⟨cc, hcc, hsh⟩ := Uplift.modelSprings_shape hb htab henv' hpos hM'
  unfold solveSoil at ht
  simp only [hC, hM', Option.bind_eq_bind, Option.bind_some] at ht
  obtain ⟨C', hC', hm⟩ := NoModels.meshOn_setup h
  rw [hC] at hC'
  cases hC'
  obtain ⟨C', hC', helts, hrep⟩ := C56_model_shaft_partial h w table hS hA henv hf
  rw [hC] at hC'
  cases hC'
  have hlen' : C₀.elements.length = S.rows.length := by rw [helts, List.length_map]
  have hhalf : ∀ e < C₀.elements.length, ∀ b, Halves (A.tz e b) (ft e b) (fc e b) := fun e he b =>
    friction_halves hA henv (by rw [hlay]; exact hz) (List.getElem?_eq_getElem (hlen' ▸ he))
      (hf e _ b (List.getElem?_eq_getElem (hlen' ▸ he)))
  obtain ⟨n, z, g, h1, h4, h5⟩ := C118_tables_partial (NoModels.stack_setup h) hreg hm ht (hu C₀ hC) hsink hhalf
    ⟨by rw [hcc]; exact tipShape_two hsh, hw'⟩ hρ hev
  have hlen : C₀.elements.length = n := by
    rw [hm.elements, h1]
    simp
  refine ⟨C₀, g, _, _, q, hC, h4, hrep, hq, h5.trans (add_le_add_left (add_le_add_left (mul_le_mul_of_nonneg_left ?_ hρ) _) _)⟩
  unfold Ultimate.shaft
  rw [hlen, Finset.sum_range, Finset.mul_sum]
  refine Finset.sum_le_sum (fun e _ => ?_)
  have hg := hκ C₀ hC e.1 (by rw [h1]; simp)
  have z1 : C₀.nodes.getD e.1 0 = z e.castSucc := by
    rw [h1, List.getD_eq_getElem?_getD, List.getElem?_ofFn, dif_pos (by omega)]
    rfl
  have z2 : C₀.nodes.getD (e.1 + 1) 0 = z e.succ := by
    rw [h1, List.getD_eq_getElem?_getD, List.getElem?_ofFn, dif_pos (by omega)]
    rfl
  rw [z1, z2, hlen] at hg
  have he : e.1 < C₀.elements.length := by rw [hlen]; exact e.2
  have g1 := mul_le_mul_of_nonneg_left (hg _ (Or.inl rfl)) (halves_nonneg (hhalf e.1 he false)).2
  have g2 := mul_le_mul_of_nonneg_left (hg _ (Or.inr rfl)) (halves_nonneg (hhalf e.1 he true)).2
  linarith

/-- **C118, any mesh (partial).** The push that an analysis holds is at most twice `ρ` times the shaft resistance in compression plus
the tip resistance that the Model reports. -/
theorem C118_partial {ty : ElementType} {p : Pile.Pile ℝ} {sp : SoilProfile} {x2mesh : List ℝ} {c top tipz : ℝ}
    (h : Weight.Setup p sp.geometry x2mesh c top tipz) (hb : ∀ s ∈ p.sections, Spec.Pile.Built s)
    (hreg : ∀ s ∈ p.sections, ∀ L : ℝ, 0 < L → Regular ty (elemOf Real.pi p.material s L)) {w : Switches}
    {table : List (ℝ × Pile.Section ℝ)} (htab : Model.SortedRows p table) (henv : GoodDraws env) (henv' : GoodTip env)
    (henv'' : GoodLateral env) (hsound : ∀ l ∈ sp.layers, ∀ m, l.axial = some m → Sound (l.top - l.bottom) m)
    (hlat : ∀ l ∈ sp.layers, ∀ m, l.lateral = some m → ∀ s ∈ p.sections,
      Spec.Sound.Lateral s.diameter (sp.topElevation - tipz) m)
    {gs : Pile.Section ℝ} (hg : p.sections.getLast? = some gs) (hwall : gs.thickness ≤ gs.diameter)
    (hpos : Uplift.WPos sp) (hz : ZNonneg sp.layers) {bcs : List (Cond ℝ)} {t : SoilTables}
    (ht : solveSoil ty p sp x2mesh c w table env bcs = some (.numbers t))
    (hu : ∀ C, getCoordinates p (some sp.geometry) x2mesh c = some C → Unheld C.nodes bcs .z)
    (hsink : ∀ row ∈ t.disp, row.2.1 ≤ 0) {ρ : ℝ}
    (hρ : 0 ≤ ρ) (hev : ∀ {n : ℕ} (z s y r : Fin (n + 1) → ℝ), Listed t.toTables z s y r → EvenRows s ρ) :
    ∃ (C : Coordinates ℝ) (g : Nodal ℤ) (compression tension end_ : ℝ),
      getCoordinates p (some sp.geometry) x2mesh c = some C ∧ globalForces C.nodes bcs = .ok g ∧
      Capacity.shaft p sp x2mesh c w table env = some (compression, tension) ∧
      Capacity.tip p sp x2mesh c w table env = some end_ ∧
      |(g.z.map (fun i : ℤ => (i : ℝ))).sum| ≤ ρ * (2 * compression) + end_ + Real.sqrt C.nodes.length * t.error := by
  obtain ⟨C', hC', hm⟩ := NoModels.meshOn_setup h
  exact C118_graded_partial h hb hreg htab henv henv' henv'' hsound hlat hg hwall hpos hz ht hu hsink hρ hev (fun C hC => by
    rw [hC] at hC'
    cases hC'
    exact graded_two hm)

/-- **C118, elements of one length (partial).** On such a mesh the factor 2 is not needed. -/
theorem C118_uniform_partial {ty : ElementType} {p : Pile.Pile ℝ} {sp : SoilProfile} {x2mesh : List ℝ} {c top tipz : ℝ}
    (h : Weight.Setup p sp.geometry x2mesh c top tipz) (hb : ∀ s ∈ p.sections, Spec.Pile.Built s)
    (hreg : ∀ s ∈ p.sections, ∀ L : ℝ, 0 < L → Regular ty (elemOf Real.pi p.material s L)) {w : Switches}
    {table : List (ℝ × Pile.Section ℝ)} (htab : Model.SortedRows p table) (henv : GoodDraws env) (henv' : GoodTip env)
    (henv'' : GoodLateral env) (hsound : ∀ l ∈ sp.layers, ∀ m, l.axial = some m → Sound (l.top - l.bottom) m)
    (hlat : ∀ l ∈ sp.layers, ∀ m, l.lateral = some m → ∀ s ∈ p.sections,
      Spec.Sound.Lateral s.diameter (sp.topElevation - tipz) m)
    {gs : Pile.Section ℝ} (hg : p.sections.getLast? = some gs) (hwall : gs.thickness ≤ gs.diameter)
    (hpos : Uplift.WPos sp) (hz : ZNonneg sp.layers) {bcs : List (Cond ℝ)} {t : SoilTables}
    (ht : solveSoil ty p sp x2mesh c w table env bcs = some (.numbers t))
    (hu : ∀ C, getCoordinates p (some sp.geometry) x2mesh c = some C → Unheld C.nodes bcs .z)
    (hsink : ∀ row ∈ t.disp, row.2.1 ≤ 0) {ρ : ℝ}
    (hρ : 0 ≤ ρ) (hev : ∀ {n : ℕ} (z s y r : Fin (n + 1) → ℝ), Listed t.toTables z s y r → EvenRows s ρ)
    {l : ℝ} (hl : ∀ C, getCoordinates p (some sp.geometry) x2mesh c = some C → ∀ e ∈ C.elements, e.1 - e.2 = l) :
    ∃ (C : Coordinates ℝ) (g : Nodal ℤ) (compression tension end_ : ℝ),
      getCoordinates p (some sp.geometry) x2mesh c = some C ∧ globalForces C.nodes bcs = .ok g ∧
      Capacity.shaft p sp x2mesh c w table env = some (compression, tension) ∧
      Capacity.tip p sp x2mesh c w table env = some end_ ∧
      |(g.z.map (fun i : ℤ => (i : ℝ))).sum| ≤ ρ * compression + end_ + Real.sqrt C.nodes.length * t.error := by
  obtain ⟨C', hC', hm⟩ := NoModels.meshOn_setup h
  obtain ⟨C, g, a, b, d, h1, h2, h3, h4, h5⟩ := C118_graded_partial (κ := 1) h hb hreg htab henv henv' henv'' hsound hlat hg hwall
    hpos hz ht hu hsink hρ hev (fun C hC => by
      have := hl C hC
      rw [hC] at hC'
      cases hC'
      exact graded_one hm this)
  rw [one_mul] at h5
  exact ⟨C, g, a, b, d, h1, h2, h3, h4, h5⟩

/-! ### a pile that is pushed -/

open OpenPile.Props.Pull OpenPile.Props.MirrorModel in
/-- An analysis with all axial loads reversed, on springs that resist both ways alike. -/
theorem solveSoilOn_pull (ty : ElementType) (p : Pile.Pile ℝ) (C : Coordinates ℝ) (w : Switches) (A : Arrays)
    (hboth : BothWays (springsOf w A C.elements.length)) {bcs : List (Cond ℝ)} (hn : MirrorModel.Numbers bcs) :
    solveSoilOn ty p C w A (bcs.map pullCond) 100 = (solveSoilOn ty p C w A bcs 100).map pullResult := by
  unfold solveSoilOn
  rw [forces_pull C.nodes hn, disp_pull C.nodes hn, restrained_pull, toOption_map, toOption_map]
  simp only [Option.bind_eq_bind]
  cases (globalForces C.nodes bcs).toOption <;> [rfl; skip]
  cases (globalDisp C.nodes bcs).toOption <;> [rfl; skip]
  cases (globalRestrained C.nodes bcs).toOption <;> [rfl; skip]
  next F U R =>
  simp only [Option.map_some, Option.bind_some, dofList_pull, cast_turn, asVec_turn]
  cases asVec C.elements.length ((dofList F).map (fun i : ℤ => (i : ℝ))) <;> [rfl; skip]
  cases asVec C.elements.length (dofList U) <;> [rfl; skip]
  cases asVec C.elements.length (dofList R) <;> [rfl; skip]
  simp only [Option.map_some, Option.bind_some]
  cases allSome (fun i : Fin C.elements.length => elemAt Real.pi p C.elements[i.1]) <;> [rfl; skip]
  next vF vU vR el =>
  simp only [Option.bind_some]
  rw [C109_iteration ty el _ hboth]
  cases winkler (buildStiffness ty el (springsOf w A C.elements.length)) vF vU vR 100 with
  | converged d Q it t r => exact results_pull ty C.nodes el _ d Q it t r
  | exhausted d Q it t r => exact results_pull ty C.nodes el _ d Q it t r
  | nan it => rfl
  | raised => rfl

/-- The pile of `Uplift`, pushed down by 120 kN instead of pulled: it settles by 0.1 m. -/
theorem solvedW : ∃ t, solveSoilOn .eulerBernoulli pileS meshS switchesS Uplift.arraysV (Uplift.bcsV.map Pull.pullCond) 100
    = some (.numbers t) ∧ t.disp = [(1, -(1 / 10), 1 / 10, 0), (0, -(1 / 10), 1 / 10, 0)] := by
  obtain ⟨t, ht, hd⟩ := Uplift.solvedV
  have h := solveSoilOn_pull .eulerBernoulli pileS meshS switchesS Uplift.arraysV ⟨Or.inr fun e b => Or.inr ?_, Or.inl ?_⟩
    (bcs := Uplift.bcsV) ?_
  · rw [ht] at h
    exact ⟨_, h, by simp [Pull.pullTables, hd]⟩
  · refine ⟨?_, ?_, ?_⟩ <;> simp [springsOf, Uplift.arraysV, Pull.opp]
  · simp [springsOf, Uplift.arraysV, zeros]
  · intro c hc _ a b
    simp only [Uplift.bcsV, List.mem_cons, List.not_mem_nil, or_false] at hc
    rcases hc with rfl | rfl <;> cases a <;> simp [Cond.get]

/-- All nodes settle alike; the 1200 kN of the shaft hold the push, and nothing is needed under the tip. -/
example : ∃ t, solveSoilOn .eulerBernoulli pileS meshS switchesS Uplift.arraysV (Uplift.bcsV.map Pull.pullCond) 100 = some (.numbers t) ∧
    ∃ (n : ℕ) (z : Fin (n + 1) → ℝ) (g : Nodal ℤ), meshS.nodes = List.ofFn z ∧
      globalForces meshS.nodes (Uplift.bcsV.map Pull.pullCond) = .ok g ∧
      |(g.z.map (fun i : ℤ => (i : ℝ))).sum| ≤ 1 * Ultimate.shaft z (fun _ _ => 1200) + 0 +
        Real.sqrt meshS.nodes.length * t.error := by
  obtain ⟨t, ht, hd⟩ := solvedW
  refine ⟨t, ht, C118_tables_partial (U := fun _ _ => 1200) stackS regularS meshOnS ht ?_ ?_
    (fun e _ b => ⟨[(1, 1200)], [(-1, -1200)], rfl, rfl, rfl, ?_, ?_, ?_⟩) ⟨?_, ?_⟩ zero_le_one ?_⟩
  · refine ⟨fun gU h => ?_, fun gR h => ?_⟩
    · rw [Pull.disp_pull _ ?_, Uplift.dispV] at h
      · cases h
        simp [Nodal.get, Pull.pullNodal]
      · intro c hc _ a b
        simp only [Uplift.bcsV, List.mem_cons, List.not_mem_nil, or_false] at hc
        rcases hc with rfl | rfl <;> cases a <;> simp [Cond.get]
    · rw [Pull.restrained_pull, Uplift.heldV] at h
      cases h
      simp [Nodal.get]
  · intro row hrow
    rw [hd] at hrow
    simp only [List.mem_cons, List.not_mem_nil, or_false] at hrow
    rcases hrow with rfl | rfl <;> norm_num
  · simp
  · simp
  · simp
  · exact ⟨List.replicate 7 (0, 0), List.replicate 7 (0, 0), by simp [Uplift.arraysV, zeros, List.replicate], rfl, rfl⟩
  · intro q hq
    simp only [Uplift.arraysV, zeros] at hq
    rw [List.eq_of_mem_replicate hq]
    simp
  · intro n z s y r hl e b
    have hj : ∀ j, s j = -(1 / 10) := by
      intro j
      have hmem : (z j, s j, y j, r j) ∈ t.disp := by
        rw [show t.disp = _ from hl, List.mem_ofFn]
        exact ⟨j, rfl⟩
      rw [hd] at hmem
      simp only [List.mem_cons, Prod.mk.injEq, List.not_mem_nil, or_false] at hmem
      rcases hmem with ⟨-, a, -⟩ | ⟨-, a, -⟩ <;> exact a
    rw [hj, hj, hj]
    norm_num

/-- A tube in clay with an API axial model at the tip: the spring under the tip resists up to what the Model reports. -/
example (w : Switches) : ∃ A q, modelSprings Creation.tube (Creation.soil (.matlock (Creation.clay true))) [] 1 w
      (Model.stableRows Creation.tube) Props.Assemble.drawsExample = some A ∧
    Capacity.tip Creation.tube (Creation.soil (.matlock (Creation.clay true))) [] 1 w (Model.stableRows Creation.tube)
      Props.Assemble.drawsExample = some q ∧ Within A.qz q := by
  have hSu : ∀ d, Params.layered Props.Assemble.axialExample.Su d (0 - -20) = some 50 := by
    intro d
    norm_num [Props.Assemble.axialExample, Params.layered, Params.topBottom]
  refine tip_within (Props.Assemble.setup_example (some (.matlock (Creation.clay true))) (some (.clay Props.Assemble.axialExample))) w
    (table := Model.stableRows Creation.tube) ⟨Py.sortedBy_perm _ _, Py.sortedBy_pairwise _ _⟩ good_draws.1 good_draws.2
    good_lateral ?_ ?_ (g := ⟨1, -10, 2, 1 / 20⟩) rfl (by norm_num)
  · intro l hl m hm
    simp only [List.mem_singleton] at hl
    subst hl
    cases hm
    refine ⟨fun d _ _ => ⟨50, hSu d, by norm_num⟩, ?_, ?_, ?_, ?_, ?_⟩ <;> norm_num [Props.Assemble.axialExample]
  · intro l hl m' hm' s hs
    simp only [List.mem_singleton] at hl hs
    subst hl hs
    cases hm'
    norm_num
    exact Creation.sound_clay true

end OpenPile.Props.PushCapacity
