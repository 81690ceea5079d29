/-
C37 (Durkhop multipliers) and C48 (initial subgrade reaction).
-/
import Verif.Model.SoilModel
import Verif.Props.Sand

namespace OpenPile.Props.Hooks
open OpenPile.Hooks OpenPile.Lateral OpenPile.SoilModel OpenPile.Params

/-! ## C37 -/

/-- **C37.** For every pile diameter, cyclic ratio and depth, the multiplier is at least one and the
normalised variant is its reciprocal. -/
theorem C37_multiplier (D ra x : ℝ) (hD : D ≠ 0) :
    ∃ a b, durkhop D ra x = some a ∧ durkhopNormalized D ra x = some b ∧ 1 ≤ a ∧ 0 < b ∧ b ≤ 1 ∧
      a * b = 1 := by
  have hm := le_max_left (9 / 10 : ℝ) (ra * (3 - 1143 / 1000 * x / D) + 343 / 1000 * x / D)
  have hp : 0 < max (9 / 10 : ℝ) (ra * (3 - 1143 / 1000 * x / D) + 343 / 1000 * x / D) := by linarith
  refine ⟨_, _, by rw [durkhop, if_neg hD], by rw [durkhopNormalized, if_neg hD], by linarith,
    by positivity, ?_, ?_⟩
  · rw [div_le_one hp]
    exact hm
  · field_simp

example : durkhop 7 1 0 = some (10 / 3) := by
  rw [durkhop, if_neg (by norm_num)]
  norm_num

/-- **C37, no diameter.** A zero diameter is an error, not a multiplier. -/
theorem C37_zero_diameter (ra x : ℝ) : durkhop 0 ra x = none ∧ durkhopNormalized 0 ra x = none := by
  simp [durkhop, durkhopNormalized]

/-- **C37, monotonic loading.** For `ra = 1` the multiplier times the cyclic factor is the static factor of
API, at every depth. -/
theorem C37_static (D x : ℝ) (hD : D ≠ 0) :
    ∃ a, durkhop D 1 x = some a ∧ 9 / 10 * a = staticFactor x D := by
  refine ⟨_, by rw [durkhop, if_neg hD], ?_⟩
  rw [staticFactor]
  have e : (1 : ℝ) * (3 - 1143 / 1000 * x / D) + 343 / 1000 * x / D = 3 - 8 / 10 * (x / D) := by ring
  rw [e]
  ring

/-- **C37, order.** Above 2.6 diameters a larger cyclic ratio gives a larger multiplier, so the number of
cycles never makes the soil stronger. -/
theorem C37_ra_mono {D ra rb x a b : ℝ} (hD : 0 < D) (hx : 1143 / 1000 * x ≤ 3 * D) (h : ra ≤ rb)
    (ha : durkhop D ra x = some a) (hb : durkhop D rb x = some b) : a ≤ b := by
  rw [durkhop, if_neg hD.ne', Option.some.injEq] at ha hb
  rw [← ha, ← hb]
  have : 0 ≤ 3 - 1143 / 1000 * x / D := by
    rw [sub_nonneg, div_le_iff₀ hD]
    exact hx
  have := mul_le_mul_of_nonneg_right h this
  have : max (9 / 10 : ℝ) (ra * (3 - 1143 / 1000 * x / D) + 343 / 1000 * x / D)
      ≤ max (9 / 10) (rb * (3 - 1143 / 1000 * x / D) + 343 / 1000 * x / D) :=
    max_le_max le_rfl (by linarith)
  linarith

example : (1143 / 1000 : ℝ) * 5 ≤ 3 * 7 := by norm_num

/-- **C37, deep springs.** Below 2.63 diameters the multiplier for monotonic loading is neutral. -/
theorem C37_deep {D x : ℝ} (hD : 0 < D) (hx : 2625 / 1000 * D ≤ x) : durkhop D 1 x = some 1 := by
  rw [durkhop, if_neg hD.ne', Option.some.injEq, max_eq_left]
  · norm_num
  · have : 2625 / 1000 ≤ x / D := by rw [le_div_iff₀ hD]; exact hx
    have e : (1 : ℝ) * (3 - 1143 / 1000 * x / D) + 343 / 1000 * x / D = 3 - 8 / 10 * (x / D) := by ring
    rw [e]
    linarith

/-- **C37 is violated: `ra = 0.3` does not leave the cyclic curves unchanged.**  The documentation says it
does; the multiplier is `1 + x / (9000 D)`, larger than one at every depth below ground and unbounded. -/
theorem C37_violated_default {D x : ℝ} (hD : 0 < D) (hx : 0 < x) :
    ∃ a, durkhop D (3 / 10) x = some a ∧ a = 1 + x / (9000 * D) ∧ 1 < a := by
  have hq : 0 < x / D := div_pos hx hD
  have e : (3 / 10 : ℝ) * (3 - 1143 / 1000 * x / D) + 343 / 1000 * x / D
      = 9 / 10 + 1 / 10000 * (x / D) := by ring
  have e2 : x / (9000 * D) = 1 / 9000 * (x / D) := by field_simp
  refine ⟨1 + x / (9000 * D), ?_, rfl, ?_⟩
  · rw [durkhop, if_neg hD.ne', Option.some.injEq, e, max_eq_right (by linarith), e2]
    ring
  · rw [e2]
    linarith

/-- Ordinate of a cyclic curve multiplied by a Durkhop factor for `ra = 1`, against the static curve. -/
theorem durkhop_ordinate {D X P kphi y a : ℝ} (hD : 0 < D) (hX : 0 ≤ X) (hP : 0 < P) (hk : 0 < kphi)
    (hy : 0 ≤ y) (ha : durkhop D 1 X = some a) :
    apiSandP (staticFactor X D) P kphi X y ≤ a * apiSandP (9 / 10) P kphi X y ∧
    (1 < a → 0 < X → 0 < y →
      apiSandP (staticFactor X D) P kphi X y < a * apiSandP (9 / 10) P kphi X y) := by
  obtain ⟨a', h1, h2⟩ := C37_static D X hD.ne'
  rw [ha, Option.some.injEq] at h1
  subst h1
  have hs : 9 / 10 ≤ staticFactor X D := le_max_left _ _
  have hs0 : 0 < staticFactor X D := by linarith
  unfold apiSandP
  rw [if_neg hP.ne', if_neg hP.ne']
  have e : a * (9 / 10 * P * Real.tanh (kphi * X * y / (9 / 10 * P)))
      = staticFactor X D * P * Real.tanh (kphi * X * y / (9 / 10 * P)) := by
    rw [← h2]; ring
  rw [e]
  have hn : 0 ≤ kphi * X * y := by positivity
  have hc : 0 < staticFactor X D * P := mul_pos hs0 hP
  constructor
  · apply mul_le_mul_of_nonneg_left _ hc.le
    apply OpenPile.Tanh.strictMono_tanh.monotone
    exact div_le_div_of_nonneg_left hn (by positivity) (by nlinarith)
  · intro h hX' hy'
    apply mul_lt_mul_of_pos_left _ hc
    apply OpenPile.Tanh.strictMono_tanh
    exact div_lt_div_of_pos_left (by positivity) (by positivity) (by nlinarith)

/-- **C37 is violated: cyclic curves with the multiplier for `ra = 1` are not the static curves.**  The
ultimate resistance agrees (`C37_static`), but the multiplier also scales the initial stiffness, so at every
displacement in between the multiplied cyclic curve lies strictly above the static one (for the same `y`). -/
theorem C37_violated_static {D X sig phi kphi y a : ℝ} (hD : 0 < D) (hX : 0 < X) (hs : 0 < sig)
    (h0 : 0 < phi) (h1 : phi < 90) (hk : 0 < kphi) (hy : 0 < y) (hx : X < 2625 / 1000 * D)
    (ha : durkhop D 1 X = some a) :
    apiSandP (factor .static X D) (sandUltimate sig X phi D) kphi X y
      < a * apiSandP (factor .cyclic X D) (sandUltimate sig X phi D) kphi X y := by
  have hP := (C30_ultimate h0.le h1 hs.le hX.le hD).2 ⟨hs, h0⟩
  have h := (durkhop_ordinate hD hX.le hP hk hy.le ha).2
  have hlt := (C30_factor hD).2.1 hx
  obtain ⟨a', e1, e2⟩ := C37_static D X hD.ne'
  rw [ha, Option.some.injEq] at e1
  subst e1
  have f1 : factor .static X D = staticFactor X D := by simp [factor]
  have f2 : factor .cyclic X D = 9 / 10 := by simp [factor]
  rw [f1, f2] at hlt ⊢
  exact h (by linarith) hX hy

example : ∃ a, durkhop 7 1 5 = some a := ⟨_, by rw [durkhop, if_neg (by norm_num)]⟩

/-! ## C48 -/

/-- **C48, API correlation.** The modulus is at least 5400 kN/m³ above and below water, and it is the one
the curve function uses when none is given. -/
theorem C48_api (phi : ℝ) (w : Bool) :
    5400 ≤ subgradeApi phi w ∧ kPhi phi 0 w = some (subgradeApi phi w) := by
  cases w <;> simp [subgradeApi, kPhi]

theorem power_pos {b e : ℝ} (hb : 0 < b) : ∃ v, power b e = some v ∧ 0 < v ∧ v = b ^ e :=
  ⟨b ^ e, by rw [power, if_neg hb.le.not_gt], Real.rpow_pos_of_pos hb e, rfl⟩

/-- **C48, Kallehave.** Below ground the modulus is positive; it increases with depth and with
diameter. -/
theorem C48_kallehave {phi X X' D D' : ℝ} (w : Bool) (hX : 0 < X) (hXX : X ≤ X') (hD : 0 < D)
    (hDD : D ≤ D') :
    ∃ k k', subgradeKallehave phi w X D = some k ∧ subgradeKallehave phi w X' D' = some k' ∧
      0 < k ∧ k ≤ k' ∧ (X < X' → k < k') ∧ (D < D' → k < k') := by
  have hX' := hX.trans_le hXX
  have hD' := hD.trans_le hDD
  have hs := (C48_api phi w).1
  obtain ⟨a, a1, a2, a3⟩ := power_pos (b := X / (5 / 2)) (e := 6 / 10) (by positivity)
  obtain ⟨b, b1, b2, b3⟩ := power_pos (b := D / (61 / 100)) (e := 5 / 10) (by positivity)
  obtain ⟨a', c1, c2, c3⟩ := power_pos (b := X' / (5 / 2)) (e := 6 / 10) (by positivity)
  obtain ⟨b', d1, d2, d3⟩ := power_pos (b := D' / (61 / 100)) (e := 5 / 10) (by positivity)
  have hs0 : 0 < subgradeApi phi w := by linarith
  have haa : a ≤ a' := by
    rw [a3, c3]
    exact Real.rpow_le_rpow (by positivity) (by linarith) (by norm_num)
  have hbb : b ≤ b' := by
    rw [b3, d3]
    exact Real.rpow_le_rpow (by positivity) (by linarith) (by norm_num)
  refine ⟨subgradeApi phi w * a * b, subgradeApi phi w * a' * b', ?_, ?_, by positivity, ?_, ?_, ?_⟩
  · unfold subgradeKallehave; rw [a1, b1]; rfl
  · unfold subgradeKallehave; rw [c1, d1]; rfl
  · have : subgradeApi phi w * a ≤ subgradeApi phi w * a' := mul_le_mul_of_nonneg_left haa hs0.le
    exact mul_le_mul this hbb b2.le (by positivity)
  · intro h
    have ha : a < a' := by
      rw [a3, c3]
      exact Real.rpow_lt_rpow (by positivity) (by linarith) (by norm_num)
    have : subgradeApi phi w * a < subgradeApi phi w * a' := mul_lt_mul_of_pos_left ha hs0
    exact mul_lt_mul this hbb b2 (by positivity)
  · intro h
    have hb : b < b' := by
      rw [b3, d3]
      exact Real.rpow_lt_rpow (by positivity) (by linarith) (by norm_num)
    have : subgradeApi phi w * a ≤ subgradeApi phi w * a' := mul_le_mul_of_nonneg_left haa hs0.le
    calc subgradeApi phi w * a * b < subgradeApi phi w * a * b' :=
          mul_lt_mul_of_pos_left hb (by positivity)
      _ ≤ _ := mul_le_mul_of_nonneg_right this d2.le

/-- **C48, Kallehave at the reference.** At 2.5 m depth and 0.61 m diameter Kallehave's modulus is the one
of API. -/
theorem C48_kallehave_reference (phi : ℝ) (w : Bool) :
    subgradeKallehave phi w (5 / 2) (61 / 100) = some (subgradeApi phi w) := by
  have h1 : power ((5 / 2) / (5 / 2)) (6 / 10) = some 1 := by
    rw [power, if_neg (by norm_num)]; norm_num
  have h2 : power ((61 / 100) / (61 / 100)) (5 / 10) = some 1 := by
    rw [power, if_neg (by norm_num)]; norm_num
  unfold subgradeKallehave
  rw [h1, h2]
  simp

/-- **C48, Kallehave at ground level.** There the modulus is zero; the curve function then falls back to
the correlation of API. -/
theorem C48_kallehave_ground (phi D : ℝ) (w : Bool) (hD : 0 ≤ D) :
    subgradeKallehave phi w 0 D = some 0 ∧
    ∀ k, subgradeKallehave phi w 0 D = some k → kPhi phi k w = some (subgradeApi phi w) := by
  have h1 : power (0 / (5 / 2)) (6 / 10) = some 0 := by
    rw [power, if_neg (by norm_num), zero_div, Real.zero_rpow (by norm_num)]
  have h2 : power (D / (61 / 100)) (5 / 10) = some ((D / (61 / 100)) ^ (5 / 10 : ℝ)) := by
    rw [power, if_neg (not_lt.2 (by positivity))]
  have e : subgradeKallehave phi w 0 D = some 0 := by
    unfold subgradeKallehave
    rw [h1, h2]
    simp
  refine ⟨e, ?_⟩
  intro k hk
  rw [e, Option.some.injEq] at hk
  rw [← hk]
  exact (C48_api phi w).2

/-- Sørensen's modulus in closed form. -/
theorem sorensen_eq {phi X D : ℝ} (h0 : 0 < phi) (hX : 1 / 100 ≤ X) (hD : 0 < D) :
    subgradeSorensen phi X D = some (50000 * X ^ (-(4 / 10) : ℝ) * D ^ (5 / 10 : ℝ)
      * degrees phi ^ (36 / 10 : ℝ)) := by
  have hX0 : 0 < X := by linarith
  have hp := Real.pi_pos
  have h1 : power (X / 1) (6 / 10) = some (X ^ (6 / 10 : ℝ)) := by
    rw [div_one, power, if_neg hX0.le.not_gt]
  have h2 : power (D / 1) (5 / 10) = some (D ^ (5 / 10 : ℝ)) := by
    rw [div_one, power, if_neg hD.le.not_gt]
  have e3 : phi * (Real.pi / 180) = degrees phi := by unfold degrees; ring
  have h3 : power (phi * (Real.pi / 180)) (36 / 10) = some (degrees phi ^ (36 / 10 : ℝ)) := by
    rw [power, if_neg (not_lt.2 (by positivity)), e3]
  unfold subgradeSorensen
  simp only [h1, h2, h3, max_eq_left hX, Option.bind_eq_bind, Option.bind_some, Option.pure_def,
    Option.some.injEq]
  have e : X ^ (-(4 / 10) : ℝ) = 1 / X * X ^ (6 / 10 : ℝ) := by
    rw [show (-(4 / 10) : ℝ) = -1 + 6 / 10 by norm_num, Real.rpow_add hX0, Real.rpow_neg_one, one_div]
  rw [e]
  ring

/-- **C48, Sørensen.** The modulus is positive below 1 cm depth, and the initial stiffness `k X` of the
curve built on it increases with depth. -/
theorem C48_sorensen {phi X X' D : ℝ} (h0 : 0 < phi) (hX : 1 / 100 ≤ X) (hXX : X < X') (hD : 0 < D) :
    ∃ k k', subgradeSorensen phi X D = some k ∧ subgradeSorensen phi X' D = some k' ∧ 0 < k ∧
      0 < k' ∧ k * X < k' * X' := by
  have hX0 : 0 < X := by linarith
  have hX0' : 0 < X' := by linarith
  have hp := Real.pi_pos
  have hd : 0 < degrees phi := by unfold degrees; positivity
  refine ⟨_, _, sorensen_eq h0 hX hD, sorensen_eq h0 (by linarith) hD, by positivity, by positivity, ?_⟩
  have e : ∀ Z : ℝ, 0 < Z → 50000 * Z ^ (-(4 / 10) : ℝ) * D ^ (5 / 10 : ℝ) * degrees phi ^ (36 / 10 : ℝ)
      * Z = (50000 * D ^ (5 / 10 : ℝ) * degrees phi ^ (36 / 10 : ℝ)) * Z ^ (6 / 10 : ℝ) := by
    intro Z hZ
    have : Z ^ (6 / 10 : ℝ) = Z ^ (-(4 / 10) : ℝ) * Z := by
      conv_rhs => rw [← Real.rpow_one Z, ← Real.rpow_mul hZ.le, ← Real.rpow_add hZ]
      norm_num
    rw [this]
    ring
  rw [e X hX0, e X' hX0']
  exact mul_lt_mul_of_pos_left (Real.rpow_lt_rpow hX0.le hXX (by norm_num)) (by positivity)

/-- **C48 is violated: Sørensen's modulus decreases with depth.** -/
theorem C48_violated_sorensen {phi X X' D : ℝ} (h0 : 0 < phi) (hX : 1 / 100 ≤ X) (hXX : X < X')
    (hD : 0 < D) :
    ∃ k k', subgradeSorensen phi X D = some k ∧ subgradeSorensen phi X' D = some k' ∧ k' < k := by
  have hX0 : 0 < X := by linarith
  have hp := Real.pi_pos
  have hd : 0 < degrees phi := by unfold degrees; positivity
  refine ⟨_, _, sorensen_eq h0 hX hD, sorensen_eq h0 (by linarith) hD, ?_⟩
  have h : X' ^ (-(4 / 10) : ℝ) < X ^ (-(4 / 10) : ℝ) :=
    Real.rpow_lt_rpow_of_neg hX0 hXX (by norm_num)
  have h1 : 50000 * X' ^ (-(4 / 10) : ℝ) < 50000 * X ^ (-(4 / 10) : ℝ) := by linarith
  exact mul_lt_mul_of_pos_right (mul_lt_mul_of_pos_right h1 (by positivity)) (by positivity)

/-- The modulus the documentation of `API_sand` prescribes: the one of the chosen modification, otherwise
the one given, otherwise the correlation of API. -/
def Prescribed (s : ApiSand) (a : Args) (phi k : ℝ) : Prop :=
  match s.modification, s.modulus with
  | some .kallehave, _ => subgradeKallehave phi a.belowWater a.X a.D = some k
  | some .sorensen, _ => subgradeSorensen phi a.X a.D = some k
  | none, some m => layered m a.depth a.height = some k
  | none, none => k = subgradeApi phi a.belowWater

/-- **C48, used as given.** For a spring inside its layer, the curve of an API sand model is the API
curve with the modulus prescribed by the fields of the model (numbers as multipliers), if that modulus is
positive. -/
theorem C48_used (s : ApiSand) (a : Args) (phi k py pp : ℝ) (hd : a.depth ≤ a.height)
    (hphi : layered s.phi a.depth a.height = some phi) (hk : Prescribed s a phi k) (h0 : 0 < k)
    (hm : ∀ m, s.modulus = some m → (layered m a.depth a.height).isSome)
    (hy : s.y = .num py) (hp : s.p = .num pp) :
    s.py a = (apiSand a.sig a.X phi a.D s.kind a.belowWater k a.ymax a.len).map
      (fun l => l.map (fun q => (q.1 * py, q.2 * pp))) := by
  have hmul : ∀ l, multiply s.y s.p a.X l = some (l.map (fun q => (q.1 * py, q.2 * pp))) := by
    intro l
    rw [hy, hp]
    rfl
  have key : ∀ k', s.subgrade a phi = some k' → (k' = k ∨ k' = 0 ∧ k = subgradeApi phi a.belowWater) →
      s.py a = (apiSand a.sig a.X phi a.D s.kind a.belowWater k a.ymax a.len).map
      (fun l => l.map (fun q => (q.1 * py, q.2 * pp))) := by
    intro k' hs hk'
    unfold ApiSand.py SoilModel.guard
    rw [if_neg (not_lt.2 hd), hphi]
    simp only [Option.bind_eq_bind, Option.bind_some, hs, hmul]
    have e : apiSand a.sig a.X phi a.D s.kind a.belowWater k' a.ymax a.len
        = apiSand a.sig a.X phi a.D s.kind a.belowWater k a.ymax a.len := by
      rcases hk' with rfl | ⟨rfl, rfl⟩
      · rfl
      · unfold apiSand
        rw [(C48_api phi a.belowWater).2,
          (C30_modulus phi (subgradeApi phi a.belowWater) a.belowWater).2.1
            (by linarith [(C48_api phi a.belowWater).1])]
    rw [e]
    cases apiSand a.sig a.X phi a.D s.kind a.belowWater k a.ymax a.len <;> rfl
  unfold Prescribed at hk
  rcases hmod : s.modification with _ | m
  · rw [hmod] at hk
    rcases hmo : s.modulus with _ | m
    · rw [hmo] at hk
      exact key 0 (by simp [ApiSand.subgrade, hmod, hmo]) (Or.inr ⟨rfl, hk⟩)
    · rw [hmo] at hk
      exact key k (by simpa [ApiSand.subgrade, hmod, hmo] using hk) (Or.inl rfl)
  · rw [hmod] at hk
    rcases hmo : s.modulus with _ | m'
    · cases m
      · exact key k (by simpa [ApiSand.subgrade, hmod, hmo] using hk) (Or.inl rfl)
      · exact key k (by simpa [ApiSand.subgrade, hmod, hmo] using hk) (Or.inl rfl)
    · obtain ⟨v, hv⟩ := Option.isSome_iff_exists.1 (hm m' hmo)
      cases m
      · exact key k (by simpa [ApiSand.subgrade, hmod, hmo, hv] using hk) (Or.inl rfl)
      · exact key k (by simpa [ApiSand.subgrade, hmod, hmo, hv] using hk) (Or.inl rfl)

/-- A sand with a modulus of its own. -/
noncomputable def demoSand : ApiSand :=
  { phi := .list [30, 35], kind := .static, modulus := some (.scalar 20000), modification := none,
    p := .num 1, y := .num 1, mtCurves := false }

example : Prescribed demoSand ⟨50, 5, 10, 5, 4, 20, true, 0, 15⟩ (65 / 2) 20000 ∧
    layered demoSand.phi 5 10 = some (65 / 2) := by
  constructor
  · simp [Prescribed, demoSand, layered, topBottom]
  · simp [demoSand, layered, topBottom]
    norm_num

/-- **C48 is violated: a modulus given together with a modification is silently ignored.** -/
theorem C48_violated_ignored (s : ApiSand) (a : Args) (m : ℝ) (hmod : s.modification ≠ none)
    (hs : s.modulus = none) (hh : a.height ≠ 0) :
    ({ s with modulus := some (.scalar m) } : ApiSand).py a = s.py a := by
  have e : ∀ phi, ({ s with modulus := some (.scalar m) } : ApiSand).subgrade a phi = s.subgrade a phi := by
    intro phi
    unfold ApiSand.subgrade
    simp only [hs, layered, topBottom, hh, if_false, Option.bind_eq_bind, Option.bind_some]
    rcases h : s.modification with _ | x
    · exact absurd h hmod
    · cases x <;> rfl
  unfold ApiSand.py
  simp only [e]

example : ∃ s : ApiSand, s.modification ≠ none ∧ s.modulus = none :=
  ⟨{ demoSand with modulus := none, modification := some .kallehave }, by simp, rfl⟩

end OpenPile.Props.Hooks
