/-
C30: API sand p-y curves.
-/
import Verif.Lemmas.Sand
import Verif.Spec.Conic
import Mathlib.Analysis.Complex.ExponentialBounds

namespace OpenPile.Lateral
open OpenPile.Conic (Rising linspace)
open Real

/-- The factor `A` the docstring prescribes. -/
noncomputable def factor (kind : Loading) (X D : ℝ) : ℝ :=
  if kind = .static then staticFactor X D else 9 / 10

theorem factorA_eq (kind : Loading) (X D : ℝ) : factorA kind X D = factor kind X D := by
  cases kind
  · simp [factorA, factor, staticFactor, mul_div_assoc]
  · simp [factorA, factor]

theorem factor_pos (kind : Loading) (X D : ℝ) : 9 / 10 ≤ factor kind X D := by
  unfold factor staticFactor
  split_ifs
  · exact le_max_left _ _
  · exact le_rfl

theorem kPhi_pos {phi k kphi : ℝ} {w : Bool} (h : kPhi phi k w = some kphi) : 0 < kphi := by
  unfold kPhi at h
  by_cases hk : k ≠ 0
  · rw [if_pos hk] at h
    by_cases hn : k < 0
    · rw [if_pos hn] at h; exact absurd h (by simp)
    · rw [if_neg hn] at h
      simp only [Option.some.injEq] at h
      rw [← h]
      exact lt_of_le_of_ne (not_lt.1 hn) (Ne.symm hk)
  · rw [if_neg hk] at h
    cases w
    · simp only [Bool.false_eq_true, ↓reduceIte, Option.some.injEq] at h
      rw [← h]; exact lt_of_lt_of_le (by norm_num) (le_max_right _ _)
    · simp only [↓reduceIte, Option.some.injEq] at h
      rw [← h]; exact lt_of_lt_of_le (by norm_num) (le_max_right _ _)

/-- The modulus used: the one given if positive, a negative one is an error, and zero selects the
API correlation, at least 5400 kN/m³. -/
theorem C30_modulus (phi k : ℝ) (w : Bool) :
    (k < 0 → kPhi phi k w = none) ∧ (0 < k → kPhi phi k w = some k) ∧
    (k = 0 → ∃ m, kPhi phi k w = some m ∧ 5400 ≤ m) := by
  refine ⟨fun h => ?_, fun h => ?_, fun h => ?_⟩
  · simp [kPhi, h.ne, h]
  · simp [kPhi, h.ne', h.le]
  · subst h
    cases w <;> simp [kPhi]

/-- The resistance as a function of displacement. -/
theorem apiSandP_props {A P kphi X : ℝ} (hA : 0 < A) (hP : 0 ≤ P) (hk : 0 < kphi) (hX : 0 ≤ X) :
    (∀ y, 0 ≤ y → 0 ≤ apiSandP A P kphi X y ∧ apiSandP A P kphi X y ≤ A * P ∧
      apiSandP A P kphi X y ≤ kphi * X * y) ∧
    (∀ y z, y ≤ z → apiSandP A P kphi X y ≤ apiSandP A P kphi X z) := by
  unfold apiSandP
  rcases hP.eq_or_lt with h | h
  · subst h
    simp only [↓reduceIte, mul_zero, le_refl, true_and, implies_true, and_true]
    intro y hy; positivity
  · have hAP : 0 < A * P := mul_pos hA h
    simp only [h.ne', ↓reduceIte]
    refine ⟨fun y hy => ?_, fun y z hyz => ?_⟩
    · have h0 : 0 ≤ kphi * X * y / (A * P) := by positivity
      refine ⟨mul_nonneg hAP.le (Tanh.tanh_nonneg h0), ?_, ?_⟩
      · have := tanh_lt_one (kphi * X * y / (A * P))
        nlinarith
      · calc A * P * tanh (kphi * X * y / (A * P)) ≤ A * P * (kphi * X * y / (A * P)) :=
              mul_le_mul_of_nonneg_left (Tanh.tanh_le_self h0) hAP.le
          _ = kphi * X * y := by field_simp
    · refine mul_le_mul_of_nonneg_left (Tanh.strictMono_tanh.monotone ?_) hAP.le
      refine div_le_div_of_nonneg_right ?_ hAP.le
      exact mul_le_mul_of_nonneg_left hyz (by positivity)

/-- What `apiSand` returns on its domain. -/
theorem apiSand_eq {sig X phi D : ℝ} {kind : Loading} {w : Bool} {k ymax : ℝ} {len : ℕ} {kphi : ℝ}
    (h0 : 0 ≤ phi) (h1 : phi < 90) (hD : 0 < D) (hk : kPhi phi k w = some kphi) :
    apiSand sig X phi D kind w k ymax len =
      some ((linspace 0 (ymaxSand sig X phi D (factor kind X D) kphi ymax) (max 8 len)).map
        (fun y => (y, apiSandP (factor kind X D) (sandUltimate sig X phi D) kphi X y))) := by
  unfold apiSand
  rw [if_neg (by rintro (⟨h, _⟩ | h | h) <;> linarith), hk, factorA_eq, pmaxSand_eq h0 h1]
  rfl

theorem ymaxSand_nonneg {sig X phi D A kphi ymax : ℝ} (h0 : 0 ≤ phi) (h1 : phi < 90)
    (hs : 0 ≤ sig) (hX : 0 ≤ X) (hD : 0 < D) (hA : 0 ≤ A) (hk : 0 < kphi) (hy : 0 ≤ ymax) :
    0 ≤ ymaxSand sig X phi D A kphi ymax := by
  have hP := pmaxSand_nonneg h0 h1 hs hX hD.le
  have hz : 0 < max X (1 / 10) := lt_of_lt_of_le (by norm_num) (le_max_right _ _)
  have c2 := C2_nonneg h0 h1
  have c3 := C3_nonneg h0 h1
  unfold ymaxSand
  by_cases h : ymax = 0
  · rw [if_pos h]
    by_cases hp : pmaxSand sig X phi D = 0
    · simp only [hp, ↓reduceIte]; positivity
    · simp only [hp, ↓reduceIte]; positivity
  · rw [if_neg h]; exact hy

/-- The curve has the number of points asked for (at least 8), starts at the origin, never decreases,
stays between zero and `A` times the ultimate resistance and below the initial elastic line
`kphi * X * y`; any modulus `k ≥ 0` is accepted. -/
theorem C30_curve {sig X phi D : ℝ} {kind : Loading} {w : Bool} {k ymax : ℝ} {len : ℕ}
    (h0 : 0 ≤ phi) (h1 : phi < 90) (hs : 0 ≤ sig) (hX : 0 ≤ X) (hD : 0 < D) (hk : 0 ≤ k)
    (hy : 0 ≤ ymax) :
    ∃ l kphi, apiSand sig X phi D kind w k ymax len = some l ∧ kPhi phi k w = some kphi ∧
      l.length = max 8 len ∧ l.head? = some (0, 0) ∧ Rising l ∧
      ∀ q ∈ l, 0 ≤ q.1 ∧ 0 ≤ q.2 ∧ q.2 ≤ factor kind X D * sandUltimate sig X phi D ∧
        q.2 ≤ kphi * X * q.1 := by
  obtain ⟨kphi, hkphi⟩ : ∃ m, kPhi phi k w = some m := by
    rcases hk.eq_or_lt with h | h
    · obtain ⟨m, hm, _⟩ := (C30_modulus phi k w).2.2 h.symm; exact ⟨m, hm⟩
    · exact ⟨k, (C30_modulus phi k w).2.1 h⟩
  have hkp := kPhi_pos hkphi
  have hA : 0 < factor kind X D := lt_of_lt_of_le (by norm_num) (factor_pos kind X D)
  have hP : 0 ≤ sandUltimate sig X phi D := by
    rw [← pmaxSand_eq h0 h1]; exact pmaxSand_nonneg h0 h1 hs hX hD.le
  have hym := ymaxSand_nonneg (A := factor kind X D) h0 h1 hs hX hD hA.le hkp hy
  obtain ⟨p1, p2⟩ := apiSandP_props (A := factor kind X D) hA hP hkp hX
  refine ⟨_, kphi, apiSand_eq h0 h1 hD hkphi, hkphi, ?_, ?_, ?_, ?_⟩
  · rw [List.length_map, Conic.linspace_length]
  · rw [List.head?_map, linspace_head _ _ (by omega)]
    simp [apiSandP]
  · unfold Rising
    rw [List.pairwise_map]
    exact (linspace_pairwise_le hym _).imp fun h => ⟨h, p2 _ _ h⟩
  · intro q hq
    obtain ⟨y, hy', rfl⟩ := List.mem_map.1 hq
    have hy0 := (linspace_mem_le hym hy').1
    obtain ⟨a, b, c⟩ := p1 y hy0
    exact ⟨hy0, a, b, c⟩

example : ∃ l, apiSand 50 2 30 1 .static true 0 0 20 = some l ∧ l.length = 20 := by
  obtain ⟨l, _, h, _, h', _⟩ := C30_curve (sig := 50) (X := 2) (phi := 30) (D := 1)
    (kind := .static) (w := true) (k := 0) (ymax := 0) (len := 20) (by norm_num) (by norm_num)
    (by norm_num) (by norm_num) (by norm_num) le_rfl le_rfl
  exact ⟨l, h, h'⟩

/-- The ultimate resistance is positive for a stressed frictional soil and vanishes without stress or
without friction. -/
theorem C30_ultimate {sig X phi D : ℝ} (h0 : 0 ≤ phi) (h1 : phi < 90) (hs : 0 ≤ sig)
    (hX : 0 ≤ X) (hD : 0 < D) : 0 < sandUltimate sig X phi D ↔ 0 < sig ∧ 0 < phi := by
  rw [← pmaxSand_eq h0 h1]
  constructor
  · intro h
    refine ⟨lt_of_le_of_ne hs ?_, lt_of_le_of_ne h0 ?_⟩
    · rintro rfl
      simp [pmaxSand] at h
    · rintro rfl
      rw [pmaxSand_eq le_rfl h1] at h
      have e : degrees (45 + 0 / 2) = π / 4 := by unfold degrees; ring
      have e' : degrees (45 - 0 / 2) = π / 4 := by unfold degrees; ring
      have e0 : degrees 0 = 0 := by unfold degrees; ring
      simp only [sandUltimate, deepResistance, wedgeResistance, Kp, Ka, e, e', e0,
        tan_pi_div_four, tan_zero] at h
      simp [e0] at h
  · rintro ⟨a, b⟩
    exact pmaxSand_pos b h1 a hX hD

/-- The initial slope is exactly `kphi * X`. -/
theorem C30_initial_slope {sig X phi D : ℝ} {kind : Loading} {kphi : ℝ} (h0 : 0 < phi) (h1 : phi < 90)
    (hs : 0 < sig) (hX : 0 ≤ X) (hD : 0 < D) :
    HasDerivAt (fun y => apiSandP (factor kind X D) (sandUltimate sig X phi D) kphi X y)
      (kphi * X) 0 := by
  have hP := (C30_ultimate h0.le h1 hs.le hX hD).2 ⟨hs, h0⟩
  have hA : 0 < factor kind X D := lt_of_lt_of_le (by norm_num) (factor_pos kind X D)
  have hAP := mul_pos hA hP
  set c := factor kind X D * sandUltimate sig X phi D with hc
  have e : (fun y => apiSandP (factor kind X D) (sandUltimate sig X phi D) kphi X y) =
      fun y => c * tanh (kphi * X * y / c) := by
    funext y
    simp only [apiSandP, hP.ne', ↓reduceIte, hc]
  rw [e]
  have hin : HasDerivAt (fun y : ℝ => kphi * X * y / c) (kphi * X / c) 0 := by
    have := ((hasDerivAt_id (0 : ℝ)).const_mul (kphi * X)).div_const c
    simpa using this
  have ht := Tanh.hasDerivAt_tanh (kphi * X * 0 / c)
  have := (HasDerivAt.comp (h := fun y : ℝ => kphi * X * y / c) (0 : ℝ) ht hin).const_mul c
  simp only [mul_zero, zero_div, cosh_zero] at this
  have e2 : c * (1 / 1 ^ 2 * (kphi * X / c)) = kphi * X := by field_simp
  rw [e2] at this
  exact this

/-- For the same displacements the static curve is nowhere below the cyclic one. -/
theorem C30_static_ge_cyclic {sig X phi D : ℝ} {w : Bool} {k ymax : ℝ} {len : ℕ}
    (h0 : 0 ≤ phi) (h1 : phi < 90) (hs : 0 ≤ sig) (hX : 0 ≤ X) (hD : 0 < D) (hy : 0 < ymax)
    {s c : List (ℝ × ℝ)} (es : apiSand sig X phi D .static w k ymax len = some s)
    (ec : apiSand sig X phi D .cyclic w k ymax len = some c) :
    List.Forall₂ (fun a b => a.1 = b.1 ∧ b.2 ≤ a.2) s c := by
  obtain ⟨kphi, hk⟩ : ∃ m, kPhi phi k w = some m := by
    cases h : kPhi phi k w with
    | none =>
      unfold apiSand at es
      rw [if_neg (by rintro (⟨h, _⟩ | h | h) <;> linarith), h] at es
      exact absurd es (by simp)
    | some m => exact ⟨m, rfl⟩
  rw [apiSand_eq h0 h1 hD hk] at es ec
  simp only [Option.some.injEq] at es ec
  rw [← es, ← ec]
  simp only [ymaxSand, hy.ne', ↓reduceIte]
  rw [List.forall₂_map_left_iff, List.forall₂_map_right_iff, List.forall₂_same]
  intro y hmem
  refine ⟨rfl, ?_⟩
  have hy0 := (linspace_mem_le hy.le hmem).1
  have hkp := kPhi_pos hk
  have hP : 0 ≤ sandUltimate sig X phi D := by
    rw [← pmaxSand_eq h0 h1]; exact pmaxSand_nonneg h0 h1 hs hX hD.le
  unfold apiSandP
  rcases hP.eq_or_lt with h | h
  · simp [← h]
  · simp only [h.ne', ↓reduceIte]
    refine Tanh.scaled_mono (mul_pos ?_ h) ?_ (by positivity)
    · exact lt_of_lt_of_le (by norm_num) (factor_pos _ X D)
    · refine mul_le_mul_of_nonneg_right ?_ h.le
      have : factor .cyclic X D = 9 / 10 := by simp [factor]
      rw [this]
      exact factor_pos _ _ _

/-- Below `X = 2.625 D` the static curve is strictly stiffer, from there on both coincide. -/
theorem C30_factor {X D : ℝ} (hD : 0 < D) :
    (2625 / 1000 * D ≤ X → factor .static X D = factor .cyclic X D) ∧
    (X < 2625 / 1000 * D → factor .cyclic X D < factor .static X D) ∧
    (factor .static 0 D = 3) := by
  unfold factor staticFactor
  simp only [↓reduceIte, reduceCtorEq]
  refine ⟨fun h => ?_, fun h => ?_, ?_⟩
  · apply max_eq_left
    have : 2625 / 1000 ≤ X / D := by rw [le_div_iff₀ hD]; exact h
    linarith
  · apply lt_max_of_lt_right
    have : X / D < 2625 / 1000 := by rw [div_lt_iff₀ hD]; exact h
    linarith
  · norm_num

theorem tanh_four : 999 / 1000 < tanh 4 := by
  rw [tanh_eq_sinh_div_cosh, sinh_eq, cosh_eq]
  have h1 : (2.7 : ℝ) < exp 1 := by linarith [exp_one_gt_d9]
  have h4 : exp 4 = exp 1 ^ 4 := by rw [← exp_nat_mul]; norm_num
  have h4' : (53 : ℝ) ≤ exp 4 := by
    rw [h4]
    calc (53 : ℝ) ≤ 2.7 ^ 4 := by norm_num
      _ ≤ exp 1 ^ 4 := pow_le_pow_left₀ (by norm_num) h1.le 4
  have hn : exp (-4) * exp 4 = 1 := by rw [← exp_add]; simp
  have hpos := exp_pos (-4)
  have hsmall : exp (-4) ≤ 1 / 53 := by
    rw [le_div_iff₀ (by norm_num)]
    nlinarith
  rw [div_div_div_cancel_right₀ (by norm_num), lt_div_iff₀ (by positivity)]
  nlinarith

/-- With the default `ymax` the table ends, for depths of at least 0.1 m, at the displacement
`4 A Pu / (kphi X)` with more than 99.9 % of the resistance. -/
theorem C30_default_end {sig X phi D : ℝ} {kind : Loading} {w : Bool} {k : ℝ} {len : ℕ}
    (h0 : 0 < phi) (h1 : phi < 90) (hs : 0 < sig) (hX : 1 / 10 ≤ X) (hD : 0 < D)
    {l : List (ℝ × ℝ)} (e : apiSand sig X phi D kind w k 0 len = some l) :
    ∃ y p kphi, l.getLast? = some (y, p) ∧ kPhi phi k w = some kphi ∧
      y * (kphi * X) = 4 * (factor kind X D * sandUltimate sig X phi D) ∧
      999 / 1000 * (factor kind X D * sandUltimate sig X phi D) < p := by
  obtain ⟨kphi, hk⟩ : ∃ m, kPhi phi k w = some m := by
    cases h : kPhi phi k w with
    | none =>
      unfold apiSand at e
      rw [if_neg (by rintro (⟨h, _⟩ | h | h) <;> linarith), h] at e
      exact absurd e (by simp)
    | some m => exact ⟨m, rfl⟩
  have hX0 : 0 < X := by linarith
  have hkp := kPhi_pos hk
  have hP := (C30_ultimate h0.le h1 hs.le hX0.le hD).2 ⟨hs, h0⟩
  have hA : 0 < factor kind X D := lt_of_lt_of_le (by norm_num) (factor_pos kind X D)
  rw [apiSand_eq h0.le h1 hD hk] at e
  simp only [Option.some.injEq] at e
  have hym : ymaxSand sig X phi D (factor kind X D) kphi 0 =
      4 * factor kind X D * sandUltimate sig X phi D / (kphi * X) := by
    unfold ymaxSand
    rw [pmaxSand_eq h0.le h1]
    simp only [↓reduceIte, hP.ne', max_eq_left hX]
  rw [hym] at e
  refine ⟨4 * factor kind X D * sandUltimate sig X phi D / (kphi * X),
    apiSandP (factor kind X D) (sandUltimate sig X phi D) kphi X
      (4 * factor kind X D * sandUltimate sig X phi D / (kphi * X)), kphi, ?_, hk, ?_, ?_⟩
  · rw [← e, List.getLast?_map, linspace_last _ _ (by omega)]
    rfl
  · field_simp
  · unfold apiSandP
    rw [if_neg hP.ne']
    have : kphi * X * (4 * factor kind X D * sandUltimate sig X phi D / (kphi * X)) /
        (factor kind X D * sandUltimate sig X phi D) = 4 := by field_simp
    rw [this]
    have := tanh_four
    have := mul_pos hA hP
    nlinarith

/-- Closer to the surface the default table stops short: at a depth `X < 0.1 m` no tabulated
resistance exceeds the fraction `40 X` of the ultimate one (10 % at 2.5 mm, none at the surface). -/
theorem C30_shallow_default {sig X phi D : ℝ} {kind : Loading} {w : Bool} {k : ℝ} {len : ℕ}
    (h0 : 0 < phi) (h1 : phi < 90) (hs : 0 < sig) (hX : 0 ≤ X) (hX1 : X < 1 / 10) (hD : 0 < D)
    {l : List (ℝ × ℝ)} (e : apiSand sig X phi D kind w k 0 len = some l) :
    ∀ q ∈ l, q.2 ≤ 40 * X * (factor kind X D * sandUltimate sig X phi D) := by
  obtain ⟨kphi, hk⟩ : ∃ m, kPhi phi k w = some m := by
    cases h : kPhi phi k w with
    | none =>
      unfold apiSand at e
      rw [if_neg (by rintro (⟨h, _⟩ | h | h) <;> linarith), h] at e
      exact absurd e (by simp)
    | some m => exact ⟨m, rfl⟩
  have hkp := kPhi_pos hk
  have hP := (C30_ultimate h0.le h1 hs.le hX hD).2 ⟨hs, h0⟩
  have hA : 0 < factor kind X D := lt_of_lt_of_le (by norm_num) (factor_pos kind X D)
  rw [apiSand_eq h0.le h1 hD hk] at e
  simp only [Option.some.injEq] at e
  have hym : ymaxSand sig X phi D (factor kind X D) kphi 0 =
      4 * factor kind X D * sandUltimate sig X phi D / (kphi * (1 / 10)) := by
    unfold ymaxSand
    rw [pmaxSand_eq h0.le h1]
    simp only [↓reduceIte, hP.ne', max_eq_right hX1.le]
  rw [hym] at e
  intro q hq
  rw [← e] at hq
  obtain ⟨y, hy, rfl⟩ := List.mem_map.1 hq
  have hm := linspace_mem_le (by positivity) hy
  have hl := ((apiSandP_props (A := factor kind X D) hA hP.le hkp hX).1 y hm.1).2.2
  refine hl.trans ?_
  calc kphi * X * y ≤ kphi * X *
        (4 * factor kind X D * sandUltimate sig X phi D / (kphi * (1 / 10))) :=
        mul_le_mul_of_nonneg_left hm.2 (by positivity)
    _ = _ := by field_simp; ring

/-- A negative modulus is rejected. -/
theorem C30_negative_modulus {sig X phi D : ℝ} {kind : Loading} {w : Bool} {k ymax : ℝ} {len : ℕ}
    (hk : k < 0) : apiSand sig X phi D kind w k ymax len = none := by
  unfold apiSand
  rw [(C30_modulus phi k w).1 hk]
  split_ifs <;> rfl

end OpenPile.Lateral
