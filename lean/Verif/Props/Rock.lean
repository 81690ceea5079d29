/-
C32: weak rock p-y curve.
-/
import Verif.Lemmas.Sand
import Verif.Spec.Rock
import Verif.Spec.Clay

namespace OpenPile.Lateral
open Real

theorem alpha_eq (RQD : ℝ) : 1 - 2 / 3 * rqd RQD / 100 = fracture RQD := by
  unfold rqd fracture
  by_cases h : RQD ≤ 0
  · rw [if_pos h, min_eq_right (by linarith), max_eq_right h]; norm_num
  · rw [if_neg h]
    push Not at h
    by_cases h1 : 100 ≤ RQD
    · rw [if_pos h1, min_eq_left h1, max_eq_left (by norm_num)]; norm_num
    · rw [if_neg h1]
      push Not at h1
      rw [min_eq_right h1.le, max_eq_left h.le]; ring

theorem fracture_range (RQD : ℝ) : 1 / 3 ≤ fracture RQD ∧ fracture RQD ≤ 1 := by
  unfold fracture
  split_ifs <;> constructor <;> linarith

theorem pmaxRock_eq {qu RQD xr D : ℝ} (hq : 0 ≤ qu) (hD : 0 < D) :
    pmaxRock qu RQD xr D = rockUltimate qu RQD xr D := by
  unfold pmaxRock rockUltimate
  simp only [alpha_eq]
  have hf := (fracture_range RQD).1
  have hb : 0 ≤ fracture RQD * qu := mul_nonneg (by linarith) hq
  have e : fracture RQD * qu * D * (1 + 14 / 10 * xr / D) = fracture RQD * qu * (D + 14 / 10 * xr) := by
    field_simp
  rw [e]
  split_ifs with h
  · apply min_eq_right
    have := mul_le_mul_of_nonneg_left (show D + 14 / 10 * xr ≤ 52 / 10 * D by linarith) hb
    linarith
  · push Not at h
    apply min_eq_left
    have := mul_le_mul_of_nonneg_left (show 52 / 10 * D ≤ D + 14 / 10 * xr by linarith) hb
    linarith

theorem epy_eq {Ei xr D : ℝ} (hD : 0 < D) : epy Ei xr D = rockModulus Ei xr D := by
  unfold epy rockModulus
  rw [mul_div_assoc]
  split_ifs with h
  · have : xr / (3 * D) ≤ 1 := (div_le_one (by linarith)).2 h
    rw [min_eq_right (by linarith)]
  · have : 1 ≤ xr / (3 * D) := (one_le_div (by linarith)).2 (by linarith)
    rw [min_eq_left (by linarith), mul_comm]

theorem rockUltimate_nonneg {qu RQD xr D : ℝ} (hq : 0 ≤ qu) (hx : 0 ≤ xr) (hD : 0 < D) :
    0 ≤ rockUltimate qu RQD xr D := by
  have hf : 0 ≤ fracture RQD := by linarith [(fracture_range RQD).1]
  unfold rockUltimate
  split_ifs <;> positivity

/-- The initial modulus lies between `100 Ei` and `500 Ei`, and is capped from three diameters on. -/
theorem C32_modulus {Ei xr D : ℝ} (hE : 0 ≤ Ei) (hx : 0 ≤ xr) (hD : 0 < D) :
    100 * Ei ≤ epy Ei xr D ∧ epy Ei xr D ≤ 500 * Ei ∧ (3 * D ≤ xr → epy Ei xr D = 500 * Ei) := by
  rw [epy_eq hD]
  unfold rockModulus
  have hr : 0 ≤ xr / (3 * D) := by positivity
  refine ⟨?_, ?_, fun h => ?_⟩
  · split_ifs with h
    · nlinarith [mul_nonneg hE hr]
    · nlinarith
  · split_ifs with h
    · have : xr / (3 * D) ≤ 1 := (div_le_one (by linarith)).2 h
      nlinarith [mul_nonneg hE (sub_nonneg.2 this)]
    · exact le_rfl
  · split_ifs with h'
    · have : xr = 3 * D := le_antisymm h' h
      rw [this, div_self (by positivity)]; ring
    · rfl

/-- `RQD` outside `0 .. 100` counts as the nearest bound. -/
theorem C32_rqd_clamped (Ei qu RQD xr D k : ℝ) (len : ℕ) :
    (RQD ≤ 0 → reeseRock Ei qu RQD xr D k len = reeseRock Ei qu 0 xr D k len) ∧
    (100 ≤ RQD → reeseRock Ei qu RQD xr D k len = reeseRock Ei qu 100 xr D k len) := by
  have key : ∀ R, rqd RQD = rqd R → reeseRock Ei qu RQD xr D k len = reeseRock Ei qu R xr D k len := by
    intro R h
    unfold reeseRock pmaxRock
    rw [h]
  constructor
  · intro h
    apply key
    unfold rqd
    rw [min_eq_right (by linarith), max_eq_right h]; norm_num
  · intro h
    apply key
    unfold rqd
    rw [min_eq_left h, min_eq_left le_rfl]

/-- Sensible rock and pile data. -/
structure RockData (Ei qu xr D k : ℝ) : Prop where
  Ei : 0 < Ei
  qu : 0 ≤ qu
  xr : 0 ≤ xr
  D : 0 < D
  k : 0 < k

theorem rockY_sorted {a yrm : ℝ} (ha : 0 ≤ a) (hy : 0 < yrm) (len : ℕ) :
    (rockY a yrm len).Pairwise (· ≤ ·) ∧ (∀ y ∈ rockY a yrm len, 0 ≤ y) ∧
      (∀ y ∈ rockY a yrm len, y = 0 ∨ a ≤ y) := by
  unfold rockY
  simp only []
  set ym := max (105 / 100 * a) ((2 * yrm ^ (1 / 4 : ℝ)) ^ 4) with hym
  have hm : 105 / 100 * a ≤ ym := le_max_left _ _
  have hm0 : 0 ≤ ym := le_trans (by positivity) hm
  have h1 : a ≤ max (15 / 100 * ym) (101 / 100 * a) := le_trans (by linarith) (le_max_right _ _)
  have h2 : max (15 / 100 * ym) (101 / 100 * a) ≤ max (a * (102 / 100)) (25 / 100 * ym) := by
    apply max_le
    · exact le_trans (by linarith) (le_max_right _ _)
    · exact le_trans (by linarith) (le_max_left _ _)
  have h3 : max (a * (102 / 100)) (25 / 100 * ym) ≤ ym := max_le (by linarith) (by linarith)
  have m1 := fun x (h : x ∈ Conic.linspace a (max (15 / 100 * ym) (101 / 100 * a)) (len / 2)) =>
    linspace_mem_le h1 h
  have m2 := fun x (h : x ∈ Conic.linspace (max (a * (102 / 100)) (25 / 100 * ym)) ym
    (len - len / 2 - 2)) => linspace_mem_le h3 h
  refine ⟨?_, ?_, ?_⟩
  · simp only [List.append_assoc, List.singleton_append]
    rw [List.cons_append, List.pairwise_cons]
    refine ⟨?_, ?_⟩
    · intro x hx
      simp only [List.mem_append, List.mem_singleton] at hx
      rcases hx with hx | hx | rfl
      · exact ha.trans (m1 x hx).1
      · exact ha.trans (h1.trans (h2.trans (m2 x hx).1))
      · positivity
    · rw [List.pairwise_append]
      refine ⟨linspace_pairwise_le h1 _, ?_, ?_⟩
      · rw [List.pairwise_append]
        refine ⟨linspace_pairwise_le h3 _, by simp, ?_⟩
        intro x hx y hy'
        simp only [List.mem_singleton] at hy'
        subst hy'
        linarith [(m2 x hx).2]
      · intro x hx y hy'
        simp only [List.mem_append, List.mem_singleton] at hy'
        rcases hy' with hy' | rfl
        · exact (m1 x hx).2.trans (h2.trans (m2 y hy').1)
        · linarith [(m1 x hx).2]
  · intro x hx
    simp only [List.mem_append, List.mem_singleton] at hx
    rcases hx with ((rfl | hx) | hx) | rfl
    · exact le_rfl
    · exact ha.trans (m1 x hx).1
    · exact ha.trans (h1.trans (h2.trans (m2 x hx).1))
    · positivity
  · intro x hx
    simp only [List.mem_append, List.mem_singleton] at hx
    rcases hx with ((rfl | hx) | hx) | rfl
    · exact Or.inl rfl
    · exact Or.inr (m1 x hx).1
    · exact Or.inr (h1.trans (h2.trans (m2 x hx).1))
    · right; linarith

theorem rockY_length (a yrm : ℝ) {len : ℕ} (h : 8 ≤ len) : (rockY a yrm len).length = len := by
  unfold rockY
  simp only [List.length_append, List.length_singleton, Conic.linspace_length]
  omega

theorem quarter_pow {x : ℝ} (hx : 0 ≤ x) : (x ^ (1 / 4 : ℝ)) ^ 4 = x := by
  rw [← Real.rpow_natCast, ← Real.rpow_mul hx]
  norm_num

theorem rockP_props {pm e a yrm y : ℝ} (hp : 0 ≤ pm) (he : 0 ≤ e) (hr : 0 < yrm) (hy : 0 ≤ y) :
    0 ≤ rockP pm e a yrm y ∧ rockP pm e a yrm y ≤ pm := by
  unfold rockP
  split_ifs
  · exact ⟨le_min hp (by positivity), min_le_left _ _⟩
  · exact ⟨le_min hp (by positivity), min_le_left _ _⟩

theorem reese_eq {Ei qu RQD xr D k : ℝ} {len : ℕ} (h : RockData Ei qu xr D k) :
    reeseRock Ei qu RQD xr D k len =
      some ((rockY (yA (rockUltimate qu RQD xr D) (k * D) (rockModulus Ei xr D)) (k * D)
        (max 8 len)).map (fun y => (y, rockP (rockUltimate qu RQD xr D) (rockModulus Ei xr D)
          (yA (rockUltimate qu RQD xr D) (k * D) (rockModulus Ei xr D)) (k * D) y))) := by
  have hk : 0 < k * D := mul_pos h.k h.D
  have he : 0 < epy Ei xr D := by
    have := (C32_modulus h.Ei.le h.xr h.D).1
    have := h.Ei
    linarith
  have hp := rockUltimate_nonneg (RQD := RQD) h.qu h.xr h.D
  unfold reeseRock
  simp only []
  rw [pmaxRock_eq h.qu h.D, if_neg, epy_eq h.D]
  rintro (h1 | h1 | h1 | h1)
  · exact h.D.ne' h1
  · linarith
  · exact he.ne' h1
  · have : 0 ≤ rockUltimate qu RQD xr D / (2 * (k * D) ^ (1 / 4 : ℝ) * epy Ei xr D) := by positivity
    linarith

/-- The curve starts at the origin, has the number of points asked for (at least 8), sorted, with
resistance between zero and the ultimate one, which the last two points reach. -/
theorem C32_curve {Ei qu RQD xr D k : ℝ} {len : ℕ} (h : RockData Ei qu xr D k) :
    ∃ l, reeseRock Ei qu RQD xr D k len = some l ∧
      Table (max 8 len) (rockUltimate qu RQD xr D) l ∧
      ∃ y, l.getLast? = some (y, rockUltimate qu RQD xr D) := by
  have hk : 0 < k * D := mul_pos h.k h.D
  have he : 0 < rockModulus Ei xr D := by
    rw [← epy_eq h.D]
    have := (C32_modulus h.Ei.le h.xr h.D).1
    have := h.Ei
    linarith
  have hp := rockUltimate_nonneg (RQD := RQD) h.qu h.xr h.D
  have ha : 0 ≤ yA (rockUltimate qu RQD xr D) (k * D) (rockModulus Ei xr D) := by
    unfold yA; positivity
  set a := yA (rockUltimate qu RQD xr D) (k * D) (rockModulus Ei xr D) with hadef
  obtain ⟨s1, s2, _⟩ := rockY_sorted ha hk (max 8 len)
  refine ⟨_, reese_eq h, ⟨?_, ?_, ?_, ?_, ?_⟩, ?_⟩
  · rw [List.length_map, rockY_length _ _ (by omega)]
  · have hh : (rockY a (k * D) (max 8 len)).head? = some 0 := by
      simp [rockY]
    rw [List.head?_map, ← hadef, hh]
    simp only [Option.map_some, Option.some.injEq, Prod.mk.injEq, true_and]
    unfold rockP
    rw [if_pos ha]
    simp [hp]
  · rw [List.pairwise_map]; exact s1
  · intro q hq
    obtain ⟨y, hy, rfl⟩ := List.mem_map.1 hq
    exact ⟨s2 y hy, (rockP_props hp he.le hk (s2 y hy)).1⟩
  · intro q hq
    obtain ⟨y, hy, rfl⟩ := List.mem_map.1 hq
    exact (rockP_props hp he.le hk (s2 y hy)).2
  · have hl : ∃ ym, (rockY a (k * D) (max 8 len)).getLast? = some (12 / 10 * ym) ∧
        105 / 100 * a ≤ ym ∧ 16 * (k * D) ≤ ym := by
      refine ⟨max (105 / 100 * a) ((2 * (k * D) ^ (1 / 4 : ℝ)) ^ 4), ?_, le_max_left _ _, ?_⟩
      · unfold rockY
        simp only []
        rw [List.getLast?_concat]
      · refine le_trans ?_ (le_max_right _ _)
        rw [mul_pow, quarter_pow hk.le]; norm_num
    obtain ⟨ym, hlast, hm1, hm2⟩ := hl
    refine ⟨12 / 10 * ym, ?_⟩
    rw [List.getLast?_map, hlast]
    simp only [Option.map_some, Option.some.injEq, Prod.mk.injEq, true_and]
    have hym : 0 < ym := by linarith
    unfold rockP
    rw [if_neg (by push Not; linarith)]
    apply min_eq_left
    have h16 : 16 ≤ 12 / 10 * ym / (k * D) := by rw [le_div_iff₀ hk]; linarith
    have h2 : (2 : ℝ) ≤ (12 / 10 * ym / (k * D)) ^ (1 / 4 : ℝ) := by
      have e : (16 : ℝ) ^ (1 / 4 : ℝ) = 2 := by
        rw [show (16 : ℝ) = 2 ^ (4 : ℝ) by norm_num, ← Real.rpow_mul (by norm_num)]; norm_num
      rw [← e]
      exact Real.rpow_le_rpow (by norm_num) h16 (by norm_num)
    nlinarith

/-- Every point lies on the published curve. -/
theorem C32_law {Ei qu RQD xr D k : ℝ} {len : ℕ} {l : List (ℝ × ℝ)} (h : RockData Ei qu xr D k)
    (e : reeseRock Ei qu RQD xr D k len = some l) : ∀ q ∈ l, RockLaw Ei qu RQD xr D k q := by
  rw [reese_eq h] at e
  simp only [Option.some.injEq] at e
  intro q hq
  rw [← e] at hq
  obtain ⟨y, hy, rfl⟩ := List.mem_map.1 hq
  have hk : 0 < k * D := mul_pos h.k h.D
  constructor
  · intro hya
    simp only [rockP]
    rw [if_pos]
    refine hya.trans (le_of_eq ?_)
    unfold rockIntersection yA
    congr 2
    ring
  · intro hya
    simp only [rockP]
    rw [if_neg]
    · congr 1; ring
    · push Not
      refine lt_of_eq_of_lt ?_ hya
      unfold rockIntersection yA
      congr 2
      ring

example : RockData 100000 1000 2 1 (5 / 10000) := by constructor <;> norm_num

/-- The first part of the curve is elastic: up to `yA` the resistance is the modulus times the
displacement (or the ultimate resistance if smaller). -/
theorem C32_elastic {Ei qu RQD xr D k : ℝ} {len : ℕ} {l : List (ℝ × ℝ)} (h : RockData Ei qu xr D k)
    (e : reeseRock Ei qu RQD xr D k len = some l)
    (hB : rockUltimate qu RQD xr D ≤ 2 * (k * D) ^ (1 / 4 : ℝ) * rockModulus Ei xr D) :
    ∀ q ∈ l, q.2 ≤ 500 * Ei * q.1 := by
  have hk : 0 < k * D := mul_pos h.k h.D
  have hmod := C32_modulus h.Ei.le h.xr h.D
  rw [epy_eq h.D] at hmod
  have hE := h.Ei
  have he : 0 < rockModulus Ei xr D := by linarith [hmod.1]
  have hp := rockUltimate_nonneg (RQD := RQD) h.qu h.xr h.D
  have ha : 0 ≤ yA (rockUltimate qu RQD xr D) (k * D) (rockModulus Ei xr D) := by
    unfold yA; positivity
  rw [reese_eq h] at e
  simp only [Option.some.injEq] at e
  intro q hq
  rw [← e] at hq
  obtain ⟨y, hy, rfl⟩ := List.mem_map.1 hq
  have hy0 := (rockY_sorted ha hk _).2.1 y hy
  suffices hs : rockP (rockUltimate qu RQD xr D) (rockModulus Ei xr D)
      (yA (rockUltimate qu RQD xr D) (k * D) (rockModulus Ei xr D)) (k * D) y ≤
      rockModulus Ei xr D * y from
    hs.trans (mul_le_mul_of_nonneg_right hmod.2.1 hy0)
  unfold rockP
  split_ifs with hya
  · exact min_le_right _ _
  · push Not at hya
    refine (min_le_right _ _).trans ?_
    set P := rockUltimate qu RQD xr D
    set M := rockModulus Ei xr D
    set r := k * D
    set B := P / (2 * r ^ (1 / 4 : ℝ) * M) with hBdef
    have hden : 0 < 2 * r ^ (1 / 4 : ℝ) * M := by positivity
    have hB0 : 0 ≤ B := by positivity
    have hB1 : B ≤ 1 := (div_le_one hden).2 hB
    have hPB : P = B * (2 * r ^ (1 / 4 : ℝ) * M) := by rw [hBdef]; field_simp
    have hyp : 0 < y := lt_of_le_of_lt ha hya
    have hBy : B ≤ y ^ (3 / 4 : ℝ) := by
      have h1 : (yA P r M) ^ (3 / 4 : ℝ) ≤ y ^ (3 / 4 : ℝ) :=
        Real.rpow_le_rpow ha hya.le (by norm_num)
      refine le_trans ?_ h1
      change B ≤ (B ^ (1333 / 1000 : ℝ)) ^ (3 / 4 : ℝ)
      rw [← Real.rpow_mul hB0]
      rcases hB0.eq_or_lt with h0 | h0
      · rw [← h0, Real.zero_rpow (by norm_num)]
      · calc B = B ^ (1 : ℝ) := (Real.rpow_one B).symm
          _ ≤ B ^ (1333 / 1000 * (3 / 4) : ℝ) :=
            Real.rpow_le_rpow_of_exponent_ge h0 hB1 (by norm_num)
    have hyy : y ^ (3 / 4 : ℝ) * y ^ (1 / 4 : ℝ) = y := by
      rw [← Real.rpow_add hyp]; norm_num
    rw [Real.div_rpow hyp.le hk.le]
    have hr : 0 < r ^ (1 / 4 : ℝ) := by positivity
    have hy4 : 0 < y ^ (1 / 4 : ℝ) := by positivity
    calc P / 2 * (y ^ (1 / 4 : ℝ) / r ^ (1 / 4 : ℝ)) = M * (B * y ^ (1 / 4 : ℝ)) := by
          rw [hPB]; field_simp
      _ ≤ M * (y ^ (3 / 4 : ℝ) * y ^ (1 / 4 : ℝ)) := by
          refine mul_le_mul_of_nonneg_left ?_ he.le
          exact mul_le_mul_of_nonneg_right hBy hy4.le
      _ = M * y := by rw [hyy]

end OpenPile.Lateral
