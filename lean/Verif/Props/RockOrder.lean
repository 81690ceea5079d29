/-
C83, weak rock: two rocks, the second with the larger modulus and strength.

`py_curves.py` 916-1029 (`reese_weakrock`).  The code ends the elastic part of the curve at a displacement raised to 1.333 instead of 4/3
(line 1013), so that the two parts of the curve do not meet.
-/
import Verif.Props.Stronger

namespace OpenPile.Props.Stronger
open Real OpenPile.Lateral OpenPile.Conic

/-- The three bounds of Reese (1997), which meet without a jump. -/
noncomputable def published (P M r y : ℝ) : ℝ := min P (min (M * y) (P / 2 * (y / r) ^ (1 / 4 : ℝ)))

/-- The ratio whose power is the end of the elastic part. -/
noncomputable def rockRatio (P M r : ℝ) : ℝ := P / (2 * r ^ (1 / 4 : ℝ) * M)

theorem published_mono {P P' M M' r y y' : ℝ} (hP : 0 ≤ P) (hPP : P ≤ P') (hM : 0 ≤ M) (hMM : M ≤ M') (hr : 0 < r) (hy : 0 ≤ y)
    (hyy : y ≤ y') : published P M r y ≤ published P' M' r y' := by
  have h1 : M * y ≤ M' * y' := mul_le_mul hMM hyy hy (hM.trans hMM)
  have h2 : (y / r) ^ (1 / 4 : ℝ) ≤ (y' / r) ^ (1 / 4 : ℝ) :=
    Real.rpow_le_rpow (by positivity) (div_le_div_of_nonneg_right hyy hr.le) (by norm_num)
  have h3 : P / 2 * (y / r) ^ (1 / 4 : ℝ) ≤ P' / 2 * (y' / r) ^ (1 / 4 : ℝ) :=
    mul_le_mul (by linarith) h2 (by positivity) (by linarith)
  exact min_le_min hPP (min_le_min h1 h3)

theorem rockRatio_nonneg {P M r : ℝ} (hP : 0 ≤ P) (hM : 0 < M) (hr : 0 < r) : 0 ≤ rockRatio P M r := by
  unfold rockRatio
  positivity

theorem root_eq {P M r y : ℝ} (hM : 0 < M) (hr : 0 < r) (hy : 0 ≤ y) :
    P / 2 * (y / r) ^ (1 / 4 : ℝ) = M * (rockRatio P M r * y ^ (1 / 4 : ℝ)) := by
  have h4 : 0 < r ^ (1 / 4 : ℝ) := by positivity
  rw [Real.div_rpow hy hr.le]
  unfold rockRatio
  field_simp

theorem line_eq {M y : ℝ} (hy : 0 ≤ y) : M * y = M * (y ^ (3 / 4 : ℝ) * y ^ (1 / 4 : ℝ)) := by
  rcases hy.eq_or_lt with h | h
  · rw [← h, Real.zero_rpow (by norm_num), Real.zero_rpow (by norm_num), mul_zero, mul_zero, mul_zero]
  · rw [← Real.rpow_add h]
    norm_num

theorem published_le {P M r y : ℝ} : published P M r y ≤ rockP P M (yA P r M) r y := by
  unfold published rockP
  split_ifs
  · exact min_le_min le_rfl (min_le_left _ _)
  · exact min_le_min le_rfl (min_le_right _ _)

theorem power_three {B : ℝ} (hB : 0 ≤ B) : (B ^ (1333 / 1000 : ℝ)) ^ (3 / 4 : ℝ) = B ^ (3999 / 4000 : ℝ) := by
  rw [← Real.rpow_mul hB]
  norm_num

/-- Beyond the elastic part the code follows the published curve. -/
theorem beyond {P M r y : ℝ} (hP : 0 ≤ P) (hM : 0 < M) (hr : 0 < r) (hy : 0 ≤ y) (h1 : rockRatio P M r ≤ 1) (ha : yA P r M < y) :
    rockP P M (yA P r M) r y = published P M r y := by
  have hB := rockRatio_nonneg hP hM hr
  unfold rockP published
  rw [if_neg (not_le.2 ha), min_eq_right (a := M * y)]
  rw [root_eq hM hr hy, line_eq hy]
  refine mul_le_mul_of_nonneg_left (mul_le_mul_of_nonneg_right ?_ (by positivity)) hM.le
  have h2 : (yA P r M) ^ (3 / 4 : ℝ) ≤ y ^ (3 / 4 : ℝ) := Real.rpow_le_rpow (Real.rpow_nonneg hB _) ha.le (by norm_num)
  refine le_trans ?_ h2
  show _ ≤ (rockRatio P M r ^ (1333 / 1000 : ℝ)) ^ (3 / 4 : ℝ)
  rw [power_three hB]
  rcases hB.eq_or_lt with h0 | h0
  · rw [← h0, Real.zero_rpow (by norm_num)]
  · calc rockRatio P M r = rockRatio P M r ^ (1 : ℝ) := (Real.rpow_one _).symm
      _ ≤ _ := Real.rpow_le_rpow_of_exponent_ge h0 h1 (by norm_num)

/-- In the elastic part the code exceeds the published curve by a factor close to one at most. -/
theorem within {P M r y : ℝ} (hP : 0 < P) (hM : 0 < M) (hr : 0 < r) (hy : 0 ≤ y) (h1 : rockRatio P M r ≤ 1) :
    rockP P M (yA P r M) r y ≤ (rockRatio P M r) ^ (-(1 / 4000) : ℝ) * published P M r y := by
  have hB : 0 < rockRatio P M r := by
    unfold rockRatio
    positivity
  have hc : 1 ≤ (rockRatio P M r) ^ (-(1 / 4000) : ℝ) := Real.one_le_rpow_of_pos_of_le_one_of_nonpos hB h1 (by norm_num)
  have hG : 0 ≤ published P M r y := by
    unfold published
    exact le_min hP.le (le_min (by positivity) (by positivity))
  by_cases ha : yA P r M < y
  · rw [beyond hP.le hM hr hy h1 ha]
    nlinarith
  · push Not at ha
    generalize hcc : (rockRatio P M r) ^ (-(1 / 4000) : ℝ) = c at hc
    unfold rockP published
    rw [if_pos ha, mul_min_of_nonneg _ _ (by linarith), mul_min_of_nonneg _ _ (by linarith)]
    have hMy : 0 ≤ M * y := by positivity
    refine le_min ((min_le_left _ _).trans (by nlinarith)) (le_min ((min_le_right _ _).trans (by nlinarith)) ((min_le_right _ _).trans ?_))
    rw [root_eq hM hr hy]
    nth_rewrite 1 [line_eq hy]
    have h2 : y ^ (3 / 4 : ℝ) ≤ c * rockRatio P M r := by
      have h3 : y ^ (3 / 4 : ℝ) ≤ (yA P r M) ^ (3 / 4 : ℝ) := Real.rpow_le_rpow hy ha (by norm_num)
      refine h3.trans (le_of_eq ?_)
      show (rockRatio P M r ^ (1333 / 1000 : ℝ)) ^ (3 / 4 : ℝ) = _
      rw [power_three hB.le, ← hcc]
      nth_rewrite 3 [← Real.rpow_one (rockRatio P M r)]
      rw [← Real.rpow_add hB]
      norm_num
    have h4 : 0 ≤ y ^ (1 / 4 : ℝ) := by positivity
    calc M * (y ^ (3 / 4 : ℝ) * y ^ (1 / 4 : ℝ)) ≤ M * (c * rockRatio P M r * y ^ (1 / 4 : ℝ)) :=
          mul_le_mul_of_nonneg_left (mul_le_mul_of_nonneg_right h2 h4) hM.le
      _ = _ := by ring

theorem rockModulus_mono {Ei Ei' xr D : ℝ} (hx : 0 ≤ xr) (hD : 0 < D) (h : Ei ≤ Ei') : rockModulus Ei xr D ≤ rockModulus Ei' xr D := by
  have hr : 0 ≤ xr / (3 * D) := by positivity
  unfold rockModulus
  split_ifs
  · exact mul_le_mul_of_nonneg_right h (by linarith)
  · linarith

theorem rockUltimate_mono {qu qu' RQD xr D : ℝ} (hx : 0 ≤ xr) (hD : 0 < D) (h : qu ≤ qu') :
    rockUltimate qu RQD xr D ≤ rockUltimate qu' RQD xr D := by
  have hf := (fracture_range RQD).1
  have hf0 : 0 ≤ fracture RQD := by linarith
  unfold rockUltimate
  split_ifs
  · exact mul_le_mul_of_nonneg_right (mul_le_mul_of_nonneg_left h hf0) (by positivity)
  · exact mul_le_mul_of_nonneg_right (mul_le_mul_of_nonneg_left h (by positivity)) hD.le

theorem rockModulus_pos {Ei xr D : ℝ} (hE : 0 < Ei) (hx : 0 ≤ xr) (hD : 0 < D) : 0 < rockModulus Ei xr D := by
  rw [← epy_eq hD]
  have := (C32_modulus hE.le hx hD).1
  linarith

theorem rockUltimate_pos {qu RQD xr D : ℝ} (hq : 0 < qu) (hx : 0 ≤ xr) (hD : 0 < D) : 0 < rockUltimate qu RQD xr D := by
  have hf := (fracture_range RQD).1
  have hf0 : 0 < fracture RQD := by linarith
  unfold rockUltimate
  split_ifs <;> positivity

/-- **C83, weak rock.** Of two rocks the second has a modulus and a strength that are not smaller (or they are the same). At a
displacement that is at least as large, the second table has at least the resistance of the first, except at the end of the elastic part
of the first table, and there up to the factor `B ^ (-1/4000)`; `B ≤ 1` is the ratio of the ultimate resistance to that of the elastic
part at the reference displacement. -/
theorem C83_rock_partial {Ei Ei' qu qu' RQD xr D k : ℝ} {len len' : ℕ} {l l' : List (ℝ × ℝ)} (hr : RockData Ei qu xr D k) (hq0 : 0 < qu)
    (hE : Ei ≤ Ei') (hq : qu ≤ qu') (hB : rockUltimate qu RQD xr D ≤ 2 * (k * D) ^ (1 / 4 : ℝ) * rockModulus Ei xr D)
    (h : reeseRock Ei qu RQD xr D k len = some l) (h' : reeseRock Ei' qu' RQD xr D k len' = some l') (q q' : ℝ × ℝ) (hm : q ∈ l)
    (hm' : q' ∈ l') (hqq : q.1 ≤ q'.1) :
    (q.1 ≠ rockIntersection Ei qu RQD xr D k → q.2 ≤ q'.2) ∧
      q.2 ≤ (rockUltimate qu RQD xr D / (2 * (k * D) ^ (1 / 4 : ℝ) * rockModulus Ei xr D)) ^ (-(1 / 4000) : ℝ) * q'.2 := by
  have hk : 0 < k * D := mul_pos hr.k hr.D
  have hr' : RockData Ei' qu' xr D k := ⟨hr.Ei.trans_le hE, hr.qu.trans hq, hr.xr, hr.D, hr.k⟩
  rw [reese_eq hr, Option.some.injEq] at h
  rw [reese_eq hr', Option.some.injEq] at h'
  subst h h'
  obtain ⟨y, hy, rfl⟩ := List.mem_map.1 hm
  obtain ⟨y', hy', rfl⟩ := List.mem_map.1 hm'
  dsimp only at hqq ⊢
  have hM := rockModulus_pos hr.Ei hr.xr hr.D
  have hP := rockUltimate_pos (RQD := RQD) hq0 hr.xr hr.D
  have hMM := rockModulus_mono hr.xr hr.D hE
  have hPP := rockUltimate_mono (RQD := RQD) hr.xr hr.D hq
  have hint : rockIntersection Ei qu RQD xr D k = yA (rockUltimate qu RQD xr D) (k * D) (rockModulus Ei xr D) := by
    unfold rockIntersection yA
    congr 2
    ring
  rw [hint]
  generalize rockModulus Ei xr D = M at *
  generalize rockModulus Ei' xr D = M' at *
  generalize rockUltimate qu RQD xr D = P at *
  generalize rockUltimate qu' RQD xr D = P' at *
  generalize k * D = r at *
  have h1 : rockRatio P M r ≤ 1 := (div_le_one (by positivity)).2 hB
  have ha : 0 ≤ yA P r M := Real.rpow_nonneg (rockRatio_nonneg hP.le hM hk) _
  obtain ⟨-, hy0, hcase⟩ := rockY_sorted ha hk (max 8 len)
  have hmono := published_mono hP.le hPP hM.le hMM hk (hy0 y hy) hqq
  have hle : published P' M' r y' ≤ rockP P' M' (yA P' r M') r y' := published_le
  refine ⟨?_, ?_⟩
  · intro hne
    rcases hcase y hy with h0 | h0
    · refine le_trans ?_ (hmono.trans hle)
      rw [h0]
      unfold rockP published
      rw [if_pos ha]
      simp
    · rw [beyond hP.le hM hk (hy0 y hy) h1 (lt_of_le_of_ne h0 (Ne.symm hne))]
      exact hmono.trans hle
  · refine (within hP hM hk (hy0 y hy) h1).trans ?_
    exact mul_le_mul_of_nonneg_left (hmono.trans hle) (Real.rpow_nonneg (rockRatio_nonneg hP.le hM hk) _)

/-- A point of `linspace` just above a number. -/
theorem linspace_near {a b x : ℝ} (h1 : a ≤ x) (h2 : x < b) {n : ℕ} (hn : 2 ≤ n) :
    ∃ y ∈ linspace a b n, x < y ∧ y ≤ x + (b - a) / ((n : ℝ) - 1) := by
  have hab : 0 < b - a := by linarith
  have hn1 : (0 : ℝ) < (n : ℝ) - 1 := by
    have : (2 : ℝ) ≤ n := by exact_mod_cast hn
    linarith
  have hs : 0 < (b - a) / ((n : ℝ) - 1) := by positivity
  have hsn : ((n : ℝ) - 1) * ((b - a) / ((n : ℝ) - 1)) = b - a := by field_simp
  unfold linspace
  rw [if_neg (by omega)]
  generalize (b - a) / ((n : ℝ) - 1) = s at hs hsn
  have hq : 0 ≤ (x - a) / s := div_nonneg (by linarith) hs.le
  have f1 := Nat.floor_le hq
  have f2 := Nat.lt_floor_add_one ((x - a) / s)
  rw [le_div_iff₀ hs] at f1
  rw [div_lt_iff₀ hs] at f2
  generalize ⌊(x - a) / s⌋₊ = m at f1 f2
  have hm : (m : ℝ) < (n : ℝ) - 1 := by
    by_contra hc
    push Not at hc
    have := mul_le_mul_of_nonneg_right hc hs.le
    linarith
  have hm' : m + 1 < n := by
    have : (m : ℝ) + 1 < n := by linarith
    exact_mod_cast this
  exact ⟨a + ((m + 1 : ℕ) : ℝ) * s, List.mem_map.2 ⟨m + 1, List.mem_range.2 hm', rfl⟩, by push_cast; linarith, by push_cast; linarith⟩

/-- **C83 is violated by weak rock with fine tables.** Take any rock and the same rock or a slightly stiffer one. From some length of the
tables on, the second table has, at a larger displacement, less resistance than the first at the end of its elastic part; with
`Ei' = Ei` this is a drop within one table. -/
theorem C83_violated_rock {Ei Ei' qu RQD xr D k : ℝ} (hr : RockData Ei qu xr D k) (hq0 : 0 < qu) (hE : Ei ≤ Ei')
    (hB : rockUltimate qu RQD xr D < 2 * (k * D) ^ (1 / 4 : ℝ) * rockModulus Ei xr D)
    (h16 : rockIntersection Ei qu RQD xr D k < 16 * (k * D))
    (hclose : rockIntersection Ei qu RQD xr D k < 101 / 100 * rockIntersection Ei' qu RQD xr D k) :
    ∃ n, ∀ len, n ≤ len → ∃ l l', reeseRock Ei qu RQD xr D k len = some l ∧ reeseRock Ei' qu RQD xr D k len = some l' ∧
      ∃ q ∈ l, ∃ q' ∈ l', q.1 < q'.1 ∧ q'.2 < q.2 := by
  have hk : 0 < k * D := mul_pos hr.k hr.D
  have hr' : RockData Ei' qu xr D k := ⟨hr.Ei.trans_le hE, hr.qu, hr.xr, hr.D, hr.k⟩
  have hint : ∀ Ei, rockIntersection Ei qu RQD xr D k = yA (rockUltimate qu RQD xr D) (k * D) (rockModulus Ei xr D) := by
    intro Ei
    unfold rockIntersection yA
    congr 2
    ring
  have hM := rockModulus_pos hr.Ei hr.xr hr.D
  have hP := rockUltimate_pos (RQD := RQD) hq0 hr.xr hr.D
  have hMM := rockModulus_mono hr.xr hr.D hE
  have hM' := hM.trans_le hMM
  simp only [reese_eq hr, reese_eq hr']
  rw [hint] at h16
  rw [hint, hint] at hclose
  generalize rockModulus Ei xr D = M at *
  generalize rockModulus Ei' xr D = M' at *
  generalize rockUltimate qu RQD xr D = P at *
  generalize k * D = r at *
  have hr4 : 0 < r ^ (1 / 4 : ℝ) := by positivity
  have hB0 : 0 < rockRatio P M r := by
    unfold rockRatio
    positivity
  have hB1 : rockRatio P M r < 1 := (div_lt_one (by positivity)).2 hB
  have haa : yA P r M' ≤ yA P r M := by
    unfold yA
    refine Real.rpow_le_rpow (by positivity) ?_ (by norm_num)
    exact div_le_div_of_nonneg_left hP.le (by positivity) (mul_le_mul_of_nonneg_left hMM (by positivity))
  have ha0 : 0 < yA P r M := Real.rpow_pos_of_pos hB0 _
  have ha' : 0 < yA P r M' := by
    unfold yA
    positivity
  -- where the second part of the curve regains the resistance
  have hup : yA P r M < rockRatio P M r ^ (1332 / 1000 : ℝ) := by
    show rockRatio P M r ^ (1333 / 1000 : ℝ) < _
    exact Real.rpow_lt_rpow_of_exponent_gt hB0 hB1 (by norm_num)
  set ym := max (105 / 100 * yA P r M') ((2 * r ^ (1 / 4 : ℝ)) ^ 4) with hym
  set b := max (15 / 100 * ym) (101 / 100 * yA P r M') with hb
  have hab : yA P r M < b := lt_of_lt_of_le hclose (le_max_right _ _)
  obtain ⟨N, hN⟩ := exists_nat_gt ((b - yA P r M') / (min (rockRatio P M r ^ (1332 / 1000 : ℝ)) (16 * r) - yA P r M))
  have hd : 0 < min (rockRatio P M r ^ (1332 / 1000 : ℝ)) (16 * r) - yA P r M := sub_pos.2 (lt_min hup h16)
  rw [div_lt_iff₀ hd] at hN
  refine ⟨2 * N + 8, fun len hlen => ⟨_, _, rfl, rfl, ?_⟩⟩
  have hmax : max 8 len = len := by omega
  rw [hmax]
  obtain ⟨y, hy, y1, y2⟩ := linspace_near haa hab (n := len / 2) (by omega)
  have hN1 : (N : ℝ) < ((len / 2 : ℕ) : ℝ) - 1 := by
    have : N + 1 < len / 2 := by omega
    have : ((N + 1 : ℕ) : ℝ) < ((len / 2 : ℕ) : ℝ) := by exact_mod_cast this
    push_cast at this ⊢
    linarith
  have hn0 : (0 : ℝ) < ((len / 2 : ℕ) : ℝ) - 1 := lt_of_le_of_lt (Nat.cast_nonneg N) hN1
  have hstep : (b - yA P r M') / (((len / 2 : ℕ) : ℝ) - 1) < min (rockRatio P M r ^ (1332 / 1000 : ℝ)) (16 * r) - yA P r M := by
    rw [div_lt_iff₀ hn0]
    refine hN.trans ?_
    rw [mul_comm]
    exact mul_lt_mul_of_pos_left hN1 hd
  have hy1 : y < rockRatio P M r ^ (1332 / 1000 : ℝ) := by
    have := min_le_left (rockRatio P M r ^ (1332 / 1000 : ℝ)) (16 * r)
    linarith
  have hy2 : y < 16 * r := by
    have := min_le_right (rockRatio P M r ^ (1332 / 1000 : ℝ)) (16 * r)
    linarith
  have hmem : yA P r M ∈ rockY (yA P r M) r len := by
    unfold rockY
    simp only [List.mem_append]
    refine .inl (.inl (.inr ?_))
    have := linspace_head (yA P r M) (max (15 / 100 * max (105 / 100 * yA P r M) ((2 * r ^ (1 / 4 : ℝ)) ^ 4)) (101 / 100 * yA P r M))
      (n := len / 2) (by omega)
    exact List.mem_of_mem_head? this
  have hmem' : y ∈ rockY (yA P r M') r len := by
    unfold rockY
    simp only [List.mem_append]
    exact .inl (.inl (.inr hy))
  refine ⟨_, List.mem_map.2 ⟨_, hmem, rfl⟩, _, List.mem_map.2 ⟨_, hmem', rfl⟩, y1, ?_⟩
  dsimp only
  have hy0 : 0 < y := ha0.trans y1
  unfold rockP
  rw [if_neg (not_le.2 (haa.trans_lt y1)), if_pos le_rfl]
  refine (min_le_right _ _).trans_lt (lt_min ?_ ?_)
  · have h2 : (y / r) ^ (1 / 4 : ℝ) < 2 := by
      have e : (16 : ℝ) ^ (1 / 4 : ℝ) = 2 := by
        rw [show (16 : ℝ) = 2 ^ (4 : ℝ) by norm_num, ← Real.rpow_mul (by norm_num)]
        norm_num
      rw [← e]
      exact Real.rpow_lt_rpow (by positivity) ((div_lt_iff₀ hk).2 hy2) (by norm_num)
    nlinarith
  · rw [root_eq hM hk hy0.le]
    refine mul_lt_mul_of_pos_left ?_ hM
    have h3 : y ^ (1 / 4 : ℝ) < (rockRatio P M r ^ (1332 / 1000 : ℝ)) ^ (1 / 4 : ℝ) := Real.rpow_lt_rpow hy0.le hy1 (by norm_num)
    refine (mul_lt_mul_of_pos_left h3 hB0).trans_eq ?_
    show _ = rockRatio P M r ^ (1333 / 1000 : ℝ)
    rw [← Real.rpow_mul hB0.le]
    nth_rewrite 1 [← Real.rpow_one (rockRatio P M r)]
    rw [← Real.rpow_add hB0]
    norm_num

/-- **C83, one table of weak rock.** If the elastic part is short, as it usually is, the resistance never decreases with the
displacement. -/
theorem C83_rock_rising {Ei qu RQD xr D k : ℝ} {len : ℕ} {l : List (ℝ × ℝ)} (hr : RockData Ei qu xr D k) (hq0 : 0 < qu)
    (hB : rockUltimate qu RQD xr D ≤ 2 * (k * D) ^ (1 / 4 : ℝ) * rockModulus Ei xr D)
    (hB' : (1 / 2) ^ 1000 * (2 * (k * D) ^ (1 / 4 : ℝ) * rockModulus Ei xr D) ≤ rockUltimate qu RQD xr D)
    (hshort : ((max 8 len / 2 : ℕ) : ℝ) * rockIntersection Ei qu RQD xr D k ≤ 24 / 10 * (k * D))
    (h : reeseRock Ei qu RQD xr D k len = some l) : Outresists l l := by
  intro q hm q' hm' hqq
  by_cases hne : q.1 ≠ rockIntersection Ei qu RQD xr D k
  · exact (C83_rock_partial hr hq0 le_rfl le_rfl hB h h q q' hm hm' hqq).1 hne
  push Not at hne
  have hk : 0 < k * D := mul_pos hr.k hr.D
  rw [reese_eq hr, Option.some.injEq] at h
  subst h
  obtain ⟨y, hy, rfl⟩ := List.mem_map.1 hm
  obtain ⟨y', hy', rfl⟩ := List.mem_map.1 hm'
  dsimp only at hqq hne ⊢
  have hM := rockModulus_pos hr.Ei hr.xr hr.D
  have hP := rockUltimate_pos (RQD := RQD) hq0 hr.xr hr.D
  have hint : rockIntersection Ei qu RQD xr D k = yA (rockUltimate qu RQD xr D) (k * D) (rockModulus Ei xr D) := by
    unfold rockIntersection yA
    congr 2
    ring
  rw [hint] at hne hshort
  generalize rockModulus Ei xr D = M at *
  generalize rockUltimate qu RQD xr D = P at *
  generalize k * D = r at *
  rcases hqq.eq_or_lt with e | hlt
  · rw [e]
  have hr4 : 0 < r ^ (1 / 4 : ℝ) := by positivity
  have hB0 : 0 < rockRatio P M r := by
    unfold rockRatio
    positivity
  have h1 : rockRatio P M r ≤ 1 := (div_le_one (by positivity)).2 hB
  have hlow : (1 / 2) ^ 1000 ≤ rockRatio P M r := (le_div_iff₀ (by positivity)).2 hB'
  have ha0 : 0 < yA P r M := Real.rpow_pos_of_pos hB0 _
  have hn4 : 4 ≤ max 8 len / 2 := by omega
  have hn4' : (4 : ℝ) ≤ ((max 8 len / 2 : ℕ) : ℝ) := by exact_mod_cast hn4
  have hn5 : 2 ≤ max 8 len - max 8 len / 2 - 2 := by omega
  -- the next point is at least twice as far
  have htwo : 2 * yA P r M ≤ y' := by
    have h16 : 16 * r ≤ max (105 / 100 * yA P r M) ((2 * r ^ (1 / 4 : ℝ)) ^ 4) := by
      refine le_trans ?_ (le_max_right _ _)
      rw [mul_pow, quarter_pow hk.le]
      norm_num
    have h105 : 105 / 100 * yA P r M ≤ max (105 / 100 * yA P r M) ((2 * r ^ (1 / 4 : ℝ)) ^ 4) := le_max_left _ _
    have hsm : 4 * yA P r M ≤ 24 / 10 * r := le_trans (mul_le_mul_of_nonneg_right hn4' ha0.le) hshort
    unfold rockY at hy'
    simp only [List.mem_append, List.mem_singleton] at hy'
    generalize max (105 / 100 * yA P r M) ((2 * r ^ (1 / 4 : ℝ)) ^ 4) = ym at h16 h105 hy'
    have hb : ((max 8 len / 2 : ℕ) : ℝ) * yA P r M ≤ max (15 / 100 * ym) (101 / 100 * yA P r M) :=
      hshort.trans (le_trans (by linarith) (le_max_left _ _))
    rcases hy' with ((h0 | h0) | h0) | h0
    · rw [hne, h0] at hlt
      linarith
    · generalize max (15 / 100 * ym) (101 / 100 * yA P r M) = b at hb h0
      unfold linspace at h0
      rw [if_neg (by omega)] at h0
      obtain ⟨i, -, rfl⟩ := List.mem_map.1 h0
      have hn1 : (0 : ℝ) < ((max 8 len / 2 : ℕ) : ℝ) - 1 := by linarith
      have hs : yA P r M ≤ (b - yA P r M) / (((max 8 len / 2 : ℕ) : ℝ) - 1) := by
        rw [le_div_iff₀ hn1]
        linarith
      have hi : 1 ≤ i := by
        rcases Nat.eq_zero_or_pos i with rfl | hi
        · rw [hne] at hlt
          simp at hlt
        · exact hi
      have hi' : (1 : ℝ) ≤ i := by exact_mod_cast hi
      have := mul_le_mul hi' hs ha0.le (by linarith)
      linarith
    · have h25 : 25 / 100 * ym ≤ max (yA P r M * (102 / 100)) (25 / 100 * ym) := le_max_right _ _
      have h3 : max (yA P r M * (102 / 100)) (25 / 100 * ym) ≤ ym := max_le (by linarith) (by linarith)
      have := (linspace_mem_le h3 h0).1
      linarith
    · linarith
  have hy0 : 0 < y' := by linarith
  have hup : rockRatio P M r ^ (1332 / 1000 : ℝ) ≤ y' := by
    refine le_trans ?_ htwo
    have e : rockRatio P M r ^ (1332 / 1000 : ℝ) = rockRatio P M r ^ (-(1 / 1000) : ℝ) * yA P r M := by
      show _ = _ * rockRatio P M r ^ (1333 / 1000 : ℝ)
      rw [← Real.rpow_add hB0]
      norm_num
    rw [e]
    refine mul_le_mul_of_nonneg_right ?_ ha0.le
    rw [Real.rpow_neg hB0.le, inv_le_comm₀ (by positivity) (by norm_num)]
    have h2 : ((1 / 2 : ℝ) ^ 1000) ^ (1 / 1000 : ℝ) ≤ rockRatio P M r ^ (1 / 1000 : ℝ) :=
      Real.rpow_le_rpow (by positivity) hlow (by norm_num)
    have h3 : ((1 / 2 : ℝ) ^ 1000) ^ (1 / 1000 : ℝ) = 1 / 2 := by
      rw [← Real.rpow_natCast, ← Real.rpow_mul (by norm_num)]
      norm_num
    rw [h3] at h2
    linarith
  rw [hne]
  unfold rockP
  rw [if_pos le_rfl, if_neg (by linarith)]
  refine min_le_min le_rfl ?_
  rw [root_eq hM hk hy0.le]
  refine mul_le_mul_of_nonneg_left ?_ hM.le
  have h3 : (rockRatio P M r ^ (1332 / 1000 : ℝ)) ^ (1 / 4 : ℝ) ≤ y' ^ (1 / 4 : ℝ) := Real.rpow_le_rpow (by positivity) hup (by norm_num)
  refine le_trans (le_of_eq ?_) (mul_le_mul_of_nonneg_left h3 hB0.le)
  show rockRatio P M r ^ (1333 / 1000 : ℝ) = _
  rw [← Real.rpow_mul hB0.le]
  nth_rewrite 2 [← Real.rpow_one (rockRatio P M r)]
  rw [← Real.rpow_add hB0]
  norm_num

/-! ### a rock of 0.4 MPa -/

theorem tenth : ((1 / 10000 : ℝ) * 1) ^ (1 / 4 : ℝ) = 1 / 10 := by
  rw [show (1 / 10000 : ℝ) * 1 = (1 / 10) ^ (4 : ℝ) by norm_num, ← Real.rpow_mul (by norm_num)]
  norm_num

theorem sample_modulus : rockModulus 100000 3 1 = 50000000 := by
  unfold rockModulus
  norm_num

theorem sample_ultimate : rockUltimate 400 0 3 1 = 2080 := by
  unfold rockUltimate fracture
  norm_num

theorem sample_end : 0 < rockIntersection 100000 400 0 3 1 (1 / 10000) ∧
    rockIntersection 100000 400 0 3 1 (1 / 10000) < 1 / 30000 := by
  unfold rockIntersection
  rw [sample_modulus, sample_ultimate, tenth]
  refine ⟨by positivity, ?_⟩
  have h1 : (2080 / (2 * 50000000 * (1 / 10)) : ℝ) ^ (1333 / 1000 : ℝ) ≤ (2080 / (2 * 50000000 * (1 / 10)) : ℝ) ^ (1 + 1 / 4 : ℝ) :=
    Real.rpow_le_rpow_of_exponent_ge (by norm_num) (by norm_num) (by norm_num)
  refine h1.trans_lt ?_
  rw [Real.rpow_add (by norm_num), Real.rpow_one]
  have h2 : (2080 / (2 * 50000000 * (1 / 10)) : ℝ) ^ (1 / 4 : ℝ) ≤ 1 / 8 := by
    have e : ((1 / 8 : ℝ) ^ (4 : ℝ)) ^ (1 / 4 : ℝ) = 1 / 8 := by
      rw [← Real.rpow_mul (by norm_num)]
      norm_num
    rw [← e]
    exact Real.rpow_le_rpow (by norm_num) (by norm_num) (by norm_num)
  nlinarith

/-- The hypotheses of `C83_rock_partial`, `C83_rock_rising` (15 points, as in a Model) and `C83_violated_rock` are met. -/
example : RockData 100000 400 3 1 (1 / 10000) ∧
    rockUltimate 400 0 3 1 < 2 * (1 / 10000 * 1) ^ (1 / 4 : ℝ) * rockModulus 100000 3 1 ∧
    (1 / 2) ^ 1000 * (2 * (1 / 10000 * 1) ^ (1 / 4 : ℝ) * rockModulus 100000 3 1) ≤ rockUltimate 400 0 3 1 ∧
    ((max 8 15 / 2 : ℕ) : ℝ) * rockIntersection 100000 400 0 3 1 (1 / 10000) ≤ 24 / 10 * (1 / 10000 * 1) ∧
    rockIntersection 100000 400 0 3 1 (1 / 10000) < 16 * (1 / 10000 * 1) ∧
    rockIntersection 100000 400 0 3 1 (1 / 10000) < 101 / 100 * rockIntersection 100000 400 0 3 1 (1 / 10000) := by
  obtain ⟨h1, h2⟩ := sample_end
  refine ⟨by constructor <;> norm_num, ?_, ?_, ?_, by linarith, by linarith⟩
  · rw [sample_modulus, sample_ultimate, tenth]
    norm_num
  · rw [sample_modulus, sample_ultimate, tenth]
    have : (1 / 2 : ℝ) ^ 1000 ≤ (1 / 2) ^ 13 := pow_le_pow_of_le_one (by norm_num) (by norm_num) (by norm_num)
    have h13 : (1 / 2 : ℝ) ^ 13 * (2 * (1 / 10) * 50000000) ≤ 2080 := by norm_num
    exact (mul_le_mul_of_nonneg_right this (by norm_num)).trans h13
  · norm_num
    linarith

end OpenPile.Props.Stronger
