/-
C83, Kraft's t-z curves: two soils, the second with the larger friction and stiffness.

`tz_curves.py` 17-77 (`kraft_modification`), 228-323 (`api_clay_kraft`), 472-571 (`api_sand_kraft`).
-/
import Verif.Props.KraftApi
import Verif.Props.Stronger

namespace OpenPile.Props.Stronger
open OpenPile.Axial OpenPile.Spring OpenPile.Props.Kraft

/-- A stiffer and stronger soil needs less displacement for the same friction. -/
theorem kraftZ_anti {f f' D G0 G0' rf zif t : ℝ} (hf : 0 < f) (hff : f ≤ f') (hD : 0 ≤ D) (hG : 0 < G0) (hGG : G0 ≤ G0') (h0 : 0 ≤ rf)
    (h1 : rf < 1) (hz : 1 ≤ zif) (ht : 0 ≤ t) (htf : t ≤ f) : kraftZ f' D G0' rf zif t ≤ kraftZ f D G0 rf zif t := by
  have hf' := hf.trans_le hff
  have e1 : rf * (t / f') ≤ rf * (t / f) := mul_le_mul_of_nonneg_left (div_le_div_of_nonneg_left ht hf hff) h0
  have e2 : rf * (t / f) < 1 := by
    have : t / f ≤ 1 := (div_le_one hf).2 htf
    have : 0 ≤ t / f := div_nonneg ht hf.le
    nlinarith
  have a1 := arg_mono hz e1 e2
  have a2 := arg_ge hz (lt_of_le_of_lt e1 e2)
  have l1 := Real.log_nonneg a2
  have l2 := Real.log_le_log (by linarith) a1
  have c1 : t * D / (2 * G0') ≤ t * D / (2 * G0) :=
    div_le_div_of_nonneg_left (mul_nonneg ht hD) (by linarith) (by linarith)
  have c2 : 0 ≤ t * D / (2 * G0') := div_nonneg (mul_nonneg ht hD) (by linarith)
  exact mul_le_mul c1 l2 l1 (c2.trans c1)

theorem kraftZ_strict {f D G0 rf zif s t : ℝ} (hf : 0 < f) (hD : 0 < D) (hG : 0 < G0) (h0 : 0 ≤ rf) (h1 : rf < 1) (hz : 1 < zif)
    (hs : 0 ≤ s) (hst : s < t) (ht : t ≤ f) : kraftZ f D G0 rf zif s < kraftZ f D G0 rf zif t := by
  have e1 : rf * (s / f) ≤ rf * (t / f) := mul_le_mul_of_nonneg_left (div_le_div_of_nonneg_right hst.le hf.le) h0
  have e0 : 0 ≤ rf * (s / f) := mul_nonneg h0 (div_nonneg hs hf.le)
  have e2 : rf * (t / f) < 1 := by
    have : t / f ≤ 1 := (div_le_one hf).2 ht
    nlinarith
  have a1 := arg_mono hz.le e1 e2
  have a2 := arg_ge hz.le (lt_of_le_of_lt e1 e2)
  have a3 : 1 < (zif - rf * (t / f)) / (1 - rf * (t / f)) := by
    rw [one_lt_div (by linarith)]
    linarith
  have l1 := Real.log_nonneg a2
  have l2 := Real.log_le_log (by linarith) a1
  have l3 := Real.log_pos a3
  have c1 : s * D / (2 * G0) < t * D / (2 * G0) :=
    div_lt_div_of_pos_right (mul_lt_mul_of_pos_right hst hD) (by linarith)
  have c2 : 0 ≤ s * D / (2 * G0) := div_nonneg (mul_nonneg hs hD.le) (by linarith)
  unfold kraftZ
  calc _ ≤ s * D / (2 * G0) * Real.log ((zif - rf * (t / f)) / (1 - rf * (t / f))) := mul_le_mul_of_nonneg_left l2 c2
    _ < _ := mul_lt_mul_of_pos_right c1 l3

/-- **C83, Kraft's curve in compression.** Of two soils the second has a peak friction and a stiffness that are not smaller. At a
displacement that is at least as large it has at least the friction of the first: if there is no loss of friction after the peak, or up to
the peak of the second soil, or after the peak of the first. -/
theorem C83_kraft_partial {f f' D G0 G0' res tens tens' rf zif : ℝ} {len len' : ℕ} {c c' : List ℝ × List ℝ} (hf : 0 < f) (hff : f ≤ f')
    (hD : 0 < D) (hG : 0 < G0) (hGG : G0 ≤ G0') (h0 : 0 ≤ rf) (h1 : rf < 1) (hz : 1 < zif) (hr0 : 0 ≤ res) (hr1 : res ≤ 1)
    (h : kraft f D G0 res tens rf zif len = some c) (h' : kraft f' D G0' res tens' rf zif len' = some c') (q q' : ℝ × ℝ)
    (hq : q ∈ c.1.zip c.2) (hq' : q' ∈ c'.1.zip c'.2) (hq0 : 0 < q.1) (hle : q.1 ≤ q'.1)
    (hpeak : res = 1 ∨ q'.1 ≤ kraftZ f' D G0' rf zif f' ∨ kraftZ f D G0 rf zif f < q.1) : q.2 ≤ q'.2 := by
  have hf' := hf.trans_le hff
  have hG' := hG.trans_le hGG
  obtain ⟨d, hd, -, -, -, -, -, -, hpos, -⟩ := C34_shape f D G0 res tens rf zif len hf hD.le hG h0 h1 hz.le
  obtain ⟨d', hd', -, -, -, -, -, -, hpos', -⟩ := C34_shape f' D G0' res tens' rf zif len' hf' hD.le hG' h0 h1 hz.le
  rw [h, Option.some.injEq] at hd
  rw [h', Option.some.injEq] at hd'
  subst hd hd'
  have anti : ∀ t, 0 ≤ t → t ≤ f → kraftZ f' D G0' rf zif t ≤ kraftZ f D G0 rf zif t := fun t a b =>
    kraftZ_anti hf hff hD.le hG hGG h0 h1 hz.le a b
  have hrf : res * f ≤ f := by nlinarith
  have hrff : res * f ≤ res * f' := mul_le_mul_of_nonneg_left hff hr0
  rcases hpos q hq hq0 with ⟨a1, a2, a3⟩ | ⟨a1, a2⟩
  · rcases hpos' q' hq' (hq0.trans_le hle) with ⟨b1, b2, b3⟩ | ⟨b1, b2⟩
    · by_contra hlt
      push Not at hlt
      have := kraftZ_strict hf' hD hG' h0 h1 hz b1 hlt (a2.trans hff)
      have := anti _ a1 a2
      linarith
    · rcases hpeak with hp | hp | hp
      · rw [b1, hp, one_mul]
        exact a2.trans hff
      · rcases b2 with b2 | b2 <;> linarith
      · have := (kraftZ_mono hf hD.le hG h0 h1 hz.le a1 a2 le_rfl).2
        linarith
  · rcases hpos' q' hq' (hq0.trans_le hle) with ⟨b1, b2, b3⟩ | ⟨b1, b2⟩
    · rw [a1]
      refine hrf.trans ?_
      by_contra hlt
      push Not at hlt
      have := kraftZ_strict hf' hD hG' h0 h1 hz b1 hlt hff
      have := anti f hf.le le_rfl
      rcases a2 with a2 | a2 <;> linarith
    · rw [a1, b1]
      exact hrff

/-- The point where the friction is lost. -/
theorem lost {f D G0 res tens rf zif : ℝ} {len : ℕ} {c : List ℝ × List ℝ} (hf : 0 < f) (hG : 0 < G0) (h0 : 0 ≤ rf) (h1 : rf < 1)
    (hz : 1 ≤ zif) (h : kraft f D G0 res tens rf zif len = some c) : (kraftZ f D G0 rf zif f + 5 / 1000, res * f) ∈ c.1.zip c.2 := by
  rw [kraft_eq (D := D) (res := res) (tens := tens) len hf hG h0 h1 hz, Option.some.injEq] at h
  subst h
  rw [mirror_zip tens (by simp), List.zip_append (by simp)]
  simp

/-- **C83 is violated by Kraft's curves with a loss of friction after the peak.** If the peak of a soil is reached at more than 5 mm, then
there is a stiffer soil with the same peak friction whose curve has, at the displacement of that peak, the residual friction only. -/
theorem C83_violated_kraft {f D G0 res tens rf zif : ℝ} {len : ℕ} {c : List ℝ × List ℝ} (hf : 0 < f) (hD : 0 < D) (hG : 0 < G0)
    (h0 : 0 ≤ rf) (h1 : rf < 1) (hz : 1 < zif) (hr : res < 1) (h : kraft f D G0 res tens rf zif len = some c)
    (hz5 : 5 / 1000 < kraftZ f D G0 rf zif f) :
    ∃ G0', G0 < G0' ∧ ∃ c', kraft f D G0' res tens rf zif len = some c' ∧
      ∃ z t, (z, f) ∈ c.1.zip c.2 ∧ (z, t) ∈ c'.1.zip c'.2 ∧ 0 < z ∧ t < f := by
  obtain ⟨d, hd, -, -, -, -, -, hpk, -⟩ := C34_shape f D G0 res tens rf zif len hf hD.le hG h0 h1 hz.le
  rw [h, Option.some.injEq] at hd
  subst hd
  have hZ : 0 < kraftZ f D G0 rf zif f - 5 / 1000 := by linarith
  have hG' : G0 < G0 * kraftZ f D G0 rf zif f / (kraftZ f D G0 rf zif f - 5 / 1000) := by
    rw [lt_div_iff₀ hZ]
    nlinarith
  refine ⟨_, hG', ?_⟩
  obtain ⟨c', hc', -⟩ := C34_shape f D (G0 * kraftZ f D G0 rf zif f / (kraftZ f D G0 rf zif f - 5 / 1000)) res tens rf zif len hf hD.le
    (hG.trans hG') h0 h1 hz.le
  have hl := lost hf (hG.trans hG') h0 h1 hz.le hc'
  have e : kraftZ f D (G0 * kraftZ f D G0 rf zif f / (kraftZ f D G0 rf zif f - 5 / 1000)) rf zif f
      = kraftZ f D G0 rf zif f - 5 / 1000 := by
    have hne : kraftZ f D G0 rf zif f ≠ 0 := by linarith
    have key : ∀ G, 0 < G → kraftZ f D G rf zif f = G0 / G * kraftZ f D G0 rf zif f := by
      intro G hG1
      unfold kraftZ
      field_simp
    rw [key _ (hG.trans hG')]
    field_simp
  rw [e, sub_add_cancel] at hl
  exact ⟨c', hc', _, _, hpk, hl, by linarith, by nlinarith⟩

/-- **C83, `api_clay_kraft`** (without compilation, C68): a stronger and stiffer clay, up to its peak. -/
theorem C83_kraft_clay {jit : Bool} {sig sig' Su Su' D G0 G0' lim res tens rf zif : ℝ} {len : ℕ} {c c' : List ℝ × List ℝ}
    (hs0 : 0 < sig) (hs : sig ≤ sig') (hS0 : 0 < Su) (hS : Su ≤ Su') (hl : 0 ≤ lim) (hD : 0 < D) (hG : 0 < G0) (hGG : G0 ≤ G0')
    (h0 : 0 ≤ rf) (h1 : rf < 1) (hz : 1 < zif) (hr0 : 0 ≤ res) (hr1 : res ≤ 1)
    (h : apiClayKraft jit sig Su D G0 lim res tens rf zif len = some c)
    (h' : apiClayKraft jit sig' Su' D G0' lim res tens rf zif len = some c') (q q' : ℝ × ℝ) (hq : q ∈ c.1.zip c.2)
    (hq' : q' ∈ c'.1.zip c'.2) (hq0 : 0 < q.1) (hle : q.1 ≤ q'.1)
    (hpeak : res = 1 ∨ ∃ f', fmaxClay sig' Su' lim = some f' ∧ q'.1 ≤ kraftZ f' D G0' rf zif f') : q.2 ≤ q'.2 := by
  unfold apiClayKraft at h h'
  cases jit with
  | true =>
    simp only [call, Option.bind_eq_bind, Option.bind_eq_some_iff] at h
    obtain ⟨_, _, hh⟩ := h
    cases hh
  | false =>
    simp only [call, Option.bind_eq_bind, Option.bind_eq_some_iff] at h h'
    obtain ⟨f, hf, hk⟩ := h
    obtain ⟨f', hf', hk'⟩ := h'
    obtain ⟨g1, g2⟩ := C83_fmax_clay hs0 hs hS0 hS hl le_rfl hf hf'
    have g0 : 0 < f := by
      refine lt_of_le_of_ne g1 ?_
      rintro rfl
      rw [C34_violated_zero_friction] at hk
      cases hk
    refine C83_kraft_partial g0 g2 hD hG hGG h0 h1 hz hr0 hr1 hk hk' q q' hq hq' hq0 hle ?_
    rcases hpeak with hp | ⟨g, hg, hp⟩
    · exact .inl hp
    · rw [hf', Option.some.injEq] at hg
      subst hg
      exact .inr (.inl hp)

/-- **C83, `api_sand_kraft`.** -/
theorem C83_kraft_sand {jit : Bool} {sig sig' delta delta' k D G0 G0' res tens rf zif : ℝ} {len : ℕ} {c c' : List ℝ × List ℝ}
    (hs0 : 0 ≤ sig) (hs : sig ≤ sig') (hd0 : 0 ≤ delta) (hd : delta ≤ delta') (hd1 : delta' < 90) (hk0 : 0 ≤ k) (hD : 0 < D) (hG : 0 < G0)
    (hGG : G0 ≤ G0') (h0 : 0 ≤ rf) (h1 : rf < 1) (hz : 1 < zif) (hr0 : 0 ≤ res) (hr1 : res ≤ 1)
    (h : apiSandKraft jit sig delta D G0 k res tens rf zif len = some c)
    (h' : apiSandKraft jit sig' delta' D G0' k res tens rf zif len = some c') (q q' : ℝ × ℝ) (hq : q ∈ c.1.zip c.2)
    (hq' : q' ∈ c'.1.zip c'.2) (hq0 : 0 < q.1) (hle : q.1 ≤ q'.1)
    (hpeak : res = 1 ∨ ∃ f', fmaxSand sig' delta' k = some f' ∧ q'.1 ≤ kraftZ f' D G0' rf zif f') : q.2 ≤ q'.2 := by
  unfold apiSandKraft at h h'
  cases jit with
  | true =>
    simp only [call, Option.bind_eq_bind, Option.bind_eq_some_iff] at h
    obtain ⟨_, _, hh⟩ := h
    cases hh
  | false =>
    simp only [call, Option.bind_eq_bind, Option.bind_eq_some_iff] at h h'
    obtain ⟨f, hf, hk⟩ := h
    obtain ⟨f', hf', hk'⟩ := h'
    have g2 := C83_fmax_sand hs0 hs hd0 hd hd1 hk0 le_rfl hf hf'
    have g0 : 0 < f := by
      refine lt_of_le_of_ne (Friction.C35_sand_bounds_partial sig delta k f hs0 hk0 hd0 (hd.trans_lt hd1) hf).1 ?_
      rintro rfl
      rw [C34_violated_zero_friction] at hk
      cases hk
    refine C83_kraft_partial g0 g2 hD hG hGG h0 h1 hz hr0 hr1 hk hk' q q' hq hq' hq0 hle ?_
    rcases hpeak with hp | ⟨g, hg, hp⟩
    · exact .inl hp
    · rw [hf', Option.some.injEq] at hg
      subst hg
      exact .inr (.inl hp)

/-- A soil with a peak beyond 5 mm that loses a tenth of its friction, and a stiffer one: the hypotheses are met. -/
example : ∃ c c', kraft 100 2 20000 (9 / 10) 1 (9 / 10) 10 15 = some c ∧ kraft 100 2 20200 (9 / 10) 1 (9 / 10) 10 15 = some c' ∧
    5 / 1000 < kraftZ 100 2 20000 (9 / 10) 10 100 ∧ ∃ q ∈ c.1.zip c.2, ∃ q' ∈ c'.1.zip c'.2, 0 < q.1 ∧ q.1 ≤ q'.1 ∧
      kraftZ 100 2 20000 (9 / 10) 10 100 < q.1 := by
  have hlog : Real.log ((10 - 9 / 10 * (100 / 100)) / (1 - 9 / 10 * (100 / 100))) = Real.log 91 := by norm_num
  have hl1 : 1 < Real.log 91 := by
    rw [Real.lt_log_iff_exp_lt (by norm_num)]
    exact Real.exp_one_lt_d9.trans (by norm_num)
  have hl2 : Real.log 91 ≤ 90 := by
    have := Real.log_le_sub_one_of_pos (show (0 : ℝ) < 91 by norm_num)
    linarith
  have z1 : kraftZ 100 2 20000 (9 / 10) 10 100 = 5 / 1000 * Real.log 91 := by
    unfold kraftZ
    rw [hlog]
    norm_num
  have z2 : kraftZ 100 2 20200 (9 / 10) 10 100 = 1 / 202 * Real.log 91 := by
    unfold kraftZ
    rw [hlog]
    norm_num
  have k1 := kraft_eq (fmax := 100) (D := 2) (G0 := 20000) (res := 9 / 10) (tens := 1) (rf := 9 / 10) (zif := 10) 15 (by norm_num)
    (by norm_num) (by norm_num) (by norm_num) (by norm_num)
  have k2 := kraft_eq (fmax := 100) (D := 2) (G0 := 20200) (res := 9 / 10) (tens := 1) (rf := 9 / 10) (zif := 10) 15 (by norm_num)
    (by norm_num) (by norm_num) (by norm_num) (by norm_num)
  refine ⟨_, _, k1, k2, by rw [z1]; linarith, _,
    lost (by norm_num) (by norm_num) (by norm_num) (by norm_num) (by norm_num) k1,
    (kraftZ 100 2 20200 (9 / 10) 10 100 + 5 / 1000 + 5 / 1000, 9 / 10 * 100), ?_, ?_, ?_, ?_⟩
  · rw [mirror_zip 1 (by simp), List.zip_append (by simp)]
    simp
  · rw [z1]
    dsimp only
    linarith
  · rw [z1, z2]
    dsimp only
    linarith
  · dsimp only
    linarith

end OpenPile.Props.Stronger
