/-
C83: a stronger soil has stronger springs.

`Outresists t t'` compares two tables of points `(displacement, resistance)`: at a displacement that is at
least as large, the resistance in `t'` is at least that in `t`.
-/
import Verif.Props.Clay
import Verif.Props.Sand
import Verif.Props.Rock
import Verif.Props.Friction

namespace OpenPile.Props.Stronger
open Real OpenPile.Lateral OpenPile.Conic OpenPile.Axial OpenPile.Spring

/-- At displacements at least as large the points of `t'` resist at least as much as those of `t`. -/
def Outresists (t t' : List (ℝ × ℝ)) : Prop := ∀ q ∈ t, ∀ q' ∈ t', q.1 ≤ q'.1 → q.2 ≤ q'.2

/-! ### clay, static loading -/

theorem clayUltimate_mono {sig sig' X Su Su' D J : ℝ} (hX : 0 ≤ X) (hD : 0 ≤ D) (hJ : 0 ≤ J)
    (hs : sig ≤ sig') (hS : Su ≤ Su') : clayUltimate sig X Su D J ≤ clayUltimate sig' X Su' D J := by
  unfold clayUltimate clayDeep clayWedge
  apply min_le_min
  · nlinarith [mul_le_mul_of_nonneg_right hS hD]
  · have a := mul_le_mul_of_nonneg_right hS hD
    have b := mul_le_mul_of_nonneg_right hs hD
    have c := mul_le_mul_of_nonneg_right hS (mul_nonneg hJ hX)
    nlinarith

theorem static_mono {Pu Pu' r r' : ℝ} {q q' : ℝ × ℝ} (hP : 0 ≤ Pu) (hPP : Pu ≤ Pu') (hr' : 0 < r')
    (hrr : r' ≤ r) (h0 : 0 ≤ q.1) (hq : q.1 ≤ q'.1) (h : StaticLaw Pu r q) (h' : StaticLaw Pu' r' q') :
    q.2 ≤ q'.2 := by
  have hr : 0 < r := hr'.trans_le hrr
  by_cases c : q.1 ≤ 8 * r
  · rw [h.rise c]
    by_cases c' : q'.1 ≤ 8 * r'
    · rw [h'.rise c']
      have hq0 := h0.trans hq
      have hle : q.1 / r ≤ q'.1 / r' := by gcongr
      have h1 : (q.1 / r) ^ (33 / 100 : ℝ) ≤ (q'.1 / r') ^ (33 / 100 : ℝ) :=
        Real.rpow_le_rpow (by positivity) hle (by norm_num)
      have h2 : 0 ≤ (q.1 / r) ^ (33 / 100 : ℝ) := by positivity
      have := mul_le_mul hPP h1 h2 (hP.trans hPP)
      linarith
    · rw [h'.plateau (not_le.1 c')]
      have := (cubic_bound hP hr h0 c eight_le).2
      linarith
  · rw [h.plateau (not_le.1 c), h'.plateau (by linarith)]
    exact hPP

theorem clay_curves {n n' : ℕ} {sig sig' X Su Su' eps eps' D J c a c' a' : ℝ} {l l' : List (ℝ × ℝ)}
    (hc : ClayData sig X Su eps D J) (hs : sig ≤ sig') (hS : Su ≤ Su') (he' : 0 < eps')
    (he : eps' ≤ eps) (h : ClayCurve .static n sig X Su eps D J c a l)
    (h' : ClayCurve .static n' sig' X Su' eps' D J c' a' l') : Outresists l l' := by
  intro q hq q' hq' hle
  obtain ⟨_, _, H⟩ := h.law
  obtain ⟨_, _, H'⟩ := h'.law
  have hD := hc.D
  refine static_mono (clayUltimate_nonneg hc.sig hc.X hc.Su hD.le hc.J.le)
    (clayUltimate_mono hc.X hD.le hc.J.le hs hS) (by positivity) (by gcongr)
    (h.table.nonneg q hq).1 hle ((H q hq).1 rfl) ((H' q' hq').1 rfl)

theorem stronger_data {sig sig' X Su Su' eps eps' D J : ℝ} (hc : ClayData sig X Su eps D J)
    (hs : sig ≤ sig') (hS : Su ≤ Su') (he' : 0 < eps') : ClayData sig' X Su' eps' D J :=
  ⟨hc.sig.trans hs, hc.X, hc.Su.trans hS, he', hc.D, hc.J⟩

/-- `api_clay`, static loading: more shear strength, more vertical stress and a smaller `eps50` give at
least the resistance at every displacement. -/
theorem C83_api_clay {sig sig' X Su Su' eps eps' D J ymax ymax' : ℝ} {len len' : ℕ}
    {draws draws' : List ℝ} {l l' : List (ℝ × ℝ)} (hc : ClayData sig X Su eps D J)
    (hs : sig ≤ sig') (hS : Su ≤ Su') (he' : 0 < eps') (he : eps' ≤ eps)
    (hd : Draws (max 8 len) draws) (hd' : Draws (max 8 len') draws') (hy : 0 ≤ ymax) (hy' : 0 ≤ ymax')
    (h : apiClay sig X Su eps D J .static ymax len draws = some l)
    (h' : apiClay sig' X Su' eps' D J .static ymax' len' draws' = some l') : Outresists l l' := by
  obtain ⟨_, e, k⟩ := C31_api_clay hc hd hy
  obtain ⟨_, e', k'⟩ := C31_api_clay (stronger_data hc hs hS he') hd' hy'
  rw [h, Option.some.injEq] at e
  rw [h', Option.some.injEq] at e'
  subst e e'
  exact clay_curves hc hs hS he' he k k'

/-- The same for `matlock_1970`. -/
theorem C83_matlock {sig sig' X Su Su' eps eps' D J ymax ymax' : ℝ} {len len' : ℕ}
    {draws draws' : List ℝ} {l l' : List (ℝ × ℝ)} (hc : ClayData sig X Su eps D J)
    (hs : sig ≤ sig') (hS : Su ≤ Su') (he' : 0 < eps') (he : eps' ≤ eps)
    (hd : Draws (max 9 len) draws) (hd' : Draws (max 9 len') draws') (hy : 0 ≤ ymax) (hy' : 0 ≤ ymax')
    (h : matlock sig X Su eps D J .static ymax len draws = some l)
    (h' : matlock sig' X Su' eps' D J .static ymax' len' draws' = some l') : Outresists l l' := by
  obtain ⟨_, e, k⟩ := C31_matlock hc hd hy
  obtain ⟨_, e', k'⟩ := C31_matlock (stronger_data hc hs hS he') hd' hy'
  rw [h, Option.some.injEq] at e
  rw [h', Option.some.injEq] at e'
  subst e e'
  exact clay_curves hc hs hS he' he k k'

/-- The same for `modified_Matlock`. -/
theorem C83_modified_matlock {sig sig' X Su Su' eps eps' D J ymax ymax' : ℝ} {len len' : ℕ}
    {draws draws' : List ℝ} {l l' : List (ℝ × ℝ)} (hc : ClayData sig X Su eps D J)
    (hs : sig ≤ sig') (hS : Su ≤ Su') (he' : 0 < eps') (he : eps' ≤ eps)
    (hd : Draws (max 8 len) draws) (hd' : Draws (max 8 len') draws') (hy : 0 ≤ ymax) (hy' : 0 ≤ ymax')
    (h : modMatlock sig X Su eps D J .static ymax len draws = some l)
    (h' : modMatlock sig' X Su' eps' D J .static ymax' len' draws' = some l') : Outresists l l' := by
  obtain ⟨_, e, k⟩ := C31_modified_matlock hc hd hy
  obtain ⟨_, e', k'⟩ := C31_modified_matlock (stronger_data hc hs hS he') hd' hy'
  rw [h, Option.some.injEq] at e
  rw [h', Option.some.injEq] at e'
  subst e e'
  exact clay_curves hc hs hS he' he k k'

/-- Clay of 50 kPa and of 80 kPa at 5 m depth. -/
example : ClayData 45 5 50 (1 / 100) 2 (1 / 2) ∧ Draws (max 8 20) (List.replicate 20 (1 / 2)) ∧
    ∃ l l', apiClay 45 5 50 (1 / 100) 2 (1 / 2) .static 0 20 (List.replicate 20 (1 / 2)) = some l ∧
      apiClay 45 5 80 (1 / 100) 2 (1 / 2) .static 0 20 (List.replicate 20 (1 / 2)) = some l' ∧
      clayUltimate 45 5 50 2 (1 / 2) < clayUltimate 45 5 80 2 (1 / 2) := by
  have hd : Draws (max 8 20) (List.replicate 20 (1 / 2 : ℝ)) := by
    refine ⟨by simp, fun r hr => ?_⟩
    rw [(List.mem_replicate.1 hr).2]; norm_num
  have hc : ClayData 45 5 50 (1 / 100) 2 (1 / 2) := by constructor <;> norm_num
  have hc' : ClayData 45 5 80 (1 / 100) 2 (1 / 2) := by constructor <;> norm_num
  obtain ⟨l, e, _⟩ := C31_api_clay (kind := .static) (ymax := 0) (len := 20) hc hd le_rfl
  obtain ⟨l', e', _⟩ := C31_api_clay (kind := .static) (ymax := 0) (len := 20) hc' hd le_rfl
  refine ⟨hc, hd, l, l', e, e', ?_⟩
  norm_num [clayUltimate, clayDeep, clayWedge]

/-! ### clay, cyclic loading -/

/-- Near the surface the depth of the transition is where both mechanisms agree. -/
theorem transition_value {sig X Su D J Xr : ℝ} (hD : 0 < D) (hJ : 0 < J) (hX : 0 < X) (hSu : 0 < Su)
    (hs : 0 ≤ sig) (h2 : 5 / 2 * (sig * D + J * Su * X) ≤ 6 * Su * X)
    (h : Transition sig X Su D J Xr) : Xr = 6 * Su * D * X / (sig * D + J * Su * X) := by
  have hp : 0 < sig * D + J * Su * X := by positivity
  rw [eq_div_iff hp.ne']
  rcases h.value with e | e
  · rcases h.larger with k | k
    · refine le_antisymm ?_ (by linarith)
      rw [e]; nlinarith
    · exact absurd k hSu.ne'
  · linarith

/-- The residual resistance of two cyclic curves near the surface. -/
theorem residual_falls {n n' : ℕ} {sig X Su Su' eps D J c a : ℝ} {l l' : List (ℝ × ℝ)}
    (hc : ClayData sig X Su eps D J) (hc0 : 0 < c) (hX : 0 < X) (hSu : 0 < Su) (hS : Su < Su')
    (h1 : sig * D + J * Su * X ≤ 6 * Su * D) (h2 : 5 / 2 * (sig * D + J * Su * X) ≤ 6 * Su * X)
    (h3 : (3 * D + J * X) * (J * X) * (Su * Su') < (sig * D) ^ 2)
    (h : ClayCurve .cyclic n sig X Su eps D J c a l) (h' : ClayCurve .cyclic n' sig X Su' eps D J c a l')
    {q q' : ℝ × ℝ} (hq : q ∈ l) (hq' : q' ∈ l') (hy : 15 * (5 / 2 * eps * D) < q.1)
    (hy' : 15 * (5 / 2 * eps * D) < q'.1) : q'.2 < q.2 := by
  have hD := hc.D
  have hJ := hc.J
  have hsg := hc.sig
  have hSu' : 0 < Su' := hSu.trans hS
  obtain ⟨Xr, T, H⟩ := h.law
  obtain ⟨Xr', T', H'⟩ := h'.law
  have g1 : sig * D + J * Su' * X ≤ 6 * Su' * D := by
    have : 0 ≤ Su * (6 * D - J * X) := by nlinarith [mul_nonneg hsg hD.le]
    have k := nonneg_of_mul_nonneg_right this hSu
    nlinarith
  have g2 : 5 / 2 * (sig * D + J * Su' * X) ≤ 6 * Su' * X := by
    have : 0 ≤ Su * (6 * X - 5 / 2 * (J * X)) := by nlinarith [mul_nonneg hsg hD.le]
    have k := nonneg_of_mul_nonneg_right this hSu
    nlinarith
  have e := transition_value hD hJ hX hSu hsg h2 T
  have e' := transition_value hD hJ hX hSu' hsg g2 T'
  have wedge : ∀ S, sig * D + J * S * X ≤ 6 * S * D →
      clayUltimate sig X S D J = 3 * S * D + sig * D + J * S * X := by
    intro S k
    unfold clayUltimate clayDeep clayWedge
    apply min_eq_right; linarith
  have n1 : ¬ Xr < X := by
    rw [T.side hSu]
    rintro ⟨_, k⟩
    unfold clayDeep clayWedge at k; linarith
  have n2 : ¬ Xr' < X := by
    rw [T'.side hSu']
    rintro ⟨_, k⟩
    unfold clayDeep clayWedge at k; linarith
  rw [((H q hq).2 rfl).residual n1 hy, ((H' q' hq').2 rfl).residual n2 hy', wedge Su h1, wedge Su' g1,
    e, e']
  have r : ∀ S, 0 < S → c * (3 * S * D + sig * D + J * S * X) *
      (X / (6 * S * D * X / (sig * D + J * S * X))) =
      c / (6 * D) * ((3 * D + J * X) * (J * X) * S + sig * D * (3 * D + 2 * (J * X)) +
        (sig * D) ^ 2 / S) := by
    intro S hS0
    field_simp
    ring
  rw [r Su hSu, r Su' hSu']
  apply mul_lt_mul_of_pos_left _ (by positivity)
  have k : (sig * D) ^ 2 / Su - (sig * D) ^ 2 / Su' = (sig * D) ^ 2 * (Su' - Su) / (Su * Su') := by
    field_simp
  have k2 : (3 * D + J * X) * (J * X) * (Su' - Su) < (sig * D) ^ 2 * (Su' - Su) / (Su * Su') := by
    rw [lt_div_iff₀ (by positivity)]
    nlinarith
  nlinarith

/-- **The code does not satisfy the property under cyclic loading.**  Close to the surface, where the
weight of the soil outweighs its strength, the table of `api_clay` for the stronger clay ends at a lower
resistance than that for the weaker clay: the transition depth grows with the strength and the residual
resistance is divided by it. -/
theorem C83_violated_cyclic {sig X Su Su' eps D J : ℝ} {len : ℕ} {draws : List ℝ}
    {l l' : List (ℝ × ℝ)} (hc : ClayData sig X Su eps D J) (hd : Draws (max 8 len) draws) (hX : 0 < X)
    (hSu : 0 < Su) (hS : Su < Su') (h1 : sig * D + J * Su * X ≤ 6 * Su * D)
    (h2 : 5 / 2 * (sig * D + J * Su * X) ≤ 6 * Su * X)
    (h3 : (3 * D + J * X) * (J * X) * (Su * Su') < (sig * D) ^ 2)
    (h : apiClay sig X Su eps D J .cyclic 0 len draws = some l)
    (h' : apiClay sig X Su' eps D J .cyclic 0 len draws = some l') :
    ∃ q ∈ l, ∃ q' ∈ l', q.1 = q'.1 ∧ q'.2 < q.2 := by
  have hc' : ClayData sig X Su' eps D J := stronger_data hc le_rfl hS.le hc.eps
  obtain ⟨_, e, k⟩ := C31_api_clay (kind := .cyclic) hc hd le_rfl
  obtain ⟨_, e', k'⟩ := C31_api_clay (kind := .cyclic) hc' hd le_rfl
  obtain ⟨_, q, hq, hq1⟩ := C31_api_clay_ymax_partial hc hd (Or.inl rfl) h
  obtain ⟨_, q', hq', hq1'⟩ := C31_api_clay_ymax_partial hc' hd (Or.inl rfl) h'
  rw [h, Option.some.injEq] at e
  rw [h', Option.some.injEq] at e'
  subst e e'
  have hr : 15 * (5 / 2 * eps * D) < range eps D 0 := by
    have := hc.eps
    have := hc.D
    have : 0 < 5 / 2 * eps * D := by positivity
    simp only [range, ↓reduceIte]; linarith
  exact ⟨q, hq, q', hq', by rw [hq1, hq1'], residual_falls hc (by norm_num) hX hSu hS h1 h2 h3 k k' hq
    hq' (by rw [hq1]; exact hr) (by rw [hq1']; exact hr)⟩

/-- Soft clay of 5.5 kPa and of 7 kPa, 1 m below the ground surface, a pile of 1 m. -/
example : ∃ l l' : List (ℝ × ℝ),
    apiClay 10 1 (11 / 2) (1 / 50) 1 (1 / 2) .cyclic 0 20 (List.replicate 20 (1 / 2)) = some l ∧
    apiClay 10 1 7 (1 / 50) 1 (1 / 2) .cyclic 0 20 (List.replicate 20 (1 / 2)) = some l' ∧
    ∃ q ∈ l, ∃ q' ∈ l', q.1 = q'.1 ∧ q'.2 < q.2 := by
  have hd : Draws (max 8 20) (List.replicate 20 (1 / 2 : ℝ)) := by
    refine ⟨by simp, fun r hr => ?_⟩
    rw [(List.mem_replicate.1 hr).2]; norm_num
  have hc : ClayData 10 1 (11 / 2) (1 / 50) 1 (1 / 2) := by constructor <;> norm_num
  have hc' : ClayData 10 1 7 (1 / 50) 1 (1 / 2) := by constructor <;> norm_num
  obtain ⟨l, e, _⟩ := C31_api_clay (kind := .cyclic) (ymax := 0) (len := 20) hc hd le_rfl
  obtain ⟨l', e', _⟩ := C31_api_clay (kind := .cyclic) (ymax := 0) (len := 20) hc' hd le_rfl
  exact ⟨l, l', e, e', C83_violated_cyclic hc hd (by norm_num) (by norm_num) (by norm_num) (by norm_num)
    (by norm_num) (by norm_num) e e'⟩

/-! ### sand -/

theorem tan_mono {a b : ℝ} (h0 : 0 ≤ a) (hab : a ≤ b) (hb : b < π / 2) : tan a ≤ tan b := by
  rcases hab.eq_or_lt with e | e
  · rw [e]
  · exact (tan_lt_tan_of_lt_of_lt_pi_div_two (by linarith [pi_pos]) hb e).le

theorem half_mono {p p' : ℝ} (h : p ≤ p') : half p ≤ half p' := by
  have := pi_pos
  unfold half degrees
  gcongr

theorem C1_mono {p p' : ℝ} (h0 : 0 ≤ p) (hp : p ≤ p') (h1 : p' < 90) : C1 p ≤ C1 p' := by
  have hpi := pi_pos
  obtain ⟨a0, a1⟩ := half_range h0 (hp.trans_lt h1)
  obtain ⟨b0, b1⟩ := half_range (h0.trans hp) h1
  have hab := half_mono hp
  have A := angles h0 (hp.trans_lt h1)
  have B := angles (h0.trans hp) h1
  rw [C1_eq h0 (hp.trans_lt h1), C1_eq (h0.trans hp) h1]
  set a := half p
  set b := half p'
  have hT : tan (π / 4 + a) ≤ tan (π / 4 + b) := tan_mono (by linarith) (by linarith) (by linarith)
  have ht : tan a ≤ tan b := tan_mono a0 hab (by linarith)
  have h2 : tan (2 * a) ≤ tan (2 * b) := tan_mono (by linarith) (by linarith) (by linarith)
  have hs : sin (π / 4 + a) ≤ sin (π / 4 + b) :=
    sin_le_sin_of_le_of_le_pi_div_two (by linarith) (by linarith) (by linarith)
  have hcos : cos b ≤ cos a := cos_le_cos_of_nonneg_of_le_pi a0 (by linarith) hab
  have hT0 : 0 ≤ tan (π / 4 + a) := by linarith [A.T1]
  have ht0 := A.t0
  have h20 : 0 ≤ tan (2 * a) := by linarith [A.t2]
  have hs0 : 0 ≤ sin (π / 4 + a) := by linarith [A.s2]
  have hcb := B.c
  have hb1 := tan_lt_one b0 b1
  have third : ∀ x, 0 ≤ x → x < π / 4 → tan (2 * x) * sin (π / 4 + x) - tan x =
      tan x * (2 * sin (π / 4 + x) / (1 - tan x ^ 2) - 1) := by
    intro x _ _
    rw [tan_two_mul]; ring
  have hthird : tan (2 * a) * sin (π / 4 + a) - tan a ≤ tan (2 * b) * sin (π / 4 + b) - tan b := by
    rw [third a a0 a1, third b b0 b1]
    have d : 0 < 1 - tan b ^ 2 := by nlinarith [B.t0]
    have dd : 1 - tan b ^ 2 ≤ 1 - tan a ^ 2 := by nlinarith [B.t0]
    have w : 0 ≤ sin (π / 4 + b) := hs0.trans hs
    have f : 2 * sin (π / 4 + a) / (1 - tan a ^ 2) ≤ 2 * sin (π / 4 + b) / (1 - tan b ^ 2) := by
      gcongr
    have g : 0 ≤ 2 * sin (π / 4 + a) / (1 - tan a ^ 2) - 1 := by
      rw [sub_nonneg, le_div_iff₀ (by linarith)]
      nlinarith [A.s2, sq_nonneg (tan a)]
    exact mul_le_mul ht (by linarith) g B.t0
  have h3a : 0 ≤ tan (2 * a) * sin (π / 4 + a) - tan a := by
    nlinarith [mul_nonneg h20 (sub_nonneg.2 A.s2), A.t2]
  have i1 : 4 / 10 * tan (π / 4 + a) * tan (2 * a) * sin (π / 4 + a) / cos a ≤
      4 / 10 * tan (π / 4 + b) * tan (2 * b) * sin (π / 4 + b) / cos b := by
    have u : 0 ≤ tan (π / 4 + b) := hT0.trans hT
    have v : 0 ≤ tan (2 * b) := h20.trans h2
    have w : 0 ≤ sin (π / 4 + b) := hs0.trans hs
    gcongr
  have i2 : tan (π / 4 + a) ^ 3 * tan a ≤ tan (π / 4 + b) ^ 3 * tan b := by
    have u : 0 ≤ tan (π / 4 + b) := hT0.trans hT
    gcongr
  have i3 : 4 / 10 * tan (π / 4 + a) * (tan (2 * a) * sin (π / 4 + a) - tan a) ≤
      4 / 10 * tan (π / 4 + b) * (tan (2 * b) * sin (π / 4 + b) - tan b) := by
    have u : 0 ≤ tan (π / 4 + b) := hT0.trans hT
    gcongr
  linarith

theorem Kp_mono {p p' : ℝ} (h0 : 0 ≤ p) (hp : p ≤ p') (h1 : p' < 90) : Kp p ≤ Kp p' := by
  obtain ⟨a0, a1⟩ := half_range h0 (hp.trans_lt h1)
  obtain ⟨b0, b1⟩ := half_range (h0.trans hp) h1
  have hpi := pi_pos
  have hab := half_mono hp
  have hT : tan (π / 4 + half p) ≤ tan (π / 4 + half p') :=
    tan_mono (by linarith) (by linarith) (by linarith)
  have := (angles h0 (hp.trans_lt h1)).T1
  unfold Kp
  rw [deg_beta, deg_beta]
  gcongr

theorem C2_mono {p p' : ℝ} (h0 : 0 ≤ p) (hp : p ≤ p') (h1 : p' < 90) : C2 p ≤ C2 p' := by
  rw [C2_eq, C2_eq, Ka_eq, Ka_eq]
  have k := Kp_mono h0 hp h1
  have k1 := Kp_ge_one h0 (hp.trans_lt h1)
  have : (Kp p')⁻¹ ≤ (Kp p)⁻¹ := inv_anti₀ (by linarith) k
  linarith

theorem C3_mono {p p' : ℝ} (h0 : 0 ≤ p) (hp : p ≤ p') (h1 : p' < 90) : C3 p ≤ C3 p' := by
  rw [C3_eq, C3_eq, Ka_eq, Ka_eq]
  have k := Kp_mono h0 hp h1
  have k1 := Kp_ge_one h0 (hp.trans_lt h1)
  have t0 := tan_phi_nonneg h0 (hp.trans_lt h1)
  have t : tan (degrees p) ≤ tan (degrees p') := by
    obtain ⟨a0, a1⟩ := half_range h0 (hp.trans_lt h1)
    obtain ⟨b0, b1⟩ := half_range (h0.trans hp) h1
    have hab := half_mono hp
    rw [deg_phi, deg_phi]
    exact tan_mono (by linarith) (by linarith) (by linarith)
  have e : ∀ x : ℝ, 1 ≤ x → x⁻¹ * (x ^ 4 - 1) = x ^ 3 - x⁻¹ := by
    intro x hx
    have : x ≠ 0 := by linarith |> fun h : (0 : ℝ) < x => h.ne'
    field_simp
  rw [e _ k1, e _ (k1.trans k)]
  have i : (Kp p')⁻¹ ≤ (Kp p)⁻¹ := inv_anti₀ (by linarith) k
  have j : 4 / 10 * tan (degrees p) * Kp p ^ 2 ≤ 4 / 10 * tan (degrees p') * Kp p' ^ 2 := by
    have := t0.trans t
    gcongr
  have m : Kp p ^ 3 ≤ Kp p' ^ 3 := by gcongr
  linarith

/-- The ultimate resistance of sand grows with the friction angle and the vertical stress. -/
theorem C83_sand_ultimate {sig sig' X phi phi' D : ℝ} (h0 : 0 ≤ phi) (hp : phi ≤ phi') (h1 : phi' < 90)
    (hs0 : 0 ≤ sig) (hs : sig ≤ sig') (hX : 0 ≤ X) (hD : 0 ≤ D) :
    sandUltimate sig X phi D ≤ sandUltimate sig' X phi' D := by
  rw [← pmaxSand_eq h0 (hp.trans_lt h1), ← pmaxSand_eq (h0.trans hp) h1]
  have a := C1_mono h0 hp h1
  have b := C2_mono h0 hp h1
  have c := C3_mono h0 hp h1
  have a0 := C1_nonneg h0 (hp.trans_lt h1)
  have b0 := C2_nonneg h0 (hp.trans_lt h1)
  have c0 := C3_nonneg h0 (hp.trans_lt h1)
  have a0' := a0.trans a
  have b0' := b0.trans b
  have c0' := c0.trans c
  unfold pmaxSand
  apply min_le_min
  · gcongr
  · gcongr

theorem apiSandP_mono {A P P' m m' X y y' : ℝ} (hA : 0 < A) (hP : 0 ≤ P) (hPP : P ≤ P') (hm : 0 < m)
    (hmm : m ≤ m') (hX : 0 ≤ X) (hy : 0 ≤ y) (hyy : y ≤ y') :
    apiSandP A P m X y ≤ apiSandP A P' m' X y' := by
  rcases hP.eq_or_lt with e | e
  · have := ((apiSandP_props hA (hP.trans hPP) (hm.trans_le hmm) hX).1 y' (hy.trans hyy)).1
    rw [← e]
    simpa [apiSandP] using this
  · have hP' : 0 < P' := e.trans_le hPP
    unfold apiSandP
    rw [if_neg e.ne', if_neg hP'.ne']
    have h1 := Tanh.scaled_mono (a := A * P) (a' := A * P') (c := m * X * y) (by positivity)
      (by gcongr) (by positivity)
    refine h1.trans ?_
    apply mul_le_mul_of_nonneg_left _ (by positivity)
    apply Tanh.strictMono_tanh.monotone
    have : 0 < m' := hm.trans_le hmm
    gcongr

theorem sand_curves {sig sig' X phi phi' D k k' m m' ymax ymax' : ℝ} {kind : Loading} {w w' : Bool}
    {len len' : ℕ} {l l' : List (ℝ × ℝ)} (h0 : 0 ≤ phi) (hp : phi ≤ phi') (h1 : phi' < 90)
    (hs0 : 0 ≤ sig) (hs : sig ≤ sig') (hX : 0 ≤ X) (hD : 0 < D) (hy : 0 ≤ ymax)
    (hk : kPhi phi k w = some m) (hk' : kPhi phi' k' w' = some m') (hmm : m ≤ m')
    (h : apiSand sig X phi D kind w k ymax len = some l)
    (h' : apiSand sig' X phi' D kind w' k' ymax' len' = some l') : Outresists l l' := by
  have hm := kPhi_pos hk
  have hA : 0 < factor kind X D := lt_of_lt_of_le (by norm_num) (factor_pos kind X D)
  have hphi := hp.trans_lt h1
  rw [apiSand_eq h0 hphi hD hk, Option.some.injEq] at h
  rw [apiSand_eq (h0.trans hp) h1 hD hk', Option.some.injEq] at h'
  subst h h'
  intro q hq q' hq' hle
  obtain ⟨y, hy1, rfl⟩ := List.mem_map.1 hq
  obtain ⟨y', _, rfl⟩ := List.mem_map.1 hq'
  have hy0 := (linspace_mem_le (ymaxSand_nonneg h0 hphi hs0 hX hD hA.le hm hy) hy1).1
  refine apiSandP_mono hA ?_ (C83_sand_ultimate h0 hp h1 hs0 hs hX hD.le) hm hmm hX hy0 hle
  rw [← pmaxSand_eq h0 hphi]
  exact pmaxSand_nonneg h0 hphi hs0 hX hD.le

/-- `api_sand` with a modulus `k` given by the user, static and cyclic: a larger friction angle, vertical
stress and modulus give at least the resistance at every displacement. -/
theorem C83_api_sand_partial {sig sig' X phi phi' D k k' ymax ymax' : ℝ} {kind : Loading} {w w' : Bool}
    {len len' : ℕ} {l l' : List (ℝ × ℝ)} (h0 : 0 ≤ phi) (hp : phi ≤ phi') (h1 : phi' < 90)
    (hs0 : 0 ≤ sig) (hs : sig ≤ sig') (hX : 0 ≤ X) (hD : 0 < D) (hy : 0 ≤ ymax) (hk : 0 < k)
    (hkk : k ≤ k') (h : apiSand sig X phi D kind w k ymax len = some l)
    (h' : apiSand sig' X phi' D kind w' k' ymax' len' = some l') : Outresists l l' :=
  sand_curves h0 hp h1 hs0 hs hX hD hy ((C30_modulus phi k w).2.1 hk)
    ((C30_modulus phi' k' w').2.1 (hk.trans_le hkk)) hkk h h'

/-- Sand of 30 and of 35 degrees at 5 m depth. -/
example : ∃ l l', apiSand 45 5 30 2 .cyclic true 10000 0 20 = some l ∧
    apiSand 45 5 35 2 .cyclic true 20000 0 20 = some l' ∧ Outresists l l' := by
  obtain ⟨l, _, e, _⟩ := C30_curve (sig := 45) (X := 5) (phi := 30) (D := 2) (kind := .cyclic) (w := true)
    (k := 10000) (ymax := 0) (len := 20) (by norm_num) (by norm_num) (by norm_num) (by norm_num)
    (by norm_num) (by norm_num) (by norm_num)
  obtain ⟨l', _, e', _⟩ := C30_curve (sig := 45) (X := 5) (phi := 35) (D := 2) (kind := .cyclic)
    (w := true) (k := 20000) (ymax := 0) (len := 20) (by norm_num) (by norm_num) (by norm_num)
    (by norm_num) (by norm_num) (by norm_num) (by norm_num)
  exact ⟨l, l', e, e', C83_api_sand_partial (by norm_num) (by norm_num) (by norm_num) (by norm_num) le_rfl
    (by norm_num) (by norm_num) le_rfl (by norm_num) (by norm_num) e e'⟩

theorem kPhi_default (phi : ℝ) : kPhi phi 0 true =
      some (max ((1978 / 10000 * phi ^ 2 - 10232 / 1000 * phi + 13682 / 100) * 1000) 5400) ∧
    kPhi phi 0 false =
      some (max ((2153 / 10000 * phi ^ 2 - 8232 / 1000 * phi + 63657 / 1000) * 1000) 5400) := by
  constructor <;> simp [kPhi]

/-- `api_sand` with the default modulus: above water for friction angles from 15 degrees (all those that
`API_sand` accepts), below water from 24 degrees. -/
theorem C83_api_sand_default_partial {sig sig' X phi phi' D ymax ymax' : ℝ} {kind : Loading} {w : Bool}
    {len len' : ℕ} {l l' : List (ℝ × ℝ)} (h0 : (if w then 24 else 15) ≤ phi) (hp : phi ≤ phi')
    (h1 : phi' < 90) (hs0 : 0 ≤ sig) (hs : sig ≤ sig') (hX : 0 ≤ X) (hD : 0 < D) (hy : 0 ≤ ymax)
    (h : apiSand sig X phi D kind w 0 ymax len = some l)
    (h' : apiSand sig' X phi' D kind w 0 ymax' len' = some l') : Outresists l l' := by
  cases w
  · simp only [Bool.false_eq_true, ↓reduceIte] at h0
    refine sand_curves (by linarith) hp h1 hs0 hs hX hD hy (kPhi_default phi).2
      (kPhi_default phi').2 ?_ h h'
    rcases le_or_gt phi 28 with k | k
    · refine max_le ?_ (le_max_right _ _)
      refine le_trans ?_ (le_max_right _ _)
      nlinarith [mul_nonneg (sub_nonneg.2 h0) (sub_nonneg.2 k)]
    · apply max_le_max _ le_rfl
      nlinarith [mul_nonneg (sub_nonneg.2 hp) (sub_nonneg.2 k.le)]
  · simp only [↓reduceIte] at h0
    refine sand_curves (by linarith) hp h1 hs0 hs hX hD hy (kPhi_default phi).1
      (kPhi_default phi').1 ?_ h h'
    rcases le_or_gt phi 28 with k | k
    · refine max_le ?_ (le_max_right _ _)
      refine le_trans ?_ (le_max_right _ _)
      nlinarith [mul_nonneg (sub_nonneg.2 h0) (sub_nonneg.2 k)]
    · apply max_le_max _ le_rfl
      nlinarith [mul_nonneg (sub_nonneg.2 hp) (sub_nonneg.2 k.le)]

/-- **The code does not satisfy the property with the default modulus below water.**  Whenever the default
modulus of the denser sand is smaller, some `ymax` makes the last point of its table lower, at the same
displacement. -/
theorem C83_violated_modulus {sig X phi phi' D m m' : ℝ} {kind : Loading} {w : Bool} {len : ℕ}
    (h0 : 0 < phi) (hp : phi ≤ phi') (h1 : phi' < 90) (hs : 0 < sig) (hX : 0 < X) (hD : 0 < D)
    (hk : kPhi phi 0 w = some m) (hk' : kPhi phi' 0 w = some m') (hmm : m' < m) :
    ∃ ymax > 0, ∃ l l', apiSand sig X phi D kind w 0 ymax len = some l ∧
      apiSand sig X phi' D kind w 0 ymax len = some l' ∧
      ∃ q q', l.getLast? = some q ∧ l'.getLast? = some q' ∧ q.1 = q'.1 ∧ q'.2 < q.2 := by
  have hphi := hp.trans_lt h1
  have h0' := h0.trans_le hp
  have d := C30_initial_slope (kind := kind) (kphi := m) h0 hphi hs hX.le hD
  have d' := C30_initial_slope (kind := kind) (kphi := m') h0' h1 hs hX.le hD
  have t := (d.sub d').tendsto_slope_zero_right
  have ev := Filter.Tendsto.eventually_const_lt (u := 0) (by nlinarith) t
  obtain ⟨y, hy, hy0⟩ := (ev.and self_mem_nhdsWithin).exists
  have hy0 : 0 < y := hy0
  have hlt : apiSandP (factor kind X D) (sandUltimate sig X phi' D) m' X y <
      apiSandP (factor kind X D) (sandUltimate sig X phi D) m X y := by
    have z : ∀ P m, apiSandP (factor kind X D) P m X 0 = 0 := by
      intro P m; unfold apiSandP; split_ifs <;> simp
    simp only [Pi.sub_apply, zero_add, z, sub_zero, smul_eq_mul] at hy
    have := (pos_iff_pos_of_mul_pos hy).1 (by positivity)
    linarith
  refine ⟨y, hy0, _, _, apiSand_eq h0.le hphi hD hk, apiSand_eq h0'.le h1 hD hk',
    (ymaxSand sig X phi D (factor kind X D) m y, apiSandP (factor kind X D) (sandUltimate sig X phi D) m X
      (ymaxSand sig X phi D (factor kind X D) m y)),
    (ymaxSand sig X phi' D (factor kind X D) m' y,
      apiSandP (factor kind X D) (sandUltimate sig X phi' D) m' X
      (ymaxSand sig X phi' D (factor kind X D) m' y)), ?_, ?_, ?_⟩
  · rw [List.getLast?_map, linspace_last _ _ (by omega)]; rfl
  · rw [List.getLast?_map, linspace_last _ _ (by omega)]; rfl
  · have e : ∀ p m, ymaxSand sig X p D (factor kind X D) m y = y := by
      intro p m; unfold ymaxSand; rw [if_neg hy0.ne']
    rw [e, e]
    exact ⟨rfl, hlt⟩

/-- Below water the default modulus falls from 27.8 MN/m³ at 15 degrees to 7.9 MN/m³ at 30 degrees. -/
theorem C83_violated_sand : ∃ ymax > 0, ∃ l l',
    apiSand 50 5 15 2 .static true 0 ymax 20 = some l ∧ apiSand 50 5 30 2 .static true 0 ymax 20 = some l' ∧
    ∃ q q', l.getLast? = some q ∧ l'.getLast? = some q' ∧ q.1 = q'.1 ∧ q'.2 < q.2 := by
  refine C83_violated_modulus (m := 27845) (m' := 7880) (by norm_num) (by norm_num) (by norm_num)
    (by norm_num) (by norm_num) (by norm_num) ?_ ?_ (by norm_num)
  · norm_num [kPhi]
  · norm_num [kPhi]

/-! ### weak rock -/

/-- Weak rock with the larger compressive strength reaches the larger resistance at the end of its
table. -/
theorem C83_rock_ultimate {Ei Ei' qu qu' RQD xr D k k' : ℝ} {len len' : ℕ} {l l' : List (ℝ × ℝ)}
    (hr : RockData Ei qu xr D k) (hr' : RockData Ei' qu' xr D k') (hq : qu ≤ qu')
    (h : reeseRock Ei qu RQD xr D k len = some l) (h' : reeseRock Ei' qu' RQD xr D k' len' = some l') :
    ∃ q q', l.getLast? = some q ∧ l'.getLast? = some q' ∧ q.2 ≤ q'.2 ∧
      (qu < qu' → q.2 < q'.2) := by
  obtain ⟨_, e, _, y, hy⟩ := C32_curve (len := len) (RQD := RQD) hr
  obtain ⟨_, e', _, y', hy'⟩ := C32_curve (len := len') (RQD := RQD) hr'
  rw [h, Option.some.injEq] at e
  rw [h', Option.some.injEq] at e'
  subst e e'
  refine ⟨_, _, hy, hy', ?_⟩
  have hf : 1 / 3 ≤ fracture RQD := by
    unfold fracture; split_ifs <;> linarith
  have hD := hr.D
  have hx := hr.xr
  dsimp only
  unfold rockUltimate
  split_ifs
  · have c : 0 < fracture RQD * (D + 14 / 10 * xr) := by positivity
    constructor
    · nlinarith
    · intro g; nlinarith
  · have c : 0 < 52 / 10 * fracture RQD * D := by positivity
    constructor
    · nlinarith
    · intro g; nlinarith

/-! ### shaft friction and end bearing -/

theorem quarter {S s : ℝ} (hS : 0 < S) (hs : 0 < s) :
    (S / s) ^ (-(1 / 4) : ℝ) * S = (S ^ 3 * s) ^ (1 / 4 : ℝ) := by
  have e : S = (S ^ 4) ^ (1 / 4 : ℝ) := by
    rw [← Real.rpow_natCast, ← Real.rpow_mul hS.le]; norm_num
  rw [Real.rpow_neg (by positivity), ← Real.inv_rpow (by positivity)]
  nth_rw 2 [e]
  rw [← Real.mul_rpow (by positivity) (by positivity)]
  congr 1
  field_simp

theorem root {S s : ℝ} (hS : 0 < S) (hs : 0 < s) :
    (S / s) ^ (-(1 / 2) : ℝ) * S = (S ^ 2 * s ^ 2) ^ (1 / 4 : ℝ) := by
  have e : S = (S ^ 4) ^ (1 / 4 : ℝ) := by
    rw [← Real.rpow_natCast, ← Real.rpow_mul hS.le]; norm_num
  have e2 : (S / s) ^ (-(1 / 2) : ℝ) = ((s / S) ^ 2) ^ (1 / 4 : ℝ) := by
    rw [Real.rpow_neg (by positivity), ← Real.inv_rpow (by positivity), inv_div,
      ← Real.rpow_natCast (s / S), ← Real.rpow_mul (by positivity)]
    norm_num
  rw [e2]
  nth_rw 2 [e]
  rw [← Real.mul_rpow (by positivity) (by positivity)]
  congr 1
  field_simp

/-- The unit shaft friction in clay as the smaller of two expressions that grow with strength and
stress. -/
theorem fmaxClay_eq {sig Su lim : ℝ} (hs : 0 < sig) (hS : 0 < Su) :
    fmaxClay sig Su lim =
      some (min (1 / 2 * (max (Su ^ 3 * sig) (Su ^ 2 * sig ^ 2)) ^ (1 / 4 : ℝ)) (lim * Su)) := by
  have hp : psi sig Su = Su / sig := by simp [psi, hs.ne']
  have hpos : 0 < Su / sig := by positivity
  unfold fmaxClay
  simp only []
  rw [hp, if_neg (by linarith), if_neg hpos.ne']
  by_cases h : 1 < Su / sig
  · have hle : sig ≤ Su := by rw [lt_div_iff₀ hs] at h; linarith
    have m : max (Su ^ 3 * sig) (Su ^ 2 * sig ^ 2) = Su ^ 3 * sig := by
      apply max_eq_left
      have : 0 ≤ Su ^ 2 * sig * (Su - sig) := mul_nonneg (by positivity) (by linarith)
      nlinarith
    rw [if_pos h, m, ← quarter hS hs, min_mul_of_nonneg _ _ hS.le, mul_assoc]
  · have hle : Su ≤ sig := by
      have := not_lt.1 h
      rw [div_le_iff₀ hs] at this; linarith
    have m : max (Su ^ 3 * sig) (Su ^ 2 * sig ^ 2) = Su ^ 2 * sig ^ 2 := by
      apply max_eq_right
      have : 0 ≤ Su ^ 2 * sig * (sig - Su) := mul_nonneg (by positivity) (by linarith)
      nlinarith
    rw [if_neg h, m, ← root hS hs, min_mul_of_nonneg _ _ hS.le, mul_assoc]

/-- The unit shaft friction in clay grows with the shear strength, the vertical stress and the limit. -/
theorem C83_fmax_clay {sig sig' Su Su' lim lim' f f' : ℝ} (hs0 : 0 < sig) (hs : sig ≤ sig')
    (hS0 : 0 < Su) (hS : Su ≤ Su') (hl0 : 0 ≤ lim) (hl : lim ≤ lim')
    (h : fmaxClay sig Su lim = some f) (h' : fmaxClay sig' Su' lim' = some f') : 0 ≤ f ∧ f ≤ f' := by
  have hs' := hs0.trans_le hs
  have hS' := hS0.trans_le hS
  rw [fmaxClay_eq hs0 hS0, Option.some.injEq] at h
  rw [fmaxClay_eq hs' hS', Option.some.injEq] at h'
  subst h h'
  refine ⟨le_min (by positivity) (by positivity), min_le_min ?_ ?_⟩
  · gcongr
  · gcongr
    exact hl0.trans hl

example : fmaxClay 45 50 1 = some (min (1 / 2 * (max (50 ^ 3 * 45) (50 ^ 2 * 45 ^ 2)) ^ (1 / 4 : ℝ))
    (1 * 50)) := fmaxClay_eq (by norm_num) (by norm_num)

/-- **The code does not satisfy the property at the ground surface**, where it replaces a vanishing
vertical stress by 1 Pa: a smaller stress of the soil gives a smaller shaft friction than none at all. -/
theorem C83_violated_surface {sig Su lim : ℝ} (hs : 0 < sig) (hs1 : sig < 1 / 1000) (hS : 1 / 1000 < Su)
    (hl : 1 / 2 ≤ lim) :
    ∃ f f', fmaxClay 0 Su lim = some f ∧ fmaxClay sig Su lim = some f' ∧ f' < f := by
  have hS0 : 0 < Su := by linarith
  have e0 : fmaxClay 0 Su lim = fmaxClay (1 / 1000) Su lim := by
    unfold fmaxClay psi
    norm_num
  refine ⟨_, _, e0.trans (fmaxClay_eq (by norm_num) hS0), fmaxClay_eq hs hS0, ?_⟩
  have m : ∀ s, 0 < s → s ≤ 1 / 1000 → max (Su ^ 3 * s) (Su ^ 2 * s ^ 2) = Su ^ 3 * s := by
    intro s h0 h1
    apply max_eq_left
    have : 0 ≤ Su ^ 2 * s * (Su - s) := mul_nonneg (by positivity) (by linarith)
    nlinarith
  rw [m sig hs hs1.le, m _ (by norm_num) le_rfl]
  have lt : (Su ^ 3 * sig) ^ (1 / 4 : ℝ) < (Su ^ 3 * (1 / 1000)) ^ (1 / 4 : ℝ) :=
    Real.rpow_lt_rpow (by positivity) (by gcongr) (by norm_num)
  have le : (Su ^ 3 * (1 / 1000)) ^ (1 / 4 : ℝ) ≤ Su := by
    have e : Su = (Su ^ 4) ^ (1 / 4 : ℝ) := by
      rw [← Real.rpow_natCast, ← Real.rpow_mul hS0.le]; norm_num
    nth_rw 2 [e]
    apply Real.rpow_le_rpow (by positivity) _ (by norm_num)
    have : 0 ≤ Su ^ 3 * (Su - 1 / 1000) := mul_nonneg (by positivity) (by linarith)
    nlinarith
  have b : 1 / 2 * Su ≤ lim * Su := by gcongr
  rw [min_eq_left (by linarith), min_eq_left (by linarith)]
  linarith

/-- The end bearing in clay grows with the shear strength. -/
theorem C83_qmax_clay {Su Su' : ℝ} (h : Su ≤ Su') : qmaxClay Su ≤ qmaxClay Su' := by
  unfold qmaxClay; linarith

theorem tables_rise : (Asc fsTable ∧ Spring.Rising fsTable) ∧ (Asc nqTable ∧ Spring.Rising nqTable) ∧
    Asc qTable ∧ Spring.Rising qTable := by
  refine ⟨⟨?_, ?_⟩, ⟨?_, ?_⟩, ?_, ?_⟩ <;>
  · simp only [Asc, Spring.Rising, fsTable, nqTable, qTable, List.pairwise_cons, List.mem_cons,
      List.not_mem_nil, or_false, forall_eq_or_imp, forall_eq, List.Pairwise.nil, and_true]
    norm_num

/-- The unit shaft friction in sand grows with the interface angle, the vertical stress and the
coefficient of lateral pressure. -/
theorem C83_fmax_sand {sig sig' delta delta' K K' f f' : ℝ} (hs0 : 0 ≤ sig) (hs : sig ≤ sig')
    (hd0 : 0 ≤ delta) (hd : delta ≤ delta') (hd1 : delta' < 90) (hK0 : 0 ≤ K) (hK : K ≤ K')
    (h : fmaxSand sig delta K = some f) (h' : fmaxSand sig' delta' K' = some f') : f ≤ f' := by
  have hpi := pi_pos
  unfold fmaxSand at h h'
  simp only [Option.bind_eq_bind, Option.bind_eq_some_iff, Option.pure_def, Option.some.injEq] at h h'
  obtain ⟨a, ha, rfl⟩ := h
  obtain ⟨b, hb, rfl⟩ := h'
  have t0 : 0 ≤ tan (delta * π / 180) := tan_nonneg' (by positivity) (by nlinarith)
  have t : tan (delta * π / 180) ≤ tan (delta' * π / 180) :=
    tan_mono (by positivity) (by gcongr) (by nlinarith)
  apply min_le_min (interp_mono _ _ _ _ _ tables_rise.1.1 tables_rise.1.2 hd ha hb)
  have := hK0.trans hK
  have := hs0.trans hs
  have := t0.trans t
  gcongr

/-- The end bearing in sand grows with the interface angle and the vertical stress. -/
theorem C83_qmax_sand {sig sig' delta delta' f f' : ℝ} (hs0 : 0 ≤ sig) (hs : sig ≤ sig')
    (hd : delta ≤ delta') (h : qmaxSand sig delta = some f) (h' : qmaxSand sig' delta' = some f') :
    f ≤ f' := by
  unfold qmaxSand at h h'
  simp only [Option.bind_eq_bind, Option.bind_eq_some_iff, Option.pure_def, Option.some.injEq] at h h'
  obtain ⟨a, ha, b, hb, rfl⟩ := h
  obtain ⟨c, hc, d, hd', rfl⟩ := h'
  apply min_le_min (interp_mono _ _ _ _ _ tables_rise.2.2.1 tables_rise.2.2.2 hd hb hd')
  have n := interp_mono _ _ _ _ _ tables_rise.2.1.1 tables_rise.2.1.2 hd ha hc
  have n0 : 0 ≤ a := by
    have := (interp_bounds _ _ 8 50 _ ha (by
      simp only [nqTable, List.mem_cons, List.not_mem_nil, or_false, forall_eq_or_imp, forall_eq]
      norm_num)).1
    linarith
  gcongr
  exact hs0.trans hs

/-- The end of two tables of the same shape: the same displacements, resistances of the same sign, the
second at least as large. -/
def Enlarged (c c' : List ℝ × List ℝ) : Prop :=
  c.1 = c'.1 ∧ List.Forall₂ (fun t t' => |t| ≤ |t'| ∧ 0 ≤ t * t') c.2 c'.2

theorem scale_enlarged {s f f' : ℝ} (h0 : 0 ≤ f) (h : f ≤ f') (c : List ℝ × List ℝ) :
    Enlarged (scaleCurve s f c) (scaleCurve s f' c) := by
  refine ⟨rfl, ?_⟩
  unfold scaleCurve
  rw [List.forall₂_map_left_iff, List.forall₂_map_right_iff, List.forall₂_same]
  intro t _
  constructor
  · rw [abs_mul, abs_mul, abs_of_nonneg h0, abs_of_nonneg (h0.trans h)]
    gcongr
  · have : t * f * (t * f') = t ^ 2 * (f * f') := by ring
    rw [this]
    exact mul_nonneg (sq_nonneg _) (mul_nonneg h0 (h0.trans h))

/-- t-z curves in clay: same displacements, larger friction, in compression and in tension. -/
theorem C83_tz_clay {sig sig' Su Su' D lim res tens : ℝ} {len : ℕ} {draws : ℕ → ℝ}
    {argsort : List ℝ → List ℕ} {c c' : List ℝ × List ℝ} (hs0 : 0 < sig) (hs : sig ≤ sig')
    (hS0 : 0 < Su) (hS : Su ≤ Su') (hl0 : 0 ≤ lim)
    (h : tzApiClay sig Su D lim res tens len draws argsort = some c)
    (h' : tzApiClay sig' Su' D lim res tens len draws argsort = some c') : Enlarged c c' := by
  unfold tzApiClay at h h'
  simp only [Option.bind_eq_bind, Option.bind_eq_some_iff, Option.pure_def, Option.some.injEq] at h h'
  obtain ⟨f, hf, b, hb, rfl⟩ := h
  obtain ⟨f', hf', b', hb', rfl⟩ := h'
  rw [hb, Option.some.injEq] at hb'
  subst hb'
  obtain ⟨k, k'⟩ := C83_fmax_clay hs0 hs hS0 hS hl0 le_rfl hf hf'
  exact scale_enlarged k k' b

/-- Q-z curves in clay. -/
theorem C83_qz_clay {Su Su' D : ℝ} {len : ℕ} {draws : ℕ → ℝ}
    {argsort : List ℝ → List ℕ} {c c' : List ℝ × List ℝ} (hS0 : 0 ≤ Su) (hS : Su ≤ Su')
    (h : qzApiClay Su D len draws argsort = some c)
    (h' : qzApiClay Su' D len draws argsort = some c') : Enlarged c c' := by
  unfold qzApiClay at h h'
  simp only [Option.bind_eq_bind, Option.bind_eq_some_iff, Option.pure_def, Option.some.injEq] at h h'
  obtain ⟨b, hb, rfl⟩ := h
  obtain ⟨b', hb', rfl⟩ := h'
  rw [hb, Option.some.injEq] at hb'
  subst hb'
  exact scale_enlarged (by unfold qmaxClay; linarith) (C83_qmax_clay hS) b

/-- t-z curves in sand. -/
theorem C83_tz_sand {sig sig' delta delta' K K' tens : ℝ} {len : ℕ} {draws : ℕ → ℝ}
    {argsort : List ℝ → List ℕ} {c c' : List ℝ × List ℝ} (hs0 : 0 ≤ sig) (hs : sig ≤ sig')
    (hd0 : 0 ≤ delta) (hd : delta ≤ delta') (hd1 : delta' < 90) (hK0 : 0 ≤ K) (hK : K ≤ K')
    (h : tzApiSand sig delta K tens len draws argsort = some c)
    (h' : tzApiSand sig' delta' K' tens len draws argsort = some c') : Enlarged c c' := by
  unfold tzApiSand at h h'
  simp only [Option.bind_eq_bind, Option.bind_eq_some_iff, Option.pure_def, Option.some.injEq] at h h'
  obtain ⟨f, hf, b, hb, rfl⟩ := h
  obtain ⟨f', hf', b', hb', rfl⟩ := h'
  rw [hb, Option.some.injEq] at hb'
  subst hb'
  refine scale_enlarged ?_ (C83_fmax_sand hs0 hs hd0 hd hd1 hK0 hK hf hf') b
  unfold fmaxSand at hf
  simp only [Option.bind_eq_bind, Option.bind_eq_some_iff, Option.pure_def, Option.some.injEq] at hf
  obtain ⟨a, ha, rfl⟩ := hf
  have n0 : 0 ≤ a := by
    have := (interp_bounds _ _ (478 / 10) (1148 / 10) _ ha (by
      simp only [fsTable, List.mem_cons, List.not_mem_nil, or_false, forall_eq_or_imp, forall_eq]
      norm_num)).1
    linarith
  have hpi := pi_pos
  have t0 : 0 ≤ tan (delta * π / 180) := tan_nonneg' (by positivity) (by nlinarith)
  exact le_min n0 (by positivity)

/-- Q-z curves in sand. -/
theorem C83_qz_sand {sig sig' delta delta' D : ℝ} {len : ℕ} {draws : ℕ → ℝ}
    {argsort : List ℝ → List ℕ} {c c' : List ℝ × List ℝ} (hs0 : 0 ≤ sig) (hs : sig ≤ sig')
    (hd : delta ≤ delta') (h : qzApiSand sig delta D len draws argsort = some c)
    (h' : qzApiSand sig' delta' D len draws argsort = some c') : Enlarged c c' := by
  unfold qzApiSand at h h'
  simp only [Option.bind_eq_bind, Option.bind_eq_some_iff, Option.pure_def, Option.some.injEq] at h h'
  obtain ⟨f, hf, b, hb, rfl⟩ := h
  obtain ⟨f', hf', b', hb', rfl⟩ := h'
  rw [hb, Option.some.injEq] at hb'
  subst hb'
  refine scale_enlarged ?_ (C83_qmax_sand hs0 hs hd hf hf') b
  unfold qmaxSand at hf
  simp only [Option.bind_eq_bind, Option.bind_eq_some_iff, Option.pure_def, Option.some.injEq] at hf
  obtain ⟨a, ha, q, hq, rfl⟩ := hf
  have n0 : 0 ≤ a := by
    have := (interp_bounds _ _ 8 50 _ ha (by
      simp only [nqTable, List.mem_cons, List.not_mem_nil, or_false, forall_eq_or_imp, forall_eq]
      norm_num)).1
    linarith
  have q0 : 0 ≤ q := by
    have := (interp_bounds _ _ 1900 12000 _ hq (by
      simp only [qTable, List.mem_cons, List.not_mem_nil, or_false, forall_eq_or_imp, forall_eq]
      norm_num)).1
    linarith
  exact le_min q0 (by positivity)

end OpenPile.Props.Stronger
