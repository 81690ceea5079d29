/-
C35: unit shaft friction and end bearing.
-/
import Verif.Lemmas.Axial
import Verif.Lemmas.Sand
import Mathlib.Analysis.SpecialFunctions.Pow.Continuity
import Mathlib.Analysis.SpecialFunctions.Trigonometric.Deriv
import Mathlib.Topology.Order.Lattice

namespace OpenPile.Props.Friction
open OpenPile.Axial OpenPile.Spring OpenPile.Spec.Spring OpenPile.Props.Spring

/-! ### clay -/

/-- The adhesion factor of API RP 2A: half of `psi ^ (-1/2)` or of `psi ^ (-1/4)`, whichever is
larger. -/
noncomputable def adhesion (p : ℝ) : ℝ := max (p ^ (-(1 / 2) : ℝ)) (p ^ (-(1 / 4) : ℝ)) / 2

theorem adhesion_pos {p : ℝ} (hp : 0 < p) : 0 < adhesion p := by
  unfold adhesion
  have := lt_max_of_lt_left (b := p ^ (-(1 / 2) : ℝ)) (c := p ^ (-(1 / 4) : ℝ))
    (Real.rpow_pos_of_pos hp (-(1 / 2)))
  linarith

theorem fmaxClay_eq {sig Su al : ℝ} (hp : 0 < psi sig Su) :
    fmaxClay sig Su al = some (min (adhesion (psi sig Su)) al * Su) := by
  unfold fmaxClay
  simp only []
  rw [if_neg (not_lt.2 hp.le), if_neg hp.ne']
  by_cases h : 1 < psi sig Su
  · rw [if_pos h]
    have := Real.rpow_le_rpow_of_exponent_le h.le (show (-(1 / 2) : ℝ) ≤ -(1 / 4) by norm_num)
    unfold adhesion
    rw [max_eq_right this]
    congr 3
    ring
  · rw [if_neg h]
    have := Real.rpow_le_rpow_of_exponent_ge hp (not_lt.1 h)
      (show (-(1 / 2) : ℝ) ≤ -(1 / 4) by norm_num)
    unfold adhesion
    rw [max_eq_left this]
    congr 3
    ring

/-- The friction of clay for positive stress is the API formula, capped by `alpha_limit`. -/
theorem C35_clay_law (sig Su al : ℝ) (hs : 0 < sig) (hu : 0 < Su) :
    fmaxClay sig Su al = some (min (adhesion (Su / sig)) al * Su) := by
  have : psi sig Su = Su / sig := by unfold psi; rw [if_neg hs.ne']
  rw [← this]
  exact fmaxClay_eq (by rw [this]; exact div_pos hu hs)

/-- Adhesion factors expressed without powers of real exponent. -/
theorem C35_adhesion (p : ℝ) (hp : 0 < p) :
    (p ≤ 1 → 4 * adhesion p ^ 2 * p = 1) ∧ (1 ≤ p → 16 * adhesion p ^ 4 * p = 1) := by
  constructor
  · intro h
    have := Real.rpow_le_rpow_of_exponent_ge hp h (show (-(1 / 2) : ℝ) ≤ -(1 / 4) by norm_num)
    unfold adhesion
    rw [max_eq_left this, div_pow, ← Real.rpow_natCast (p ^ _), ← Real.rpow_mul hp.le]
    norm_num
    rw [Real.rpow_neg_one]
    field_simp
  · intro h
    have := Real.rpow_le_rpow_of_exponent_le h (show (-(1 / 2) : ℝ) ≤ -(1 / 4) by norm_num)
    unfold adhesion
    rw [max_eq_right this, div_pow, ← Real.rpow_natCast (p ^ _), ← Real.rpow_mul hp.le]
    norm_num
    rw [Real.rpow_neg_one]
    field_simp

/-- Limits of the clay friction for all accepted inputs. -/
theorem C35_clay_bounds (sig Su al : ℝ) (hs : 0 ≤ sig) (hu : 0 ≤ Su) (ha : 0 ≤ al) :
    ∃ f, fmaxClay sig Su al = some f ∧ 0 ≤ f ∧ f ≤ al * Su := by
  have hp : 0 ≤ psi sig Su := by unfold psi; split_ifs <;> positivity
  rcases hp.eq_or_lt with h | h
  · refine ⟨al * Su, ?_, mul_nonneg ha hu, le_rfl⟩
    unfold fmaxClay
    simp [← h]
  · refine ⟨_, fmaxClay_eq h, mul_nonneg (le_min (adhesion_pos h).le ha) hu,
      mul_le_mul_of_nonneg_right (min_le_right _ _) hu⟩

/-- The adhesion factor falls with the strength ratio. -/
theorem C35_clay_adhesion_antitone (p q : ℝ) (hp : 0 < p) (hpq : p ≤ q) :
    adhesion q ≤ adhesion p := by
  unfold adhesion
  have h1 := Real.rpow_le_rpow_of_nonpos hp hpq (show (-(1 / 2) : ℝ) ≤ 0 by norm_num)
  have h2 := Real.rpow_le_rpow_of_nonpos hp hpq (show (-(1 / 4) : ℝ) ≤ 0 by norm_num)
  have := max_le_max h1 h2
  linarith

/-- The friction relative to the strength falls with the strength ratio. -/
theorem C35_clay_ratio (sig sig' Su Su' al f f' : ℝ) (hs : 0 < sig) (hs' : 0 < sig') (hu : 0 < Su)
    (hu' : 0 < Su') (h : Su / sig ≤ Su' / sig') (hf : fmaxClay sig Su al = some f)
    (hf' : fmaxClay sig' Su' al = some f') : f' / Su' ≤ f / Su := by
  rw [C35_clay_law _ _ _ hs hu, Option.some.injEq] at hf
  rw [C35_clay_law _ _ _ hs' hu', Option.some.injEq] at hf'
  rw [← hf, ← hf', mul_div_assoc, mul_div_assoc, div_self hu.ne', div_self hu'.ne', mul_one, mul_one]
  exact min_le_min_right _ (C35_clay_adhesion_antitone _ _ (div_pos hu hs) h)

/-- The clay friction has no jump, in particular none where strength and stress are equal. -/
theorem C35_clay_continuous (sig al : ℝ) (hs : 0 < sig) :
    ∃ f : ℝ → ℝ, ContinuousOn f (Set.Ioi 0) ∧ ∀ Su, 0 < Su → fmaxClay sig Su al = some (f Su) := by
  refine ⟨fun Su => min (adhesion (Su / sig)) al * Su, ?_, fun Su hu => C35_clay_law _ _ _ hs hu⟩
  have hd : ContinuousOn (fun Su : ℝ => Su / sig) (Set.Ioi 0) :=
    (continuous_id.div_const sig).continuousOn
  have hpow : ∀ e : ℝ, ContinuousOn (fun Su : ℝ => (Su / sig) ^ e) (Set.Ioi 0) := fun e =>
    hd.rpow_const fun x hx => Or.inl (div_pos hx hs).ne'
  have h1 : ContinuousOn (fun Su => adhesion (Su / sig)) (Set.Ioi 0) := by
    unfold adhesion
    exact (ContinuousOn.sup (hpow _) (hpow _)).div_const 2
  exact (ContinuousOn.inf h1 continuousOn_const).mul continuousOn_id

/-- The clay friction grows with the effective stress.  Partial: stress zero is excluded, see
`C35_violated_zero_stress`. -/
theorem C35_clay_stress_partial (sig sig' Su al f f' : ℝ) (hs : 0 < sig) (h : sig ≤ sig') (hu : 0 < Su)
    (hf : fmaxClay sig Su al = some f) (hf' : fmaxClay sig' Su al = some f') : f ≤ f' := by
  have hs' := lt_of_lt_of_le hs h
  rw [C35_clay_law _ _ _ hs hu, Option.some.injEq] at hf
  rw [C35_clay_law _ _ _ hs' hu, Option.some.injEq] at hf'
  rw [← hf, ← hf']
  exact mul_le_mul_of_nonneg_right (min_le_min_right _ (C35_clay_adhesion_antitone _ _ (div_pos hu hs')
    (div_le_div_of_nonneg_left hu.le hs h))) hu.le

/-- The clay friction grows with the strength. -/
theorem C35_clay_strength (sig Su Su' al f f' : ℝ) (hs : 0 < sig) (hu : 0 < Su) (h : Su ≤ Su')
    (ha : 0 ≤ al) (hf : fmaxClay sig Su al = some f) (hf' : fmaxClay sig Su' al = some f') :
    f ≤ f' := by
  have hu' := lt_of_lt_of_le hu h
  rw [C35_clay_law _ _ _ hs hu, Option.some.injEq] at hf
  rw [C35_clay_law _ _ _ hs hu', Option.some.injEq] at hf'
  rw [← hf, ← hf', min_mul_of_nonneg _ _ hu.le, min_mul_of_nonneg _ _ hu'.le]
  refine min_le_min ?_ (mul_le_mul_of_nonneg_left h ha)
  have key : ∀ e : ℝ, -1 ≤ e → (Su / sig) ^ e * Su ≤ (Su' / sig) ^ e * Su' := by
    intro e he
    have e1 : ∀ x, 0 < x → (x / sig) ^ e * x = (x / sig) ^ (e + 1) * sig := by
      intro x hx
      rw [Real.rpow_add_one (div_pos hx hs).ne']
      field_simp
    rw [e1 _ hu, e1 _ hu']
    refine mul_le_mul_of_nonneg_right (Real.rpow_le_rpow (div_pos hu hs).le
      (div_le_div_of_nonneg_right h hs.le) (by linarith)) hs.le
  unfold adhesion
  rw [div_mul_eq_mul_div, div_mul_eq_mul_div, max_mul_of_nonneg _ _ hu.le, max_mul_of_nonneg _ _ hu'.le]
  exact div_le_div_of_nonneg_right (max_le_max (key _ (by norm_num)) (key _ (by norm_num)))
    (by norm_num)

/-- At zero stress the code substitutes a stress of 0.001 kPa, so the friction at zero stress exceeds
the friction at any smaller positive stress (here where the limit does not govern). -/
theorem C35_violated_zero_stress (sig Su al f f' : ℝ) (hs : 0 < sig) (hs' : sig < 1 / 1000)
    (hu : 1 / 1000 ≤ Su) (ha : 1 / 2 ≤ al) (hf : fmaxClay 0 Su al = some f)
    (hf' : fmaxClay sig Su al = some f') : f' < f := by
  have hu0 : 0 < Su := by linarith
  have hp : psi 0 Su = Su / (1 / 1000) := by unfold psi; rw [if_pos rfl]
  rw [fmaxClay_eq (by rw [hp]; positivity), Option.some.injEq, hp] at hf
  rw [C35_clay_law _ _ _ hs hu0, Option.some.injEq] at hf'
  rw [← hf, ← hf']
  refine mul_lt_mul_of_pos_right ?_ hu0
  have h1 : 1 ≤ Su / (1 / 1000) := by rw [le_div_iff₀ (by norm_num)]; linarith
  have hlt : Su / (1 / 1000) < Su / sig := div_lt_div_of_pos_left hu0 hs hs'
  have a1 : ∀ p : ℝ, 1 ≤ p → adhesion p = p ^ (-(1 / 4) : ℝ) / 2 := by
    intro p hp
    have := Real.rpow_le_rpow_of_exponent_le hp (show (-(1 / 2) : ℝ) ≤ -(1 / 4) by norm_num)
    unfold adhesion
    rw [max_eq_right this]
  have a2 : adhesion (Su / sig) < adhesion (Su / (1 / 1000)) := by
    rw [a1 _ h1, a1 _ (h1.trans hlt.le)]
    have := Real.rpow_lt_rpow_of_neg (by linarith) hlt (show (-(1 / 4) : ℝ) < 0 by norm_num)
    linarith
  have a3 : adhesion (Su / (1 / 1000)) ≤ al := by
    rw [a1 _ h1]
    have := Real.rpow_le_one_of_one_le_of_nonpos h1 (show (-(1 / 4) : ℝ) ≤ 0 by norm_num)
    linarith
  rw [min_eq_left a3]
  exact lt_of_le_of_lt (min_le_left _ _) a2

/-! ### sand -/

theorem fs_interp (x : ℝ) : interp x fsTable = interp x frictionLimit := by
  unfold fsTable frictionLimit
  rw [interp_flat_head x _ _ _ (by norm_num)]
  have := interp_flat_tail x 35 (1148 / 10) [(100, 1148 / 10)] (by simp)
    [(15, 478 / 10), (20, 67), (25, 813 / 10), (30, 957 / 10)]
  simp only [List.cons_append, List.nil_append] at this
  rw [this]
  norm_num

theorem nq_interp (x : ℝ) : interp x nqTable = interp x bearingFactor := by
  unfold nqTable bearingFactor
  rw [interp_flat_head x _ _ _ (by norm_num)]
  have := interp_flat_tail x 35 50 [(100, 50)] (by simp) [(15, 8), (20, 12), (25, 20), (30, 40)]
  simpa only [List.cons_append, List.nil_append] using this

theorem q_interp (x : ℝ) : interp x qTable = interp x bearingLimit := by
  unfold qTable bearingLimit
  rw [interp_flat_head x _ _ _ (by norm_num)]
  have := interp_flat_tail x 35 12000 [(100, 12000)] (by simp)
    [(15, 1900), (20, 2900), (25, 4800), (30, 9600)]
  simpa only [List.cons_append, List.nil_append] using this

theorem frictionLimit_asc : Asc frictionLimit := by unfold Asc frictionLimit; norm_num
theorem bearingFactor_asc : Asc bearingFactor := by unfold Asc bearingFactor; norm_num
theorem bearingLimit_asc : Asc bearingLimit := by unfold Asc bearingLimit; norm_num

/-- Sand friction: the API formula, capped by the tabulated limit. -/
theorem C35_sand_law (sig delta k f : ℝ) :
    fmaxSand sig delta k = some f ↔ ∃ lim, OnCurveBoth frictionLimit delta lim ∧
      f = min lim (k * sig * Real.tan (delta * (Real.pi / 180))) := by
  unfold fmaxSand
  simp only [Option.pure_def, Option.bind_eq_bind, Option.bind_eq_some_iff, Option.some.injEq,
    fs_interp]
  constructor
  · rintro ⟨l, h, rfl⟩
    exact ⟨l, (interp_iff_both _ _ _ frictionLimit_asc).1 h, by rw [mul_div_assoc]⟩
  · rintro ⟨l, h, rfl⟩
    exact ⟨l, (interp_iff_both _ _ _ frictionLimit_asc).2 h, by rw [mul_div_assoc]⟩

/-- End bearing of sand: `Nq` times the stress, capped by the tabulated limit. -/
theorem C35_bearing_law (sig delta f : ℝ) :
    qmaxSand sig delta = some f ↔ ∃ lim nq, OnCurveBoth bearingLimit delta lim ∧
      OnCurveBoth bearingFactor delta nq ∧ f = min lim (nq * sig) := by
  unfold qmaxSand
  simp only [Option.pure_def, Option.bind_eq_bind, Option.bind_eq_some_iff, Option.some.injEq,
    nq_interp, q_interp]
  constructor
  · rintro ⟨n, h, l, h', rfl⟩
    exact ⟨l, n, (interp_iff_both _ _ _ bearingLimit_asc).1 h',
      (interp_iff_both _ _ _ bearingFactor_asc).1 h, by rw [mul_comm]⟩
  · rintro ⟨l, n, h', h, rfl⟩
    exact ⟨n, (interp_iff_both _ _ _ bearingFactor_asc).2 h, l,
      (interp_iff_both _ _ _ bearingLimit_asc).2 h', by rw [mul_comm]⟩

theorem tan_deg_nonneg {delta : ℝ} (h0 : 0 ≤ delta) (h1 : delta < 90) :
    0 ≤ Real.tan (delta * Real.pi / 180) := by
  have hp := Real.pi_pos
  apply Real.tan_nonneg_of_nonneg_of_le_pi_div_two
  · positivity
  · nlinarith

theorem table_bounds {tab : List (ℝ × ℝ)} (hne : tab ≠ []) (x lo hi : ℝ)
    (hb : ∀ q ∈ tab, lo ≤ q.2 ∧ q.2 ≤ hi) : ∃ l, interp x tab = some l ∧ lo ≤ l ∧ l ≤ hi := by
  obtain ⟨l, h⟩ := interp_some x tab hne
  exact ⟨l, h, interp_bounds x l lo hi tab h hb⟩

theorem limit_exists (delta : ℝ) :
    ∃ l, interp delta frictionLimit = some l ∧ 47.8 ≤ l ∧ l ≤ 114.8 := by
  refine table_bounds (by simp [frictionLimit]) _ _ _ ?_
  simp only [frictionLimit, List.mem_cons, List.not_mem_nil, or_false]
  rintro q (rfl | rfl | rfl | rfl | rfl) <;> norm_num

theorem factor_exists (delta : ℝ) :
    ∃ l, interp delta bearingFactor = some l ∧ 8 ≤ l ∧ l ≤ 50 := by
  refine table_bounds (by simp [bearingFactor]) _ _ _ ?_
  simp only [bearingFactor, List.mem_cons, List.not_mem_nil, or_false]
  rintro q (rfl | rfl | rfl | rfl | rfl) <;> norm_num

theorem bearing_exists (delta : ℝ) :
    ∃ l, interp delta bearingLimit = some l ∧ 1900 ≤ l ∧ l ≤ 12000 := by
  refine table_bounds (by simp [bearingLimit]) _ _ _ ?_
  simp only [bearingLimit, List.mem_cons, List.not_mem_nil, or_false]
  rintro q (rfl | rfl | rfl | rfl | rfl) <;> norm_num

theorem fmaxSand_eq {sig delta k f : ℝ} (h : fmaxSand sig delta k = some f) :
    ∃ l, interp delta frictionLimit = some l ∧ 47.8 ≤ l ∧ l ≤ 114.8 ∧
      f = min l (k * sig * Real.tan (delta * Real.pi / 180)) := by
  obtain ⟨l, hl, h1, h2⟩ := limit_exists delta
  refine ⟨l, hl, h1, h2, ?_⟩
  unfold fmaxSand at h
  rw [fs_interp, hl] at h
  exact (Option.some.inj h).symm

theorem qmaxSand_eq {sig delta f : ℝ} (h : qmaxSand sig delta = some f) :
    ∃ l n, interp delta bearingLimit = some l ∧ interp delta bearingFactor = some n ∧
      1900 ≤ l ∧ l ≤ 12000 ∧ 8 ≤ n ∧ n ≤ 50 ∧ f = min l (sig * n) := by
  obtain ⟨l, hl, h1, h2⟩ := bearing_exists delta
  obtain ⟨n, hn, h3, h4⟩ := factor_exists delta
  refine ⟨l, n, hl, hn, h1, h2, h3, h4, ?_⟩
  unfold qmaxSand at h
  rw [nq_interp, q_interp, hn, hl] at h
  exact (Option.some.inj h).symm

/-- The sand friction is always a number. -/
theorem C35_sand_total (sig delta k : ℝ) : ∃ f, fmaxSand sig delta k = some f := by
  obtain ⟨l, hl, -, -⟩ := limit_exists delta
  exact ⟨_, by unfold fmaxSand; rw [fs_interp, hl]; rfl⟩

/-- The end bearing of sand is always a number. -/
theorem C35_bearing_total (sig delta : ℝ) : ∃ f, qmaxSand sig delta = some f := by
  obtain ⟨l, hl, -, -⟩ := bearing_exists delta
  obtain ⟨n, hn, -, -⟩ := factor_exists delta
  exact ⟨_, by unfold qmaxSand; rw [nq_interp, q_interp, hn, hl]; rfl⟩

/-- Bounds of the sand friction.  Partial: angles of 90 degrees and more, which the scalar `delta`
allows, are excluded; see `C35_violated_negative_friction`. -/
theorem C35_sand_bounds_partial (sig delta k f : ℝ) (hs : 0 ≤ sig) (hk : 0 ≤ k) (h0 : 0 ≤ delta)
    (h1 : delta < 90) (hf : fmaxSand sig delta k = some f) :
    0 ≤ f ∧ f ≤ 114.8 ∧ (sig = 0 → f = 0) ∧ (0 < sig → 0 < k → 0 < delta → 0 < f) := by
  obtain ⟨l, -, hl, hl', rfl⟩ := fmaxSand_eq hf
  have ht := tan_deg_nonneg h0 h1
  have hl0 : (0 : ℝ) < l := by linarith
  refine ⟨le_min hl0.le (by positivity), (min_le_left _ _).trans hl', ?_, ?_⟩
  · rintro rfl
    rw [mul_zero, zero_mul, min_eq_right hl0.le]
  · intro a b c
    have hp := Real.pi_pos
    have : 0 < Real.tan (delta * Real.pi / 180) :=
      Real.tan_pos_of_pos_of_lt_pi_div_two (by positivity) (by nlinarith)
    exact lt_min hl0 (by positivity)

theorem frictionLimit_rising : Rising frictionLimit := by unfold Rising frictionLimit; norm_num
theorem bearingFactor_rising : Rising bearingFactor := by unfold Rising bearingFactor; norm_num
theorem bearingLimit_rising : Rising bearingLimit := by unfold Rising bearingLimit; norm_num

theorem tan_deg_mono {d d' : ℝ} (h0 : 0 ≤ d) (h : d ≤ d') (h1 : d' < 90) :
    Real.tan (d * Real.pi / 180) ≤ Real.tan (d' * Real.pi / 180) := by
  have hp := Real.pi_pos
  refine Real.strictMonoOn_tan.monotoneOn ⟨?_, ?_⟩ ⟨?_, ?_⟩ (by gcongr)
  · have : 0 ≤ d * Real.pi / 180 := by positivity
    linarith
  · nlinarith
  · have : 0 ≤ d' * Real.pi / 180 := by have := h0.trans h; positivity
    linarith
  · nlinarith

/-- The sand friction grows with stress, lateral pressure coefficient and interface angle. -/
theorem C35_sand_mono (sig sig' delta delta' k k' f f' : ℝ) (hs : 0 ≤ sig) (hss : sig ≤ sig')
    (hk : 0 ≤ k) (hkk : k ≤ k') (h0 : 0 ≤ delta) (hd : delta ≤ delta') (h1 : delta' < 90)
    (hf : fmaxSand sig delta k = some f) (hf' : fmaxSand sig' delta' k' = some f') : f ≤ f' := by
  obtain ⟨l, hl, -, -, rfl⟩ := fmaxSand_eq hf
  obtain ⟨l', hl', -, -, rfl⟩ := fmaxSand_eq hf'
  refine min_le_min (interp_mono _ _ _ _ _ frictionLimit_asc frictionLimit_rising hd hl hl') ?_
  have ht := tan_deg_nonneg h0 (lt_of_le_of_lt hd h1)
  exact mul_le_mul (mul_le_mul hkk hss hs (hk.trans hkk)) (tan_deg_mono h0 hd h1) ht
    (mul_nonneg (hk.trans hkk) (hs.trans hss))

/-- An interface angle between 90 and 180 degrees is accepted for a scalar `delta` and gives a negative
friction at every positive stress. -/
theorem C35_violated_negative_friction (sig delta k f : ℝ) (hs : 0 < sig) (hk : 0 < k)
    (h0 : 90 < delta) (h1 : delta < 180) (hf : fmaxSand sig delta k = some f) : f < 0 := by
  obtain ⟨l, -, -, -, rfl⟩ := fmaxSand_eq hf
  refine min_lt_of_right_lt (mul_neg_of_pos_of_neg (mul_pos hk hs) ?_)
  have hp := Real.pi_pos
  have : Real.tan (delta * Real.pi / 180 - Real.pi) < 0 :=
    Real.tan_neg_of_neg_of_pi_div_two_lt (by nlinarith) (by nlinarith)
  rwa [Real.tan_sub_pi] at this

/-- Bounds of the end bearing. -/
theorem C35_bearing_bounds (sig delta f : ℝ) (hs : 0 ≤ sig) (hf : qmaxSand sig delta = some f) :
    0 ≤ f ∧ f ≤ 12000 ∧ f ≤ 50 * sig ∧ (sig = 0 → f = 0) ∧ (0 < sig → 0 < f) := by
  obtain ⟨l, n, -, -, h1, h2, h3, h4, rfl⟩ := qmaxSand_eq hf
  have hl0 : (0 : ℝ) < l := by linarith
  have hn0 : (0 : ℝ) < n := by linarith
  refine ⟨le_min hl0.le (by positivity), (min_le_left _ _).trans h2,
    (min_le_right _ _).trans (by nlinarith), ?_, fun h => lt_min hl0 (by positivity)⟩
  rintro rfl
  rw [zero_mul, min_eq_right hl0.le]

/-- The end bearing grows with stress and interface angle. -/
theorem C35_bearing_mono (sig sig' delta delta' f f' : ℝ) (hs : 0 ≤ sig) (hss : sig ≤ sig')
    (hd : delta ≤ delta') (hf : qmaxSand sig delta = some f)
    (hf' : qmaxSand sig' delta' = some f') : f ≤ f' := by
  obtain ⟨l, n, hl, hn, -, -, h3, -, rfl⟩ := qmaxSand_eq hf
  obtain ⟨l', n', hl', hn', -, -, -, -, rfl⟩ := qmaxSand_eq hf'
  refine min_le_min (interp_mono _ _ _ _ _ bearingLimit_asc bearingLimit_rising hd hl hl') ?_
  exact mul_le_mul hss (interp_mono _ _ _ _ _ bearingFactor_asc bearingFactor_rising hd hn hn')
    (by linarith) (hs.trans hss)

/-- Clay of strength 50 kPa under 50 kPa: half the strength. -/
example : fmaxClay 50 50 1 = some 25 := by
  rw [C35_clay_law 50 50 1 (by norm_num) (by norm_num)]
  norm_num [adhesion]

/-- The capped case, sand at 30 degrees. -/
example : qmaxSand 1000 30 = some 9600 := by
  norm_num [qmaxSand, nqTable, qTable, interp]

end OpenPile.Props.Friction
