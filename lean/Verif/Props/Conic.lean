/-
C28: the PISA conic curve.
-/
import Verif.Lemmas.Conic
import Verif.Spec.Conic

namespace OpenPile.Conic

/-- The points of a curve, one by one. -/
theorem conic_points {xu n k yu : ℝ} {len : ℕ} {l : List (ℝ × ℝ)} (h : conic xu n k yu len = some l) :
    xu ≠ 0 ∧ 5 ≤ len ∧ l.map Prod.fst = conicX xu len ∧
      ∀ q ∈ l, conicY xu n (max (yu / xu) k) yu q.1 = some q.2 := by
  unfold conic at h
  by_cases h0 : xu = 0 ∨ len < 5
  · rw [if_pos h0] at h; simp at h
  rw [if_neg h0] at h
  push Not at h0
  simp only at h
  have h2 := mapM_forall₂ h
  refine ⟨h0.1, h0.2, ?_, ?_⟩
  · have : ∀ {xs : List ℝ} {ps : List (ℝ × ℝ)}, List.Forall₂ (fun x p =>
        (conicY xu n (max (yu / xu) k) yu x).map (fun y => (x, y)) = some p) xs ps →
        ps.map Prod.fst = xs := by
      intro xs ps hf
      induction hf with
      | nil => rfl
      | cons ha _ ih =>
        rw [Option.map_eq_some_iff] at ha
        obtain ⟨y, _, rfl⟩ := ha
        simp [ih]
    exact this h2
  · have : ∀ {xs : List ℝ} {ps : List (ℝ × ℝ)}, List.Forall₂ (fun x p =>
        (conicY xu n (max (yu / xu) k) yu x).map (fun y => (x, y)) = some p) xs ps →
        ∀ q ∈ ps, conicY xu n (max (yu / xu) k) yu q.1 = some q.2 := by
      intro xs ps hf
      induction hf with
      | nil => simp
      | cons ha _ ih =>
        rw [Option.map_eq_some_iff] at ha
        obtain ⟨y, hy, rfl⟩ := ha
        intro q hq
        rcases List.mem_cons.1 hq with rfl | hq
        · exact hy
        · exact ih q hq
    exact this h2

theorem fst_mem {xu n k yu : ℝ} {len : ℕ} {l : List (ℝ × ℝ)} (h : conic xu n k yu len = some l)
    {q : ℝ × ℝ} (hq : q ∈ l) : q.1 ∈ conicX xu len := by
  rw [← (conic_points h).2.2.1]
  exact List.mem_map_of_mem hq

/-- **C28** (points).  The curve has the requested number of points at strictly increasing
displacements from 0 to 1.1 times the ultimate displacement. -/
theorem C28_points {xu n k yu : ℝ} {len : ℕ} {l : List (ℝ × ℝ)} (hx : 0 < xu)
    (h : conic xu n k yu len = some l) :
    l.length = len ∧ l.Pairwise (fun p q => p.1 < q.1) ∧ (∃ y, l.head? = some (0, y)) ∧
      ∃ y, l.getLast? = some (11 / 10 * xu, y) := by
  obtain ⟨_, h5, hm, _⟩ := conic_points h
  refine ⟨?_, ?_, ?_, ?_⟩
  · rw [← conicX_length xu h5, ← hm, List.length_map]
  · have := conicX_pairwise hx len
    rw [← hm, List.pairwise_map] at this
    exact this
  · have h1 : (l.map Prod.fst).head? = some 0 := by rw [hm]; simp [conicX]
    rw [List.head?_map, Option.map_eq_some_iff] at h1
    obtain ⟨⟨x, y⟩, h2, h3⟩ := h1
    simp only at h3
    exact ⟨y, by rw [h2, h3]⟩
  · have h1 : (l.map Prod.fst).getLast? = some (11 / 10 * xu) := by
      rw [hm]; unfold conicX; rw [List.getLast?_append]; simp
    rw [List.getLast?_map, Option.map_eq_some_iff] at h1
    obtain ⟨⟨x, y⟩, h2, h3⟩ := h1
    simp only at h3
    exact ⟨y, by rw [h2, h3]⟩

/-- **C28** (equation and bounds).  Every point that is not within 0.01 of the ultimate displacement
and lies before it satisfies the conic equation, lies on or above the secant line to the ultimate point
and on or below both the elastic line and the ultimate reaction.  Missing for the full claim: points
within 0.01 before the ultimate displacement (see `C28_violated_near`). -/
theorem C28_conic_partial {xu n k yu : ℝ} {len : ℕ} {l : List (ℝ × ℝ)} (hx : 0 < xu) (hy : 0 < yu)
    (hn : 0 ≤ n) (hn1 : n < 1) (h : conic xu n k yu len = some l) {x y : ℝ} (hq : (x, y) ∈ l)
    (hlt : x ≤ xu - 1 / 100) :
    OnConic xu n (max (yu / xu) k) yu x y ∧ yu / xu * x ≤ y ∧ y ≤ max (yu / xu) k * x ∧ y ≤ yu := by
  have h0 := conicX_nonneg hx len (fst_mem h hq)
  simp only at h0
  have hY := (conic_points h).2.2.2 (x, y) hq
  simp only at hY
  have habs : 1 / 100 ≤ |x - xu| := by
    rw [abs_sub_comm, abs_of_nonneg (by linarith)]; linarith
  obtain ⟨e1, e2, e3, e4⟩ := conicY_below hx hy hn hn1 (le_max_left _ _) h0 (by linarith) habs hY
  refine ⟨?_, ?_, ?_, ?_⟩
  · unfold OnConic
    have : max (yu / xu) k * x = x * max (yu / xu) k := mul_comm _ _
    rw [this]
    linarith
  · rw [div_le_div_iff₀ hx hy] at e2
    rw [div_mul_eq_mul_div, div_le_iff₀ hx]
    linarith
  · rw [div_le_div_iff_of_pos_right hy] at e4
    linarith
  · exact (div_le_one hy).1 e3

/-- **C28** (plateau).  From the ultimate displacement on, the reaction is the ultimate one. -/
theorem C28_plateau {xu n k yu : ℝ} {len : ℕ} {l : List (ℝ × ℝ)}
    (h : conic xu n k yu len = some l) {x y : ℝ} (hq : (x, y) ∈ l) (hge : xu ≤ x) : y = yu := by
  have hY := (conic_points h).2.2.2 (x, y) hq
  unfold conicY at hY
  simp only at hY
  by_cases h1 : |x - xu| < 1 / 100
  · rw [if_pos h1] at hY
    simpa using hY.symm
  · rw [if_neg h1, if_neg (not_lt.2 hge)] at hY
    simpa using hY.symm

/-- Within the tolerance of 0.01 the code returns the ultimate reaction. -/
theorem near_ultimate {xu n k yu : ℝ} {len : ℕ} {l : List (ℝ × ℝ)}
    (h : conic xu n k yu len = some l) {x y : ℝ} (hq : (x, y) ∈ l) (hge : xu - 1 / 100 < x) :
    y = yu := by
  rcases le_or_gt xu x with hle | hlt
  · exact C28_plateau h hq hle
  have hY := (conic_points h).2.2.2 (x, y) hq
  unfold conicY at hY
  simp only at hY
  rw [if_pos (by rw [abs_sub_comm, abs_of_pos (by linarith)]; linarith)] at hY
  simpa using hY.symm

/-- **C28** (bounds).  All reactions are between 0 and the ultimate one. -/
theorem C28_bounded {xu n k yu : ℝ} {len : ℕ} {l : List (ℝ × ℝ)} (hx : 0 < xu) (hy : 0 < yu)
    (hn : 0 ≤ n) (hn1 : n < 1) (h : conic xu n k yu len = some l) {x y : ℝ} (hq : (x, y) ∈ l) :
    0 ≤ y ∧ y ≤ yu := by
  rcases le_or_gt x (xu - 1 / 100) with hle | hgt
  · obtain ⟨_, h1, _, h2⟩ := C28_conic_partial hx hy hn hn1 h hq hle
    have h0 := conicX_nonneg hx len (fst_mem h hq)
    simp only at h0
    refine ⟨le_trans ?_ h1, h2⟩
    positivity
  · rw [near_ultimate h hq hgt]
    exact ⟨hy.le, le_rfl⟩

/-- **C28** (monotonicity).  The reaction never decreases along the curve. -/
theorem C28_monotone {xu n k yu : ℝ} {len : ℕ} {l : List (ℝ × ℝ)} (hx : 0 < xu) (hy : 0 < yu)
    (hn : 0 ≤ n) (hn1 : n < 1) (h : conic xu n k yu len = some l) {x y x' y' : ℝ}
    (hq : (x, y) ∈ l) (hq' : (x', y') ∈ l) (hlt : x < x') : y ≤ y' := by
  rcases le_or_gt x' (xu - 1 / 100) with hle | hgt
  · have h0 := conicX_nonneg hx len (fst_mem h hq)
    have h0' := conicX_nonneg hx len (fst_mem h hq')
    simp only at h0 h0'
    have habs : ∀ {z : ℝ}, z ≤ xu - 1 / 100 → 1 / 100 ≤ |z - xu| := by
      intro z hz
      rw [abs_sub_comm, abs_of_nonneg (by linarith)]; linarith
    have hY := (conic_points h).2.2.2 (x, y) hq
    have hY' := (conic_points h).2.2.2 (x', y') hq'
    simp only at hY hY'
    set K := max (yu / xu) k with hK
    obtain ⟨e1, e2, e3, e4⟩ := conicY_below hx hy hn hn1 (le_max_left _ _) h0 (by linarith)
      (habs (by linarith)) hY
    obtain ⟨e1', e2', e3', e4'⟩ := conicY_below hx hy hn hn1 (le_max_left _ _) h0' (by linarith)
      (habs hle) hY'
    have hs : 1 ≤ K * xu / yu := by
      rw [le_div_iff₀ hy]
      have := (div_le_iff₀ hx).1 (le_max_left (yu / xu) k)
      linarith
    have hts : ∀ z : ℝ, z * K / yu = z / xu * (K * xu / yu) := by
      intro z; field_simp
    rw [hts] at e1 e4 e1' e4'
    have := conic_mono hn hn1 hs (div_nonneg h0 hx.le) ((div_lt_div_iff_of_pos_right hx).2 hlt)
      e1 e3 e4 e1' e2'
    exact (div_le_div_iff_of_pos_right hy).1 this
  · rw [near_ultimate h hq' hgt]
    exact (C28_bounded hx hy hn hn1 h hq).2

/-- **C28** (start).  For ultimate displacements of at least 0.01 the curve starts at the origin.
Missing for the full claim: smaller ultimate displacements (see `C28_violated_start`). -/
theorem C28_start_partial {xu n k yu : ℝ} {len : ℕ} {l : List (ℝ × ℝ)} (hx : 1 / 100 ≤ xu) (hy : 0 < yu)
    (hn : 0 ≤ n) (hn1 : n < 1) (h : conic xu n k yu len = some l) : l.head? = some (0, 0) := by
  have hx0 : 0 < xu := by linarith
  obtain ⟨y, hy0⟩ := (C28_points hx0 h).2.2.1
  have hq : ((0 : ℝ), y) ∈ l := List.mem_of_head? hy0
  obtain ⟨_, h1, h2, _⟩ := C28_conic_partial hx0 hy hn hn1 h hq (by linarith)
  simp only [mul_zero] at h1 h2
  rw [hy0, le_antisymm h2 h1]

/-- **C28** (existence).  The curve is computed unless its length is below 5 or one of its points meets
the degenerate condition `c = 0 ≤ b` of the quadratic formula.  Missing for the full claim: the
degenerate parameters (see `C28_violated_division`). -/
theorem C28_defined_partial {xu n k yu : ℝ} {len : ℕ} (hx : 0 < xu) (hy : 0 < yu)
    (hn : 0 ≤ n) (hn1 : n < 1) :
    (conic xu n k yu len).isSome ↔ 5 ≤ len ∧ ∀ x ∈ conicX xu len, x ≤ xu - 1 / 100 →
      max (yu / xu) k / yu * x * (1 - n) = n * (x / xu) ^ 2 →
      2 * n * (x / xu) < (1 - n) * (1 + max (yu / xu) k / yu * x) := by
  unfold conic
  by_cases h5 : len < 5
  · rw [if_pos (Or.inr h5)]
    simp only [Option.isSome_none, Bool.false_eq_true, false_iff]
    rintro ⟨h, _⟩
    omega
  rw [if_neg (by push Not; exact ⟨hx.ne', by omega⟩)]
  simp only
  rw [mapM_isSome]
  constructor
  · intro h
    refine ⟨by omega, ?_⟩
    intro x hxm hle hc
    by_contra hb
    push Not at hb
    have h1 := h x hxm
    rw [Option.isSome_map] at h1
    have h2 : conicY xu n (max (yu / xu) k) yu x = none := by
      rw [conicY_isNone_iff hx hy hn hn1 (le_max_left _ _) (conicX_nonneg hx len hxm)]
      refine ⟨by linarith, ?_, hc, hb⟩
      rw [abs_sub_comm, abs_of_nonneg (by linarith)]; linarith
    rw [h2] at h1
    simp at h1
  · rintro ⟨_, h⟩ x hxm
    rw [Option.isSome_map, Option.isSome_iff_ne_none]
    intro h2
    rw [conicY_isNone_iff hx hy hn hn1 (le_max_left _ _) (conicX_nonneg hx len hxm)] at h2
    obtain ⟨h3, h4, h5, h6⟩ := h2
    rw [abs_sub_comm, abs_of_pos (by linarith)] at h4
    have := h x hxm (by linarith) h5
    linarith

/-- A curve with shape below one half is always computed. -/
theorem C28_defined_moderate {xu n k yu : ℝ} {len : ℕ} (hx : 0 < xu) (hy : 0 < yu)
    (hn : 0 ≤ n) (hn1 : n ≤ 1 / 2) (h5 : 5 ≤ len) : ∃ l, conic xu n k yu len = some l := by
  rw [← Option.isSome_iff_exists, C28_defined_partial hx hy hn (by linarith)]
  refine ⟨h5, ?_⟩
  intro x hxm hle hc
  have h0 := conicX_nonneg hx len hxm
  have ht0 : 0 ≤ x / xu := div_nonneg h0 hx.le
  have ht1 : x / xu < 1 := (div_lt_one hx).2 (by linarith)
  have : 2 * n * (x / xu) - n * (x / xu) ^ 2 < 1 - n := by
    have h1 : n * (1 - (1 - x / xu) ^ 2) ≤ 1 / 2 * (1 - (1 - x / xu) ^ 2) :=
      mul_le_mul_of_nonneg_right hn1 (by nlinarith)
    have h2 : 0 < (1 - x / xu) ^ 2 := by
      have : 0 < 1 - x / xu := by linarith
      positivity
    have e : 2 * n * (x / xu) - n * (x / xu) ^ 2 = n * (1 - (1 - x / xu) ^ 2) := by ring
    rw [e]
    linarith
  linarith

/-- **C28**, refuted for small ultimate displacements: below 0.01 the curve starts with the full
ultimate reaction at zero displacement. -/
theorem C28_violated_start {xu n k yu : ℝ} {len : ℕ} {l : List (ℝ × ℝ)} (hx : 0 < xu)
    (hx1 : xu < 1 / 100) (hy : 0 < yu) (h : conic xu n k yu len = some l) :
    l.head? = some (0, yu) ∧ l.head? ≠ some (0, 0) := by
  obtain ⟨y, hy0⟩ := (C28_points hx h).2.2.1
  have hq : ((0 : ℝ), y) ∈ l := List.mem_of_head? hy0
  have := near_ultimate h hq (by linarith)
  subst this
  refine ⟨hy0, ?_⟩
  rw [hy0]
  simp only [ne_eq, Option.some.injEq, Prod.mk.injEq, true_and]
  exact hy.ne'

/-- A curve with such an ultimate displacement is computed for all other parameters. -/
theorem small_defined {xu n k yu : ℝ} {len : ℕ} (hx : 0 < xu) (hx1 : xu < 1 / 100) (h5 : 5 ≤ len) :
    ∃ l, conic xu n k yu len = some l := by
  unfold conic
  rw [if_neg (by push Not; exact ⟨hx.ne', h5⟩)]
  simp only
  rw [← Option.isSome_iff_exists, mapM_isSome]
  intro x hxm
  have h0 := conicX_nonneg hx len hxm
  unfold conicY
  by_cases h1 : |x - xu| < 1 / 100
  · rw [if_pos h1]; rfl
  · rw [if_neg h1]
    have : ¬ x < xu := by
      intro hlt
      apply h1
      rw [abs_sub_comm, abs_of_pos (by linarith)]
      linarith
    rw [if_neg this]; rfl

/-- **C28**, refuted within 0.01 before the ultimate displacement: with a positive shape parameter
every such point is off the conic. -/
theorem C28_violated_near {xu n k yu : ℝ} {len : ℕ} {l : List (ℝ × ℝ)} (hx : 0 < xu) (hy : 0 < yu)
    (hn : 0 < n) (h : conic xu n k yu len = some l) {x y : ℝ} (hq : (x, y) ∈ l)
    (h1 : xu - 1 / 100 < x) (h2 : x < xu) : ¬ OnConic xu n (max (yu / xu) k) yu x y := by
  have := near_ultimate h hq h1
  subst this
  unfold OnConic
  rw [div_self hy.ne']
  have h3 : 0 < 1 - x / xu := by
    have := (div_lt_one hx).2 h2
    linarith
  have : 0 < n * (1 - x / xu) ^ 2 := by positivity
  intro h4
  linarith

/-- **C28**, refuted at degenerate parameters: with `n = 12/13` and a stiffness of 1.2 times the secant
stiffness the quadratic formula divides zero by zero at the fourth point (`x = 0.1 xu`), for every
ultimate point and every length. -/
theorem C28_violated_division {xu yu : ℝ} (hx : 1 / 90 ≤ xu) (hy : 0 < yu) (len : ℕ) :
    conic xu (12 / 13) (12 / 10 * (yu / xu)) yu len = none := by
  have hx0 : 0 < xu := by linarith
  have hr : 0 < yu / xu := div_pos hy hx0
  rw [← Option.not_isSome_iff_eq_none, C28_defined_partial hx0 hy (by norm_num) (by norm_num)]
  rintro ⟨_, h⟩
  have hk : max (yu / xu) (12 / 10 * (yu / xu)) = 12 / 10 * (yu / xu) := max_eq_right (by linarith)
  have hm : 1 / 10 * xu ∈ conicX xu len := by simp [conicX]
  have h1 := h _ hm (by linarith)
  rw [hk] at h1
  have e1 : 12 / 10 * (yu / xu) / yu * (1 / 10 * xu) = 12 / 100 := by field_simp; norm_num
  have e2 : 1 / 10 * xu / xu = 1 / 10 := by field_simp
  rw [e1, e2] at h1
  have := h1 (by norm_num)
  norm_num at this

/-- The parameters of `C28_violated_division` are admissible, and a slightly different shape gives a
curve: the property's hypotheses are met. -/
example : ∃ l, conic 100 (1 / 2) 1 10 20 = some l :=
  C28_defined_moderate (by norm_num) (by norm_num) (by norm_num) (by norm_num) (by norm_num)

/-- Points both before and after the ultimate displacement exist. -/
example : (10 : ℝ) ∈ conicX 100 20 ∧ (10 : ℝ) ≤ 100 - 1 / 100 ∧ (110 : ℝ) ∈ conicX 100 20 := by
  refine ⟨?_, by norm_num, ?_⟩
  · unfold conicX; norm_num
  · unfold conicX; norm_num

/-- A point within 0.01 before the ultimate displacement exists for small but admissible curves. -/
example : (2 / 100 * (1 / 100) : ℝ) ∈ conicX (1 / 100) 20 ∧
    (1 / 100 - 1 / 100 : ℝ) < 2 / 100 * (1 / 100) := by
  refine ⟨?_, by norm_num⟩
  unfold conicX; norm_num

end OpenPile.Conic
