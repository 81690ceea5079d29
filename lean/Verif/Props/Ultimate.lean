/-
Property C74: the soil of a converged analysis carries no more than its springs can mobilise.
-/
import Verif.Props.Balance
import Mathlib.MeasureTheory.Integral.IntervalIntegral.Basic

namespace OpenPile.Props.Ultimate
open OpenPile.Kernel OpenPile.Winkler OpenPile.Spring OpenPile.Spec.Kernel OpenPile.Props.SoilStiffness
open OpenPile.Props.Winkler OpenPile.Props.Balance OpenPile.Props.Solve OpenPile.Props.Spring Matrix
open intervalIntegral

/-! ### what a spring can mobilise -/

section table
variable {K : Type} [Field K] [LinearOrder K]

/-- No point of the table has a resistance above `P` in either direction. -/
def Within (tab : List (K × K)) (P : K) : Prop := ∀ q ∈ tab, |q.2| ≤ P

/-- The first point of the table is unloaded. -/
def StartsAtRest (tab : List (K × K)) : Prop := ∀ q ∈ tab.head?, q.2 = 0

/-- As many points for upward as for downward displacement, an odd number each, around an unloaded point at rest. -/
def TwoSided (tab : List (K × K)) : Prop :=
  ∃ up down, tab = up ++ (0, 0) :: down ∧ up.length = down.length ∧ up.length % 2 = 1

variable [IsStrictOrderedRing K]

theorem interp_within (x : K) (tab : List (K × K)) (P y : K) (hP : Within tab P) (h : interp x tab = some y) :
    |y| ≤ P := by
  induction tab with
  | nil => simp [interp] at h
  | cons q tab ih =>
    obtain ⟨a, f⟩ := q
    rcases tab with _ | ⟨⟨b, g⟩, rest⟩
    · simp only [interp, Option.some.injEq] at h
      subst h
      exact hP (a, f) (by simp)
    · rw [interp] at h
      by_cases h1 : x < a
      · rw [if_pos h1, Option.some.injEq] at h
        subst h
        exact hP (a, f) (by simp)
      · rw [if_neg h1] at h
        by_cases h2 : x < b
        · rw [if_pos h2, Option.some.injEq] at h
          subst h
          have hf := abs_le.1 (hP (a, f) (by simp))
          have hg := abs_le.1 (hP (b, g) (by simp))
          simp only at hf hg
          have hab : 0 < b - a := by linarith [not_lt.1 h1]
          have e : f + (g - f) / (b - a) * (x - a) = (f * (b - x) + g * (x - a)) / (b - a) := by
            field_simp
            ring
          have hxa : 0 ≤ x - a := by linarith [not_lt.1 h1]
          have hbx : 0 ≤ b - x := by linarith
          rw [e, abs_le]
          constructor
          · rw [le_div_iff₀ hab]
            nlinarith [mul_le_mul_of_nonneg_right hf.1 hbx, mul_le_mul_of_nonneg_right hg.1 hxa]
          · rw [div_le_iff₀ hab]
            nlinarith [mul_le_mul_of_nonneg_right hf.2 hbx, mul_le_mul_of_nonneg_right hg.2 hxa]
        · rw [if_neg h2] at h
          exact ih (fun q hq => hP q (List.mem_cons_of_mem _ hq)) h

theorem resistance_within (x : K) (tab : List (K × K)) (P y : K) (hP : Within tab P)
    (h : resistance tab x = some y) : |y| ≤ P := by
  unfold resistance at h
  rcases hm : maxDisp tab with _ | m
  · simp [hm] at h
  · simp only [hm, Option.bind_eq_bind, Option.bind_some] at h
    by_cases hx : x > m
    · rw [if_pos hx] at h
      rcases hl : tab.getLast? with _ | q
      · simp [hl] at h
      · simp only [hl, Option.bind_some, Option.pure_def, Option.some.injEq] at h
        subst h
        exact hP q (List.mem_of_getLast? hl)
    · rw [if_neg hx] at h
      exact interp_within x tab P y hP h

theorem Within.nonneg {tab : List (K × K)} {P : K} (h : Within tab P) (hne : tab ≠ []) : 0 ≤ P := by
  obtain ⟨q, rest, rfl⟩ := List.exists_cons_of_ne_nil hne
  exact (abs_nonneg _).trans (h q (by simp))

/-- Secant stiffness times displacement of a one-sided table stays below its greatest resistance. -/
theorem curve_within (tab : List (K × K)) (P u k : K) (hP : Within tab P) (h0 : StartsAtRest tab)
    (h : curveStiffness tab .secant u = some k) : k * |u| ≤ P := by
  rcases tab with _ | ⟨⟨x0, p0⟩, _ | ⟨⟨x1, p1⟩, rest⟩⟩
  · simp [curveStiffness] at h
  · simp [curveStiffness] at h
  · have hp0 : p0 = 0 := h0 (x0, p0) (by simp)
    by_cases hu : |u| = 0
    · rw [hu, mul_zero]
      exact hP.nonneg (by simp)
    · simp only [curveStiffness, reduceCtorEq, hu, or_self, if_false, Option.bind_eq_bind] at h
      rcases hr : resistance ((x0, p0) :: (x1, p1) :: rest) |u| with _ | r
      · simp [hr] at h
      · simp only [hr, Option.bind_some] at h
        rw [absQuot_mul _ _ _ (lt_of_le_of_ne (abs_nonneg u) (Ne.symm hu)) h, hp0, sub_zero]
        exact resistance_within _ _ _ _ hP hr

theorem py_within (tab : List (K × K)) (P u k : K) (hne : tab ≠ []) (hP : Within tab P) (h0 : StartsAtRest tab)
    (h : pyStiffness tab .secant u = some k) : k * |u| ≤ P := by
  unfold pyStiffness at h
  by_cases hs : (tab.map (·.1)).sum = 0
  · rw [if_pos hs, Option.some.injEq] at h
    rw [← h, zero_mul]
    exact hP.nonneg hne
  · rw [if_neg hs] at h
    exact curve_within tab P u k hP h0 h

theorem base_within (tab : List (K × K)) (P u k : K) (hne : tab ≠ []) (hP : Within tab P) (h0 : StartsAtRest tab)
    (h : baseStiffness tab .secant u = some k) : k * |u| ≤ P := by
  unfold baseStiffness at h
  by_cases hs : (tab.map (·.2)).sum = 0
  · rw [if_pos hs, Option.some.injEq] at h
    rw [← h, zero_mul]
    exact hP.nonneg hne
  · rw [if_neg hs] at h
    exact curve_within tab P u k hP h0 h

theorem axialCurve_within (tab : List (K × K)) (P u k : K) (hP : Within tab P) (h0 : TwoSided tab)
    (h : axialCurveStiffness tab .secant u = some k) : k * |u| ≤ P := by
  have hne : tab ≠ [] := by
    obtain ⟨up, down, rfl, -, -⟩ := h0
    simp
  by_cases hu : u = 0
  · rw [hu, abs_zero, mul_zero]
    exact hP.nonneg hne
  · obtain ⟨up, down, rfl, heq, hodd⟩ := h0
    obtain ⟨g1, g2⟩ := zeroIndex_mid up down ((0 : K), (0 : K)) heq hodd
    unfold axialCurveStiffness at h
    rw [g1, g2] at h
    rcases hd : down.head? with _ | ⟨x1, p1⟩
    · simp [hd] at h
    · simp only [hd, Option.bind_eq_bind, Option.bind_some, reduceCtorEq, hu, or_self, if_false] at h
      rcases hr : interp u (up ++ (0, 0) :: down).reverse with _ | r
      · rw [hr] at h
        simp at h
      · simp only [hr, Option.bind_some, sub_zero] at h
        unfold absQuot at h
        rw [if_neg hu, Option.some.injEq] at h
        rw [← h, abs_div, div_mul_cancel₀ _ (abs_pos.2 hu).ne']
        exact interp_within u _ P r (fun q hq => hP q (List.mem_reverse.1 hq)) hr

theorem tz_within (tab : List (K × K)) (P u k : K) (hP : Within tab P) (h0 : TwoSided tab)
    (h : tzStiffness tab .secant u = some k) : k * |u| ≤ P := by
  unfold tzStiffness at h
  by_cases hs : (tab.map (fun q => |q.1|)).sum = 0
  · rw [if_pos hs, Option.some.injEq] at h
    obtain ⟨up, down, rfl, -, -⟩ := h0
    rw [← h, zero_mul]
    exact hP.nonneg (by simp)
  · rw [if_neg hs] at h
    exact axialCurve_within tab P u k hP h0 h

theorem qz_within (tab : List (K × K)) (P u k : K) (hP : Within tab P) (h0 : TwoSided tab)
    (h : baseAxialStiffness tab .secant u = some k) : k * |u| ≤ P := by
  unfold baseAxialStiffness at h
  by_cases hs : (tab.map (fun q => |q.2|)).sum = 0
  · rw [if_pos hs, Option.some.injEq] at h
    obtain ⟨up, down, rfl, -, -⟩ := h0
    rw [← h, zero_mul]
    exact hP.nonneg (by simp)
  · rw [if_neg hs] at h
    exact axialCurve_within tab P u k hP h0 h

end table

/-! ### what an element can mobilise -/

/-- Distributed springs with secant stiffnesses `kt`, `kb` resist a displacement field that nowhere exceeds `ρ`
times the displacements `a`, `b` the stiffnesses were read at. -/
theorem element_bound (L kt kb a b P Q ρ : ℝ) (f : ℝ → ℝ) (hL : 0 < L) (hf : Continuous f) (hkt : 0 ≤ kt)
    (hkb : 0 ≤ kb) (hP : kt * |a| ≤ P) (hQ : kb * |b| ≤ Q) (hρ : 0 ≤ ρ)
    (ha : ∀ x, 0 ≤ x → x ≤ L → |f x| ≤ ρ * |a|) (hb : ∀ x, 0 ≤ x → x ≤ L → |f x| ≤ ρ * |b|) :
    |∫ x in (0 : ℝ)..L, linearStiffness L kt kb x * f x| ≤ ρ * (L * (P + Q) / 2) := by
  have hc : Continuous (fun x => linearStiffness L kt kb x * f x) := by
    unfold linearStiffness
    fun_prop
  have hg : Continuous (fun x : ℝ => ρ * ((1 - x / L) * P + x / L * Q)) := by fun_prop
  have h1 : |∫ x in (0 : ℝ)..L, linearStiffness L kt kb x * f x|
      ≤ ∫ x in (0 : ℝ)..L, ρ * ((1 - x / L) * P + x / L * Q) := by
    refine (abs_integral_le_integral_abs hL.le).trans ?_
    refine integral_mono_on hL.le (hc.abs.intervalIntegrable _ _) (hg.intervalIntegrable _ _) (fun x hx => ?_)
    obtain ⟨hx0, hxL⟩ := hx
    have hs0 : 0 ≤ x / L := div_nonneg hx0 hL.le
    have hs1 : 0 ≤ 1 - x / L := by rw [sub_nonneg, div_le_one hL]; exact hxL
    have e : linearStiffness L kt kb x = (1 - x / L) * kt + x / L * kb := by
      unfold linearStiffness; ring
    rw [e, abs_mul, abs_of_nonneg (by positivity), add_mul]
    have i1 : kt * |f x| ≤ ρ * P := by
      calc kt * |f x| ≤ kt * (ρ * |a|) := mul_le_mul_of_nonneg_left (ha x hx0 hxL) hkt
        _ = ρ * (kt * |a|) := by ring
        _ ≤ ρ * P := mul_le_mul_of_nonneg_left hP hρ
    have i2 : kb * |f x| ≤ ρ * Q := by
      calc kb * |f x| ≤ kb * (ρ * |b|) := mul_le_mul_of_nonneg_left (hb x hx0 hxL) hkb
        _ = ρ * (kb * |b|) := by ring
        _ ≤ ρ * Q := mul_le_mul_of_nonneg_left hQ hρ
    nlinarith [mul_le_mul_of_nonneg_left i1 hs1, mul_le_mul_of_nonneg_left i2 hs0]
  refine h1.trans (le_of_eq ?_)
  have hd : ∀ x ∈ Set.uIcc (0 : ℝ) L, HasDerivAt (fun y : ℝ => ρ * ((y - y ^ 2 / (2 * L)) * P + y ^ 2 / (2 * L) * Q))
      (ρ * ((1 - x / L) * P + x / L * Q)) x := by
    intro x _
    have hsq : HasDerivAt (fun y : ℝ => y ^ 2 / (2 * L)) (x / L) x := by
      have := ((hasDerivAt_id x).pow 2).div_const (2 * L)
      refine this.congr_deriv ?_
      simp
      field_simp
    exact ((((hasDerivAt_id x).sub hsq).mul_const P).add (hsq.mul_const Q)).const_mul ρ
  rw [integral_eq_sub_of_hasDerivAt hd (hg.intervalIntegrable _ _)]
  field_simp
  ring

/-! ### the analysis -/

variable {n : ℕ}

/-- Between its nodes the pile moves nowhere more than `ρ` times as much as the nodes at which the springs of the
element are read. -/
def Even (f : Fin n → ℝ → ℝ) (el : Fin n → Elem ℝ) (d : Fin (3 * n + 3) → ℝ) (c : Fin 3) (ρ : ℝ) : Prop :=
  ∀ i b x, 0 ≤ x → x ≤ (el i).L → |f i x| ≤ ρ * |d (dof (seenNode i b) c)|

theorem sq_bound (S R E m r : ℝ) (hm : 0 ≤ m) (hr : 0 ≤ r) (h : (S - R) ^ 2 ≤ m * r) (hR : |R| ≤ E) :
    |S| ≤ E + √m * √r := by
  have h1 : |S - R| ≤ √(m * r) := by
    rw [← Real.sqrt_sq_eq_abs]
    exact Real.sqrt_le_sqrt h
  rw [Real.sqrt_mul hm] at h1
  have := abs_le.1 h1
  have := abs_le.1 hR
  rw [abs_le]
  constructor <;> linarith

/-- **C74, axial (partial).** In a converged analysis of a pile without axial supports, the axial loads add up to no
more than the strength of the t-z springs times the lengths they act on, times the factor `ρ` by which the
displacement varies within an element, plus the strength of the tip spring and the reported error times `√(n+1)`.
Missing: the bound without the factor `ρ`, which the code violates (`C74_violated_pull`). -/
theorem C74_axial_partial (ty : ElementType) (el : Fin n → Elem ℝ) (hL : ∀ i, 0 < (el i).L)
    (hp : ∀ i, 1 + phi ty (el i) ≠ 0) (sp : Springs ℝ n) (F U : Fin (3 * n + 3) → ℝ) (fix : Fin (3 * n + 3) → Bool)
    (maxIter : ℕ) (d Q : Fin (3 * n + 3) → ℝ) (it : ℕ) (tolSq resSq : ℝ)
    (h : winkler (buildStiffness ty el sp) F U fix maxIter = .converged d Q it tolSq resSq) (hf : FreeIn fix U 0)
    (T : Fin n → Bool → ℝ) (hT : ∀ i b, TwoSided (sp.tz i b) ∧ Within (sp.tz i b) (T i b))
    (q : ℝ) (hq : TwoSided sp.qz ∧ Within sp.qz q)
    (ρ : ℝ) (hρ : 0 ≤ ρ) (hev : Even (settlement el d) el d 0 ρ) :
    |∑ j : Fin (n + 1), F (dof j 0)|
      ≤ ρ * ∑ i, (el i).L * (T i false + T i true) / 2 + q + √(n + 1) * √resSq := by
  obtain ⟨-, s, hh, m, q', hs, hb⟩ := C59_axial ty el (fun i => (hL i).ne') hp sp F U fix maxIter d Q it tolSq resSq h hf
  have hres : 0 ≤ resSq := by
    have h1 := (C26_converged _ F U fix maxIter d Q it tolSq resSq h).2.2.2.2
    obtain ⟨Ks, -, hr, -⟩ := h1
    rw [← hr]
    refine Finset.sum_nonneg (fun i _ => ?_)
    split
    · exact le_rfl
    · exact sq_nonneg _
  refine sq_bound _ _ _ _ _ (by positivity) hres hb ?_
  have hq0 : 0 ≤ q := by
    obtain ⟨⟨up, down, e, -⟩, hw⟩ := hq
    exact hw.nonneg (by rw [e]; simp)
  have hT0 : ∀ i b, 0 ≤ T i b := by
    intro i b
    obtain ⟨⟨up, down, e, -⟩, hw⟩ := hT i b
    exact hw.nonneg (by rw [e]; simp)
  have htip : |q' * d (dof (Fin.last n) 0)| ≤ q := by
    have hba := hs.baseAxial
    cases hsw : sp.baseAxial
    · rw [hsw] at hba
      simp only [Bool.false_eq_true, if_false, Option.some.injEq] at hba
      rw [← hba, zero_mul, abs_zero]
      exact hq0
    · rw [hsw, if_pos rfl] at hba
      have hnn : 0 ≤ q' := (C24_nonneg _ _ _ _ (Or.inr (Or.inr (Or.inr hba))))
      rw [abs_mul, abs_of_nonneg hnn]
      exact qz_within _ _ _ _ hq.2 hq.1 hba
  have hel : ∀ i, |∫ x in (0 : ℝ)..(el i).L, linearStiffness (el i).L (s i).tz.1 (s i).tz.2 x * settlement el d i x|
      ≤ ρ * ((el i).L * (T i false + T i true) / 2) := by
    intro i
    have key : ∀ b, 0 ≤ side (s i).tz b ∧ side (s i).tz b * |d (dof (seenNode i b) 0)| ≤ T i b := by
      intro b
      cases hsw : sp.distributedAxial
      · have := (hs.shaft i).noAxial b hsw
        rw [this, zero_mul]
        exact ⟨le_rfl, hT0 i b⟩
      · have hk := (hs.shaft i).axial b hsw
        exact ⟨C24_nonneg _ _ _ _ (Or.inr (Or.inr (Or.inl hk))), tz_within _ _ _ _ (hT i b).2 (hT i b).1 hk⟩
    refine element_bound _ _ _ (d (dof (seenNode i false) 0)) (d (dof (seenNode i true) 0)) _ _ ρ _ (hL i) ?_
      (key false).1 (key true).1 (key false).2 (key true).2 hρ (hev i false) (hev i true)
    unfold settlement axialField
    fun_prop
  refine (abs_add_le _ _).trans (add_le_add ?_ htip)
  refine (Finset.abs_sum_le_sum_abs _ _).trans ?_
  rw [Finset.mul_sum]
  exact Finset.sum_le_sum (fun i _ => hel i)

/-- **C74, lateral (partial).** Likewise for the lateral direction, with the p-y springs and the base shear. -/
theorem C74_lateral_partial (ty : ElementType) (el : Fin n → Elem ℝ) (hL : ∀ i, 0 < (el i).L)
    (hp : ∀ i, 1 + phi ty (el i) ≠ 0) (sp : Springs ℝ n) (F U : Fin (3 * n + 3) → ℝ) (fix : Fin (3 * n + 3) → Bool)
    (maxIter : ℕ) (d Q : Fin (3 * n + 3) → ℝ) (it : ℕ) (tolSq resSq : ℝ)
    (h : winkler (buildStiffness ty el sp) F U fix maxIter = .converged d Q it tolSq resSq) (hf : FreeIn fix U 1)
    (P : Fin n → Bool → ℝ) (hP : ∀ i b, sp.py i b ≠ [] ∧ StartsAtRest (sp.py i b) ∧ Within (sp.py i b) (P i b))
    (H : ℝ) (hH : sp.hb ≠ [] ∧ StartsAtRest sp.hb ∧ Within sp.hb H)
    (ρ : ℝ) (hρ : 0 ≤ ρ) (hev : Even (deflection el d) el d 1 ρ) :
    |∑ j : Fin (n + 1), F (dof j 1)|
      ≤ ρ * ∑ i, (el i).L * (P i false + P i true) / 2 + H + √(n + 1) * √resSq := by
  obtain ⟨-, s, hh, m, q', hs, hb⟩ := C59_lateral ty el (fun i => (hL i).ne') hp sp F U fix maxIter d Q it tolSq resSq h hf
  have hres : 0 ≤ resSq := by
    have h1 := (C26_converged _ F U fix maxIter d Q it tolSq resSq h).2.2.2.2
    obtain ⟨Ks, -, hr, -⟩ := h1
    rw [← hr]
    refine Finset.sum_nonneg (fun i _ => ?_)
    split
    · exact le_rfl
    · exact sq_nonneg _
  refine sq_bound _ _ _ _ _ (by positivity) hres hb ?_
  have htip : |hh * d (dof (Fin.last n) 1)| ≤ H := by
    have hba := hs.baseShear
    cases hsw : sp.baseShear
    · rw [hsw] at hba
      simp only [Bool.false_eq_true, if_false, Option.some.injEq] at hba
      rw [← hba, zero_mul, abs_zero]
      exact hH.2.2.nonneg hH.1
    · rw [hsw, if_pos rfl] at hba
      have hnn : 0 ≤ hh := (C24_nonneg _ _ _ _ (Or.inr (Or.inl hba)))
      rw [abs_mul, abs_of_nonneg hnn]
      exact base_within _ _ _ _ hH.1 hH.2.2 hH.2.1 hba
  have hel : ∀ i, |∫ x in (0 : ℝ)..(el i).L, linearStiffness (el i).L (s i).py.1 (s i).py.2 x * deflection el d i x|
      ≤ ρ * ((el i).L * (P i false + P i true) / 2) := by
    intro i
    have key : ∀ b, 0 ≤ side (s i).py b ∧ side (s i).py b * |d (dof (seenNode i b) 1)| ≤ P i b := by
      intro b
      cases hsw : sp.distributedLateral
      · have := (hs.shaft i).noLateral b hsw
        rw [this, zero_mul]
        exact ⟨le_rfl, (hP i b).2.2.nonneg (hP i b).1⟩
      · have hk := (hs.shaft i).lateral b hsw
        exact ⟨C24_nonneg _ _ _ _ (Or.inl hk), py_within _ _ _ _ (hP i b).1 (hP i b).2.2 (hP i b).2.1 hk⟩
    refine element_bound _ _ _ (d (dof (seenNode i false) 1)) (d (dof (seenNode i true) 1)) _ _ ρ _ (hL i) ?_
      (key false).1 (key true).1 (key false).2 (key true).2 hρ (hev i false) (hev i true)
    unfold deflection hermite
    fun_prop
  refine (abs_add_le _ _).trans (add_le_add ?_ htip)
  refine (Finset.abs_sum_le_sum_abs _ _).trans ?_
  rw [Finset.mul_sum]
  exact Finset.sum_le_sum (fun i _ => hel i)

/-- The hypotheses are met by the translated pile of `LinearRange`, with `ρ = 1`. -/
example : ∃ t, winkler (buildStiffness .eulerBernoulli (LinearRange.elD (K := ℝ)) LinearRange.spD)
      LinearRange.loadD 0 LinearRange.fixD 100 = .converged LinearRange.uD 0 2 t 0 ∧
    (∀ i b, TwoSided ((LinearRange.spD (K := ℝ)).qz) ∧ StartsAtRest ((LinearRange.spD (K := ℝ)).py i b) ∧
      Within ((LinearRange.spD (K := ℝ)).py i b) 210) ∧
    Even (deflection LinearRange.elD LinearRange.uD) LinearRange.elD LinearRange.uD 1 1 := by
  obtain ⟨t, ht⟩ := LinearRange.convergedD (K := ℝ) 100 (by norm_num)
  refine ⟨t, ht, fun i b => ⟨⟨[(1, 10)], [(-1, -10)], rfl, rfl, rfl⟩, ?_, ?_⟩, ?_⟩
  · simp [StartsAtRest, LinearRange.spD]
  · simp [Within, LinearRange.spD]
  · intro i b x _ _
    have hd : ∀ j : Fin 2, (LinearRange.uD (K := ℝ)) (dof j 1) = 1 / 10 := by
      intro j
      unfold LinearRange.uD dof
      rw [if_pos]
      simp
    have hd2 : ∀ j : Fin 2, (LinearRange.uD (K := ℝ)) (dof j 2) = 0 := by
      intro j
      unfold LinearRange.uD dof
      rw [if_neg]
      simp
    obtain ⟨-, t1, t2, -, t4, t5⟩ := stacked_top (LinearRange.uD (K := ℝ)) i
    have : deflection LinearRange.elD LinearRange.uD i x = 1 / 10 := by
      unfold deflection hermite
      rw [t1, t2, t4, t5, hd, hd, hd2, hd2]
      ring
    rw [this, hd, one_mul]

/-! ### displacement-controlled analyses -/

section prescribed
variable {K : Type} [Field K] [LinearOrder K] [IsStrictOrderedRing K]
variable {ι : Type} [Fintype ι] [DecidableEq ι]

omit [LinearOrder K] [IsStrictOrderedRing K] in
theorem solve_all (A : Matrix ι ι K) (F U : ι → K) :
    solveEquations A F U (fun _ => true) = some (U, fun i => (A *ᵥ U) i - F i) := by
  refine solve_eq_some A F U _ ?_ U (fun i hi => by cases hi) (fun i _ => rfl)
  rw [Ne, C15_fails_iff]
  rintro ⟨w, hw, h0, -⟩
  exact hw (funext (fun i => h0 i rfl))

/-- If every degree of freedom is prescribed, the analysis returns the prescribed displacements and, as reactions,
the forces of the secant stiffness, after two passes. -/
theorem prescribed (build : Kind → (ι → K) → Option (Matrix ι ι K)) (F U : ι → K) (maxIter : ℕ) (hm : 1 ≤ maxIter)
    (A Ks Kt : Matrix ι ι K) (hA : build .initial 0 = some A) (hs : build .secant U = some Ks)
    (ht : build .tangent U = some Kt) (i0 : ι) (h0 : 3 * F i0 ≠ (A *ᵥ U) i0 + (Ks *ᵥ U) i0) :
    ∃ t, winkler build F U (fun _ => true) maxIter
      = .converged U (fun i => (Ks *ᵥ U) i - F i) 2 t 0 := by
  obtain ⟨m, rfl⟩ : ∃ m, maxIter = m + 1 := ⟨maxIter - 1, by omega⟩
  unfold winkler
  rw [hA]
  have hsup : (fun i => true || decide (U i ≠ 0)) = fun _ : ι => true := by funext i; simp
  simp only [hsup]
  have hU : (fun i => (0 : ι → K) i + U i) = U := by funext i; simp
  rw [loop, solve_all]
  simp only [hU, hs, ht]
  rw [if_neg (by omega), if_neg (by omega), loop, solve_all]
  have hU0 : (fun i => U i + (0 : ι → K) i) = U := by funext i; simp
  simp only [hU0, hs]
  have hz : ∀ v : ι → K, normSqFree (fun _ => true) v = 0 := by
    intro v
    simp [normSqFree]
  rw [hz, if_pos, solve_all]
  · exact ⟨_, rfl⟩
  · refine ⟨?_, by omega⟩
    have hpos : 0 < normSq (fun i => F i - ((Kt *ᵥ (0 : ι → K)) i
        - (F i - ((A *ᵥ U) i - F i) - (Ks *ᵥ U) i))) := by
      unfold normSq
      refine Finset.sum_pos' (fun i _ => sq_nonneg _) ⟨i0, Finset.mem_univ _, ?_⟩
      refine sq_pos_of_ne_zero ?_
      simp only [mulVec_zero, Pi.zero_apply]
      intro hc
      apply h0
      linarith
    positivity

end prescribed

/-- A pile of one element of unit length. -/
noncomputable def elP : Fin 1 → Elem ℝ := fun _ => ⟨1, 1, 1, 1, 1, 1 / 10, 0⟩

/-- Shaft friction of strength 1, mobilised at displacement 1; no other springs. -/
def spP : Springs ℝ 1 := ⟨fun _ _ => [], fun _ _ => [(1, 1), (0, 0), (-1, -1)], fun _ _ => [], 2, [], [], [],
  false, true, false, false, false, false⟩

/-- The head is pulled by 1, the tip by `M`. -/
noncomputable def pull (M : ℝ) : Fin (3 * 1 + 3) → ℝ := fun r => if r.1 = 0 then 1 else if r.1 = 3 then M else 0

theorem buildP (kind : Kind) (u : Fin (3 * 1 + 3) → ℝ) (k : ℝ)
    (h : tzStiffness ([(1, 1), (0, 0), (-1, -1)] : List (ℝ × ℝ)) kind (u (dof 0 0)) = some k) :
    buildStiffness .eulerBernoulli elP spP kind u
      = some (soilStiffness .eulerBernoulli 1 elP (fun _ => ⟨(0, 0), (k, k), (0, 0)⟩) 0 0 0) := by
  have h1 : soilAt spP kind u = fun _ => some ⟨(0, 0), (k, k), (0, 0)⟩ := by
    funext e
    have hp : ∀ b, tzAt spP kind u e b = some k := by
      intro b
      have : seenNode e b = 0 := by
        have he : e = 0 := Subsingleton.elim _ _
        subst he
        cases b <;> simp [seenNode]
      unfold tzAt
      rw [springDisp_seen, this]
      simpa [spP] using h
    unfold soilAt
    simp only [hp]
    simp [spP, pyAt, mtAt]
  have h2 : allSome (soilAt spP kind u) = some (fun _ => ⟨(0, 0), (k, k), (0, 0)⟩) := by
    rw [h1]
    simp [allSome]
  unfold buildStiffness
  rw [h2]
  simp [spP]

theorem pull_top (k M : ℝ) : (soilStiffness .eulerBernoulli 1 elP (fun _ => ⟨(0, 0), (k, k), (0, 0)⟩) 0 0 0 *ᵥ pull M)
    (dof 0 0) = 1 - M + k * (1 / 3 + M / 6) := by
  simp [soilStiffness, assemble, place, baseMatrix, mulVec, dotProduct, Fin.sum_univ_succ, pull, elemMatrix, dof,
    mechMatrix, beamMatrix, pyMatrix, tzMatrix, mtMatrix, mtPattern, mtCoeffs, elP, phi, kappa]
  ring

theorem pull_tip (k M : ℝ) : (soilStiffness .eulerBernoulli 1 elP (fun _ => ⟨(0, 0), (k, k), (0, 0)⟩) 0 0 0 *ᵥ pull M)
    (dof 1 0) = M - 1 + k * (1 / 6 + M / 3) := by
  simp [soilStiffness, assemble, place, baseMatrix, mulVec, dotProduct, Fin.sum_univ_succ, pull, elemMatrix, dof,
    mechMatrix, beamMatrix, pyMatrix, tzMatrix, mtMatrix, mtPattern, mtCoeffs, elP, phi, kappa]
  ring

/-- **C74 is violated.** A pile of unit length with shaft friction of strength 1 and nothing else, pulled by 1 at the
head and by `M ≥ 1` at the tip: the analysis converges and reports reactions that add up to `(1 + M) / 2`, any
multiple of the strength of the shaft. -/
theorem C74_violated_pull (M : ℝ) (hM : 1 ≤ M) :
    ∃ d Q it t r, winkler (buildStiffness .eulerBernoulli elP spP) 0 (pull M) (fun _ => true) 100
      = .converged d Q it t r ∧ Q (dof 0 0) + Q (dof 1 0) = (1 + M) / 2 ∧
      (∀ i, (elP i).L = 1) ∧ (∀ i b, TwoSided (spP.tz i b) ∧ Within (spP.tz i b) 1) ∧ spP.baseAxial = false := by
  have h3 : zeroIndex 3 = 1 := by decide
  have hu : pull M (dof 0 0) = 1 := by simp [pull, dof]
  have k1 : tzStiffness ([(1, 1), (0, 0), (-1, -1)] : List (ℝ × ℝ)) .initial ((0 : Fin (3 * 1 + 3) → ℝ) (dof 0 0))
      = some 1 := by
    simp [tzStiffness, axialCurveStiffness, absQuot, h3]
  have k2 : tzStiffness ([(1, 1), (0, 0), (-1, -1)] : List (ℝ × ℝ)) .secant (pull M (dof 0 0)) = some 1 := by
    rw [hu]
    simp [tzStiffness, axialCurveStiffness, absQuot, h3, interp]
    norm_num
  have k3 : ∃ k, tzStiffness ([(1, 1), (0, 0), (-1, -1)] : List (ℝ × ℝ)) .tangent (pull M (dof 0 0)) = some k := by
    rw [hu]
    simp [tzStiffness, axialCurveStiffness, absQuot, h3, interp]
    norm_num
  obtain ⟨k, k3⟩ := k3
  obtain ⟨t, ht⟩ := prescribed (buildStiffness .eulerBernoulli elP spP) 0 (pull M) 100 (by norm_num) _ _ _
    (buildP _ _ _ k1) (buildP _ _ _ k2) (buildP _ _ _ k3) (dof 1 0) (by
      rw [pull_tip]
      simp
      linarith)
  refine ⟨_, _, _, t, 0, ht, ?_, fun _ => rfl, fun i b => ⟨⟨[(1, 1)], [(-1, -1)], rfl, rfl, rfl⟩, ?_⟩, rfl⟩
  · simp only [Pi.zero_apply, sub_zero]
    rw [pull_top, pull_tip]
    ring
  · simp [Within, spP]

/-- **C74 is violated by every sliding element.** If the friction is fully mobilised at both ends of an element
(strength `T`, secants `T / a` and `T / b` at the displacements `a`, `b` of its nodes), the forces on the nodes add up
to more than `T` times the length, unless both ends move by the same amount. -/
theorem C74_violated_sliding {K : Type} [Field K] [LinearOrder K] [IsStrictOrderedRing K] (L T a b : K) (hL : 0 < L)
    (hT : 0 < T) (ha : 0 < a) (hb : 0 < b) (hab : a ≠ b) (u : Fin 6 → K) (h0 : u 0 = a) (h3 : u 3 = b) :
    L * T < (tzMatrix L (T / a) (T / b) *ᵥ u) 0 + (tzMatrix L (T / a) (T / b) *ᵥ u) 3 := by
  have e : (tzMatrix L (T / a) (T / b) *ᵥ u) 0 + (tzMatrix L (T / a) (T / b) *ᵥ u) 3
      = L * T + L * T * ((a - b) ^ 2 / (6 * (a * b))) := by
    simp [tzMatrix, mulVec, dotProduct, Fin.sum_univ_six, h0, h3]
    field_simp
    ring
  rw [e]
  have : 0 < (a - b) ^ 2 := sq_pos_of_ne_zero (sub_ne_zero.2 hab)
  have : 0 < L * T * ((a - b) ^ 2 / (6 * (a * b))) := by positivity
  linarith

example : (1 : ℚ) * 1 < (tzMatrix 1 (1 / 1) (1 / 2) *ᵥ ![1, 0, 0, 2, 0, 0]) 0
    + (tzMatrix 1 (1 / 1) (1 / 2) *ᵥ ![1, 0, 0, 2, 0, 0]) (3 : Fin 6) :=
  C74_violated_sliding 1 1 1 2 (by norm_num) (by norm_num) (by norm_num) (by norm_num) (by norm_num) _ rfl rfl

end OpenPile.Props.Ultimate
