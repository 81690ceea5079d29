/-
Property C60: within the first branch of the springs the analysis is the linear one; without active springs it is
the analysis without soil.
-/
import Verif.Props.SoilStiffness

namespace OpenPile.Props.LinearRange
open OpenPile.Kernel OpenPile.Winkler OpenPile.Spring OpenPile.Spec.Kernel OpenPile.Props.SoilStiffness
open OpenPile.Props.Winkler OpenPile.Props.Solve OpenPile.Props.Spring Matrix

variable {K : Type} [Field K] [LinearOrder K] [IsStrictOrderedRing K]

section abstract
variable {ι : Type} [Fintype ι] [DecidableEq ι]

omit [IsStrictOrderedRing K] in
/-- One pass of the loop reads the stiffness law at the new displacements only. -/
theorem loop_congr (b b' : Kind → (ι → K) → Option (Matrix ι ι K)) (F U0 : ι → K) (sup : ι → Bool) (fuel it : ℕ)
    (d : ι → K) (A : Matrix ι ι K) (U Rg Q : ι → K) (t r : K)
    (h : ∀ u Q', solveEquations A Rg U sup = some (u, Q') →
      b .secant (fun i => d i + u i) = b' .secant (fun i => d i + u i) ∧
      b .tangent (fun i => d i + u i) = b' .tangent (fun i => d i + u i) ∧
      ∀ Ks Kt, b' .secant (fun i => d i + u i) = some Ks → b' .tangent (fun i => d i + u i) = some Kt →
        ¬ (normSqFree sup (fun i => F i - Q' i - (Ks *ᵥ fun i => d i + u i) i)
            < (1 / 10000) ^ 2 * normSq (fun i => F i - Q' i) ∧ 1 < it + 1) →
        loop b F U0 sup fuel (it + 1) (fun i => d i + u i) Kt 0
            (fun i => F i - Q' i - (Ks *ᵥ fun i => d i + u i) i) Q' ((1 / 10000) ^ 2 * normSq (fun i => F i - Q' i))
            (normSqFree sup (fun i => F i - Q' i - (Ks *ᵥ fun i => d i + u i) i))
          = loop b' F U0 sup fuel (it + 1) (fun i => d i + u i) Kt 0
            (fun i => F i - Q' i - (Ks *ᵥ fun i => d i + u i) i) Q' ((1 / 10000) ^ 2 * normSq (fun i => F i - Q' i))
            (normSqFree sup (fun i => F i - Q' i - (Ks *ᵥ fun i => d i + u i) i))) :
    loop b F U0 sup (fuel + 1) it d A U Rg Q t r = loop b' F U0 sup (fuel + 1) it d A U Rg Q t r := by
  rw [loop, loop]
  rcases hs : solveEquations A Rg U sup with _ | ⟨u, Q'⟩
  · rfl
  · obtain ⟨h1, h2, h3⟩ := h u Q' hs
    simp only [h1, h2]
    rcases hb : b' .secant (fun i => d i + u i) with _ | Ks
    · rfl
    · simp only
      by_cases hc : normSqFree sup (fun i => F i - Q' i - (Ks *ᵥ fun i => d i + u i) i)
            < (1 / 10000) ^ 2 * normSq (fun i => F i - Q' i) ∧ 1 < it + 1
      · rw [if_pos hc, if_pos hc]
      · rw [if_neg hc, if_neg hc]
        by_cases h100 : it + 1 = 100
        · rw [if_pos h100, if_pos h100]
        · rw [if_neg h100, if_neg h100]
          rcases ht : b' .tangent (fun i => d i + u i) with _ | Kt
          · rfl
          · exact h3 Ks Kt hb ht hc

omit [IsStrictOrderedRing K] in
theorem loop_nan_ge (build : Kind → (ι → K) → Option (Matrix ι ι K)) (F U0 : ι → K) (sup : ι → Bool) (fuel : ℕ) :
    ∀ (it : ℕ) (d : ι → K) (A : Matrix ι ι K) (U Rg Q : ι → K) (t r : K) (k : ℕ),
      loop build F U0 sup fuel it d A U Rg Q t r = .nan k → it ≤ k := by
  induction fuel with
  | zero => intro it d A U Rg Q t r k h; simp [loop] at h
  | succ fuel ih =>
    intro it d A U Rg Q t r k h
    rw [loop] at h
    rcases hs : solveEquations A Rg U sup with _ | ⟨u, Q'⟩
    · simp only [hs, Outcome.nan.injEq] at h
      omega
    · simp only [hs] at h
      rcases hb : build .secant (fun i => d i + u i) with _ | Ks
      · simp [hb] at h
      · simp only [hb] at h
        by_cases hc : normSqFree sup (fun i => F i - Q' i - (Ks *ᵥ fun i => d i + u i) i)
            < (1 / 10000) ^ 2 * normSq (fun i => F i - Q' i) ∧ 1 < it + 1
        · rw [if_pos hc] at h
          rcases hf : solveEquations Ks F U0 sup with _ | ⟨a, b⟩ <;> simp [hf] at h
        · rw [if_neg hc] at h
          by_cases h100 : it + 1 = 100
          · rw [if_pos h100] at h
            simp only [Outcome.nan.injEq] at h
            omega
          · rw [if_neg h100] at h
            rcases ht : build .tangent (fun i => d i + u i) with _ | Kt
            · simp [ht] at h
            · simp only [ht] at h
              have := ih _ _ _ _ _ _ _ _ _ h
              omega

/-- If the stiffness at the linear solution is the initial one, the analysis returns the linear solution. -/
theorem linear_range (build : Kind → (ι → K) → Option (Matrix ι ι K)) (A : Matrix ι ι K) (F U0 : ι → K)
    (fix : ι → Bool) (u Q : ι → K)
    (h : solveEquations A F U0 (fun i => fix i || decide (U0 i ≠ 0)) = some (u, Q))
    (hi : build .initial 0 = some A) (hsec : build .secant u = some A) (htan : build .tangent u = some A)
    (hpos : 0 < ∑ i, (F i - 2 * Q i) ^ 2) (maxIter : ℕ) (hm : 1 ≤ maxIter) :
    winkler build F U0 fix maxIter = .converged u Q 2 ((1 / 10000) ^ 2 * ∑ i, (F i - 2 * Q i) ^ 2) 0 := by
  rw [← C27_linear A F U0 fix u Q h hpos maxIter hm]
  obtain ⟨m, rfl⟩ : ∃ m, maxIter = m + 1 := ⟨maxIter - 1, by omega⟩
  unfold winkler
  rw [hi]
  simp only
  set sup : ι → Bool := fun i => fix i || decide (U0 i ≠ 0) with hsup
  obtain ⟨g1, g2, g3, g4⟩ := C15_solution A F U0 sup u Q h
  apply loop_congr
  intro u1 Q1 h1
  rw [h] at h1
  simp only [Option.some.injEq, Prod.mk.injEq] at h1
  obtain ⟨rfl, rfl⟩ := h1
  have hd0 : (fun i => (0 : ι → K) i + u i) = u := by funext i; simp
  rw [hd0]
  refine ⟨hsec, htan, ?_⟩
  rintro _ _ ⟨⟩ ⟨⟩ -
  have hRg : (fun i => F i - Q i - (A *ᵥ u) i) = fun i => -2 * Q i := by
    funext i
    rw [← g3 i]
    ring
  rw [hRg]
  apply loop_congr
  intro u2 Q2 h2
  have hn : solveEquations A (fun i => -2 * Q i) 0 sup ≠ none := by
    rw [h2]; simp
  have hz := solve_eq_some A (fun i => -2 * Q i) 0 sup hn 0 (by
    intro i hi
    rw [mulVec_zero, Pi.zero_apply, (g1 i hi).2, mul_zero]) (fun i _ => rfl)
  rw [h2] at hz
  simp only [Option.some.injEq, Prod.mk.injEq] at hz
  obtain ⟨rfl, rfl⟩ := hz
  have hud : (fun i => u i + (0 : ι → K) i) = u := by funext i; simp
  rw [hud]
  refine ⟨hsec, htan, ?_⟩
  rintro _ _ ⟨⟩ ⟨⟩ hc
  exfalso
  apply hc
  refine ⟨?_, by omega⟩
  have e1 : (fun i => F i - ((A *ᵥ (0 : ι → K)) i - -2 * Q i)) = fun i => F i - 2 * Q i := by
    funext i
    rw [mulVec_zero, Pi.zero_apply]
    ring
  have hres : normSqFree sup (fun i => F i - ((A *ᵥ (0 : ι → K)) i - -2 * Q i) - (A *ᵥ u) i) = 0 := by
    unfold normSqFree
    apply Finset.sum_eq_zero
    intro i _
    cases hi : sup i
    · have hq := (g1 i hi).2
      simp only [Bool.false_eq_true, if_false, mulVec_zero, Pi.zero_apply, ← g3 i, hq]
      ring
    · rfl
  rw [hres, e1]
  unfold normSq
  positivity

end abstract

/-! ### springs in their first branch -/

/-- A lateral table starting at the origin, with the displacement `y` not beyond its second point; or a table the
code treats as absent. -/
def FirstBranch (tab : List (K × K)) (y : K) : Prop :=
  ∃ x1 p1 rest, tab = (0, 0) :: (x1, p1) :: rest ∧ Asc tab ∧ |y| ≤ x1

/-- Resistance inside the first branch. -/
theorem resistance_first (x1 p1 : K) (rest : List (K × K)) (hs : Asc ((0, 0) :: (x1, p1) :: rest)) (d : K)
    (h0 : 0 ≤ d) (h1 : d ≤ x1) :
    resistance ((0, 0) :: (x1, p1) :: rest) d = some (p1 / x1 * d) := by
  rw [resistance_eq _ hs (by simp), ← List.nil_append ((0, 0) :: (x1, p1) :: rest),
    interp_seg d [] rest 0 0 x1 p1 hs h0 h1]
  simp

/-- In the first branch all three stiffnesses are its slope. -/
theorem curve_first (tab : List (K × K)) (y : K) (h : FirstBranch tab y) (kind : Kind) :
    curveStiffness tab kind y = curveStiffness tab .initial 0 := by
  obtain ⟨x1, p1, rest, rfl, hs, hy⟩ := h
  have hx : 0 < x1 := (List.pairwise_cons.1 hs).1 (x1, p1) (by simp)
  have hI : curveStiffness ((0, 0) :: (x1, p1) :: rest) .initial 0 = some (|p1 / x1|) := by
    simp [curveStiffness, absQuot, hx.ne']
  rw [hI]
  by_cases h0 : |y| = 0
  · simp [curveStiffness, absQuot, hx.ne', h0]
  · have hyp : 0 < |y| := lt_of_le_of_ne (abs_nonneg y) (Ne.symm h0)
    cases kind with
    | initial => simp [curveStiffness, absQuot, hx.ne']
    | secant =>
      simp only [curveStiffness, reduceCtorEq, h0, or_self, if_false,
        resistance_first x1 p1 rest hs |y| hyp.le hy, Option.bind_eq_bind, Option.bind_some, sub_zero, absQuot]
      rw [mul_div_cancel_right₀ _ h0]
    | tangent =>
      have hmin : 0 < min (5 / 10000 : K) |y| := lt_min (by norm_num) hyp
      have hle : min (5 / 10000 : K) |y| ≤ |y| := min_le_right _ _
      simp only [curveStiffness, reduceCtorEq, h0, or_self, if_false,
        resistance_first x1 p1 rest hs |y| hyp.le hy,
        resistance_first x1 p1 rest hs (|y| - min (5 / 10000) |y|) (by linarith) (by linarith),
        Option.bind_eq_bind, Option.bind_some, absQuot, hmin.ne']
      congr 2
      field_simp
      ring

/-- The same for p-y and base springs; tables treated as absent have no stiffness at all. -/
theorem py_first (tab : List (K × K)) (y : K) (h : (tab.map (·.1)).sum = 0 ∨ FirstBranch tab y) (kind : Kind) :
    pyStiffness tab kind y = pyStiffness tab .initial 0 := by
  unfold pyStiffness
  split
  · rfl
  · next h0 => exact curve_first tab y (h.resolve_left h0) kind

theorem base_first (tab : List (K × K)) (y : K) (h : (tab.map (·.2)).sum = 0 ∨ FirstBranch tab y) (kind : Kind) :
    baseStiffness tab kind y = baseStiffness tab .initial 0 := by
  unfold baseStiffness
  split
  · rfl
  · next h0 => exact curve_first tab y (h.resolve_left h0) kind

/-- An axial table with the same slope on both sides of its zero point `(0, 0)`, with the displacement between the
two neighbours of that point. -/
def MiddleBranch (tab : List (K × K)) (y : K) : Prop :=
  ∃ up a f b g down, tab = up ++ (a, f) :: (0, 0) :: (-b, -g) :: down ∧ up.length = down.length ∧
    up.length % 2 = 0 ∧ tab.Pairwise (fun q r => r.1 < q.1) ∧ f * b = g * a ∧ -b ≤ y ∧ y ≤ a

theorem axial_middle (tab : List (K × K)) (y : K) (h : MiddleBranch tab y) (kind : Kind) :
    axialCurveStiffness tab kind y = axialCurveStiffness tab .initial 0 := by
  obtain ⟨up, a, f, b, g, down, rfl, hl, hev, hs, hfg, hyb, hya⟩ := h
  have hasc : Asc (down.reverse ++ (-b, -g) :: (0, 0) :: (a, f) :: up.reverse) := by
    have := List.pairwise_reverse.2 hs
    simpa [Asc] using this
  have hrev : (up ++ (a, f) :: (0, 0) :: (-b, -g) :: down).reverse
      = down.reverse ++ (-b, -g) :: (0, 0) :: (a, f) :: up.reverse := by simp
  have ht := (List.pairwise_append.1 hasc).2.1
  have hb : 0 < b := by
    have := (List.pairwise_cons.1 ht).1 (0, 0) (by simp)
    simpa using this
  have ha : 0 < a := by
    have := (List.pairwise_cons.1 (List.pairwise_cons.1 ht).2).1 (a, f) (by simp)
    simpa using this
  have hslope : f / a = g / b := by rw [div_eq_div_iff ha.ne' hb.ne', hfg]
  have hint : ∀ v, -b ≤ v → v ≤ a →
      interp v (down.reverse ++ (-b, -g) :: (0, 0) :: (a, f) :: up.reverse) = some (g / b * v) := by
    intro v h1 h2
    rcases le_total v 0 with h | h
    · rw [interp_seg v down.reverse ((a, f) :: up.reverse) (-b) (-g) 0 0 hasc h1 h]
      congr 1
      rw [zero_sub, neg_neg, zero_sub, neg_neg]
      field_simp
      ring
    · have : down.reverse ++ (-b, -g) :: (0, 0) :: (a, f) :: up.reverse
          = (down.reverse ++ [(-b, -g)]) ++ (0, 0) :: (a, f) :: up.reverse := by simp
      rw [this] at hasc ⊢
      rw [interp_seg v (down.reverse ++ [(-b, -g)]) up.reverse 0 0 a f hasc h h2, ← hslope]
      simp
  obtain ⟨z1, z2⟩ := zeroIndex_mid (up ++ [(a, f)]) ((-b, -g) :: down) ((0, 0) : K × K) (by simp [hl])
    (by simp; omega)
  have hcat : up ++ [(a, f)] ++ (0, 0) :: (-b, -g) :: down = up ++ (a, f) :: (0, 0) :: (-b, -g) :: down := by simp
  rw [hcat] at z1 z2
  have hI : ∀ k v, (k = Kind.initial ∨ v = 0) →
      axialCurveStiffness (up ++ (a, f) :: (0, 0) :: (-b, -g) :: down) k v = some (|g / b|) := by
    intro k v hk
    unfold axialCurveStiffness
    rw [z1, z2]
    simp only [List.head?_cons, Option.bind_eq_bind, Option.bind_some, if_pos hk]
    simp [absQuot, hb.ne', neg_div]
  rw [hI .initial 0 (.inl rfl)]
  by_cases h0 : y = 0
  · exact hI kind y (.inr h0)
  · cases kind with
    | initial => exact hI _ _ (.inl rfl)
    | secant =>
      unfold axialCurveStiffness
      rw [z1, z2]
      simp only [List.head?_cons, Option.bind_eq_bind, Option.bind_some, reduceCtorEq, h0, or_self, if_false, hrev,
        hint y hyb hya, sub_zero, absQuot]
      rw [mul_div_cancel_right₀ _ h0]
    | tangent =>
      have hyp : 0 < |y| := abs_pos.2 h0
      have hmin : 0 < min (5 / 10000 : K) |y| := lt_min (by norm_num) hyp
      have hle : min (5 / 10000 : K) |y| ≤ |y| := min_le_right _ _
      unfold axialCurveStiffness
      rw [z1, z2]
      simp only [List.head?_cons, Option.bind_eq_bind, Option.bind_some, reduceCtorEq, h0, or_self, if_false, hrev,
        hint y hyb hya]
      by_cases hp : y > 0
      · rw [abs_of_pos hp] at hle hmin ⊢
        rw [if_pos hp, hint _ (by linarith) (by linarith)]
        simp only [Option.bind_some, absQuot, hmin.ne', if_false]
        congr 2
        field_simp
        ring
      · have hp' : y < 0 := lt_of_le_of_ne (not_lt.1 hp) h0
        rw [abs_of_neg hp'] at hle hmin ⊢
        rw [if_neg hp, hint _ (by linarith) (by linarith)]
        simp only [Option.bind_some, absQuot, hmin.ne', if_false]
        rw [← abs_neg]
        congr 2
        field_simp
        ring

theorem tz_middle (tab : List (K × K)) (y : K) (h : (tab.map (fun q => |q.1|)).sum = 0 ∨ MiddleBranch tab y)
    (kind : Kind) : tzStiffness tab kind y = tzStiffness tab .initial 0 := by
  unfold tzStiffness
  split
  · rfl
  · next h0 => exact axial_middle tab y (h.resolve_left h0) kind

theorem qz_middle (tab : List (K × K)) (y : K) (h : (tab.map (fun q => |q.2|)).sum = 0 ∨ MiddleBranch tab y)
    (kind : Kind) : baseAxialStiffness tab kind y = baseAxialStiffness tab .initial 0 := by
  unfold baseAxialStiffness
  split
  · rfl
  · next h0 => exact axial_middle tab y (h.resolve_left h0) kind

/-- All springs stay in their first branch at the displacements `u`: lateral and base springs between their first
two points, axial springs between the neighbours of their zero point; rotational springs along the shaft are
switched off. -/
structure SmallDisplacements {n : ℕ} (sp : Springs K n) (u : Fin (3 * n + 3) → K) : Prop where
  lateral : sp.distributedLateral = true → ∀ e b, ((sp.py e b).map (·.1)).sum = 0 ∨
    FirstBranch (sp.py e b) (u (dof (seenNode e b) 1))
  axial : sp.distributedAxial = true → ∀ e b, ((sp.tz e b).map (fun q => |q.1|)).sum = 0 ∨
    MiddleBranch (sp.tz e b) (u (dof (seenNode e b) 0))
  moment : sp.distributedMoment = false
  baseShear : sp.baseShear = true → (sp.hb.map (·.2)).sum = 0 ∨ FirstBranch sp.hb (u (dof (Fin.last n) 1))
  baseMoment : sp.baseMoment = true → (sp.mb.map (·.2)).sum = 0 ∨ FirstBranch sp.mb (u (dof (Fin.last n) 2))
  baseAxial : sp.baseAxial = true → (sp.qz.map (fun q => |q.2|)).sum = 0 ∨
    MiddleBranch sp.qz (u (dof (Fin.last n) 0))

/-- At such displacements the stiffness is the initial one. -/
theorem build_first (ty : ElementType) {n : ℕ} (el : Fin n → Elem K) (sp : Springs K n) (u : Fin (3 * n + 3) → K)
    (h : SmallDisplacements sp u) (kind : Kind) :
    buildStiffness ty el sp kind u = buildStiffness ty el sp .initial 0 := by
  have h1 : ∀ e b, pyAt sp kind u e b = pyAt sp .initial 0 e b := by
    intro e b
    unfold pyAt
    simp only [springDisp_seen, Option.bind_eq_bind, Option.bind_some, Pi.zero_apply]
    split
    · next hl => exact py_first _ _ (h.lateral hl e b) kind
    · rfl
  have h2 : ∀ e b, tzAt sp kind u e b = tzAt sp .initial 0 e b := by
    intro e b
    unfold tzAt
    simp only [springDisp_seen, Option.bind_eq_bind, Option.bind_some, Pi.zero_apply]
    split
    · next hl => exact tz_middle _ _ (h.axial hl e b) kind
    · rfl
  have h3 : ∀ e b, mtAt sp kind u e b = mtAt sp .initial 0 e b := by
    intro e b
    unfold mtAt
    rw [h.moment]
    rfl
  have h4 : soilAt sp kind u = soilAt sp .initial 0 := by
    funext e
    unfold soilAt
    simp only [h1, h2, h3]
  have h5 : sp.baseShear = true → baseStiffness sp.hb kind (u ⟨3 * n + 1, by omega⟩) = baseStiffness sp.hb .initial 0 :=
    fun hl => base_first _ _ (h.baseShear hl) kind
  have h6 : sp.baseMoment = true → baseStiffness sp.mb kind (u ⟨3 * n + 2, by omega⟩) = baseStiffness sp.mb .initial 0 :=
    fun hl => base_first _ _ (h.baseMoment hl) kind
  have h7 : sp.baseAxial = true → baseAxialStiffness sp.qz kind (u ⟨3 * n, by omega⟩)
      = baseAxialStiffness sp.qz .initial 0 :=
    fun hl => qz_middle _ _ (h.baseAxial hl) kind
  unfold buildStiffness
  rw [h4]
  cases g1 : sp.baseShear <;> cases g2 : sp.baseMoment <;> cases g3 : sp.baseAxial <;>
    simp only [g1, g2, g3, true_implies] at h5 h6 h7 <;> simp [h5, h6, h7]

/-- **C60, small loads.** If the displacements of the pile on its initial spring stiffnesses keep every spring in
its first branch, the analysis returns exactly these displacements and their reactions, after two solves.
Missing: rotational springs along the shaft. -/
theorem C60_linear_partial (ty : ElementType) {n : ℕ} (el : Fin n → Elem K) (sp : Springs K n)
    (F U : Fin (3 * n + 3) → K) (fix : Fin (3 * n + 3) → Bool) (A : Matrix (Fin (3 * n + 3)) (Fin (3 * n + 3)) K)
    (u Q : Fin (3 * n + 3) → K) (hA : buildStiffness ty el sp .initial 0 = some A)
    (hs : solveEquations A F U (fun i => fix i || decide (U i ≠ 0)) = some (u, Q)) (h : SmallDisplacements sp u)
    (hpos : ∃ i, F i ≠ 2 * Q i) (maxIter : ℕ) (hm : 1 ≤ maxIter) :
    ∃ t, winkler (buildStiffness ty el sp) F U fix maxIter = .converged u Q 2 t 0 := by
  refine ⟨_, linear_range _ A F U fix u Q hs hA ?_ ?_ ?_ maxIter hm⟩
  · rw [build_first ty el sp u h, hA]
  · rw [build_first ty el sp u h, hA]
  · obtain ⟨i, hi⟩ := hpos
    exact Finset.sum_pos' (fun i _ => sq_nonneg _)
      ⟨i, Finset.mem_univ _, sq_pos_of_ne_zero (sub_ne_zero.2 hi)⟩

theorem FirstBranch.scale {tab : List (K × K)} {y c : K} (h : FirstBranch tab y) (h0 : 0 ≤ c) (h1 : c ≤ 1) :
    FirstBranch tab (c * y) := by
  obtain ⟨x1, p1, rest, e, hs, hy⟩ := h
  refine ⟨x1, p1, rest, e, hs, ?_⟩
  rw [abs_mul, abs_of_nonneg h0]
  exact (mul_le_of_le_one_left (abs_nonneg y) h1).trans hy

theorem MiddleBranch.scale {tab : List (K × K)} {y c : K} (h : MiddleBranch tab y) (h0 : 0 ≤ c) (h1 : c ≤ 1) :
    MiddleBranch tab (c * y) := by
  obtain ⟨up, a, f, b, g, down, e, hl, hev, hs, hfg, hyb, hya⟩ := h
  have hs' := hs
  rw [e] at hs'
  have ht := (List.pairwise_append.1 hs').2.1
  have ha : 0 < a := by
    have := (List.pairwise_cons.1 ht).1 (0, 0) (by simp)
    simpa using this
  have hb : 0 < b := by
    have := (List.pairwise_cons.1 (List.pairwise_cons.1 ht).2).1 (-b, -g) (by simp)
    simpa using this
  refine ⟨up, a, f, b, g, down, e, hl, hev, hs, hfg, ?_, ?_⟩
  · nlinarith
  · nlinarith

/-- **C60, proportionality.** Within the first branch of all springs, a fraction `c` of all loads and prescribed
displacements gives that fraction of displacements and reactions. -/
theorem C60_proportional_partial (ty : ElementType) {n : ℕ} (el : Fin n → Elem K) (sp : Springs K n)
    (F U : Fin (3 * n + 3) → K) (fix : Fin (3 * n + 3) → Bool) (A : Matrix (Fin (3 * n + 3)) (Fin (3 * n + 3)) K)
    (u Q : Fin (3 * n + 3) → K) (hA : buildStiffness ty el sp .initial 0 = some A)
    (hs : solveEquations A F U (fun i => fix i || decide (U i ≠ 0)) = some (u, Q)) (h : SmallDisplacements sp u)
    (hpos : ∃ i, F i ≠ 2 * Q i) (maxIter : ℕ) (hm : 1 ≤ maxIter) (c : K) (h0 : 0 < c) (h1 : c ≤ 1) :
    ∃ t, winkler (buildStiffness ty el sp) (c • F) (c • U) fix maxIter = .converged (c • u) (c • Q) 2 t 0 := by
  have hsup : (fun i => fix i || decide ((c • U) i ≠ 0)) = fun i => fix i || decide (U i ≠ 0) := by
    funext i
    simp [h0.ne']
  have hs' : solveEquations A (c • F) (c • U) (fun i => fix i || decide ((c • U) i ≠ 0)) = some (c • u, c • Q) := by
    rw [hsup]
    have := C23_superposition A F F U U _ u u Q Q c 0 hs hs
    simpa using this
  refine C60_linear_partial ty el sp (c • F) (c • U) fix A (c • u) (c • Q) hA hs' ?_ ?_ maxIter hm
  · exact ⟨fun hl e b => (h.lateral hl e b).imp_right (fun g => g.scale h0.le h1),
      fun hl e b => (h.axial hl e b).imp_right (fun g => g.scale h0.le h1), h.moment,
      fun hl => (h.baseShear hl).imp_right (fun g => g.scale h0.le h1),
      fun hl => (h.baseMoment hl).imp_right (fun g => g.scale h0.le h1),
      fun hl => (h.baseAxial hl).imp_right (fun g => g.scale h0.le h1)⟩
  · obtain ⟨i, hi⟩ := hpos
    refine ⟨i, fun e => hi ?_⟩
    simp only [Pi.smul_apply, smul_eq_mul] at e
    have : c * F i = c * (2 * Q i) := by rw [e]; ring
    exact mul_left_cancel₀ h0.ne' this

/-- Everything switched off. -/
def NoSprings {n : ℕ} (sp : Springs K n) : Prop :=
  sp.distributedLateral = false ∧ sp.distributedAxial = false ∧ sp.distributedMoment = false ∧
    sp.baseShear = false ∧ sp.baseMoment = false ∧ sp.baseAxial = false

omit [IsStrictOrderedRing K] in
theorem elem_noSoil (ty : ElementType) (e : Elem K) :
    elemMatrix ty e ⟨(0, 0), (0, 0), (0, 0)⟩ = mechMatrix ty e := by
  unfold elemMatrix
  have h1 : pyMatrix e.L (0 : K) 0 = 0 := by
    ext a b; fin_cases a <;> fin_cases b <;> simp [pyMatrix]
  have h2 : tzMatrix e.L (0 : K) 0 = 0 := by
    ext a b; fin_cases a <;> fin_cases b <;> simp [tzMatrix]
  have h3 : mtMatrix ty e 0 0 = 0 := by
    unfold mtMatrix; simp
  simp [h1, h2, h3]

theorem build_none (ty : ElementType) {n : ℕ} (el : Fin n → Elem K) (sp : Springs K n) (h : NoSprings sp)
    (kind : Kind) (u : Fin (3 * n + 3) → K) :
    buildStiffness ty el sp kind u = some (beamStiffness ty n el) := by
  obtain ⟨h1, h2, h3, h4, h5, h6⟩ := h
  have hs : allSome (soilAt sp kind u) = some (fun _ => ⟨(0, 0), (0, 0), (0, 0)⟩) := by
    rw [allSome_iff]
    intro e
    unfold soilAt pyAt tzAt mtAt
    rw [h1, h2, h3]
    rfl
  unfold buildStiffness
  rw [hs, h4, h5, h6]
  have hb : baseMatrix n (0 : K) 0 0 = 0 := by
    ext a b; simp [baseMatrix]
  simp [soilStiffness, elem_noSoil, hb, beamStiffness]

/-- The iteration with the stiffness of the beam alone. -/
theorem winkler_beam (ty : ElementType) {n : ℕ} (el : Fin n → Elem K)
    (build : Kind → (Fin (3 * n + 3) → K) → Option (Matrix (Fin (3 * n + 3)) (Fin (3 * n + 3)) K))
    (hb : build = fun _ _ => some (beamStiffness ty n el))
    (F U : Fin (3 * n + 3) → K) (fix : Fin (3 * n + 3) → Bool) (maxIter : ℕ) (hm : 1 ≤ maxIter) :
    (beam ty el F U fix = none ↔ winkler build F U fix maxIter = .nan 0) ∧
    ∀ u Q f, beam ty el F U fix = some (u, Q, f) → (∃ i, F i ≠ 2 * Q i) →
      ∃ t, winkler build F U fix maxIter = .converged u Q 2 t 0 := by
  rw [hb]
  constructor
  · unfold beam
    rw [Option.map_eq_none_iff]
    constructor
    · intro hn
      unfold winkler
      simp only
      rw [loop, hn]
    · intro hw
      rcases hs : solveEquations (beamStiffness ty n el) F U (fun r => fix r || decide (U r ≠ 0)) with _ | ⟨u, Q⟩
      · rfl
      · exfalso
        unfold winkler at hw
        simp only at hw
        rw [loop, hs] at hw
        simp only at hw
        rw [if_neg (by simp), if_neg (by norm_num)] at hw
        have := loop_nan_ge _ _ _ _ _ _ _ _ _ _ _ _ _ _ hw
        omega
  · intro u Q f hu hpos
    unfold beam at hu
    simp only [Option.map_eq_some_iff, Prod.mk.injEq] at hu
    obtain ⟨⟨u', Q'⟩, hs, rfl, rfl, -⟩ := hu
    obtain ⟨i, hi⟩ := hpos
    exact ⟨_, C27_linear _ F U fix u' Q' hs (Finset.sum_pos' (fun i _ => sq_nonneg _)
      ⟨i, Finset.mem_univ _, sq_pos_of_ne_zero (sub_ne_zero.2 hi)⟩) maxIter hm⟩

/-- **C60, no springs.** A model in soil whose springs are all switched off gives the displacements and
reactions of the model without soil (section forces are computed from the displacements by the same function), and
cannot be solved in the same cases. -/
theorem C60_no_springs (ty : ElementType) {n : ℕ} (el : Fin n → Elem K) (sp : Springs K n) (h : NoSprings sp)
    (F U : Fin (3 * n + 3) → K) (fix : Fin (3 * n + 3) → Bool) (maxIter : ℕ) (hm : 1 ≤ maxIter) :
    (beam ty el F U fix = none ↔
      winkler (buildStiffness ty el sp) F U fix maxIter = .nan 0) ∧
    ∀ u Q f, beam ty el F U fix = some (u, Q, f) → (∃ i, F i ≠ 2 * Q i) →
      ∃ t, winkler (buildStiffness ty el sp) F U fix maxIter = .converged u Q 2 t 0 := by
  exact winkler_beam ty el _ (by
    funext kind u
    exact build_none ty el sp h kind u) F U fix maxIter hm

/-! ### a pile that meets the hypotheses -/

/-- One element with lateral springs and a spring under the tip, without supports. -/
def elD : Fin 1 → Elem K := fun _ => ⟨1, 1, 1, 1, 1, 1 / 10, 0⟩

def spD : Springs K 1 := ⟨fun _ _ => [(0, 0), (1, 210)], fun _ _ => [], fun _ _ => [], 2, [], [],
  [(1, 10), (0, 0), (-1, -10)], true, false, false, false, false, true⟩

def matD : Matrix (Fin (3 * 1 + 3)) (Fin (3 * 1 + 3)) K :=
  soilStiffness .eulerBernoulli 1 elD (fun _ => ⟨(210, 210), (0, 0), (0, 0)⟩) 0 0 10

def fixD : Fin (3 * 1 + 3) → Bool := fun _ => false

/-- Translation by 0.1 m. -/
def uD : Fin (3 * 1 + 3) → K := fun r => if r.1 % 3 = 1 then 1 / 10 else 0

/-- The loads that cause it. -/
def loadD : Fin (3 * 1 + 3) → K := matD *ᵥ uD

theorem initD : buildStiffness .eulerBernoulli (elD (K := K)) spD .initial 0 = some matD := by
  have h1 : soilAt (spD (K := K)) .initial 0 = fun _ => some ⟨(210, 210), (0, 0), (0, 0)⟩ := by
    funext e
    have hp : ∀ b, pyAt (spD (K := K)) .initial 0 e b = some 210 := by
      intro b
      unfold pyAt
      rw [springDisp_seen]
      simp [spD, pyStiffness, curveStiffness, absQuot]
    unfold soilAt
    simp only [hp]
    simp [spD, tzAt, mtAt]
  have h2 : allSome (soilAt (spD (K := K)) .initial 0) = some (fun _ => ⟨(210, 210), (0, 0), (0, 0)⟩) := by
    rw [h1]
    simp [allSome]
  have h3 : zeroIndex 3 = 1 := by decide
  have h4 : baseAxialStiffness (K := K) [(1, 10), (0, 0), (-1, -10)] .initial 0 = some 10 := by
    simp [baseAxialStiffness, axialCurveStiffness, absQuot, h3]
  unfold buildStiffness
  rw [h2]
  simp [spD, matD, h4]

theorem smallD : SmallDisplacements (spD (K := K)) uD := by
  refine ⟨fun _ e b => .inr ⟨1, 210, [], rfl, ?_, ?_⟩, ?_, rfl, ?_, ?_, ?_⟩
  · simp [spD, Asc]
  · unfold uD
    split <;> norm_num
  · intro h; cases h
  · intro h; cases h
  · intro h; cases h
  · refine fun _ => .inr ⟨[], 1, 10, 1, 10, [], rfl, rfl, rfl, ?_, rfl, ?_, ?_⟩
    · simp [spD]
    · simp [uD, dof]
    · simp [uD, dof]

theorem loadD_pos : (loadD : Fin (3 * 1 + 3) → K) ⟨1, by norm_num⟩ = 21 / 2 := by
  unfold loadD
  simp [matD, soilStiffness, assemble, place, baseMatrix, mulVec, dotProduct, Fin.sum_univ_succ, uD, elemMatrix,
    mechMatrix, beamMatrix, pyMatrix, tzMatrix, mtMatrix, mtPattern, mtCoeffs, elD, phi, kappa]
  norm_num

theorem solveD : solveEquations (matD (K := K)) loadD 0 (fun i => fixD i || decide ((0 : Fin (3 * 1 + 3) → K) i ≠ 0))
    = some (uD, 0) := by
  have hsup : (fun i => fixD i || decide ((0 : Fin (3 * 1 + 3) → K) i ≠ 0)) = fixD := by
    funext i
    simp
  rw [hsup]
  have hn : solveEquations (matD (K := K)) loadD 0 fixD ≠ none := by
    obtain ⟨-, hu⟩ := OpenPile.Props.Beam.C20_unique_partial .eulerBernoulli (elD (K := K))
      (fun _ => ⟨(210, 210), (0, 0), (0, 0)⟩) 0 0 10
      (fun _ => ⟨⟨by norm_num [elD], by norm_num [elD], by norm_num [elD], by norm_num [elD], by norm_num [elD],
        by norm_num [elD], by norm_num [elD], by norm_num [elD], by norm_num [elD]⟩, fun h => by cases h⟩)
      ⟨fun _ => ⟨⟨by norm_num, by norm_num⟩, ⟨le_rfl, le_rfl⟩, ⟨le_rfl, le_rfl⟩, fun h => by cases h⟩,
        le_rfl, le_rfl, by norm_num⟩ fixD (by
      rintro u ⟨a, b, θ, hu⟩ h0 h1 - - - - h2
      obtain ⟨g1, g2, g3⟩ := h1 0 (.inl (by norm_num))
      obtain ⟨a0, a1, a2⟩ := hu 0
      obtain ⟨b0, b1, b2⟩ := hu 1
      have hb : u (dof (1 : Fin 2) 0) = 0 := h2 (by norm_num)
      funext i
      obtain ⟨j, c, rfl⟩ := dof_surjective i
      have hj : j = 0 ∨ j = 1 := by
        rcases j with ⟨j, hj⟩
        interval_cases j <;> simp
      have e1 : u (dof (0 : Fin 2) 1) = 0 := g1
      have e2 : u (dof (1 : Fin 2) 1) = 0 := g2
      have e3 : u (dof (0 : Fin 2) 2) = 0 := g3
      rcases hj with rfl | rfl <;> fin_cases c
      · show u (dof 0 0) = 0
        rw [a0, ← b0, hb]
      · exact e1
      · exact e3
      · exact hb
      · exact e2
      · show u (dof 1 2) = 0
        rw [b2, ← a2, e3])
    obtain ⟨v, Q, h, -⟩ := hu loadD 0
    unfold matD
    rw [h]
    simp
  rw [solve_eq_some matD loadD 0 fixD hn uD (fun i _ => rfl)]
  · congr 2
    funext i
    simp [loadD]
  · intro i hi
    cases hi

/-- The pile translates by 0.1 m under loads with a resultant of 21. -/
theorem convergedD (maxIter : ℕ) (hm : 1 ≤ maxIter) :
    ∃ t, winkler (buildStiffness .eulerBernoulli (elD (K := K)) spD) loadD 0 fixD maxIter = .converged uD 0 2 t 0 :=
  C60_linear_partial .eulerBernoulli elD spD loadD 0 fixD matD uD 0 initD solveD smallD
    ⟨⟨1, by norm_num⟩, by rw [loadD_pos]; norm_num⟩ maxIter hm

/-- A symmetric axial table of seven points in its middle branch. -/
example : MiddleBranch (K := ℚ) [(3, 9), (2, 8), (1, 5), (0, 0), (-1, -5), (-2, -7), (-3, -7)] (1 / 2) := by
  refine ⟨[(3, 9), (2, 8)], 1, 5, 1, 5, [(-2, -7), (-3, -7)], by norm_num, rfl, rfl, ?_, by norm_num, by norm_num,
    by norm_num⟩
  decide +kernel

/-- A model with all springs switched off. -/
example : NoSprings ({ (spD (K := ℚ)) with distributedLateral := false, baseAxial := false }) := ⟨rfl, rfl, rfl, rfl, rfl, rfl⟩

end OpenPile.Props.LinearRange
