/-
Properties C26, C27, C46 (dispatch), C52: the Winkler analysis.
-/
import Verif.Model.Winkler
import Verif.Props.Solve
import Verif.Props.Result

namespace OpenPile.Props.Winkler
open OpenPile.Winkler OpenPile.Kernel OpenPile.Spring OpenPile.Props.Solve Matrix

variable {K : Type} [Field K] [LinearOrder K] [IsStrictOrderedRing K]
variable {ι : Type} [Fintype ι] [DecidableEq ι]

/-! ## C26 -/

/-- What the convergence exit guarantees. -/
structure Conv (build : Kind → (ι → K) → Option (Matrix ι ι K)) (F U0 : ι → K) (supports : ι → Bool)
    (d Q : ι → K) (tolSq resSq : K) : Prop where
  /-- prescribed displacements are met -/
  prescribed : ∀ i, supports i = true → d i = U0 i
  /-- the residual is the out-of-balance force of the secant stiffness at the returned displacements
  and lies below the tolerance -/
  residual : ∃ Ks, build .secant d = some Ks ∧
    resSq = ∑ i, (if supports i then 0 else (F i - (Ks *ᵥ d) i) ^ 2) ∧ resSq < tolSq ∧
    ∃ u', solveEquations Ks F U0 supports = some (u', Q)

omit [IsStrictOrderedRing K] in
theorem free_residual (F Q : ι → K) (supports : ι → Bool) (v : ι → K)
    (hQ : ∀ i, supports i = false → Q i = 0) :
    normSqFree supports (fun i => F i - Q i - v i)
      = ∑ i, (if supports i then 0 else (F i - v i) ^ 2) := by
  unfold normSqFree
  refine Finset.sum_congr rfl (fun i _ => ?_)
  cases h : supports i
  · simp [hQ i h]
  · rfl

omit [IsStrictOrderedRing K] in
theorem loop_converged (build : Kind → (ι → K) → Option (Matrix ι ι K)) (F U0 : ι → K)
    (supports : ι → Bool) (fuel : ℕ) :
    ∀ (it : ℕ) (d : ι → K) (A : Matrix ι ι K) (U Rg Q0 : ι → K) (t0 r0 : K) (d' Q : ι → K) (it' : ℕ)
      (tolSq resSq : K),
      (∀ i, supports i = true → d i + U i = U0 i) → it < 100 →
      loop build F U0 supports fuel it d A U Rg Q0 t0 r0 = .converged d' Q it' tolSq resSq →
      2 ≤ it' ∧ it' ≤ it + fuel ∧ it' ≤ 100 ∧ Conv build F U0 supports d' Q tolSq resSq := by
  induction fuel with
  | zero =>
    intro it d A U Rg Q0 t0 r0 d' Q it' tolSq resSq _ _ h
    simp [loop] at h
  | succ fuel ih =>
    intro it d A U Rg Q0 t0 r0 d' Q it' tolSq resSq hU hit h
    rcases hs : solveEquations A Rg U supports with _ | ⟨uInc, Q1⟩
    · simp [loop, hs] at h
    · obtain ⟨g1, g2, g3, -⟩ := C15_solution A Rg U supports uInc Q1 hs
      have hd : ∀ i, supports i = true → d i + uInc i = U0 i := by
        intro i hi
        rw [g2 i hi, hU i hi]
      rcases hb : build .secant (fun i => d i + uInc i) with _ | Ks
      · simp [loop, hs, hb] at h
      · by_cases hc : normSqFree supports (fun i => F i - Q1 i - (Ks *ᵥ (fun i => d i + uInc i)) i)
            < (1 / 10000) ^ 2 * normSq (fun i => F i - Q1 i) ∧ 1 < it + 1
        · rcases hf : solveEquations Ks F U0 supports with _ | ⟨u', Qf⟩
          · simp only [loop, hs, hb, hc, hf] at h
            simp at h
          · simp only [loop, hs, hb, hc, hf] at h
            simp only [and_self, if_true, Outcome.converged.injEq] at h
            obtain ⟨rfl, rfl, rfl, rfl, rfl⟩ := h
            refine ⟨by omega, by omega, by omega, hd, Ks, hb, ?_, hc.1, u', hf⟩
            exact free_residual F Q1 supports _ (fun i hi => (g1 i hi).2)
        · simp only [loop, hs, hb, if_neg hc] at h
          by_cases h100 : it + 1 = 100
          · simp [h100] at h
          · rw [if_neg h100] at h
            rcases ht : build .tangent (fun i => d i + uInc i) with _ | Kt
            · simp [ht] at h
            · simp only [ht] at h
              obtain ⟨a, b, c, e⟩ := ih (it + 1) _ Kt 0 _ Q1 _ _ d' Q it' tolSq resSq
                (fun i hi => by simpa using hd i hi) (by omega) h
              exact ⟨a, by omega, c, e⟩

omit [IsStrictOrderedRing K] in
/-- **C26, converged results.** Whatever the stiffness law, if `winkler` leaves through its convergence
test, it made at least two and at most `max_iter + 1` (and at most 100) solves; every restrained or
prescribed degree of freedom has exactly its prescribed displacement; and the out-of-balance force at
the other degrees of freedom, evaluated with the secant stiffness of the returned displacements, is
below the tolerance. -/
theorem C26_converged (build : Kind → (ι → K) → Option (Matrix ι ι K)) (F U0 : ι → K)
    (fix : ι → Bool) (maxIter : ℕ) (d Q : ι → K) (it : ℕ) (tolSq resSq : K)
    (h : winkler build F U0 fix maxIter = .converged d Q it tolSq resSq) :
    2 ≤ it ∧ it ≤ maxIter + 1 ∧ it ≤ 100 ∧
    (∀ i, fix i = true ∨ U0 i ≠ 0 → d i = U0 i) ∧
    ∃ Ks, build .secant d = some Ks ∧
      (∑ i, if fix i = true ∨ U0 i ≠ 0 then 0 else (F i - (Ks *ᵥ d) i) ^ 2) = resSq ∧
      resSq < tolSq := by
  unfold winkler at h
  rcases hb : build .initial 0 with _ | A
  · simp [hb] at h
  · simp only [hb] at h
    obtain ⟨a, b, c, e⟩ := loop_converged build F U0 _ (maxIter + 1) 0 0 A U0 F 0 0 0 d Q it tolSq
      resSq (fun i _ => by simp) (by omega) h
    refine ⟨a, by omega, c, ?_, ?_⟩
    · intro i hi
      exact e.prescribed i (by simpa using hi)
    · obtain ⟨Ks, k1, k2, k3, -⟩ := e.residual
      refine ⟨Ks, k1, ?_, k3⟩
      rw [k2]
      refine Finset.sum_congr rfl (fun i _ => ?_)
      simp

omit [IsStrictOrderedRing K] in
theorem loop_exhausted (build : Kind → (ι → K) → Option (Matrix ι ι K)) (F U0 : ι → K)
    (supports : ι → Bool) (fuel : ℕ) :
    ∀ (it : ℕ) (d : ι → K) (A : Matrix ι ι K) (U Rg Q0 : ι → K) (t0 r0 : K) (d' Q : ι → K) (it' : ℕ)
      (tolSq resSq : K), it < 100 →
      loop build F U0 supports fuel it d A U Rg Q0 t0 r0 = .exhausted d' Q it' tolSq resSq →
      it' = it + fuel ∧ it' < 100 := by
  induction fuel with
  | zero =>
    intro it d A U Rg Q0 t0 r0 d' Q it' tolSq resSq hit h
    simp only [loop, Outcome.exhausted.injEq] at h
    omega
  | succ fuel ih =>
    intro it d A U Rg Q0 t0 r0 d' Q it' tolSq resSq hit h
    rcases hs : solveEquations A Rg U supports with _ | ⟨uInc, Q1⟩
    · simp [loop, hs] at h
    · rcases hb : build .secant (fun i => d i + uInc i) with _ | Ks
      · simp [loop, hs, hb] at h
      · by_cases hc : normSqFree supports (fun i => F i - Q1 i - (Ks *ᵥ (fun i => d i + uInc i)) i)
            < (1 / 10000) ^ 2 * normSq (fun i => F i - Q1 i) ∧ 1 < it + 1
        · simp only [loop, hs, hb, if_pos hc] at h
          rcases hf : solveEquations Ks F U0 supports with _ | ⟨u', Qf⟩ <;> simp [hf] at h
        · simp only [loop, hs, hb, if_neg hc] at h
          by_cases h100 : it + 1 = 100
          · simp [h100] at h
          · rw [if_neg h100] at h
            rcases ht : build .tangent (fun i => d i + uInc i) with _ | Kt
            · simp [ht] at h
            · simp only [ht] at h
              have := ih (it + 1) _ Kt 0 _ Q1 _ _ d' Q it' tolSq resSq (by omega) h
              omega

omit [IsStrictOrderedRing K] in
/-- **C26, flagging (partial).** With `max_iter ≥ 99` (the default is 100) an analysis never returns
numbers without having passed the convergence test.
Missing: smaller `max_iter`, see `C26_violated`. -/
theorem C26_flagged_partial (build : Kind → (ι → K) → Option (Matrix ι ι K)) (F U0 : ι → K)
    (fix : ι → Bool) (maxIter : ℕ) (hm : 99 ≤ maxIter) (d Q : ι → K) (it : ℕ) (tolSq resSq : K) :
    winkler build F U0 fix maxIter ≠ .exhausted d Q it tolSq resSq := by
  intro h
  unfold winkler at h
  rcases hb : build .initial 0 with _ | A
  · simp [hb] at h
  · simp only [hb] at h
    have := loop_exhausted build F U0 _ (maxIter + 1) 0 0 A U0 F 0 0 0 d Q it tolSq resSq
      (by omega) h
    omega

omit [IsStrictOrderedRing K] in
theorem loop_fuel (build : Kind → (ι → K) → Option (Matrix ι ι K)) (F U0 : ι → K)
    (supports : ι → Bool) (fuel extra : ℕ) :
    ∀ (it : ℕ) (d : ι → K) (A : Matrix ι ι K) (U Rg Q0 : ι → K) (t0 r0 : K), it < 100 →
      100 ≤ it + fuel →
      loop build F U0 supports (fuel + extra) it d A U Rg Q0 t0 r0
        = loop build F U0 supports fuel it d A U Rg Q0 t0 r0 := by
  induction fuel with
  | zero =>
    intro it d A U Rg Q0 t0 r0 hit hf
    omega
  | succ fuel ih =>
    intro it d A U Rg Q0 t0 r0 hit hf
    have e : fuel + 1 + extra = (fuel + extra) + 1 := by omega
    rw [e]
    rcases hs : solveEquations A Rg U supports with _ | ⟨uInc, Q1⟩
    · simp [loop, hs]
    · rcases hb : build .secant (fun i => d i + uInc i) with _ | Ks
      · simp [loop, hs, hb]
      · by_cases hc : normSqFree supports (fun i => F i - Q1 i - (Ks *ᵥ (fun i => d i + uInc i)) i)
            < (1 / 10000) ^ 2 * normSq (fun i => F i - Q1 i) ∧ 1 < it + 1
        · simp only [loop, hs, hb, if_pos hc]
        · simp only [loop, hs, hb, if_neg hc]
          by_cases h100 : it + 1 = 100
          · simp [h100]
          · rw [if_neg h100, if_neg h100]
            rcases ht : build .tangent (fun i => d i + uInc i) with _ | Kt
            · rfl
            · exact ih (it + 1) _ Kt 0 _ Q1 _ _ (by omega) (by omega)

omit [IsStrictOrderedRing K] in
/-- **C26, effect of `max_iter`.** Values above 99 make no difference: the number of iterations is
limited by the constant 100 in the loop. -/
theorem C26_capped (build : Kind → (ι → K) → Option (Matrix ι ι K)) (F U0 : ι → K)
    (fix : ι → Bool) (maxIter : ℕ) (hm : 99 ≤ maxIter) :
    winkler build F U0 fix maxIter = winkler build F U0 fix 99 := by
  unfold winkler
  rcases hb : build .initial 0 with _ | A
  · rfl
  · have e : maxIter + 1 = 99 + 1 + (maxIter - 99) := by omega
    simp only
    rw [e]
    exact loop_fuel build F U0 _ (99 + 1) (maxIter - 99) 0 0 A U0 F 0 0 0 (by omega) (by omega)

/-! ### a stiffness law that never converges -/

/-- One degree of freedom: unit initial and tangent stiffness, but a support that yields (no secant
stiffness). -/
def yielding : Kind → (Unit → ℚ) → Option (Matrix Unit Unit ℚ)
  | .secant, _ => some 0
  | _, _ => some 1

theorem yielding_solve (f : ℚ) (U : Unit → ℚ) :
    solveEquations (1 : Matrix Unit Unit ℚ) (fun _ => f) U (fun _ => false)
      = some (fun _ => f, fun _ => 0) := by
  have hn : solveEquations (1 : Matrix Unit Unit ℚ) (fun _ => f) U (fun _ => false) ≠ none := by
    rw [Ne, C15_fails_iff]
    rintro ⟨w, hw, -, h⟩
    apply hw
    funext i
    have := h i rfl
    rwa [one_mulVec] at this
  have := solve_eq_some (1 : Matrix Unit Unit ℚ) (fun _ => f) U (fun _ => false) hn (fun _ => f)
    (fun i _ => by rw [one_mulVec]) (fun i hi => by cases hi)
  rw [this]
  congr 2
  funext i
  rw [one_mulVec, sub_self]

theorem yielding_loop (fuel : ℕ) : ∀ (it : ℕ) (d U Q0 : Unit → ℚ) (t0 r0 : ℚ), it + fuel < 100 →
    1 ≤ fuel → ∃ Q t r, loop yielding (fun _ => 1) 0 (fun _ => false) fuel it d 1 U (fun _ => 1) Q0 t0 r0
      = .exhausted (fun i => d i + fuel) Q (it + fuel) t r ∧ r = 1 := by
  induction fuel with
  | zero => intro it d U Q0 t0 r0 _ h; omega
  | succ fuel ih =>
    intro it d U Q0 t0 r0 hlt _
    have hres : (fun i : Unit => (1 : ℚ) - 0 - ((0 : Matrix Unit Unit ℚ) *ᵥ fun i => d i + 1) i)
        = fun _ => 1 := by
      funext i
      simp
    have hsq : normSqFree (fun _ : Unit => false) (fun _ => (1 : ℚ)) = 1 := by
      simp [normSqFree]
    have hc : ¬ (normSqFree (fun _ : Unit => false) (fun _ => (1 : ℚ))
        < (1 / 10000) ^ 2 * normSq (fun _ : Unit => (1 : ℚ) - 0) ∧ 1 < it + 1) := by
      rw [hsq]
      simp [normSq]
      intro h
      norm_num at h
    have key : loop yielding (fun _ => 1) 0 (fun _ => false) (fuel + 1) it d 1 U (fun _ => 1) Q0 t0 r0
        = loop yielding (fun _ => 1) 0 (fun _ => false) fuel (it + 1) (fun i => d i + 1) 1 0
          (fun _ => 1) (fun _ => 0) ((1 / 10000) ^ 2 * normSq (fun _ : Unit => (1 : ℚ) - 0)) 1 := by
      rw [loop, yielding_solve]
      simp only [yielding]
      rw [hres, if_neg hc, if_neg (by omega), hsq]
    rw [key]
    rcases fuel with _ | fuel
    · refine ⟨fun _ => 0, (1 / 10000) ^ 2 * normSq (fun _ : Unit => (1 : ℚ) - 0), 1, ?_, rfl⟩
      rw [loop]
      simp only [Nat.cast_one, zero_add]
    · obtain ⟨Q, t, r, h1, h2⟩ := ih (it + 1) (fun i => d i + 1) 0 (fun _ => 0)
        ((1 / 10000) ^ 2 * normSq (fun _ : Unit => (1 : ℚ) - 0)) 1 (by omega) (by omega)
      refine ⟨Q, t, r, ?_, h2⟩
      rw [h1]
      congr 1
      · funext i
        push_cast
        ring
      · omega

/-- **C26 is violated for every `max_iter ≤ 98`.** The analysis of a yielding support under load 1
returns numbers although the out-of-balance force is the complete load; nothing marks the result as not
converged. -/
theorem C26_violated (maxIter : ℕ) (h : maxIter ≤ 98) :
    ∃ d Q it t r, winkler yielding (fun _ => 1) 0 (fun _ => false) maxIter = .exhausted d Q it t r ∧
      d = (fun _ => (maxIter : ℚ) + 1) ∧ r = 1 := by
  obtain ⟨Q, t, r, h1, h2⟩ := yielding_loop (maxIter + 1) 0 0 0 0 0 0 (by omega) (by omega)
  refine ⟨fun _ => (maxIter : ℚ) + 1, Q, 0 + (maxIter + 1), t, r, ?_, rfl, h2⟩
  unfold winkler
  simp only [yielding]
  have hsup : (fun i : Unit => (false || decide ((0 : Unit → ℚ) i ≠ 0))) = fun _ => false := by
    funext i
    simp
  have hd : (fun i : Unit => (0 : Unit → ℚ) i + ((maxIter + 1 : ℕ) : ℚ)) = fun _ => (maxIter : ℚ) + 1 := by
    funext i
    push_cast
    simp
  rw [hsup]
  rw [hd] at h1
  exact h1

/-! ### a single base spring -/

/-- A one by one matrix. -/
def sc (k : ℚ) : Matrix Unit Unit ℚ := Matrix.of (fun _ _ => k)

/-- One degree of freedom on a base spring, with the stiffness routine of the code. -/
def springLaw (tab : List (ℚ × ℚ)) (kind : Kind) (u : Unit → ℚ) : Option (Matrix Unit Unit ℚ) :=
  (baseStiffness tab kind (u ())).map sc

theorem scalar_mulVec (k : ℚ) (u : Unit → ℚ) (i : Unit) :
    ((sc k) *ᵥ u) i = k * u () := by
  simp [mulVec, dotProduct, sc]

theorem scalar_solve (k f : ℚ) (hk : k ≠ 0) (F U : Unit → ℚ) (hF : F () = f) :
    solveEquations (sc k) F U (fun _ => false)
      = some (fun _ => f / k, fun _ => 0) := by
  have hn : solveEquations (sc k) F U (fun _ => false) ≠ none := by
    rw [Ne, C15_fails_iff]
    rintro ⟨w, hw, -, h⟩
    apply hw
    funext i
    have := h i rfl
    rw [scalar_mulVec] at this
    exact (mul_eq_zero.1 this).resolve_left hk
  have := solve_eq_some (sc k) F U (fun _ => false) hn (fun _ => f / k)
    (fun i _ => by rw [scalar_mulVec, mul_div_cancel₀ _ hk, ← hF]) (fun i hi => by cases hi)
  rw [this]
  congr 2
  funext i
  rw [scalar_mulVec, mul_div_cancel₀ _ hk, ← hF, sub_self]

/-- One pass of the loop on a base spring that does not converge. -/
theorem spring_pass (tab : List (ℚ × ℚ)) (fuel it : ℕ) (f d k ks kt rg : ℚ) (U Q0 : Unit → ℚ) (t0 r0 : ℚ)
    (hit : it + 1 ≠ 100) (hk : k ≠ 0) (hs : baseStiffness tab .secant (d + rg / k) = some ks)
    (ht : baseStiffness tab .tangent (d + rg / k) = some kt)
    (hc : ¬ ((f - ks * (d + rg / k)) ^ 2 < (1 / 10000) ^ 2 * f ^ 2 ∧ 1 < it + 1)) :
    loop (springLaw tab) (fun _ => f) 0 (fun _ => false) (fuel + 1) it (fun _ => d) (sc k) U
        (fun _ => rg) Q0 t0 r0
      = loop (springLaw tab) (fun _ => f) 0 (fun _ => false) fuel (it + 1) (fun _ => d + rg / k)
        (sc kt) 0 (fun _ => f - ks * (d + rg / k)) (fun _ => 0) ((1 / 10000) ^ 2 * f ^ 2)
        ((f - ks * (d + rg / k)) ^ 2) := by
  rw [loop, scalar_solve k rg hk _ U rfl]
  simp only [springLaw, hs, ht, Option.map_some, scalar_mulVec, sub_zero]
  have e1 : normSqFree (fun _ : Unit => false) (fun _ => f - ks * (d + rg / k))
      = (f - ks * (d + rg / k)) ^ 2 := by simp [normSqFree]
  have e2 : normSq (fun _ : Unit => f) = f ^ 2 := by simp [normSq]
  rw [e1, e2, if_neg hc, if_neg hit]

/-- A last pass that converges. -/
theorem spring_last (tab : List (ℚ × ℚ)) (fuel it : ℕ) (f d k ks rg : ℚ) (U Q0 : Unit → ℚ) (t0 r0 : ℚ)
    (hk : k ≠ 0) (hks : ks ≠ 0) (hs : baseStiffness tab .secant (d + rg / k) = some ks)
    (hc : (f - ks * (d + rg / k)) ^ 2 < (1 / 10000) ^ 2 * f ^ 2 ∧ 1 < it + 1) :
    loop (springLaw tab) (fun _ => f) 0 (fun _ => false) (fuel + 1) it (fun _ => d) (sc k) U
        (fun _ => rg) Q0 t0 r0
      = .converged (fun _ => d + rg / k) (fun _ => 0) (it + 1) ((1 / 10000) ^ 2 * f ^ 2)
        ((f - ks * (d + rg / k)) ^ 2) := by
  rw [loop, scalar_solve k rg hk _ U rfl]
  simp only [springLaw, hs, Option.map_some, scalar_mulVec, sub_zero]
  have e1 : normSqFree (fun _ : Unit => false) (fun _ => f - ks * (d + rg / k))
      = (f - ks * (d + rg / k)) ^ 2 := by simp [normSqFree]
  have e2 : normSq (fun _ : Unit => f) = f ^ 2 := by simp [normSq]
  rw [e1, e2, if_pos hc, scalar_solve ks f hks _ 0 rfl]

/-- A softening base spring. -/
def soft : List (ℚ × ℚ) := [(0, 0), (1, 100), (3, 120), (13, 130)]

theorem unit_sup : (fun i : Unit => (false || decide ((0 : Unit → ℚ) i ≠ 0))) = fun _ => false := by
  funext i
  simp

/-- The code's base spring under load 125 and `max_iter = 2`: converges at the third solve to the exact
answer 8. This also shows that the hypothesis of `C26_converged` is met. -/
theorem soft_converges :
    ∃ t, winkler (springLaw soft) (fun _ => 125) 0 (fun _ => false) 2
      = .converged (fun _ => 8) (fun _ => 0) 3 t 0 := by
  refine ⟨(1 / 10000) ^ 2 * 125 ^ 2, ?_⟩
  unfold winkler
  have h0 : springLaw soft .initial 0 = some (sc 100) := by
    unfold springLaw
    have : baseStiffness soft .initial ((0 : Unit → ℚ) ()) = some 100 := by decide +kernel
    rw [this]
    rfl
  simp only [h0]
  rw [unit_sup]
  have p1 := spring_pass soft 2 0 125 0 100 82 10 125 0 0 0 0 (by norm_num) (by norm_num)
    (by decide +kernel) (by decide +kernel) (by norm_num)
  have p2 := spring_pass soft 1 1 125 (5 / 4) 10 (241 / 7) 1 (45 / 2) 0 (fun _ => 0)
    ((1 / 10000) ^ 2 * 125 ^ 2) ((125 - 82 * (0 + 125 / 100)) ^ 2) (by norm_num) (by norm_num)
    (by decide +kernel) (by decide +kernel) (by norm_num)
  have p3 := spring_last soft 0 2 125 (7 / 2) 1 (125 / 8) (9 / 2) 0 (fun _ => 0)
    ((1 / 10000) ^ 2 * 125 ^ 2) ((125 - 241 / 7 * (5 / 4 + 45 / 2 / 10)) ^ 2) (by norm_num)
    (by norm_num) (by decide +kernel) (by norm_num)
  norm_num at p1 p2 p3 ⊢
  erw [p1, p2, p3]

/-- **C26 is violated for a real spring.** The same analysis with `max_iter = 1` returns displacement
3.5 instead of 8, without any sign that it has not converged. -/
theorem C26_violated_spring :
    ∃ t r, winkler (springLaw soft) (fun _ => 125) 0 (fun _ => false) 1
      = .exhausted (fun _ => 7 / 2) (fun _ => 0) 2 t r ∧ t < r := by
  refine ⟨(1 / 10000) ^ 2 * 125 ^ 2, (125 - 241 / 7 * (5 / 4 + 45 / 2 / 10)) ^ 2, ?_, by norm_num⟩
  unfold winkler
  have h0 : springLaw soft .initial 0 = some (sc 100) := by
    unfold springLaw
    have : baseStiffness soft .initial ((0 : Unit → ℚ) ()) = some 100 := by decide +kernel
    rw [this]
    rfl
  simp only [h0]
  rw [unit_sup]
  have p1 := spring_pass soft 1 0 125 0 100 82 10 125 0 0 0 0 (by norm_num) (by norm_num)
    (by decide +kernel) (by decide +kernel) (by norm_num)
  have p2 := spring_pass soft 0 1 125 (5 / 4) 10 (241 / 7) 1 (45 / 2) 0 (fun _ => 0)
    ((1 / 10000) ^ 2 * 125 ^ 2) ((125 - 82 * (0 + 125 / 100)) ^ 2) (by norm_num) (by norm_num)
    (by decide +kernel) (by decide +kernel) (by norm_num)
  norm_num at p1 p2 ⊢
  erw [p1, p2]
  rw [loop]

/-! ## C27 -/

omit [IsStrictOrderedRing K] in
theorem loop_tol (build : Kind → (ι → K) → Option (Matrix ι ι K)) (F U0 : ι → K) (fuel : ℕ) :
    ∀ (it : ℕ) (d : ι → K) (A : Matrix ι ι K) (U Rg Q0 : ι → K) (t0 r0 : K) (d' Q : ι → K) (it' : ℕ)
      (tolSq resSq : K),
      loop build F U0 (fun _ => false) fuel it d A U Rg Q0 t0 r0 = .converged d' Q it' tolSq resSq →
      tolSq = (1 / 10000) ^ 2 * ∑ i, F i ^ 2 := by
  induction fuel with
  | zero =>
    intro it d A U Rg Q0 t0 r0 d' Q it' tolSq resSq h
    simp [loop] at h
  | succ fuel ih =>
    intro it d A U Rg Q0 t0 r0 d' Q it' tolSq resSq h
    rcases hs : solveEquations A Rg U (fun _ => false) with _ | ⟨uInc, Q1⟩
    · simp [loop, hs] at h
    · obtain ⟨g1, -, -, -⟩ := C15_solution A Rg U (fun _ => false) uInc Q1 hs
      rcases hb : build .secant (fun i => d i + uInc i) with _ | Ks
      · simp [loop, hs, hb] at h
      · by_cases hc : normSqFree (fun _ => false)
            (fun i => F i - Q1 i - (Ks *ᵥ (fun i => d i + uInc i)) i)
            < (1 / 10000) ^ 2 * normSq (fun i => F i - Q1 i) ∧ 1 < it + 1
        · rcases hf : solveEquations Ks F U0 (fun _ => false) with _ | ⟨u', Qf⟩
          · simp only [loop, hs, hb, hc, hf] at h
            simp at h
          · simp only [loop, hs, hb, hc, hf] at h
            simp only [and_self, if_true, Outcome.converged.injEq] at h
            obtain ⟨-, -, -, h4, -⟩ := h
            rw [← h4]
            unfold normSq
            congr 1
            exact Finset.sum_congr rfl (fun i _ => by simp [(g1 i rfl).2])
        · simp only [loop, hs, hb, if_neg hc] at h
          by_cases h100 : it + 1 = 100
          · simp [h100] at h
          · rw [if_neg h100] at h
            rcases ht : build .tangent (fun i => d i + uInc i) with _ | Kt
            · simp [ht] at h
            · simp only [ht] at h
              exact ih (it + 1) _ Kt 0 _ Q1 _ _ d' Q it' tolSq resSq h

omit [IsStrictOrderedRing K] in
/-- **C27 (partial).** Without supports and prescribed displacements the tolerance of a converged
analysis is 1e-4 times the norm of the applied loads, whatever the stiffness law and the number of
iterations.
Missing: models with supports, see `C27_violated`. -/
theorem C27_no_support_partial (build : Kind → (ι → K) → Option (Matrix ι ι K)) (F : ι → K)
    (maxIter : ℕ) (d Q : ι → K) (it : ℕ) (tolSq resSq : K)
    (h : winkler build F 0 (fun _ => false) maxIter = .converged d Q it tolSq resSq) :
    tolSq = (1 / 10000) ^ 2 * ∑ i, F i ^ 2 := by
  unfold winkler at h
  rcases hb : build .initial 0 with _ | A
  · simp [hb] at h
  · have hsup : (fun i : ι => (false || decide ((0 : ι → K) i ≠ 0))) = fun _ => false := by
      funext i
      simp
    simp only [hb] at h
    rw [hsup] at h
    exact loop_tol build F 0 (maxIter + 1) 0 0 A 0 F 0 0 0 d Q it tolSq resSq h

/-- **C27, linear models.** For a constant stiffness matrix with solution `u` and reactions `Q` the
analysis converges at the second solve with the exact solution, but the tolerance it reports uses the
reactions counted twice: after the first solve `F_ext = F - Q`, after the second `F_ext = F - 2 Q`. -/
theorem C27_linear (A : Matrix ι ι K) (F U0 : ι → K) (fix : ι → Bool) (u Q : ι → K)
    (h : solveEquations A F U0 (fun i => fix i || decide (U0 i ≠ 0)) = some (u, Q))
    (hpos : 0 < ∑ i, (F i - 2 * Q i) ^ 2) (maxIter : ℕ) (hm : 1 ≤ maxIter) :
    winkler (fun _ _ => some A) F U0 fix maxIter
      = .converged u Q 2 ((1 / 10000) ^ 2 * ∑ i, (F i - 2 * Q i) ^ 2) 0 := by
  obtain ⟨m, rfl⟩ : ∃ m, maxIter = m + 1 := ⟨maxIter - 1, by omega⟩
  set sup : ι → Bool := fun i => fix i || decide (U0 i ≠ 0) with hsup
  obtain ⟨g1, g2, g3, g4⟩ := C15_solution A F U0 sup u Q h
  obtain ⟨-, -, e3⟩ := solve_some A F U0 sup u Q h
  have hd0 : (fun i => (0 : ι → K) i + u i) = u := by
    funext i
    simp
  have hRg : (fun i => F i - Q i - (A *ᵥ u) i) = fun i => -2 * Q i := by
    funext i
    rw [← g3 i]
    ring
  have hres0 : normSqFree sup (fun i => -2 * Q i) = 0 := by
    unfold normSqFree
    apply Finset.sum_eq_zero
    intro i _
    cases hi : sup i
    · simp [(g1 i hi).2]
    · rfl
  -- the second solve
  have h2 : solveEquations A (fun i => -2 * Q i) 0 sup = some (0, fun i => 2 * Q i) := by
    have hn : solveEquations A (fun i => -2 * Q i) 0 sup ≠ none := by
      rw [Ne, C15_fails_iff]
      intro hex
      have : solveEquations A F U0 sup = none := (C15_fails_iff A F U0 sup).2 hex
      rw [this] at h
      cases h
    have := solve_eq_some A (fun i => -2 * Q i) 0 sup hn 0 (by
      intro i hi
      rw [mulVec_zero, Pi.zero_apply, (g1 i hi).2, mul_zero]) (fun i _ => rfl)
    rw [this]
    congr 2
    funext i
    rw [mulVec_zero, Pi.zero_apply]
    ring
  have hFq : (fun i => F i - 2 * Q i - (A *ᵥ u) i) = fun i => -3 * Q i := by
    funext i
    rw [← g3 i]
    ring
  have hres1 : normSqFree sup (fun i => -3 * Q i) = 0 := by
    unfold normSqFree
    apply Finset.sum_eq_zero
    intro i _
    cases hi : sup i
    · simp [(g1 i hi).2]
    · rfl
  have hud : (fun i => u i + (0 : ι → K) i) = u := by
    funext i
    simp
  have hc : normSqFree sup (fun i => -3 * Q i)
      < (1 / 10000) ^ 2 * normSq (fun i => F i - 2 * Q i) ∧ 1 < 0 + 1 + 1 := by
    rw [hres1]
    refine ⟨?_, by omega⟩
    unfold normSq
    positivity
  unfold winkler
  simp only
  rw [← hsup, loop, h]
  simp only [hd0, hRg]
  rw [if_neg (by omega), if_neg (by omega), loop, h2]
  simp only [hud, hFq]
  rw [if_pos hc, h]
  simp only [hres1]
  rfl

/-- **C27 is violated by every model with a support reaction.** Two degrees of freedom joined by a unit
spring, one fixed, unit load on the other: the reaction is 1, so loads and reactions have squared norm
2, but the tolerance corresponds to squared norm 5. -/
theorem C27_violated (maxIter : ℕ) (hm : 1 ≤ maxIter) :
    winkler (fun _ _ => some (!![1, -1; -1, 1] : Matrix (Fin 2) (Fin 2) ℚ)) ![0, 1] 0 ![true, false]
      maxIter = .converged ![0, 1] ![-1, 0] 2 ((1 / 10000) ^ 2 * 5) 0 := by
  have hsup : (fun i : Fin 2 => ((![true, false] : Fin 2 → Bool) i || decide ((0 : Fin 2 → ℚ) i ≠ 0)))
      = ![true, false] := by
    funext i
    fin_cases i <;> simp
  have hs : solveEquations (!![1, -1; -1, 1] : Matrix (Fin 2) (Fin 2) ℚ) ![0, 1] 0 ![true, false]
      = some (![0, 1], ![-1, 0]) := by
    have hn : solveEquations (!![1, -1; -1, 1] : Matrix (Fin 2) (Fin 2) ℚ) ![0, 1] 0 ![true, false]
        ≠ none := by
      rw [Ne, C15_fails_iff]
      rintro ⟨w, hw, h0, h1⟩
      apply hw
      have a := h0 0 rfl
      have b := h1 1 rfl
      simp [mulVec, dotProduct, Fin.sum_univ_succ, a] at b
      funext i
      fin_cases i
      · exact a
      · exact b
    have := solve_eq_some (!![1, -1; -1, 1] : Matrix (Fin 2) (Fin 2) ℚ) ![0, 1] 0 ![true, false] hn
      ![0, 1] (by
        intro i hi
        fin_cases i
        · cases hi
        · simp [mulVec, dotProduct, Fin.sum_univ_succ]) (by
        intro i hi
        fin_cases i
        · rfl
        · cases hi)
    rw [this]
    congr 2
    funext i
    fin_cases i <;> simp [mulVec, dotProduct, Fin.sum_univ_succ]
  have := C27_linear (!![1, -1; -1, 1] : Matrix (Fin 2) (Fin 2) ℚ) ![0, 1] 0 ![true, false]
    ![0, 1] ![-1, 0] (by rw [hsup]; exact hs) (by simp [Fin.sum_univ_succ]; norm_num) maxIter hm
  rw [this]
  congr 1
  simp [Fin.sum_univ_succ]
  norm_num

/-! ## C46: dispatch of `Model.solve` -/

omit [IsStrictOrderedRing K] in
/-- **C46, dispatch.** `solve` runs the beam analysis exactly if the model has no soil; with soil it
returns a Winkler outcome which is never an unconverged set of numbers; calling `winkler` on a model
without soil gives nothing. -/
theorem C46_solve (ty : ElementType) {n : ℕ} (el : Fin n → Elem K) (soil : Option (Springs K n))
    (F U : Fin (3 * n + 3) → K) (fix : Fin (3 * n + 3) → Bool) :
    (soil = none → solve ty el soil F U fix = some (.beam (beam ty el F U fix)) ∧
      ∀ m, winklerModel ty el soil F U fix m = none) ∧
    (soil ≠ none → ∃ o, solve ty el soil F U fix = some (.winkler o) ∧
      ∀ d Q it t r, o ≠ .exhausted d Q it t r) := by
  constructor
  · rintro rfl
    exact ⟨rfl, fun m => rfl⟩
  · intro h
    obtain ⟨sp, rfl⟩ := Option.ne_none_iff_exists'.1 h
    refine ⟨winkler (buildStiffness ty el sp) F U fix 100, rfl, ?_⟩
    intro d Q it t r
    exact C26_flagged_partial _ F U fix 100 (by omega) d Q it t r

/-! ## C52: which displacement a spring sees -/

omit [IsStrictOrderedRing K] [LinearOrder K] in
/-- **C52 (partial).** Every distributed spring is evaluated at the displacement of its own node, except
the one at the bottom of the last element.
Missing: that spring, see `C52_violated`. -/
theorem C52_own_node_partial {n : ℕ} (u : Fin (3 * n + 3) → K) (s : Fin 3) (e : Fin n) :
    springDisp u s e false = some (u ⟨3 * e.1 + s.1, by omega⟩) ∧
    (e.1 + 1 < n → springDisp u s e true = some (u ⟨3 * (e.1 + 1) + s.1, by omega⟩)) := by
  have hl : (component u s).length = n + 1 := by simp [component]
  obtain ⟨out, o1, o2, o3, o4, o5⟩ := OpenPile.Props.Result.C43_double_inner_partial (component u s) n
    (by have := e.2; omega) hl
  have hget : ∀ j (hj : j < n + 1), (component u s)[j]? = some (u ⟨3 * j + s.1, by omega⟩) := by
    intro j hj
    unfold component
    rw [List.getElem?_ofFn, dif_pos hj]
  constructor
  · unfold springDisp slot
    rw [o1]
    simp only [Option.bind_eq_bind, Option.bind_some, Bool.toNat_false, Nat.add_zero]
    rw [o3 e.1 e.2, hget e.1 (by omega)]
  · intro he
    unfold springDisp slot
    rw [o1]
    simp only [Option.bind_eq_bind, Option.bind_some, Bool.toNat_true]
    rw [o4 e.1 he, hget (e.1 + 1) (by omega)]

omit [IsStrictOrderedRing K] [LinearOrder K] in
/-- **C52 is violated at every pile tip.** The spring at the bottom of the last element is evaluated at
the displacement of the top node of that element. -/
theorem C52_violated {n : ℕ} (u : Fin (3 * (n + 1) + 3) → K) (s : Fin 3) :
    springDisp u s (Fin.last n) true = some (u ⟨3 * n + s.1, by omega⟩) := by
  have hl : (component u s).length = n + 1 + 1 := by simp [component]
  obtain ⟨out, o1, o2, o3, o4, o5⟩ := OpenPile.Props.Result.C43_double_inner_partial (component u s)
    (n + 1) (by omega) hl
  unfold springDisp slot
  rw [o1]
  simp only [Option.bind_eq_bind, Option.bind_some, Bool.toNat_true, Fin.val_last]
  rw [Nat.add_sub_cancel] at o5
  rw [o5]
  unfold component
  rw [List.getElem?_ofFn, dif_pos (by omega)]

/-- The consequence for the lateral stiffness: a pile of one element whose head does not move has no
secant resistance mobilised at its tip, however far the tip moves. -/
theorem C52_violated_tip (sp : Springs ℚ 1) (hlat : sp.distributedLateral = true) (y : ℚ) :
    pyAt sp .secant (fun r : Fin (3 * 1 + 3) => if r.1 = 4 then y else 0) 0 true
      = pyStiffness (sp.py 0 true) .secant 0 := by
  unfold pyAt
  rw [hlat]
  have := C52_violated (n := 0) (fun r : Fin (3 * (0 + 1) + 3) => if r.1 = 4 then y else 0) 1
  have e : springDisp (n := 1) (fun r : Fin (3 * 1 + 3) => if r.1 = 4 then y else 0) 1 0 true = some 0 := by
    rw [show (0 : Fin 1) = Fin.last 0 from rfl]
    rw [this]
    simp
  simp only [if_true, e, Option.bind_eq_bind, Option.bind_some]

end OpenPile.Props.Winkler
