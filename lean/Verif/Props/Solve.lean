/-
Properties C15, C19-C23: linear solution, assembly, uniqueness, equilibrium, superposition.
-/
import Verif.Lemmas.Kernel
import Verif.Props.Element
import Mathlib.LinearAlgebra.Matrix.ToLinearEquiv
import Mathlib.LinearAlgebra.Matrix.Determinant.Basic

namespace OpenPile.Props.Solve
open OpenPile.Kernel OpenPile.Spec.Kernel Matrix OpenPile.Props.Element

section linear
variable {K : Type} [Field K] {ι : Type} [Fintype ι] [DecidableEq ι]

/-! ## C15 -/

theorem mulVec_split (A : Matrix ι ι K) (u : ι → K) (restr : ι → Bool) (i : ι) :
    (A *ᵥ u) i = (∑ j : {j // restr j = true}, A i j * u j)
      + ∑ j : {j // ¬ restr j = true}, A i j * u j := by
  rw [Fintype.sum_subtype_add_sum_subtype (fun j => restr j = true) (fun j => A i j * u j)]
  rfl

theorem linSolve_some {A : Matrix ι ι K} {b x : ι → K} (h : linSolve A b = some x) :
    IsUnit A.det ∧ A *ᵥ x = b := by
  unfold linSolve at h
  split_ifs at h with hu
  simp only [Option.some.injEq] at h
  refine ⟨hu, ?_⟩
  rw [← h, mulVec_mulVec, mul_nonsing_inv _ hu, one_mulVec]

theorem linSolve_none {A : Matrix ι ι K} {b : ι → K} (h : linSolve A b = none) : A.det = 0 := by
  unfold linSolve at h
  split_ifs at h with hu
  rw [isUnit_iff_ne_zero, not_not] at hu
  exact hu

/-- The value of `solve_equations` is characterised by the reduced system. -/
theorem solve_some (A : Matrix ι ι K) (F U : ι → K) (restr : ι → Bool) (u Q : ι → K)
    (h : solveEquations A F U restr = some (u, Q)) :
    (∀ i, restr i = false → (A *ᵥ u) i = F i) ∧ (∀ i, restr i = true → u i = U i) ∧
    (∀ i, Q i = (A *ᵥ u) i - F i) := by
  unfold solveEquations at h
  split_ifs at h with hr
  · simp only [Option.map_eq_some_iff, Prod.mk.injEq] at h
    obtain ⟨x, hx, hu, hQ⟩ := h
    obtain ⟨-, hx⟩ := linSolve_some hx
    have hfix : ∀ i, restr i = true → u i = U i := by
      intro i hi
      rw [← hu]
      simp [hi]
    have hfree : ∀ i (hi : ¬ restr i = true), u i = x ⟨i, hi⟩ := by
      intro i hi
      rw [← hu]
      exact dif_pos hi
    refine ⟨?_, hfix, ?_⟩
    · intro i hi
      rw [mulVec_split A u restr i]
      have := congrFun hx ⟨i, by simp [hi]⟩
      simp only [mulVec, dotProduct, submatrix_apply] at this
      have e1 : ∑ j : {j // ¬ restr j = true}, A i j * u j = ∑ j : {j // ¬ restr j = true}, A i j * x j :=
        Finset.sum_congr rfl (fun j _ => by rw [hfree j.1 j.2])
      have e2 : ∑ j : {j // restr j = true}, A i j * u j = ∑ j : {j // restr j = true}, A i j * U j :=
        Finset.sum_congr rfl (fun j _ => by rw [hfix j.1 j.2])
      rw [e1, e2, this]
      ring
    · intro i
      rw [← hQ, hu]
  · simp only [Option.map_eq_some_iff, Prod.mk.injEq] at h
    obtain ⟨x, hx, hu, hQ⟩ := h
    obtain ⟨-, hx⟩ := linSolve_some hx
    subst hu
    refine ⟨fun i _ => by rw [hx], fun i hi => absurd ⟨i, hi⟩ hr, fun i => by rw [← hQ]⟩

/-- **C15, failure.** `solve_equations` fails exactly if a non-zero displacement field exists that
vanishes at the restrained degrees of freedom and needs no force at the others. -/
theorem C15_fails_iff (A : Matrix ι ι K) (F U : ι → K) (restr : ι → Bool) :
    solveEquations A F U restr = none ↔
      ∃ w : ι → K, w ≠ 0 ∧ (∀ i, restr i = true → w i = 0) ∧
        ∀ i, restr i = false → (A *ᵥ w) i = 0 := by
  have lin : ∀ {κ : Type} [Fintype κ] [DecidableEq κ] (B : Matrix κ κ K) (b : κ → K),
      linSolve B b = none ↔ ∃ v, v ≠ 0 ∧ B *ᵥ v = 0 := by
    intro κ _ _ B b
    have h := Matrix.exists_mulVec_eq_zero_iff (M := B)
    constructor
    · intro hn
      obtain ⟨v, hv, hz⟩ := h.2 (linSolve_none hn)
      exact ⟨v, hv, hz⟩
    · rintro ⟨v, hv, hz⟩
      have hd := h.1 ⟨v, hv, hz⟩
      unfold linSolve
      rw [if_neg]
      rw [hd]
      exact not_isUnit_zero
  unfold solveEquations
  split_ifs with hr
  · simp only [Option.map_eq_none_iff]
    rw [lin]
    constructor
    · rintro ⟨v, hv, hz⟩
      refine ⟨fun i => if h : ¬ restr i = true then v ⟨i, h⟩ else 0, ?_, ?_, ?_⟩
      · intro h0
        apply hv
        funext ⟨i, hi⟩
        have := congrFun h0 i
        simpa [hi] using this
      · intro i hi
        simp [hi]
      · intro i hi
        rw [mulVec_split A _ restr i]
        have e2 : ∑ j : {j // restr j = true}, A i j
            * (if h : ¬ restr j.1 = true then v ⟨j.1, h⟩ else 0) = 0 :=
          Finset.sum_eq_zero (fun j _ => by simp [j.2])
        have e1 : ∑ j : {j // ¬ restr j = true}, A i j
            * (if h : ¬ restr j.1 = true then v ⟨j.1, h⟩ else 0)
            = ∑ j : {j // ¬ restr j = true}, A i j * v j :=
          Finset.sum_congr rfl (fun j _ => by rw [dif_pos j.2])
        rw [e1, e2, zero_add]
        exact congrFun hz ⟨i, by simp [hi]⟩
    · rintro ⟨w, hw, hfix, hfree⟩
      refine ⟨fun j => w j.1, ?_, ?_⟩
      · intro h0
        apply hw
        funext i
        by_cases hi : restr i = true
        · exact hfix i hi
        · exact congrFun h0 ⟨i, hi⟩
      · funext ⟨i, hi⟩
        have := hfree i (by simpa using hi)
        rw [mulVec_split A w restr i] at this
        have e2 : ∑ j : {j // restr j = true}, A i j * w j = 0 :=
          Finset.sum_eq_zero (fun j _ => by rw [hfix j.1 j.2, mul_zero])
        rw [e2, zero_add] at this
        exact this
  · simp only [Option.map_eq_none_iff]
    rw [lin]
    have hall : ∀ i, restr i = false := by
      intro i
      by_contra h
      exact hr ⟨i, by simpa using h⟩
    constructor
    · rintro ⟨v, hv, hz⟩
      refine ⟨v, hv, ?_, ?_⟩
      · intro i hi
        rw [hall i] at hi
        cases hi
      · intro i _
        exact congrFun hz i
    · rintro ⟨w, hw, -, hfree⟩
      exact ⟨w, hw, funext fun i => hfree i (hall i)⟩

/-- **C15, equilibrium, supports, reactions, uniqueness.** -/
theorem C15_solution (A : Matrix ι ι K) (F U : ι → K) (restr : ι → Bool) (u Q : ι → K)
    (h : solveEquations A F U restr = some (u, Q)) :
    (∀ i, restr i = false → (A *ᵥ u) i = F i ∧ Q i = 0) ∧ (∀ i, restr i = true → u i = U i) ∧
    (∀ i, F i + Q i = (A *ᵥ u) i) ∧
    (∀ u' : ι → K, (∀ i, restr i = false → (A *ᵥ u') i = F i) → (∀ i, restr i = true → u' i = U i) →
      u' = u) := by
  obtain ⟨h1, h2, h3⟩ := solve_some A F U restr u Q h
  refine ⟨fun i hi => ⟨h1 i hi, by rw [h3, h1 i hi, sub_self]⟩, h2, fun i => by rw [h3]; ring, ?_⟩
  intro u' g1 g2
  by_contra hne
  have : solveEquations A F U restr = none := by
    rw [C15_fails_iff]
    refine ⟨u' - u, sub_ne_zero.2 hne, ?_, ?_⟩
    · intro i hi
      rw [Pi.sub_apply, g2 i hi, h2 i hi, sub_self]
    · intro i hi
      rw [mulVec_sub, Pi.sub_apply, g1 i hi, h1 i hi, sub_self]
  rw [this] at h
  cases h

/-- Conversely the unique solution of the equations is what `solve_equations` returns. -/
theorem solve_eq_some (A : Matrix ι ι K) (F U : ι → K) (restr : ι → Bool)
    (hn : solveEquations A F U restr ≠ none) (u : ι → K)
    (g1 : ∀ i, restr i = false → (A *ᵥ u) i = F i) (g2 : ∀ i, restr i = true → u i = U i) :
    solveEquations A F U restr = some (u, fun i => (A *ᵥ u) i - F i) := by
  rcases h : solveEquations A F U restr with _ | ⟨u', Q'⟩
  · exact absurd h hn
  · have h4 := C15_solution A F U restr u' Q' h
    have h5 := solve_some A F U restr u' Q' h
    have : u = u' := h4.2.2.2 u g1 g2
    subst this
    have : Q' = fun i => (A *ᵥ u) i - F i := funext h5.2.2
    rw [this]

/-- The hypothesis of `C15_solution` is met by a system with one restrained and two free degrees of
freedom. -/
example : solveEquations (!![2, -1, 0; -1, 2, -1; 0, -1, 2] : Matrix (Fin 3) (Fin 3) ℚ)
    ![0, 1, 0] ![5, 0, 0] ![true, false, false]
    = some (![5, 4, 2], ![6, 0, 0]) := by
  have h := solve_eq_some (!![2, -1, 0; -1, 2, -1; 0, -1, 2] : Matrix (Fin 3) (Fin 3) ℚ)
    ![0, 1, 0] ![5, 0, 0] ![true, false, false] ?_ ![5, 4, 2] ?_ ?_
  · rw [h]
    congr 2
    funext i
    fin_cases i <;> simp [mulVec, dotProduct, Fin.sum_univ_succ] <;> norm_num
  · rw [Ne, C15_fails_iff]
    rintro ⟨w, hw, h0, h1⟩
    apply hw
    have a := h0 0 rfl
    have b := h1 1 rfl
    have c := h1 2 rfl
    simp [mulVec, dotProduct, Fin.sum_univ_succ, a] at b c
    have : w 1 = 0 := by linarith
    have : w 2 = 0 := by linarith
    funext i
    fin_cases i <;> simp <;> assumption
  · intro i hi
    fin_cases i
    · cases hi
    · simp [mulVec, dotProduct, Fin.sum_univ_succ]; norm_num
    · simp [mulVec, dotProduct, Fin.sum_univ_succ]; norm_num
  · intro i hi
    fin_cases i
    · rfl
    · cases hi
    · cases hi

/-! ## C23 -/

/-- **C23, superposition and scaling** for fixed supports. -/
theorem C23_superposition (A : Matrix ι ι K) (F₁ F₂ U₁ U₂ : ι → K) (restr : ι → Bool)
    (u₁ u₂ Q₁ Q₂ : ι → K) (a b : K) (h₁ : solveEquations A F₁ U₁ restr = some (u₁, Q₁))
    (h₂ : solveEquations A F₂ U₂ restr = some (u₂, Q₂)) :
    solveEquations A (a • F₁ + b • F₂) (a • U₁ + b • U₂) restr
      = some (a • u₁ + b • u₂, a • Q₁ + b • Q₂) := by
  obtain ⟨e1, f1, q1⟩ := solve_some A F₁ U₁ restr u₁ Q₁ h₁
  obtain ⟨e2, f2, q2⟩ := solve_some A F₂ U₂ restr u₂ Q₂ h₂
  have hn : solveEquations A (a • F₁ + b • F₂) (a • U₁ + b • U₂) restr ≠ none := by
    intro hn
    rw [C15_fails_iff] at hn
    have := (C15_fails_iff A F₁ U₁ restr).2 hn
    rw [this] at h₁
    cases h₁
  rw [solve_eq_some A _ _ restr hn (a • u₁ + b • u₂)]
  · congr 2
    funext i
    simp only [mulVec_add, mulVec_smul, Pi.add_apply, Pi.smul_apply, smul_eq_mul, q1, q2]
    ring
  · intro i hi
    simp only [mulVec_add, mulVec_smul, Pi.add_apply, Pi.smul_apply, smul_eq_mul, e1 i hi, e2 i hi]
  · intro i hi
    simp only [Pi.add_apply, Pi.smul_apply, smul_eq_mul, f1 i hi, f2 i hi]

/-- **C23, reciprocity (Maxwell-Betti)**: the work of the loads and reactions of one case on the
displacements of the other is symmetric; with unyielding supports the reactions do no work. -/
theorem C23_reciprocity (A : Matrix ι ι K) (hA : Aᵀ = A) (F₁ F₂ U₁ U₂ : ι → K) (restr : ι → Bool)
    (u₁ u₂ Q₁ Q₂ : ι → K) (h₁ : solveEquations A F₁ U₁ restr = some (u₁, Q₁))
    (h₂ : solveEquations A F₂ U₂ restr = some (u₂, Q₂)) :
    ∑ i, (F₁ i + Q₁ i) * u₂ i = ∑ i, (F₂ i + Q₂ i) * u₁ i ∧
    ((∀ i, restr i = true → U₁ i = 0 ∧ U₂ i = 0) → ∑ i, F₁ i * u₂ i = ∑ i, F₂ i * u₁ i) := by
  obtain ⟨e1, f1, q1⟩ := solve_some A F₁ U₁ restr u₁ Q₁ h₁
  obtain ⟨e2, f2, q2⟩ := solve_some A F₂ U₂ restr u₂ Q₂ h₂
  have key : ∑ i, (F₁ i + Q₁ i) * u₂ i = ∑ i, (F₂ i + Q₂ i) * u₁ i := by
    have g1 : ∑ i, (F₁ i + Q₁ i) * u₂ i = work A u₂ u₁ := by
      unfold work dotProduct
      exact Finset.sum_congr rfl (fun i _ => by rw [q1]; ring)
    have g2 : ∑ i, (F₂ i + Q₂ i) * u₁ i = work A u₁ u₂ := by
      unfold work dotProduct
      exact Finset.sum_congr rfl (fun i _ => by rw [q2]; ring)
    rw [g1, g2, work_comm A hA]
  refine ⟨key, fun h0 => ?_⟩
  have z : ∀ (F U u Q u' U' : ι → K), (∀ i, restr i = false → (A *ᵥ u) i = F i) →
      (∀ i, Q i = (A *ᵥ u) i - F i) → (∀ i, restr i = true → u' i = U' i) →
      (∀ i, restr i = true → U' i = 0) → ∑ i, (F i + Q i) * u' i = ∑ i, F i * u' i := by
    intro F U u Q u' U' e q f hU
    apply Finset.sum_congr rfl
    intro i _
    by_cases hi : restr i = true
    · rw [f i hi, hU i hi, mul_zero, mul_zero]
    · rw [q i, e i (by simpa using hi)]
      ring
  rw [z F₁ U₁ u₁ Q₁ u₂ U₂ e1 q1 f2 (fun i hi => (h0 i hi).2),
    z F₂ U₂ u₂ Q₂ u₁ U₁ e2 q2 f1 (fun i hi => (h0 i hi).1)] at key
  exact key

end linear
end OpenPile.Props.Solve
