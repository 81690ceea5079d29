/-
Concrete cases for C26 and C27.
-/
import Verif.Props.Winkler

namespace OpenPile.Cases.Winkler
open OpenPile.Kernel OpenPile.Winkler OpenPile.Props.Winkler OpenPile.Props.Solve OpenPile.Spec.Kernel Matrix

/-- `C27_linear`: a spring of stiffness 2 carrying 3, with the default of a hundred iterations. -/
theorem spring : winkler (fun _ _ => some (!![2] : Matrix (Fin 1) (Fin 1) ℚ)) ![3] 0 (fun _ => false) 100
    = .converged ![3 / 2] ![0] 2 ((1 / 10000) ^ 2 * 9) 0 := by
  have hs : solveEquations (!![2] : Matrix (Fin 1) (Fin 1) ℚ) ![3] 0
      (fun i => false || decide ((0 : Fin 1 → ℚ) i ≠ 0)) = some (![3 / 2], ![0]) := by
    have hn : solveEquations (!![2] : Matrix (Fin 1) (Fin 1) ℚ) ![3] 0
        (fun i => false || decide ((0 : Fin 1 → ℚ) i ≠ 0)) ≠ none := by
      rw [Ne, C15_fails_iff]
      rintro ⟨w, hw, -, h1⟩
      apply hw
      have b := h1 0 (by simp)
      simp [mulVec, dotProduct] at b
      funext i
      fin_cases i
      exact b
    have := solve_eq_some (!![2] : Matrix (Fin 1) (Fin 1) ℚ) ![3] 0 (fun i => false || decide ((0 : Fin 1 → ℚ) i ≠ 0)) hn
      ![3 / 2] (by intro i _; fin_cases i; norm_num [mulVec, dotProduct]) (by intro i hi; simp at hi)
    rw [this]
    congr 2
    funext i
    fin_cases i
    norm_num [mulVec, dotProduct]
  have h := C27_linear (!![2] : Matrix (Fin 1) (Fin 1) ℚ) ![3] 0 (fun _ => false) ![3 / 2] ![0]
    hs (by simp) 100 (by norm_num)
  rw [h]
  congr 1
  simp
  norm_num

/-- `C26_converged`. -/
example := C26_converged _ _ _ _ _ _ _ _ _ _ spring

/-- `C27_no_support_partial`. -/
example := C27_no_support_partial _ _ _ _ _ _ _ _ spring

end OpenPile.Cases.Winkler
