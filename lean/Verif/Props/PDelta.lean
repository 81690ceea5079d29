/-
C70: the stress stiffness matrix of an axially loaded element.
-/
import Verif.Model.PDelta
import Verif.Props.Element

namespace OpenPile.Props.PDelta
open OpenPile.Kernel OpenPile.Spec.Kernel OpenPile.Props.Element Matrix

section field
variable {K : Type} [Field K]

/-- Tensile force in element `i`: axial displacements are positive upwards, so it is stretched when its upper end moves
up more than its lower end. -/
def tension {n : ℕ} (el : Fin n → Elem K) (u : Fin (3 * n + 3) → K) (i : Fin n) : K :=
  (el i).E * (el i).A * ((u (dof i.castSucc 0) - u (dof i.succ 0)) / (el i).L)

theorem force_eq (ty : ElementType) {n : ℕ} (el : Fin n → Elem K) (u : Fin (3 * n + 3) → K) (i : Fin n) :
    -internalForces ty el u i 0 = tension el u i := by
  have h0 : stacked u i 0 = u (dof i.castSucc 0) := rfl
  have h3 : stacked u i 3 = u (dof i.succ 0) := by
    unfold stacked dof
    congr 1
  simp only [internalForces, mechMatrix, beam_mulVec, tension, neg_neg, ← h0, ← h3]
  simp
  ring

/-- The matrix is that of rotational springs with the tensile force in place of the stiffness. -/
theorem pDelta_eq [CharZero K] (ty : ElementType) {n : ℕ} (el : Fin n → Elem K) (u : Fin (3 * n + 3) → K) (i : Fin n) :
    pDeltaMatrix ty el u i = mtMatrix ty (el i) (tension el u i) (tension el u i) := by
  have hc : pDeltaCoeffs ty (el i) = mtCoeffs ty (el i) := by cases ty <;> rfl
  have h2 : 1 / 2 * tension el u i + 1 / 2 * tension el u i = tension el u i := by ring
  unfold pDeltaMatrix mtMatrix mtPattern
  simp only [force_eq, hc, h2]

/-- **C70, force.** The first and the fourth internal force of an element are the axial force, with opposite signs; the
first section force is the tensile force. -/
theorem C70_tension (ty : ElementType) {n : ℕ} (el : Fin n → Elem K) (u : Fin (3 * n + 3) → K) (i : Fin n) :
    (sectionForces (el i).L (internalForces ty el u i)).1.1 = tension el u i ∧
    (sectionForces (el i).L (internalForces ty el u i)).2.1 = tension el u i := by
  refine ⟨force_eq ty el u i, ?_⟩
  rw [← force_eq ty]
  simp only [sectionForces, internalForces, mechMatrix, beam_mulVec]
  simp

/-- **C70, translation.** A translation of the element, and any axial displacement of its ends, meets no stress
stiffness; the shear forces at the two ends always cancel and there is no axial force. -/
theorem C70_translation [CharZero K] (ty : ElementType) {n : ℕ} (el : Fin n → Elem K) (u : Fin (3 * n + 3) → K)
    (i : Fin n) (w : Fin 6 → K) :
    (w 2 = 0 → w 5 = 0 → w 1 = w 4 → pDeltaMatrix ty el u i *ᵥ w = 0) ∧
    (pDeltaMatrix ty el u i *ᵥ w) 0 = 0 ∧ (pDeltaMatrix ty el u i *ᵥ w) 3 = 0 ∧
    (pDeltaMatrix ty el u i *ᵥ w) 1 + (pDeltaMatrix ty el u i *ᵥ w) 4 = 0 := by
  rw [pDelta_eq]
  rcases h : mtCoeffs ty (el i) with ⟨A, B, C, D⟩
  refine ⟨?_, ?_, ?_, ?_⟩
  · intro h2 h5 h1
    funext a
    fin_cases a <;>
      simp [mtMatrix, mtPattern, h, mulVec, dotProduct, Fin.sum_univ_six, h2, h5, h1]
  all_goals simp [mtMatrix, mtPattern, h, mulVec, dotProduct, Fin.sum_univ_six]
  ring

/-- **C70, rotation.** A rigid rotation `θ` of an Euler-Bernoulli element needs exactly the pair of forces `T θ` that
balances the moment of the inclined tensile force, and no end moments. -/
theorem C70_rotation_partial [CharZero K] {n : ℕ} (el : Fin n → Elem K) (u : Fin (3 * n + 3) → K) (i : Fin n)
    (hL : (el i).L ≠ 0) (w : Fin 6 → K) (hw : RigidElem (el i).L w) :
    pDeltaMatrix .eulerBernoulli el u i *ᵥ w
      = ![0, -(tension el u i * w 2), 0, 0, tension el u i * w 2, 0] := by
  rw [pDelta_eq]
  obtain ⟨h3, h5, h4⟩ := hw
  funext a
  fin_cases a <;>
    simp [mtMatrix, mtPattern, mtCoeffs, mulVec, dotProduct, Fin.sum_univ_six, h5, h4] <;>
    field_simp <;> ring

end field

section ordered
variable {K : Type} [Field K] [LinearOrder K] [IsStrictOrderedRing K]

/-- **C70, symmetry**, for both element types. -/
theorem C70_symmetric (ty : ElementType) {n : ℕ} (el : Fin n → Elem K) (u : Fin (3 * n + 3) → K) (i : Fin n) :
    (pDeltaMatrix ty el u i)ᵀ = pDeltaMatrix ty el u i := by
  rw [pDelta_eq]
  exact (C18_symmetric ty (el i) (tension el u i) (tension el u i)).2.2

/-- **C70, tension stiffens and compression softens** an Euler-Bernoulli element, for every displacement. -/
theorem C70_sign_partial {n : ℕ} (el : Fin n → Elem K) (u : Fin (3 * n + 3) → K) (i : Fin n) (hL : 0 < (el i).L)
    (w : Fin 6 → K) :
    (0 ≤ tension el u i → 0 ≤ energy (pDeltaMatrix .eulerBernoulli el u i) w) ∧
    (tension el u i ≤ 0 → energy (pDeltaMatrix .eulerBernoulli el u i) w ≤ 0) := by
  rw [pDelta_eq]
  constructor
  · intro h
    exact C18_mt_nonneg_euler (el i) hL _ _ h h w
  · intro h
    have := C18_mt_nonneg_euler (el i) hL (-tension el u i) (-tension el u i) (by linarith) (by linarith) w
    rw [mtMatrix_energy] at this ⊢
    nlinarith

/-- **C70 is violated for Timoshenko elements**: wherever there is an axial force and the overwritten variable differs
from the area, a rigidly rotating element stores another energy than `T L θ²`, the work of its axial force. -/
theorem C70_violated_timoshenko {n : ℕ} (el : Fin n → Elem K) (u : Fin (3 * n + 3) → K) (i : Fin n)
    (he : GoodElem (el i)) (hnu : -(3 / 4) ≤ (el i).nu) (ht : tension el u i ≠ 0)
    (hA : (mtCoeffs .timoshenko (el i)).1 ≠ (el i).A) (h0 : (mtCoeffs .timoshenko (el i)).1 ≠ 0) (w : Fin 6 → K)
    (hw : RigidElem (el i).L w) (hθ : w 2 ≠ 0) :
    energy (pDeltaMatrix .timoshenko el u i) w ≠ tension el u i * (el i).L * w 2 ^ 2 := by
  rw [pDelta_eq, C18_mt_rigid_timoshenko_partial (el i) he hnu _ w hw]
  intro h
  have hL := he.L; have hAp := he.A; have hI := he.I
  have hx : tension el u i * (el i).L * w 2 ^ 2 ≠ 0 :=
    mul_ne_zero (mul_ne_zero ht hL.ne') (pow_ne_zero _ hθ)
  have hph : 0 ≤ phi .timoshenko (el i) := phi_nonneg .timoshenko (el i) he (fun _ => hnu)
  have h1 := mul_left_cancel₀ hx (h.trans (mul_one _).symm)
  have h2 : 12 * ((el i).I / ((el i).A * (el i).L ^ 2) - (el i).I / ((mtCoeffs .timoshenko (el i)).1 * (el i).L ^ 2))
      / (phi .timoshenko (el i) + 1) ^ 2 = 0 := by linarith
  rcases div_eq_zero_iff.1 h2 with h3 | h3
  · have h4 : (el i).I / ((el i).A * (el i).L ^ 2) = (el i).I / ((mtCoeffs .timoshenko (el i)).1 * (el i).L ^ 2) := by
      linarith
    rw [div_eq_div_iff (by positivity) (mul_ne_zero h0 (by positivity))] at h4
    have h5 := mul_left_cancel₀ hI.ne' h4
    exact hA (mul_right_cancel₀ (pow_ne_zero 2 hL.ne') h5)
  · have : 0 < (phi .timoshenko (el i) + 1) ^ 2 := by positivity
    linarith

/-- One steel element of a 2 m pile with 50 mm wall (`pi` rounded), for the example below. -/
def elP : Fin 1 → Elem ℚ := fun _ => ⟨1, 210000000, 3 / 10, 1 / 7, 2, 1 / 20, 3 / 10⟩

/-- Its head is pushed down by 1 mm. -/
def dP : Fin (3 * 1 + 3) → ℚ := fun r => if r.1 = 0 then -1 / 1000 else 0

/-- The hypotheses of the theorems above are met: 63 MN compression in the element. -/
example : tension elP dP 0 = -63000 ∧ GoodElem (elP 0) ∧ -(3 / 4) ≤ (elP 0).nu ∧ RigidElem (elP 0).L ![0, 0, 1, 0, 1, 1] ∧
    (mtCoeffs .timoshenko (elP 0)).1 ≠ (elP 0).A ∧ (mtCoeffs .timoshenko (elP 0)).1 ≠ 0 := by
  refine ⟨by decide +kernel, ⟨?_, ?_, ?_, ?_, ?_, ?_, ?_, ?_, ?_⟩, ?_, ⟨rfl, rfl, ?_⟩, by decide +kernel, by decide +kernel⟩ <;>
    norm_num [elP]
  rfl

end ordered

/-- **C70.** For Euler-Bernoulli elements the matrix is the geometric stiffness matrix: the virtual work of the tensile
force on the slopes of the Hermite fields. -/
theorem C70_geometric_partial {n : ℕ} (el : Fin n → Elem ℝ) (u : Fin (3 * n + 3) → ℝ) (i : Fin n) (hL : (el i).L ≠ 0)
    (v w : Fin 6 → ℝ) :
    work (pDeltaMatrix .eulerBernoulli el u i) v w
      = ∫ x in (0 : ℝ)..(el i).L, deriv (hermite (el i).L v) x * deriv (hermite (el i).L w) x * tension el u i := by
  rw [pDelta_eq, C18_mt_consistent_partial (el i) hL]
  simp [linearStiffness]

end OpenPile.Props.PDelta
