/-
Concrete cases for C17 and C18.
-/
import Verif.Props.Element

namespace OpenPile.Cases.Element
open OpenPile OpenPile.Kernel OpenPile.Spec.Kernel OpenPile.Props.Element Matrix

/-- `C17_violated_trend`: a solid section and a tube of the same area and inertia. -/
example : phi .timoshenko (⟨1, 1, 1, 1, 1, 1 / 20, 3 / 10⟩ : Elem ℚ) < phi .timoshenko ⟨1, 1, 1, 1, 1, 1 / 2, 3 / 10⟩ :=
  C17_violated_trend _ _ ⟨by norm_num, by norm_num, by norm_num, by norm_num, by norm_num, by norm_num, by norm_num,
      by norm_num, by norm_num⟩ ⟨by norm_num, by norm_num, by norm_num, by norm_num, by norm_num, by norm_num, by norm_num,
      by norm_num, by norm_num⟩ (by norm_num) ⟨rfl, rfl, rfl, rfl, rfl⟩ (by norm_num [hutchinson])

/-- `C17_cantilever_partial`: a force of 12 at the head. -/
example : ∃ u : Fin 6 → ℚ, (u 3 = 0 ∧ u 4 = 0 ∧ u 5 = 0) ∧
    (mechMatrix .timoshenko (⟨1, 1, 1, 1, 1, 1 / 20, 3 / 10⟩ : Elem ℚ) *ᵥ u) 1 = 12 ∧
    (mechMatrix .timoshenko (⟨1, 1, 1, 1, 1, 1 / 20, 3 / 10⟩ : Elem ℚ) *ᵥ u) 2 = 0 := by
  have h1 : (1 : ℚ) + phi .timoshenko ⟨1, 1, 1, 1, 1, 1 / 20, 3 / 10⟩ ≠ 0 := by norm_num [phi, kappa, shearMod]
  refine ⟨![0, 4 + phi .timoshenko ⟨1, 1, 1, 1, 1, 1 / 20, 3 / 10⟩, -6, 0, 0, 0], ⟨rfl, rfl, rfl⟩, ?_, ?_⟩
  all_goals
    rw [mechMatrix, beam_mulVec]
    generalize phi .timoshenko (⟨1, 1, 1, 1, 1, 1 / 20, 3 / 10⟩ : Elem ℚ) = p at h1
    simp
    field_simp
    ring

/-- `C18_nonneg`. -/
example := C18_nonneg (1 : ℚ) 100 50 (by norm_num) (by norm_num) (by norm_num) ![0, 1, 0, 0, 1, 0]

/-- `C18_mt_nonneg_timoshenko_partial`. -/
example := C18_mt_nonneg_timoshenko_partial _ goodElem_example.1 goodElem_example.2 (100 : ℚ) 50 (by norm_num) (by norm_num)

/-- `C18_mt_rigid_euler`. -/
example := C18_mt_rigid_euler (elemOf (3 : ℚ) Pile.steel ⟨0, -10, 1, 1 / 20⟩ 1) goodElem_example.1.L 100
  ![5, 1, 2, 5, 3, 2] ⟨rfl, rfl, by show (3 : ℚ) = 1 + 1 * 2; norm_num⟩

/-- `C18_mt_rigid_timoshenko_partial`. -/
example := C18_mt_rigid_timoshenko_partial (elemOf (3 : ℚ) Pile.steel ⟨0, -10, 1, 1 / 20⟩ 1) goodElem_example.1
  goodElem_example.2 100 ![5, 1, 2, 5, 3, 2] ⟨rfl, rfl, by show (3 : ℚ) = 1 + 1 * 2; norm_num⟩

/-- `C18_py_consistent`. -/
example := C18_py_consistent 2 100 50 (by norm_num) ![0, 1, 2, 0, 3, 1] ![0, 1, 0, 0, 2, 1]

/-- `C18_tz_consistent`. -/
example := C18_tz_consistent 2 100 50 (by norm_num) ![1, 0, 0, 3, 0, 0] ![2, 0, 0, 1, 0, 0]

/-- `C18_violated_mt_gradient`. -/
example := C18_violated_mt_gradient ⟨2, 1, 1, 1, 1, 1 / 20, 3 / 10⟩ (by norm_num) 100 50 (by norm_num)

end OpenPile.Cases.Element
