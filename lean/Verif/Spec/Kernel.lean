/-
Vocabulary for the finite element properties (C15-C23): energies, rigid-body motions, shape
functions.  Independent of the model.
-/
import Mathlib.LinearAlgebra.Matrix.Notation
import Mathlib.Algebra.Order.Field.Basic
import Mathlib.Data.Real.Basic

namespace OpenPile.Spec.Kernel
open Matrix

variable {K : Type} [Field K]

/-- Work of the forces `M u` on the displacements `v`. -/
def work {ι : Type} [Fintype ι] (M : Matrix ι ι K) (v u : ι → K) : K := v ⬝ᵥ (M *ᵥ u)

/-- Twice the strain energy. -/
def energy {ι : Type} [Fintype ι] (M : Matrix ι ι K) (u : ι → K) : K := work M u u

/-- Degrees of freedom `(w, v, θ)` top, `(w, v, θ)` bottom of an element of length `L` moving as a
rigid body (small rotations). -/
def RigidElem (L : K) (u : Fin 6 → K) : Prop := u 3 = u 0 ∧ u 5 = u 2 ∧ u 4 = u 1 + L * u 2

/-- Cubic Hermite interpolation of the lateral displacement at distance `x` from the element top. -/
noncomputable def hermite (L : ℝ) (u : Fin 6 → ℝ) (x : ℝ) : ℝ :=
  (1 - 3 * (x / L) ^ 2 + 2 * (x / L) ^ 3) * u 1 + x * (1 - x / L) ^ 2 * u 2
  + (3 * (x / L) ^ 2 - 2 * (x / L) ^ 3) * u 4 + x * ((x / L) ^ 2 - x / L) * u 5

/-- Linear interpolation of the axial displacement. -/
noncomputable def axialField (L : ℝ) (u : Fin 6 → ℝ) (x : ℝ) : ℝ :=
  (1 - x / L) * u 0 + x / L * u 3

/-- Spring stiffness varying linearly from `kt` at the top to `kb` at the bottom. -/
noncomputable def linearStiffness (L kt kb x : ℝ) : ℝ := kt + (kb - kt) * (x / L)

/-- Hutchinson's shear coefficient of a hollow circular section with outer radius `a`, inner radius
`b` and Poisson's ratio `nu`. -/
def hutchinson (a b nu : K) : K :=
  6 * (a ^ 2 + b ^ 2) ^ 2 * (1 + nu) ^ 2 /
  (7 * a ^ 4 + 34 * a ^ 2 * b ^ 2 + 7 * b ^ 4
    + nu * (12 * a ^ 4 + 48 * a ^ 2 * b ^ 2 + 12 * b ^ 4)
    + nu ^ 2 * (4 * a ^ 4 + 16 * a ^ 2 * b ^ 2 + 4 * b ^ 4))

/-- Shear parameter of Timoshenko's beam theory, `12 E I / (k A G L²)` with shear coefficient `k`
and `G = E / (2 (1 + nu))`. -/
def textbookPhi (k E A I nu L : K) : K := 12 * E * I / (k * A * (E / (2 * (1 + nu))) * L ^ 2)

/-- Node `j` (counted from the pile head), degree of freedom `d` (0 axial, 1 lateral, 2 rotation). -/
def dof {n : ℕ} (j : Fin (n + 1)) (d : Fin 3) : Fin (3 * n + 3) := ⟨3 * j.1 + d.1, by omega⟩

/-- Depth of node `j` below the pile head for element lengths `L`. -/
def nodeDepth {n : ℕ} (L : Fin n → K) (j : Fin (n + 1)) : K :=
  ∑ i : Fin n, if i.1 < j.1 then L i else 0

/-- The pile moves as a rigid body. -/
def Rigid {n : ℕ} (L : Fin n → K) (u : Fin (3 * n + 3) → K) : Prop :=
  ∃ a b θ : K, ∀ j, u (dof j 0) = a ∧ u (dof j 1) = b + nodeDepth L j * θ ∧ u (dof j 2) = θ

end OpenPile.Spec.Kernel
