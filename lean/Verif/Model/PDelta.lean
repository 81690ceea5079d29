/-
The stress stiffness matrix of an axially loaded element.

Models `src/openpile/core/kernel.py` 572-695 (`elem_p_delta_stiffness_matrix`).  No analysis uses it: its only call,
kernel.py 753, is commented out.
-/
import Verif.Model.Kernel

namespace OpenPile.Kernel
open Matrix

variable {K : Type} [Field K]

/-- The coefficients `A, B, C, D`, kernel.py 623-680.  As in `elem_mt_stiffness_matrix` the variable with the area of
the section is overwritten by the coefficient `A` (line 672) before `B`, `C` and `D` use it as an area. -/
def pDeltaCoeffs (ty : ElementType) (e : Elem K) : K × K × K × K :=
  match ty with
  | .eulerBernoulli => (6 / (5 * e.L), 1 / 10, 2 * e.L / 15, -e.L / 30)
  | .timoshenko =>
    let omega := e.E * e.I * kappa ty e / (e.A * shearMod e * e.L ^ 2)
    let ph := (12 * omega + 1) ^ 2
    let A' := 6 * (120 * omega ^ 2 + 20 * omega + 1) / ((5 * e.L) * ph) + 12 * e.I / (e.A * e.L ^ 3 * ph)
    let B := 1 / (10 * ph) + 6 * e.I / (A' * e.L ^ 2 * ph)
    let C := (2 * e.L * (90 * omega ^ 2 + 15 * omega + 1)) / (15 * ph)
      + 4 * e.I * (36 * omega ^ 2 + 6 * omega + 1) / (A' * e.L * ph)
    let D := -e.L * (360 * omega ^ 2 + 60 * omega + 1) / (30 * ph)
      - 2 * e.I * (72 * omega ^ 2 + 12 * omega - 1) / (A' * e.L * ph)
    (A', B, C, D)

/-- `elem_p_delta_stiffness_matrix`, kernel.py 572-695, for element `i` and the displacements `u`: `P` is the first of
the six internal forces of the element (line 600). -/
def pDeltaMatrix (ty : ElementType) {n : ℕ} (el : Fin n → Elem K) (u : Fin (3 * n + 3) → K) (i : Fin n) :
    Matrix (Fin 6) (Fin 6) K :=
  let P := internalForces ty el u i 0
  let (A, B, C, D) := pDeltaCoeffs ty (el i)
  (-P) • !![0, 0, 0, 0, 0, 0;
            0, A, B, 0, -A, B;
            0, B, C, 0, -B, D;
            0, 0, 0, 0, 0, 0;
            0, -A, -B, 0, A, -B;
            0, B, D, 0, -B, C]

end OpenPile.Kernel
