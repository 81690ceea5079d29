/-
Finite element kernel: element matrices, assembly, solution of the linear system, internal forces.

Models `src/openpile/core/kernel.py` 87-286 and 289-569 (matrices), 698-787 (assembly), 790-825.
Arrays are functions on `Fin`; the displacement vector of a mesh with `n` elements has `3 n + 3`
entries, entry `3 j + d` being degree of freedom `d` (0 axial, 1 lateral, 2 rotation) of node `j`.
Floats are elements of a field.
-/
import Verif.Model.Pile
import Mathlib.LinearAlgebra.Matrix.NonsingularInverse
import Mathlib.LinearAlgebra.Matrix.Notation
import Mathlib.Algebra.BigOperators.Fin
import Mathlib.Data.Fintype.BigOperators
import Mathlib.Algebra.Order.Field.Basic

namespace OpenPile.Kernel
open Matrix

variable {K : Type} [Field K]

/-- Section and material data of one beam element: length, Young's modulus, area, second moment of
area, outer diameter, wall thickness, Poisson's ratio; kernel.py 214-252.  (`mesh_to_element_length`,
161-182: the y-coordinates are all zero, hence the length is `|z_top - z_bottom|`.) -/
structure Elem (K : Type) where
  L : K
  E : K
  A : K
  I : K
  d : K
  wt : K
  nu : K
deriving DecidableEq, Repr

/-- The data that `elem_mechanical_stiffness_matrix` collects for an element of length `L` with
section `s` and material `m`, kernel.py 214-252. -/
def elemOf (pi : K) (m : Pile.Material K) (s : Pile.Section K) (L : K) : Elem K :=
  ⟨L, m.E, s.area pi, s.inertia pi, s.diameter, s.thickness, m.nu⟩

/-- `model.element_type`, construct.py 973. -/
inductive ElementType
  | eulerBernoulli
  | timoshenko
deriving DecidableEq, Repr

/-- `kappa`, kernel.py 235-268 (circular sections only; a non-circular section raises for
Timoshenko). -/
def kappa (ty : ElementType) (e : Elem K) : K :=
  match ty with
  | .eulerBernoulli => 0
  | .timoshenko =>
    let a := 1 / 2 * e.d
    let b := 1 / 2 * (e.d - 2 * e.wt)
    let nom := 6 * (a ^ 2 + b ^ 2) ^ 2 * (1 + e.nu) ^ 2
    let denom := 7 * a ^ 4 + 34 * a ^ 2 * b ^ 2 + 7 * b ^ 4
      + e.nu * (12 * a ^ 4 + 48 * a ^ 2 * b ^ 2 + 12 * b ^ 4)
      + e.nu ^ 2 * (4 * a ^ 4 + 16 * a ^ 2 * b ^ 2 + 4 * b ^ 4)
    nom / denom

/-- `G`, kernel.py 217. -/
def shearMod (e : Elem K) : K := e.E / (2 + 2 * e.nu)

/-- `phi = 12 * E * I * kappa / (A * G * L**2)`, kernel.py 270. -/
def phi (ty : ElementType) (e : Elem K) : K :=
  12 * e.E * e.I * kappa ty e / (e.A * shearMod e * e.L ^ 2)

/-- The beam matrix for a given shear parameter, kernel.py 271-286. -/
def beamMatrix (L E A I ph : K) : Matrix (Fin 6) (Fin 6) K :=
  let X := A * E / L
  let Y1 := (12 * E * I) / ((1 + ph) * L ^ 3)
  let Y2 := (6 * E * I) / ((1 + ph) * L ^ 2)
  let Y3 := ((4 + ph) * E * I) / ((1 + ph) * L)
  let Y4 := ((2 - ph) * E * I) / ((1 + ph) * L)
  !![X, 0, 0, -X, 0, 0;
     0, Y1, Y2, 0, -Y1, Y2;
     0, Y2, Y3, 0, -Y2, Y4;
     -X, 0, 0, X, 0, 0;
     0, -Y1, -Y2, 0, Y1, -Y2;
     0, Y2, Y4, 0, -Y2, Y3]

/-- `elem_mechanical_stiffness_matrix` for one element, kernel.py 185-286. -/
def mechMatrix (ty : ElementType) (e : Elem K) : Matrix (Fin 6) (Fin 6) K :=
  beamMatrix e.L e.E e.A e.I (phi ty e)

/-- `elem_py_stiffness_matrix` for one element of length `L` with spring stiffness `kt` at its top
and `kb` at its bottom, kernel.py 319-362. -/
def pyMatrix (L kt kb : K) : Matrix (Fin 6) (Fin 6) K :=
  let A := 2 * L / 7
  let B := L ^ 2 / 28
  let C := L ^ 3 / 168
  let D := 9 * L / 140
  let E := L ^ 2 / 70
  let F := 3 * L / 35
  let G := -(L ^ 2) / 60
  let H := -(L ^ 3) / 280
  let I := L ^ 3 / 280
  kt • !![0, 0, 0, 0, 0, 0;
          0, A, B, 0, D, G;
          0, B, C, 0, E, H;
          0, 0, 0, 0, 0, 0;
          0, D, E, 0, F, G;
          0, G, H, 0, G, I] +
  kb • !![0, 0, 0, 0, 0, 0;
          0, F, -G, 0, D, -E;
          0, -G, -H, 0, -G, -I;
          0, 0, 0, 0, 0, 0;
          0, D, -G, 0, A, -B;
          0, -E, -I, 0, -B, C]

/-- `elem_tz_stiffness_matrix` for one element, kernel.py 392-431. -/
def tzMatrix (L kt kb : K) : Matrix (Fin 6) (Fin 6) K :=
  let A := L / 4
  let B := L / 12
  kt • !![A, 0, 0, B, 0, 0;
          0, 0, 0, 0, 0, 0;
          0, 0, 0, 0, 0, 0;
          B, 0, 0, B, 0, 0;
          0, 0, 0, 0, 0, 0;
          0, 0, 0, 0, 0, 0] +
  kb • !![B, 0, 0, B, 0, 0;
          0, 0, 0, 0, 0, 0;
          0, 0, 0, 0, 0, 0;
          B, 0, 0, A, 0, 0;
          0, 0, 0, 0, 0, 0;
          0, 0, 0, 0, 0, 0]

/-- The coefficients `A, B, C, D` of the moment-rotation matrix, kernel.py 497-551.  The code assigns
the coefficient `A` to the variable that holds the cross-section area (line 543) before that variable
is used as an area in `B`, `C` and `D`; this is kept here (`A'` is the overwritten variable). -/
def mtCoeffs (ty : ElementType) (e : Elem K) : K × K × K × K :=
  match ty with
  | .eulerBernoulli => (6 / (5 * e.L), 1 / 10, 2 * e.L / 15, -e.L / 30)
  | .timoshenko =>
    let omega := e.E * e.I * kappa ty e / (e.A * shearMod e * e.L ^ 2)
    let ph := (12 * omega + 1) ^ 2
    let A' := 6 * (120 * omega ^ 2 + 20 * omega + 1) / ((5 * e.L) * ph)
      + 12 * e.I / (e.A * e.L ^ 3 * ph)
    let B := 1 / (10 * ph) + 6 * e.I / (A' * e.L ^ 2 * ph)
    let C := (2 * e.L * (90 * omega ^ 2 + 15 * omega + 1)) / (15 * ph)
      + 4 * e.I * (36 * omega ^ 2 + 6 * omega + 1) / (A' * e.L * ph)
    let D := -e.L * (360 * omega ^ 2 + 60 * omega + 1) / (30 * ph)
      - 2 * e.I * (72 * omega ^ 2 + 12 * omega - 1) / (A' * e.L * ph)
    (A', B, C, D)

/-- The matrix pattern of `elem_mt_stiffness_matrix`, kernel.py 558-567. -/
def mtPattern (A B C D : K) : Matrix (Fin 6) (Fin 6) K :=
  !![0, 0, 0, 0, 0, 0;
     0, A, B, 0, -A, B;
     0, B, C, 0, -B, D;
     0, 0, 0, 0, 0, 0;
     0, -A, -B, 0, A, -B;
     0, B, D, 0, -B, C]

/-- `elem_mt_stiffness_matrix` for one element with rotational spring stiffness `kt` at its top and
`kb` at its bottom, kernel.py 434-569. -/
def mtMatrix (ty : ElementType) (e : Elem K) (kt kb : K) : Matrix (Fin 6) (Fin 6) K :=
  let (A, B, C, D) := mtCoeffs ty e
  (1 / 2 * kt + 1 / 2 * kb) • mtPattern A B C D

/-! ### assembly -/

/-- `K_temp` of `jit_build`, kernel.py 705-709: the element matrix `k` at rows and columns
`3 i, ..., 3 i + 5`. -/
def place (n : ℕ) (i : Fin n) (k : Matrix (Fin 6) (Fin 6) K) :
    Matrix (Fin (3 * n + 3)) (Fin (3 * n + 3)) K := fun r c =>
  if h : (3 * i.1 ≤ r.1 ∧ r.1 < 3 * i.1 + 6) ∧ (3 * i.1 ≤ c.1 ∧ c.1 < 3 * i.1 + 6) then
    k ⟨r.1 - 3 * i.1, by omega⟩ ⟨c.1 - 3 * i.1, by omega⟩
  else 0

/-- `jit_build`, kernel.py 698-714. -/
def assemble (n : ℕ) (k : Fin n → Matrix (Fin 6) (Fin 6) K) :
    Matrix (Fin (3 * n + 3)) (Fin (3 * n + 3)) K := ∑ i, place n i (k i)

/-- Contribution of the base springs, kernel.py 775-785: entries `[-2,-2]` (shear `h`), `[-1,-1]`
(moment `m`) and `[-3,-3]` (axial `q`). A switched-off spring is a zero stiffness. -/
def baseMatrix (n : ℕ) (h m q : K) : Matrix (Fin (3 * n + 3)) (Fin (3 * n + 3)) K :=
  fun r c =>
    if r.1 = 3 * n + 1 ∧ c.1 = 3 * n + 1 then h
    else if r.1 = 3 * n + 2 ∧ c.1 = 3 * n + 2 then m
    else if r.1 = 3 * n ∧ c.1 = 3 * n then q
    else 0

/-- Spring stiffnesses of one element as they enter `build_stiffness_matrix`: top and bottom values
of the p-y, t-z and m-t springs (zero where switched off or absent). -/
structure SoilK (K : Type) where
  py : K × K
  tz : K × K
  mt : K × K
deriving DecidableEq, Repr

/-- Sum of the element matrices, kernel.py 748-771 (soil present, `u` and `kind` given).  The
combination "distributed moment without distributed lateral", which raises, is not represented. -/
def elemMatrix (ty : ElementType) (e : Elem K) (s : SoilK K) : Matrix (Fin 6) (Fin 6) K :=
  mechMatrix ty e + pyMatrix e.L s.py.1 s.py.2 + tzMatrix e.L s.tz.1 s.tz.2
    + mtMatrix ty e s.mt.1 s.mt.2

/-- `build_stiffness_matrix` without soil, kernel.py 717-787. -/
def beamStiffness (ty : ElementType) (n : ℕ) (el : Fin n → Elem K) :
    Matrix (Fin (3 * n + 3)) (Fin (3 * n + 3)) K := assemble n (fun i => mechMatrix ty (el i))

/-- `build_stiffness_matrix` with soil, kernel.py 717-787, for given spring stiffnesses. -/
def soilStiffness (ty : ElementType) (n : ℕ) (el : Fin n → Elem K) (s : Fin n → SoilK K)
    (h m q : K) : Matrix (Fin (3 * n + 3)) (Fin (3 * n + 3)) K :=
  assemble n (fun i => elemMatrix ty (el i) (s i)) + baseMatrix n h m q

/-- `global_dof_vector_to_consistent_stacked_array(u, 6)`, kernel.py 87-93: row `i` holds the degrees
of freedom of nodes `i` and `i + 1`.  (That the numpy reshapes produce this is theorem
`C43_stacked_array`.) -/
def stacked {n : ℕ} (u : Fin (3 * n + 3) → K) (i : Fin n) : Fin 6 → K :=
  fun a => u ⟨3 * i.1 + a.1, by omega⟩

/-- `pile_internal_forces`, kernel.py 811-825: row `i` of the returned vector (before flattening). -/
def internalForces (ty : ElementType) {n : ℕ} (el : Fin n → Elem K) (u : Fin (3 * n + 3) → K)
    (i : Fin n) : Fin 6 → K := fun a => -((mechMatrix ty (el i)) *ᵥ stacked u i) a

/-! ### linear system -/

/-- `np.linalg.solve`: the solution of a non-singular system; `none` is `LinAlgError`. -/
noncomputable def linSolve {ι : Type} [Fintype ι] [DecidableEq ι] (A : Matrix ι ι K) (b : ι → K) :
    Option (ι → K) := by
  classical
  exact if IsUnit A.det then some (A⁻¹ *ᵥ b) else none

/-- `solve_equations`, kernel.py 96-158.  Returns displacements and reactions; `none` is
`LinAlgError`. -/
noncomputable def solveEquations {ι : Type} [Fintype ι] [DecidableEq ι] (A : Matrix ι ι K)
    (F U : ι → K) (restr : ι → Bool) : Option ((ι → K) × (ι → K)) :=
  if ∃ i, restr i = true then
    let Fred : {i // ¬ restr i = true} → K := fun i =>
      F i - ∑ j : {j // restr j = true}, A i j * U j
    let Kred : Matrix {i // ¬ restr i = true} {i // ¬ restr i = true} K :=
      A.submatrix (fun i => i.1) (fun j => j.1)
    (linSolve Kred Fred).map (fun x =>
      let u : ι → K := fun i => if h : ¬ restr i = true then x ⟨i, h⟩ else U i
      (u, fun i => (A *ᵥ u) i - F i))
  else
    (linSolve A F).map (fun u => (u, fun i => (A *ᵥ u) i - F i))

/-- Rows of `structural_forces_to_df` for one element, winkler.py 88-106: `(N, V, M)` at the element
top and at the element bottom, from the row `q` of the internal forces. -/
def sectionForces (L : K) (q : Fin 6 → K) : (K × K × K) × (K × K × K) :=
  ((-q 0, -q 1, -q 2), (q 3, q 4, -q 2 + L * q 1))

/-- `beam`, winkler.py 449-499, for a model without soil, from the nodal loads `F`, the nodal
prescribed displacements `U` and the fixations `fix`: displacements, reactions (before small values
are masked, winkler.py 79-85) and section forces per element.  `none` is `LinAlgError`. -/
noncomputable def beam [DecidableEq K] (ty : ElementType) {n : ℕ} (el : Fin n → Elem K)
    (F U : Fin (3 * n + 3) → K) (fix : Fin (3 * n + 3) → Bool) :
    Option ((Fin (3 * n + 3) → K) × (Fin (3 * n + 3) → K) × (Fin n → (K × K × K) × (K × K × K))) :=
  (solveEquations (beamStiffness ty n el) F U (fun r => fix r || decide (U r ≠ 0))).map
    (fun uq => (uq.1, uq.2, fun i => sectionForces (el i).L (internalForces ty el uq.1 i)))

end OpenPile.Kernel
