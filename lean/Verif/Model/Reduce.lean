/-
The reduced system of equations, index by index.

Models `src/openpile/core/kernel.py` 68-84 (`numba_ix`) and 96-158 (`solve_equations`) on arrays, as lists.
`Model/Kernel.lean` has the same function on matrices indexed by degrees of freedom, without the positions of the
entries in memory.
-/
import Verif.Model.Kernel

namespace OpenPile.Reduce
open OpenPile.Kernel

variable {K : Type} [Field K]

/-- A two-dimensional array stored row by row; `cols` is `arr.shape[1]`. -/
structure Array2 (K : Type) where
  rows : List (List K)
  cols : ℕ
  rect : ∀ r ∈ rows, r.length = cols

/-- `np.where(b)[0]`, kernel.py 142-143. -/
def whereTrue (b : List Bool) : List ℕ := (List.range b.length).filter (fun i => b[i]? == some true)

/-- The value of an integer stored in an array of `np.int32`, kernel.py 77-80: two's complement. -/
def int32 (v : ℕ) : ℤ := ((v : ℤ) + 2 ^ 31) % 2 ^ 32 - 2 ^ 31

/-- One index of `np.take(arr_1d, one_d_index)`, kernel.py 83: negative indices count from the end, `none` is
`IndexError`. -/
def take (a : List K) (i : ℤ) : Option K :=
  if (a.length : ℤ) - 1 < i ∨ i < -(a.length : ℤ) then none
  else if i < 0 then a[(a.length + i).toNat]? else a[i.toNat]?

/-- `numba_ix(arr, rows, cols)`, kernel.py 68-84: positions in the flattened array, stored as 32-bit integers, then
`reshape((len(rows), len(cols)))`. -/
def numbaIx (arr : Array2 K) (rows cols : List ℕ) : Option (List (List K)) := do
  let index := rows.flatMap (fun r => cols.map (fun c => int32 (c + arr.cols * r)))
  let slice ← index.mapM (take arr.rows.flatten)
  return (List.range rows.length).map (fun i => (slice.drop (i * cols.length)).take cols.length)

/-- `v[idx]`, kernel.py 147-148. -/
def gather (v : List K) (idx : List ℕ) : Option (List K) := idx.mapM (fun i => v[i]?)

/-- `M.dot(v)`, kernel.py 147, 156. -/
def dot (M : List (List K)) (v : List K) : List K := M.map (fun r => (List.zipWith (· * ·) r v).sum)

/-- `jit_solve(A, b)`, kernel.py 24-26; `none` is `LinAlgError`, or `ValueError` for a matrix that is not square. -/
noncomputable def jitSolve (M : List (List K)) (b : List K) : Option (List K) :=
  if M.length = b.length ∧ ∀ r ∈ M, r.length = b.length then
    (linSolve (Matrix.of fun i j : Fin b.length => ((M[i.1]?).bind (fun r => r[j.1]?)).getD 0) b.get).map List.ofFn
  else none

/-- `U[idx] = x`, kernel.py 152. -/
def scatter (U : List K) (idx : List ℕ) (x : List K) : List K := (idx.zip x).foldl (fun l p => l.set p.1 p.2) U

/-- The displacements of `solve_equations`, kernel.py 141-154. -/
noncomputable def displacements (A : Array2 K) (F U : List K) (restraints : List Bool) : Option (List K) :=
  if restraints.any (fun b => b) then do
    let fixed := whereTrue restraints
    let free := whereTrue (restraints.map (fun b => !b))
    let coupling ← numbaIx A free fixed
    let Fred := List.zipWith (· - ·) (← gather F free) (dot coupling (← gather U fixed))
    let Kred ← numbaIx A free free
    return scatter U free (← jitSolve Kred Fred)
  else jitSolve A.rows F

/-- `solve_equations(K, F, U, restraints)`, kernel.py 96-158. -/
noncomputable def solveEquations (A : Array2 K) (F U : List K) (restraints : List Bool) :
    Option (List K × List K) := do
  let u ← displacements A F U restraints
  return (u, List.zipWith (· - ·) (dot A.rows u) F)

end OpenPile.Reduce
