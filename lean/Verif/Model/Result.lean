/-
Result tables.

Models `src/openpile/winkler.py` 29-125 (`springs_mob_to_df`, `reaction_forces_to_df`,
`structural_forces_to_df`, `disp_to_df`), 616-627 (base spring mobilisation),
`src/openpile/core/misc.py` 70-76 (`repeat_inner`) and `src/openpile/core/kernel.py` 87-93
(`global_dof_vector_to_consistent_stacked_array`).  A data frame is the list of its rows; vectors are
lists.
-/
import Verif.Model.Spring

namespace OpenPile.Result
open OpenPile.Spring

section shape
variable {α : Type}

/-- `repeat_inner`, core/misc.py 70-76: first entry, inner entries twice, last entry.  (`np.tile(…, 2)`
on a column followed by `reshape(-1)` writes every inner entry twice in succession.)  `none` is the
`IndexError` on an empty array. -/
def repeatInner (l : List α) : Option (List α) := do
  let first ← l.head?
  let last ← l.getLast?
  return first :: ((l.drop 1).dropLast.flatMap (fun x => [x, x]) ++ [last])

/-- `arr.reshape(-1, m)` of a vector; `none` if the length is no multiple of `m`. -/
def reshape (m : ℕ) (v : List α) : Option (List (List α)) :=
  if m = 0 ∨ v.length % m ≠ 0 then none
  else some ((List.range (v.length / m)).map (fun i : ℕ => (v.drop (m * i)).take m))

/-- `global_dof_vector_to_consistent_stacked_array`, kernel.py 87-93 (the trailing axis of length one
is dropped): rows of three, inner rows doubled, regrouped in rows of `dim`. -/
def stackedArray (v : List α) (dim : ℕ) : Option (List (List α)) := do
  let rows ← reshape 3 v
  let rows ← repeatInner rows
  reshape dim rows.flatten

/-- `v[s::3]` for `s < 3`: the entries `v[s], v[s + 3], …` that exist. -/
def every3 (s : ℕ) (v : List α) : List α :=
  (List.range ((v.length + 2 - s) / 3)).filterMap (fun j : ℕ => v[3 * j + s]?)

end shape

section tables
variable {K : Type} [Field K] [LinearOrder K]

/-- `np.max` over one row of one table. -/
def maxOf (l : List K) : Option K := l.max?

/-- One row of the mobilisation table, winkler.py 52-60. -/
structure MobRow (K : Type) where
  elevation : K
  pMob : K
  pMax : K
  mMob : K
  mMax : K
deriving Repr, DecidableEq

/-- One entry of the columns of `springs_mob_to_df`, winkler.py 35-50: elevation `e`, lateral
displacement `u`, rotation `r`, p-y table and m-t table (curves of `ncol` points). -/
def mobRow (e u r : K) (tab : List (K × K)) (tbl : MtTable K) (ncol : ℕ) : Option (MobRow K) := do
  let ks ← pyStiffness tab .secant u
  let pmax ← maxOf (tab.map (·.2))
  let km ← mtStiffness tbl ncol (u * ks) .secant r
  let last ← tbl.getLast?
  let mmax ← maxOf (last.2.map (·.2))
  return ⟨e, |u * ks|, pmax, |r * km|, mmax⟩

/-- `springs_mob_to_df`, winkler.py 29-64, given node elevations `z`, lateral displacements `uy`,
rotations `ur`, p-y tables `py` and m-t tables `mt` (top and bottom of every element in sequence) and
the number `ncol` of points of the m-t curves.  Row entries that cannot be formed give `none`. -/
def springsMob (z uy ur : List K) (py : List (List (K × K))) (mt : List (MtTable K)) (ncol : ℕ) :
    Option (List (MobRow K)) := do
  let x ← doubleInner z
  let dy ← doubleInner uy
  let dr ← doubleInner ur
  (List.range x.length).mapM (fun i : ℕ => do
    let e ← x[i]?
    let u ← dy[i]?
    let r ← dr[i]?
    let tab ← py[i]?
    let tbl ← mt[i]?
    mobRow e u r tab tbl ncol)

/-- Base spring mobilisation `(abs(d) * k_secant, spring.flatten().max())`, winkler.py 616-627: the
maximum is taken over the resistance and the displacement row together. -/
def baseMob (tab : List (K × K)) (d : K) : Option (K × K) := do
  let k ← baseStiffness tab .secant d
  let m ← maxOf (tab.map (·.2) ++ tab.map (·.1))
  return (|d| * k, m)

/-- Masking of small reactions, winkler.py 79-81. -/
def maskSmall (q : K) : K := if |q| < 1 / 1000 then 0 else q

/-- `reaction_forces_to_df`, winkler.py 67-85: rows `(z, [N, V, M])`. -/
def reactionRows (z : List K) (Q : List K) : Option (List (K × List K)) := do
  let rows ← reshape 3 Q
  if rows.length ≠ z.length then none
  else return ((z.zip (rows.map (·.map maskSmall))).filter
    (fun r => r.2.any (fun q => decide (1 / 1000 < |q|))))

/-- `disp_to_df`, winkler.py 109-125: rows `(z, Tz, Ty, Rx)`; `none` is the `ValueError` of columns of
different lengths. -/
def dispRows (z : List K) (u : List K) : Option (List (K × K × K × K)) :=
  let tz := every3 0 u
  let ty := every3 1 u
  let rx := every3 2 u
  if tz.length = z.length ∧ ty.length = z.length ∧ rx.length = z.length then
    some (z.zip (tz.zip (ty.zip rx)))
  else none

/-- `structural_forces_to_df`, winkler.py 88-106, given the element end forces as rows of six
(`q[6 i + a]`), element lengths and node elevations: top and bottom row of every element. -/
def forceRows (z : List K) (q : List (List K)) (L : List K) : Option (List (K × K × K × K)) := do
  let zz ← repeatInner z
  let rows ← (q.zip L).mapM (fun (e : List K × K) => do
    let q0 ← e.1[0]?
    let q1 ← e.1[1]?
    let q2 ← e.1[2]?
    let q3 ← e.1[3]?
    let q4 ← e.1[4]?
    let _q5 ← e.1[5]?
    return [(-q0, -q1, -q2), (q3, q4, -q2 + e.2 * q1)])
  if rows.flatten.length = zz.length then return zz.zip rows.flatten else none

end tables

end OpenPile.Result
