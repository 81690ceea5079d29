/-
Spring tables and their stiffness.

Models `src/openpile/core/kernel.py` 28-66 (`double_inner_njit`), 828-1154 (stiffness of p-y, t-z,
m-t and base springs) and `np.interp`.  A table is the list of its points `(displacement,
resistance)` (the code stores two rows of an array).  `none` stands for an `IndexError` or a division
by zero.
-/
import Mathlib.Algebra.Order.Field.Basic
import Mathlib.Algebra.BigOperators.Group.List.Basic

namespace OpenPile.Spring

variable {K : Type} [Field K] [LinearOrder K]

/-- `np.interp(x, xp, fp)` for ascending `xp`: values are clamped at both ends. -/
def interp (x : K) : List (K × K) → Option K
  | [] => none
  | [(_, f)] => some f
  | (a, f) :: (b, g) :: rest =>
    if x < a then some f
    else if x < b then some (f + (g - f) / (b - a) * (x - a))
    else interp x ((b, g) :: rest)

/-- The literal `kind`. -/
inductive Kind
  | initial
  | secant
  | tangent
deriving DecidableEq, Repr

/-- `abs(dp / dx)`; `none` is a division by zero. -/
def absQuot (dp dx : K) : Option K := if dx = 0 then none else some |dp / dx|

/-- `np.max` of the displacement row. -/
def maxDisp (tab : List (K × K)) : Option K := (tab.map (·.1)).max?

/-- `p1 = p[-1] if d > max(x) else interp(d, x, p)`, kernel.py 862-865, 866-874. -/
def resistance (tab : List (K × K)) (d : K) : Option K := do
  let m ← maxDisp tab
  if d > m then return (← tab.getLast?).2
  else interp d tab

/-- Body shared by `calculate_base_spring_stiffness` (kernel.py 857-877) and
`calculate_py_springs_stiffness` (971-993): stiffness of a non-zero table at displacement `u`. -/
def curveStiffness (tab : List (K × K)) (kind : Kind) (u : K) : Option K :=
  match tab with
  | (x0, p0) :: (x1, p1) :: rest =>
    if kind = .initial ∨ |u| = 0 then absQuot (p1 - p0) (x1 - x0)
    else
      match kind with
      | .initial => none
      | .secant => do
        let r ← resistance ((x0, p0) :: (x1, p1) :: rest) |u|
        absQuot (r - p0) |u|
      | .tangent => do
        let dx := min (5 / 10000) |u|
        let r0 ← resistance ((x0, p0) :: (x1, p1) :: rest) (|u| - dx)
        let r1 ← resistance ((x0, p0) :: (x1, p1) :: rest) |u|
        absQuot (r1 - r0) dx
  | _ => none

/-- `calculate_base_spring_stiffness`, kernel.py 828-879: zero if the resistances sum to zero. -/
def baseStiffness (tab : List (K × K)) (kind : Kind) (u : K) : Option K :=
  if (tab.map (·.2)).sum = 0 then some 0 else curveStiffness tab kind u

/-- `calculate_py_springs_stiffness` for one end of one element, kernel.py 935-995: zero if the
displacements sum to zero. -/
def pyStiffness (tab : List (K × K)) (kind : Kind) (u : K) : Option K :=
  if (tab.map (·.1)).sum = 0 then some 0 else curveStiffness tab kind u

/-- Python's `round(n / 2)` for a natural number `n`: halves go to the even neighbour. -/
def roundHalf (n : ℕ) : ℕ :=
  if n % 2 = 0 then n / 2 else if (n / 2) % 2 = 0 then n / 2 else n / 2 + 1

/-- `spring_0_index = round(n / 2) - 1`, kernel.py 908, 1030.  (For `n ≤ 1` the index is `-1`, which
is not represented: such tables raise when the next entry is read.) -/
def zeroIndex (n : ℕ) : ℕ := roundHalf n - 1

/-- Body shared by the axial routines, kernel.py 913-930 and 1037-1058.  The tables are stored with
descending displacement and reversed for `np.interp`. -/
def axialCurveStiffness (tab : List (K × K)) (kind : Kind) (u : K) : Option K := do
  let (x0, p0) ← tab[zeroIndex tab.length]?
  let (x1, p1) ← tab[zeroIndex tab.length + 1]?
  if kind = .initial ∨ u = 0 then absQuot (p1 - p0) (x0 - x1)
  else
    match kind with
    | .initial => none
    | .secant => do
      let r ← interp u tab.reverse
      absQuot (r - p0) u
    | .tangent => do
      let dx := min (5 / 10000) |u|
      let r0 ← interp (if u > 0 then u - dx else u + dx) tab.reverse
      let r1 ← interp u tab.reverse
      absQuot (r1 - r0) dx

/-- `calculate_base_axial_spring_stiffness`, kernel.py 882-932. -/
def baseAxialStiffness (tab : List (K × K)) (kind : Kind) (u : K) : Option K :=
  if (tab.map (fun q => |q.2|)).sum = 0 then some 0 else axialCurveStiffness tab kind u

/-- `calculate_tz_springs_stiffness` for one end of one element, kernel.py 999-1060. -/
def tzStiffness (tab : List (K × K)) (kind : Kind) (u : K) : Option K :=
  if (tab.map (fun q => |q.1|)).sum = 0 then some 0 else axialCurveStiffness tab kind u

/-- An m-t table: for each resistance `p` of the p-y table a row of points `(t, m)`. -/
abbrev MtTable (K : Type) := List (K × List (K × K))

/-- The m-t curve for the mobilised resistance `p`, kernel.py 1106-1108, 1119-1129: point 0 is
`(0, 0)`, the others are interpolated column-wise between the rows. -/
def mtCurve (rows : MtTable K) (ncol : ℕ) (p : K) : Option (List (K × K)) := do
  let tail ← (List.range (ncol - 1)).mapM (fun c => do
    let ms ← rows.mapM (fun r => (r.2[c + 1]?).map (fun q => (r.1, q.2)))
    let ts ← rows.mapM (fun r => (r.2[c + 1]?).map (fun q => (r.1, q.1)))
    let m ← interp p ms
    let t ← interp p ts
    return (t, m))
  return (0, 0) :: tail

/-- `abs(dm) / dt`, kernel.py 1152. -/
def quot (dm dt : K) : Option K := if dt = 0 then none else some (|dm| / dt)

/-- `calculate_mt_springs_stiffness` for one end of one element, kernel.py 1063-1154, for rotation
`u` and mobilised lateral resistance `p` (signed, see `elem_mt_stiffness_matrix` 466-468). -/
def mtStiffness (rows : MtTable K) (ncol : ℕ) (p : K) (kind : Kind) (u : K) : Option K := do
  let first ← rows.head?
  if (first.2.map (·.1)).sum = 0 then return 0
  let cur ← mtCurve rows ncol p
  let (t0, m0) ← cur[0]?
  let (t1, m1) ← cur[1]?
  let (tl, ml) ← cur.getLast?
  let val : K → Option K := fun d => if d > tl then some ml else interp d cur
  if kind = .initial ∨ |u| = 0 then quot (m1 - m0) (t1 - t0)
  else
    match kind with
    | .initial => none
    | .secant => do
      let r ← val |u|
      quot (r - m0) |u|
    | .tangent => do
      let dt := min (1 / 100 * t1) |u|
      let r0 ← val (|u| - dt)
      let r1 ← val |u|
      quot (r1 - r0) dt

/-- The while loop of `double_inner_njit`, kernel.py 45-64, from counter `i` with output `out`
(`numba` does not check bounds; the write at index `len(out)` (line 50) is outside the array and is
not represented). The last branch (`i` even, 60-64) is unreachable after `i = 0`. -/
def doubleLoop (inp : List K) (i : ℕ) (out : List K) : Option (List K) :=
  if i < out.length + 1 then
    if i = 0 then do
      let v ← inp.head?
      doubleLoop inp (i + 1) (out.set i v)
    else if i = out.length then doubleLoop inp (i + 1) out
    else if i = out.length - 1 then do
      let v ← inp[inp.length - 2]?
      doubleLoop inp (i + 1) (out.set i v)
    else if i % 2 ≠ 0 then do
      let v ← inp[(i + 1) / 2]?
      doubleLoop inp (i + 2) ((out.set i v).set (i + 1) v)
    else do
      let v ← inp[i / 2]?
      doubleLoop inp (i + 2) ((out.set i v).set (i + 1) v)
  else some out
termination_by out.length + 1 - i
decreasing_by all_goals (try simp only [List.length_set]); omega

/-- `double_inner_njit`, kernel.py 40-66. -/
def doubleInner (inp : List K) : Option (List K) :=
  doubleLoop inp 0 (List.replicate ((inp.length - 1) * 2) 0)

end OpenPile.Spring
