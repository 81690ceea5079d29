/-
Tables of springs and axial resistances computed from the springs of a Model.

Models `src/openpile/core/misc.py` 79-223 (`get_distributed_soil_springs`, `get_lumped_soil_springs`),
`src/openpile/construct.py` 1418-1453 (`shaft_resistance`, `tip_resistance`) and 1625-1802 (the
`get_*_spring(s)` methods).

A mesh has nodes `0, ..., n` with elevations `z 0, ..., z n` and elements `0, ..., n - 1`; arrays are
functions of the index, of which only these arguments matter.  Floats are elements of an ordered field;
that products are rounded to float32 when they are stored in the spring arrays is not modelled.
-/
import Mathlib.Algebra.Order.Field.Basic
import Mathlib.Algebra.Order.BigOperators.Group.Finset
import Mathlib.Algebra.BigOperators.Group.Finset.Basic

namespace OpenPile.Extract

variable {K : Type} [Field K] [LinearOrder K]

/-- One spring of an element: `springs[i, j, 0, :]` (resistance) and `springs[i, j, 1, :]`
(displacement). -/
structure Curve (K : Type) where
  r : List K
  d : List K
deriving DecidableEq, Repr

/-- The springs of all elements: `springs[i, j]` with `j = 0` (`false`) at the top and `j = 1` (`true`)
at the bottom of element `i`. -/
abbrev Springs (K : Type) := ℕ → Bool → Curve K

/-- `np.abs(np.gradient(elevations))` for the nodes `0, ..., n`, misc.py 115, 188, construct.py 1426. -/
def gradient (z : ℕ → K) (n i : ℕ) : K :=
  if i = 0 then |z 1 - z 0|
  else if i = n then |z n - z (n - 1)|
  else |(z (i + 1) - z (i - 1)) / 2|

/-- `influence` of the spring tables: the ends are halved, misc.py 115-117, 188-190. -/
def influence (z : ℕ → K) (n i : ℕ) : K :=
  if i = 0 ∨ i = n then gradient z n i / 2 else gradient z n i

/-- The two assignments `springs[:, 0, 0, :] = springs[:, 0, 0, :] * influence[:-1]` and
`springs[:, 1, 0, :] = ...`, misc.py 119-120, 192-193.  They change the array of the caller. -/
def weighted (z : ℕ → K) (n : ℕ) (s : Springs K) : Springs K :=
  fun i b => { (s i b) with r := (s i b).r.map (· * influence z n (if b then i + 1 else i)) }

/-- `a * x + b * y` elementwise for rows of equal length. -/
def combine (a : K) (x : List K) (b : K) (y : List K) : List K :=
  List.zipWith (fun u v => u * a + v * b) x y

/-- The two rows of one node of the lumped table, misc.py 195-212; `s` are the weighted springs. -/
def lumpedRow (z : ℕ → K) (n : ℕ) (s : Springs K) (j : ℕ) : Curve K :=
  if j = 0 then s 0 false
  else if j = n then s (n - 1) true
  else
    { r := combine (influence z n (j - 1)) (s (j - 1) true).r (influence z n j) (s j false).r
      d := combine (influence z n (j - 1)) (s (j - 1) true).d (influence z n j) (s j false).d }

/-- The two rows of one node of the distributed table, misc.py 122-139. -/
def distributedRow (z : ℕ → K) (n : ℕ) (s : Springs K) (j : ℕ) : Curve K :=
  if j = 0 then s 0 false
  else if j = n then s (n - 1) true
  else
    { r := (combine (influence z n (j - 1)) (s (j - 1) true).r (influence z n j) (s j false).r).map
        (· / (influence z n (j - 1) + influence z n j))
      d := (combine (influence z n (j - 1)) (s (j - 1) true).d (influence z n j) (s j false).d).map
        (· / (influence z n (j - 1) + influence z n j)) }

/-- `springs.max(axis=3)`, misc.py 103-104, 176-177: a new array with the largest entry over the rows of
every table of moments (and of rotations). -/
def maxRows (rows : List (List K)) : List K :=
  match rows with
  | [] => []
  | r :: rs => rs.foldl (fun a b => List.zipWith max a b) r

/-- One m-t spring: a row of moments and a row of rotations for every lateral resistance. -/
structure MtCurve (K : Type) where
  m : List (List K)
  t : List (List K)
deriving DecidableEq, Repr

/-- The springs stored in a Model. -/
structure Store (K : Type) where
  py : Springs K
  tz : Springs K
  mt : ℕ → Bool → MtCurve K
  hb : Curve K
  mb : Curve K
  qz : Curve K

/-- `kind` of a table. -/
inductive Kind
  | lumped
  | distributed
deriving DecidableEq, Repr

/-- A call of one of the `get_*` methods. -/
inductive Query
  | axial (k : Kind)
  | lateral (k : Kind)
  | rotational (k : Kind)
  | baseShear
  | baseAxial
  | baseRotational
deriving DecidableEq, Repr

/-- The rows of the nodes `0, ..., n`. -/
def table (k : Kind) (z : ℕ → K) (n : ℕ) (s : Springs K) : List (Curve K) :=
  (List.range (n + 1)).map (fun j : ℕ => match k with
    | .lumped => lumpedRow z n s j
    | .distributed => distributedRow z n s j)

/-- One call, construct.py 1625-1802: the springs afterwards and the table, or `none` if the call raises
an exception.  For the p-y and t-z springs the array of the Model is passed and changed; for the m-t
springs `max` makes a copy.  `misc.get_soil_springs` (line 1713) does not exist. -/
def query (z : ℕ → K) (n : ℕ) (q : Query) (s : Store K) : Store K × Option (List (Curve K)) :=
  match q with
  | .axial k => ({ s with tz := weighted z n s.tz }, some (table k z n (weighted z n s.tz)))
  | .lateral k => ({ s with py := weighted z n s.py }, some (table k z n (weighted z n s.py)))
  | .rotational .distributed => (s, none)
  | .rotational .lumped =>
    (s, some (table .lumped z n
      (weighted z n (fun i b => ⟨maxRows (s.mt i b).m, maxRows (s.mt i b).t⟩))))
  | .baseShear => (s, some [s.hb])
  | .baseAxial => (s, some [s.qz])
  | .baseRotational => (s, some [s.mb])

/-- A sequence of calls: the springs afterwards and all tables. -/
def run (z : ℕ → K) (n : ℕ) : List Query → Store K → Store K × List (Option (List (Curve K)))
  | [], s => (s, [])
  | q :: qs, s =>
    let (s', t) := query z n q s
    let (s'', ts) := run z n qs s'
    (s'', t :: ts)

/-! ### axial resistance -/

/-- `np.min` of a row; `none` (ValueError) for an empty one. -/
def rowMin (l : List K) : Option K := l.min?

/-- `np.max` of a row. -/
def rowMax (l : List K) : Option K := l.max?

/-- One term of the sums of `shaft_resistance`, construct.py 1426-1444; `influence` is half of the
gradient at every node. -/
def shaftTerm (f : List K → Option K) (z : ℕ → K) (n : ℕ) (tz : Springs K) (i : ℕ) : Option K := do
  let t ← f (tz i false).r
  let b ← f (tz i true).r
  return |t * (gradient z n i / 2) + b * (gradient z n (i + 1) / 2)|

/-- `np.sum` of optional terms. -/
def sumTerms (f : ℕ → Option K) : ℕ → Option K
  | 0 => some 0
  | n + 1 => do
    let s ← sumTerms f n
    let t ← f n
    return s + t

/-- `Model.shaft_resistance`, construct.py 1418-1445: compression and tension. -/
def shaftResistance (z : ℕ → K) (n : ℕ) (tz : Springs K) : Option (K × K) := do
  let c ← sumTerms (shaftTerm rowMin z n tz) n
  let t ← sumTerms (shaftTerm rowMax z n tz) n
  return (c, t)

/-- `Model.tip_resistance`, construct.py 1447-1453. -/
def tipResistance (qz : Curve K) : Option K := do
  let q ← rowMin qz.r
  return |q|

end OpenPile.Extract
