/-
Mesh generation.

Models `src/openpile/core/_model_build.py` 65-82 (`parameter2elements`) and 134-197
(`get_coordinates`).  Floats are elements of an archimedean ordered field `K` with a floor
function (ℚ or ℝ); in particular subtractions and divisions are exact.
-/
import Verif.Model.Soil
import Mathlib.Algebra.Order.Floor.Ring
import Mathlib.Algebra.Order.Floor.Semiring

namespace OpenPile.Mesh
open OpenPile.Pile (Pile Section)
open OpenPile.Soil (Layer Profile)

variable {K : Type} [Field K] [LinearOrder K] [FloorRing K]

omit [FloorRing K] in
/-- The `while new_spacing > coarseness` loop, _model_build.py 161-165, started with `divider`.
Returns the final divider; `none` means that the given number of iterations did not suffice. -/
def divLoop (spacing coarseness : K) : ℕ → ℕ → Option ℕ
  | 0, _ => none
  | fuel + 1, divider =>
    if spacing / divider > coarseness then divLoop spacing coarseness fuel (divider + 1)
    else some divider

/-- Number of iterations that is granted to the loop; sufficient for every positive coarseness
(theorem `C06_loop_terminates`). -/
def fuelFor (spacing coarseness : K) : ℕ := ⌈spacing / coarseness⌉₊ + 1

omit [FloorRing K] in
/-- `new_z = z[i] - np.arange(1, divider) * new_spacing`, _model_build.py 166. -/
def innerPoints (zi spacing : K) (divider : ℕ) : List K :=
  (List.range (divider - 1)).map (fun j => zi - ((j + 1 : ℕ) : K) * (spacing / divider))

/-- The loop over the gaps of the primary mesh, _model_build.py 158-167. -/
def secondary (coarseness : K) : List K → Option (List K)
  | a :: b :: l => do
    let d ← divLoop (a - b) coarseness (fuelFor (a - b) coarseness) 1
    let rest ← secondary coarseness (b :: l)
    return innerPoints a (a - b) d ++ rest
  | _ => some []

omit [FloorRing K] in
/-- `pile.data["Elevation [m]"]`, construct.py 326-328: top and bottom of each section. -/
def pileElevations (p : Pile K) : List K := p.sections.flatMap (fun s => [s.top, s.bottom])

omit [FloorRing K] in
/-- Elevations of the soil layers that take part in the mesh, _model_build.py 140-148.
`pileBottom` is `pile.bottom_elevation`. -/
def soilElevations (pileBottom : K) (soil : Option (Profile K)) : List K :=
  match soil with
  | none => []
  | some s =>
    let e := s.layers.map (·.top) ++ s.layers.map (·.bottom)
    if e.any (fun x => decide (x < pileBottom)) then
      (pileBottom :: e).filter (fun x => decide (x ≥ pileBottom))
    else e

omit [FloorRing K] in
/-- The primary mesh, _model_build.py 136-155. -/
def primary (p : Pile K) (pileBottom : K) (soil : Option (Profile K)) (x2mesh : List K) : List K :=
  Py.uniqueDesc (pileElevations p ++ soilElevations pileBottom soil ++ x2mesh)

/-- The exact node elevations before publication, _model_build.py 134-171.  `none`: the pile has no
section (IndexError in `pile.bottom_elevation`; impossible for a validated pile) or the loop does not
terminate (impossible for a validated coarseness). -/
def exactNodes (p : Pile K) (soil : Option (Profile K)) (x2mesh : List K) (coarseness : K) :
    Option (List K) := do
  let pb ← p.bottomElevation
  let z := primary p pb soil x2mesh
  let sec ← secondary coarseness z
  return Py.uniqueDesc (z ++ sec)

/-- `np.rint`: round to the nearest integer, halves to the even one. -/
def rint (x : K) : ℤ :=
  if x - ⌊x⌋ < 1 / 2 then ⌊x⌋
  else if 1 / 2 < x - ⌊x⌋ then ⌊x⌋ + 1
  else if ⌊x⌋ % 2 = 0 then ⌊x⌋ else ⌊x⌋ + 1

/-- `DataFrame.round(4)` for one number (numpy: `rint(x * 10**4) / 10**4`), _model_build.py 183, 194. -/
def round4 (x : K) : K := (rint (x * 10000) : K) / 10000

omit [Field K] [LinearOrder K] [FloorRing K] in
/-- `z[:-1]` paired with `z[1:]`, _model_build.py 186-190: top and bottom of the elements. -/
def pairs (z : List K) : List (K × K) := z.zip z.tail

/-- The mesh published by `get_coordinates`, _model_build.py 134-197: node elevations and the top and
bottom elevation of the elements, rounded to four decimals (the y-coordinates are all zero and are
left out). -/
structure Coordinates (K : Type) where
  nodes : List K
  elements : List (K × K)
deriving DecidableEq, Repr

/-- `get_coordinates`, _model_build.py 134-197. -/
def getCoordinates (p : Pile K) (soil : Option (Profile K)) (x2mesh : List K) (coarseness : K) :
    Option (Coordinates K) := do
  let z ← exactNodes p soil x2mesh coarseness
  return { nodes := z.map round4
           elements := (pairs z).map (fun e => (round4 e.1, round4 e.2)) }

omit [Field K] [FloorRing K] in
/-- `parameter2elements`, _model_build.py 65-82, for one element: the value of the *last* object
that contains it; `none` is NaN. -/
def parameterOf {α β : Type} (top bottom : α → K) (key : α → β) (objects : List α) (e : K × K) :
    Option β :=
  objects.foldl (fun acc o => if e.1 ≤ top o ∧ e.2 ≥ bottom o then some (key o) else acc) none

omit [Field K] [FloorRing K] in
/-- `parameter2elements`, _model_build.py 65-82. -/
def parameter2elements {α β : Type} (top bottom : α → K) (key : α → β) (objects : List α)
    (elements : List (K × K)) : List (Option β) :=
  elements.map (parameterOf top bottom key objects)

end OpenPile.Mesh
