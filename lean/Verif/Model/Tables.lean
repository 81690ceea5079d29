/-
The tables of springs with their labels.

Models the DataFrames made in `src/openpile/core/misc.py` 112-153 and 185-223 and in
`src/openpile/construct.py` 1625-1802 (columns "Node no.", "Elevation [m]", "type" and the values).  The values
are those of Model/Extract.lean.  Calls for a Model without soil or with another `kind` return None and are left out.
-/
import Verif.Model.Extract
import Verif.Model.Mesh

namespace OpenPile.Extract
open OpenPile.Mesh (Coordinates)

variable {K : Type} [Field K] [LinearOrder K]

/-- A row of a table of springs. -/
structure TableRow (K : Type) where
  node : ℕ
  elevation : K
  type : String
  values : List K
deriving DecidableEq, Repr

/-- `np.repeat(l, 2)`, misc.py 112-113, 185-186. -/
def twice {α : Type} (l : List α) : List α := l.flatMap (fun a => [a, a])

/-- Columns put side by side as in `pd.DataFrame(data=...)`; `none` (ValueError) if their lengths differ,
misc.py 141-151, 214-223. -/
def columns (node : List ℕ) (elevation : List K) (type : List String) (values : List (List K)) :
    Option (List (TableRow K)) :=
  if node.length = elevation.length ∧ type.length = elevation.length ∧ values.length = elevation.length then
    some (List.zipWith (fun (a : ℕ × K) (b : String × List K) => ⟨a.1, a.2, b.1, b.2⟩) (node.zip elevation) (type.zip values))
  else none

/-- The table of distributed springs, misc.py 112-113, 141-151 and 185-186, 214-223: `nelem` is the length of the
array of springs, `z` are the elevations, `kind.split("-")` is `(a, b)`, `t` are the rows of the nodes. -/
def labelled (nelem : ℕ) (z : List K) (a b : String) (t : List (Curve K)) : Option (List (TableRow K)) :=
  columns (twice (List.range (nelem + 1))) (twice z) (z.flatMap (fun _ => [a, b])) (t.flatMap (fun c => [c.r, c.d]))

/-- The table of a base spring, construct.py 1740-1750, 1766-1776, 1793-1802. -/
def baseTable (nelem : ℕ) (bottom : K) (a b : String) (c : Curve K) : Option (List (TableRow K)) :=
  columns [nelem + 1, nelem + 1] [bottom, bottom] [a, b] [c.r, c.d]

/-- The DataFrame a call returns, construct.py 1625-1802; `C` is the mesh of the Model, whose number of elements is
that of `element_properties` (1143-1144), and `bottom` is `pile.bottom_elevation`.  `none`: an exception is raised. -/
def report (C : Coordinates K) (bottom : K) (q : Query) (s : Store K) : Option (List (TableRow K)) := do
  let n := C.elements.length
  let t ← (query (fun i => C.nodes.getD i 0) n q s).2
  match q with
  | .axial _ => labelled n C.nodes "t" "z" t
  | .lateral _ => labelled n C.nodes "p" "y" t
  | .rotational _ => labelled n C.nodes "m" "t" t
  | .baseShear => baseTable n bottom "Hb" "y" s.hb
  | .baseAxial => baseTable n bottom "q" "z" s.qz
  | .baseRotational => baseTable n bottom "Mb" "t" s.mb

end OpenPile.Extract
