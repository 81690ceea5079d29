/-
The beam analysis of a `Model` without soil from the public calls to the result tables.

Models `src/openpile/winkler.py` 449-499 (`beam`) together with `src/openpile/core/kernel.py` 155-252 (element
data) and 790-808 (nodal columns to vectors).  Joins the models of mesh, boundary conditions, kernel and tables.
Floats are elements of an ordered field `K` with a floor function; `math.pi` is the parameter `pi`.
-/
import Verif.Model.BC
import Verif.Model.Mesh
import Verif.Model.Winkler
import Verif.Model.Result

namespace OpenPile.Analysis
open OpenPile.BC OpenPile.Mesh OpenPile.Kernel OpenPile.Winkler OpenPile.Result
open OpenPile.Pile (Pile)

variable {K : Type} [Field K] [LinearOrder K] [FloorRing K]

/-- The data of an element with given top and bottom elevation, kernel.py 161-182 and 214-252; `none` is NaN (no
section contains the element). -/
def elemAt (pi : K) (p : Pile K) (e : K × K) : Option (Elem K) := do
  let I ← parameterOf (·.top) (·.bottom) (·.inertia pi) p.sections e
  let A ← parameterOf (·.top) (·.bottom) (·.area pi) p.sections e
  let d ← parameterOf (·.top) (·.bottom) (·.width) p.sections e
  let wt ← parameterOf (·.top) (·.bottom) (·.thickness) p.sections e
  return ⟨|e.1 - e.2|, p.material.E, A, I, d, wt, p.material.nu⟩

/-- `df[["Pz", "Py", "Mx"]].values.reshape(-1)`, kernel.py 790-808: per node the vertical, the lateral and the
rotational entry. -/
def dofList {β : Type} (g : Nodal β) : List β :=
  (g.z.zip (g.y.zip g.x)).flatMap (fun r => [r.1, r.2.1, r.2.2])

/-- A list of the right length as a vector; `none` is the `ValueError` of operands of different shapes. -/
def asVec {γ : Type} (n : ℕ) (l : List γ) : Option (Fin (3 * n + 3) → γ) :=
  if h : l.length = 3 * n + 3 then some (fun r => l[r.1]'(by omega)) else none

/-- The tables of a `WinklerResult`, winkler.py 486-497. -/
structure Tables (K : Type) where
  disp : List (K × K × K × K)
  forces : List (K × K × K × K)
  reactions : List (K × List K)

/-- The tables for given displacements and reactions, winkler.py 480-497. -/
def tables (ty : ElementType) (nodes : List K) {n : ℕ} (el : Fin n → Elem K) (u Q : Fin (3 * n + 3) → K) :
    Option (Tables K) := do
  let d ← dispRows nodes (List.ofFn u)
  let f ← forceRows nodes (List.ofFn (fun i => List.ofFn (internalForces ty el u i)))
    (List.ofFn (fun i => (el i).L))
  let r ← reactionRows nodes (List.ofFn Q)
  return ⟨d, f, r⟩

/-- `beam`, winkler.py 449-499, on given nodes and elements; `none` is an exception or NaN. -/
noncomputable def solveOn (pi : K) (ty : ElementType) (p : Pile K) (C : Coordinates K) (bcs : List (Cond K)) :
    Option (Tables K) := do
  let F ← (globalForces C.nodes bcs).toOption
  let U ← (globalDisp C.nodes bcs).toOption
  let R ← (globalRestrained C.nodes bcs).toOption
  let F ← asVec C.elements.length ((dofList F).map (fun i : ℤ => (i : K)))
  let U ← asVec C.elements.length (dofList U)
  let R ← asVec C.elements.length (dofList R)
  let el ← allSome (fun i : Fin C.elements.length => elemAt pi p C.elements[i.1])
  let r ← beam ty el F U R
  tables ty C.nodes el r.1 r.2.1

/-- `Model.solve()` of a model without soil, construct.py 1844-1857, after the boundary conditions `bcs` were
set. -/
noncomputable def solveModel (pi : K) (ty : ElementType) (p : Pile K) (x2mesh : List K) (coarseness : K)
    (bcs : List (Cond K)) : Option (Tables K) := do
  let C ← getCoordinates p none x2mesh coarseness
  solveOn pi ty p C bcs

end OpenPile.Analysis
