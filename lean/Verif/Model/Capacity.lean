/-
Axial capacities that a `Model` reports.

Models `Model.shaft_resistance` and `Model.tip_resistance` (`src/openpile/construct.py` 1418-1453) from the
pile, the soil profile and the options of the Model: mesh, springs, then capacities.  Float32 rounding of the
spring arrays is not modelled.
-/
import Verif.Model.Assemble
import Verif.Model.Extract

namespace OpenPile.Capacity
open OpenPile.Assemble

/-- One spring of the arrays of `create_springs` as the capacities read it: row 0 is the resistance, row 1 the
displacement, construct.py 1195, 1217. -/
def rows (c : Assemble.Curve) : Extract.Curve ℝ := ⟨c.map Prod.snd, c.map Prod.fst⟩

/-- `nodes_coordinates["z [m]"].values`, construct.py 1426; only indices up to the number of elements are
read. -/
def elevations (C : Mesh.Coordinates ℝ) : ℕ → ℝ := fun i : ℕ => C.nodes.getD i 0

/-- `Model.shaft_resistance` of a Model with a soil profile, construct.py 1418-1445. -/
noncomputable def shaft (p : Pile.Pile ℝ) (sp : SoilProfile) (x2mesh : List ℝ) (coarseness : ℝ) (w : Switches)
    (table : List (ℝ × Pile.Section ℝ)) (env : Draws) : Option (ℝ × ℝ) := do
  let C ← Mesh.getCoordinates p (some sp.geometry) x2mesh coarseness
  let A ← modelSprings p sp x2mesh coarseness w table env
  Extract.shaftResistance (elevations C) C.elements.length (fun i b => rows (A.tz i b))

/-- `Model.tip_resistance` of a Model with a soil profile, construct.py 1447-1453. -/
noncomputable def tip (p : Pile.Pile ℝ) (sp : SoilProfile) (x2mesh : List ℝ) (coarseness : ℝ) (w : Switches)
    (table : List (ℝ × Pile.Section ℝ)) (env : Draws) : Option ℝ := do
  let A ← modelSprings p sp x2mesh coarseness w table env
  Extract.tipResistance (rows A.qz)

end OpenPile.Capacity
