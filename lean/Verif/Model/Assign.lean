/-
Assigning attributes of a Model after it was created.

Models what `src/openpile/construct.py` computes once and what it computes on every use.  The springs are computed
when the Model is created (1146-1355), `element_coordinates` and `nodes_coordinates` are cached when they are read for
the first time (1055-1063), everything else is read from the attributes when it is needed.  `model_config`
(construct.py 79) sets neither `validate_assignment` nor `frozen`, so an assignment only replaces the attribute.

Floats are real numbers; the casts to float32 are not modelled.  Changing the objects inside an attribute
(`model.pile.sections[0].top = ...`) is not modelled.
-/
import Verif.Model.SoilAnalysis

namespace OpenPile.Assign
open OpenPile.BC OpenPile.Mesh OpenPile.Kernel OpenPile.Winkler OpenPile.Assemble OpenPile.SoilAnalysis
open OpenPile.Analysis
open OpenPile.Pile (Pile)

/-- The attributes of a `Model` an analysis reads, construct.py 973-1000. -/
structure Attrs where
  ty : ElementType
  pile : Pile ℝ
  soil : Option SoilProfile
  x2mesh : List ℝ
  coarseness : ℝ
  switches : Switches

/-- `get_coordinates` with the present attributes, construct.py 1057-1063. -/
noncomputable def Attrs.coordinates (a : Attrs) : Option (Coordinates ℝ) :=
  getCoordinates a.pile (a.soil.map (·.geometry)) a.x2mesh a.coarseness

/-- A `Model` object: its attributes, the cached coordinates and the springs (`none`: not there). -/
structure Inst where
  attrs : Attrs
  nodes : Option (List ℝ)
  elements : Option (List (ℝ × ℝ))
  arrays : Option Arrays

/-- Creation of a Model, construct.py 1146-1355 (the validators are in `Model.mkModel`).  With soil, computing the
springs reads `element_number` (1155), which caches the elements but not the nodes; without soil nothing is
computed.  `none` is an exception. -/
noncomputable def create (a : Attrs) (table : List (ℝ × Pile.Section ℝ)) (env : Draws) : Option Inst :=
  match a.soil with
  | none => some ⟨a, none, none, none⟩
  | some sp => do
    let C ← a.coordinates
    let A ← modelSprings a.pile sp a.x2mesh a.coarseness a.switches table env
    return ⟨a, none, some C.elements, some A⟩

/-- `model.attribute = value` for any number of attributes. -/
def Inst.assign (i : Inst) (a : Attrs) : Inst := { i with attrs := a }

/-- Reading `nodes_coordinates` and `element_coordinates`, construct.py 1055-1063: what is cached is kept, what is not
is computed from the present attributes and kept from now on. -/
noncomputable def Inst.read (i : Inst) : Option (Coordinates ℝ × Inst) := do
  let n ← i.nodes.or (i.attrs.coordinates.map (·.nodes))
  let e ← i.elements.or (i.attrs.coordinates.map (·.elements))
  return (⟨n, e⟩, { i with nodes := some n, elements := some e })

/-- What `Model.solve()` returns. -/
inductive Answer
  | beam (t : Tables ℝ)
  | soil (r : SoilResult)

/-- `Model.solve()`, construct.py 1844-1857.  The choice between `beam` and `winkler`, the pile, the element type and
the switches are read from the attributes, the coordinates from the cache, the springs are those of the creation;
an analysis with soil always reads them (winkler.py 38, 42, 622), `AttributeError` if there are none.  `none` is an
exception. -/
noncomputable def Inst.solve (i : Inst) (bcs : List (Cond ℝ)) : Option Answer := do
  let (C, _) ← i.read
  match i.attrs.soil with
  | none => (solveOn Real.pi i.attrs.ty i.attrs.pile C bcs).map .beam
  | some _ => do
    let A ← i.arrays
    (solveSoilOn i.attrs.ty i.attrs.pile C i.attrs.switches A bcs 100).map .soil

/-- The object after a call that reads both coordinates (`solve`, and after it all tables). -/
noncomputable def Inst.touched (i : Inst) : Inst :=
  match i.read with
  | some (_, j) => j
  | none => i

end OpenPile.Assign
