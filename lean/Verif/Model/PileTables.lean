/-
The tables in which a pile is shown to the user: `Pile.data`, `print(pile)` and `txt_pile`.

Models `src/openpile/construct.py` 320-361, 474-479 and `src/openpile/core/txt.py` 4-30.  A table is the list of its rows;
how pandas rounds and aligns the numbers of a printed table is not modelled.
-/
import Verif.Model.Pile
import Verif.Model.Model

namespace OpenPile.PileTables
open OpenPile.Pile

variable {K : Type} [Field K]

/-- A row of `Pile.data`, construct.py 325-334. -/
structure DataRow (K : Type) where
  elevation : K
  width : K
  area : K
  inertia : K
  entrappedArea : K
  outerPerimeter : K
  innerPerimeter : K
deriving DecidableEq, Repr

/-- A list comprehension `[... for x in self.sections for x in [x, x]]` after
`[x for x in self.sections for x in [x.top_elevation, x.bottom_elevation]]`: the two rows of a section, construct.py 326-333. -/
def twice {α : Type} (p : Pile K) (f : K → Section K → α) : List α := p.sections.flatMap (fun x => [f x.top x, f x.bottom x])

/-- `Pile.data`, construct.py 320-336. -/
def data (pi : K) (p : Pile K) : List (DataRow K) :=
  twice p (fun z x => ⟨z, x.width, x.area pi, x.inertia pi, x.entrappedArea pi, x.outerPerimeter pi, x.innerPerimeter pi⟩)

/-- A row of the table printed for a circular pile, construct.py 341-349. -/
structure PrintRow (K : Type) where
  elevation : K
  diameter : K
  thickness : K
  area : K
  inertia : K
deriving DecidableEq, Repr

/-- The table of `Pile.__str__`, construct.py 338-350.  `shape` is `"Circular"` (474-477) as all sections of the model are
`CircularPileSection`; the other branch (351-361) is not reached. -/
def printed (pi : K) (p : Pile K) : List (PrintRow K) :=
  twice p (fun z x => ⟨z, x.width, x.thickness, x.area pi, x.inertia pi⟩)

/-- What a `Pile` object has: its fields, construct.py 233-237, and its properties, 316-477.  Any other name is an
`AttributeError`: no private attributes are declared and `extra="forbid"` (66-67).  What pydantic's `BaseModel` adds (`model_*`, `copy`,
`dict`, `json`, ...) is left out. -/
def attributes : List String :=
  ["name", "sections", "material", "top_elevation", "data", "bottom_elevation", "length", "volume", "weight", "G", "E", "tip_area",
    "tip_footprint", "inner_volume", "create_tubular", "shape"]

/-- The attributes `txt_pile` reads from the pile, in order, core/txt.py 21-28. -/
def txtReads : List String := ["material", "type", "_young_modulus", "material", "material", "data"]

/-- `txt_pile`, core/txt.py 4-30: the lines of text, given how an attribute that exists is shown; the error carries the name of the
missing attribute. -/
def txtPile (shown : String → String) : Except String (List String) :=
  txtReads.mapM (fun a : String => if a ∈ attributes then .ok (shown a) else .error a)

end OpenPile.PileTables
