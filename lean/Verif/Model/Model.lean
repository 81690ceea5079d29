/-
The Model object: validation, element properties and vertical effective stress.

Models `src/openpile/construct.py` 981-1053 (fields, validators, `element_properties`) and
`src/openpile/core/_model_build.py` 200-253 (`get_soil_profile`, `get_soil_properties`).
NaN is `none`.
-/
import Verif.Model.Mesh

namespace OpenPile.Model
open OpenPile.Pile (Pile Section)
open OpenPile.Soil (Layer Profile)
open OpenPile.Mesh

variable {K : Type} [Field K] [LinearOrder K] [FloorRing K]

omit [Field K] [FloorRing K] in
/-- `pd.merge_asof(..., direction="forward")` for one left key: the first row of the right table
(sorted by ascending key) whose key is at least `z`; `none` gives NaN columns. -/
def mergeForward {α : Type} (key : α → K) (sortedTable : List α) (z : K) : Option α :=
  sortedTable.find? (fun r => decide (z ≤ key r))

omit [Field K] [LinearOrder K] [FloorRing K] in
/-- Rows of `pile.data`, construct.py 320-338: for each section one row at its top and one at its
bottom.  A row is its elevation with the section whose width, area, inertia, ... fill the columns. -/
def pileRows (p : Pile K) : List (K × Section K) :=
  p.sections.flatMap (fun s => [(s.top, s), (s.bottom, s)])

omit [Field K] [FloorRing K] in
/-- A possible result of `pile.data.sort_values(by=["Elevation [m]"])`, construct.py 1041.  Pandas'
default is quicksort, for which the order of rows with equal elevation is unspecified; hence a
relation. -/
def SortedRows (p : Pile K) (rows : List (K × Section K)) : Prop :=
  rows.Perm (pileRows p) ∧ rows.Pairwise (fun a b => a.1 ≤ b.1)

omit [Field K] [FloorRing K] in
/-- The stable order of `pile.data.sort_values`, construct.py 1041: the one numpy's quicksort produces
for tables of at most 16 rows when no SIMD sort is used (insertion sort). -/
def stableRows (p : Pile K) : List (K × Section K) := Py.sortedBy (·.1) (pileRows p)

omit [Field K] [FloorRing K] in
/-- `element_properties`, construct.py 1034-1053: the section whose properties an element with top
elevation `zTop` receives.  (The left table is sorted by `z_top` and back, which changes nothing as
the tops are distinct; Young's modulus is that of the pile material.) -/
def elementSection (rows : List (K × Section K)) (zTop : K) : Option (Section K) :=
  (mergeForward (·.1) rows zTop).map (·.2)

/-! ### soil properties -/

omit [Field K] [FloorRing K] in
/-- `get_soil_profile(soil).sort_values(by=["Top soil layer [m]"])`, _model_build.py 200-217, 229:
the layers by ascending top. -/
def soilTable (sp : Profile K) : List (Layer K) := Py.sortedBy (·.top) (Soil.sortLayers sp.layers)

omit [FloorRing K] in
/-- Effective unit weight of an element, _model_build.py 227-242: weight of the first layer whose top
is at or above the element top, less 10 if the element top is at or below the water line. -/
def elementWeight (sp : Profile K) (e : K × K) : Option K :=
  (mergeForward (·.top) (soilTable sp) e.1).map
    (fun l => if e.1 ≤ sp.waterLine then l.weight - 10 else l.weight)

omit [LinearOrder K] [FloorRing K] in
/-- `Series.cumsum()` (NaN entries are skipped), _model_build.py 247, 251. -/
def cumsum : K → List (Option K) → List (Option K)
  | _, [] => []
  | acc, none :: l => none :: cumsum acc l
  | acc, some x :: l => some (acc + x) :: cumsum (acc + x) l

/-- One row of `soil_properties`. -/
structure SoilRow (K : Type) where
  element : K × K
  weight : Option K
  sigTop : Option K
  sigBottom : Option K
deriving DecidableEq, Repr

inductive BuildErr
  /-- `pile.sections[-1]` on an empty list, or the mesh loop does not end -/
  | noMesh
  /-- pandas: "Length of values does not match length of index" -/
  | lengthMismatch
  /-- field constraint `coarseness >= 0.01` -/
  | field
  /-- `max_coarseness` -/
  | coarseness
  /-- `soil_and_pile_bottom_elevation_match` -/
  | pileTooDeep
deriving DecidableEq, Repr

omit [Field K] [FloorRing K] in
/-- `np.where(z_top == soil.top_elevation)[0]`, _model_build.py 248; counting starts at `i`. -/
def whereTop (t : K) : ℕ → List (K × K) → List ℕ
  | _, [] => []
  | i, e :: l => if e.1 = t then i :: whereTop t (i + 1) l else whereTop t (i + 1) l

omit [FloorRing K] in
/-- The stress columns, _model_build.py 244-251: `np.insert(cumsum[:-1], where(z_top == top), 0.0)`
and `cumsum`. Assigning a column of the wrong length raises. -/
def stressColumns (sp : Profile K) (els : List (K × K)) :
    Except BuildErr (List (Option K) × List (Option K)) :=
  let s := els.map (fun e => (elementWeight sp e).map (fun w => (e.1 - e.2) * w))
  let cs := cumsum 0 s
  match whereTop sp.topElevation 0 els with
  | [i] => .ok (cs.dropLast.insertIdx i (some 0), cs)
  | _ => .error .lengthMismatch

omit [FloorRing K] in
/-- The table of `get_soil_properties`, _model_build.py 220-255, for given element coordinates. -/
def soilRows (sp : Profile K) (els : List (K × K)) : Except BuildErr (List (SoilRow K)) := do
  let (top, bottom) ← stressColumns sp els
  return List.zipWith (fun e (t, b) => ⟨e, elementWeight sp e, t, b⟩) els (top.zip bottom)

/-- `get_soil_properties`, _model_build.py 220-255. -/
def soilProperties (p : Pile K) (sp : Profile K) (x2mesh : List K) (coarseness : K) :
    Except BuildErr (List (SoilRow K)) :=
  match getCoordinates p (some sp) x2mesh coarseness with
  | none => .error .noMesh
  | some C => soilRows sp C.elements

/-- The inputs of a validated `Model` that matter for mesh and stresses, construct.py 975-987. -/
structure Model (K : Type) where
  pile : Pile K
  soil : Option (Profile K)
  x2mesh : List K
  coarseness : K
deriving DecidableEq, Repr

/-- Constructor of `Model`: field constraint (construct.py 987), `model_post_init` as far as it
computes the soil properties (1147-1344), `max_coarseness` (1003-1011) and
`soil_and_pile_bottom_elevation_match` (1013-1021).  Errors raised by spring functions are not part
of this definition. -/
def mkModel (pile : Pile K) (soil : Option (Profile K)) (x2mesh : List K) (coarseness : K) :
    Except BuildErr (Model K) :=
  if ¬ 1 / 100 ≤ coarseness then .error .field
  else do
    if let some sp := soil then
      let _ ← soilProperties pile sp x2mesh coarseness
    match pile.length with
    | none => .error .noMesh
    | some len =>
      if ¬ len ≥ 5 * coarseness then .error .coarseness
      else match soil, pile.bottomElevation with
        | some sp, some b =>
          if b < sp.bottomElevation then .error .pileTooDeep
          else .ok ⟨pile, soil, x2mesh, coarseness⟩
        | _, _ => .ok ⟨pile, soil, x2mesh, coarseness⟩

end OpenPile.Model
