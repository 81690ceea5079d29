/-
Tables that are handed out by a Model or a result, and edited by the user.

Models which of the DataFrames that `src/openpile/construct.py` and `src/openpile/winkler.py` return are the objects the
Model or the result itself keeps (`nodes_coordinates`, `element_coordinates`, `displacements`, `forces`, `reactions`) and
which are made anew on every call (`get_structural_properties`, `get_soil_properties`, `global_forces`, `settlement`,
`deflection`, `rotation`).  The tables live in a heap; what the user holds are addresses.

Floats are real numbers; of the tables made anew only the columns with elevations (Models) or values (results) are kept.
-/
import Verif.Model.Assign

namespace OpenPile.Handles
open OpenPile.BC OpenPile.Mesh OpenPile.Assign OpenPile.Analysis OpenPile.SoilAnalysis

/-! ### Models -/

/-- A table in memory. -/
inductive Obj
  | nodes (l : List ℝ)
  | elements (l : List (ℝ × ℝ))

/-- Column "z [m]" of a table of nodes; `none` is an exception. -/
def Obj.asNodes : Obj → Option (List ℝ)
  | .nodes l => some l
  | .elements _ => none

/-- Columns "z_top [m]", "z_bottom [m]" of a table of elements; `none` is an exception. -/
def Obj.asElements : Obj → Option (List (ℝ × ℝ))
  | .elements l => some l
  | .nodes _ => none

/-- What the user can ask for: `nodes_coordinates` (construct.py 1057), `element_coordinates` (1062),
`get_structural_properties()` (1500-1509), `get_soil_properties()` (1511-1520) and `global_forces`, `global_disp`,
`global_restrained` (1067-1140). -/
inductive What
  | nodes
  | elements
  | structural
  | soilTable
  | loads
deriving DecidableEq

/-- A Model in memory: attributes, springs, the addresses of the cached tables, boundary conditions, and the tables the
user has been given (`none`: the call raised or returned `None`). -/
structure State where
  attrs : Attrs
  arrays : Option Assemble.Arrays
  heap : List Obj
  nodesAt : Option ℕ
  elementsAt : Option ℕ
  handles : List (Option ℕ)
  bcs : List (Cond ℝ)

/-- A Model that was just created, construct.py 1055-1063. -/
def start (i : Inst) : State :=
  match i.elements with
  | none => ⟨i.attrs, i.arrays, [], none, none, [], []⟩
  | some e => ⟨i.attrs, i.arrays, [.elements e], none, some 0, [], []⟩

/-- A new table. -/
def State.alloc (s : State) (o : Obj) : ℕ × State := (s.heap.length, { s with heap := s.heap ++ [o] })

/-- Reading `nodes_coordinates`, a `cached_property`, construct.py 1055-1058. -/
noncomputable def State.cachedNodes (s : State) : Option (ℕ × State) :=
  match s.nodesAt with
  | some a => some (a, s)
  | none => do
    let C ← s.attrs.coordinates
    let (a, s) := s.alloc (.nodes C.nodes)
    return (a, { s with nodesAt := some a })

/-- Reading `element_coordinates`, a `cached_property`, construct.py 1060-1063. -/
noncomputable def State.cachedElements (s : State) : Option (ℕ × State) :=
  match s.elementsAt with
  | some a => some (a, s)
  | none => do
    let C ← s.attrs.coordinates
    let (a, s) := s.alloc (.elements C.elements)
    return (a, { s with elementsAt := some a })

/-- The address of the table the user gets.  `element_properties` (construct.py 1034-1053) is a merge of the cached
elements, `soil_properties` (1029-1032) a merge of newly computed elements, `global_forces` etc. (1072, 1098, 1124) start
with a copy of the cached nodes: new objects on every call, because `@cached_property` is commented out there. -/
noncomputable def State.get (s : State) : What → Option (ℕ × State)
  | .nodes => s.cachedNodes
  | .elements => s.cachedElements
  | .structural => do
    let (a, s) ← s.cachedElements
    let o ← s.heap[a]?
    let l ← o.asElements
    return s.alloc (.elements l)
  | .soilTable => do
    let _ ← s.attrs.soil
    let C ← s.attrs.coordinates
    return s.alloc (.elements C.elements)
  | .loads => do
    let (a, s) ← s.cachedNodes
    let o ← s.heap[a]?
    let l ← o.asNodes
    return s.alloc (.nodes l)

/-- What a user does: ask for a table, change the `k`-th table received (in place, in any way), set a boundary
condition, solve. -/
inductive Op
  | get (w : What)
  | edit (k : ℕ) (f : Obj → Obj)
  | call (c : Call ℝ)
  | solve

/-- Effect of one action.  A call that raises leaves the Model as it was. -/
noncomputable def step (s : State) : Op → State
  | .get w =>
    match s.get w with
    | some (a, s') => { s' with handles := s'.handles ++ [some a] }
    | none => { s with handles := s.handles ++ [none] }
  | .edit k f =>
    match s.handles[k]? with
    | some (some a) => { s with heap := s.heap.modify a f }
    | _ => s
  | .call c => { s with bcs := BC.step s.bcs c }
  | .solve =>
    match s.cachedNodes with
    | some (_, s') =>
      match s'.cachedElements with
      | some (_, s'') => s''
      | none => s'
    | none => s

/-- A session. -/
noncomputable def run (s : State) (ops : List Op) : State := ops.foldl step s

/-- The nodes an analysis reads. -/
noncomputable def State.nodes (s : State) : Option (List ℝ) :=
  match s.nodesAt with
  | some a => (s.heap[a]?).bind Obj.asNodes
  | none => s.attrs.coordinates.map (·.nodes)

/-- The elements an analysis reads. -/
noncomputable def State.elements (s : State) : Option (List (ℝ × ℝ)) :=
  match s.elementsAt with
  | some a => (s.heap[a]?).bind Obj.asElements
  | none => s.attrs.coordinates.map (·.elements)

/-- `Model.solve()`, construct.py 1844-1857, with the tables as they are now (as `Assign.Inst.solve`). -/
noncomputable def State.answer (s : State) : Option Answer := do
  let n ← s.nodes
  let e ← s.elements
  match s.attrs.soil with
  | none => (solveOn Real.pi s.attrs.ty s.attrs.pile ⟨n, e⟩ s.bcs).map .beam
  | some _ => do
    let A ← s.arrays
    (solveSoilOn s.attrs.ty s.attrs.pile ⟨n, e⟩ s.attrs.switches A s.bcs 100).map .soil

/-! ### results -/

/-- A table of a result in memory. -/
inductive Cell
  | four (l : List (ℝ × ℝ × ℝ × ℝ))
  | reactions (l : List (ℝ × List ℝ))
  | two (l : List (ℝ × ℝ))

/-- What the user can ask a result for, winkler.py 145-209. -/
inductive Part
  | displacements
  | forces
  | reactions
  | settlement
  | deflection
  | rotation
deriving DecidableEq

/-- A `WinklerResult` in memory: `_d`, `_f`, `_Q` at the addresses 0, 1, 2 (winkler.py 136-139), and the tables the user
has been given. -/
structure RState where
  heap : List Cell
  handles : List (Option ℕ)

/-- A new result, winkler.py 486-497. -/
def rstart (t : Tables ℝ) : RState := ⟨[.four t.disp, .four t.forces, .reactions t.reactions], []⟩

/-- Two columns of the table of displacements as a new table, winkler.py 186, 197, 208: selecting a list of columns
copies. -/
def RState.columns (s : RState) (f : ℝ × ℝ × ℝ × ℝ → ℝ) : Option (ℕ × RState) :=
  match (s.heap[0]? : Option Cell) with
  | some (.four l) => some (s.heap.length, { s with heap := s.heap ++ [.two (l.map (fun r => (r.1, f r)))] })
  | _ => none

/-- The address of the table the user gets, winkler.py 145-209. -/
def RState.get (s : RState) : Part → Option (ℕ × RState)
  | .displacements => some (0, s)
  | .forces => some (1, s)
  | .reactions => some (2, s)
  | .settlement => s.columns (·.2.1)
  | .deflection => s.columns (·.2.2.1)
  | .rotation => s.columns (·.2.2.2)

/-- What a user does with a result: ask for a table, change the `k`-th table received. -/
inductive ROp
  | get (p : Part)
  | edit (k : ℕ) (f : Cell → Cell)

/-- Effect of one action. -/
def rstep (s : RState) : ROp → RState
  | .get p =>
    match s.get p with
    | some (a, s') => { s' with handles := s'.handles ++ [some a] }
    | none => { s with handles := s.handles ++ [none] }
  | .edit k f =>
    match s.handles[k]? with
    | some (some a) => { s with heap := s.heap.modify a f }
    | _ => s

/-- A session with a result. -/
def rrun (s : RState) (ops : List ROp) : RState := ops.foldl rstep s

/-- The tables everything else is derived from (`details`, winkler.py 422-446, and the plots, 261-420); `none`: they have
other columns now. -/
def RState.tables (s : RState) : Option (Tables ℝ) :=
  match (s.heap[0]? : Option Cell), (s.heap[1]? : Option Cell), (s.heap[2]? : Option Cell) with
  | some (.four d), some (.four f), some (.reactions q) => some ⟨d, f, q⟩
  | _, _, _ => none

end OpenPile.Handles
