/-
Boundary conditions of a `Model`.

Models `src/openpile/construct.py` 818-881 (the three boundary classes),
1067-1140 (`global_forces`, `global_disp`, `global_restrained`), 1522-1623
(`_update_bc`, `set_pointload`, `set_pointdisplacement`, `set_support`) and
`src/openpile/core/_model_build.py` 5-62 (`validate_bc`, `apply_bc`).

Floats are elements of an ordered field `K` with a floor function (ℚ or ℝ).
-/
import Mathlib.Data.Rat.Defs
import Mathlib.Data.Rat.Floor
import Mathlib.Algebra.Order.Ring.Rat
import Mathlib.Algebra.Order.Floor.Ring
import Mathlib.Data.List.Dedup

namespace OpenPile.BC

variable {K : Type} [Field K] [LinearOrder K] [FloorRing K]

/-- The three classes `BoundaryFixation`, `BoundaryDisplacement`, `BoundaryForce`
(construct.py 818-881).  `isinstance(bc, bc_cls)` becomes equality of this tag
(no class derives from another). -/
inductive Cls
  | fixation
  | displacement
  | force
deriving DecidableEq, Repr

/-- The value stored on an axis: `bool` for fixations, `float` otherwise
(construct.py 834-837, 856-859, 878-881). -/
inductive Val (K : Type)
  | flag (b : Bool)
  | num (q : K)
deriving DecidableEq, Repr

/-- Python truthiness of a stored value (used in `if bc.x:`, _model_build.py 47-52). -/
def Val.truthy : Val K → Bool
  | .flag b => b
  | .num q => decide (q ≠ 0)

/-- The three axes a condition can act on. -/
inductive Axis
  | x
  | y
  | z
deriving DecidableEq, Repr

/-- One boundary condition object (construct.py 818-881). -/
structure Cond (K : Type) where
  cls : Cls
  elevation : K
  x : Option (Val K) := none
  y : Option (Val K) := none
  z : Option (Val K) := none
deriving DecidableEq, Repr

/-- Attribute access `bc.x`, `bc.y`, `bc.z`. -/
def Cond.get (c : Cond K) : Axis → Option (Val K)
  | .x => c.x
  | .y => c.y
  | .z => c.z

/-- Overwrite of the non-`None` axes of an existing object, construct.py 1533-1538. -/
def Cond.overwrite (c : Cond K) (x y z : Option (Val K)) : Cond K :=
  { c with x := if x.isSome then x else c.x
           y := if y.isSome then y else c.y
           z := if z.isSome then z else c.z }

/-- The test of the list comprehension, construct.py 1524-1528. -/
def Cond.isAt (c : Cond K) (cls : Cls) (elevation : K) : Bool :=
  decide (c.elevation = elevation) && decide (c.cls = cls)

/-- `Model._update_bc`, construct.py 1522-1540.  Objects are mutated in place by the
code, here the list is rebuilt with the single matching object replaced. -/
def updateBc (bcs : List (Cond K)) (elevation : K) (x y z : Option (Val K)) (cls : Cls) : List (Cond K) :=
  if (bcs.filter (fun c => c.isAt cls elevation)).length = 1 then
    bcs.map (fun c => if c.isAt cls elevation then c.overwrite x y z else c)
  else
    bcs ++ [{ cls := cls, elevation := elevation, x := x, y := y, z := z }]

/-- `Model.set_pointload`, construct.py 1542-1567 (note the swap `x = Mx`, `z = Pz`). -/
def setPointload (bcs : List (Cond K)) (elevation : K) (Py Pz Mx : Option K) : List (Cond K) :=
  updateBc bcs elevation (Mx.map .num) (Py.map .num) (Pz.map .num) .force

/-- `Model.set_pointdisplacement`, construct.py 1569-1596. -/
def setPointdisplacement (bcs : List (Cond K)) (elevation : K) (Ty Tz Rx : Option K) : List (Cond K) :=
  updateBc bcs elevation (Rx.map .num) (Ty.map .num) (Tz.map .num) .displacement

/-- `Model.set_support`, construct.py 1598-1623. -/
def setSupport (bcs : List (Cond K)) (elevation : K) (Ty Tz Rx : Option Bool) : List (Cond K) :=
  updateBc bcs elevation (Rx.map .flag) (Ty.map .flag) (Tz.map .flag) .fixation

/-- One public call that edits the boundary conditions of a model. -/
inductive Call (K : Type)
  | pointload (elevation : K) (Py Pz Mx : Option K)
  | pointdisplacement (elevation : K) (Ty Tz Rx : Option K)
  | support (elevation : K) (Ty Tz Rx : Option Bool)
deriving Repr

/-- Effect of one public call, construct.py 1542-1623. -/
def step (bcs : List (Cond K)) : Call K → List (Cond K)
  | .pointload e py pz mx => setPointload bcs e py pz mx
  | .pointdisplacement e ty tz rx => setPointdisplacement bcs e ty tz rx
  | .support e ty tz rx => setSupport bcs e ty tz rx

/-- A history of calls, oldest first. -/
def run (bcs : List (Cond K)) (h : List (Call K)) : List (Cond K) := h.foldl step bcs

/-- One of the three checks in `validate_bc`, _model_build.py 12-16 (and 17-21, 22-26).
`set([...])` becomes `dedup`. -/
def axisConflict (bcs : List (Cond K)) (cls : Cls) (a : Axis) : Bool :=
  let checklist := ((bcs.filter (fun c => decide (c.cls = cls))).map
    (fun c => (c.elevation, c.get a))).dedup
  if checklist.length > 1 then
    decide ((checklist.map Prod.fst).dedup.length ≠ (checklist.map Prod.fst).length)
  else false

/-- `validate_bc`, _model_build.py 5-30.  `error flags` is the `ValueError` together with
the flagged axes. -/
def validateBc (bcs : List (Cond K)) (cls : Cls) : Except (List Axis) Unit :=
  let flag := [Axis.x, Axis.y, Axis.z].filter (fun a => axisConflict bcs cls a)
  if flag ≠ [] then .error flag else .ok ()

/-- `np.isclose(node, elevation, atol=0.001)` with the default `rtol = 1e-5`,
_model_build.py 40-42: `|node - elevation| ≤ atol + rtol * |elevation|`. -/
def isClose (node elevation : K) : Bool :=
  decide (|node - elevation| ≤ 1/1000 + 1/100000 * |elevation|)

/-- Index of the first node close to the elevation, _model_build.py 43-45.
`none` when no node is close. -/
def nodeIdx (nodes : List K) (elevation : K) : Option ℕ :=
  nodes.findIdx? (fun n => isClose n elevation)

/-- `if bc.x: xglobal[node_idx] = bc.x`, _model_build.py 47-52.  `store` is the conversion
made by numpy when the value is written into an array of the given dtype. -/
def writeAxis {β : Type} (store : Val K → β) (arr : List β) (i : ℕ) (v : Option (Val K)) : List β :=
  match v with
  | some w => if w.truthy then arr.set i (store w) else arr
  | none => arr

/-- The three nodal arrays `(zglobal, yglobal, xglobal)`. -/
structure Nodal (β : Type) where
  x : List β
  y : List β
  z : List β
deriving DecidableEq, Repr

/-- The nodal array of an axis. -/
def Nodal.get {β : Type} (g : Nodal β) : Axis → List β
  | .x => g.x
  | .y => g.y
  | .z => g.z

/-- One turn of the loop of `apply_bc`, _model_build.py 38-61 (the printed messages are
not modelled). -/
def applyOne {β : Type} (store : Val K → β) (nodes : List K) (cls : Cls) (g : Nodal β) (c : Cond K) :
    Nodal β :=
  if c.cls = cls then
    match nodeIdx nodes c.elevation with
    | some i => { x := writeAxis store g.x i c.x
                  y := writeAxis store g.y i c.y
                  z := writeAxis store g.z i c.z }
    | none => g
  else g

/-- `apply_bc`, _model_build.py 33-62. -/
def applyBc {β : Type} (store : Val K → β) (nodes : List K) (g : Nodal β) (bcs : List (Cond K))
    (cls : Cls) : Nodal β :=
  bcs.foldl (applyOne store nodes cls) g

/-- Writing a Python number into a numpy float array keeps the number
(a `bool` would become 0 or 1). -/
def storeFloat : Val K → K
  | .num q => q
  | .flag b => if b then 1 else 0

/-- Writing a Python float into a numpy **int64** array truncates toward zero.  The load
columns are created with the integer literal `0` (construct.py 1073-1075), so their
`.values` are int64 arrays. -/
def storeInt : Val K → ℤ
  | .num q => if 0 ≤ q then ⌊q⌋ else ⌈q⌉
  | .flag b => if b then 1 else 0

/-- Writing into a numpy bool array (construct.py 1125-1127). -/
def storeBool : Val K → Bool := Val.truthy

/-- `Model.global_forces`, construct.py 1067-1089. -/
def globalForces (nodes : List K) (bcs : List (Cond K)) : Except (List Axis) (Nodal ℤ) := do
  validateBc bcs .force
  let zeros := nodes.map (fun _ => (0 : ℤ))
  return applyBc storeInt nodes ⟨zeros, zeros, zeros⟩ bcs .force

/-- `Model.global_disp`, construct.py 1093-1115. -/
def globalDisp (nodes : List K) (bcs : List (Cond K)) : Except (List Axis) (Nodal K) := do
  validateBc bcs .displacement
  let zeros := nodes.map (fun _ => (0 : K))
  return applyBc storeFloat nodes ⟨zeros, zeros, zeros⟩ bcs .displacement

/-- `Model.global_restrained`, construct.py 1119-1140. -/
def globalRestrained (nodes : List K) (bcs : List (Cond K)) : Except (List Axis) (Nodal Bool) := do
  validateBc bcs .fixation
  let falses := nodes.map (fun _ => false)
  return applyBc storeBool nodes ⟨falses, falses, falses⟩ bcs .fixation

end OpenPile.BC
