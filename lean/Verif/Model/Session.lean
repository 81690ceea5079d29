/-
Several Models used in one session.

Models what the public calls `set_pointload`, `set_pointdisplacement`, `set_support`, `get_*_spring(s)` and `solve`
(`src/openpile/construct.py` 1522-1802, 1844-1857) do to the objects they share.  A `Model` holds references to
boundary condition objects: pydantic makes a new list when a Model is created (construct.py 973-975) but keeps the
objects that are in it, and `_update_bc` writes into these objects (1530-1538).  `_py_springs` and `_tz_springs` belong
to one Model (1347-1355) and are written by `get_distributed_lateral_springs` and `get_distributed_axial_springs`
(1625-1692, core/misc.py 115-120, 188-193).  `solve` writes nothing that outlives the call.

Floats are real numbers; the casts to float32 are not modelled.  Changing an attribute of a Model or of a boundary
condition by hand and creating further Models during the session are not modelled.
-/
import Verif.Model.SoilAnalysis
import Verif.Model.Extract

namespace OpenPile.Session
open OpenPile.BC OpenPile.Mesh OpenPile.Kernel OpenPile.Assemble OpenPile.SoilAnalysis
open OpenPile.Pile (Pile)
open OpenPile.Extract (Query influence)

/-- One Model with soil, construct.py 968-1000 and 1347-1355: what `solve` reads, the boundary conditions as positions
in the heap. -/
structure Obj where
  ty : ElementType
  pile : Pile ℝ
  coords : Coordinates ℝ
  switches : Switches
  arrays : Arrays
  refs : List ℕ

/-- The boundary condition objects of the program and its `k` Models. -/
structure World (k : ℕ) where
  heap : List (Cond ℝ)
  objs : Fin k → Obj

/-- `model.boundary_conditions` as it reads: the objects behind the references. -/
def view {k : ℕ} (w : World k) (m : Fin k) : List (Cond ℝ) := (w.objs m).refs.filterMap (fun r => w.heap[r]?)

/-- Replace one Model. -/
def World.put {k : ℕ} (w : World k) (m : Fin k) (o : Obj) : World k :=
  { w with objs := Function.update w.objs m o }

/-- `existing_bcs` in `_update_bc`, construct.py 1524-1528, as references. -/
noncomputable def existing {k : ℕ} (w : World k) (m : Fin k) (e : ℝ) (cls : Cls) : List ℕ :=
  (w.objs m).refs.filter (fun r => (w.heap[r]?).any (fun c => c.isAt cls e))

/-- `Model._update_bc`, construct.py 1522-1540: write into the one object found, or append a new one. -/
noncomputable def update {k : ℕ} (w : World k) (m : Fin k) (e : ℝ) (x y z : Option (Val ℝ)) (cls : Cls) : World k :=
  match existing w m e cls with
  | [r] =>
    match w.heap[r]? with
    | some c => { w with heap := w.heap.set r (c.overwrite x y z) }
    | none => w
  | _ =>
    let o := w.objs m
    { (w.put m { o with refs := o.refs ++ [w.heap.length] }) with
      heap := w.heap ++ [{ cls := cls, elevation := e, x := x, y := y, z := z }] }

/-- `set_pointload`, `set_pointdisplacement`, `set_support`, construct.py 1542-1623. -/
noncomputable def call {k : ℕ} (w : World k) (m : Fin k) : Call ℝ → World k
  | .pointload e py pz mx => update w m e (mx.map .num) (py.map .num) (pz.map .num) .force
  | .pointdisplacement e ty tz rx => update w m e (rx.map .num) (ty.map .num) (tz.map .num) .displacement
  | .support e ty tz rx => update w m e (rx.map .flag) (ty.map .flag) (tz.map .flag) .fixation

/-- The in-place product of the resistances with the influence lengths of the nodes, core/misc.py 115-120 and
188-193. -/
noncomputable def weigh (C : Coordinates ℝ) (s : ℕ → Bool → Curve) : ℕ → Bool → Curve :=
  fun i b => (s i b).map (fun q =>
    (q.1, q.2 * influence (fun j : ℕ => C.nodes.getD j 0) C.elements.length (if b then i + 1 else i)))

/-- What a `get_*` call does to the springs of its Model, construct.py 1625-1802 (its table is in `Extract.query`). -/
noncomputable def look (o : Obj) : Query → Obj
  | .axial _ => { o with arrays := { o.arrays with tz := weigh o.coords o.arrays.tz } }
  | .lateral _ => { o with arrays := { o.arrays with py := weigh o.coords o.arrays.py } }
  | _ => o

/-- `Model.solve()` in the present state, construct.py 1844-1857. -/
noncomputable def solve {k : ℕ} (w : World k) (m : Fin k) : Option SoilResult :=
  solveSoilOn (w.objs m).ty (w.objs m).pile (w.objs m).coords (w.objs m).switches (w.objs m).arrays (view w m) 100

/-- One line of the program. -/
inductive Op (k : ℕ)
  | set (m : Fin k) (c : Call ℝ)
  | get (m : Fin k) (q : Query)
  | solve (m : Fin k)

/-- The state after one line. -/
noncomputable def step {k : ℕ} (w : World k) : Op k → World k
  | .set m c => call w m c
  | .get m q => w.put m (look (w.objs m) q)
  | .solve _ => w

/-- The state after a program. -/
noncomputable def run {k : ℕ} (w : World k) (h : List (Op k)) : World k := h.foldl step w

/-- The results of the `solve` calls of a program, oldest first. -/
noncomputable def results {k : ℕ} : World k → List (Op k) → List (Fin k × Option SoilResult)
  | _, [] => []
  | w, .solve m :: h => (m, solve w m) :: results w h
  | w, op :: h => results (step w op) h

end OpenPile.Session
