/-
Specification vocabulary for boundary conditions.  It talks about calls only; it does not
use the model's list manipulation.
-/
import Verif.Model.BC

namespace OpenPile.Spec.BC
open OpenPile.BC

variable {K : Type} [Field K] [LinearOrder K] [FloorRing K]

/-- Kind of condition a call is about. -/
def kind : Call K → Cls
  | .pointload .. => .force
  | .pointdisplacement .. => .displacement
  | .support .. => .fixation

/-- Elevation a call is about. -/
def elev : Call K → K
  | .pointload e .. => e
  | .pointdisplacement e .. => e
  | .support e .. => e

/-- Value a call gives for an axis (`none` when the argument is `None`).  Axis `y` is the
lateral translation / shear force, `z` the vertical one, `x` the rotation / moment. -/
def arg : Call K → Axis → Option (Val K)
  | .pointload _ py _ _, .y => py.map .num
  | .pointload _ _ pz _, .z => pz.map .num
  | .pointload _ _ _ mx, .x => mx.map .num
  | .pointdisplacement _ ty _ _, .y => ty.map .num
  | .pointdisplacement _ _ tz _, .z => tz.map .num
  | .pointdisplacement _ _ _ rx, .x => rx.map .num
  | .support _ ty _ _, .y => ty.map .flag
  | .support _ _ tz _, .z => tz.map .flag
  | .support _ _ _ rx, .x => rx.map .flag

/-- The calls of a history that concern a given kind and elevation. -/
def about (h : List (Call K)) (cls : Cls) (e : K) : List (Call K) :=
  h.filter (fun c => decide (kind c = cls) && decide (elev c = e))

/-- Last value written in a list of optional writes, starting from `init`. -/
def lastWrite {α : Type} (init : Option α) : List (Option α) → Option α
  | [] => init
  | none :: ws => lastWrite init ws
  | some v :: ws => lastWrite (some v) ws

/-- The value a user expects on an axis after a history of calls on a model that had
no boundary condition: the last one given. -/
def expected (h : List (Call K)) (cls : Cls) (e : K) (a : Axis) : Option (Val K) :=
  lastWrite none ((about h cls e).map (fun c => arg c a))

/-- Two conditions conflict: same kind, same elevation, different value on some axis. -/
def Conflict (c d : Cond K) (a : Axis) : Prop :=
  c.cls = d.cls ∧ c.elevation = d.elevation ∧ c.get a ≠ d.get a

end OpenPile.Spec.BC

namespace OpenPile.Spec.BC
open OpenPile.BC

variable {K : Type} [Field K] [LinearOrder K] [FloorRing K]

/-- The tolerance within which a node is accepted for an elevation: 1 mm plus one part in
100 000 of the elevation. -/
def Near (node e : K) : Prop := |node - e| ≤ 1/1000 + |e| / 100000

/-- Node `i` is the uppermost (first listed) node within tolerance of elevation `e`. -/
def ActsAt (nodes : List K) (e : K) (i : ℕ) : Prop :=
  (∃ n, nodes[i]? = some n ∧ Near n e) ∧ ∀ j < i, ∀ n, nodes[j]? = some n → ¬ Near n e

/-- A value that has an effect: `True` or a non-zero number. -/
def Effective : Val K → Prop
  | .flag b => b = true
  | .num q => q ≠ 0

end OpenPile.Spec.BC
