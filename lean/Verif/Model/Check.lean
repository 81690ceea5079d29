/-
The check of boundary conditions before an analysis.

Models `src/openpile/core/validation.py` 42-96 (`check_boundary_conditions`).  The two calls of this function in
winkler.py (466 and 538) are commented out, so a user has to call it.
-/
import Verif.Model.BC

namespace OpenPile.Check
open OpenPile.BC

variable {K : Type} [Field K] [LinearOrder K] [FloorRing K]

/-- The exceptions of `check_boundary_conditions`, validation.py 67, 70, 79-81, 94, 96; `conflict` is the `ValueError`
of `validate_bc` raised when the nodal tables are read (validation.py 52-53). -/
inductive Complaint
  | conflict (flags : List Axis)
  | noSupport
  | noLoad
  | noNormalSupport
  | noBendingSupport
  | soilInMesh
deriving DecidableEq, Repr

/-- `check_boundary_conditions` on the nodal tables, validation.py 55-96: `R` is `global_restrained`, `F` is
`global_forces` and `soil` tells whether the model has a soil profile. -/
def check (soil : Bool) (R : Nodal Bool) (F : Nodal ℤ) : Except Complaint Unit :=
  let rRx := R.x.countP (fun b => b)
  let rTy := R.y.countP (fun b => b)
  let rTz := R.z.countP (fun b => b)
  let lRx := F.x.countP (fun v => decide (v ≠ 0))
  let lTy := F.y.countP (fun v => decide (v ≠ 0))
  let lTz := F.z.countP (fun v => decide (v ≠ 0))
  if rRx + rTy + rTz = 0 ∧ soil = false then .error .noSupport
  else if lRx + lTy + lTz = 0 then .error .noLoad
  else if soil = false then
    if ¬ (0 < lTz ∧ 0 < rTz) ∧ 0 < lTz ∧ rTz = 0 then .error .noNormalSupport
    else if 2 ≤ rTy + rRx ∧ 0 < lTy then .ok ()
    else if 2 ≤ rTy + rRx ∧ 0 < lRx then .ok ()
    else if lRx + lTy = 0 then .ok ()
    else .error .noBendingSupport
  else .error .soilInMesh

/-- `check_boundary_conditions(model)`, validation.py 42-96, for a model with the given nodes and boundary
conditions. -/
def checkModel (soil : Bool) (nodes : List K) (bcs : List (Cond K)) : Except Complaint Unit :=
  match globalRestrained nodes bcs with
  | .error f => .error (.conflict f)
  | .ok R =>
    match globalForces nodes bcs with
    | .error f => .error (.conflict f)
    | .ok F => check soil R F

end OpenPile.Check
