/-
Soil parameters given as a number, a list, or a function of depth.

Models `src/openpile/core/misc.py` 13-36.
-/
import Mathlib.Algebra.Order.Field.Basic

namespace OpenPile.Params

/-- A soil parameter: a number, a list of numbers (pydantic accepts one or two), a function of the
depth below ground (`none` where it raises), or another callable object (an instance with `__call__`,
`functools.partial`, a builtin), which pydantic accepts as well. -/
inductive Param (K : Type)
  | scalar (x : K)
  | list (l : List K)
  | func (f : K → Option K)
  | object (f : K → Option K)

variable {K : Type} [Field K]

/-- `from_list2x_parse_top_bottom`, core/misc.py 13-28; `none` is the `TypeError`. -/
def topBottom : Param K → Option (K × K)
  | .scalar x => some (x, x)
  | .list [x] => some (x, x)
  | .list [x, y] => some (x, y)
  | _ => none

/-- `top + (bottom - top) * depth_from_top_of_layer / layer_height` after
`from_list2x_parse_top_bottom`, as written out in the axial models (soilmodels.py 308-309, 315-316,
338-339, 381-382, 502-503, 509-510, 532-533, 575-576); `none` also for the division by a zero height. -/
def layered [DecidableEq K] (p : Param K) (depth height : K) : Option K := do
  let (t, b) ← topBottom p
  if height = 0 then none else return t + (b - t) * depth / height

/-- `get_value_at_current_depth`, core/misc.py 31-36: only objects of the type of a `lambda` are
called. -/
def valueAt [DecidableEq K] (p : Param K) (depth height ground : K) : Option K :=
  match p with
  | .func f => f ground
  | p => layered p depth height

end OpenPile.Params
