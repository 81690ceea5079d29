/-
Soil layers and profiles.

Models `src/openpile/construct.py` 482-560 (`Layer`), 563-757 (`SoilProfile`) and
`src/openpile/core/_model_build.py` 85-124 (`get_tip_sig_v_eff`).

Floats are elements of an arbitrary linearly ordered field `K`.  The soil models attached to a
layer, names and colours are not part of this file.
-/
import Verif.Model.Pile

namespace OpenPile.Soil
open OpenPile.Pile (Err)

variable {K : Type} [Field K] [LinearOrder K]

/-- A validated `Layer`, construct.py 532-545 (geometry and unit weight only). -/
structure Layer (K : Type) where
  top : K
  bottom : K
  weight : K
deriving DecidableEq, Repr

/-- Constructor of `Layer`: field constraint `weight > 10` (construct.py 539) and
`check_elevations` (555-560). -/
def mkLayer (top bottom weight : K) : Except Err (Layer K) :=
  if ¬ 10 < weight then .error .field
  else if ¬ bottom < top then .error .elevations
  else .ok ⟨top, bottom, weight⟩

/-- A validated `SoilProfile`, construct.py 640-654.  `layers` keeps the order given by the user. -/
structure Profile (K : Type) where
  topElevation : K
  waterLine : K
  layers : List (Layer K)
deriving DecidableEq, Repr

/-- `math.isclose(a, b, abs_tol=0.001)` with the default `rel_tol=1e-9`, construct.py 671. -/
def isClose (a b : K) : Bool :=
  decide (|a - b| ≤ max (1 / 1000000000 * max |a| |b|) (1 / 1000))

/-- `top_elevations[np.argsort(top_elevations)][::-1]`, construct.py 661-664: layers ordered from
the highest top to the lowest (numpy does not specify the order of equal tops; a stable sort is
assumed). -/
def sortLayers (l : List (Layer K)) : List (Layer K) := (Py.sortedBy (·.top) l).reverse

/-- The loop of `check_layers_elevations`, construct.py 670-672. -/
def layersConnect : List (Layer K) → Bool
  | a :: b :: l => isClose b.top a.bottom && layersConnect (b :: l)
  | _ => true

/-- Constructor of `SoilProfile`: `check_layers_elevations`, construct.py 656-674.
(`check_multipliers_in_lateral_model`, 676-740, never raises and is modelled with the soil models.) -/
def mkProfile (topElevation waterLine : K) (layers : List (Layer K)) : Except Err (Profile K) :=
  match sortLayers layers with
  | [] => .error .indexError
  | a :: l =>
    if a.top ≠ topElevation then .error .topMismatch
    else if layersConnect (a :: l) then .ok ⟨topElevation, waterLine, layers⟩
    else .error .layersOverlap

/-- `SoilProfile.bottom_elevation`, construct.py 752-757. -/
def Profile.bottomElevation (p : Profile K) : K :=
  p.topElevation - (p.layers.map (fun x => |x.top - x.bottom|)).sum

/-- Body of the loop of `get_tip_sig_v_eff` for one layer, _model_build.py 97-122: the stress after
the layer.  The local `water_unit_weight` is overwritten with 10 (line 94), whatever is passed. -/
def tipStressLayer (tip water sig : K) (layer : Layer K) : K :=
  let buoyant := layer.weight - 10
  if tip ≤ layer.bottom then
    let w :=
      if water ≤ layer.bottom then layer.weight
      else if water < layer.top then
        (layer.weight * (layer.top - water) + buoyant * (water - layer.bottom)) /
          (layer.top - layer.bottom)
      else buoyant
    sig + w * (layer.top - layer.bottom)
  else if tip < layer.top ∧ water > layer.bottom then
    let w :=
      if water ≤ tip then layer.weight
      else if water < layer.top then
        (layer.weight * (layer.top - water) + buoyant * (water - tip)) / (layer.top - tip)
      else buoyant
    sig + w * (layer.top - tip)
  else sig

/-- `get_tip_sig_v_eff`, _model_build.py 85-124.  The `return` statement (line 124) is inside the
`for` loop, so only the uppermost layer is visited; `none` is Python's `None`, returned for an
empty list. -/
def getTipSigVEff (tip water : K) (layers : List (Layer K)) (sigMudline : K) : Option K :=
  match Py.sortedBy (fun x => -x.top) layers with
  | [] => none
  | layer :: _ => some (tipStressLayer tip water sigMudline layer)

end OpenPile.Soil
