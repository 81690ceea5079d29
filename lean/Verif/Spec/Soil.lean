/- Specification vocabulary for soil profiles. -/
import Verif.Model.Soil

namespace OpenPile.Spec.Soil
open OpenPile.Soil

variable {K : Type} [Field K] [LinearOrder K]

/-- A layer the constructor can produce. -/
def Built (l : Layer K) : Prop := ∃ top bottom weight, mkLayer top bottom weight = .ok l

/-- Effective (buoyant below water, unit weight of water 10) weight per area of the soil of one
layer between its top and elevation `z`, i.e. the integral of the effective unit weight:
total weight minus 10 times the thickness below water. -/
def layerStress (water z : K) (l : Layer K) : K :=
  let bot := max l.bottom (min z l.top)
  l.weight * (l.top - bot) - 10 * (min l.top (max water bot) - bot)

/-- Vertical effective stress at elevation `z` due to a list of layers: sum over the layers. -/
def stressAt (water z : K) (layers : List (Layer K)) : K := (layers.map (layerStress water z)).sum

end OpenPile.Spec.Soil
