/- Specification vocabulary for weights. -/
import Verif.Model.Soil

namespace OpenPile.Spec.Weight
open OpenPile.Pile (Pile Section)
open OpenPile.Soil (Layer Profile)

variable {K : Type} [Field K] [LinearOrder K]

/-- `z` moved into the section. -/
def clamp (top bottom z : K) : K := max bottom (min z top)

/-- Volume of the pile below elevation `z`, for the cross-sectional area `A`. -/
def below (A : Section K → K) (p : Pile K) (z : K) : K :=
  (p.sections.map (fun s => A s * (clamp s.top s.bottom z - s.bottom))).sum

/-- Weight of the soil of one layer inside the pile (area `A`): total weight less 10 kN/m3 times the volume
below the water line. -/
def plug (A : Section K → K) (p : Pile K) (water : K) (l : Layer K) : K :=
  l.weight * (below A p l.top - below A p l.bottom)
    - 10 * (below A p (clamp l.top l.bottom water) - below A p l.bottom)

/-- Dry weight of the soil of one layer inside the pile. -/
def dryPlug (A : Section K → K) (p : Pile K) (l : Layer K) : K :=
  l.weight * (below A p l.top - below A p l.bottom)

end OpenPile.Spec.Weight
