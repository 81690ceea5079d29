/-
The plot of a soil profile.

Models `src/openpile/utils/graphics.py` 75-141 (`soil_plot`), called by `SoilProfile.plot` (`src/openpile/construct.py`
759-816).  Only elevations are modelled: the limits of the axis, the rectangle and the label of every layer and the
water line; horizontally everything spans the axis.  Colours, names and fonts are left out.
-/
import Verif.Model.Soil

namespace OpenPile.SoilPlot
open OpenPile.Soil

variable {K : Type} [Field K] [LinearOrder K]

/-- `Rectangle(xy=(-100, layer.bottom), width=200, height=layer.top - layer.bottom)`, graphics.py 101-107. -/
structure Patch (K : Type) where
  y : K
  height : K
deriving DecidableEq, Repr

/-- What is drawn, graphics.py 76-135. -/
structure Figure (K : Type) where
  /-- `ax.set_ylim(bottom=yBot, top=yTop)`, 96 -/
  bottom : K
  top : K
  /-- one rectangle and one text for each layer, 100-115 -/
  patches : List (Patch K)
  labels : List K
  /-- the elevations of the line of the water level, 117-118 and 129-130 -/
  water : List K
deriving DecidableEq, Repr

/-- `soil_plot(SoilProfile)`, graphics.py 75-141 (`add_soil_profile` is always called without a pile). -/
def soilPlot (p : Profile K) : Figure K where
  bottom := p.bottomElevation
  top := max (p.topElevation + 5) (p.waterLine + 5)
  patches := p.layers.map (fun l => ⟨l.bottom, l.top - l.bottom⟩)
  labels := p.layers.map (fun l => 1 / 2 * (l.top + l.bottom))
  water := [p.waterLine + 0, p.waterLine + 0, p.waterLine + 0]

end OpenPile.SoilPlot
