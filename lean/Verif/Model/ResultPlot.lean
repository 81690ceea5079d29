/-
The plots of a result.

Models `src/openpile/utils/graphics.py` 14-72 (`plot_deflection`, `plot_settlement`, `plot_forces`, `plot_results`) and
334-395 (`U_plot`, `settlement_plot`, `F_plot`), called by the methods `plot_deflection`, `plot_forces`,
`plot_lateral_results`, `plot_axial_results` and `plot` of a result (`src/openpile/winkler.py` 262-419).  A drawn line is the
list of its points; fonts, colours, titles and tick labels are left out.
-/
import Verif.Model.Analysis
import Verif.Model.Plot

namespace OpenPile.ResultPlot
open OpenPile.Analysis

variable {K : Type} [Field K] [LinearOrder K]

/-- One subplot. -/
structure Panel (K : Type) where
  /-- `axis.set_xlabel(...)` -/
  label : String
  /-- the line at zero: points `(x, y)` -/
  zero : List (K × K)
  /-- the line, or the edge of the filled area opposite to zero: points `(x, y)` -/
  curve : List (K × K)
  /-- `axis.set_xlim`; `none`: left to matplotlib -/
  range : Option (K × K)

/-- `U_plot`, graphics.py 334-349. -/
def deflectionPanel (T : Tables K) : Panel K where
  label := "Deflection [mm]"
  zero := T.disp.map (fun r => (0, r.1))
  curve := (T.disp.map (fun r => r.2.2.1 * 1000)).zip (T.disp.map (fun r => r.1))
  range := none

/-- `settlement_plot`, graphics.py 352-367, with `settlement` of winkler.py 179-188. -/
def settlementPanel (T : Tables K) : Panel K where
  label := "Settlement [mm]"
  zero := T.disp.map (fun r => (0, r.1))
  curve := (T.disp.map (fun r => r.2.1 * 1000)).zip (T.disp.map (fun r => r.1))
  range := none

/-- The columns of the table of forces. -/
inductive Force
  | normal
  | shear
  | moment
deriving DecidableEq, Repr

/-- `result.forces[force]`, graphics.py 382; the columns are named in winkler.py 98-105. -/
def Force.of : Force → K × K × K × K → K
  | .normal, r => r.2.1
  | .shear, r => r.2.2.1
  | .moment, r => r.2.2.2

def Force.label : Force → String
  | .normal => "N [kN]"
  | .shear => "V [kN]"
  | .moment => "M [kNm]"

/-- `F_plot`, graphics.py 370-395: `fill_betweenx(y, f)` fills the area between zero and `f`. -/
def forcePanel (f : Force) (T : Tables K) : Panel K where
  label := f.label
  zero := T.forces.map (fun r => (0, r.1))
  curve := (T.forces.map f.of).zip (T.forces.map (fun r => r.1))
  range := Plot.forceLimits (T.forces.map f.of)

/-- `plot_deflection`, graphics.py 14-21. -/
def plotDeflection (T : Tables K) : List (Panel K) := [deflectionPanel T]

/-- `plot_settlement`, graphics.py 24-35 (`plot_axial_results`, winkler.py 379-394). -/
def plotSettlement (T : Tables K) : List (Panel K) := [settlementPanel T, forcePanel .normal T]

/-- `plot_forces`, graphics.py 38-53. -/
def plotForces (T : Tables K) : List (Panel K) := [forcePanel .normal T, forcePanel .shear T, forcePanel .moment T]

/-- `plot_results`, graphics.py 56-72 (`plot_lateral_results` and `plot`, winkler.py 352-377 and 396-419). -/
def plotResults (T : Tables K) : List (Panel K) :=
  [deflectionPanel T, forcePanel .normal T, forcePanel .shear T, forcePanel .moment T]

end OpenPile.ResultPlot
