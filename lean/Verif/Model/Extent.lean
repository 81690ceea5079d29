/-
The extent of a `Model`.

Models `src/openpile/construct.py` 1357-1396 (`embedment`, `top`, `bottom`).
-/
import Verif.Model.Model

namespace OpenPile.Model
variable {K : Type} [Field K] [LinearOrder K]

/-- `Model.embedment`, construct.py 1357-1369.  The outer `none` is Python's `None` (no soil); a pile without
sections, which no validator lets pass, would raise and is `some none`. -/
def Model.embedment (m : Model K) : Option (Option K) :=
  m.soil.map (fun sp => m.pile.bottomElevation.map (fun b => sp.topElevation - b))

/-- `Model.top`, construct.py 1371-1382; `none` is the IndexError of a pile without sections. -/
def Model.top (m : Model K) : Option K :=
  m.pile.topElevation.map (fun t =>
    match m.soil with
    | none => t
    | some sp => max (max t sp.topElevation) sp.waterLine)

/-- `Model.bottom`, construct.py 1384-1396; `none` is the IndexError of a pile without sections. -/
def Model.bottom (m : Model K) : Option K :=
  m.pile.bottomElevation.map (fun b =>
    match m.soil with
    | none => b
    | some sp => min b sp.bottomElevation)

end OpenPile.Model
