/-
The printed form of a soil profile.

Models `src/openpile/core/misc.py` 39-46 (`var_to_str`), the `__str__` methods of the soil models
(`src/openpile/soilmodels.py` 283-304, 479-498, 640-641, 875-876, 1114-1115, 1367-1368, 1579-1580, 1744-1745,
1886-1887, 2100-2101, 2426-2427), of `Layer` (`src/openpile/construct.py` 552-553) and of `SoilProfile` (742-750).

A text is the list of its lines.  How Python writes a number is a parameter.  `none` is an exception.
-/
import Verif.Model.SoilModel

namespace OpenPile.Describe
open OpenPile.Params OpenPile.Axial OpenPile.SoilModel OpenPile.Lateral

/-- Library behaviour: `str` of a float, of an int and `round(x, 1)`. -/
structure Fmt where
  num : ℝ → String
  int : ℕ → String
  round1 : ℝ → ℝ

/-- `var_to_str` (formatted), core/misc.py 39-46; `none` is the `ValueError` for anything but a number or a list. -/
def varToStr (F : Fmt) : Param ℝ → Option String
  | .scalar x => some (F.num x)
  | .list l => some ("-".intercalate (l.map F.num))
  | .func _ => none
  | .object _ => none

/-- `var_to_str` of a multiplier, core/misc.py 39-46. -/
def multToStr (F : Fmt) : Mult → Option String
  | .num x => some (F.num x)
  | .func _ => none

/-- `round(self.G0/1000,1)`, soilmodels.py 641, 876, 1115, 2101, 2427; `none` is the `TypeError` of dividing a list
or a function. -/
noncomputable def megaStr (F : Fmt) : Param ℝ → Option String
  | .scalar x => some (F.num (F.round1 (x / 1000)))
  | _ => none

/-- The literal `kind`. -/
def kindStr : Loading → String
  | .static => "static"
  | .cyclic => "cyclic"

/-- `self.extension`, printed as `mt_curves` or `None`. -/
def extStr (b : Bool) : String := if b then "mt_curves" else "None"

/-- `__str__` of the lateral models, soilmodels.py 640-641 (Bothkennar clay), 875-876 (Cowden clay), 1114-1115,
2100-2101 (custom sand), 2426-2427 (custom clay), 1367-1368, 1579-1580, 1744-1745, 1886-1887. -/
noncomputable def lateral (F : Fmt) : Model → Option (List String)
  | .pisaClay s => do
    let su ← varToStr F s.Su
    let g ← megaStr F s.G0
    match s.kind with
    | .bothkennar => return ["\tCowden clay (PISA)", "\tSu = " ++ su ++ " kPa.", "\tG0 = " ++ g ++ " MPa"]
    | .cowden => return ["\tCowden clay (PISA)", "\tSu = " ++ su ++ " kPa.", "\tG0 = " ++ g ++ " MPa"]
  | .dunkirk s => do
    let dr ← varToStr F s.Dr
    let g ← megaStr F s.G0
    return ["\tDunkirk sand (PISA)", "\tDr = " ++ dr ++ "%. ", "\tG0 = " ++ g ++ " MPa"]
  | .custom s => do
    let g ← megaStr F s.G0
    match s.Su with
    | none => return ["\tCustom PISA sand", "\tG0 = " ++ g ++ " MPa"]
    | some _ => return ["\tCustom PISA sand", "\tG0 = " ++ g ++ " MPa"]
  | .apiSand s => do
    let phi ← varToStr F s.phi
    return ["\tAPI sand", "\tphi = " ++ phi ++ "°", "\t" ++ kindStr s.kind ++ " curves", "\text: " ++ extStr s.mtCurves]
  | .matlock s => do
    let su ← varToStr F s.Su
    let eps ← varToStr F s.eps50
    let head := match s.curve with
      | .api => "\tAPI clay"
      | .modified => "\tModified Matlock clay"
    return [head, "\tSu = " ++ su ++ " kPa", "\teps50 = " ++ eps, "\t" ++ kindStr s.kind ++ " curves",
      "\text: " ++ extStr s.mtCurves]
  | .rock s => do
    let ei ← varToStr F s.Ei
    let qu ← varToStr F s.qu
    return ["\tReese weakrock", "\tEi = " ++ ei ++ "kPa", "\tqu = " ++ qu ++ "kPa", "\tRQD = " ++ F.num s.RQD ++ "%"]

/-- An axial model as the constructor accepts it: `t` and `z` are the multipliers, numbers or functions
(soilmodels.py 271, 273, 467, 469); the numbers of the same name in the record are replaced by them. -/
inductive AxialObj
  | clay (m : ClayAxial) (t z : Mult)
  | sand (m : SandAxial) (t z : Mult)

/-- `tz_spring_fct` with multipliers as given: `return z * self.z_multiplier, t * self.t_multiplier * ...`,
soilmodels.py 367, 560.  `none` for a function: an array cannot be multiplied by it (`TypeError`). -/
noncomputable def AxialObj.tz (a : AxialObj) (cin cout sig height depth D : ℝ) (len : ℕ) (draws : ℕ → ℝ)
    (argsort : List ℝ → List ℕ) : Option (List ℝ × List ℝ) :=
  match a with
  | .clay m (.num t) (.num z) => ({ m with tMul := t, zMul := z } : ClayAxial).tzSpring cin cout sig height depth D len
      draws argsort
  | .sand m (.num t) (.num z) => ({ m with tMul := t, zMul := z } : SandAxial).tzSpring cin cout sig height depth len
      draws argsort
  | _ => none

/-- The words for the four kinds of plugging, soilmodels.py 284-291 and 480-487. -/
def plugStr : Plugging → String
  | .both => "(Plugged)"
  | .none => "(Unplugged)"
  | .compression => "(Plugged in compression, unplugged in tension)"
  | .tension => "(Unplugged in compression, plugged in tension)"

/-- `if self.x != d: out += f"\n\t{label} = {var_to_str(self.x)}"` for a number, soilmodels.py 292-303, 488-497. -/
noncomputable def optLine (F : Fmt) (label : String) (d x : ℝ) : List String :=
  if x = d then [] else ["\t" ++ label ++ " = " ++ F.num x]

/-- The same for a multiplier: a function differs from 1.0 and cannot be printed, soilmodels.py 292-295, 488-491. -/
noncomputable def multLine (F : Fmt) (label : String) (m : Mult) : Option (List String) :=
  match m with
  | .num x => some (optLine F label 1 x)
  | .func _ => do
    let s ← multToStr F m
    return ["\t" ++ label ++ " = " ++ s]

/-- `__str__` of the axial models, soilmodels.py 283-304 and 479-498. -/
noncomputable def axial (F : Fmt) : AxialObj → Option (List String)
  | .clay m t z => do
    let su ← varToStr F m.Su
    let tl ← multLine F "t-multiplier" t
    let zl ← multLine F "z-multiplier" z
    return ["\tAPI clay " ++ plugStr m.plugging, "\tSu = " ++ su ++ " kPa", "\talpha_limit = " ++ F.num m.alphaLimit]
      ++ tl ++ zl ++ optLine F "Q-multiplier" 1 m.qMul ++ optLine F "w-multiplier" 1 m.wMul
      ++ optLine F "t-residual" (9 / 10) m.tResidual ++ optLine F "tension_multiplier" 1 m.tensionMul
  | .sand m t z => do
    let d ← varToStr F m.delta
    let tl ← multLine F "t-multiplier" t
    let zl ← multLine F "z-multiplier" z
    return ["\tAPI sand " ++ plugStr m.plugging, "\tdelta = " ++ d ++ " deg", "\tK = " ++ F.num m.K]
      ++ tl ++ zl ++ optLine F "Q-multiplier" 1 m.qMul ++ optLine F "w-multiplier" 1 m.wMul
      ++ optLine F "tension_multiplier" 1 m.tensionMul

/-- A layer as far as it is printed, construct.py 532-543. -/
structure Layer where
  name : String
  top : ℝ
  bottom : ℝ
  weight : ℝ
  lateral : Option Model
  axial : Option AxialObj

/-- `f"{label}{text}"` for a text of several lines. -/
def prefixed (label : String) : List String → List String
  | [] => [label]
  | h :: t => (label ++ h) :: t

/-- `f"{x}"` for an optional model: `None` or its text. -/
def optText {α : Type} (f : α → Option (List String)) : Option α → Option (List String)
  | none => some ["None"]
  | some x => f x

/-- `Layer.__str__`, construct.py 552-553. -/
noncomputable def layer (F : Fmt) (l : Layer) : Option (List String) := do
  let lt ← optText (lateral F) l.lateral
  let ax ← optText (axial F) l.axial
  return ["Name: " ++ l.name, "Elevation: (" ++ F.num l.top ++ ") - (" ++ F.num l.bottom ++ ") m",
    "Weight: " ++ F.num l.weight ++ " kN/m3"] ++ prefixed "Lateral model: " lt ++ prefixed "Axial model: " ax

/-- The loop of `SoilProfile.__str__`, construct.py 744-750; `i` layers are already printed. -/
noncomputable def layers (F : Fmt) : ℕ → List Layer → Option (List String)
  | _, [] => some []
  | i, l :: ls => do
    let a ← layer F l
    let b ← layers F (i + 1) ls
    return ["Layer " ++ F.int (i + 1), "------------------------------"] ++ a ++ ["~~~~~~~~~~~~~~~~~~~~~~~~~~~~~~"] ++ b

/-- `SoilProfile.__str__`, construct.py 742-750. -/
noncomputable def profile (F : Fmt) (ls : List Layer) : Option (List String) := layers F 0 ls

end OpenPile.Describe
