/-
Axial resistance: unit shaft friction and end bearing, t-z and Q-z curves, and the axial soil models.

Models `src/openpile/utils/misc.py`, `src/openpile/utils/tz_curves.py` 17-225 and 327-469,
`src/openpile/utils/qz_curves.py` and the functions of `API_clay_axial` and `API_sand_axial` in
`src/openpile/soilmodels.py` 196-588.

Floats are real numbers; casts to float32 are not modelled.  A curve is the pair of its vectors, as in
the code.  `random()` is a sequence of draws, `np.argsort` a parameter (its order of ties is not
specified by numpy).  `none` is an exception or a NaN.
-/
import Verif.Model.Param
import Verif.Model.Spring
import Verif.Model.Conic
import Verif.Model.Py
import Mathlib.Analysis.SpecialFunctions.Trigonometric.Basic
import Mathlib.Analysis.SpecialFunctions.Log.Basic

namespace OpenPile.Axial
open OpenPile.Params OpenPile.Spring
open OpenPile.Conic (linspace)

/-! ### limits -/

/-- `_Qmax_api_clay`, utils/misc.py 7-12. -/
def qmaxClay (Su : ℝ) : ℝ := 9 * Su

/-- `Nq_table` over `delta_table`, utils/misc.py 21-22. -/
noncomputable def nqTable : List (ℝ × ℝ) :=
  [(0, 8), (15, 8), (20, 12), (25, 20), (30, 40), (35, 50), (100, 50)]

/-- `Qmax_table` over `delta_table`, utils/misc.py 21, 23. -/
noncomputable def qTable : List (ℝ × ℝ) :=
  [(0, 1900), (15, 1900), (20, 2900), (25, 4800), (30, 9600), (35, 12000), (100, 12000)]

/-- `fs_max_table` over `delta_table`, utils/misc.py 103-104. -/
noncomputable def fsTable : List (ℝ × ℝ) :=
  [(0, 478 / 10), (15, 478 / 10), (20, 67), (25, 813 / 10), (30, 957 / 10), (35, 1148 / 10),
    (100, 1148 / 10)]

/-- `_Qmax_api_sand`, utils/misc.py 15-29. -/
noncomputable def qmaxSand (sig delta : ℝ) : Option ℝ := do
  let nq ← interp delta nqTable
  let q ← interp delta qTable
  return min q (sig * nq)

/-- `psi`, utils/misc.py 59-62. -/
noncomputable def psi (sig Su : ℝ) : ℝ := if sig = 0 then Su / (1 / 1000) else Su / sig

/-- `_fmax_api_clay`, utils/misc.py 32-70.  For `psi = 0` the power is infinite and `min` returns the
limit; for `psi < 0` it is NaN. -/
noncomputable def fmaxClay (sig Su alphaLimit : ℝ) : Option ℝ :=
  let p := psi sig Su
  if p < 0 then none
  else if p = 0 then some (alphaLimit * Su)
  else if 1 < p then some (min (1 / 2 * p ^ (-(1 / 4) : ℝ)) alphaLimit * Su)
  else some (min (1 / 2 * p ^ (-(1 / 2) : ℝ)) alphaLimit * Su)

/-- `_fmax_api_sand`, utils/misc.py 77-110. -/
noncomputable def fmaxSand (sig delta k : ℝ) : Option ℝ := do
  let f ← interp delta fsTable
  return min f (k * sig * Real.tan (delta * Real.pi / 180))

/-! ### backbone curves -/

/-- `np.concatenate((-fac * l[-1:0:-1], l))`, tz_curves.py 120-123, 360-363. -/
def mirror (fac : ℝ) (l : List ℝ) : List ℝ := (l.drop 1).reverse.map (fun x => -fac * x) ++ l

/-- `t[ids]` for an integer array; `none` is the `IndexError`. -/
def gather (t : List ℝ) (ids : List ℕ) : Option (List ℝ) := ids.mapM (fun i : ℕ => t[i]?)

/-- Completion of the vectors `z`, `t` to length `len` and sorting, tz_curves.py 125-141, 365-381,
qz_curves.py 67-83: the displacement vector is sorted first and `argsort` is applied to the sorted
vector. -/
noncomputable def complete (z t : List ℝ) (len : ℕ) (add : ℝ → ℝ) (tail : ℝ) (draws : ℕ → ℝ)
    (argsort : List ℝ → List ℕ) : Option (List ℝ × List ℝ) := do
  let n := len - z.length
  let z' := Py.sortedBy id (z ++ (List.range n).map (fun i : ℕ => add (draws i)))
  let t' := t ++ List.replicate n tail
  let t'' ← gather t' (argsort z')
  return (z', t'')

/-- `backbone_api_clay`, tz_curves.py 81-141. -/
noncomputable def backboneClay (res tens : ℝ) (len : ℕ) (draws : ℕ → ℝ)
    (argsort : List ℝ → List ℕ) : Option (List ℝ × List ℝ) :=
  let zs : List ℝ := [0, 16 / 10000, 31 / 10000, 57 / 10000, 80 / 10000, 100 / 10000, 200 / 10000,
    300 / 10000]
  let ts : List ℝ := [0, 3 / 10, 5 / 10, 75 / 100, 90 / 100, 1, res, res]
  complete (mirror 1 zs) (mirror tens ts) (max 15 len) (fun r => 2 / 100 + r * (1 / 100)) res draws
    argsort

/-- `backbone_api_sand`, tz_curves.py 327-381. -/
noncomputable def backboneSand (tens : ℝ) (len : ℕ) (draws : ℕ → ℝ) (argsort : List ℝ → List ℕ) :
    Option (List ℝ × List ℝ) :=
  let zs : List ℝ := [0, 254 / 10000, 30 / 1000, 32 / 1000, 34 / 1000, 36 / 1000, 38 / 1000, 40 / 1000]
  let ts : List ℝ := [0, 1, 1, 1, 1, 1, 1, 1]
  complete (mirror 1 zs) (mirror tens ts) (max 15 len) (fun r => 38 / 1000 + r * (1 / 100)) 1 draws
    argsort

/-- `_backbone_api`, qz_curves.py 19-83. -/
noncomputable def backboneTip (len : ℕ) (draws : ℕ → ℝ) (argsort : List ℝ → List ℕ) :
    Option (List ℝ × List ℝ) :=
  let zs : List ℝ := [-(200 / 1000), -(150 / 1000), -(100 / 1000), -(73 / 1000), -(42 / 1000),
    -(13 / 1000), -(2 / 1000), 0, 2 / 1000, 13 / 1000, 42 / 1000, 73 / 1000, 100 / 1000, 150 / 1000,
    200 / 1000]
  let qs : List ℝ := [0, 0, 0, 0, 0, 0, 0, 0, 25 / 100, 50 / 100, 75 / 100, 90 / 100, 1, 1, 1]
  complete zs qs (max 15 len) (fun r => 1 / 10 + r * (1 / 10)) 1 draws argsort

/-! ### curves -/

/-- `z * sz, t * st` on arrays. -/
def scaleCurve (sz st : ℝ) (c : List ℝ × List ℝ) : List ℝ × List ℝ :=
  (c.1.map (· * sz), c.2.map (· * st))

/-- `tz_curves.api_clay`, tz_curves.py 145-225. -/
noncomputable def tzApiClay (sig Su D alphaLimit res tens : ℝ) (len : ℕ) (draws : ℕ → ℝ)
    (argsort : List ℝ → List ℕ) : Option (List ℝ × List ℝ) := do
  let f ← fmaxClay sig Su alphaLimit
  let c ← backboneClay res tens (max 15 len) draws argsort
  return scaleCurve D f c

/-- `tz_curves.api_sand`, tz_curves.py 385-469 (the displacements are not scaled). -/
noncomputable def tzApiSand (sig delta k tens : ℝ) (len : ℕ) (draws : ℕ → ℝ)
    (argsort : List ℝ → List ℕ) : Option (List ℝ × List ℝ) := do
  let f ← fmaxSand sig delta k
  let c ← backboneSand tens len draws argsort
  return scaleCurve 1 f c

/-- `qz_curves.api_clay`, qz_curves.py 87-130. -/
noncomputable def qzApiClay (Su D : ℝ) (len : ℕ) (draws : ℕ → ℝ) (argsort : List ℝ → List ℕ) :
    Option (List ℝ × List ℝ) := do
  let c ← backboneTip len draws argsort
  return scaleCurve D (qmaxClay Su) c

/-- `qz_curves.api_sand`, qz_curves.py 134-189. -/
noncomputable def qzApiSand (sig delta D : ℝ) (len : ℕ) (draws : ℕ → ℝ) (argsort : List ℝ → List ℕ) :
    Option (List ℝ × List ℝ) := do
  let f ← qmaxSand sig delta
  let c ← backboneTip len draws argsort
  return scaleCurve D f c

/-- `np.log(a / b)`; `none` is NaN or an infinity. -/
noncomputable def logQuot (a b : ℝ) : Option ℝ :=
  if b = 0 ∨ a / b ≤ 0 then none else some (Real.log (a / b))

/-- The number of points used by `kraft_modification`, tz_curves.py 58-61. -/
def kraftLength (len : ℕ) : ℕ := if max 15 len % 2 = 0 then max 15 len + 1 else max 15 len

/-- `kraft_modification`, tz_curves.py 17-77 (`half_length = round(output_length / 2) - 2`). -/
noncomputable def kraft (fmax D G0 res tens rf zif : ℝ) (len : ℕ) : Option (List ℝ × List ℝ) := do
  let half := roundHalf (kraftLength len) - 2
  let tpos := linspace 0 fmax half
  if fmax = 0 ∨ G0 = 0 then none
  else
    let zpos ← tpos.mapM (fun t : ℝ =>
      (logQuot (zif - rf * t / fmax) (1 - rf * t / fmax)).map (fun l => t * (1 / 2) * D / G0 * l))
    let l ← logQuot (zif - rf) (1 - rf)
    let zmax := fmax * D / (2 * G0) * l
    let zres := zmax + 5 / 1000
    return (mirror 1 (zpos ++ [zres, zres + 5 / 1000]), mirror tens (tpos ++ [res * fmax, res * fmax]))

/-! ### axial soil models -/

/-- The literal `plugging`. -/
inductive Plugging
  | none
  | compression
  | tension
  | both
deriving DecidableEq, Repr

/-- `circumference_total` and `tens_fac`, soilmodels.py 341-356 and 535-550; `none` is a division by
zero. -/
noncomputable def circumference (pl : Plugging) (cin cout tm : ℝ) : Option (ℝ × ℝ) :=
  match pl with
  | .none => some (cout + cin, tm)
  | .tension => if cout + cin = 0 then Option.none else some (cout + cin, tm * cin / (cout + cin))
  | .compression => if cout = 0 then Option.none else some (cout, tm * (cin + cout) / cout)
  | .both => if cout = 0 then Option.none else some (cout, tm * cin / cout)

/-- The tip area that carries end bearing, soilmodels.py 386-389 and 580-583. -/
def bearingArea (pl : Plugging) (tip footprint : ℝ) : ℝ :=
  match pl with
  | .both => footprint
  | .compression => footprint
  | _ => tip

/-- Fields of `API_clay_axial`, soilmodels.py 262-281.  `t_multiplier` and `z_multiplier` are numbers;
a callable is accepted by pydantic but multiplying an array with it raises (not represented). -/
structure ClayAxial where
  Su : Param ℝ
  plugging : Plugging
  alphaLimit : ℝ
  tMul : ℝ
  zMul : ℝ
  qMul : ℝ
  wMul : ℝ
  tResidual : ℝ
  tensionMul : ℝ

/-- Fields of `API_sand_axial`, soilmodels.py 458-477. -/
structure SandAxial where
  delta : Param ℝ
  K : ℝ
  plugging : Plugging
  tMul : ℝ
  zMul : ℝ
  qMul : ℝ
  wMul : ℝ
  insideFriction : ℝ
  tensionMul : ℝ

namespace ClayAxial

/-- `API_clay_axial.unit_shaft_friction`, soilmodels.py 306-311. -/
noncomputable def unitShaftFriction (m : ClayAxial) (sig depth height : ℝ) : Option ℝ := do
  let Su ← layered m.Su depth height
  fmaxClay sig Su m.alphaLimit

/-- `API_clay_axial.unit_tip_resistance`, soilmodels.py 313-318. -/
noncomputable def unitTipResistance (m : ClayAxial) (depth height : ℝ) : Option ℝ := do
  let Su ← layered m.Su depth height
  return qmaxClay Su

/-- `API_clay_axial.tz_spring_fct`, soilmodels.py 325-367: `alpha_limit` is not handed to
`tz_curves.api_clay`, whose default is 1. -/
noncomputable def tzSpring (m : ClayAxial) (cin cout sig height depth D : ℝ) (len : ℕ)
    (draws : ℕ → ℝ) (argsort : List ℝ → List ℕ) : Option (List ℝ × List ℝ) := do
  let Su ← layered m.Su depth height
  let (ct, tens) ← circumference m.plugging cin cout m.tensionMul
  let c ← tzApiClay sig Su D 1 m.tResidual tens len draws argsort
  return scaleCurve m.zMul (m.tMul * ct) c

/-- `API_clay_axial.Qz_spring_fct`, soilmodels.py 369-391. -/
noncomputable def qzSpring (m : ClayAxial) (tip footprint height depth D : ℝ) (len : ℕ)
    (draws : ℕ → ℝ) (argsort : List ℝ → List ℕ) : Option (List ℝ × List ℝ) := do
  let Su ← layered m.Su depth height
  let c ← qzApiClay Su D len draws argsort
  return scaleCurve m.wMul (m.qMul * bearingArea m.plugging tip footprint) c

end ClayAxial

namespace SandAxial

/-- `API_sand_axial.unit_shaft_friction`, soilmodels.py 500-505. -/
noncomputable def unitShaftFriction (m : SandAxial) (sig depth height : ℝ) : Option ℝ := do
  let d ← layered m.delta depth height
  fmaxSand sig d m.K

/-- `API_sand_axial.unit_tip_resistance`, soilmodels.py 507-512. -/
noncomputable def unitTipResistance (m : SandAxial) (sig depth height : ℝ) : Option ℝ := do
  let d ← layered m.delta depth height
  qmaxSand sig d

/-- `API_sand_axial.tz_spring_fct`, soilmodels.py 519-560. -/
noncomputable def tzSpring (m : SandAxial) (cin cout sig height depth : ℝ) (len : ℕ)
    (draws : ℕ → ℝ) (argsort : List ℝ → List ℕ) : Option (List ℝ × List ℝ) := do
  let d ← layered m.delta depth height
  let (ct, tens) ← circumference m.plugging cin cout m.tensionMul
  let c ← tzApiSand sig d m.K tens len draws argsort
  return scaleCurve m.zMul (m.tMul * ct) c

/-- `API_sand_axial.Qz_spring_fct`, soilmodels.py 562-585. -/
noncomputable def qzSpring (m : SandAxial) (tip footprint sig height depth D : ℝ) (len : ℕ)
    (draws : ℕ → ℝ) (argsort : List ℝ → List ℕ) : Option (List ℝ × List ℝ) := do
  let d ← layered m.delta depth height
  let c ← qzApiSand sig d D len draws argsort
  return scaleCurve m.wMul (m.qMul * bearingArea m.plugging tip footprint) c

end SandAxial

end OpenPile.Axial
