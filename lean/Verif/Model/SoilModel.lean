/-
The lateral soil models: from soil parameters to springs.

Models `src/openpile/soilmodels.py` 130-166 and 591-2570 (spring functions and fields) and the check of
multiplier functions in `src/openpile/construct.py` 676-740.

Floats are real numbers; casts to float32 are not modelled.  A curve is the list of its points
(displacement, resistance).  `none` is an exception or a NaN.  Pydantic's bounds of the fields are not
part of the structures, theorems state the ones they need.
-/
import Verif.Model.Param
import Verif.Model.Conic
import Verif.Model.Lateral
import Verif.Model.Axial
import Verif.Model.Hooks
import Mathlib.Analysis.SpecialFunctions.Trigonometric.Arctan

namespace OpenPile.SoilModel
open OpenPile.Params OpenPile.Conic OpenPile.Lateral OpenPile.Axial OpenPile.Hooks

/-- A multiplier: a number or a function of the depth below ground (`none` where it raises).  Whether a
function returns `int` or `float` is not represented. -/
inductive Mult
  | num (x : ℝ)
  | func (f : ℝ → Option ℝ)

/-- `self.y_multiplier if isinstance(self.y_multiplier, float) else self.y_multiplier(X)`, e.g.
soilmodels.py 675-676. -/
def Mult.val : Mult → ℝ → Option ℝ
  | .num x, _ => some x
  | .func f, X => f X

/-- Arguments of a spring function, e.g. soilmodels.py 643-653.  `L` has the default `None`, which is not
represented: the model always passes a number. -/
structure Args where
  sig : ℝ
  X : ℝ
  height : ℝ
  depth : ℝ
  D : ℝ
  L : ℝ
  belowWater : Bool
  ymax : ℝ
  len : ℕ

/-- Results of calls to `random()` and `np.argsort`. -/
structure Env where
  draws : List ℝ
  tzDraws : ℕ → ℝ
  argsort : List ℝ → List ℕ

/-- A table of moments: one curve per lateral resistance. -/
abbrev Table := List (List (ℝ × ℝ))

/-- The validation `if depth_from_top_of_layer > layer_height: raise ValueError`, e.g.
soilmodels.py 656-657. -/
noncomputable def guard {α : Type} (a : Args) (r : Option α) : Option α :=
  if a.depth > a.height then none else r

/-- `return y * y_mult, p * p_mult`, e.g. soilmodels.py 675-678. -/
noncomputable def multiply (y p : Mult) (X : ℝ) (l : List (ℝ × ℝ)) : Option (List (ℝ × ℝ)) := do
  let ym ← y.val X
  let pm ← p.val X
  return scale ym pm l

/-- `t[count, :], m[count, :] = ...` for the rows of two square arrays of zeros, e.g.
soilmodels.py 745-755; `none` is the `IndexError` for too many rows. -/
noncomputable def fill (len : ℕ) (rows : Table) : Option Table :=
  if len < rows.length then none
  else some (rows ++ List.replicate (len - rows.length) (List.replicate len (0, 0)))

/-- `return t * t_mult, m * m_mult`, e.g. soilmodels.py 758-761. -/
noncomputable def multiplyRows (t m : Mult) (X : ℝ) (rows : Table) : Option Table := do
  let tm ← t.val X
  let mm ← m.val X
  return rows.map (scale tm mm)

/-! ### Bothkennar and Cowden clay -/

/-- The two native clay models; their classes only differ in the curve functions. -/
inductive ClayKind
  | bothkennar
  | cowden
deriving DecidableEq, Repr

/-- Fields of `Bothkennar_clay` and `Cowden_clay`, soilmodels.py 618-638, 853-873. -/
structure PisaClay where
  kind : ClayKind
  Su : Param ℝ
  G0 : Param ℝ
  p : Mult
  y : Mult
  m : Mult
  t : Mult

namespace PisaClay

/-- The p-y curve before multipliers, soilmodels.py 666-672 and 901-907. -/
noncomputable def pyCurve (s : PisaClay) (a : Args) (Su G0 : ℝ) : Option (List (ℝ × ℝ)) :=
  match s.kind with
  | .bothkennar => pyBothkennar a.X Su G0 a.D a.len
  | .cowden => pyCowden a.X Su G0 a.D a.len

/-- `py_spring_fct`, soilmodels.py 643-678 and 878-913. -/
noncomputable def py (s : PisaClay) (a : Args) : Option (List (ℝ × ℝ)) := guard a do
  let Su ← layered s.Su a.depth a.height
  let G0 ← layered s.G0 a.depth a.height
  let l ← s.pyCurve a Su G0
  multiply s.y s.p a.X l

/-- `Hb_spring_fct`, soilmodels.py 680-712 and 915-947. -/
noncomputable def hb (s : PisaClay) (a : Args) : Option (List (ℝ × ℝ)) := guard a do
  let Su ← layered s.Su a.depth a.height
  let G0 ← layered s.G0 a.depth a.height
  match s.kind with
  | .bothkennar => hbBothkennar Su G0 a.D a.L a.len
  | .cowden => hbCowden Su G0 a.D a.L a.len

/-- `mt_spring_fct`, soilmodels.py 714-761 and 949-996: one row per point of the p-y curve, all equal. -/
noncomputable def mt (s : PisaClay) (a : Args) : Option Table := guard a do
  let Su ← layered s.Su a.depth a.height
  let G0 ← layered s.G0 a.depth a.height
  let p ← s.pyCurve a Su G0
  let rows ← p.mapM (fun _ : ℝ × ℝ => match s.kind with
    | .bothkennar => mtBothkennar a.X Su G0 a.D a.len
    | .cowden => mtCowden a.X Su G0 a.D a.len)
  let full ← fill a.len rows
  multiplyRows s.t s.m a.X full

/-- `Mb_spring_fct`, soilmodels.py 763-795 and 998-1030. -/
noncomputable def mb (s : PisaClay) (a : Args) : Option (List (ℝ × ℝ)) := guard a do
  let Su ← layered s.Su a.depth a.height
  let G0 ← layered s.G0 a.depth a.height
  match s.kind with
  | .bothkennar => mbBothkennar Su G0 a.D a.L a.len
  | .cowden => mbCowden Su G0 a.D a.L a.len

end PisaClay

/-! ### Dunkirk sand -/

/-- Fields of `Dunkirk_sand`, soilmodels.py 1091-1112. -/
structure Dunkirk where
  Dr : Param ℝ
  G0 : Param ℝ
  p : Mult
  y : Mult
  m : Mult
  t : Mult

namespace Dunkirk

/-- `py_spring_fct`, soilmodels.py 1117-1154. -/
noncomputable def py (s : Dunkirk) (a : Args) : Option (List (ℝ × ℝ)) := guard a do
  let Dr ← layered s.Dr a.depth a.height
  let G0 ← layered s.G0 a.depth a.height
  let l ← pyDunkirk a.sig a.X Dr G0 a.D a.L a.len
  multiply s.y s.p a.X l

/-- `Hb_spring_fct`, soilmodels.py 1156-1189. -/
noncomputable def hb (s : Dunkirk) (a : Args) : Option (List (ℝ × ℝ)) := guard a do
  let Dr ← layered s.Dr a.depth a.height
  let G0 ← layered s.G0 a.depth a.height
  hbDunkirk a.sig Dr G0 a.D a.L a.len

/-- `mt_spring_fct`, soilmodels.py 1191-1243: one row per point of the p-y curve. -/
noncomputable def mt (s : Dunkirk) (a : Args) : Option Table := guard a do
  let Dr ← layered s.Dr a.depth a.height
  let G0 ← layered s.G0 a.depth a.height
  let p ← pyDunkirk a.sig a.X Dr G0 a.D a.L a.len
  let rows ← p.mapM (fun q : ℝ × ℝ => mtDunkirk a.sig a.X Dr G0 q.2 a.D a.L a.len)
  let full ← fill a.len rows
  multiplyRows s.t s.m a.X full

/-- `Mb_spring_fct`, soilmodels.py 1245-1278. -/
noncomputable def mb (s : Dunkirk) (a : Args) : Option (List (ℝ × ℝ)) := guard a do
  let Dr ← layered s.Dr a.depth a.height
  let G0 ← layered s.G0 a.depth a.height
  mbDunkirk a.sig Dr G0 a.D a.L a.len

end Dunkirk

/-! ### custom PISA models -/

/-- The four normalised parameters of one spring: fields `*_k`, `*_n`, `*_X`, `*_Y`. -/
structure Conics where
  k : Param ℝ
  n : Param ℝ
  X : Param ℝ
  Y : Param ℝ

/-- `get_value_at_current_depth` for the four parameters, e.g. soilmodels.py 2118-2127. -/
noncomputable def Conics.at (c : Conics) (a : Args) : Option (ℝ × ℝ × ℝ × ℝ) := do
  let xu ← valueAt c.X a.depth a.height a.X
  let n ← valueAt c.n a.depth a.height a.X
  let k ← valueAt c.k a.depth a.height a.X
  let yu ← valueAt c.Y a.depth a.height a.X
  return (xu, n, k, yu)

/-- Fields of `Custom_pisa_sand` (soilmodels.py 1975-2098) and, with a strength, of `Custom_pisa_clay`
(soilmodels.py 2293-2424). -/
structure Custom where
  Su : Option (Param ℝ)
  G0 : Param ℝ
  pyC : Conics
  mtC : Conics
  hbC : Conics
  mbC : Conics
  p : Mult
  y : Mult
  m : Mult
  t : Mult

namespace Custom

/-- The p-y curve before multipliers, soilmodels.py 2119-2128 and 2445-2454. -/
noncomputable def pyCurve (s : Custom) (a : Args) : Option (List (ℝ × ℝ)) := do
  let (xu, n, k, yu) ← s.pyC.at a
  let G0 ← valueAt s.G0 a.depth a.height a.X
  match s.Su with
  | none => pyCustomSand a.sig G0 a.D xu n k yu a.len
  | some p => do
    let Su ← valueAt p a.depth a.height a.X
    pyCustomClay Su G0 a.D xu n k yu a.len

/-- `py_spring_fct`, soilmodels.py 2103-2134 and 2429-2460. -/
noncomputable def py (s : Custom) (a : Args) : Option (List (ℝ × ℝ)) := guard a do
  let l ← s.pyCurve a
  multiply s.y s.p a.X l

/-- `Hb_spring_fct`, soilmodels.py 2136-2163 and 2462-2489. -/
noncomputable def hb (s : Custom) (a : Args) : Option (List (ℝ × ℝ)) := guard a do
  let (xu, n, k, yu) ← s.hbC.at a
  let G0 ← valueAt s.G0 a.depth a.height a.X
  match s.Su with
  | none => hbCustomSand a.sig G0 a.D xu n k yu a.len
  | some p => do
    let Su ← valueAt p a.depth a.height a.X
    hbCustomClay Su G0 a.D xu n k yu a.len

/-- `mt_spring_fct`, soilmodels.py 2165-2216 and 2491-2541. -/
noncomputable def mt (s : Custom) (a : Args) : Option Table := guard a do
  let pl ← s.pyCurve a
  let rows ← pl.mapM (fun q : ℝ × ℝ => do
    let (xu, n, k, yu) ← s.mtC.at a
    let G0 ← valueAt s.G0 a.depth a.height a.X
    match s.Su with
    | none => mtCustomSand a.sig G0 q.2 a.D xu n k yu a.len
    | some p => do
      let Su ← valueAt p a.depth a.height a.X
      mtCustomClay Su G0 a.D xu n k yu a.len)
  let full ← fill a.len rows
  multiplyRows s.t s.m a.X full

/-- `Mb_spring_fct`, soilmodels.py 2218-2245 and 2543-2570. -/
noncomputable def mb (s : Custom) (a : Args) : Option (List (ℝ × ℝ)) := guard a do
  let (xu, n, k, yu) ← s.mbC.at a
  let G0 ← valueAt s.G0 a.depth a.height a.X
  match s.Su with
  | none => mbCustomSand a.sig G0 a.D xu n k yu a.len
  | some p => do
    let Su ← valueAt p a.depth a.height a.X
    mbCustomClay Su G0 a.D xu n k yu a.len

end Custom

/-! ### rotational springs from t-z curves -/

/-- `np.append(x_pos, ...)` with `x_pos = x[x >= 0]`, soilmodels.py 1495-1500, 1657-1664, 1822-1829.
`none`: `x_pos[-1]` of an empty array.  `next i` is the value added at position `i`. -/
noncomputable def positive (x : List ℝ) (len : ℕ) (next : ℝ → ℕ → ℝ) : Option (List ℝ) := do
  let pos := x.filter (fun v => decide (0 ≤ v))
  let last ← pos.getLast?
  return pos ++ (List.range (len - pos.length)).map (fun i : ℕ => next last i)

/-- The rotational springs of the API models, soilmodels.py 1495-1505, 1657-1670, 1822-1835; `norms` is
the column `p_norm` (ones for clay). -/
noncomputable def rotational (c : List ℝ × List ℝ) (D : ℝ) (len : ℕ) (norms : List ℝ) :
    Option Table := do
  let t ← positive c.2 len (fun x _ => x)
  let z ← positive c.1 len (fun x i => x + (i : ℝ) * (1 / 10))
  if D = 0 then none
  else
    return norms.map (fun pn : ℝ => List.zipWith
      (fun zi ti : ℝ => (Real.arctan (zi / (1 / 2 * D)), 1 / 4 * Real.pi * D ^ 2 * ti * pn)) z t)

/-! ### API sand -/

/-- `modification`, soilmodels.py 1346. -/
inductive Modification
  | kallehave
  | sorensen
deriving DecidableEq, Repr

/-- Fields of `API_sand`, soilmodels.py 1325-1352 (`G0` is not used by the springs). -/
structure ApiSand where
  phi : Param ℝ
  kind : Loading
  modulus : Option (Param ℝ)
  modification : Option Modification
  p : Mult
  y : Mult
  mtCurves : Bool

namespace ApiSand

/-- The initial subgrade modulus handed to `py_curves.api_sand`, soilmodels.py 1391-1434. -/
noncomputable def subgrade (s : ApiSand) (a : Args) (phi : ℝ) : Option ℝ := do
  let k ← match s.modulus with
    | none => some 0
    | some m => layered m a.depth a.height
  match s.modification with
  | none => some k
  | some .kallehave => subgradeKallehave phi a.belowWater a.X a.D
  | some .sorensen => subgradeSorensen phi a.X a.D

/-- `py_spring_fct`, soilmodels.py 1370-1443. -/
noncomputable def py (s : ApiSand) (a : Args) : Option (List (ℝ × ℝ)) := guard a do
  let phi ← layered s.phi a.depth a.height
  let k ← s.subgrade a phi
  let l ← apiSand a.sig a.X phi a.D s.kind a.belowWater k a.ymax a.len
  multiply s.y s.p a.X l

/-- `p_norm`, soilmodels.py 1478-1481. -/
noncomputable def normalised (p : List ℝ) : List ℝ :=
  match p.max? with
  | some m => if 0 < m then p.map (· / m) else p
  | none => p

/-- `mt_spring_fct`, soilmodels.py 1445-1505. -/
noncomputable def mt (s : ApiSand) (a : Args) (e : Env) : Option Table := guard a do
  let phi ← layered s.phi a.depth a.height
  let l ← s.py a
  let c ← tzApiSand a.sig (phi - 5) (8 / 10) 1 a.len e.tzDraws e.argsort
  rotational c a.D a.len (normalised (l.map Prod.snd))

end ApiSand

/-! ### API and Matlock clay -/

/-- Which curve function is used. -/
inductive MatlockKind
  | api
  | modified
deriving DecidableEq, Repr

/-- Fields of `API_clay` and `Modified_Matlock_clay`, soilmodels.py 1538-1565, 1703-1730. -/
structure MatlockClay where
  curve : MatlockKind
  Su : Param ℝ
  eps50 : Param ℝ
  J : ℝ
  kind : Loading
  p : Mult
  y : Mult
  mtCurves : Bool

namespace MatlockClay

/-- `py_spring_fct`, soilmodels.py 1582-1622 and 1747-1787. -/
noncomputable def py (s : MatlockClay) (a : Args) (e : Env) : Option (List (ℝ × ℝ)) := guard a do
  let Su ← layered s.Su a.depth a.height
  let eps ← layered s.eps50 a.depth a.height
  let l ← match s.curve with
    | .api => apiClay a.sig a.X Su eps a.D s.J s.kind a.ymax a.len e.draws
    | .modified => modMatlock a.sig a.X Su eps a.D s.J s.kind a.ymax a.len e.draws
  multiply s.y s.p a.X l

/-- `mt_spring_fct`, soilmodels.py 1624-1670 and 1789-1835. -/
noncomputable def mt (s : MatlockClay) (a : Args) (e : Env) : Option Table := guard a do
  let Su ← layered s.Su a.depth a.height
  let c ← tzApiClay a.sig Su a.D 1 1 1 a.len e.tzDraws e.argsort
  rotational c a.D a.len (List.replicate a.len 1)

end MatlockClay

/-! ### weak rock -/

/-- Fields of `Reese_weakrock`, soilmodels.py 1861-1884. -/
structure WeakRock where
  Ei : Param ℝ
  qu : Param ℝ
  RQD : ℝ
  k : ℝ
  ztop : ℝ
  p : Mult
  y : Mult

/-- `Reese_weakrock.py_spring_fct`, soilmodels.py 1889-1927. -/
noncomputable def WeakRock.py (s : WeakRock) (a : Args) : Option (List (ℝ × ℝ)) := guard a do
  let Ei ← layered s.Ei a.depth a.height
  let qu ← layered s.qu a.depth a.height
  let l ← reeseRock Ei qu s.RQD (a.X + s.ztop) a.D s.k a.len
  multiply s.y s.p a.X l

/-! ### all models -/

/-- Any lateral model. -/
inductive Model
  | pisaClay (s : PisaClay)
  | dunkirk (s : Dunkirk)
  | custom (s : Custom)
  | apiSand (s : ApiSand)
  | matlock (s : MatlockClay)
  | rock (s : WeakRock)

namespace Model

/-- `spring_signature`: p-y, Hb, m-t, Mb; soilmodels.py 638, 873, 1112, 1358-1365, 1570-1577,
1735-1742, 1884, 2098, 2424. -/
def signature : Model → Bool × Bool × Bool × Bool
  | .pisaClay _ => (true, true, true, true)
  | .dunkirk _ => (true, true, true, true)
  | .custom _ => (true, true, true, true)
  | .apiSand s => (true, false, s.mtCurves, false)
  | .matlock s => (true, false, s.mtCurves, false)
  | .rock _ => (true, false, false, false)

/-- The default of a missing spring function, soilmodels.py 150-166. -/
noncomputable def missing (ymax : ℝ) (len : ℕ) : List (ℝ × ℝ) :=
  (linspace 0 ymax len).map (fun x => (x, 0))

/-- `py_spring_fct`. -/
noncomputable def py (m : Model) (a : Args) (e : Env) : Option (List (ℝ × ℝ)) :=
  match m with
  | .pisaClay s => s.py a
  | .dunkirk s => s.py a
  | .custom s => s.py a
  | .apiSand s => s.py a
  | .matlock s => s.py a e
  | .rock s => s.py a

/-- `Hb_spring_fct`. -/
noncomputable def hb (m : Model) (a : Args) : Option (List (ℝ × ℝ)) :=
  match m with
  | .pisaClay s => s.hb a
  | .dunkirk s => s.hb a
  | .custom s => s.hb a
  | _ => some (missing a.ymax a.len)

/-- `Mb_spring_fct`. -/
noncomputable def mb (m : Model) (a : Args) : Option (List (ℝ × ℝ)) :=
  match m with
  | .pisaClay s => s.mb a
  | .dunkirk s => s.mb a
  | .custom s => s.mb a
  | _ => some (missing a.ymax a.len)

/-- `mt_spring_fct`; the default (a single curve instead of a table, never requested because of the
signature) is represented by a table with one row. -/
noncomputable def mt (m : Model) (a : Args) (e : Env) : Option Table :=
  match m with
  | .pisaClay s => s.mt a
  | .dunkirk s => s.mt a
  | .custom s => s.mt a
  | .apiSand s => s.mt a e
  | .matlock s => s.mt a e
  | .rock _ => some [missing a.ymax a.len]

/-- `p_multiplier`, `y_multiplier`, `m_multiplier`, `t_multiplier`; the last two are the class variable
1.0 for models without rotational springs of their own. -/
def multipliers : Model → Mult × Mult × Mult × Mult
  | .pisaClay s => (s.p, s.y, s.m, s.t)
  | .dunkirk s => (s.p, s.y, s.m, s.t)
  | .custom s => (s.p, s.y, s.m, s.t)
  | .apiSand s => (s.p, s.y, .num 1, .num 1)
  | .matlock s => (s.p, s.y, .num 1, .num 1)
  | .rock s => (s.p, s.y, .num 1, .num 1)

end Model

/-! ### check of multiplier functions -/

/-- Messages of the check: `print` for the multipliers of resistance; for displacements a `ValueError`
is created but not raised, so there is no message. -/
inductive Axis
  | resistance
  | displacement
deriving DecidableEq, Repr

/-- `check_multipliers_callable`, construct.py 678-704: the loop over the depths.  `none` is an exception
of the function itself; the exceptions in the code are created but not raised, so an invalid value only
ends the loop.  `true`: a message was printed. -/
noncomputable def checkLoop (ax : Axis) (f : ℝ → Option ℝ) : List ℝ → Option Bool
  | [] => some false
  | d :: ds => do
    let r ← f d
    match ax with
    | .resistance => if r < 0 then some true else checkLoop ax f ds
    | .displacement => if 0 < r then checkLoop ax f ds else some false

/-- `check_multipliers_callable`, construct.py 678-704. -/
noncomputable def checkMultiplier (ax : Axis) (m : Mult) (ground top bottom : ℝ) : Option Bool :=
  match m with
  | .num _ => some false
  | .func f => checkLoop ax f ((linspace top bottom 100).map (fun z => ground - z))

/-- `check_multipliers_in_lateral_model` for one layer, construct.py 706-738; `none` rejects the
profile. -/
noncomputable def checkMultipliers (m : Model) (ground top bottom : ℝ) : Option Unit := do
  let (p, y, mm, t) := m.multipliers
  let _ ← checkMultiplier .resistance p ground top bottom
  let _ ← checkMultiplier .displacement y ground top bottom
  let _ ← checkMultiplier .resistance mm ground top bottom
  let _ ← checkMultiplier .displacement t ground top bottom
  return ()

end OpenPile.SoilModel
