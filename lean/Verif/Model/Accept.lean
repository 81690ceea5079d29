/-
What the constructors of the soil models accept.

Models the field constraints (pydantic) of the classes in `src/openpile/soilmodels.py`.  A class that is given a value
outside its constraints raises a `ValidationError`.  Conversion of types (an integer or a string of digits given for a
number) is not modelled; a callable is only checked for being callable.
-/
import Verif.Model.Assemble
import Verif.Model.Describe

namespace OpenPile.Accept
open OpenPile.Params OpenPile.SoilModel OpenPile.Axial OpenPile.Assemble

/-- `Union[Annotated[float, ...], Annotated[List[...], Field(min_length=1, max_length=2)]]`, with `Callable` as third
member if `callable`, e.g. soilmodels.py 262-265 and 1986-1990. -/
def field (number item : ℝ → Prop) (callable : Bool) : Param ℝ → Prop
  | .scalar x => number x
  | .list l => 1 ≤ l.length ∧ l.length ≤ 2 ∧ ∀ x ∈ l, item x
  | .func _ => callable = true
  | .object _ => callable = true

/-- `Union[Callable[[float], float], Annotated[float, ...]]`, e.g. soilmodels.py 271, 628. -/
def mult (number : ℝ → Prop) : Mult → Prop
  | .num x => number x
  | .func _ => True

/-- `gt=0.0` and `PositiveFloat`. -/
def positive (x : ℝ) : Prop := 0 < x

/-- `ge=0.0`. -/
def nonneg (x : ℝ) : Prop := 0 ≤ x

/-- `ge=lo, le=hi`. -/
def range (lo hi x : ℝ) : Prop := lo ≤ x ∧ x ≤ hi

/-- `ge=0.0, lt=1.0`, soilmodels.py 1999-2000. -/
def shape (x : ℝ) : Prop := 0 ≤ x ∧ x < 1

/-- Strengths, moduli and densities: positive numbers; soilmodels.py 262-265, 618-626, 853-861, 1092-1100, 1332-1345,
1539-1557, 1704-1722, 1861-1869. -/
def amount : Param ℝ → Prop := field positive positive false

/-- `API_clay_axial`, soilmodels.py 262-281. -/
def clayAxial (m : ClayAxial) (t z : Mult) : Prop :=
  amount m.Su ∧ positive m.alphaLimit ∧ mult nonneg t ∧ mult positive z ∧ nonneg m.qMul ∧ positive m.wMul ∧
    range (7 / 10) (9 / 10) m.tResidual ∧ range 0 1 m.tensionMul

/-- `API_sand_axial`, soilmodels.py 458-477: a friction angle given as a number has no upper limit. -/
def sandAxial (m : SandAxial) (t z : Mult) : Prop :=
  field positive (range 0 45) false m.delta ∧ range (8 / 10) 1 m.K ∧ mult nonneg t ∧ mult positive z ∧ nonneg m.qMul ∧
    positive m.wMul ∧ range 0 1 m.insideFriction ∧ range 0 1 m.tensionMul

/-- An axial model with its multipliers as given. -/
def axialObj : Describe.AxialObj → Prop
  | .clay m t z => clayAxial m t z
  | .sand m t z => sandAxial m t z

/-- An axial model with numbers as multipliers. -/
def axial : AxialModel → Prop
  | .clay m => clayAxial m (.num m.tMul) (.num m.zMul)
  | .sand m => sandAxial m (.num m.tMul) (.num m.zMul)

/-- The four parameters of a reaction curve of a custom PISA model, soilmodels.py 1992-2015 and alike to 2087,
2318-2413. -/
def conics (c : Conics) : Prop :=
  field positive positive true c.X ∧ field shape shape true c.n ∧ field positive positive true c.k ∧
    field positive positive true c.Y

/-- `p_multiplier`, `y_multiplier`, `m_multiplier`, `t_multiplier` of a PISA model, soilmodels.py 628-634, 863-869,
1102-1108, 2088-2094, 2414-2420. -/
def mults (p y m t : Mult) : Prop := mult nonneg p ∧ mult positive y ∧ mult nonneg m ∧ mult positive t

/-- The lateral models: `Bothkennar_clay` (soilmodels.py 618-634), `Cowden_clay` (853-869), `Dunkirk_sand`
(1092-1108: the relative density has no upper limit), `API_sand` (1325-1352), `API_clay` (1539-1564),
`Modified_Matlock_clay` (1704-1729), `Reese_weakrock` (1861-1879), `Custom_pisa_sand` (1986-2094) and `Custom_pisa_clay`
(2306-2420).  The field `G0` of the models of the API is not represented, no spring reads it. -/
def lateral : SoilModel.Model → Prop
  | .pisaClay s => amount s.Su ∧ amount s.G0 ∧ mults s.p s.y s.m s.t
  | .dunkirk s => amount s.Dr ∧ amount s.G0 ∧ mults s.p s.y s.m s.t
  | .custom s => (∀ p, s.Su = some p → field positive positive true p) ∧ field positive positive true s.G0 ∧
      conics s.pyC ∧ conics s.mtC ∧ conics s.hbC ∧ conics s.mbC ∧ mults s.p s.y s.m s.t
  | .apiSand s => field (range 15 45) (range 15 45) false s.phi ∧ (∀ p, s.modulus = some p → amount p) ∧
      mult nonneg s.p ∧ mult positive s.y
  | .matlock s => amount s.Su ∧ amount s.eps50 ∧ range (25 / 100) (5 / 10) s.J ∧ mult nonneg s.p ∧ mult positive s.y
  | .rock s => amount s.Ei ∧ amount s.qu ∧ range 0 100 s.RQD ∧ range (5 / 100000) (5 / 10000) s.k ∧ nonneg s.ztop ∧
      mult nonneg s.p ∧ mult positive s.y

end OpenPile.Accept
