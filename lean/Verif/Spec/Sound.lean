/-
Spec: soil parameters for which every spring can be computed.

Ranges in terms of the fields of the soil models; nothing here refers to the functions that compute springs.
-/
import Verif.Model.SoilModel

namespace OpenPile.Spec.Sound
open OpenPile.SoilModel OpenPile.Params

/-- A multiplier with a value at every depth. -/
def Everywhere (m : Mult) : Prop :=
  match m with
  | .num _ => True
  | .func f => ∀ X, 0 ≤ X → ∃ v, f X = some v

/-- A number, a list of one or two numbers: the value at the top and the value at the bottom. -/
inductive Ends : Param ℝ → ℝ → ℝ → Prop
  | scalar (x : ℝ) : Ends (.scalar x) x x
  | single (x : ℝ) : Ends (.list [x]) x x
  | pair (x y : ℝ) : Ends (.list [x, y]) x y

/-- A parameter given by numbers between the bounds `lo` and `hi` at the top and the bottom of the layer. -/
def Between (p : Param ℝ) (lo hi : ℝ) : Prop := ∃ t b, Ends p t b ∧ lo ≤ t ∧ t ≤ hi ∧ lo ≤ b ∧ b ≤ hi

/-- A parameter given by positive numbers. -/
def Positive (p : Param ℝ) : Prop := ∃ t b, Ends p t b ∧ 0 < t ∧ 0 < b

/-- A parameter given by numbers that are not negative. -/
def Nonneg (p : Param ℝ) : Prop := ∃ t b, Ends p t b ∧ 0 ≤ t ∧ 0 ≤ b

/-- Embedded length between one and six diameters, the range of the PISA project. -/
def Slender (D L : ℝ) : Prop := D ≤ L ∧ L ≤ 6 * D

/-- A value `P` of a parameter of a custom model wherever it is evaluated: numbers, or a function of the depth. -/
def Custom (p : Param ℝ) (P : ℝ → Prop) : Prop :=
  match p with
  | .func f => ∀ X, 0 ≤ X → ∃ v, f X = some v ∧ P v
  | p => ∃ t b, Ends p t b ∧ ∀ w, 0 ≤ w → w ≤ 1 → P (t + (b - t) * w)

/-- The four parameters of a custom reaction curve: positive ultimate displacement and reaction, shape between 0 and
one half. -/
def Moderate (c : Conics) : Prop :=
  Custom c.X (fun v => 0 < v) ∧ Custom c.n (fun v => 0 ≤ v ∧ v ≤ 1 / 2) ∧ Custom c.k (fun _ => True) ∧
    Custom c.Y (fun v => 0 < v)

/-- Lateral models whose springs exist for sections of diameter `D` and an embedded length `L`. -/
def Lateral (D L : ℝ) : SoilModel.Model → Prop
  | .pisaClay s => Slender D L ∧ Positive s.Su ∧ Positive s.G0 ∧ Everywhere s.p ∧ Everywhere s.y ∧ Everywhere s.m ∧
      Everywhere s.t
  | .dunkirk s => Slender D L ∧ Between s.Dr 0 50 ∧ Positive s.G0 ∧ Everywhere s.p ∧ Everywhere s.y ∧ Everywhere s.m ∧
      Everywhere s.t
  | .custom s => (∀ p, s.Su = some p → Custom p (fun _ => True)) ∧ Custom s.G0 (fun v => 0 < v) ∧ Moderate s.pyC ∧
      Moderate s.mtC ∧ Moderate s.hbC ∧ Moderate s.mbC ∧ Everywhere s.p ∧ Everywhere s.y ∧ Everywhere s.m ∧
      Everywhere s.t
  | .apiSand s => (∃ hi, hi < 90 ∧ Between s.phi 0 hi) ∧ (∀ m, s.modulus = some m → Nonneg m) ∧ Everywhere s.p ∧
      Everywhere s.y
  | .matlock s => Nonneg s.Su ∧ Positive s.eps50 ∧ 0 < s.J ∧ Everywhere s.p ∧ Everywhere s.y
  | .rock s => Positive s.Ei ∧ Nonneg s.qu ∧ 0 < s.k ∧ 0 ≤ s.ztop ∧ Everywhere s.p ∧ Everywhere s.y

end OpenPile.Spec.Sound
