/-
Spec: soil parameters for which no lateral spring is negative.

Ranges in terms of the fields of the soil models; nothing here refers to the functions that compute springs.
-/
import Verif.Spec.Sound

namespace OpenPile.Spec.Usual
open OpenPile.SoilModel OpenPile.Params OpenPile.Spec.Sound

/-- A multiplier that is negative nowhere. -/
def Multiplier (m : Mult) : Prop :=
  match m with
  | .num x => 0 ≤ x
  | .func f => ∀ X v, 0 ≤ X → f X = some v → 0 ≤ v

/-- The parameters of a custom reaction curve: positive ultimate displacement and reaction, shape between 0 and 1. -/
def Shape (c : Conics) : Prop :=
  Custom c.X (fun v => 0 < v) ∧ Custom c.n (fun v => 0 ≤ v ∧ v < 1) ∧ Custom c.Y (fun v => 0 < v)

/-- Lateral models with parameters in the usual ranges, for sections of diameter `D` and an embedded length `L`. -/
def Lateral (D L : ℝ) : SoilModel.Model → Prop
  | .pisaClay s => Slender D L ∧ Nonneg s.Su ∧ Positive s.G0 ∧ Multiplier s.p ∧ Multiplier s.y ∧ Multiplier s.m ∧
      Multiplier s.t
  | .dunkirk s => Slender D L ∧ Between s.Dr 0 100 ∧ Positive s.G0 ∧ Multiplier s.p ∧ Multiplier s.y ∧
      Multiplier s.m ∧ Multiplier s.t
  | .custom s => (∀ p, s.Su = some p → Custom p (fun v => 0 ≤ v)) ∧ Custom s.G0 (fun v => 0 < v) ∧ Shape s.pyC ∧
      Shape s.mtC ∧ Shape s.hbC ∧ Shape s.mbC ∧ Multiplier s.p ∧ Multiplier s.y ∧ Multiplier s.m ∧ Multiplier s.t
  | .apiSand s => (∃ hi, hi < 90 ∧ Between s.phi 0 hi) ∧ (∀ m, s.modulus = some m → Nonneg m) ∧ Multiplier s.p ∧
      Multiplier s.y
  | .matlock s => Nonneg s.Su ∧ Positive s.eps50 ∧ 0 < s.J ∧ Multiplier s.p ∧ Multiplier s.y
  | .rock s => Positive s.Ei ∧ Nonneg s.qu ∧ 0 < s.k ∧ 0 ≤ s.ztop ∧ Multiplier s.p ∧ Multiplier s.y

/-- No displacement and no resistance of the curve is negative. -/
def NonNegative (c : List (ℝ × ℝ)) : Prop := ∀ q ∈ c, 0 ≤ q.1 ∧ 0 ≤ q.2

end OpenPile.Spec.Usual
