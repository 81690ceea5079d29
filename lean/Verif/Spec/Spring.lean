/-
Independent vocabulary for spring curves.
-/
import Mathlib.Algebra.Order.Field.Basic

namespace OpenPile.Spec.Spring

variable {K : Type} [Field K] [LinearOrder K]

/-- `(x, y)` lies on the polygon through the points of the table, continued horizontally to the right
of the last point. -/
def OnCurve (tab : List (K × K)) (x y : K) : Prop :=
  (∃ l₁ l₂ a f b g, tab = l₁ ++ (a, f) :: (b, g) :: l₂ ∧ a ≤ x ∧ x ≤ b ∧
      (y - f) * (b - a) = (g - f) * (x - a)) ∨
  (∃ l a f, tab = l ++ [(a, f)] ∧ a ≤ x ∧ y = f)

/-- The polygon continued horizontally to both sides. -/
def OnCurveBoth (tab : List (K × K)) (x y : K) : Prop :=
  OnCurve tab x y ∨ ∃ l a f, tab = (a, f) :: l ∧ x ≤ a ∧ y = f

end OpenPile.Spec.Spring
