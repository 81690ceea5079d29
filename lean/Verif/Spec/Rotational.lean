/-
What the rotational springs of the API models should be: the moment of the vertical shaft friction about the
axis of the pile.
-/
import Mathlib.Analysis.SpecialFunctions.Integrals.Basic
import Mathlib.Analysis.SpecialFunctions.Trigonometric.Arctan
import Verif.Spec.Spring

namespace OpenPile.Spec.Rotational

open OpenPile.Spec.Spring

/-- Moment per unit length of vertical friction `tau cos φ` around the perimeter of a pile of diameter `D`. -/
noncomputable def ringMoment (D tau : ℝ) : ℝ :=
  ∫ φ in (0 : ℝ)..(2 * Real.pi), tau * Real.cos φ * (D / 2 * Real.cos φ) * (D / 2)

/-- `r` is the moment curve of a pile of diameter `D` whose friction against vertical displacement is the polygon
`nodes`, reduced by the factor `w`: it starts at the origin, neither rotations nor moments decrease, every point has
as moment that of the friction at the vertical displacement of the wall under its rotation, and the corners of the
friction curve in compression are among the points. -/
structure MomentCurve (D w : ℝ) (nodes : List (ℝ × ℝ)) (r : List (ℝ × ℝ)) : Prop where
  start : r.head? = some (0, 0)
  rises : r.Pairwise (fun a b => a.1 ≤ b.1 ∧ a.2 ≤ b.2)
  on : ∀ q ∈ r, ∃ x tau, 0 ≤ x ∧ OnCurveBoth nodes x tau ∧ Real.tan q.1 = x / (D / 2) ∧ |q.1| < Real.pi / 2 ∧
    q.2 = ringMoment D tau * w
  corners : ∀ n ∈ nodes, 0 ≤ n.1 → (Real.arctan (n.1 / (D / 2)), ringMoment D n.2 * w) ∈ r

end OpenPile.Spec.Rotational
