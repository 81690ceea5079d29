/-
Weak rock of Reese (1997), independent of how the curve is computed.
-/
import Mathlib.Analysis.SpecialFunctions.Pow.Real

namespace OpenPile.Lateral

/-- Strength reduction for fractured rock: 1 for RQD = 0, 1/3 for RQD = 100. -/
noncomputable def fracture (RQD : ℝ) : ℝ :=
  if RQD ≤ 0 then 1 else if 100 ≤ RQD then 1 / 3 else 1 - RQD / 150

/-- Ultimate resistance: grows from `α qu D` at the rock surface to `5.2 α qu D` at `xr = 3 D`. -/
noncomputable def rockUltimate (qu RQD xr D : ℝ) : ℝ :=
  if xr ≤ 3 * D then fracture RQD * qu * (D + 14 / 10 * xr) else 52 / 10 * fracture RQD * qu * D

/-- Initial modulus: from `100 Ei` at the rock surface to `500 Ei` at `xr = 3 D`. -/
noncomputable def rockModulus (Ei xr D : ℝ) : ℝ :=
  if xr ≤ 3 * D then Ei * (100 + 400 * (xr / (3 * D))) else 500 * Ei

/-- Where the elastic part ends (the exponent 4/3 of the literature is 1.333 in the code). -/
noncomputable def rockIntersection (Ei qu RQD xr D k : ℝ) : ℝ :=
  (rockUltimate qu RQD xr D / (2 * rockModulus Ei xr D * (k * D) ^ (1 / 4 : ℝ))) ^ (1333 / 1000 : ℝ)

/-- Elastic up to the intersection, then a fourth-root law, both cut off at the ultimate resistance. -/
structure RockLaw (Ei qu RQD xr D k : ℝ) (q : ℝ × ℝ) : Prop where
  elastic : q.1 ≤ rockIntersection Ei qu RQD xr D k →
    q.2 = min (rockUltimate qu RQD xr D) (rockModulus Ei xr D * q.1)
  root : rockIntersection Ei qu RQD xr D k < q.1 →
    q.2 = min (rockUltimate qu RQD xr D)
      ((q.1 / (k * D)) ^ (1 / 4 : ℝ) * (rockUltimate qu RQD xr D / 2))

end OpenPile.Lateral
