/-
The ultimate lateral resistance of sand, as in Reese et al. (1974) and Mosher and Dawkins (2008),
in terms of the passive and active earth pressure coefficients.
-/
import Mathlib.Analysis.SpecialFunctions.Trigonometric.Basic

namespace OpenPile.Lateral

/-- An angle in degrees, in radians. -/
noncomputable def degrees (a : ℝ) : ℝ := a * Real.pi / 180

/-- Rankine passive coefficient `tan²(45 + φ/2)`. -/
noncomputable def Kp (phi : ℝ) : ℝ := Real.tan (degrees (45 + phi / 2)) ^ 2

/-- Rankine active coefficient `tan²(45 - φ/2)`. -/
noncomputable def Ka (phi : ℝ) : ℝ := Real.tan (degrees (45 - phi / 2)) ^ 2

/-- Deep (flow around) resistance per unit length. -/
noncomputable def deepResistance (sig phi D : ℝ) : ℝ :=
  sig * D * (4 / 10 * Real.tan (degrees phi) * Kp phi ^ 2 + Ka phi * (Kp phi ^ 4 - 1))

/-- Shallow (wedge) resistance per unit length: the two side terms grow with depth `X`. -/
noncomputable def wedgeResistance (sig X phi D : ℝ) : ℝ :=
  let tb := Real.tan (degrees (45 + phi / 2))
  sig * X * (4 / 10 * tb * Real.tan (degrees phi) * Real.sin (degrees (45 + phi / 2))
        / Real.cos (degrees (phi / 2))
      + tb ^ 3 * Real.tan (degrees (phi / 2))
      + 4 / 10 * tb * (Real.tan (degrees phi) * Real.sin (degrees (45 + phi / 2))
          - Real.tan (degrees (phi / 2))))
    + sig * D * (Kp phi - Ka phi)

/-- Ultimate resistance per unit length of pile. -/
noncomputable def sandUltimate (sig X phi D : ℝ) : ℝ :=
  min (deepResistance sig phi D) (wedgeResistance sig X phi D)

/-- Static adjustment factor of API: `3 - 0.8 X/D`, at least 0.9. -/
noncomputable def staticFactor (X D : ℝ) : ℝ := max (9 / 10) (3 - 8 / 10 * (X / D))

end OpenPile.Lateral
