/-
Multipliers, depth variation functions and initial subgrade moduli.

Models `src/openpile/utils/hooks.py` (all functions).  Floats are real numbers.  `none` is an exception:
division by zero, or a fractional power of a negative number (a complex number in Python, rejected by
the compiled curve functions).
-/
import Mathlib.Analysis.SpecialFunctions.Exp
import Mathlib.Analysis.SpecialFunctions.Pow.Real
import Mathlib.Analysis.SpecialFunctions.Trigonometric.Basic

namespace OpenPile.Hooks

/-- `durkhop`, hooks.py 12-77. -/
noncomputable def durkhop (D ra x : ℝ) : Option ℝ :=
  if D = 0 then none
  else some (1 / (9 / 10) * max (9 / 10) (ra * (3 - 1143 / 1000 * x / D) + 343 / 1000 * x / D))

/-- `durkhop_normalized`, hooks.py 80-111. -/
noncomputable def durkhopNormalized (D ra x : ℝ) : Option ℝ :=
  if D = 0 then none
  else some ((9 / 10) / max (9 / 10) (ra * (3 - 1143 / 1000 * x / D) + 343 / 1000 * x / D))

/-- The four depth functions of one spring: the dictionary `{k, n, X, Y}`. -/
structure Norm where
  k : ℝ → Option ℝ
  n : ℝ → Option ℝ
  X : ℝ → Option ℝ
  Y : ℝ → Option ℝ

/-- The dictionary returned by `dunkirk_sand_pisa_norm_param` and `cowden_clay_pisa_norm_param`. -/
structure Norms where
  py : Norm
  mt : Norm
  hb : Norm
  mb : Norm

/-- `some x` unless the divisor `d` is zero. -/
noncomputable def over (d x : ℝ) : Option ℝ := if d = 0 then none else some x

/-- `cowden_clay_py_pisa_norm_param`, hooks.py 193-227. -/
noncomputable def cowdenPy (D : ℝ) : Norm where
  k x := over D (max (1 / 10000) (106 / 10 + -1650 / 1000 * x / D))
  n x := over D (min (999 / 1000) (max 0 (9390 / 10000 + -3345 / 100000 * x / D)))
  X _ := some (2414 / 10)
  Y x := over D (max (1 / 10000) (107 / 10 + -7101 / 1000 * Real.exp (-3085 / 10000 * x / D)))

/-- `cowden_clay_mt_pisa_norm_param`, hooks.py 229-261. -/
noncomputable def cowdenMt (D : ℝ) : Norm where
  k x := over D (max (1 / 10000) (1420 / 1000 + -9643 / 100000 * x / D))
  n _ := some 0
  X x := over D (max (1 / 10000) (2899 / 10000 + -4775 / 100000 * x / D)
    / max (1 / 10000) (1420 / 1000 + -9643 / 100000 * x / D))
  Y x := over D (max (1 / 10000) (2899 / 10000 + -4775 / 100000 * x / D))

/-- `cowden_clay_Hb_pisa_norm_param`, hooks.py 263-299. -/
noncomputable def cowdenHb (D L : ℝ) : Norm where
  k _ := over D (max (1 / 10000) (2717 / 1000 + -3575 / 10000 * L / D))
  n _ := over D (min (999 / 1000) (max 0 (8793 / 10000 + -3150 / 100000 * L / D)))
  X _ := some (2357 / 10)
  Y _ := over D (max (1 / 10000) (4038 / 10000 + 4812 / 100000 * L / D))

/-- `cowden_clay_Mb_pisa_norm_param`, hooks.py 301-337. -/
noncomputable def cowdenMb (D L : ℝ) : Norm where
  k _ := over D (max (1 / 10000) (2146 / 10000 + -2132 / 1000000 * L / D))
  n _ := over D (min (999 / 1000) (max 0 (1079 / 1000 + -1087 / 10000 * L / D)))
  X _ := some (1731 / 10)
  Y _ := over D (max (1 / 10000) (8192 / 10000 + -8588 / 100000 * L / D))

/-- `cowden_clay_pisa_norm_param`, hooks.py 173-191. -/
noncomputable def cowden (D L : ℝ) : Norms :=
  { py := cowdenPy D, mt := cowdenMt D, hb := cowdenHb D L, mb := cowdenMb D L }

/-- `dunkirk_sand_py_pisa_norm_param`, hooks.py 339-377. -/
noncomputable def dunkirkPy (D L Dr : ℝ) : Norm where
  k x := over D (max (1 / 1000) (8731 / 1000 - 6982 / 10000 * (Dr / 100) + -9178 / 10000 * x / D))
  n _ := some (min (999 / 1000) (max 0 (917 / 1000 + 6193 / 100000 * (Dr / 100))))
  X _ := some (1461 / 10 - 9211 / 100 * (Dr / 100))
  Y x := over L (max (1 / 1000) (3667 / 10000 + 2589 / 100 * (Dr / 100)
    + (3375 / 10000 - 89 / 10 * (Dr / 100)) * x / L))

/-- `dunkirk_sand_mt_pisa_norm_param`, hooks.py 379-413. -/
noncomputable def dunkirkMt (L Dr : ℝ) : Norm where
  k _ := some 17
  n _ := some 0
  X x := over L (max (1 / 1000) (2605 / 10000 + (-1989 / 10000 + 2019 / 10000 * (Dr / 100)) * x / L)
    / 17)
  Y x := over L (max (1 / 1000) (2605 / 10000 + (-1989 / 10000 + 2019 / 10000 * (Dr / 100)) * x / L))

/-- `dunkirk_sand_Hb_pisa_norm_param`, hooks.py 415-457. -/
noncomputable def dunkirkHb (D L Dr : ℝ) : Norm where
  k _ := over D (max (1 / 1000) (6505 / 1000 - 2985 / 1000 * (Dr / 100)
    + (-7969 / 1000000 - 4299 / 10000 * (Dr / 100)) * L / D))
  n _ := over D (min (999 / 1000) (max 0 (9978 / 100000 + 7974 / 10000 * (Dr / 100)
    + (4994 / 1000000 - 7005 / 100000 * (Dr / 100)) * L / D)))
  X _ := over D (5150 / 10000 + 2883 / 1000 * (Dr / 100)
    + (1695 / 10000 - 7018 / 10000 * (Dr / 100)) * L / D)
  Y _ := over D (max (1 / 1000) (9952 / 100000 + 7996 / 10000 * (Dr / 100)
    + (3988 / 100000 - 1606 / 10000 * (Dr / 100)) * L / D))

/-- `dunkirk_sand_Mb_pisa_norm_param`, hooks.py 459-495. -/
noncomputable def dunkirkMb (D L Dr : ℝ) : Norm where
  k _ := some (3515 / 10000)
  n _ := some (min (999 / 1000) (max 0 (3 / 10 + 4986 / 10000 * (Dr / 100))))
  X _ := some (4489 / 100)
  Y _ := over D (max (1 / 1000) (9981 / 100000 + 3710 / 10000 * (Dr / 100)
    + (1998 / 100000 - 9041 / 100000 * (Dr / 100)) * L / D))

/-- `dunkirk_sand_pisa_norm_param`, hooks.py 151-171. -/
noncomputable def dunkirk (D L Dr : ℝ) : Norms :=
  { py := dunkirkPy D L Dr, mt := dunkirkMt L Dr, hb := dunkirkHb D L Dr, mb := dunkirkMb D L Dr }

/-- `InitialSubgradeReaction.api_sand`, hooks.py 528-548. -/
noncomputable def subgradeApi (phi : ℝ) (belowWater : Bool) : ℝ :=
  if belowWater then
    max ((1978 / 10000 * phi ^ 2 - 10232 / 1000 * phi + 13682 / 100) * 1000) 5400
  else max ((2153 / 10000 * phi ^ 2 - 8232 / 1000 * phi + 63657 / 1000) * 1000) 5400

/-- A fractional power; `none` for a negative base. -/
noncomputable def power (b e : ℝ) : Option ℝ := if b < 0 then none else some (b ^ e)

/-- `InitialSubgradeReaction.kallehave_sand`, hooks.py 550-574. -/
noncomputable def subgradeKallehave (phi : ℝ) (belowWater : Bool) (X D : ℝ) : Option ℝ := do
  let a ← power (X / (5 / 2)) (6 / 10)
  let b ← power (D / (61 / 100)) (5 / 10)
  return subgradeApi phi belowWater * a * b

/-- `InitialSubgradeReaction.sørensen2010_sand`, hooks.py 576-600. -/
noncomputable def subgradeSorensen (phi X D : ℝ) : Option ℝ := do
  let x := max X (1 / 100)
  let a ← power (x / 1) (6 / 10)
  let b ← power (D / 1) (5 / 10)
  let c ← power (phi * (Real.pi / 180)) (36 / 10)
  return 1 / x * 50000 * a * b * c

end OpenPile.Hooks
