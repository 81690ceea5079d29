/-
The PISA conic function and the soil reaction curves built on it.

Models `src/openpile/core/misc.py` 227-258 (`conic`), `src/openpile/utils/py_curves.py` 17-209 and
1032-1140, `src/openpile/utils/mt_curves.py`, `src/openpile/utils/Hb_curves.py` and
`src/openpile/utils/Mb_curves.py` (all functions).

Floats are real numbers; the casts to float32 are not modelled.  `none` is an exception (division by
zero under numba's default error model, negative length of `linspace`) or a NaN (square root of a
negative number).
-/
import Mathlib.Analysis.SpecialFunctions.Exp
import Mathlib.Analysis.SpecialFunctions.Pow.Real
import Mathlib.Analysis.Real.Sqrt

namespace OpenPile.Conic

/-- `np.linspace(a, b, n)`. -/
noncomputable def linspace (a b : ℝ) (n : ℕ) : List ℝ :=
  if n = 1 then [a]
  else (List.range n).map (fun i : ℕ => a + (i : ℝ) * ((b - a) / ((n : ℝ) - 1)))

/-- The abscissae, core/misc.py 237-240, for `output_length ≥ 5`. -/
noncomputable def conicX (xu : ℝ) (len : ℕ) : List ℝ :=
  [0 * xu, 2 / 100 * xu, 5 / 100 * xu, 1 / 10 * xu]
    ++ linspace (2 / 10 * xu) xu (len - 5) ++ [11 / 10 * xu]

/-- One ordinate, core/misc.py 246-256 (`k` is the value after line 235). -/
noncomputable def conicY (xu n k yu x : ℝ) : Option ℝ :=
  if |x - xu| < 1 / 100 then some yu
  else if x < xu then
    let a := 1 - 2 * n
    let b := 2 * n * x / xu - (1 - n) * (1 + x * k / yu)
    let c := x * (k / yu) * (1 - n) - n * (x ^ 2 / xu ^ 2)
    if xu = 0 ∨ yu = 0 then none
    else if b ^ 2 - 4 * a * c < 0 then none
    else if -b + Real.sqrt (b ^ 2 - 4 * a * c) = 0 then none
    else some (yu * 2 * c / (-b + Real.sqrt (b ^ 2 - 4 * a * c)))
  else some yu

/-- `conic`, core/misc.py 226-258: the points `(x, y)`. -/
noncomputable def conic (xu n k yu : ℝ) (len : ℕ) : Option (List (ℝ × ℝ)) :=
  if xu = 0 ∨ len < 5 then none
  else
    let k' := max (yu / xu) k
    (conicX xu len).mapM (fun x => (conicY xu n k' yu x).map (fun y => (x, y)))

/-- `y * sx, p * sy`: scaling of a normalised curve (last line of every curve function). -/
noncomputable def scale (sx sy : ℝ) (l : List (ℝ × ℝ)) : List (ℝ × ℝ) :=
  l.map (fun q => (q.1 * sx, q.2 * sy))

/-- A normalised conic scaled by `sx` and `sy`. -/
noncomputable def scaledConic (xu n k yu sx sy : ℝ) (len : ℕ) : Option (List (ℝ × ℝ)) :=
  (conic xu n k yu len).map (scale sx sy)

/-! ### p-y -/

/-- `py_curves.bothkennar_clay`, py_curves.py 17-73. -/
noncomputable def pyBothkennar (X Su G0 D : ℝ) (len : ℕ) : Option (List (ℝ × ℝ)) :=
  if D = 0 ∨ G0 = 0 then none
  else scaledConic (1738 / 10) (7204 / 10000 + -2679 / 1000000 * X / D)
    (1205 / 100 + -1547 / 1000 * X / D)
    (7743 / 1000 + -3945 / 1000 * Real.exp (-8456 / 10000 * X / D)) (Su * D / G0) (Su * D) len

/-- `py_curves.cowden_clay`, py_curves.py 76-133. -/
noncomputable def pyCowden (X Su G0 D : ℝ) (len : ℕ) : Option (List (ℝ × ℝ)) :=
  if D = 0 ∨ G0 = 0 then none
  else scaledConic (2414 / 10) (9390 / 10000 + -3345 / 100000 * X / D)
    (106 / 10 + -1650 / 1000 * X / D)
    (107 / 10 + -7101 / 1000 * Real.exp (-3085 / 10000 * X / D)) (Su * D / G0) (Su * D) len

/-- `py_curves.dunkirk_sand`, py_curves.py 136-209. -/
noncomputable def pyDunkirk (sig X Dr G0 D L : ℝ) (len : ℕ) : Option (List (ℝ × ℝ)) :=
  let dr := Dr / 100
  if D = 0 ∨ L = 0 ∨ G0 = 0 then none
  else scaledConic (1461 / 10 - 9211 / 100 * dr) (917 / 1000 + 6193 / 100000 * dr)
    (8731 / 1000 - 6982 / 10000 * dr + -9178 / 10000 * X / D)
    (3667 / 10000 + 2589 / 100 * dr + (3375 / 10000 - 89 / 10 * dr) * X / L)
    (sig * D / G0) (sig * D) (max 8 len)

/-- `py_curves.custom_pisa_sand`, py_curves.py 1032-1086. -/
noncomputable def pyCustomSand (sig G0 D xu n k yu : ℝ) (len : ℕ) : Option (List (ℝ × ℝ)) :=
  if G0 = 0 then none else scaledConic xu n k yu (sig * D / G0) (sig * D) len

/-- `py_curves.custom_pisa_clay`, py_curves.py 1089-1140. -/
noncomputable def pyCustomClay (Su G0 D xu n k yu : ℝ) (len : ℕ) : Option (List (ℝ × ℝ)) :=
  if G0 = 0 then none else scaledConic xu n k yu (Su * D / G0) (Su * D) len

/-! ### m-t -/

/-- `mt_curves.bothkennar_clay`, mt_curves.py 16-69. -/
noncomputable def mtBothkennar (X Su G0 D : ℝ) (len : ℕ) : Option (List (ℝ × ℝ)) :=
  if D = 0 ∨ G0 = 0 then none
  else
    let k := 1698 / 1000 + -1576 / 10000 * X / D
    let mMax := 4862 / 10000 + -5674 / 100000 * X / D
    if k = 0 then none
    else scaledConic (mMax / k) (0 + 0 * X / D) k mMax (Su / G0) (Su * D ^ 2) len

/-- `mt_curves.cowden_clay`, mt_curves.py 72-125. -/
noncomputable def mtCowden (X Su G0 D : ℝ) (len : ℕ) : Option (List (ℝ × ℝ)) :=
  if D = 0 ∨ G0 = 0 then none
  else
    let k := 1420 / 1000 + -9643 / 100000 * X / D
    let mMax := 2899 / 10000 + -4775 / 100000 * X / D
    if k = 0 then none
    else scaledConic (mMax / k) (0 + 0 * X / D) k mMax (Su / G0) (Su * D ^ 2) len

/-- `mt_curves.dunkirk_sand`, mt_curves.py 128-193. -/
noncomputable def mtDunkirk (sig X Dr G0 p D L : ℝ) (len : ℕ) : Option (List (ℝ × ℝ)) :=
  let dr := Dr / 100
  if D = 0 ∨ L = 0 ∨ G0 = 0 then none
  else
    let k := 17 + 0 * X / D
    let mMax := 2605 / 10000 + (-1989 / 10000 + 2019 / 10000 * dr) * X / L
    scaledConic (mMax / k) 0 k mMax (sig / G0) (|p| * D) len

/-- `mt_curves.custom_pisa_sand`, mt_curves.py 196-243. -/
noncomputable def mtCustomSand (sig G0 p D xu n k yu : ℝ) (len : ℕ) : Option (List (ℝ × ℝ)) :=
  if G0 = 0 then none else scaledConic xu n k yu (sig / G0) (p * D) len

/-- `mt_curves.custom_pisa_clay`, mt_curves.py 246-292. -/
noncomputable def mtCustomClay (Su G0 D xu n k yu : ℝ) (len : ℕ) : Option (List (ℝ × ℝ)) :=
  if G0 = 0 then none else scaledConic xu n k yu (Su / G0) (Su * D ^ 2) len

/-! ### base shear -/

/-- `Hb_curves.bothkennar_clay`, Hb_curves.py 16-74. -/
noncomputable def hbBothkennar (Su G0 D L : ℝ) (len : ℕ) : Option (List (ℝ × ℝ)) :=
  if D = 0 ∨ G0 = 0 then none
  else scaledConic (2915 / 10 + 0 * L / D) (3113 / 10000 + 4263 / 100000 * L / D)
    (3008 / 1000 + -2701 / 10000 * L / D) (5279 / 10000 + 6864 / 100000 * L / D)
    (Su * D / G0) (Su * D ^ 2) len

/-- `Hb_curves.dunkirk_sand`, Hb_curves.py 77-139. -/
noncomputable def hbDunkirk (sig Dr G0 D L : ℝ) (len : ℕ) : Option (List (ℝ × ℝ)) :=
  let dr := Dr / 100
  if D = 0 ∨ G0 = 0 then none
  else scaledConic (5150 / 10000 + 2883 / 1000 * dr + (1695 / 10000 - 7018 / 10000 * dr) * L / D)
    (9978 / 100000 + 7974 / 10000 * dr + (4994 / 1000000 - 7005 / 100000 * dr) * L / D)
    (6505 / 1000 - 2985 / 1000 * dr + (-7969 / 1000000 - 4299 / 10000 * dr) * L / D)
    (9952 / 100000 + 7996 / 10000 * dr + (3988 / 100000 - 1606 / 10000 * dr) * L / D)
    (sig * D / G0) (sig * D ^ 2) len

/-- `Hb_curves.cowden_clay`, Hb_curves.py 142-200. -/
noncomputable def hbCowden (Su G0 D L : ℝ) (len : ℕ) : Option (List (ℝ × ℝ)) :=
  if D = 0 ∨ G0 = 0 then none
  else scaledConic (2357 / 10 + 0 * L / D) (8793 / 10000 + -3150 / 100000 * L / D)
    (2717 / 1000 + -3575 / 10000 * L / D) (4038 / 10000 + 4812 / 100000 * L / D)
    (Su * D / G0) (Su * D ^ 2) len

/-- `Hb_curves.custom_pisa_sand`, Hb_curves.py 203-250. -/
noncomputable def hbCustomSand (sig G0 D xu n k yu : ℝ) (len : ℕ) : Option (List (ℝ × ℝ)) :=
  if G0 = 0 then none else scaledConic xu n k yu (sig * D / G0) (sig * D ^ 2) len

/-- `Hb_curves.custom_pisa_clay`, Hb_curves.py 253-298. -/
noncomputable def hbCustomClay (Su G0 D xu n k yu : ℝ) (len : ℕ) : Option (List (ℝ × ℝ)) :=
  if G0 = 0 then none else scaledConic xu n k yu (Su * D / G0) (Su * D ^ 2) len

/-! ### base moment -/

/-- `Mb_curves.bothkennar_clay`, Mb_curves.py 16-73. -/
noncomputable def mbBothkennar (Su G0 D L : ℝ) (len : ℕ) : Option (List (ℝ × ℝ)) :=
  if D = 0 ∨ G0 = 0 then none
  else scaledConic 187 (6990 / 10000 + -1155 / 10000 * L / D)
    (3409 / 10000 + -1995 / 100000 * L / D) (8756 / 10000 + -9195 / 100000 * L / D)
    (Su / G0) (Su * D ^ 3) len

/-- `Mb_curves.cowden_clay`, Mb_curves.py 76-133. -/
noncomputable def mbCowden (Su G0 D L : ℝ) (len : ℕ) : Option (List (ℝ × ℝ)) :=
  if D = 0 ∨ G0 = 0 then none
  else scaledConic (1731 / 10) (1079 / 1000 + -1087 / 10000 * L / D)
    (2146 / 10000 + -2132 / 1000000 * L / D) (8192 / 10000 + -8588 / 100000 * L / D)
    (Su / G0) (Su * D ^ 3) len

/-- `Mb_curves.dunkirk_sand`, Mb_curves.py 136-196. -/
noncomputable def mbDunkirk (sig Dr G0 D L : ℝ) (len : ℕ) : Option (List (ℝ × ℝ)) :=
  let dr := Dr / 100
  if D = 0 ∨ G0 = 0 then none
  else scaledConic (4489 / 100) (3 / 10 + 4986 / 10000 * dr) (3515 / 10000 + 0 * L / D)
    (9981 / 100000 + 3710 / 10000 * dr + (1998 / 100000 - 9041 / 100000 * dr) * L / D)
    (sig / G0) (sig * D ^ 3) len

/-- `Mb_curves.custom_pisa_sand`, Mb_curves.py 199-246. -/
noncomputable def mbCustomSand (sig G0 D xu n k yu : ℝ) (len : ℕ) : Option (List (ℝ × ℝ)) :=
  if G0 = 0 then none else scaledConic xu n k yu (sig / G0) (sig * D ^ 3) len

/-- `Mb_curves.custom_pisa_clay`, Mb_curves.py 249-294. -/
noncomputable def mbCustomClay (Su G0 D xu n k yu : ℝ) (len : ℕ) : Option (List (ℝ × ℝ)) :=
  if G0 = 0 then none else scaledConic xu n k yu (Su / G0) (Su * D ^ 3) len

end OpenPile.Conic
