/-
API / Matlock / Reese p-y curves.

Models `src/openpile/utils/py_curves.py` 213-409 (`api_sand`), 412-575 (`api_clay`), 578-785
(`matlock_1970`), 788-913 (`modified_Matlock`) and 916-1029 (`reese_weakrock`).

Floats are real numbers; casts to float32 are not modelled.  `none` is an exception or NaN: division by
zero, or a power of a negative number.
-/
import Verif.Model.Conic
import Verif.Model.Py
import Mathlib.Analysis.SpecialFunctions.Trigonometric.Basic

namespace OpenPile.Lateral
open OpenPile.Conic (linspace)

/-- `kind` (any string other than "static" is treated as cyclic). -/
inductive Loading
  | static
  | cyclic
deriving DecidableEq, Repr

/-! ### API sand -/

/-- Factor `A`, py_curves.py 351-354. -/
noncomputable def factorA (kind : Loading) (X D : ℝ) : ℝ :=
  match kind with
  | .static => max (9 / 10) (3 - 8 / 10 * X / D)
  | .cyclic => 9 / 10

/-- `k_phi`, py_curves.py 357-365; `none` is the `ValueError` for a negative modulus. -/
noncomputable def kPhi (phi k : ℝ) (belowWater : Bool) : Option ℝ :=
  if k ≠ 0 then if k < 0 then none else some k
  else if belowWater then
    some (max ((1978 / 10000 * phi ^ 2 - 10232 / 1000 * phi + 13682 / 100) * 1000) 5400)
  else some (max ((2153 / 10000 * phi ^ 2 - 8232 / 1000 * phi + 63657 / 1000) * 1000) 5400)

/-- Degrees to radians: `rad = m.pi / 180`, py_curves.py 371. -/
noncomputable def rad : ℝ := Real.pi / 180

/-- `Beta`, py_curves.py 370. -/
noncomputable def beta (phi : ℝ) : ℝ := 45 + phi / 2

/-- `C1`, py_curves.py 372-377.  (`Real.tan` of a right angle is 0 and division by 0 gives 0; the model
is only meaningful for `0 ≤ phi < 90`, see `apiSand`.) -/
noncomputable def C1 (phi : ℝ) : ℝ :=
  (4 / 10 * Real.tan (phi * rad) * Real.sin (beta phi * rad))
      / (Real.tan ((beta phi - phi) * rad) * Real.cos (phi / 2 * rad))
    + (Real.tan (beta phi * rad) ^ 2 * Real.tan (phi / 2 * rad)) / Real.tan ((beta phi - phi) * rad)
    + 4 / 10 * Real.tan (beta phi * rad)
      * (Real.tan (phi * rad) * Real.sin (beta phi * rad) - Real.tan (phi / 2 * rad))

/-- `C2`, py_curves.py 378. -/
noncomputable def C2 (phi : ℝ) : ℝ :=
  Real.tan (beta phi * rad) / Real.tan ((beta phi - phi) * rad) - Real.tan ((45 - phi / 2) * rad) ^ 2

/-- `C3`, py_curves.py 379-381. -/
noncomputable def C3 (phi : ℝ) : ℝ :=
  4 / 10 * Real.tan (phi * rad) * Real.tan (beta phi * rad) ^ 4
    + Real.tan ((45 - phi / 2) * rad) ^ 2 * (Real.tan (beta phi * rad) ^ 8 - 1)

/-- `Pmax`, py_curves.py 384. -/
noncomputable def pmaxSand (sig X phi D : ℝ) : ℝ :=
  min (C3 phi * sig * D) (C1 phi * sig * X + C2 phi * sig * D)

/-- `ymax` after line 394, py_curves.py 387-394. -/
noncomputable def ymaxSand (sig X phi D A kphi ymax : ℝ) : ℝ :=
  if ymax = 0 then
    let z := max X (1 / 10)
    let f := if pmaxSand sig X phi D = 0 then (C3 phi * D + C2 phi * D) / 2
      else pmaxSand sig X phi D
    4 * A * f / (kphi * z)
  else ymax

/-- One ordinate, py_curves.py 403-407. -/
noncomputable def apiSandP (A pmax kphi X y : ℝ) : ℝ :=
  if pmax = 0 then 0 else A * pmax * Real.tanh ((kphi * X * y) / (A * pmax))

/-- `api_sand`, py_curves.py 213-409.  Angles outside `0 ≤ phi < 90` are not modelled (`none`): there
`tan` passes a pole or the coefficients lose their meaning.  `D` is only divided by in the static case. -/
noncomputable def apiSand (sig X phi D : ℝ) (kind : Loading) (belowWater : Bool) (k ymax : ℝ)
    (len : ℕ) : Option (List (ℝ × ℝ)) :=
  if (D = 0 ∧ kind = .static) ∨ phi < 0 ∨ 90 ≤ phi then none
  else do
    let kphi ← kPhi phi k belowWater
    let A := factorA kind X D
    let ym := ymaxSand sig X phi D A kphi ymax
    return (linspace 0 ym (max 8 len)).map
      (fun y => (y, apiSandP A (pmaxSand sig X phi D) kphi X y))

/-! ### Matlock clay -/

/-- `y50`, py_curves.py 518, 728, 856. -/
noncomputable def y50 (eps50 D : ℝ) : ℝ := 5 / 2 * eps50 * D

/-- `Xr`, py_curves.py 519-522, 729-732, 857-860. -/
noncomputable def transition (sig X Su D J : ℝ) : Option ℝ :=
  if X = 0 ∨ Su = 0 then some (5 / 2 * D)
  else if sig / X * D / Su + J = 0 then none
  else some (max ((6 * D) / (sig / X * D / Su + J)) (5 / 2 * D))

/-- `Pmax`, py_curves.py 530-532, 740-742, 868-870. -/
noncomputable def pmaxClay (sig X Su D J : ℝ) : ℝ :=
  min (9 * Su * D) ((3 * Su + sig) * D + J * Su * X)

/-- The `y` vector: nodes `[...]` not beyond `ymax`, completed with drawn values up to `output_length`
and sorted; py_curves.py 534-547, 744-757, 872-885.  `draws` are the values of `random()`, `add r` the
value appended for the draw `r`. -/
noncomputable def yVector (nodes : List ℝ) (ymax : ℝ) (len : ℕ) (add : ℝ → ℝ) (draws : List ℝ) :
    List ℝ :=
  let kept := nodes.filter (fun y => decide (y ≤ ymax))
  Py.sortedBy id (kept ++ (draws.take (len - kept.length)).map add)

/-- `0.5 * Pmax * (y / y50) ** 0.33`. -/
noncomputable def cubic (pmax y50 y : ℝ) : Option ℝ :=
  if y50 = 0 ∨ y / y50 < 0 then none else some (1 / 2 * pmax * (y / y50) ^ (33 / 100 : ℝ))

/-- Ordinate of `api_clay` and `matlock_1970`, py_curves.py 552-573, 762-783. -/
noncomputable def matlockP (kind : Loading) (pmax X Xr y50 y : ℝ) : Option ℝ :=
  match kind with
  | .static => if y > 8 * y50 then some pmax else cubic pmax y50 y
  | .cyclic =>
    if X ≤ Xr then
      if y > 15 * y50 then if Xr = 0 then none else some (7185 / 10000 * pmax * X / Xr)
      else if y > 3 * y50 then
        if Xr = 0 ∨ y50 = 0 then none
        else some (7185 / 10000 * pmax * (1 - (1 - X / Xr) * (y - 3 * y50) / (12 * y50)))
      else cubic pmax y50 y
    else if y > 3 * y50 then some (7185 / 10000 * pmax)
    else cubic pmax y50 y

/-- Ordinate of `modified_Matlock`, py_curves.py 890-911. -/
noncomputable def modMatlockP (kind : Loading) (pmax X Xr y50 y : ℝ) : Option ℝ :=
  match kind with
  | .static => if y > 8 * y50 then some pmax else cubic pmax y50 y
  | .cyclic =>
    if X ≤ Xr then
      if y > 15 * y50 then if Xr = 0 then none else some (1 / 2 * pmax * X / Xr)
      else if y > 1 * y50 then
        if Xr = 0 ∨ y50 = 0 then none
        else some (1 / 2 * pmax * (1 - (1 - X / Xr) * (y - 1 * y50) / (14 * y50)))
      else cubic pmax y50 y
    else if y > 1 * y50 then some (1 / 2 * pmax)
    else cubic pmax y50 y

/-- `ymax` after the default, py_curves.py 525-526, 735-736, 863-864. -/
noncomputable def ymaxClay (y50 ymax : ℝ) : ℝ := if ymax = 0 then 16 * y50 else ymax

/-- `api_clay`, py_curves.py 412-575.  `draws` are the results of `random()`; a shorter list than
needed leaves the vector shorter, so the theorems assume enough draws. -/
noncomputable def apiClay (sig X Su eps50 D J : ℝ) (kind : Loading) (ymax : ℝ) (len : ℕ)
    (draws : List ℝ) : Option (List (ℝ × ℝ)) := do
  let q := y50 eps50 D
  let Xr ← transition sig X Su D J
  let ym := ymaxClay q ymax
  let ys := yVector [0, 1 / 10 * q, 3 / 10 * q, 1 * q, 3 * q, 8 * q, 15 * q, ym] ym (max 8 len)
    (fun r => 15 * q + r * (ym - 15 * q)) draws
  ys.mapM (fun y => (matlockP kind (pmaxClay sig X Su D J) X Xr q y).map (fun p => (y, p)))

/-- `matlock_1970`, py_curves.py 578-785. -/
noncomputable def matlock (sig X Su eps50 D J : ℝ) (kind : Loading) (ymax : ℝ) (len : ℕ)
    (draws : List ℝ) : Option (List (ℝ × ℝ)) := do
  let q := y50 eps50 D
  let Xr ← transition sig X Su D J
  let ym := ymaxClay q ymax
  let ys := yVector [0, 1 / 1000 * q, 1 / 100 * q, 1 / 10 * q, 1 * q, 3 * q, 8 * q, 15 * q, ym] ym
    (max 9 len) (fun r => 1 / 100 * q + r * (8 - 1 / 100) * q) draws
  ys.mapM (fun y => (matlockP kind (pmaxClay sig X Su D J) X Xr q y).map (fun p => (y, p)))

/-- `modified_Matlock`, py_curves.py 788-913. -/
noncomputable def modMatlock (sig X Su eps50 D J : ℝ) (kind : Loading) (ymax : ℝ) (len : ℕ)
    (draws : List ℝ) : Option (List (ℝ × ℝ)) := do
  let q := y50 eps50 D
  let Xr ← transition sig X Su D J
  let ym := ymaxClay q ymax
  let ys := yVector [0, 1 / 100 * q, 1 / 10 * q, 1 * q, 3 * q, 8 * q, 15 * q, ym] ym (max 8 len)
    (fun r => 1 / 100 * q + r * (8 - 1 / 100) * q) draws
  ys.mapM (fun y => (modMatlockP kind (pmaxClay sig X Su D J) X Xr q y).map (fun p => (y, p)))

/-! ### Reese weak rock -/

/-- `rqd`, py_curves.py 1000. -/
noncomputable def rqd (RQD : ℝ) : ℝ := max (min 100 RQD) 0

/-- `Pmax`, py_curves.py 1003-1006. -/
noncomputable def pmaxRock (qu RQD xr D : ℝ) : ℝ :=
  let alpha := 1 - 2 / 3 * rqd RQD / 100
  min (52 / 10 * alpha * qu * D) (alpha * qu * D * (1 + 14 / 10 * xr / D))

/-- `Epy_i`, py_curves.py 1009. -/
noncomputable def epy (Ei xr D : ℝ) : ℝ := Ei * min 500 (100 + 400 * xr / (3 * D))

/-- `yA`, py_curves.py 1012-1013. -/
noncomputable def yA (pmax yrm e : ℝ) : ℝ := (pmax / (2 * yrm ^ (1 / 4 : ℝ) * e)) ^ (1333 / 1000 : ℝ)

/-- The `y` vector, py_curves.py 1016-1019. -/
noncomputable def rockY (a yrm : ℝ) (len : ℕ) : List ℝ :=
  let ymax := max (105 / 100 * a) ((2 * yrm ^ (1 / 4 : ℝ)) ^ 4)
  [0] ++ linspace a (max (15 / 100 * ymax) (101 / 100 * a)) (len / 2)
    ++ linspace (max (a * (102 / 100)) (25 / 100 * ymax)) ymax (len - len / 2 - 2)
    ++ [12 / 10 * ymax]

/-- One ordinate, py_curves.py 1023-1027. -/
noncomputable def rockP (pmax e a yrm y : ℝ) : ℝ :=
  if y ≤ a then min pmax (e * y) else min pmax (pmax / 2 * (y / yrm) ^ (1 / 4 : ℝ))

/-- `reese_weakrock`, py_curves.py 916-1029.  `none`: division by zero (`D = 0`, `k = 0`, zero
modulus), or the power of a negative number. -/
noncomputable def reeseRock (Ei qu RQD xr D k : ℝ) (len : ℕ) : Option (List (ℝ × ℝ)) :=
  let yrm := k * D
  let pmax := pmaxRock qu RQD xr D
  let e := epy Ei xr D
  if D = 0 ∨ yrm ≤ 0 ∨ e = 0 ∨ pmax / (2 * yrm ^ (1 / 4 : ℝ) * e) < 0 then none
  else some ((rockY (yA pmax yrm e) yrm (max 8 len)).map
    (fun y => (y, rockP pmax e (yA pmax yrm e) yrm y)))

end OpenPile.Lateral
