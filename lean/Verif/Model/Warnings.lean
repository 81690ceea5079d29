/-
The messages about negative springs.

Models `src/openpile/core/_model_build.py` 127-131 (`check_springs`) and `src/openpile/construct.py`
1315-1342: what is printed when the springs of a Model are created.

A NaN is `none` in the model of the springs, so that the NaN half of `check_springs` never applies.  The second
message of each pair, the advice on the slenderness, is always printed with the first.
-/
import Verif.Model.Assemble

namespace OpenPile.Assemble
open OpenPile.SoilModel

/-- `check_springs` for one curve, _model_build.py 127-131: the arrays hold displacements and resistances. -/
noncomputable def negative (c : Curve) : Bool := c.any (fun q => decide (q.1 < 0) || decide (q.2 < 0))

/-- `check_springs` for springs at both ends of `n` elements, _model_build.py 127-131. -/
def anyNode (n : ℕ) (f : ℕ → Bool → Bool) : Bool := (List.range n).any (fun i => f i false || f i true)

/-- Which springs "have negative or NaN values", construct.py 1316, 1323, 1330, 1337. -/
inductive Warning
  | py
  | mt
  | hb
  | mb
deriving DecidableEq, Repr

/-- The messages for `n` elements, construct.py 1315-1342. -/
noncomputable def warnings (n : ℕ) (A : Arrays) : List Warning :=
  (if anyNode n (fun i b => negative (A.py i b)) then [Warning.py] else []) ++
  (if anyNode n (fun i b => (A.mt i b).any negative) then [Warning.mt] else []) ++
  (if negative A.hb then [Warning.hb] else []) ++
  (if negative A.mb then [Warning.mb] else [])

/-- The messages printed while a `Model` is created, construct.py 1146-1355. -/
noncomputable def modelWarnings (p : Pile.Pile ℝ) (sp : SoilProfile) (x2mesh : List ℝ) (coarseness : ℝ)
    (w : Switches) (table : List (ℝ × Pile.Section ℝ)) (env : Draws) : Option (List Warning) := do
  let S ← input p sp x2mesh coarseness w table
  let A ← createSprings S env
  return warnings S.rows.length A

end OpenPile.Assemble
