/-
The analysis of a `Model` with soil from the public calls to the result tables and `details()`.

Models `src/openpile/winkler.py` 502-637 (`winkler`), 425-446 (`WinklerResult.details`) and
`src/openpile/construct.py` 1146-1356 (springs), 1844-1857 (`Model.solve`).  Joins the models of mesh, springs,
boundary conditions, iteration and tables.  Floats are real numbers; the casts to float32 are not modelled.
-/
import Verif.Model.Analysis
import Verif.Model.Assemble
import Mathlib.Analysis.Real.Sqrt

namespace OpenPile.SoilAnalysis
open OpenPile.BC OpenPile.Mesh OpenPile.Kernel OpenPile.Winkler OpenPile.Result OpenPile.Assemble
open OpenPile.Analysis
open OpenPile.Pile (Pile)

/-- The springs of a Model as the kernel reads them: `_py_springs`, `_mt_springs`, … and the switches,
construct.py 1345-1355, kernel.py 717-787 and 1064-1181.  Every m-t curve goes with the lateral resistance in the
same position of the p-y curve (kernel.py 1106-1119). -/
def springsOf (w : Switches) (A : Arrays) (n : ℕ) : Springs ℝ n where
  py := fun e b => A.py e.1 b
  tz := fun e b => A.tz e.1 b
  mt := fun e b => ((A.py e.1 b).map (·.2)).zip (A.mt e.1 b)
  ncol := 15
  hb := A.hb
  mb := A.mb
  qz := A.qz
  distributedLateral := w.distributedLateral
  distributedAxial := w.distributedAxial
  distributedMoment := w.distributedMoment
  baseShear := w.baseShear
  baseMoment := w.baseMoment
  baseAxial := w.baseAxial

/-- What a `WinklerResult` holds after an analysis with soil, winkler.py 611-635: tables, mobilisation, and the
numbers behind `_details` (number of iterations, residual norm and tolerance, not rounded). -/
structure SoilTables extends Tables ℝ where
  mob : List (MobRow ℝ)
  hbMob : ℝ × ℝ
  mbMob : ℝ × ℝ
  iterations : ℕ
  error : ℝ
  tolerance : ℝ

/-- The arrays of shape `(n_elem, 2)` in sequence: top and bottom of every element, `.flatten()` in
winkler.py 37-50. -/
def flat {α : Type} (n : ℕ) (f : Fin n → Bool → α) : List α :=
  (List.ofFn (fun e => [f e false, f e true])).flatten

/-- The result for given displacements and reactions, winkler.py 608-635. -/
noncomputable def results (ty : ElementType) (nodes : List ℝ) {n : ℕ} (el : Fin n → Elem ℝ) (sp : Springs ℝ n)
    (d Q : Fin (3 * n + 3) → ℝ) (iters : ℕ) (tolSq resSq : ℝ) : Option SoilTables := do
  let t ← tables ty nodes el d Q
  let mob ← springsMob nodes (component d 1) (component d 2) (flat n sp.py) (flat n sp.mt) sp.ncol
  let hb ← baseMob sp.hb (d ⟨3 * n + 1, by omega⟩)
  let mb ← baseMob sp.mb (d ⟨3 * n + 2, by omega⟩)
  return { toTables := t, mob := mob, hbMob := hb, mbMob := mb, iterations := iters,
           error := Real.sqrt resSq, tolerance := Real.sqrt tolSq }

/-- How `Model.solve()` ends when it returns. -/
inductive SoilResult
  | numbers (t : SoilTables)
  /-- every displacement, force and reaction is NaN -/
  | nan

/-- `winkler`, winkler.py 502-637, on given nodes, elements and springs; `none` is an exception. -/
noncomputable def solveSoilOn (ty : ElementType) (p : Pile ℝ) (C : Coordinates ℝ) (w : Switches) (A : Arrays)
    (bcs : List (Cond ℝ)) (maxIter : ℕ) : Option SoilResult := do
  let F ← (globalForces C.nodes bcs).toOption
  let U ← (globalDisp C.nodes bcs).toOption
  let R ← (globalRestrained C.nodes bcs).toOption
  let F ← asVec C.elements.length ((dofList F).map (fun i : ℤ => (i : ℝ)))
  let U ← asVec C.elements.length (dofList U)
  let R ← asVec C.elements.length (dofList R)
  let el ← allSome (fun i : Fin C.elements.length => elemAt Real.pi p C.elements[i.1])
  let sp := springsOf w A C.elements.length
  match winkler (buildStiffness ty el sp) F U R maxIter with
  | .raised => none
  | .nan _ => some .nan
  | .converged d Q it tolSq resSq => (results ty C.nodes el sp d Q it tolSq resSq).map .numbers
  | .exhausted d Q it tolSq resSq => (results ty C.nodes el sp d Q it tolSq resSq).map .numbers

/-- `Model.solve()` of a model with soil, construct.py 1844-1857 (`max_iter` is 100, winkler.py 502), after the
Model was created (1146-1356) and the boundary conditions `bcs` were set. -/
noncomputable def solveSoil (ty : ElementType) (p : Pile ℝ) (sp : SoilProfile) (x2mesh : List ℝ) (coarseness : ℝ)
    (w : Switches) (table : List (ℝ × Pile.Section ℝ)) (env : Draws) (bcs : List (Cond ℝ)) :
    Option SoilResult := do
  let C ← getCoordinates p (some sp.geometry) x2mesh coarseness
  let A ← modelSprings p sp x2mesh coarseness w table env
  solveSoilOn ty p C w A bcs 100

/-! ### details -/

/-- `round(x, k)` of a numpy float: `rint(x * 10**k) / 10**k`. -/
noncomputable def roundTo (k : ℕ) (x : ℝ) : ℝ := (rint (x * 10 ^ k) : ℝ) / 10 ^ k

/-- Largest and smallest entry of a column, rounded to `k` decimals, winkler.py 433-445; `none` is NaN (empty
table). -/
noncomputable def extremes (k : ℕ) (l : List ℝ) : Option (ℝ × ℝ) := do
  let hi ← l.max?
  let lo ← l.min?
  return (roundTo k hi, roundTo k lo)

/-- The dictionary of `WinklerResult.details()`, winkler.py 425-446. -/
structure Details where
  iterations : ℕ
  error : ℝ
  tolerance : ℝ
  normal : ℝ × ℝ
  shear : ℝ × ℝ
  moment : ℝ × ℝ
  settlement : ℝ × ℝ
  deflection : ℝ × ℝ
  rotation : ℝ × ℝ

/-- `WinklerResult.details()`, winkler.py 425-446 and 628-632. -/
noncomputable def details (t : SoilTables) : Option Details := do
  let n ← extremes 2 (t.forces.map (·.2.1))
  let v ← extremes 2 (t.forces.map (·.2.2.1))
  let m ← extremes 2 (t.forces.map (·.2.2.2))
  let s ← extremes 3 (t.disp.map (·.2.1))
  let d ← extremes 3 (t.disp.map (·.2.2.1))
  let r ← extremes 3 (t.disp.map (·.2.2.2))
  return ⟨t.iterations, roundTo 3 t.error, roundTo 3 t.tolerance, n, v, m, s, d, r⟩

end OpenPile.SoilAnalysis
