/-
The Winkler analysis.

Models `src/openpile/winkler.py` 502-637 (`winkler`), `src/openpile/core/kernel.py` 717-787
(`build_stiffness_matrix` with soil springs evaluated at a displacement field) and
`src/openpile/construct.py` 1844-1857 (`Model.solve`).
-/
import Verif.Model.Kernel
import Verif.Model.Spring

namespace OpenPile.Winkler
open OpenPile.Kernel OpenPile.Spring Matrix

variable {K : Type} [Field K] [LinearOrder K]

/-! ### the iteration -/

section loop
variable {ι : Type} [Fintype ι] [DecidableEq ι]

/-- How a call of `winkler` ends.  `tolSq` is the square of `nr_tol` and `resSq` the square of
`np.linalg.norm(Rg[~supports])`, both reported in `details()` (winkler.py 628-632). -/
inductive Outcome (ι K : Type)
  /-- left through the convergence test (winkler.py 575-590) -/
  | converged (d Q : ι → K) (iters : ℕ) (tolSq resSq : K)
  /-- left because `iter_no > max_iter`, with numbers in the result -/
  | exhausted (d Q : ι → K) (iters : ℕ) (tolSq resSq : K)
  /-- the result is filled with NaN -/
  | nan (iters : ℕ)
  /-- an exception leaves `winkler` -/
  | raised

/-- `np.linalg.norm(v)**2`. -/
def normSq (v : ι → K) : K := ∑ i, v i ^ 2

/-- `np.linalg.norm(v[~supports])**2`. -/
def normSqFree (supports : ι → Bool) (v : ι → K) : K := ∑ i, if supports i then 0 else v i ^ 2

/-- The while loop of `winkler`, winkler.py 542-606.  `fuel = max_iter + 1 - iter_no` is the number of
further passes allowed; `build` is `build_stiffness_matrix(model, u=·, kind=·)` (`none` an exception);
`F`, `U0` are the load and prescribed displacement vectors of the model.  The loop variables are
`iter_no`, `d`, `K`, `U`, `Rg`, `Q`, and the squares of the tolerance and of the residual norm.

`norm(Rg[~supports]) < 1e-4 * norm(F_ext)` is stated with squares.  After `iter_no == 100` the code
keeps looping with `d = NaN`: `d += u_inc` leaves NaN in every entry, comparisons with NaN are false,
and a `LinAlgError` also fills NaN, so the call ends with NaN; the remaining passes are not modelled. -/
noncomputable def loop (build : Kind → (ι → K) → Option (Matrix ι ι K)) (F U0 : ι → K)
    (supports : ι → Bool) : ℕ → ℕ → (ι → K) → Matrix ι ι K → (ι → K) → (ι → K) → (ι → K) → K → K →
      Outcome ι K
  | 0, it, d, _, _, _, Q, tolSq, resSq => .exhausted d Q it tolSq resSq
  | fuel + 1, it, d, A, U, Rg, _, _, _ =>
    match solveEquations A Rg U supports with
    | none => .nan it
    | some (uInc, Q) =>
      let Fext : ι → K := fun i => F i - Q i
      let tolSq := (1 / 10000) ^ 2 * normSq Fext
      let d' : ι → K := fun i => d i + uInc i
      match build .secant d' with
      | none => .raised
      | some Ks =>
        let Rg' : ι → K := fun i => Fext i - (Ks *ᵥ d') i
        let resSq := normSqFree supports Rg'
        if resSq < tolSq ∧ 1 < it + 1 then
          match solveEquations Ks F U0 supports with
          | none => .raised
          | some (_, Qf) => .converged d' Qf (it + 1) tolSq resSq
        else if it + 1 = 100 then .nan (it + 1)
        else
          match build .tangent d' with
          | none => .raised
          | some Kt => loop build F U0 supports fuel (it + 1) d' Kt 0 Rg' Q tolSq resSq

/-- `winkler` for a model with soil, winkler.py 524-606: `fix` are the fixations of the model.
(`max_iter` is a natural number; a negative one would leave `Q` undefined.) -/
noncomputable def winkler (build : Kind → (ι → K) → Option (Matrix ι ι K)) (F U0 : ι → K)
    (fix : ι → Bool) (maxIter : ℕ) : Outcome ι K :=
  match build .initial 0 with
  | none => .raised
  | some A =>
    loop build F U0 (fun i => fix i || decide (U0 i ≠ 0)) (maxIter + 1) 0 0 A U0 F 0 0 0

end loop

/-! ### stiffness of a pile in soil -/

/-- The springs of a model, `Model._py_springs` etc.: for element `e` the table at its top (`false`)
and bottom (`true`); base springs; the switches of `Model`. -/
structure Springs (K : Type) (n : ℕ) where
  py : Fin n → Bool → List (K × K)
  tz : Fin n → Bool → List (K × K)
  mt : Fin n → Bool → MtTable K
  ncol : ℕ
  hb : List (K × K)
  mb : List (K × K)
  qz : List (K × K)
  distributedLateral : Bool
  distributedAxial : Bool
  distributedMoment : Bool
  baseShear : Bool
  baseMoment : Bool
  baseAxial : Bool

/-- `u[s::3]` as a list. -/
def component {n : ℕ} (u : Fin (3 * n + 3) → K) (s : Fin 3) : List K :=
  List.ofFn (fun j : Fin (n + 1) => u ⟨3 * j.1 + s.1, by omega⟩)

/-- Position of the top or bottom value of element `e` in an array of shape `(n_elem, 2)`. -/
def slot {n : ℕ} (e : Fin n) (b : Bool) : ℕ := 2 * e.1 + b.toNat

/-- `double_inner_njit(u[s::3]).reshape(-1, 2, 1, 1)[e, b]`, kernel.py 959-962. -/
def springDisp {n : ℕ} (u : Fin (3 * n + 3) → K) (s : Fin 3) (e : Fin n) (b : Bool) : Option K := do
  let d ← doubleInner (component u s)
  d[slot e b]?

/-- Stiffness of the p-y spring of element `e`, kernel.py 935-995. -/
def pyAt {n : ℕ} (sp : Springs K n) (kind : Kind) (u : Fin (3 * n + 3) → K) (e : Fin n) (b : Bool) :
    Option K := do
  if sp.distributedLateral then pyStiffness (sp.py e b) kind (← springDisp u 1 e b) else return 0

/-- Stiffness of the t-z spring of element `e`, kernel.py 999-1060. -/
def tzAt {n : ℕ} (sp : Springs K n) (kind : Kind) (u : Fin (3 * n + 3) → K) (e : Fin n) (b : Bool) :
    Option K := do
  if sp.distributedAxial then tzStiffness (sp.tz e b) kind (← springDisp u 0 e b) else return 0

/-- Stiffness of the m-t spring of element `e`, kernel.py 465-477: the mobilised lateral resistance is
the secant stiffness times the (signed) displacement. -/
def mtAt {n : ℕ} (sp : Springs K n) (kind : Kind) (u : Fin (3 * n + 3) → K) (e : Fin n) (b : Bool) :
    Option K := do
  if sp.distributedMoment then
    if sp.distributedLateral then
      let uy ← springDisp u 1 e b
      let ks ← pyStiffness (sp.py e b) .secant uy
      mtStiffness (sp.mt e b) sp.ncol (ks * uy) kind (← springDisp u 2 e b)
    else none
  else return 0

/-- Spring stiffnesses of element `e`. -/
def soilAt {n : ℕ} (sp : Springs K n) (kind : Kind) (u : Fin (3 * n + 3) → K) (e : Fin n) :
    Option (SoilK K) := do
  return ⟨(← pyAt sp kind u e false, ← pyAt sp kind u e true),
    (← tzAt sp kind u e false, ← tzAt sp kind u e true),
    (← mtAt sp kind u e false, ← mtAt sp kind u e true)⟩

/-- All entries of a finite family, if all exist. -/
def allSome {n : ℕ} {α : Type} (f : Fin n → Option α) : Option (Fin n → α) :=
  if h : ∀ i, (f i).isSome then some (fun i => (f i).get (h i)) else none

/-- `build_stiffness_matrix` for a model with soil, kernel.py 717-787. `none` is an exception
(division by zero, missing entry, or moment springs without lateral springs). -/
def buildStiffness (ty : ElementType) {n : ℕ} (el : Fin n → Elem K) (sp : Springs K n) (kind : Kind)
    (u : Fin (3 * n + 3) → K) : Option (Matrix (Fin (3 * n + 3)) (Fin (3 * n + 3)) K) := do
  let s ← allSome (soilAt sp kind u)
  let h ← if sp.baseShear then baseStiffness sp.hb kind (u ⟨3 * n + 1, by omega⟩) else some 0
  let m ← if sp.baseMoment then baseStiffness sp.mb kind (u ⟨3 * n + 2, by omega⟩) else some 0
  let q ← if sp.baseAxial then baseAxialStiffness sp.qz kind (u ⟨3 * n, by omega⟩) else some 0
  return soilStiffness ty n el s h m q

/-- Result of `Model.solve`. -/
inductive Analysis (K : Type) (n : ℕ)
  | beam (r : Option ((Fin (3 * n + 3) → K) × (Fin (3 * n + 3) → K) ×
      (Fin n → (K × K × K) × (K × K × K))))
  | winkler (o : Outcome (Fin (3 * n + 3)) K)

/-- `winkler(model, max_iter)`, winkler.py 502-637: without soil the function ends without a return
value (`none` is Python's `None`). -/
noncomputable def winklerModel (ty : ElementType) {n : ℕ} (el : Fin n → Elem K)
    (soil : Option (Springs K n)) (F U : Fin (3 * n + 3) → K) (fix : Fin (3 * n + 3) → Bool)
    (maxIter : ℕ) : Option (Outcome (Fin (3 * n + 3)) K) :=
  soil.map (fun sp => winkler (buildStiffness ty el sp) F U fix maxIter)

/-- `Model.solve`, construct.py 1844-1857. -/
noncomputable def solve (ty : ElementType) {n : ℕ} (el : Fin n → Elem K)
    (soil : Option (Springs K n)) (F U : Fin (3 * n + 3) → K) (fix : Fin (3 * n + 3) → Bool) :
    Option (Analysis K n) :=
  match soil with
  | none => some (.beam (beam ty el F U fix))
  | some sp => (winklerModel ty el (some sp) F U fix 100).map .winkler

end OpenPile.Winkler
