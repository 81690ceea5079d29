/-
Property C97: what the pile material contributes to an analysis.
-/
import Verif.Model.SoilAnalysis
import Verif.Props.ForceUnit
import Verif.Props.FreeBody

namespace OpenPile.Props.Material
open OpenPile.BC OpenPile.Mesh OpenPile.Kernel OpenPile.Analysis OpenPile.SoilAnalysis OpenPile.Winkler
open OpenPile.Pile (Pile Material mkMaterial)

/-- The pile made of another material. -/
def madeOf {K : Type} (m : Material K) (p : Pile K) : Pile K := { p with material := m }

section
variable {K : Type} [Field K]

/-- The element with another Poisson's ratio. -/
def withNu (nu : K) (e : Elem K) : Elem K := { e with nu := nu }

theorem mech_nu (nu : K) (e : Elem K) : mechMatrix .eulerBernoulli (withNu nu e) = mechMatrix .eulerBernoulli e := by
  simp [mechMatrix, phi, kappa, withNu]

theorem internal_nu {n : ℕ} (nu : K) (el : Fin n → Elem K) (u : Fin (3 * n + 3) → K) (i : Fin n) :
    internalForces .eulerBernoulli (fun i => withNu nu (el i)) u i = internalForces .eulerBernoulli el u i := by
  unfold internalForces
  rw [mech_nu]

theorem beamStiffness_nu {n : ℕ} (nu : K) (el : Fin n → Elem K) :
    beamStiffness .eulerBernoulli n (fun i => withNu nu (el i)) = beamStiffness .eulerBernoulli n el := by
  unfold beamStiffness
  congr 1
  funext i
  exact mech_nu nu (el i)

theorem soilStiffness_nu {n : ℕ} (nu : K) (el : Fin n → Elem K) (s : Fin n → SoilK K) (h m q : K) :
    soilStiffness .eulerBernoulli n (fun i => withNu nu (el i)) s h m q
      = soilStiffness .eulerBernoulli n el s h m q := by
  unfold soilStiffness
  congr 2
  funext i
  unfold elemMatrix
  rw [mech_nu]
  rfl

theorem beam_nu [DecidableEq K] {n : ℕ} (nu : K) (el : Fin n → Elem K) (F U : Fin (3 * n + 3) → K)
    (fix : Fin (3 * n + 3) → Bool) :
    beam .eulerBernoulli (fun i => withNu nu (el i)) F U fix = beam .eulerBernoulli el F U fix := by
  unfold beam
  rw [beamStiffness_nu]
  simp only [internal_nu]
  rfl

variable [LinearOrder K]

theorem build_nu {n : ℕ} (nu : K) (el : Fin n → Elem K) (sp : Springs K n) :
    buildStiffness .eulerBernoulli (fun i => withNu nu (el i)) sp = buildStiffness .eulerBernoulli el sp := by
  funext kind u
  unfold buildStiffness
  simp only [soilStiffness_nu]

theorem tables_nu {n : ℕ} (nu : K) (nodes : List K) (el : Fin n → Elem K) (u Q : Fin (3 * n + 3) → K) :
    tables .eulerBernoulli nodes (fun i => withNu nu (el i)) u Q = tables .eulerBernoulli nodes el u Q := by
  unfold tables
  simp only [internal_nu]
  rfl

variable [FloorRing K]

omit [FloorRing K] in
theorem elemAt_nu (pi : K) (p : Pile K) (m : Material K) (hE : m.E = p.material.E) (e : K × K) :
    elemAt pi (madeOf m p) e = (elemAt pi p e).map (withNu m.nu) := by
  unfold elemAt madeOf
  simp only [Option.bind_eq_bind, hE]
  generalize parameterOf (·.top) (·.bottom) (·.inertia pi) p.sections e = o1
  generalize parameterOf (·.top) (·.bottom) (·.area pi) p.sections e = o2
  generalize parameterOf (·.top) (·.bottom) (·.width) p.sections e = o3
  generalize parameterOf (·.top) (·.bottom) (·.thickness) p.sections e = o4
  rcases o1 with _ | o1 <;> [rfl; skip]
  rcases o2 with _ | o2 <;> [rfl; skip]
  rcases o3 with _ | o3 <;> [rfl; skip]
  rcases o4 with _ | o4 <;> rfl

theorem elems_nu (pi : K) (p : Pile K) (m : Material K) (hE : m.E = p.material.E) (l : List (K × K)) :
    allSome (fun i : Fin l.length => elemAt pi (madeOf m p) l[i.1])
      = (allSome (fun i : Fin l.length => elemAt pi p l[i.1])).map (fun s i => withNu m.nu (s i)) := by
  rw [← ForceUnit.allSome_map]
  congr 1
  funext i
  exact elemAt_nu pi p m hE _

theorem solveOn_nu (pi : K) (p : Pile K) (m : Material K) (hE : m.E = p.material.E) (C : Coordinates K)
    (bcs : List (Cond K)) :
    solveOn pi .eulerBernoulli (madeOf m p) C bcs = solveOn pi .eulerBernoulli p C bcs := by
  unfold solveOn
  rw [elems_nu pi p m hE]
  generalize allSome (fun i : Fin C.elements.length => elemAt pi p C.elements[i.1]) = oel
  rcases oel with _ | el
  · rfl
  · simp only [Option.map_some, Option.bind_eq_bind, Option.bind_some, beam_nu, tables_nu]

/-- **C97, without soil.** Two piles that differ in the unit weight of their material alone give the same result: the weight
of the pile does not act in an analysis.  With Euler-Bernoulli elements Poisson's ratio does not matter either. -/
theorem C97_beam (pi : K) (p : Pile K) (x2mesh : List K) (coarseness : K) (bcs : List (Cond K)) (m m' : Material K)
    (uw uw' E nu nu' : K) (hm : mkMaterial uw E nu = some m) (hm' : mkMaterial uw' E nu' = some m') :
    (nu = nu' → ∀ ty, solveModel pi ty (madeOf m p) x2mesh coarseness bcs
      = solveModel pi ty (madeOf m' p) x2mesh coarseness bcs) ∧
    solveModel pi .eulerBernoulli (madeOf m p) x2mesh coarseness bcs
      = solveModel pi .eulerBernoulli (madeOf m' p) x2mesh coarseness bcs := by
  have e1 : m.E = E ∧ m.nu = nu := by
    unfold mkMaterial at hm
    split at hm <;> cases hm
    exact ⟨rfl, rfl⟩
  have e2 : m'.E = E ∧ m'.nu = nu' := by
    unfold mkMaterial at hm'
    split at hm' <;> cases hm'
    exact ⟨rfl, rfl⟩
  refine ⟨?_, ?_⟩
  · rintro rfl ty
    obtain ⟨u, E₁, n₁⟩ := m
    obtain ⟨u', E₂, n₂⟩ := m'
    simp only at e1 e2
    obtain ⟨rfl, rfl⟩ := e1
    obtain ⟨rfl, rfl⟩ := e2
    rfl
  · have hC : getCoordinates (madeOf m p) none x2mesh coarseness = getCoordinates (madeOf m' p) none x2mesh coarseness := rfl
    unfold solveModel
    rw [hC]
    congr 1
    funext C
    have := solveOn_nu pi (madeOf m' p) m (by rw [e1.1]; exact e2.1.symm) C bcs
    exact this

end

theorem solveSoilOn_nu (p : Pile ℝ) (m : Material ℝ) (hE : m.E = p.material.E) (C : Coordinates ℝ) (w : Assemble.Switches)
    (A : Assemble.Arrays) (bcs : List (Cond ℝ)) (k : ℕ) :
    solveSoilOn .eulerBernoulli (madeOf m p) C w A bcs k = solveSoilOn .eulerBernoulli p C w A bcs k := by
  unfold solveSoilOn
  rw [elems_nu Real.pi p m hE]
  generalize allSome (fun i : Fin C.elements.length => elemAt Real.pi p C.elements[i.1]) = oel
  rcases oel with _ | el
  · rfl
  · simp only [Option.map_some, Option.bind_eq_bind, Option.bind_some, build_nu, results, tables_nu]

/-- **C97, with soil.** The same for an analysis with soil: springs, iteration, tables, mobilisation and the numbers of
`details()`. -/
theorem C97_soil (p : Pile ℝ) (sp : Assemble.SoilProfile) (x2mesh : List ℝ) (coarseness : ℝ) (w : Assemble.Switches)
    (table : List (ℝ × Pile.Section ℝ)) (env : Assemble.Draws) (bcs : List (Cond ℝ)) (m m' : Material ℝ)
    (uw uw' E nu nu' : ℝ) (hm : mkMaterial uw E nu = some m) (hm' : mkMaterial uw' E nu' = some m') :
    (nu = nu' → ∀ ty, solveSoil ty (madeOf m p) sp x2mesh coarseness w table env bcs
      = solveSoil ty (madeOf m' p) sp x2mesh coarseness w table env bcs) ∧
    solveSoil .eulerBernoulli (madeOf m p) sp x2mesh coarseness w table env bcs
      = solveSoil .eulerBernoulli (madeOf m' p) sp x2mesh coarseness w table env bcs := by
  have e1 : m.E = E ∧ m.nu = nu := by
    unfold mkMaterial at hm
    split at hm <;> cases hm
    exact ⟨rfl, rfl⟩
  have e2 : m'.E = E ∧ m'.nu = nu' := by
    unfold mkMaterial at hm'
    split at hm' <;> cases hm'
    exact ⟨rfl, rfl⟩
  have hC : ∀ g, getCoordinates (madeOf m p) g x2mesh coarseness = getCoordinates (madeOf m' p) g x2mesh coarseness :=
    fun _ => rfl
  have hA : Assemble.modelSprings (madeOf m p) sp x2mesh coarseness w table env
      = Assemble.modelSprings (madeOf m' p) sp x2mesh coarseness w table env := rfl
  refine ⟨?_, ?_⟩
  · rintro rfl ty
    unfold solveSoil
    rw [hC, hA]
    obtain ⟨u, E₁, n₁⟩ := m
    obtain ⟨u', E₂, n₂⟩ := m'
    simp only at e1 e2
    obtain ⟨rfl, rfl⟩ := e1
    obtain ⟨rfl, rfl⟩ := e2
    rfl
  · unfold solveSoil
    rw [hC, hA]
    congr 1
    funext C
    congr 1
    funext A
    exact solveSoilOn_nu (madeOf m' p) m (by rw [e1.1]; exact e2.1.symm) C w A bcs 100

/-! ### cases that meet the hypotheses -/

/-- Concrete and a light material with the same Young's modulus. -/
example : mkMaterial (24 : ℚ) 30000000 (1 / 5) = some ⟨24, 30000000, 1 / 5⟩ ∧
    mkMaterial (1 : ℚ) 30000000 (1 / 2) = some ⟨1, 30000000, 1 / 2⟩ := by
  constructor <;> decide +kernel

end OpenPile.Props.Material
