/-
Property C59: applied loads and soil reactions of a converged analysis balance.
-/
import Verif.Props.SoilStiffness
import Verif.Props.Element
import Verif.Props.LinearRange

namespace OpenPile.Props.Balance
open OpenPile.Kernel OpenPile.Winkler OpenPile.Spring OpenPile.Spec.Kernel OpenPile.Props.SoilStiffness
open OpenPile.Props.Winkler OpenPile.Props.Beam OpenPile.Props.Element Matrix intervalIntegral

/-- The out-of-balance forces do little work on any motion the supports allow. -/
theorem residual_work {ι : Type} [Fintype ι] [DecidableEq ι] (build : Kind → (ι → ℝ) → Option (Matrix ι ι ℝ))
    (F U0 : ι → ℝ) (fix : ι → Bool) (maxIter : ℕ) (d Q : ι → ℝ) (it : ℕ) (tolSq resSq : ℝ)
    (h : winkler build F U0 fix maxIter = .converged d Q it tolSq resSq) :
    resSq < tolSq ∧ ∃ Ks, build .secant d = some Ks ∧
      ∀ v : ι → ℝ, (∀ i, fix i = true ∨ U0 i ≠ 0 → v i = 0) →
        (∑ i, v i * F i - work Ks v d) ^ 2 ≤ (∑ i, v i ^ 2) * resSq := by
  obtain ⟨-, -, -, -, Ks, hK, hr, hlt⟩ := C26_converged build F U0 fix maxIter d Q it tolSq resSq h
  refine ⟨hlt, Ks, hK, fun v hv => ?_⟩
  have e : ∑ i, v i * F i - work Ks v d
      = ∑ i, v i * (if fix i = true ∨ U0 i ≠ 0 then 0 else F i - (Ks *ᵥ d) i) := by
    unfold work dotProduct
    rw [← Finset.sum_sub_distrib]
    refine Finset.sum_congr rfl (fun i _ => ?_)
    split
    · next hi => rw [hv i hi]; ring
    · ring
  rw [e, ← hr]
  refine (Finset.sum_mul_sq_le_sq_mul_sq _ _ _).trans (le_of_eq ?_)
  congr 1
  refine Finset.sum_congr rfl (fun i _ => ?_)
  split <;> simp

variable {n : ℕ}

/-- The rotational springs of an element exert no net lateral force. -/
theorem mt_translation (ty : ElementType) (e : Elem ℝ) (a b : ℝ) (r u : Fin 6 → ℝ) (h : r 1 = r 4)
    (h2 : r 2 = 0) (h5 : r 5 = 0) : work (mtMatrix ty e a b) r u = 0 := by
  unfold mtMatrix
  obtain ⟨A, B, C, D⟩ := mtCoeffs ty e
  simp only [work, dotProduct, mulVec, Fin.sum_univ_six, Matrix.smul_apply, smul_eq_mul, mtPattern]
  simp [h, h2, h5]
  ring

/-- Work of the soil and of the pile on a rigid motion. -/
theorem stiffness_rigid (ty : ElementType) (el : Fin n → Elem ℝ) (hL : ∀ i, (el i).L ≠ 0)
    (hp : ∀ i, 1 + phi ty (el i) ≠ 0) (s : Fin n → SoilK ℝ) (h m q : ℝ) (v u : Fin (3 * n + 3) → ℝ)
    (hv : Rigid (fun i => (el i).L) v) :
    work (soilStiffness ty n el s h m q) v u
      = ∑ i, ((∫ x in (0 : ℝ)..(el i).L, hermite (el i).L (stacked v i) x * hermite (el i).L (stacked u i) x
            * linearStiffness (el i).L (s i).py.1 (s i).py.2 x)
          + (∫ x in (0 : ℝ)..(el i).L, axialField (el i).L (stacked v i) x * axialField (el i).L (stacked u i) x
            * linearStiffness (el i).L (s i).tz.1 (s i).tz.2 x)
          + work (mtMatrix ty (el i) (s i).mt.1 (s i).mt.2) (stacked v i) (stacked u i))
        + (q * v (dof (Fin.last n) 0) * u (dof (Fin.last n) 0) + h * v (dof (Fin.last n) 1) * u (dof (Fin.last n) 1)
          + m * v (dof (Fin.last n) 2) * u (dof (Fin.last n) 2)) := by
  unfold soilStiffness
  rw [work_add, assemble_work, base_work]
  congr 1
  · refine Finset.sum_congr rfl (fun i _ => ?_)
    rw [← C18_py_consistent _ _ _ (hL i), ← C18_tz_consistent _ _ _ (hL i)]
    simp only [elemMatrix, work_add]
    rw [mech_work_rigid ty (el i) (hL i) (hp i) _ _ ((rigid_iff _ v).1 hv i), zero_add]
  · ring

theorem hermite_rigid (L : ℝ) (r : Fin 6 → ℝ) (hr : RigidElem L r) (hL : L ≠ 0) (x : ℝ) :
    hermite L r x = r 1 + x * r 2 ∧ axialField L r x = r 0 := by
  obtain ⟨h3, h5, h4⟩ := hr
  unfold hermite axialField
  rw [h3, h5, h4]
  constructor <;> field_simp <;> ring

/-- What the springs of a converged analysis are: stiffnesses `s` along the shaft and `h`, `m`, `q` at the tip,
all read from the tables as secants at the returned displacements `d`. -/
structure SecantSprings (sp : Springs ℝ n) (d : Fin (3 * n + 3) → ℝ) (s : Fin n → SoilK ℝ) (h m q : ℝ) : Prop where
  shaft : ∀ e, Distributed sp .secant d e (s e)
  baseShear : (if sp.baseShear then baseStiffness sp.hb .secant (d (dof (Fin.last n) 1)) else some 0) = some h
  baseMoment : (if sp.baseMoment then baseStiffness sp.mb .secant (d (dof (Fin.last n) 2)) else some 0) = some m
  baseAxial : (if sp.baseAxial then baseAxialStiffness sp.qz .secant (d (dof (Fin.last n) 0)) else some 0) = some q

/-- Lateral deflection of the pile between its nodes. -/
noncomputable def deflection (el : Fin n → Elem ℝ) (d : Fin (3 * n + 3) → ℝ) (i : Fin n) (x : ℝ) : ℝ :=
  hermite (el i).L (stacked d i) x

/-- Axial displacement of the pile between its nodes. -/
noncomputable def settlement (el : Fin n → Elem ℝ) (d : Fin (3 * n + 3) → ℝ) (i : Fin n) (x : ℝ) : ℝ :=
  axialField (el i).L (stacked d i) x

theorem sum_rigid_sq (L : Fin n → ℝ) (a b θ x0 : ℝ) :
    ∑ i, rigidVec L a b θ x0 i ^ 2 = ∑ j : Fin (n + 1), (a ^ 2 + (b + (nodeDepth L j - x0) * θ) ^ 2 + θ ^ 2) := by
  rw [sum_dof]
  refine Finset.sum_congr rfl (fun j _ => ?_)
  obtain ⟨h0, h1, h2⟩ := rigidVec_dof L a b θ x0 j
  rw [Fin.sum_univ_three, h0, h1, h2]

theorem sum_rigid_mul (L : Fin n → ℝ) (a b θ x0 : ℝ) (F : Fin (3 * n + 3) → ℝ) :
    ∑ i, rigidVec L a b θ x0 i * F i = ∑ j : Fin (n + 1), (a * F (dof j 0)
      + (b + (nodeDepth L j - x0) * θ) * F (dof j 1) + θ * F (dof j 2)) := by
  rw [sum_dof]
  refine Finset.sum_congr rfl (fun j _ => ?_)
  obtain ⟨h0, h1, h2⟩ := rigidVec_dof L a b θ x0 j
  rw [Fin.sum_univ_three, h0, h1, h2]

/-- All three balances at once. -/
theorem balance (ty : ElementType) (el : Fin n → Elem ℝ) (hL : ∀ i, (el i).L ≠ 0)
    (hp : ∀ i, 1 + phi ty (el i) ≠ 0) (sp : Springs ℝ n) (F U : Fin (3 * n + 3) → ℝ) (fix : Fin (3 * n + 3) → Bool)
    (maxIter : ℕ) (d Q : Fin (3 * n + 3) → ℝ) (it : ℕ) (tolSq resSq : ℝ)
    (h : winkler (buildStiffness ty el sp) F U fix maxIter = .converged d Q it tolSq resSq) :
    resSq < tolSq ∧ ∃ s hh m q, SecantSprings sp d s hh m q ∧ ∀ a b θ x0 : ℝ,
      (∀ j, (fix (dof j 0) = true ∨ U (dof j 0) ≠ 0 → a = 0) ∧
        (fix (dof j 1) = true ∨ U (dof j 1) ≠ 0 → b + (nodeDepth (fun i => (el i).L) j - x0) * θ = 0) ∧
        (fix (dof j 2) = true ∨ U (dof j 2) ≠ 0 → θ = 0)) →
      (∑ j : Fin (n + 1), (a * F (dof j 0) + (b + (nodeDepth (fun i => (el i).L) j - x0) * θ) * F (dof j 1)
          + θ * F (dof j 2))
        - (∑ i, ((∫ x in (0 : ℝ)..(el i).L, (b + (nodeDepth (fun i => (el i).L) i.castSucc + x - x0) * θ)
              * deflection el d i x * linearStiffness (el i).L (s i).py.1 (s i).py.2 x)
            + (∫ x in (0 : ℝ)..(el i).L, a * settlement el d i x
              * linearStiffness (el i).L (s i).tz.1 (s i).tz.2 x)
            + work (mtMatrix ty (el i) (s i).mt.1 (s i).mt.2)
                (stacked (rigidVec (fun i => (el i).L) a b θ x0) i) (stacked d i))
          + (q * a * d (dof (Fin.last n) 0)
            + hh * (b + (nodeDepth (fun i => (el i).L) (Fin.last n) - x0) * θ) * d (dof (Fin.last n) 1)
            + m * θ * d (dof (Fin.last n) 2)))) ^ 2
        ≤ (∑ j : Fin (n + 1), (a ^ 2 + (b + (nodeDepth (fun i => (el i).L) j - x0) * θ) ^ 2 + θ ^ 2)) * resSq := by
  obtain ⟨hlt, Ks, hK, hw⟩ := residual_work _ F U fix maxIter d Q it tolSq resSq h
  obtain ⟨s, hh, m, q, hd, h1, h2, h3, rfl⟩ := build_parts ty el sp .secant d Ks hK
  refine ⟨hlt, s, hh, m, q, ⟨hd, h1, h2, h3⟩, fun a b θ x0 hv => ?_⟩
  have hr := rigidVec_rigid (fun i => (el i).L) a b θ x0
  have := hw (rigidVec (fun i => (el i).L) a b θ x0) (by
    intro i hi
    obtain ⟨j, c, rfl⟩ := dof_surjective i
    obtain ⟨e0, e1, e2⟩ := rigidVec_dof (fun i => (el i).L) a b θ x0 j
    obtain ⟨g0, g1, g2⟩ := hv j
    fin_cases c
    · exact e0.trans (g0 hi)
    · exact e1.trans (g1 hi)
    · exact e2.trans (g2 hi))
  rw [sum_rigid_sq, sum_rigid_mul, stiffness_rigid ty el hL hp s hh m q _ d hr] at this
  obtain ⟨e0, e1, e2⟩ := rigidVec_dof (fun i => (el i).L) a b θ x0 (Fin.last n)
  rw [e0, e1, e2] at this
  have hi : ∀ i x, hermite (el i).L (stacked (rigidVec (fun i => (el i).L) a b θ x0) i) x
      = b + (nodeDepth (fun i => (el i).L) i.castSucc + x - x0) * θ ∧
      axialField (el i).L (stacked (rigidVec (fun i => (el i).L) a b θ x0) i) x = a := by
    intro i x
    obtain ⟨g1, g2⟩ := hermite_rigid _ _ ((rigid_iff _ _).1 hr i) (hL i) x
    obtain ⟨t0, t1, t2, -, -, -⟩ := stacked_top (rigidVec (fun i => (el i).L) a b θ x0) i
    obtain ⟨e0, e1, e2⟩ := rigidVec_dof (fun i => (el i).L) a b θ x0 i.castSucc
    rw [g1, g2, t0, t1, t2, e0, e1, e2]
    exact ⟨by ring, rfl⟩
  simp only [hi] at this
  exact this

/-- No support and no prescribed displacement in direction `c` (0 axial, 1 lateral, 2 rotation). -/
def FreeIn (fix : Fin (3 * n + 3) → Bool) (U : Fin (3 * n + 3) → ℝ) (c : Fin 3) : Prop :=
  ∀ j, fix (dof j c) = false ∧ U (dof j c) = 0

/-- **C59, lateral.** In a converged analysis of a pile without lateral supports, the lateral loads are carried by
the soil: up to `√(n+1)` times the reported error (which is below the reported tolerance) their sum is the
reaction of the lateral springs, integrated along the pile over the computed deflection, plus the base shear.
Rotational springs do not enter. -/
theorem C59_lateral (ty : ElementType) (el : Fin n → Elem ℝ) (hL : ∀ i, (el i).L ≠ 0)
    (hp : ∀ i, 1 + phi ty (el i) ≠ 0) (sp : Springs ℝ n) (F U : Fin (3 * n + 3) → ℝ) (fix : Fin (3 * n + 3) → Bool)
    (maxIter : ℕ) (d Q : Fin (3 * n + 3) → ℝ) (it : ℕ) (tolSq resSq : ℝ)
    (h : winkler (buildStiffness ty el sp) F U fix maxIter = .converged d Q it tolSq resSq) (hf : FreeIn fix U 1) :
    resSq < tolSq ∧ ∃ s hh m q, SecantSprings sp d s hh m q ∧
      (∑ j : Fin (n + 1), F (dof j 1)
        - (∑ i, (∫ x in (0 : ℝ)..(el i).L, linearStiffness (el i).L (s i).py.1 (s i).py.2 x * deflection el d i x)
          + hh * d (dof (Fin.last n) 1))) ^ 2 ≤ (n + 1) * resSq := by
  obtain ⟨hlt, s, hh, m, q, hs, hb⟩ := balance ty el hL hp sp F U fix maxIter d Q it tolSq resSq h
  refine ⟨hlt, s, hh, m, q, hs, ?_⟩
  have := hb 0 1 0 0 (fun j => ⟨fun _ => rfl, fun hj => by
    rw [(hf j).1, (hf j).2] at hj; simp at hj, fun _ => rfl⟩)
  have hmt : ∀ i, work (mtMatrix ty (el i) (s i).mt.1 (s i).mt.2)
      (stacked (rigidVec (fun i => (el i).L) 0 1 0 0) i) (stacked d i) = 0 := by
    intro i
    obtain ⟨-, t1, t2, -, t4, t5⟩ := stacked_top (rigidVec (fun i => (el i).L) (0 : ℝ) 1 0 0) i
    obtain ⟨-, e1, e2⟩ := rigidVec_dof (fun i => (el i).L) (0 : ℝ) 1 0 0 i.castSucc
    obtain ⟨-, e4, e5⟩ := rigidVec_dof (fun i => (el i).L) (0 : ℝ) 1 0 0 i.succ
    apply mt_translation
    · rw [t1, t4, e1, e4]; ring
    · rw [t2, e2]
    · rw [t5, e5]
  simp only [hmt] at this
  simpa [mul_comm] using this

/-- **C59, axial.** Likewise for the axial direction: axial loads, integrated shaft friction and tip resistance. -/
theorem C59_axial (ty : ElementType) (el : Fin n → Elem ℝ) (hL : ∀ i, (el i).L ≠ 0)
    (hp : ∀ i, 1 + phi ty (el i) ≠ 0) (sp : Springs ℝ n) (F U : Fin (3 * n + 3) → ℝ) (fix : Fin (3 * n + 3) → Bool)
    (maxIter : ℕ) (d Q : Fin (3 * n + 3) → ℝ) (it : ℕ) (tolSq resSq : ℝ)
    (h : winkler (buildStiffness ty el sp) F U fix maxIter = .converged d Q it tolSq resSq) (hf : FreeIn fix U 0) :
    resSq < tolSq ∧ ∃ s hh m q, SecantSprings sp d s hh m q ∧
      (∑ j : Fin (n + 1), F (dof j 0)
        - (∑ i, (∫ x in (0 : ℝ)..(el i).L, linearStiffness (el i).L (s i).tz.1 (s i).tz.2 x * settlement el d i x)
          + q * d (dof (Fin.last n) 0))) ^ 2 ≤ (n + 1) * resSq := by
  obtain ⟨hlt, s, hh, m, q, hs, hb⟩ := balance ty el hL hp sp F U fix maxIter d Q it tolSq resSq h
  refine ⟨hlt, s, hh, m, q, hs, ?_⟩
  have := hb 1 0 0 0 (fun j => ⟨fun hj => by
    rw [(hf j).1, (hf j).2] at hj; simp at hj, fun _ => by ring, fun _ => rfl⟩)
  have hmt : ∀ i, work (mtMatrix ty (el i) (s i).mt.1 (s i).mt.2)
      (stacked (rigidVec (fun i => (el i).L) 1 0 0 0) i) (stacked d i) = 0 := by
    intro i
    obtain ⟨-, t1, t2, -, t4, t5⟩ := stacked_top (rigidVec (fun i => (el i).L) (1 : ℝ) 0 0 0) i
    obtain ⟨-, e1, e2⟩ := rigidVec_dof (fun i => (el i).L) (1 : ℝ) 0 0 0 i.castSucc
    obtain ⟨-, e4, e5⟩ := rigidVec_dof (fun i => (el i).L) (1 : ℝ) 0 0 0 i.succ
    apply mt_translation
    · rw [t1, t4, e1, e4]; ring
    · rw [t2, e2]
    · rw [t5, e5]
  simp only [hmt] at this
  simpa [mul_comm] using this

/-- Moment of the rotational springs of an Euler-Bernoulli element: mean stiffness times mean slope times length. -/
theorem mt_rotation (e : Elem ℝ) (hL : e.L ≠ 0) (a b θ : ℝ) (r u : Fin 6 → ℝ) (h : r 4 = r 1 + e.L * θ)
    (h2 : r 2 = θ) (h5 : r 5 = θ) :
    work (mtMatrix .eulerBernoulli e a b) r u = θ * ((a + b) / 2 * (u 4 - u 1)) := by
  unfold mtMatrix mtCoeffs
  simp only [work, dotProduct, mulVec, Fin.sum_univ_six, Matrix.smul_apply, smul_eq_mul, mtPattern]
  simp [h, h2, h5]
  field_simp
  ring

/-- **C59, moment.** In a converged analysis of a pile without lateral and rotational supports the moments of loads,
lateral springs, rotational springs, base shear and base moment about any depth `x0` balance up to the reported
error times the length of the vector of lever arms.
Missing: rotational springs along Timoshenko elements (their matrix is not the one of the theory, see C18). -/
theorem C59_moment_partial (ty : ElementType) (el : Fin n → Elem ℝ) (hL : ∀ i, (el i).L ≠ 0)
    (hp : ∀ i, 1 + phi ty (el i) ≠ 0) (sp : Springs ℝ n) (hty : ty = .eulerBernoulli ∨ sp.distributedMoment = false)
    (F U : Fin (3 * n + 3) → ℝ) (fix : Fin (3 * n + 3) → Bool)
    (maxIter : ℕ) (d Q : Fin (3 * n + 3) → ℝ) (it : ℕ) (tolSq resSq : ℝ)
    (h : winkler (buildStiffness ty el sp) F U fix maxIter = .converged d Q it tolSq resSq)
    (hf1 : FreeIn fix U 1) (hf2 : FreeIn fix U 2) :
    resSq < tolSq ∧ ∃ s hh m q, SecantSprings sp d s hh m q ∧ ∀ x0 : ℝ,
      (∑ j : Fin (n + 1), (F (dof j 2) + (nodeDepth (fun i => (el i).L) j - x0) * F (dof j 1))
        - (∑ i, ((∫ x in (0 : ℝ)..(el i).L, (nodeDepth (fun i => (el i).L) i.castSucc + x - x0)
              * deflection el d i x * linearStiffness (el i).L (s i).py.1 (s i).py.2 x)
            + ((s i).mt.1 + (s i).mt.2) / 2 * (d (dof i.succ 1) - d (dof i.castSucc 1)))
          + (hh * (nodeDepth (fun i => (el i).L) (Fin.last n) - x0) * d (dof (Fin.last n) 1)
            + m * d (dof (Fin.last n) 2)))) ^ 2
        ≤ (∑ j : Fin (n + 1), ((nodeDepth (fun i => (el i).L) j - x0) ^ 2 + 1)) * resSq := by
  obtain ⟨hlt, s, hh, m, q, hs, hb⟩ := balance ty el hL hp sp F U fix maxIter d Q it tolSq resSq h
  refine ⟨hlt, s, hh, m, q, hs, fun x0 => ?_⟩
  have := hb 0 0 1 x0 (fun j => ⟨fun _ => rfl, fun hj => by
    rw [(hf1 j).1, (hf1 j).2] at hj; simp at hj, fun hj => by rw [(hf2 j).1, (hf2 j).2] at hj; simp at hj⟩)
  have hmt : ∀ i, work (mtMatrix ty (el i) (s i).mt.1 (s i).mt.2)
      (stacked (rigidVec (fun i => (el i).L) 0 0 1 x0) i) (stacked d i)
        = ((s i).mt.1 + (s i).mt.2) / 2 * (d (dof i.succ 1) - d (dof i.castSucc 1)) := by
    intro i
    rcases hty with rfl | hm
    · obtain ⟨-, t1, t2, -, t4, t5⟩ := stacked_top (rigidVec (fun i => (el i).L) (0 : ℝ) 0 1 x0) i
      obtain ⟨-, e1, e2⟩ := rigidVec_dof (fun i => (el i).L) (0 : ℝ) 0 1 x0 i.castSucc
      obtain ⟨-, e4, e5⟩ := rigidVec_dof (fun i => (el i).L) (0 : ℝ) 0 1 x0 i.succ
      obtain ⟨-, d1, -, -, d4, -⟩ := stacked_top d i
      rw [mt_rotation (el i) (hL i) _ _ 1 _ _ (by rw [t1, t4, e1, e4, nodeDepth_succ]; ring) (by rw [t2, e2])
        (by rw [t5, e5]), d1, d4, one_mul]
    · have h1 := (hs.shaft i).noMoment false hm
      have h2 := (hs.shaft i).noMoment true hm
      simp only [side, Bool.false_eq_true, if_false, if_true] at h1 h2
      rw [h1, h2]
      simp [work, mtMatrix]
  simp only [hmt] at this
  have e1 : ∀ j : Fin (n + 1), (0 : ℝ) * F (dof j 0) + (0 + (nodeDepth (fun i => (el i).L) j - x0) * 1) * F (dof j 1)
      + 1 * F (dof j 2) = F (dof j 2) + (nodeDepth (fun i => (el i).L) j - x0) * F (dof j 1) := by
    intro j; ring
  have e2 : ∀ j : Fin (n + 1), (0 : ℝ) ^ 2 + (0 + (nodeDepth (fun i => (el i).L) j - x0) * 1) ^ 2 + 1 ^ 2
      = (nodeDepth (fun i => (el i).L) j - x0) ^ 2 + 1 := by
    intro j; ring
  simp only [e1, e2] at this
  simpa using this

/-- **C59, free piles.** Without any support the imbalance is below `10⁻⁴ √(n+1)` times the norm of the load
vector. -/
theorem C59_free (ty : ElementType) (el : Fin n → Elem ℝ) (hL : ∀ i, (el i).L ≠ 0)
    (hp : ∀ i, 1 + phi ty (el i) ≠ 0) (sp : Springs ℝ n) (F : Fin (3 * n + 3) → ℝ)
    (maxIter : ℕ) (d Q : Fin (3 * n + 3) → ℝ) (it : ℕ) (tolSq resSq : ℝ)
    (h : winkler (buildStiffness ty el sp) F 0 (fun _ => false) maxIter = .converged d Q it tolSq resSq) :
    ∃ s hh m q, SecantSprings sp d s hh m q ∧
      abs (∑ j : Fin (n + 1), F (dof j 1)
        - (∑ i, (∫ x in (0 : ℝ)..(el i).L, linearStiffness (el i).L (s i).py.1 (s i).py.2 x * deflection el d i x)
          + hh * d (dof (Fin.last n) 1))) < 1 / 10000 * √(n + 1) * √(∑ i, F i ^ 2) := by
  obtain ⟨hlt, s, hh, m, q, hs, hb⟩ := C59_lateral ty el hL hp sp F 0 _ maxIter d Q it tolSq resSq h
    (fun j => ⟨rfl, rfl⟩)
  refine ⟨s, hh, m, q, hs, ?_⟩
  have ht := C27_no_support_partial _ F maxIter d Q it tolSq resSq h
  have hn : (0 : ℝ) < n + 1 := by positivity
  have hF : 0 ≤ ∑ i, F i ^ 2 := Finset.sum_nonneg (fun i _ => sq_nonneg _)
  apply abs_lt_of_sq_lt_sq
  · refine lt_of_le_of_lt hb ?_
    rw [mul_pow, mul_pow, Real.sq_sqrt hn.le, Real.sq_sqrt hF]
    have := mul_lt_mul_of_pos_left hlt hn
    rw [ht] at this
    linarith
  · positivity

/-- The translated pile of `LinearRange` meets the hypotheses. -/
example : ∃ t, winkler (buildStiffness .eulerBernoulli (LinearRange.elD (K := ℝ)) LinearRange.spD)
      LinearRange.loadD 0 LinearRange.fixD 100 = .converged LinearRange.uD 0 2 t 0 ∧
    (∀ c, FreeIn (n := 1) LinearRange.fixD 0 c) ∧ LinearRange.fixD = fun _ => false := by
  obtain ⟨t, ht⟩ := LinearRange.convergedD (K := ℝ) 100 (by norm_num)
  exact ⟨t, ht, fun c j => ⟨rfl, rfl⟩, rfl⟩

end OpenPile.Props.Balance
