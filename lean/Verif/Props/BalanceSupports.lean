/-
Property C59, continued: piles with supports, and rotational springs along Timoshenko elements.
-/
import Verif.Props.Ultimate

namespace OpenPile.Props.Balance
open OpenPile.Kernel OpenPile.Winkler OpenPile.Spring OpenPile.Spec.Kernel OpenPile.Props.SoilStiffness
open OpenPile.Props.Winkler OpenPile.Props.Beam OpenPile.Props.Element OpenPile.Props.Solve Matrix intervalIntegral

variable {n : ℕ}

/-! ### rotational springs along elements of both types -/

/-- Moment of the rotational springs of an element for a virtual rotation, for both types of elements. -/
theorem mt_rotation_any (ty : ElementType) (e : Elem ℝ) (a b θ : ℝ) (r u : Fin 6 → ℝ) (h : r 4 = r 1 + e.L * θ)
    (h2 : r 2 = θ) (h5 : r 5 = θ) :
    work (mtMatrix ty e a b) r u = θ * ((a + b) / 2
      * (((mtCoeffs ty e).1 * e.L - 2 * (mtCoeffs ty e).2.1) * (u 4 - u 1)
        + ((mtCoeffs ty e).2.2.1 + (mtCoeffs ty e).2.2.2 - (mtCoeffs ty e).2.1 * e.L) * (u 2 + u 5))) := by
  unfold mtMatrix
  obtain ⟨A, B, C, D⟩ := mtCoeffs ty e
  simp only [work, dotProduct, mulVec, Fin.sum_univ_six, Matrix.smul_apply, smul_eq_mul, mtPattern]
  simp [h, h2, h5]
  ring

/-- The correction that the overwritten area brings into the moment of the rotational springs of a Timoshenko
element: `12 (I/(A L²) - I/(A' L²)) / (1 + φ)²`, with `A'` the first coefficient of the matrix. -/
noncomputable def mtExcess (e : Elem ℝ) : ℝ :=
  12 * (e.I / (e.A * e.L ^ 2) - e.I / ((mtCoeffs .timoshenko e).1 * e.L ^ 2)) / (phi .timoshenko e + 1) ^ 2

/-- The factor of an element. -/
noncomputable def mtFactor (ty : ElementType) (e : Elem ℝ) : ℝ :=
  match ty with
  | .eulerBernoulli => 1
  | .timoshenko => 1 + mtExcess e

theorem timoshenko_coeff (e : Elem ℝ) (he : GoodElem e) (hnu : -(3 / 4) ≤ e.nu) : 0 < (mtCoeffs .timoshenko e).1 := by
  have hL := he.L; have hE := he.E; have hA := he.A; have hI := he.I
  have hw : 0 ≤ mtOmega e := div_nonneg (phi_nonneg .timoshenko e he (fun _ => hnu)) (by norm_num)
  have hom : e.E * e.I * kappa .timoshenko e / (e.A * shearMod e * e.L ^ 2) = mtOmega e := by
    unfold mtOmega phi; ring
  simp only [mtCoeffs, hom]
  positivity

theorem mtFactor_coeffs (ty : ElementType) (e : Elem ℝ) (he : GoodElem e) (hnu : ty = .timoshenko → -(3 / 4) ≤ e.nu) :
    (mtCoeffs ty e).1 * e.L - 2 * (mtCoeffs ty e).2.1 = mtFactor ty e ∧
    (mtCoeffs ty e).2.2.1 + (mtCoeffs ty e).2.2.2 - (mtCoeffs ty e).2.1 * e.L = 0 := by
  have hL := he.L; have hE := he.E; have hA := he.A; have hI := he.I
  cases ty
  · simp only [mtCoeffs, mtFactor]
    constructor
    · field_simp; norm_num
    · field_simp; ring
  · have hw : 0 ≤ mtOmega e := div_nonneg (phi_nonneg .timoshenko e he hnu) (by norm_num)
    have hphi : phi .timoshenko e = 12 * mtOmega e := by unfold mtOmega; ring
    have hom : e.E * e.I * kappa .timoshenko e / (e.A * shearMod e * e.L ^ 2) = mtOmega e := by
      unfold mtOmega phi; ring
    have hpos := timoshenko_coeff e he (hnu rfl)
    simp only [mtFactor, mtExcess, hphi]
    simp only [mtCoeffs, hom] at hpos ⊢
    generalize mtOmega e = w at *
    have hA2 : 6 * (120 * w ^ 2 + 20 * w + 1) / (5 * e.L * (12 * w + 1) ^ 2)
        + 12 * e.I / (e.A * e.L ^ 3 * (12 * w + 1) ^ 2)
        = 1 / e.L * (1 + 1 / (5 * (12 * w + 1) ^ 2) + 12 * (e.I / (e.A * e.L ^ 2)) / (12 * w + 1) ^ 2) := by
      have : (12 * w + 1) ≠ 0 := by positivity
      field_simp
      ring
    generalize hX : 6 * (120 * w ^ 2 + 20 * w + 1) / (5 * e.L * (12 * w + 1) ^ 2)
      + 12 * e.I / (e.A * e.L ^ 3 * (12 * w + 1) ^ 2) = X at *
    have hw1 : (12 * w + 1) ≠ 0 := by positivity
    constructor
    · have : X * e.L = 1 + 1 / (5 * (12 * w + 1) ^ 2) + 12 * (e.I / (e.A * e.L ^ 2)) / (12 * w + 1) ^ 2 := by
        rw [hA2]; field_simp
      rw [this]
      field_simp
      ring
    · field_simp
      ring

/-- **C59, moment, both types of elements.** In a converged analysis of a pile without lateral and rotational supports
the moments of loads, lateral springs, rotational springs, base shear and base moment about any depth `x0` balance up to
the reported error times the length of the vector of lever arms, if the moment of the rotational springs along an element
(mean stiffness times mean slope times length) is multiplied by `mtFactor`: one for Euler-Bernoulli elements, different
from one for Timoshenko elements (`C59_violated_factor`). -/
theorem C59_moment_factor_partial (ty : ElementType) (el : Fin n → Elem ℝ) (hel : ∀ i, GoodElem (el i))
    (hnu : ∀ i, ty = .timoshenko → -(3 / 4) ≤ (el i).nu) (sp : Springs ℝ n)
    (F U : Fin (3 * n + 3) → ℝ) (fix : Fin (3 * n + 3) → Bool)
    (maxIter : ℕ) (d Q : Fin (3 * n + 3) → ℝ) (it : ℕ) (tolSq resSq : ℝ)
    (h : winkler (buildStiffness ty el sp) F U fix maxIter = .converged d Q it tolSq resSq)
    (hf1 : FreeIn fix U 1) (hf2 : FreeIn fix U 2) :
    resSq < tolSq ∧ ∃ s hh m q, SecantSprings sp d s hh m q ∧ ∀ x0 : ℝ,
      (∑ j : Fin (n + 1), (F (dof j 2) + (nodeDepth (fun i => (el i).L) j - x0) * F (dof j 1))
        - (∑ i, ((∫ x in (0 : ℝ)..(el i).L, (nodeDepth (fun i => (el i).L) i.castSucc + x - x0)
              * deflection el d i x * linearStiffness (el i).L (s i).py.1 (s i).py.2 x)
            + mtFactor ty (el i) * (((s i).mt.1 + (s i).mt.2) / 2 * (d (dof i.succ 1) - d (dof i.castSucc 1))))
          + (hh * (nodeDepth (fun i => (el i).L) (Fin.last n) - x0) * d (dof (Fin.last n) 1)
            + m * d (dof (Fin.last n) 2)))) ^ 2
        ≤ (∑ j : Fin (n + 1), ((nodeDepth (fun i => (el i).L) j - x0) ^ 2 + 1)) * resSq := by
  have hL : ∀ i, (el i).L ≠ 0 := fun i => (hel i).L.ne'
  have hp : ∀ i, 1 + phi ty (el i) ≠ 0 := fun i => by
    have := phi_nonneg ty (el i) (hel i) (hnu i)
    positivity
  obtain ⟨hlt, s, hh, m, q, hs, hb⟩ := balance ty el hL hp sp F U fix maxIter d Q it tolSq resSq h
  refine ⟨hlt, s, hh, m, q, hs, fun x0 => ?_⟩
  have := hb 0 0 1 x0 (fun j => ⟨fun _ => rfl, fun hj => by
    rw [(hf1 j).1, (hf1 j).2] at hj; simp at hj, fun hj => by rw [(hf2 j).1, (hf2 j).2] at hj; simp at hj⟩)
  have hmt : ∀ i, work (mtMatrix ty (el i) (s i).mt.1 (s i).mt.2)
      (stacked (rigidVec (fun i => (el i).L) 0 0 1 x0) i) (stacked d i)
        = mtFactor ty (el i) * (((s i).mt.1 + (s i).mt.2) / 2 * (d (dof i.succ 1) - d (dof i.castSucc 1))) := by
    intro i
    obtain ⟨-, t1, t2, -, t4, t5⟩ := stacked_top (rigidVec (fun i => (el i).L) (0 : ℝ) 0 1 x0) i
    obtain ⟨-, e1, e2⟩ := rigidVec_dof (fun i => (el i).L) (0 : ℝ) 0 1 x0 i.castSucc
    obtain ⟨-, e4, e5⟩ := rigidVec_dof (fun i => (el i).L) (0 : ℝ) 0 1 x0 i.succ
    obtain ⟨-, d1, -, -, d4, -⟩ := stacked_top d i
    obtain ⟨f1, f2⟩ := mtFactor_coeffs ty (el i) (hel i) (hnu i)
    rw [mt_rotation_any ty (el i) _ _ 1 _ _ (by rw [t1, t4, e1, e4, nodeDepth_succ]; ring) (by rw [t2, e2])
      (by rw [t5, e5]), f1, f2, d1, d4]
    ring
  simp only [hmt] at this
  have e1 : ∀ j : Fin (n + 1), (0 : ℝ) * F (dof j 0) + (0 + (nodeDepth (fun i => (el i).L) j - x0) * 1) * F (dof j 1)
      + 1 * F (dof j 2) = F (dof j 2) + (nodeDepth (fun i => (el i).L) j - x0) * F (dof j 1) := by
    intro j; ring
  have e2 : ∀ j : Fin (n + 1), (0 : ℝ) ^ 2 + (0 + (nodeDepth (fun i => (el i).L) j - x0) * 1) ^ 2 + 1 ^ 2
      = (nodeDepth (fun i => (el i).L) j - x0) ^ 2 + 1 := by
    intro j; ring
  simp only [e1, e2] at this
  simpa using this

/-- **C59 is violated for rotational springs along Timoshenko elements.** The factor on their moment is one only if the
area of the section in square metres happens to equal the first coefficient of the matrix (a number per metre); the springs
carry more than they resist if the area is smaller and less if it is larger. -/
theorem C59_violated_factor (e : Elem ℝ) (he : GoodElem e) (hnu : -(3 / 4) ≤ e.nu) :
    (mtFactor .timoshenko e = 1 ↔ e.A = (mtCoeffs .timoshenko e).1) ∧
    (e.A < (mtCoeffs .timoshenko e).1 → 1 < mtFactor .timoshenko e) ∧
    ((mtCoeffs .timoshenko e).1 < e.A → mtFactor .timoshenko e < 1) := by
  have hL := he.L; have hA := he.A; have hI := he.I
  have hX := timoshenko_coeff e he hnu
  have hphi := phi_nonneg .timoshenko e he (fun _ => hnu)
  generalize hXX : (mtCoeffs .timoshenko e).1 = X at *
  have key : mtFactor .timoshenko e - 1
      = (X - e.A) * (12 * e.I / (e.A * X * e.L ^ 2 * (phi .timoshenko e + 1) ^ 2)) := by
    simp only [mtFactor, mtExcess, hXX]
    have : phi .timoshenko e + 1 ≠ 0 := by positivity
    field_simp
    ring
  have hpos : 0 < 12 * e.I / (e.A * X * e.L ^ 2 * (phi .timoshenko e + 1) ^ 2) := by positivity
  refine ⟨⟨fun h => ?_, fun h => ?_⟩, fun h => ?_, fun h => ?_⟩
  · rw [h, sub_self] at key
    rcases mul_eq_zero.1 key.symm with h1 | h1
    · linarith
    · exact absurd h1 hpos.ne'
  · rw [h, sub_self, zero_mul] at key
    linarith
  · nlinarith [mul_pos (sub_pos.2 h) hpos]
  · nlinarith [mul_pos (sub_pos.2 h) hpos]

theorem coeff_above (e : Elem ℝ) (he : GoodElem e) (hnu : -(3 / 4) ≤ e.nu) :
    1 / e.L < (mtCoeffs .timoshenko e).1 := by
  have hL := he.L; have hE := he.E; have hA := he.A; have hI := he.I
  have hw : 0 ≤ mtOmega e := div_nonneg (phi_nonneg .timoshenko e he (fun _ => hnu)) (by norm_num)
  have hom : e.E * e.I * kappa .timoshenko e / (e.A * shearMod e * e.L ^ 2) = mtOmega e := by
    unfold mtOmega phi; ring
  simp only [mtCoeffs, hom]
  generalize mtOmega e = w at *
  have hA2 : 6 * (120 * w ^ 2 + 20 * w + 1) / (5 * e.L * (12 * w + 1) ^ 2)
      + 12 * e.I / (e.A * e.L ^ 3 * (12 * w + 1) ^ 2)
      = 1 / e.L + (1 / (5 * e.L * (12 * w + 1) ^ 2) + 12 * (e.I / (e.A * e.L ^ 3)) / (12 * w + 1) ^ 2) := by
    have : (12 * w + 1) ≠ 0 := by positivity
    field_simp
    ring
  rw [hA2]
  have : 0 < 1 / (5 * e.L * (12 * w + 1) ^ 2) + 12 * (e.I / (e.A * e.L ^ 3)) / (12 * w + 1) ^ 2 := by positivity
  linarith

/-- A tube of 2 m with a wall of 50 mm in elements of 1 m: the springs carry more than they resist. -/
example : ∃ e : Elem ℝ, e = ⟨1, 210000000, Pile.Section.area Real.pi ⟨0, -5, 2, 1 / 20⟩,
      Pile.Section.inertia Real.pi ⟨0, -5, 2, 1 / 20⟩, 2, 1 / 20, 3 / 10⟩ ∧
    GoodElem e ∧ 1 < mtFactor .timoshenko e := by
  have h3 := Real.two_le_pi
  have h4 := Real.pi_le_four
  refine ⟨_, rfl, ?_, ?_⟩
  · constructor <;> norm_num [Pile.Section.area, Pile.Section.inertia] <;> linarith
  · have hg : GoodElem (⟨1, 210000000, Pile.Section.area Real.pi ⟨0, -5, 2, 1 / 20⟩,
        Pile.Section.inertia Real.pi ⟨0, -5, 2, 1 / 20⟩, 2, 1 / 20, 3 / 10⟩ : Elem ℝ) := by
      constructor <;> norm_num [Pile.Section.area, Pile.Section.inertia] <;> linarith
    refine (C59_violated_factor _ hg (by norm_num)).2.1 (lt_trans ?_ (coeff_above _ hg (by norm_num)))
    norm_num [Pile.Section.area]
    linarith

/-! ### piles with supports -/

/-- Work of the soil springs on a rigid motion, for any displacements `u`. -/
theorem rigid_work (ty : ElementType) (el : Fin n → Elem ℝ) (hL : ∀ i, (el i).L ≠ 0)
    (hp : ∀ i, 1 + phi ty (el i) ≠ 0) (s : Fin n → SoilK ℝ) (hh m q : ℝ) (u : Fin (3 * n + 3) → ℝ) (a b θ x0 : ℝ) :
    work (soilStiffness ty n el s hh m q) (rigidVec (fun i => (el i).L) a b θ x0) u
      = ∑ i, ((∫ x in (0 : ℝ)..(el i).L, (b + (nodeDepth (fun i => (el i).L) i.castSucc + x - x0) * θ)
              * deflection el u i x * linearStiffness (el i).L (s i).py.1 (s i).py.2 x)
            + (∫ x in (0 : ℝ)..(el i).L, a * settlement el u i x
              * linearStiffness (el i).L (s i).tz.1 (s i).tz.2 x)
            + work (mtMatrix ty (el i) (s i).mt.1 (s i).mt.2)
                (stacked (rigidVec (fun i => (el i).L) a b θ x0) i) (stacked u i))
          + (q * a * u (dof (Fin.last n) 0)
            + hh * (b + (nodeDepth (fun i => (el i).L) (Fin.last n) - x0) * θ) * u (dof (Fin.last n) 1)
            + m * θ * u (dof (Fin.last n) 2)) := by
  have hr := rigidVec_rigid (fun i => (el i).L) a b θ x0
  rw [stiffness_rigid ty el hL hp s hh m q _ u hr]
  obtain ⟨e0, e1, e2⟩ := rigidVec_dof (fun i => (el i).L) a b θ x0 (Fin.last n)
  rw [e0, e1, e2]
  have hi : ∀ i x, hermite (el i).L (stacked (rigidVec (fun i => (el i).L) a b θ x0) i) x
      = b + (nodeDepth (fun i => (el i).L) i.castSucc + x - x0) * θ ∧
      axialField (el i).L (stacked (rigidVec (fun i => (el i).L) a b θ x0) i) x = a := by
    intro i x
    obtain ⟨g1, g2⟩ := hermite_rigid _ _ ((rigid_iff _ _).1 hr i) (hL i) x
    obtain ⟨t0, t1, t2, -, -, -⟩ := stacked_top (rigidVec (fun i => (el i).L) a b θ x0) i
    obtain ⟨e0, e1, e2⟩ := rigidVec_dof (fun i => (el i).L) a b θ x0 i.castSucc
    rw [g1, g2, t0, t1, t2, e0, e1, e2]
    exact ⟨by ring, rfl⟩
  simp only [hi]
  rfl

/-- Work of the rotational springs on a rotation, and on a translation. -/
theorem mt_rigidVec (ty : ElementType) (el : Fin n → Elem ℝ) (i : Fin n) (k1 k2 : ℝ) (u : Fin (3 * n + 3) → ℝ) (x0 : ℝ)
    (he : GoodElem (el i)) (hnu : ty = .timoshenko → -(3 / 4) ≤ (el i).nu) :
    work (mtMatrix ty (el i) k1 k2) (stacked (rigidVec (fun i => (el i).L) 0 0 1 x0) i) (stacked u i)
      = mtFactor ty (el i) * ((k1 + k2) / 2 * (u (dof i.succ 1) - u (dof i.castSucc 1))) := by
  obtain ⟨-, t1, t2, -, t4, t5⟩ := stacked_top (rigidVec (fun i => (el i).L) (0 : ℝ) 0 1 x0) i
  obtain ⟨-, e1, e2⟩ := rigidVec_dof (fun i => (el i).L) (0 : ℝ) 0 1 x0 i.castSucc
  obtain ⟨-, e4, e5⟩ := rigidVec_dof (fun i => (el i).L) (0 : ℝ) 0 1 x0 i.succ
  obtain ⟨-, d1, -, -, d4, -⟩ := stacked_top u i
  obtain ⟨f1, f2⟩ := mtFactor_coeffs ty (el i) he hnu
  rw [mt_rotation_any ty (el i) _ _ 1 _ _ (by rw [t1, t4, e1, e4, nodeDepth_succ]; ring) (by rw [t2, e2])
    (by rw [t5, e5]), f1, f2, d1, d4]
  ring

theorem mt_rigidVec_zero (ty : ElementType) (el : Fin n → Elem ℝ) (i : Fin n) (k1 k2 a b : ℝ) (u : Fin (3 * n + 3) → ℝ) :
    work (mtMatrix ty (el i) k1 k2) (stacked (rigidVec (fun i => (el i).L) a b 0 0) i) (stacked u i) = 0 := by
  obtain ⟨-, t1, t2, -, t4, t5⟩ := stacked_top (rigidVec (fun i => (el i).L) a b 0 0) i
  obtain ⟨-, e1, e2⟩ := rigidVec_dof (fun i => (el i).L) a b 0 0 i.castSucc
  obtain ⟨-, e4, e5⟩ := rigidVec_dof (fun i => (el i).L) a b 0 0 i.succ
  apply mt_translation
  · rw [t1, t4, e1, e4]; ring
  · rw [t2, e2]
  · rw [t5, e5]

/-- What the result of a converged analysis says about its reactions. -/
theorem converged_reactions {ι : Type} [Fintype ι] [DecidableEq ι] (build : Kind → (ι → ℝ) → Option (Matrix ι ι ℝ))
    (F U0 : ι → ℝ) (fix : ι → Bool) (maxIter : ℕ) (d Q : ι → ℝ) (it : ℕ) (tolSq resSq : ℝ)
    (h : winkler build F U0 fix maxIter = .converged d Q it tolSq resSq) :
    ∃ Ks d', build .secant d = some Ks ∧
      (resSq = ∑ i, if fix i = true ∨ U0 i ≠ 0 then 0 else (F i - (Ks *ᵥ d) i) ^ 2) ∧
      (∀ i, fix i = true ∨ U0 i ≠ 0 → d' i = d i) ∧
      (∀ i, ¬ (fix i = true ∨ U0 i ≠ 0) → (Ks *ᵥ d') i = F i ∧ Q i = 0) ∧ (∀ i, F i + Q i = (Ks *ᵥ d') i) ∧
      (∀ u' : ι → ℝ, (∀ i, ¬ (fix i = true ∨ U0 i ≠ 0) → (Ks *ᵥ u') i = F i) →
        (∀ i, fix i = true ∨ U0 i ≠ 0 → u' i = U0 i) → u' = d') ∧ (∀ i, fix i = true ∨ U0 i ≠ 0 → d i = U0 i) := by
  unfold winkler at h
  rcases hb : build .initial 0 with _ | A
  · simp [hb] at h
  · simp only [hb] at h
    obtain ⟨-, -, -, e⟩ := loop_converged build F U0 _ (maxIter + 1) 0 0 A U0 F 0 0 0 d Q it tolSq
      resSq (fun i _ => by simp) (by omega) h
    obtain ⟨Ks, k1, k2, -, d', hd'⟩ := e.residual
    obtain ⟨g1, g2, g3, g4⟩ := C15_solution Ks F U0 _ d' Q hd'
    have hsup : ∀ i, (fix i || decide (U0 i ≠ 0)) = true ↔ (fix i = true ∨ U0 i ≠ 0) := by intro i; simp
    have hsup' : ∀ i, (fix i || decide (U0 i ≠ 0)) = false ↔ ¬ (fix i = true ∨ U0 i ≠ 0) := by
      intro i; rw [← hsup, Bool.not_eq_true]
    have hp : ∀ i, fix i = true ∨ U0 i ≠ 0 → d i = U0 i := fun i hi => e.prescribed i ((hsup i).2 hi)
    refine ⟨Ks, d', k1, ?_, ?_, ?_, g3, ?_, hp⟩
    · rw [k2]
      refine Finset.sum_congr rfl (fun i _ => ?_)
      by_cases hi : fix i = true ∨ U0 i ≠ 0
      · rw [if_pos hi, if_pos ((hsup i).2 hi)]
      · rw [if_neg hi, (hsup' i).2 hi]; simp
    · intro i hi
      rw [g2 i ((hsup i).2 hi), hp i hi]
    · intro i hi
      exact g1 i ((hsup' i).2 hi)
    · intro u' a b
      exact g4 u' (fun i hi => a i ((hsup' i).1 hi)) (fun i hi => b i ((hsup i).1 hi))

/-- **C59 with supports (partial).** In a converged analysis of a pile with any supports and prescribed displacements, loads
and reported reactions together balance the springs exactly, in both directions and in moment about any depth: the
springs have the secant stiffness of the reported displacements `d`, but act on the displacements `d'` of a last linear
solve, which the result does not contain.  `d'` differs from `d` by the displacements that the out-of-balance
forces of the reported state cause in the linear system, and coincides with it if there are none.
Missing: the balance at the reported displacements `d` itself. -/
theorem C59_supports_partial (ty : ElementType) (el : Fin n → Elem ℝ) (hL : ∀ i, (el i).L ≠ 0)
    (hp : ∀ i, 1 + phi ty (el i) ≠ 0) (sp : Springs ℝ n) (F U : Fin (3 * n + 3) → ℝ) (fix : Fin (3 * n + 3) → Bool)
    (maxIter : ℕ) (d Q : Fin (3 * n + 3) → ℝ) (it : ℕ) (tolSq resSq : ℝ)
    (h : winkler (buildStiffness ty el sp) F U fix maxIter = .converged d Q it tolSq resSq) :
    ∃ s hh m q, SecantSprings sp d s hh m q ∧ ∃ d' : Fin (3 * n + 3) → ℝ,
      (∀ i, fix i = true ∨ U i ≠ 0 → d' i = d i) ∧ (∀ i, ¬ (fix i = true ∨ U i ≠ 0) → Q i = 0) ∧
      (resSq = 0 → d' = d) ∧
      (∀ i, ¬ (fix i = true ∨ U i ≠ 0) → (soilStiffness ty n el s hh m q *ᵥ (d' - d)) i
        = F i - (soilStiffness ty n el s hh m q *ᵥ d) i) ∧
      ∑ j : Fin (n + 1), (F (dof j 0) + Q (dof j 0))
        = ∑ i, (∫ x in (0 : ℝ)..(el i).L, linearStiffness (el i).L (s i).tz.1 (s i).tz.2 x * settlement el d' i x)
          + q * d' (dof (Fin.last n) 0) ∧
      ∑ j : Fin (n + 1), (F (dof j 1) + Q (dof j 1))
        = ∑ i, (∫ x in (0 : ℝ)..(el i).L, linearStiffness (el i).L (s i).py.1 (s i).py.2 x * deflection el d' i x)
          + hh * d' (dof (Fin.last n) 1) ∧
      ∀ x0 : ℝ, (∀ i, GoodElem (el i)) → (∀ i, ty = .timoshenko → -(3 / 4) ≤ (el i).nu) →
        ∑ j : Fin (n + 1), (F (dof j 2) + Q (dof j 2)
            + (nodeDepth (fun i => (el i).L) j - x0) * (F (dof j 1) + Q (dof j 1)))
          = ∑ i, ((∫ x in (0 : ℝ)..(el i).L, (nodeDepth (fun i => (el i).L) i.castSucc + x - x0)
                * deflection el d' i x * linearStiffness (el i).L (s i).py.1 (s i).py.2 x)
              + mtFactor ty (el i) * (((s i).mt.1 + (s i).mt.2) / 2 * (d' (dof i.succ 1) - d' (dof i.castSucc 1))))
            + (hh * (nodeDepth (fun i => (el i).L) (Fin.last n) - x0) * d' (dof (Fin.last n) 1)
              + m * d' (dof (Fin.last n) 2)) := by
  obtain ⟨Ks, d', hK, hr, g1, g2, g3, g4, g5⟩ := converged_reactions _ F U fix maxIter d Q it tolSq resSq h
  obtain ⟨s, hh, m, q, hd, h1, h2, h3, rfl⟩ := build_parts ty el sp .secant d Ks hK
  have hw : ∀ a b θ x0 : ℝ, ∑ j : Fin (n + 1), (a * (F (dof j 0) + Q (dof j 0))
      + (b + (nodeDepth (fun i => (el i).L) j - x0) * θ) * (F (dof j 1) + Q (dof j 1)) + θ * (F (dof j 2) + Q (dof j 2)))
      = work (soilStiffness ty n el s hh m q) (rigidVec (fun i => (el i).L) a b θ x0) d' := by
    intro a b θ x0
    rw [← sum_rigid_mul (fun i => (el i).L) a b θ x0 (fun i => F i + Q i)]
    unfold work dotProduct
    exact Finset.sum_congr rfl (fun i _ => by rw [g3])
  refine ⟨s, hh, m, q, ⟨hd, h1, h2, h3⟩, d', g1, fun i hi => (g2 i hi).2, fun h0 => ?_, fun i hi => ?_, ?_, ?_, ?_⟩
  · refine (g4 d (fun i hi => ?_) g5).symm
    rw [h0] at hr
    have := (Finset.sum_eq_zero_iff_of_nonneg (fun i _ => by split <;> positivity)).1 hr.symm i (Finset.mem_univ _)
    rw [if_neg hi] at this
    have := pow_eq_zero_iff (two_ne_zero) |>.1 this
    linarith
  · rw [mulVec_sub, Pi.sub_apply, (g2 i hi).1]
  · have := hw 1 0 0 0
    rw [rigid_work ty el hL hp] at this
    simp only [mt_rigidVec_zero] at this
    simpa [mul_comm] using this
  · have := hw 0 1 0 0
    rw [rigid_work ty el hL hp] at this
    simp only [mt_rigidVec_zero] at this
    simpa [mul_comm] using this
  · intro x0 he hnu
    have := hw 0 0 1 x0
    rw [rigid_work ty el hL hp] at this
    simp only [fun i => mt_rigidVec ty el i (s i).mt.1 (s i).mt.2 d' x0 (he i) (hnu i)] at this
    have e1 : ∀ j : Fin (n + 1), (0 : ℝ) * (F (dof j 0) + Q (dof j 0))
        + (0 + (nodeDepth (fun i => (el i).L) j - x0) * 1) * (F (dof j 1) + Q (dof j 1))
        + 1 * (F (dof j 2) + Q (dof j 2)) = F (dof j 2) + Q (dof j 2)
            + (nodeDepth (fun i => (el i).L) j - x0) * (F (dof j 1) + Q (dof j 1)) := by
      intro j; ring
    simp only [e1] at this
    rw [this]
    simp

/-- The pile of `C74_violated_pull`, with every displacement prescribed, meets the hypotheses. -/
example : ∃ d Q it t r, winkler (buildStiffness .eulerBernoulli Ultimate.elP Ultimate.spP) 0 (Ultimate.pull 2)
      (fun _ => true) 100 = .converged d Q it t r ∧ (∀ i, (Ultimate.elP i).L ≠ 0) ∧
    ∀ i, 1 + phi .eulerBernoulli (Ultimate.elP i) ≠ 0 := by
  obtain ⟨d, Q, it, t, r, h, -⟩ := Ultimate.C74_violated_pull 2 (by norm_num)
  refine ⟨d, Q, it, t, r, h, fun i => by simp [Ultimate.elP], fun i => by simp [phi, kappa]⟩

end OpenPile.Props.Balance
