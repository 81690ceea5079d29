/-
Property C72 at the level of `Model.solve()`.
-/
import Verif.Props.HeldSoil

namespace OpenPile.Props.Held
open OpenPile.Kernel OpenPile.Winkler OpenPile.Spring OpenPile.Spec.Kernel OpenPile.Props.SoilStiffness
open OpenPile.Props.Winkler OpenPile.Props.Beam OpenPile.Props.Element OpenPile.Props.Solve Matrix
open OpenPile.SoilAnalysis OpenPile.Analysis OpenPile.BC OpenPile.Mesh OpenPile.Assemble OpenPile.Props.Analysis
open OpenPile.Props.NoModels

section
variable {K : Type} [Field K] [LinearOrder K] [IsStrictOrderedRing K] {n : ℕ}

omit [LinearOrder K] [IsStrictOrderedRing K] in
/-- A parallel displacement of an element strains neither the element nor its rotational springs. -/
theorem translation_elem (ty : ElementType) (e : Elem K) (s : SoilK K) (a b : K)
    (ha : a = 0 ∨ s.tz = (0, 0)) (hb : b = 0 ∨ s.py = (0, 0)) (v : Fin 6 → K) :
    work (elemMatrix ty e s) v ![a, b, 0, a, b, 0] = 0 := by
  have e1 : work (mechMatrix ty e) v ![a, b, 0, a, b, 0] = 0 := by
    simp only [work, dotProduct, mulVec, Fin.sum_univ_six, mechMatrix, beamMatrix]
    simp
  have e2 : work (mtMatrix ty e s.mt.1 s.mt.2) v ![a, b, 0, a, b, 0] = 0 := by
    unfold mtMatrix
    obtain ⟨A, B, C, D⟩ := mtCoeffs ty e
    simp only [work, dotProduct, mulVec, Fin.sum_univ_six, Matrix.smul_apply, smul_eq_mul, mtPattern]
    simp
  have e3 : work (tzMatrix e.L s.tz.1 s.tz.2) v ![a, b, 0, a, b, 0] = 0 := by
    rcases ha with rfl | h
    · simp only [work, dotProduct, mulVec, Fin.sum_univ_six, tzMatrix, Matrix.smul_apply, Matrix.add_apply, smul_eq_mul]
      simp
    · rw [h]
      simp [work, tzMatrix]
  have e4 : work (pyMatrix e.L s.py.1 s.py.2) v ![a, b, 0, a, b, 0] = 0 := by
    rcases hb with rfl | h
    · simp only [work, dotProduct, mulVec, Fin.sum_univ_six, pyMatrix, Matrix.smul_apply, Matrix.add_apply, smul_eq_mul]
      simp
    · rw [h]
      simp [work, pyMatrix]
  unfold elemMatrix
  rw [work_add, work_add, work_add, e1, e2, e3, e4]
  ring

omit [LinearOrder K] [IsStrictOrderedRing K] in
/-- Without springs in a direction the stiffness matrix does not resist a parallel displacement in it. -/
theorem translation_free (ty : ElementType) (el : Fin n → Elem K) (s : Fin n → SoilK K) (h m q a b : K)
    (ha : a = 0 ∨ (q = 0 ∧ ∀ i, (s i).tz = (0, 0))) (hb : b = 0 ∨ (h = 0 ∧ ∀ i, (s i).py = (0, 0))) :
    soilStiffness ty n el s h m q *ᵥ rigidVec (fun i => (el i).L) a b 0 0 = 0 := by
  have key : ∀ v, work (soilStiffness ty n el s h m q) v (rigidVec (fun i => (el i).L) a b 0 0) = 0 := by
    intro v
    have R := rigidVec_dof (fun i => (el i).L) a b 0 0
    unfold soilStiffness
    rw [work_add, assemble_work, base_work, (R _).1, (R _).2.1, (R _).2.2, Finset.sum_eq_zero]
    · have h1 : q * a = 0 := by rcases ha with rfl | ⟨rfl, -⟩ <;> ring
      have h2 : h * b = 0 := by rcases hb with rfl | ⟨rfl, -⟩ <;> ring
      linear_combination v (dof (Fin.last n) 0) * h1 + v (dof (Fin.last n) 1) * h2
    · intro i _
      have e : stacked (rigidVec (fun i => (el i).L) a b 0 0) i = ![a, b, 0, a, b, 0] := by
        obtain ⟨s0, s1, s2, s3, s4, s5⟩ := stacked_top (rigidVec (fun i => (el i).L) a b 0 0) i
        funext c
        fin_cases c
        · exact s0.trans (R _).1
        · exact s1.trans ((R _).2.1.trans (by simp))
        · exact s2.trans (R _).2.2
        · exact s3.trans (R _).1
        · exact s4.trans ((R _).2.1.trans (by simp))
        · exact s5.trans (R _).2.2
      rw [e]
      exact translation_elem ty (el i) (s i) a b (ha.imp_right (fun h => h.2 i)) (hb.imp_right (fun h => h.2 i)) _
  funext r
  have := key (Pi.single r 1)
  unfold work at this
  rw [single_dotProduct, one_mul] at this
  exact this

/-- **C72, nothing holds the pile in a direction.** If in the axial (lateral) direction all springs are switched
off and no node is held, the analysis never returns numbers, whatever the loads, the soil, the other springs and the
number of passes. -/
theorem C72_unheld (ty : ElementType) (el : Fin n → Elem K) (sp : Springs K n) (F U : Fin (3 * n + 3) → K)
    (fix : Fin (3 * n + 3) → Bool) (maxIter : ℕ)
    (h : (sp.distributedAxial = false ∧ sp.baseAxial = false ∧ ∀ j : Fin (n + 1), fix (dof j 0) = false ∧ U (dof j 0) = 0) ∨
      (sp.distributedLateral = false ∧ sp.baseShear = false ∧ ∀ j : Fin (n + 1), fix (dof j 1) = false ∧ U (dof j 1) = 0)) :
    winkler (buildStiffness ty el sp) F U fix maxIter = .nan 0 ∨
      (buildStiffness ty el sp .initial 0 = none ∧ winkler (buildStiffness ty el sp) F U fix maxIter = .raised) := by
  cases hA : buildStiffness ty el sp .initial 0 with
  | none =>
    right
    refine ⟨rfl, ?_⟩
    unfold winkler
    rw [hA]
  | some A =>
    left
    rw [first_pass _ A hA F U fix maxIter, C15_fails_iff]
    obtain ⟨s, hh, m, q, hd, h1, h2, h3, rfl⟩ := build_parts ty el sp .initial 0 A hA
    rcases h with ⟨w1, w2, hf⟩ | ⟨w1, w2, hf⟩
    · have R := rigidVec_dof (fun i => (el i).L) (1 : K) 0 0 0
      refine ⟨rigidVec (fun i => (el i).L) 1 0 0 0, ?_, ?_, ?_⟩
      · intro e
        have := (R 0).1
        rw [e] at this
        exact zero_ne_one this
      · intro r hr
        obtain ⟨j, d, rfl⟩ := dof_surjective r
        fin_cases d
        · have hr' : (fix (dof j 0) || decide (U (dof j 0) ≠ 0)) = true := hr
          rw [(hf j).1, (hf j).2] at hr'
          simp at hr'
        · exact (R j).2.1.trans (by simp)
        · exact (R j).2.2
      · intro r _
        rw [translation_free ty el s hh m q 1 0 (Or.inr ⟨?_, fun i => ?_⟩) (Or.inl rfl)]
        · rfl
        · simpa [w2] using h3.symm
        · exact Prod.ext ((hd i).noAxial false w1) ((hd i).noAxial true w1)
    · have R := rigidVec_dof (fun i => (el i).L) (0 : K) 1 0 0
      refine ⟨rigidVec (fun i => (el i).L) 0 1 0 0, ?_, ?_, ?_⟩
      · intro e
        have := (R 0).2.1
        rw [e] at this
        simp at this
      · intro r hr
        obtain ⟨j, d, rfl⟩ := dof_surjective r
        fin_cases d
        · exact (R j).1
        · have hr' : (fix (dof j 1) || decide (U (dof j 1) ≠ 0)) = true := hr
          rw [(hf j).1, (hf j).2] at hr'
          simp at hr'
        · exact (R j).2.2
      · intro r _
        rw [translation_free ty el s hh m q 0 1 (Or.inl rfl) (Or.inr ⟨?_, fun i => ?_⟩)]
        · rfl
        · simpa [w2] using h1.symm
        · exact Prod.ext ((hd i).noLateral false w1) ((hd i).noLateral true w1)

end

/-- The three calls reading boundary conditions succeed only if none is rejected. -/
theorem valid_of_ok {nodes : List ℝ} {bcs : List (Cond ℝ)} {gF : Nodal ℤ} {gU : Nodal ℝ} {gR : Nodal Bool}
    (h1 : globalForces nodes bcs = .ok gF) (h2 : globalDisp nodes bcs = .ok gU)
    (h3 : globalRestrained nodes bcs = .ok gR) : ∀ cls, validateBc bcs cls = .ok () := by
  intro cls
  have key : ∀ cls, (∃ f, validateBc bcs cls = .error f) ∨ validateBc bcs cls = .ok () := by
    intro cls
    cases h : validateBc bcs cls with
    | error f => exact Or.inl ⟨f, rfl⟩
    | ok u => exact Or.inr rfl
  unfold globalForces at h1
  unfold globalDisp at h2
  unfold globalRestrained at h3
  rcases key cls with ⟨f, hf⟩ | hf
  · exfalso
    cases cls
    · rw [hf] at h3; cases h3
    · rw [hf] at h2; cases h2
    · rw [hf] at h1; cases h1
  · exact hf

/-- **C72, `Model.solve()`.** For an accepted model with soil: if the axial (lateral) springs are switched off and no
node is held axially (laterally) by a fixation or a prescribed displacement, `solve()` never returns numbers: it raises
or fills the result with NaN. -/
theorem C72_solve_unheld (ty : ElementType) {p : Pile.Pile ℝ} {sp : SoilProfile} {x2mesh : List ℝ} {c top tip : ℝ}
    (h : Weight.Setup p sp.geometry x2mesh c top tip) (w : Switches) (table : List (ℝ × Pile.Section ℝ)) (env : Draws)
    (bcs : List (Cond ℝ)) (C : Coordinates ℝ) (hC : getCoordinates p (some sp.geometry) x2mesh c = some C)
    (hno : (w.distributedAxial = false ∧ w.baseAxial = false ∧ ∀ i, ¬ HeldAt C bcs .z i) ∨
      (w.distributedLateral = false ∧ w.baseShear = false ∧ ∀ i, ¬ HeldAt C bcs .y i)) (r : SoilResult)
    (hr : solveSoil ty p sp x2mesh c w table env bcs = some r) : r = .nan := by
  cases r with
  | nan => rfl
  | numbers t =>
    exfalso
    unfold solveSoil at hr
    rw [hC] at hr
    simp only [Option.bind_eq_bind, Option.bind_some, Option.bind_eq_some_iff] at hr
    obtain ⟨A, -, hs⟩ := hr
    obtain ⟨F, U, R, el, d, Q, tolSq, resSq, ⟨gF, hF, hF'⟩, ⟨gU, hU, hU'⟩, ⟨gR, hR, hR'⟩, -, hw, -⟩ :=
      SoilAnalysis.solveSoilOn_numbers (by norm_num) hs
    obtain ⟨C', hC', hm⟩ := meshOn_setup h
    rw [hC] at hC'
    cases hC'
    obtain ⟨z, el', F', U', R', a1, a2, a3, a4, a5, a6, a7, a8, a9, h1, -, ⟨gU2, U0, U1⟩, ⟨gR2, R0, R1⟩, -⟩ :=
      read_eq Real.pi (stack_setup h) hm bcs (valid_of_ok hF hU hR)
    rw [hU] at U0
    cases U0
    rw [hR] at R0
    cases R0
    rw [hU'] at U1
    cases U1
    rw [hR'] at R1
    cases R1
    have free : ∀ (c : Fin 3), (∀ i, ¬ HeldAt C bcs (axisOf c) i) → ∀ j, R (dof j c) = false ∧ U (dof j c) = 0 := by
      intro c hc j
      have := hc j.1
      unfold HeldAt at this
      push Not at this
      rw [h1] at this
      rw [a9, a8]
      exact ⟨by simpa using this.1, this.2⟩
    have := C72_unheld ty el (springsOf w A C.elements.length) F U R 100
      (hno.imp (fun x => ⟨x.1, x.2.1, free 0 x.2.2⟩) (fun x => ⟨x.1, x.2.1, free 1 x.2.2⟩))
    rw [hw] at this
    rcases this with h | ⟨-, h⟩ <;> cases h

/-! ### cases that meet the hypotheses -/

/-- One element with lateral springs along it and a spring under its tip needs no support: the first pass succeeds
whatever the loads. -/
example (F : Fin (3 * 1 + 3) → ℚ) :
    winkler (buildStiffness .eulerBernoulli LinearRange.elD LinearRange.spD) F 0 (fun _ => false) 100 ≠ .nan 0 := by
  have hel : GoodElems .eulerBernoulli (LinearRange.elD (K := ℚ)) := by
    refine fun i => ⟨⟨?_, ?_, ?_, ?_, ?_, ?_, ?_, ?_, ?_⟩, fun h => by cases h⟩ <;> norm_num [LinearRange.elD]
  have := (C72_first_partial .eulerBernoulli LinearRange.elD hel LinearRange.spD (Or.inl rfl) _ LinearRange.initD F 0
    (fun _ => false) 100).not
  refine this.2 (not_not.2 ⟨Or.inr (Or.inr ⟨rfl, ?_, (0, 0), (-1, -10), by decide, by decide, by norm_num⟩),
    Or.inl ⟨0, false, rfl, ?_, (0, 0), (1, 210), [], rfl, by norm_num⟩⟩)
  · norm_num [LinearRange.spD]
  · norm_num [LinearRange.spD]

/-- The same element with the tip spring switched off and no support drops: NaN in the first pass whatever the loads. -/
example (F : Fin (3 * 1 + 3) → ℚ) :
    winkler (buildStiffness .eulerBernoulli LinearRange.elD { LinearRange.spD with baseAxial := false }) F 0
      (fun _ => false) 100 = .nan 0 := by
  rcases C72_unheld .eulerBernoulli LinearRange.elD { LinearRange.spD with baseAxial := false } F 0
    (fun _ => false) 100 (Or.inl ⟨rfl, rfl, fun j => ⟨rfl, rfl⟩⟩) with h | ⟨h, -⟩
  · exact h
  · exfalso
    have h1 : ∀ (e : Fin 1) (b : Bool), pyAt { LinearRange.spD (K := ℚ) with baseAxial := false } .initial 0 e b
        = some 210 := by
      intro e b
      unfold pyAt
      rw [springDisp_seen]
      simp [LinearRange.spD, pyStiffness, curveStiffness, absQuot]
    have h2 : allSome (soilAt { LinearRange.spD (K := ℚ) with baseAxial := false } .initial 0)
        = some (fun _ => ⟨(210, 210), (0, 0), (0, 0)⟩) := by
      rw [allSome_iff]
      intro e
      unfold soilAt
      simp only [h1]
      simp [LinearRange.spD, tzAt, mtAt]
    unfold buildStiffness at h
    rw [h2] at h
    simp [LinearRange.spD] at h

end OpenPile.Props.Held
