/-
Property C62, exactly: with a profile without soil models the analysis gives numbers if and only if something stresses
the pile, that is a load acts somewhere or the prescribed displacements give section forces.
-/
import Verif.Props.NoModels
import Verif.Props.FreeBody
import Verif.Props.LinearMoment

namespace OpenPile.Props.NoModels
open OpenPile.SoilAnalysis OpenPile.Analysis OpenPile.BC OpenPile.Mesh OpenPile.Spec.Mesh OpenPile.Kernel
  OpenPile.Winkler OpenPile.Result OpenPile.Assemble OpenPile.Spring OpenPile.Props.Winkler OpenPile.Props.LinearRange
  OpenPile.Props.Analysis OpenPile.Props.SoilStiffness OpenPile.Spec.BC
  OpenPile.Spec.Kernel Matrix

section linear
variable {ι K : Type} [Fintype ι] [DecidableEq ι] [Field K] [LinearOrder K] [IsStrictOrderedRing K]

omit [IsStrictOrderedRing K] in
/-- A later pass of the iteration with a matrix that stays the same: the displacements stay and the reactions are counted once
more. -/
theorem loop_again (build : Kind → (ι → K) → Option (Matrix ι ι K)) (A : Matrix ι ι K) (F U0 : ι → K) (sup : ι → Bool) (u Q : ι → K)
    (hsec : build .secant u = some A) (htan : build .tangent u = some A)
    (h : solveEquations A F U0 sup = some (u, Q)) (c : K) (fuel it : ℕ) (Q0 : ι → K) (t0 r0 : K) :
    loop build F U0 sup (fuel + 1) it u A 0 (fun i => -c * Q i) Q0 t0 r0 =
      if 0 < (1 / 10000) ^ 2 * normSq (fun i => F i - c * Q i) ∧ 1 < it + 1 then
        .converged u Q (it + 1) ((1 / 10000) ^ 2 * normSq (fun i => F i - c * Q i)) 0
      else if it + 1 = 100 then .nan (it + 1)
      else loop build F U0 sup fuel (it + 1) u A 0 (fun i => -(c + 1) * Q i) (fun i => c * Q i)
        ((1 / 10000) ^ 2 * normSq (fun i => F i - c * Q i)) 0 := by
  obtain ⟨g1, g2, g3, g4⟩ := Props.Solve.C15_solution A F U0 sup u Q h
  have h2 : solveEquations A (fun i => -c * Q i) 0 sup = some (0, fun i => c * Q i) := by
    have hn : solveEquations A (fun i => -c * Q i) 0 sup ≠ none := by
      rw [Ne, Props.Solve.C15_fails_iff]
      intro hex
      rw [(Props.Solve.C15_fails_iff A F U0 sup).2 hex] at h
      cases h
    rw [Props.Solve.solve_eq_some A (fun i => -c * Q i) 0 sup hn 0 (by
      intro i hi
      rw [mulVec_zero, Pi.zero_apply, (g1 i hi).2, mul_zero]) (fun i _ => rfl)]
    congr 2
    funext i
    rw [mulVec_zero, Pi.zero_apply]
    ring
  have hud : (fun i => u i + (0 : ι → K) i) = u := by funext i; simp
  have hR : (fun i => F i - c * Q i - (A *ᵥ u) i) = fun i => -(c + 1) * Q i := by
    funext i
    rw [← g3 i]
    ring
  have hres : normSqFree sup (fun i => -(c + 1) * Q i) = 0 := by
    unfold normSqFree
    apply Finset.sum_eq_zero
    intro i _
    cases hi : sup i
    · simp [(g1 i hi).2]
    · rfl
  rw [loop, h2]
  simp only [hud, hsec, htan, hR, hres]
  by_cases hc : 0 < (1 / 10000) ^ 2 * normSq (fun i => F i - c * Q i) ∧ 1 < it + 1
  · rw [if_pos hc, if_pos hc, h]
  · rw [if_neg hc, if_neg hc]

omit [IsStrictOrderedRing K] in
/-- The first pass. -/
theorem loop_first (build : Kind → (ι → K) → Option (Matrix ι ι K)) (A : Matrix ι ι K) (F U0 : ι → K) (fix : ι → Bool) (u Q : ι → K)
    (hini : build .initial 0 = some A) (hsec : build .secant u = some A) (htan : build .tangent u = some A)
    (h : solveEquations A F U0 (fun i => fix i || decide (U0 i ≠ 0)) = some (u, Q)) (maxIter : ℕ) :
    winkler build F U0 fix maxIter =
      loop build F U0 (fun i => fix i || decide (U0 i ≠ 0)) maxIter 1 u A 0 (fun i => -2 * Q i) Q
        ((1 / 10000) ^ 2 * normSq (fun i => F i - Q i)) 0 := by
  obtain ⟨g1, g2, g3, g4⟩ := Props.Solve.C15_solution A F U0 _ u Q h
  have hd0 : (fun i => (0 : ι → K) i + u i) = u := by funext i; simp
  have hR : (fun i => F i - Q i - (A *ᵥ u) i) = fun i => -2 * Q i := by
    funext i
    rw [← g3 i]
    ring
  have hres : normSqFree (fun i => fix i || decide (U0 i ≠ 0)) (fun i => -2 * Q i) = 0 := by
    unfold normSqFree
    apply Finset.sum_eq_zero
    intro i _
    dsimp only
    by_cases hi : (fix i || decide (U0 i ≠ 0)) = true
    · rw [if_pos hi]
    · rw [if_neg hi, (g1 i (by simpa using hi)).2]
      simp
  unfold winkler
  rw [hini]
  simp only
  rw [loop, h]
  simp only [hd0, hsec, htan, hR]
  rw [if_neg (by omega), if_neg (by omega), hres]

/-- The iteration with a matrix that stays the same whose first pass can be solved: without loads and reactions the result is
NaN; otherwise the exact solution is found in the second or third pass. -/
theorem linear_exactly (build : Kind → (ι → K) → Option (Matrix ι ι K)) (A : Matrix ι ι K) (F U0 : ι → K) (fix : ι → Bool) (u Q : ι → K)
    (hini : build .initial 0 = some A) (hsec : build .secant u = some A) (htan : build .tangent u = some A)
    (h : solveEquations A F U0 (fun i => fix i || decide (U0 i ≠ 0)) = some (u, Q)) :
    ((F = 0 ∧ Q = 0) → winkler build F U0 fix 100 = .nan 100) ∧
    (¬ (F = 0 ∧ Q = 0) → ∃ it t, (it = 2 ∨ it = 3) ∧ winkler build F U0 fix 100 = .converged u Q it t 0) := by
  rw [loop_first build A F U0 fix u Q hini hsec htan h]
  constructor
  · rintro ⟨rfl, rfl⟩
    have hz : ∀ c : K, (1 / 10000) ^ 2 * normSq (fun i : ι => (0 : ι → K) i - c * (0 : ι → K) i) = 0 := by
      intro c
      simp [normSq]
    have key : ∀ fuel it : ℕ, it + fuel = 101 → it < 100 → ∀ (c : K) (Q0 : ι → K) (t0 r0 : K),
        loop build 0 U0 (fun i => fix i || decide (U0 i ≠ 0)) fuel it u A 0
          (fun i => -c * (0 : ι → K) i) Q0 t0 r0 = .nan 100 := by
      intro fuel
      induction fuel with
      | zero => intro it h1 h2; omega
      | succ fuel ih =>
        intro it h1 h2 c Q0 t0 r0
        rw [loop_again build A 0 U0 _ u 0 hsec htan h, hz, if_neg (by simp)]
        by_cases h100 : it + 1 = 100
        · rw [if_pos h100, h100]
        · rw [if_neg h100]
          exact ih (it + 1) (by omega) (by omega) _ _ _ _
    exact key 100 1 rfl (by norm_num) 2 _ _ _
  · intro hne
    have pos : ∀ c : K, (∃ i, F i ≠ c * Q i) → 0 < (1 / 10000) ^ 2 * normSq (fun i => F i - c * Q i) := by
      rintro c ⟨i, hi⟩
      unfold normSq
      have : 0 < ∑ i, (F i - c * Q i) ^ 2 := Finset.sum_pos' (fun i _ => sq_nonneg _)
        ⟨i, Finset.mem_univ _, sq_pos_of_ne_zero (sub_ne_zero.2 hi)⟩
      positivity
    rw [loop_again build A F U0 _ u Q hsec htan h]
    by_cases h2 : ∃ i, F i ≠ 2 * Q i
    · rw [if_pos ⟨pos 2 h2, by norm_num⟩]
      exact ⟨2, _, Or.inl rfl, rfl⟩
    · push Not at h2
      have h3 : ∃ i, F i ≠ (2 + 1) * Q i := by
        by_contra hno
        push Not at hno
        apply hne
        have hQ : ∀ i, Q i = 0 := fun i => by linear_combination h2 i - hno i
        exact ⟨funext fun i => by rw [h2 i, hQ i]; simp, funext hQ⟩
      have h0 : ¬ (0 < (1 / 10000) ^ 2 * normSq (fun i => F i - 2 * Q i) ∧ 1 < 1 + 1) := by
        have : normSq (fun i => F i - 2 * Q i) = 0 := by
          unfold normSq
          exact Finset.sum_eq_zero fun i _ => by dsimp only; rw [h2 i, sub_self]; simp
        rw [this]
        simp
      rw [if_neg h0, if_neg (by norm_num), loop_again build A F U0 _ u Q hsec htan h, if_pos ⟨pos _ h3, by norm_num⟩]
      exact ⟨3, _, Or.inr rfl, rfl⟩

end linear

/-- **C60, small loads, exactly.** As `C60_linear_moment_partial` for all loads and supports: in the linear range the
result is the linear response, after two or three passes, unless there are neither loads nor reactions, when it is
NaN. -/
theorem C60_linear_exactly {K : Type} [Field K] [LinearOrder K] [IsStrictOrderedRing K] (ty : ElementType) {n : ℕ}
    (el : Fin n → Elem K) (sp : Springs K n) (F U : Fin (3 * n + 3) → K) (fix : Fin (3 * n + 3) → Bool)
    (A : Matrix (Fin (3 * n + 3)) (Fin (3 * n + 3)) K) (u Q : Fin (3 * n + 3) → K)
    (hA : buildStiffness ty el sp .initial 0 = some A)
    (hs : solveEquations A F U (fun i => fix i || decide (U i ≠ 0)) = some (u, Q)) (h : SmallMotions sp u) :
    ((F = 0 ∧ Q = 0) → winkler (buildStiffness ty el sp) F U fix 100 = .nan 100) ∧
    (¬ (F = 0 ∧ Q = 0) → ∃ it t, (it = 2 ∨ it = 3) ∧
      winkler (buildStiffness ty el sp) F U fix 100 = .converged u Q it t 0) :=
  linear_exactly _ A F U fix u Q hA (by rw [build_first_mt ty el sp u h, hA]) (by rw [build_first_mt ty el sp u h, hA]) hs

/-- **C60, no springs, exactly.** -/
theorem C60_no_springs_exactly {K : Type} [Field K] [LinearOrder K] [IsStrictOrderedRing K] (ty : ElementType) {n : ℕ}
    (el : Fin n → Elem K) (sp : Springs K n) (h : NoSprings sp) (F U : Fin (3 * n + 3) → K)
    (fix : Fin (3 * n + 3) → Bool) (u Q : Fin (3 * n + 3) → K) (f : Fin n → (K × K × K) × (K × K × K))
    (hb : beam ty el F U fix = some (u, Q, f)) :
    ((F = 0 ∧ Q = 0) → winkler (buildStiffness ty el sp) F U fix 100 = .nan 100) ∧
    (¬ (F = 0 ∧ Q = 0) → ∃ it t, (it = 2 ∨ it = 3) ∧
      winkler (buildStiffness ty el sp) F U fix 100 = .converged u Q it t 0) := by
  unfold beam at hb
  simp only [Option.map_eq_some_iff, Prod.mk.injEq] at hb
  obtain ⟨⟨u', Q'⟩, hs, rfl, rfl, -⟩ := hb
  exact linear_exactly _ _ F U fix u' Q' (build_none ty el sp h _ _) (build_none ty el sp h _ _)
    (build_none ty el sp h _ _) hs

/-! ### section forces and reactions vanish together -/

section forces
variable {K : Type} [Field K] [LinearOrder K] [IsStrictOrderedRing K]

omit [LinearOrder K] [IsStrictOrderedRing K] in
/-- Nodal forces of the beam vanish exactly if all section forces do. -/
theorem unstressed_iff (ty : ElementType) {n : ℕ} (el : Fin n → Elem K) (hL : ∀ i, (el i).L ≠ 0)
    (hp : ∀ i, 1 + phi ty (el i) ≠ 0) (u : Fin (3 * n + 3) → K) :
    beamStiffness ty n el *ᵥ u = 0 ↔ ∀ i, sectionForces (el i).L (internalForces ty el u i) = ((0, 0, 0), (0, 0, 0)) := by
  have hj := Beam.jump_eq ty el hL hp u
  constructor
  · intro h0
    have key : ∀ k : ℕ, ∀ hk : k < n,
        sectionForces (el ⟨k, hk⟩).L (internalForces ty el u ⟨k, hk⟩) = ((0, 0, 0), (0, 0, 0)) := by
      intro k
      induction k with
      | zero =>
        intro hk
        obtain ⟨j1, j2, j3⟩ := hj ⟨0, by omega⟩
        obtain ⟨c1, c2, c3, -⟩ := Beam.C22_element ty el u ⟨0, hk⟩ (hL _) (hp _)
        rw [h0] at j1 j2 j3
        simp only [Beam.jump, hk, dif_pos, lt_irrefl, dif_neg, not_false_eq_true, sub_zero, Pi.zero_apply] at j1 j2 j3
        rw [j1] at c1
        rw [j2] at c2 c3
        rw [j3, div_eq_zero_iff, or_iff_left (hL _), zero_sub, neg_eq_zero] at c3
        exact Prod.ext (Prod.ext j1 (Prod.ext j2 j3)) (Prod.ext c1.symm (Prod.ext c2.symm c3))
      | succ k ih =>
        intro hk
        have hb := ih (by omega)
        obtain ⟨j1, j2, j3⟩ := hj ⟨k + 1, by omega⟩
        obtain ⟨c1, c2, c3, -⟩ := Beam.C22_element ty el u ⟨k + 1, hk⟩ (hL _) (hp _)
        rw [h0] at j1 j2 j3
        simp only [Beam.jump, hk, dif_pos, Nat.succ_pos, Nat.add_sub_cancel, hb, sub_zero, Pi.zero_apply] at j1 j2 j3
        rw [j1] at c1
        rw [j2] at c2 c3
        rw [j3, div_eq_zero_iff, or_iff_left (hL _), zero_sub, neg_eq_zero] at c3
        exact Prod.ext (Prod.ext j1 (Prod.ext j2 j3)) (Prod.ext c1.symm (Prod.ext c2.symm c3))
    exact fun i => key i.1 i.2
  · intro h0
    funext r
    obtain ⟨j, d, rfl⟩ := Kernel.dof_surjective r
    obtain ⟨j1, j2, j3⟩ := hj j
    simp only [Beam.jump, h0, dite_eq_ite, ite_self, sub_zero] at j1 j2 j3
    fin_cases d
    · exact j1.symm
    · exact j2.symm
    · exact j3.symm

end forces

/-! ### tables -/

/-- A load is left at some node in some direction. -/
def Loaded (C : Coordinates ℝ) (bcs : List (Cond ℝ)) : Prop :=
  ∃ a, ∃ i < C.nodes.length, left storeInt 0 C.nodes bcs .force a i ≠ 0

/-- Something stresses the pile: a load, or section forces in the tables of the pile alone. -/
def Stressed (C : Coordinates ℝ) (bcs : List (Cond ℝ)) (T : Tables ℝ) : Prop :=
  Loaded C bcs ∨ ∃ r ∈ T.forces, r.2 ≠ (0, 0, 0)

/-- An analysis with zero springs on a mesh of the pile, exactly. -/
theorem solveSoilOn_stressed (ty : ElementType) {p : Pile.Pile ℝ} {top tip : ℝ} (hp : Stack p top tip)
    (hreg : ∀ s ∈ p.sections, ∀ L : ℝ, 0 < L → Refine.Regular ty (elemOf Real.pi p.material s L))
    {C : Coordinates ℝ} (h : MeshOn p top tip C) (bcs : List (Cond ℝ)) (w : Switches)
    (hw : w.distributedMoment = true → w.distributedLateral = true) (T : Tables ℝ)
    (hT : solveOn Real.pi ty p C bcs = some T) :
    (Stressed C bcs T →
      ∃ t, solveSoilOn ty p C w Arrays.zero bcs 100 = some (.numbers t) ∧ t.toTables = T ∧
        (t.iterations = 2 ∨ t.iterations = 3) ∧ t.error = 0 ∧
        (∀ r ∈ t.mob, r.pMob = 0 ∧ r.pMax = 0 ∧ r.mMob = 0 ∧ r.mMax = 0) ∧
        t.hbMob = (0, 0) ∧ t.mbMob = (0, 0)) ∧
    (¬ Stressed C bcs T → solveSoilOn ty p C w Arrays.zero bcs 100 = some .nan) := by
  have hv : ∀ cls, validateBc bcs cls = .ok () := by
    by_contra hv
    rw [solveOn_raises Real.pi ty p C bcs hv] at hT
    cases hT
  obtain ⟨z, el, F, U, R, a1, a2, a3, a4, a5, a6, a7, a8, a9, h1, ⟨gF, F0, F1⟩, ⟨gU, U0, U1⟩, ⟨gR, R0, R1⟩, hel⟩ :=
    read_eq Real.pi hp h bcs hv
  have hsolve : solveOn Real.pi ty p C bcs = (beam ty el F U R).bind (fun r => tables ty C.nodes el r.1 r.2.1) := by
    unfold solveOn
    rw [F0, U0, R0]
    simp only [bind, Except.toOption, Option.bind_some]
    rw [F1, U1, R1]
    simp only [Option.bind_some]
    rw [hel]
    rfl
  have hsoil : solveSoilOn ty p C w Arrays.zero bcs 100 =
      match winkler (buildStiffness ty el (springsOf w Arrays.zero C.elements.length)) F U R 100 with
      | .raised => none
      | .nan _ => some .nan
      | .converged d Q it tolSq resSq =>
        (results ty C.nodes el (springsOf w Arrays.zero C.elements.length) d Q it tolSq resSq).map .numbers
      | .exhausted d Q it tolSq resSq =>
        (results ty C.nodes el (springsOf w Arrays.zero C.elements.length) d Q it tolSq resSq).map .numbers := by
    unfold solveSoilOn
    rw [F0, U0, R0]
    simp only [bind, Except.toOption, Option.bind_some]
    rw [F1, U1, R1]
    simp only [Option.bind_some]
    rw [hel]
    rfl
  have hbuild : buildStiffness ty el (springsOf w Arrays.zero C.elements.length) =
      fun _ _ => some (beamStiffness ty C.elements.length el) := by
    funext kind u
    exact build_zero ty el w hw kind u
  have hr := fun i => regular_of_elements hreg a2 a6 i
  rw [hsolve, Option.bind_eq_some_iff] at hT
  obtain ⟨⟨u, Q, f⟩, hb, hT⟩ := hT
  dsimp only at hT
  unfold beam at hb
  simp only [Option.map_eq_some_iff, Prod.mk.injEq] at hb
  obtain ⟨⟨u', Q'⟩, hs, rfl, rfl, -⟩ := hb
  obtain ⟨k1, k2⟩ := linear_exactly (fun _ _ => some (beamStiffness ty C.elements.length el)) _ F U R u' Q' rfl rfl rfl hs
  obtain ⟨-, -, g3, -⟩ := Props.Solve.C15_solution _ _ _ _ _ _ hs
  have hlen : C.nodes.length = C.elements.length + 1 := by rw [h1]; simp
  obtain ⟨T', hT', -, t2, -⟩ := tables_spec ty a1 z a2 el u' Q'
  rw [← h1, hT, Option.some.injEq] at hT'
  subst hT'
  have hF : F = 0 ↔ ¬ Loaded C bcs := by
    constructor
    · rintro rfl ⟨a, i, hi, hne⟩
      obtain ⟨d, rfl⟩ := axisOf_surj a
      have := a7 ⟨i, by omega⟩ d
      rw [Pi.zero_apply] at this
      rw [h1] at hne
      exact hne (by exact_mod_cast this.symm)
    · intro hno
      funext r
      obtain ⟨j, d, rfl⟩ := Kernel.dof_surjective r
      rw [a7]
      by_contra hne
      refine hno ⟨axisOf d, j.1, by have := j.2; omega, ?_⟩
      rw [h1]
      intro e
      apply hne
      rw [e]
      simp
  have hS : ¬ Stressed C bcs T ↔ F = 0 ∧ Q' = 0 := by
    unfold Stressed
    rw [not_or, ← hF]
    refine and_congr_right fun hF0 => ?_
    have hQ : Q' = 0 ↔ beamStiffness ty C.elements.length el *ᵥ u' = 0 := by
      rw [funext_iff, funext_iff]
      refine forall_congr' fun r => ?_
      rw [← g3 r, hF0, Pi.zero_apply, zero_add]
    rw [hQ, unstressed_iff ty el (fun i => (hr i).L) (fun i => (hr i).p)]
    constructor
    · intro hno i
      push Not at hno
      exact Prod.ext (hno _ ((t2 _).2 ⟨i, Or.inl rfl⟩)) (hno _ ((t2 _).2 ⟨i, Or.inr rfl⟩))
    · rintro h0 ⟨r, hr', hne⟩
      obtain ⟨i, rfl | rfl⟩ := (t2 r).1 hr'
      · exact hne (by rw [h0 i])
      · exact hne (by rw [h0 i])
  rw [hsoil, hbuild]
  constructor
  · intro hst
    obtain ⟨it, t, hit, ht⟩ := k2 (fun hn => (hS.2 hn) hst)
    rw [ht]
    obtain ⟨rows, r1, -, r3⟩ := mob_zero w C.elements.length a1 C.nodes (component u' 1) (component u' 2) hlen
      (by simp [component]) (by simp [component])
    refine ⟨⟨T, rows, (0, 0), (0, 0), it, Real.sqrt 0, Real.sqrt t⟩, ?_, rfl, hit, Real.sqrt_zero, r3, rfl, rfl⟩
    have e1 : (springsOf w Arrays.zero C.elements.length).hb = zeros := rfl
    have e2 : (springsOf w Arrays.zero C.elements.length).mb = zeros := rfl
    have e3 : (springsOf w Arrays.zero C.elements.length).ncol = 15 := rfl
    simp only [results, hT, e3, r1, e1, e2, baseMob_zero, Option.bind_eq_bind, Option.bind_some]
    rfl
  · intro hst
    rw [k1 (hS.1 hst)]

/-- Without soil models the analysis is the one with zero springs. -/
theorem solveSoil_none (ty : ElementType) {p : Pile.Pile ℝ} {sp : SoilProfile} {x2mesh : List ℝ}
    {c top tip : ℝ} (h : Weight.Setup p sp.geometry x2mesh c top tip)
    (hno : ∀ l ∈ sp.layers, l.lateral = none ∧ l.axial = none) (w : Switches) (table : List (ℝ × Pile.Section ℝ))
    (env : Draws) (bcs : List (Cond ℝ)) :
    ∃ C, getCoordinates p (some sp.geometry) x2mesh c = some C ∧
      solveSoil ty p sp x2mesh c w table env bcs = solveSoilOn ty p C w Arrays.zero bcs 100 ∧ MeshOn p top tip C := by
  obtain ⟨C, S, water, hC, hS, -, -, hlay, -⟩ := Assemble.C54_mesh h w table
  obtain ⟨C', hC', hm⟩ := meshOn_setup h
  rw [hC] at hC'
  cases hC'
  have hA : modelSprings p sp x2mesh c w table env = some Arrays.zero := by
    unfold modelSprings
    rw [hS]
    exact create_none (by rw [hlay]; exact hno)
  refine ⟨C, hC, ?_, hm⟩
  unfold solveSoil
  rw [hC, hA]
  rfl

/-- **C62, same mesh, exactly.** A Model with a soil profile none of whose layers has a soil model, on the mesh `C` it
publishes, when the pile alone can be solved with the tables `T`: if a load acts somewhere or `T` lists section forces,
the tables are `T`, found after two or three passes with zero error, and nothing is mobilised. -/
theorem C62_stressed_partial (ty : ElementType) (uw E nu : ℝ) {p : Pile.Pile ℝ} {sp : SoilProfile}
    (hmat : Pile.mkMaterial uw E nu = some p.material) (hnu : ty = .timoshenko → -(3 / 4) ≤ nu)
    (hb : ∀ s ∈ p.sections, Spec.Pile.Built s ∧ s.thickness < s.diameter) {x2mesh : List ℝ} {c top tip : ℝ}
    (h : Weight.Setup p sp.geometry x2mesh c top tip)
    (hno : ∀ l ∈ sp.layers, l.lateral = none ∧ l.axial = none) (w : Switches)
    (hw : w.distributedMoment = true → w.distributedLateral = true) (table : List (ℝ × Pile.Section ℝ))
    (env : Draws) (bcs : List (Cond ℝ)) :
    ∃ C, getCoordinates p (some sp.geometry) x2mesh c = some C ∧
    ∀ T, solveOn Real.pi ty p C bcs = some T → Stressed C bcs T →
      ∃ t, solveSoil ty p sp x2mesh c w table env bcs = some (.numbers t) ∧ t.toTables = T ∧
        (t.iterations = 2 ∨ t.iterations = 3) ∧ t.error = 0 ∧
        (∀ r ∈ t.mob, r.pMob = 0 ∧ r.pMax = 0 ∧ r.mMob = 0 ∧ r.mMax = 0) ∧
        t.hbMob = (0, 0) ∧ t.mbMob = (0, 0) := by
  obtain ⟨C, hC, e, hm⟩ := solveSoil_none ty h hno w table env bcs
  rw [e]
  refine ⟨C, hC, fun T hT => (solveSoilOn_stressed ty (stack_setup h) ?_ hm bcs w hw T hT).1⟩
  intro s hs L hL
  obtain ⟨h1, h2⟩ := hb s hs
  exact regular_of_built Real.pi Real.pi_pos ty uw E nu p.material hmat hnu s h1 h2 L hL

/-- **C62 violated.** If nothing stresses the pile (no load left at any node, no section forces in the tables of the pile
alone: supports only, or supports that move the pile as a rigid body), the pile alone gives numbers and the Model with
the empty profile gives NaN. -/
theorem C62_violated_unstressed (ty : ElementType) (uw E nu : ℝ) {p : Pile.Pile ℝ} {sp : SoilProfile}
    (hmat : Pile.mkMaterial uw E nu = some p.material) (hnu : ty = .timoshenko → -(3 / 4) ≤ nu)
    (hb : ∀ s ∈ p.sections, Spec.Pile.Built s ∧ s.thickness < s.diameter) {x2mesh : List ℝ} {c top tip : ℝ}
    (h : Weight.Setup p sp.geometry x2mesh c top tip)
    (hno : ∀ l ∈ sp.layers, l.lateral = none ∧ l.axial = none) (w : Switches)
    (hw : w.distributedMoment = true → w.distributedLateral = true) (table : List (ℝ × Pile.Section ℝ))
    (env : Draws) (bcs : List (Cond ℝ)) :
    ∃ C, getCoordinates p (some sp.geometry) x2mesh c = some C ∧
    ∀ T, solveOn Real.pi ty p C bcs = some T → ¬ Stressed C bcs T →
      solveSoil ty p sp x2mesh c w table env bcs = some .nan := by
  obtain ⟨C, hC, e, hm⟩ := solveSoil_none ty h hno w table env bcs
  rw [e]
  refine ⟨C, hC, fun T hT => (solveSoilOn_stressed ty (stack_setup h) ?_ hm bcs w hw T hT).2⟩
  intro s hs L hL
  obtain ⟨h1, h2⟩ := hb s hs
  exact regular_of_built Real.pi Real.pi_pos ty uw E nu p.material hmat hnu s h1 h2 L hL

/-- Supports alone: no loads and no section forces. -/
theorem unstressed_fixed (ty : ElementType) {p : Pile.Pile ℝ} {top tip : ℝ} (hp : Stack p top tip)
    {C : Coordinates ℝ} (h : MeshOn p top tip C) (bcs : List (Cond ℝ)) (hf : ∀ b ∈ bcs, b.cls = .fixation)
    (T : Tables ℝ) (hT : solveOn Real.pi ty p C bcs = some T) :
    ¬ Stressed C bcs T ∧ ∀ r ∈ T.disp, r.2 = (0, 0, 0) := by
  have hv : ∀ cls, validateBc bcs cls = .ok () := by
    by_contra hv
    rw [solveOn_raises Real.pi ty p C bcs hv] at hT
    cases hT
  have hwr : ∀ (nodes : List ℝ) cls, cls ≠ Cls.fixation → ∀ a i, bcs.map (writeTo nodes cls i a) = bcs.map (fun _ => none) := by
    intro nodes cls hc a i
    refine List.map_congr_left fun b hb => ?_
    unfold writeTo
    rw [if_neg (by rintro ⟨h1, -⟩; exact hc (h1.symm.trans (hf b hb)))]
  have hlast : ∀ l : List (Cond ℝ), lastWrite none (l.map (fun _ => (none : Option (Val ℝ)))) = none := by
    intro l
    induction l with
    | nil => rfl
    | cons a l ih => exact ih
  obtain ⟨z, el, F, U, R, a1, a2, a3, a4, a5, a6, a7, a8, a9, h1, ⟨gF, F0, F1⟩, ⟨gU, U0, U1⟩, ⟨gR, R0, R1⟩, hel⟩ :=
    read_eq Real.pi hp h bcs hv
  have hsolve : solveOn Real.pi ty p C bcs = (beam ty el F U R).bind (fun r => tables ty C.nodes el r.1 r.2.1) := by
    unfold solveOn
    rw [F0, U0, R0]
    simp only [bind, Except.toOption, Option.bind_some]
    rw [F1, U1, R1]
    simp only [Option.bind_some]
    rw [hel]
    rfl
  have hFl : ∀ a i, left storeInt 0 (List.ofFn z) bcs .force a i = 0 := by
    intro a i
    unfold left
    rw [hwr _ _ (by simp), hlast]
  have hF : F = 0 := by
    funext r
    obtain ⟨j, d, rfl⟩ := Kernel.dof_surjective r
    rw [a7, hFl]
    simp
  have hU : U = 0 := by
    funext r
    obtain ⟨j, d, rfl⟩ := Kernel.dof_surjective r
    rw [a8]
    unfold left
    rw [hwr _ _ (by simp), hlast]
    simp
  rw [hsolve, Option.bind_eq_some_iff] at hT
  obtain ⟨⟨u, Q, f⟩, hb, hT⟩ := hT
  dsimp only at hT
  unfold beam at hb
  simp only [Option.map_eq_some_iff, Prod.mk.injEq] at hb
  obtain ⟨⟨u', Q'⟩, hs, rfl, rfl, -⟩ := hb
  obtain ⟨-, -, -, g4⟩ := Props.Solve.C15_solution _ _ _ _ _ _ hs
  have hu : u' = 0 := (g4 0 (fun i _ => by rw [mulVec_zero, hF]) (fun i _ => by rw [hU])).symm
  subst hu
  obtain ⟨T', hT', t1, t2, -⟩ := tables_spec ty a1 z a2 el 0 Q'
  rw [← h1, hT, Option.some.injEq] at hT'
  subst hT'
  refine ⟨?_, ?_⟩
  · rintro (⟨a, i, -, hne⟩ | ⟨r, hr, hne⟩)
    · rw [h1] at hne
      exact hne (hFl a i)
    · have hz : ∀ i : Fin C.elements.length, internalForces ty el 0 i = 0 := by
        intro i
        unfold internalForces
        have : stacked (0 : Fin (3 * C.elements.length + 3) → ℝ) i = 0 := by
          funext k
          simp [stacked]
        rw [this, mulVec_zero]
        funext a
        simp
      obtain ⟨i, rfl | rfl⟩ := (t2 r).1 hr
      · exact hne (by simp [hz, sectionForces])
      · exact hne (by simp [hz, sectionForces])
  · intro r hr
    obtain ⟨j, rfl⟩ := (t1 r).1 hr
    rfl

/-- **C62 violated**, supports alone: the pile alone is listed at rest, the Model with the empty profile gives NaN. -/
theorem C62_violated_supports (ty : ElementType) (uw E nu : ℝ) {p : Pile.Pile ℝ} {sp : SoilProfile}
    (hmat : Pile.mkMaterial uw E nu = some p.material) (hnu : ty = .timoshenko → -(3 / 4) ≤ nu)
    (hb : ∀ s ∈ p.sections, Spec.Pile.Built s ∧ s.thickness < s.diameter) {x2mesh : List ℝ} {c top tip : ℝ}
    (h : Weight.Setup p sp.geometry x2mesh c top tip)
    (hno : ∀ l ∈ sp.layers, l.lateral = none ∧ l.axial = none) (w : Switches)
    (hw : w.distributedMoment = true → w.distributedLateral = true) (table : List (ℝ × Pile.Section ℝ))
    (env : Draws) (bcs : List (Cond ℝ)) (hf : ∀ b ∈ bcs, b.cls = .fixation) :
    ∃ C, getCoordinates p (some sp.geometry) x2mesh c = some C ∧
    ∀ T, solveOn Real.pi ty p C bcs = some T → (∀ r ∈ T.disp, r.2 = (0, 0, 0)) ∧
      solveSoil ty p sp x2mesh c w table env bcs = some .nan := by
  obtain ⟨C, hC, k⟩ := C62_violated_unstressed ty uw E nu hmat hnu hb h hno w hw table env bcs
  obtain ⟨C', hC', hm⟩ := meshOn_setup h
  rw [hC] at hC'
  cases hC'
  refine ⟨C, hC, fun T hT => ?_⟩
  obtain ⟨u1, u2⟩ := unstressed_fixed ty (stack_setup h) hm bcs hf T hT
  exact ⟨u2, k T hT u1⟩

/-- The pile of `NoModels`, fixed at its tip and not loaded: NaN, although the pile alone stays at rest. -/
example (w : Switches) (hw : w.distributedMoment = true → w.distributedLateral = true)
    (table : List (ℝ × Pile.Section ℝ)) (env : Draws) :
    ∃ C T, getCoordinates pileN (some soilN.geometry) [] 1 = some C ∧
      solveOn Real.pi .timoshenko pileN C [⟨.fixation, -10, some (.flag true), some (.flag true), some (.flag true)⟩]
        = some T ∧ (∀ r ∈ T.disp, r.2 = (0, 0, 0)) ∧
      solveSoil .timoshenko pileN soilN [] 1 w table env
        [⟨.fixation, -10, some (.flag true), some (.flag true), some (.flag true)⟩] = some .nan := by
  have hset : Weight.Setup pileN soilN.geometry [] 1 1 (-10) := Assemble.setup_example none none
  have hmat : Pile.mkMaterial (78 : ℝ) 210000000 (3 / 10) = some pileN.material := by
    unfold Pile.mkMaterial
    norm_num [pileN, Pile.steel]
  have hbuilt : ∀ s ∈ pileN.sections, Spec.Pile.Built s ∧ s.thickness < s.diameter := by
    intro s hs
    simp only [pileN, List.mem_cons, List.not_mem_nil, or_false] at hs
    subst hs
    rw [Pile.built_iff]
    norm_num
  obtain ⟨C, hC, hm⟩ := meshOn_setup hset
  obtain ⟨z, hz, hdec, hmem, h0, hl, -⟩ := mesh_fn hm
  have hlen : C.nodes.length = C.elements.length + 1 := by rw [hz]; simp
  obtain ⟨C', hC', k⟩ := C62_violated_supports .timoshenko 78 210000000 (3 / 10) hmat (fun _ => by norm_num) hbuilt hset
    (by simp [soilN]) w hw table env
    [⟨.fixation, -10, some (.flag true), some (.flag true), some (.flag true)⟩] (by simp)
  rw [hC] at hC'
  cases hC'
  have hact : ActsAt C.nodes (-10) C.elements.length := by
    refine ⟨⟨-10, by rw [hz, List.getElem?_ofFn, dif_pos (by omega)]; exact congrArg some hl, ?_⟩, ?_⟩
    · unfold Near
      rw [sub_self, abs_zero]
      positivity
    · intro i hi x hx hnear
      have := near_node pileN _ [] 1 (-10) (by norm_num) rfl hset.grid (-10) (by norm_num [abs_le])
        (clearN (-10) (Or.inr rfl)) C hC x (List.mem_of_getElem? hx) hnear
      rw [hz, List.getElem?_ofFn, dif_pos (by omega), Option.some.injEq] at hx
      have hlt := hdec (show (⟨i, by omega⟩ : Fin (C.elements.length + 1)) < Fin.last _ from hi)
      rw [hx, this, hl] at hlt
      exact lt_irrefl _ hlt
  have hfix : ∀ a, left storeBool false C.nodes
      [⟨.fixation, -10, some (.flag true), some (.flag true), some (.flag true)⟩] .fixation a C.elements.length = true := by
    intro a
    have h2 : writeTo C.nodes .fixation C.elements.length a
        ⟨.fixation, -10, some (.flag true), some (.flag true), some (.flag true)⟩ = some (.flag true) := by
      rw [Props.BC.writeTo_eq_some]
      exact ⟨rfl, hact, by cases a <;> rfl, rfl⟩
    unfold left
    rw [List.map_cons, List.map_nil, h2]
    rfl
  have hsolve := (C20_tables Real.pi Real.pi_pos .timoshenko 78 210000000 (3 / 10) pileN hmat (fun _ => by norm_num) 1
    (-10) (stack_setup hset) hbuilt C hm
    [⟨.fixation, -10, some (.flag true), some (.flag true), some (.flag true)⟩]).2
    ⟨by intro cls; cases cls <;> simp [validateBc, axisConflict],
      ⟨C.elements.length, by omega, Or.inl (hfix _)⟩,
      ⟨C.elements.length, by omega, Or.inl (hfix _), Or.inl ⟨C.elements.length, by omega, Or.inl (hfix _)⟩⟩⟩
  obtain ⟨T, hT⟩ := Option.ne_none_iff_exists'.1 hsolve
  exact ⟨C, T, hC, hT, k T hT⟩

end OpenPile.Props.NoModels
