/-
Property C57: a model without loads and prescribed displacements.
-/
import Verif.Props.Winkler
import Verif.Props.Beam

namespace OpenPile.Props.Unloaded
open OpenPile.Kernel OpenPile.Winkler OpenPile.Spring OpenPile.Props.Solve Matrix

variable {K : Type} [Field K] [LinearOrder K] [IsStrictOrderedRing K]
variable {ι : Type} [Fintype ι] [DecidableEq ι]

/-- A system without loads and prescribed displacements has the solution zero. -/
theorem solve_zero (A : Matrix ι ι K) (restr : ι → Bool) :
    solveEquations A 0 0 restr = none ∨ solveEquations A 0 0 restr = some (0, 0) := by
  by_cases h : solveEquations A (0 : ι → K) 0 restr = none
  · exact Or.inl h
  · right
    rw [solve_eq_some A 0 0 restr h 0 (by simp) (by simp)]
    simp
    rfl

/-- The loop started from rest without loads never meets the convergence test. -/
theorem loop_zero (build : Kind → (ι → K) → Option (Matrix ι ι K)) (sup : ι → Bool) (fuel : ℕ) :
    ∀ (it : ℕ) (A : Matrix ι ι K) (Q0 : ι → K) (t0 r0 : K), it < 100 →
      (∃ k, loop build 0 0 sup fuel it 0 A 0 0 Q0 t0 r0 = .nan k ∧ k ≤ 100) ∨
      loop build 0 0 sup fuel it 0 A 0 0 Q0 t0 r0 = .raised ∨
      (it + fuel < 100 ∧ ∃ Q t r, loop build 0 0 sup fuel it 0 A 0 0 Q0 t0 r0 = .exhausted 0 Q (it + fuel) t r) := by
  induction fuel with
  | zero =>
    intro it A Q0 t0 r0 hit
    exact Or.inr (Or.inr ⟨hit, Q0, t0, r0, rfl⟩)
  | succ fuel ih =>
    intro it A Q0 t0 r0 hit
    have hz : (fun i : ι => (0 : ι → K) i - (0 : ι → K) i) = 0 := by funext i; simp
    have hd : (fun i : ι => (0 : ι → K) i + (0 : ι → K) i) = 0 := by funext i; simp
    rcases solve_zero A sup with h | h
    · exact Or.inl ⟨it, by rw [loop, h], hit.le⟩
    · rw [loop, h]
      simp only [hz, hd]
      rcases hs : build .secant 0 with _ | Ks
      · exact Or.inr (Or.inl rfl)
      · have hr : (fun i : ι => (0 : ι → K) i - (0 : ι → K) i - (Ks *ᵥ (0 : ι → K)) i) = 0 := by funext i; simp
        have hc : ¬ (normSqFree sup (0 : ι → K) < (1 / 10000) ^ 2 * normSq (0 : ι → K) ∧ 1 < it + 1) := by
          simp [normSqFree, normSq]
        simp only [hr]
        rw [if_neg hc]
        by_cases h100 : it + 1 = 100
        · rw [if_pos h100]
          exact Or.inl ⟨it + 1, rfl, by omega⟩
        · rw [if_neg h100]
          rcases ht : build .tangent 0 with _ | Kt
          · exact Or.inr (Or.inl rfl)
          · have := ih (it + 1) Kt 0 ((1 / 10000) ^ 2 * normSq (0 : ι → K)) (normSqFree sup (0 : ι → K)) (by omega)
            rw [show it + (fuel + 1) = it + 1 + fuel by ring]
            exact this

/-- **C57 violated.** A model in soil without loads and prescribed displacements never converges, whatever the
springs, supports and number of iterations: the tolerance is zero and the test is strict. -/
theorem C57_violated_never (build : Kind → (ι → K) → Option (Matrix ι ι K)) (fix : ι → Bool) (maxIter : ℕ)
    (d Q : ι → K) (it : ℕ) (tolSq resSq : K) :
    winkler build 0 0 fix maxIter ≠ .converged d Q it tolSq resSq := by
  unfold winkler
  rcases hb : build .initial 0 with _ | A
  · simp
  · simp only
    rcases loop_zero build (fun i => fix i || decide ((0 : ι → K) i ≠ 0)) (maxIter + 1) 0 A 0 0 0 (by norm_num) with
      ⟨k, h, -⟩ | h | ⟨-, Q', t, r, h⟩ <;> rw [h] <;> simp

/-- The loop passes through all 100 iterations when the tangent systems can be solved. -/
theorem loop_zero_nan (build : Kind → (ι → K) → Option (Matrix ι ι K)) (sup : ι → Bool) (Ks Kt : Matrix ι ι K)
    (hs : build .secant 0 = some Ks) (ht : build .tangent 0 = some Kt)
    (hK : solveEquations Kt 0 0 sup ≠ none) (fuel : ℕ) :
    ∀ (it : ℕ) (A : Matrix ι ι K) (Q0 : ι → K) (t0 r0 : K), it < 100 → 100 ≤ it + fuel →
      solveEquations A 0 0 sup ≠ none →
      loop build 0 0 sup fuel it 0 A 0 0 Q0 t0 r0 = .nan 100 := by
  induction fuel with
  | zero => intro it A Q0 t0 r0 hit hf; omega
  | succ fuel ih =>
    intro it A Q0 t0 r0 hit hf hA
    have hz : (fun i : ι => (0 : ι → K) i - (0 : ι → K) i) = 0 := by funext i; simp
    have hd : (fun i : ι => (0 : ι → K) i + (0 : ι → K) i) = 0 := by funext i; simp
    have h := (solve_zero A sup).resolve_left hA
    rw [loop, h]
    simp only [hz, hd, hs]
    have hr : (fun i : ι => (0 : ι → K) i - (0 : ι → K) i - (Ks *ᵥ (0 : ι → K)) i) = 0 := by funext i; simp
    have hc : ¬ (normSqFree sup (0 : ι → K) < (1 / 10000) ^ 2 * normSq (0 : ι → K) ∧ 1 < it + 1) := by
      simp [normSqFree, normSq]
    simp only [hr]
    rw [if_neg hc]
    by_cases h100 : it + 1 = 100
    · rw [if_pos h100, h100]
    · rw [if_neg h100]
      simp only [ht]
      exact ih (it + 1) Kt 0 _ _ (by omega) (by omega) hK

/-- **C57 violated.** With the default number of iterations the result of an unloaded model is filled with NaN
after 100 iterations, although all displacements were zero, as soon as its systems can be solved at all. -/
theorem C57_violated_nan (build : Kind → (ι → K) → Option (Matrix ι ι K)) (fix : ι → Bool) (maxIter : ℕ)
    (hm : 99 ≤ maxIter) (A Ks Kt : Matrix ι ι K) (hi : build .initial 0 = some A)
    (hs : build .secant 0 = some Ks) (ht : build .tangent 0 = some Kt)
    (hA : solveEquations A 0 0 fix ≠ none) (hK : solveEquations Kt 0 0 fix ≠ none) :
    winkler build 0 0 fix maxIter = .nan 100 := by
  unfold winkler
  have hsup : (fun i : ι => (fix i || decide ((0 : ι → K) i ≠ 0))) = fix := by funext i; simp
  simp only [hi, hsup]
  exact loop_zero_nan build fix Ks Kt hs ht hK (maxIter + 1) 0 A 0 0 0 (by norm_num) (by omega) hA

/-- **C57, what holds.** With fewer iterations the result is the state of rest. -/
theorem C57_rest_partial (build : Kind → (ι → K) → Option (Matrix ι ι K)) (fix : ι → Bool) (maxIter : ℕ)
    (d Q : ι → K) (it : ℕ) (tolSq resSq : K)
    (h : winkler build 0 0 fix maxIter = .exhausted d Q it tolSq resSq) : d = 0 ∧ maxIter ≤ 98 := by
  unfold winkler at h
  rcases hb : build .initial 0 with _ | A
  · simp [hb] at h
  · simp only [hb] at h
    rcases loop_zero build (fun i => fix i || decide ((0 : ι → K) i ≠ 0)) (maxIter + 1) 0 A 0 0 0 (by norm_num) with
      ⟨k, g, -⟩ | g | ⟨hlt, Q', t, r, g⟩
    · rw [g] at h; simp at h
    · rw [g] at h; simp at h
    · rw [g] at h
      simp only [Outcome.exhausted.injEq] at h
      exact ⟨h.1.symm, by omega⟩

/-! ### a pile in soil -/

theorem curve_at_rest (tab : List (K × K)) (kind : Kind) :
    curveStiffness tab kind 0 = curveStiffness tab .initial 0 := by
  rcases tab with _ | ⟨⟨x0, p0⟩, _ | ⟨⟨x1, p1⟩, rest⟩⟩ <;> simp [curveStiffness]

theorem axial_at_rest (tab : List (K × K)) (kind : Kind) :
    axialCurveStiffness tab kind 0 = axialCurveStiffness tab .initial 0 := by
  unfold axialCurveStiffness
  simp

theorem mt_at_rest (rows : MtTable K) (ncol : ℕ) (p : K) (kind : Kind) :
    mtStiffness rows ncol p kind 0 = mtStiffness rows ncol p .initial 0 := by
  unfold mtStiffness
  simp

/-- The springs at rest are evaluated at zero. -/
theorem disp_at_rest {n : ℕ} (s : Fin 3) (e : Fin n) (b : Bool) :
    springDisp (0 : Fin (3 * n + 3) → K) s e b = some 0 := by
  have hn : 1 ≤ n := by have := e.2; omega
  cases b with
  | false => simpa using (OpenPile.Props.Winkler.C52_own_node_partial (0 : Fin (3 * n + 3) → K) s e).1
  | true =>
    by_cases h : e.1 + 1 < n
    · simpa using (OpenPile.Props.Winkler.C52_own_node_partial (0 : Fin (3 * n + 3) → K) s e).2 h
    · obtain ⟨m, rfl⟩ : ∃ m, n = m + 1 := ⟨n - 1, by omega⟩
      have he : e = Fin.last m := by apply Fin.ext; simp only [Fin.val_last]; omega
      subst he
      simpa using OpenPile.Props.Winkler.C52_violated (0 : Fin (3 * (m + 1) + 3) → K) s

/-- At rest all three kinds of stiffness are the initial one. -/
theorem build_at_rest (ty : ElementType) {n : ℕ} (el : Fin n → Elem K) (sp : Springs K n) (kind : Kind) :
    buildStiffness ty el sp kind 0 = buildStiffness ty el sp .initial 0 := by
  have h1 : ∀ e b, pyAt sp kind 0 e b = pyAt sp .initial 0 e b := by
    intro e b
    unfold pyAt pyStiffness
    simp only [disp_at_rest, Option.bind_eq_bind, Option.bind_some, curve_at_rest _ kind]
  have h2 : ∀ e b, tzAt sp kind 0 e b = tzAt sp .initial 0 e b := by
    intro e b
    unfold tzAt tzStiffness
    simp only [disp_at_rest, Option.bind_eq_bind, Option.bind_some, axial_at_rest _ kind]
  have h3 : ∀ e b, mtAt sp kind 0 e b = mtAt sp .initial 0 e b := by
    intro e b
    unfold mtAt
    simp only [disp_at_rest, Option.bind_eq_bind, Option.bind_some, mt_at_rest _ _ _ kind]
  have h4 : soilAt sp kind 0 = soilAt sp .initial 0 := by
    funext e
    unfold soilAt
    simp only [h1, h2, h3]
  unfold buildStiffness
  rw [h4]
  simp only [baseStiffness, baseAxialStiffness, Pi.zero_apply, curve_at_rest _ kind, axial_at_rest _ kind]

/-- **C57 violated.** Whatever the springs and supports: an unloaded pile in soil whose stiffness matrix at rest
exists and whose supports and springs hold it is reported as not converged, with NaN everywhere. -/
theorem C57_violated_pile (ty : ElementType) {n : ℕ} (el : Fin n → Elem K) (sp : Springs K n)
    (fix : Fin (3 * n + 3) → Bool) (A : Matrix (Fin (3 * n + 3)) (Fin (3 * n + 3)) K)
    (hA : buildStiffness ty el sp .initial 0 = some A)
    (hheld : ∀ w : Fin (3 * n + 3) → K, w ≠ 0 → (∀ i, fix i = true → w i = 0) →
      ∃ i, fix i = false ∧ (A *ᵥ w) i ≠ 0) :
    solve ty el (some sp) 0 0 fix = some (.winkler (.nan 100)) := by
  have hs : solveEquations A 0 0 fix ≠ none := by
    rw [Ne, C15_fails_iff]
    rintro ⟨w, hw, h1, h2⟩
    obtain ⟨i, hi, hne⟩ := hheld w hw h1
    exact hne (h2 i hi)
  have h := C57_violated_nan (buildStiffness ty el sp) fix 100 (by norm_num) A A A hA
    (by rw [build_at_rest, hA]) (by rw [build_at_rest, hA]) hs hs
  unfold solve winklerModel
  simp only [Option.map_some, h]

/-- **C57 violated**, in terms of the supports and springs: good elements, non-negative springs, no free
rigid-body motion. -/
theorem C57_violated_held (ty : ElementType) {n : ℕ} (el : Fin n → Elem K) (sp : Springs K n)
    (fix : Fin (3 * n + 3) → Bool) (s : Fin n → SoilK K) (h m q : K)
    (hA : buildStiffness ty el sp .initial 0 = some (soilStiffness ty n el s h m q))
    (hel : OpenPile.Props.Beam.GoodElems ty el) (hs : OpenPile.Props.Beam.GoodSprings ty el s h m q)
    (hheld : OpenPile.Props.Beam.Held ty el s h m q fix) :
    solve ty el (some sp) 0 0 fix = some (.winkler (.nan 100)) := by
  refine C57_violated_pile ty el sp fix _ hA (fun w hw h0 => ?_)
  have := (OpenPile.Props.Beam.C20_unique_partial ty el s h m q hel hs fix hheld).1 w hw h0
  by_contra hno
  push Not at hno
  unfold OpenPile.Spec.Kernel.energy OpenPile.Spec.Kernel.work dotProduct at this
  have h2 : ∑ r, w r * (soilStiffness ty n el s h m q *ᵥ w) r = 0 := by
    apply Finset.sum_eq_zero
    intro r _
    by_cases hr : fix r = true
    · rw [h0 r hr, zero_mul]
    · rw [hno r (by simpa using hr), mul_zero]
  linarith

/-- One steel element held by p-y springs, its head fixed vertically: the unloaded model is reported as NaN. -/
example : solve .timoshenko (n := 1) (fun _ => elemOf (3 : ℚ) Pile.steel ⟨0, -10, 1, 1 / 20⟩ 1)
    (some ⟨fun _ _ => [(0, 0), (1, 10)], fun _ _ => [], fun _ _ => [], 15, [], [], [],
      true, false, false, false, false, false⟩) 0 0 (fun r => decide (r.1 = 0))
    = some (.winkler (.nan 100)) := by
  refine C57_violated_held .timoshenko _ _ _ (fun _ => ⟨(10, 10), (0, 0), (0, 0)⟩) 0 0 0 ?_ ?_ ?_ ?_
  · have hs : allSome (soilAt (K := ℚ) (n := 1) ⟨fun _ _ => [(0, 0), (1, 10)], fun _ _ => [], fun _ _ => [], 15, [], [], [],
        true, false, false, false, false, false⟩ .initial 0) = some (fun _ => ⟨(10, 10), (0, 0), (0, 0)⟩) := by
      have hp : ∀ (e : Fin 1) (b : Bool), pyAt (K := ℚ) (n := 1) ⟨fun _ _ => [(0, 0), (1, 10)], fun _ _ => [],
          fun _ _ => [], 15, [], [], [], true, false, false, false, false, false⟩ .initial 0 e b = some 10 := by
        intro e b
        unfold pyAt
        simp only [disp_at_rest, if_true, Option.bind_eq_bind, Option.bind_some]
        decide +kernel
      have : soilAt (K := ℚ) (n := 1) ⟨fun _ _ => [(0, 0), (1, 10)], fun _ _ => [], fun _ _ => [], 15, [], [], [],
          true, false, false, false, false, false⟩ .initial 0 = fun _ => some ⟨(10, 10), (0, 0), (0, 0)⟩ := by
        funext e
        unfold soilAt
        simp only [hp]
        simp [tzAt, mtAt]
      rw [this]
      unfold allSome
      simp
    unfold buildStiffness
    rw [hs]
    simp
  · intro i
    refine ⟨⟨?_, ?_, ?_, ?_, ?_, ?_, ?_, ?_, ?_⟩, fun _ => ?_⟩ <;> norm_num [elemOf, Pile.steel, Pile.Section.area,
      Pile.Section.inertia]
  · refine ⟨fun i => ⟨?_, ?_, ?_, fun _ => Or.inl ?_⟩, ?_, ?_, ?_⟩ <;> norm_num
  · intro u hr h0 hp _ _ _ _ _
    obtain ⟨a, b, θ, hu⟩ := hr
    obtain ⟨p1, p2, p3⟩ := hp 0 (Or.inl (by norm_num))
    have ha := h0 ⟨0, by norm_num⟩ (by simp)
    obtain ⟨q1, q2, q3⟩ := hu 0
    obtain ⟨r1, r2, r3⟩ := hu 1
    have e0 : u (OpenPile.Spec.Kernel.dof (0 : Fin 2) 0) = 0 := ha
    have e1 : u (OpenPile.Spec.Kernel.dof (0 : Fin 2) 1) = 0 := p1
    have e2 : u (OpenPile.Spec.Kernel.dof (0 : Fin 2) 2) = 0 := p3
    have e4 : u (OpenPile.Spec.Kernel.dof (1 : Fin 2) 1) = 0 := p2
    have e3 : u (OpenPile.Spec.Kernel.dof (1 : Fin 2) 0) = 0 := by rw [r1, ← q1, e0]
    have e5 : u (OpenPile.Spec.Kernel.dof (1 : Fin 2) 2) = 0 := by rw [r3, ← q3, e2]
    funext r
    fin_cases r
    · exact e0
    · exact e1
    · exact e2
    · exact e3
    · exact e4
    · exact e5

end OpenPile.Props.Unloaded
