/-
C71: an axial load changes the deflections, because one tolerance serves both directions.
-/
import Verif.Props.Decouple

namespace OpenPile.Props.Decouple
open OpenPile.Kernel OpenPile.Winkler OpenPile.Spring OpenPile.Props.Solve OpenPile.Spec.Kernel OpenPile.Props.Mirror
open OpenPile.Props.SoilStiffness Matrix

/-! ### single steps of the iteration -/

section
variable {K : Type} [Field K] [LinearOrder K] {ι : Type} [Fintype ι] [DecidableEq ι]

theorem loop_stop (b : Kind → (ι → K) → Option (Matrix ι ι K)) (F U0 : ι → K) (sup : ι → Bool) (fuel it : ℕ)
    (d : ι → K) (A : Matrix ι ι K) (U Rg Q0 : ι → K) (t0 r0 : K) (v Q d' : ι → K) (Ks : Matrix ι ι K) (w Qf : ι → K)
    (hs : solveEquations A Rg U sup = some (v, Q)) (hd : (fun i => d i + v i) = d') (hb : b .secant d' = some Ks)
    (hc : normSqFree sup (fun i => F i - Q i - (Ks *ᵥ d') i) < (1 / 10000) ^ 2 * normSq (fun i => F i - Q i))
    (hi : 1 ≤ it) (hf : solveEquations Ks F U0 sup = some (w, Qf)) :
    ∃ t r, loop b F U0 sup (fuel + 1) it d A U Rg Q0 t0 r0 = .converged d' Qf (it + 1) t r := by
  rw [loop, hs]
  simp only [hd]
  rw [hb]
  simp only
  rw [if_pos ⟨hc, by omega⟩, hf]
  exact ⟨_, _, rfl⟩

theorem loop_go (b : Kind → (ι → K) → Option (Matrix ι ι K)) (F U0 : ι → K) (sup : ι → Bool) (fuel it : ℕ)
    (d : ι → K) (A : Matrix ι ι K) (U Rg Q0 : ι → K) (t0 r0 : K) (v Q d' : ι → K) (Ks Kt : Matrix ι ι K)
    (hs : solveEquations A Rg U sup = some (v, Q)) (hd : (fun i => d i + v i) = d') (hb : b .secant d' = some Ks)
    (ht : b .tangent d' = some Kt)
    (hc : it = 0 ∨ (1 / 10000) ^ 2 * normSq (fun i => F i - Q i) ≤ normSqFree sup (fun i => F i - Q i - (Ks *ᵥ d') i))
    (hi : it < 99) :
    ∃ t r, loop b F U0 sup (fuel + 1) it d A U Rg Q0 t0 r0
      = loop b F U0 sup fuel (it + 1) d' Kt 0 (fun i => F i - Q i - (Ks *ᵥ d') i) Q t r := by
  rw [loop, hs]
  simp only [hd]
  rw [hb]
  simp only
  rw [if_neg, if_neg (by omega), ht]
  · exact ⟨_, _, rfl⟩
  · rintro ⟨h1, h2⟩
    rcases hc with rfl | hc
    · omega
    · exact absurd h1 (not_lt.2 hc)

end

/-! ### the pile -/

/-- A lateral curve that softens: slopes 350, 175 and 35. -/
def spV : Springs ℚ 1 := ⟨fun _ _ => [(0, 0), (1, 350), (2, 525), (10, 805)], fun _ _ => [], fun _ _ => [], 2, [], [], [],
  true, false, false, false, false, false⟩

/-- Matrix of the element with lateral stiffness `k`. -/
def kV (k : ℚ) : Matrix (Fin (3 * 1 + 3)) (Fin (3 * 1 + 3)) ℚ :=
  soilStiffness .eulerBernoulli 1 elW (fun _ => ⟨(k, k), (0, 0), (0, 0)⟩) 0 0 0

/-- The head is free to settle and to deflect, all else is held. -/
def fixV : Fin (3 * 1 + 3) → Bool := fun r => decide (2 ≤ r.1)

/-- Axial value `a` and lateral value `y` at the head. -/
def vecV (a y : ℚ) : Fin (3 * 1 + 3) → ℚ := fun r => if r.1 = 0 then a else if r.1 = 1 then y else 0

theorem buildV (kind : Kind) (u : Fin (3 * 1 + 3) → ℚ) (k : ℚ)
    (h : soilAt spV kind u 0 = some ⟨(k, k), (0, 0), (0, 0)⟩) :
    buildStiffness .eulerBernoulli elW spV kind u = some (kV k) := by
  have h1 : soilAt spV kind u = fun _ => some ⟨(k, k), (0, 0), (0, 0)⟩ := by
    funext e
    rw [Subsingleton.elim e 0, h]
  have h2 : allSome (soilAt spV kind u) = some (fun _ => ⟨(k, k), (0, 0), (0, 0)⟩) := by
    rw [h1]
    simp [allSome]
  unfold buildStiffness
  rw [h2]
  simp [spV, kV]

theorem kV_row0 (k a y : ℚ) : (kV k *ᵥ vecV a y) ⟨0, by norm_num⟩ = a := by
  simp [kV, soilStiffness, assemble, place, baseMatrix, mulVec, dotProduct, Fin.sum_univ_succ, vecV, elemMatrix,
    mechMatrix, beamMatrix, pyMatrix, tzMatrix, mtMatrix, mtPattern, mtCoeffs, elW, phi, kappa]

theorem kV_row1 (k a y : ℚ) : (kV k *ᵥ vecV a y) ⟨1, by norm_num⟩ = (12 + 13 * k / 35) * y := by
  simp [kV, soilStiffness, assemble, place, baseMatrix, mulVec, dotProduct, Fin.sum_univ_succ, vecV, elemMatrix,
    mechMatrix, beamMatrix, pyMatrix, tzMatrix, mtMatrix, mtPattern, mtCoeffs, elW, phi, kappa]
  ring_nf
  simp

theorem fixV_false (i : Fin (3 * 1 + 3)) (h : fixV i = false) : i = ⟨0, by norm_num⟩ ∨ i = ⟨1, by norm_num⟩ := by
  unfold fixV at h
  simp at h
  have : i.1 = 0 ∨ i.1 = 1 := by omega
  rcases this with g | g
  · exact .inl (Fin.ext g)
  · exact .inr (Fin.ext g)

theorem solveV (k : ℚ) (hk : 0 ≤ k) (F : Fin (3 * 1 + 3) → ℚ) (a y : ℚ) (h0 : a = F ⟨0, by norm_num⟩)
    (h : (12 + 13 * k / 35) * y = F ⟨1, by norm_num⟩) :
    solveEquations (kV k) F 0 fixV = some (vecV a y, fun i => (kV k *ᵥ vecV a y) i - F i) := by
  refine solve_eq_some _ _ _ _ ?_ _ ?_ ?_
  · rw [Ne, C15_fails_iff]
    rintro ⟨w, hw, h0, h1⟩
    have e : w = vecV (w ⟨0, by norm_num⟩) (w ⟨1, by norm_num⟩) := by
      funext i
      by_cases hi : fixV i = true
      · rw [h0 i hi]
        unfold vecV
        unfold fixV at hi
        simp at hi
        rw [if_neg (by omega), if_neg (by omega)]
      · rcases fixV_false i (by simpa using hi) with rfl | rfl <;> simp [vecV]
    have h2 := h1 ⟨0, by norm_num⟩ (by decide)
    have h3 := h1 ⟨1, by norm_num⟩ (by decide)
    rw [e, kV_row0] at h2
    rw [e, kV_row1] at h3
    have h4 : w ⟨1, by norm_num⟩ = 0 := by
      rcases mul_eq_zero.1 h3 with g | g
      · exfalso; linarith
      · exact g
    apply hw
    rw [e, h2, h4]
    funext i
    simp [vecV]
  · intro i hi
    rcases fixV_false i hi with rfl | rfl
    · rw [kV_row0, h0]
    · rw [kV_row1, h]
  · intro i hi
    unfold fixV at hi
    simp at hi
    unfold vecV
    rw [if_neg (by omega), if_neg (by omega)]
    rfl

/-- What the first pass leaves out of balance. -/
def restV (P : ℚ) : Fin (3 * 1 + 3) → ℚ := fun i => vecV P 270 i - ((kV 350 *ᵥ vecV P (135 / 71)) i - vecV P 270 i)
  - (kV ((175 + 175 * (135 / 71)) / (135 / 71)) *ᵥ vecV P (135 / 71)) i

/-- Reactions of the second pass. -/
def reacV (P : ℚ) : Fin (3 * 1 + 3) → ℚ := fun i => (kV 175 *ᵥ vecV 0 (205 / 77 - 135 / 71)) i - restV P i

/-- What the second pass leaves out of balance. -/
def restV2 (P : ℚ) : Fin (3 * 1 + 3) → ℚ := fun i => vecV P 270 i - reacV P i
  - (kV ((455 + 35 * (205 / 77)) / (205 / 77)) *ᵥ vecV P (205 / 77)) i

/-- Reactions of the third pass. -/
def reacV3 (P : ℚ) : Fin (3 * 1 + 3) → ℚ := fun i => (kV 35 *ᵥ vecV 0 (101 / 25 - 205 / 77)) i - restV2 P i

theorem first (P : ℚ) (m : ℕ) (h1 : soilAt spV .secant (vecV P (135 / 71)) 0
      = some ⟨((175 + 175 * (135 / 71)) / (135 / 71), (175 + 175 * (135 / 71)) / (135 / 71)), (0, 0), (0, 0)⟩)
    (h2 : soilAt spV .tangent (vecV P (135 / 71)) 0 = some ⟨(175, 175), (0, 0), (0, 0)⟩) :
    ∃ t r Q, winkler (buildStiffness .eulerBernoulli elW spV) (vecV P 270) 0 fixV (m + 2)
      = loop (buildStiffness .eulerBernoulli elW spV) (vecV P 270) 0 fixV (m + 2) 1 (vecV P (135 / 71)) (kV 175) 0
        (restV P) Q t r := by
  have hsup : (fun i => fixV i || decide ((0 : Fin (3 * 1 + 3) → ℚ) i ≠ 0)) = fixV := by
    funext i
    simp
  unfold winkler
  rw [buildV .initial 0 350 (by decide +kernel)]
  simp only [hsup]
  obtain ⟨t, r, h⟩ := loop_go (buildStiffness .eulerBernoulli elW spV) (vecV P 270) 0 fixV (m + 2) 0 0 (kV 350) 0
    (vecV P 270) 0 0 0 _ _ (vecV P (135 / 71)) _ _
    (solveV 350 (by norm_num) (vecV P 270) P (135 / 71) (by simp [vecV]) (by simp [vecV]; norm_num))
    (by funext i; simp) (buildV _ _ _ h1) (buildV _ _ _ h2) (.inl rfl) (by norm_num)
  exact ⟨t, r, _, h⟩

theorem rest0 (P : ℚ) : restV P ⟨0, by norm_num⟩ = 0 := by
  unfold restV
  simp only [kV_row0]
  simp [vecV]

theorem rest1 (P : ℚ) : restV P ⟨1, by norm_num⟩ = 270 - 77 * (135 / 71) - 65 := by
  unfold restV
  simp only [kV_row1]
  simp [vecV]
  norm_num

theorem reac0 (P : ℚ) : reacV P ⟨0, by norm_num⟩ = 0 := by
  unfold reacV
  rw [kV_row0, rest0, sub_zero]

theorem reac1 (P : ℚ) : reacV P ⟨1, by norm_num⟩ = 0 := by
  unfold reacV
  rw [kV_row1, rest1]
  norm_num

theorem rest20 (P : ℚ) : restV2 P ⟨0, by norm_num⟩ = 0 := by
  unfold restV2
  rw [kV_row0, reac0]
  simp [vecV]

theorem rest21 (P : ℚ) : restV2 P ⟨1, by norm_num⟩ = 270 - 25 * (205 / 77) - 169 := by
  unfold restV2
  rw [kV_row1, reac1]
  simp [vecV]
  norm_num

/-- Three passes, if the second one does not meet the tolerance and the third one does. -/
theorem three (P : ℚ) (m : ℕ) (h1 : soilAt spV .secant (vecV P (135 / 71)) 0
      = some ⟨((175 + 175 * (135 / 71)) / (135 / 71), (175 + 175 * (135 / 71)) / (135 / 71)), (0, 0), (0, 0)⟩)
    (h2 : soilAt spV .tangent (vecV P (135 / 71)) 0 = some ⟨(175, 175), (0, 0), (0, 0)⟩)
    (h3 : soilAt spV .secant (vecV P (205 / 77)) 0
      = some ⟨((455 + 35 * (205 / 77)) / (205 / 77), (455 + 35 * (205 / 77)) / (205 / 77)), (0, 0), (0, 0)⟩)
    (h4 : soilAt spV .tangent (vecV P (205 / 77)) 0 = some ⟨(35, 35), (0, 0), (0, 0)⟩)
    (h5 : (1 / 10000) ^ 2 * normSq (fun i => vecV P 270 i - reacV P i) ≤ normSqFree fixV (restV2 P))
    (h6 : soilAt spV .secant (vecV P (101 / 25)) 0
      = some ⟨((455 + 35 * (101 / 25)) / (101 / 25), (455 + 35 * (101 / 25)) / (101 / 25)), (0, 0), (0, 0)⟩)
    (h7 : normSqFree fixV (fun i => vecV P 270 i - reacV3 P i
        - (kV ((455 + 35 * (101 / 25)) / (101 / 25)) *ᵥ vecV P (101 / 25)) i)
      < (1 / 10000) ^ 2 * normSq (fun i => vecV P 270 i - reacV3 P i)) :
    ∃ d Q t r, winkler (buildStiffness .eulerBernoulli elW spV) (vecV P 270) 0 fixV (m + 2)
      = .converged d Q 3 t r ∧ d ⟨1, by norm_num⟩ = 101 / 25 := by
  obtain ⟨t, r, Q, h⟩ := first P m h1 h2
  obtain ⟨t2, r2, g2⟩ := loop_go (buildStiffness .eulerBernoulli elW spV) (vecV P 270) 0 fixV (m + 1) 1
    (vecV P (135 / 71)) (kV 175) 0 (restV P) Q t r (vecV 0 (205 / 77 - 135 / 71)) (reacV P) (vecV P (205 / 77))
    (kV ((455 + 35 * (205 / 77)) / (205 / 77))) (kV 35)
    (solveV 175 (by norm_num) (restV P) 0 _ (by rw [rest0]) (by rw [rest1]; norm_num))
    (by funext i; unfold vecV; split <;> [ring; (split <;> ring)]) (buildV _ _ _ h3)
    (buildV _ _ _ h4) (.inr h5) (by norm_num)
  obtain ⟨t3, r3, g3⟩ := loop_stop (buildStiffness .eulerBernoulli elW spV) (vecV P 270) 0 fixV m 2
    (vecV P (205 / 77)) (kV 35) 0 (restV2 P) (reacV P) t2 r2 (vecV 0 (101 / 25 - 205 / 77)) (reacV3 P) (vecV P (101 / 25))
    (kV ((455 + 35 * (101 / 25)) / (101 / 25))) _ _
    (solveV 35 (by norm_num) (restV2 P) 0 _ (by rw [rest20]) (by rw [rest21]; norm_num))
    (by funext i; unfold vecV; split <;> [ring; (split <;> ring)]) (buildV _ _ _ h6)
    h7 (by norm_num)
    (solveV _ (by norm_num) (vecV P 270) P (101 / 25) (by simp [vecV]) (by simp [vecV]; norm_num))
  exact ⟨_, _, _, _, (h.trans g2).trans g3, by simp [vecV]⟩

/-- **C71 violated in soil.** One element in soil, its head loaded across the axis by 270.  Without axial load the
iteration takes three steps and the head deflects by 35/13.  With an axial load of 10,000,000 the tolerance, a fraction of
the norm of all loads, is so large that the iteration ends after two steps with a deflection of 55/23. -/
theorem C71_violated_iterations (m : ℕ) :
    (∃ d Q t r, winkler (buildStiffness .eulerBernoulli elW spV) (vecV 0 270) 0 fixV (m + 2)
      = .converged d Q 3 t r ∧ d ⟨1, by norm_num⟩ = 101 / 25) ∧
    (∃ d Q t r, winkler (buildStiffness .eulerBernoulli elW spV) (vecV (-10000000) 270) 0 fixV (m + 2)
      = .converged d Q 2 t r ∧ d ⟨1, by norm_num⟩ = 205 / 77) := by
  constructor
  · exact three 0 m (by decide +kernel) (by decide +kernel) (by decide +kernel) (by decide +kernel) (by decide +kernel)
      (by decide +kernel) (by decide +kernel)
  · obtain ⟨t, r, Q, h⟩ := first (-10000000) m (by decide +kernel) (by decide +kernel)
    obtain ⟨t3, r3, h3⟩ := loop_stop (buildStiffness .eulerBernoulli elW spV) (vecV (-10000000) 270) 0 fixV (m + 1) 1
      (vecV (-10000000) (135 / 71)) (kV 175) 0 (restV (-10000000)) Q t r (vecV 0 (205 / 77 - 135 / 71)) (reacV (-10000000))
      (vecV (-10000000) (205 / 77)) (kV ((455 + 35 * (205 / 77)) / (205 / 77))) _ _
      (solveV 175 (by norm_num) (restV (-10000000)) 0 _ (by rw [rest0]) (by rw [rest1]; norm_num))
      (by funext i; unfold vecV; split <;> [ring; (split <;> ring)]) (buildV _ _ _ (by decide +kernel))
      (by decide +kernel) (by norm_num)
      (solveV _ (by norm_num) (vecV (-10000000) 270) (-10000000) (270 / (12 + 13 * ((455 + 35 * (205 / 77)) / (205 / 77)) / 35))
        (by simp [vecV]) (by simp [vecV]; norm_num))
    exact ⟨_, _, _, _, h.trans h3, by simp [vecV]⟩

/-- With a small axial load the number of iterations stays the same, as `C71_lateral_partial` requires, and so does the
deflection. -/
example : ∃ d Q t r d' Q' t' r',
    winkler (buildStiffness .eulerBernoulli elW spV) (vecV 0 270) 0 fixV 100 = .converged d Q 3 t r ∧
    winkler (buildStiffness .eulerBernoulli elW spV) (vecV (-1000) 270) 0 fixV 100 = .converged d' Q' 3 t' r' ∧
    Agree Across (vecV 0 270) (vecV (-1000) 270) ∧ d ⟨1, by norm_num⟩ = d' ⟨1, by norm_num⟩ := by
  obtain ⟨d, Q, t, r, h, -⟩ := three 0 98 (by decide +kernel) (by decide +kernel) (by decide +kernel) (by decide +kernel)
    (by decide +kernel) (by decide +kernel) (by decide +kernel)
  obtain ⟨d', Q', t', r', h', -⟩ := three (-1000) 98 (by decide +kernel) (by decide +kernel) (by decide +kernel)
    (by decide +kernel) (by decide +kernel) (by decide +kernel) (by decide +kernel)
  have hF : Agree Across (vecV 0 270) (vecV (-1000) 270) := by
    intro i hi
    unfold vecV
    have : i.1 ≠ 0 := fun h0 => hi (by rw [h0])
    rw [if_neg this, if_neg this]
  refine ⟨d, Q, t, r, d', Q', t', r', h, h', hF, ?_⟩
  exact (C71_lateral_partial _ elW spV spV ⟨rfl, rfl, rfl, rfl, rfl, rfl, rfl, rfl, rfl⟩ _ _ 0 0 fixV fixV hF
    (fun _ _ => rfl) (fun _ _ => rfl) _ _ 3 d Q d' Q' t r t' r' h h').1 _ (by unfold Across; norm_num)

end OpenPile.Props.Decouple
