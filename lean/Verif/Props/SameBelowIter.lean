/-
Property C95 with soil: loads that cancel above a section change the number of iterations, and so the results below.
-/
import Verif.Props.SameBelow
import Verif.Props.DecoupleIter

namespace OpenPile.Props.SameBelow
open OpenPile.Kernel OpenPile.Winkler OpenPile.Spring OpenPile.Spec.Kernel OpenPile.Props.SoilStiffness
open OpenPile.Props.Solve OpenPile.Props.Beam OpenPile.Props.Decouple OpenPile.Props.FreeBody Matrix

/-- One element without soil along it. -/
noncomputable def elX : Fin 1 → Elem ℝ := fun _ => ⟨1, 1, 1, 1, 1, 1 / 10, 0⟩

/-- Resistance of the tip across the axis. -/
noncomputable def tipX : List (ℝ × ℝ) := [(0, 0), (1, 100), (2, 150), (10, 190)]

noncomputable def spX : Springs ℝ 1 := ⟨fun _ _ => [], fun _ _ => [], fun _ _ => [], 2, tipX, [], [], false, false, false,
  true, false, false⟩

noncomputable def kX (k : ℝ) : Matrix (Fin (3 * 1 + 3)) (Fin (3 * 1 + 3)) ℝ :=
  soilStiffness .eulerBernoulli 1 elX (fun _ => ⟨(0, 0), (0, 0), (0, 0)⟩) k 0 0

/-- The tip is held along the axis and in rotation. -/
def fixX : Fin (3 * 1 + 3) → Bool := fun r => decide (r.1 = 3 ∨ r.1 = 5)

/-- Tip and head move by `y` across the axis, the head by `a` along it. -/
noncomputable def vecX (a y : ℝ) : Fin (3 * 1 + 3) → ℝ := fun r => if r.1 = 0 then a else if r.1 = 1 ∨ r.1 = 4 then y else 0

/-- The load `p` across the axis at the tip, and a pair of opposite axial loads `N` at head and tip. -/
noncomputable def loadX (N p : ℝ) : Fin (3 * 1 + 3) → ℝ :=
  fun r => if r.1 = 0 then N else if r.1 = 3 then -N else if r.1 = 4 then p else 0

theorem kX_row (k : ℝ) (w : Fin (3 * 1 + 3) → ℝ) :
    (kX k *ᵥ w) ⟨0, by norm_num⟩ = w ⟨0, by norm_num⟩ - w ⟨3, by norm_num⟩ ∧
    (kX k *ᵥ w) ⟨1, by norm_num⟩ = 12 * w ⟨1, by norm_num⟩ + 6 * w ⟨2, by norm_num⟩ - 12 * w ⟨4, by norm_num⟩
      + 6 * w ⟨5, by norm_num⟩ ∧
    (kX k *ᵥ w) ⟨2, by norm_num⟩ = 6 * w ⟨1, by norm_num⟩ + 4 * w ⟨2, by norm_num⟩ - 6 * w ⟨4, by norm_num⟩
      + 2 * w ⟨5, by norm_num⟩ ∧
    (kX k *ᵥ w) ⟨3, by norm_num⟩ = w ⟨3, by norm_num⟩ - w ⟨0, by norm_num⟩ ∧
    (kX k *ᵥ w) ⟨4, by norm_num⟩ = -12 * w ⟨1, by norm_num⟩ - 6 * w ⟨2, by norm_num⟩ + (12 + k) * w ⟨4, by norm_num⟩
      - 6 * w ⟨5, by norm_num⟩ ∧
    (kX k *ᵥ w) ⟨5, by norm_num⟩ = 6 * w ⟨1, by norm_num⟩ + 2 * w ⟨2, by norm_num⟩ - 6 * w ⟨4, by norm_num⟩
      + 4 * w ⟨5, by norm_num⟩ := by
  refine ⟨?_, ?_, ?_, ?_, ?_, ?_⟩ <;>
  · simp [kX, soilStiffness, assemble, place, baseMatrix, mulVec, dotProduct, Fin.sum_univ_succ, elemMatrix,
      mechMatrix, beamMatrix, pyMatrix, tzMatrix, mtMatrix, mtPattern, mtCoeffs, elX, phi, kappa]
    try ring

theorem kX_vec (k a y : ℝ) : kX k *ᵥ vecX a y = loadX a (k * y) := by
  obtain ⟨h0, h1, h2, h3, h4, h5⟩ := kX_row k (vecX a y)
  have all : ∀ i : Fin (3 * 1 + 3), i = ⟨0, by norm_num⟩ ∨ i = ⟨1, by norm_num⟩ ∨ i = ⟨2, by norm_num⟩ ∨
      i = ⟨3, by norm_num⟩ ∨ i = ⟨4, by norm_num⟩ ∨ i = ⟨5, by norm_num⟩ := by decide
  funext i
  rcases all i with rfl | rfl | rfl | rfl | rfl | rfl
  · rw [h0]; simp [vecX, loadX]
  · rw [h1]; simp [vecX, loadX]
  · rw [h2]; simp [vecX, loadX]
  · rw [h3]; simp [vecX, loadX]
  · rw [h4]; simp [vecX, loadX]; ring
  · rw [h5]; simp [vecX, loadX]

theorem solveX (k : ℝ) (hk : k ≠ 0) (a y p : ℝ) (hp : p = k * y) :
    solveEquations (kX k) (loadX a p) 0 fixX = some (vecX a y, 0) := by
  subst hp
  have hn : solveEquations (kX k) (loadX a (k * y)) 0 fixX ≠ none := by
    intro h
    rw [C15_fails_iff] at h
    obtain ⟨w, hw, h0, h1⟩ := h
    obtain ⟨r0, r1, r2, r3, r4, r5⟩ := kX_row k w
    rw [h1 _ (by decide)] at r0 r1 r2 r4
    have w3 := h0 ⟨3, by norm_num⟩ (by decide)
    have w5 := h0 ⟨5, by norm_num⟩ (by decide)
    rw [w3] at r0
    rw [w5] at r1 r2 r4
    have w4 : w ⟨4, by norm_num⟩ = 0 := by
      have : k * w ⟨4, by norm_num⟩ = 0 := by linear_combination -(r1 + r4)
      exact (mul_eq_zero.1 this).resolve_left hk
    rw [w4] at r1 r2
    apply hw
    have all : ∀ i : Fin (3 * 1 + 3), i = ⟨0, by norm_num⟩ ∨ i = ⟨1, by norm_num⟩ ∨ i = ⟨2, by norm_num⟩ ∨
        i = ⟨3, by norm_num⟩ ∨ i = ⟨4, by norm_num⟩ ∨ i = ⟨5, by norm_num⟩ := by decide
    funext i
    rcases all i with rfl | rfl | rfl | rfl | rfl | rfl
    · simp only [Pi.zero_apply]; linarith
    · simp only [Pi.zero_apply]; linarith
    · simp only [Pi.zero_apply]; linarith
    · exact w3
    · exact w4
    · exact w5
  rw [solve_eq_some (kX k) (loadX a (k * y)) 0 fixX hn (vecX a y) (fun i _ => by rw [kX_vec])]
  · congr 2
    funext i
    rw [kX_vec]
    simp
  · intro i hi
    have : i.1 = 3 ∨ i.1 = 5 := by simpa [fixX] using hi
    unfold vecX
    rw [if_neg (by omega), if_neg (by omega)]
    rfl

theorem buildX (kind : Kind) (a y k : ℝ) (h : baseStiffness tipX kind y = some k) :
    buildStiffness .eulerBernoulli elX spX kind (vecX a y) = some (kX k) := by
  have h1 : soilAt spX kind (vecX a y) = fun _ => some ⟨(0, 0), (0, 0), (0, 0)⟩ := by
    funext e
    simp [soilAt, pyAt, tzAt, mtAt, spX]
  have h2 : allSome (soilAt spX kind (vecX a y)) = some (fun _ => ⟨(0, 0), (0, 0), (0, 0)⟩) := by
    rw [h1]
    simp [allSome]
  have h3 : vecX a y ⟨3 * 1 + 1, by omega⟩ = y := by simp [vecX]
  unfold buildStiffness
  rw [h2, h3]
  have hs : spX.baseShear = true := rfl
  have hm : spX.baseMoment = false := rfl
  have hq : spX.baseAxial = false := rfl
  have ht : spX.hb = tipX := rfl
  simp only [hs, hm, hq, ht, h]
  rfl

theorem zeroX : (0 : Fin (3 * 1 + 3) → ℝ) = vecX 0 0 := by
  funext i
  simp [vecX]

theorem sumX : (tipX.map (·.2)).sum ≠ 0 := by
  norm_num [tipX]

theorem stiffX : baseStiffness tipX .initial 0 = some 100 ∧
    baseStiffness tipX .secant (8 / 5) = some (130 / (8 / 5)) ∧ baseStiffness tipX .tangent (8 / 5) = some 50 ∧
    baseStiffness tipX .secant (11 / 5) = some (151 / (11 / 5)) ∧ baseStiffness tipX .tangent (11 / 5) = some 5 ∧
    baseStiffness tipX .secant 4 = some 40 := by
  unfold baseStiffness
  simp only [if_neg sumX]
  have h1 : ¬ Kind.secant = Kind.initial := by decide
  have h2 : ¬ Kind.tangent = Kind.initial := by decide
  refine ⟨?_, ?_, ?_, ?_, ?_, ?_⟩ <;>
  norm_num [tipX, curveStiffness, resistance, maxDisp, interp, absQuot, abs_of_pos, h1, h2]

/-- What is left over after a pass. -/
theorem leftX (N y k : ℝ) : (fun i => loadX N 160 i - (0 : Fin (3 * 1 + 3) → ℝ) i - (kX k *ᵥ vecX N y) i)
    = loadX 0 (160 - k * y) := by
  rw [kX_vec]
  funext i
  unfold loadX
  simp only [Pi.zero_apply]
  split_ifs <;> ring

theorem addX (N y y' : ℝ) : (fun i => vecX N y i + vecX 0 y' i) = vecX N (y + y') := by
  funext i
  unfold vecX
  split_ifs <;> ring

theorem freeX (p : ℝ) : normSqFree fixX (loadX 0 p) = p ^ 2 := by
  simp [normSqFree, fixX, loadX, Fin.sum_univ_succ]

theorem allX (N : ℝ) : normSq (fun i => loadX N 160 i - (0 : Fin (3 * 1 + 3) → ℝ) i) = 2 * N ^ 2 + 160 ^ 2 := by
  simp [normSq, loadX, Fin.sum_univ_succ]
  ring

/-- The first pass. -/
theorem firstX (N : ℝ) (m : ℕ) : ∃ t r, winkler (buildStiffness .eulerBernoulli elX spX) (loadX N 160) 0 fixX (m + 2)
    = loop (buildStiffness .eulerBernoulli elX spX) (loadX N 160) 0 fixX (m + 2) 1 (vecX N (8 / 5)) (kX 50) 0
      (loadX 0 30) 0 t r := by
  obtain ⟨k0, k1, k2, k3, k4, k5⟩ := stiffX
  have hsup : (fun i => fixX i || decide ((0 : Fin (3 * 1 + 3) → ℝ) i ≠ 0)) = fixX := by
    funext i
    simp
  have hb0 := buildX .initial 0 0 _ k0
  rw [← zeroX] at hb0
  unfold winkler
  rw [hb0]
  simp only [hsup]
  obtain ⟨t, r, h⟩ := loop_go (buildStiffness .eulerBernoulli elX spX) (loadX N 160) 0 fixX (m + 2) 0 0 (kX 100) 0
    (loadX N 160) 0 0 0 _ _ (vecX N (8 / 5)) _ _ (solveX 100 (by norm_num) N (8 / 5) 160 (by norm_num))
    (by funext i; simp) (buildX _ _ _ _ k1) (buildX _ _ _ _ k2) (.inl rfl) (by norm_num)
  rw [leftX] at h
  refine ⟨t, r, h.trans ?_⟩
  norm_num

/-- **C95 is violated in soil.** A pile with a lateral load of 160 at its tip, which rests on a spring. Two opposite axial loads
of 10,000,000 on the free part have no resultant; but with them the tolerance, a fraction of the norm of all loads, is so
large that the iteration ends one step earlier, with a deflection of the tip of 2.2 instead of 4. -/
theorem C95_violated_iterations (m : ℕ) :
    Equivalent (nodeDepth (fun i => (elX i).L)) 1 (loadX 0 160) (loadX 10000000 160) ∧
    (∀ i : Fin 1, Bare spX i) ∧ (∀ c : Fin 3, fixX (dof (n := 1) 0 c) = false) ∧
    (∃ d Q t r, winkler (buildStiffness .eulerBernoulli elX spX) (loadX 0 160) 0 fixX (m + 2) = .converged d Q 3 t r ∧
      d (dof (n := 1) 1 1) = 4) ∧
    (∃ d Q t r, winkler (buildStiffness .eulerBernoulli elX spX) (loadX 10000000 160) 0 fixX (m + 2)
      = .converged d Q 2 t r ∧ d (dof (n := 1) 1 1) = 11 / 5) := by
  obtain ⟨k0, k1, k2, k3, k4, k5⟩ := stiffX
  refine ⟨⟨?_, ?_, ?_, ?_⟩, ?_, ?_, ?_, ?_⟩
  · intro k hk
    have h1 := Fin.lt_def.1 hk
    have h2 := k.2
    simp at h1
    omega
  · rw [show Finset.Iic (1 : Fin 2) = {0, 1} by decide, Finset.sum_pair (by decide), Finset.sum_pair (by decide)]
    simp [loadX, dof]
  · rw [show Finset.Iic (1 : Fin 2) = {0, 1} by decide, Finset.sum_pair (by decide), Finset.sum_pair (by decide)]
    simp [loadX, dof]
  · rw [show Finset.Iic (1 : Fin 2) = {0, 1} by decide, Finset.sum_pair (by decide), Finset.sum_pair (by decide)]
    simp [loadX, dof]
  · intro i
    exact ⟨fun b q hq => by simp [spX] at hq, fun b q hq => by simp [spX] at hq, fun b r hr => by simp [spX] at hr⟩
  · decide
  · obtain ⟨t, r, h⟩ := firstX 0 m
    obtain ⟨t2, r2, g2⟩ := loop_go (buildStiffness .eulerBernoulli elX spX) (loadX 0 160) 0 fixX (m + 1) 1
      (vecX 0 (8 / 5)) (kX 50) 0 (loadX 0 30) 0 t r (vecX 0 (3 / 5)) 0 (vecX 0 (11 / 5)) _ _
      (solveX 50 (by norm_num) 0 (3 / 5) 30 (by norm_num)) (by rw [addX]; norm_num) (buildX _ _ _ _ k3) (buildX _ _ _ _ k4)
      (.inr (by rw [allX, leftX, freeX]; norm_num)) (by norm_num)
    rw [leftX] at g2
    obtain ⟨t3, r3, g3⟩ := loop_stop (buildStiffness .eulerBernoulli elX spX) (loadX 0 160) 0 fixX m 2
      (vecX 0 (11 / 5)) (kX 5) 0 (loadX 0 (160 - 151 / (11 / 5) * (11 / 5))) 0 t2 r2 (vecX 0 (9 / 5)) 0 (vecX 0 4) _ _ _
      (solveX 5 (by norm_num) 0 (9 / 5) _ (by norm_num)) (by rw [addX]; norm_num) (buildX _ _ _ _ k5)
      (by rw [allX, leftX, freeX]; norm_num) (by norm_num) (solveX 40 (by norm_num) 0 4 160 (by norm_num))
    exact ⟨_, _, _, _, (h.trans g2).trans g3, by simp [vecX, dof]⟩
  · obtain ⟨t, r, h⟩ := firstX 10000000 m
    obtain ⟨t3, r3, g3⟩ := loop_stop (buildStiffness .eulerBernoulli elX spX) (loadX 10000000 160) 0 fixX (m + 1) 1
      (vecX 10000000 (8 / 5)) (kX 50) 0 (loadX 0 30) 0 t r (vecX 0 (3 / 5)) 0 (vecX 10000000 (11 / 5)) _ _ _
      (solveX 50 (by norm_num) 0 (3 / 5) 30 (by norm_num)) (by rw [addX]; norm_num) (buildX _ _ _ _ k3)
      (by rw [allX, leftX, freeX]; norm_num) (by norm_num)
      (solveX (151 / (11 / 5)) (by norm_num) 10000000 (160 / (151 / (11 / 5))) 160 (by norm_num))
    exact ⟨_, _, _, _, h.trans g3, by simp [vecX, dof]⟩

end OpenPile.Props.SameBelow
