/-
C115, where it fails: with rotational springs along Timoshenko elements the head of a pile can move against its load.
-/
import Verif.Props.HeldTimoshenko
import Verif.Props.Stressed
import Verif.Props.LinearMoment

namespace OpenPile.Props.Held
open OpenPile.Kernel OpenPile.Winkler OpenPile.Spring OpenPile.Spec.Kernel
open OpenPile.Props.SoilSupport (elP solid tipFixed solid_coeffs)
open OpenPile.Props.Solve (C15_fails_iff)
open OpenPile.Props.LinearRange
open Matrix

/-- The equations of the head of the solid pile of one Timoshenko element with its tip fixed: how they depend on the stiffness `k` of the
rotational springs. -/
theorem head_equations (pi : ℝ) (h3 : 3 ≤ pi) (g : ℝ) (hg : 0 ≤ g) :
    ∃ A B C a b c N : ℝ, 0 < B ∧ 0 < C ∧ A * C < B ^ 2 ∧ 0 < b ∧ 0 < c ∧ 0 < N ∧ ∀ k w0 w1 w2 : ℝ,
      (soilStiffness .timoshenko 1 (elP pi) (fun _ => ⟨(g, g), (0, 0), (k, k)⟩) 0 0 0 *ᵥ (![w0, w1, w2, 0, 0, 0] : Fin 6 → ℝ)) 0 = N * w0 ∧
      (soilStiffness .timoshenko 1 (elP pi) (fun _ => ⟨(g, g), (0, 0), (k, k)⟩) 0 0 0 *ᵥ (![w0, w1, w2, 0, 0, 0] : Fin 6 → ℝ)) 1
        = (a + k * A) * w1 + (b + k * B) * w2 ∧
      (soilStiffness .timoshenko 1 (elP pi) (fun _ => ⟨(g, g), (0, 0), (k, k)⟩) 0 0 0 *ᵥ (![w0, w1, w2, 0, 0, 0] : Fin 6 → ℝ)) 2
        = (b + k * B) * w1 + (c + k * C) * w2 := by
  have hpi : 0 < pi := by linarith
  obtain ⟨D, hD⟩ := solid_coeffs pi hpi
  obtain ⟨A, eA⟩ : ∃ A : ℝ, A = 1944291717849 / 16229664378490 := ⟨_, rfl⟩
  obtain ⟨B, eB⟩ : ∃ B : ℝ, B = 120121600000 / 1622966437849 + 304057800000 / 648097239283 * pi := ⟨_, rfl⟩
  obtain ⟨C, eC⟩ : ∃ C : ℝ, C = 11718480189245 / 9737798627094 + 141118589821923 / 41478223314112 * pi := ⟨_, rfl⟩
  rw [← eA, ← eB, ← eC] at hD
  have key : A * C < B ^ 2 := by
    rw [eA, eC, eB]
    nlinarith
  have hL : (elP pi 0).L = 10 := rfl
  obtain ⟨X, hX⟩ : ∃ X, X = (elP pi 0).E * (elP pi 0).I / (1 + 59319 / 4384000 * 12) := ⟨_, rfl⟩
  have X0 : 0 < X := by
    rw [hX]
    simp only [elP, elemOf, Pile.Section.inertia, Pile.steel, solid]
    norm_num
    positivity
  have N0 : 0 < (elP pi 0).E * (elP pi 0).A / 10 := by
    simp only [elP, elemOf, Pile.Section.area, Pile.steel, solid]
    norm_num
    positivity
  refine ⟨A, B, C, 12 / 1000 * X + 26 / 7 * g, 6 / 100 * X + 110 / 21 * g, (4 + 59319 / 4384000 * 12) / 10 * X + 200 / 21 * g,
    (elP pi 0).E * (elP pi 0).A / 10, by rw [eB]; positivity, by rw [eC]; positivity, key, by positivity, by positivity, N0, ?_⟩
  intro k w0 w1 w2
  have hrow : ∀ r : Fin 6, (soilStiffness .timoshenko 1 (elP pi) (fun _ => ⟨(g, g), (0, 0), (k, k)⟩) 0 0 0 *ᵥ
      (![w0, w1, w2, 0, 0, 0] : Fin 6 → ℝ)) r
      = elemMatrix .timoshenko (elP pi 0) ⟨(g, g), (0, 0), (k, k)⟩ r 0 * w0
        + elemMatrix .timoshenko (elP pi 0) ⟨(g, g), (0, 0), (k, k)⟩ r 1 * w1
        + elemMatrix .timoshenko (elP pi 0) ⟨(g, g), (0, 0), (k, k)⟩ r 2 * w2 := by
    intro r
    have : ∀ c, soilStiffness .timoshenko 1 (elP pi) (fun _ => ⟨(g, g), (0, 0), (k, k)⟩) 0 0 0 r c = _ :=
      fun c => one_entry .timoshenko (elP pi) (fun _ => ⟨(g, g), (0, 0), (k, k)⟩) r c
    refine (Fin.sum_univ_six (fun c : Fin 6 => soilStiffness .timoshenko 1 (elP pi) (fun _ => ⟨(g, g), (0, 0), (k, k)⟩) 0 0 0 r c
      * (![w0, w1, w2, 0, 0, 0] : Fin 6 → ℝ) c)).trans ?_
    simp only [this]
    simp
  have m : mtMatrix .timoshenko (elP pi 0) k k = k • mtPattern A B C D := by
    unfold mtMatrix
    rw [hD]
    simp only
    congr 1
    ring
  have hel : elemMatrix .timoshenko (elP pi 0) ⟨(g, g), (0, 0), (k, k)⟩ = beamMatrix 10 (elP pi 0).E (elP pi 0).A (elP pi 0).I
      (59319 / 4384000 * 12) + pyMatrix 10 g g + tzMatrix 10 0 0 + k • mtPattern A B C D := by
    unfold elemMatrix
    rw [m, hL]
    unfold mechMatrix
    rw [hL, phi_solid pi hpi]
  have hX' : (elP pi 0).E * (elP pi 0).I = X * (1 + 59319 / 4384000 * 12) := by
    rw [hX]
    field_simp
  rw [hrow, hrow, hrow, hel]
  refine ⟨?_, ?_, ?_⟩
  · simp [beamMatrix, pyMatrix, tzMatrix, mtPattern, mul_comm]
  all_goals
    simp [beamMatrix, pyMatrix, tzMatrix, mtPattern, mul_assoc, hX']
    ring

/-- **C115, violated.** A solid steel pile of 3 m diameter modelled with one Timoshenko element of 10 m, fixed at its tip, with any lateral
springs: if its rotational springs are stiff enough, the analysis of a small lateral load on the head converges without residual to
a head displacement against the load. -/
theorem C115_violated_timoshenko (pi : ℝ) (h3 : 3 ≤ pi) (g : ℝ) (hg : 0 ≤ g) :
    ∃ T, 0 < T ∧ ∀ k > T, ∃ P0, 0 < P0 ∧ ∀ P, 0 < P → P ≤ P0 → ∃ u Q it tol,
      winkler (buildStiffness .timoshenko (elP pi) (shaft g k)) (![0, P, 0, 0, 0, 0] : Fin 6 → ℝ) 0 tipFixed 100
        = .converged u Q it tol 0 ∧ u 1 < 0 := by
  obtain ⟨A, B, C, a, b, c, N, B0, C0, key, b0, c0, N0, hrow⟩ := head_equations pi h3 g hg
  obtain ⟨e, he⟩ : ∃ e, e = B ^ 2 - A * C := ⟨_, rfl⟩
  have e0 : 0 < e := by linarith
  obtain ⟨s, hs⟩ : ∃ s, s = |a * C + A * c - 2 * b * B| + |a * c - b ^ 2| := ⟨_, rfl⟩
  have s0 : 0 ≤ s := by rw [hs]; positivity
  refine ⟨1 + s / e, by positivity, ?_⟩
  intro k hk
  have se : 0 ≤ s / e := by positivity
  have k1 : 1 < k := by linarith
  have ke : s < k * e := by
    have : s / e < k := by linarith
    rwa [div_lt_iff₀ e0] at this
  obtain ⟨q, hq⟩ : ∃ q, q = (b + k * B) ^ 2 - (a + k * A) * (c + k * C) := ⟨_, rfl⟩
  have q0 : 0 < q := by
    have : q = k * (k * e) - k * (a * C + A * c - 2 * b * B) - (a * c - b ^ 2) := by
      rw [hq, he]
      ring
    have l1 := le_abs_self (a * C + A * c - 2 * b * B)
    have l2 := le_abs_self (a * c - b ^ 2)
    have l3 := abs_nonneg (a * c - b ^ 2)
    have m1 : k * (a * C + A * c - 2 * b * B) ≤ k * |a * C + A * c - 2 * b * B| := mul_le_mul_of_nonneg_left l1 (by linarith)
    have m2 : |a * c - b ^ 2| ≤ k * |a * c - b ^ 2| := le_mul_of_one_le_left l3 k1.le
    have m3 : k * s < k * (k * e) := mul_lt_mul_of_pos_left ke (by linarith)
    rw [hs, mul_add] at m3
    linarith
  have kB : 0 < b + k * B := by positivity
  have kC : 0 < c + k * C := by positivity
  refine ⟨q / (c + k * C + (b + k * B)), by positivity, ?_⟩
  intro P P0 hP
  obtain ⟨l, hl⟩ : ∃ l, l = P / q := ⟨_, rfl⟩
  have l0 : 0 < l := by rw [hl]; positivity
  have lq : l * q = P := by rw [hl]; field_simp
  have l1 : l * (c + k * C + (b + k * B)) ≤ 1 := by
    rw [le_div_iff₀ (by positivity)] at hP
    rw [hl, div_mul_eq_mul_div, div_le_one q0]
    exact hP
  have lB : 0 < l * (b + k * B) := by positivity
  have lC : 0 < l * (c + k * C) := by positivity
  have hsup : (fun i => tipFixed i || decide ((0 : Fin (3 * 1 + 3) → ℝ) i ≠ 0)) = tipFixed := by
    funext i
    simp
  have hn : solveEquations (soilStiffness .timoshenko 1 (elP pi) (fun _ => ⟨(g, g), (0, 0), (k, k)⟩) 0 0 0)
      (![0, P, 0, 0, 0, 0] : Fin (3 * 1 + 3) → ℝ) 0 tipFixed ≠ none := by
    rw [Ne, C15_fails_iff]
    rintro ⟨w, hw, w1, w2⟩
    have ew : w = (![w 0, w 1, w 2, 0, 0, 0] : Fin 6 → ℝ) := by
      funext i
      fin_cases i
      · rfl
      · rfl
      · rfl
      · exact w1 3 rfl
      · exact w1 4 rfl
      · exact w1 5 rfl
    obtain ⟨r0, r1, r2⟩ := hrow k (w 0) (w 1) (w 2)
    rw [← ew] at r0 r1 r2
    rw [w2 0 rfl] at r0
    rw [w2 1 rfl] at r1
    rw [w2 2 rfl] at r2
    have x0 : w 0 = 0 := by
      rcases mul_eq_zero.1 r0.symm with h | h
      · exact absurd h N0.ne'
      · exact h
    have x1 : w 1 = 0 := by
      have : q * w 1 = 0 := by
        rw [hq]
        linear_combination (c + k * C) * r1 - (b + k * B) * r2
      rcases mul_eq_zero.1 this with h | h
      · exact absurd h q0.ne'
      · exact h
    have x2 : w 2 = 0 := by
      rw [x1, mul_zero, zero_add] at r2
      rcases mul_eq_zero.1 r2.symm with h | h
      · exact absurd h kC.ne'
      · exact h
    apply hw
    rw [ew, x0, x1, x2]
    funext i
    fin_cases i <;> rfl
  obtain ⟨r0, r1, r2⟩ := hrow k 0 (-(l * (c + k * C))) (l * (b + k * B))
  have hsol := Solve.solve_eq_some _ _ _ _ hn (![0, -(l * (c + k * C)), l * (b + k * B), 0, 0, 0] : Fin 6 → ℝ) (by
    intro i hi
    fin_cases i
    · exact r0.trans (mul_zero N)
    · refine r1.trans ?_
      show _ = P
      rw [← lq, hq]
      ring
    · refine r2.trans ?_
      show _ = (0 : ℝ)
      ring
    all_goals cases hi) (by
    intro i hi
    fin_cases i
    · cases hi
    · cases hi
    · cases hi
    all_goals rfl)
  have small : SmallMotions (shaft g k) (![0, -(l * (c + k * C)), l * (b + k * B), 0, 0, 0] : Fin 6 → ℝ) := by
    have y1 : ∀ j : Fin (1 + 1), |(![0, -(l * (c + k * C)), l * (b + k * B), 0, 0, 0] : Fin 6 → ℝ) (dof j 1)| ≤ 1 := by
      intro j
      fin_cases j
      · show |-(l * (c + k * C))| ≤ 1
        rw [abs_neg, abs_of_pos lC]
        linarith
      · show |(0 : ℝ)| ≤ 1
        simp
    have y2 : ∀ j : Fin (1 + 1), |(![0, -(l * (c + k * C)), l * (b + k * B), 0, 0, 0] : Fin 6 → ℝ) (dof j 2)| ≤ 1 := by
      intro j
      fin_cases j
      · show |l * (b + k * B)| ≤ 1
        rw [abs_of_pos lB]
        linarith
      · show |(0 : ℝ)| ≤ 1
        simp
    refine ⟨⟨fun _ e b => .inr ⟨1, g, [], rfl, ?_, y1 _⟩, (fun h => by cases h), rfl, (fun h => by cases h), (fun h => by cases h),
      (fun h => by cases h)⟩, fun _ e b => .inr ⟨1, k, [], by simp [shaft], by simp [shaft], rfl, by simp [Asc], y2 _⟩⟩
    simp [shaft, Asc]
  obtain ⟨it, tol, -, hw⟩ := (NoModels.C60_linear_exactly .timoshenko (elP pi) (shaft g k) (![0, P, 0, 0, 0, 0] : Fin 6 → ℝ) 0 tipFixed _ _ _
    (shaft_initial .timoshenko pi g k hg (by linarith)) (by rw [hsup]; exact hsol) small).2 (by
      rintro ⟨h, -⟩
      have : P = 0 := congrFun h 1
      linarith)
  exact ⟨_, _, it, tol, hw, by
    show -(l * (c + k * C)) < 0
    linarith⟩

/-- Lateral springs of 1 MN/m2. -/
example : ∃ k P u Q it tol, 0 < k ∧ 0 < P ∧
    winkler (buildStiffness .timoshenko (elP (22 / 7)) (shaft 1000 k)) (![0, P, 0, 0, 0, 0] : Fin 6 → ℝ) 0 tipFixed 100
      = .converged u Q it tol 0 ∧ u 1 < 0 := by
  obtain ⟨T, hT, h⟩ := C115_violated_timoshenko (22 / 7) (by norm_num) 1000 (by norm_num)
  obtain ⟨P, hP, h⟩ := h (T + 1) (by linarith)
  obtain ⟨u, Q, it, tol, h1, h2⟩ := h P hP le_rfl
  exact ⟨T + 1, P, u, Q, it, tol, by linarith, hP, h1, h2⟩

end OpenPile.Props.Held
