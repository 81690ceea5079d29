/-
Property C72, where it fails: rotational springs along Timoshenko elements can make the equations of a clamped pile singular.
-/
import Verif.Props.HeldSoil
import Verif.Props.SoilPush
import Mathlib.Topology.Order.IntermediateValue
import Mathlib.Topology.Algebra.Polynomial
import Mathlib.Data.Real.Basic

namespace OpenPile.Props.Held
open OpenPile.Kernel OpenPile.Winkler OpenPile.Spring OpenPile.Spec.Kernel
open OpenPile.Props.SoilSupport (elP solid tipFixed solid_coeffs)
open OpenPile.Props.Solve (C15_fails_iff)
open Matrix

/-- Lateral springs of stiffness `g` and rotational springs of stiffness `k` along the one element. -/
noncomputable def shaft (g k : ℝ) : Springs ℝ 1 :=
  ⟨fun _ _ => [(0, 0), (1, g)], fun _ _ => [], fun _ _ => [(0, [(0, 0), (1, k)])], 2, [], [], [], true, false, true, false,
    false, false⟩

theorem shaft_initial (ty : ElementType) (pi g k : ℝ) (hg : 0 ≤ g) (hk : 0 ≤ k) :
    buildStiffness ty (elP pi) (shaft g k) .initial 0
      = some (soilStiffness ty 1 (elP pi) (fun _ => ⟨(g, g), (0, 0), (k, k)⟩) 0 0 0) := by
  have hd : ∀ s b, springDisp (0 : Fin (3 * 1 + 3) → ℝ) s 0 b = some 0 := by
    intro s b
    fin_cases s <;> cases b <;> simp [springDisp, component, slot, doubleInner, doubleLoop]
  have h1 : soilAt (shaft g k) .initial (0 : Fin (3 * 1 + 3) → ℝ) = fun _ => some ⟨(g, g), (0, 0), (k, k)⟩ := by
    funext e
    obtain rfl : e = 0 := Subsingleton.elim _ _
    simp [soilAt, pyAt, tzAt, mtAt, shaft, hd, pyStiffness, curveStiffness, absQuot, abs_of_nonneg hg, mtStiffness, mtCurve,
      interp, quot, abs_of_nonneg hk, List.range_succ]
  have h2 : allSome (soilAt (shaft g k) .initial (0 : Fin (3 * 1 + 3) → ℝ)) = some (fun _ => ⟨(g, g), (0, 0), (k, k)⟩) := by
    rw [h1]
    simp [allSome]
  unfold buildStiffness
  rw [h2]
  simp [shaft]

theorem one_entry (ty : ElementType) (el : Fin 1 → Elem ℝ) (s : Fin 1 → SoilK ℝ) (r c : Fin 6) :
    soilStiffness ty 1 el s 0 0 0 r c = elemMatrix ty (el 0) (s 0) r c := by
  have hb : baseMatrix 1 (0 : ℝ) 0 0 r c = 0 := by
    simp [baseMatrix]
  have hp : (assemble 1 fun i => elemMatrix ty (el i) (s i)) r c = elemMatrix ty (el 0) (s 0) r c := by
    have h1 := r.2
    have h2 := c.2
    simp [assemble, place, h1, h2]
  show (assemble 1 fun i => elemMatrix ty (el i) (s i)) r c + baseMatrix 1 (0 : ℝ) 0 0 r c = _
  rw [hb, hp, add_zero]

theorem phi_solid (pi : ℝ) (hpi : 0 < pi) : phi .timoshenko (elP pi 0) = 59319 / 4384000 * 12 := by
  simp only [phi, kappa, elP, elemOf, shearMod, Pile.Section.area, Pile.Section.inertia, Pile.steel, solid]
  norm_num
  field_simp
  norm_num

/-- `C72_first_euler` on a pile that is held at its tip but free to rotate there, without lateral springs: rotational springs
along the shaft decide whether the analysis has a result. -/
example (k : ℝ) (hk : 0 ≤ k) (F : Fin (3 * 1 + 3) → ℝ) (maxIter : ℕ) :
    winkler (buildStiffness .eulerBernoulli (elP (22 / 7)) (shaft 0 k)) F 0 (![false, false, false, true, true, false]) maxIter
      = .nan 0 ↔ k = 0 := by
  have hel : Beam.GoodElems .eulerBernoulli (elP (22 / 7 : ℝ)) :=
    fun i => ⟨(SoilSupport.solid_good (22 / 7 : ℝ) (by norm_num) i).1, fun h => by cases h⟩
  have hrot : RotTables (shaft 0 k) := fun e b => .inr ⟨1, k, one_pos, 0, _, _, _, rfl, le_rfl, fun r hr => by cases hr⟩
  rw [C72_first_euler _ hel _ hrot _ (shaft_initial .eulerBernoulli _ 0 k le_rfl hk)]
  have h1 : AxiallyHeld (shaft 0 k) (fun i => (![false, false, false, true, true, false] : Fin 6 → Bool) i
      || decide ((0 : Fin (3 * 1 + 3) → ℝ) i ≠ 0)) := .inl ⟨1, rfl⟩
  have npy : ∀ e b, ¬ PyActs (shaft 0 k) e b := by
    rintro e b ⟨-, -, q0, q1, rest, e1, hne⟩
    simp only [shaft, List.cons.injEq] at e1
    rw [← e1.1, ← e1.2.1] at hne
    exact hne rfl
  constructor
  · intro h
    by_contra hne
    refine h ⟨h1, .inr ⟨1, .inl rfl, .inl (.inr (.inr ⟨0, false, rfl, ?_, 1, k,
      ⟨0, _, _, _, rfl, le_rfl, fun r hr => by cases hr⟩, hne⟩))⟩⟩
    rintro r hr
    cases hr
    norm_num
  · rintro rfl ⟨-, h⟩
    rcases h with ⟨e, b, h⟩ | ⟨j, hj, h⟩
    · exact npy e b h
    · rcases h with ((⟨j, hj⟩ | h | ⟨e, b, -, -, t, m, ⟨p0, q0, rest, more, e1, -⟩, hne⟩) | ⟨j', hj', h⟩)
      · fin_cases j <;> simp [dof] at hj
      · cases h.1
      · simp only [shaft, List.cons.injEq, Prod.mk.injEq] at e1
        exact hne e1.1.2.2.1.2.symm
      · have hn : ∀ j : Fin (1 + 1), NodeHeld (shaft 0 0) (fun i => (![false, false, false, true, true, false] : Fin 6 → Bool) i
            || decide ((0 : Fin (3 * 1 + 3) → ℝ) i ≠ 0)) j → j = 1 := by
          intro j hj
          rcases hj with h | ⟨-, h⟩
          · fin_cases j
            · simp [dof] at h
            · rfl
          · cases h.1
        exact hj' ((hn _ h).trans (hn _ hj).symm)

/-- **C72, violated.** A solid steel pile of 3 m diameter modelled with one Timoshenko element, with any lateral springs and
clamped at its tip: for some stiffness of its rotational springs the analysis ends with NaN, whatever the loads, although
the support holds the pile. -/
theorem C72_violated_timoshenko (pi : ℝ) (h3 : 3 ≤ pi) (g : ℝ) (hg : 0 ≤ g) :
    ∃ k, 0 < k ∧ AxiallyHeld (shaft g k) tipFixed ∧ LaterallyHeld (shaft g k) tipFixed ∧
      ∀ F maxIter, winkler (buildStiffness .timoshenko (elP pi) (shaft g k)) F 0 tipFixed maxIter = .nan 0 := by
  have hpi : 0 < pi := by linarith
  obtain ⟨D, hD⟩ := solid_coeffs pi hpi
  obtain ⟨A, eA⟩ : ∃ A : ℝ, A = 1944291717849 / 16229664378490 := ⟨_, rfl⟩
  obtain ⟨B, eB⟩ : ∃ B : ℝ, B = 120121600000 / 1622966437849 + 304057800000 / 648097239283 * pi := ⟨_, rfl⟩
  obtain ⟨C, eC⟩ : ∃ C : ℝ, C = 11718480189245 / 9737798627094 + 141118589821923 / 41478223314112 * pi := ⟨_, rfl⟩
  rw [← eA, ← eB, ← eC] at hD
  have key : A * C < B ^ 2 := by
    rw [eA, eC, eB]
    nlinarith
  have A0 : 0 < A := by rw [eA]; norm_num
  have hL : (elP pi 0).L = 10 := rfl
  obtain ⟨X, hX⟩ : ∃ X, X = (elP pi 0).E * (elP pi 0).I / (1 + 59319 / 4384000 * 12) := ⟨_, rfl⟩
  have X0 : 0 < X := by
    rw [hX]
    simp only [elP, elemOf, Pile.Section.inertia, Pile.steel, solid]
    norm_num
    positivity
  obtain ⟨a, ea⟩ : ∃ a, a = 12 / 1000 * X + 26 / 7 * g := ⟨_, rfl⟩
  obtain ⟨b, eb⟩ : ∃ b, b = 6 / 100 * X + 110 / 21 * g := ⟨_, rfl⟩
  obtain ⟨c, ec⟩ : ∃ c, c = (4 + 59319 / 4384000 * 12) / 10 * X + 200 / 21 * g := ⟨_, rfl⟩
  have pos : 0 < a * c - b ^ 2 := by
    rw [ea, eb, ec]
    have := mul_nonneg X0.le hg
    have := mul_pos X0 X0
    have := mul_nonneg hg hg
    ring_nf
    nlinarith
  have a0 : 0 < a := by rw [ea]; positivity
  -- the determinant of the two lateral equations of the head
  obtain ⟨q, hq⟩ : ∃ q : ℝ → ℝ, q = fun k => (a + k * A) * (c + k * C) - (b + k * B) ^ 2 := ⟨_, rfl⟩
  have hcont : Continuous q := by
    rw [hq]
    fun_prop
  have q0 : 0 < q 0 := by
    rw [hq]
    simpa using pos
  obtain ⟨T, hT0, hT⟩ : ∃ T, 0 < T ∧ q T ≤ 0 := by
    obtain ⟨e, he⟩ : ∃ e, e = B ^ 2 - A * C := ⟨_, rfl⟩
    have e0 : 0 < e := by linarith
    obtain ⟨s, hs⟩ : ∃ s, s = |a * C + A * c - 2 * b * B| + (a * c - b ^ 2) := ⟨_, rfl⟩
    have s1 := le_abs_self (a * C + A * c - 2 * b * B)
    have s2 := abs_nonneg (a * C + A * c - 2 * b * B)
    have s0 : 0 ≤ s := by linarith
    have se : 0 ≤ s / e := div_nonneg s0 e0.le
    refine ⟨1 + s / e, by linarith, ?_⟩
    obtain ⟨T, hTd⟩ : ∃ T, T = 1 + s / e := ⟨_, rfl⟩
    have hTe : e * T = e + s := by
      rw [hTd]
      field_simp
    have T1 : 1 ≤ T := by
      rw [hTd]
      linarith
    rw [← hTd, hq]
    have : (a + T * A) * (c + T * C) - (b + T * B) ^ 2 = (a * c - b ^ 2) + T * (a * C + A * c - 2 * b * B) - T * (e * T) := by
      rw [he]
      ring
    simp only
    rw [this, hTe]
    nlinarith
  obtain ⟨k, hk, hk0⟩ := intermediate_value_Icc' hT0.le hcont.continuousOn (show (0 : ℝ) ∈ Set.Icc (q T) (q 0) from ⟨hT, q0.le⟩)
  have kpos : 0 < k := by
    rcases hk.1.lt_or_eq with h | h
    · exact h
    · rw [← h] at hk0
      linarith
  refine ⟨k, kpos, .inl ⟨1, rfl⟩, .inr ⟨1, .inl rfl, .inl (.inl ⟨1, rfl⟩)⟩, ?_⟩
  intro F maxIter
  rw [first_pass _ _ (shaft_initial .timoshenko pi g k hg kpos.le) F 0 tipFixed maxIter]
  have hsup : (fun i => tipFixed i || decide ((0 : Fin (3 * 1 + 3) → ℝ) i ≠ 0)) = tipFixed := by
    funext i
    simp
  rw [hsup, C15_fails_iff]
  have hrow : ∀ (r : Fin 6) (w1 w2 : ℝ), (soilStiffness .timoshenko 1 (elP pi) (fun _ => ⟨(g, g), (0, 0), (k, k)⟩) 0 0 0 *ᵥ
      (![0, w1, w2, 0, 0, 0] : Fin 6 → ℝ)) r
      = elemMatrix .timoshenko (elP pi 0) ⟨(g, g), (0, 0), (k, k)⟩ r 1 * w1
        + elemMatrix .timoshenko (elP pi 0) ⟨(g, g), (0, 0), (k, k)⟩ r 2 * w2 := by
    intro r w1 w2
    have : ∀ c, soilStiffness .timoshenko 1 (elP pi) (fun _ => ⟨(g, g), (0, 0), (k, k)⟩) 0 0 0 r c = _ :=
      fun c => one_entry .timoshenko (elP pi) (fun _ => ⟨(g, g), (0, 0), (k, k)⟩) r c
    refine (Fin.sum_univ_six (fun c : Fin 6 => soilStiffness .timoshenko 1 (elP pi) (fun _ => ⟨(g, g), (0, 0), (k, k)⟩) 0 0 0 r c
      * (![0, w1, w2, 0, 0, 0] : Fin 6 → ℝ) c)).trans ?_
    simp only [this]
    simp
  have m : mtMatrix .timoshenko (elP pi 0) k k = k • mtPattern A B C D := by
    unfold mtMatrix
    rw [hD]
    simp only
    congr 1
    ring
  have hel : elemMatrix .timoshenko (elP pi 0) ⟨(g, g), (0, 0), (k, k)⟩ = beamMatrix 10 (elP pi 0).E (elP pi 0).A (elP pi 0).I
      (59319 / 4384000 * 12) + pyMatrix 10 g g + tzMatrix 10 0 0 + k • mtPattern A B C D := by
    unfold elemMatrix
    rw [m, hL]
    unfold mechMatrix
    rw [hL, phi_solid pi hpi]
  have hX' : (elP pi 0).E * (elP pi 0).I = X * (1 + 59319 / 4384000 * 12) := by
    rw [hX]
    field_simp
  have entries : elemMatrix .timoshenko (elP pi 0) ⟨(g, g), (0, 0), (k, k)⟩ 0 1 = 0 ∧
      elemMatrix .timoshenko (elP pi 0) ⟨(g, g), (0, 0), (k, k)⟩ 0 2 = 0 ∧
      elemMatrix .timoshenko (elP pi 0) ⟨(g, g), (0, 0), (k, k)⟩ 1 1 = a + k * A ∧
      elemMatrix .timoshenko (elP pi 0) ⟨(g, g), (0, 0), (k, k)⟩ 1 2 = b + k * B ∧
      elemMatrix .timoshenko (elP pi 0) ⟨(g, g), (0, 0), (k, k)⟩ 2 1 = b + k * B ∧
      elemMatrix .timoshenko (elP pi 0) ⟨(g, g), (0, 0), (k, k)⟩ 2 2 = c + k * C := by
    rw [hel]
    refine ⟨?_, ?_, ?_, ?_, ?_, ?_⟩
    · simp [beamMatrix, pyMatrix, tzMatrix, mtPattern]
    · simp [beamMatrix, pyMatrix, tzMatrix, mtPattern]
    all_goals
      simp [beamMatrix, pyMatrix, tzMatrix, mtPattern, mul_assoc, hX', ea, eb, ec]
      ring
  obtain ⟨n1, n2, n3, n4, n5, n6⟩ := entries
  have hdet : (a + k * A) * (c + k * C) = (b + k * B) ^ 2 := by
    rw [hq] at hk0
    simp only at hk0
    linarith
  refine ⟨(![0, -(b + k * B), a + k * A, 0, 0, 0] : Fin 6 → ℝ), ?_, ?_, ?_⟩
  · intro h
    have : (a + k * A) = 0 := congrFun h 2
    have : 0 < k * A := mul_pos kpos A0
    linarith
  · intro i hi
    fin_cases i
    · cases hi
    · cases hi
    · cases hi
    all_goals rfl
  · intro i hi
    fin_cases i
    · refine (hrow 0 _ _).trans ?_
      rw [n1, n2]
      ring
    · refine (hrow 1 _ _).trans ?_
      rw [n3, n4]
      ring
    · refine (hrow 2 _ _).trans ?_
      rw [n5, n6]
      linear_combination hdet
    all_goals cases hi

/-- Lateral springs of 1 MN/m2. -/
example : ∃ k, 0 < k ∧ AxiallyHeld (shaft 1000 k) tipFixed ∧ LaterallyHeld (shaft 1000 k) tipFixed ∧
    ∀ F maxIter, winkler (buildStiffness .timoshenko (elP (22 / 7)) (shaft 1000 k)) F 0 tipFixed maxIter = .nan 0 :=
  C72_violated_timoshenko (22 / 7) (by norm_num) 1000 (by norm_num)

end OpenPile.Props.Held
