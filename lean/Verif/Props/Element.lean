/-
Properties C16, C17, C18: element matrices.
-/
import Verif.Model.Kernel
import Verif.Model.Pile
import Verif.Spec.Kernel
import Mathlib.Tactic.FieldSimp
import Mathlib.Tactic.Ring
import Mathlib.Tactic.Linarith
import Mathlib.Tactic.Positivity
import Mathlib.Tactic.FinCases
import Mathlib.Algebra.Order.Ring.Rat
import Mathlib.Analysis.SpecialFunctions.Integrals.Basic

namespace OpenPile.Props.Element
open OpenPile.Kernel OpenPile.Spec.Kernel Matrix

section field
variable {K : Type} [Field K]

/-- The six entries of `M u` for the beam matrix. -/
theorem beam_mulVec (L E A I ph : K) (u : Fin 6 → K) :
    beamMatrix L E A I ph *ᵥ u =
      ![A * E / L * (u 0 - u 3),
        (12 * E * I) / ((1 + ph) * L ^ 3) * (u 1 - u 4) + (6 * E * I) / ((1 + ph) * L ^ 2) * (u 2 + u 5),
        (6 * E * I) / ((1 + ph) * L ^ 2) * (u 1 - u 4) + ((4 + ph) * E * I) / ((1 + ph) * L) * u 2
          + ((2 - ph) * E * I) / ((1 + ph) * L) * u 5,
        -(A * E / L * (u 0 - u 3)),
        -((12 * E * I) / ((1 + ph) * L ^ 3) * (u 1 - u 4) + (6 * E * I) / ((1 + ph) * L ^ 2) * (u 2 + u 5)),
        (6 * E * I) / ((1 + ph) * L ^ 2) * (u 1 - u 4) + ((2 - ph) * E * I) / ((1 + ph) * L) * u 2
          + ((4 + ph) * E * I) / ((1 + ph) * L) * u 5] := by
  funext i
  fin_cases i <;>
    simp [beamMatrix, mulVec, dotProduct, Fin.sum_univ_six] <;> ring

/-- **C16, symmetry.** -/
theorem C16_symmetric (ty : ElementType) (e : Elem K) : (mechMatrix ty e)ᵀ = mechMatrix ty e := by
  ext i j
  fin_cases i <;> fin_cases j <;> simp [mechMatrix, beamMatrix]

/-- **C16, equilibrium of the end forces** `(N, V, M)` at the top and at the bottom of the element,
including moments about the element top. -/
theorem C16_end_forces (ty : ElementType) (e : Elem K) (hL : e.L ≠ 0) (hp : 1 + phi ty e ≠ 0)
    (u : Fin 6 → K) :
    (mechMatrix ty e *ᵥ u) 0 + (mechMatrix ty e *ᵥ u) 3 = 0 ∧
    (mechMatrix ty e *ᵥ u) 1 + (mechMatrix ty e *ᵥ u) 4 = 0 ∧
    (mechMatrix ty e *ᵥ u) 2 + (mechMatrix ty e *ᵥ u) 5 + e.L * (mechMatrix ty e *ᵥ u) 4 = 0 := by
  simp only [mechMatrix, beam_mulVec]
  generalize phi ty e = ph at *
  refine ⟨?_, ?_, ?_⟩ <;> simp
  field_simp
  ring

/-- **C16, energy** as a sum of squares. -/
theorem C16_energy (ty : ElementType) (e : Elem K) (hL : e.L ≠ 0) (hp : 1 + phi ty e ≠ 0)
    (u : Fin 6 → K) :
    energy (mechMatrix ty e) u = e.E * e.A / e.L * (u 0 - u 3) ^ 2
      + e.E * e.I / e.L * ((u 2 - u 5) ^ 2
        + 3 / (1 + phi ty e) * (u 2 + u 5 - 2 * ((u 4 - u 1) / e.L)) ^ 2) := by
  simp only [energy, work, mechMatrix, beam_mulVec]
  generalize phi ty e = ph at *
  simp only [dotProduct, Fin.sum_univ_six]
  simp
  field_simp
  ring

end field

section ordered
variable {K : Type} [Field K] [LinearOrder K] [IsStrictOrderedRing K]

/-- Element data of a hollow or solid circular section (`0 < wt < d`; the inner diameter
`d - 2 wt` may be negative, only its square matters) of an accepted material. -/
structure GoodElem (e : Elem K) : Prop where
  L : 0 < e.L
  E : 0 < e.E
  A : 0 < e.A
  I : 0 < e.I
  d : 0 < e.d
  wt : 0 < e.wt
  wt_lt : e.wt < e.d
  nu : -1 < e.nu
  nu_le : e.nu ≤ 1 / 2

/-- Every accepted section with a wall thinner than its diameter gives such data. -/
theorem goodElem_of_built (pi : K) (hpi : 0 < pi) (uw E nu : K) (m : Pile.Material K)
    (hm : Pile.mkMaterial uw E nu = some m) (top bottom d : K) (t : Option K) (s : Pile.Section K)
    (hs : Pile.mkSection top bottom d t = .ok s) (ht : s.thickness < s.diameter) (L : K)
    (hL : 0 < L) : GoodElem (elemOf pi m s L) := by
  have hmm : 0 < uw ∧ 0 < E ∧ -1 < nu ∧ nu ≤ 1 / 2 ∧ m = ⟨uw, E, nu⟩ := by
    unfold Pile.mkMaterial at hm
    split_ifs at hm with h
    simp only [Option.some.injEq] at hm
    exact ⟨h.1, h.2.1, h.2.2.1, h.2.2.2, hm.symm⟩
  have hss : 0 < s.diameter ∧ 0 < s.thickness := by
    unfold Pile.mkSection at hs
    cases t with
    | none =>
      simp only at hs
      split_ifs at hs with h1 h2
      cases hs
      exact ⟨h1, by simp only; linarith⟩
    | some t =>
      simp only at hs
      split_ifs at hs with h1 h2 h3
      cases hs
      exact ⟨h1, h2⟩
  obtain ⟨-, hE, hn, hn2, rfl⟩ := hmm
  obtain ⟨hd, ht0⟩ := hss
  have hq : (s.diameter - 2 * s.thickness) ^ 2 < s.diameter ^ 2 := by
    have := mul_pos ht0 (sub_pos.2 ht)
    nlinarith
  constructor <;> simp only [elemOf] <;> try assumption
  · simp only [Pile.Section.area]
    have : 0 < pi * (s.diameter ^ 2 - (s.diameter - 2 * s.thickness) ^ 2) :=
      mul_pos hpi (by linarith)
    linarith
  · simp only [Pile.Section.inertia]
    have h4 : (s.diameter - 2 * s.thickness) ^ 4 < s.diameter ^ 4 := by
      have h0 : 0 ≤ (s.diameter - 2 * s.thickness) ^ 2 := sq_nonneg _
      nlinarith [sq_nonneg s.diameter]
    have : 0 < pi * (s.diameter ^ 4 - (s.diameter - 2 * s.thickness) ^ 4) :=
      mul_pos hpi (by linarith)
    linarith

theorem kappa_eq (e : Elem K) :
    kappa .timoshenko e = hutchinson (e.d / 2) ((e.d - 2 * e.wt) / 2) e.nu := by
  simp only [kappa, hutchinson]
  congr 1 <;> ring

theorem hutchinson_denom_pos (a b nu : K) (ha : 0 < a) (hnu : -(3 / 4) ≤ nu) :
    0 < 7 * a ^ 4 + 34 * a ^ 2 * b ^ 2 + 7 * b ^ 4
    + nu * (12 * a ^ 4 + 48 * a ^ 2 * b ^ 2 + 12 * b ^ 4)
    + nu ^ 2 * (4 * a ^ 4 + 16 * a ^ 2 * b ^ 2 + 4 * b ^ 4) := by
  have h1 : 0 < 7 + 12 * nu + 4 * nu ^ 2 := by nlinarith
  have h2 : 0 < 34 + 48 * nu + 16 * nu ^ 2 := by nlinarith
  have e : 7 * a ^ 4 + 34 * a ^ 2 * b ^ 2 + 7 * b ^ 4
    + nu * (12 * a ^ 4 + 48 * a ^ 2 * b ^ 2 + 12 * b ^ 4)
    + nu ^ 2 * (4 * a ^ 4 + 16 * a ^ 2 * b ^ 2 + 4 * b ^ 4)
    = (7 + 12 * nu + 4 * nu ^ 2) * (a ^ 4 + b ^ 4) + (34 + 48 * nu + 16 * nu ^ 2) * (a ^ 2 * b ^ 2) := by
    ring
  rw [e]
  have : 0 ≤ b ^ 4 := by positivity
  positivity

theorem hutchinson_pos (a b nu : K) (ha : 0 < a) (hnu : -(3 / 4) ≤ nu) : 0 < hutchinson a b nu := by
  have := hutchinson_denom_pos a b nu ha hnu
  have h1 : 0 < 1 + nu := by linarith
  unfold hutchinson
  have : 0 < a ^ 2 + b ^ 2 := by positivity
  positivity

/-- The shear coefficient of a hollow circle is smaller than one for ordinary materials. -/
theorem hutchinson_lt_one (a b nu : K) (ha : 0 < a) (hnu : 0 ≤ nu) (hnu2 : nu ≤ 1 / 2) :
    hutchinson a b nu < 1 := by
  have hd := hutchinson_denom_pos a b nu ha (by linarith)
  unfold hutchinson
  rw [div_lt_one hd]
  have h1 : 0 < 1 - 2 * nu ^ 2 := by nlinarith
  have : 0 ≤ b ^ 4 := by positivity
  have e : 7 * a ^ 4 + 34 * a ^ 2 * b ^ 2 + 7 * b ^ 4
    + nu * (12 * a ^ 4 + 48 * a ^ 2 * b ^ 2 + 12 * b ^ 4)
    + nu ^ 2 * (4 * a ^ 4 + 16 * a ^ 2 * b ^ 2 + 4 * b ^ 4)
    - 6 * (a ^ 2 + b ^ 2) ^ 2 * (1 + nu) ^ 2
    = (1 - 2 * nu ^ 2) * (a ^ 4 + b ^ 4) + (22 + 24 * nu + 4 * nu ^ 2) * (a ^ 2 * b ^ 2) := by ring
  have : 0 < (1 - 2 * nu ^ 2) * (a ^ 4 + b ^ 4) + (22 + 24 * nu + 4 * nu ^ 2) * (a ^ 2 * b ^ 2) := by
    positivity
  linarith

/-- Materials that are not strongly auxetic, or Euler-Bernoulli elements, have a non-negative shear
parameter. -/
theorem phi_nonneg (ty : ElementType) (e : Elem K) (he : GoodElem e)
    (hnu : ty = .timoshenko → -(3 / 4) ≤ e.nu) : 0 ≤ phi ty e := by
  cases ty with
  | eulerBernoulli => simp [phi, kappa]
  | timoshenko =>
    have hk := hutchinson_pos (e.d / 2) ((e.d - 2 * e.wt) / 2) e.nu (by linarith [he.d]) (hnu rfl)
    rw [← kappa_eq] at hk
    have := he.L; have := he.E; have := he.A; have := he.I; have := he.nu
    have hG : 0 < shearMod e := div_pos he.E (by linarith)
    unfold phi
    positivity

/-- **C16, energy is non-negative** (full claim: for every accepted material; strongly auxetic
materials, `-1 < nu < -3/4`, are excluded for Timoshenko elements, see
`C16_violated_auxetic`). -/
theorem C16_nonneg_partial (ty : ElementType) (e : Elem K) (he : GoodElem e)
    (hnu : ty = .timoshenko → -(3 / 4) ≤ e.nu) (u : Fin 6 → K) : 0 ≤ energy (mechMatrix ty e) u := by
  have hp := phi_nonneg ty e he hnu
  rw [C16_energy ty e he.L.ne' (by positivity)]
  have := he.L; have := he.E; have := he.A; have := he.I
  positivity

/-- **C16, the energy vanishes exactly for rigid-body motions** (same restriction). -/
theorem C16_zero_iff_rigid_partial (ty : ElementType) (e : Elem K) (he : GoodElem e)
    (hnu : ty = .timoshenko → -(3 / 4) ≤ e.nu) (u : Fin 6 → K) :
    energy (mechMatrix ty e) u = 0 ↔ RigidElem e.L u := by
  have hp := phi_nonneg ty e he hnu
  have hL := he.L; have := he.E; have := he.A; have := he.I
  rw [C16_energy ty e he.L.ne' (by positivity)]
  constructor
  · intro h
    have h1 : 0 ≤ e.E * e.A / e.L * (u 0 - u 3) ^ 2 := by positivity
    have h2 : 0 ≤ e.E * e.I / e.L * ((u 2 - u 5) ^ 2
        + 3 / (1 + phi ty e) * (u 2 + u 5 - 2 * ((u 4 - u 1) / e.L)) ^ 2) := by positivity
    have h3 : e.E * e.A / e.L * (u 0 - u 3) ^ 2 = 0 := by linarith
    have h4 : e.E * e.I / e.L * ((u 2 - u 5) ^ 2
        + 3 / (1 + phi ty e) * (u 2 + u 5 - 2 * ((u 4 - u 1) / e.L)) ^ 2) = 0 := by linarith
    have h5 : (u 0 - u 3) ^ 2 = 0 := by
      rcases mul_eq_zero.1 h3 with h | h
      · exact absurd h (by positivity)
      · exact h
    have h6 : (u 2 - u 5) ^ 2
        + 3 / (1 + phi ty e) * (u 2 + u 5 - 2 * ((u 4 - u 1) / e.L)) ^ 2 = 0 := by
      rcases mul_eq_zero.1 h4 with h | h
      · exact absurd h (by positivity)
      · exact h
    have h7 : 0 ≤ 3 / (1 + phi ty e) * (u 2 + u 5 - 2 * ((u 4 - u 1) / e.L)) ^ 2 := by positivity
    have h8 : (u 2 - u 5) ^ 2 = 0 := by linarith [sq_nonneg (u 2 - u 5)]
    have h9 : 3 / (1 + phi ty e) * (u 2 + u 5 - 2 * ((u 4 - u 1) / e.L)) ^ 2 = 0 := by linarith
    have h10 : (u 2 + u 5 - 2 * ((u 4 - u 1) / e.L)) ^ 2 = 0 := by
      rcases mul_eq_zero.1 h9 with h | h
      · exact absurd h (by positivity)
      · exact h
    have g1 := pow_eq_zero_iff (two_ne_zero) |>.1 h5
    have g2 := pow_eq_zero_iff (two_ne_zero) |>.1 h8
    have g3 := pow_eq_zero_iff (two_ne_zero) |>.1 h10
    refine ⟨by linarith, by linarith, ?_⟩
    have : (u 4 - u 1) / e.L = u 2 := by linarith
    rw [div_eq_iff hL.ne'] at this
    linarith
  · rintro ⟨h0, h5, h4⟩
    rw [h0, h5, h4]
    field_simp
    ring

/-- **C16, shear deformation only softens**: the Timoshenko energy is at most the Euler-Bernoulli
energy, and the Euler-Bernoulli matrix is the Timoshenko formula at zero shear parameter. -/
theorem C16_timoshenko_le_euler (e : Elem K) (he : GoodElem e) (hnu : -(3 / 4) ≤ e.nu)
    (u : Fin 6 → K) :
    energy (mechMatrix .timoshenko e) u ≤ energy (mechMatrix .eulerBernoulli e) u ∧
    mechMatrix .eulerBernoulli e =
      !![e.A * e.E / e.L, 0, 0, -(e.A * e.E / e.L), 0, 0;
         0, 12 * e.E * e.I / e.L ^ 3, 6 * e.E * e.I / e.L ^ 2, 0, -(12 * e.E * e.I / e.L ^ 3), 6 * e.E * e.I / e.L ^ 2;
         0, 6 * e.E * e.I / e.L ^ 2, 4 * e.E * e.I / e.L, 0, -(6 * e.E * e.I / e.L ^ 2), 2 * e.E * e.I / e.L;
         -(e.A * e.E / e.L), 0, 0, e.A * e.E / e.L, 0, 0;
         0, -(12 * e.E * e.I / e.L ^ 3), -(6 * e.E * e.I / e.L ^ 2), 0, 12 * e.E * e.I / e.L ^ 3, -(6 * e.E * e.I / e.L ^ 2);
         0, 6 * e.E * e.I / e.L ^ 2, 2 * e.E * e.I / e.L, 0, -(6 * e.E * e.I / e.L ^ 2), 4 * e.E * e.I / e.L] := by
  have hp := phi_nonneg .timoshenko e he (fun _ => hnu)
  have h0 : phi .eulerBernoulli e = 0 := by simp [phi, kappa]
  have hL := he.L; have := he.E; have := he.A; have := he.I
  constructor
  · rw [C16_energy .timoshenko e he.L.ne' (by positivity),
      C16_energy .eulerBernoulli e he.L.ne' (by rw [h0]; simp), h0]
    have : 3 / (1 + phi .timoshenko e) ≤ 3 / (1 + 0) := by
      apply div_le_div_of_nonneg_left <;> linarith
    have := mul_le_mul_of_nonneg_right this (sq_nonneg (u 2 + u 5 - 2 * ((u 4 - u 1) / e.L)))
    have h2 : 0 ≤ e.E * e.I / e.L := by positivity
    have := mul_le_mul_of_nonneg_left (add_le_add_left this ((u 2 - u 5) ^ 2)) h2
    linarith
  · simp [mechMatrix, beamMatrix, h0]

/-- A hollow steel section of unit size (`pi` replaced by 3): the hypotheses of the C16 theorems are
met. -/
theorem goodElem_example : GoodElem (elemOf (3 : ℚ) Pile.steel ⟨0, -10, 1, 1 / 20⟩ 1) ∧
    -(3 / 4) ≤ (elemOf (3 : ℚ) Pile.steel ⟨0, -10, 1, 1 / 20⟩ 1).nu := by
  refine ⟨?_, by simp only [elemOf, Pile.steel]; norm_num⟩
  apply goodElem_of_built 3 (by norm_num) 78 210000000 (3 / 10) Pile.steel (by decide +kernel)
    0 (-10) 1 (some (1 / 20)) _ (by decide +kernel) (by norm_num) 1 (by norm_num)

/-- **C16, violated for strongly auxetic materials.** A solid section of 5 m diameter, element
length 0.5 m, with the accepted Poisson's ratio -0.9: the Timoshenko energy of a lateral offset is
negative, for every value of pi. -/
theorem C16_violated_auxetic (pi : K) (hpi : 0 < pi) :
    ∃ (m : Pile.Material K) (s : Pile.Section K) (u : Fin 6 → K),
      Pile.mkMaterial 78 210000000 (-9 / 10) = some m ∧
      Pile.mkSection 0 (-10) 5 none = .ok s ∧
      energy (mechMatrix .timoshenko (elemOf pi m s (1 / 2))) u < 0 := by
  refine ⟨⟨78, 210000000, -9 / 10⟩, ⟨0, -10, 5, 5 / 2⟩, ![0, 1, 0, 0, 0, 0], ?_, ?_, ?_⟩
  · unfold Pile.mkMaterial
    rw [if_pos]
    norm_num
  · unfold Pile.mkSection
    norm_num
  · have hp : phi .timoshenko (elemOf pi ⟨78, 210000000, -9 / 10⟩ ⟨0, -10, 5, 5 / 2⟩ (1 / 2))
        = -(45 / 28) := by
      simp only [phi, kappa, elemOf, shearMod, Pile.Section.area, Pile.Section.inertia]
      norm_num
      field_simp
      norm_num
    rw [C16_energy _ _ (by simp [elemOf]) (by rw [hp]; norm_num), hp]
    simp only [elemOf, Pile.Section.inertia]
    simp
    norm_num
    nlinarith

/-! ## C17 shear coefficient -/

/-- **C17, what the code uses.** The shear parameter contains Hutchinson's shear coefficient as a
factor of the numerator: it is the textbook parameter times the coefficient squared. -/
theorem C17_phi_partial (e : Elem K) (he : GoodElem e) (hnu : -(3 / 4) ≤ e.nu) :
    phi .timoshenko e = hutchinson (e.d / 2) ((e.d - 2 * e.wt) / 2) e.nu ^ 2
      * textbookPhi (hutchinson (e.d / 2) ((e.d - 2 * e.wt) / 2) e.nu) e.E e.A e.I e.nu e.L := by
  have hk := hutchinson_pos (e.d / 2) ((e.d - 2 * e.wt) / 2) e.nu (by linarith [he.d]) hnu
  unfold phi textbookPhi shearMod
  rw [kappa_eq]
  generalize hutchinson (e.d / 2) ((e.d - 2 * e.wt) / 2) e.nu = k at *
  have := he.L; have := he.E; have := he.A; have := he.I
  have h1 : 0 < 1 + e.nu := by linarith [he.nu]
  have h2 : 2 + 2 * e.nu = 2 * (1 + e.nu) := by ring
  rw [h2]
  field_simp

/-- **C17, observable effect.** An element clamped at its bottom and loaded laterally at its top
deflects by bending `L³/(3EI)` plus `k L / (A G)`, the coefficient `k` multiplying the shear
compliance instead of dividing it. -/
theorem C17_cantilever_partial (e : Elem K) (he : GoodElem e) (hnu : -(3 / 4) ≤ e.nu) (P : K)
    (u : Fin 6 → K) (hc : u 3 = 0 ∧ u 4 = 0 ∧ u 5 = 0)
    (h1 : (mechMatrix .timoshenko e *ᵥ u) 1 = P) (h2 : (mechMatrix .timoshenko e *ᵥ u) 2 = 0) :
    u 1 = P * (e.L ^ 3 / (3 * e.E * e.I)
      + hutchinson (e.d / 2) ((e.d - 2 * e.wt) / 2) e.nu * e.L / (e.A * (e.E / (2 * (1 + e.nu))))) := by
  have hp := phi_nonneg .timoshenko e he (fun _ => hnu)
  have hL := he.L; have hE := he.E; have hA := he.A; have hI := he.I
  have hn : 0 < 1 + e.nu := by linarith [he.nu]
  have e1 : hutchinson (e.d / 2) ((e.d - 2 * e.wt) / 2) e.nu * e.L / (e.A * (e.E / (2 * (1 + e.nu))))
      = phi .timoshenko e * e.L ^ 3 / (12 * e.E * e.I) := by
    unfold phi shearMod
    rw [kappa_eq]
    have h2 : 2 + 2 * e.nu = 2 * (1 + e.nu) := by ring
    rw [h2]
    field_simp
  rw [e1]
  simp only [mechMatrix, beam_mulVec] at h1 h2
  generalize phi .timoshenko e = ph at *
  simp [hc.1, hc.2.1, hc.2.2] at h1 h2
  have hq : (1 + ph) ≠ 0 := by positivity
  have g1 : e.E * e.I * (12 * u 1 + 6 * e.L * u 2) = P * (1 + ph) * e.L ^ 3 := by
    rw [← h1]; field_simp
  have g2 : 6 * u 1 + (4 + ph) * e.L * u 2 = 0 := by
    have : e.E * e.I / ((1 + ph) * e.L ^ 2) * (6 * u 1 + (4 + ph) * e.L * u 2) = 0 := by
      rw [← h2]; field_simp
    rcases mul_eq_zero.1 this with h | h
    · exact absurd h (by positivity)
    · exact h
  have g3 : (1 + ph) * (12 * e.E * e.I * u 1) = (1 + ph) * (P * (4 + ph) * e.L ^ 3) := by
    linear_combination (4 + ph) * g1 - 6 * e.E * e.I * g2
  have g4 := mul_left_cancel₀ hq g3
  have g5 : u 1 = P * (4 + ph) * e.L ^ 3 / (12 * e.E * e.I) := by
    rw [eq_div_iff (by positivity)]
    linear_combination g4
  rw [g5]
  field_simp
  ring

/-- **C17, violated.** For every section and every ordinary material (`0 ≤ nu ≤ 1/2`) the shear
parameter is smaller than `12 E I / (k A G L²)`: the shear deformation is underestimated. -/
theorem C17_violated (e : Elem K) (he : GoodElem e) (hnu : 0 ≤ e.nu) :
    phi .timoshenko e <
      textbookPhi (hutchinson (e.d / 2) ((e.d - 2 * e.wt) / 2) e.nu) e.E e.A e.I e.nu e.L := by
  have hk := hutchinson_pos (e.d / 2) ((e.d - 2 * e.wt) / 2) e.nu (by linarith [he.d]) (by linarith)
  have hk1 := hutchinson_lt_one (e.d / 2) ((e.d - 2 * e.wt) / 2) e.nu (by linarith [he.d]) hnu he.nu_le
  rw [C17_phi_partial e he (by linarith)]
  generalize hutchinson (e.d / 2) ((e.d - 2 * e.wt) / 2) e.nu = k at *
  have hT : 0 < textbookPhi k e.E e.A e.I e.nu e.L := by
    have := he.L; have := he.E; have := he.A; have := he.I
    unfold textbookPhi
    have h1 : 0 < 1 + e.nu := by linarith
    positivity
  have : k ^ 2 < 1 := by nlinarith
  nlinarith

/-- **C17, violated: wrong trend.** Among elements with the same stiffnesses, a larger shear
coefficient gives a softer element (textbook: stiffer). -/
theorem C17_violated_trend (e e' : Elem K) (he : GoodElem e) (he' : GoodElem e')
    (hnu : 0 ≤ e.nu) (hsame : e'.E = e.E ∧ e'.A = e.A ∧ e'.I = e.I ∧ e'.L = e.L ∧ e'.nu = e.nu)
    (hk : hutchinson (e.d / 2) ((e.d - 2 * e.wt) / 2) e.nu
      < hutchinson (e'.d / 2) ((e'.d - 2 * e'.wt) / 2) e'.nu) :
    phi .timoshenko e < phi .timoshenko e' := by
  obtain ⟨h1, h2, h3, h4, h5⟩ := hsame
  have hk0 := hutchinson_pos (e.d / 2) ((e.d - 2 * e.wt) / 2) e.nu (by linarith [he.d]) (by linarith)
  unfold phi shearMod
  rw [kappa_eq, kappa_eq, h1, h2, h3, h4]
  rw [show e.E / (2 + 2 * e'.nu) = e.E / (2 + 2 * e.nu) by rw [h5]]
  have := he.L; have := he.E; have := he.A; have := he.I
  have hn : 0 < 2 + 2 * e.nu := by linarith
  apply div_lt_div_of_pos_right _ (by positivity)
  apply mul_lt_mul_of_pos_left hk (by positivity)

/-! ## C18 soil element matrices: symmetry and non-negative energy -/

/-- **C18, symmetry** of the lateral, axial and rotational soil matrices. -/
theorem C18_symmetric (ty : ElementType) (e : Elem K) (kt kb : K) :
    (pyMatrix e.L kt kb)ᵀ = pyMatrix e.L kt kb ∧ (tzMatrix e.L kt kb)ᵀ = tzMatrix e.L kt kb ∧
    (mtMatrix ty e kt kb)ᵀ = mtMatrix ty e kt kb := by
  refine ⟨?_, ?_, ?_⟩
  · ext i j
    fin_cases i <;> fin_cases j <;> simp [pyMatrix]
  · ext i j
    fin_cases i <;> fin_cases j <;> simp [tzMatrix]
  · ext i j
    rcases h : mtCoeffs ty e with ⟨A, B, C, D⟩
    fin_cases i <;> fin_cases j <;> simp [mtMatrix, mtPattern, h]

theorem py_energy (L kt kb : K) (u : Fin 6 → K) :
    energy (pyMatrix L kt kb) u =
    kt * L * (2 / 7 * (u 1 + 1 / 8 * (L * u 2) + 9 / 40 * u 4 - 7 / 120 * (L * u 5)) ^ 2
      + 1 / 672 * (L * u 2 + 21 / 5 * u 4 - L * u 5) ^ 2 + 9 / 200 * (u 4 - 4 / 27 * (L * u 5)) ^ 2
      + 1 / 8100 * (L * u 5) ^ 2)
    + kb * L * (3 / 35 * (u 1 + 7 / 36 * (L * u 2) + 3 / 4 * u 4 - 1 / 6 * (L * u 5)) ^ 2
      + 1 / 3024 * (L * u 2 + 63 / 5 * u 4 - 12 / 5 * (L * u 5)) ^ 2
      + 37 / 200 * (u 4 - 3 / 37 * (L * u 5)) ^ 2 + 1 / 2220 * (L * u 5) ^ 2) := by
  simp [energy, work, pyMatrix, dotProduct, mulVec, Fin.sum_univ_six]
  ring

theorem tz_energy (L kt kb : K) (u : Fin 6 → K) :
    energy (tzMatrix L kt kb) u =
    kt * L * (1 / 4 * (u 0 + 1 / 3 * u 3) ^ 2 + 1 / 18 * u 3 ^ 2)
    + kb * L * (1 / 4 * (u 3 + 1 / 3 * u 0) ^ 2 + 1 / 18 * u 0 ^ 2) := by
  simp [energy, work, tzMatrix, dotProduct, mulVec, Fin.sum_univ_six]
  ring

theorem mt_energy (A B C D : K) (u : Fin 6 → K) :
    energy (mtPattern A B C D) u =
    A * (u 1 - u 4) ^ 2 + 2 * B * (u 1 - u 4) * (u 2 + u 5) + (C + D) / 2 * (u 2 + u 5) ^ 2
      + (C - D) / 2 * (u 2 - u 5) ^ 2 := by
  simp [energy, work, mtPattern, dotProduct, mulVec, Fin.sum_univ_six]
  ring

theorem sq_zero (x X : K) (hX : 0 < X) (h : X * x ^ 2 = 0) : x = 0 := by
  rcases mul_eq_zero.1 h with h | h
  · exact absurd h hX.ne'
  · exact pow_eq_zero_iff two_ne_zero |>.1 h

theorem sq4_zero (a b c d A B C D : K) (hA : 0 < A) (hB : 0 < B) (hC : 0 < C) (hD : 0 < D)
    (h : A * a ^ 2 + B * b ^ 2 + C * c ^ 2 + D * d ^ 2 = 0) : a = 0 ∧ b = 0 ∧ c = 0 ∧ d = 0 := by
  have ha : 0 ≤ A * a ^ 2 := by positivity
  have hb : 0 ≤ B * b ^ 2 := by positivity
  have hc : 0 ≤ C * c ^ 2 := by positivity
  have hd : 0 ≤ D * d ^ 2 := by positivity
  exact ⟨sq_zero a A hA (by linarith), sq_zero b B hB (by linarith), sq_zero c C hC (by linarith),
    sq_zero d D hD (by linarith)⟩

theorem weighted_zero (a b x y : K) (ha : 0 ≤ a) (hb : 0 ≤ b) (hx : 0 ≤ x) (hy : 0 ≤ y)
    (h0 : 0 < a ∨ 0 < b) (h : a * x + b * y = 0) : x = 0 ∨ y = 0 := by
  have h1 := mul_nonneg ha hx
  have h2 := mul_nonneg hb hy
  rcases h0 with h0 | h0
  · left
    rcases mul_eq_zero.1 (show a * x = 0 by linarith) with h | h
    · exact absurd h h0.ne'
    · exact h
  · right
    rcases mul_eq_zero.1 (show b * y = 0 by linarith) with h | h
    · exact absurd h h0.ne'
    · exact h

theorem py_zero (L kt kb : K) (hL : 0 < L) (ht : 0 ≤ kt) (hb : 0 ≤ kb) (u : Fin 6 → K)
    (h0 : 0 < kt ∨ 0 < kb) (h : energy (pyMatrix L kt kb) u = 0) :
    u 1 = 0 ∧ u 2 = 0 ∧ u 4 = 0 ∧ u 5 = 0 := by
  rw [py_energy] at h
  have h0' : 0 < kt * L ∨ 0 < kb * L := h0.imp (fun h => mul_pos h hL) (fun h => mul_pos h hL)
  have fin : ∀ p q r p' q' r' : K, u 1 + p * (L * u 2) + q * u 4 - r * (L * u 5) = 0 →
      L * u 2 + p' * u 4 - q' * (L * u 5) = 0 → u 4 - r' * (L * u 5) = 0 → L * u 5 = 0 →
      u 1 = 0 ∧ u 2 = 0 ∧ u 4 = 0 ∧ u 5 = 0 := by
    intro p q r p' q' r' a b c d
    rw [d] at a b c
    have h4 : u 4 = 0 := by linear_combination c
    rw [h4] at a b
    have h2 : L * u 2 = 0 := by linear_combination b
    rw [h2] at a
    exact ⟨by linear_combination a, (mul_eq_zero.1 h2).resolve_left hL.ne', h4,
      (mul_eq_zero.1 d).resolve_left hL.ne'⟩
  rcases weighted_zero _ _ _ _ (mul_nonneg ht hL.le) (mul_nonneg hb hL.le) (by positivity)
    (by positivity) h0' h with h | h
  · obtain ⟨a, b, c, d⟩ := sq4_zero _ _ _ _ _ _ _ _ (by norm_num) (by norm_num) (by norm_num)
      (by norm_num) h
    exact fin _ _ _ (21 / 5) 1 _ a (by linear_combination b) c d
  · obtain ⟨a, b, c, d⟩ := sq4_zero _ _ _ _ _ _ _ _ (by norm_num) (by norm_num) (by norm_num)
      (by norm_num) h
    exact fin _ _ _ _ _ _ a b c d

theorem tz_zero (L kt kb : K) (hL : 0 < L) (ht : 0 ≤ kt) (hb : 0 ≤ kb) (u : Fin 6 → K)
    (h0 : 0 < kt ∨ 0 < kb) (h : energy (tzMatrix L kt kb) u = 0) : u 0 = 0 ∧ u 3 = 0 := by
  rw [tz_energy] at h
  have h0' : 0 < kt * L ∨ 0 < kb * L := h0.imp (fun h => mul_pos h hL) (fun h => mul_pos h hL)
  rcases weighted_zero _ _ _ _ (mul_nonneg ht hL.le) (mul_nonneg hb hL.le) (by positivity)
    (by positivity) h0' h with h | h
  · obtain ⟨a, b, -⟩ := sq4_zero (u 0 + 1 / 3 * u 3) (u 3) 0 0 (1 / 4) (1 / 18) 1 1 (by norm_num)
      (by norm_num) one_pos one_pos (by linear_combination h)
    rw [b] at a
    exact ⟨by linear_combination a, b⟩
  · obtain ⟨a, b, -⟩ := sq4_zero (u 3 + 1 / 3 * u 0) (u 0) 0 0 (1 / 4) (1 / 18) 1 1 (by norm_num)
      (by norm_num) one_pos one_pos (by linear_combination h)
    rw [b] at a
    exact ⟨b, by linear_combination a⟩

/-- **C18, non-negative energy** of the lateral and axial matrices; if one end has positive
stiffness, a field without spring energy is zero. -/
theorem C18_nonneg (L kt kb : K) (hL : 0 < L) (ht : 0 ≤ kt) (hb : 0 ≤ kb) (u : Fin 6 → K) :
    0 ≤ energy (pyMatrix L kt kb) u ∧ 0 ≤ energy (tzMatrix L kt kb) u ∧
    (0 < kt ∨ 0 < kb → energy (pyMatrix L kt kb) u = 0 → u 1 = 0 ∧ u 2 = 0 ∧ u 4 = 0 ∧ u 5 = 0) ∧
    (0 < kt ∨ 0 < kb → energy (tzMatrix L kt kb) u = 0 → u 0 = 0 ∧ u 3 = 0) :=
  ⟨by rw [py_energy]; positivity, by rw [tz_energy]; positivity,
    py_zero L kt kb hL ht hb u, tz_zero L kt kb hL ht hb u⟩

theorem mtMatrix_energy (ty : ElementType) (e : Elem K) (kt kb : K) (u : Fin 6 → K) :
    energy (mtMatrix ty e kt kb) u = (1 / 2 * kt + 1 / 2 * kb)
      * energy (mtPattern (mtCoeffs ty e).1 (mtCoeffs ty e).2.1 (mtCoeffs ty e).2.2.1
          (mtCoeffs ty e).2.2.2) u := by
  simp only [mtMatrix, energy, work, smul_mulVec, dotProduct_smul, smul_eq_mul]

/-- **C18, rotational springs, Euler-Bernoulli elements**: non-negative energy. -/
theorem C18_mt_nonneg_euler (e : Elem K) (hL : 0 < e.L) (kt kb : K) (ht : 0 ≤ kt) (hb : 0 ≤ kb)
    (u : Fin 6 → K) : 0 ≤ energy (mtMatrix .eulerBernoulli e kt kb) u := by
  rw [mtMatrix_energy, mt_energy]
  apply mul_nonneg (by positivity)
  simp only [mtCoeffs]
  have : 6 / (5 * e.L) * (u 1 - u 4) ^ 2 + 2 * (1 / 10) * (u 1 - u 4) * (u 2 + u 5)
      + (2 * e.L / 15 + -e.L / 30) / 2 * (u 2 + u 5) ^ 2
      + (2 * e.L / 15 - -e.L / 30) / 2 * (u 2 - u 5) ^ 2
      = e.L * (6 / 5 * ((u 1 - u 4) / e.L + (u 2 + u 5) / 12) ^ 2 + 1 / 24 * (u 2 + u 5) ^ 2
        + 1 / 12 * (u 2 - u 5) ^ 2) := by
    field_simp
    ring
  rw [this]
  positivity

/-- A symmetric 2x2 form is non-negative exactly when its diagonal and its determinant are. -/
theorem form2 (A B G : K) (hA : 0 < A) :
    (∀ x y : K, 0 ≤ A * x ^ 2 + 2 * B * x * y + G * y ^ 2) ↔ B ^ 2 ≤ A * G := by
  constructor
  · intro h
    have := h (-B) A
    have h2 : A * (-B) ^ 2 + 2 * B * -B * A + G * A ^ 2 = A * (A * G - B ^ 2) := by ring
    rw [h2] at this
    have := nonneg_of_mul_nonneg_right this hA
    linarith
  · intro h x y
    have : A * (A * x ^ 2 + 2 * B * x * y + G * y ^ 2) = (A * x + B * y) ^ 2 + (A * G - B ^ 2) * y ^ 2 := by
      ring
    have h3 : 0 ≤ A * (A * x ^ 2 + 2 * B * x * y + G * y ^ 2) := by
      rw [this]
      have : 0 ≤ A * G - B ^ 2 := by linarith
      positivity
    exact nonneg_of_mul_nonneg_right h3 hA

/-- `omega` of the moment-rotation matrix (kernel.py 537), in terms of the element data. -/
def mtOmega (e : Elem K) : K := phi .timoshenko e / 12

/-- The scaled coefficient `A L (12 ω + 1)²` of the Timoshenko moment-rotation matrix. -/
def mtX (e : Elem K) : K :=
  6 / 5 * (120 * mtOmega e ^ 2 + 20 * mtOmega e + 1) + 12 * e.I / (e.A * e.L ^ 2)

/-- **C18, rotational springs, Timoshenko elements.** The matrix has non-negative energy for all
displacements exactly under a size condition on the second moment of area (full claim: always; the
condition is an artefact of the overwritten area variable, see `C18_violated_mt`). -/
theorem C18_mt_nonneg_timoshenko_partial (e : Elem K) (he : GoodElem e) (hnu : -(3 / 4) ≤ e.nu)
    (kt kb : K) (ht : 0 < kt) (hb : 0 < kb) :
    (∀ u, 0 ≤ energy (mtMatrix .timoshenko e kt kb) u) ↔
      12 * e.I * (12 * mtOmega e + 1) ^ 2 ≤ e.L * mtX e * (mtX e - 1 / 5) := by
  have hL := he.L; have hE := he.E; have hA := he.A; have hI := he.I
  have hw : 0 ≤ mtOmega e := div_nonneg (phi_nonneg .timoshenko e he (fun _ => hnu)) (by norm_num)
  have hom : e.E * e.I * kappa .timoshenko e / (e.A * shearMod e * e.L ^ 2) = mtOmega e := by
    unfold mtOmega phi; ring
  have hX : 0 < mtX e := by unfold mtX; positivity
  simp only [mtMatrix_energy, mt_energy]
  simp only [mtCoeffs, hom]
  have hA' : 6 * (120 * mtOmega e ^ 2 + 20 * mtOmega e + 1) / (5 * e.L * (12 * mtOmega e + 1) ^ 2)
      + 12 * e.I / (e.A * e.L ^ 3 * (12 * mtOmega e + 1) ^ 2)
      = mtX e / (e.L * (12 * mtOmega e + 1) ^ 2) := by
    unfold mtX
    field_simp
  simp only [hA']
  generalize mtX e = X at *
  generalize mtOmega e = w at *
  have hph : 0 < 12 * w + 1 := by positivity
  set ph := (12 * w + 1) ^ 2 with hphd
  have hph2 : 0 < ph := by positivity
  set R := e.I * ph / (X * e.L) with hR
  have hR0 : 0 < R := by positivity
  have eB : 1 / (10 * ph) + 6 * e.I / (X / (e.L * ph) * e.L ^ 2 * ph) = (1 / 10 + 6 * R) / ph := by
    rw [hR]; field_simp
  have eG : ((2 * e.L * (90 * w ^ 2 + 15 * w + 1)) / (15 * ph)
      + 4 * e.I * (36 * w ^ 2 + 6 * w + 1) / (X / (e.L * ph) * e.L * ph)
      + (-e.L * (360 * w ^ 2 + 60 * w + 1) / (30 * ph)
      - 2 * e.I * (72 * w ^ 2 + 12 * w - 1) / (X / (e.L * ph) * e.L * ph))) / 2
      = e.L * (1 / 20 + 3 * R) / ph := by
    rw [hR]; field_simp; ring
  have eH : ((2 * e.L * (90 * w ^ 2 + 15 * w + 1)) / (15 * ph)
      + 4 * e.I * (36 * w ^ 2 + 6 * w + 1) / (X / (e.L * ph) * e.L * ph)
      - (-e.L * (360 * w ^ 2 + 60 * w + 1) / (30 * ph)
      - 2 * e.I * (72 * w ^ 2 + 12 * w - 1) / (X / (e.L * ph) * e.L * ph))) / 2
      = e.L * ((720 * w ^ 2 + 120 * w + 5) / 60 + R * (144 * w ^ 2 + 24 * w + 1)) / ph := by
    rw [hR]; field_simp; ring
  rw [eB, eG, eH]
  have hcond : ((1 / 10 + 6 * R) / ph) ^ 2 ≤ X / (e.L * ph) * (e.L * (1 / 20 + 3 * R) / ph) ↔
      12 * e.I * ph ≤ e.L * X * (X - 1 / 5) := by
    have h1 : X / (e.L * ph) * (e.L * (1 / 20 + 3 * R) / ph) - ((1 / 10 + 6 * R) / ph) ^ 2
        = (1 / 20 + 3 * R) / ph ^ 2 * (X - 1 / 5 - 12 * R) := by
      field_simp; ring
    have h2 : 0 < (1 / 20 + 3 * R) / ph ^ 2 := by positivity
    have h3 : 12 * R ≤ X - 1 / 5 ↔ 12 * e.I * ph ≤ e.L * X * (X - 1 / 5) := by
      rw [hR, show 12 * (e.I * ph / (X * e.L)) = 12 * e.I * ph / (X * e.L) by ring,
        div_le_iff₀ (by positivity)]
      constructor <;> intro h <;> linarith
    rw [← h3, ← sub_nonneg, h1, mul_nonneg_iff_of_pos_left h2]
    constructor <;> intro h <;> linarith
  rw [← hcond, ← form2 _ _ _ (by positivity)]
  constructor
  · intro h x y
    have := h ![0, x, y / 2, 0, 0, y / 2]
    have hk : 0 < 1 / 2 * kt + 1 / 2 * kb := by positivity
    have := nonneg_of_mul_nonneg_right this hk
    simp at this
    simpa using this
  · intro h u
    apply mul_nonneg (by positivity)
    have := h (u 1 - u 4) (u 2 + u 5)
    have : 0 ≤ e.L * ((720 * w ^ 2 + 120 * w + 5) / 60 + R * (144 * w ^ 2 + 24 * w + 1)) / ph
      * (u 2 - u 5) ^ 2 := by positivity
    linarith

/-- **C18, violated for Timoshenko elements.** A solid steel pile of 3 m diameter meshed with 10 m
elements: for every `pi ≥ 3` the rotational soil matrix has negative energy for some displacement. -/
theorem C18_violated_mt (pi : K) (hpi : 3 ≤ pi) (kt kb : K) (ht : 0 < kt) (hb : 0 < kb) :
    ∃ (s : Pile.Section K) (u : Fin 6 → K), Pile.mkSection 0 (-100) 3 none = .ok s ∧
      energy (mtMatrix .timoshenko (elemOf pi Pile.steel s 10) kt kb) u < 0 := by
  have hpi0 : 0 < pi := by linarith
  have hs : Pile.mkSection (0 : K) (-100) 3 none = .ok ⟨0, -100, 3, 3 / 2⟩ := by
    unfold Pile.mkSection; norm_num
  have hm : Pile.mkMaterial (78 : K) 210000000 (3 / 10) = some Pile.steel := by
    unfold Pile.mkMaterial Pile.steel; norm_num
  have he := goodElem_of_built pi hpi0 78 210000000 (3 / 10) Pile.steel hm 0 (-100) 3 none
    ⟨0, -100, 3, 3 / 2⟩ hs (by norm_num) 10 (by norm_num)
  have h := C18_mt_nonneg_timoshenko_partial _ he (by simp only [elemOf, Pile.steel]; norm_num) kt kb ht hb
  by_contra hcon
  push Not at hcon
  have h2 := h.1 (fun u => hcon _ u hs)
  have hw : mtOmega (elemOf pi Pile.steel (⟨0, -100, 3, 3 / 2⟩ : Pile.Section K) 10)
      = 59319 / 4384000 := by
    simp only [mtOmega, phi, kappa, elemOf, shearMod, Pile.Section.area, Pile.Section.inertia,
      Pile.steel]
    norm_num
    field_simp
    norm_num
  have hr : 12 * (elemOf pi Pile.steel (⟨0, -100, 3, 3 / 2⟩ : Pile.Section K) 10).I
      / ((elemOf pi Pile.steel (⟨0, -100, 3, 3 / 2⟩ : Pile.Section K) 10).A * 10 ^ 2) = 27 / 400 := by
    simp only [elemOf, Pile.Section.area, Pile.Section.inertia]
    field_simp
    norm_num
  have hX : mtX (elemOf pi Pile.steel (⟨0, -100, 3, 3 / 2⟩ : Pile.Section K) 10) ≤ 2 := by
    unfold mtX
    rw [hw, show (elemOf pi Pile.steel (⟨0, -100, 3, 3 / 2⟩ : Pile.Section K) 10).L = 10 from rfl, hr]
    norm_num
  have hX0 : 1 ≤ mtX (elemOf pi Pile.steel (⟨0, -100, 3, 3 / 2⟩ : Pile.Section K) 10) := by
    unfold mtX
    rw [hw, show (elemOf pi Pile.steel (⟨0, -100, 3, 3 / 2⟩ : Pile.Section K) 10).L = 10 from rfl, hr]
    norm_num
  rw [hw, show (elemOf pi Pile.steel (⟨0, -100, 3, 3 / 2⟩ : Pile.Section K) 10).L = 10 from rfl,
    show (elemOf pi Pile.steel (⟨0, -100, 3, 3 / 2⟩ : Pile.Section K) 10).I = 81 * pi / 64 by
      simp only [elemOf, Pile.Section.inertia]; ring] at h2
  generalize mtX (elemOf pi Pile.steel (⟨0, -100, 3, 3 / 2⟩ : Pile.Section K) 10) = X at *
  have h3 : X * (X - 1 / 5) ≤ 2 * (2 - 1 / 5) := by nlinarith
  norm_num at h2 h3
  nlinarith

/-- **C18, rigid rotation.** In uniform rotational springs of stiffness `k` per unit length a rigidly
rotating Euler-Bernoulli element stores `k L θ²`. -/
theorem C18_mt_rigid_euler (e : Elem K) (hL : 0 < e.L) (k : K) (u : Fin 6 → K)
    (hu : RigidElem e.L u) : energy (mtMatrix .eulerBernoulli e k k) u = k * e.L * u 2 ^ 2 := by
  rw [mtMatrix_energy, mt_energy]
  obtain ⟨-, h5, h4⟩ := hu
  simp only [mtCoeffs]
  rw [h5, h4]
  field_simp
  ring

/-- **C18, rigid rotation, Timoshenko.** The stored energy differs from `k L θ²`: with `r = I/(A L²)`
it contains `12 (r - r') / (12ω+1)²`, where `r'` uses the matrix coefficient in place of the area
(full claim: the correction vanishes). -/
theorem C18_mt_rigid_timoshenko_partial (e : Elem K) (he : GoodElem e) (hnu : -(3 / 4) ≤ e.nu) (k : K)
    (u : Fin 6 → K) (hu : RigidElem e.L u) :
    energy (mtMatrix .timoshenko e k k) u = k * e.L * u 2 ^ 2
      * (1 + 12 * (e.I / (e.A * e.L ^ 2) - e.I / ((mtCoeffs .timoshenko e).1 * e.L ^ 2))
          / (phi .timoshenko e + 1) ^ 2) := by
  have hL := he.L; have hE := he.E; have hA := he.A; have hI := he.I
  have hw : 0 ≤ mtOmega e := div_nonneg (phi_nonneg .timoshenko e he (fun _ => hnu)) (by norm_num)
  have hphi : phi .timoshenko e = 12 * mtOmega e := by unfold mtOmega; ring
  have hom : e.E * e.I * kappa .timoshenko e / (e.A * shearMod e * e.L ^ 2) = mtOmega e := by
    unfold mtOmega phi; ring
  rw [mtMatrix_energy, mt_energy, hphi]
  simp only [mtCoeffs, hom]
  obtain ⟨-, h5, h4⟩ := hu
  rw [h5, h4]
  generalize mtOmega e = w at *
  have hA' : 0 < 6 * (120 * w ^ 2 + 20 * w + 1) / (5 * e.L * (12 * w + 1) ^ 2)
      + 12 * e.I / (e.A * e.L ^ 3 * (12 * w + 1) ^ 2) := by positivity
  have hA2 : 6 * (120 * w ^ 2 + 20 * w + 1) / (5 * e.L * (12 * w + 1) ^ 2)
      + 12 * e.I / (e.A * e.L ^ 3 * (12 * w + 1) ^ 2)
      = (6 / 5 * (120 * w ^ 2 + 20 * w + 1) + 12 * e.I / (e.A * e.L ^ 2)) / (e.L * (12 * w + 1) ^ 2) := by
    field_simp
  generalize hgA : 6 * (120 * w ^ 2 + 20 * w + 1) / (5 * e.L * (12 * w + 1) ^ 2)
      + 12 * e.I / (e.A * e.L ^ 3 * (12 * w + 1) ^ 2) = A' at *
  have h3 : A' * (u 1 - (u 1 + e.L * u 2)) ^ 2 = (6 / 5 * (120 * w ^ 2 + 20 * w + 1)
      + 12 * e.I / (e.A * e.L ^ 2)) * e.L * u 2 ^ 2 / (12 * w + 1) ^ 2 := by
    rw [hA2]
    field_simp
    ring
  rw [h3]
  have : 0 < 12 * w + 1 := by positivity
  field_simp
  ring

end ordered

/-! ## C18 consistent matrices -/
section real
open intervalIntegral

theorem hermite_hasDerivAt (L : ℝ) (u : Fin 6 → ℝ) (x : ℝ) :
    HasDerivAt (hermite L u)
      ((-6 * (x / L) / L + 6 * (x / L) ^ 2 / L) * u 1 + (1 - 4 * (x / L) + 3 * (x / L) ^ 2) * u 2
      + (6 * (x / L) / L - 6 * (x / L) ^ 2 / L) * u 4 + (3 * (x / L) ^ 2 - 2 * (x / L)) * u 5) x := by
  have hx : HasDerivAt (fun x : ℝ => x / L) (1 / L) x := (hasDerivAt_id x).div_const L
  have h1 := ((((hx.pow 2).const_mul 3).const_sub 1).add ((hx.pow 3).const_mul 2)).mul_const (u 1)
  have h2 := ((hasDerivAt_id x).mul ((hx.const_sub 1).pow 2)).mul_const (u 2)
  have h4 := (((hx.pow 2).const_mul 3).sub ((hx.pow 3).const_mul 2)).mul_const (u 4)
  have h5 := ((hasDerivAt_id x).mul ((hx.pow 2).sub hx)).mul_const (u 5)
  have := ((h1.add h2).add h4).add h5
  refine (this.congr_deriv ?_)
  simp
  ring

theorem integral_poly (n : ℕ) (c : ℕ → ℝ) :
    ∫ t in (0 : ℝ)..1, ∑ i ∈ Finset.range n, c i * t ^ i = ∑ i ∈ Finset.range n, c i / (i + 1) := by
  rw [integral_finsetSum (fun i _ => (by fun_prop : Continuous fun t : ℝ => c i * t ^ i).intervalIntegrable _ _)]
  apply Finset.sum_congr rfl
  intro i _
  rw [integral_const_mul, integral_pow]
  simp
  ring

/-- Integral over the element of a product of two cubics and a linear weight. -/
theorem integral_cubic (L a0 a1 a2 a3 b0 b1 b2 b3 k0 k1 : ℝ) (hL : L ≠ 0) (f : ℝ → ℝ)
    (hf : ∀ x, f x = (a0 + a1 * (x / L) + a2 * (x / L) ^ 2 + a3 * (x / L) ^ 3)
      * (b0 + b1 * (x / L) + b2 * (x / L) ^ 2 + b3 * (x / L) ^ 3) * (k0 + k1 * (x / L))) :
    ∫ x in (0 : ℝ)..L, f x = L * (
      a0 * b0 * k0 + (a0 * b1 * k0 + a1 * b0 * k0 + a0 * b0 * k1) / 2
      + (a0 * b2 * k0 + a1 * b1 * k0 + a2 * b0 * k0 + a0 * b1 * k1 + a1 * b0 * k1) / 3
      + (a0 * b3 * k0 + a1 * b2 * k0 + a2 * b1 * k0 + a3 * b0 * k0
        + a0 * b2 * k1 + a1 * b1 * k1 + a2 * b0 * k1) / 4
      + (a1 * b3 * k0 + a2 * b2 * k0 + a3 * b1 * k0
        + a0 * b3 * k1 + a1 * b2 * k1 + a2 * b1 * k1 + a3 * b0 * k1) / 5
      + (a2 * b3 * k0 + a3 * b2 * k0 + a1 * b3 * k1 + a2 * b2 * k1 + a3 * b1 * k1) / 6
      + (a3 * b3 * k0 + a2 * b3 * k1 + a3 * b2 * k1) / 7 + a3 * b3 * k1 / 8) := by
  let c : ℕ → ℝ := fun i => match i with
    | 0 => a0 * b0 * k0
    | 1 => a0 * b1 * k0 + a1 * b0 * k0 + a0 * b0 * k1
    | 2 => a0 * b2 * k0 + a1 * b1 * k0 + a2 * b0 * k0 + a0 * b1 * k1 + a1 * b0 * k1
    | 3 => a0 * b3 * k0 + a1 * b2 * k0 + a2 * b1 * k0 + a3 * b0 * k0
        + a0 * b2 * k1 + a1 * b1 * k1 + a2 * b0 * k1
    | 4 => a1 * b3 * k0 + a2 * b2 * k0 + a3 * b1 * k0
        + a0 * b3 * k1 + a1 * b2 * k1 + a2 * b1 * k1 + a3 * b0 * k1
    | 5 => a2 * b3 * k0 + a3 * b2 * k0 + a1 * b3 * k1 + a2 * b2 * k1 + a3 * b1 * k1
    | 6 => a3 * b3 * k0 + a2 * b3 * k1 + a3 * b2 * k1
    | 7 => a3 * b3 * k1
    | _ => 0
  have h : ∀ x, f x = (fun t => ∑ i ∈ Finset.range 8, c i * t ^ i) (x / L) := by
    intro x
    rw [hf]
    simp only [Finset.sum_range_succ, Finset.sum_range_zero, c]
    ring
  rw [integral_congr (g := fun x => (fun t => ∑ i ∈ Finset.range 8, c i * t ^ i) (x / L))
    (fun x _ => h x), integral_comp_div (fun t => ∑ i ∈ Finset.range 8, c i * t ^ i) hL, zero_div, div_self hL, integral_poly]
  simp only [Finset.sum_range_succ, Finset.sum_range_zero, c, smul_eq_mul]
  norm_num

/-- **C18, lateral springs.** For all element lengths and stiffnesses the matrix is the consistent
one: the virtual work of the distributed springs on the Hermite fields. -/
theorem C18_py_consistent (L kt kb : ℝ) (hL : L ≠ 0) (v u : Fin 6 → ℝ) :
    work (pyMatrix L kt kb) v u
      = ∫ x in (0 : ℝ)..L, hermite L v x * hermite L u x * linearStiffness L kt kb x := by
  rw [integral_cubic L (v 1) (L * v 2) (-3 * v 1 - 2 * (L * v 2) + 3 * v 4 - L * v 5)
    (2 * v 1 + L * v 2 - 2 * v 4 + L * v 5) (u 1) (L * u 2)
    (-3 * u 1 - 2 * (L * u 2) + 3 * u 4 - L * u 5) (2 * u 1 + L * u 2 - 2 * u 4 + L * u 5)
    kt (kb - kt) hL]
  · simp [work, pyMatrix, dotProduct, mulVec, Fin.sum_univ_six]
    ring
  · intro x
    unfold hermite linearStiffness
    field_simp
    ring

/-- **C18, axial springs**: likewise with linear interpolation. -/
theorem C18_tz_consistent (L kt kb : ℝ) (hL : L ≠ 0) (v u : Fin 6 → ℝ) :
    work (tzMatrix L kt kb) v u
      = ∫ x in (0 : ℝ)..L, axialField L v x * axialField L u x * linearStiffness L kt kb x := by
  rw [integral_cubic L (v 0) (v 3 - v 0) 0 0 (u 0) (u 3 - u 0) 0 0 kt (kb - kt) hL]
  · simp [work, tzMatrix, dotProduct, mulVec, Fin.sum_univ_six]
    ring
  · intro x
    unfold axialField linearStiffness
    field_simp
    ring

/-- Virtual work of distributed rotational springs on the slopes of the Hermite fields. -/
theorem rot_work (L kt kb : ℝ) (hL : L ≠ 0) (v u : Fin 6 → ℝ) :
    ∫ x in (0 : ℝ)..L, deriv (hermite L v) x * deriv (hermite L u) x * linearStiffness L kt kb x =
    (kt + kb) / 2 * (6 / (5 * L) * (v 1 - v 4) * (u 1 - u 4) + 1 / 10 * (v 1 - v 4) * (u 2 + u 5)
        + 1 / 10 * (v 2 + v 5) * (u 1 - u 4) + 2 * L / 15 * (v 2 * u 2 + v 5 * u 5)
        - L / 30 * (v 2 * u 5 + v 5 * u 2))
    + (kt - kb) / 2 * (- 1 / 10 * ((v 1 - v 4) * (u 2 - u 5) + (v 2 - v 5) * (u 1 - u 4))
        + L / 15 * (v 2 * u 2 - v 5 * u 5)) := by
  rw [integral_cubic L (v 2) (-6 * v 1 / L - 4 * v 2 + 6 * v 4 / L - 2 * v 5)
    (6 * v 1 / L + 3 * v 2 - 6 * v 4 / L + 3 * v 5) 0
    (u 2) (-6 * u 1 / L - 4 * u 2 + 6 * u 4 / L - 2 * u 5)
    (6 * u 1 / L + 3 * u 2 - 6 * u 4 / L + 3 * u 5) 0 kt (kb - kt) hL]
  · field_simp
    ring
  · intro x
    rw [(hermite_hasDerivAt L v x).deriv, (hermite_hasDerivAt L u x).deriv]
    unfold linearStiffness
    field_simp
    ring

/-- **C18, rotational springs, Euler-Bernoulli elements**: consistent when the stiffness is constant
over the element (full claim: also for a linear variation, see `C18_violated_mt_gradient`). -/
theorem C18_mt_consistent_partial (e : Elem ℝ) (hL : e.L ≠ 0) (k : ℝ) (v u : Fin 6 → ℝ) :
    work (mtMatrix .eulerBernoulli e k k) v u
      = ∫ x in (0 : ℝ)..e.L, deriv (hermite e.L v) x * deriv (hermite e.L u) x
          * linearStiffness e.L k k x := by
  rw [rot_work e.L k k hL]
  simp [work, mtMatrix, mtPattern, mtCoeffs, dotProduct, mulVec, Fin.sum_univ_six]
  ring

/-- **C18, violated for a stiffness gradient**: for every element and every pair of different end
stiffnesses the rotational matrix is not the consistent one. -/
theorem C18_violated_mt_gradient (e : Elem ℝ) (hL : e.L ≠ 0) (kt kb : ℝ) (hk : kt ≠ kb) :
    ∃ u : Fin 6 → ℝ, energy (mtMatrix .eulerBernoulli e kt kb) u
      ≠ ∫ x in (0 : ℝ)..e.L, deriv (hermite e.L u) x * deriv (hermite e.L u) x
          * linearStiffness e.L kt kb x := by
  refine ⟨![0, 0, 1, 0, 0, 0], ?_⟩
  rw [rot_work e.L kt kb hL]
  simp [energy, work, mtMatrix, mtPattern, mtCoeffs, dotProduct, mulVec, Fin.sum_univ_six]
  intro h
  apply hk
  have : e.L * (kt - kb) = 0 := by linear_combination -30 * h
  have := (mul_eq_zero.1 this).resolve_left hL
  linarith

end real
end OpenPile.Props.Element
