/-
Trigonometric facts behind the API sand coefficients.
-/
import Verif.Model.Lateral
import Verif.Spec.Sand
import Verif.Lemmas.Conic
import Verif.Lemmas.Tanh
import Mathlib.Analysis.SpecialFunctions.Trigonometric.Arctan

namespace OpenPile.Lateral
open Real

/-- Half the friction angle, in radians. -/
noncomputable def half (phi : ℝ) : ℝ := degrees (phi / 2)

theorem half_range {phi : ℝ} (h0 : 0 ≤ phi) (h1 : phi < 90) : 0 ≤ half phi ∧ half phi < π / 4 := by
  have := pi_pos
  unfold half degrees
  constructor
  · positivity
  · nlinarith

theorem half_pos {phi : ℝ} (h0 : 0 < phi) : 0 < half phi := by
  have := pi_pos
  unfold half degrees
  positivity

theorem ang_phi (phi : ℝ) : phi * rad = 2 * half phi := by unfold rad half degrees; ring
theorem ang_half (phi : ℝ) : phi / 2 * rad = half phi := by unfold rad half degrees; ring
theorem ang_beta (phi : ℝ) : beta phi * rad = π / 4 + half phi := by
  unfold rad half degrees beta; ring
theorem ang_minus (phi : ℝ) : (beta phi - phi) * rad = π / 4 - half phi := by
  unfold rad half degrees beta; ring
theorem ang_minus' (phi : ℝ) : (45 - phi / 2) * rad = π / 4 - half phi := by
  unfold rad half degrees; ring
theorem deg_phi (phi : ℝ) : degrees phi = 2 * half phi := by unfold half degrees; ring
theorem deg_beta (phi : ℝ) : degrees (45 + phi / 2) = π / 4 + half phi := by
  unfold half degrees; ring
theorem deg_minus (phi : ℝ) : degrees (45 - phi / 2) = π / 4 - half phi := by
  unfold half degrees; ring
theorem deg_half (phi : ℝ) : degrees (phi / 2) = half phi := rfl

theorem tan_minus (a : ℝ) : tan (π / 4 - a) = (tan (π / 4 + a))⁻¹ := by
  have : π / 4 - a = π / 2 - (π / 4 + a) := by ring
  rw [this, tan_pi_div_two_sub]

theorem one_le_tan {a : ℝ} (h0 : 0 ≤ a) (h1 : a < π / 4) : 1 ≤ tan (π / 4 + a) := by
  have := pi_pos
  rcases h0.eq_or_lt with h | h
  · rw [← h, add_zero, tan_pi_div_four]
  · rw [← tan_pi_div_four]
    exact (tan_lt_tan_of_lt_of_lt_pi_div_two (by linarith) (by linarith) (by linarith)).le

theorem one_lt_tan {a : ℝ} (h0 : 0 < a) (h1 : a < π / 4) : 1 < tan (π / 4 + a) := by
  have := pi_pos
  rw [← tan_pi_div_four]
  exact tan_lt_tan_of_lt_of_lt_pi_div_two (by linarith) (by linarith) (by linarith)

theorem tan_nonneg' {a : ℝ} (h0 : 0 ≤ a) (h1 : a < π / 2) : 0 ≤ tan a :=
  tan_nonneg_of_nonneg_of_le_pi_div_two h0 h1.le

theorem tan_lt_one {a : ℝ} (h0 : 0 ≤ a) (h1 : a < π / 4) : tan a < 1 := by
  have := pi_pos
  rw [← tan_pi_div_four]
  exact tan_lt_tan_of_lt_of_lt_pi_div_two (by linarith) (by linarith) (by linarith)

theorem tan_double_ge {a : ℝ} (h0 : 0 ≤ a) (h1 : a < π / 4) : 2 * tan a ≤ tan (2 * a) := by
  rw [tan_two_mul]
  have ht := tan_nonneg' h0 (by linarith [pi_pos])
  have ht1 := tan_lt_one h0 h1
  have hp : 0 < 1 - tan a ^ 2 := by nlinarith
  rw [le_div_iff₀ hp]
  nlinarith [mul_nonneg ht (sq_nonneg (tan a))]

theorem half_le_sin {a : ℝ} (h0 : 0 ≤ a) (h1 : a < π / 4) : 1 / 2 ≤ sin (π / 4 + a) := by
  have hp := pi_pos
  rw [← sin_pi_div_six]
  exact sin_le_sin_of_le_of_le_pi_div_two (by linarith) (by linarith) (by linarith)

/-- Facts about the angles used below. -/
structure Angles (a T t : ℝ) : Prop where
  T1 : 1 ≤ T
  t0 : 0 ≤ t
  t2 : 2 * t ≤ tan (2 * a)
  s2 : 1 / 2 ≤ sin (π / 4 + a)
  c : 0 < cos a

theorem angles {phi : ℝ} (h0 : 0 ≤ phi) (h1 : phi < 90) :
    Angles (half phi) (tan (π / 4 + half phi)) (tan (half phi)) := by
  obtain ⟨a0, a1⟩ := half_range h0 h1
  have hp := pi_pos
  exact ⟨one_le_tan a0 a1, tan_nonneg' a0 (by linarith), tan_double_ge a0 a1, half_le_sin a0 a1,
    cos_pos_of_mem_Ioo ⟨by linarith, by linarith⟩⟩

theorem C1_eq {phi : ℝ} (h0 : 0 ≤ phi) (h1 : phi < 90) :
    C1 phi = 4 / 10 * tan (π / 4 + half phi) * tan (2 * half phi) * sin (π / 4 + half phi)
        / cos (half phi)
      + tan (π / 4 + half phi) ^ 3 * tan (half phi)
      + 4 / 10 * tan (π / 4 + half phi)
        * (tan (2 * half phi) * sin (π / 4 + half phi) - tan (half phi)) := by
  have h := angles h0 h1
  have hT : tan (π / 4 + half phi) ≠ 0 := by linarith [h.T1] |> fun h : 0 < _ => h.ne'
  have hc := h.c.ne'
  unfold C1
  rw [ang_phi, ang_beta, ang_minus, ang_half, tan_minus]
  field_simp

theorem C2_eq (phi : ℝ) : C2 phi = Kp phi - Ka phi := by
  unfold C2 Kp Ka
  rw [ang_beta, ang_minus, ang_minus', deg_beta, deg_minus, tan_minus, div_inv_eq_mul]
  ring

theorem C3_eq (phi : ℝ) :
    C3 phi = 4 / 10 * tan (degrees phi) * Kp phi ^ 2 + Ka phi * (Kp phi ^ 4 - 1) := by
  unfold C3 Kp Ka
  rw [ang_beta, ang_minus', ang_phi, deg_beta, deg_minus, deg_phi]
  ring

theorem C1_nonneg {phi : ℝ} (h0 : 0 ≤ phi) (h1 : phi < 90) : 0 ≤ C1 phi := by
  have h := angles h0 h1
  have hT : 0 ≤ tan (π / 4 + half phi) := by linarith [h.T1]
  have ht := h.t0
  have ht2 : 0 ≤ tan (2 * half phi) := by linarith [h.t2]
  have hs : 0 ≤ sin (π / 4 + half phi) := by linarith [h.s2]
  have hc := h.c
  have h3 : 0 ≤ tan (2 * half phi) * sin (π / 4 + half phi) - tan (half phi) := by
    nlinarith [mul_nonneg ht2 (sub_nonneg.2 h.s2), h.t2]
  rw [C1_eq h0 h1]
  positivity

theorem Kp_ge_one {phi : ℝ} (h0 : 0 ≤ phi) (h1 : phi < 90) : 1 ≤ Kp phi := by
  have h := (angles h0 h1).T1
  unfold Kp
  rw [deg_beta]
  nlinarith

theorem Kp_gt_one {phi : ℝ} (h0 : 0 < phi) (h1 : phi < 90) : 1 < Kp phi := by
  have h := one_lt_tan (half_pos h0) (half_range h0.le h1).2
  unfold Kp
  rw [deg_beta]
  nlinarith

theorem Ka_eq (phi : ℝ) : Ka phi = (Kp phi)⁻¹ := by
  unfold Ka Kp
  rw [deg_minus, deg_beta, tan_minus, inv_pow]

theorem tan_phi_nonneg {phi : ℝ} (h0 : 0 ≤ phi) (h1 : phi < 90) : 0 ≤ tan (degrees phi) := by
  rw [deg_phi]; have h := angles h0 h1; linarith [h.t2, h.t0]

theorem C2_nonneg {phi : ℝ} (h0 : 0 ≤ phi) (h1 : phi < 90) : 0 ≤ C2 phi := by
  rw [C2_eq, Ka_eq]
  have h := Kp_ge_one h0 h1
  have : (Kp phi)⁻¹ ≤ 1 := inv_le_one_of_one_le₀ h
  linarith

theorem C2_pos {phi : ℝ} (h0 : 0 < phi) (h1 : phi < 90) : 0 < C2 phi := by
  rw [C2_eq, Ka_eq]
  have h := Kp_gt_one h0 h1
  have : (Kp phi)⁻¹ ≤ 1 := inv_le_one_of_one_le₀ h.le
  linarith

theorem C3_nonneg {phi : ℝ} (h0 : 0 ≤ phi) (h1 : phi < 90) : 0 ≤ C3 phi := by
  rw [C3_eq, Ka_eq]
  have h := Kp_ge_one h0 h1
  have ht := tan_phi_nonneg h0 h1
  have h4 : 0 ≤ Kp phi ^ 4 - 1 := by have := one_le_pow₀ h (n := 4); linarith
  positivity

theorem C3_pos {phi : ℝ} (h0 : 0 < phi) (h1 : phi < 90) : 0 < C3 phi := by
  rw [C3_eq, Ka_eq]
  have h := Kp_gt_one h0 h1
  have ht := tan_phi_nonneg h0.le h1
  have h4 : 0 < Kp phi ^ 4 - 1 := by have := one_lt_pow₀ h (n := 4) (by norm_num); linarith
  positivity

theorem pmaxSand_eq {sig X phi D : ℝ} (h0 : 0 ≤ phi) (h1 : phi < 90) :
    pmaxSand sig X phi D = sandUltimate sig X phi D := by
  unfold pmaxSand sandUltimate deepResistance wedgeResistance
  rw [C1_eq h0 h1, C2_eq, C3_eq]
  simp only []
  rw [deg_beta, deg_phi phi, deg_half]
  congr 1 <;> ring

theorem pmaxSand_nonneg {sig X phi D : ℝ} (h0 : 0 ≤ phi) (h1 : phi < 90) (hs : 0 ≤ sig)
    (hX : 0 ≤ X) (hD : 0 ≤ D) : 0 ≤ pmaxSand sig X phi D := by
  have a := C1_nonneg h0 h1
  have b := C2_nonneg h0 h1
  have c := C3_nonneg h0 h1
  unfold pmaxSand
  refine le_min (by positivity) (by positivity)

theorem pmaxSand_pos {sig X phi D : ℝ} (h0 : 0 < phi) (h1 : phi < 90) (hs : 0 < sig)
    (hX : 0 ≤ X) (hD : 0 < D) : 0 < pmaxSand sig X phi D := by
  have a := C1_nonneg h0.le h1
  have b := C2_pos h0 h1
  have c := C3_pos h0 h1
  unfold pmaxSand
  refine lt_min (by positivity) (by positivity)

theorem linspace_pairwise_le {a b : ℝ} (hab : a ≤ b) (n : ℕ) :
    (Conic.linspace a b n).Pairwise (· ≤ ·) := by
  rcases hab.eq_or_lt with h | h
  · subst h
    unfold Conic.linspace
    split_ifs
    · simp
    · rw [List.pairwise_map]
      exact List.Pairwise.imp (R := (· < ·)) (fun _ => by simp) List.pairwise_lt_range
  · exact (Conic.linspace_pairwise h n).imp le_of_lt

theorem linspace_mem_le {a b : ℝ} (hab : a ≤ b) {n : ℕ} {x : ℝ} (h : x ∈ Conic.linspace a b n) :
    a ≤ x ∧ x ≤ b := by
  rcases hab.eq_or_lt with e | e
  · subst e
    unfold Conic.linspace at h
    split_ifs at h
    · simp at h; subst h; exact ⟨le_rfl, le_rfl⟩
    · simp at h; obtain ⟨_, _, rfl⟩ := h; exact ⟨le_rfl, le_rfl⟩
  · exact Conic.linspace_mem e h

theorem linspace_head (a b : ℝ) {n : ℕ} (hn : 0 < n) : (Conic.linspace a b n).head? = some a := by
  unfold Conic.linspace
  split_ifs
  · rfl
  · obtain ⟨m, rfl⟩ := Nat.exists_eq_succ_of_ne_zero hn.ne'
    simp [List.range_succ_eq_map]

theorem linspace_last (a b : ℝ) {n : ℕ} (hn : 2 ≤ n) :
    (Conic.linspace a b n).getLast? = some b := by
  unfold Conic.linspace
  rw [if_neg (by omega)]
  obtain ⟨m, rfl⟩ : ∃ m, n = m + 2 := ⟨n - 2, by omega⟩
  rw [List.getLast?_map, List.range_succ, List.getLast?_concat]
  simp only [Option.map_some, Option.some.injEq]
  push_cast
  have e : (m : ℝ) + 2 - 1 = m + 1 := by ring
  have h : (m : ℝ) + 1 ≠ 0 := by positivity
  rw [e]
  field_simp
  ring

end OpenPile.Lateral
