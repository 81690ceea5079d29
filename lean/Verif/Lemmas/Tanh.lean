/-
The hyperbolic tangent on non-negative arguments.
-/
import Mathlib.Analysis.SpecialFunctions.Trigonometric.DerivHyp
import Mathlib.Analysis.Convex.Deriv

namespace OpenPile.Tanh
open Real

theorem hasDerivAt_tanh (x : ℝ) : HasDerivAt tanh (1 / cosh x ^ 2) x := by
  have h1 := (hasDerivAt_sinh x).div (hasDerivAt_cosh x) (cosh_pos x).ne'
  have e : tanh = fun x => sinh x / cosh x := by
    funext y; exact tanh_eq_sinh_div_cosh y
  have h2 := cosh_sq_sub_sinh_sq x
  rw [show cosh x * cosh x - sinh x * sinh x = 1 by nlinarith] at h1
  have e' : tanh = sinh / cosh := e
  rw [e']
  exact h1

theorem deriv_tanh (x : ℝ) : deriv tanh x = 1 / cosh x ^ 2 := (hasDerivAt_tanh x).deriv

theorem strictMono_tanh : StrictMono tanh := by
  apply strictMono_of_deriv_pos
  intro x
  rw [deriv_tanh]
  have := cosh_pos x
  positivity

theorem tanh_nonneg {x : ℝ} (h : 0 ≤ x) : 0 ≤ tanh x := by
  have := strictMono_tanh.monotone h
  rwa [tanh_zero] at this

theorem concaveOn_tanh : ConcaveOn ℝ (Set.Ici 0) tanh := by
  apply AntitoneOn.concaveOn_of_deriv (convex_Ici 0)
  · exact (continuous_iff_continuousAt.2 fun x => (hasDerivAt_tanh x).continuousAt).continuousOn
  · exact fun x _ => (hasDerivAt_tanh x).differentiableAt.differentiableWithinAt
  · intro x hx y hy hxy
    rw [interior_Ici] at hx hy
    rw [deriv_tanh, deriv_tanh]
    have h1 := cosh_pos x
    have h2 : cosh x ≤ cosh y := by
      rw [cosh_le_cosh, abs_of_pos hx, abs_of_pos hy]; exact hxy
    apply one_div_le_one_div_of_le (by positivity)
    gcongr

/-- Shrinking the argument of `tanh` by a factor `m ≤ 1` shrinks the value by at most that factor. -/
theorem mul_tanh_le {x m : ℝ} (hx : 0 ≤ x) (hm : 0 ≤ m) (hm1 : m ≤ 1) : m * tanh x ≤ tanh (m * x) := by
  have := concaveOn_tanh.2 (x := x) hx (y := 0) (le_refl (0 : ℝ)) hm (by linarith : 0 ≤ 1 - m)
    (by ring)
  simpa [tanh_zero] using this

theorem tanh_le_self {x : ℝ} (hx : 0 ≤ x) : tanh x ≤ x := by
  have h : AntitoneOn (fun y => tanh y - y) (Set.Ici 0) := by
    apply antitoneOn_of_deriv_nonpos (convex_Ici 0)
    · exact ((continuous_iff_continuousAt.2 fun x => (hasDerivAt_tanh x).continuousAt).sub
        continuous_id).continuousOn
    · exact fun y _ => ((hasDerivAt_tanh y).sub (hasDerivAt_id y)).differentiableAt.differentiableWithinAt
    · intro y _
      have hd : HasDerivAt (fun z => tanh z - z) (1 / cosh y ^ 2 - 1) y :=
        (hasDerivAt_tanh y).sub (hasDerivAt_id y)
      rw [hd.deriv]
      have h1 := one_le_cosh y
      have : 1 / cosh y ^ 2 ≤ 1 := by
        rw [div_le_one (by positivity)]
        nlinarith
      linarith
  have := h (le_refl (0 : ℝ)) hx hx
  simpa [tanh_zero] using this

/-- `a tanh (c / a)` grows with `a`. -/
theorem scaled_mono {a a' c : ℝ} (ha : 0 < a) (haa : a ≤ a') (hc : 0 ≤ c) :
    a * tanh (c / a) ≤ a' * tanh (c / a') := by
  have ha' : 0 < a' := lt_of_lt_of_le ha haa
  have h := mul_tanh_le (x := c / a) (m := a / a') (by positivity) (by positivity)
    ((div_le_one ha').2 haa)
  have e : a / a' * (c / a) = c / a' := by field_simp
  rw [e, div_mul_eq_mul_div, div_le_iff₀ ha'] at h
  linarith

end OpenPile.Tanh
