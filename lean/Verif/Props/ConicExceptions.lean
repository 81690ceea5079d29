/-
C28: for which initial stiffnesses the PISA conic curve is computed, for shapes above one half.
-/
import Verif.Props.Conic

namespace OpenPile.Conic

/-- **C28** (exceptions).  For every shape below one, all but finitely many initial stiffnesses above the secant give a curve: at most one
per point of the curve. -/
theorem C28_exceptions {xu n yu : ℝ} {len : ℕ} (hx : 0 < xu) (hy : 0 < yu) (hn : 0 ≤ n) (hn1 : n < 1) (h5 : 5 ≤ len) :
    ∃ bad : List ℝ, bad.length = len ∧ ∀ k, yu / xu ≤ k → k ∉ bad → ∃ l, conic xu n k yu len = some l := by
  refine ⟨(conicX xu len).map (fun x => n * x * yu / ((1 - n) * xu ^ 2)), by rw [List.length_map, conicX_length xu h5], ?_⟩
  intro k hk hbad
  rw [← Option.isSome_iff_exists, C28_defined_partial hx hy hn hn1]
  refine ⟨h5, ?_⟩
  intro x hxm hle hc
  rw [max_eq_right hk] at hc ⊢
  have h0 := conicX_nonneg hx len hxm
  have hn' : 0 < 1 - n := by linarith
  rcases h0.eq_or_lt with e | hpos
  · rw [← e]
    simpa using hn'
  · exfalso
    refine hbad (List.mem_map.2 ⟨x, hxm, ?_⟩)
    have hx' := hx.ne'
    have hy' := hy.ne'
    have hp := hpos.ne'
    field_simp at hc ⊢
    linarith

/-- A shape above one half. -/
example : ∃ bad : List ℝ, bad.length = 10 ∧ ∀ k, (100 : ℝ) / 2 ≤ k → k ∉ bad → ∃ l, conic 2 (9 / 10) k 100 10 = some l :=
  C28_exceptions (by norm_num) (by norm_num) (by norm_num) (by norm_num) (by norm_num)

end OpenPile.Conic
