/-
What a PISA soil reaction curve should be, independent of how it is computed.
-/
import Mathlib.Data.Real.Basic

namespace OpenPile.Conic

/-- The conic of Byrne et al. (2020), in terms of the normalised displacement `x / xu` and the
normalised reaction `y / yu`:
`-n (y/yu - x/xu)² + (1 - n) (y/yu - k x/yu) (y/yu - 1) = 0`. -/
def OnConic (xu n k yu x y : ℝ) : Prop :=
  -n * (y / yu - x / xu) ^ 2 + (1 - n) * (y / yu - k * x / yu) * (y / yu - 1) = 0

/-- Points with non-decreasing displacement and reaction. -/
def Rising (l : List (ℝ × ℝ)) : Prop := l.Pairwise (fun p q => p.1 ≤ q.1 ∧ p.2 ≤ q.2)

/-- A soil reaction curve of `len` points that starts at the origin, never decreases, and ends at the
reaction `cap`, which it never exceeds. -/
structure ReactionCurve (len : ℕ) (cap : ℝ) (l : List (ℝ × ℝ)) : Prop where
  length : l.length = len
  start : l.head? = some (0, 0)
  rising : Rising l
  nonneg : ∀ q ∈ l, 0 ≤ q.1 ∧ 0 ≤ q.2
  bounded : ∀ q ∈ l, q.2 ≤ cap
  ends : ∃ x, l.getLast? = some (x, cap)

end OpenPile.Conic
