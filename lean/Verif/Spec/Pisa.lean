/-
The PISA soil reaction curves as published: Byrne et al. (2020) for Cowden and Bothkennar clay, Burd et
al. (2020) for Dunkirk sand.  Normalised depth `z = X/D` (or `X/L`), embedment ratio `l = L/D`, relative
density `r` as a fraction.
-/
import Verif.Spec.Conic
import Mathlib.Analysis.SpecialFunctions.Exp

namespace OpenPile.Conic

/-- Normalised ultimate displacement, curvature, initial stiffness and ultimate reaction. -/
structure Coeffs where
  xu : ℝ
  n : ℝ
  k : ℝ
  yu : ℝ

namespace Published

noncomputable def cowdenP (z : ℝ) : Coeffs :=
  ⟨241.4, 0.9390 - 0.03345 * z, 10.60 - 1.650 * z, 10.70 - 7.101 * Real.exp (-(0.3085 * z))⟩

noncomputable def cowdenM (z : ℝ) : Coeffs :=
  ⟨(0.2899 - 0.04775 * z) / (1.420 - 0.09643 * z), 0, 1.420 - 0.09643 * z, 0.2899 - 0.04775 * z⟩

noncomputable def cowdenH (l : ℝ) : Coeffs :=
  ⟨235.7, 0.8793 - 0.03150 * l, 2.717 - 0.3575 * l, 0.4038 + 0.04812 * l⟩

noncomputable def cowdenB (l : ℝ) : Coeffs :=
  ⟨173.1, 1.079 - 0.1087 * l, 0.2146 - 0.002132 * l, 0.8192 - 0.08588 * l⟩

noncomputable def bothkennarP (z : ℝ) : Coeffs :=
  ⟨173.8, 0.7204 - 0.002679 * z, 12.05 - 1.547 * z, 7.743 - 3.945 * Real.exp (-(0.8456 * z))⟩

noncomputable def bothkennarM (z : ℝ) : Coeffs :=
  ⟨(0.4862 - 0.05674 * z) / (1.698 - 0.1576 * z), 0, 1.698 - 0.1576 * z, 0.4862 - 0.05674 * z⟩

noncomputable def bothkennarH (l : ℝ) : Coeffs :=
  ⟨291.5, 0.3113 + 0.04263 * l, 3.008 - 0.2701 * l, 0.5279 + 0.06864 * l⟩

noncomputable def bothkennarB (l : ℝ) : Coeffs :=
  ⟨187, 0.6990 - 0.1155 * l, 0.3409 - 0.01995 * l, 0.8756 - 0.09195 * l⟩

noncomputable def dunkirkP (r z zl : ℝ) : Coeffs :=
  ⟨146.1 - 92.11 * r, 0.917 + 0.06193 * r, 8.731 - 0.6982 * r - 0.9178 * z,
    0.3667 + 25.89 * r + (0.3375 - 8.9 * r) * zl⟩

noncomputable def dunkirkM (r zl : ℝ) : Coeffs :=
  ⟨(0.2605 + (-0.1989 + 0.2019 * r) * zl) / 17, 0, 17, 0.2605 + (-0.1989 + 0.2019 * r) * zl⟩

noncomputable def dunkirkH (r l : ℝ) : Coeffs :=
  ⟨0.5150 + 2.883 * r + (0.1695 - 0.7018 * r) * l, 0.09978 + 0.7974 * r + (0.004994 - 0.07005 * r) * l,
    6.505 - 2.985 * r + (-0.007969 - 0.4299 * r) * l, 0.09952 + 0.7996 * r + (0.03988 - 0.1606 * r) * l⟩

noncomputable def dunkirkB (r l : ℝ) : Coeffs :=
  ⟨44.89, 0.3 + 0.4986 * r, 0.3515, 0.09981 + 0.3710 * r + (0.01998 - 0.09041 * r) * l⟩

end Published

/-- The curve `l` is the conic with the given coefficients, stretched by `ds` in displacement and `rs` in
reaction: its points lie on the conic up to the ultimate displacement (0.01 below it the code switches to
the ultimate reaction), and it ends 10 % beyond. -/
def FollowsConic (c : Coeffs) (ds rs : ℝ) (l : List (ℝ × ℝ)) : Prop :=
  l.head?.map Prod.fst = some 0 ∧ l.getLast? = some (1.1 * c.xu * ds, c.yu * rs) ∧
  ∀ q ∈ l, ∃ x y, q = (x * ds, y * rs) ∧ 0 ≤ x ∧
    (x ≤ c.xu - 0.01 → OnConic c.xu c.n (max (c.yu / c.xu) c.k) c.yu x y) ∧
    (c.xu - 0.01 < x → y = c.yu)

end OpenPile.Conic
