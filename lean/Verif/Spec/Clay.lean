/-
What a Matlock type p-y curve should be, independent of how it is computed.
-/
import Mathlib.Analysis.SpecialFunctions.Pow.Real

namespace OpenPile.Lateral

/-- Resistance of the wedge near the surface, per unit length. -/
def clayWedge (sig X Su D J : ℝ) : ℝ := 3 * Su * D + sig * D + J * Su * X

/-- Resistance of the flow-around mechanism, per unit length. -/
def clayDeep (Su D : ℝ) : ℝ := 9 * Su * D

/-- Ultimate resistance per unit length. -/
noncomputable def clayUltimate (sig X Su D J : ℝ) : ℝ := min (clayDeep Su D) (clayWedge sig X Su D J)

/-- Transition depth `Xr` between the wedge and the flow-around mechanism: at least `2.5 D`, and where
the vertical stress grows linearly (weight `sig / X`) the depth at which both resistances agree. -/
structure Transition (sig X Su D J Xr : ℝ) : Prop where
  shallow : 5 / 2 * D ≤ Xr
  value : Xr = 5 / 2 * D ∨ (sig * D + J * Su * X) * Xr = 6 * Su * D * X
  larger : 6 * Su * D * X ≤ (sig * D + J * Su * X) * Xr ∨ Su = 0
  side : 0 < Su → (Xr < X ↔ 5 / 2 * D < X ∧ clayDeep Su D < clayWedge sig X Su D J)

/-- A p-y table of `len` points starting at the origin, sorted in displacement, with resistance
between zero and `cap`. -/
structure Table (len : ℕ) (cap : ℝ) (l : List (ℝ × ℝ)) : Prop where
  length : l.length = len
  start : l.head? = some (0, 0)
  sorted : l.Pairwise (fun a b => a.1 ≤ b.1)
  nonneg : ∀ q ∈ l, 0 ≤ q.1 ∧ 0 ≤ q.2
  bounded : ∀ q ∈ l, q.2 ≤ cap

/-- Static law: a power law up to eight times `y50`, then the ultimate resistance `Pu`. -/
structure StaticLaw (Pu y50 : ℝ) (q : ℝ × ℝ) : Prop where
  rise : q.1 ≤ 8 * y50 → q.2 = Pu * (q.1 / y50) ^ (33 / 100 : ℝ) / 2
  plateau : 8 * y50 < q.1 → q.2 = Pu

/-- Cyclic law with peak `c * Pu` reached at `a * y50`.  `deep`: below the transition depth, the peak
is kept.  Otherwise the resistance falls linearly to the fraction `r` of the peak at `15 y50`. -/
structure CyclicLaw (Pu y50 c a r : ℝ) (deep : Prop) (q : ℝ × ℝ) : Prop where
  rise : q.1 ≤ a * y50 → q.2 = Pu * (q.1 / y50) ^ (33 / 100 : ℝ) / 2
  plateau : deep → a * y50 < q.1 → q.2 = c * Pu
  fall : ¬ deep → a * y50 < q.1 → q.1 ≤ 15 * y50 →
    q.2 = c * Pu - (c * Pu - c * Pu * r) * ((q.1 - a * y50) / ((15 - a) * y50))
  residual : ¬ deep → 15 * y50 < q.1 → q.2 = c * Pu * r

end OpenPile.Lateral
