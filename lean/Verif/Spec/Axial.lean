/-
What axial springs should be, independent of how they are computed.
-/
import Mathlib.Data.Real.Basic
import Mathlib.Data.List.Pairwise
import Mathlib.Data.List.Perm.Basic

namespace OpenPile.Axial

/-- What numpy promises about `np.argsort(z)`: a permutation of the indices that sorts `z`. -/
structure IsArgsort (z : List ℝ) (ids : List ℕ) : Prop where
  perm : ids.Perm (List.range z.length)
  sorted : (ids.map (fun i : ℕ => z.getD i 0)).Pairwise (· ≤ ·)

/-- `random()` returns numbers in `[0, 1)`. -/
def IsRandom (draws : ℕ → ℝ) : Prop := ∀ i, 0 ≤ draws i ∧ draws i < 1

/-- A curve given by its two vectors: both of length `len`, displacements in ascending order. -/
structure Curve (len : ℕ) (c : List ℝ × List ℝ) : Prop where
  disp : c.1.length = len
  force : c.2.length = len
  sorted : c.1.Pairwise (· ≤ ·)

/-- API RP 2A t-z data for clay: displacement over diameter and fraction of the unit friction, in
tension and compression.  `res` is the residual fraction, `tens` the strength ratio in tension. -/
noncomputable def clayNodes (res tens : ℝ) : List (ℝ × ℝ) :=
  [(-0.02, -(tens * res)), (-0.01, -tens), (-0.008, -(tens * 0.9)), (-0.0057, -(tens * 0.75)),
   (-0.0031, -(tens * 0.5)), (-0.0016, -(tens * 0.3)), (0, 0), (0.0016, 0.3), (0.0031, 0.5),
   (0.0057, 0.75), (0.008, 0.9), (0.01, 1), (0.02, res)]

/-- API RP 2A t-z data for sand: the full friction is reached at one inch. -/
noncomputable def sandNodes (tens : ℝ) : List (ℝ × ℝ) := [(-0.0254, -tens), (0, 0), (0.0254, 1)]

/-- API RP 2A Q-z data: displacement over diameter and fraction of the end bearing. -/
noncomputable def tipNodes : List (ℝ × ℝ) :=
  [(0, 0), (0.002, 0.25), (0.013, 0.5), (0.042, 0.75), (0.073, 0.9), (0.1, 1)]

/-- The table multiplied by `sx` in displacement and `sy` in force. -/
def scaled (sx sy : ℝ) (l : List (ℝ × ℝ)) : List (ℝ × ℝ) := l.map (fun q => (q.1 * sx, q.2 * sy))

/-- Limiting unit shaft friction [kPa] of sand against the interface angle [deg], constant outside. -/
noncomputable def frictionLimit : List (ℝ × ℝ) :=
  [(15, 47.8), (20, 67), (25, 81.3), (30, 95.7), (35, 114.8)]

/-- Bearing capacity factor `Nq` of sand against the interface angle. -/
noncomputable def bearingFactor : List (ℝ × ℝ) := [(15, 8), (20, 12), (25, 20), (30, 40), (35, 50)]

/-- Limiting unit end bearing [kPa] of sand against the interface angle. -/
noncomputable def bearingLimit : List (ℝ × ℝ) :=
  [(15, 1900), (20, 2900), (25, 4800), (30, 9600), (35, 12000)]

/-- The forces of the points of a curve. -/
def forces (c : List ℝ × List ℝ) : Set ℝ := {y | ∃ x, (x, y) ∈ c.1.zip c.2}

/-- The circumference in contact with moving soil: a plugged pile only mobilises the outer side. -/
noncomputable def contact (plugged : Prop) [Decidable plugged] (inner outer : ℝ) : ℝ :=
  if plugged then outer else outer + inner

end OpenPile.Axial
