/- Specification vocabulary for meshes. -/
import Verif.Model.Mesh

namespace OpenPile.Spec.Mesh
open OpenPile.Pile (Pile Section)
open OpenPile.Soil (Layer Profile)

variable {K : Type} [Field K] [LinearOrder K]

/-- The elevations a user can rely on being nodes: section ends, layer boundaries not below the pile
tip `tip`, and the user's own elevations; the pile tip itself is the end of the lowest section. -/
def Required (p : Pile K) (tip : K) (soil : Option (Profile K)) (x2mesh : List K) (z : K) : Prop :=
  (∃ s ∈ p.sections, z = s.top ∨ z = s.bottom) ∨
  (∃ sp, soil = some sp ∧ ∃ l ∈ sp.layers, (z = l.top ∨ z = l.bottom) ∧ tip ≤ z) ∨
  z ∈ x2mesh

/-- `a` and `b` are neighbouring required elevations, `a` the higher one. -/
def Neighbours (R : K → Prop) (a b : K) : Prop := R a ∧ R b ∧ b < a ∧ ∀ r, R r → ¬ (b < r ∧ r < a)

/-- A multiple of 0.1 mm. -/
def OnGrid (z : K) : Prop := ∃ n : ℤ, z = n / 10000

end OpenPile.Spec.Mesh
