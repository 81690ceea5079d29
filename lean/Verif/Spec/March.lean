/-
Vocabulary for mesh independence (C55): the exact solution of the equations of an unloaded beam, and what it
means that one mesh refines another.  Independent of the model.
-/
import Verif.Spec.Kernel

namespace OpenPile.Spec.March
open OpenPile.Spec.Kernel

/-- Displacements `w` (axial), `v` (lateral), `θ` (rotation) and section forces just below a point of the
beam. -/
@[ext] structure Station (K : Type) where
  w : K
  v : K
  θ : K
  N : K
  V : K
  M : K

/-- The solution of `w' = -N / EA`, `v' = θ - c V`, `θ' = -M / EI`, `N' = V' = 0`, `M' = -V` at distance `x`
from a point with the values `s`: a beam without distributed load, with axial stiffness `EA`, bending stiffness
`EI` and shear compliance `c`. -/
def march {K : Type} [Field K] (EA EI c x : K) (s : Station K) : Station K where
  w := s.w - s.N * x / EA
  v := s.v + s.θ * x + (s.V * x ^ 3 / 6 - s.M * x ^ 2 / 2) / EI - c * s.V * x
  θ := s.θ + (s.V * x ^ 2 / 2 - s.M * x) / EI
  N := s.N
  V := s.V
  M := s.M - s.V * x

/-- The mesh with element lengths `L'` has all nodes of the mesh with element lengths `L`; node `j` of the coarse
mesh is node `σ j` of the fine one. -/
structure Refines {K : Type} [Field K] {n m : ℕ} (L : Fin n → K) (L' : Fin m → K)
    (σ : Fin (n + 1) → Fin (m + 1)) : Prop where
  first : σ 0 = 0
  last : σ (Fin.last n) = Fin.last m
  mono : StrictMono σ
  depth : ∀ j, nodeDepth L' (σ j) = nodeDepth L j

/-- Element `k` of the fine mesh lies in element `i` of the coarse one. -/
def Inside {n m : ℕ} (σ : Fin (n + 1) → Fin (m + 1)) (i : Fin n) (k : Fin m) : Prop :=
  (σ i.castSucc).1 ≤ k.1 ∧ k.1 < (σ i.succ).1

end OpenPile.Spec.March
