/- Specification vocabulary for piles: which lists of sections form a pile. -/
import Verif.Model.Pile
import Mathlib.Order.Interval.Set.Basic

namespace OpenPile.Spec.Pile
open OpenPile.Pile

variable {K : Type} [Field K] [LinearOrder K]

/-- A section the constructor can produce. -/
def Built (s : Section K) : Prop :=
  ∃ top bottom diameter thickness, mkSection top bottom diameter thickness = .ok s

/-- The sections, in the given order, follow one another downwards without gap or overlap. -/
def Stacked (l : List (Section K)) : Prop := l.IsChain (fun upper lower => lower.top = upper.bottom)

/-- The elevations strictly inside a section. -/
def Inside (s : Section K) : Set K := Set.Ioo s.bottom s.top

/-- The elevations of a section including its ends. -/
def Extent (s : Section K) : Set K := Set.Icc s.bottom s.top

end OpenPile.Spec.Pile
