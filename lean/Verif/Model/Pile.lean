/-
Materials, circular pile sections and piles.

Models `src/openpile/materials.py` 54-127 and `src/openpile/construct.py` 148-472.

Floats are elements of an arbitrary linearly ordered field `K`; `math.pi` is the parameter
`pi : K` (only `0 < pi` is ever used), so the results hold both for the real number π and for
the rational constant used by Python.
-/
import Verif.Model.Py
import Mathlib.Algebra.BigOperators.Group.List.Basic

namespace OpenPile.Pile

variable {K : Type} [Field K] [LinearOrder K]

/-- `PileMaterial`, materials.py 54-127 (the name is not modelled). -/
structure Material (K : Type) where
  uw : K
  E : K
  nu : K
deriving DecidableEq, Repr

/-- Field constraints of `PileMaterial`, materials.py 76-81 (`name` length 1..20 omitted).
`none` is the pydantic `ValidationError`. -/
def mkMaterial (uw E nu : K) : Option (Material K) :=
  if 0 < uw ∧ 0 < E ∧ -1 < nu ∧ nu ≤ 1/2 then some ⟨uw, E, nu⟩ else none

/-- `PileMaterial.shear_modulus`, materials.py 98-101. -/
def Material.shearModulus (m : Material K) : K := m.E / (2 + 2 * m.nu)

/-- `materials.steel`, materials.py 126. -/
def steel : Material K := ⟨78, 210000000, 3/10⟩
/-- `materials.concrete`, materials.py 127. -/
def concrete : Material K := ⟨24, 30000000, 2/10⟩

/-- A validated `CircularPileSection`, construct.py 165-168; `thickness` is the value after
`get_proper_thickness` has run. -/
structure Section (K : Type) where
  top : K
  bottom : K
  diameter : K
  thickness : K
deriving DecidableEq, Repr

/-- Reasons for which constructing a section, pile or profile fails. -/
inductive Err
  | field            -- a pydantic field constraint
  | elevations       -- bottom ≥ top
  | noSections       -- construct.py 288-289
  | notConnected     -- construct.py 301-304
  | topMismatch      -- construct.py 667-668
  | layersOverlap    -- construct.py 671-672
  | indexError       -- construct.py 667 on an empty list of layers
  | coarseness       -- construct.py 1009-1011
  | pileTooDeep      -- construct.py 1018-1019
deriving DecidableEq, Repr

/-- Constructor of `CircularPileSection`: field constraints (construct.py 167-168), default
thickness (170-174), elevation check (176-182). -/
def mkSection (top bottom diameter : K) (thickness : Option K) : Except Err (Section K) :=
  if ¬ 0 < diameter then .error .field
  else
    match thickness with
    | some t =>
      if ¬ 0 < t then .error .field
      else if bottom ≥ top then .error .elevations
      else .ok ⟨top, bottom, diameter, t⟩
    | none =>
      if bottom ≥ top then .error .elevations
      else .ok ⟨top, bottom, diameter, diameter / 2⟩

/-- `length`, construct.py 192-194. -/
def Section.length (s : Section K) : K := s.top - s.bottom
/-- `area`, construct.py 196-198. -/
def Section.area (pi : K) (s : Section K) : K :=
  (s.diameter ^ 2 - (s.diameter - 2 * s.thickness) ^ 2) * pi / 4
/-- `entrapped_area`, construct.py 200-202. -/
def Section.entrappedArea (pi : K) (s : Section K) : K :=
  (s.diameter - 2 * s.thickness) ^ 2 * pi / 4
/-- `outer_perimeter`, construct.py 204-206. -/
def Section.outerPerimeter (pi : K) (s : Section K) : K := s.diameter * pi
/-- `inner_perimeter`, construct.py 208-210. -/
def Section.innerPerimeter (pi : K) (s : Section K) : K := (s.diameter - 2 * s.thickness) * pi
/-- `footprint`, construct.py 212-214. -/
def Section.footprint (pi : K) (s : Section K) : K := s.diameter ^ 2 * pi / 4
/-- `width`, construct.py 216-218. -/
def Section.width (s : Section K) : K := s.diameter
/-- `second_moment_of_area`, construct.py 220-222. -/
def Section.inertia (pi : K) (s : Section K) : K :=
  (s.diameter ^ 4 - (s.diameter - 2 * s.thickness) ^ 4) * pi / 64
/-- `get_volume`, construct.py 224-225. -/
def Section.getVolume (pi : K) (s : Section K) (length : K) : K := s.area pi * length
/-- `get_entrapped_volume`, construct.py 227-228. -/
def Section.getEntrappedVolume (pi : K) (s : Section K) (length : K) : K :=
  length * (s.diameter - 2 * s.thickness) ^ 2 * pi / 4

/-- A validated `Pile`: sections in the order left by `sections_must_not_overlap`
(construct.py 231-237).  Only circular sections are modelled. -/
structure Pile (K : Type) where
  sections : List (Section K)
  material : Material K
deriving DecidableEq, Repr

/-- `sorted(self.sections, key=lambda x: -x.top_elevation)`, construct.py 295. -/
def sortSections (l : List (Section K)) : List (Section K) := Py.sortedBy (fun x => -x.top) l

/-- The loop of `sections_must_not_overlap`, construct.py 296-304: each section must start
exactly where the previous one ends. -/
def connected : List (Section K) → Bool
  | a :: b :: l => decide (b.top = a.bottom) && connected (b :: l)
  | _ => true

/-- Constructor of `Pile`, construct.py 285-314. -/
def mkPile (sections : List (Section K)) (material : Material K) : Except Err (Pile K) :=
  if sections.length = 0 then .error .noSections
  else
    let sorted := sortSections sections
    if connected sorted then .ok ⟨sorted, material⟩ else .error .notConnected

/-- `top_elevation = sections[0].top_elevation`, construct.py 316-318; `none` is IndexError,
which cannot occur for a validated pile. -/
def Pile.topElevation (p : Pile K) : Option K := p.sections.head?.map (·.top)
/-- `bottom_elevation = sections[-1].bottom_elevation`, construct.py 363-368. -/
def Pile.bottomElevation (p : Pile K) : Option K := p.sections.getLast?.map (·.bottom)
/-- `length`, construct.py 370-375. -/
def Pile.length (p : Pile K) : Option K := do
  let t ← p.topElevation
  let b ← p.bottomElevation
  return t - b
/-- `volume`, construct.py 377-382. -/
def Pile.volume (pi : K) (p : Pile K) : K := (p.sections.map (fun x => x.area pi * x.length)).sum
/-- `weight`, construct.py 384-389. -/
def Pile.weight (pi : K) (p : Pile K) : K := p.volume pi * p.material.uw
/-- `inner_volume`, construct.py 415-424. -/
def Pile.innerVolume (pi : K) (p : Pile K) : K :=
  (List.zipWith (· * ·) (p.sections.map (·.entrappedArea pi))
    (List.zipWith (· - ·) (p.sections.map (·.top)) (p.sections.map (·.bottom)))).sum
/-- `tip_area`, construct.py 405-408. -/
def Pile.tipArea (pi : K) (p : Pile K) : Option K := p.sections.getLast?.map (·.area pi)
/-- `tip_footprint`, construct.py 410-413. -/
def Pile.tipFootprint (pi : K) (p : Pile K) : Option K := p.sections.getLast?.map (·.footprint pi)

/-- `create_tubular`, construct.py 426-472. -/
def createTubular (top bottom diameter wt : K) (material : Material K) : Except Err (Pile K) := do
  let s ← mkSection top bottom diameter (some wt)
  mkPile [s] material

end OpenPile.Pile
