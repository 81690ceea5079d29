/-
Weights computed by a Model.

Models `src/openpile/construct.py` 1398-1416 (`effective_pile_weight`) and 1455-1496
(`entrapped_soil_weight`).  NaN is `none`; the sum of an array with a NaN is NaN.
-/
import Verif.Model.Model

namespace OpenPile.Weight
open OpenPile.Pile (Pile Section)
open OpenPile.Soil (Layer Profile)
open OpenPile.Mesh

variable {K : Type} [Field K] [LinearOrder K]

/-- Entry of `V`, construct.py 1402-1406, or of `Vi`, 1465-1471: length of the element times the value of
`key` for the section that contains it. -/
def elementVolume (key : Section K → K) (p : Pile K) (e : K × K) : Option K :=
  (parameterOf (·.top) (·.bottom) key p.sections e).map (fun a => (e.1 - e.2) * a)

/-- Entry of `W`, construct.py 1401, 1407-1409: an element is submerged if its top is not above the water
line. -/
def effectiveWeight (pi : K) (p : Pile K) (water : K) (e : K × K) : Option K :=
  (elementVolume (·.area pi) p e).map (fun V =>
    if e.1 ≤ water then V * (p.material.uw - 10) else V * p.material.uw)

/-- `Model.effective_pile_weight`, construct.py 1398-1416, for the element coordinates `els`. -/
def effectivePileWeight (pi : K) (p : Pile K) (sp : Profile K) (els : List (K × K)) : Option K :=
  (els.mapM (effectiveWeight pi p sp.waterLine)).map List.sum

/-- Entry of `element_sw`, construct.py 1476-1494: the layers are visited in the order given by the user and
overwrite the entry, which is 0 for an element that no layer contains. -/
def soilWeight (pi : K) (p : Pile K) (sp : Profile K) (e : K × K) : Option K :=
  sp.layers.foldl (fun acc l =>
    if e.1 ≤ l.top ∧ e.2 ≥ l.bottom then
      (elementVolume (·.entrappedArea pi) p e).map (fun V =>
        if e.1 > sp.waterLine then l.weight * V else (l.weight - 10) * V)
    else acc) (some 0)

/-- `Model.entrapped_soil_weight`, construct.py 1455-1496. -/
def entrappedSoilWeight (pi : K) (p : Pile K) (sp : Profile K) (els : List (K × K)) : Option K :=
  (els.mapM (soilWeight pi p sp)).map List.sum

end OpenPile.Weight
