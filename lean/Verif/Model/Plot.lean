/-
The drawing of a model and of the section forces of a result.

Models `src/openpile/utils/graphics.py` 147-331 (`connectivity_plot`, called by `Model.plot`, construct.py
1806-1842) and 370-395 (`F_plot`), as far as positions are concerned: markers, arrows and limits of the axes.
Colours, labels, texts and the rescaling by `ax.axis("equal")` when the figure is rendered are not modelled.  The
column `y [m]` of the nodes holds zeros (_model_build.py 174), so the length of the structure, the root of the sum
of two squares at graphics.py 165-168, is the difference of the largest and the smallest elevation.
-/
import Verif.Model.BC
import Verif.Model.Extent

namespace OpenPile.Plot
open OpenPile.BC OpenPile.Mesh
open OpenPile.Model (Model)

variable {K : Type} [Field K] [LinearOrder K] [FloorRing K]

/-- A `FancyArrowPatch` from `tail` to `head`, points being (horizontal, vertical); `rad` is the curvature of
`connectionstyle="arc3,rad=..."`, zero for a straight arrow. -/
structure Arrow (K : Type) where
  tail : K × K
  head : K × K
  rad : K
deriving DecidableEq, Repr

/-- The markers of supports: 7 (triangle pointing down), 6 (up), 5 (sideways) and "s" (square),
graphics.py 179-200. -/
inductive Marker | down | up | side | square
deriving DecidableEq, Repr

omit [FloorRing K] in
/-- `total_length`, graphics.py 165-168; `none` for an empty table. -/
def totalLength (nodes : List K) : Option K :=
  match nodes.max?, nodes.min? with
  | some a, some b => some |a - b|
  | _, _ => none

/-- `global_forces[...].abs().max()`, graphics.py 209, 222, 241. -/
def loadMax (loads : List ℤ) : ℤ := (loads.map (fun l => |l|)).foldr max 0

omit [FloorRing K] in
/-- `arrow_length`, graphics.py 205-207, 216, 229, 247. -/
def arrowLength (total : K) (top load : ℤ) : K := total / 10 * |(load : K) / (top : K)|

omit [FloorRing K] in
/-- The loop over the lateral loads, graphics.py 209-220. -/
def lateralArrows (total : K) (top : ℤ) : List (K × ℤ) → List (Arrow K)
  | [] => []
  | (z, load) :: r =>
    if load = 0 then lateralArrows total top r
    else
      (if load > 0 then ⟨(-arrowLength total top load, z), (0, z), 0⟩
       else ⟨(arrowLength total top load, z), (0, z), 0⟩) :: lateralArrows total top r

omit [FloorRing K] in
/-- The loop over the vertical loads, graphics.py 222-239; the test `idx == len(z) - 1` is `r = []`. -/
def verticalArrows (total : K) (top : ℤ) : List (K × ℤ) → List (Arrow K)
  | [] => []
  | (z, load) :: r =>
    if load = 0 then verticalArrows total top r
    else
      (if load > 0 then
        if r = [] then ⟨(0, z), (0, z + arrowLength total top load), 0⟩
        else ⟨(0, z - arrowLength total top load), (0, z), 0⟩
       else
        if r = [] then ⟨(0, z), (0, z - arrowLength total top load), 0⟩
        else ⟨(0, z + arrowLength total top load), (0, z), 0⟩) :: verticalArrows total top r

omit [FloorRing K] in
/-- The loop over the moments, graphics.py 241-286.  `bound` tells whether the local variable `style` has a value:
it is read (246) before it is assigned (248), so `none`, the `UnboundLocalError`, comes out when the first moment is
drawn and no earlier loop assigned it. -/
def momentArrows (total : K) (top : ℤ) (bound : Bool) : List (K × ℤ) → Option (List (Arrow K))
  | [] => some []
  | (z, load) :: r =>
    if load = 0 then momentArrows total top bound r
    else if bound then
      let len := arrowLength total top load / (3 / 2)
      let rad : K := if load > 0 then 1 / 2 else -(1 / 2)
      (momentArrows total top true r).map (fun l =>
        (if r = [] then ⟨(len, z), (-len, z), rad⟩ else ⟨(-len, z), (len, z), rad⟩) :: l)
    else none

omit [FloorRing K] in
/-- All arrows, graphics.py 202-286.  `style` is assigned by the first two loops exactly when they draw an arrow. -/
def arrows (total : K) (nodes : List K) (f : Nodal ℤ) : Option (List (Arrow K)) :=
  let py := lateralArrows total (loadMax f.y) (nodes.zip f.y)
  let pz := verticalArrows total (loadMax f.z) (nodes.zip f.z)
  (momentArrows total (loadMax f.x) (!(py ++ pz).isEmpty) (nodes.zip f.x)).map (fun mx => py ++ pz ++ mx)

omit [Field K] [LinearOrder K] [FloorRing K] in
/-- The elevations selected by a boolean column. -/
def select (nodes : List K) (mask : List Bool) : List K :=
  ((nodes.zip mask).filter (·.2)).map (·.1)

/-- `mask[-1] = False`, graphics.py 175-176. -/
def dropBottom (mask : List Bool) : List Bool := mask.set (mask.length - 1) false

/-- `mask[:-1] = False`, graphics.py 177-178. -/
def onlyBottom (mask : List Bool) : List Bool :=
  mask.mapIdx (fun i b => b && decide (i + 1 = mask.length))

omit [Field K] [LinearOrder K] [FloorRing K] in
/-- The markers of the supports with their elevations, graphics.py 172-200. -/
def markers (nodes : List K) (r : Nodal Bool) : List (Marker × K) :=
  (select nodes (dropBottom r.z)).map (fun z => (.down, z)) ++
  (select nodes (onlyBottom r.z)).map (fun z => (.up, z)) ++
  (select nodes r.y).map (fun z => (.side, z)) ++
  (select nodes r.x).map (fun z => (.square, z))

/-- What is drawn: the markers, the arrows, the soil layers as (lower edge, height), and the limits of the axes. -/
structure Picture (K : Type) where
  markers : List (Marker × K)
  arrows : List (Arrow K)
  bands : List (K × K)
  xlim : K × K
  ylim : K × K
deriving DecidableEq, Repr

/-- `connectivity_plot`, graphics.py 147-331.  `auto` are the vertical limits matplotlib chose for the line of the
mesh (`ax.get_ylim()`, 170).  `none` is an exception. -/
def connectivityPlot (m : Model K) (bcs : List (Cond K)) (auto : K × K) : Option (Picture K) := do
  let C ← getCoordinates m.pile m.soil m.x2mesh m.coarseness
  let total ← totalLength C.nodes
  let R ← (globalRestrained C.nodes bcs).toOption
  let F ← (globalForces C.nodes bcs).toOption
  let as ← arrows total C.nodes F
  match m.soil with
  | none =>
    return ⟨markers C.nodes R, as, [], (-(total / 2), total / 2),
      (auto.1 - 11 / 100 * total, auto.2 + 11 / 100 * total)⟩
  | some sp =>
    let b ← m.bottom
    let t ← m.top
    return ⟨markers C.nodes R, as, sp.layers.map (fun l => (l.bottom, l.top - l.bottom)),
      (-(7 / 10 * total), 3 / 10 * total),
      (min b auto.1 - 11 / 100 * total, max t auto.2 + 11 / 100 * total)⟩

omit [FloorRing K] in
/-- The horizontal limits of `F_plot`, graphics.py 388-393; `none` for an empty table. -/
def forceLimits (f : List K) : Option (K × K) :=
  match f.min?, f.max? with
  | some lo, some hi => some (min 0 (lo - 1 / 10 * |lo + 1|), max 0 (hi + 1 / 10 * |hi + 1|))
  | _, _ => none

end OpenPile.Plot
