/-
From layers and elements to the springs of a Model.

Models `src/openpile/construct.py` 1146-1356 (`model_post_init`, `create_springs`).

Floats are real numbers; the casts to float32 are not modelled.  `none` is an exception or a NaN.  The
messages about negative or NaN springs (construct.py 1315-1342) change nothing; they are in
Model/Warnings.lean.
-/
import Verif.Model.SoilModel
import Verif.Model.Model

namespace OpenPile.Assemble
open OpenPile.SoilModel OpenPile.Axial

/-- An axial model. -/
inductive AxialModel
  | clay (m : ClayAxial)
  | sand (m : SandAxial)

/-- `Layer` with its soil models, construct.py 532-553. -/
structure SoilLayer extends Soil.Layer ℝ where
  lateral : Option SoilModel.Model
  axial : Option AxialModel

/-- What `create_springs` reads of one element: a row of `soil_properties` (elevations and stresses, NaN
above ground) and of `element_properties` (the section, NaN above the pile head). -/
structure Row where
  top : ℝ
  bottom : ℝ
  sigTop : Option ℝ
  sigBottom : Option ℝ
  sec : Option (Pile.Section ℝ)

/-- Everything `create_springs` reads: elements from the head down, layers in the order of the user, ground
level `soil.top_elevation`, `soil.bottom_elevation`, water line, pile tip, areas of the tip, and the switches
of the Model (construct.py 988-1001). -/
structure Input where
  rows : List Row
  layers : List SoilLayer
  ground : ℝ
  profileBottom : ℝ
  water : ℝ
  tip : ℝ
  tipArea : ℝ
  tipFootprint : ℝ
  distributedLateral : Bool
  distributedMoment : Bool
  distributedAxial : Bool
  baseShear : Bool
  baseMoment : Bool
  baseAxial : Bool

/-- A curve is the list of its points (displacement, resistance). -/
abbrev Curve := List (ℝ × ℝ)

/-- The arrays `py`, `mt`, `Hb`, `Mb`, `tz`, `qz`, construct.py 1154-1164; the spring of element `i` at its
top is `py i false`, at its bottom `py i true`. -/
structure Arrays where
  py : ℕ → Bool → Curve
  mt : ℕ → Bool → Table
  tz : ℕ → Bool → Curve
  hb : Curve
  mb : Curve
  qz : Curve

/-- A curve of zeros. -/
def zeros : Curve := List.replicate 15 (0, 0)

/-- `np.zeros`, construct.py 1154-1164. -/
def Arrays.zero : Arrays where
  py := fun _ _ => zeros
  mt := fun _ _ => List.replicate 15 zeros
  tz := fun _ _ => zeros
  hb := zeros
  mb := zeros
  qz := zeros

/-- Assigning to a row of 15 numbers: a `ValueError` if the curve has another length.  (A single point
would be broadcast; no spring function returns one when asked for 15.) -/
def store (c : Curve) : Option Curve := if c.length = 15 then some c else none

/-- The same for a table of 15 rows. -/
def storeTable (t : Table) : Option Table :=
  if t.length = 15 ∧ ∀ r ∈ t, r.length = 15 then some t else none

/-- The random numbers used by the calls for one layer (given by its top), element and end. -/
structure Draws where
  py : ℝ → ℕ → Bool → Env
  mt : ℝ → ℕ → Bool → Env
  tz : ℝ → ℕ → Bool → Env
  qz : ℝ → ℕ → Env

/-- Elevation of the top (`false`) or bottom (`true`) of an element. -/
def Row.z (r : Row) (b : Bool) : ℝ := if b then r.bottom else r.top

/-- Vertical effective stress there. -/
def Row.sig (r : Row) (b : Bool) : Option ℝ := if b then r.sigBottom else r.sigTop

/-- `elements_for_layer`, construct.py 1170-1173: elements with their number, in ascending order. -/
noncomputable def selected (S : Input) (l : SoilLayer) : List (Row × ℕ) :=
  S.rows.zipIdx.filter (fun x => decide (x.1.top ≤ l.top ∧ x.1.bottom ≥ l.bottom))

/-- `sig_v_tip`, construct.py 1190. -/
def sigTip (S : Input) : Option ℝ := S.rows.getLast?.bind (·.sigBottom)

/-- The condition for base springs, construct.py 1215-1216 and 1270-1273. -/
noncomputable def tipIn (S : Input) (l : SoilLayer) : Bool := decide (l.top ≥ S.tip ∧ l.bottom ≤ S.tip)

/-- Arguments of the distributed lateral springs, construct.py 1240-1249 and 1258-1267; `ymax` keeps its
default 0. -/
noncomputable def nodeArgs (S : Input) (l : SoilLayer) (r : Row) (b : Bool) : Option Args := do
  let sig ← r.sig b
  let s ← r.sec
  return { sig := sig, X := |r.z b - S.ground|, height := l.top - l.bottom, depth := l.top - r.z b,
           D := s.width, L := S.ground - S.tip, belowWater := decide (r.z b ≤ S.water), ymax := 0, len := 15 }

/-- Arguments of the lateral base springs, construct.py 1279-1291 and 1296-1308: `X` is the depth of the
soil profile. -/
noncomputable def baseArgs (S : Input) (l : SoilLayer) (r : Row) : Option Args := do
  let sig ← sigTip S
  let s ← r.sec
  return { sig := sig, X := S.ground - S.profileBottom, height := l.top - l.bottom,
           depth := l.top - S.tip, D := s.width, L := S.ground - S.tip,
           belowWater := decide (S.tip ≤ S.water), ymax := 0, len := 15 }

/-- `tz_spring_fct` of one node, construct.py 1199-1211: both circumferences are the outer one
(construct.py 1187-1188). -/
noncomputable def tzNode (S : Input) (l : SoilLayer) (m : AxialModel) (r : Row) (b : Bool) (e : Env) :
    Option Curve := do
  let sig ← r.sig b
  let s ← r.sec
  let (z, t) ← match m with
    | .clay m => m.tzSpring (s.outerPerimeter Real.pi) (s.outerPerimeter Real.pi) sig (l.top - l.bottom) (l.top - r.z b) s.width 15 e.tzDraws e.argsort
    | .sand m => m.tzSpring (s.outerPerimeter Real.pi) (s.outerPerimeter Real.pi) sig (l.top - l.bottom) (l.top - r.z b) 15 e.tzDraws e.argsort
  store (z.zip t)

/-- `Qz_spring_fct`, construct.py 1220-1230. -/
noncomputable def qzTip (S : Input) (l : SoilLayer) (m : AxialModel) (r : Row) (e : Env) :
    Option Curve := do
  let sig ← sigTip S
  let s ← r.sec
  let (z, q) ← match m with
    | .clay m =>
      m.qzSpring S.tipArea S.tipFootprint (l.top - l.bottom) (l.top - S.tip) s.width 15 e.tzDraws e.argsort
    | .sand m =>
      m.qzSpring S.tipArea S.tipFootprint sig (l.top - l.bottom) (l.top - S.tip) s.width 15 e.tzDraws e.argsort
  store (z.zip q)

/-- Assignment to the two springs of element `i`. -/
def setBoth {α : Type} (f : ℕ → Bool → α) (i : ℕ) (top bottom : α) : ℕ → Bool → α :=
  fun j b => if j = i then (if b then bottom else top) else f j b

/-- Axial part of the loop body, construct.py 1192-1229. -/
noncomputable def axialStep (S : Input) (env : Draws) (l : SoilLayer) (r : Row) (i : ℕ) (A : Arrays) :
    Option Arrays :=
  match l.axial with
  | none => some A
  | some m => do
    let A ← if S.distributedAxial then do
        let t ← tzNode S l m r false (env.tz l.top i false)
        let b ← tzNode S l m r true (env.tz l.top i true)
        pure { A with tz := setBoth A.tz i t b }
      else pure A
    if tipIn S l && S.baseAxial then do
      let q ← qzTip S l m r (env.qz l.top i)
      pure { A with qz := q }
    else pure A

/-- `py_spring_fct` of one node. -/
noncomputable def pyNode (S : Input) (l : SoilLayer) (m : SoilModel.Model) (r : Row) (b : Bool) (e : Env) :
    Option Curve := do
  let a ← nodeArgs S l r b
  let c ← m.py a e
  store c

/-- `mt_spring_fct` of one node. -/
noncomputable def mtNode (S : Input) (l : SoilLayer) (m : SoilModel.Model) (r : Row) (b : Bool) (e : Env) :
    Option Table := do
  let a ← nodeArgs S l r b
  let c ← m.mt a e
  storeTable c

/-- `Hb_spring_fct`. -/
noncomputable def hbTip (S : Input) (l : SoilLayer) (m : SoilModel.Model) (r : Row) : Option Curve := do
  let a ← baseArgs S l r
  let c ← m.hb a
  store c

/-- `Mb_spring_fct`. -/
noncomputable def mbTip (S : Input) (l : SoilLayer) (m : SoilModel.Model) (r : Row) : Option Curve := do
  let a ← baseArgs S l r
  let c ← m.mb a
  store c

/-- p-y springs of the loop body, construct.py 1234-1250. -/
noncomputable def pyStep (S : Input) (env : Draws) (l : SoilLayer) (m : SoilModel.Model) (r : Row) (i : ℕ)
    (A : Arrays) : Option Arrays :=
  if m.signature.1 && S.distributedLateral then do
    let t ← pyNode S l m r false (env.py l.top i false)
    let b ← pyNode S l m r true (env.py l.top i true)
    return { A with py := setBoth A.py i t b }
  else some A

/-- m-t springs of the loop body, construct.py 1252-1268. -/
noncomputable def mtStep (S : Input) (env : Draws) (l : SoilLayer) (m : SoilModel.Model) (r : Row) (i : ℕ)
    (A : Arrays) : Option Arrays :=
  if m.signature.2.2.1 && S.distributedMoment then do
    let t ← mtNode S l m r false (env.mt l.top i false)
    let b ← mtNode S l m r true (env.mt l.top i true)
    return { A with mt := setBoth A.mt i t b }
  else some A

/-- Hb spring of the loop body, construct.py 1269-1291. -/
noncomputable def hbStep (S : Input) (l : SoilLayer) (m : SoilModel.Model) (r : Row) (A : Arrays) :
    Option Arrays :=
  if tipIn S l && (m.signature.2.1 && S.baseShear) then do
    let c ← hbTip S l m r
    return { A with hb := c }
  else some A

/-- Mb spring of the loop body, construct.py 1269-1273 and 1293-1308. -/
noncomputable def mbStep (S : Input) (l : SoilLayer) (m : SoilModel.Model) (r : Row) (A : Arrays) :
    Option Arrays :=
  if tipIn S l && (m.signature.2.2.2 && S.baseMoment) then do
    let c ← mbTip S l m r
    return { A with mb := c }
  else some A

/-- Lateral part of the loop body, construct.py 1231-1308. -/
noncomputable def lateralStep (S : Input) (env : Draws) (l : SoilLayer) (r : Row) (i : ℕ) (A : Arrays) :
    Option Arrays :=
  match l.lateral with
  | none => some A
  | some m => do
    let A ← pyStep S env l m r i A
    let A ← mtStep S env l m r i A
    let A ← hbStep S l m r A
    mbStep S l m r A

/-- The loop body, construct.py 1175-1308. -/
noncomputable def step (S : Input) (env : Draws) (l : SoilLayer) (A : Arrays) (x : Row × ℕ) :
    Option Arrays := do
  let A ← axialStep S env l x.1 x.2 A
  lateralStep S env l x.1 x.2 A

/-- The two loops, construct.py 1169-1308. -/
noncomputable def fillArrays (S : Input) (env : Draws) : Option Arrays :=
  S.layers.foldlM (fun A l => (selected S l).foldlM (step S env l) A) Arrays.zero

/-- `tz = tz * (-1)`, construct.py 1310-1313: displacements and resistances change sign. -/
def negate (c : Curve) : Curve := c.map (fun q => (-q.1, -q.2))

/-- `create_springs`, construct.py 1147-1344. -/
noncomputable def createSprings (S : Input) (env : Draws) : Option Arrays := do
  let A ← fillArrays S env
  return { A with tz := fun i b => negate (A.tz i b), qz := negate A.qz }

/-! ### from a pile and a soil profile -/

/-- A `SoilProfile` with its soil models, construct.py 640-654. -/
structure SoilProfile where
  topElevation : ℝ
  waterLine : ℝ
  layers : List SoilLayer

/-- The geometry of the profile. -/
def SoilProfile.geometry (sp : SoilProfile) : Soil.Profile ℝ :=
  ⟨sp.topElevation, sp.waterLine, sp.layers.map (·.toLayer)⟩

/-- The switches of a Model, construct.py 988-1001. -/
structure Switches where
  distributedLateral : Bool
  distributedMoment : Bool
  distributedAxial : Bool
  baseShear : Bool
  baseMoment : Bool
  baseAxial : Bool

/-- The row of an element: `soil_properties` (_model_build.py 220-255) and `element_properties`
(construct.py 1034-1053), for the sorted pile table `table`. -/
noncomputable def rowOf (table : List (ℝ × Pile.Section ℝ)) (r : Model.SoilRow ℝ) : Row :=
  ⟨r.element.1, r.element.2, r.sigTop, r.sigBottom, Model.elementSection table r.element.1⟩

/-- What `create_springs` reads when a `Model` is created, construct.py 1147-1190.  `table` is the result of
sorting `pile.data`. -/
noncomputable def input (p : Pile.Pile ℝ) (sp : SoilProfile) (x2mesh : List ℝ) (coarseness : ℝ)
    (w : Switches) (table : List (ℝ × Pile.Section ℝ)) : Option Input := do
  let rows ← (Model.soilProperties p sp.geometry x2mesh coarseness).toOption
  let tip ← p.bottomElevation
  let area ← p.tipArea Real.pi
  let footprint ← p.tipFootprint Real.pi
  return { rows := rows.map (rowOf table), layers := sp.layers, ground := sp.topElevation,
           profileBottom := sp.geometry.bottomElevation, water := sp.waterLine, tip := tip,
           tipArea := area, tipFootprint := footprint,
           distributedLateral := w.distributedLateral, distributedMoment := w.distributedMoment,
           distributedAxial := w.distributedAxial, baseShear := w.baseShear,
           baseMoment := w.baseMoment, baseAxial := w.baseAxial }

/-- The springs of a Model, construct.py 1146-1355. -/
noncomputable def modelSprings (p : Pile.Pile ℝ) (sp : SoilProfile) (x2mesh : List ℝ) (coarseness : ℝ)
    (w : Switches) (table : List (ℝ × Pile.Section ℝ)) (env : Draws) : Option Arrays := do
  let S ← input p sp x2mesh coarseness w table
  createSprings S env

end OpenPile.Assemble
