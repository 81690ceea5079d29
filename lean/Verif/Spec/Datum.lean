/-
Spec: the same pile, soil and loads seen from another datum, i.e. with all elevations raised by `δ`.
-/
import Verif.Model.SoilAnalysis

namespace OpenPile.Spec.Datum
open OpenPile

section geometry
variable {K : Type} [Field K]

/-- A pile section, all elevations raised by `δ`. -/
def section' (δ : K) (s : Pile.Section K) : Pile.Section K := { s with top := s.top + δ, bottom := s.bottom + δ }

/-- A pile. -/
def pile (δ : K) (p : Pile.Pile K) : Pile.Pile K := { p with sections := p.sections.map (section' δ) }

/-- A layer. -/
def layer (δ : K) (l : Soil.Layer K) : Soil.Layer K := { l with top := l.top + δ, bottom := l.bottom + δ }

/-- A soil profile. -/
def profile (δ : K) (sp : Soil.Profile K) : Soil.Profile K :=
  ⟨sp.topElevation + δ, sp.waterLine + δ, sp.layers.map (layer δ)⟩

/-- A mesh. -/
def mesh (δ : K) (C : Mesh.Coordinates K) : Mesh.Coordinates K :=
  ⟨C.nodes.map (· + δ), C.elements.map (fun e => (e.1 + δ, e.2 + δ))⟩

/-- The table of the pile sorted by elevation. -/
def pileTable (δ : K) (t : List (K × Pile.Section K)) : List (K × Pile.Section K) :=
  t.map (fun r => (r.1 + δ, section' δ r.2))

/-- A call that sets a boundary condition. -/
def call (δ : K) : BC.Call K → BC.Call K
  | .pointload e py pz mx => .pointload (e + δ) py pz mx
  | .pointdisplacement e ty tz rx => .pointdisplacement (e + δ) ty tz rx
  | .support e ty tz rx => .support (e + δ) ty tz rx

/-- A boundary condition. -/
def cond (δ : K) (c : BC.Cond K) : BC.Cond K := { c with elevation := c.elevation + δ }

/-- The tables of a result: only their elevations are raised. -/
def tables (δ : K) (t : Analysis.Tables K) : Analysis.Tables K :=
  ⟨t.disp.map (fun r => (r.1 + δ, r.2)), t.forces.map (fun r => (r.1 + δ, r.2)),
    t.reactions.map (fun r => (r.1 + δ, r.2))⟩

end geometry

open OpenPile.Assemble

/-- A layer with its soil models. -/
noncomputable def soilLayer (δ : ℝ) (l : SoilLayer) : SoilLayer := ⟨layer δ l.toLayer, l.lateral, l.axial⟩

/-- A soil profile with its soil models. -/
noncomputable def soil (δ : ℝ) (sp : SoilProfile) : SoilProfile :=
  ⟨sp.topElevation + δ, sp.waterLine + δ, sp.layers.map (soilLayer δ)⟩

/-- The random numbers of the springs, which belong to layers given by their tops. -/
noncomputable def draws (δ : ℝ) (env : Draws) : Draws :=
  ⟨fun z => env.py (z - δ), fun z => env.mt (z - δ), fun z => env.tz (z - δ), fun z => env.qz (z - δ)⟩

/-- The result of an analysis with soil: only the elevations of its tables are raised. -/
noncomputable def result (δ : ℝ) : SoilAnalysis.SoilResult → SoilAnalysis.SoilResult
  | .numbers t => .numbers { t with toTables := tables δ t.toTables
                                    mob := t.mob.map (fun r => { r with elevation := r.elevation + δ }) }
  | .nan => .nan

end OpenPile.Spec.Datum
