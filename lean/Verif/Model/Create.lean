/-
The two ways to make a Model: the class and the method `Model.create`.

Models `src/openpile/construct.py` 970-1003 (fields of `Model` and their defaults) and 1860-1928
(`Model.create`).
-/
import Verif.Model.SoilAnalysis

namespace OpenPile.Create
open OpenPile.Kernel OpenPile.Assemble OpenPile.SoilAnalysis
open OpenPile.Pile (Pile)

/-- The optional keyword arguments common to `Model(...)` and `Model.create(...)`; `none` is an omitted argument.
(`name`, `pile` and `soil` are passed on alike; `boundary_conditions` and `plugging` exist for `Model` only and are
left out here.) -/
structure Given where
  elementType : Option ElementType
  x2mesh : Option (List ℝ)
  coarseness : Option ℝ
  distributedLateral : Option Bool
  distributedMoment : Option Bool
  distributedAxial : Option Bool
  baseShear : Option Bool
  baseMoment : Option Bool
  baseAxial : Option Bool

/-- The values the Model holds. -/
structure Settings where
  elementType : ElementType
  x2mesh : List ℝ
  coarseness : ℝ
  switches : Switches

/-- `Model(...)`: omitted arguments take the defaults of the fields, construct.py 982-1000. -/
noncomputable def byClass (g : Given) : Settings :=
  ⟨g.elementType.getD .timoshenko, g.x2mesh.getD [], g.coarseness.getD (1 / 2),
    ⟨g.distributedLateral.getD true, g.distributedMoment.getD true, g.distributedAxial.getD true,
      g.baseShear.getD true, g.baseMoment.getD true, g.baseAxial.getD true⟩⟩

/-- `Model.create(...)`, construct.py 1860-1918: omitted arguments take the defaults of the signature and all are
passed to `Model`.  The default of `x2mesh` is a pydantic `FieldInfo` object (1867), which the validation of the
field `x2mesh: List[float]` rejects (`none`). -/
noncomputable def byCreate (g : Given) : Option Settings := do
  let x2mesh ← g.x2mesh
  return byClass { elementType := some (g.elementType.getD .timoshenko), x2mesh := some x2mesh
                   coarseness := some (g.coarseness.getD (1 / 2))
                   distributedLateral := some (g.distributedLateral.getD true)
                   distributedMoment := some (g.distributedMoment.getD true)
                   distributedAxial := some (g.distributedAxial.getD false)
                   baseShear := some (g.baseShear.getD true)
                   baseMoment := some (g.baseMoment.getD true)
                   baseAxial := some (g.baseAxial.getD false) }

/-- `.solve()` of the Model with soil, construct.py 1844-1857. -/
noncomputable def solveWith (s : Settings) (p : Pile ℝ) (sp : SoilProfile) (table : List (ℝ × Pile.Section ℝ))
    (env : Draws) (bcs : List (OpenPile.BC.Cond ℝ)) : Option SoilResult :=
  solveSoil s.elementType p sp s.x2mesh s.coarseness s.switches table env bcs

end OpenPile.Create
