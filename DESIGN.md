# Formal model of openpile: design

Source: `/repo` (TchilDill/openpile, pinned commit, version 1.0.2).  The code was
read as text; it was neither built nor run.  Properties: `properties.jsonl`
(C01...).  Status and theorem names per property: `MANIFEST.json`.

## 1. Layout

* `lean/Verif/Model/*.lean`  executable-style mirror of the Python, one Lean
  definition per function / validator / loop, each with a comment that cites
  file and lines and names every simplification.
* `lean/Verif/Spec/*.lean`   small, independent vocabulary in which the
  properties are stated (piecewise integral of unit weight, energies, shape
  functions, "last write" of a call history, ...).  Specs never call the model.
* `lean/Verif/Lemmas/*.lean` helper lemmas.
* `lean/Verif/Props/*.lean`  the property theorems, each followed by an
  `example` that shows a concrete non-trivial instance of the hypotheses.
* `lean/Verif/Cases/*.lean`: further such instances, each naming the theorems whose hypotheses it meets,
  where they need lemmas from other files (for example that a curve function returns a curve at all).
* `seeded/LOG.jsonl`         log of seeded-bug experiments (mutating the model).

## 2. Trusted base

* Lean 4.33.0 kernel; Mathlib as installed.  Allowed axioms: `propext`,
  `Classical.choice`, `Quot.sound`.  No `sorry`, no added axioms, no
  `native_decide`/`bv_decide`.
* The reading of the Python text (this is the only tie between model and code).
* Numbers: Python floats (float64, and float32 for the spring tables) are
  modelled as exact numbers of an ordered field (`ℚ` or `ℝ`, or any ordered
  field where no analysis is needed).  Rounding errors, overflow, `inf` and
  signed zeros are *not* modelled.  NaN is modelled where the code branches on
  or produces it deliberately (Winkler loop, merge results) as `none`.
* numpy / pandas / scipy primitives are modelled from their documentation:
  `np.unique` (sort + dedup), `pd.merge_asof(direction="forward")` (first row
  of the sorted right table whose key is ≥ the left key), `np.interp` (piecewise
  linear, clamped), `np.gradient`, `np.linalg.solve` (a solution when the matrix
  is non-singular, `LinAlgError` otherwise), `np.isclose`, Python `round`
  (banker's rounding), `np.random` (an arbitrary list of numbers in [0,1)).
* pydantic validation: only the field constraints and validators quoted in the
  model comments (those of the soil models are in `Model/Accept.lean`).

## 3. Not modelled

Colours, fonts and labels of all plots and whatever else of `utils/graphics.py` is not listed below, printing of numbers, file I/O, pydantic type coercion, docstrings, numba compilation
(except where it makes a function fail).

Also left out: `pydantic` dataclass machinery, `Model.plugging` (a field no
code reads), and `API_clay_axial.unit_shaft_signature`, which nothing calls and
which reads a field the class does not have.

### What each model file covers

| Lean file | Python |
|-----------|--------|
| `Model/Py.lean` | Python/numpy primitives (`sorted`, `unique`, `isclose`, `round`) |
| `Model/Pile.lean` | `materials.py`; sections and `Pile` in `construct.py` |
| `Model/Soil.lean` | `Layer`, `SoilProfile` validators and elevations |
| `Model/Accept.lean` | field constraints of all classes in `soilmodels.py` |
| `Model/SoilPlot.lean` | `soil_plot`: elevations of what `SoilProfile.plot` draws |
| `Model/Mesh.lean`, `Model/Model.lean` | `core/_model_build.py`; mesh, element and soil tables, validators of `Model` |
| `Model/BC.lean` | `set_pointload`, `set_pointdisplacement`, `set_support`, `validate_bc`, `apply_bc` |
| `Model/Kernel.lean` | `core/kernel.py`: element matrices, assembly, `solve_equations`, internal forces |
| `Model/Spring.lean` | spring stiffness routines of `core/kernel.py`, `np.interp` |
| `Model/Winkler.lean`, `Model/Result.lean` | `winkler.py`: `beam`, `winkler`, result tables |
| `Model/Conic.lean`, `Model/Lateral.lean` | `core/misc.py` conic, `utils/py_curves.py`, `mt_curves.py`, `Hb_curves.py`, `Mb_curves.py` |
| `Model/Check.lean` | `core/validation.py`: `check_boundary_conditions` |
| `Model/Extent.lean` | `Model.embedment`, `top`, `bottom` |
| `Model/KraftApi.lean` | `api_clay_kraft`, `api_sand_kraft` |
| `Model/Create.lean` | defaults of `Model(...)` and of `Model.create(...)` |
| `Model/Session.lean` | sessions with several Models: shared boundary condition objects, springs changed in place |
| `Model/Describe.lean` | `__str__` of soil models, layers and profiles |
| `Model/Plot.lean` | `graphics.connectivity_plot` (arrows, markers, limits), limits of the force diagrams |
| `Model/ResultPlot.lean` | the plots of a result: deflection, settlement, section forces |
| `Model/Handles.lean` | which tables a Model or a result hands out are copies and which are shared |
| `Model/PileTables.lean` | `Pile.data`, `print(pile)`, `txt_pile` |
| `Model/Assign.lean` | attributes assigned after creation: cached coordinates, springs of the creation |
| `Model/Warnings.lean` | `check_springs` and the messages of `create_springs` (NaN values left out) |
| `Model/Tables.lean` | labels of the tables of springs |
| `Model/Reduce.lean` | `numba_ix`, `solve_equations` on lists, with 32-bit positions |
| `Model/PDelta.lean` | `elem_p_delta_stiffness_matrix` (never called) |
| `Model/Axial.lean` | `utils/misc.py`, `utils/tz_curves.py`, `utils/qz_curves.py`, axial soil models |
| `Model/Param.lean`, `Model/Hooks.lean` | `core/misc.py` parameters, `utils/hooks.py` |
| `Model/SoilModel.lean` | lateral classes of `soilmodels.py`, multiplier check of `SoilProfile` |
| `Model/Analysis.lean` | `beam` from boundary conditions and mesh to the result tables, `Model.solve` without soil |
| `Model/SoilAnalysis.lean` | `Model.solve` with soil from springs and mesh to the result tables (mobilisation included), `WinklerResult.details` |
| `Model/Assemble.lean` | `Model.model_post_init`, `create_springs` |
| `Model/Capacity.lean` | `Model.shaft_resistance`, `Model.tip_resistance` from pile and profile |
| `Model/Extract.lean`, `Model/Weight.lean` | `get_*_springs`, resistances and weights of a `Model` |

## 4. Plan per property

| id | what is modelled | how it is proved |
|----|------------------|------------------|
| C01 | `CircularPileSection` fields, validators, geometry properties over ℝ | algebra with `nlinarith`; unvalidated thickness > D gives a counterexample |
| C02 | `Pile.check_sections` as sort + adjacent check | induction over sorted list, permutation invariance of the sort |
| C03 | volume/weight as list sums | list induction |
| C04 | `check_layers_elevations`, `bottom_elevation` | induction with accumulated tolerance |
| C05 | `get_coordinates` over ℚ: `unique`, inner while loop, second `unique` | list induction, sortedness lemmas |
| C06 | same; the while loop as well-founded recursion | measure `⌈spacing/coarseness⌉ - divider` |
| C07 | rounding to 4 decimals | monotone rounding; counterexample to strictness |
| C08 | mesh + sections/layers | no node strictly inside an element |
| C09 | `merge_asof` join | counterexample for two sections, theorem for one section |
| C10 | `get_soil_properties` cumulative sums | induction; spec = integral of unit weight; counterexample for water line inside an element |
| C11 | `get_tip_sig_v_eff` | counterexample for two layers, theorem for one layer |
| C12 | `_update_bc` state machine | invariant + refinement to "last write" spec |
| C13 | `validate_bc` | exact characterisation; invariant from C12 |
| C14 | `apply_bc` fold | induction; integer truncation counterexample |
| C15 | `solve_equations` for matrices over a field indexed by a finite type | block algebra with an abstract solver contract |
| C16 | element matrix | closed-form energy as sum of squares |
| C17 | shear parameter | counterexample to the textbook formula |
| C18 | soil element matrices | polynomial integrals computed by `integral` lemmas; energies as sums of squares |
| C19 | assembly | induction over elements |
| C20 | positive definiteness | induction: zero energy propagates rigid motion along the chain |
| C21 | equilibrium; tables of `solveModel` | rigid-body test vectors; masking loses at most 1/1000 per entry |
| C22 | internal forces; tables of `solveModel` | element identities and nodal sums; exact rows of the tables |
| C23 | superposition, reciprocity; tables of `solveOn` | linear algebra; same elements for same mesh |
| C24, C25 | spring stiffness routines, `np.interp` | case analysis, table lemmas; counterexample for table lengths ≡ 1 mod 4 |
| C26, C27 | the Newton loop with abstract stiffness and solver | induction over iterations; counterexamples |
| C28 | `conic` over ℝ | root location of a quadratic; counterexample for tiny x_u |
| C29 | PISA curve functions | corollaries of C28 |
| C30-C32 | API sand / clay / rock curves | monotonicity of tanh and rpow |
| C33, C34 | axial backbones, Kraft | tables with arbitrary random extras |
| C35, C36 | unit friction, axial soil models | real analysis; counterexamples (alpha_limit dropped) |
| C37, C38 | hooks | algebra, refinement native = custom |
| C39, C40 | parameter interpolation, multipliers | algebra; counterexample: multiplier check never raises |
| C41, C42 | spring extraction as a state machine | counterexample to read-only; tributary sums by induction |
| C43 | `double_inner_njit`, `repeat_inner` | list lemmas; counterexample |
| C44 | shaft resistance | sum identity; counterexample for non-uniform meshes |
| C45 | weights | list induction |
| C46 | model validators | case analysis + mesh lemmas |
| C47 | tip spring selection | fold over layers |
| C48 | subgrade reaction | algebra; counterexample k = 0 |
| C49 | mobilisation | interpolation bounds; counterexample |
| C50 | material | algebra |
| C51 | mesh extent | corollary of C05; counterexample: pile head below ground |
| C52, C53 | which displacement each spring sees in the Winkler loop | unfolding of the loop body for arbitrary springs; counterexample at the tip |
| C54 | `create_springs` as two nested overwrite loops | "last write" lemmas for arbitrary loops; ownership of elements by layers |
| C55 | any two meshes of one pile, tables compared at common nodes | transfer of the exact beam solution along the elements; both meshes refine their common mesh; then boundary conditions, sections and tables |
| C56 | capacities from pile and profile through mesh, stresses and springs | extreme resistances of every stored curve, then the sums of `shaft_resistance`; existence of all axial springs by the success lemma of the loops |
| C57 | the Winkler iteration without loads | induction over the passes: zero stays a solution, tolerance and residual stay zero |
| C58 | the Winkler iteration under reflection | every pass commutes with a sign change that the stiffness law respects; calls, nodal columns and tables commute with it too, and the rows of the m-t tables of all models but three are equal; counterexample with rotational springs |
| C59 | converged results of the Winkler iteration | rigid-body test vectors, consistency of the element matrices (C18), Cauchy-Schwarz on the residual |
| C60 | the Winkler iteration within the first branch | following two passes; slopes of the tables; superposition |
| C61 | `solveSoil`, `details` | inversion of the analysis to the converged exit; rounding is monotone and off by half a unit |
| C62 | `solveSoil` against `solveModel` | all spring arrays are zero, then the two-pass argument of C60 and mesh independence C55 |
| C63 | `rotational`, `fill`, the `mt` functions | the filtered t-z curve has equal signs in both columns; the perimeter integral of cos²; RotationalFull: accepted parameters, Dunkirk sand at every depth, custom models |
| C64 | Assemble, SoilModel, Lateral, Conic | existence of the curves of every lateral model (Props/Defined), of the axial ones (Props/Capacity), then induction over layers and elements |
| C65 | BC, Mesh, Model, Assemble, SoilAnalysis, Capacity, Weight | conditions up to order from C12; commuting writes; meshes from sets of elevations; C54_order |
| C66 | Mesh, Model, Assemble, BC, SoilAnalysis, Result, Capacity, Weight | Spec/Datum raises every input; all stages commute with it |
| C67 | Extent, Mesh, Model | enclosure from order of sections and layers; embedment as telescoping sum over elements |
| C68 | KraftApi, Axial | kraft_eq, friction bounds, monotonicity of the logarithm |
| C69 | Check, BC, Analysis | counts as existence of nodes; solvability from C20_tables |
| C70 | PDelta, Kernel | equality with the rotational soil matrix at stiffness T, then C18 |
| C71 | Winkler, Analysis, SoilAnalysis | two analyses in lock step, agreeing on the lateral (axial) degrees of freedom; uncoupled blocks of the stiffness matrix; a load fixed by a reflection keeps every iterate fixed by it; witness for the shared tolerance |
| C72 | `Kernel.solveEquations`, `Winkler.winkler`, `SoilAnalysis.solveSoil` | energy of a symmetric non-negative matrix, rigid-body modes, decision on supports and tables |
| C73 | `Create.byClass`, `Create.byCreate` | decision on omitted arguments, with C72 for the effect on `solve()` |
| C74 | `Spring.*`, `Kernel.tzMatrix`, `Kernel.pyMatrix`, `Winkler.winkler` | bound of secants by tables, integral estimate, balance of C59 |
| C75 | Model/Session | Props/Session, Props/SessionLook |
| C76 | Model/Describe | Props/Describe, Props/DescribeAxial (the lines with a given beginning; what can be read back) |
| C77 | Model/Plot | Props/Plot |
| C78 | Model/Assign | Props/Assign |
| C79 | Analysis, Kernel, Winkler | induction over the iterations; every spring stiffness is homogeneous in the resistances; the linear systems have the same solutions |
| C80 | Analysis, Kernel, Winkler | induction along the elements from the jumps of C22; Cauchy-Schwarz for the residual |
| C81 | Analysis, Kernel, BC | closed form checked in each element and assembled; uniqueness of the solution |
| C82 | Analysis, Kernel, BC, Pile | energy order of the stiffness matrices, minimum principle, monotone ring properties |
| C83 | Lateral, Conic, Axial | monotone laws; T, tan and sin of half the friction angle; star shape of conics; the rock curve against the published one; the Kraft curve is antitone in G0 |
| C84 | SoilAnalysis, Analysis, Winkler, Kernel | energy of the secant stiffness; residual bounds the defect (Cauchy-Schwarz) |
| C85 | Analysis, BC, Winkler, Kernel | uniqueness of the solution; one more support keeps the matrix regular |
| C86 | Reduce, Kernel | lists against matrices indexed by the free degrees of freedom; zero row |
| C87 | Warnings, Assemble | sign of each curve; fold over the layers |
| C88 | Tables, Extract, Mesh | positions in the repeated columns |
| C89 | SoilPlot, Soil | chain of sorted layers |
| C90 | SoilAnalysis, Assemble, Lateral, Axial | relation between the springs of the two runs, carried through the assembly |
| C91 | Assemble, Model, Mesh, Soil, SoilModel, SoilAnalysis | parameters keep their values over each piece; every element has one owner in both profiles; component by component |
| C92 | Pile, Mesh, Assemble, Model, Analysis, Capacity | rows of pile.data pairwise; every element lies on one side of the joint; springs depend on sections through the diameter only |
| C93 | Assemble, Model, Weight | the layer found for an element begins at or above it; loop bodies of create_springs compared layer by layer |
| C94 | Mesh, Model, Assemble, Weight, SoilAnalysis | required elevations agree; layers below the tip select no element; the depth passed to base springs is that of the profile |
| C95 | Kernel, Winkler, Analysis | virtual work on motions that are rigid above the node; induction over the iterations |
| C96 | Model/ResultPlot | Props/ResultPlot |
| C97 | Model/Kernel, Model/SoilAnalysis | Props/Material |
| C98 | Model, Weight, Assemble, Lateral | prefix sums compared entry by entry; table of element friction compared element by element; transition depth of clay falls with stress; slope of the first segment of the sand table |
| C99 | Kernel, Winkler, Analysis, Mesh, BC | elimination of one element after the other from the top; induction over the number of elements and over the iterations; with soil also the assembly of the springs with shifted element numbers |
| C100 | Assemble, Winkler, SoilAnalysis | the loop over layers and elements commutes with blanking the tables of a kind; stiffness of blank tables is zero |
| C101 | Kernel, Analysis | the stiffness matrix annihilates rigid motions; the solution is unique, so the shifted one is the one found |
| C102 | Model/Capacity, Model/Mesh, Model/Model, Model/Assemble | refinement of meshes by prefix, sums compared term by term |
| C103 | Lateral, SoilModel, Spring | Props/Cyclic |
| C104 | Kernel, Analysis, BC | uniqueness of the solution; truncation of the load |
| C105 | Assemble, Capacity, Axial, Mesh | comparison of the two inputs of create_springs, node by node and at the tip |
| C106 | Mesh, Analysis, SoilAnalysis, Assemble | neighbours of a node in the exact mesh; rounding moves the node to one side |
| C107 | Analysis, Mesh, BC, Kernel | Props/Similar: weights of the degrees of freedom, stiffness s W A W, mesh and conditions by induction over the calls |
| C108 | Model/Handles | Props/Handles |
| C109 | as C58 | tables of 15 points are odd, stiffness even in the axial displacement, iteration equivariant under the sign change |
| C110 | Model/PileTables | pairs of rows determine a section; induction over the stack |
| C111 | Assemble, Axial, Spring, SoilAnalysis | the table under the tip is blank or the backbone, by invariant over the loops; interpolation to the right of the origin is zero; C59_tables_axial |
| C112 | `Model/Accept.lean` | `Props/Accept.lean`: limits of each class as predicates; parameters given by numbers are between their ends; ranges of C64 and C87 follow |
| C113 | Analysis, SoilAnalysis, BC, Winkler | reading of all histories (C12, C14) joined with the invariant of the iteration and the tables |
| C114 | SoilAnalysis, Winkler, Assemble | the iteration stops at the linear response (uniqueness of C15, C60), then C23 |
| C115 | SoilAnalysis, Winkler, Kernel | energy of the secant stiffness is not negative (C18, C24); what costs no energy meets no resistance; the counterexample solves the 2 x 2 head equations |
| C116 | `springsOf`, `buildStiffness`, `winkler`, `solveSoilOn` | energies of the springs are linear in the stiffness and ordered; the residual bounds the rest |
| C117 | `createSprings`, `tzApiClay`, `tzApiSand`, `interp`, `shaftResistance`, `solveSoil` | only the upper half of a t-z table is read at upward movements; its greatest value is the friction that the Model sums; balance of the listed rows (C111) |
| C118 | `createSprings`, `tzApiClay`, `tzApiSand`, `qzTip`, `interp`, `shaftResistance`, `tipResistance`, `solveSoil` | only the lower half of a t-z table is read at downward movements; its greatest value is the friction that the Model sums; the q-z table stays within the reported tip resistance; balance of the listed rows (C59) |
| C119 | `SoilModel.Model.py`, `multiply`, `createSprings`, `solveSoil` | `C119_partial`, `C119_deflection_partial`: the p-y, t-z and Q-z tables of the two Models are one table with its displacements and resistances times the respective multipliers, the base tables coincide, and C116 compares the analyses; first branch only |
| C120 | `mtStiffness`, `mtAt`, `buildStiffness`, `winkler`, `createSprings` | `C120_model`, `C120_analysis`: induction over the passes of the loop, every matrix built with the switch on being the one built with it off; `C120_model_iff`, `C120_analysis_iff`: the other direction, with the lateral springs on |

When the code violates a property the negation is proved with a concrete
witness, preferably for all inputs of a stated kind (`..._violated*` theorems),
and the part that does hold is proved as `..._partial` or under the hypotheses
named in `MANIFEST.json`.

## 5. Where code and property disagree

Every entry is backed by the theorem(s) in parentheses.

Geometry and mesh
* A wall thickness above half the diameter is accepted; area and inner perimeter
  become negative (`C01_violated_*`).
* Rounding coordinates to 0.1 mm merges distinct required elevations and lets
  elements miss their section or layer (`C07_violated_merge`, `C08_violated_*`). Every joint between sections
  that is no multiple of 0.1 mm makes all results NaN (`C106_violated_joint`, `C106_violated_soil_joint`), every such
  layer boundary takes the springs of one element away (`C106_violated_layer`).
* Elements of a lower pile section get the properties of the section above
  (`C09_violated_stable`). Hence the reported shaft resistance rises when a section below a
  narrower one is described as two sections (`C92_violated_shaft`). For the same reason
  a part put on top of the pile, in the air, changes the springs of the old topmost section if its
  diameter differs: in clay the shaft friction is multiplied by the quotient of the diameters
  (`C99_violated_friction`).
* The embedment of a buried pile exceeds its length, and a pile above ground can have a
  negative one (`C67_violated_*`).
* A pile head below ground extends the mesh above the pile (`C51_violated_*`),
  makes both weights NaN (`C45_violated_head_below_ground`) and leaves no analysis (`C106_violated_buried`). Extra levels
  above the head or below the tip do the same (`C106_violated_outside`).

Stresses and weights
* An element cut by the water line is treated as dry for stresses and weights
  (`C10_violated_water_line`, `C45_violated_water_line`).
* `get_tip_sig_v_eff` returns after the first layer (`C11_violated_*`).

Loads and finite elements
* Loads are stored in an integer array and truncated (`C14_violated_fractional_load`, `C95_violated_truncation`); a reaction
  listed at a support cannot be applied instead of the support unless it is a whole number (`C104_violated_fraction`).
* The Timoshenko parameter multiplies by the shear coefficient (`C17_violated*`), so that every Timoshenko
  cantilever deflects too little (`C81_violated_timoshenko`) and a hollow one can deflect less than a solid one
  (`C82_violated_timoshenko`),
  the rotational soil matrix overwrites the area (`C18_violated_mt`), and with a
  stiffness gradient it is not the integral (`C18_violated_mt_gradient`).
* One convergence tolerance, 1e-4 of the norm of all loads and reactions, serves both directions.  A large
  axial load ends the lateral iteration early and changes the deflections (`C71_violated_iterations`,
  and `C95_violated_iterations` for loads that cancel).
* The stress stiffness matrix also overwrites the area (`C70_violated_timoshenko`) and is
  never added: analyses are of first order.
* `check_boundary_conditions` passes piles without axial support or with rotational supports only, and
  rejects displacement-controlled models and all models with soil (`C69_violated_*`).
* Walls thicker than the radius are accepted and make the pile softer (`C82_violated_thick_wall`) and its tip weaker (`C105_violated_wall`).
* Near the surface the residual cyclic resistance of clay falls with the shear strength (`C83_violated_cyclic`).
* Below water the default modulus of API sand falls between 15 and 24 degrees (`C83_violated_modulus`).
* The elastic part of the curve for weak rock ends at a displacement computed with the exponent 1.333 in place
  of 4/3. The table drops there once it is fine enough, and a stronger rock resists less (`C83_violated_rock`).
* A stiffer soil mobilises its shaft friction earlier and so loses it earlier when the Kraft curves have a
  residual friction below the peak (`C83_violated_kraft`).
* Distributed moment of Dunkirk sand: points within 0.01 of the ultimate rotation are put on the plateau, which is
  most of the curve. Under more stress that happens at a larger rotation, where the stronger sand then resists
  less (`C83_violated_rotation`).
* Sand of 15 to 23 degrees with the default modulus becomes stiffer when the water rises above it, whatever stress it loses
  (`C98_violated_modulus`): the two formulas for the modulus cross.
* A vanishing vertical stress is replaced by 1 Pa in the shaft friction of clay, so that a smaller stress than
  that gives less friction than none (`C83_violated_surface`).
* Because the area is overwritten in the rotational spring matrix of Timoshenko elements (C18), rotational springs can push a
  pile along: a solid pile of 3 m diameter gives way more with them than without (`C84_violated_timoshenko`).
  With some rotational stiffness the equations of a clamped pile are even singular (`C72_violated_timoshenko`),
  and above some stiffness the head moves against its load (`C115_violated_timoshenko`).
* A prescribed displacement of zero does not hold the node: the analysis is that of the model without the call
  (`C85_violated_zero`; with soil `C113_violated_zero`).
* Strongly auxetic materials, which `PileMaterial` accepts, give an indefinite element (`C16_violated_auxetic`), an
  indefinite global matrix (`C19_violated_auxetic`), and for some tubes a well supported pile that cannot be solved
  (`C20_violated_auxetic`).
* Positions in the stiffness matrix are kept as 32-bit integers: with 15447 nodes every
  supported pile whose tip may rotate is reported as unsolvable (`C86_violated_nodes`).

Springs and iterations
* m-t springs depend on the direction of loading (`C24_violated_mt_direction`).
* Curves of 4k+5 points are split at the wrong point (`C25_violated`).
* Unconverged numbers are returned for small `max_iter` (`C26_violated*`); support
  reactions enter the tolerance twice (`C27_violated`).
* A model without loads is reported as NaN (`C57_violated_*`).
* The same happens in a profile without soil models when nothing stresses the pile, also when the supports move it
  as a rigid body (`C62_violated_unstressed`).
* Rotational springs are weaker when the pile moves in the negative direction, because the mobilised
  lateral resistance is looked up with its sign (`C58_violated_moment`).
* The last spring sees the displacement of the node above (`C52_violated*`).
* The mobilisation table misses the pile tip (`C43_violated`) and may report a
  displacement as base resistance (`C49_violated_*`).

Curves and soil models
* Just beyond `3 y50` the cyclic plateau of clay (0.7185 of the ultimate resistance) lies above the static curve
  (0.71849), by 0.002 % at most (`C103_violated_peak`).
* `conic` can divide by zero inside its range and does not start at zero for tiny
  ultimate displacements (`C28_violated_*`).
* PISA curves outside their calibration have negative or vanishing strength
  (`C29_violated_*`); the hooks are clamped where the native models are not
  (`C38_violated_mt`).
* `ymax` below 15 y50 is exceeded (`C31_violated_*`).
* Requested lengths are not honoured by t-z and Kraft curves (`C33_violated_*`,
  `C34_violated_*`).
* Kraft's form of the API sand curve is NaN at ground level
  (`C68_violated_sand_surface`); the docstrings announce the two arrays in the wrong order.
* Clay friction jumps at zero stress; sand friction may be negative
  (`C35_violated_*`).
* `alpha_limit` and `inside_friction` never reach the springs; tension with a plug
  uses the inner circumference; `create_springs` counts the outer perimeter twice
  (`C36_violated_*`).
* The documented neutral value of the cyclic hook is not neutral (`C37_violated_*`).
* Axial parameters extrapolate outside their layer (`C39_violated_axial`).
* Exceptions for bad multipliers are created but not raised
  (`C40_violated_validation`).
* Base parameters given as functions are evaluated at the bottom of the soil
  profile (`C47_violated_depth`), so that soil below the pile tip changes the base springs
  (`C94_violated_base`).
* The Sorensen modulus decreases with depth, and a modulus given with a
  modification is ignored (`C48_violated_*`).

Results of a Model
* Looking at springs changes them (`C41_violated_*`); lumped tables count
  tributary lengths twice and "distributed" ones are lumped (`C42_violated_*`).
* The node a load acts at depends on the datum, because its tolerance grows with
  the absolute elevation (`C66_violated_near`); nodes are rounded half to even, so
  shifts by 0.1 mm move them unevenly (`C66_violated_odd`).
* The shaft resistance of partially embedded piles is off by the difference of
  the neighbouring element lengths (`C44_violated_embedment`).
* `Model.create` raises when `x2mesh` is omitted and leaves out axial springs by
  default, unlike the class (`C73_violated_*`).
* Reactions may exceed the strength of the springs, because secant stiffnesses
  rather than resistances are interpolated along an element (`C74_violated_*`).
* Rotational springs along Timoshenko elements enter the moment balance with a factor
  different from one (`C59_violated_factor`).
* With rotational springs that depend on the mobilised lateral resistance the response to
  small loads is not proportional to them (`C60_violated_moment`).
* Models created with the same boundary condition object share what is set on it, and a
  look at the axial springs changes the next analysis (`C75_violated_*`).

* The messages about negative springs leave out the axial springs (`C87_violated_axial`).

* The tables of base springs give a node number that no node has (`C88_violated_base`).
* A water line below the bottom of the profile is accepted but lies outside the axis of the plot
  (`C89_violated_water`).
* C90: `Modified_Matlock_clay` fills its table with points drawn at random on the curved part. Under static loading the
  table for which a number was drawn resists more at that point than a table for which it was not, for every clay
  (`C90_violated_modified`). Two runs of the same script differ. `api_clay` draws its points on the plateau, so the
  tables differ (`C90_violated_tables`) but not their effect.
* The tables of springs weight the two sides of a layer boundary by tributary lengths of
  nodes instead of half lengths of elements (`C42_violated_interface`).
* The length that `shaft_resistance` attributes to the last node is the whole last element (`np.gradient` at an end), to an
  inner node half of both neighbours.  If the pile goes on for a short piece in soil without axial model, the old tip becomes an inner
  node and its friction acts on less length: the reported shaft resistance drops (`C102_violated_boundary`).

Printing and plotting
* A friction angle of an axial sand model has no upper limit when given as a number, a relative density
  never has one, and functions are accepted as axial multipliers; springs are negative, lie at negative
  displacements or raise (`C112_violated_*`). For Dunkirk sand of 100 % there are piles and depths where
  the p-y curve divides zero by zero (`C64_violated_dense`).
* No table of a pile shows its material (`C110_violated_material`); `txt_pile` raises for every pile
  (`C110_violated_text`).
* `api_clay_kraft` and `api_sand_kraft` are compiled by numba but call an uncompiled
  function, so that they fail for all arguments (`C68_violated_compiled`).
* Profiles whose PISA layers have a varying stiffness, and axial models with functions as
  multipliers, raise when printed; Bothkennar clay prints as Cowden clay and custom clay as
  custom sand (`C76_violated_*`).
* A model loaded by moments only cannot be plotted (`C77_violated_moment_only`).

Attributes assigned after creation
* Nothing is validated or recomputed: a soil profile assigned to a Model without one makes
  every analysis raise, a finer mesh raises or is ignored, springs switched on later have
  no stiffness (`C78_violated_*`).
* `nodes_coordinates` and `element_coordinates` hand out the cached tables themselves, a
  result its own tables: an edit of the first can make `solve` raise
  (`C108_violated_nodes`), an edit of `displacements` changes what the result shows
  (`C108_violated_result`).
