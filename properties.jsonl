{"id": "C01", "title": "Circular section geometry is physical", "statement": "For every CircularPileSection that can be constructed, the steel area is positive and at most the footprint, steel area plus entrapped area equals the footprint, the inner perimeter does not exceed the outer one and the second moment of area is positive; a section without thickness is a solid bar.", "quantifier": "all diameters, thicknesses, top and bottom elevations accepted by the constructor", "why_tests_cant": "The claim ranges over a continuum of (diameter, thickness) pairs, including the unvalidated region thickness > diameter/2 that no example pile visits.", "anchors": ["src/openpile/construct.py: CircularPileSection"]}
{"id": "C02", "title": "A Pile is a contiguous stack of sections", "statement": "Pile(...) succeeds exactly when the section list is non-empty and, ordered by top elevation, each section starts where the previous one ends; an accepted pile covers [bottom_elevation, top_elevation] without gap or overlap, its length is top minus bottom and equals the sum of the section lengths, and the order in which the sections are listed is irrelevant.", "quantifier": "all lists of sections, of any length and in any order", "why_tests_cant": "Order independence and gap freedom quantify over all permutations of arbitrarily long lists.", "anchors": ["src/openpile/construct.py: Pile.check_sections_not_empty, Pile.check_sections, Pile.length, Pile.top_elevation, Pile.bottom_elevation"]}
{"id": "C03", "title": "Pile volume and weight are additive", "statement": "Pile.volume is the sum of the section volumes, Pile.weight is volume times the unit weight of the material, all three of volume, inner volume and their sum (the gross volume) agree with footprint times length per section, and splitting a section in two at any elevation changes none of them.", "quantifier": "all accepted piles and all split elevations", "why_tests_cant": "Universally quantified over number of sections and real-valued split points.", "anchors": ["src/openpile/construct.py: Pile.volume, Pile.weight, Pile.inner_volume, CircularPileSection.get_volume, CircularPileSection.get_entrapped_volume"]}
{"id": "C04", "title": "A SoilProfile has no gaps or overlaps beyond the 1 mm tolerance", "statement": "SoilProfile(...) succeeds exactly when the uppermost layer top equals top_elevation and every layer, ordered by top, starts within tolerance of the bottom of the layer above; consequently every elevation of the profile is within tolerance of a layer and two layers overlap by no more than the tolerance, and bottom_elevation deviates from the lowest layer bottom by at most the accumulated tolerance.", "quantifier": "all layer lists, in any order and of any length", "why_tests_cant": "Tolerances accumulate with the number of layers; only induction covers every length.", "anchors": ["src/openpile/construct.py: SoilProfile.check_layers_elevations, SoilProfile.bottom_elevation"]}
{"id": "C05", "title": "The mesh honours every required elevation", "statement": "The node elevations of a Model contain the pile top, the pile bottom, every section boundary, every layer boundary above the pile tip and every x2mesh elevation; they are strictly decreasing from the highest to the lowest required elevation, and consecutive nodes form the elements.", "quantifier": "all piles, soil profiles, x2mesh lists and coarseness values", "why_tests_cant": "Ranges over arbitrary lists of elevations and mesh sizes.", "anchors": ["src/openpile/core/_model_build.py: get_coordinates"]}
{"id": "C06", "title": "No element is longer than the coarseness", "statement": "Every element length is positive and at most `coarseness`, all elements between two neighbouring required elevations have the same length, and that division is the coarsest equal division that respects `coarseness`; mesh generation terminates for every positive coarseness.", "quantifier": "all piles, soil profiles, x2mesh lists and positive coarseness values", "why_tests_cant": "The while-loop's iteration count is unbounded in spacing/coarseness.", "anchors": ["src/openpile/core/_model_build.py: get_coordinates (159-167)", "src/openpile/construct.py: Model.coarseness"]}
{"id": "C07", "title": "Published coordinates stay distinct and sorted after rounding", "statement": "The coordinates published by the Model (rounded to 4 decimals) differ from the exact mesh by at most 0.05 mm, keep the order of the nodes and never merge two nodes into a zero-length element.", "quantifier": "all meshes", "why_tests_cant": "Merging only happens for special, closely spaced inputs which example based tests do not contain.", "anchors": ["src/openpile/core/_model_build.py: get_coordinates (177-195)"]}
{"id": "C08", "title": "No element straddles a section or layer boundary", "statement": "Every element of the mesh lies inside a single pile section and, below ground, inside a single soil layer (up to the mesh rounding); hence the loops that select the elements of a layer by top and bottom elevation visit every embedded element exactly once.", "quantifier": "all piles, profiles and meshes", "why_tests_cant": "Quantifies over every element of every mesh and every layering.", "anchors": ["src/openpile/core/_model_build.py: get_coordinates, parameter2elements", "src/openpile/construct.py: Model.model_post_init.create_springs (1169-1175)"]}
{"id": "C09", "title": "Each element carries the properties of the section it lies in", "statement": "Model.element_properties gives each element the area, inertia, width, perimeter and wall thickness of the pile section that contains the element.", "quantifier": "all piles with any number of sections, all meshes", "why_tests_cant": "The lookup is a nearest-key join with ties at each section change; tests only use single-section piles.", "anchors": ["src/openpile/construct.py: Model.element_properties, Pile.data"]}
{"id": "C10", "title": "Vertical effective stress profile", "statement": "Vertical effective stress is zero at ground level, continuous from element to element, non-negative and non-decreasing with depth, and at each node equals the integral of the (buoyant below the water line) unit weight of the soil above.", "quantifier": "all layerings, water lines and meshes", "why_tests_cant": "An inductive statement over arbitrarily many elements; the water line can fall anywhere inside an element.", "anchors": ["src/openpile/core/_model_build.py: get_soil_properties, get_soil_profile"]}
{"id": "C11", "title": "Effective stress at the pile tip", "statement": "get_tip_sig_v_eff returns the mudline stress plus the weight (buoyant below water) of all soil between the ground and the tip.", "quantifier": "all layer lists, tip elevations and water elevations", "why_tests_cant": "The claim ranges over layer lists of every length and every relative position of tip and water table.", "anchors": ["src/openpile/core/_model_build.py: get_tip_sig_v_eff"]}
{"id": "C12", "title": "Setting boundary conditions is last-write-wins per axis", "statement": "After any sequence of set_pointload, set_pointdisplacement and set_support calls on a Model, there is at most one condition per kind and elevation, each axis of it holds the last value given for that kind, elevation and axis (None arguments leave the axis untouched), and calls for one kind or elevation never change another.", "quantifier": "all finite call sequences with arbitrary arguments", "why_tests_cant": "A property of unbounded histories.", "anchors": ["src/openpile/construct.py: Model._update_bc, Model.set_pointload, Model.set_pointdisplacement, Model.set_support"]}
{"id": "C13", "title": "Conflicting boundary conditions are rejected, and only those", "statement": "Computing global forces, displacements or restraints raises exactly when two conditions of the same kind share an elevation but differ on an axis; conditions built only through the set_* methods never raise.", "quantifier": "all boundary condition lists and call histories", "why_tests_cant": "Quantifies over all lists and histories.", "anchors": ["src/openpile/core/_model_build.py: validate_bc", "src/openpile/construct.py: Model.global_forces, global_disp, global_restrained"]}
{"id": "C14", "title": "A boundary condition acts at exactly one node", "statement": "Each load, displacement or fixity is written to exactly one node, a node within tolerance of its elevation, for exactly the axes given; all other nodes keep zero; a condition with no node within tolerance changes nothing; and the nodal load equals the given load.", "quantifier": "all node lists, all lists of boundary conditions and all values, including fractional loads", "why_tests_cant": "Ranges over every list and value; dtype effects appear only for fractional values.", "anchors": ["src/openpile/core/_model_build.py: apply_bc", "src/openpile/construct.py: Model.global_forces (1067-1089)"]}
{"id": "C15", "title": "The linear solver meets equilibrium and the supports", "statement": "For every non-singular reduced system, solve_equations returns displacements that satisfy K u = F at every unrestrained degree of freedom, keep the prescribed displacement at every restrained one, and reactions Q = K u - F that vanish at unrestrained degrees of freedom; the solution is unique.", "quantifier": "all stiffness matrices, load vectors, prescribed displacements and restraint masks of every size", "why_tests_cant": "Unbounded dimension and arbitrary restraint patterns.", "anchors": ["src/openpile/core/kernel.py: solve_equations, reverse_indices, numba_ix"]}
{"id": "C16", "title": "Beam element stiffness is symmetric, positive semi-definite and free of strain under rigid motion", "statement": "Every element's structural stiffness matrix is symmetric, its energy is non-negative and vanishes exactly for rigid-body translations and rotations, the end forces of every element are in equilibrium, and the Timoshenko matrix with zero shear coefficient is the Euler-Bernoulli matrix.", "quantifier": "all section and material parameters and element lengths", "why_tests_cant": "A statement on all real parameters and all displacement vectors.", "anchors": ["src/openpile/core/kernel.py: elem_mechanical_stiffness_matrix"]}
{"id": "C17", "title": "Timoshenko shear flexibility uses the shear coefficient correctly", "statement": "The Timoshenko shear parameter equals 12 E I / (k A G L^2) with k Cowper's shear coefficient of the hollow circular section, so that a smaller shear coefficient makes the element softer.", "quantifier": "all hollow circular sections and materials", "why_tests_cant": "A formula-level property for all real parameters.", "anchors": ["src/openpile/core/kernel.py: elem_mechanical_stiffness_matrix (230-262)"]}
{"id": "C18", "title": "Soil spring element matrices are the consistent matrices", "statement": "The lateral, axial and rotational soil element matrices equal the exact integral of shape function products (derivatives for rotation) weighted with the linearly varying spring stiffness between element top and bottom; they are symmetric and positive semi-definite for non-negative stiffness.", "quantifier": "all element lengths and all non-negative top and bottom stiffnesses", "why_tests_cant": "An identity between polynomials in all real parameters.", "anchors": ["src/openpile/core/kernel.py: elem_py_stiffness_matrix, elem_tz_stiffness_matrix, elem_mt_stiffness_matrix"]}
{"id": "C19", "title": "The global stiffness matrix is the sum of its elements", "statement": "The assembled stiffness matrix is symmetric, its quadratic form is the sum of the element energies plus the base spring energies, it is non-negative, each degree of freedom is coupled only to its own and the neighbouring nodes.", "quantifier": "all numbers of elements and all element matrices", "why_tests_cant": "Induction over the number of elements.", "anchors": ["src/openpile/core/kernel.py: jit_build, build_stiffness_matrix"]}
{"id": "C20", "title": "A supported pile has a unique solution", "statement": "With non-negative springs, if the supports and springs exclude every rigid-body motion then the reduced stiffness matrix is positive definite, hence solve_equations cannot fail and its solution is unique; without any support or spring the matrix is singular.", "quantifier": "all meshes, sections, springs and supports", "why_tests_cant": "Positive definiteness for every dimension.", "anchors": ["src/openpile/core/kernel.py: build_stiffness_matrix, solve_equations", "src/openpile/winkler.py: beam"]}
{"id": "C21", "title": "Global equilibrium of loads and reactions", "statement": "For a beam analysis the sum of applied loads and support reactions vanishes axially and laterally, and so does the sum of moments about any point.", "quantifier": "all meshes, loads, prescribed displacements and supports", "why_tests_cant": "Universally quantified over mesh size and loading.", "anchors": ["src/openpile/winkler.py: beam, reaction_forces_to_df", "src/openpile/core/kernel.py: build_stiffness_matrix, solve_equations"]}
{"id": "C22", "title": "Section force diagrams are in equilibrium", "statement": "The reported N, V and M are such that each element is in equilibrium, and at each node the jump of the diagram equals the applied load plus reaction (plus spring force); in particular diagrams are continuous where nothing is applied and V is the slope of M.", "quantifier": "all meshes, loads and displacement fields", "why_tests_cant": "Holds at every node of every mesh.", "anchors": ["src/openpile/winkler.py: structural_forces_to_df", "src/openpile/core/kernel.py: pile_internal_forces"]}
{"id": "C23", "title": "Superposition and reciprocity of the beam solution", "statement": "For fixed supports, the response to a sum of load cases is the sum of the responses, scaling the loads scales the response, and the work of one load case on the displacements of another is symmetric (Maxwell-Betti).", "quantifier": "all load vectors and all non-singular systems", "why_tests_cant": "Algebraic laws over all vectors.", "anchors": ["src/openpile/core/kernel.py: solve_equations", "src/openpile/winkler.py: beam"]}
{"id": "C24", "title": "Spring stiffnesses are non-negative and reproduce the spring curve", "statement": "For every spring table and displacement, the initial, secant and tangent stiffness are non-negative; secant stiffness times displacement is the interpolated resistance of the curve measured from its first point, capped at the last point; initial stiffness is the first slope; the sign of the displacement is irrelevant.", "quantifier": "all spring tables (any length), displacements and kinds", "why_tests_cant": "Ranges over arbitrary tables and displacements.", "anchors": ["src/openpile/core/kernel.py: calculate_py_springs_stiffness, calculate_base_spring_stiffness, calculate_mt_springs_stiffness"]}
{"id": "C25", "title": "Axial springs are evaluated around their zero point", "statement": "The axial (t-z, Q-z) stiffness routines locate the point of zero displacement in the middle of the table for every table length and use the compression or tension branch that corresponds to the sign of the displacement.", "quantifier": "all table lengths and displacement signs", "why_tests_cant": "The index is computed with banker's rounding, so the outcome depends on the length modulo 4.", "anchors": ["src/openpile/core/kernel.py: calculate_tz_springs_stiffness, calculate_base_axial_spring_stiffness"]}
{"id": "C26", "title": "The Winkler iteration terminates with a converged or flagged result", "statement": "winkler() performs at most max_iter + 1 solves; whenever it returns a numeric displacement field, the out-of-balance force on unrestrained degrees of freedom is below the tolerance, otherwise the result is NaN; prescribed displacements are met exactly in the returned field.", "quantifier": "all models, all stiffness laws, all max_iter", "why_tests_cant": "A property of an iteration of unknown length over arbitrary nonlinear laws.", "anchors": ["src/openpile/winkler.py: winkler"]}
{"id": "C27", "title": "Convergence tolerance refers to the external force", "statement": "The convergence tolerance used by winkler() is 1e-4 times the norm of applied loads and reactions, independent of how many iterations were made.", "quantifier": "all models with supports, all iteration counts", "why_tests_cant": "The deviation accumulates with iterations.", "anchors": ["src/openpile/winkler.py: winkler (563-576)"]}
{"id": "C28", "title": "The PISA conic curve", "statement": "For ultimate values x_u, y_u > 0, stiffness k and shape 0 <= n < 1 the conic curve starts at zero, satisfies the conic equation before x_u, lies between the secant line and the elastic line, never exceeds y_u, is y_u from x_u on, and has the requested number of points.", "quantifier": "all real parameters in the admissible ranges and every point of the curve", "why_tests_cant": "Requires an argument for all reals; the closed formula has removable singularities and an absolute tolerance.", "anchors": ["src/openpile/core/misc.py: conic"]}
{"id": "C29", "title": "PISA soil reaction curves", "statement": "Each Dunkirk, Cowden and Bothkennar reaction curve (p-y, m-t, Hb, Mb) starts at zero reaction for zero displacement, is bounded by its normalised ultimate value times its scaling and is zero when the scaling is zero.", "quantifier": "all depths, diameters, lengths and soil parameters for which the normalised parameters are admissible", "why_tests_cant": "Ranges over all real soil parameters.", "anchors": ["src/openpile/utils/py_curves.py", "src/openpile/utils/mt_curves.py", "src/openpile/utils/Hb_curves.py", "src/openpile/utils/Mb_curves.py"]}
{"id": "C30", "title": "API sand p-y curves", "statement": "The API sand p-y curve starts at (0, 0), is non-decreasing in y, stays below A times the ultimate resistance, has the requested number of points, static resistance is at least the cyclic one, and the initial slope is bounded by k X.", "quantifier": "all effective stresses, depths, friction angles, diameters, stiffness values and kinds", "why_tests_cant": "Transcendental functions over all real parameters.", "anchors": ["src/openpile/utils/py_curves.py: api_sand"]}
{"id": "C31", "title": "API / Matlock clay p-y curves", "statement": "The API clay curve has as many points as requested (at least 8), is sorted in y and starts at (0,0); 0 <= p <= Pmax; the static curve is non-decreasing; the cyclic curve never exceeds 0.7185 Pmax (0.5 Pmax for the modified Matlock curve), does not jump at 8 y50 by more than 1 %, and no displacement exceeds ymax.", "quantifier": "all soil parameters, depths, kinds, output lengths and random draws", "why_tests_cant": "The curve contains random points; only a proof covers all draws.", "anchors": ["src/openpile/utils/py_curves.py: api_clay, modified_Matlock, matlock_1970"]}
{"id": "C32", "title": "Weak rock p-y curve", "statement": "Reese's weak rock p-y curve is zero at zero displacement, non-negative, bounded by Pmax, with RQD clamped to 0..100 and initial modulus capped at 500 Eir.", "quantifier": "all rock parameters, depths and displacements", "why_tests_cant": "All real parameters.", "anchors": ["src/openpile/utils/py_curves.py: reese_weakrock", "src/openpile/soilmodels.py: Reese_weakrock"]}
{"id": "C33", "title": "API axial curves", "statement": "The t-z backbone curves pass through (0,0), are non-decreasing in z up to the peak, never exceed 1 in compression and the tensile factor in tension, have sorted displacements, and have the requested length; the Q-z curve has no tension and reaches the full end bearing; actual curves are the backbone scaled by D and unit resistance.", "quantifier": "all output lengths, residual and tensile factors and random draws", "why_tests_cant": "The curve contains random points; only a proof covers all draws.", "anchors": ["src/openpile/utils/tz_curves.py: backbone_api_clay, backbone_api_sand, api_clay, api_sand", "src/openpile/utils/qz_curves.py"]}
{"id": "C34", "title": "Kraft t-z curve length", "statement": "The Kraft modification returns t and z vectors of exactly the requested length, symmetric around zero, with the peak friction never exceeded.", "quantifier": "all output lengths and parameters", "why_tests_cant": "Depends on rounding of the requested length modulo 4.", "anchors": ["src/openpile/utils/tz_curves.py: kraft_modification"]}
{"id": "C35", "title": "Unit shaft friction and end bearing limits", "statement": "API clay unit shaft friction is at most alpha_limit times Su and non-negative, decreases relative to Su with the strength ratio and has no jump at ratio 1; API sand friction and end bearing never exceed the tabulated limits, are zero at zero stress and non-decreasing in effective stress.", "quantifier": "all stresses, strengths and interface angles", "why_tests_cant": "All real parameters.", "anchors": ["src/openpile/utils/misc.py: _fmax_api_clay, _fmax_api_sand, _Qmax_api_clay, _Qmax_api_sand"]}
{"id": "C36", "title": "Axial soil model options reach the springs", "statement": "The t-z spring produced by an API axial soil model has peak shaft resistance equal to unit_shaft_friction times circumference, respects alpha_limit, and a plugged pile mobilises only the outer circumference in tension.", "quantifier": "all soil parameters, alpha_limit values, plugging options and circumferences", "why_tests_cant": "Parameter plumbing for all combinations.", "anchors": ["src/openpile/soilmodels.py: API_clay_axial, API_sand_axial", "src/openpile/construct.py: create_springs (1187-1188)"]}
{"id": "C37", "title": "Durkhop scour factors", "statement": "The Durkhop multiplier is at least 1, its normalised variant is its reciprocal, and scaled with the cyclic factor 0.9 it reproduces the static API factor for cyclic ratio 1.", "quantifier": "all depths, diameters and cyclic ratios", "why_tests_cant": "All real parameters.", "anchors": ["src/openpile/utils/hooks.py: durkhop, durkhop_normalized", "src/openpile/utils/py_curves.py: api_sand"]}
{"id": "C38", "title": "Custom PISA models reproduce the native models", "statement": "A Custom_pisa_sand (clay) model fed with the Dunkirk (Cowden) depth variation hooks gives the same curves as the native Dunkirk_sand (Cowden_clay) model.", "quantifier": "all depths, diameters, lengths, densities and stresses where the hook clamps are inactive", "why_tests_cant": "A refinement between two implementations over all inputs.", "anchors": ["src/openpile/utils/hooks.py: PISA_depth_variation", "src/openpile/utils/py_curves.py: custom_pisa_sand, dunkirk_sand, custom_pisa_clay, cowden_clay"]}
{"id": "C39", "title": "Layer parameters are interpolated linearly with depth", "statement": "A two-value soil parameter takes the first value at the top of the layer, the second at the bottom and lies between them in between; a scalar or one-element list is constant; spring requests below the bottom of the layer are rejected.", "quantifier": "all parameter values, layer heights and depths", "why_tests_cant": "All reals.", "anchors": ["src/openpile/core/misc.py: from_list2x_parse_top_bottom, get_value_at_current_depth", "src/openpile/soilmodels.py: *.py_spring_fct"]}
{"id": "C40", "title": "Multipliers scale exactly one axis", "statement": "p/y/m/t multipliers of a lateral model scale the corresponding vector of the spring and nothing else, a multiplier of one is neutral, and multiplier functions that return invalid values are rejected when the SoilProfile is created.", "quantifier": "all multipliers, all spring tables", "why_tests_cant": "All values; the rejection concerns functions.", "anchors": ["src/openpile/soilmodels.py: *_spring_fct", "src/openpile/construct.py: SoilProfile.check_multipliers (676-740)"]}
{"id": "C41", "title": "Extracting springs is read-only", "statement": "Calling a get_distributed_*_springs method any number of times, in any order with other queries, returns the same table and does not change the springs used by a later analysis.", "quantifier": "all models and all call histories", "why_tests_cant": "A property of histories: only a second call exposes it.", "anchors": ["src/openpile/core/misc.py: get_distributed_soil_springs, get_lumped_soil_springs", "src/openpile/construct.py: get_distributed_lateral_springs"]}
{"id": "C42", "title": "Lumped springs conserve resistance", "statement": "Tributary lengths of the nodes sum to the pile length and, for a constant distributed resistance, the lumped springs sum to resistance times length while displacements remain those of the distributed spring.", "quantifier": "all meshes and spring tables", "why_tests_cant": "Sums over arbitrarily long meshes.", "anchors": ["src/openpile/core/misc.py: get_lumped_soil_springs, get_distributed_soil_springs"]}
{"id": "C43", "title": "Result tables align values with elevations", "statement": "The element-wise tables list, for each element, its top and its bottom node with elevation and value of that node; the first row is the pile head and the last the pile tip.", "quantifier": "all meshes", "why_tests_cant": "Off-by-one errors at the last entry for every mesh.", "anchors": ["src/openpile/core/kernel.py: double_inner_njit, global_dof_vector_to_consistent_stacked_array", "src/openpile/core/misc.py: repeat_inner", "src/openpile/winkler.py: springs_mob_to_df"]}
{"id": "C44", "title": "Shaft resistance is the integral of the limit friction", "statement": "Model.shaft_resistance equals the trapezoidal integral over the elements of the peak t-z resistance, so for constant limit friction over the embedded length it equals friction times embedded length.", "quantifier": "all meshes, embedded or partially embedded piles", "why_tests_cant": "Sums over arbitrarily long, non-uniform meshes.", "anchors": ["src/openpile/construct.py: Model.shaft_resistance"]}
{"id": "C45", "title": "Effective pile and soil plug weight", "statement": "Model.effective_pile_weight is the pile weight minus the buoyancy of the submerged volume, hence between weight - 10 volume and weight; entrapped soil weight is between 0 and the dry weight of the soil inside.", "quantifier": "all piles, profiles, water lines", "why_tests_cant": "Sums over arbitrary meshes and water lines.", "anchors": ["src/openpile/construct.py: Model.effective_pile_weight, Model.entrapped_soil_weight", "src/openpile/core/_model_build.py: parameter2elements"]}
{"id": "C46", "title": "Model acceptance", "statement": "A Model is accepted only if the pile is at least five times the coarseness long and the pile tip is not below the soil profile; an accepted model without soil has at least five elements; `solve` uses the beam analysis exactly when no soil is given and winkler() on a model without soil yields nothing.", "quantifier": "all piles, profiles and coarseness values", "why_tests_cant": "All reals and arbitrary section lists.", "anchors": ["src/openpile/construct.py: Model.max_coarseness, Model.soil_and_pile_bottom_elevation_match, Model.solve", "src/openpile/winkler.py: winkler"]}
{"id": "C47", "title": "Pile tip springs come from the layer at the tip", "statement": "The base springs (Hb, Mb, Q-z) are taken from the soil layer containing the pile tip and evaluated at the tip depth; if the tip coincides with a layer boundary the choice is determined by the layers only, and layers not containing the tip never contribute.", "quantifier": "all layer lists and tip elevations", "why_tests_cant": "Depends on ordering and ties of layers.", "anchors": ["src/openpile/construct.py: create_springs (1212-1308)"]}
{"id": "C48", "title": "Initial subgrade reaction", "statement": "The API sand subgrade modulus is at least 5400 kN/m3 below water, the Kallehave and Sorensen moduli are positive and increase with depth, and api_sand uses the modulus it is given.", "quantifier": "all friction angles, depths and diameters", "why_tests_cant": "All reals; special value zero is treated as 'not given'.", "anchors": ["src/openpile/utils/hooks.py: InitialSubgradeReaction", "src/openpile/utils/py_curves.py: api_sand"]}
{"id": "C49", "title": "Mobilised resistance never exceeds the maximum", "statement": "In every result the mobilised lateral, rotational and base resistance is at most the reported maximum resistance of the same spring, and the reported maximum is a resistance.", "quantifier": "all spring tables and displacement fields", "why_tests_cant": "All displacement fields and tables.", "anchors": ["src/openpile/winkler.py: springs_mob_to_df, winkler (620-629)"]}
{"id": "C50", "title": "Material parameters", "statement": "Every accepted PileMaterial has positive stiffness and unit weight and a Poisson ratio for which the shear modulus E/(2+2nu) is positive, between E/3 and unbounded above as nu approaches -1.", "quantifier": "all E, nu, unit weights", "why_tests_cant": "All reals.", "anchors": ["src/openpile/materials.py: PileMaterial"]}
{"id": "C51", "title": "The mesh spans exactly the pile", "statement": "The first node of the mesh is the pile head and the last node the pile tip, so every element belongs to the pile.", "quantifier": "all piles, profiles and x2mesh lists", "why_tests_cant": "Relative position of ground level, head and extra elevations is unbounded.", "anchors": ["src/openpile/core/_model_build.py: get_coordinates"]}
{"id": "C52", "title": "Distributed springs are evaluated at their own node", "statement": "In build_stiffness_matrix the p-y, t-z and m-t spring at the top (bottom) of each element is evaluated at the displacement of the top (bottom) node of that element.", "quantifier": "all meshes and displacement fields", "why_tests_cant": "All mesh sizes; the wrong entry only shows in the last element and changes results slightly.", "anchors": ["src/openpile/core/kernel.py: double_inner_njit, calculate_py_springs_stiffness, calculate_tz_springs_stiffness, elem_mt_stiffness_matrix"]}
{"id": "C53", "title": "Each spring resists the displacement component it belongs to", "statement": "The stiffness matrix that openpile.winkler builds adds, for every element, the p-y springs on the lateral displacements, the t-z springs on the axial displacements and the m-t springs on the rotations, each evaluated at the displacement component it resists, and the base springs on the tip degrees of freedom; the m-t spring is driven by the mobilised lateral resistance.", "quantifier": "all meshes, spring tables and displacement fields", "why_tests_cant": "A swapped component or a spring read from a neighbouring table only changes results quantitatively; tests compare totals on one mesh.", "anchors": ["src/openpile/core/kernel.py: build_stiffness_matrix, calculate_py_springs_stiffness, calculate_tz_springs_stiffness, elem_mt_stiffness_matrix, calculate_base_spring_stiffness"]}
{"id": "C54", "title": "Every element carries the springs of its own soil layer", "statement": "After a Model is created, each p-y, m-t and t-z spring of an element is the curve of the soil model of the layer containing that element, evaluated at that end of the element (stress, depth, position in the layer, pile width, submergence); elements above ground carry none; and the result does not depend on the order in which layers are listed.", "quantifier": "all piles, soil profiles, layer orders, meshes and switches", "why_tests_cant": "The assembly loops over layers and elements and overwrites arrays; tests look at single layers in top-down order.", "anchors": ["src/openpile/construct.py: create_springs (1147-1344)"]}
{"id": "C55", "title": "Results do not depend on the mesh", "statement": "A pile analysed without soil has the same displacements, section forces and reactions at every node common to two meshes, whatever the coarseness and the extra mesh elevations; between nodes the results follow the exact solution of the beam equations; and one analysis fails exactly if the other does.", "quantifier": "All piles of any number of sections, both element types, all pairs of coarsenesses and extra elevations, all boundary conditions acting at elevations asked for in both meshes.", "why_tests_cant": "Tests compare at most a few mesh sizes on one pile; the claim compares every pair of meshes and every load case.", "anchors": ["src/openpile/winkler.py: beam (449-499)", "src/openpile/core/kernel.py: mesh_to_element_length, elem_mechanical_stiffness_matrix", "src/openpile/core/_model_build.py: get_coordinates", "src/openpile/construct.py: Model.solve (1844-1857)"]}
{"id": "C56", "title": "Reported axial capacity is that of the axial soil models", "statement": "Model.tip_resistance is the unit end bearing of the layer at the pile tip times its multiplier times the area selected by the plugging option (full footprint or steel annulus of the lowest section), and Model.shaft_resistance the unit shaft friction integrated over the embedded perimeter in contact, in compression and reduced in tension; parts of the pile above ground, in layers without axial model or with the springs switched off contribute nothing, and both numbers exist whenever the axial models are sound.", "quantifier": "All piles, profiles of any number of layers, meshes, plugging options, switches and random draws of the spring tables.", "why_tests_cant": "The chain from pile and profile through mesh, stresses, spring tables with random points and array layout to the two numbers has unbounded inputs; tests check one pile per model.", "anchors": ["src/openpile/construct.py: Model.shaft_resistance, Model.tip_resistance (1418-1453), create_springs (1192-1230)", "src/openpile/soilmodels.py: API_clay_axial, API_sand_axial"]}
{"id": "C57", "title": "An unloaded model stays at rest", "statement": "Model.solve of a model in soil without point loads and prescribed displacements returns zero displacements, section forces and reactions (the state of rest is in equilibrium with every spring).", "quantifier": "All piles, springs, supports and iteration limits.", "why_tests_cant": "That no spring law or support makes the strict convergence test succeed for a zero load vector is a statement about every run of the iteration.", "anchors": ["src/openpile/winkler.py: winkler (542-606)", "src/openpile/core/kernel.py: build_stiffness_matrix, solve_equations"]}
{"id": "C58", "title": "Reversing the lateral loading reverses the lateral response", "statement": "For a pile in soil, solving with all lateral loads, moments and prescribed lateral displacements and rotations reversed gives the same result with deflections, rotations, lateral reactions and moments reversed and settlements, axial reactions, iteration count, error and tolerance unchanged.", "quantifier": "All piles, spring tables, supports, load vectors and iteration limits.", "why_tests_cant": "Every pass of the nonlinear iteration must commute with the reflection; tests load piles in one direction.", "anchors": ["src/openpile/winkler.py: winkler (502-637)", "src/openpile/core/kernel.py: build_stiffness_matrix, elem_mt_stiffness_matrix (465-477), calculate_mt_springs_stiffness (1063-1154)"]}
{"id": "C59", "title": "Loads are carried by the soil", "statement": "When an analysis of a pile in soil has converged, the applied loads balance the reactions of the soil springs at the reported displacements (integrated along the pile, plus base shear, base moment and tip resistance): laterally, axially and in moment about any depth, within the reported error times a factor that depends only on the mesh.", "quantifier": "All piles, meshes, spring tables, load vectors, element types; directions without supports.", "why_tests_cant": "The claim bounds a sum over all nodes and an integral over every element for every converged run; tests look at displacements of a few models.", "anchors": ["src/openpile/winkler.py: winkler (542-606)", "src/openpile/core/kernel.py: elem_py_stiffness_matrix, elem_tz_stiffness_matrix, elem_mt_stiffness_matrix, build_stiffness_matrix"]}
{"id": "C60", "title": "Small loads give the linear response, inactive soil the response without soil", "statement": "If the displacements computed with the initial spring stiffnesses keep every spring in its first branch, Model.solve returns exactly these displacements and reactions, and any fraction of the loads gives that fraction of the response; a model whose springs are all switched off gives the result of the same model without soil.", "quantifier": "All piles, spring tables, supports, loads and fractions between 0 and 1.", "why_tests_cant": "Equality of an iterative and a direct solution for all models and loads; the iteration also counts reactions twice, so the exit condition has to be followed pass by pass.", "anchors": ["src/openpile/winkler.py: winkler (502-637), beam (449-499)", "src/openpile/core/kernel.py: calculate_*_springs_stiffness"]}
{"id": "C61", "title": "The summary of a result agrees with its tables", "statement": "When Model.solve of a model with soil returns numbers, details() exists, reports between 2 and 100 iterations, an error not above the tolerance, and for each quantity the largest and smallest entry of the corresponding table rounded to the stated decimals.", "quantifier": "All models with soil, boundary conditions and spring tables.", "why_tests_cant": "Needs that tables with numbers can only come from the convergence exit of the iteration, for every model.", "anchors": ["src/openpile/winkler.py: WinklerResult.details (425-446), winkler (502-637)"]}
{"id": "C62", "title": "A soil profile without soil models changes nothing", "statement": "A Model whose soil profile has layers but no lateral or axial model in any layer gives the displacements, section forces and reactions of the same pile without soil profile, with nothing mobilised, although it uses another solver and another mesh.", "quantifier": "All piles, profiles without soil models, meshes, switches and boundary conditions at requested elevations.", "why_tests_cant": "Relates the iterative soil analysis to the direct beam analysis on two different meshes for all piles and loads.", "anchors": ["src/openpile/construct.py: Model.solve (1844-1857), _create_springs", "src/openpile/winkler.py: winkler (502-637), beam (449-499)"]}
{"id": "C63", "title": "Rotational springs carry the moment of the shaft friction", "statement": "API_sand, API_clay and Modified_Matlock_clay layers give for every point of the lateral spring a moment-rotation curve that starts at the origin, never decreases, and at each rotation has the moment around the perimeter of the API shaft friction at the vertical displacement of the wall, in sand times the mobilised fraction of the lateral resistance; PISA layers give one curve for each point of the lateral spring, in Dunkirk sand with an ultimate moment proportional to the lateral resistance.", "quantifier": "All layer parameters, depths, stresses and diameters, whatever random numbers the friction curves contain.", "why_tests_cant": "The friction curves contain random points and are filtered, shifted and continued; the claim is about all of them and about an integral around the perimeter.", "anchors": ["src/openpile/soilmodels.py: mt_spring_fct (714-761, 1191-1243, 1445-1505, 1624-1670, 1789-1835)", "src/openpile/utils/tz_curves.py: api_clay, api_sand"]}
{"id": "C64", "title": "Creating a Model never raises for soil parameters in their usual ranges", "statement": "For a pile and a soil profile whose layers reach below the tip, with axial models as in C56 and lateral models with parameters in the stated ranges (positive strengths and moduli, friction angle below 90 degrees, PISA models on piles with slenderness between one and six), Model(...) returns: every p-y, m-t, t-z, Hb, Mb and Q-z spring of every element exists and has 15 points.", "quantifier": "All piles and profiles, all lists of additional mesh points, coarseness values, switches and random numbers; all parameters in the ranges.", "why_tests_cant": "Whether a curve divides by zero or produces too many points depends on the depth, the stress, the diameter and random numbers at every element; a finite number of Models says nothing about others.", "anchors": ["src/openpile/construct.py: create_springs (1147-1344)", "src/openpile/soilmodels.py: *_spring_fct of all classes", "src/openpile/utils/py_curves.py", "src/openpile/utils/mt_curves.py", "src/openpile/utils/Hb_curves.py", "src/openpile/utils/Mb_curves.py"]}
{"id": "C65", "title": "The order in which things are listed does not matter", "statement": "Listing the layers of a SoilProfile, the elevations of x2mesh (repeated or not) or the calls of set_pointload, set_pointdisplacement and set_support (about different kinds or elevations) in another order changes neither acceptance nor mesh, springs, loads, results, capacities or weights.", "quantifier": "All piles, profiles, permutations of the layers, lists of extra elevations with the same members, and histories of calls with the same last values.", "why_tests_cant": "The code scans layers and conditions in the order of the list and overwrites values on the way; tests use one order.", "anchors": ["src/openpile/core/_model_build.py: apply_bc (33-62), get_coordinates (134-197), get_soil_properties (220-253)", "src/openpile/construct.py: create_springs (1147-1344), _update_bc (1522-1540), entrapped_soil_weight (1455-1496)"]}
{"id": "C66", "title": "Results do not depend on the datum of elevations", "statement": "Raising the pile, the ground surface, the water line, the layers, the extra mesh elevations and the boundary conditions all by the same amount gives the same springs, weights and capacities, and solve() gives the same tables, mobilisation, iterations and errors with only the elevation columns raised by that amount.", "quantifier": "all piles, soil profiles, soil models, extra elevations, coarseness values, histories of boundary conditions, iteration outcomes and amounts that are even multiples of 0.1 mm", "why_tests_cant": "A test compares two numbers for one model; invariance needs all of mesh, stresses, springs, tolerances, iteration and tables to use elevations only through differences.", "anchors": ["src/openpile/core/_model_build.py:33-62", "src/openpile/core/_model_build.py:134-253", "src/openpile/construct.py:1067-1140", "src/openpile/construct.py:1147-1344", "src/openpile/winkler.py:29-125", "src/openpile/winkler.py:449-637"]}
{"id": "C67", "title": "Extent and embedment of a Model", "statement": "Model.top and Model.bottom enclose the pile, the soil profile and all mesh nodes; the embedment of an accepted Model with soil is positive, not more than the pile length, and equal to the length of the elements below ground.", "quantifier": "all piles, soil profiles, extra mesh elevations and coarseness values", "why_tests_cant": "A test compares one embedment with a number; that the embedment, the mesh and the acceptance of the model agree concerns every geometry.", "anchors": ["src/openpile/construct.py:1357-1396", "src/openpile/construct.py:1024-1066", "src/openpile/core/_model_build.py:134-253"]}
{"id": "C68", "title": "API t-z curves in Kraft's form", "statement": "api_clay_kraft and api_sand_kraft return a sorted curve through the origin whose strength in compression and tension is that of the API curve with the same parameters and whose stiffness never exceeds the elastic value 2 G0 / (D ln zif).", "quantifier": "all stresses, strengths, interface angles, diameters, stiffnesses, factors RF in [0,1), zif above 1, residual factors in [0,1], tension factors and output lengths", "why_tests_cant": "A test sees a few curves; equality of strengths and the bound on stiffness hold over a continuum of parameters.", "anchors": ["src/openpile/utils/tz_curves.py:16-120", "src/openpile/utils/tz_curves.py:229-323", "src/openpile/utils/tz_curves.py:473-571"]}
{"id": "C69", "title": "The model check agrees with the analysis", "statement": "check_boundary_conditions(model) raises exactly when the analysis of the model cannot succeed for want of supports or loads.", "quantifier": "all meshes and all histories of boundary conditions", "why_tests_cant": "Whether a set of supports is sufficient is a statement about a singular matrix for every number of nodes.", "anchors": ["src/openpile/core/validation.py:42-96", "src/openpile/winkler.py:449-499", "src/openpile/construct.py:1067-1140"]}
{"id": "C70", "title": "The stress stiffness matrix is the geometric stiffness of the axial force", "statement": "elem_p_delta_stiffness_matrix is symmetric, opposes no translation, gives the force pair T*theta for a rotation theta, stiffens in tension and softens in compression, and is the virtual work of the tensile force T on the slopes of the element.", "quantifier": "all element data, displacement fields and element numbers", "why_tests_cant": "The function has no caller and no test; the claims are identities over all displacement fields.", "anchors": ["src/openpile/core/kernel.py:572-695", "src/openpile/core/kernel.py:811-825"]}
{"id": "C71", "title": "Axial and lateral loading do not influence one another", "statement": "Model.solve(): adding or changing axial loads, settlements or axial supports (Pz, Tz) or axial springs leaves the deflections, rotations, shear forces, bending moments, lateral reactions and lateral mobilisation unchanged, and changing lateral loads, moments, supports or springs leaves settlements, normal forces and axial reactions unchanged.", "quantifier": "all piles, meshes, springs, boundary conditions and histories of calls", "why_tests_cant": "Tests compare single load cases; the claim is about all pairs of load cases and about the iteration as a whole.", "anchors": ["src/openpile/core/kernel.py:155-300", "src/openpile/core/kernel.py:717-787", "src/openpile/winkler.py:449-499", "src/openpile/winkler.py:502-637", "src/openpile/construct.py:1522-1623"]}
{"id": "C72", "title": "A model with soil can be solved exactly if springs and supports hold the pile", "statement": "For a Model with soil and without rotational springs along the shaft, solve() fails in its first pass (NaN in every table) exactly if the springs that are switched on and resist from the outset, together with the fixations and prescribed displacements, leave the pile free to move axially or to move or turn laterally. One element with lateral springs holds the pile laterally; otherwise it takes a held node plus a rotational restraint or a second held node. Loads play no part. A model without axial springs and without axial support (and likewise laterally) never returns numbers.", "quantifier": "All piles, meshes, spring tables, switches, boundary conditions and loads; every pass limit.", "why_tests_cant": "The singular cases are combinations of switches, supports and blank spring tables for every mesh; tests run a few held models.", "anchors": ["src/openpile/winkler.py:542-606", "src/openpile/core/kernel.py:717-787", "src/openpile/construct.py:1844-1857"]}
{"id": "C73", "title": "Model.create makes the model that Model makes", "statement": "Model.create(...) with some arguments makes the same model as Model(...) with the same arguments.", "quantifier": "All combinations of given and omitted arguments; all piles, soils and loads.", "why_tests_cant": "The two signatures have separate defaults; a test compares a few argument combinations.", "anchors": ["src/openpile/construct.py:970-1003", "src/openpile/construct.py:1860-1928"]}
{"id": "C74", "title": "The soil carries no more than its springs can mobilise", "statement": "In a converged analysis of a pile without supports in a direction, the loads in that direction add up to no more than the greatest resistances in the spring tables, integrated along the pile, plus the greatest resistance of the base spring (up to the tolerance).", "quantifier": "All piles, meshes, spring tables, loads and displacement fields of converged analyses.", "why_tests_cant": "Tests compare displacements under working loads; overestimated capacity shows only near failure and depends on mesh and stiffness.", "anchors": ["src/openpile/core/kernel.py:319-431", "src/openpile/core/kernel.py:828-1060", "src/openpile/winkler.py:542-606"]}
{"id": "C75", "title": "The result of an analysis depends only on the model and what was set on it", "statement": "In a session that creates several Models and calls set_pointload, set_pointdisplacement, set_support, get_* and solve on them in any order, every solve returns what solve returns on a Model of its own with the same pile, soil and options on which only the boundary conditions set on it so far were set. Earlier analyses, tables looked up in between and calls on other Models make no difference.", "quantifier": "all sessions (any number of Models, any sequence of calls of any length), all initial boundary condition objects, all springs", "why_tests_cant": "Tests build a fresh Model for every case and call solve once; whether state leaks between calls or between Models is a statement about all interleavings of calls.", "anchors": ["src/openpile/construct.py:1522-1623", "src/openpile/construct.py:1625-1802", "src/openpile/construct.py:1844-1857", "src/openpile/construct.py:973-975", "src/openpile/core/misc.py:115-120", "src/openpile/core/misc.py:188-193"]}
{"id": "C76", "title": "Printing a soil profile works and tells the soils apart", "statement": "Every SoilProfile that can be created can be printed, and the text of a layer names the class of its soil models: layers that print alike have models of the same class.", "quantifier": "for all soil profiles, lateral and axial models, parameters given as numbers, lists or functions", "why_tests_cant": "Tests print a few profiles with scalar parameters; whether printing works for every accepted kind of parameter and separates every pair of classes is a statement about all combinations.", "anchors": ["src/openpile/construct.py", "src/openpile/soilmodels.py"]}
{"id": "C77", "title": "The plot of a model shows its loads and supports", "statement": "Model.plot() draws one arrow per non-zero nodal load, pointing the way the load acts, with a length in proportion to the largest load of its kind; one marker per restrained degree of freedom; everything within the limits of the axes. The axes of the section force diagrams contain all values and zero.", "quantifier": "for all models, histories of boundary conditions and force tables", "why_tests_cant": "Image comparisons fix single pictures; that signs, lengths and limits are right for every combination of loads needs a proof.", "anchors": ["src/openpile/utils/graphics.py", "src/openpile/construct.py"]}
{"id": "C78", "title": "Assigning attributes of a Model equals creating it with them", "statement": "After assigning attributes of a Model (element type, pile, soil, mesh elevations, coarseness, switches for the springs), solve() gives what a Model created with the new attributes gives.", "quantifier": "for all models, attribute values, soils, boundary conditions", "why_tests_cant": "Which values are cached at creation and which are read again is invisible in single runs; the claim compares an object changed after creation with a fresh one for all attributes.", "anchors": ["src/openpile/construct.py", "src/openpile/winkler.py"]}
{"id": "C79", "title": "Young's modulus only scales displacements, and the unit of force does not matter", "statement": "(a) Without soil and without prescribed displacements other than zero, solve() of a model whose pile material has Young's modulus multiplied by c (c other than 0) gives tables with displacements and rotations divided by c, the same section forces and the same reactions, and fails in the same cases. (b) Without soil, Young's modulus times c, loads times c*a and prescribed displacements times a give displacements times a and reactions and section forces times c*a. (c) For a pile in soil, Young's modulus, all spring resistances and all loads multiplied by the same positive number give the same ending (converged or not, failure of the linear solver) after the same number of iterations with the same displacements, and reactions and section forces multiplied by that number.", "quantifier": "all piles, meshes, element types, loads and supports; all spring tables (lateral, rotational, base shear, base moment, axial, end bearing), any iteration limit and any number of iterations needed; all factors", "why_tests_cant": "A test compares two runs within a tolerance. That the number of Newton iterations and the ending do not depend on the unit, for any table and any load history, needs an induction over the iterations.", "anchors": ["src/openpile/winkler.py", "src/openpile/core/kernel.py", "src/openpile/materials.py"]}
{"id": "C80", "title": "Section forces are the resultants of what acts above the section", "statement": "(a) After solve() without soil, the N and V listed for an element are the axial and lateral resultants of all loads of global_forces and all listed reactions on the nodes above, and the listed moments at its top and bottom are their moments about these elevations, up to the 0.001 per reaction that the reaction table leaves out; if no node above is held they are exactly the resultants of the loads. (b) If only the last node is held, the section forces do not depend on the sections, the material or the type of elements. (c) In a converged analysis with soil the same holds with the forces of the springs (secant stiffness at the reported displacements) subtracted from the loads, up to the reported error times the length of the vector of lever arms, in directions in which no node above is held; above the ground the springs drop out, so that shear and moment at ground level are those of the loads.", "quantifier": "all piles, meshes, element types, loads, supports; every element of the mesh; all spring tables, any number of iterations", "why_tests_cant": "Tests compare a few diagrams with hand calculations; that the diagram is the running resultant for every mesh and load set needs an induction along the pile.", "anchors": ["src/openpile/winkler.py", "src/openpile/core/kernel.py"]}
{"id": "C81", "title": "A cantilever moves as beam theory says, on any mesh", "statement": "Take a pile of one diameter and wall thickness in any number of sections, fix its tip with set_support and load its head with set_pointload (whole numbers). solve() without soil succeeds and at every node of the mesh lists the displacements of beam theory: axially P (L-x)/(E A), laterally (H (x^3 - 3 L^2 x + 2 L^3)/6 - M (L-x)^2/2)/(E I) plus, in Timoshenko elements, the shear deflection H (L-x)/(k G A), and the rotation (M (L-x) - H (L^2-x^2)/2)/(E I), with A and I of the ring and x the depth below the head. The results do not depend on the mesh, and the only reactions listed are those at the tip that balance the loads.", "quantifier": "all lengths, diameters, wall thicknesses, materials, numbers of sections and elements, element lengths, loads", "why_tests_cant": "Tests compare one pile on one mesh with the closed form up to a tolerance; exactness for all meshes needs an argument about assembly of any number of elements.", "anchors": ["src/openpile/winkler.py", "src/openpile/core/kernel.py", "src/openpile/construct.py"]}
{"id": "C82", "title": "A stiffer or better supported pile gives way less", "statement": "Two analyses without soil on the same mesh with the same loads and no prescribed displacements. If the second pile has nowhere a smaller diameter, wall thickness or Young's modulus (same Poisson's ratio), and every support of the first analysis is kept and further ones may be added by set_support, then the loads do no more work on the listed displacements of the second analysis than on those of the first, and never negative work. For one lateral load this says that the loaded node moves towards the load, and not further than before. Changing from Timoshenko to Euler-Bernoulli elements never increases this work either.", "quantifier": "all piles of any number of sections, not necessarily cut at the same elevations, materials, meshes, loads, histories of support calls", "why_tests_cant": "It compares pairs of analyses; no finite list of pairs shows that thickening a wall anywhere in any pile never makes it softer.", "anchors": ["src/openpile/winkler.py", "src/openpile/core/kernel.py", "src/openpile/construct.py", "src/openpile/core/_model_build.py"]}
{"id": "C83", "title": "A stronger soil has stronger springs", "statement": "Compare the table of a p-y, m-t, base shear, base moment, t-z or Q-z function for two soils of which the second is at least as strong: undrained shear strength, friction or interface angle, vertical effective stress and modulus not smaller, eps50 not larger, everything else equal. At a displacement that is at least as large, the table of the second soil has at least the resistance of the first. For t-z and Q-z curves the displacements are the same and every resistance is at least as large in size.", "quantifier": "all strengths, stresses, angles, moduli, depths, diameters, table lengths and random draws", "why_tests_cant": "It compares pairs of soils over continuous ranges; a test suite checks a few curves against stored values and would not notice two parameters for which the order is reversed.", "anchors": ["src/openpile/utils/py_curves.py", "src/openpile/utils/mt_curves.py", "src/openpile/utils/Hb_curves.py", "src/openpile/utils/Mb_curves.py", "src/openpile/utils/tz_curves.py", "src/openpile/utils/qz_curves.py", "src/openpile/utils/misc.py", "src/openpile/core/misc.py"]}
{"id": "C84", "title": "Soil never makes the pile give way more", "statement": "Set loads and supports on a pile with set_pointload and set_support and solve() the model once without soil and once with soil springs. If both analyses give numbers, the work of the loads on the displacements listed by the second is at most their work on the displacements listed by the first, up to the reported residual error times the size of the listed displacements; for a single lateral load, the loaded node moves at most as far in soil as without soil. The same holds if in the second analysis the pile is nowhere less stiff and further supports are added.", "quantifier": "all accepted piles, meshes, histories of calls without prescribed displacements, spring tables, switches and element types", "why_tests_cant": "The spring tables are arbitrary and the analysis is iterative; a test compares a few displacements with stored numbers and cannot show that no table and no mesh lets the springs push the pile along.", "anchors": ["src/openpile/winkler.py", "src/openpile/core/kernel.py", "src/openpile/core/_model_build.py", "src/openpile/construct.py"]}
{"id": "C85", "title": "Load control and displacement control agree", "statement": "Solve a model, without soil or with soil whose springs all stay on the first segments of their curves, after a set_pointload in one direction at a node, and read the displacement listed for that node and direction. If set_pointdisplacement with that displacement is called instead of set_pointload, solve() gives the same displacement table and the same section forces, the same reactions at the other nodes, and lists the load as the reaction at that node in that direction.", "quantifier": "all accepted piles, meshes, element types, histories of other calls, nodes, directions and whole-number loads", "why_tests_cant": "Relates two analyses with different supports on any mesh; a test compares single runs, and a displacement that happens to be zero is not tried.", "anchors": ["src/openpile/construct.py", "src/openpile/winkler.py", "src/openpile/core/kernel.py", "src/openpile/core/_model_build.py"]}
{"id": "C86", "title": "The solver solves the equations of the free degrees of freedom", "statement": "solve_equations(K, F, U, restraints) returns the displacements that satisfy the equations of all degrees of freedom that are not restrained, with the prescribed displacements at the others, and the reactions K U - F; numba_ix(arr, rows, cols) is arr[np.ix_(rows, cols)].", "quantifier": "all square matrices, vectors and restraints; all index lists; all piles with any number of nodes", "why_tests_cant": "The entries are picked by positions in a flattened array kept as 32-bit integers: whether the right ones are read depends on the size, and the sizes at which it goes wrong need 17 GB.", "anchors": ["src/openpile/core/kernel.py:68-84", "src/openpile/core/kernel.py:96-158"]}
{"id": "C87", "title": "A Model warns about springs with negative values and only about these", "statement": "Creating a Model prints a warning about the p-y, m-t, base shear or base moment springs exactly when one of their values is negative; with usual lateral soil models (non-negative strengths, relative densities from 0 to 100 %, non-negative multipliers, PISA models within 2 < L/D < 6) nothing is printed; springs that push the pile in the direction of its movement are always reported.", "quantifier": "all piles, profiles, meshes, switches and soil models", "why_tests_cant": "The sign of a spring depends on depth, diameter and soil parameters through formulas fitted to a limited range; a test looks at some of them.", "anchors": ["src/openpile/construct.py:1315-1342", "src/openpile/core/_model_build.py:127-131"]}
{"id": "C88", "title": "The tables of springs name node, elevation and quantity of every row", "statement": "Every row of the tables returned by get_distributed_*_springs and get_base_*_spring names a node by its number and its elevation in nodes_coordinates, and the quantity (resistance or displacement) the values are; every node has its two rows.", "quantifier": "all piles, profiles, meshes, springs, and all calls made before", "why_tests_cant": "Tests compare tables of one mesh; that labels and values stay together depends on lengths and orders for every mesh.", "anchors": ["src/openpile/core/misc.py:112-153", "src/openpile/core/misc.py:185-223", "src/openpile/construct.py:1735-1802"]}
{"id": "C89", "title": "The plot of a soil profile shows every layer at its place and the water line", "statement": "SoilProfile.plot draws one rectangle per layer, in the order of the list, from the bottom to the top of that layer with its name inside it; all rectangles lie within the axis, together they cover exactly the profile and no two overlap; the water line is drawn within the axis.", "quantifier": "all accepted profiles, any number of layers listed in any order, any water line", "why_tests_cant": "A test looks at the picture of one profile; how the limits of the axis, computed from thicknesses, compare with the elevations of the layers depends on every profile.", "anchors": ["src/openpile/utils/graphics.py:75-141", "src/openpile/construct.py:759-816"]}
{"id": "C90", "title": "Analyses are reproducible", "statement": "Creating the same Model twice and solving it twice gives the same result: displacements, forces, reactions, mobilisation and axial capacities do not depend on the numbers random() returns while the springs are created, nor on the order np.argsort gives to equal values. The tables of the springs are the same too.", "quantifier": "All piles, soil profiles, meshes, switches, boundary conditions, and any two sequences of random numbers in [0, 1).", "why_tests_cant": "A test sees one sequence of random numbers at a time; that the result is the same for all sequences needs the shape of every curve.", "anchors": ["src/openpile/utils/py_curves.py:535-548", "src/openpile/utils/py_curves.py:875-888", "src/openpile/utils/tz_curves.py:120-137", "src/openpile/utils/qz_curves.py:62-80", "src/openpile/construct.py:1146-1356", "src/openpile/winkler.py:502-637"]}
{"id": "C91", "title": "Cutting a soil layer in two changes nothing", "statement": "Describing one soil layer as two layers on top of each other, with the same unit weight and soil models and with the parameters that vary over the layer interpolated at the cut, gives the same mesh, unit weights and stresses, springs, weights, axial capacities and analysis results, provided the cut is at an elevation the mesh has anyway (an extra elevation, the end of a pile section) or below the pile tip.", "quantifier": "all piles, profiles, layers of the profile, cuts strictly inside the layer, lateral and axial models (constant, linear and callable parameters), switches, boundary conditions, element types, and results of the random number generator", "why_tests_cant": "A test compares one profile with one cut of it. The claim is about every cut of every layer with every soil model, and depends on how element ownership, interpolation over the layer, stresses by merged tables and base springs interact.", "anchors": ["src/openpile/construct.py:532-757", "src/openpile/construct.py:1147-1344", "src/openpile/core/_model_build.py:134-255", "src/openpile/core/misc.py:13-36", "src/openpile/soilmodels.py:640-2570"]}
{"id": "C92", "title": "Describing a part of the pile as two sections of the same cross-section changes no result", "statement": "Take a pile accepted by Pile and write one of its sections as two sections of the same diameter and wall thickness that meet at an elevation strictly inside it. The new pile is accepted and has the same head, tip, length, volume, weight, inner volume and tip areas. A Model of it has the mesh of the old pile with a node asked for at the joint through x2mesh, and the same mesh if the joint is a node anyway. For equal meshes every element has the same properties, springs, weights, results of Model.solve and axial capacities.", "quantifier": "all piles, sections, joints, soil profiles, options, boundary conditions and random draws, for numpy's stable sort order of pile.data or any order when the pile has one diameter", "why_tests_cant": "The claim compares the results of two descriptions of a pile, over all piles and joints; tests fix one description.", "anchors": ["src/openpile/construct.py: PileSection, Pile, Pile.data", "src/openpile/construct.py: Model.get_coordinates, Model.element_properties, Model.soil_properties", "src/openpile/analyze.py: winkler, beam"]}
{"id": "C93", "title": "The height of the water above the ground does not matter", "statement": "Two soil profiles that differ in the water line only, both at or above the tops of all layers, give the same mesh, the same vertical effective stresses, springs, results of Model.solve, axial capacities and soil plug weight, and the same buoyant weight of a submerged pile. More generally no spring and no result changes when the water line moves without passing a node that lies in the soil or the pile tip; in particular a water line below the pile has no effect.", "quantifier": "all piles, profiles, meshes, switches, sort orders, random draws and boundary conditions; any two water lines above ground", "why_tests_cant": "The claim compares two Models for all water levels; a test compares a few.", "anchors": ["src/openpile/construct.py: SoilProfile.water_line, Model.create_springs", "src/openpile/core/_model_build.py: get_soil_properties", "src/openpile/construct.py: Model.effective_pile_weight, Model.entrapped_soil_weight"]}
{"id": "C94", "title": "Soil below the pile tip does not matter", "statement": "Two soil profiles with the same ground level, water line and layers above the elevation of the pile tip give the same mesh, vertical effective stresses, springs, results of Model.solve, axial capacities and weights, whatever layers follow below the tip.", "quantifier": "all piles, accepted profiles with exactly meeting layers that reach the tip, options, random draws and boundary conditions", "why_tests_cant": "The claim compares two Models for arbitrary soil below the tip; a test compares a few.", "anchors": ["src/openpile/core/_model_build.py: get_coordinates, get_soil_properties", "src/openpile/construct.py: Model.create_springs", "src/openpile/construct.py: Model.entrapped_soil_weight"]}
{"id": "C95", "title": "Below a section only the resultant of the loads above it matters", "statement": "Let the part of the pile above a node carry no soil, support or prescribed displacement. Moving loads from that part to the node, together with their moment about the node, changes neither the displacements at the node and below, nor the section forces below it, nor the reactions.", "quantifier": "all piles, meshes, element types, springs, supports, prescribed displacements and pairs of load vectors with the same resultants about the node", "why_tests_cant": "The claim compares two analyses for arbitrary loads, piles and soil; a test compares a few of them.", "anchors": ["src/openpile/winkler.py: beam, winkler", "src/openpile/core/kernel.py: solve_equations, build_stiffness_matrix, elem_mechanical_stiffness_matrix", "src/openpile/construct.py: Model.set_pointload, Model.global_forces"]}
{"id": "C96", "title": "The plots of a result show the result", "statement": "In plot_deflection, plot_forces, plot_lateral_results, plot_axial_results and plot, the lines of deflection and settlement pass in order through every node at its elevation and 1000 times its displacement. For an analysis without soil the diagrams of N, V and M cover every elevation of every element, and where no node above is held the value shown at an elevation is the resultant of the loads above it (their moment about that elevation for M), also between the nodes; at the nodes the diagram is a horizontal jump. The axes of the force diagrams contain all values and zero.", "quantifier": "all piles, meshes, boundary conditions and solved analyses without soil; all elevations between two nodes; all tables of forces for the limits", "why_tests_cant": "A test compares images or a few points; that a straight line between nodal values is the exact diagram at every elevation is a statement about all meshes and loads.", "anchors": ["src/openpile/utils/graphics.py:14-72", "src/openpile/utils/graphics.py:334-395", "src/openpile/winkler.py:262-419"]}
{"id": "C97", "title": "The weight of the pile does not act in an analysis, Poisson's ratio only in Timoshenko elements", "statement": "solve() of two models that differ only in the unit weight of the pile material gives the same result (tables, mobilisation, iterations, errors), with and without soil. With Euler-Bernoulli elements the same holds for models that also differ in Poisson's ratio.", "quantifier": "all accepted materials with the same Young's modulus, all piles, soil profiles, meshes, boundary conditions", "why_tests_cant": "A test compares two materials on one model; that no path through springs, stiffness, iteration and tables reads the weight or Poisson's ratio concerns all models.", "anchors": ["src/openpile/core/kernel.py:205-286", "src/openpile/materials.py:60-125", "src/openpile/winkler.py:449-637"]}
{"id": "C98", "title": "Raising the water line never makes the soil stronger", "statement": "Two SoilProfiles that differ only in `water_line`, the second with the higher water, give Models on the same mesh. No effective soil weight and no vertical effective stress in `Model.soil_properties` is larger under the higher water, the effective pile weight and the entrapped weight are not larger, shaft resistance in compression and tension and tip resistance are not larger, and no p-y spring that depends on effective stress resists more at any displacement.", "quantifier": "all piles, layer stacks, meshes, water lines w <= w'; for capacities all Models that create_springs completes with sound axial models; for springs all stresses, depths, diameters, strengths", "why_tests_cant": "Tests fix one water level; monotonicity needs every pair of levels, every mesh, and water lines inside an element, and the default modulus switches formula at the water line.", "anchors": ["src/openpile/construct.py:1399-1500", "src/openpile/utils/py_curves.py:214-409", "src/openpile/utils/py_curves.py:414-916", "src/openpile/core/_model_build.py:220-255"]}
{"id": "C99", "title": "An unloaded part of the pile above everything else does not matter", "statement": "Put sections on top of a pile and leave the new part without load, support, prescribed displacement and soil. The analysis then fails exactly when that of the pile without the part fails. Otherwise the displacements, section forces and reactions below are the same, the new part carries no section forces, and it moves along as a rigid body with the old head.", "quantifier": "all piles, sections put on top, meshes, element types, springs, supports, prescribed displacements and loads below the part; any number of elements in the part", "why_tests_cant": "The claim compares two analyses for arbitrary piles, meshes and soil; a test compares a few of them.", "anchors": ["src/openpile/winkler.py: beam, winkler", "src/openpile/core/kernel.py: solve_equations, build_stiffness_matrix, elem_mechanical_stiffness_matrix", "src/openpile/construct.py: Model.nodes_coordinates, Model.set_pointload, Model.element_properties"]}
{"id": "C100", "title": "The switches of a Model act on their own springs only", "statement": "Creating a Model with distributed_lateral, distributed_moment, distributed_axial, base_shear, base_moment or base_axial set to False gives blank tables for the springs of that kind and leaves the tables of all other kinds as they are. Switching all lateral springs off gives the solve() of the same Model whose layers have no lateral_model; switching all axial springs off that of the Model whose layers have no axial_model. With distributed_moment but without distributed_lateral solve() always raises.", "quantifier": "all piles, soil profiles, soil models, meshes, combinations of switches, boundary conditions and element types", "why_tests_cant": "There are 64 combinations of switches for every pile and profile, and the claim is about all tables of all of them.", "anchors": ["src/openpile/construct.py: Model.model_post_init", "src/openpile/core/kernel.py: build_stiffness_matrix", "src/openpile/winkler.py: winkler, springs_mob_to_df"]}
{"id": "C101", "title": "Supports moved together stress nothing", "statement": "In an analysis without soil, when the supports and prescribed displacements are all moved by one rigid motion of the whole pile (a settlement, a lateral shift, a rotation about some elevation), the loads staying the same, the displacements are those of before plus this motion, and section forces and reactions are the same. A pile without loads whose held degrees of freedom follow one rigid motion moves rigidly with them, without section forces and reactions.", "quantifier": "for every stack of sections, both element types, every mesh, every set of loads, supports and prescribed displacements holding the same degrees of freedom, and every rigid motion", "why_tests_cant": "a test fixes one pile, one set of supports and one motion; the claim is over every arrangement of supports on every mesh", "anchors": ["src/openpile/core/kernel.py: solve_equations", "src/openpile/core/kernel.py: pile_internal_forces", "src/openpile/winkler.py: beam"]}
{"id": "C102", "title": "A longer pile does not lose shaft resistance", "statement": "If a pile is made longer at its tip and everything else is left as it is, the mesh, the stresses and the limit frictions of the old part stay the same, the mesh continues below the old tip, and neither shaft resistance (compression, tension) that the Model reports becomes less.", "quantifier": "For all validated piles extended by any sections below the tip, with the same diameter where the old elements are, in any soil profile with sound soil models that reaches below both tips, any coarseness, switches and random numbers, which may differ between the two Models.", "why_tests_cant": "The claim compares two Models over all meshes, layers and pile lengths; a test checks single pairs, and the loss occurs only when the extension lies in another layer and its first element is shorter than the last old one.", "anchors": ["src/openpile/construct.py: Model.shaft_resistance", "src/openpile/core/_model_build.py: get_coordinates", "src/openpile/core/_model_build.py: get_soil_properties", "src/openpile/construct.py: create_springs"]}
{"id": "C103", "title": "Cyclic loading never gives more resistance than static loading", "statement": "For the p-y functions with a choice of loading (api_sand, api_clay, matlock_1970, modified_Matlock) and otherwise equal arguments, the resistance for cyclic loading at a displacement is at most that for static loading at a displacement at least as large; the curves of API_sand, API_clay and Modified_Matlock_clay in a Model, interpolated between their points, are nowhere higher for cyclic than for static loading.", "quantifier": "All soil parameters in their ranges, depths, diameters, lengths and ranges of the tables, random values, multipliers.", "why_tests_cant": "The static and cyclic tables have different displacements (sand) or random ones (clay), and the curves cross by less than 0.002 % in an interval of 0.01 % of the displacement range; sampled comparisons either miss the crossing or cannot tell that it is the only one.", "anchors": ["src/openpile/utils/py_curves.py: api_sand", "src/openpile/utils/py_curves.py: api_clay", "src/openpile/utils/py_curves.py: matlock_1970", "src/openpile/utils/py_curves.py: modified_Matlock", "src/openpile/soilmodels.py: API_clay.py_spring_fct", "src/openpile/soilmodels.py: API_sand.py_spring_fct"]}
{"id": "C104", "title": "A support can be replaced by its reaction", "statement": "If the reaction listed at a support set with set_support is applied with set_pointload instead of the support, an analysis (without soil, or with soil whose springs all stay on the first segments of their curves) that still leads to a result gives the same displacements, section forces and other reactions, and no reaction in that direction at that node.", "quantifier": "All piles, meshes, element types, histories of boundary conditions, nodes and the three directions.", "why_tests_cant": "The claim compares two analyses of every structure and holds exactly for whole numbers only; tests with round numbers do not meet the truncation, and tests with tolerances hide it.", "anchors": ["src/openpile/core/kernel.py: solve_equations", "src/openpile/winkler.py: beam", "src/openpile/construct.py: Model.set_support, Model.set_pointload"]}
{"id": "C105", "title": "A stronger soil or a wider pile has not less axial capacity", "statement": "Of two Models that differ only by a soil that is not weaker in any layer (shear strength, interface angle, earth pressure coefficient, multipliers), by layers that gain an axial soil model, and by sections that are not narrower and have no thinner walls, the second reports neither a smaller shaft resistance in compression or tension nor a smaller tip resistance.", "quantifier": "all piles, profiles, switches, meshes and soil parameters for which both Models are created", "why_tests_cant": "The claim compares pairs of arbitrary Models; tests can compare a few chosen pairs only.", "anchors": ["src/openpile/construct.py: Model.shaft_resistance", "src/openpile/construct.py: Model.tip_resistance", "src/openpile/utils/misc.py: _fmax_api_clay", "src/openpile/utils/misc.py: _Qmax_api_sand", "src/openpile/soilmodels.py: API_clay_axial", "src/openpile/soilmodels.py: API_sand_axial"]}
{"id": "C106", "title": "Levels of any precision can be analysed", "statement": "Whatever the levels of section joints, layer boundaries, pile head, pile tip and extra mesh levels, an accepted Model gives numbers, and every embedded element has the springs of its layer.", "quantifier": "all accepted piles, soil profiles, extra mesh levels, coarseness of at least 0.01 m, loads and supports; levels more than 0.1 mm apart or multiples of 0.1 mm", "why_tests_cant": "Tests use levels with few decimals and extra levels within the pile.", "anchors": ["src/openpile/core/_model_build.py: get_coordinates", "src/openpile/core/_model_build.py: parameter2elements", "src/openpile/construct.py: Model.solve"]}
{"id": "C107", "title": "A pile drawn to a larger scale", "statement": "Multiply all lengths of a Model without soil (levels, diameters, wall thicknesses, x2mesh, coarseness, elevations of loads and supports) by m, the forces by m^2, the moments by m^3 and the prescribed displacements by m: solve() fails in the same cases, and otherwise reports displacements m times as large, the same rotations, normal and shear forces m^2 times and bending moments m^3 times as large at elevations m times as large.", "quantifier": "all piles, extra levels, coarsenesses, element types, histories of calls and all whole m", "why_tests_cant": "A test compares two scales of one pile; the claim needs every mesh, every section and every combination of loads and supports.", "anchors": ["src/openpile/construct.py: CircularPileSection.second_moment_of_area", "src/openpile/core/_model_build.py: get_coordinates", "src/openpile/core/kernel.py: elem_mechanical_stiffness_matrix", "src/openpile/winkler.py: beam"]}
{"id": "C108", "title": "Editing a table that was handed out", "statement": "Editing a table that a Model or a result handed out (nodes_coordinates, element_coordinates, get_structural_properties(), get_soil_properties(), global_forces ...; displacements, forces, reactions, settlement, deflection, rotation) changes only that table: solve() still returns what a new Model with the same boundary conditions returns, and the result still shows the tables it showed.", "quantifier": "all Models, all sequences of reading tables, editing them, setting boundary conditions and solving", "why_tests_cant": "whether two tables share memory depends on the order of reads and edits; a test follows one order", "anchors": ["src/openpile/construct.py: Model.nodes_coordinates", "src/openpile/construct.py: Model.element_coordinates", "src/openpile/construct.py: Model.global_forces", "src/openpile/construct.py: Model.get_structural_properties", "src/openpile/winkler.py: AnalyzeResult"]}
{"id": "C109", "title": "Pulling a pile is the reverse of pushing it, where the soil resists both alike", "statement": "Without soil, or with soil whose shaft friction is the same in tension and compression and no spring under the tip, reversing every axial load and every prescribed axial displacement in the calls on a Model reverses the settlements, normal forces and axial reactions of its result and changes nothing else: deflections, rotations, shear forces, bending moments, lateral reactions, mobilisation, number of iterations, error and tolerance stay, and so do failures. In particular a pile that is only loaded across its axis neither settles nor carries a normal force.", "quantifier": "all piles, meshes, soil profiles, lateral soil models, histories of calls, element types, switches without base_axial, axial soil models with equal friction both ways", "why_tests_cant": "A test pulls one pile; the claim is an identity between two analyses for every pile, soil and history of calls, through a nonlinear iteration.", "anchors": ["src/openpile/winkler.py: winkler", "src/openpile/construct.py: Model.set_pointload", "src/openpile/utils/kernel.py: jit_build", "src/openpile/construct.py: create_springs", "src/openpile/utils/tz_curves.py: backbone_api_clay"]}
{"id": "C110", "title": "The tables of a pile describe the pile", "statement": "print(pile), Pile.data and txt_pile(pile) show the pile completely: two piles shown alike are alike; the elevations go down from the top to the bottom of the pile, two rows per section; the volume and inner volume worked out from a table are those the pile reports.", "quantifier": "all accepted piles, any number of sections in any order of listing", "why_tests_cant": "A test prints a few piles; that no two different piles are printed alike is a statement about all pairs of piles.", "anchors": ["src/openpile/construct.py: Pile.__str__", "src/openpile/construct.py: Pile.data", "src/openpile/core/txt.py: txt_pile"]}
{"id": "C111", "title": "A pulled pile is held by its shaft only", "statement": "In a Model with API axial soil models whose w-multiplier is positive, the spring under the tip has neither secant nor tangent stiffness at any upward displacement of the tip. If Model.solve() returns a result whose lowest node is not pushed down, and no node is supported or displaced along the axis, then the axial loads are in balance with the friction along the shaft alone, read from the t-z springs at the listed settlements, up to the reported error times the square root of the number of nodes. With distributed_axial=False the axial loads then add up to no more than that error: no pull can be held.", "quantifier": "all piles, soil profiles, layers, axial models, meshes, switches, loads and results whose tip is not pushed down", "why_tests_cant": "Every pair of pile, profile and loading has its own iterates; a test sees one of them.", "anchors": ["src/openpile/construct.py: Model (create_springs)", "src/openpile/utils/qz_curves.py: _backbone_api", "src/openpile/core/kernel.py: calculate_base_axial_spring_stiffness", "src/openpile/winkler.py: winkler"]}
{"id": "C112", "title": "Whatever the constructors of the soil models accept can be used in a Model", "statement": "If every soil model of a profile could be constructed, creating a Model with it raises no exception and prints no warning about negative springs; parameters have a value between the given ones at every depth of their layer; values for which springs make no sense are refused by the constructors.", "quantifier": "all soil models that can be constructed, with numbers, lists or functions as parameters, and all piles, profiles, meshes and switches", "why_tests_cant": "Each class has its own limits, checked when it is constructed and used much later in formulas of other modules; tests construct a few models in the middle of the ranges.", "anchors": ["src/openpile/soilmodels.py: field constraints of all classes", "src/openpile/construct.py: Model.create_springs", "src/openpile/core/misc.py: from_list2x_parse_top_bottom"]}
{"id": "C113", "title": "A result shows what was set", "statement": "The displacement table of a result, with or without soil, has one row per node; it lists a displacement prescribed with set_pointdisplacement exactly as given and zero in a direction held by set_support, and no reaction is listed in a direction where neither a support nor a displacement was set.", "quantifier": "all piles, meshes, springs, switches, histories of calls, nodes and directions", "why_tests_cant": "Tests read one or two entries of the tables of fixed models; the statement concerns every node of every model after every sequence of calls, also when the Newton iteration needs many passes.", "anchors": ["src/openpile/construct.py: Model.set_pointdisplacement", "src/openpile/construct.py: Model.set_support", "src/openpile/winkler.py: winkler", "src/openpile/winkler.py: beam", "src/openpile/winkler.py: disp_to_df", "src/openpile/winkler.py: reaction_forces_to_df"]}
{"id": "C114", "title": "Small load cases on a pile in soil superpose", "statement": "While every spring of a Model with soil stays on its first branch, Model.solve() is linear: if the nodal loads and prescribed displacements of a third load case are a times those of a first plus b times those of a second, with the same degrees of freedom held, then the listed displacements and section forces are the same combination row by row, and the listed reactions are up to rounding in the table. Two such load cases do the same work on each other's displacements.", "quantifier": "all piles of stacked sections, meshes, tables of springs, switches, load cases and factors a and b within the first branches of the springs", "why_tests_cant": "tests compare single load cases with stored numbers; that all load cases in the linear range combine is a statement about all pairs of them and about the iteration that finds each", "anchors": ["src/openpile/construct.py: Model.solve", "src/openpile/winkler.py: winkler", "src/openpile/core/kernel.py: build_stiffness_matrix", "src/openpile/core/kernel.py: solve_equations"]}
{"id": "C115", "title": "A pile in soil moves towards its loads", "statement": "Set loads and supports on a model with soil by set_pointload and set_support and solve() it. The loads never do negative work on the listed displacements, up to the reported residual times the size of the displacements; without residual they do positive work unless every load acts in a held direction. For a single load or moment this says that the node it acts on moves or turns in its direction. No supports are needed: the soil may hold the pile.", "quantifier": "All accepted piles, meshes, spring tables, switches, sets of loads and supports for which solve() returns numbers.", "why_tests_cant": "The sign of a displacement under every load case, mesh and set of spring tables; tests look at a few load cases.", "anchors": ["src/openpile/construct.py: Model.solve", "src/openpile/winkler.py: winkler", "src/openpile/core/kernel.py: build_stiffness_matrix", "src/openpile/core/kernel.py: elem_mt_stiffness_matrix"]}
{"id": "C116", "title": "A pile in stiffer soil gives way less", "statement": "Analyse two piles on the same mesh under the same loads, without prescribed displacements. In the second the pile and every spring are at least as stiff, and more of it may be held. Then the loads do no more work on the displacements of the second, up to the residuals it reports; under a single lateral load the loaded node moves no further.", "quantifier": "for all piles, meshes, histories of loads and supports, and spring tables; while the springs of both analyses stay on their first branch", "why_tests_cant": "A test compares two soils on one pile. The claim is about every pile, every load case and every pair of spring tables that are ordered.", "anchors": ["src/openpile/core/kernel.py: solve_equations", "src/openpile/core/kernel.py: build_stiffness_matrix", "src/openpile/winkler.py: winkler"]}
{"id": "C117", "title": "An analysis holds no more pull than the shaft resistance that the Model reports", "statement": "Take a Model whose layers have API axial soil models or none, set loads and supports other than axial supports, and solve() it. If no node moves down, the pull that the analysis holds in balance is at most the shaft resistance in tension that Model.shaft_resistance reports for the same Model, up to the reported residual.", "quantifier": "all accepted piles, soil profiles, meshes, switches, loads and lateral or rotational supports for which solve() returns numbers with no downward movement", "why_tests_cant": "The resistance and the analysis are computed by separate code from the same springs; that one bounds the other for every profile, mesh and load case is not visible in stored numbers.", "anchors": ["src/openpile/construct.py: Model.shaft_resistance", "src/openpile/construct.py: Model.solve", "src/openpile/core/kernel.py: elem_tz_stiffness_matrix", "src/openpile/winkler.py: winkler"]}
{"id": "C118", "title": "An analysis holds no more push than the shaft and tip resistances that the Model reports", "statement": "Take a Model whose layers have API axial soil models or none, set loads and supports other than axial supports, and solve() it. If no node moves up, the push that the analysis holds in balance is at most the shaft resistance in compression that Model.shaft_resistance reports plus what Model.tip_resistance reports for the same Model, up to the reported residual.", "quantifier": "all accepted piles, soil profiles, meshes, switches, loads and lateral or rotational supports for which solve() returns numbers with no upward movement", "why_tests_cant": "The resistances and the analysis are computed by separate code from the same springs; that one bounds the other for every profile, mesh and load case is not visible in stored numbers.", "anchors": ["src/openpile/construct.py: Model.shaft_resistance", "src/openpile/construct.py: Model.tip_resistance", "src/openpile/construct.py: Model.solve", "src/openpile/core/kernel.py: elem_tz_stiffness_matrix", "src/openpile/winkler.py: winkler"]}
{"id": "C119", "title": "Higher multipliers of resistances and lower multipliers of displacements make a pile give way less", "statement": "Raising p_multiplier, t_multiplier and Q_multiplier and lowering y_multiplier, z_multiplier and w_multiplier (to positive values) in any of the layers of a Model, by any amounts, never makes the loads do more work in solve(): under a single lateral load the loaded node moves at most as far as before.", "quantifier": "For all piles, profiles, meshes and layers with any soil models, all multipliers that are numbers or, for p-y curves, functions of depth, all loads and supports without prescribed displacements.", "why_tests_cant": "A test compares results for chosen multipliers of one soil model; a multiplier of the wrong spring or one applied to the displacement would show only in other layers or depths.", "anchors": ["src/openpile/soilmodels.py: py_spring_fct, tz_spring_fct, Qz_spring_fct of all models", "src/openpile/construct.py: Model.solve", "src/openpile/winkler.py: winkler"]}
{"id": "C120", "title": "Where no layer has rotational springs, distributed_moment does not matter", "statement": "In a Model whose layers have lateral models without rotational springs (API soils without Mt curves, rock) or none, solve() with distributed_moment=True (the default), whenever it returns, returns the same tables, mobilisation and details as with distributed_moment=False; and with distributed_lateral=True it returns whenever the analysis with distributed_moment=False does.", "quantifier": "For all piles of both element types, profiles, meshes, loads, supports and prescribed displacements.", "why_tests_cant": "The switch takes another path through the stiffness of every element in every iteration, on tables of zeros; a test sees it for one pile only.", "anchors": ["src/openpile/construct.py: Model.solve", "src/openpile/kernel.py: elem_mt_stiffness_matrix, build_stiffness_matrix", "src/openpile/winkler.py: winkler"]}
