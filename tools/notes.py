STATUS = {
'C01': ('partial', 'Acceptance, area split and the exact positivity condition are proved; the thickness of an accepted section is not bounded by the radius, so the physical claim fails (C01_violated_*) and holds when thickness is at most half the diameter (C01_physical_partial).'),
'C02': ('proved', 'Acceptance iff contiguous after sorting, geometry of accepted piles, order irrelevance.'),
'C03': ('proved', 'Sums, split invariance, tubular constructor.'),
'C04': ('proved', 'Acceptance iff, no gap/overlap beyond the tolerance, bottom elevation drift.'),
'C05': ('proved', 'Exact mesh contains every required elevation; the published mesh does up to 0.05 mm (exactly on the 0.1 mm grid).'),
'C06': ('proved', 'Termination, least equal division, element length bound for the exact mesh.'),
'C07': ('partial', 'Closeness and order proved; distinctness only if required elevations are separated (C07_no_merge_partial), violated otherwise (C07_violated_merge).'),
'C08': ('partial', 'No straddling proved for the exact mesh; unique section/layer selection, and with it the arrays of element parameters (filled in a loop over the sections), proved when required elevations are multiples of 0.1 mm, violated otherwise.'),
'C09': ('partial', 'Own or above section in general; own section for one-section piles or when ties put the lower section first; with the stable order every element of a lower section gets the properties of the section above (C09_violated_stable).'),
'C10': ('partial', 'Exact when the water line is not inside an element; in general exact for a water line lowered by at most one element. Violated for water line inside an element and for off-grid ground level.'),
'C100': ('proved', 'C100_springs (fewer switches), C100_kind (any two combinations), C100_analysis (a switch against blank tables), C100_left_out_springs and C100_left_out (switches against layers without models, from the public calls), C100_moment_alone (the error). The random draws inside the springs are taken to belong to the element and end.'),
'C101': ('proved', 'C101_tables: the second analysis succeeds when the first does and the tables are related row by row; C101_unloaded: no loads; C101_model: from the public calls (elevations on the grid of the mesh). A prescribed displacement equal to zero does not hold a node in this code (C85_violated_zero), so both sets of conditions must hold the same degrees of freedom; this is a hypothesis.'),
'C102': ('partial', 'C102_shaft: exact relation of both shaft resistances; C102_grows_partial: not less, and more in clay, when the old tip lies strictly inside a layer; C102_even_partial: not less when the first new element is not shorter than the last old one. C102_violated_boundary: when the old tip stands on the boundary to soil without axial model and the new element is shorter, the reported resistance drops by f (l_old - l_new)/4. Missing: nothing beyond what the code violates; setups as in C54.'),
'C103': ('partial', 'Full statement for sand (C103_api_sand, C103_api_sand_between), modified Matlock clay (C103_modified_matlock) and the springs of a Model (C103_model_clay, C103_model_sand, same random values). api_clay and matlock_1970: exact outside the interval from 3 to 3.0002 y50 and up to 0.002 % inside (C103_api_clay_partial, C103_matlock_partial); inside it is violated below the transition depth (C103_violated_peak).'),
'C104': ('partial', 'Proved for reactions that are whole numbers, from the public calls: without soil (C104_calls_partial) and with soil when the first analysis ends with a zero residual and every spring on its first branch (C104_soil_partial; mobilised springs agree too). Violated for every other reaction: set_pointload truncates it, so the displacements always change (C104_violated_fraction; 1.5 kN at the head of a propped cantilever).'),
'C105': ('partial', 'Proved for whole Models as in C56 (layers meet exactly, levels on the 0.1 mm grid, pile head not below ground), with walls at the tip not thicker than the radius and plugging unchanged. Violated for thicker walls: a wall between radius and diameter is accepted and a thicker one lowers the tip resistance.'),
'C106': ('partial', 'False: any joint between sections that is no multiple of 0.1 mm (C106_violated_joint, C106_violated_soil_joint) and any level off the pile, such as the ground level above a buried head (C106_violated_outside, C106_violated_buried), leaves an element without section data, so no analysis gives numbers. Any layer boundary that is no multiple of 0.1 mm leaves an element without springs, silently (C106_violated_layer). C106_exactly_partial tells exactly when all elements have section data, for levels on the pile. Missing: the levels closer than 0.1 mm.'),
'C107': ('partial', 'proved when the mesh points are multiples of 0.1 mm, the loads whole numbers and every condition near a node is at that node; rounding of the nodes and truncation of the loads violate it otherwise; small reactions are masked, so reactions are left out'),
'C108': ('partial', 'Holds for every session that edits only copies. Violated for nodes_coordinates (an edit makes solve raise, for every Model without soil) and for displacements (the result shows what was written).'),
'C109': ('proved', 'Equal friction both ways: plugging none or both with tension_multiplier 1, tension with 2, compression with 1/2 (openpile takes the inner perimeter to be the outer one, see C36). z_multiplier not negative.'),
'C11': ('partial', 'The code returns after the first layer; proved for a single submerged layer, violated otherwise.'),
'C110': ('partial', 'Holds for the sections (C110_printed, C110_data, C110_order, C110_volume). The code violates it for the material, which no table shows, and for txt_pile, which reads attributes no Pile has and always raises.'),
'C111': ('proved', 'C111_tip for the springs of every Model, C111_balance for given springs and mesh, C111_model from the public calls to the tables, C111_no_shaft without friction. Standing assumptions of C59 (layers meet exactly, head not below ground).'),
'C112': ('partial', 'C112_amount, C112_amount_iff, C112_lateral, C112_axial, C112_model_partial (composition with C64), C112_usual, C112_silent_partial (composition with C87), C112_uplift (hypothesis of C111). Functions of the depth are asked to have values in the ranges that the class sets for numbers. Violated: C112_violated_angle (a friction angle given as a number has no upper limit, lists are limited to 45 degrees: negative friction), C112_violated_function (functions as axial multipliers), C112_violated_density (the relative density of Dunkirk sand has no upper limit: p-y springs at negative displacements), C112_violated_shape (custom curves for which the conic divides zero by zero). C64_violated_dense (Dunkirk sand of 100 %: a p-y curve divides zero by zero). Missing: which other shapes above 1/2 and densities between 50 and 100 % are defined.'),
'C113': ('partial', 'C113_beam and C113_soil: for every pile of stacked sections, mesh, springs, switches and history of calls, an analysis that gives numbers shows what was set (Shows). Partial because a displacement of zero is not a prescribed displacement for the code: C113_violated_zero, with and without soil, and the analysis then is that without the call. Where two calls of one kind name different elevations that go to the same node nothing is claimed (C14_violated_falsy_not_written).'),
'C114': ('proved', 'C114_superposition: the third result, whenever numbers are returned, has no out-of-balance force, is reached in two or three passes and is the combination in displacements, section forces and (to rounding) reactions; nothing is assumed of how the iteration goes for it. C114_reciprocity: work of one case on the listed displacements of the other, without displacement conditions. The first branch is stated on the listed displacements (OnFirstBranch); a combination without loads and reactions gives NaN (C60_linear_exactly) and is outside the statement.'),
'C115': ('partial', 'C115_work_partial, C115_single_partial, C115_calls_partial: proved for all p-y, t-z and base tables whatever their shape, both element types; rotational springs along the shaft with Euler-Bernoulli elements and tables whose second rotation is positive. C115_violated_timoshenko: with Timoshenko elements the matrix of rotational springs is not that of the theory (C18); for a solid pile of 3 m diameter with any lateral springs, every rotational stiffness above some threshold makes the analysis of a small lateral head load converge, without residual, to a head displacement against the load. C115_default_partial: from the Model, any switches and both element types where no layer has rotational springs.'),
'C116': ('partial', 'Proved while every spring stays on its first branch, with the residuals the analyses report; switching kinds of springs on is a case of it, proved from the Model (C116_default_partial for any switches where no layer has rotational springs). Missing: later branches, and rotational springs along the shaft with Timoshenko elements or with tables that do not go on from the origin to a positive rotation.'),
'C117': ('partial', 'The bound carries a factor rho, by which the listed settlements of neighbouring nodes differ; it cannot be dropped, since a sliding element carries more than its strength unless both ends move equally (C74_violated_sliding); and, on meshes of uneven elements, a factor 2, because shaft_resistance gives each end of an element half the mean length of the two elements that meet there (C44). On elements of one length the factor 2 is absent (C117_uniform_partial). The example of a solved analysis is given on spring tables (C117_tables_partial), and the example of API springs on a Model; no solved analysis with API curves is shown.'),
'C118': ('partial', 'As for C117 the shaft term carries a factor rho, by which the listed settlements of neighbouring nodes differ, and on meshes of uneven elements a factor 2; on elements of one length the factor 2 is absent (C118_uniform_partial). The examples are a solved analysis on spring tables and the spring under the tip of a Model in clay; no solved analysis with API curves is shown.'),
'C119': ('partial', "C119_partial compares the work of the loads and C119_deflection_partial the movement under a single lateral load, up to the reported residuals, for any soil models, any number of layers, and any multipliers with 0 <= p <= p' and 0 < y' <= y, likewise for t and z, Q and w. C119_default_partial: any switches where no layer has rotational springs. Missing: springs beyond their first branch, layers with rotational springs along the shaft, prescribed displacements."),
'C12': ('proved', 'Refinement to a last-write-wins specification over all call histories, plus isolation of kinds/elevations.'),
'C120': ('proved', 'C120_model from the public calls, C120_analysis for any tables whose first row has no rotations: what returns with the switch on returns the same with it off. C120_model_iff and C120_analysis_iff: with the lateral springs on, also the other way round; with them off the switch of rotational springs makes solve() raise (C100_moment_alone). From it follow C59_moment_default_partial, C84_default_partial, C85_default_partial, C115_default_partial, C116_default_partial and C119_default_partial.'),
'C13': ('proved', 'Exact characterisation of when validate_bc raises and that call histories never do.'),
'C14': ('partial', 'Node choice, displacements and supports proved; loads are truncated to integers by the code (C14_violated_fractional_load) so the load part holds only up to truncation.'),
'C15': ('proved', 'Equilibrium, supports, reactions, uniqueness, and failure exactly for a kernel field, for matrices over any field and any finite index set.'),
'C16': ('partial', 'Symmetry and end-force equilibrium for all parameters; non-negativity and rigid kernel for nu >= -3/4 (all nu for Euler-Bernoulli); violated for accepted strongly auxetic materials with thick sections (C16_violated_auxetic).'),
'C17': ('partial', 'The code multiplies by the shear coefficient; the exact relation and the cantilever compliance are proved, the textbook claim is violated for every section with 0 <= nu <= 1/2.'),
'C18': ('partial', 'Lateral and axial matrices equal the integrals for all stiffnesses; rotational matrix only for Euler-Bernoulli with constant stiffness; violated for a stiffness gradient and for Timoshenko elements, where the area variable is overwritten.'),
'C19': ('partial', 'Energy, symmetry, bandwidth for all inputs; non-negativity under the restrictions of C16 and C18. Full statement violated by accepted auxetic materials (C19_violated_auxetic).'),
'C20': ('partial', 'Positive definiteness, solvability and uniqueness whenever supports and springs exclude rigid motions, exact support condition for a beam, also from boundary conditions and mesh to the tables (C20_tables); under the restrictions of C16 and C18. Full statement violated by accepted auxetic Timoshenko piles (C20_violated_auxetic).'),
'C21': ('proved', 'Force and moment balance about any point of loads and reactions of every successful beam analysis. C21_tables and C21_model say the same of what the user reads, from the public calls: the nodal loads of global_forces and the rows of the reaction table balance up to the 1/1000 per node and component that the table masks.'),
'C22': ('proved', 'Element equilibrium, nodal jumps for beam analyses and, with spring forces, for soil-supported piles. C22_tables and C22_model read this off the table of section forces: equal N and V in the two rows of an element, moment change V times length, and between the rows above and below a node a change equal to the load where nothing holds the node (load plus listed reaction up to 1/1000 elsewhere).'),
'C23': ('proved', 'Superposition, scaling and reciprocity for any successful pair of solutions; C23_tables, C23_scaled and C23_reciprocal_tables say the same of the listed displacements and section forces (reactions up to the masking of the table). Loads enter as whole numbers because the code stores them in integer columns, see C14.'),
'C24': ('partial', 'Non-negativity, secant, tangent, initial slope and direction independence for p-y and base springs and all table lengths; rotational springs: non-negativity, curve selection and secant proved, direction independence violated because the mobilised lateral resistance enters with its sign (C24_violated_mt_direction).'),
'C25': ('partial', 'Holds for table lengths 4k+3 (create_springs uses 15); violated for every length 4k+5 because Python rounds halves to even.'),
'C26': ('partial', 'Converged results, iteration bounds and prescribed displacements for every stiffness law; with max_iter >= 99 numbers are only returned after convergence; for every max_iter <= 98 unconverged numbers can be returned unmarked, and max_iter above 99 has no effect.'),
'C27': ('partial', 'Proved without supports; with support reactions the tolerance counts them twice after two solves (C27_linear, C27_violated).'),
'C28': ('partial', 'Number of points, conic equation, bounds, monotonicity and plateau are proved; existence needs a denominator that does not vanish (C28_violated_division gives a 0/0 case inside the admissible range; for every shape below one at most one initial stiffness per point of the curve is affected, C28_exceptions) and the start at zero fails when x_u is below the absolute tolerance 1/100 (C28_violated_start, C28_violated_near).'),
'C29': ('partial', 'Every reaction curve is proved to be well formed on the depth range where its normalised parameters stay admissible, with scaling zero giving a zero curve; outside that range, which ordinary inputs reach, it fails (C29_violated_*: negative or near-zero ultimate values). On those ranges the C29_shape_* theorems also prove that every curve is the published conic (coefficients written out in Spec/Pisa.lean) with the scaling of its kind of spring on both axes; the Dunkirk p-y and m-t curves have it at every depth along the pile.'),
'C30': ('proved', 'Length, origin, monotonicity, bounds, exact initial slope, static versus cyclic, modulus handling and the end of the default table, for 0 <= phi < 90; the ultimate resistance is shown equal to the published passive/active form. C30_shallow_default records that above 0.1 m depth the default table ends before the resistance is mobilised.'),
'C31': ('partial', 'Length, origin, order, laws, bounds, monotone static curve, jumps are proved for every draw; staying within ymax holds for the default or ymax >= 15 y50 (8 y50 for Matlock), and fails for smaller values (C31_violated_*). J = 0 with zero stress divides by zero.'),
'C32': ('proved', 'Length, origin, order, law, bounds, end at the ultimate resistance, RQD clamp and modulus cap.'),
'C33': ('partial', 'Proved for every length, factor and random draw, and any argsort: the backbone curves pass through the API points, have sorted displacements, and interpolate exactly like the API polygon; actual curves are this polygon scaled by D and the unit resistance; bounds, origin, and monotonicity up to the peak. Violated part: lengths below 15 are not honoured (C33_violated_sand_length).'),
'C34': ('partial', 'Shape (odd symmetry, peak bound, hyperbolic law) proved; the returned length is proved to be the requested one only for the lengths of C34_length and to differ otherwise (C34_violated_length); zero friction gives no curve (C34_violated_zero_friction).'),
'C35': ('partial', 'Friction laws, bounds, continuity and monotonicity proved over the reals. Violated: clay friction at zero stress exceeds the friction at smaller positive stresses, sand friction is negative for interface angles between 90 and 180 degrees, which a scalar delta admits.'),
'C36': ('partial', 'Capacity of the t-z and Q-z springs proved equal to unit resistance times contact area where alpha_limit does not govern and without a plug in tension. Violated: alpha_limit never reaches the spring; with a plug in tension the inner circumference is used; inside_friction is not used by the springs; create_springs passes the outer perimeter as inner perimeter, so an open pile counts it twice (C36_violated_circumference).'),
'C37': ('partial', 'Lower bound one, reciprocity and the static API factor for ra=1 hold at every depth (C37_multiplier, C37_static), plus order in ra and neutrality at depth. But ra=0.3, documented as neutral, is not (C37_violated_default), and multiplying a cyclic curve by the ra=1 factor does not give the static curve because the initial stiffness is scaled too (C37_violated_static).'),
'C38': ('partial', 'All four springs of Dunkirk sand along the whole pile (base springs up to L/D=6) and of Cowden clay on stated depth ranges are reproduced exactly, errors included. Below 6.1 diameters the Cowden m-t springs differ because only the hooks are clamped (C38_violated_mt).'),
'C39': ('partial', 'Ends, linearity, bounds, constants, rejected values, locality of every spring of every lateral model and rejection below the layer are proved. The axial models have no such check and extrapolate (C39_violated_axial).'),
'C40': ('partial', 'Each multiplier scales its own axis of its own spring for every model, one is neutral against the curve of the literature, base springs are untouched. No multiplier function is ever rejected (C40_violated_validation), and a p-multiplier of zero in API sand removes the m-t springs too (C40_violated_mt_api).'),
'C41': ('partial', 'Violated. Proved for every history of get_* calls: p-y (t-z) resistances are multiplied by the influence length of their node once per lateral (axial) table (C41_violated_history), every repeated lateral table differs from the first one unless the head element is 2 m long or its spring is zero (C41_violated_repeat), and looking at the axial springs lowers the shaft resistance on every mesh finer than one metre (C41_violated_capacity); the distributed rotational table always raises (C41_violated_rotational). Proved part: m-t springs, base springs and all displacements are never changed, and their tables are the same after any history. float32 storage is not modelled.'),
'C42': ('partial', 'Tributary lengths are those of the nodes and sum to the pile length on every mesh (C42_influence, C42_tributary). Violated by the lumped table: in uniform soil every inner row, resistance and displacement, is multiplied by the sum of two neighbouring tributary lengths (C42_violated_lumped). The "distributed" table is the correct lumped table in uniform soil (C42_distributed_partial) and hence not per metre (C42_violated_distributed). With resistances that vary with depth it sums to their integral (C42_continuous_partial). Where they jump at a layer boundary C42_interface is the exact condition: met on meshes of equal elements from the second node on (C42_interface_partial), violated at the first node below the head on every such mesh (C42_violated_interface).'),
'C43': ('partial', 'Displacement, reaction and section force tables and the stacked array are aligned for all meshes; the mobilisation table of every analysis misses the pile tip because double_inner_njit repeats the last but one node.'),
'C44': ('partial', 'Exact trapezoidal integral of arbitrary limits on meshes of equal elements (C44_uniform_partial) and exact friction times length for constant friction along the whole pile on every mesh (C44_constant_partial). Violated for partially embedded piles: the error is friction times a quarter of the difference of the element lengths above and below ground (C44_violated_embedment).'),
'C45': ('partial', 'For piles whose head is not below ground, exactly meeting layers and elevations on the 0.1 mm grid: effective pile weight and soil plug weight are exact for a water line lowered by at most one element (C45_pile_snapped, C45_soil_snapped), exact if no element is cut by the water line, and within the stated bounds for every water line (C45_pile_bounds, C45_soil_bounds). Violated: every element cut by the water line adds 10 kN/m3 times the volume of its wet part (C45_violated_water_line); NaN whenever the pile head is below ground (C45_violated_head_below_ground). Missing: layers meeting only within the 1 mm tolerance and off-grid elevations.'),
'C46': ('proved', 'Acceptance, five-element bound, dispatch of solve.'),
'C47': ('partial', 'Hb, Mb and Q-z springs come from the one layer containing the last element, for stress, width and position of the tip; other layers, in particular the one below a tip on a boundary, have no effect (C47_other_layers), nor has the layer order (C54_order). Holds for lateral models whose base parameters are not functions of depth (C47_at_tip_partial); functions are evaluated at the bottom of the soil profile instead of the tip (C47_violated_depth).'),
'C48': ('partial', 'API modulus at least 5400, Kallehave positive and increasing with depth and diameter, the modulus in force is the one the p-y curve uses (C48_used). The Sorensen modulus decreases with depth (C48_violated_sorensen; its k*X increases, C48_sorensen), and a modulus given together with a modification is ignored (C48_violated_ignored). Kallehave is zero at ground level and then replaced by API.'),
'C49': ('partial', 'Lateral springs for all tables with non-negative resistances; rotational springs if the last row is the strongest; base springs are bounded but the reported maximum may be a displacement (C49_violated_base).'),
'C50': ('proved', ''),
'C51': ('partial', 'Holds when soil and extra elevations stay within the pile; violated when the pile head is below ground.'),
'C52': ('partial', 'All springs except the bottom of the last element; that one always sees the displacement of the node above.'),
'C53': ('proved', 'Each spring is evaluated at the displacement component it resists; the one wrong node of the last element is C52. Requesting moment springs without lateral springs is an error (C53_moment_needs_lateral).'),
'C54': ('proved', 'p-y, m-t and t-z springs of every element inside exactly one layer are the curves of that layer for the data of that end, zeros without model or when switched off, zeros above ground, independent of the layer order; C54_mesh shows that a Model whose layers meet exactly on the 0.1 mm grid meets the hypotheses.'),
'C55': ('partial', "Two meshes of one pile fail together or agree at common nodes, at the level of vectors (C55_refined, C55_fails, C55_two_meshes), of tables on given coordinates (C55_tables) and from the public calls (C55_model_partial); inside an element the finer results follow the exact beam solution (C55_exact). Restriction: the elevations asked for are multiples of 0.1 mm inside the pile (otherwise the published coordinates are rounded, C07), boundary conditions act at elevations asked for in both meshes and away from other ones, and the restriction of C16 on Poisson's ratio."),
'C56': ('partial', 'Proved from the pile and the profile to the two numbers (C56_model_partial) and for given springs (C56_tip_clay, C56_tip_sand, C56_tip_none, C56_shaft_partial); that the springs exist is C64_input. Restriction: layers meet exactly, the head is not below ground, soil parameters in the ranges of C64. The shaft formula is the one the code computes: outer perimeter counted twice without plug (C36_violated_circumference) and end elements weighted as in C44_violated_embedment.'),
'C57': ('partial', 'Violated. For every stiffness law, all supports and every max_iter the convergence test is never met (C57_violated_never: tolerance zero, strict comparison); with max_iter >= 99, in particular for Model.solve, every held pile in soil is reported as NaN after 100 iterations (C57_violated_nan, C57_violated_pile, C57_violated_held). With smaller max_iter the result is the state of rest (C57_rest_partial).'),
'C58': ('partial', 'C58_mirror_partial: the whole iteration commutes with the reflection (all piles, spring tables, supports, loads, iteration limits) when rotational springs along the shaft are absent or do not depend on the mobilised lateral resistance. C58_tables_partial: the same from the public calls to the tables and mobilisation of solve(), for every soil profile without Dunkirk_sand, Custom_pisa_sand and API_sand with m-t curves. C58_beam_tables: without soil, from the calls to the tables, no restriction. Violated otherwise: the mobilised resistance enters with its sign, so a reversed deflection selects the first row of the m-t table (C58_violated_moment).'),
'C59': ('partial', 'Lateral and axial balance for all models (C59_lateral, C59_axial), with the tolerance for piles without supports (C59_free); moment balance for both types of elements (C59_moment_partial, C59_moment_factor_partial). From the tables: loads of the Model against the springs of its arrays, read at top and bottom of every element at the listed displacements, up to the reported error (C59_tables_lateral, C59_tables_axial, C59_tables_moment_partial, C59_model_lateral from the public calls). Violated for rotational springs along Timoshenko elements: their moment enters with a factor that differs from one unless area and matrix coefficient coincide (C59_violated_factor). With supports, loads and reported reactions balance the springs exactly at the displacements of a last linear solve that the result does not contain (C59_supports_partial); missing: the balance at the reported displacements in supported directions. C59_moment_noTurn_partial (any tables without rotations), C59_moment_default_partial: the balance of moments from the Model with any switches where no layer has rotational springs.'),
'C60': ('partial', 'C60_linear_partial, C60_proportional_partial without rotational springs along the shaft, C60_linear_moment_partial and C60_proportional_moment_partial with rotational springs whose curve does not depend on the mobilised lateral resistance (those of the clay models, C63); violated for those that do, as in sand (C60_violated_moment: half of the prescribed displacement does not give half of the rotation). C60_no_springs in full. These exclude the case F = 2 Q at every degree of freedom; C60_linear_exactly and C60_no_springs_exactly cover it: one more pass is taken, and only without any load and reaction the result is NaN (C57).'),
'C61': ('proved', 'C61_converged and C61_details for every analysis that returns numbers; NoModels.details_some shows that details() then exists.'),
'C62': ('partial', 'C62_stressed_partial (on the published mesh): the tables of the pile alone whenever a load acts at some node or the pile alone has section forces. C62_violated_unstressed: otherwise (no load, supports at rest or moving the pile as a rigid body) the tolerance is zero and the result is NaN, although the pile alone gives numbers; C62_violated_supports: in particular with supports only. C62_same_mesh_partial and C62_model_partial compare with the Model without profile on any other mesh. Distributed moment springs need the lateral switch on.'),
'C63': ('proved', 'C63_clay_accepted and C63_sand_accepted: all accepted parameters, every place within the layer, whatever random numbers are drawn, flat where there is no friction; C63_pisa_clay; C63_dunkirk: every depth along the pile, ultimate moment proportional to the lateral resistance (C63_dunkirk_rises where the curve also rises, see C29); C63_custom_sand and C63_custom_clay; C63_model_clay and C63_model_sand for the springs of a Model, C63_off and C63_base_off where there are none. The API models need at least 15 points per spring, which Model always asks for.'),
'C64': ('partial', 'C64_model_partial (from the pile and the profile), C64_input (given elements and layers), Defined.model_py, model_mt, model_hb and model_mb for the single springs. Restrictions: layers meet exactly, all levels on the 0.1 mm grid, head not below ground; Dunkirk sand up to 50 % relative density and custom curves with shape up to 1/2 (beyond that a conic can divide by zero: C28_violated_division). C64_violated_dense: at 100 % there is a pile for which it does.'),
'C65': ('partial', 'C65_analysis_partial (whole analysis with soil), C65_beam, C65_springs, C65_capacity, C65_weights, C65_mesh, C65_loads, C65_profile; sections by C02_order_irrelevant. Restrictions: layers meet exactly on the 0.1 mm grid with the head not below ground (the Setup of C54), random numbers belong to the spring and not to the call. Two loads at different elevations that fall on the same node overwrite each other, so there the order of the calls decides (C65_violated_near).'),
'C66': ('partial', 'Holds for shifts that are even multiples of 0.1 mm (nodes are rounded half to even: C66_violated_odd) and boundary conditions whose tolerance selects the same node with both datums (C66_violated_near: the tolerance grows with the elevation). sameNear_of_grid and sameNear_of_far give checkable sufficient conditions. The creation of profiles needs elevations within 1000 km.'),
'C67': ('partial', 'Enclosure proved in full. Embedment is positive if no extra elevation lies below the tip and equals the embedded element length for piles whose head is not below ground; violated for buried heads (embedment exceeds the pile) and for a pile above ground with an extra elevation below (negative embedment).'),
'C68': ('partial', "Proved of the Python bodies (clay at all stresses, sand at positive stress and interface angles between 0 and 90 degrees). Violated in sand at ground level, where Kraft's form divides zero by zero, and by the functions as compiled: both are decorated with njit and call kraft_modification, which is not, so every call fails (C68_violated_compiled)."),
'C69': ('partial', 'The exact acceptance condition is proved, and for every complaint the exact situation in which it is raised. Solvable loaded models without prescribed displacements pass; laterally loaded models that pass and have an axial and a lateral support can be solved. Violated: no axial support, rotational supports only, displacement-controlled models, and every model with soil.'),
'C70': ('partial', 'Symmetry, translation and the sign of the force are proved for both element types, the rest for Euler-Bernoulli elements; violated for Timoshenko elements, where the area is overwritten. No analysis uses the matrix.'),
'C71': ('partial', 'Proved without soil from the calls to the tables. In soil, whatever the number of iterations: loads and displacements along the axis alone give exactly zero deflections, rotations, shear forces, moments and lateral reactions, and those across the axis alone exactly zero settlements, normal forces and axial reactions (C71_axial_only, C71_lateral_only). With both together proved whenever both analyses take the same number of iterations (iteration by iteration the two directions are uncoupled). False otherwise: the tolerance is 1e-4 of the norm of all loads together, so a large axial load ends the iteration early (C71_violated_iterations: head deflection 205/77 instead of 101/25).'),
'C72': ('partial', '`C72_first_partial` (piles without rotational springs along the shaft: switched off or blank tables) and `C72_first_euler` (Euler-Bernoulli elements with any springs) are equivalences: first pass fails iff springs and supports do not hold the pile, in terms of the spring tables. `C72_unheld` and `C72_solve_unheld` (all element types and springs, from `Model.solve()`): a direction with neither springs nor supports never gives numbers. Violated for rotational springs along Timoshenko elements, whose matrix is not that of the theory (C18): for any lateral springs there is a rotational stiffness with which the equations of a clamped pile are singular (C72_violated_timoshenko). Later passes use tangent stiffnesses, which vanish on plateaus: C72_pass_partial (no rotational springs along the shaft) is the same equivalence for every later pass in terms of the springs that still pick up resistance at the displacements reached; C72_later_partial: NaN means that the pile is free from the outset, or that 100 passes did not converge, or that the pile became free on plateaus (C72_plateau: it happens); C72_supported_partial: a pile held by its supports ends with NaN only after 100 passes. With Euler-Bernoulli elements C72_later_euler and C72_supported_euler say the same with rotational springs along the shaft whose tables start with a positive rotation (they can only help). Not covered: which rotational springs still act in later passes, and Timoshenko elements with such springs.'),
'C73': ('partial', 'True exactly if `x2mesh` and both axial switches are given (`C73_same_iff_partial`). The code violates the property otherwise: without `x2mesh` the method raises (`C73_violated_x2mesh`: its default is a pydantic `FieldInfo`), and with the axial switches omitted it leaves out the axial springs, so that `solve()` never returns numbers unless the pile is held axially (`C73_violated_axial`), while the class gets through its first pass with the same springs (`C73_violated_springs`).'),
'C74': ('partial', 'Proved with the factor by which the displacement varies within an element (`C74_axial_partial`, `C74_lateral_partial`; factor one for a rigid translation). Without it the property is violated: a sliding element carries more than its strength unless both ends move equally (`C74_violated_sliding`, because secants are interpolated rather than resistances), and a displacement-controlled analysis returns any multiple of the capacity (`C74_violated_pull`). C74_tables_axial_partial, C74_tables_lateral_partial, C74_pull_partial, C74_pull_model_partial: the same from the listed displacements; a pull on a pile whose tip is not pushed down is bounded by the shaft alone.'),
'C75': ('partial', 'Proved for all sessions in which no boundary condition object is used by two Models, for every solve before which no lateral or axial spring table of the Model was looked up (C75_solve_partial, C75_created_partial); C75_history_partial gives the state after any looks. The full statement is false: two Models created with the same boundary condition object share what is set on it (C75_violated_shared), and every look at the axial springs changes the reaction reported by the next analysis (C75_violated_look).'),
'C76': ('partial', 'Proved: exactly which accepted profiles can be printed; texts coincide only for models of one class or for the two pairs below; axial models are read back from their text (class, plugging, every factor, each mentioned exactly if it is not the default) if numbers are written distinctly, and loading, rotational springs and strength of the API lateral models. Violated: a stiffness given as two values or as a function cannot be printed in PISA layers, functions as axial multipliers are accepted but neither printed nor usable, Bothkennar clay prints as Cowden clay (with different springs), custom clay prints as custom sand, the friction inside the pile in sand is not shown. Multipliers of lateral models are not shown either (C76_not_shown).'),
'C77': ('partial', 'Proved for arrows, markers, window and diagram limits whenever the plot is drawn, with the exact condition for the exception. Violated: a model loaded by moments only cannot be plotted, the arrow style is read before it is assigned (graphics.py 246).'),
'C78': ('partial', 'Proved for the element type and the material, for Models without soil before the first use, and for switches turned off. Violated: a soil given later raises always; a finer mesh raises before the first analysis (elements cached at creation, nodes not) and is ignored after it, as is another soil; switches turned on change nothing because the springs are not computed.'),
'C79': ('proved', 'C79_modulus is at the level of solve() and its tables; C79_unit_beam and C79_unit_soil are before the loads are cut to integers (C14) and before reactions below 0.001 kN are dropped from the reaction table, both of which do depend on the unit. Exact arithmetic; spring tables are arbitrary.'),
'C80': ('proved', 'C80_tables and C80_model are about the tables of solve() without soil; C80_determinate compares two of them; C80_soil and C80_above_ground are about converged runs of the iteration, with section forces computed from the reported displacements as in the result, before rounding in the tables.'),
'C81': ('partial', "C81_euler_bernoulli is the full statement for Euler-Bernoulli elements. C81_tables_partial and C81_model_partial (from the public calls) hold for both types of elements with the shear flexibility k/(G A) that the code has; C81_solution is about the solver alone. C81_violated_timoshenko: with the shear flexibility 1/(k G A) of Timoshenko's theory the statement fails for every ordinary material, pile, mesh and lateral load: every listed displacement above the tip is too small (C17). No other node may lie within the tolerance of set_support of the tip (about 1 mm). Loads are whole numbers because global_forces drops decimals (C14)."),
'C82': ('partial', 'C82_tables holds for any two piles of which the second is nowhere less stiff along, in bending and in shear as the code has it; C82_deflection is the case of one lateral load. C82_larger_partial derives the stiffness from diameters, walls, moduli and calls; it is complete for Euler-Bernoulli elements with walls up to the radius, and for Timoshenko elements needs walls of at most a fifth of the diameter where the tube changes. C82_violated_timoshenko: because the shear coefficient multiplies (C17), for every material, diameter and length some hollow cantilever deflects less than the solid one, on every mesh. C82_violated_thick_wall: walls thicker than the radius are accepted, and then every further thickening makes the pile softer.'),
'C83': ('partial', "Proved for api_clay, matlock_1970 and modified_Matlock under static loading, for api_sand with a given modulus (both kinds of loading) and with the default modulus above water from 15 degrees and below water from 24 degrees, for all t-z and Q-z curves of API, and for the PISA curves of the clays, Dunkirk sand (p-y, base shear, base moment) and the custom curves while the points of the conic are 0.01 apart (closer points are rounded up by the code). Weak rock: C83_rock_partial away from the end of the elastic part (there up to a factor B^(-1/4000)), C83_rock_rising for tables that rise. Kraft curves: without loss of friction and up to the peak. C83_violated_cyclic: near the surface a stronger clay has less residual cyclic resistance whenever (3D+JX)JX Su Su' < (sig D)^2. C83_violated_modulus, C83_violated_sand: below water the default modulus falls from 27.8 to 5.4 MN/m3 between 15 and 24 degrees, so a looser sand is stiffer. C83_violated_surface: a vanishing stress is replaced by 1 Pa, so that more stress gives less shaft friction. C83_violated_rock: the exponent 1.333 in place of 4/3 makes fine tables drop at the end of the elastic part, where a stronger rock resists less. C83_violated_kraft: with a loss of friction a larger shear modulus brings the peak forward, so the residual friction is reached earlier. C83_mt_dunkirk_partial, C83_mt_dunkirk_deep: distributed moment of Dunkirk sand where the shear modulus grows at least as fast as the stress, or the normalised ultimate moment is below 0.17. C83_violated_rotation: with the same shear modulus, two to ten times the stress lowers the moment at some rotation, since points within 0.01 of the ultimate rotation are put on the plateau."),
'C84': ('partial', "C84_tables_partial, C84_same_pile_partial, C84_deflection_partial: proved for all p-y, t-z and base tables whatever their shape (their stiffnesses are taken as absolute values), with both element types; rotational springs along the shaft with Euler-Bernoulli elements and tables whose second rotation is positive. C84_default_partial: any switches and element types where no layer has rotational springs. C84_violated_timoshenko: with Timoshenko elements the overwritten area (C18) makes the energy of rotational springs negative; for a solid pile of 3 m diameter, every rotational stiffness up to 100 MNm/m lets some loads do more work than without soil (shown for the solver on the code's matrices, not from the tables)."),
'C85': ('partial', 'C85_tables_partial and C85_calls_partial: proved without soil for every non-zero displacement. C85_soil_partial and C85_soil_calls_partial: the same with soil, when the first analysis ends with a zero residual and every spring on its first branch; mobilised springs agree too. Partial: a prescribed displacement of zero is ignored by the code (apply_bc skips falsy values and beam takes U != 0 as the support), so the node is left free and the tables differ (C85_violated_zero); with soil, rotational springs along the shaft only with Euler-Bernoulli elements. C85_default_partial: both switches on, both element types, tables without rotations; C85_model_default_partial from the Model (its example is given on tables).'),
'C86': ('partial', 'C86_ix and C86_solve (refinement of the list program to the solver all other theorems use) for at most 2^31 entries, hence up to 15446 nodes (C86_pile_partial). Beyond that positions overflow: entries are silently replaced by others further up (C86_violated_entry), and with 15447 nodes the solver raises for every pile, soil and load with a support and a free rotation of the tip (C86_violated_nodes).'),
'C87': ('partial', 'C87_reported (what is printed, for all arrays), C87_silent_partial (usual models: no warning, whatever the mesh; no lateral model needed in a layer) and C87_warns_slender (Cowden clay between 6.1 and 14.7 diameters below ground: m-t always reported). Axial springs are never checked: sand with an interface angle between 90 and 180 degrees gives friction in the direction of movement without a message (C87_violated_axial). Not covered: NaN values, which are `none` in the model (no Model is created).'),
'C88': ('partial', 'C88_along (exact rows of every table along the pile, for any springs) and C88_model (for the mesh of every Model). C88_base_partial: base springs are listed at the elevation of the tip with resistance before displacement. Violated by the node number of the base springs: it is one too large, no node has it, for every Model (C88_violated_base, C88_violated_model).'),
'C89': ('partial', 'C89_layers holds for every accepted profile, with layers that meet only within 1 mm cut by at most 1 mm for each layer; C89_column gives the full column where layers meet exactly; C89_water says exactly when the water line is shown; C89_violated_water: a water line below the profile is accepted and not shown.'),
'C90': ('partial', 'Proved for all Models whose layers are not Modified_Matlock_clay (C90_reproducible_partial). The code violates the rest: C90_violated_modified (springs of Modified_Matlock_clay depend on the draws), C90_violated_tables (tables of api_clay have different points).'),
'C91': ('partial', 'Proved for layers that meet exactly, elevations in multiples of 0.1 mm and a Model that can be created (`Weight.Setup`): mesh, stresses, springs, weights, capacities, results. The random points of the curves are the same for both Models (`C91_analysis_partial`), or arbitrary where C90 holds (`C91_any_draws_partial`). Missing: layers that meet within 1 mm only; a Model that raises when the layer is cut but not before cannot exist, the converse (raises before, not after) is left open.'),
'C92': ('partial', 'The pile quantities (C92_pile), the mesh (C92_mesh, C92_node), beam analyses (C92_beam, C92_beam_node, C92_beam_any) and weights (C92_weights) are proved for every pile. With springs the claim holds if no section of another diameter lies directly above the one that is cut (C92_soil_partial, C92_soil_node), or for every sort order if the pile has one diameter (C92_one_diameter). The code violates it otherwise: C92_violated_shaft shows that for every pile in clay with a wider section below a narrower one, cutting the wider one strictly raises the reported shaft resistance, because the element below the joint of two diameters takes the diameter of the section above (see C09). The general claim for joints closer than the rounding of the mesh is left out.'),
'C93': ('proved', 'C93_submerged and C93_weights are the statement for water above ground; C93_same_side and C93_dry are the general form. No restriction on pile, layers or mesh.'),
'C94': ('partial', 'C94_mesh, C94_stresses and C94_weights hold for all profiles of Weight.Setup; C94_results_partial needs base parameters that are not functions of depth in the layers that reach the tip. The code violates the rest: C94_violated_base shows for every custom PISA clay at the tip whose ultimate base shear is a function of depth that the base spring differs whenever the function differs at the bottoms of the two profiles.'),
'C95': ('partial', 'Without soil: equality of the tables of displacements, section forces and reactions from the node downwards, on any mesh (C95_tables) and on the mesh of the Model (C95_model), for loads as stored by the Model. With soil: equality of displacements, section forces and reactions if both analyses converge after the same number of iterations (C95_soil_partial). Violated otherwise: loads without resultant enlarge the tolerance, so that the iteration ends one step earlier with other displacements below (C95_violated_iterations). Violated for moments that are not whole numbers, which the Model truncates (C95_violated_truncation).'),
'C96': ('proved', 'C96_nodes: points of deflection and settlement; C96_between: diagrams of section forces at every elevation; C96_range: limits of the axes. Lines, labels and limits are modelled; fonts, colours and tick labels are not.'),
'C97': ('proved', 'C97_beam without soil, C97_soil with soil.'),
'C98': ('partial', 'Stresses and weights for every pile, profile and mesh; capacities under the hypotheses of C56; clay springs static and cyclic; sand springs with a given modulus, or with the default modulus from 24 to 28 and from 30 degrees. Violated: sand of 15 to 23 degrees with the default modulus is stiffer once submerged, however much stress it loses (C98_violated_modulus).'),
'C99': ('partial', 'C99_model: from the public calls, without soil, tables included. C99_soil_model: from the public calls with soil (springs and all tables), provided the table of element properties gives the elements below ground the same diameters. C99_soil_stable: that holds for rows sorted stably if the section right above has the diameter of the old topmost section or that section ends above ground. C99_soil_one_diameter: it holds for one diameter however the rows are sorted. C99_violated_friction: otherwise the code violates it; a wider stub in the air scales the shaft friction of the old topmost section. C99_tables, C99_soil_tables: the same on given meshes and springs. C99_soil: on the vectors of winkler(). The random draws inside the springs are taken to belong to the elements.'),
}
