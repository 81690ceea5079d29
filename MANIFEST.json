{
 "claims": [
  {
   "property": "C01",
   "status": "partial",
   "theorems": [
    "OpenPile.Props.Pile.C01_accepted_iff",
    "OpenPile.Props.Pile.C01_area_sum",
    "OpenPile.Props.Pile.C01_positive_iff",
    "OpenPile.Props.Pile.C01_physical_partial",
    "OpenPile.Props.Pile.C01_violated_negative_area",
    "OpenPile.Props.Pile.C01_violated_negative_perimeter"
   ],
   "note": "Acceptance, area split and the exact positivity condition are proved; the thickness of an accepted section is not bounded by the radius, so the physical claim fails (C01_violated_*) and holds when thickness is at most half the diameter (C01_physical_partial)."
  },
  {
   "property": "C02",
   "status": "proved",
   "theorems": [
    "OpenPile.Props.Pile.C02_accepted_iff",
    "OpenPile.Props.Pile.C02_rejection",
    "OpenPile.Props.Pile.C02_accepted_geometry",
    "OpenPile.Props.Pile.C02_order_irrelevant"
   ],
   "note": "Acceptance iff contiguous after sorting, geometry of accepted piles, order irrelevance."
  },
  {
   "property": "C03",
   "status": "proved",
   "theorems": [
    "OpenPile.Props.Pile.C03_totals",
    "OpenPile.Props.Pile.C03_split",
    "OpenPile.Props.Pile.C03_tubular"
   ],
   "note": "Sums, split invariance, tubular constructor."
  },
  {
   "property": "C04",
   "status": "proved",
   "theorems": [
    "OpenPile.Props.Soil.C04_accepted_iff",
    "OpenPile.Props.Soil.C04_no_gap_no_overlap",
    "OpenPile.Props.Soil.C04_bottom_elevation"
   ],
   "note": "Acceptance iff, no gap/overlap beyond the tolerance, bottom elevation drift."
  },
  {
   "property": "C05",
   "status": "proved",
   "theorems": [
    "OpenPile.Props.Mesh.C05_exact_nodes",
    "OpenPile.Props.Mesh.C05_published_nodes"
   ],
   "note": "Exact mesh contains every required elevation; the published mesh does up to 0.05 mm (exactly on the 0.1 mm grid)."
  },
  {
   "property": "C06",
   "status": "proved",
   "theorems": [
    "OpenPile.Props.Mesh.C06_loop_terminates",
    "OpenPile.Props.Mesh.C06_loop_fuel_irrelevant",
    "OpenPile.Props.Mesh.C06_element_lengths"
   ],
   "note": "Termination, least equal division, element length bound for the exact mesh."
  },
  {
   "property": "C07",
   "status": "partial",
   "theorems": [
    "OpenPile.Props.Mesh.C07_close_and_ordered",
    "OpenPile.Props.Mesh.C07_no_merge_partial",
    "OpenPile.Props.Mesh.C07_violated_merge"
   ],
   "note": "Closeness and order proved; distinctness only if required elevations are separated (C07_no_merge_partial), violated otherwise (C07_violated_merge)."
  },
  {
   "property": "C08",
   "status": "partial",
   "theorems": [
    "OpenPile.Props.Mesh.C08_no_straddle",
    "OpenPile.Props.Mesh.C08_one_section_partial",
    "OpenPile.Props.Mesh.C08_one_layer_partial",
    "OpenPile.Props.Mesh.C08_violated_rounding",
    "OpenPile.Props.Mesh.C08_violated_layer_rounding",
    "OpenPile.Props.Mesh.C08_loop",
    "OpenPile.Props.Mesh.C08_parameters_partial"
   ],
   "note": "No straddling proved for the exact mesh; unique section/layer selection, and with it the arrays of element parameters (filled in a loop over the sections), proved when required elevations are multiples of 0.1 mm, violated otherwise."
  },
  {
   "property": "C09",
   "status": "partial",
   "theorems": [
    "OpenPile.Props.Model.C09_own_or_above",
    "OpenPile.Props.Model.C09_one_section_partial",
    "OpenPile.Props.Model.C09_lower_first_partial",
    "OpenPile.Props.Model.C09_violated_stable",
    "OpenPile.Props.Model.C09_violated_example"
   ],
   "note": "Own or above section in general; own section for one-section piles or when ties put the lower section first; with the stable order every element of a lower section gets the properties of the section above (C09_violated_stable)."
  },
  {
   "property": "C10",
   "status": "partial",
   "theorems": [
    "OpenPile.Props.Model.C10_exact_partial",
    "OpenPile.Props.Model.C10_snapped_water_line",
    "OpenPile.Props.Model.C10_monotone",
    "OpenPile.Props.Model.C10_nonneg",
    "OpenPile.Props.Model.C10_violated_water_line",
    "OpenPile.Props.Model.C10_violated_ground_off_grid"
   ],
   "note": "Exact when the water line is not inside an element; in general exact for a water line lowered by at most one element. Violated for water line inside an element and for off-grid ground level."
  },
  {
   "property": "C11",
   "status": "partial",
   "theorems": [
    "OpenPile.Props.Soil.C11_single_layer_partial",
    "OpenPile.Props.Soil.C11_violated_second_layer",
    "OpenPile.Props.Soil.C11_violated_dry_layer",
    "OpenPile.Props.Soil.C11_violated_no_layers"
   ],
   "note": "The code returns after the first layer; proved for a single submerged layer, violated otherwise."
  },
  {
   "property": "C12",
   "status": "proved",
   "theorems": [
    "OpenPile.Props.BC.C12_last_write_wins",
    "OpenPile.Props.BC.C12_isolated",
    "OpenPile.Props.BC.C12_overwrites_existing",
    "OpenPile.Props.BC.C12_at_most_one"
   ],
   "note": "Refinement to a last-write-wins specification over all call histories, plus isolation of kinds/elevations."
  },
  {
   "property": "C13",
   "status": "proved",
   "theorems": [
    "OpenPile.Props.BC.C13_raises_iff_conflict",
    "OpenPile.Props.BC.C13_flags_exact",
    "OpenPile.Props.BC.C13_histories_never_raise"
   ],
   "note": "Exact characterisation of when validate_bc raises and that call histories never do."
  },
  {
   "property": "C14",
   "status": "partial",
   "theorems": [
    "OpenPile.Props.BC.C14_node_choice",
    "OpenPile.Props.BC.C14_nodal_value",
    "OpenPile.Props.BC.C14_history_value",
    "OpenPile.Props.BC.C14_displacement_exact",
    "OpenPile.Props.BC.C14_support_exact",
    "OpenPile.Props.BC.C14_load_partial",
    "OpenPile.Props.BC.C14_violated_fractional_load",
    "OpenPile.Props.BC.C14_violated_falsy_not_written"
   ],
   "note": "Node choice, displacements and supports proved; loads are truncated to integers by the code (C14_violated_fractional_load) so the load part holds only up to truncation."
  },
  {
   "property": "C15",
   "status": "proved",
   "theorems": [
    "OpenPile.Props.Solve.C15_fails_iff",
    "OpenPile.Props.Solve.C15_solution"
   ],
   "note": "Equilibrium, supports, reactions, uniqueness, and failure exactly for a kernel field, for matrices over any field and any finite index set."
  },
  {
   "property": "C16",
   "status": "partial",
   "theorems": [
    "OpenPile.Props.Element.C16_symmetric",
    "OpenPile.Props.Element.C16_end_forces",
    "OpenPile.Props.Element.C16_energy",
    "OpenPile.Props.Element.C16_nonneg_partial",
    "OpenPile.Props.Element.C16_zero_iff_rigid_partial",
    "OpenPile.Props.Element.C16_timoshenko_le_euler",
    "OpenPile.Props.Element.C16_violated_auxetic"
   ],
   "note": "Symmetry and end-force equilibrium for all parameters; non-negativity and rigid kernel for nu >= -3/4 (all nu for Euler-Bernoulli); violated for accepted strongly auxetic materials with thick sections (C16_violated_auxetic)."
  },
  {
   "property": "C17",
   "status": "partial",
   "theorems": [
    "OpenPile.Props.Element.C17_phi_partial",
    "OpenPile.Props.Element.C17_cantilever_partial",
    "OpenPile.Props.Element.C17_violated",
    "OpenPile.Props.Element.C17_violated_trend"
   ],
   "note": "The code multiplies by the shear coefficient; the exact relation and the cantilever compliance are proved, the textbook claim is violated for every section with 0 <= nu <= 1/2."
  },
  {
   "property": "C18",
   "status": "partial",
   "theorems": [
    "OpenPile.Props.Element.C18_symmetric",
    "OpenPile.Props.Element.C18_nonneg",
    "OpenPile.Props.Element.C18_mt_nonneg_euler",
    "OpenPile.Props.Element.C18_mt_nonneg_timoshenko_partial",
    "OpenPile.Props.Element.C18_violated_mt",
    "OpenPile.Props.Element.C18_mt_rigid_euler",
    "OpenPile.Props.Element.C18_mt_rigid_timoshenko_partial",
    "OpenPile.Props.Element.C18_py_consistent",
    "OpenPile.Props.Element.C18_tz_consistent",
    "OpenPile.Props.Element.C18_mt_consistent_partial",
    "OpenPile.Props.Element.C18_violated_mt_gradient"
   ],
   "note": "Lateral and axial matrices equal the integrals for all stiffnesses; rotational matrix only for Euler-Bernoulli with constant stiffness; violated for a stiffness gradient and for Timoshenko elements, where the area variable is overwritten."
  },
  {
   "property": "C19",
   "status": "partial",
   "theorems": [
    "OpenPile.Props.Auxetic.C19_violated_auxetic",
    "OpenPile.Props.Beam.C19_energy",
    "OpenPile.Props.Beam.C19_banded",
    "OpenPile.Props.Beam.C19_symmetric",
    "OpenPile.Props.Beam.C19_nonneg_partial"
   ],
   "note": "Energy, symmetry, bandwidth for all inputs; non-negativity under the restrictions of C16 and C18. Full statement violated by accepted auxetic materials (C19_violated_auxetic)."
  },
  {
   "property": "C20",
   "status": "partial",
   "theorems": [
    "OpenPile.Props.Analysis.C20_tables",
    "OpenPile.Props.Auxetic.C20_violated_auxetic",
    "OpenPile.Props.Beam.C20_unique_partial",
    "OpenPile.Props.Beam.C20_beam_fails_iff",
    "OpenPile.Props.Beam.C20_beam_supports"
   ],
   "note": "Positive definiteness, solvability and uniqueness whenever supports and springs exclude rigid motions, exact support condition for a beam, also from boundary conditions and mesh to the tables (C20_tables); under the restrictions of C16 and C18. Full statement violated by accepted auxetic Timoshenko piles (C20_violated_auxetic)."
  },
  {
   "property": "C21",
   "status": "proved",
   "theorems": [
    "OpenPile.Props.Beam.C21_equilibrium",
    "OpenPile.Props.Reported.C21_tables",
    "OpenPile.Props.Reported.C21_model"
   ],
   "note": "Force and moment balance about any point of loads and reactions of every successful beam analysis. C21_tables and C21_model say the same of what the user reads, from the public calls: the nodal loads of global_forces and the rows of the reaction table balance up to the 1/1000 per node and component that the table masks."
  },
  {
   "property": "C22",
   "status": "proved",
   "theorems": [
    "OpenPile.Props.Beam.C22_element",
    "OpenPile.Props.Beam.C22_jumps",
    "OpenPile.Props.Beam.C22_jumps_soil",
    "OpenPile.Props.Reported.C22_tables",
    "OpenPile.Props.Reported.C22_model"
   ],
   "note": "Element equilibrium, nodal jumps for beam analyses and, with spring forces, for soil-supported piles. C22_tables and C22_model read this off the table of section forces: equal N and V in the two rows of an element, moment change V times length, and between the rows above and below a node a change equal to the load where nothing holds the node (load plus listed reaction up to 1/1000 elsewhere)."
  },
  {
   "property": "C23",
   "status": "proved",
   "theorems": [
    "OpenPile.Props.Reported.C23_tables",
    "OpenPile.Props.Reported.C23_scaled",
    "OpenPile.Props.Reported.C23_reciprocal_tables",
    "OpenPile.Props.Solve.C23_superposition",
    "OpenPile.Props.Solve.C23_reciprocity"
   ],
   "note": "Superposition, scaling and reciprocity for any successful pair of solutions; C23_tables, C23_scaled and C23_reciprocal_tables say the same of the listed displacements and section forces (reactions up to the masking of the table). Loads enter as whole numbers because the code stores them in integer columns, see C14."
  },
  {
   "property": "C24",
   "status": "partial",
   "theorems": [
    "OpenPile.Props.Spring.C24_nonneg",
    "OpenPile.Props.Spring.C24_direction",
    "OpenPile.Props.Spring.C24_secant",
    "OpenPile.Props.Spring.C24_tangent",
    "OpenPile.Props.Spring.C24_initial",
    "OpenPile.Props.Spring.C24_base",
    "OpenPile.Props.Spring.C24_mt_nonneg",
    "OpenPile.Props.Spring.C24_mt_row",
    "OpenPile.Props.Spring.C24_mt_secant",
    "OpenPile.Props.Spring.C24_mt_direction",
    "OpenPile.Props.Spring.C24_violated_mt_direction"
   ],
   "note": "Non-negativity, secant, tangent, initial slope and direction independence for p-y and base springs and all table lengths; rotational springs: non-negativity, curve selection and secant proved, direction independence violated because the mobilised lateral resistance enters with its sign (C24_violated_mt_direction)."
  },
  {
   "property": "C25",
   "status": "partial",
   "theorems": [
    "OpenPile.Props.Spring.C25_middle_iff",
    "OpenPile.Props.Spring.C25_secant_partial",
    "OpenPile.Props.Spring.C25_initial_partial",
    "OpenPile.Props.Spring.C25_tangent",
    "OpenPile.Props.Spring.C25_violated"
   ],
   "note": "Holds for table lengths 4k+3 (create_springs uses 15); violated for every length 4k+5 because Python rounds halves to even."
  },
  {
   "property": "C26",
   "status": "partial",
   "theorems": [
    "OpenPile.Props.Winkler.C26_converged",
    "OpenPile.Props.Winkler.C26_flagged_partial",
    "OpenPile.Props.Winkler.C26_capped",
    "OpenPile.Props.Winkler.C26_violated",
    "OpenPile.Props.Winkler.C26_violated_spring"
   ],
   "note": "Converged results, iteration bounds and prescribed displacements for every stiffness law; with max_iter >= 99 numbers are only returned after convergence; for every max_iter <= 98 unconverged numbers can be returned unmarked, and max_iter above 99 has no effect."
  },
  {
   "property": "C27",
   "status": "partial",
   "theorems": [
    "OpenPile.Props.Winkler.C27_no_support_partial",
    "OpenPile.Props.Winkler.C27_linear",
    "OpenPile.Props.Winkler.C27_violated"
   ],
   "note": "Proved without supports; with support reactions the tolerance counts them twice after two solves (C27_linear, C27_violated)."
  },
  {
   "property": "C28",
   "status": "partial",
   "theorems": [
    "OpenPile.Conic.C28_points",
    "OpenPile.Conic.C28_conic_partial",
    "OpenPile.Conic.C28_plateau",
    "OpenPile.Conic.C28_bounded",
    "OpenPile.Conic.C28_monotone",
    "OpenPile.Conic.C28_start_partial",
    "OpenPile.Conic.C28_defined_partial",
    "OpenPile.Conic.C28_defined_moderate",
    "OpenPile.Conic.C28_violated_start",
    "OpenPile.Conic.C28_violated_near",
    "OpenPile.Conic.C28_violated_division",
    "OpenPile.Conic.C28_exceptions"
   ],
   "note": "Number of points, conic equation, bounds, monotonicity and plateau are proved; existence needs a denominator that does not vanish (C28_violated_division gives a 0/0 case inside the admissible range; for every shape below one at most one initial stiffness per point of the curve is affected, C28_exceptions) and the start at zero fails when x_u is below the absolute tolerance 1/100 (C28_violated_start, C28_violated_near)."
  },
  {
   "property": "C29",
   "status": "partial",
   "theorems": [
    "OpenPile.Conic.C29_py_bothkennar_partial",
    "OpenPile.Conic.C29_py_cowden_partial",
    "OpenPile.Conic.C29_mt_bothkennar_partial",
    "OpenPile.Conic.C29_mt_cowden_partial",
    "OpenPile.Conic.C29_hb_bothkennar_partial",
    "OpenPile.Conic.C29_hb_cowden_partial",
    "OpenPile.Conic.C29_mb_bothkennar_partial",
    "OpenPile.Conic.C29_mb_cowden_partial",
    "OpenPile.Conic.C29_py_dunkirk",
    "OpenPile.Conic.C29_mt_dunkirk_partial",
    "OpenPile.Conic.C29_hb_dunkirk_partial",
    "OpenPile.Conic.C29_mb_dunkirk_partial",
    "OpenPile.Conic.C29_custom_partial",
    "OpenPile.Conic.C29_zero_scaling",
    "OpenPile.Conic.C29_violated_mt_bothkennar",
    "OpenPile.Conic.C29_violated_mt_cowden",
    "OpenPile.Conic.C29_violated_mt_dunkirk",
    "OpenPile.Conic.C29_violated_hb_dunkirk",
    "OpenPile.Conic.C29_violated_mb_dunkirk",
    "OpenPile.Conic.C29_shape_py_cowden_partial",
    "OpenPile.Conic.C29_shape_mt_cowden_partial",
    "OpenPile.Conic.C29_shape_hb_cowden_partial",
    "OpenPile.Conic.C29_shape_mb_cowden_partial",
    "OpenPile.Conic.C29_shape_py_bothkennar_partial",
    "OpenPile.Conic.C29_shape_mt_bothkennar_partial",
    "OpenPile.Conic.C29_shape_hb_bothkennar_partial",
    "OpenPile.Conic.C29_shape_mb_bothkennar_partial",
    "OpenPile.Conic.C29_shape_py_dunkirk",
    "OpenPile.Conic.C29_shape_mt_dunkirk",
    "OpenPile.Conic.C29_shape_hb_dunkirk_partial",
    "OpenPile.Conic.C29_shape_mb_dunkirk_partial",
    "OpenPile.Conic.C29_shape_custom"
   ],
   "note": "Every reaction curve is proved to be well formed on the depth range where its normalised parameters stay admissible, with scaling zero giving a zero curve; outside that range, which ordinary inputs reach, it fails (C29_violated_*: negative or near-zero ultimate values). On those ranges the C29_shape_* theorems also prove that every curve is the published conic (coefficients written out in Spec/Pisa.lean) with the scaling of its kind of spring on both axes; the Dunkirk p-y and m-t curves have it at every depth along the pile."
  },
  {
   "property": "C30",
   "status": "proved",
   "theorems": [
    "OpenPile.Lateral.C30_modulus",
    "OpenPile.Lateral.C30_curve",
    "OpenPile.Lateral.C30_ultimate",
    "OpenPile.Lateral.C30_initial_slope",
    "OpenPile.Lateral.C30_static_ge_cyclic",
    "OpenPile.Lateral.C30_factor",
    "OpenPile.Lateral.C30_default_end",
    "OpenPile.Lateral.C30_shallow_default",
    "OpenPile.Lateral.C30_negative_modulus"
   ],
   "note": "Length, origin, monotonicity, bounds, exact initial slope, static versus cyclic, modulus handling and the end of the default table, for 0 <= phi < 90; the ultimate resistance is shown equal to the published passive/active form. C30_shallow_default records that above 0.1 m depth the default table ends before the resistance is mobilised."
  },
  {
   "property": "C31",
   "status": "partial",
   "theorems": [
    "OpenPile.Lateral.C31_api_clay",
    "OpenPile.Lateral.C31_matlock",
    "OpenPile.Lateral.C31_modified_matlock",
    "OpenPile.Lateral.C31_static_jump",
    "OpenPile.Lateral.C31_cyclic_jump",
    "OpenPile.Lateral.C31_modified_jump",
    "OpenPile.Lateral.C31_api_clay_ymax_partial",
    "OpenPile.Lateral.C31_violated_ymax",
    "OpenPile.Lateral.C31_matlock_ymax_partial",
    "OpenPile.Lateral.C31_violated_ymax_matlock",
    "OpenPile.Lateral.C31_violated_zero_J"
   ],
   "note": "Length, origin, order, laws, bounds, monotone static curve, jumps are proved for every draw; staying within ymax holds for the default or ymax >= 15 y50 (8 y50 for Matlock), and fails for smaller values (C31_violated_*). J = 0 with zero stress divides by zero."
  },
  {
   "property": "C32",
   "status": "proved",
   "theorems": [
    "OpenPile.Lateral.C32_modulus",
    "OpenPile.Lateral.C32_rqd_clamped",
    "OpenPile.Lateral.C32_curve",
    "OpenPile.Lateral.C32_law",
    "OpenPile.Lateral.C32_elastic"
   ],
   "note": "Length, origin, order, law, bounds, end at the ultimate resistance, RQD clamp and modulus cap."
  },
  {
   "property": "C33",
   "status": "partial",
   "theorems": [
    "OpenPile.Props.Axial.C33_backbone_clay",
    "OpenPile.Props.Axial.C33_backbone_sand",
    "OpenPile.Props.Axial.C33_backbone_tip",
    "OpenPile.Props.Axial.C33_tz_clay",
    "OpenPile.Props.Axial.C33_tz_clay_bounds",
    "OpenPile.Props.Axial.C33_tz_sand",
    "OpenPile.Props.Axial.C33_violated_sand_length",
    "OpenPile.Props.Axial.C33_qz_clay",
    "OpenPile.Props.Axial.C33_qz_sand"
   ],
   "note": "Proved for every length, factor and random draw, and any argsort: the backbone curves pass through the API points, have sorted displacements, and interpolate exactly like the API polygon; actual curves are this polygon scaled by D and the unit resistance; bounds, origin, and monotonicity up to the peak. Violated part: lengths below 15 are not honoured (C33_violated_sand_length)."
  },
  {
   "property": "C34",
   "status": "partial",
   "theorems": [
    "OpenPile.Props.Kraft.C34_length",
    "OpenPile.Props.Kraft.C34_violated_length",
    "OpenPile.Props.Kraft.C34_shape",
    "OpenPile.Props.Kraft.C34_violated_zero_friction"
   ],
   "note": "Shape (odd symmetry, peak bound, hyperbolic law) proved; the returned length is proved to be the requested one only for the lengths of C34_length and to differ otherwise (C34_violated_length); zero friction gives no curve (C34_violated_zero_friction)."
  },
  {
   "property": "C35",
   "status": "partial",
   "theorems": [
    "OpenPile.Props.Friction.C35_clay_law",
    "OpenPile.Props.Friction.C35_adhesion",
    "OpenPile.Props.Friction.C35_clay_bounds",
    "OpenPile.Props.Friction.C35_clay_adhesion_antitone",
    "OpenPile.Props.Friction.C35_clay_ratio",
    "OpenPile.Props.Friction.C35_clay_continuous",
    "OpenPile.Props.Friction.C35_clay_stress_partial",
    "OpenPile.Props.Friction.C35_clay_strength",
    "OpenPile.Props.Friction.C35_violated_zero_stress",
    "OpenPile.Props.Friction.C35_sand_law",
    "OpenPile.Props.Friction.C35_bearing_law",
    "OpenPile.Props.Friction.C35_sand_total",
    "OpenPile.Props.Friction.C35_bearing_total",
    "OpenPile.Props.Friction.C35_sand_bounds_partial",
    "OpenPile.Props.Friction.C35_sand_mono",
    "OpenPile.Props.Friction.C35_violated_negative_friction",
    "OpenPile.Props.Friction.C35_bearing_bounds",
    "OpenPile.Props.Friction.C35_bearing_mono"
   ],
   "note": "Friction laws, bounds, continuity and monotonicity proved over the reals. Violated: clay friction at zero stress exceeds the friction at smaller positive stresses, sand friction is negative for interface angles between 90 and 180 degrees, which a scalar delta admits."
  },
  {
   "property": "C36",
   "status": "partial",
   "theorems": [
    "OpenPile.Props.Assemble.C36_violated_circumference",
    "OpenPile.Props.AxialModel.C36_clay_partial",
    "OpenPile.Props.AxialModel.C36_violated_alpha_limit",
    "OpenPile.Props.AxialModel.C36_violated_clay_tension",
    "OpenPile.Props.AxialModel.C36_clay_tip",
    "OpenPile.Props.AxialModel.C36_sand_partial",
    "OpenPile.Props.AxialModel.C36_violated_sand_tension",
    "OpenPile.Props.AxialModel.C36_violated_inside_friction",
    "OpenPile.Props.AxialModel.C36_sand_tip"
   ],
   "note": "Capacity of the t-z and Q-z springs proved equal to unit resistance times contact area where alpha_limit does not govern and without a plug in tension. Violated: alpha_limit never reaches the spring; with a plug in tension the inner circumference is used; inside_friction is not used by the springs; create_springs passes the outer perimeter as inner perimeter, so an open pile counts it twice (C36_violated_circumference)."
  },
  {
   "property": "C37",
   "status": "partial",
   "theorems": [
    "OpenPile.Props.Hooks.C37_multiplier",
    "OpenPile.Props.Hooks.C37_zero_diameter",
    "OpenPile.Props.Hooks.C37_static",
    "OpenPile.Props.Hooks.C37_ra_mono",
    "OpenPile.Props.Hooks.C37_deep",
    "OpenPile.Props.Hooks.C37_violated_default",
    "OpenPile.Props.Hooks.C37_violated_static"
   ],
   "note": "Lower bound one, reciprocity and the static API factor for ra=1 hold at every depth (C37_multiplier, C37_static), plus order in ra and neutrality at depth. But ra=0.3, documented as neutral, is not (C37_violated_default), and multiplying a cyclic curve by the ra=1 factor does not give the static curve because the initial stiffness is scaled too (C37_violated_static)."
  },
  {
   "property": "C38",
   "status": "partial",
   "theorems": [
    "OpenPile.Props.Custom.C38_dunkirk_partial",
    "OpenPile.Props.Custom.C38_cowden_partial",
    "OpenPile.Props.Custom.C38_violated_mt"
   ],
   "note": "All four springs of Dunkirk sand along the whole pile (base springs up to L/D=6) and of Cowden clay on stated depth ranges are reproduced exactly, errors included. Below 6.1 diameters the Cowden m-t springs differ because only the hooks are clamped (C38_violated_mt)."
  },
  {
   "property": "C39",
   "status": "partial",
   "theorems": [
    "OpenPile.Props.Layer.C39_ends",
    "OpenPile.Props.Layer.C39_between",
    "OpenPile.Props.Layer.C39_linear",
    "OpenPile.Props.Layer.C39_constant",
    "OpenPile.Props.Layer.C39_rejected_values",
    "OpenPile.Props.Layer.C39_local",
    "OpenPile.Props.Layer.C39_local_custom",
    "OpenPile.Props.Layer.C39_rejected",
    "OpenPile.Props.Layer.C39_violated_axial"
   ],
   "note": "Ends, linearity, bounds, constants, rejected values, locality of every spring of every lateral model and rejection below the layer are proved. The axial models have no such check and extrapolate (C39_violated_axial)."
  },
  {
   "property": "C40",
   "status": "partial",
   "theorems": [
    "OpenPile.Props.Layer.C40_py",
    "OpenPile.Props.Layer.C40_neutral",
    "OpenPile.Props.Layer.C40_mt",
    "OpenPile.Props.Layer.C40_base",
    "OpenPile.Props.Layer.C40_mt_api",
    "OpenPile.Props.Layer.C40_violated_mt_api",
    "OpenPile.Props.Layer.C40_violated_validation"
   ],
   "note": "Each multiplier scales its own axis of its own spring for every model, one is neutral against the curve of the literature, base springs are untouched. No multiplier function is ever rejected (C40_violated_validation), and a p-multiplier of zero in API sand removes the m-t springs too (C40_violated_mt_api)."
  },
  {
   "property": "C41",
   "status": "partial",
   "theorems": [
    "OpenPile.Props.Extract.C41_violated_history",
    "OpenPile.Props.Extract.C41_readonly_partial",
    "OpenPile.Props.Extract.C41_tables_partial",
    "OpenPile.Props.Extract.C41_violated_repeat",
    "OpenPile.Props.Extract.C41_violated_rotational",
    "OpenPile.Props.Extract.C41_base_partial",
    "OpenPile.Props.Extract.C41_rotational_partial",
    "OpenPile.Props.Extract.C41_violated_capacity"
   ],
   "note": "Violated. Proved for every history of get_* calls: p-y (t-z) resistances are multiplied by the influence length of their node once per lateral (axial) table (C41_violated_history), every repeated lateral table differs from the first one unless the head element is 2 m long or its spring is zero (C41_violated_repeat), and looking at the axial springs lowers the shaft resistance on every mesh finer than one metre (C41_violated_capacity); the distributed rotational table always raises (C41_violated_rotational). Proved part: m-t springs, base springs and all displacements are never changed, and their tables are the same after any history. float32 storage is not modelled."
  },
  {
   "property": "C42",
   "status": "partial",
   "theorems": [
    "OpenPile.Props.Extract.C42_influence",
    "OpenPile.Props.Extract.C42_tributary",
    "OpenPile.Props.Extract.C42_distributed_partial",
    "OpenPile.Props.Extract.C42_violated_lumped",
    "OpenPile.Props.Extract.C42_violated_distributed",
    "OpenPile.Props.Extract.C42_continuous_partial",
    "OpenPile.Props.Extract.C42_interface",
    "OpenPile.Props.Extract.C42_interface_partial",
    "OpenPile.Props.Extract.C42_violated_interface"
   ],
   "note": "Tributary lengths are those of the nodes and sum to the pile length on every mesh (C42_influence, C42_tributary). Violated by the lumped table: in uniform soil every inner row, resistance and displacement, is multiplied by the sum of two neighbouring tributary lengths (C42_violated_lumped). The \"distributed\" table is the correct lumped table in uniform soil (C42_distributed_partial) and hence not per metre (C42_violated_distributed). With resistances that vary with depth it sums to their integral (C42_continuous_partial). Where they jump at a layer boundary C42_interface is the exact condition: met on meshes of equal elements from the second node on (C42_interface_partial), violated at the first node below the head on every such mesh (C42_violated_interface)."
  },
  {
   "property": "C43",
   "status": "partial",
   "theorems": [
    "OpenPile.Props.Result.C43_repeat_inner",
    "OpenPile.Props.Result.C43_stacked_array",
    "OpenPile.Props.Result.C43_stacked_kernel",
    "OpenPile.Props.Result.C43_double_inner_partial",
    "OpenPile.Props.Result.C43_violated",
    "OpenPile.Props.Result.C43_mob_rows_partial",
    "OpenPile.Props.Result.C43_displacements",
    "OpenPile.Props.Result.C43_reactions",
    "OpenPile.Props.Result.C43_forces"
   ],
   "note": "Displacement, reaction and section force tables and the stacked array are aligned for all meshes; the mobilisation table of every analysis misses the pile tip because double_inner_njit repeats the last but one node."
  },
  {
   "property": "C44",
   "status": "partial",
   "theorems": [
    "OpenPile.Props.Extract.C44_uniform_partial",
    "OpenPile.Props.Extract.C44_violated_embedment",
    "OpenPile.Props.Extract.C44_constant_partial"
   ],
   "note": "Exact trapezoidal integral of arbitrary limits on meshes of equal elements (C44_uniform_partial) and exact friction times length for constant friction along the whole pile on every mesh (C44_constant_partial). Violated for partially embedded piles: the error is friction times a quarter of the difference of the element lengths above and below ground (C44_violated_embedment)."
  },
  {
   "property": "C45",
   "status": "partial",
   "theorems": [
    "OpenPile.Props.Weight.C45_pile_snapped",
    "OpenPile.Props.Weight.C45_pile_exact_partial",
    "OpenPile.Props.Weight.C45_pile_bounds",
    "OpenPile.Props.Weight.C45_violated_water_line",
    "OpenPile.Props.Weight.C45_soil_snapped",
    "OpenPile.Props.Weight.C45_soil_bounds",
    "OpenPile.Props.Weight.C45_violated_head_below_ground"
   ],
   "note": "For piles whose head is not below ground, exactly meeting layers and elevations on the 0.1 mm grid: effective pile weight and soil plug weight are exact for a water line lowered by at most one element (C45_pile_snapped, C45_soil_snapped), exact if no element is cut by the water line, and within the stated bounds for every water line (C45_pile_bounds, C45_soil_bounds). Violated: every element cut by the water line adds 10 kN/m3 times the volume of its wet part (C45_violated_water_line); NaN whenever the pile head is below ground (C45_violated_head_below_ground). Missing: layers meeting only within the 1 mm tolerance and off-grid elevations."
  },
  {
   "property": "C46",
   "status": "proved",
   "theorems": [
    "OpenPile.Props.Model.C46_accepted_without_soil",
    "OpenPile.Props.Model.C46_accepted_with_soil",
    "OpenPile.Props.Model.C46_five_elements",
    "OpenPile.Props.Winkler.C46_solve"
   ],
   "note": "Acceptance, five-element bound, dispatch of solve."
  },
  {
   "property": "C47",
   "status": "partial",
   "theorems": [
    "OpenPile.Props.Assemble.C47_hb_partial",
    "OpenPile.Props.Assemble.C47_mb_partial",
    "OpenPile.Props.Assemble.C47_qz",
    "OpenPile.Props.Assemble.C47_other_layers",
    "OpenPile.Props.Assemble.C47_at_tip_partial",
    "OpenPile.Props.Assemble.C47_violated_depth"
   ],
   "note": "Hb, Mb and Q-z springs come from the one layer containing the last element, for stress, width and position of the tip; other layers, in particular the one below a tip on a boundary, have no effect (C47_other_layers), nor has the layer order (C54_order). Holds for lateral models whose base parameters are not functions of depth (C47_at_tip_partial); functions are evaluated at the bottom of the soil profile instead of the tip (C47_violated_depth)."
  },
  {
   "property": "C48",
   "status": "partial",
   "theorems": [
    "OpenPile.Props.Hooks.C48_api",
    "OpenPile.Props.Hooks.C48_kallehave",
    "OpenPile.Props.Hooks.C48_kallehave_reference",
    "OpenPile.Props.Hooks.C48_kallehave_ground",
    "OpenPile.Props.Hooks.C48_sorensen",
    "OpenPile.Props.Hooks.C48_violated_sorensen",
    "OpenPile.Props.Hooks.C48_used",
    "OpenPile.Props.Hooks.C48_violated_ignored"
   ],
   "note": "API modulus at least 5400, Kallehave positive and increasing with depth and diameter, the modulus in force is the one the p-y curve uses (C48_used). The Sorensen modulus decreases with depth (C48_violated_sorensen; its k*X increases, C48_sorensen), and a modulus given together with a modification is ignored (C48_violated_ignored). Kallehave is zero at ground level and then replaced by API."
  },
  {
   "property": "C49",
   "status": "partial",
   "theorems": [
    "OpenPile.Props.Result.C49_lateral",
    "OpenPile.Props.Result.C49_rotational_partial",
    "OpenPile.Props.Result.C49_base_partial",
    "OpenPile.Props.Result.C49_violated_base",
    "OpenPile.Props.Result.C49_violated_mt"
   ],
   "note": "Lateral springs for all tables with non-negative resistances; rotational springs if the last row is the strongest; base springs are bounded but the reported maximum may be a displacement (C49_violated_base)."
  },
  {
   "property": "C50",
   "status": "proved",
   "theorems": [
    "OpenPile.Props.Pile.C50_material",
    "OpenPile.Props.Pile.C50_shear_unbounded",
    "OpenPile.Props.Pile.C50_predefined"
   ],
   "note": ""
  },
  {
   "property": "C51",
   "status": "partial",
   "theorems": [
    "OpenPile.Props.Mesh.C51_spans_pile_partial",
    "OpenPile.Props.Mesh.C51_violated_head_below_ground"
   ],
   "note": "Holds when soil and extra elevations stay within the pile; violated when the pile head is below ground."
  },
  {
   "property": "C52",
   "status": "partial",
   "theorems": [
    "OpenPile.Props.Winkler.C52_own_node_partial",
    "OpenPile.Props.Winkler.C52_violated",
    "OpenPile.Props.Winkler.C52_violated_tip"
   ],
   "note": "All springs except the bottom of the last element; that one always sees the displacement of the node above."
  },
  {
   "property": "C53",
   "status": "proved",
   "theorems": [
    "OpenPile.Props.SoilStiffness.C53_springs",
    "OpenPile.Props.SoilStiffness.C53_moment_needs_lateral",
    "OpenPile.Props.SoilStiffness.C53_mobilised"
   ],
   "note": "Each spring is evaluated at the displacement component it resists; the one wrong node of the last element is C52. Requesting moment springs without lateral springs is an error (C53_moment_needs_lateral)."
  },
  {
   "property": "C54",
   "status": "proved",
   "theorems": [
    "OpenPile.Props.Assemble.C54_py",
    "OpenPile.Props.Assemble.C54_mt",
    "OpenPile.Props.Assemble.C54_tz",
    "OpenPile.Props.Assemble.C54_outside",
    "OpenPile.Props.Assemble.C54_order",
    "OpenPile.Props.Assemble.C54_mesh"
   ],
   "note": "p-y, m-t and t-z springs of every element inside exactly one layer are the curves of that layer for the data of that end, zeros without model or when switched off, zeros above ground, independent of the layer order; C54_mesh shows that a Model whose layers meet exactly on the 0.1 mm grid meets the hypotheses."
  },
  {
   "property": "C55",
   "status": "partial",
   "theorems": [
    "OpenPile.Props.Analysis.C55_tables",
    "OpenPile.Props.Analysis.C55_model_partial",
    "OpenPile.Props.Refine.C55_fails",
    "OpenPile.Props.Refine.C55_two_meshes",
    "OpenPile.Props.Refine.C55_refined",
    "OpenPile.Props.Refine.C55_exact"
   ],
   "note": "Two meshes of one pile fail together or agree at common nodes, at the level of vectors (C55_refined, C55_fails, C55_two_meshes), of tables on given coordinates (C55_tables) and from the public calls (C55_model_partial); inside an element the finer results follow the exact beam solution (C55_exact). Restriction: the elevations asked for are multiples of 0.1 mm inside the pile (otherwise the published coordinates are rounded, C07), boundary conditions act at elevations asked for in both meshes and away from other ones, and the restriction of C16 on Poisson's ratio."
  },
  {
   "property": "C56",
   "status": "partial",
   "theorems": [
    "OpenPile.Props.Capacity.C56_tip_clay",
    "OpenPile.Props.Capacity.C56_tip_sand",
    "OpenPile.Props.Capacity.C56_tip_none",
    "OpenPile.Props.Capacity.C56_shaft_partial",
    "OpenPile.Props.Capacity.C56_model_shaft_partial",
    "OpenPile.Props.Capacity.C56_model_partial"
   ],
   "note": "Proved from the pile and the profile to the two numbers (C56_model_partial) and for given springs (C56_tip_clay, C56_tip_sand, C56_tip_none, C56_shaft_partial); that the springs exist is C64_input. Restriction: layers meet exactly, the head is not below ground, soil parameters in the ranges of C64. The shaft formula is the one the code computes: outer perimeter counted twice without plug (C36_violated_circumference) and end elements weighted as in C44_violated_embedment."
  },
  {
   "property": "C57",
   "status": "partial",
   "theorems": [
    "OpenPile.Props.Unloaded.C57_violated_never",
    "OpenPile.Props.Unloaded.C57_violated_nan",
    "OpenPile.Props.Unloaded.C57_rest_partial",
    "OpenPile.Props.Unloaded.C57_violated_pile",
    "OpenPile.Props.Unloaded.C57_violated_held"
   ],
   "note": "Violated. For every stiffness law, all supports and every max_iter the convergence test is never met (C57_violated_never: tolerance zero, strict comparison); with max_iter >= 99, in particular for Model.solve, every held pile in soil is reported as NaN after 100 iterations (C57_violated_nan, C57_violated_pile, C57_violated_held). With smaller max_iter the result is the state of rest (C57_rest_partial)."
  },
  {
   "property": "C58",
   "status": "partial",
   "theorems": [
    "OpenPile.Props.Mirror.C58_mirror_partial",
    "OpenPile.Props.Mirror.C58_violated_moment",
    "OpenPile.Props.MirrorModel.C58_beam_tables",
    "OpenPile.Props.MirrorModel.C58_tables_partial"
   ],
   "note": "C58_mirror_partial: the whole iteration commutes with the reflection (all piles, spring tables, supports, loads, iteration limits) when rotational springs along the shaft are absent or do not depend on the mobilised lateral resistance. C58_tables_partial: the same from the public calls to the tables and mobilisation of solve(), for every soil profile without Dunkirk_sand, Custom_pisa_sand and API_sand with m-t curves. C58_beam_tables: without soil, from the calls to the tables, no restriction. Violated otherwise: the mobilised resistance enters with its sign, so a reversed deflection selects the first row of the m-t table (C58_violated_moment)."
  },
  {
   "property": "C59",
   "status": "partial",
   "theorems": [
    "OpenPile.Props.Balance.C59_lateral",
    "OpenPile.Props.Balance.C59_axial",
    "OpenPile.Props.Balance.C59_moment_partial",
    "OpenPile.Props.Balance.C59_free",
    "OpenPile.Props.Balance.C59_moment_factor_partial",
    "OpenPile.Props.Balance.C59_violated_factor",
    "OpenPile.Props.Balance.C59_supports_partial",
    "OpenPile.Props.NoRotation.C59_moment_noTurn_partial",
    "OpenPile.Props.NoRotation.C59_moment_default_partial",
    "OpenPile.Props.SoilTables.C59_tables_lateral",
    "OpenPile.Props.SoilTables.C59_tables_axial",
    "OpenPile.Props.SoilTables.C59_tables_moment_partial",
    "OpenPile.Props.SoilTables.C59_model_lateral"
   ],
   "note": "Lateral and axial balance for all models (C59_lateral, C59_axial), with the tolerance for piles without supports (C59_free); moment balance for both types of elements (C59_moment_partial, C59_moment_factor_partial). From the tables: loads of the Model against the springs of its arrays, read at top and bottom of every element at the listed displacements, up to the reported error (C59_tables_lateral, C59_tables_axial, C59_tables_moment_partial, C59_model_lateral from the public calls). Violated for rotational springs along Timoshenko elements: their moment enters with a factor that differs from one unless area and matrix coefficient coincide (C59_violated_factor). With supports, loads and reported reactions balance the springs exactly at the displacements of a last linear solve that the result does not contain (C59_supports_partial); missing: the balance at the reported displacements in supported directions. C59_moment_noTurn_partial (any tables without rotations), C59_moment_default_partial: the balance of moments from the Model with any switches where no layer has rotational springs."
  },
  {
   "property": "C60",
   "status": "partial",
   "theorems": [
    "OpenPile.Props.LinearRange.C60_linear_moment_partial",
    "OpenPile.Props.LinearRange.C60_proportional_moment_partial",
    "OpenPile.Props.LinearRange.C60_violated_moment",
    "OpenPile.Props.LinearRange.C60_linear_partial",
    "OpenPile.Props.LinearRange.C60_proportional_partial",
    "OpenPile.Props.LinearRange.C60_no_springs",
    "OpenPile.Props.NoModels.C60_linear_exactly",
    "OpenPile.Props.NoModels.C60_no_springs_exactly"
   ],
   "note": "C60_linear_partial, C60_proportional_partial without rotational springs along the shaft, C60_linear_moment_partial and C60_proportional_moment_partial with rotational springs whose curve does not depend on the mobilised lateral resistance (those of the clay models, C63); violated for those that do, as in sand (C60_violated_moment: half of the prescribed displacement does not give half of the rotation). C60_no_springs in full. These exclude the case F = 2 Q at every degree of freedom; C60_linear_exactly and C60_no_springs_exactly cover it: one more pass is taken, and only without any load and reaction the result is NaN (C57)."
  },
  {
   "property": "C61",
   "status": "proved",
   "theorems": [
    "OpenPile.Props.SoilAnalysis.C61_converged",
    "OpenPile.Props.SoilAnalysis.C61_details"
   ],
   "note": "C61_converged and C61_details for every analysis that returns numbers; NoModels.details_some shows that details() then exists."
  },
  {
   "property": "C62",
   "status": "partial",
   "theorems": [
    "OpenPile.Props.NoModels.C62_same_mesh_partial",
    "OpenPile.Props.NoModels.C62_model_partial",
    "OpenPile.Props.NoModels.C62_stressed_partial",
    "OpenPile.Props.NoModels.C62_violated_unstressed",
    "OpenPile.Props.NoModels.C62_violated_supports"
   ],
   "note": "C62_stressed_partial (on the published mesh): the tables of the pile alone whenever a load acts at some node or the pile alone has section forces. C62_violated_unstressed: otherwise (no load, supports at rest or moving the pile as a rigid body) the tolerance is zero and the result is NaN, although the pile alone gives numbers; C62_violated_supports: in particular with supports only. C62_same_mesh_partial and C62_model_partial compare with the Model without profile on any other mesh. Distributed moment springs need the lateral switch on."
  },
  {
   "property": "C63",
   "status": "proved",
   "theorems": [
    "OpenPile.Props.Creation.C63_base_off",
    "OpenPile.Props.Rotational.C63_clay",
    "OpenPile.Props.Rotational.C63_sand",
    "OpenPile.Props.Rotational.C63_pisa_clay",
    "OpenPile.Props.Rotational.C63_dunkirk_rises",
    "OpenPile.Props.Rotational.C63_off",
    "OpenPile.Props.Rotational.C63_model_clay",
    "OpenPile.Props.Rotational.C63_model_sand",
    "OpenPile.Props.Rotational.C63_sand_accepted",
    "OpenPile.Props.Rotational.C63_clay_accepted",
    "OpenPile.Props.Rotational.C63_dunkirk",
    "OpenPile.Props.Rotational.C63_custom_sand",
    "OpenPile.Props.Rotational.C63_custom_clay"
   ],
   "note": "C63_clay_accepted and C63_sand_accepted: all accepted parameters, every place within the layer, whatever random numbers are drawn, flat where there is no friction; C63_pisa_clay; C63_dunkirk: every depth along the pile, ultimate moment proportional to the lateral resistance (C63_dunkirk_rises where the curve also rises, see C29); C63_custom_sand and C63_custom_clay; C63_model_clay and C63_model_sand for the springs of a Model, C63_off and C63_base_off where there are none. The API models need at least 15 points per spring, which Model always asks for."
  },
  {
   "property": "C64",
   "status": "partial",
   "theorems": [
    "OpenPile.Props.Accept.C64_violated_dense",
    "OpenPile.Props.Capacity.C64_input",
    "OpenPile.Props.Capacity.C64_setup",
    "OpenPile.Props.Capacity.C64_model_partial"
   ],
   "note": "C64_model_partial (from the pile and the profile), C64_input (given elements and layers), Defined.model_py, model_mt, model_hb and model_mb for the single springs. Restrictions: layers meet exactly, all levels on the 0.1 mm grid, head not below ground; Dunkirk sand up to 50 % relative density and custom curves with shape up to 1/2 (beyond that a conic can divide by zero: C28_violated_division). C64_violated_dense: at 100 % there is a pile for which it does."
  },
  {
   "property": "C65",
   "status": "partial",
   "theorems": [
    "OpenPile.Props.Order.C65_conditions",
    "OpenPile.Props.Order.C65_loads",
    "OpenPile.Props.Order.C65_violated_near",
    "OpenPile.Props.Order.C65_mesh",
    "OpenPile.Props.Order.C65_mesh_free",
    "OpenPile.Props.Order.C65_profile",
    "OpenPile.Props.Order.C65_springs",
    "OpenPile.Props.Order.C65_analysis_partial",
    "OpenPile.Props.Order.C65_beam",
    "OpenPile.Props.Order.C65_capacity",
    "OpenPile.Props.Order.C65_weights"
   ],
   "note": "C65_analysis_partial (whole analysis with soil), C65_beam, C65_springs, C65_capacity, C65_weights, C65_mesh, C65_loads, C65_profile; sections by C02_order_irrelevant. Restrictions: layers meet exactly on the 0.1 mm grid with the head not below ground (the Setup of C54), random numbers belong to the spring and not to the call. Two loads at different elevations that fall on the same node overwrite each other, so there the order of the calls decides (C65_violated_near)."
  },
  {
   "property": "C66",
   "status": "partial",
   "theorems": [
    "OpenPile.Props.Datum.C66_mesh",
    "OpenPile.Props.Datum.C66_violated_odd",
    "OpenPile.Props.Datum.C66_springs",
    "OpenPile.Props.Datum.C66_loads",
    "OpenPile.Props.Datum.C66_violated_near",
    "OpenPile.Props.Datum.C66_beam_partial",
    "OpenPile.Props.Datum.C66_analysis_partial",
    "OpenPile.Props.Datum.C66_details",
    "OpenPile.Props.Datum.C66_capacity",
    "OpenPile.Props.Datum.C66_pile",
    "OpenPile.Props.Datum.C66_profile",
    "OpenPile.Props.Datum.C66_weights"
   ],
   "note": "Holds for shifts that are even multiples of 0.1 mm (nodes are rounded half to even: C66_violated_odd) and boundary conditions whose tolerance selects the same node with both datums (C66_violated_near: the tolerance grows with the elevation). sameNear_of_grid and sameNear_of_far give checkable sufficient conditions. The creation of profiles needs elevations within 1000 km."
  },
  {
   "property": "C67",
   "status": "partial",
   "theorems": [
    "OpenPile.Props.Extent.C67_contains",
    "OpenPile.Props.Extent.C67_embedment_positive_partial",
    "OpenPile.Props.Extent.C67_embedded_length_partial",
    "OpenPile.Props.Extent.C67_violated_head_below_ground",
    "OpenPile.Props.Extent.C67_violated_above_ground"
   ],
   "note": "Enclosure proved in full. Embedment is positive if no extra elevation lies below the tip and equals the embedded element length for piles whose head is not below ground; violated for buried heads (embedment exceeds the pile) and for a pile above ground with an extra elevation below (negative embedment)."
  },
  {
   "property": "C68",
   "status": "partial",
   "theorems": [
    "OpenPile.Props.KraftApi.C68_clay_partial",
    "OpenPile.Props.KraftApi.C68_sand_partial",
    "OpenPile.Props.KraftApi.C68_violated_sand_surface",
    "OpenPile.Props.KraftApi.C68_violated_compiled"
   ],
   "note": "Proved of the Python bodies (clay at all stresses, sand at positive stress and interface angles between 0 and 90 degrees). Violated in sand at ground level, where Kraft's form divides zero by zero, and by the functions as compiled: both are decorated with njit and call kraft_modification, which is not, so every call fails (C68_violated_compiled)."
  },
  {
   "property": "C69",
   "status": "partial",
   "theorems": [
    "OpenPile.Props.Check.C69_accepts_iff",
    "OpenPile.Props.Check.C69_sound_partial",
    "OpenPile.Props.Check.C69_complete_partial",
    "OpenPile.Props.Check.C69_violated_no_axial_support",
    "OpenPile.Props.Check.C69_violated_rotations_only",
    "OpenPile.Props.Check.C69_violated_displacements",
    "OpenPile.Props.Check.C69_violated_soil",
    "OpenPile.Props.Check.C69_complaints"
   ],
   "note": "The exact acceptance condition is proved, and for every complaint the exact situation in which it is raised. Solvable loaded models without prescribed displacements pass; laterally loaded models that pass and have an axial and a lateral support can be solved. Violated: no axial support, rotational supports only, displacement-controlled models, and every model with soil."
  },
  {
   "property": "C70",
   "status": "partial",
   "theorems": [
    "OpenPile.Props.PDelta.C70_tension",
    "OpenPile.Props.PDelta.C70_translation",
    "OpenPile.Props.PDelta.C70_rotation_partial",
    "OpenPile.Props.PDelta.C70_symmetric",
    "OpenPile.Props.PDelta.C70_sign_partial",
    "OpenPile.Props.PDelta.C70_violated_timoshenko",
    "OpenPile.Props.PDelta.C70_geometric_partial"
   ],
   "note": "Symmetry, translation and the sign of the force are proved for both element types, the rest for Euler-Bernoulli elements; violated for Timoshenko elements, where the area is overwritten. No analysis uses the matrix."
  },
  {
   "property": "C71",
   "status": "partial",
   "theorems": [
    "OpenPile.Props.Decouple.C71_lateral_partial",
    "OpenPile.Props.Decouple.C71_axial_partial",
    "OpenPile.Props.Decouple.C71_violated_iterations",
    "OpenPile.Props.Decouple.C71_beam",
    "OpenPile.Props.Decouple.C71_calls",
    "OpenPile.Props.Decouple.C71_solve",
    "OpenPile.Props.Decouple.C71_soil_lateral_partial",
    "OpenPile.Props.Decouple.C71_soil_axial_partial",
    "OpenPile.Props.PureLoads.C71_axial_only",
    "OpenPile.Props.PureLoads.C71_lateral_only"
   ],
   "note": "Proved without soil from the calls to the tables. In soil, whatever the number of iterations: loads and displacements along the axis alone give exactly zero deflections, rotations, shear forces, moments and lateral reactions, and those across the axis alone exactly zero settlements, normal forces and axial reactions (C71_axial_only, C71_lateral_only). With both together proved whenever both analyses take the same number of iterations (iteration by iteration the two directions are uncoupled). False otherwise: the tolerance is 1e-4 of the norm of all loads together, so a large axial load ends the iteration early (C71_violated_iterations: head deflection 205/77 instead of 101/25)."
  },
  {
   "property": "C72",
   "status": "partial",
   "theorems": [
    "OpenPile.Props.Held.C72_pass_partial",
    "OpenPile.Props.Held.C72_later_partial",
    "OpenPile.Props.Held.C72_supported_partial",
    "OpenPile.Props.Held.C72_later_euler",
    "OpenPile.Props.Held.C72_supported_euler",
    "OpenPile.Props.Held.C72_plateau",
    "OpenPile.Props.Held.C72_unheld",
    "OpenPile.Props.Held.C72_solve_unheld",
    "OpenPile.Props.Held.C72_first_partial",
    "OpenPile.Props.Held.C72_first_euler",
    "OpenPile.Props.Held.C72_violated_timoshenko"
   ],
   "note": "`C72_first_partial` (piles without rotational springs along the shaft: switched off or blank tables) and `C72_first_euler` (Euler-Bernoulli elements with any springs) are equivalences: first pass fails iff springs and supports do not hold the pile, in terms of the spring tables. `C72_unheld` and `C72_solve_unheld` (all element types and springs, from `Model.solve()`): a direction with neither springs nor supports never gives numbers. Violated for rotational springs along Timoshenko elements, whose matrix is not that of the theory (C18): for any lateral springs there is a rotational stiffness with which the equations of a clamped pile are singular (C72_violated_timoshenko). Later passes use tangent stiffnesses, which vanish on plateaus: C72_pass_partial (no rotational springs along the shaft) is the same equivalence for every later pass in terms of the springs that still pick up resistance at the displacements reached; C72_later_partial: NaN means that the pile is free from the outset, or that 100 passes did not converge, or that the pile became free on plateaus (C72_plateau: it happens); C72_supported_partial: a pile held by its supports ends with NaN only after 100 passes. With Euler-Bernoulli elements C72_later_euler and C72_supported_euler say the same with rotational springs along the shaft whose tables start with a positive rotation (they can only help). Not covered: which rotational springs still act in later passes, and Timoshenko elements with such springs."
  },
  {
   "property": "C73",
   "status": "partial",
   "theorems": [
    "OpenPile.Props.Create.C73_same_iff_partial",
    "OpenPile.Props.Create.C73_violated_x2mesh",
    "OpenPile.Props.Create.C73_violated_axial",
    "OpenPile.Props.Create.C73_violated_springs"
   ],
   "note": "True exactly if `x2mesh` and both axial switches are given (`C73_same_iff_partial`). The code violates the property otherwise: without `x2mesh` the method raises (`C73_violated_x2mesh`: its default is a pydantic `FieldInfo`), and with the axial switches omitted it leaves out the axial springs, so that `solve()` never returns numbers unless the pile is held axially (`C73_violated_axial`), while the class gets through its first pass with the same springs (`C73_violated_springs`)."
  },
  {
   "property": "C74",
   "status": "partial",
   "theorems": [
    "OpenPile.Props.Ultimate.C74_axial_partial",
    "OpenPile.Props.Ultimate.C74_lateral_partial",
    "OpenPile.Props.Ultimate.C74_violated_pull",
    "OpenPile.Props.Ultimate.C74_violated_sliding",
    "OpenPile.Props.Ultimate.C74_tables_axial_partial",
    "OpenPile.Props.Ultimate.C74_pull_partial",
    "OpenPile.Props.Ultimate.C74_tables_lateral_partial",
    "OpenPile.Props.Ultimate.C74_pull_model_partial"
   ],
   "note": "Proved with the factor by which the displacement varies within an element (`C74_axial_partial`, `C74_lateral_partial`; factor one for a rigid translation). Without it the property is violated: a sliding element carries more than its strength unless both ends move equally (`C74_violated_sliding`, because secants are interpolated rather than resistances), and a displacement-controlled analysis returns any multiple of the capacity (`C74_violated_pull`). C74_tables_axial_partial, C74_tables_lateral_partial, C74_pull_partial, C74_pull_model_partial: the same from the listed displacements; a pull on a pile whose tip is not pushed down is bounded by the shaft alone."
  },
  {
   "property": "C75",
   "status": "partial",
   "theorems": [
    "OpenPile.Props.Session.C75_solve_partial",
    "OpenPile.Props.Session.C75_history_partial",
    "OpenPile.Props.Session.C75_created_partial",
    "OpenPile.Props.Session.C75_violated_shared",
    "OpenPile.Props.Session.C75_violated_look"
   ],
   "note": "Proved for all sessions in which no boundary condition object is used by two Models, for every solve before which no lateral or axial spring table of the Model was looked up (C75_solve_partial, C75_created_partial); C75_history_partial gives the state after any looks. The full statement is false: two Models created with the same boundary condition object share what is set on it (C75_violated_shared), and every look at the axial springs changes the reaction reported by the next analysis (C75_violated_look)."
  },
  {
   "property": "C76",
   "status": "partial",
   "theorems": [
    "OpenPile.Props.Describe.C76_prints_partial",
    "OpenPile.Props.Describe.C76_violated_linear",
    "OpenPile.Props.Describe.C76_violated_function",
    "OpenPile.Props.Describe.C76_names_partial",
    "OpenPile.Props.Describe.C76_violated_name",
    "OpenPile.Props.Describe.C76_violated_custom_name",
    "OpenPile.Props.Describe.C76_mentions_clay",
    "OpenPile.Props.Describe.C76_mentions_sand",
    "OpenPile.Props.Describe.C76_axial_class",
    "OpenPile.Props.Describe.C76_axial_clay",
    "OpenPile.Props.Describe.C76_axial_sand",
    "OpenPile.Props.Describe.C76_violated_inside",
    "OpenPile.Props.Describe.C76_text_sand",
    "OpenPile.Props.Describe.C76_text_clay",
    "OpenPile.Props.Describe.C76_lateral_sand",
    "OpenPile.Props.Describe.C76_lateral_clay",
    "OpenPile.Props.Describe.C76_not_shown"
   ],
   "note": "Proved: exactly which accepted profiles can be printed; texts coincide only for models of one class or for the two pairs below; axial models are read back from their text (class, plugging, every factor, each mentioned exactly if it is not the default) if numbers are written distinctly, and loading, rotational springs and strength of the API lateral models. Violated: a stiffness given as two values or as a function cannot be printed in PISA layers, functions as axial multipliers are accepted but neither printed nor usable, Bothkennar clay prints as Cowden clay (with different springs), custom clay prints as custom sand, the friction inside the pile in sand is not shown. Multipliers of lateral models are not shown either (C76_not_shown)."
  },
  {
   "property": "C77",
   "status": "partial",
   "theorems": [
    "OpenPile.Props.Plot.C77_arrows_partial",
    "OpenPile.Props.Plot.C77_raises_iff",
    "OpenPile.Props.Plot.C77_supports",
    "OpenPile.Props.Plot.C77_limits",
    "OpenPile.Props.Plot.C77_violated_moment_only",
    "OpenPile.Props.Plot.C77_window"
   ],
   "note": "Proved for arrows, markers, window and diagram limits whenever the plot is drawn, with the exact condition for the exception. Violated: a model loaded by moments only cannot be plotted, the arrow style is read before it is assigned (graphics.py 246)."
  },
  {
   "property": "C78",
   "status": "partial",
   "theorems": [
    "OpenPile.Props.Assign.C78_beam_partial",
    "OpenPile.Props.Assign.C78_violated_soil",
    "OpenPile.Props.Assign.C78_structure_partial",
    "OpenPile.Props.Assign.C78_violated_ignored",
    "OpenPile.Props.Assign.C78_violated_mesh",
    "OpenPile.Props.Assign.C78_violated_coarseness",
    "OpenPile.Props.Assign.C78_off_partial",
    "OpenPile.Props.Assign.C78_violated_on"
   ],
   "note": "Proved for the element type and the material, for Models without soil before the first use, and for switches turned off. Violated: a soil given later raises always; a finer mesh raises before the first analysis (elements cached at creation, nodes not) and is ignored after it, as is another soil; switches turned on change nothing because the springs are not computed."
  },
  {
   "property": "C79",
   "status": "proved",
   "theorems": [
    "OpenPile.Props.ForceUnit.C79_unit_soil",
    "OpenPile.Props.ForceUnit.C79_unit_beam",
    "OpenPile.Props.ForceUnit.C79_modulus"
   ],
   "note": "C79_modulus is at the level of solve() and its tables; C79_unit_beam and C79_unit_soil are before the loads are cut to integers (C14) and before reactions below 0.001 kN are dropped from the reaction table, both of which do depend on the unit. Exact arithmetic; spring tables are arbitrary."
  },
  {
   "property": "C80",
   "status": "proved",
   "theorems": [
    "OpenPile.Props.FreeBody.C80_tables",
    "OpenPile.Props.FreeBody.C80_model",
    "OpenPile.Props.FreeBody.C80_determinate",
    "OpenPile.Props.FreeBody.C80_soil",
    "OpenPile.Props.FreeBody.C80_above_ground"
   ],
   "note": "C80_tables and C80_model are about the tables of solve() without soil; C80_determinate compares two of them; C80_soil and C80_above_ground are about converged runs of the iteration, with section forces computed from the reported displacements as in the result, before rounding in the tables."
  },
  {
   "property": "C81",
   "status": "partial",
   "theorems": [
    "OpenPile.Props.Cantilever.C81_solution",
    "OpenPile.Props.Cantilever.C81_tables_partial",
    "OpenPile.Props.Cantilever.C81_euler_bernoulli",
    "OpenPile.Props.Cantilever.C81_model_partial",
    "OpenPile.Props.Cantilever.C81_violated_timoshenko"
   ],
   "note": "C81_euler_bernoulli is the full statement for Euler-Bernoulli elements. C81_tables_partial and C81_model_partial (from the public calls) hold for both types of elements with the shear flexibility k/(G A) that the code has; C81_solution is about the solver alone. C81_violated_timoshenko: with the shear flexibility 1/(k G A) of Timoshenko's theory the statement fails for every ordinary material, pile, mesh and lateral load: every listed displacement above the tip is too small (C17). No other node may lie within the tolerance of set_support of the tip (about 1 mm). Loads are whole numbers because global_forces drops decimals (C14)."
  },
  {
   "property": "C82",
   "status": "partial",
   "theorems": [
    "OpenPile.Props.Compliance.C82_tables",
    "OpenPile.Props.Compliance.C82_larger_partial",
    "OpenPile.Props.Compliance.C82_deflection",
    "OpenPile.Props.Compliance.C82_violated_timoshenko",
    "OpenPile.Props.Compliance.C82_violated_thick_wall"
   ],
   "note": "C82_tables holds for any two piles of which the second is nowhere less stiff along, in bending and in shear as the code has it; C82_deflection is the case of one lateral load. C82_larger_partial derives the stiffness from diameters, walls, moduli and calls; it is complete for Euler-Bernoulli elements with walls up to the radius, and for Timoshenko elements needs walls of at most a fifth of the diameter where the tube changes. C82_violated_timoshenko: because the shear coefficient multiplies (C17), for every material, diameter and length some hollow cantilever deflects less than the solid one, on every mesh. C82_violated_thick_wall: walls thicker than the radius are accepted, and then every further thickening makes the pile softer."
  },
  {
   "property": "C83",
   "status": "partial",
   "theorems": [
    "OpenPile.Props.Stronger.C83_kraft_partial",
    "OpenPile.Props.Stronger.C83_violated_kraft",
    "OpenPile.Props.Stronger.C83_kraft_clay",
    "OpenPile.Props.Stronger.C83_kraft_sand",
    "OpenPile.Props.Stronger.C83_rock_partial",
    "OpenPile.Props.Stronger.C83_violated_rock",
    "OpenPile.Props.Stronger.C83_rock_rising",
    "OpenPile.Props.Stronger.C83_api_clay",
    "OpenPile.Props.Stronger.C83_matlock",
    "OpenPile.Props.Stronger.C83_modified_matlock",
    "OpenPile.Props.Stronger.C83_violated_cyclic",
    "OpenPile.Props.Stronger.C83_sand_ultimate",
    "OpenPile.Props.Stronger.C83_api_sand_partial",
    "OpenPile.Props.Stronger.C83_api_sand_default_partial",
    "OpenPile.Props.Stronger.C83_violated_modulus",
    "OpenPile.Props.Stronger.C83_violated_sand",
    "OpenPile.Props.Stronger.C83_rock_ultimate",
    "OpenPile.Props.Stronger.C83_fmax_clay",
    "OpenPile.Props.Stronger.C83_violated_surface",
    "OpenPile.Props.Stronger.C83_qmax_clay",
    "OpenPile.Props.Stronger.C83_fmax_sand",
    "OpenPile.Props.Stronger.C83_qmax_sand",
    "OpenPile.Props.Stronger.C83_tz_clay",
    "OpenPile.Props.Stronger.C83_qz_clay",
    "OpenPile.Props.Stronger.C83_tz_sand",
    "OpenPile.Props.Stronger.C83_qz_sand",
    "OpenPile.Props.Stronger.C83_py_bothkennar_partial",
    "OpenPile.Props.Stronger.C83_py_cowden_partial",
    "OpenPile.Props.Stronger.C83_hb_bothkennar_partial",
    "OpenPile.Props.Stronger.C83_hb_cowden_partial",
    "OpenPile.Props.Stronger.C83_mb_bothkennar_partial",
    "OpenPile.Props.Stronger.C83_mb_cowden_partial",
    "OpenPile.Props.Stronger.C83_mt_bothkennar_partial",
    "OpenPile.Props.Stronger.C83_mt_cowden_partial",
    "OpenPile.Props.Stronger.C83_py_dunkirk_ultimate",
    "OpenPile.Props.Stronger.C83_py_dunkirk_partial",
    "OpenPile.Props.Stronger.C83_hb_dunkirk_partial",
    "OpenPile.Props.Stronger.C83_mb_dunkirk_partial",
    "OpenPile.Props.Stronger.C83_custom_partial",
    "OpenPile.Props.Stronger.C83_mt_dunkirk_partial",
    "OpenPile.Props.Stronger.C83_mt_dunkirk_deep",
    "OpenPile.Props.Stronger.C83_violated_rotation"
   ],
   "note": "Proved for api_clay, matlock_1970 and modified_Matlock under static loading, for api_sand with a given modulus (both kinds of loading) and with the default modulus above water from 15 degrees and below water from 24 degrees, for all t-z and Q-z curves of API, and for the PISA curves of the clays, Dunkirk sand (p-y, base shear, base moment) and the custom curves while the points of the conic are 0.01 apart (closer points are rounded up by the code). Weak rock: C83_rock_partial away from the end of the elastic part (there up to a factor B^(-1/4000)), C83_rock_rising for tables that rise. Kraft curves: without loss of friction and up to the peak. C83_violated_cyclic: near the surface a stronger clay has less residual cyclic resistance whenever (3D+JX)JX Su Su' < (sig D)^2. C83_violated_modulus, C83_violated_sand: below water the default modulus falls from 27.8 to 5.4 MN/m3 between 15 and 24 degrees, so a looser sand is stiffer. C83_violated_surface: a vanishing stress is replaced by 1 Pa, so that more stress gives less shaft friction. C83_violated_rock: the exponent 1.333 in place of 4/3 makes fine tables drop at the end of the elastic part, where a stronger rock resists less. C83_violated_kraft: with a loss of friction a larger shear modulus brings the peak forward, so the residual friction is reached earlier. C83_mt_dunkirk_partial, C83_mt_dunkirk_deep: distributed moment of Dunkirk sand where the shear modulus grows at least as fast as the stress, or the normalised ultimate moment is below 0.17. C83_violated_rotation: with the same shear modulus, two to ten times the stress lowers the moment at some rotation, since points within 0.01 of the ultimate rotation are put on the plateau."
  },
  {
   "property": "C84",
   "status": "partial",
   "theorems": [
    "OpenPile.Props.NoRotation.C84_default_partial",
    "OpenPile.Props.SoilSupport.C84_violated_timoshenko",
    "OpenPile.Props.SoilSupport.C84_tables_partial",
    "OpenPile.Props.SoilSupport.C84_same_pile_partial",
    "OpenPile.Props.SoilSupport.C84_deflection_partial"
   ],
   "note": "C84_tables_partial, C84_same_pile_partial, C84_deflection_partial: proved for all p-y, t-z and base tables whatever their shape (their stiffnesses are taken as absolute values), with both element types; rotational springs along the shaft with Euler-Bernoulli elements and tables whose second rotation is positive. C84_default_partial: any switches and element types where no layer has rotational springs. C84_violated_timoshenko: with Timoshenko elements the overwritten area (C18) makes the energy of rotational springs negative; for a solid pile of 3 m diameter, every rotational stiffness up to 100 MNm/m lets some loads do more work than without soil (shown for the solver on the code's matrices, not from the tables)."
  },
  {
   "property": "C85",
   "status": "partial",
   "theorems": [
    "OpenPile.Props.Control.C85_tables_partial",
    "OpenPile.Props.Control.C85_calls_partial",
    "OpenPile.Props.Control.C85_violated_zero",
    "OpenPile.Props.ControlSoil.C85_soil_partial",
    "OpenPile.Props.ControlSoil.C85_soil_calls_partial",
    "OpenPile.Props.NoRotation.C85_default_partial",
    "OpenPile.Props.NoRotation.C85_model_default_partial"
   ],
   "note": "C85_tables_partial and C85_calls_partial: proved without soil for every non-zero displacement. C85_soil_partial and C85_soil_calls_partial: the same with soil, when the first analysis ends with a zero residual and every spring on its first branch; mobilised springs agree too. Partial: a prescribed displacement of zero is ignored by the code (apply_bc skips falsy values and beam takes U != 0 as the support), so the node is left free and the tables differ (C85_violated_zero); with soil, rotational springs along the shaft only with Euler-Bernoulli elements. C85_default_partial: both switches on, both element types, tables without rotations; C85_model_default_partial from the Model (its example is given on tables)."
  },
  {
   "property": "C86",
   "status": "partial",
   "theorems": [
    "OpenPile.Props.Reduce.C86_ix",
    "OpenPile.Props.Reduce.C86_solve",
    "OpenPile.Props.Reduce.C86_violated_entry",
    "OpenPile.Props.Reduce.C86_pile_partial",
    "OpenPile.Props.Reduce.C86_violated_nodes"
   ],
   "note": "C86_ix and C86_solve (refinement of the list program to the solver all other theorems use) for at most 2^31 entries, hence up to 15446 nodes (C86_pile_partial). Beyond that positions overflow: entries are silently replaced by others further up (C86_violated_entry), and with 15447 nodes the solver raises for every pile, soil and load with a support and a free rotation of the tip (C86_violated_nodes)."
  },
  {
   "property": "C87",
   "status": "partial",
   "theorems": [
    "OpenPile.Props.Warnings.C87_reported",
    "OpenPile.Props.Warnings.C87_silent_partial",
    "OpenPile.Props.Warnings.C87_warns_slender",
    "OpenPile.Props.Warnings.C87_violated_axial"
   ],
   "note": "C87_reported (what is printed, for all arrays), C87_silent_partial (usual models: no warning, whatever the mesh; no lateral model needed in a layer) and C87_warns_slender (Cowden clay between 6.1 and 14.7 diameters below ground: m-t always reported). Axial springs are never checked: sand with an interface angle between 90 and 180 degrees gives friction in the direction of movement without a message (C87_violated_axial). Not covered: NaN values, which are `none` in the model (no Model is created)."
  },
  {
   "property": "C88",
   "status": "partial",
   "theorems": [
    "OpenPile.Props.Tables.C88_along",
    "OpenPile.Props.Tables.C88_base_partial",
    "OpenPile.Props.Tables.C88_violated_base",
    "OpenPile.Props.Tables.C88_model",
    "OpenPile.Props.Tables.C88_violated_model"
   ],
   "note": "C88_along (exact rows of every table along the pile, for any springs) and C88_model (for the mesh of every Model). C88_base_partial: base springs are listed at the elevation of the tip with resistance before displacement. Violated by the node number of the base springs: it is one too large, no node has it, for every Model (C88_violated_base, C88_violated_model)."
  },
  {
   "property": "C89",
   "status": "partial",
   "theorems": [
    "OpenPile.Props.SoilPlot.C89_layers",
    "OpenPile.Props.SoilPlot.C89_column",
    "OpenPile.Props.SoilPlot.C89_water",
    "OpenPile.Props.SoilPlot.C89_violated_water"
   ],
   "note": "C89_layers holds for every accepted profile, with layers that meet only within 1 mm cut by at most 1 mm for each layer; C89_column gives the full column where layers meet exactly; C89_water says exactly when the water line is shown; C89_violated_water: a water line below the profile is accepted and not shown."
  },
  {
   "property": "C90",
   "status": "partial",
   "theorems": [
    "OpenPile.Props.Reproducible.C90_reproducible_partial",
    "OpenPile.Props.Reproducible.C90_violated_modified",
    "OpenPile.Props.Reproducible.C90_violated_tables"
   ],
   "note": "Proved for all Models whose layers are not Modified_Matlock_clay (C90_reproducible_partial). The code violates the rest: C90_violated_modified (springs of Modified_Matlock_clay depend on the draws), C90_violated_tables (tables of api_clay have different points)."
  },
  {
   "property": "C91",
   "status": "partial",
   "theorems": [
    "OpenPile.Props.Split.C91_setup",
    "OpenPile.Props.Split.C91_mesh",
    "OpenPile.Props.Split.C91_stresses",
    "OpenPile.Props.Split.C91_springs",
    "OpenPile.Props.Split.C91_analysis_partial",
    "OpenPile.Props.Split.C91_capacity",
    "OpenPile.Props.Split.C91_weights",
    "OpenPile.Props.Split.C91_any_draws_partial"
   ],
   "note": "Proved for layers that meet exactly, elevations in multiples of 0.1 mm and a Model that can be created (`Weight.Setup`): mesh, stresses, springs, weights, capacities, results. The random points of the curves are the same for both Models (`C91_analysis_partial`), or arbitrary where C90 holds (`C91_any_draws_partial`). Missing: layers that meet within 1 mm only; a Model that raises when the layer is cut but not before cannot exist, the converse (raises before, not after) is left open."
  },
  {
   "property": "C92",
   "status": "partial",
   "theorems": [
    "OpenPile.Props.SplitPile.C92_pile",
    "OpenPile.Props.SplitPile.C92_valid",
    "OpenPile.Props.SplitPile.C92_mesh",
    "OpenPile.Props.SplitPile.C92_beam",
    "OpenPile.Props.SplitPile.C92_results",
    "OpenPile.Props.SplitPile.C92_soil_partial",
    "OpenPile.Props.SplitPile.C92_one_diameter",
    "OpenPile.Props.SplitPile.C92_weights",
    "OpenPile.Props.SplitPile.C92_node",
    "OpenPile.Props.SplitPile.C92_beam_node",
    "OpenPile.Props.SplitPile.C92_beam_any",
    "OpenPile.Props.SplitPile.C92_soil_node",
    "OpenPile.Props.SplitPile.C92_setup",
    "OpenPile.Props.SplitPile.C92_violated_shaft"
   ],
   "note": "The pile quantities (C92_pile), the mesh (C92_mesh, C92_node), beam analyses (C92_beam, C92_beam_node, C92_beam_any) and weights (C92_weights) are proved for every pile. With springs the claim holds if no section of another diameter lies directly above the one that is cut (C92_soil_partial, C92_soil_node), or for every sort order if the pile has one diameter (C92_one_diameter). The code violates it otherwise: C92_violated_shaft shows that for every pile in clay with a wider section below a narrower one, cutting the wider one strictly raises the reported shaft resistance, because the element below the joint of two diameters takes the diameter of the section above (see C09). The general claim for joints closer than the rounding of the mesh is left out."
  },
  {
   "property": "C93",
   "status": "proved",
   "theorems": [
    "OpenPile.Props.Water.C93_same_side",
    "OpenPile.Props.Water.C93_submerged",
    "OpenPile.Props.Water.C93_dry",
    "OpenPile.Props.Water.C93_weights"
   ],
   "note": "C93_submerged and C93_weights are the statement for water above ground; C93_same_side and C93_dry are the general form. No restriction on pile, layers or mesh."
  },
  {
   "property": "C94",
   "status": "partial",
   "theorems": [
    "OpenPile.Props.BelowTip.C94_mesh",
    "OpenPile.Props.BelowTip.C94_stresses",
    "OpenPile.Props.BelowTip.C94_weights",
    "OpenPile.Props.BelowTip.C94_results_partial",
    "OpenPile.Props.BelowTip.C94_violated_base"
   ],
   "note": "C94_mesh, C94_stresses and C94_weights hold for all profiles of Weight.Setup; C94_results_partial needs base parameters that are not functions of depth in the layers that reach the tip. The code violates the rest: C94_violated_base shows for every custom PISA clay at the tip whose ultimate base shear is a function of depth that the base spring differs whenever the function differs at the bottoms of the two profiles."
  },
  {
   "property": "C95",
   "status": "partial",
   "theorems": [
    "OpenPile.Props.SameBelow.C95_soil_partial",
    "OpenPile.Props.SameBelow.C95_tables",
    "OpenPile.Props.SameBelow.C95_model",
    "OpenPile.Props.SameBelow.C95_violated_truncation",
    "OpenPile.Props.SameBelow.C95_violated_iterations"
   ],
   "note": "Without soil: equality of the tables of displacements, section forces and reactions from the node downwards, on any mesh (C95_tables) and on the mesh of the Model (C95_model), for loads as stored by the Model. With soil: equality of displacements, section forces and reactions if both analyses converge after the same number of iterations (C95_soil_partial). Violated otherwise: loads without resultant enlarge the tolerance, so that the iteration ends one step earlier with other displacements below (C95_violated_iterations). Violated for moments that are not whole numbers, which the Model truncates (C95_violated_truncation)."
  },
  {
   "property": "C96",
   "status": "proved",
   "theorems": [
    "OpenPile.Props.ResultPlot.C96_range",
    "OpenPile.Props.ResultPlot.C96_layout",
    "OpenPile.Props.ResultPlot.C96_nodes",
    "OpenPile.Props.ResultPlot.C96_between"
   ],
   "note": "C96_nodes: points of deflection and settlement; C96_between: diagrams of section forces at every elevation; C96_range: limits of the axes. Lines, labels and limits are modelled; fonts, colours and tick labels are not."
  },
  {
   "property": "C97",
   "status": "proved",
   "theorems": [
    "OpenPile.Props.Material.C97_beam",
    "OpenPile.Props.Material.C97_soil"
   ],
   "note": "C97_beam without soil, C97_soil with soil."
  },
  {
   "property": "C98",
   "status": "partial",
   "theorems": [
    "OpenPile.Props.WaterRise.C98_stress",
    "OpenPile.Props.WaterRise.C98_weights",
    "OpenPile.Props.WaterRise.C98_capacity_partial",
    "OpenPile.Props.WaterRise.C98_api_sand_partial",
    "OpenPile.Props.WaterRise.C98_clay",
    "OpenPile.Props.WaterRise.C98_violated_modulus"
   ],
   "note": "Stresses and weights for every pile, profile and mesh; capacities under the hypotheses of C56; clay springs static and cyclic; sand springs with a given modulus, or with the default modulus from 24 to 28 and from 30 degrees. Violated: sand of 15 to 23 degrees with the default modulus is stiffer once submerged, however much stress it loses (C98_violated_modulus)."
  },
  {
   "property": "C99",
   "status": "partial",
   "theorems": [
    "OpenPile.Props.Stub.C99_soil",
    "OpenPile.Props.Stub.C99_tables",
    "OpenPile.Props.Stub.C99_model",
    "OpenPile.Props.StubSoil.C99_soil_tables",
    "OpenPile.Props.StubSoil.C99_soil_model",
    "OpenPile.Props.StubSoil.C99_soil_stable",
    "OpenPile.Props.StubSoil.C99_soil_one_diameter",
    "OpenPile.Props.StubSoil.C99_violated_friction"
   ],
   "note": "C99_model: from the public calls, without soil, tables included. C99_soil_model: from the public calls with soil (springs and all tables), provided the table of element properties gives the elements below ground the same diameters. C99_soil_stable: that holds for rows sorted stably if the section right above has the diameter of the old topmost section or that section ends above ground. C99_soil_one_diameter: it holds for one diameter however the rows are sorted. C99_violated_friction: otherwise the code violates it; a wider stub in the air scales the shaft friction of the old topmost section. C99_tables, C99_soil_tables: the same on given meshes and springs. C99_soil: on the vectors of winkler(). The random draws inside the springs are taken to belong to the elements."
  },
  {
   "property": "C100",
   "status": "proved",
   "theorems": [
    "OpenPile.Props.Switch.C100_springs",
    "OpenPile.Props.Switch.C100_kind",
    "OpenPile.Props.Switch.C100_left_out_springs",
    "OpenPile.Props.Switch.C100_analysis",
    "OpenPile.Props.Switch.C100_left_out",
    "OpenPile.Props.Switch.C100_moment_alone"
   ],
   "note": "C100_springs (fewer switches), C100_kind (any two combinations), C100_analysis (a switch against blank tables), C100_left_out_springs and C100_left_out (switches against layers without models, from the public calls), C100_moment_alone (the error). The random draws inside the springs are taken to belong to the element and end."
  },
  {
   "property": "C101",
   "status": "proved",
   "theorems": [
    "OpenPile.Props.RigidMotion.C101_tables",
    "OpenPile.Props.RigidMotion.C101_unloaded",
    "OpenPile.Props.RigidMotion.C101_model"
   ],
   "note": "C101_tables: the second analysis succeeds when the first does and the tables are related row by row; C101_unloaded: no loads; C101_model: from the public calls (elevations on the grid of the mesh). A prescribed displacement equal to zero does not hold a node in this code (C85_violated_zero), so both sets of conditions must hold the same degrees of freedom; this is a hypothesis."
  },
  {
   "property": "C102",
   "status": "partial",
   "theorems": [
    "OpenPile.Props.Longer.C102_shaft",
    "OpenPile.Props.Longer.C102_grows_partial",
    "OpenPile.Props.Longer.C102_even_partial",
    "OpenPile.Props.Longer.C102_violated_boundary"
   ],
   "note": "C102_shaft: exact relation of both shaft resistances; C102_grows_partial: not less, and more in clay, when the old tip lies strictly inside a layer; C102_even_partial: not less when the first new element is not shorter than the last old one. C102_violated_boundary: when the old tip stands on the boundary to soil without axial model and the new element is shorter, the reported resistance drops by f (l_old - l_new)/4. Missing: nothing beyond what the code violates; setups as in C54."
  },
  {
   "property": "C103",
   "status": "partial",
   "theorems": [
    "OpenPile.Props.Cyclic.C103_api_clay_partial",
    "OpenPile.Props.Cyclic.C103_matlock_partial",
    "OpenPile.Props.Cyclic.C103_modified_matlock",
    "OpenPile.Props.Cyclic.C103_api_sand",
    "OpenPile.Props.Cyclic.C103_api_sand_between",
    "OpenPile.Props.Cyclic.C103_api_clay_default",
    "OpenPile.Props.Cyclic.C103_modified_matlock_between",
    "OpenPile.Props.Cyclic.C103_violated_peak",
    "OpenPile.Props.Cyclic.C103_model_clay",
    "OpenPile.Props.Cyclic.C103_model_sand"
   ],
   "note": "Full statement for sand (C103_api_sand, C103_api_sand_between), modified Matlock clay (C103_modified_matlock) and the springs of a Model (C103_model_clay, C103_model_sand, same random values). api_clay and matlock_1970: exact outside the interval from 3 to 3.0002 y50 and up to 0.002 % inside (C103_api_clay_partial, C103_matlock_partial); inside it is violated below the transition depth (C103_violated_peak)."
  },
  {
   "property": "C104",
   "status": "partial",
   "theorems": [
    "OpenPile.Props.Release.C104_calls_partial",
    "OpenPile.Props.Release.C104_violated_fraction",
    "OpenPile.Props.ReleaseSoil.C104_soil_partial"
   ],
   "note": "Proved for reactions that are whole numbers, from the public calls: without soil (C104_calls_partial) and with soil when the first analysis ends with a zero residual and every spring on its first branch (C104_soil_partial; mobilised springs agree too). Violated for every other reaction: set_pointload truncates it, so the displacements always change (C104_violated_fraction; 1.5 kN at the head of a propped cantilever)."
  },
  {
   "property": "C105",
   "status": "partial",
   "theorems": [
    "OpenPile.Props.StrongerCapacity.C105_capacity_partial",
    "OpenPile.Props.StrongerCapacity.C105_violated_wall"
   ],
   "note": "Proved for whole Models as in C56 (layers meet exactly, levels on the 0.1 mm grid, pile head not below ground), with walls at the tip not thicker than the radius and plugging unchanged. Violated for thicker walls: a wall between radius and diameter is accepted and a thicker one lowers the tip resistance."
  },
  {
   "property": "C106",
   "status": "partial",
   "theorems": [
    "OpenPile.Props.Levels.C106_violated_joint",
    "OpenPile.Props.Levels.C106_violated_outside",
    "OpenPile.Props.Levels.C106_exactly_partial",
    "OpenPile.Props.Levels.C106_violated_soil_joint",
    "OpenPile.Props.Levels.C106_violated_buried",
    "OpenPile.Props.Levels.C106_violated_layer"
   ],
   "note": "False: any joint between sections that is no multiple of 0.1 mm (C106_violated_joint, C106_violated_soil_joint) and any level off the pile, such as the ground level above a buried head (C106_violated_outside, C106_violated_buried), leaves an element without section data, so no analysis gives numbers. Any layer boundary that is no multiple of 0.1 mm leaves an element without springs, silently (C106_violated_layer). C106_exactly_partial tells exactly when all elements have section data, for levels on the pile. Missing: the levels closer than 0.1 mm."
  },
  {
   "property": "C107",
   "status": "partial",
   "theorems": [
    "OpenPile.Props.Similar.C107_mesh",
    "OpenPile.Props.Similar.C107_similar_partial",
    "OpenPile.Props.Similar.C107_pile",
    "OpenPile.Props.Similar.C107_violated_truncated",
    "OpenPile.Props.Similar.C107_violated_rounding"
   ],
   "note": "proved when the mesh points are multiples of 0.1 mm, the loads whole numbers and every condition near a node is at that node; rounding of the nodes and truncation of the loads violate it otherwise; small reactions are masked, so reactions are left out"
  },
  {
   "property": "C108",
   "status": "partial",
   "theorems": [
    "OpenPile.Props.Handles.C108_copies_partial",
    "OpenPile.Props.Handles.C108_violated_nodes",
    "OpenPile.Props.Handles.C108_result_partial",
    "OpenPile.Props.Handles.C108_violated_result"
   ],
   "note": "Holds for every session that edits only copies. Violated for nodes_coordinates (an edit makes solve raise, for every Model without soil) and for displacements (the result shows what was written)."
  },
  {
   "property": "C109",
   "status": "proved",
   "theorems": [
    "OpenPile.Props.Pull.C109_iteration",
    "OpenPile.Props.Pull.C109_beam",
    "OpenPile.Props.Pull.C109_tables",
    "OpenPile.Props.Pull.C109_across"
   ],
   "note": "Equal friction both ways: plugging none or both with tension_multiplier 1, tension with 2, compression with 1/2 (openpile takes the inner perimeter to be the outer one, see C36). z_multiplier not negative."
  },
  {
   "property": "C110",
   "status": "partial",
   "theorems": [
    "OpenPile.Props.PileTables.C110_printed",
    "OpenPile.Props.PileTables.C110_data",
    "OpenPile.Props.PileTables.C110_volume",
    "OpenPile.Props.PileTables.C110_order",
    "OpenPile.Props.PileTables.C110_violated_material",
    "OpenPile.Props.PileTables.C110_violated_text"
   ],
   "note": "Holds for the sections (C110_printed, C110_data, C110_order, C110_volume). The code violates it for the material, which no table shows, and for txt_pile, which reads attributes no Pile has and always raises."
  },
  {
   "property": "C111",
   "status": "proved",
   "theorems": [
    "OpenPile.Props.Uplift.C111_tip",
    "OpenPile.Props.Uplift.C111_balance",
    "OpenPile.Props.Uplift.C111_model",
    "OpenPile.Props.Uplift.C111_no_shaft"
   ],
   "note": "C111_tip for the springs of every Model, C111_balance for given springs and mesh, C111_model from the public calls to the tables, C111_no_shaft without friction. Standing assumptions of C59 (layers meet exactly, head not below ground)."
  },
  {
   "property": "C112",
   "status": "partial",
   "theorems": [
    "OpenPile.Props.Accept.C112_amount",
    "OpenPile.Props.Accept.C112_amount_iff",
    "OpenPile.Props.Accept.C112_lateral",
    "OpenPile.Props.Accept.C112_axial",
    "OpenPile.Props.Accept.C112_model_partial",
    "OpenPile.Props.Accept.C112_uplift",
    "OpenPile.Props.Accept.C112_usual",
    "OpenPile.Props.Accept.C112_silent_partial",
    "OpenPile.Props.Accept.C112_violated_angle",
    "OpenPile.Props.Accept.C112_violated_function",
    "OpenPile.Props.Accept.C112_violated_density",
    "OpenPile.Props.Accept.C112_violated_shape"
   ],
   "note": "C112_amount, C112_amount_iff, C112_lateral, C112_axial, C112_model_partial (composition with C64), C112_usual, C112_silent_partial (composition with C87), C112_uplift (hypothesis of C111). Functions of the depth are asked to have values in the ranges that the class sets for numbers. Violated: C112_violated_angle (a friction angle given as a number has no upper limit, lists are limited to 45 degrees: negative friction), C112_violated_function (functions as axial multipliers), C112_violated_density (the relative density of Dunkirk sand has no upper limit: p-y springs at negative displacements), C112_violated_shape (custom curves for which the conic divides zero by zero). C64_violated_dense (Dunkirk sand of 100 %: a p-y curve divides zero by zero). Missing: which other shapes above 1/2 and densities between 50 and 100 % are defined."
  },
  {
   "property": "C113",
   "status": "partial",
   "theorems": [
    "OpenPile.Props.Shown.C113_beam",
    "OpenPile.Props.Shown.C113_soil",
    "OpenPile.Props.Shown.C113_violated_zero"
   ],
   "note": "C113_beam and C113_soil: for every pile of stacked sections, mesh, springs, switches and history of calls, an analysis that gives numbers shows what was set (Shows). Partial because a displacement of zero is not a prescribed displacement for the code: C113_violated_zero, with and without soil, and the analysis then is that without the call. Where two calls of one kind name different elevations that go to the same node nothing is claimed (C14_violated_falsy_not_written)."
  },
  {
   "property": "C114",
   "status": "proved",
   "theorems": [
    "OpenPile.Props.Superpose.C114_superposition",
    "OpenPile.Props.Superpose.C114_reciprocity"
   ],
   "note": "C114_superposition: the third result, whenever numbers are returned, has no out-of-balance force, is reached in two or three passes and is the combination in displacements, section forces and (to rounding) reactions; nothing is assumed of how the iteration goes for it. C114_reciprocity: work of one case on the listed displacements of the other, without displacement conditions. The first branch is stated on the listed displacements (OnFirstBranch); a combination without loads and reactions gives NaN (C60_linear_exactly) and is outside the statement."
  },
  {
   "property": "C115",
   "status": "partial",
   "theorems": [
    "OpenPile.Props.Held.C115_violated_timoshenko",
    "OpenPile.Props.NoRotation.C115_default_partial",
    "OpenPile.Props.Towards.C115_work_partial",
    "OpenPile.Props.Towards.C115_single_partial",
    "OpenPile.Props.Towards.C115_calls_partial"
   ],
   "note": "C115_work_partial, C115_single_partial, C115_calls_partial: proved for all p-y, t-z and base tables whatever their shape, both element types; rotational springs along the shaft with Euler-Bernoulli elements and tables whose second rotation is positive. C115_violated_timoshenko: with Timoshenko elements the matrix of rotational springs is not that of the theory (C18); for a solid pile of 3 m diameter with any lateral springs, every rotational stiffness above some threshold makes the analysis of a small lateral head load converge, without residual, to a head displacement against the load. C115_default_partial: from the Model, any switches and both element types where no layer has rotational springs."
  },
  {
   "property": "C116",
   "status": "partial",
   "theorems": [
    "OpenPile.Props.NoRotation.C116_default_partial",
    "OpenPile.Props.StifferSoil.C116_tables_partial",
    "OpenPile.Props.StifferSoil.C116_deflection_partial",
    "OpenPile.Props.StifferSoil.C116_switches_partial"
   ],
   "note": "Proved while every spring stays on its first branch, with the residuals the analyses report; switching kinds of springs on is a case of it, proved from the Model (C116_default_partial for any switches where no layer has rotational springs). Missing: later branches, and rotational springs along the shaft with Timoshenko elements or with tables that do not go on from the origin to a positive rotation."
  },
  {
   "property": "C117",
   "status": "partial",
   "theorems": [
    "OpenPile.Props.PullCapacity.C117_tables_partial",
    "OpenPile.Props.PullCapacity.C117_graded_partial",
    "OpenPile.Props.PullCapacity.C117_partial",
    "OpenPile.Props.PullCapacity.C117_uniform_partial"
   ],
   "note": "The bound carries a factor rho, by which the listed settlements of neighbouring nodes differ; it cannot be dropped, since a sliding element carries more than its strength unless both ends move equally (C74_violated_sliding); and, on meshes of uneven elements, a factor 2, because shaft_resistance gives each end of an element half the mean length of the two elements that meet there (C44). On elements of one length the factor 2 is absent (C117_uniform_partial). The example of a solved analysis is given on spring tables (C117_tables_partial), and the example of API springs on a Model; no solved analysis with API curves is shown."
  },
  {
   "property": "C118",
   "status": "partial",
   "theorems": [
    "OpenPile.Props.PushCapacity.C118_tables_partial",
    "OpenPile.Props.PushCapacity.C118_graded_partial",
    "OpenPile.Props.PushCapacity.C118_partial",
    "OpenPile.Props.PushCapacity.C118_uniform_partial"
   ],
   "note": "As for C117 the shaft term carries a factor rho, by which the listed settlements of neighbouring nodes differ, and on meshes of uneven elements a factor 2; on elements of one length the factor 2 is absent (C118_uniform_partial). The examples are a solved analysis on spring tables and the spring under the tip of a Model in clay; no solved analysis with API curves is shown."
  },
  {
   "property": "C119",
   "status": "partial",
   "theorems": [
    "OpenPile.Props.Multiplied.C119_partial",
    "OpenPile.Props.Multiplied.C119_deflection_partial",
    "OpenPile.Props.NoRotation.C119_default_partial"
   ],
   "note": "C119_partial compares the work of the loads and C119_deflection_partial the movement under a single lateral load, up to the reported residuals, for any soil models, any number of layers, and any multipliers with 0 <= p <= p' and 0 < y' <= y, likewise for t and z, Q and w. C119_default_partial: any switches where no layer has rotational springs. Missing: springs beyond their first branch, layers with rotational springs along the shaft, prescribed displacements."
  },
  {
   "property": "C120",
   "status": "proved",
   "theorems": [
    "OpenPile.Props.NoRotation.C120_analysis",
    "OpenPile.Props.NoRotation.C120_analysis_iff",
    "OpenPile.Props.NoRotation.C120_model",
    "OpenPile.Props.NoRotation.C120_model_iff"
   ],
   "note": "C120_model from the public calls, C120_analysis for any tables whose first row has no rotations: what returns with the switch on returns the same with it off. C120_model_iff and C120_analysis_iff: with the lateral springs on, also the other way round; with them off the switch of rotational springs makes solve() raise (C100_moment_alone). From it follow C59_moment_default_partial, C84_default_partial, C85_default_partial, C115_default_partial, C116_default_partial and C119_default_partial."
  }
 ]
}