{"id": "C01", "title": "rotation_matrix is Rodrigues' rotation", "statement": "For every non-zero axis k and every angle theta, rotation_matrix(k, theta) applied to any vector v equals Rodrigues' rotation of v about k/|k| by theta; hence it preserves dot and cross products (proper rotation), and fixes the axis. For a zero axis no finite matrix is produced.", "quantifier": "all axes in R^3, all real angles, all vectors", "why_tests_cant": "uncountably many axes/angles; tests sample a few", "anchors": ["pySailingVLM/rotations/geometry_calc.py: rotation_matrix"]}
{"id": "C02", "title": "rotation_matrix composes like a one-parameter group", "statement": "For a fixed non-zero axis, rotating by a then by b equals rotating by a+b; rotating by -a undoes rotating by a; multiplying the axis by a positive factor does not change the matrix, by a negative factor reverses the angle.", "quantifier": "all non-zero axes, all angles a, b, all vectors, all scale factors", "why_tests_cant": "universally quantified algebraic law", "anchors": ["pySailingVLM/rotations/geometry_calc.py: rotation_matrix"]}
{"id": "C03", "title": "rotation about an arbitrary line is a rigid rotation about that line", "statement": "rotate_points_around_arbitrary_axis(ps, p1, p2, theta) returns, point by point, Rodrigues' rotation about the line through p1 with direction p2-p1; it leaves points of the line fixed, preserves distances, and depends on each point separately. (The code can only do this when the axis is not parallel to x: then it divides by zero.)", "quantifier": "all point lists, all axis points p1, p2, all angles", "why_tests_cant": "needs every axis direction, including the degenerate ones", "anchors": ["pySailingVLM/rotations/geometry_calc.py: rotate_points_around_arbitrary_axis"]}
{"id": "C04", "title": "the uniform-twist shortcut does not change the result", "statement": "SailGeometry.rotate_points_around_le returns the same points whether or not it takes the 'all twist angles are equal' shortcut: point i is always rotated about the line p1p2 by its own twist angle.", "quantifier": "all point arrays, all twist arrays of the same length, all axes", "why_tests_cant": "optimisation equivalence for every input", "anchors": ["pySailingVLM/yacht_geometry/sail_geometry.py: SailGeometry.rotate_points_around_le"]}
{"id": "C05", "title": "heel/leeway transform can be undone", "statement": "reverse_rotations_with_mirror undoes rotate_point_with_mirror (upright -> heeled -> upright is the identity).", "quantifier": "all heel and leeway angles, all points", "why_tests_cant": "sign-dependent branch on both sides; tests use one point", "anchors": ["pySailingVLM/rotations/csys_transformations.py: CSYS_transformations.rotate_point_with_mirror, reverse_rotations_with_mirror"]}
{"id": "C06", "title": "heel/leeway transform respects the water mirror", "statement": "Rotating the mirror image (z -> -z) of a point off the water plane gives the mirror image of the rotated point; distances between points on the same side are preserved.", "quantifier": "all heel and leeway angles, all points with z != 0", "why_tests_cant": "universally quantified geometric law", "anchors": ["pySailingVLM/rotations/csys_transformations.py: CSYS_transformations.rotate_point_with_mirror"]}
{"id": "C07", "title": "centreline transform is a rigid change of horizontal axes", "statement": "from_xyz_to_centerline_csys preserves every vector's length and z component, and commutes with sums: the total force/moment in the centreline system is the transform of the total.", "quantifier": "all leeway angles, all lists of vectors", "why_tests_cant": "all inputs", "anchors": ["pySailingVLM/rotations/csys_transformations.py: from_xyz_to_centerline_csys, calc_centerline_moments", "pySailingVLM/results/inviscid_flow.py: InviscidFlowResults"]}
{"id": "C08", "title": "COW components are taken along the yacht's own centreline", "statement": "from_xyz_to_centerline_csys expresses a vector along the axes of the yacht as placed by rotate_point_without_mirror: the image of the yacht's upright x axis gets components (1,0,0), and the horizontal angle of a converted vector is its COG angle minus leeway (as in the AWA_COW columns).", "quantifier": "all leeway angles and vectors", "why_tests_cant": "sign convention must agree for every leeway, tests encode the implementation's formula", "anchors": ["pySailingVLM/rotations/csys_transformations.py: from_xyz_to_centerline_csys", "pySailingVLM/inlet/inlet_conditions.py: to_df_full"]}
{"id": "C09", "title": "discrete_segment divides a segment uniformly", "statement": "For n >= 1, discrete_segment(p1, p2, n) has exactly n+1 points, starts at p1, ends at p2, and point i is p1 + (i/n)(p2-p1).", "quantifier": "all end points, all n", "why_tests_cant": "all n", "anchors": ["pySailingVLM/solver/mesher.py: discrete_segment, make_point_mesh"]}
{"id": "C10", "title": "camber line shape", "statement": "For every accepted (camber m, position p) the camber ordinate is between 0 and m on the whole chord, equals m at x = p, is 0 at the trailing edge, and is 0 at the leading edge when p > 0; parameters outside 0<=m<=0.3, 0<=p<=0.9, 0<=t<=0.4 terminate the program with status 1.", "quantifier": "all m, p, t, all x in [0,1], all n", "why_tests_cant": "real-valued parameters", "anchors": ["pySailingVLM/thin_airfoil/vlm_airfoil.py: VlmAirfoil"]}
{"id": "C11", "title": "camber slope and surfaces", "statement": "The slope used for the airfoil surfaces is the derivative of the camber line at every x of the chord (both branches, including x = p); upper and lower surface points are symmetric about the camber point, 2*yt apart, and the section closes at the trailing edge.", "quantifier": "all accepted m, p, t and all x in [0,1]", "why_tests_cant": "calculus statement over a continuum", "anchors": ["pySailingVLM/thin_airfoil/vlm_airfoil.py: VlmAirfoil"]}
{"id": "C12", "title": "airfoil mesh geometry", "statement": "make_airfoil_mesh returns n_spanwise+1 rows of n_chordwise+1 points; with mounting points in the plane y=0, row r starts on the luff at fraction r/n_spanwise, ends one chord behind it, stays at constant height, and no offset exceeds chord*camber.", "quantifier": "all mounting points, grid sizes, chords, cambers, positions", "why_tests_cant": "all grid sizes", "anchors": ["pySailingVLM/solver/mesher.py: make_airfoil_mesh"]}
{"id": "C13", "title": "panels tile the mesh", "statement": "make_panels_from_mesh_spanwise returns (rows-1)*(cols-1) panels, chordwise-major; panel (i,j) has the four surrounding mesh points as corners in the order SE, SW, NW, NE; chordwise and spanwise neighbours share exactly their common edge.", "quantifier": "all mesh shapes and points", "why_tests_cant": "all mesh sizes", "anchors": ["pySailingVLM/solver/panels.py: make_panels_from_mesh_spanwise, make_panels_from_le_te_points"]}
{"id": "C14", "title": "leading/trailing edge flags", "statement": "trailing_edge_info is true exactly on the last chordwise row; leading_edge_info exactly on the first row when there are at least two rows, and nowhere when there is one row.", "quantifier": "all mesh shapes", "why_tests_cant": "all sizes, including the one-row special case", "anchors": ["pySailingVLM/solver/panels.py: make_panels_from_mesh_spanwise"]}
{"id": "C15", "title": "panel areas", "statement": "get_panels_area returns, for every planar quadrilateral panel, its area.", "quantifier": "all panels", "why_tests_cant": "all quadrilaterals; tests use one rectangle", "anchors": ["pySailingVLM/solver/panels.py: get_panels_area"]}
{"id": "C16", "title": "SailGeometry keeps the luff and passes its own self-checks", "statement": "When SailGeometry is built from valid arrays (camber positions > 0, luff not horizontal), construction succeeds: the luff points are not moved by the twist, each twisted point keeps its distance to the luff points, and both internal assertions hold.", "quantifier": "all mounting points in y=0 above the water, all sizes, all twists, cambers, chords, heel and leeway", "why_tests_cant": "all sizes and real parameters", "anchors": ["pySailingVLM/yacht_geometry/sail_geometry.py: SailGeometry.__init__"]}
{"id": "C17", "title": "the underwater sail is the mirror image of the sail", "statement": "For a sail above the water, the panels returned as panels_under are the mirror images (z -> -z) of panels_above, in reversed spanwise order and with S/N corners exchanged.", "quantifier": "all mounting points, sizes, chord/camber/position/twist distributions, heel, leeway", "why_tests_cant": "all distributions, not just the constant ones of the tests", "anchors": ["pySailingVLM/yacht_geometry/sail_geometry.py: SailGeometry"]}
{"id": "C18", "title": "twist mode selects the twist distribution", "statement": "SailGeometry(LLT_twist=mode) twists with the minimum twist everywhere for 'sheeting_angle_const', with the average for 'average_const', with the given distribution for 'real_twist'; any other name is a KeyError.", "quantifier": "all twist arrays, all modes", "why_tests_cant": "dataflow over all inputs", "anchors": ["pySailingVLM/yacht_geometry/sail_geometry.py: SailGeometry.__init__"]}
{"id": "C19", "title": "rig geometry", "statement": "make_main_sail puts the tack at (sheer + boom) along the raked mast and the head one luff length further along it; make_jib puts the tack forward of the mast by base + mast_LOA/sin(rake) and the head one luff length away, in the direction of the forestay of the given foretriangle.", "quantifier": "all rig dimensions and rake angles", "why_tests_cant": "trigonometric identities over all rakes, arcsin branch", "anchors": ["pySailingVLM/yacht_geometry/sail_factory.py: SailFactory"]}
{"id": "C20", "title": "sail set layout", "statement": "SailSet concatenates: all above-water panels of the sails in order, then all underwater panels in the same order; flags follow the same order; extract_above_water_quantities returns exactly the above-water half and its sum.", "quantifier": "all lists of sails (any number, any sizes)", "why_tests_cant": "all numbers of sails and sizes", "anchors": ["pySailingVLM/yacht_geometry/sail_geometry.py: SailSet", "pySailingVLM/solver/additional_functions.py: extract_above_water_quantities"]}
{"id": "C21", "title": "wind profiles at and away from the reference height", "statement": "At the reference height each profile gives speed tws_ref (exponential: with reference water level 0); true wind is horizontal with direction alpha; exponential and logarithmic profiles increase with height.", "quantifier": "all parameters and heights", "why_tests_cant": "real parameters", "anchors": ["pySailingVLM/inlet/winds.py: FlatWindProfile, LogWindProfile, ExpWindProfile"]}
{"id": "C22", "title": "apparent wind is the vector sum and its angle formula agrees", "statement": "get_app_infs_at_h adds the yacht speed to the x component; its length obeys the cosine law, and get_app_alfa_infs_at_h is the direction of that vector.", "quantifier": "all wind angles, speeds and yacht speeds", "why_tests_cant": "identity over all angles; arccos branch", "anchors": ["pySailingVLM/inlet/winds.py: WindBase"]}
{"id": "C23", "title": "wind profile selection rejects bad configurations", "statement": "Wind(conditions).profile builds the profile that is named; an unknown name, or a missing parameter needed by the named profile, is rejected.", "quantifier": "all profile names and parameter presence patterns", "why_tests_cant": "all strings", "anchors": ["pySailingVLM/runner/sail.py: Wind"]}
{"id": "C24", "title": "inlet wind is the same at a panel and its mirror", "statement": "InletConditions uses the height above water: points mirrored in the water plane get identical true and apparent wind, with zero vertical component.", "quantifier": "all wind profiles and point lists", "why_tests_cant": "all inputs", "anchors": ["pySailingVLM/inlet/inlet_conditions.py: InletConditions"]}
{"id": "C25", "title": "vortex_line is the Biot-Savart integral", "statement": "Outside its core, vortex_line(p, p1, p2, gamma) equals gamma/(4 pi) times the line integral of dl x (p-x)/|p-x|^3 along the segment; inside the core it is zero.", "quantifier": "all points, segments, strengths", "why_tests_cant": "analytic identity over a continuum", "anchors": ["pySailingVLM/solver/velocity.py: vortex_line, is_in_vortex_core"]}
{"id": "C26", "title": "symmetries of the vortex kernels", "statement": "vortex_line and vortex_infinite_line are linear in gamma, change sign when the segment is reversed, are orthogonal to the filament, and commute with translations, rotations and (with a sign) reflections.", "quantifier": "all points, segments, strengths and rigid motions", "why_tests_cant": "all rigid motions", "anchors": ["pySailingVLM/solver/velocity.py: vortex_line, vortex_infinite_line"]}
{"id": "C27", "title": "vortex_infinite_line is the limit of long segments", "statement": "As the far end goes to infinity in the wind direction, vortex_line from A converges to vortex_infinite_line from A, at every point off the line.", "quantifier": "all points off the ray's line, all directions", "why_tests_cant": "limit statement", "anchors": ["pySailingVLM/solver/velocity.py: vortex_infinite_line"]}
{"id": "C28", "title": "rings and horseshoes", "statement": "A ring is invariant under cyclic relabelling and changes sign when traversed backwards; edges shared by two rings of equal strength cancel; a horseshoe is the limit of rings whose trailing edge recedes downwind; vortex_horseshoe and vortex_horseshoe_v2 agree when the chordwise legs are aligned with the wind.", "quantifier": "all points and corner positions", "why_tests_cant": "all geometries / limit", "anchors": ["pySailingVLM/solver/velocity.py: vortex_ring, vortex_horseshoe, vortex_horseshoe_v2"]}
{"id": "C29", "title": "induced velocity scales with geometry", "statement": "Scaling all points by s > 0 divides the velocity induced by a vortex segment by s.", "quantifier": "all points, segments and scale factors", "why_tests_cant": "all scales, incl. near the core cut-off", "anchors": ["pySailingVLM/solver/velocity.py: vortex_line"]}
{"id": "C30", "title": "no flow through the sails", "statement": "The circulations returned by the solver make the total velocity at every control point tangential to its panel; in exact arithmetic the internal no-flux assertion never fires when panel areas are not degenerate.", "quantifier": "all panel arrays and winds for which the solver returns", "why_tests_cant": "every geometry and size", "anchors": ["pySailingVLM/solver/vlm.py: Vlm.__post_init__", "pySailingVLM/solver/coefs.py: solve_eq, calculate_RHS, calc_velocity_coefs"]}
{"id": "C31", "title": "no-flux check is exact", "statement": "is_no_flux_BC_satisfied returns True iff every area is at least 1e-14 and every normal flux is at most 1e-12 in absolute value, and raises ValueError otherwise.", "quantifier": "all velocity, area and normal arrays", "why_tests_cant": "all arrays", "anchors": ["pySailingVLM/solver/forces.py: is_no_flux_BC_satisfied"]}
{"id": "C32", "title": "control points, pressure points and normals", "statement": "For every panel with non-parallel diagonals: the normal has unit length and is orthogonal to both diagonals; ctr_p and cp lie at 3/4 and 1/4 of the mid-chord line; the bound vortex runs along the quarter-chord line.", "quantifier": "all panels", "why_tests_cant": "all panels", "anchors": ["pySailingVLM/solver/coefs.py: calculate_vlm_variables, calculate_normals_collocations_cps_rings_spans_leading_trailing_mid_points"]}
{"id": "C33", "title": "vortex lattice is watertight and index-safe", "statement": "For panels and flags produced by the mesher for any number of equal-sized sail blocks, calculate_vlm_variables never indexes out of range; each ring's rear edge is the bound vortex of the next panel downstream in the same sail, and last-row rings end a quarter chord behind the trailing edge.", "quantifier": "all numbers of blocks and grid sizes", "why_tests_cant": "all sizes; an off-by-one would silently mix sails", "anchors": ["pySailingVLM/solver/coefs.py: calculate_vlm_variables"]}
{"id": "C34", "title": "force differences use the upstream panel of the same sail", "statement": "For meshed sail sets, the index i - n_spanwise used in the force computation is never negative and always denotes the panel directly upstream on the same sail; leading-edge panels (and one-row sails) use their own circulation.", "quantifier": "all grid sizes and sail counts", "why_tests_cant": "Python negative indices wrap silently", "anchors": ["pySailingVLM/solver/forces.py: calc_force_wrapper"]}
{"id": "C35", "title": "force decomposition", "statement": "force_xyz is lift + drag panel by panel; lift is orthogonal to the apparent wind, drag to the induced velocity, the total to the local velocity, and all to the bound vortex; an unknown force name terminates the program.", "quantifier": "all solver inputs", "why_tests_cant": "all inputs", "anchors": ["pySailingVLM/solver/forces.py: calc_force_wrapper"]}
{"id": "C36", "title": "results do not depend on the circulation orientation", "statement": "Changing gamma_orientation to any other non-zero value rescales the circulations only; velocities, forces, pressures are unchanged.", "quantifier": "all geometries, winds and non-zero orientations", "why_tests_cant": "all inputs", "anchors": ["pySailingVLM/solver/vlm.py: Vlm", "pySailingVLM/runner/aircraft.py: Aircraft"]}
{"id": "C37", "title": "dynamic similarity in wind speed", "statement": "Multiplying all winds by lambda > 0 multiplies circulations and induced velocities by lambda, forces and pressures by lambda^2, and leaves pressure and section coefficients unchanged.", "quantifier": "all geometries, winds, lambda > 0", "why_tests_cant": "all inputs", "anchors": ["pySailingVLM/solver/vlm.py: Vlm", "pySailingVLM/solver/coefs.py: get_C"]}
{"id": "C38", "title": "density scaling", "statement": "Circulations and velocities do not depend on rho; forces and pressures are proportional to rho and coefficients independent of it.", "quantifier": "all geometries, winds, rho", "why_tests_cant": "all inputs", "anchors": ["pySailingVLM/solver/vlm.py: Vlm"]}
{"id": "C39", "title": "the water surface is a mirror plane of the solution", "statement": "For a mirror-symmetric sail set in a mirror-symmetric horizontal wind, circulations of a panel and its mirror are equal, forces are mirror images, and the velocity induced by the whole lattice at any point of the water plane has no vertical component.", "quantifier": "all mirror-symmetric panel sets for which the solver returns", "why_tests_cant": "whole-system property over all geometries", "anchors": ["pySailingVLM/solver/vlm.py: Vlm", "pySailingVLM/yacht_geometry/sail_geometry.py: SailSet"]}
{"id": "C40", "title": "frame indifference", "statement": "Translating all panels leaves circulations, velocities and forces unchanged; rotating panels and winds together rotates velocities and forces and leaves circulations, pressures and coefficients unchanged.", "quantifier": "all geometries, winds and rigid motions", "why_tests_cant": "all rigid motions", "anchors": ["pySailingVLM/solver/vlm.py: Vlm"]}
{"id": "C41", "title": "Aircraft.CL is the lift coefficient", "statement": "For a wing built by Aircraft, CL is the component of the total force normal to the free stream and the span divided by the dynamic pressure times area.", "quantifier": "all wing parameters", "why_tests_cant": "holds or fails for every wing", "anchors": ["pySailingVLM/runner/aircraft.py: Aircraft", "pySailingVLM/solver/coefs.py: get_vlm_CL_CD_free_wing"]}
{"id": "C42", "title": "pressure and pressure coefficient", "statement": "pressure is the normal force per area (force = pressure*area*n + tangential part) and p_coeffs is pressure over the local dynamic pressure of the undisturbed wind, panel by panel.", "quantifier": "all arrays", "why_tests_cant": "all inputs", "anchors": ["pySailingVLM/solver/forces.py: calc_pressure, calc_pressure_coeff"]}
{"id": "C43", "title": "section coefficients", "statement": "get_C returns for strip j of sail i the sum over the strip's panels of |force| over dynamic pressure, divided by the strip area; the plotted normalised distribution has area-weighted mean one.", "quantifier": "all sail counts, grid sizes, arrays", "why_tests_cant": "all sizes", "anchors": ["pySailingVLM/solver/coefs.py: get_C, get_data_for_coeff_plot"]}
{"id": "C44", "title": "CLI plots carry the right label", "statement": "The command line run plots the section lift coefficients in the figure labelled lift and the section drag coefficients in the figure labelled drag.", "quantifier": "all runs", "why_tests_cant": "dataflow over all runs", "anchors": ["pySailingVLM/runner/cli.py: main", "pySailingVLM/solver/panels_plotter.py: plot_section_coeff"]}
{"id": "C45", "title": "per-sail totals add up", "statement": "The per-sail force and moment totals sum to F_sails_total and M_sails_total, for any number of sails; each per-sail total is the sum over that sail's above-water panels.", "quantifier": "all sail counts and panel arrays", "why_tests_cant": "all partitions", "anchors": ["pySailingVLM/results/inviscid_flow.py: InviscidFlowResults"]}
{"id": "C46", "title": "moments about a shifted reference point", "statement": "Moving the reference point by v changes the above-water moment by -v x F; moment arms of mirrored points are mirror images.", "quantifier": "all points, forces and shifts", "why_tests_cant": "all inputs", "anchors": ["pySailingVLM/solver/forces.py: calc_moment_arm_in_shifted_csys, calc_moments"]}
{"id": "C47", "title": "centre of effort", "statement": "determine_vector_from_its_dot_and_cross_product recovers r from F, r.F and r x F for every r and F != 0; the reported centre of effort, loaded with the total force, reproduces the reported total moment.", "quantifier": "all vectors; all panel force/arm lists", "why_tests_cant": "all inputs", "anchors": ["pySailingVLM/solver/forces.py: determine_vector_from_its_dot_and_cross_product", "pySailingVLM/results/inviscid_flow.py: InviscidFlowResults"]}
{"id": "C48", "title": "total (sail + keel) moment is a couple", "statement": "Sail force and keel reaction are equal and opposite, so the reported M_total does not depend on the chosen reference point for moments.", "quantifier": "all reference points, forces, keel positions", "why_tests_cant": "all inputs", "anchors": ["pySailingVLM/results/inviscid_flow.py: estimate_heeling_moment_from_keel, to_df_integral"]}
{"id": "C49", "title": "rows of the Components table are aligned", "statement": "Row r of the saved Components table describes panel r above the water in every column: force, moment, wind, upright height, girth and sail name all belong to the same panel of the same sail.", "quantifier": "all sail counts and grid sizes", "why_tests_cant": "all sizes: reordering errors only show for asymmetric data", "anchors": ["pySailingVLM/results/save_utils.py: save_results_to_file", "pySailingVLM/solver/additional_functions.py: get_cp_z_as_girths_all, get_cp_z_as_girths_all_above"]}
{"id": "C50", "title": "girth normalisation", "statement": "cp_to_girths maps heights affinely so that the tack is 0 and the highest pressure point is exactly 1; no value exceeds 1 when the highest point is above the tack.", "quantifier": "all point lists and tack positions", "why_tests_cant": "all inputs", "anchors": ["pySailingVLM/solver/additional_functions.py: cp_to_girths"]}
{"id": "C51", "title": "integrals report reflects the last keel estimate", "statement": "For any sequence of estimate_heeling_moment_from_keel calls and sails not called 'sails' or 'keel', to_df_integral contains the keel rows iff at least one call was made, computed from the last argument, and M_total rows are the sum of sail and keel rows.", "quantifier": "all histories of calls", "why_tests_cant": "all histories", "anchors": ["pySailingVLM/results/inviscid_flow.py: InviscidFlowResults.to_df_integral"]}
{"id": "C52", "title": "linear girth interpolation", "statement": "interpolate_girths('linear') returns n_points values, reproduces the data at the girths, stays within the data's range, is exact for affine data, and the mirrored version is palindromic; an unknown interpolation type is a KeyError.", "quantifier": "all strictly increasing girths, all data, all n_points", "why_tests_cant": "all inputs", "anchors": ["pySailingVLM/solver/interpolator.py: Interpolator"]}
{"id": "C53", "title": "sail input validation", "statement": "Sail(...) accepts exactly the configurations whose arrays for the selected sails are present and of equal shape; all other configurations stop with a diagnostic before any geometry is built.", "quantifier": "all presence/shape patterns and sails_def strings", "why_tests_cant": "all patterns", "anchors": ["pySailingVLM/runner/sail.py: Sail, check_list_for_none, check_input_arr_shapes"]}
{"id": "C54", "title": "apparent wind angle columns", "statement": "AWA_fs_COG_deg is the direction of the local apparent wind vector in the horizontal plane, consistently with AWA_infs_COG_deg.", "quantifier": "all velocity vectors", "why_tests_cant": "arctan versus arctan2 branch", "anchors": ["pySailingVLM/results/inviscid_flow.py: AWA_app_fs", "pySailingVLM/inlet/inlet_conditions.py: AWA_infs_deg"]}
{"id": "C55", "title": "theoretical free-wing coefficients", "statement": "get_CL_CD_free_wing satisfies CD = CL^2/(pi AR e), CL = 2 pi AR e alpha/(AR e + 2), CL odd and increasing in the angle, approaching the 2D slope as AR grows.", "quantifier": "all aspect ratios > 0 and angles", "why_tests_cant": "real parameters / limit", "anchors": ["pySailingVLM/solver/coefs.py: get_CL_CD_free_wing"]}
{"id": "C56", "title": "wind arrows are drawn for the first chordwise row of each sail", "statement": "display_winds selects, for every sail and mirror, exactly the n_spanwise panels of the first chordwise row, and its colour lookup never goes out of range.", "quantifier": "all grid sizes, one or two sails", "why_tests_cant": "all sizes", "anchors": ["pySailingVLM/solver/panels_plotter.py: display_winds"]}
{"id": "C57", "title": "hull and keel placement", "statement": "The centre of lateral resistance is rotated rigidly (length preserved, no mirror branch), and the underwater deck lines are the mirror images of the deck lines when the deck is above the water.", "quantifier": "all heel/leeway, hull dimensions", "why_tests_cant": "all inputs", "anchors": ["pySailingVLM/yacht_geometry/hull_geometry.py: HullGeometry"]}
{"id": "C58", "title": "section chordwise force telescopes", "statement": "With uniform wind and a straight (parallel, equal) set of bound vortices in a strip, the strip's lift is rho V x span times the circulation shed at its trailing edge (Kutta-Joukowski), for any number of chordwise panels.", "quantifier": "all n_chordwise, circulations", "why_tests_cant": "all sizes", "anchors": ["pySailingVLM/solver/forces.py: calc_force_wrapper"]}
{"id": "C59", "title": "CSYS constructor self-check never fails", "statement": "CSYS_transformations(heel, leeway, v) never raises: its four comparisons with scipy rotations succeed for every angle (in exact arithmetic).", "quantifier": "all heel and leeway angles", "why_tests_cant": "all angles, including negative ones and multiples of 360", "anchors": ["pySailingVLM/rotations/csys_transformations.py: CSYS_transformations.__init__"]}
{"id": "C60", "title": "trailing vortex is finite exactly off its wake ray", "statement": "vortex_infinite_line(P, A, r0) returns finite numbers exactly when the wind r0 is non-zero and P is not on the closed downstream ray from A; points upstream on the same line are fine.", "quantifier": "all points, ray origins and winds", "why_tests_cant": "the exceptional set is a ray of measure zero in R^3", "anchors": ["pySailingVLM/solver/velocity.py: vortex_infinite_line"]}
{"id": "C61", "title": "SailGeometry never hands out nan corners", "statement": "For every argument SailGeometry either returns finite panels or raises / stops the program; in particular, when twist is given and the heeled luff is parallel to the x axis (where the rotation formula divides by zero) the result is an AssertionError, not an array of nan.", "quantifier": "all SailGeometry arguments", "why_tests_cant": "All inputs, including degenerate luffs that appear only for special heel/leeway combinations, are covered.", "anchors": ["pySailingVLM/yacht_geometry/sail_geometry.py:SailGeometry.__init__", "pySailingVLM/rotations/geometry_calc.py:rotate_points_around_arbitrary_axis"]}
{"id": "C62", "title": "reference-height sheet repeats the user's wind", "statement": "With the exponential profile and water level 0 the wind report contains exactly the true wind the user specified (length |tws_ref|, direction alpha), the apparent wind obtained by adding the yacht speed, and its direction angle with and without leeway; for the other profiles it contains only a dummy row.", "quantifier": "all wind parameters with positive exponent and reference height", "why_tests_cant": "Identity over all real parameters, including powers and inverse tangents.", "anchors": ["pySailingVLM/inlet/winds.py:ExpWindProfile.to_df_integral", "pySailingVLM/results/save_utils.py:save_results_to_file"]}
{"id": "C63", "title": "free wing and sail solver are the same computation", "statement": "Whenever the Aircraft constructor returns, running the sail solver Vlm on the panels of the wing with the free stream as apparent wind at every panel also returns, with the same circulations, panel forces and pressures.", "quantifier": "all wings, discretisations, free streams, densities and unit circulations for which Aircraft returns", "why_tests_cant": "The two code paths build their vortex rings differently; equality is claimed for every discretisation and flow.", "anchors": ["pySailingVLM/runner/aircraft.py:Aircraft.__init__", "pySailingVLM/solver/vlm.py:Vlm.__post_init__", "pySailingVLM/solver/panels.py:make_panels_from_le_te_points"]}
{"id": "C64", "title": "free wing geometry", "statement": "Whenever the Aircraft constructor returns, its panels are the cells of an even chordwise by spanwise grid over the rectangular wing of the given chord (turned by the angle of attack) and half span, ordered chordwise row by row, with the last row flagged as trailing edge; the reported aspect ratio is span over chord.", "quantifier": "all chords, half spans, angles of attack and panel counts", "why_tests_cant": "Holds for every panel count and every real dimension.", "anchors": ["pySailingVLM/runner/aircraft.py:Aircraft.__init__"]}
{"id": "C65", "title": "sails_def selects the sails", "statement": "When the sail set is built, sails_def 'jib' gives a set with exactly the jib, 'main' one with exactly the main sail, and 'jib_and_main' the jib followed by the main sail, each built from its own configuration; the sails are reported under the names 'jib' and 'main_sail'. Any other value raises ValueError.", "quantifier": "all configurations of rig, solver, main sail and jib", "why_tests_cant": "All configurations and all strings are covered.", "anchors": ["pySailingVLM/runner/sail.py:Sail.__post_init__ / Sail.sail_set", "pySailingVLM/yacht_geometry/sail_factory.py:SailFactory"]}
{"id": "C66", "title": "well-formed configurations build", "statement": "For every configuration with linear or spline interpolation whose girths increase (at least four of them for splines), whose arrays have matching lengths, whose interpolated camber stays between 0 and 30 percent and its position behind the luff and within 90 percent of the chord, whose rig dimensions are given and whose heel is not 90 degrees, the selected sail set is built without an exception and has 2 * sails * n_chordwise * n_spanwise panels, with edge flags for each of them.", "quantifier": "all well-formed configurations, any number of girths, panels and either or both sails", "why_tests_cant": "Totality over all well-formed inputs, not only the examples.", "anchors": ["pySailingVLM/runner/sail.py:Sail.sail_set", "pySailingVLM/yacht_geometry/sail_factory.py:SailFactory", "pySailingVLM/yacht_geometry/sail_geometry.py:SailGeometry.__init__"]}
{"id": "C67", "title": "the force is shown by two equal and opposite arrows", "statement": "The picture of a run shows the force of the sails by exactly two arrows of length 0.8 times the mean apparent wind speed at the panels: one at the centre of effort, in the direction of the total force, and one at the centre of lateral resistance, in the opposite direction. A run without force cannot be drawn.", "quantifier": "all results and hulls", "why_tests_cant": "real-valued directions and lengths for all inputs", "anchors": ["pySailingVLM/solver/panels_plotter.py: display_CE_CLR, plot_vector", "pySailingVLM/solver/additional_functions.py: normalize"]}
{"id": "C68", "title": "every panel is drawn in the colour of its own value", "statement": "The picture of a VLM run draws every panel with the colour of its own pressure coefficient on a scale from the smallest to the largest coefficient; in the mode titled 'colored by optimal circulation' the colours are those of the circulations.", "quantifier": "all solved lattices", "why_tests_cant": "all lattices", "anchors": ["pySailingVLM/solver/panels_plotter.py: display_panels_xyz, display_panels_xyz_and_winds"]}
{"id": "C69", "title": "the map of the pressure coefficient shows each panel with its own value", "statement": "plot_cp, called with the upright mesh of the sail set and the pressure coefficients of the run, shows for every panel of every sail and image the closed side view of that panel on the upright yacht, with the coefficient computed for that panel.", "quantifier": "all sail sets and runs", "why_tests_cant": "orders of two independently built arrays must agree for all sizes", "anchors": ["pySailingVLM/solver/panels_plotter.py: plot_cp", "pySailingVLM/yacht_geometry/sail_geometry.py: SailGeometry, SailSet"]}
{"id": "C70", "title": "the axes of the picture have equal scale and contain the sails", "statement": "The three axes of the picture have intervals of equal length, and every drawn panel lies within them.", "quantifier": "all solved lattices", "why_tests_cant": "real-valued sizes", "anchors": ["pySailingVLM/solver/panels_plotter.py: set_ax_eq, display_panels_xyz"]}
{"id": "C71", "title": "a run writes its outputs in a fixed order and stops at the first failure", "statement": "Whatever the configuration, what a run of the command line program leaves behind is an initial part of the list workbook, copy of the case file, picture, pressure map, lift plot, drag plot; the program ends without exception exactly if the list is complete. A configuration with incomplete data for the selected sails or incomplete wind data is rejected before anything is written.", "quantifier": "all configurations; every point at which a step may fail", "why_tests_cant": "any step may fail", "anchors": ["pySailingVLM/runner/cli.py: main", "pySailingVLM/runner/sail.py: Wind, Sail"]}
{"id": "C72", "title": "an accepted configuration gives all outputs", "statement": "If the data of a run pass the checks and the flow can be computed, then all six outputs are produced and the program ends normally; if the solver fails, nothing is written.", "quantifier": "all configurations that pass the checks", "why_tests_cant": "real-valued data of any length", "anchors": ["pySailingVLM/runner/cli.py: main", "pySailingVLM/results/save_utils.py: save_results_to_file", "pySailingVLM/solver/panels_plotter.py"]}
{"id": "C73", "title": "the workbook of a run adds up", "statement": "In every workbook that a run writes, forces and moments of the selected sails add up to the reported totals of the sails, the keel moment is that of the opposite total force at the centre of lateral resistance of the heeled yacht, and the total moment is the sum of sails and keel.", "quantifier": "all configurations whose run writes a workbook", "why_tests_cant": "real-valued data, any number of panels", "anchors": ["pySailingVLM/runner/cli.py: main", "pySailingVLM/results/inviscid_flow.py", "pySailingVLM/results/save_utils.py: save_results_to_file"]}
{"id": "C74", "title": "the workbook of a run scales with density and wind speed", "statement": "If a run writes a workbook, the run with another density writes one in which every integral is multiplied by the ratio of the densities, and the run with wind and boat speed multiplied by a factor writes one in which every integral is multiplied by its square.", "quantifier": "all configurations whose run writes a workbook, all densities except 0, all positive factors", "why_tests_cant": "real-valued factors", "anchors": ["pySailingVLM/runner/cli.py: main", "pySailingVLM/results/inviscid_flow.py", "pySailingVLM/solver/vlm.py: Vlm"]}
{"id": "C77", "title": "a run computes the flow about the sail plan of variables.py", "statement": "For every well-formed configuration, the panels handed to the solver are those of the described sail plan: luffs along mast and forestay, chord, camber, camber position and twist of every row read off the polygons through the given values, the upright sail heeled, turned by leeway and twisted about its luff.", "quantifier": "all well-formed configurations", "why_tests_cant": "real-valued data of any length", "anchors": ["pySailingVLM/runner/cli.py: main", "pySailingVLM/runner/sail.py: Sail", "pySailingVLM/yacht_geometry/sail_factory.py", "pySailingVLM/yacht_geometry/sail_geometry.py"]}
{"id": "C75", "title": "data of a sail that is not used have no influence", "statement": "A run with the jib alone gives exactly the same outputs and the same end whatever the data of the main sail, the main luff and the boom height are, and a run with the main sail alone whatever the data of the jib, the jib luff, the foretriangle height and the mast diameter are, as long as those data give a twist or girths.", "quantifier": "all configurations with one sail, all data of the other sail", "why_tests_cant": "arbitrary data of the unused sail", "anchors": ["pySailingVLM/runner/cli.py: main", "pySailingVLM/runner/sail.py: Sail", "pySailingVLM/runner/container.py"]}
{"id": "C76", "title": "the picture does not depend on the reference point for moments", "statement": "Moving the reference point changes only reported moments: the picture shows the same panels and colours, hull, wind arrows, total force, centre of lateral resistance and centre of effort.", "quantifier": "all configurations whose run draws a picture, all displacements of the reference point", "why_tests_cant": "real-valued displacement", "anchors": ["pySailingVLM/runner/cli.py: main", "pySailingVLM/solver/panels_plotter.py: display_panels_xyz_and_winds", "pySailingVLM/results/inviscid_flow.py"]}
{"id": "C78", "title": "The induced flow has no sources", "statement": "Whenever Vlm returns, the velocities it reports at control points and pressure points are the local wind plus the values of one velocity field in space (that of the vortex rings, horseshoes and circulations found), and this field is differentiable with zero divergence at every point that is neither on a trailing vortex nor on the surface of a vortex core (also inside the cores, where the program sets a filament's velocity to zero).", "quantifier": "all Vlm inputs for which the solver returns, all points of space off the trailing vortices and core surfaces", "why_tests_cant": "conservation of mass is a statement about derivatives at every point of a continuum for every lattice; tests sample points and use finite differences", "anchors": ["pySailingVLM/solver/velocity.py:vortex_line", "pySailingVLM/solver/velocity.py:vortex_infinite_line", "pySailingVLM/solver/velocity.py:vortex_ring", "pySailingVLM/solver/velocity.py:vortex_horseshoe_v2", "pySailingVLM/solver/vlm.py:Vlm"]}
{"id": "C79", "title": "The induced flow is irrotational outside the vortices", "statement": "Whenever Vlm returns, the velocity field of its vortices has zero curl at every point outside the cores of the filaments and off the trailing vortices: rings and horseshoes are closed, no vorticity is left at their corners.", "quantifier": "all Vlm inputs for which the solver returns (and any lattice with any circulations), all points outside cores and off the trailing vortices", "why_tests_cant": "a missing or wrongly oriented edge leaves a vorticity that is small at most test points; irrotationality everywhere needs the derivative identity for all points and all lattices", "anchors": ["pySailingVLM/solver/velocity.py:vortex_line", "pySailingVLM/solver/velocity.py:vortex_infinite_line", "pySailingVLM/solver/velocity.py:vortex_ring", "pySailingVLM/solver/velocity.py:vortex_horseshoe_v2", "pySailingVLM/solver/vlm.py:Vlm"]}
{"id": "C80", "title": "Far upstream the wind is undisturbed", "statement": "Whenever Vlm returns there are constants C and R such that at every point at distance at least R from the origin and upstream of the starts of all trailing vortices the induced velocity is at most C divided by that distance.", "quantifier": "all Vlm inputs for which the solver returns, all points far enough away and upstream", "why_tests_cant": "an asymptotic bound over an unbounded region for every lattice cannot be sampled", "anchors": ["pySailingVLM/solver/velocity.py:vortex_line", "pySailingVLM/solver/velocity.py:vortex_infinite_line", "pySailingVLM/solver/vlm.py:Vlm"]}
{"id": "C81", "title": "Spline interpolation of the sail data", "statement": "interpolate_girths with type 'spline' succeeds for at least four increasing girths with one value each, and returns the values at n_points equidistant heights of the one twice continuously differentiable, piecewise cubic curve through the data (not-a-knot): data values are reproduced at the girths, cubic data exactly, linear data as by type 'linear', superposed data by superposed values. Fewer than four girths or unequal lengths are a TypeError, decreasing girths a ValueError.", "quantifier": "all numbers of girths, all data, all numbers of points", "why_tests_cant": "existence and uniqueness of the curve for arbitrary many points and exactness on all cubics cannot be sampled", "anchors": ["pySailingVLM/solver/interpolator.py:Interpolator.interpolate_girths"]}
{"id": "C82", "title": "Interpolation stays within the range of the data", "statement": "Every value returned by interpolate_girths lies in every interval that contains all given values, so valid data give valid sail sections.", "quantifier": "all data and all numbers of points, both interpolation types", "why_tests_cant": "overshoot depends on the data; no finite set of data excludes it", "anchors": ["pySailingVLM/solver/interpolator.py:Interpolator.interpolate_girths", "pySailingVLM/thin_airfoil/vlm_airfoil.py:VlmAirfoil.__init__"]}
{"id": "C83", "title": "Colours of the Excel file tell the coordinate system", "statement": "In the Excel file of a run, a cell is shown in the colour for COG or COW exactly if the quantity of its column (Components) or row (Integrals, IC_at_reference_height) is given in that coordinate system.", "quantifier": "all configurations whose run writes the file, all cells with data", "why_tests_cant": "The colours come from overlapping conditional formats whose effect depends on all rows at once; no test opens the file in a spreadsheet program.", "anchors": ["pySailingVLM/results/save_utils.py: save_to_excel, write_summary_sheet", "pySailingVLM/results/inviscid_flow.py: to_df_integral", "pySailingVLM/inlet/winds.py: to_df_integral"]}
{"id": "C84", "title": "Numbers of the Excel file are the computed ones up to rounding", "statement": "The sheet Components shows the computed numbers rounded to eight decimals, the two summary sheets those rounded to two decimals; shown forces of the sails add up to the shown total up to 0.015 N; quantities below 0.005 are shown as zero.", "quantifier": "all configurations whose run writes the file, all numbers", "why_tests_cant": "A test compares a few printed numbers of one run; the error bound must hold for all of them.", "anchors": ["pySailingVLM/results/save_utils.py: save_to_excel"]}
{"id": "C85", "title": "Port and starboard are equivalent", "statement": "A run of the same yacht on the other tack (heel, leeway, wind angle, twist and camber with opposite sign, reference point and centre of lateral resistance mirrored) writes the same workbook except for the sign of the lateral components, the moments about the longitudinal and vertical axes, the angles, circulations and pressures.", "quantifier": "all configurations whose run writes a workbook", "why_tests_cant": "sign conventions are spread over all files; a test compares one pair of runs, the claim is for all geometries, winds and meshes", "anchors": ["pySailingVLM/runner/cli.py: main", "pySailingVLM/yacht_geometry/sail_geometry.py: SailGeometry", "pySailingVLM/thin_airfoil/vlm_airfoil.py: VlmAirfoil.__init__", "pySailingVLM/inlet/winds.py", "pySailingVLM/solver/vlm.py: Vlm", "pySailingVLM/results/inviscid_flow.py"]}
{"id": "C86", "title": "Geometrically similar rigs give similar results", "statement": "Enlarging all panels and the heights of the wind profile by a factor s, with the same wind speeds, makes the solver report areas and forces multiplied by s squared and circulations multiplied by s, with the same velocities, pressures, pressure coefficients and section coefficients.", "quantifier": "all panel arrays, winds, profiles and factors s > 0 for which the solver returns", "why_tests_cant": "a test compares one pair of sizes, usually of the size of a real yacht, where the absolute lengths in the code do not show", "anchors": ["pySailingVLM/solver/vlm.py: Vlm", "pySailingVLM/solver/velocity.py: vortex_line", "pySailingVLM/solver/panels.py: get_panels_area", "pySailingVLM/solver/coefs.py", "pySailingVLM/inlet/winds.py"]}
{"id": "C87", "title": "Free-wing load is symmetric about mid-span", "statement": "Aircraft on a rectangular wing in a free stream without component along the span: panels at the same distance from the two tips (same chordwise row) have the same circulation and pressure and mirror-image forces, and the reported coefficients have no spanwise component, whatever chord, span, angle of attack, density and numbers of panels.", "quantifier": "every Aircraft that is constructed with V.z = 0; every chordwise row and spanwise position", "why_tests_cant": "symmetry has to hold for every discretisation and incidence; a test compares a few wings up to a tolerance", "anchors": ["pySailingVLM/runner/aircraft.py: Aircraft", "pySailingVLM/solver/coefs.py: solve_eq", "pySailingVLM/solver/forces.py: calc_force_wrapper, calc_pressure"]}
{"id": "C88", "title": "Only the incidence of the free wing matters", "statement": "Turning wing (AoA_deg) and free stream V together about the span turns all forces and Cxyz and leaves circulations and pressures alone; speed and density scale forces with rho V^2 and leave Cxyz alone; the opposite angle of attack in the reflected stream gives the reflected forces. The theoretical CL and CD depend on AoA_deg alone, so they refer to the incidence only for V along the x axis.", "quantifier": "every Aircraft that is constructed, every turning angle, speed factor > 0, density factor not 0", "why_tests_cant": "frame independence over all angles, speeds and densities; a test samples some", "anchors": ["pySailingVLM/runner/aircraft.py: Aircraft", "pySailingVLM/solver/coefs.py: get_vlm_Cxyz, get_CL_CD_free_wing"]}
{"id": "C89", "title": "No load exactly when the wind blows along every panel", "statement": "All circulations are zero if and only if the apparent wind at every panel is parallel to the panel; then all forces, pressures, pressure coefficients and induced velocities are zero. For the free wing: no circulation if and only if the free stream is parallel to the chord plane, and then CL = CD = 0.", "quantifier": "all panel arrays, flags and wind arrays for which the solver returns; all Aircraft that are constructed", "why_tests_cant": "an equivalence over all lattices and winds", "anchors": ["pySailingVLM/solver/vlm.py: Vlm", "pySailingVLM/solver/coefs.py: calc_velocity_coefs, solve_eq", "pySailingVLM/solver/forces.py: calc_force_wrapper, calc_pressure", "pySailingVLM/runner/aircraft.py: Aircraft"]}
{"id": "C90", "title": "A run touches only its own result files", "statement": "A run of the command line program creates or changes only five files, all in the directory output_args['name']: <file_name>.xlsx, the copy of the case file, cp_plot.html, section_cl.png and section_cd.png. This holds however the program ends, and also when it is killed at any moment, even while a file is being written. If the settings cannot be read nothing is changed. When it ends normally all five files exist with the computed contents; it ends normally exactly if the calculation and the outputs succeed and the case file exists in another directory than the results.", "quantifier": "all contents of variables.py, all file systems, search paths, working directories, points of interruption", "why_tests_cant": "the crash point and the contents of the disk are arbitrary", "anchors": ["pySailingVLM/runner/cli.py: main, load_variable_module", "pySailingVLM/results/save_utils.py: save_to_excel", "pySailingVLM/solver/panels_plotter.py: plot_cp, plot_section_coeff"]}
{"id": "C91", "title": "Results of earlier runs are kept", "statement": "The files of an earlier run are not changed by later runs, whether those finish, fail or are interrupted. (The shipped settings name the output directory after the current second.)", "quantifier": "all histories of finished, failed and interrupted runs", "why_tests_cant": "histories of any length with any crash points", "anchors": ["pySailingVLM/runner/cli.py: main", "pySailingVLM/variables.py: output_args", "pySailingVLM/results/save_utils.py: save_to_excel"]}
{"id": "C92", "title": "The option --dvars selects the case", "statement": "The settings are read from the file variables.py in the directory given by -dv/--dvars, also for a second call of main() in the same process.", "quantifier": "all directories, search paths of Python, contents of files, earlier calls in the process", "why_tests_cant": "depends on every directory in the search path and on the history of the process", "anchors": ["pySailingVLM/runner/cli.py: load_variable_module, parse_cli"]}
{"id": "C93", "title": "The archived case is the computed one", "statement": "After a run the case file stored next to the results is the file from which the results were computed.", "quantifier": "all case files, working directories and values of --dvars", "why_tests_cant": "relates two files for all locations of the case", "anchors": ["pySailingVLM/runner/cli.py: main", "pySailingVLM/variables.py: output_args", "pySailingVLM/examples/sweep_variables.py: output_args"]}
{"id": "C94", "title": "Exit status", "statement": "The exit status of the program is 0 if and only if the results are complete.", "quantifier": "all settings, file systems and ways in which the program ends", "why_tests_cant": "quantifies over all failures", "anchors": ["pySailingVLM/runner/cli.py: main, load_variable_module", "pySailingVLM/runner/sail.py: Wind, Sail", "pySailingVLM/__main__.py"]}
{"id": "C95", "title": "The sheet Components of a run", "statement": "In every run that writes its workbook the sheet Components has one row per panel above the water, sail after sail (jib, main sail). The row of a panel names its sail and contains all that was computed for this panel, the height of its pressure point on the upright yacht, and the girth (z - T)/(top - T) with T the height of the tack given by the rig (sheer line for the jib, boom for the main sail) and top the height of the sail's highest pressure point.", "quantifier": "all configurations whose run writes a workbook, all sails and panels", "why_tests_cant": "all configurations and discretisations; ties the configured rig to every row of the output", "anchors": ["pySailingVLM/runner/cli.py: main", "pySailingVLM/results/save_utils.py: save_results_to_file", "pySailingVLM/solver/additional_functions.py: get_cp_z_as_girths_all, cp_to_girths", "pySailingVLM/yacht_geometry/sail_factory.py: make_jib, make_main_sail"]}
{"id": "C96", "title": "Refining the mesh", "statement": "Multiplying the numbers of panels along the chord and along the span by a and b keeps the case valid and divides every panel: the corners of every panel of the coarse mesh are corners of the fine mesh, at the positions a times and b times theirs, so the sail is the same surface sampled more densely.", "quantifier": "all valid configurations, all factors a, b >= 1, either interpolation of the camber line", "why_tests_cant": "all discretisations", "anchors": ["pySailingVLM/yacht_geometry/sail_geometry.py: SailGeometry", "pySailingVLM/yacht_geometry/sail_factory.py: SailFactory", "pySailingVLM/solver/mesher.py: make_point_mesh, make_airfoil_mesh"]}
{"id": "C97", "title": "Bounds of induced velocities", "statement": "A filament of circulation gamma induces at most |gamma|/(2 pi d) at distance d, a trailing vortex likewise; however close the point, a filament of length l induces at most |gamma| l/(2 pi 1e-4). For a solved lattice the induced velocity at distance d or more from all vortices is at most 5 sum|gamma|/(2 pi d).", "quantifier": "all filaments, points and circulations; all inputs for which Vlm returns", "why_tests_cant": "bounds over all positions", "anchors": ["pySailingVLM/solver/velocity.py: vortex_line, vortex_infinite_line, vortex_horseshoe, vortex_ring", "pySailingVLM/solver/vlm.py: Vlm"]}
{"id": "C98", "title": "Same wind, same run", "statement": "Runs whose wind settings describe the same true wind at all heights give the same outputs and end in the same way: the direction modulo full turns, a negative speed from the opposite direction, the power law with exponent 0 instead of the flat profile, and in a calm the power law (exponent not negative, water level of the profile not above the water) instead of the flat profile (the last two except for the sheet that lists the wind settings). Only heights above the water count.", "quantifier": "all configurations and numbers of turns", "why_tests_cant": "relates two whole runs for all configurations", "anchors": ["pySailingVLM/inlet/winds.py: FlatWindProfile, ExpWindProfile, LogWindProfile", "pySailingVLM/runner/container.py: Conditions", "pySailingVLM/runner/cli.py: main"]}
{"id": "C99", "title": "The order of the sails", "statement": "The sails of a set may be given in any order: if the solver returns for one order it returns for every other one; every panel has the same circulation, velocities, forces and pressures, and the total force on the sails is the same.", "quantifier": "all numbers of sails, permutations, discretisations and winds", "why_tests_cant": "all permutations of any number of sails", "anchors": ["pySailingVLM/yacht_geometry/sail_geometry.py: SailSet", "pySailingVLM/solver/vlm.py: Vlm", "pySailingVLM/solver/additional_functions.py: extract_above_water_quantities"]}
{"id": "C100", "title": "Nearby inputs give nearby results", "statement": "If the nodes of the meshes, the winds at the panels and the density tend to those of an input for which the solver returns, then it returns for all inputs near enough, and circulations, velocities, forces and pressures all tend to those of that input. In particular this holds for sweeps over wind direction, wind speed and boat speed on fixed sails. Excluded are inputs exactly on the boundary of a vortex core or on the area threshold.", "quantifier": "all inputs for which the solver returns, all numbers of panels, all families of inputs", "why_tests_cant": "limits over a continuum of inputs", "anchors": ["pySailingVLM/solver/vlm.py: Vlm", "pySailingVLM/solver/coefs.py: calc_velocity_coefs, solve_eq", "pySailingVLM/solver/forces.py: calc_force_wrapper, calc_pressure", "pySailingVLM/inlet/winds.py: WindBase"]}
{"id": "C101", "title": "Plots of meshes show the mesh", "statement": "plot_mesh draws one line for every chordwise row of the mesh, each followed by the line of the same row of the second mesh if there is one, and every point is drawn with the coordinates that the axes are labelled with. An unknown dimension is a KeyError before anything is drawn, a second mesh with fewer rows an IndexError.", "quantifier": "all meshes, dimensions and colours", "why_tests_cant": "all meshes and requested dimensions", "anchors": ["pySailingVLM/solver/additional_functions.py: plot_mesh"]}
{"id": "C102", "title": "Pictures of panels or rings", "statement": "display_panels_or_rings draws the given panels or rings in order, all of them if there are at least as many pressures, with the water surface and axes of the picture of the run; without points, or with all points in the water plane, it fails with a ValueError.", "quantifier": "all panels, rings, pressures and mid points", "why_tests_cant": "all inputs", "anchors": ["pySailingVLM/solver/panels_plotter.py: display_panels_or_rings"]}
{"id": "C103", "title": "The command line", "statement": "The program takes exactly the command lines that give the option -dv/--dvars (or an abbreviation of it) any number of times with a value each, and then uses the last value, or the working directory if there is none. Every other command line ends the program before anything is read or written, with status 2, or with status 0 if a word asks for help; -h or --help after a correct beginning always ends with status 0.", "quantifier": "all lists of words, working directories, disks and process states", "why_tests_cant": "all strings of any length and number", "anchors": ["pySailingVLM/runner/cli.py: parse_cli, main", "pySailingVLM/__main__.py"]}
{"id": "C104", "title": "The hull in the picture", "statement": "The picture of a run with the deck above the water shows centreline and both edges of the deck, and the mirror images of the edges with a quarter of the opacity. The lines are at deck height before heel and leeway; the centreline runs from 1.1 foretriangle bases before the origin to 1.9 behind it; the edges are on the two sides, meet on the centreline at the bow, and are symmetric about it.", "quantifier": "all rigs, heel and leeway angles, runs with a picture", "why_tests_cant": "all hulls and angles", "anchors": ["pySailingVLM/yacht_geometry/hull_geometry.py: HullGeometry", "pySailingVLM/solver/panels_plotter.py: display_hull, display_panels_xyz_and_winds"]}
{"id": "C105", "title": "The picture of a run shows that run", "statement": "The title names the colours; every panel of the sails and their images is drawn with its own pressure coefficient on a scale from the smallest to the largest one; there is one arrow for the true and one for the apparent wind at every panel of the first chordwise row of each sail and image, and no other wind arrow; the force on the sails is shown by an arrow at the centre of effort, along the force, of 0.8 times the mean apparent wind speed, and the opposite one at the centre of lateral resistance.", "quantifier": "all runs with a picture, all discretisations, one or two sails", "why_tests_cant": "all runs", "anchors": ["pySailingVLM/solver/panels_plotter.py: display_panels_xyz_and_winds, display_panels_xyz, display_winds, display_CE_CLR", "pySailingVLM/runner/cli.py: main"]}
{"id": "C106", "title": "A sail may start at the water level", "statement": "For sail data without defects with the tack at or above the water level, every point of the sail is where the heeled and twisted yacht has it, also at the foot when the tack is exactly at the water level.", "quantifier": "all sail data without defects, all headings and twists, all discretisations", "why_tests_cant": "the program decides by the sign of the height which side to heel a point to; only the exact value zero is affected, for every camber, twist and heel", "anchors": ["pySailingVLM/rotations/csys_transformations.py: rotate_point_with_mirror", "pySailingVLM/yacht_geometry/sail_factory.py: Geometry"]}
{"id": "C107", "title": "Settings are used as given, defaults otherwise", "statement": "In each of the seven groups of a settings file every setting has the value given for it, or the documented default if it is left out; leaving a setting out is the same as giving its default; an unknown setting name ends the program with a TypeError before anything is calculated or written (in particular the twist mode cannot be chosen there).", "quantifier": "all settings files: any names and values in any group", "why_tests_cant": "all combinations of given and omitted settings", "anchors": ["pySailingVLM/runner/container.py: Solver, Conditions, Rig, MainSail, JibSail, Csys, Keel", "pySailingVLM/runner/cli.py: main"]}
{"id": "C108", "title": "Uniform sails and the shipped settings run", "statement": "A configuration whose sails have the same camber and camber position in all sections is accepted and builds its sails, with linear as well as spline interpolation, for all increasing girths, chords and twists; so are the shipped settings files (with any numbers of panels for variables.py) and the empty settings file: they build all their panels, and then write every output or, if the linear equations cannot be solved, nothing.", "quantifier": "all uniform sail data, all numbers of panels; the shipped settings files", "why_tests_cant": "the spline through constant data must be constant at every position, for every number of sections and every spacing", "anchors": ["pySailingVLM/variables.py", "pySailingVLM/examples/variables.py", "pySailingVLM/examples/rectangle_variables.py", "pySailingVLM/examples/sweep_variables.py", "pySailingVLM/runner/container.py", "pySailingVLM/runner/sail.py: Sail", "pySailingVLM/runner/cli.py: main"]}
{"id": "C109", "title": "Every flat rectangular wing can be calculated", "statement": "A rectangular wing in a free stream that has no component along the span and does not come from behind always gets its results: the linear equations are never singular. All circulations have the same sign, given by the wind component normal to the wing, are zero when it is zero, and never exceed the circulation pi c |V.n| of a flat plate of infinite span.", "quantifier": "all chords, spans, angles of attack, wind speeds and numbers of panels in both directions (panel area at least 2e-4)", "why_tests_cant": "non-singularity of a dense matrix of every size, for every panel shape; a bound uniform in the number of panels", "anchors": ["pySailingVLM/runner/aircraft.py: Aircraft", "pySailingVLM/solver/velocity.py: vortex_ring, vortex_horseshoe_v2", "pySailingVLM/solver/coefs.py: calc_velocity_coefs, solve_eq", "pySailingVLM/solver/vlm.py"]}
{"id": "C110", "title": "Every flat rectangular sail can be calculated", "statement": "With an upright main sail without camber, vertical mast and the same chord and twist everywhere, in a wind of constant direction (any strength profile) that does not come from behind, a run is always completed with all its outputs: the linear equations of sail and mirror image are never singular. All circulations have the same sign, given by the wind component normal to the sail, and never exceed that of a flat plate of infinite span in the strongest wind. In particular the shipped rectangle settings run to completion.", "quantifier": "all chords, luffs, heights over the water, sheeting angles, leeway angles, wind profiles and numbers of panels (panel area at least 2e-4)", "why_tests_cant": "non-singularity of a dense matrix of every size together with its mirror image", "anchors": ["pySailingVLM/solver/vlm.py: Vlm", "pySailingVLM/solver/coefs.py: calc_velocity_coefs, solve_eq", "pySailingVLM/yacht_geometry/sail_geometry.py: SailGeometry, SailSet", "pySailingVLM/inlet/winds.py", "pySailingVLM/runner/cli.py: main", "pySailingVLM/examples/rectangle_variables.py"]}
{"id": "C111", "title": "Lift of a flat sail", "statement": "For an upright flat rectangular sail in a wind of constant direction that does not come from behind, the reported lift of every strip, and of the whole sail above the water, is horizontal and across the wind, points to the side to which the wind would pass through the sail, is zero only when the wind blows along the sail, and never exceeds the lift of a flat plate of infinite span, 1/2 rho V^2 * 2 pi sin(alpha) * area, in the strongest wind at the sail.", "quantifier": "all flat upright sails, numbers of panels, sheeting angles, leeways, wind profiles of constant direction, densities, strips", "why_tests_cant": "The sign and the bound have to hold for the solution of a linear system of any size; tests see a few meshes.", "anchors": ["pySailingVLM/solver/vlm.py:Vlm", "pySailingVLM/solver/forces.py:calc_force_wrapper", "pySailingVLM/solver/coefs.py:calc_velocity_coefs"]}
{"id": "C112", "title": "More wind, more lift", "statement": "If the wind on an upright flat rectangular sail gets stronger at some or all heights and nowhere weaker, without changing its direction, then neither the circulation of any panel nor the lift of any strip gets smaller.", "quantifier": "all flat upright sails and all pairs of wind profiles of the same constant direction, one nowhere slower than the other", "why_tests_cant": "Pairs of arbitrary wind profiles on meshes of any size; monotonicity of the inverse of the influence matrix.", "anchors": ["pySailingVLM/solver/vlm.py:Vlm", "pySailingVLM/inlet/winds.py", "pySailingVLM/solver/coefs.py:calc_velocity_coefs"]}
{"id": "C113", "title": "Reefing never increases the load of the remaining strips", "statement": "If an upright flat rectangular sail is a part of a larger one (same chord, sheeting and strip height, some strips missing at the foot or at the head), then neither the circulation of any panel nor the lift of any strip is larger than for the same panel or strip of the larger sail in the same wind.", "quantifier": "all pairs of flat upright sails of which one is a part of the other, all winds of constant direction", "why_tests_cant": "Relates two calculations on meshes of different sizes for all sizes.", "anchors": ["pySailingVLM/solver/vlm.py:Vlm", "pySailingVLM/solver/forces.py:calc_force_wrapper", "pySailingVLM/yacht_geometry/sail_geometry.py:SailGeometry"]}
{"id": "C114", "title": "A flat sail on the water is half a wing", "statement": "An upright sail without camber, of constant chord and twist, whose foot is at the water level, in a wind that is the same at all heights: whenever the sail calculation succeeds, Aircraft called with the same chord, with the height of the sail as half span, twice the number of strips and the angle of the sail to the x axis also succeeds, and each panel of the sail (and of its image) has the same circulation, force and pressure as the corresponding panel of the wing.", "quantifier": "all flat sails on the water, all panel numbers, leeways, sheeting angles, uniform winds and densities for which the sail calculation returns", "why_tests_cant": "The two programs build different panel arrays in different orders and solve different linear systems; a test compares them for a few inputs only.", "anchors": ["pySailingVLM/runner/aircraft.py: Aircraft.__init__", "pySailingVLM/solver/vlm.py: Vlm", "pySailingVLM/yacht_geometry/sail_geometry.py: SailGeometry, SailSet", "pySailingVLM/solver/panels.py: make_panels_from_le_te_points"]}
{"id": "C115", "title": "a flat sail does not pull itself into the wind", "statement": "A flat rectangular wing or upright flat sail with one panel along the chord never gets a calculated force against the wind: the resultant of the forces on the sail (above the water), or on the wing, has a component along the wind that is not negative, and CD of a wing in a stream along the x axis is not negative. The panels are at least 2e-4 in area and 2e-8 wide and the wind is at most 60 degrees off the chord.", "quantifier": "all flat rectangular wings and sails with one panel along the chord, any number of strips, all winds of one direction", "why_tests_cant": "a free-energy theorem for every number of strips: tests see a few sails", "anchors": ["pySailingVLM/solver/forces.py: calc_force_wrapper", "pySailingVLM/solver/velocity.py: vortex_horseshoe_v2", "pySailingVLM/runner/aircraft.py: Aircraft"]}
{"id": "C116", "title": "load greatest in the middle of a wing and at the foot of a sail", "statement": "On a flat rectangular wing in a uniform stream the calculated circulation of every row of panels grows in magnitude (or stays) from each tip to the middle of the span. On an upright flat rectangular sail standing on the water in a uniform wind neither the circulation of any row nor the lift of the strips increases from one strip to the next higher one.", "quantifier": "all chords, spans, heights, angles with the wind from ahead, winds, panel numbers (panels at least 2e-4 in area)", "why_tests_cant": "a shape statement about the solution of a linear system of any size; a test sees a few meshes", "anchors": ["pySailingVLM/solver/vlm.py: Vlm", "pySailingVLM/runner/aircraft.py: Aircraft", "pySailingVLM/solver/coefs.py: calc_velocity_coefs"]}
{"id": "C117", "title": "taller sails have more lift per area", "statement": "Of two upright flat rectangular sails standing on the water, of the same chord, sheeting and strips, in the same uniform wind, the one with more strips has at least as much lift per sail area.", "quantifier": "all chords, strip heights, numbers of strips and rows, sheeting angles with the wind from ahead, uniform winds (panels at least 2e-4 in area)", "why_tests_cant": "compares solutions of two linear systems of different sizes, for all sizes", "anchors": ["pySailingVLM/solver/vlm.py: Vlm", "pySailingVLM/solver/forces.py: calc_force_wrapper", "pySailingVLM/yacht_geometry/sail_geometry.py: SailGeometry"]}
{"id": "C118", "title": "The linear system need not be solved exactly", "statement": "Whatever routine solves the linear system for the circulations, and however inexactly: when a calculation returns, the wind with the velocity of the reported circulations passes through no panel at more than 1e-12; circulations with such a small flow are never rejected when the exact ones are accepted. For a flat rectangular sail the reported circulations then differ from the exact ones by at most 1e-12 pi chord / |gamma_orientation| and the lift of each strip by at most 1e-12 pi rho M area, however fine the mesh.", "quantifier": "all routines for linear systems (as arbitrary functions), all panels, winds, densities and meshes; for the bounds all flat sails in winds of one direction", "why_tests_cant": "it concerns every possible rounding behaviour of the library routine, for matrices of any size", "anchors": ["pySailingVLM/solver/vlm.py:Vlm.__post_init__", "pySailingVLM/solver/coefs.py:solve_eq", "pySailingVLM/solver/forces.py:is_no_flux_BC_satisfied"]}
{"id": "C119", "title": "Small changes of the wind speed change the results little", "statement": "If two winds over a flat rectangular sail have the same direction and their speeds differ by at most eps at every height of the sail, then the circulations of every panel differ by at most pi chord eps sin(alpha) / |gamma_orientation| and the lift of every strip by at most pi rho (M + M') eps sin(alpha) area. The bounds do not depend on the mesh.", "quantifier": "all flat sails, meshes, pairs of winds (exponential, logarithmic, flat) in one direction, speeds, densities", "why_tests_cant": "a bound for all pairs of wind profiles and all mesh sizes; sample runs show neither the bound nor its independence of the mesh", "anchors": ["pySailingVLM/solver/vlm.py:Vlm", "pySailingVLM/inlet/winds.py", "pySailingVLM/solver/coefs.py:solve_eq"]}
{"id": "C120", "title": "Flat tapered sails can always be calculated", "statement": "For an upright sail without camber and with the same twist everywhere, whose leech is straight or curved outwards and does not run aft with the height (triangular sails, sails with a roach; vertical luff, or any luff if the sail is sheeted amidships), the linear system can always be solved: in any wind of constant direction that does not come from behind every run is completed and writes all its outputs. All circulations have the sign of the component of the wind normal to the sail.", "quantifier": "all such chord distributions, luffs, heights, twist and leeway angles, winds (any profile of constant direction), mesh sizes with panels of at least 4 cm by 4 cm", "why_tests_cant": "whether a matrix of arbitrary size, for arbitrary chord distributions, is regular and has an inverse of one sign cannot be sampled", "anchors": ["pySailingVLM/solver/vlm.py:Vlm", "pySailingVLM/solver/coefs.py:calc_velocity_coefs", "pySailingVLM/solver/coefs.py:solve_eq", "pySailingVLM/yacht_geometry/sail_geometry.py:SailGeometry", "pySailingVLM/runner/sail.py:Sail"]}
{"id": "C121", "title": "Lift of flat tapered sails across the wind and increasing with the wind", "statement": "On an upright sail without camber and with the same twist everywhere, whose leech is straight or curved outwards and does not run aft with the height, the horizontal part of the lift of every strip, and of the whole sail, is across the wind to the side to which the wind would pass through the sail; it vanishes when the wind is along the sail. If the wind gets faster without changing its direction, no circulation and no horizontal lift of a strip gets smaller.", "quantifier": "all flat upright sails with straight or outward curved leeches (vertical luff, or any luff if sheeted amidships), winds of constant direction that do not come from behind, densities, strips", "why_tests_cant": "a sign and a comparison for all shapes, meshes and pairs of winds", "anchors": ["pySailingVLM/solver/vlm.py:Vlm", "pySailingVLM/solver/forces.py:calc_force_wrapper", "pySailingVLM/inlet/winds.py"]}
{"id": "C122", "title": "Flat sails of any shape can be calculated in a wind close to the sail", "statement": "For an upright sail without camber and with the same twist everywhere (vertical luff, or any luff if it is sheeted amidships), with a leech of any shape - hollow, waved, swept - that nowhere runs aft or forward by more than Q metres per metre of height, the linear system can always be solved if the wind is close enough to the plane of the sail (for leeches of up to 45 degrees: within 19 degrees): every run, with either type of interpolation, is completed and writes all its outputs. All circulations have the sign of the component of the wind normal to the sail, the horizontal lift of every strip and of the whole sail is across the wind to the side to which the wind would pass through the sail, and neither gets smaller when the wind gets faster without changing its direction. In particular the shipped example of a swept sail always runs to its end.", "quantifier": "all such chord distributions, luffs, heights, twist and leeway angles, winds (any profile of constant direction) close enough to the sail, mesh sizes with panels of at least 4 cm by 4 cm", "why_tests_cant": "whether a matrix of arbitrary size, for arbitrary planforms, is regular and has an inverse of one sign cannot be sampled", "anchors": ["pySailingVLM/solver/vlm.py:Vlm", "pySailingVLM/solver/coefs.py:calc_velocity_coefs", "pySailingVLM/solver/coefs.py:solve_eq", "pySailingVLM/yacht_geometry/sail_geometry.py:SailGeometry", "pySailingVLM/examples/sweep_variables.py"]}
{"id": "C123", "title": "Bounds and continuity of the results of flat sails do not depend on the mesh", "statement": "For an upright flat sail (leech curved outwards and wind from ahead, or any leech and a wind close to the sail) whose leech never runs more than X metres aft of its upper end, H metres above the water, let R = 4 H + X^2/H. However many panels are used (none smaller than 4 cm by 4 cm): (1) every circulation is at most 4 pi R M sin(alpha)/|g| (M bounds the wind speed over the sail, alpha is the angle between wind and sail), and the horizontal lift of every strip at most 4 pi rho R M^2 sin(alpha) times the height of the strip; (2) whatever routine solves the linear system, if the calculation passes the program's own flow check (1e-12) then its circulations differ from the exact ones by at most 4 pi R 1e-12/|g|, and the lifts accordingly; (3) two winds of the same direction whose speeds differ by at most eps at every height of the sail give circulations that differ by at most 4 pi R eps sin(alpha)/|g|, and the lifts accordingly.", "quantifier": "all such sails, all mesh sizes, all wind profiles of constant direction, all air densities, all orientations of the vortices, all routines for the linear system", "why_tests_cant": "the bounds must hold for every mesh, planform and profile; tests can only sample meshes", "anchors": ["pySailingVLM/solver/vlm.py: Vlm.__post_init__", "pySailingVLM/solver/coefs.py: calc_velocity_coefs, solve_eq", "pySailingVLM/solver/forces.py: calc_force_wrapper, is_no_flux_BC_satisfied"]}
{"id": "C124", "title": "Tall sails and long wings get the lift of a flat plate of infinite span", "statement": "Take an upright flat rectangular sail standing on the water in a uniform wind of speed M from ahead, at an angle alpha to the sail, and add more and more strips of the same height, keeping the chord and its division into panels. Then the lift divided by the area of the sail tends to (1/2) rho M^2 * 2 pi sin(alpha), the lift of a flat plate of infinite span, whatever the number of panels along the chord: for every eps there is a number of strips from which on the difference is at most eps; and from that number on the lift of every single strip of the lower half of the sail is that close, too. Likewise the mean over the span of the circulation around a flat wing with more and more strips of the same width tends to pi c |V.n|.", "quantifier": "all chords, strip heights, numbers of panels along the chord (panels not below the program's own threshold), wind speeds and directions from ahead, air densities, orientations of the vortices, every eps > 0", "why_tests_cant": "a limit over infinitely many meshes; a test runs finitely many of them and cannot see the limit", "anchors": ["pySailingVLM/solver/vlm.py: Vlm", "pySailingVLM/solver/coefs.py: calc_velocity_coefs, solve_eq", "pySailingVLM/runner/aircraft.py: Aircraft"]}
{"id": "C125", "title": "Rounding errors", "statement": "Given the lattice of panels and the winds, let the velocities of the single vortices be computed with errors up to eta1, the velocities at the control points with errors up to eta2 and their components along the normals with errors up to eta3, and let the linear system be set up and solved in whatever way. If the circulations pass the program's own check (1e-12), they differ from the exact ones by at most C (1e-12 + eta2 + eta3 + eta1 sum|gamma|), where C is a constant of the lattice that exists whenever the exact calculation returns. For the flat sails of C123 C = 4 pi R/|g|, whatever the number of panels N, and the error is bounded in advance by 8 pi R/|g| (1e-12 + eta2 + eta3 + eta1 N 4 pi R M sin(alpha)/|g|) as soon as 8 pi R eta1 N <= |g|.", "quantifier": "all lattices, winds and routines with these accuracies; all flat sails and meshes of C123", "why_tests_cant": "the routines range over every way of rounding; tests see one implementation on one machine", "anchors": ["pySailingVLM/solver/vlm.py: Vlm", "pySailingVLM/solver/coefs.py: calc_velocity_coefs, calculate_RHS, solve_eq", "pySailingVLM/solver/velocity.py: calculate_app_fs", "pySailingVLM/solver/forces.py: is_no_flux_BC_satisfied"]}
{"id": "C126", "title": "Nearby sail settings give nearby results", "statement": "If the mounting points, chords, camber, camber position, twist, heel and leeway of all sails of a set, the density and the wind (direction, speed, speed of the yacht; same profile) tend to those of a set that can be calculated, then every set near enough can be calculated and every result array tends to that of the limit set, unless a control or pressure point of the limit set lies exactly on the boundary of a vortex core, a panel has exactly the smallest admissible area, or a pressure point lies exactly at the water level of an exponential profile. In particular every sail close enough to an upright flat rectangular sail in a wind of constant direction not from behind is calculated, and all circulations keep the sign they have on the flat sail.", "quantifier": "all families of sail sets (any number of sails, any mesh) along any filter, all winds of all three profiles, all densities; for the second part all nearly flat sails (camber, twist, heel, taper, rake small)", "why_tests_cant": "Continuity is a statement about all sequences of inputs; a test compares a few pairs of inputs and cannot exclude a jump or a singular system between them.", "anchors": ["pySailingVLM/yacht_geometry/sail_geometry.py: SailGeometry", "pySailingVLM/solver/vlm.py: Vlm", "pySailingVLM/inlet/winds.py: FlatWindProfile, LogWindProfile, ExpWindProfile", "pySailingVLM/inlet/inlet_conditions.py: InletConditions"]}
{"id": "C127", "title": "A wing depends continuously on its arguments", "statement": "If chord, half span, angle of attack, free stream velocity and density tend to the arguments of a wing for which Aircraft returns, then Aircraft returns for all arguments near enough and every attribute (circulations, forces, pressures, aspect ratio, CL, CD, Cp and the theoretical coefficients) tends to that of the limit wing, unless a control or pressure point of the limit wing lies exactly on the boundary of a vortex core or its panels have exactly the smallest admissible area. For every wing with panels larger than 2e-4 and strips wider than 2e-8 in a free stream without sideslip that does not come from behind, none of these exceptions occurs, so the wing can also be calculated in a slight sideslip, and all circulations keep their sign.", "quantifier": "all families of arguments along any filter, all panel counts, both orientations of the vortices", "why_tests_cant": "Continuity is a statement about all sequences of arguments; a test compares a few pairs and cannot exclude a jump or a singular system between them.", "anchors": ["pySailingVLM/runner/aircraft.py: Aircraft, get_CL_CD_free_wing", "pySailingVLM/solver/coefs.py: get_CL_CD_free_wing"]}
{"id": "C128", "title": "Computing with rounded numbers approximates the exact results", "statement": "If the calculation of a sail or of several sails succeeds in exact arithmetic, then a calculation that rounds the result of every addition, multiplication, division, square root and literal, and solves the linear system with a small backward error, succeeds too as soon as the rounding is fine enough and the corners, winds and density are given accurately enough, and all its results are as close to the exact ones as one likes; the only exceptions are lattices with a point exactly on the boundary of a vortex core or a panel of exactly the smallest admissible area. For flat sails there are no exceptions.", "quantifier": "all inputs of Vlm for which the exact calculation succeeds, all arithmetics of sufficient accuracy (including rounding to any large number of binary digits), all approximations of the input", "why_tests_cant": "Tests run one arithmetic on a few inputs; that the stated formulas are what the rounded program approximates, for every input and every sufficiently fine arithmetic, is a limit statement.", "anchors": ["pySailingVLM/solver/velocity.py:vortex_line", "pySailingVLM/solver/coefs.py:calc_velocity_coefs", "pySailingVLM/solver/coefs.py:solve_eq", "pySailingVLM/solver/forces.py:calc_force_wrapper", "pySailingVLM/solver/vlm.py:Vlm"]}
{"id": "C129", "title": "A sail given twice, or a zero orientation, gives an error and never numbers", "statement": "If two of the panels passed to Vlm are the same, Vlm does not return. If a calculation returns for some sails, then for any list of these sails in which one of them occurs twice it ends with numpy's LinAlgError; a list with a repeated sail never gives a result, whatever the other sails are. With gamma_orientation = 0 no calculation returns.", "quantifier": "all panels, meshes, lists of sails, winds, densities and orientations", "why_tests_cant": "a test repeats one sail of one mesh; that no wind, mesh or further sail hides the singular system must hold for all of them", "anchors": ["pySailingVLM/solver/vlm.py::Vlm.__post_init__", "pySailingVLM/solver/coefs.py::calc_velocity_coefs", "pySailingVLM/solver/coefs.py::solve_eq", "pySailingVLM/yacht_geometry/sail_geometry.py::SailSet"]}
{"id": "C130", "title": "The report of a wing shows its coefficients to six decimals", "statement": "For every wing that Aircraft can calculate, get_info prints the circulations, the aspect ratio, the expected and the calculated coefficients and the total force. Each coefficient is printed as a decimal number with exactly six decimals, and the number one reads is the coefficient to within 5e-7; the expected ones are those of the lifting line formula with span efficiency 0.8, the calculated ones and the total force belong to Cxyz. In a stream without spanwise component the line for CL always reads 0.000000, because CL is the spanwise component (see C41).", "quantifier": "all wings, angles of attack, free streams, panel numbers and coefficients of any size and sign", "why_tests_cant": "a test reads the report of a few wings; carries, leading zeros, signs and ties of the decimal text have to be right for every number", "anchors": ["pySailingVLM/runner/aircraft.py::Aircraft.get_info", "pySailingVLM/runner/aircraft.py::Aircraft.Cxyz", "pySailingVLM/solver/coefs.py::get_CL_CD_free_wing", "pySailingVLM/solver/coefs.py::get_vlm_CL_CD_free_wing"]}
{"id": "C131", "title": "A wing calculated with machine numbers", "statement": "Aircraft(...) carried out with rounded operations throughout - degrees to radians, rotation matrix, mesh, lattice, linear system, forces, sums and coefficients - returns whenever the exact calculation returns, provided the operations are accurate enough and the arguments are given accurately enough, and every attribute (AR, theoretical and computed coefficients, circulations, forces, pressures, Cp, Cxyz) is as close to the exact one as one likes, unless a point of the wing lies exactly on the boundary of a vortex core or a panel has exactly the smallest admissible area; for flat wings that are not too small this exception never occurs. With exact operations the rounded program is the exact one. Rounding every result to p binary digits and adding from left to right is such an arithmetic.", "quantifier": "all wings, all arithmetics with small relative and absolute errors, all orders of summation, all backward stable linear solvers, all neighbouring arguments", "why_tests_cant": "A test runs one arithmetic (double precision) on a few wings; the claim is about all arithmetics and all wings.", "anchors": ["pySailingVLM/runner/aircraft.py:Aircraft.__init__", "pySailingVLM/rotations/geometry_calc.py:rotation_matrix", "pySailingVLM/solver/mesher.py:discrete_segment", "pySailingVLM/solver/coefs.py:get_CL_CD_free_wing", "pySailingVLM/solver/coefs.py:get_vlm_CL_CD_free_wing"]}
{"id": "C132", "title": "Sails calculated with machine numbers", "statement": "The calculation of a set of sails carried out with rounded operations throughout - camber line, mesh, heel, leeway and twist, wind profile, lattice, linear system, forces and pressures - returns whenever the exact calculation returns, provided the operations are accurate enough and the settings are given accurately enough, and the apparent winds and every result are as close to the exact ones as one likes, unless a panel lies exactly on the boundary of a vortex core or has exactly the smallest admissible area, or a pressure point lies exactly at the water level of an exponential profile. For sails near an upright flat rectangle in a wind not from behind the exception does not occur and the computed circulations have the sign of the exact ones. With exact operations the rounded program is the exact one. Rounding every result to p binary digits, adding from left to right and applying rotation matrices one after the other is such an arithmetic.", "quantifier": "all sets of well-formed sails, all wind profiles, all arithmetics with small relative and absolute errors, all orders of summation and of matrix multiplication, all backward stable linear solvers, all neighbouring settings", "why_tests_cant": "A test runs one arithmetic (double precision) on a few sails; the claim is about all arithmetics and all sails.", "anchors": ["pySailingVLM/yacht_geometry/sail_geometry.py:SailGeometry", "pySailingVLM/rotations/csys_transformations.py:CSYS_transformations.rotate_point_with_mirror", "pySailingVLM/inlet/winds.py:LogWindProfile.get_true_wind_speed_at_h", "pySailingVLM/inlet/inlet_conditions.py:InletConditions", "pySailingVLM/solver/vlm.py:Vlm"]}
{"id": "C133", "title": "Nearby settings give nearby workbooks", "statement": "If every number in variables.py tends to the number of a given well-formed settings file (heel, leeway, density, wind, rig, girths, chords, twist, camber, reference point, centre of lateral resistance; same mesh, same choice of sails, same shape of the wind profile), then near the limit every run writes a workbook with the same columns and rows as the run with the given file, and every cell of its table, every integral and every number of the sheet with the wind at the reference height tends to the corresponding number, unless a panel lies exactly on the boundary of a vortex core or has exactly the smallest admissible area, or a pressure point lies exactly at the water surface or at the water level of an exponential profile. Only an angle of a velocity may jump, where the velocity has no component along the course or comes from exactly astern. For an upright flat main sail in a wind of constant direction that does not come from behind nothing has to be assumed about the calculation; the shipped rectangle_variables.py is such a case.", "quantifier": "all well-formed settings files, all families of settings tending to them (any filter), all wind profiles, all numbers of panels, linear and spline interpolation", "why_tests_cant": "A test compares the workbooks of a few pairs of settings; continuity is a statement about all neighbouring settings.", "anchors": ["pySailingVLM/runner/cli.py:main", "pySailingVLM/results/save_utils.py:save_results_to_file", "pySailingVLM/results/inviscid_flow.py:InviscidFlowResults", "pySailingVLM/yacht_geometry/sail_factory.py:SailFactory", "pySailingVLM/solver/interpolator.py:Interpolator", "pySailingVLM/inlet/winds.py:ExpWindProfile.to_df_integral"]}
{"id": "C134", "title": "A run with rounded operations comes close to the exact run", "statement": "Where well-formed settings can be calculated with exact arithmetic, they can be calculated in floating point arithmetic, from variables.py to the sheet 'Integrals': if every operation is accurate enough (elementary operations, sine, cosine, square root, arc sine, logarithm, power, sums in any order, splines, rotation matrices, a backward stable solution of the linear system) and the settings are read accurately enough, the program gets through all its checks and assertions, and the apparent winds, the results of the solver and every force and moment in the sheet 'Integrals' are as close to the exact ones as one likes; the sheet has the same entries. Excluded are exact coincidences (a point on the boundary of a vortex core, a panel of exactly the smallest admissible area, a pressure point exactly on the water, an exactly vertical forestay) and computed camber outside the admissible range, which does not occur if the exact values are in its interior. Rounding every result to p binary digits, p large, is accurate enough; so the shipped rectangle_variables.py is calculated in binary arithmetic with any prescribed accuracy.", "quantifier": "all well-formed settings, meshes, wind profiles and both interpolation methods; all arithmetics of sufficient accuracy, all settings within that accuracy, all error bounds", "why_tests_cant": "A test compares one machine arithmetic with itself on a few settings; that no rounding pattern of any sufficiently accurate arithmetic trips an assertion or spoils the totals is a statement about all of them.", "anchors": ["pySailingVLM/runner/cli.py:main", "pySailingVLM/runner/sail.py:Sail", "pySailingVLM/solver/interpolator.py:Interpolator", "pySailingVLM/yacht_geometry/sail_factory.py:SailFactory", "pySailingVLM/rotations/csys_transformations.py:CSYS_transformations", "pySailingVLM/results/inviscid_flow.py:InviscidFlowResults"]}
{"id": "C135", "title": "A flat sail with one row of panels pushes to leeward, a wing lifts", "statement": "A flat upright sail with one panel along its chord, in a wind within 45 degrees of the chord that blows in one direction at every height, has a total force with no component along the mast; its drag is strictly positive unless the wind blows along the sail, its side force points to the lee side of the sail, whatever the number of panels along the span and the wind profile, and is at most the thin-aerofoil value 2 pi sin(angle) times dynamic pressure and area; all forces vanish if the wind blows along the sail. At run level, these are the values written to the row F_sails_total_COG of the workbook, the run is completed, and its picture shows the force exactly if the wind does not blow along the sail. The same holds for the free rectangular wing: positive drag (CD with the stream along x) and lift to the side the stream blows to, at most 2 pi sin(angle) times dynamic pressure and area.", "quantifier": "all flat upright sails with one panel along the chord, numbers of panels along the span, chords, luffs, sheeting and leeway angles, wind speeds and profiles with one direction, wind angles up to 45 degrees on either side, air densities", "why_tests_cant": "The sign of the side force depends on the whole circulation distribution (induced velocities of all panels, of their mirror images and of the wakes act against the wind), so tests on some meshes and profiles say nothing about the others.", "anchors": ["pySailingVLM/solver/vlm.py:Vlm", "pySailingVLM/runner/aircraft.py:Aircraft", "pySailingVLM/solver/velocity.py:vortex_horseshoe_v2", "pySailingVLM/solver/forces.py:calc_force_wrapper", "pySailingVLM/runner/cli.py:main", "pySailingVLM/results/inviscid_flow.py:InviscidFlowResults"]}
{"id": "C136", "title": "The picture shows the force exactly if there is one", "statement": "Whenever a run gets as far as showing the picture, the picture shows the total force, its centre of effort and the hull reaction with defined arrows exactly if the total force on the sails is not the zero vector, that is, exactly if the row F_sails_total_COG of the workbook of that run is not zero; otherwise the arrows have undefined (nan) coordinates although the run is completed.", "quantifier": "all configurations, meshes, sails, wind profiles, interpolation methods and splines whose run gets as far as the picture", "why_tests_cant": "Division by the length of the force happens in the plotting code; whether the total force vanishes is decided by the whole calculation, and tests only ever see sails with some force.", "anchors": ["pySailingVLM/solver/panels_plotter.py: display_CE_CLR", "pySailingVLM/solver/panels_plotter.py: display_panels_xyz_and_winds", "pySailingVLM/solver/additional_functions.py: normalize", "pySailingVLM/solver/forces.py: determine_vector_from_its_dot_and_cross_product", "pySailingVLM/runner/cli.py: main"]}
{"id": "C137", "title": "Arrows on the screen are the images of the arrows in space", "statement": "Whatever was drawn before and from wherever the user looks, an arrow of the picture (wind, force, hull reaction) whose two ends are in front of the camera is drawn straight between the images of its ends, and the drawn line is exactly the image of the arrow in space: every point between tail and tip is shown on it, and every point of it shows such a point. The depth handed to matplotlib for ordering is the smallest depth of any point of the arrow. The arrow is undefined exactly if an end lies in the plane of the camera.", "quantifier": "all arrows, all camera matrices with both ends in front of the camera, all sequences of earlier projections and drawings", "why_tests_cant": "The camera is moved interactively: there is no finite set of views or redraw histories to test.", "anchors": ["pySailingVLM/solver/panels_plotter.py: Arrow3D"]}
{"id": "C138", "title": "The plot of an airfoil shows its camber line", "statement": "For accepted parameters the plot of an airfoil is one line with the requested number of points at equal steps from x = 0 to the trailing edge (1, 0), on the two-parabola camber curve with its maximum m at x = p, within 0 <= y <= m, starting at the origin unless p = 0; it does not depend on the thickness; the window is opened only on request.", "quantifier": "all accepted parameters and numbers of points, shown or not", "why_tests_cant": "Parameters are real numbers; a test draws a few airfoils.", "anchors": ["pySailingVLM/thin_airfoil/vlm_airfoil.py: VlmAirfoil.plot"]}
{"id": "C139", "title": "The same settings in other units", "statement": "A run whose settings are written in other units (numbers for lengths, speeds and densities multiplied by positive factors) writes the same workbook, with every row and column multiplied by the factor of its unit: positions by length, velocities by speed, circulation by length times speed, pressure by density times speed squared, forces by that times length squared, moments by that times length cubed; angles, girths and pure numbers are unchanged.", "quantifier": "all settings, sails, wind profiles, interpolation kinds and all positive factors for length, speed and density", "why_tests_cant": "a test compares two runs for one set of factors; that no column was forgotten and no absolute constant hides in the chain from settings to workbook is a statement about all settings and all factors", "anchors": ["pySailingVLM/runner/cli.py: main", "pySailingVLM/runner/container.py", "pySailingVLM/runner/sail.py", "pySailingVLM/solver/vlm.py: Vlm", "pySailingVLM/results/inviscid_flow.py: InviscidFlowResults", "pySailingVLM/results/save_utils.py: save_results_to_file"]}
{"id": "C140", "title": "Figures in other units", "statement": "In other units (numbers for lengths, speeds and densities multiplied by positive factors) the map of pressure coefficients shows the same coefficients on panels whose outlines are multiplied by the factor for lengths, and the plots of section coefficients show the same coefficients at heights multiplied by that factor; speeds and densities alone change no figure.", "quantifier": "all settings, sails, wind profiles, interpolation kinds and all positive factors for length, speed and density", "why_tests_cant": "a test compares figures of two runs; that a coefficient is a pure number for every rig, mesh and wind is a statement about all of them", "anchors": ["pySailingVLM/runner/cli.py: main", "pySailingVLM/solver/panels_plotter.py: plot_cp", "pySailingVLM/solver/panels_plotter.py: plot_section_coeff", "pySailingVLM/solver/coefs.py: get_data_for_coeff_plot", "pySailingVLM/solver/coefs.py: get_C"]}
{"id": "C141", "title": "Heading of a yacht at rest", "statement": "For a yacht at rest only the angle between the yacht and the wind matters. Turning the yacht (its leeway angle), the wind direction and the reference point of the moments by the same angle turns every vector that the workbook reports in the frame of the course (positions of the panels, true and apparent wind, induced velocities, forces, moments, totals of the sails and the keel) by this angle and leaves circulation, pressures, speeds, heights and girths and everything reported in the frame of the yacht unchanged. The map of the pressure coefficients and the plots of the section coefficients are the same, and everything in the picture turns with the yacht.", "quantifier": "all configurations with boat speed zero whose run writes a workbook, all angles, all sails, profiles and lattices for which the turned sails can be built (for all well-formed configurations they can)", "why_tests_cant": "Two complete simulations have to agree for every configuration and every angle; a test compares them for a few angles and within rounding.", "anchors": ["pySailingVLM/inlet/winds.py: get_app_infs_at_h, length_to_xyz_vector", "pySailingVLM/rotations/csys_transformations.py: rotate_point_with_mirror, from_xyz_to_centerline_csys", "pySailingVLM/results/save_utils.py: save_results_to_file", "pySailingVLM/results/inviscid_flow.py: InviscidFlowResults", "pySailingVLM/solver/vlm.py: Vlm"]}
{"id": "C142", "title": "Winds from the same direction superpose", "statement": "Two winds are called from the same direction when at every height of a pressure point the apparent wind of the one is a positive multiple (which may differ from height to height) of the apparent wind of the other. (1) Whether the flow around the sails can be calculated depends only on the directions: if it can be calculated for one wind, it can be for every wind from the same directions, and (sails not entirely in the water surface, reference height of an exponential profile above the water) the complete run writes all its outputs. (2) If the apparent wind is, height by height, a times that of a second wind plus b times that of a third, all three from the same direction, then in the workbook the circulation, the induced velocity and the velocity at the sail are, line by line, a times those of the second run plus b times those of the third. (3) In particular, for a yacht at rest the results for one roughness of the logarithmic profile follow from those for another roughness and those for the flat profile, with the weights ln(ref/z1)/ln(ref/z0) and ln(z1/z0)/ln(ref/z0).", "quantifier": "all configurations, all triples of winds whose apparent winds are from the same direction and combine as said, all coefficients, all lines of the workbook", "why_tests_cant": "a continuum of wind profiles and of coefficients; the equality relates three complete runs", "anchors": ["pySailingVLM/inlet/winds.py: FlatWindProfile, LogWindProfile, ExpWindProfile", "pySailingVLM/inlet/inlet_conditions.py: InletConditions", "pySailingVLM/solver/coefs.py: calculate_RHS, calc_velocity_coefs", "pySailingVLM/solver/velocity.py: vortex_horseshoe_v2, calculate_app_fs", "pySailingVLM/results/save_utils.py"]}
{"id": "C143", "title": "Figures and picture of sails without camber on the other tack", "statement": "Take a configuration whose sails have no camber, and its other tack (true wind angle, leeway, heel and twist reversed; reference point and centre of lateral resistance mirrored). (1) Sails not entirely in the water surface and reference height of an exponential profile above the water: both runs are completed; the map of pressure coefficients of the other tack has the same outlines with opposite values, and the two plots of section coefficients are identical. (2) If the run draws its picture then so does that of the other tack, and the picture is the mirror image: panels, centre line of the deck, centre of effort, centre of lateral resistance and force arrows are mirrored in the centre plane; each panel has the opposite colour value and the ends of the colour scale are exchanged with opposite sign; title, axes and water are unchanged; wind arrows point in the mirrored direction at the same heights, and are altogether mirrored when no apparent wind comes from exactly astern.", "quantifier": "all configurations with sails without camber, linear interpolation or the FITPACK spline; all sails, winds, heels, leeways, meshes", "why_tests_cant": "a continuum of configurations; the equalities relate two complete runs and every panel of the picture", "anchors": ["pySailingVLM/runner/cli.py: main", "pySailingVLM/solver/panels_plotter.py: display_panels_xyz_and_winds, display_panels_xyz, display_hull, display_winds, display_CE_CLR, plot_cp, plot_section_coeff"]}
{"id": "C144", "title": "Nearby settings give nearby figures", "statement": "If every number in variables.py (but those that define the shape of the wind profile) tends to its number in a well-formed file for which the program solves the lattice, and the files are well formed with the same mesh and choice of sails, then the program runs to its end for the limit and for all files near enough; the map of pressure coefficients has the same number of outlines, and their corners and values tend to those of the limit; and if the limit has a plot of section coefficients, so have all files near enough, under the same name, with the same labels, markers and colours, and every dot tends to its dot. Excluded are limits in which a panel lies exactly on the boundary of a vortex core or has exactly the smallest admissible area, or a pressure point lies exactly on the water surface or at the water level of an exponential profile.", "quantifier": "all well-formed settings files, all ways (filters) in which numbers tend to those of the limit, all mesh sizes and choices of sails", "why_tests_cant": "A test compares two particular runs; continuity speaks about all runs near a run, and about quotients whose denominators (mean coefficients, areas, dynamic pressures) must stay away from zero.", "anchors": ["pySailingVLM/runner/cli.py: main", "pySailingVLM/solver/panels_plotter.py: plot_cp", "pySailingVLM/solver/panels_plotter.py: plot_section_coeff", "pySailingVLM/solver/coefs.py: get_data_for_coeff_plot", "pySailingVLM/solver/coefs.py: get_C"]}
{"id": "C145", "title": "Nearby settings give nearby pictures", "statement": "If the numbers in variables.py (all but those that define the shape of the wind profile) tend to those of a file for which the program draws its three-dimensional picture, and mesh and choice of sails are the same, then the program draws a picture for all files near enough, with the same title, water surface and axes and with as many polygons, hull lines and arrows. All corners of panels, their colours and the ends of the colour scale, all points of the hull, both ends of every wind and force arrow, the centre of effort and the centre of lateral resistance tend to those of the limit. Excluded are limits at which the program itself switches: a panel exactly on a vortex core boundary or at the least admissible area, a pressure point exactly on the water surface or at the water level of an exponential profile, a deck exactly at the water surface, an apparent wind from exactly astern, and a highest edge exactly at a whole number of metres (the size of the drawn water is rounded up).", "quantifier": "all families of well-formed configurations that tend to a configuration with a picture", "why_tests_cant": "continuity is a statement about all settings near a given one; a test compares finitely many settings with a guessed tolerance", "anchors": ["pySailingVLM/solver/panels_plotter.py: display_panels_xyz_and_winds, display_panels_xyz, display_winds, display_CE_CLR, display_hull", "pySailingVLM/yacht_geometry/hull_geometry.py: HullGeometry", "pySailingVLM/runner/cli.py: main"]}
{"id": "C146", "title": "A jib alone may stand anywhere along the yacht", "statement": "Take a variables.py that sets a jib alone and for which the program writes its workbook, and change only mast_LOA. The program writes a workbook again. In the table of the panels only the places of the control points and the moments change: the places by one distance, which is the change of mast_LOA divided by the sine of the rake, along the yacht in the direction of the leeway angle; each moment by the moment of the force of its line acting at this distance. The inlet sheet is the same, and so are the total forces and the moment of the keel; the moments of the sails, of the jib and of everything change by the moment of the total force acting at this distance. The plots of the section coefficients are the same and the map of the pressure coefficients shows the same outlines with the same values, moved by the distance.", "quantifier": "all well-formed configurations with a jib alone, all values of mast_LOA, all heel and leeway angles, profiles of the wind, meshes and shapes of the sail", "why_tests_cant": "A test compares two places of the mast; the claim is about every place, every sail and every line of the workbook.", "anchors": ["pySailingVLM/yacht_geometry/sail_factory.py: make_jib", "pySailingVLM/results/inviscid_flow.py: InviscidFlowResults", "pySailingVLM/results/save_utils.py: save_results_to_file", "pySailingVLM/solver/panels_plotter.py: plot_cp"]}
{"id": "C147", "title": "Rig data that describe the same sails give the same run", "statement": "For a main sail alone only the height of its tack matters: if sheer_above_waterline and boom_above_sheer change such that their sum stays the same, and the base of the foretriangle changes in any way, the program ends alike and produces the same workbook, pressure map and section plots, and the same picture apart from the lines of the hull. For every choice of sails, only the shape of the foretriangle and the place of its foremost point matter: multiplying foretriangle_base and foretriangle_height by the same positive factor and changing mast_LOA such that the foremost point stays where it is gives the same outputs in the same sense.", "quantifier": "all configurations (also those that end with an error), all heights of deck and boom with the same sum, all bases; all positive factors and all choices of sails", "why_tests_cant": "A test compares particular numbers; the claim is about every pair of descriptions of the same sails and about everything the program produces.", "anchors": ["pySailingVLM/yacht_geometry/sail_factory.py: make_main_sail, make_jib", "pySailingVLM/runner/cli.py: main", "pySailingVLM/yacht_geometry/hull_geometry.py: HullGeometry"]}
{"id": "C148", "title": "Sections on straight lines between their neighbours change nothing", "statement": "With linear interpolation, adding to the description of the main sail or of the jib a section whose girth, chord, twist, camber and camber position lie on straight lines between those of two neighbouring sections does not change the run at all: same pictures, same workbook, same end. The same is true if the twist is left out and the default twist is used.", "quantifier": "Every configuration with linear interpolation; every list of sections; every pair of neighbouring sections with increasing girth; every place strictly between them; twist given or left out; main sail or jib; every way a run may end.", "why_tests_cant": "There are infinitely many ways of splitting a sail into sections; a test compares a few tables.", "anchors": ["pySailingVLM/solver/interpolator.py: Interpolator.interpolate_girths", "pySailingVLM/runner/sail.py: Sail.__get_sail_set", "pySailingVLM/runner/sail.py: MainSail, JibSail"]}
{"id": "C149", "title": "Angles count modulo full turns", "statement": "Changing the heel, the rake of the mast, or the twist of all sections of a sail by full turns does not change the run at all. Changing the leeway by full turns changes only the angles that the workbook measures from the centre line (AWA_*_COW_deg), by these full turns; every picture, force, moment and other number stays.", "quantifier": "Every configuration; every whole number of turns of every angle, together or separately; every way a run may end.", "why_tests_cant": "There are infinitely many configurations and numbers of turns.", "anchors": ["pySailingVLM/rotations/csys_transformations.py: CSYS_transformations", "pySailingVLM/rotations/geometry_calc.py: rotation_matrix, rotate_points_around_arbitrary_axis", "pySailingVLM/yacht_geometry/sail_factory.py: SailFactory", "pySailingVLM/yacht_geometry/sail_geometry.py: SailGeometry", "pySailingVLM/results/save_utils.py: save_results_to_file"]}
{"id": "C150", "title": "The keel influences its own moment only", "statement": "Two runs whose centres of lateral resistance differ produce the same outputs in the same order and end alike, apart from the rows of the workbook with the moment of the keel and the total moment, and from the place where the keel's force is drawn in the picture. The workbook is the same in all rows exactly if the centre of lateral resistance is moved along the direction of the total force.", "quantifier": "Every configuration; every two places of the centre of lateral resistance; every way a run may end.", "why_tests_cant": "There are infinitely many configurations and places of the keel.", "anchors": ["pySailingVLM/results/inviscid_flow.py: InviscidFlowResults.estimate_heeling_moment_from_keel, to_df_integral", "pySailingVLM/yacht_geometry/hull_geometry.py: HullGeometry", "pySailingVLM/solver/panels_plotter.py: display_CE_CLR", "pySailingVLM/runner/cli.py: main"]}
{"id": "C151", "title": "A straight sail is the same sail however it is described", "statement": "If chord, twist, camber and camber position of the sails are straight lines over the girth, the run does not depend on the girths at which they are given, as long as these increase from the foot or below to the head or above, nor on the kind of interpolation (linear, or spline through at least four sections): the outputs and the end are the same.", "quantifier": "Every configuration; every straight main sail and jib; every two lists of girths for each sail; both kinds of interpolation; every way a run may end.", "why_tests_cant": "There are infinitely many lists of girths and straight sails; a test compares a few tables.", "anchors": ["pySailingVLM/solver/interpolator.py: Interpolator.interpolate_girths", "pySailingVLM/runner/sail.py: Sail.__get_sail_set", "pySailingVLM/runner/cli.py: main"]}
{"id": "C152", "title": "The sails feel the apparent wind only", "statement": "If two descriptions of the wind (direction, speed, speed of the yacht, profile) give the same apparent wind on board at every height above the water, the program produces the same output in the same order and ends alike, apart from what shows the true wind itself: the columns TWS_COG and TWS_length of the sheet Components, the sheet of the wind at the reference height, and the green arrows of the picture. In particular, with the flat profile, sailing at some speed in one wind and lying at rest in another one with the same sum of wind and head wind give the same forces, moments, pressures, circulations, maps and plots.", "quantifier": "all configurations, all pairs of winds with equal apparent wind", "why_tests_cant": "the true wind and the speed of the yacht are read at several places; no finite set of winds shows that none of them uses one without the other", "anchors": ["pySailingVLM/inlet/winds.py: get_app_infs_at_h", "pySailingVLM/inlet/inlet_conditions.py: InletConditions", "pySailingVLM/solver/panels_plotter.py: display_winds", "pySailingVLM/results/save_utils.py: save_results_to_file"]}
{"id": "C153", "title": "The reference point for moments influences the moments only", "statement": "Two runs whose configurations differ only in reference_level_for_moments produce the same outputs in the same order and end alike, apart from the moments of the sails: the rows of M_sails, M_jib, M_main_sail and M_total of the sheet Integrals, the columns M_sails_COG of the sheet Components, and the centre of effort with the arrow that starts there in the picture. All forces, the moments of the keel, the wind, the pressures, the map and the section plots are the same.", "quantifier": "all configurations, all pairs of reference points", "why_tests_cant": "the reference point is part of the object that also carries heel and leeway through the whole program; no finite set of points shows that nothing else reads it", "anchors": ["pySailingVLM/results/inviscid_flow.py: InviscidFlowResults", "pySailingVLM/rotations/csys_transformations.py: CSYS_transformations", "pySailingVLM/results/save_utils.py: save_results_to_file", "pySailingVLM/solver/panels_plotter.py: display_CE_CLR"]}
{"id": "C154", "title": "The place of the greatest camber of a sail without camber does not matter", "statement": "With linear interpolation, the values of camber_distance_from_luff of a sail whose camber is zero at every girth have no influence on anything a run does, as long as there are as many of them and they lie in the accepted range from 0 to 0.9.", "quantifier": "all configurations with linear interpolation, all accepted camber positions", "why_tests_cant": "the camber line is computed by different formulas before and behind the greatest camber, and the position enters denominators; a sail without camber must not feel any of it at any girth", "anchors": ["pySailingVLM/thin_airfoil/vlm_airfoil.py: VlmAirfoil", "pySailingVLM/solver/mesher.py: make_airfoil_mesh", "pySailingVLM/runner/sail.py: Sail", "pySailingVLM/solver/interpolator.py: Interpolator"]}
{"id": "C155", "title": "Data of wind profiles that are not selected have no influence", "statement": "Nothing a run does depends on those wind data which the selected profile does not use: the roughness for the exponential profile; exponent, reference height, water level and roughness for the flat profile; exponent and water level otherwise - as long as the data that are tested for None are given in both cases or in neither.", "quantifier": "all configurations, all values of the unused data", "why_tests_cant": "a stray use of an unused value shows only for particular values; the claim is about all of them", "anchors": ["pySailingVLM/runner/sail.py: Wind", "pySailingVLM/inlet/winds.py: FlatWindProfile, LogWindProfile, ExpWindProfile", "pySailingVLM/runner/cli.py: main"]}
{"id": "C156", "title": "The reference height of the wind may be chosen freely", "statement": "With an exponential profile with exponent k, a wind speed V at reference height H and a wind speed V*(H'/H)**k at reference height H' (both heights positive and above the water line given for the profile) give the same run: every file, sheet, message and figure is the same except for the sheet that lists the wind at the reference height itself. With a logarithmic profile with roughness r, V at H and V*ln(H'/r)/ln(H/r) at H' (heights positive and different from r) give the same run with all sheets.", "quantifier": "all input files with an exponential or a logarithmic profile, all pairs of reference heights as described", "why_tests_cant": "Wind data are measured at whatever height the instrument is mounted; that only the profile counts must hold for all heights, exponents and geometries.", "anchors": ["pySailingVLM/inlet/winds.py: ExpWindProfile, LogWindProfile", "pySailingVLM/runner/sail.py: Wind"]}
