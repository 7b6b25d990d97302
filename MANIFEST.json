{
 "claims": [
  {
   "property": "C01",
   "status": "proved",
   "theorems": [
    "PySailing.Props.C01_rotation_matrix_is_rodrigues",
    "PySailing.Props.C01_spec_right_handed"
   ],
   "note": ""
  },
  {
   "property": "C02",
   "status": "proved",
   "theorems": [
    "PySailing.Props.C02_rotation_group"
   ],
   "note": ""
  },
  {
   "property": "C03",
   "status": "partial",
   "theorems": [
    "PySailing.Props.C03_rotation_about_line_partial",
    "PySailing.Props.C03_refuted_parallel_x",
    "PySailing.Props.C03_origin_axis"
   ],
   "note": "The code violates the property for axes parallel to x (0/0); proved for all other axes, refuted for these."
  },
  {
   "property": "C04",
   "status": "proved",
   "theorems": [
    "PySailing.Props.C04_twist_shortcut"
   ],
   "note": ""
  },
  {
   "property": "C05",
   "status": "partial",
   "theorems": [
    "PySailing.Props.C05_round_trip_partial",
    "PySailing.Props.C05_round_trip_centreplane",
    "PySailing.Props.C05_refuted",
    "PySailing.Props.C05_exact"
   ],
   "note": "False in general: a point carried across the water plane by the heel is not restored. Proved whenever the heel keeps the side."
  },
  {
   "property": "C06",
   "status": "proved",
   "theorems": [
    "PySailing.Props.C06_mirror",
    "PySailing.Props.C06_needs_off_plane"
   ],
   "note": ""
  },
  {
   "property": "C07",
   "status": "proved",
   "theorems": [
    "PySailing.Props.C07_centreline_rigid"
   ],
   "note": ""
  },
  {
   "property": "C08",
   "status": "partial",
   "theorems": [
    "PySailing.Props.C08_centreline_orientation_partial",
    "PySailing.Props.C08_refuted",
    "PySailing.Props.C08_exact"
   ],
   "note": "The code rotates by +leeway instead of -leeway; refuted, with the exact error and the zero-leeway case proved."
  },
  {
   "property": "C09",
   "status": "proved",
   "theorems": [
    "PySailing.Props.C09_discrete_segment"
   ],
   "note": ""
  },
  {
   "property": "C10",
   "status": "proved",
   "theorems": [
    "PySailing.Props.C10_camber_line",
    "PySailing.Props.C10_rejects",
    "PySailing.Props.C10_p_zero_leading_edge"
   ],
   "note": ""
  },
  {
   "property": "C11",
   "status": "proved",
   "theorems": [
    "PySailing.Props.C11_surfaces"
   ],
   "note": ""
  },
  {
   "property": "C12",
   "status": "proved",
   "theorems": [
    "PySailing.Props.C12_airfoil_mesh",
    "PySailing.Props.C12_airfoil_mesh_rejects",
    "PySailing.Props.C12_one_chord"
   ],
   "note": ""
  },
  {
   "property": "C13",
   "status": "proved",
   "theorems": [
    "PySailing.Props.C13_panels_tile"
   ],
   "note": ""
  },
  {
   "property": "C14",
   "status": "proved",
   "theorems": [
    "PySailing.Props.C14_edge_flags"
   ],
   "note": ""
  },
  {
   "property": "C15",
   "status": "partial",
   "theorems": [
    "PySailing.Props.C15_panel_area_partial",
    "PySailing.Props.C15_refuted",
    "PySailing.Props.C15_exact"
   ],
   "note": "The code adds the triangles p1p2p3 and p2p3p4, which overlap, so the sum is wrong for general plane quadrilaterals (C15_refuted); proved for panels whose chordwise edges p1p2 and p4p3 are parallel."
  },
  {
   "property": "C16",
   "status": "proved",
   "theorems": [
    "PySailing.Props.C16_sail_geometry",
    "PySailing.Props.C16_position_zero_fails",
    "PySailing.Props.C16_luff_kept"
   ],
   "note": "Guards beyond the statement: heel is not 90 degrees."
  },
  {
   "property": "C17",
   "status": "partial",
   "theorems": [
    "PySailing.Props.C17_mirror_image_partial",
    "PySailing.Props.C17_refuted",
    "PySailing.Props.C17_exact"
   ],
   "note": "The underwater sail is built with the unreversed camber positions; proved for position distributions symmetric along the span, refuted otherwise."
  },
  {
   "property": "C18",
   "status": "partial",
   "theorems": [
    "PySailing.Props.C18_twist_mode_partial",
    "PySailing.Props.C18_mode_ignored",
    "PySailing.Props.C18_run_mode_ignored",
    "PySailing.Props.C18_refuted"
   ],
   "note": "The selected distribution is overwritten; proved: every mode behaves as real_twist, unknown modes are KeyErrors; refuted for the two constant modes."
  },
  {
   "property": "C19",
   "status": "partial",
   "theorems": [
    "PySailing.Props.C19_main_sail",
    "PySailing.Props.C19_jib_partial",
    "PySailing.Props.C19_refuted",
    "PySailing.Props.C19_exact"
   ],
   "note": "The jib uses arcsin and points aft also when the forestay runs forward (height*cos(rake) > base)."
  },
  {
   "property": "C20",
   "status": "proved",
   "theorems": [
    "PySailing.Props.C20_sail_set",
    "PySailing.Props.C20_applies"
   ],
   "note": ""
  },
  {
   "property": "C21",
   "status": "partial",
   "theorems": [
    "PySailing.Props.C21_flat",
    "PySailing.Props.C21_exponential",
    "PySailing.Props.C21_logarithmic_partial",
    "PySailing.Props.C21_refuted",
    "PySailing.Props.C21_logarithmic_defined"
   ],
   "note": "Everything is proved except 'the wind has direction alpha' for the logarithmic profile below the roughness height, where the speed is negative (C21_refuted)."
  },
  {
   "property": "C22",
   "status": "partial",
   "theorems": [
    "PySailing.Props.C22_vector_sum",
    "PySailing.Props.C22_angle_partial",
    "PySailing.Props.C22_agrees_with_arctan2",
    "PySailing.Props.C22_no_wind",
    "PySailing.Props.C22_refuted"
   ],
   "note": "Vector sum and cosine law proved; the angle formula is right iff V*sin(alpha) >= 0, refuted on the other tack."
  },
  {
   "property": "C23",
   "status": "partial",
   "theorems": [
    "PySailing.Props.C23_profile_partial",
    "PySailing.Props.C23_named_profiles",
    "PySailing.Props.C23_refuted",
    "PySailing.Props.C23_exact"
   ],
   "note": "Exact behaviour proved; the code accepts unknown names (as logarithmic), never checks the exponential parameters and rejects flat without unused parameters."
  },
  {
   "property": "C24",
   "status": "proved",
   "theorems": [
    "PySailing.Props.C24_mirror",
    "PySailing.Props.C24_flat_ok"
   ],
   "note": ""
  },
  {
   "property": "C25",
   "status": "proved",
   "theorems": [
    "PySailing.Props.C25_vortex_line_biot_savart"
   ],
   "note": ""
  },
  {
   "property": "C26",
   "status": "proved",
   "theorems": [
    "PySailing.Props.C26_vortex_line_symmetries",
    "PySailing.Props.C26_vortex_infinite_line_symmetries"
   ],
   "note": ""
  },
  {
   "property": "C27",
   "status": "proved",
   "theorems": [
    "PySailing.Props.C27_infinite_line_is_limit"
   ],
   "note": "Guard: the start of the filament is at least 1e-8 away (otherwise the finite segments are inside the core)."
  },
  {
   "property": "C28",
   "status": "proved",
   "theorems": [
    "PySailing.Props.C28_rings",
    "PySailing.Props.C28_horseshoe_is_limit_of_rings",
    "PySailing.Props.C28_horseshoes_agree"
   ],
   "note": ""
  },
  {
   "property": "C29",
   "status": "partial",
   "theorems": [
    "PySailing.Props.C29_scaling_partial",
    "PySailing.Props.C29_scaling_infinite",
    "PySailing.Props.C29_refuted",
    "PySailing.Props.C29_exact"
   ],
   "note": "False in general because the core radius is absolute; proved outside of the core."
  },
  {
   "property": "C30",
   "status": "proved",
   "theorems": [
    "PySailing.Props.C30_no_flow",
    "PySailing.Props.C30_returns_iff",
    "PySailing.Props.C30_assertion_never_fires"
   ],
   "note": ""
  },
  {
   "property": "C31",
   "status": "proved",
   "theorems": [
    "PySailing.Props.C31_no_flux_check"
   ],
   "note": ""
  },
  {
   "property": "C32",
   "status": "proved",
   "theorems": [
    "PySailing.Props.C32_panel_points"
   ],
   "note": ""
  },
  {
   "property": "C33",
   "status": "proved",
   "theorems": [
    "PySailing.Props.C33_watertight",
    "PySailing.Props.C33_sail_set"
   ],
   "note": ""
  },
  {
   "property": "C34",
   "status": "proved",
   "theorems": [
    "PySailing.Props.C34_upstream",
    "PySailing.Props.C34_vlm"
   ],
   "note": ""
  },
  {
   "property": "C35",
   "status": "proved",
   "theorems": [
    "PySailing.Props.C35_decomposition",
    "PySailing.Props.C35_unknown_name",
    "PySailing.Props.C35_reported"
   ],
   "note": ""
  },
  {
   "property": "C36",
   "status": "proved",
   "theorems": [
    "PySailing.Props.C36_orientation"
   ],
   "note": ""
  },
  {
   "property": "C37",
   "status": "proved",
   "theorems": [
    "PySailing.Props.C37_wind_speed"
   ],
   "note": ""
  },
  {
   "property": "C38",
   "status": "proved",
   "theorems": [
    "PySailing.Props.C38_density"
   ],
   "note": "Section coefficients are compared for densities of the same sign."
  },
  {
   "property": "C39",
   "status": "proved",
   "theorems": [
    "PySailing.Props.C39_mirror",
    "PySailing.Props.C39_sail_set"
   ],
   "note": ""
  },
  {
   "property": "C40",
   "status": "proved",
   "theorems": [
    "PySailing.Props.C40_rigid_motion",
    "PySailing.Props.C40_horizontal_translation"
   ],
   "note": "Rotations are stated for arbitrary arrays of winds at the pressure points, because the wind profiles of the code are tied to the x axis and the height."
  },
  {
   "property": "C41",
   "status": "partial",
   "theorems": [
    "PySailing.Props.C41_coefficients_partial",
    "PySailing.Props.C41_CL_is_zero",
    "PySailing.Props.C41_refuted",
    "PySailing.Props.C41_exact",
    "PySailing.Props.C41_flat_wing"
   ],
   "note": "Cxyz and CD are the non-dimensional force; CL is taken from the spanwise component and is 0 for every wing in a flow normal to the span (C41_refuted gives a wing with lift)."
  },
  {
   "property": "C42",
   "status": "proved",
   "theorems": [
    "PySailing.Props.C42_pressure"
   ],
   "note": ""
  },
  {
   "property": "C43",
   "status": "proved",
   "theorems": [
    "PySailing.Props.C43_section_coefficients",
    "PySailing.Props.C43_vlm",
    "PySailing.Props.C43_plot_data",
    "PySailing.Props.C43_plot_data_iff"
   ],
   "note": ""
  },
  {
   "property": "C44",
   "status": "partial",
   "theorems": [
    "PySailing.Props.C44_labels_partial",
    "PySailing.Props.C44_refuted",
    "PySailing.Props.C44_run_partial",
    "PySailing.Props.C44_exact"
   ],
   "note": "The code passes the drag data to the figure labelled lift and vice versa (C44_refuted); everything else about the two figures is proved."
  },
  {
   "property": "C45",
   "status": "partial",
   "theorems": [
    "PySailing.Props.C45_totals_partial",
    "PySailing.Props.C45_refuted",
    "PySailing.Props.C45_exact"
   ],
   "note": "proved for pairwise different sail names other than 'sails'; refuted for equal names (the sheet keeps the last one)"
  },
  {
   "property": "C46",
   "status": "proved",
   "theorems": [
    "PySailing.Props.C46_shift",
    "PySailing.Props.C46_mirror",
    "PySailing.Props.C46_mirror_moment"
   ],
   "note": ""
  },
  {
   "property": "C47",
   "status": "partial",
   "theorems": [
    "PySailing.Props.C47_recover",
    "PySailing.Props.C47_centre_partial",
    "PySailing.Props.C47_refuted"
   ],
   "note": "recovery proved for all r and F; the centre of effort reproduces the moment up to its component along F, equality refuted in general"
  },
  {
   "property": "C48",
   "status": "partial",
   "theorems": [
    "PySailing.Props.C48_total_partial",
    "PySailing.Props.C48_depends",
    "PySailing.Props.C48_refuted"
   ],
   "note": "M_total is the couple only for a reference point v with v x F = 0; dependence on v proved for every flow with a total force"
  },
  {
   "property": "C49",
   "status": "proved",
   "theorems": [
    "PySailing.Props.C49_components"
   ],
   "note": ""
  },
  {
   "property": "C50",
   "status": "proved",
   "theorems": [
    "PySailing.Props.C50_girths",
    "PySailing.Props.C95_sheet"
   ],
   "note": ""
  },
  {
   "property": "C51",
   "status": "proved",
   "theorems": [
    "PySailing.Props.C51_last_estimate"
   ],
   "note": "sails must not be called 'sails' or 'keel'"
  },
  {
   "property": "C52",
   "status": "proved",
   "theorems": [
    "PySailing.Props.C52_polygon",
    "PySailing.Props.C52_reproduces",
    "PySailing.Props.C52_range",
    "PySailing.Props.C52_affine",
    "PySailing.Props.C52_monotone",
    "PySailing.Props.C52_mirror",
    "PySailing.Props.C52_sections",
    "PySailing.Props.C52_unknown_type",
    "PySailing.Props.C52_bad_data"
   ],
   "note": "linear interpolation; the scipy spline is an uninterpreted function parameter"
  },
  {
   "property": "C53",
   "status": "partial",
   "theorems": [
    "PySailing.Props.C53_validation_partial",
    "PySailing.Props.C53_refuted_chords",
    "PySailing.Props.C53_refuted_none",
    "PySailing.Props.C53_refuted_unknown",
    "PySailing.Props.C53_refuted_missing_chords"
   ],
   "note": "the check is exact for the arrays it looks at; chords are never checked, a missing sail object ends in UnboundLocalError and an unknown sails_def is accepted"
  },
  {
   "property": "C54",
   "status": "partial",
   "theorems": [
    "PySailing.Props.C54_direction_partial",
    "PySailing.Props.C54_refuted"
   ],
   "note": "equal to the arctan2 angle iff the local flow has V.x > 0 (or V.x = 0, V.y != 0); off by 180 degrees for V.x < 0"
  },
  {
   "property": "C55",
   "status": "proved",
   "theorems": [
    "PySailing.Props.C55_formula",
    "PySailing.Props.C55_angle",
    "PySailing.Props.C55_limit"
   ],
   "note": ""
  },
  {
   "property": "C56",
   "status": "proved",
   "theorems": [
    "PySailing.Props.C56_arrows",
    "PySailing.Props.C56_other_counts",
    "PySailing.Props.C56_vlm",
    "PySailing.Props.C105_picture",
    "PySailing.Props.C56_mismatch"
   ],
   "note": ""
  },
  {
   "property": "C57",
   "status": "proved",
   "theorems": [
    "PySailing.Props.C57_hull",
    "PySailing.Props.C104_drawn"
   ],
   "note": ""
  },
  {
   "property": "C58",
   "status": "proved",
   "theorems": [
    "PySailing.Props.C58_kutta_joukowski"
   ],
   "note": ""
  },
  {
   "property": "C59",
   "status": "proved",
   "theorems": [
    "PySailing.Props.C59_csys_constructor_total"
   ],
   "note": "scipy's from_rotvec is modelled by its documentation."
  },
  {
   "property": "C60",
   "status": "proved",
   "theorems": [
    "PySailing.Props.C60_infinite_line_finite_iff"
   ],
   "note": ""
  },
  {
   "property": "C61",
   "status": "proved",
   "theorems": [
    "PySailing.Props.C61_never_nan",
    "PySailing.Props.C61_parallel_luff"
   ],
   "note": ""
  },
  {
   "property": "C62",
   "status": "proved",
   "theorems": [
    "PySailing.Props.C62_reference_sheet",
    "PySailing.Props.C62_dummy",
    "PySailing.Props.C62_written"
   ],
   "note": ""
  },
  {
   "property": "C63",
   "status": "proved",
   "theorems": [
    "PySailing.Props.C63_same_as_vlm"
   ],
   "note": ""
  },
  {
   "property": "C64",
   "status": "proved",
   "theorems": [
    "PySailing.Props.C64_wing_geometry"
   ],
   "note": ""
  },
  {
   "property": "C65",
   "status": "proved",
   "theorems": [
    "PySailing.Props.C65_selection"
   ],
   "note": ""
  },
  {
   "property": "C66",
   "status": "proved",
   "theorems": [
    "PySailing.Props.C66_builds"
   ],
   "note": ""
  },
  {
   "property": "C67",
   "status": "proved",
   "theorems": [
    "PySailing.Props.C67_force_arrows",
    "PySailing.Props.C67_no_force",
    "PySailing.Props.C105_picture"
   ],
   "note": ""
  },
  {
   "property": "C68",
   "status": "partial",
   "theorems": [
    "PySailing.Props.C68_panel_colours",
    "PySailing.Props.C68_drawn",
    "PySailing.Props.C68_refuted_circulation",
    "PySailing.Props.C105_picture"
   ],
   "note": "proved for the VLM mode; the mode titled optimal circulation colours by pressure (refuted)"
  },
  {
   "property": "C69",
   "status": "proved",
   "theorems": [
    "PySailing.Props.C69_cp_map",
    "PySailing.Props.C69_run"
   ],
   "note": ""
  },
  {
   "property": "C70",
   "status": "partial",
   "theorems": [
    "PySailing.Props.C70_axes_partial",
    "PySailing.Props.C70_refuted",
    "PySailing.Props.C70_exact"
   ],
   "note": "equal scale always; containment of the edge mid points only for rigs higher than nine metres; refuted in general"
  },
  {
   "property": "C71",
   "status": "proved",
   "theorems": [
    "PySailing.Props.C71_order",
    "PySailing.Props.C71_rejected"
   ],
   "note": ""
  },
  {
   "property": "C72",
   "status": "partial",
   "theorems": [
    "PySailing.Props.C72_completes_partial",
    "PySailing.Props.C72_wellformed_partial",
    "PySailing.Props.C72_refuted_base",
    "PySailing.Props.C72_refuted_reference"
   ],
   "note": "refuted as stated: a main sail without foretriangle base and an exponential wind whose reference height is below the water level pass the checks and end with TypeError; proved for all other configurations whose lattice is not flat in the water plane"
  },
  {
   "property": "C73",
   "status": "proved",
   "theorems": [
    "PySailing.Props.C73_totals"
   ],
   "note": ""
  },
  {
   "property": "C74",
   "status": "proved",
   "theorems": [
    "PySailing.Props.C74_density",
    "PySailing.Props.C74_wind_speed"
   ],
   "note": ""
  },
  {
   "property": "C77",
   "status": "proved",
   "theorems": [
    "PySailing.Props.C77_geometry"
   ],
   "note": ""
  },
  {
   "property": "C75",
   "status": "proved",
   "theorems": [
    "PySailing.Props.C75_jib",
    "PySailing.Props.C75_main"
   ],
   "note": ""
  },
  {
   "property": "C76",
   "status": "partial",
   "theorems": [
    "PySailing.Props.C76_picture_partial",
    "PySailing.Props.C76_refuted"
   ],
   "note": "everything but the centre of effort is unchanged; the centre of effort is drawn relative to the reference point and moves by the opposite displacement (refuted)"
  },
  {
   "property": "C78",
   "status": "proved",
   "theorems": [
    "PySailing.Props.C78_divergence_free"
   ],
   "note": ""
  },
  {
   "property": "C79",
   "status": "proved",
   "theorems": [
    "PySailing.Props.C79_irrotational",
    "PySailing.Props.C79_any_lattice"
   ],
   "note": ""
  },
  {
   "property": "C80",
   "status": "proved",
   "theorems": [
    "PySailing.Props.C80_decay"
   ],
   "note": ""
  },
  {
   "property": "C81",
   "status": "proved",
   "theorems": [
    "PySailing.Props.C81_spline",
    "PySailing.Props.C81_values",
    "PySailing.Props.C81_reproduces",
    "PySailing.Props.C81_cubic",
    "PySailing.Props.C81_affine",
    "PySailing.Props.C81_superposition",
    "PySailing.Props.C81_too_few",
    "PySailing.Props.C81_decreasing"
   ],
   "note": "scipy's FITPACK spline is modelled by its characterisation (Spec.IsSpline), whose existence and uniqueness are proved."
  },
  {
   "property": "C82",
   "status": "partial",
   "theorems": [
    "PySailing.Props.C82_range_partial",
    "PySailing.Props.C82_overshoot",
    "PySailing.Props.C82_exit"
   ],
   "note": "Holds for 'linear'. Refuted for 'spline': C82_overshoot, and C82_exit shows a configuration with valid data whose run ends with status 1."
  },
  {
   "property": "C83",
   "status": "partial",
   "theorems": [
    "PySailing.Props.C83_table",
    "PySailing.Props.C83_components",
    "PySailing.Props.C83_integrals",
    "PySailing.Props.C83_inlet_partial",
    "PySailing.Props.C83_refuted"
   ],
   "note": "Holds for Components, Integrals and all rows with a coordinate system; refuted for the rows of IC_at_reference_height that have none (every run with the exponential profile)."
  },
  {
   "property": "C84",
   "status": "proved",
   "theorems": [
    "PySailing.Props.C84_written",
    "PySailing.Props.C84_sums",
    "PySailing.Props.C84_small",
    "PySailing.Props.C84_layout"
   ],
   "note": "pandas' float_format is modelled by its documentation (nearest decimal)."
  },
  {
   "property": "C85",
   "status": "partial",
   "theorems": [
    "PySailing.Props.C85_other_tack_partial",
    "PySailing.Props.C85_refuted",
    "PySailing.Props.C85_exact"
   ],
   "note": "Holds for every configuration without camber. Refuted for cambered sails: negative camber ends the program with status 1."
  },
  {
   "property": "C86",
   "status": "partial",
   "theorems": [
    "PySailing.Props.C86_size_partial",
    "PySailing.Props.C86_refuted"
   ],
   "note": "Proved for all lattices whose control and pressure points are in the same vortex cores before and after (and areas above 1e-14). Refuted in general: the core radius is absolute; a 1 cm panel gets ten times the circulation that similarity asks for."
  },
  {
   "property": "C87",
   "status": "proved",
   "theorems": [
    "PySailing.Props.C87_symmetric"
   ],
   "note": "every chordwise row and spanwise position, every discretisation"
  },
  {
   "property": "C88",
   "status": "proved",
   "theorems": [
    "PySailing.Props.C88_incidence",
    "PySailing.Props.C88_opposite",
    "PySailing.Props.C88_theory_ignores_stream"
   ],
   "note": "g must not be 0; the theoretical coefficients ignore the direction of the free stream"
  },
  {
   "property": "C89",
   "status": "proved",
   "theorems": [
    "PySailing.Props.C89_no_load",
    "PySailing.Props.C89_wing"
   ],
   "note": ""
  },
  {
   "property": "C90",
   "status": "proved",
   "theorems": [
    "PySailing.Props.C90_own_files",
    "PySailing.Props.C90_complete",
    "PySailing.Props.C90_done_iff"
   ],
   "note": "file names without directory part; directories can be created and written to"
  },
  {
   "property": "C91",
   "status": "partial",
   "theorems": [
    "PySailing.Props.C91_kept_partial",
    "PySailing.Props.C91_refuted_same_second"
   ],
   "note": "holds for any history of runs with other output directories; refuted for two runs within one second with the shipped settings: the second replaces the workbook of the first"
  },
  {
   "property": "C92",
   "status": "partial",
   "theorems": [
    "PySailing.Props.C92_option_partial",
    "PySailing.Props.C92_refuted",
    "PySailing.Props.C92_cached",
    "PySailing.Props.C92_exact"
   ],
   "note": "holds in a new process when no directory searched before has a variables.py; refuted otherwise (python -m pySailingVLM in a directory with a variables.py), and a second call of main() in one process always uses the settings of the first"
  },
  {
   "property": "C93",
   "status": "partial",
   "theorems": [
    "PySailing.Props.C93_archived_partial",
    "PySailing.Props.C93_refuted_missing",
    "PySailing.Props.C93_refuted_other",
    "PySailing.Props.C93_exact"
   ],
   "note": "holds for settings that name their own directory; refuted for the shipped variables.py, which names the working directory"
  },
  {
   "property": "C94",
   "status": "partial",
   "theorems": [
    "PySailing.Props.C94_status_partial",
    "PySailing.Props.C94_refuted_no_variables",
    "PySailing.Props.C94_refuted_rejected",
    "PySailing.Props.C94_exact"
   ],
   "note": "status other than 0 implies incomplete results; the converse is refuted; C94_exact says when the status is 0"
  },
  {
   "property": "C95",
   "status": "proved",
   "theorems": [
    "PySailing.Props.C95_sheet"
   ],
   "note": ""
  },
  {
   "property": "C96",
   "status": "proved",
   "theorems": [
    "PySailing.Props.C96_refine"
   ],
   "note": ""
  },
  {
   "property": "C97",
   "status": "proved",
   "theorems": [
    "PySailing.Props.C97_filament",
    "PySailing.Props.C97_trailing",
    "PySailing.Props.C97_core",
    "PySailing.Props.C97_lattice"
   ],
   "note": "unit circulation 1 or -1 in C97_lattice, as in the program"
  },
  {
   "property": "C98",
   "status": "proved",
   "theorems": [
    "PySailing.Props.C98_same_wind",
    "PySailing.Props.C98_same_run",
    "PySailing.Props.C98_full_turns",
    "PySailing.Props.C98_reversed",
    "PySailing.Props.C98_flat_profile",
    "PySailing.Props.C98_calm"
   ],
   "note": "exact arithmetic"
  },
  {
   "property": "C99",
   "status": "proved",
   "theorems": [
    "PySailing.Props.C99_meshes",
    "PySailing.Props.C99_sails"
   ],
   "note": ""
  },
  {
   "property": "C100",
   "status": "proved",
   "theorems": [
    "PySailing.Props.C100_continuous",
    "PySailing.Props.C100_wind",
    "PySailing.Props.C100_jump"
   ],
   "note": "off the boundaries of the vortex cores and the area threshold, where the program is discontinuous by design"
  },
  {
   "property": "C101",
   "status": "partial",
   "theorems": [
    "PySailing.Props.C101_mesh_partial",
    "PySailing.Props.C101_refuted",
    "PySailing.Props.C101_refuted_default",
    "PySailing.Props.C101_unknown_dimension",
    "PySailing.Props.C101_shorter"
   ],
   "note": "Proved for two dimensions and for x, y, z in this order. Refuted for every other order of three dimensions (labels follow the order, data do not) and for a second mesh with the default colour None (ValueError)."
  },
  {
   "property": "C102",
   "status": "proved",
   "theorems": [
    "PySailing.Props.C102_rings",
    "PySailing.Props.C102_no_points"
   ],
   "note": ""
  },
  {
   "property": "C103",
   "status": "proved",
   "theorems": [
    "PySailing.Props.C103_accepted",
    "PySailing.Props.C103_rejected",
    "PySailing.Props.C103_runs",
    "PySailing.Props.C103_help"
   ],
   "note": "argparse of Python 3.10/3.11 for the declared option; the model was compared with the standard library on random command lines"
  },
  {
   "property": "C104",
   "status": "partial",
   "theorems": [
    "PySailing.Props.C104_drawn",
    "PySailing.Props.C104_deck_partial",
    "PySailing.Props.C104_refuted"
   ],
   "note": "Everything but the symmetry, which holds up to 3 percent of the foretriangle base. Refuted exactly: the outline is a cambered airfoil, both edges end at the stern 3 percent of the base off the centreline."
  },
  {
   "property": "C105",
   "status": "proved",
   "theorems": [
    "PySailing.Props.C105_picture"
   ],
   "note": ""
  },
  {
   "property": "C106",
   "status": "partial",
   "theorems": [
    "PySailing.Props.C106_foot_partial",
    "PySailing.Props.C106_refuted"
   ],
   "note": "Exact: the points of a foot at the water level are heeled to the other side; in place iff the yacht is upright or the point is in the plane of symmetry. Refuted in general."
  },
  {
   "property": "C107",
   "status": "proved",
   "theorems": [
    "PySailing.Props.C107_config",
    "PySailing.Props.C107_group",
    "PySailing.Props.C107_unknown",
    "PySailing.Props.C107_twist_mode",
    "PySailing.Props.C107_default"
   ],
   "note": ""
  },
  {
   "property": "C108",
   "status": "proved",
   "theorems": [
    "PySailing.Props.C108_uniform",
    "PySailing.Props.C108_wellformed",
    "PySailing.Props.C108_shipped",
    "PySailing.Props.C122_sweep"
   ],
   "note": ""
  },
  {
   "property": "C109",
   "status": "proved",
   "theorems": [
    "PySailing.Props.C109_wing"
   ],
   "note": "Exact reals; panel area at least 2e-4 keeps control points out of the vortex cores."
  },
  {
   "property": "C110",
   "status": "proved",
   "theorems": [
    "PySailing.Props.C110_solver",
    "PySailing.Props.C110_run",
    "PySailing.Props.C110_rectangle"
   ],
   "note": "Exact reals; panel area at least 2e-4 keeps control points out of the vortex cores."
  },
  {
   "property": "C111",
   "status": "proved",
   "theorems": [
    "PySailing.Props.C111_strip",
    "PySailing.Props.C111_sail"
   ],
   "note": "About the lift array of the solver (Kutta-Joukowski with the undisturbed wind); panel area at least 2e-4."
  },
  {
   "property": "C112",
   "status": "proved",
   "theorems": [
    "PySailing.Props.C112_monotone"
   ],
   "note": "About circulations and the lift array; panel area at least 2e-4."
  },
  {
   "property": "C113",
   "status": "proved",
   "theorems": [
    "PySailing.Props.C113_part"
   ],
   "note": "About circulations and the lift array; panel area at least 2e-4."
  },
  {
   "property": "C114",
   "status": "proved",
   "theorems": [
    "PySailing.Props.C114_half_wing"
   ],
   "note": "Flat sail standing on the water, uniform wind, any result: Aircraft on the doubled wing returns and agrees panel by panel on circulation, force and pressure."
  },
  {
   "property": "C115",
   "status": "proved",
   "theorems": [
    "PySailing.Props.C115_wing",
    "PySailing.Props.C115_sail"
   ],
   "note": "one panel along the chord, wind within 60 degrees of the chord, strips at least 2e-8 wide"
  },
  {
   "property": "C116",
   "status": "proved",
   "theorems": [
    "PySailing.Props.C116_wing",
    "PySailing.Props.C116_sail"
   ],
   "note": "Exact reals; panel area at least 2e-4."
  },
  {
   "property": "C117",
   "status": "proved",
   "theorems": [
    "PySailing.Props.C117_aspect_ratio"
   ],
   "note": "About the lift array; exact reals; panel area at least 2e-4."
  },
  {
   "property": "C118",
   "status": "proved",
   "theorems": [
    "PySailing.Props.C118_exact",
    "PySailing.Props.C118_no_flux",
    "PySailing.Props.C118_accepted",
    "PySailing.Props.C118_sail",
    "PySailing.Props.sloppy_accepted"
   ],
   "note": "np.linalg.solve is an arbitrary function here; everything else is the exact model. The bounds of the differences are for flat rectangular sails."
  },
  {
   "property": "C119",
   "status": "proved",
   "theorems": [
    "PySailing.Props.C119_gusts"
   ],
   "note": "Flat rectangular sails, winds in one direction (any dependence on the height)."
  },
  {
   "property": "C120",
   "status": "proved",
   "theorems": [
    "PySailing.Props.C120_solver",
    "PySailing.Props.C120_main",
    "PySailing.Props.C120_jib"
   ],
   "note": "Upright sails, linear interpolation of the chords for complete runs, panels at least 4 cm by 4 cm."
  },
  {
   "property": "C121",
   "status": "proved",
   "theorems": [
    "PySailing.Props.C121_strip",
    "PySailing.Props.C121_sail",
    "PySailing.Props.C121_monotone"
   ],
   "note": ""
  },
  {
   "property": "C122",
   "status": "proved",
   "theorems": [
    "PySailing.Props.C122_solver",
    "PySailing.Props.C122_strip",
    "PySailing.Props.C122_sail",
    "PySailing.Props.C122_monotone",
    "PySailing.Props.C122_main",
    "PySailing.Props.C122_jib",
    "PySailing.Props.C122_angle",
    "PySailing.Props.C122_sweep"
   ],
   "note": "Upright sails, panels at least 4 cm by 4 cm; how close the wind must be is Spec.CloseToSail, C122_angle gives 19 degrees for leeches up to 45 degrees."
  },
  {
   "property": "C123",
   "status": "proved",
   "theorems": [
    "PySailing.Props.C123_bound",
    "PySailing.Props.C123_any_solver",
    "PySailing.Props.C123_gusts"
   ],
   "note": "Upright sails, panels at least 4 cm by 4 cm, same sails and winds as C120 and C122."
  },
  {
   "property": "C124",
   "status": "proved",
   "theorems": [
    "PySailing.Props.C124_tall_sail",
    "PySailing.Props.C124_long_wing"
   ],
   "note": "Upright sail with the foot on the water (tack at z = 0); the number of strips from which the bound holds is not given explicitly."
  },
  {
   "property": "C125",
   "status": "proved",
   "theorems": [
    "PySailing.Props.C125_rounded",
    "PySailing.Props.C125_a_priori",
    "PySailing.Props.C125_stable",
    "PySailing.Props.C125_sail_stable",
    "PySailing.Props.C125_sail",
    "PySailing.Props.C125_exact"
   ],
   "note": "Rounding of the panel coordinates, of the winds and of the forces is not included; the panels and winds may themselves be rounded numbers in the first three theorems."
  },
  {
   "property": "C126",
   "status": "proved",
   "theorems": [
    "PySailing.Props.C126_mesh",
    "PySailing.Props.C126_sails",
    "PySailing.Props.C126_nearly_flat"
   ],
   "note": "The limit set must be calculable and off the switching surfaces; for flat rectangular sails this is proved, not assumed."
  },
  {
   "property": "C127",
   "status": "proved",
   "theorems": [
    "PySailing.Props.C127_wing",
    "PySailing.Props.C127_all_wings"
   ],
   "note": "C127_wing needs the limit wing to be calculable and off the switching surfaces; for C127_all_wings this is proved."
  },
  {
   "property": "C128",
   "status": "proved",
   "theorems": [
    "PySailing.Props.C128_exact",
    "PySailing.Props.C128_limit",
    "PySailing.Props.C128_rounding",
    "PySailing.Props.C128_digits",
    "PySailing.Props.C128_stable_routine",
    "PySailing.Props.C128_sail"
   ],
   "note": "With an arithmetic as parameter; the linear solver is assumed backward stable (a routine that is, is given)."
  },
  {
   "property": "C129",
   "status": "proved",
   "theorems": [
    "PySailing.Props.C129_same_panel",
    "PySailing.Props.C129_meshes",
    "PySailing.Props.C129_sails",
    "PySailing.Props.C129_never",
    "PySailing.Props.C129_zero_orientation"
   ],
   "note": "two panels with the same control point and normal give two equal rows of the matrix; the exception is proved for lists of sails (meshes) whose single members can be calculated; exact arithmetic (with rounding the solver may return large numbers, which C118 bounds only by the no-flux check)"
  },
  {
   "property": "C130",
   "status": "proved",
   "theorems": [
    "PySailing.Props.C130_text",
    "PySailing.Props.C130_report",
    "PySailing.Props.C130_CL_line"
   ],
   "note": "the text of :.6f is modelled character by character (the float -0.0, printed with a sign, is the real number 0); how numpy prints arrays and Python a plain float is not modelled: the report contains these values themselves"
  },
  {
   "property": "C131",
   "status": "proved",
   "theorems": [
    "PySailing.Props.C131_exact",
    "PySailing.Props.C131_limit",
    "PySailing.Props.C131_rounding",
    "PySailing.Props.C131_all_wings",
    "PySailing.Props.C131_digits"
   ],
   "note": "Model/ArithWing.lean: Aircraft.__init__ with any arithmetic. C131_exact: exact operations give Model/Aircraft.lean. C131_limit: accurate enough operations give results as close as one likes. C131_rounding: rounding every result is accurate. C131_all_wings: flat wings, no assumption on the lattice. C131_digits: p binary digits."
  },
  {
   "property": "C132",
   "status": "proved",
   "theorems": [
    "PySailing.Props.C132_exact",
    "PySailing.Props.C132_limit",
    "PySailing.Props.C132_rounding",
    "PySailing.Props.C132_digits",
    "PySailing.Props.C132_nearly_flat"
   ],
   "note": "Model/ArithSail.lean: SailGeometry, SailSet, winds and Vlm with any arithmetic. C132_exact: exact operations give the exact model. C132_limit: accurate enough operations give winds and results as close as one likes. C132_rounding: rounding every result is accurate (the rounding of 0 is 0). C132_digits: p binary digits. C132_nearly_flat: sails near a flat rectangle, no assumption on the lattice, signs of the circulations. The limit sails must be well formed (SailOk); camber and its position are compared with the machine numbers for 0.3 and 0.9."
  },
  {
   "property": "C133",
   "status": "proved",
   "theorems": [
    "PySailing.Props.C133_nearby",
    "PySailing.Props.C133_nearly_flat",
    "PySailing.Props.C133_rectangle"
   ],
   "note": "C133_nearby: runs near a run whose lattice lies off the switching surfaces and off the water surface. C133_nearly_flat: limits that are upright flat main sails, no assumption on the calculation. C133_rectangle: the shipped rectangle file with camber and angles tending to its own. Exact arithmetic; the numbers that define the shape of the wind profile (exponent, reference height, water level, roughness) stay fixed."
  },
  {
   "property": "C134",
   "status": "proved",
   "theorems": [
    "PySailing.Props.C134_exact",
    "PySailing.Props.C134_limit",
    "PySailing.Props.C134_range",
    "PySailing.Props.C134_rounding",
    "PySailing.Props.C134_digits",
    "PySailing.Props.C134_nearly_flat",
    "PySailing.Props.C134_rectangle"
   ],
   "note": "C134_exact: with exact operations the run with operations as parameters is the run of Model/Main.lean; C134_limit: the limit; C134_range: computed camber stays in range; C134_rounding, C134_digits: rounding every result, p binary digits; C134_nearly_flat: main sails near a flat one, without assumption on the exact calculation; C134_rectangle: the shipped rectangle_variables.py."
  },
  {
   "property": "C135",
   "status": "proved",
   "theorems": [
    "PySailing.Props.C135_sail",
    "PySailing.Props.C135_run",
    "PySailing.Props.C135_wing"
   ],
   "note": "C135_sail: the solver on any flat sail with one panel along the chord. C135_run: main sails, values read from the workbook, and the picture. Wind within 45 degrees of the chord, one panel along the chord; exact arithmetic."
  },
  {
   "property": "C136",
   "status": "proved",
   "theorems": [
    "PySailing.Props.C136_drawn"
   ],
   "note": "nan is modelled as the outcome that a division by zero occurred; concrete cases of both kinds in Props/SideForce.lean."
  },
  {
   "property": "C137",
   "status": "proved",
   "theorems": [
    "PySailing.Props.C137_arrow",
    "PySailing.Props.C137_undefined"
   ],
   "note": "matplotlib's proj_transform is modelled by its source: homogeneous coordinates divided by the fourth; the camera matrix is arbitrary."
  },
  {
   "property": "C138",
   "status": "proved",
   "theorems": [
    "PySailing.Props.C138_airfoil_plot"
   ],
   "note": "data of the figure; rendering is not modelled."
  },
  {
   "property": "C139",
   "status": "partial",
   "theorems": [
    "PySailing.Props.C139_speed_density",
    "PySailing.Props.C139_units_partial",
    "PySailing.Props.C139_refuted"
   ],
   "note": "Speeds and densities: proved for all settings and all positive factors. Lengths: proved whenever the absolute sizes of the code (core radius, area threshold, and for growing numbers the tolerance of the twist check) do not distinguish the two lattices; C139_refuted shows that for every run some unit of length breaks the claim."
  },
  {
   "property": "C140",
   "status": "partial",
   "theorems": [
    "PySailing.Props.C140_speed_density",
    "PySailing.Props.C140_figures_partial"
   ],
   "note": "Speeds and densities: proved for all settings and positive factors. Lengths: proved whenever the absolute sizes of the code do not distinguish the two lattices; C139_refuted shows that otherwise the run in other units may write nothing at all."
  },
  {
   "property": "C141",
   "status": "partial",
   "theorems": [
    "PySailing.Props.C141_heading_partial",
    "PySailing.Props.C141_wellformed_partial",
    "PySailing.Props.C141_yacht_frame",
    "PySailing.Props.C141_refuted",
    "PySailing.Props.C141_figures",
    "PySailing.Props.C141_picture"
   ],
   "note": "Proved for every configuration at rest: all vectors in the frame of the course turn with the scene, all columns without direction stay, the angle of the apparent wind against the yacht stays up to full turns. Forces and moments in the frame of the yacht do not stay: they turn by twice the angle (consequence of C08), C141_yacht_frame, with a complete run in C141_refuted."
  },
  {
   "property": "C142",
   "status": "proved",
   "theorems": [
    "PySailing.Props.C142_direction",
    "PySailing.Props.C142_superposition",
    "PySailing.Props.C142_run",
    "PySailing.Props.C142_workbook",
    "PySailing.Props.C142_roughness"
   ],
   "note": "Existence of the flow depends only on directions (C142_direction, C142_run); circulations and velocities superpose at the solver (C142_superposition) and line by line in the workbook (C142_workbook); roughness of the logarithmic profile as instance (C142_roughness). Forces are quadratic and do not superpose."
  },
  {
   "property": "C143",
   "status": "proved",
   "theorems": [
    "PySailing.Props.C143_figures",
    "PySailing.Props.C143_picture"
   ],
   "note": "Both through the complete run (prepare_other gives the mirrored solution for sails without camber). The edges of the deck are not mirrored, because the program's hull is not symmetric (C104); for sails with camber the other tack is refuted in C85."
  },
  {
   "property": "C144",
   "status": "proved",
   "theorems": [
    "PySailing.Props.C144_figures",
    "PySailing.Props.C144_nearly_flat",
    "PySailing.Props.C144_demo"
   ],
   "note": "C144_figures: runs near a run whose lattice lies off the switching surfaces and off the water surface. C144_nearly_flat: limits that are upright flat main sails, nothing assumed about their calculation. C144_demo: a concrete family with camber, leeway, twist and wind angle varying, all three figures. The three-dimensional picture is not included: the size of its water surface is rounded to whole numbers and jumps."
  },
  {
   "property": "C145",
   "status": "proved",
   "theorems": [
    "PySailing.Props.C145_picture",
    "PySailing.Props.C145_demo"
   ],
   "note": "The whole picture as modelled tends: polygons and colours, ends of the colour scale, hull lines, wind arrows, force arrows, centre of effort, centre of lateral resistance; title, water size, axes, colours and opacities of arrows stay. C145_demo is a concrete family (camber and angles of a one-panel sail)."
  },
  {
   "property": "C146",
   "status": "proved",
   "theorems": [
    "PySailing.Props.C146_jib_along",
    "PySailing.Props.C146_figures"
   ],
   "note": "Both through the complete run, for every well-formed configuration with a jib alone. The non-vacuity example is a concrete run with an upright forestay (demoJibAlone) for which the workbook is proved to be written."
  },
  {
   "property": "C147",
   "status": "proved",
   "theorems": [
    "PySailing.Props.C147_main",
    "PySailing.Props.C147_foretriangle"
   ],
   "note": "Both for every configuration, including runs that stop with an error: the lists of effects agree one by one up to the lines of the hull (Spec/RigData.lean: SameButHull), and so do the ends."
  },
  {
   "property": "C148",
   "status": "proved",
   "theorems": [
    "PySailing.Props.C148_main",
    "PySailing.Props.C148_jib"
   ],
   "note": "Equality of the complete runs (effects and end) for every configuration with linear interpolation, with the twist given or left out (the default twist is a straight line in the girth). Exact arithmetic: in floating point the interpolated values may differ in the last digit. np.interp needs increasing girths; the model walks through the list, so for sections out of order the statement is about the model only."
  },
  {
   "property": "C149",
   "status": "proved",
   "theorems": [
    "PySailing.Props.C149_heel_leeway",
    "PySailing.Props.C149_heel",
    "PySailing.Props.C149_rake",
    "PySailing.Props.C149_twist"
   ],
   "note": "Equality of the complete runs for heel, rake and twist; for the leeway the run is the original one with the angles measured from the centre line lowered (Spec/Turns.lean: outputLowered). Half-angle quaternions change sign after an odd number of turns, the rotation matrices do not. The wind angle is C98. C149_twist is for both kinds of interpolation, with scipy's spline as modelled. Exact arithmetic."
  },
  {
   "property": "C150",
   "status": "proved",
   "theorems": [
    "PySailing.Props.C150_keel",
    "PySailing.Props.C150_line"
   ],
   "note": "Both about complete runs, unconditionally in the configuration (C150_line: for every workbook that a run writes). The rows concerned are listed in Spec/Keel.lean."
  },
  {
   "property": "C151",
   "status": "proved",
   "theorems": [
    "PySailing.Props.C151_straight"
   ],
   "note": "Equality of the complete runs, with scipy's spline modelled by fitpackSpline (Model/Spline.lean). The specification of straight sails and suitable girths is Spec/Straight.lean. Exact arithmetic."
  },
  {
   "property": "C152",
   "status": "proved",
   "theorems": [
    "PySailing.Props.C152_apparent",
    "PySailing.Props.C152_flat"
   ],
   "note": "Whole run; the hypotheses of C152_apparent exclude profiles whose wind sheet raises an exception."
  },
  {
   "property": "C153",
   "status": "proved",
   "theorems": [
    "PySailing.Props.C153_reference"
   ],
   "note": "Whole run, no hypotheses."
  },
  {
   "property": "C154",
   "status": "proved",
   "theorems": [
    "PySailing.Props.C154_main",
    "PySailing.Props.C154_jib"
   ],
   "note": "Whole run, one theorem for each sail. With splines the interpolated places may leave the accepted range (see C82), so the property is stated for linear interpolation."
  },
  {
   "property": "C155",
   "status": "proved",
   "theorems": [
    "PySailing.Props.C155_unused"
   ],
   "note": "Whole run."
  },
  {
   "property": "C156",
   "status": "proved",
   "theorems": [
    "PySailing.Props.C156_exponential",
    "PySailing.Props.C156_logarithmic"
   ],
   "note": "Whole run. For the exponential profile the comparison of the runs is SameOutput of Props/SameWind.lean (all outputs except the sheet of the wind at the reference height), as for C98. Exact arithmetic."
  }
 ]
}