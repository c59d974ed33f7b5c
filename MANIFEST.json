{
 "claims": [
  {
   "property": "C01",
   "status": "proved",
   "theorems": [
    "Ghedt.Coordinates.C01_rectangle_outcome",
    "Ghedt.Coordinates.C01_rectangle_lattice"
   ],
   "note": ""
  },
  {
   "property": "C02",
   "status": "proved",
   "theorems": [
    "Ghedt.Coordinates.C02_openRectangle_outline",
    "Ghedt.Coordinates.C02_openRectangle_degenerate"
   ],
   "note": ""
  },
  {
   "property": "C03",
   "status": "proved",
   "theorems": [
    "Ghedt.Coordinates.C03_lShape",
    "Ghedt.Coordinates.C03_lopU",
    "Ghedt.Coordinates.C03_cShape",
    "Ghedt.Coordinates.C03_cShape_duplicate",
    "Ghedt.Coordinates.C03_cShape_no_column"
   ],
   "note": ""
  },
  {
   "property": "C04",
   "status": "proved",
   "theorems": [
    "Ghedt.Coordinates.C04_uShape_always_fails",
    "Ghedt.Coordinates.C04_uShape_returns_only_rectangles"
   ],
   "note": ""
  },
  {
   "property": "C05",
   "status": "proved",
   "theorems": [
    "Ghedt.Coordinates.C05_zonedRectangle_guard",
    "Ghedt.Coordinates.C05_zonedRectangle_content",
    "Ghedt.Domains.C05_zonedRectangle_valueError",
    "Ghedt.Domains.C05_zonedRectangle_points"
   ],
   "note": ""
  },
  {
   "property": "C06",
   "status": "proved",
   "theorems": [
    "Ghedt.Coordinates.C06_transpose"
   ],
   "note": ""
  },
  {
   "property": "C07",
   "status": "proved",
   "theorems": [
    "Ghedt.Domains.C07_nearSquare_guard",
    "Ghedt.Domains.C07_nearSquare_fields"
   ],
   "note": ""
  },
  {
   "property": "C08",
   "status": "proved",
   "theorems": [
    "Ghedt.Design.C08_nearSquare_overshoot"
   ],
   "note": ""
  },
  {
   "property": "C09",
   "status": "proved",
   "theorems": [
    "Ghedt.Domains.C09_rectangular_in_land"
   ],
   "note": ""
  },
  {
   "property": "C10",
   "status": "proved",
   "theorems": [
    "Ghedt.Domains.C10_rectangular_spacing"
   ],
   "note": ""
  },
  {
   "property": "C11",
   "status": "proved",
   "theorems": [
    "Ghedt.Domains.C11_rectangular_sizes",
    "Ghedt.Domains.C11_rectangular_fields"
   ],
   "note": ""
  },
  {
   "property": "C12",
   "status": "proved",
   "theorems": [
    "Ghedt.Domains.C12_biRectangular",
    "Ghedt.Domains.C12_biRectangular_wrong_axis",
    "Ghedt.Domains.C12_biRectangular_fields"
   ],
   "note": ""
  },
  {
   "property": "C13",
   "status": "proved",
   "theorems": [
    "Ghedt.Domains.C13_nested",
    "Ghedt.Domains.C13_nested_fields"
   ],
   "note": ""
  },
  {
   "property": "C14",
   "status": "proved",
   "theorems": [
    "Ghedt.Domains.C14_zoned_domain",
    "Ghedt.Domains.C14_zoned_domain_fields",
    "Ghedt.Domains.C14_zoned_domain_guard",
    "Ghedt.Domains.C14_zoned_domain_interiors"
   ],
   "note": ""
  },
  {
   "property": "C15",
   "status": "proved",
   "theorems": [
    "Ghedt.Domains.C15_first_field_not_transposed",
    "Ghedt.Domains.C15_first_field_outside"
   ],
   "note": ""
  },
  {
   "property": "C16",
   "status": "proved",
   "theorems": [
    "Ghedt.Domains.C16_zonedNested_walk",
    "Ghedt.Domains.C16_zonedNested_too_short",
    "Ghedt.Domains.C16_zonedNested_contents",
    "Ghedt.Domains.C16_zonedNested_guards"
   ],
   "note": ""
  },
  {
   "property": "C17",
   "status": "proved",
   "theorems": [
    "Ghedt.Domains.C17_zonedNested_in_land",
    "Ghedt.Domains.C17_zonedNested_distinct"
   ],
   "note": ""
  },
  {
   "property": "C18",
   "status": "proved",
   "theorems": [
    "Ghedt.Domains.C18_zonedNested_outside"
   ],
   "note": ""
  },
  {
   "property": "C19",
   "status": "proved",
   "theorems": [
    "Ghedt.Domains.C19_polygonal"
   ],
   "note": ""
  },
  {
   "property": "C20",
   "status": "proved",
   "theorems": [
    "Ghedt.WholeSearch.C20_search",
    "Ghedt.WholeSearch.C20_polygonal_search",
    "Ghedt.Domains.C20_polygonal_empty_field"
   ],
   "note": ""
  },
  {
   "property": "C21",
   "status": "proved",
   "theorems": [
    "Ghedt.Domains.C21_reorder",
    "Ghedt.Domains.C21_reorder_perm",
    "Ghedt.Domains.C21_reorder_drops"
   ],
   "note": ""
  },
  {
   "property": "C22",
   "status": "proved",
   "theorems": [
    "Ghedt.Domains.C22_verifyExcess"
   ],
   "note": ""
  },
  {
   "property": "C23",
   "status": "proved",
   "theorems": [
    "Ghedt.FeatureRecognition.C23_removeCutout",
    "Ghedt.FeatureRecognition.C23_removeCutout_partition"
   ],
   "note": ""
  },
  {
   "property": "C24",
   "status": "proved",
   "theorems": [
    "Ghedt.FeatureRecognition.C24_largest_rectangle",
    "Ghedt.FeatureRecognition.C24_largest_rectangle_contains"
   ],
   "note": ""
  },
  {
   "property": "C25",
   "status": "proved",
   "theorems": [
    "Ghedt.Utilities.C25_area_nonneg",
    "Ghedt.Utilities.C25_area_rotate",
    "Ghedt.Utilities.C25_area_rotate_any",
    "Ghedt.Utilities.C25_area_reverse",
    "Ghedt.Utilities.C25_area_translate",
    "Ghedt.Utilities.C25_area_scale",
    "Ghedt.Utilities.C25_area_rectangle",
    "Ghedt.Utilities.C25_area_triangle",
    "Ghedt.Utilities.C25_area_cut",
    "Ghedt.Utilities.C25_area_fan"
   ],
   "note": ""
  },
  {
   "property": "C26",
   "status": "proved",
   "theorems": [
    "Ghedt.Utilities.C26_inverse",
    "Ghedt.Utilities.C26_floor_fits",
    "Ghedt.Utilities.C26_ceil_spacing"
   ],
   "note": ""
  },
  {
   "property": "C27",
   "status": "proved",
   "theorems": [
    "Ghedt.Utilities.C27_spacing",
    "Ghedt.Utilities.C27_spacing_rectangle",
    "Ghedt.Utilities.C27_spacing_openRectangle",
    "Ghedt.Utilities.C27_spacing_zonedRectangle"
   ],
   "note": ""
  },
  {
   "property": "C28",
   "status": "proved",
   "theorems": [
    "Ghedt.Utilities.C28_sign",
    "Ghedt.Utilities.C28_checkBracket",
    "Ghedt.Utilities.C28_bracket_any"
   ],
   "note": ""
  },
  {
   "property": "C29",
   "status": "proved",
   "theorems": [
    "Ghedt.Utilities.C29_mpe",
    "Ghedt.Utilities.C29_mpe_self",
    "Ghedt.Utilities.C29_mpe_scale",
    "Ghedt.Utilities.C29_mpe_pos"
   ],
   "note": ""
  },
  {
   "property": "C30",
   "status": "proved",
   "theorems": [
    "Ghedt.Search.C30_feasible"
   ],
   "note": ""
  },
  {
   "property": "C31",
   "status": "proved",
   "theorems": [
    "Ghedt.Search.C31_smallest",
    "Ghedt.Search.C31_ties_miss_smallest",
    "Ghedt.Search.C31_few_iterations"
   ],
   "note": ""
  },
  {
   "property": "C32",
   "status": "proved",
   "theorems": [
    "Ghedt.Search.C32_outcomes",
    "Ghedt.Search.C32_never_none"
   ],
   "note": ""
  },
  {
   "property": "C33",
   "status": "proved",
   "theorems": [
    "Ghedt.Search.C33_configured",
    "Ghedt.Search.C33_recorded"
   ],
   "note": ""
  },
  {
   "property": "C34",
   "status": "proved",
   "theorems": [
    "Ghedt.Search.C34_simulations",
    "Ghedt.Search.C34_count"
   ],
   "note": ""
  },
  {
   "property": "C35",
   "status": "proved",
   "theorems": [
    "Ghedt.Search.C35_shortcut",
    "Ghedt.Search.C35_infeasible_returned"
   ],
   "note": ""
  },
  {
   "property": "C36",
   "status": "proved",
   "theorems": [
    "Ghedt.Search.C36_returned_field",
    "Ghedt.Search.C36_inner_search",
    "Ghedt.Search.C36_shortcut",
    "Ghedt.Search.C36_outcomes",
    "Ghedt.Search.C36_oversized_first_fails"
   ],
   "note": ""
  },
  {
   "property": "C37",
   "status": "proved",
   "theorems": [
    "Ghedt.Search.C37_successive",
    "Ghedt.Search.C37_same_field",
    "Ghedt.Search.C37_start",
    "Ghedt.Search.C37_nothing_sized",
    "Ghedt.Search.C37_outcomes"
   ],
   "note": ""
  },
  {
   "property": "C38",
   "status": "proved",
   "theorems": [
    "Ghedt.Search.C38_consistent",
    "Ghedt.Search.C38_equivalent",
    "Ghedt.Search.C38_borehole",
    "Ghedt.Search.C38_other",
    "Ghedt.Search.C38_empty_first_field"
   ],
   "note": ""
  },
  {
   "property": "C39",
   "status": "proved",
   "theorems": [
    "Ghedt.GHE.C39_cost",
    "Ghedt.GHE.C39_cost_pos"
   ],
   "note": ""
  },
  {
   "property": "C40",
   "status": "proved",
   "theorems": [
    "Ghedt.GHE.C40_superposition",
    "Ghedt.GHE.C40_ordered",
    "Ghedt.GHE.C40_zero_load",
    "Ghedt.GHE.C40_linear",
    "Ghedt.GHE.C40_causal",
    "Ghedt.GHE.C40_scaling"
   ],
   "note": ""
  },
  {
   "property": "C41",
   "status": "proved",
   "theorems": [
    "Ghedt.GHE.C41_split"
   ],
   "note": ""
  },
  {
   "property": "C42",
   "status": "proved",
   "theorems": [
    "Ghedt.GHE.C42_hourly",
    "Ghedt.GHE.C42_unknown_method"
   ],
   "note": ""
  },
  {
   "property": "C43",
   "status": "proved",
   "theorems": [
    "Ghedt.GHE.C43_extremes"
   ],
   "note": ""
  },
  {
   "property": "C44",
   "status": "proved",
   "theorems": [
    "Ghedt.GHE.C44_bounds",
    "Ghedt.GHE.C44_no_sign_change",
    "Ghedt.GHE.C44_exact_bound",
    "Ghedt.GHE.C44_last_asked"
   ],
   "note": ""
  },
  {
   "property": "C45",
   "status": "proved",
   "theorems": [
    "Ghedt.GHE.C45_table"
   ],
   "note": ""
  },
  {
   "property": "C46",
   "status": "proved",
   "theorems": [
    "Ghedt.GHE.C46_combine"
   ],
   "note": ""
  },
  {
   "property": "C47",
   "status": "proved",
   "theorems": [
    "Ghedt.GF.C47_single",
    "Ghedt.GF.C47_stored"
   ],
   "note": ""
  },
  {
   "property": "C48",
   "status": "proved",
   "theorems": [
    "Ghedt.GF.C48_in_range",
    "Ghedt.GF.C48_out_of_range_first",
    "Ghedt.GF.C48_out_of_range_later"
   ],
   "note": ""
  },
  {
   "property": "C49",
   "status": "proved",
   "theorems": [
    "Ghedt.GF.C49_radius",
    "Ghedt.GF.C49_zero_radius"
   ],
   "note": ""
  },
  {
   "property": "C50",
   "status": "proved",
   "theorems": [
    "Ghedt.GF.C50_scaling"
   ],
   "note": ""
  },
  {
   "property": "C51",
   "status": "proved",
   "theorems": [
    "Ghedt.GF.C51_import"
   ],
   "note": ""
  },
  {
   "property": "C52",
   "status": "proved",
   "theorems": [
    "Ghedt.GL.C52_split",
    "Ghedt.GL.C52_units"
   ],
   "note": ""
  },
  {
   "property": "C53",
   "status": "proved",
   "theorems": [
    "Ghedt.GL.C53_month",
    "Ghedt.GL.C53_periodic",
    "Ghedt.GL.C53_year",
    "Ghedt.GL.C53_increasing",
    "Ghedt.GL.C53_calendar"
   ],
   "note": ""
  },
  {
   "property": "C54",
   "status": "proved",
   "theorems": [
    "Ghedt.GL.C54_month",
    "Ghedt.GL.C54_year",
    "Ghedt.GL.C54_assert"
   ],
   "note": ""
  },
  {
   "property": "C55",
   "status": "proved",
   "theorems": [
    "Ghedt.GL.C55_day"
   ],
   "note": ""
  },
  {
   "property": "C56",
   "status": "proved",
   "theorems": [
    "Ghedt.GL.C56_window"
   ],
   "note": ""
  },
  {
   "property": "C57",
   "status": "proved",
   "theorems": [
    "Ghedt.GL.C57_own_day"
   ],
   "note": ""
  },
  {
   "property": "C58",
   "status": "proved",
   "theorems": [
    "Ghedt.Radial.C58_computed",
    "Ghedt.GL.C58_month",
    "Ghedt.GL.C58_year"
   ],
   "note": ""
  },
  {
   "property": "C59",
   "status": "proved",
   "theorems": [
    "Ghedt.GL.C59_tolerance"
   ],
   "note": ""
  },
  {
   "property": "C60",
   "status": "proved",
   "theorems": [
    "Ghedt.GL.C60_range"
   ],
   "note": ""
  },
  {
   "property": "C61",
   "status": "proved",
   "theorems": [
    "Ghedt.GL.C61_conserved",
    "Ghedt.GL.C61_whole",
    "Ghedt.GL.C61_hourly"
   ],
   "note": ""
  },
  {
   "property": "C62",
   "status": "proved",
   "theorems": [
    "Ghedt.GL.C62_formula",
    "Ghedt.GL.C62_same_day",
    "Ghedt.GL.C62_loses"
   ],
   "note": ""
  },
  {
   "property": "C63",
   "status": "proved",
   "theorems": [
    "Ghedt.GL.C63_total",
    "Ghedt.GL.C63_hybrid",
    "Ghedt.GL.C63_aligned",
    "Ghedt.GL.C63_ends"
   ],
   "note": ""
  },
  {
   "property": "C64",
   "status": "proved",
   "theorems": [
    "Ghedt.GL.C64_increasing",
    "Ghedt.GL.C64_backwards",
    "Ghedt.GL.C64_first_hour"
   ],
   "note": ""
  },
  {
   "property": "C65",
   "status": "proved",
   "theorems": [
    "Ghedt.GL.C65_middle",
    "Ghedt.GL.C65_peaks"
   ],
   "note": ""
  },
  {
   "property": "C66",
   "status": "proved",
   "theorems": [
    "Ghedt.GL.C66_steps"
   ],
   "note": ""
  },
  {
   "property": "C67",
   "status": "proved",
   "theorems": [
    "Ghedt.C67_round",
    "Ghedt.GL.C67_writer",
    "Ghedt.GL.C67_block",
    "Ghedt.GL.C67_wraps",
    "Ghedt.GL.C67_year",
    "Ghedt.GL.C67_december",
    "Ghedt.GL.C67_content",
    "Ghedt.GL.C67_lost"
   ],
   "note": ""
  },
  {
   "property": "C68",
   "status": "proved",
   "theorems": [
    "Ghedt.GL.C68_length",
    "Ghedt.GL.C68_values"
   ],
   "note": ""
  },
  {
   "property": "C69",
   "status": "proved",
   "theorems": [
    "Ghedt.GL.C69_number",
    "Ghedt.GL.C69_name"
   ],
   "note": ""
  },
  {
   "property": "C70",
   "status": "proved",
   "theorems": [
    "Ghedt.Radial.C70_filled",
    "Ghedt.Radial.C70_seams",
    "Ghedt.Radial.C70_fluid_mass"
   ],
   "note": ""
  },
  {
   "property": "C71",
   "status": "proved",
   "theorems": [
    "Ghedt.Radial.C71_unique",
    "Ghedt.Radial.C71_conduction",
    "Ghedt.Radial.C71_no_undershoot",
    "Ghedt.Radial.C71_no_overshoot",
    "Ghedt.Radial.C71_energy"
   ],
   "note": ""
  },
  {
   "property": "C72",
   "status": "proved",
   "theorems": [
    "Ghedt.Radial.C72_increasing",
    "Ghedt.Radial.C72_history"
   ],
   "note": ""
  },
  {
   "property": "C73",
   "status": "proved",
   "theorems": [
    "Ghedt.Radial.C73_times",
    "Ghedt.Radial.C73_hours",
    "Ghedt.Radial.C73_short",
    "Ghedt.Radial.C73_wall"
   ],
   "note": ""
  },
  {
   "property": "C74",
   "status": "proved",
   "theorems": [
    "Ghedt.Bhe.C74_multiple",
    "Ghedt.Bhe.C74_coaxial",
    "Ghedt.Bhe.C74_dispatch",
    "Ghedt.Bhe.C74_raises"
   ],
   "note": ""
  },
  {
   "property": "C75",
   "status": "proved",
   "theorems": [
    "Ghedt.Bhe.C75_circle",
    "Ghedt.Bhe.C75_centroid",
    "Ghedt.Bhe.C75_disjoint",
    "Ghedt.Bhe.C75_legs",
    "Ghedt.Bhe.C75_none"
   ],
   "note": ""
  },
  {
   "property": "C76",
   "status": "proved",
   "theorems": [
    "Ghedt.Bhe.C76_pipe",
    "Ghedt.Bhe.C76_annulus",
    "Ghedt.Bhe.C76_no_annulus",
    "Ghedt.Bhe.C76_report"
   ],
   "note": ""
  },
  {
   "property": "C77",
   "status": "proved",
   "theorems": [
    "Ghedt.Design.C77_missing",
    "Ghedt.Design.C77_unknown",
    "Ghedt.Design.C77_available",
    "Ghedt.Design.C77_dispatch",
    "Ghedt.Design.C77_changed"
   ],
   "note": ""
  },
  {
   "property": "C78",
   "status": "proved",
   "theorems": [
    "Ghedt.Export.C78_export",
    "Ghedt.Export.C78_repr"
   ],
   "note": ""
  },
  {
   "property": "C79",
   "status": "proved",
   "theorems": [
    "Ghedt.Design.C79_rectangle",
    "Ghedt.Design.C79_nearSquare",
    "Ghedt.Design.C79_biRectangle",
    "Ghedt.Design.C79_biZoned",
    "Ghedt.Design.C79_biZoned_shape"
   ],
   "note": ""
  },
  {
   "property": "C80",
   "status": "proved",
   "theorems": [
    "Ghedt.GF.C80_gap"
   ],
   "note": ""
  },
  {
   "property": "C81",
   "status": "proved",
   "theorems": [
    "Ghedt.GF.C81_live",
    "Ghedt.GF.C81_cover"
   ],
   "note": ""
  },
  {
   "property": "C82",
   "status": "proved",
   "theorems": [
    "Ghedt.Radial.C82_resistance"
   ],
   "note": ""
  },
  {
   "property": "C83",
   "status": "proved",
   "theorems": [
    "Ghedt.Bhe.C83_flow",
    "Ghedt.Bhe.C83_balance"
   ],
   "note": ""
  },
  {
   "property": "C84",
   "status": "proved",
   "theorems": [
    "Ghedt.Bhe.C84_flow",
    "Ghedt.Bhe.C84_fluid",
    "Ghedt.Bhe.C84_stale",
    "Ghedt.Bhe.C84_coefficient",
    "Ghedt.Bhe.C84_coaxial",
    "Ghedt.Bhe.C84_asked"
   ],
   "note": ""
  },
  {
   "property": "C85",
   "status": "proved",
   "theorems": [
    "Ghedt.Bhe.C85_multiple",
    "Ghedt.Bhe.C85_multiple_wrong",
    "Ghedt.Bhe.C85_coaxial"
   ],
   "note": ""
  },
  {
   "property": "C86",
   "status": "proved",
   "theorems": [
    "Ghedt.Bhe.C86_conductivity",
    "Ghedt.Bhe.C86_zero",
    "Ghedt.Bhe.C86_bounds",
    "Ghedt.Bhe.C86_start"
   ],
   "note": ""
  },
  {
   "property": "C87",
   "status": "proved",
   "theorems": [
    "Ghedt.Bhe.C87_multiple",
    "Ghedt.Bhe.C87_coaxial",
    "Ghedt.Bhe.C87_bounds",
    "Ghedt.Bhe.C87_nearest",
    "Ghedt.Bhe.C87_error"
   ],
   "note": ""
  },
  {
   "property": "C88",
   "status": "proved",
   "theorems": [
    "Ghedt.Whole.C88_multiple",
    "Ghedt.Whole.C88_coaxial",
    "Ghedt.Whole.C88_single"
   ],
   "note": ""
  },
  {
   "property": "C89",
   "status": "proved",
   "theorems": [
    "Ghedt.Whole.C89_history",
    "Ghedt.Whole.C89_refinement",
    "Ghedt.Whole.C89_size"
   ],
   "note": ""
  },
  {
   "property": "C90",
   "status": "proved",
   "theorems": [
    "Ghedt.Whole.C90_hybrid",
    "Ghedt.Whole.C90_hourly"
   ],
   "note": ""
  },
  {
   "property": "C91",
   "status": "proved",
   "theorems": [
    "Ghedt.Whole.C91_too_long",
    "Ghedt.Whole.C91_beyond"
   ],
   "note": ""
  },
  {
   "property": "C92",
   "status": "proved",
   "theorems": [
    "Ghedt.Whole.C92_site",
    "Ghedt.Whole.C92_hybrid",
    "Ghedt.Whole.C92_hourly"
   ],
   "note": ""
  },
  {
   "property": "C93",
   "status": "proved",
   "theorems": [
    "Ghedt.WholeSearch.C93_returned",
    "Ghedt.WholeSearch.C93_zoned"
   ],
   "note": ""
  },
  {
   "property": "C94",
   "status": "proved",
   "theorems": [
    "Ghedt.WholeSearch.C94_initial_height",
    "Ghedt.WholeSearch.C94_repeat",
    "Ghedt.WholeSearch.C94_repeat_zoned"
   ],
   "note": ""
  },
  {
   "property": "C95",
   "status": "proved",
   "theorems": [
    "Ghedt.WholeSearch.C95_made",
    "Ghedt.WholeSearch.C95_refused",
    "Ghedt.WholeSearch.C95_year",
    "Ghedt.WholeSearch.C95_design",
    "Ghedt.WholeSearch.C95_design_year"
   ],
   "note": ""
  },
  {
   "property": "C96",
   "status": "proved",
   "theorems": [
    "Ghedt.WholeSearch.C96_hourly",
    "Ghedt.WholeSearch.C96_hybrid",
    "Ghedt.WholeSearch.C96_search"
   ],
   "note": ""
  },
  {
   "property": "C97",
   "status": "proved",
   "theorems": [
    "Ghedt.WholeSearch.C97_cover",
    "Ghedt.WholeSearch.C97_same",
    "Ghedt.WholeSearch.C97_size",
    "Ghedt.WholeSearch.C97_design",
    "Ghedt.WholeSearch.C97_zoned"
   ],
   "note": ""
  },
  {
   "property": "C98",
   "status": "proved",
   "theorems": [
    "Ghedt.Report.C98_export",
    "Ghedt.Report.C98_stale",
    "Ghedt.Report.C98_times",
    "Ghedt.Report.C98_design"
   ],
   "note": ""
  },
  {
   "property": "C99",
   "status": "proved",
   "theorems": [
    "Ghedt.Report.C99_sized"
   ],
   "note": ""
  },
  {
   "property": "C100",
   "status": "proved",
   "theorems": [
    "Ghedt.Report.C100_simulated",
    "Ghedt.Report.C100_sized",
    "Ghedt.Report.C100_design"
   ],
   "note": ""
  },
  {
   "property": "C101",
   "status": "proved",
   "theorems": [
    "Ghedt.Network.C101_exchanger",
    "Ghedt.Network.C101_settings",
    "Ghedt.Network.C101_asked"
   ],
   "note": ""
  },
  {
   "property": "C102",
   "status": "proved",
   "theorems": [
    "Ghedt.Network.C102_hourly",
    "Ghedt.Network.C102_hybrid",
    "Ghedt.Network.C102_answered"
   ],
   "note": ""
  },
  {
   "property": "C103",
   "status": "proved",
   "theorems": [
    "Ghedt.Radial.C103_samples",
    "Ghedt.Radial.C103_hours"
   ],
   "note": ""
  },
  {
   "property": "C104",
   "status": "proved",
   "theorems": [
    "Ghedt.GL.C104_month",
    "Ghedt.GL.C104_gaps",
    "Ghedt.GL.C104_apart",
    "Ghedt.GL.C104_short",
    "Ghedt.GL.C104_iff",
    "Ghedt.GL.C104_late",
    "Ghedt.WholeSearch.C104_input",
    "Ghedt.GL.C104_lasting",
    "Ghedt.WholeSearch.C104_ends"
   ],
   "note": ""
  },
  {
   "property": "C105",
   "status": "proved",
   "theorems": [
    "Ghedt.WholeSearch.C105_usable"
   ],
   "note": ""
  },
  {
   "property": "C106",
   "status": "proved",
   "theorems": [
    "Ghedt.WholeSearch.C106_rectangle",
    "Ghedt.WholeSearch.C106_nearSquare",
    "Ghedt.WholeSearch.C106_biRectangle",
    "Ghedt.WholeSearch.C106_biZoned",
    "Ghedt.WholeSearch.C106_biZoned_shape"
   ],
   "note": ""
  },
  {
   "property": "C107",
   "status": "proved",
   "theorems": [
    "Ghedt.WholeSearch.C107_nearSquare",
    "Ghedt.WholeSearch.C107_rectangle",
    "Ghedt.WholeSearch.C107_biRectangle",
    "Ghedt.WholeSearch.C107_biZoned"
   ],
   "note": ""
  },
  {
   "property": "C108",
   "status": "proved",
   "theorems": [
    "Ghedt.GF.C108_unknown",
    "Ghedt.GF.C108_single",
    "Ghedt.GF.C108_first",
    "Ghedt.GF.C108_later",
    "Ghedt.GF.C108_stored"
   ],
   "note": ""
  },
  {
   "property": "C109",
   "status": "proved",
   "theorems": [
    "Ghedt.GL.C109_table"
   ],
   "note": ""
  },
  {
   "property": "C110",
   "status": "proved",
   "theorems": [
    "Ghedt.Report.C110_single",
    "Ghedt.Report.C110_multiple",
    "Ghedt.Report.C110_coaxial",
    "Ghedt.Report.C110_rough",
    "Ghedt.Report.C110_report",
    "Ghedt.Report.C110_design"
   ],
   "note": ""
  },
  {
   "property": "C111",
   "status": "proved",
   "theorems": [
    "Ghedt.Files.C111_good",
    "Ghedt.Files.C111_untouched",
    "Ghedt.Files.C111_json",
    "Ghedt.Files.C111_pickle",
    "Ghedt.Files.C111_extension",
    "Ghedt.Files.C111_no_directory",
    "Ghedt.Files.C111_destroyed",
    "Ghedt.Files.C111_directory",
    "Ghedt.Files.C111_write",
    "Ghedt.Files.C111_export",
    "Ghedt.Files.C111_design"
   ],
   "note": ""
  },
  {
   "property": "C112",
   "status": "proved",
   "theorems": [
    "Ghedt.Plots.C112_field",
    "Ghedt.Plots.C112_area",
    "Ghedt.Plots.C112_names",
    "Ghedt.Plots.C112_domain",
    "Ghedt.Plots.C112_curves",
    "Ghedt.Plots.C112_legend",
    "Ghedt.Plots.C112_mismatch",
    "Ghedt.Plots.C112_zero_height"
   ],
   "note": ""
  },
  {
   "property": "C113",
   "status": "proved",
   "theorems": [
    "Ghedt.GL.C113_histories",
    "Ghedt.GL.C113_quiet",
    "Ghedt.Plots.C113_figure",
    "Ghedt.Plots.C113_own_month",
    "Ghedt.Plots.C113_hourly"
   ],
   "note": ""
  },
  {
   "property": "C114",
   "status": "proved",
   "theorems": [
    "Ghedt.Ticks.C114_ticks",
    "Ghedt.Ticks.C114_decades",
    "Ghedt.Ticks.C114_few"
   ],
   "note": ""
  },
  {
   "property": "C115",
   "status": "proved",
   "theorems": [
    "Ghedt.WholeSearch.C115_size",
    "Ghedt.WholeSearch.C115_design",
    "Ghedt.WholeSearch.C115_zoned",
    "Ghedt.WholeSearch.C115_biZoned"
   ],
   "note": ""
  },
  {
   "property": "C116",
   "status": "proved",
   "theorems": [
    "Ghedt.GF.C116_short_curve",
    "Ghedt.GF.C116_long_curve",
    "Ghedt.GF.C116_no_depth"
   ],
   "note": ""
  },
  {
   "property": "C117",
   "status": "proved",
   "theorems": [
    "Ghedt.C117_double",
    "Ghedt.Rounded.C117_exact",
    "Ghedt.Rounded.C117_rectangular",
    "Ghedt.Rounded.C117_numberOfBoreholes",
    "Ghedt.Rounded.C117_nearSquare",
    "Ghedt.Rounded.C117_design",
    "Ghedt.Rounded.C117_nested"
   ],
   "note": ""
  },
  {
   "property": "C118",
   "status": "proved",
   "theorems": [
    "Ghedt.Rounded.C118_rectangular"
   ],
   "note": ""
  },
  {
   "property": "C119",
   "status": "proved",
   "theorems": [
    "Ghedt.Rounded.C119_square_loses_field",
    "Ghedt.Rounded.C119_nested_repeats",
    "Ghedt.Rounded.C119_nested_too_close",
    "Ghedt.Rounded.C119_outside",
    "Ghedt.Rounded.C119_number_of_boreholes"
   ],
   "note": ""
  },
  {
   "property": "C120",
   "status": "proved",
   "theorems": [
    "Ghedt.Rounded.C120_zoned_domain",
    "Ghedt.Rounded.C120_zoned_agrees"
   ],
   "note": ""
  },
  {
   "property": "C121",
   "status": "proved",
   "theorems": [
    "Ghedt.Rounded.C121_tie",
    "Ghedt.Rounded.C121_barely_longer"
   ],
   "note": ""
  },
  {
   "property": "C122",
   "status": "proved",
   "theorems": [
    "Ghedt.Rounded.C122_zonedNested",
    "Ghedt.Rounded.C122_design"
   ],
   "note": ""
  },
  {
   "property": "C123",
   "status": "proved",
   "theorems": [
    "Ghedt.Rounded.C123_exact",
    "Ghedt.Rounded.C123_hourly",
    "Ghedt.Rounded.C123_hybrid"
   ],
   "note": ""
  },
  {
   "property": "C124",
   "status": "proved",
   "theorems": [
    "Ghedt.Rounded.C124_exact",
    "Ghedt.Rounded.C124_monthly",
    "Ghedt.Rounded.C124_constant",
    "Ghedt.Rounded.C124_whole",
    "Ghedt.Rounded.C124_constant_exact",
    "Ghedt.Rounded.C124_constant_raises",
    "Ghedt.Rounded.C124_constant_48"
   ],
   "note": ""
  },
  {
   "property": "C125",
   "status": "proved",
   "theorems": [
    "Ghedt.Crash.C125_finished",
    "Ghedt.Crash.C125_dump",
    "Ghedt.Crash.C125_create",
    "Ghedt.Crash.C125_reading",
    "Ghedt.Crash.C125_again",
    "Ghedt.Crash.C125_directory",
    "Ghedt.Crash.C125_history",
    "Ghedt.Crash.C125_kept",
    "Ghedt.Crash.C125_domain",
    "Ghedt.Crash.C125_possible",
    "Ghedt.Crash.C125_export"
   ],
   "note": ""
  },
  {
   "property": "C126",
   "status": "proved",
   "theorems": [
    "Ghedt.Rounded.C126_exact",
    "Ghedt.Rounded.C126_loads",
    "Ghedt.Rounded.C126_close",
    "Ghedt.Rounded.C126_increasing",
    "Ghedt.Rounded.C126_energy",
    "Ghedt.Rounded.C126_conserved"
   ],
   "note": ""
  },
  {
   "property": "C127",
   "status": "proved",
   "theorems": [
    "Ghedt.Rounded.C127_exact",
    "Ghedt.Rounded.C127_sign",
    "Ghedt.Rounded.C127_temperatures",
    "Ghedt.Rounded.C127_decision",
    "Ghedt.Rounded.C127_hybrid",
    "Ghedt.Rounded.C127_hourly"
   ],
   "note": ""
  },
  {
   "property": "C128",
   "status": "proved",
   "theorems": [
    "Ghedt.Session.C128_apart",
    "Ghedt.Session.C128_heights",
    "Ghedt.Session.C128_changed",
    "Ghedt.Session.C128_raised",
    "Ghedt.Session.C128_size",
    "Ghedt.Session.C128_kept"
   ],
   "note": ""
  },
  {
   "property": "C129",
   "status": "proved",
   "theorems": [
    "Ghedt.GL.C129_hours",
    "Ghedt.GL.C129_peak",
    "Ghedt.Whole.C129_entries",
    "Ghedt.Whole.C129_extremes",
    "Ghedt.Whole.C129_lost",
    "Ghedt.WholeSearch.C129_fresh",
    "Ghedt.WholeSearch.C129_hybrid",
    "Ghedt.WholeSearch.C129_first_hour"
   ],
   "note": ""
  },
  {
   "property": "C130",
   "status": "proved",
   "theorems": [
    "Ghedt.Script.C130_disk",
    "Ghedt.Script.C130_repeat",
    "Ghedt.Script.C130_saved",
    "Ghedt.Script.C130_outcome",
    "Ghedt.Script.C130_ornl"
   ],
   "note": ""
  },
  {
   "property": "C131",
   "status": "proved",
   "theorems": [
    "Ghedt.Radial.C131_slows",
    "Ghedt.Radial.C131_close",
    "Ghedt.Radial.C131_hours",
    "Ghedt.Radial.C131_enough"
   ],
   "note": ""
  },
  {
   "property": "C132",
   "status": "proved",
   "theorems": [
    "Ghedt.WholeSearch.C132_design",
    "Ghedt.WholeSearch.C132_sized",
    "Ghedt.WholeSearch.C132_built",
    "Ghedt.WholeSearch.C132_simulate",
    "Ghedt.WholeSearch.C132_size",
    "Ghedt.WholeSearch.C132_file",
    "Ghedt.WholeSearch.C132_curve"
   ],
   "note": ""
  },
  {
   "property": "C133",
   "status": "proved",
   "theorems": [
    "Ghedt.WholeSearch.C133_design",
    "Ghedt.WholeSearch.C133_sized",
    "Ghedt.WholeSearch.C133_built",
    "Ghedt.WholeSearch.C133_simulate",
    "Ghedt.WholeSearch.C133_size",
    "Ghedt.WholeSearch.C133_file",
    "Ghedt.WholeSearch.C133_loads"
   ],
   "note": ""
  },
  {
   "property": "C134",
   "status": "proved",
   "theorems": [
    "Ghedt.WholeSearch.C134_hours",
    "Ghedt.WholeSearch.C134_ground",
    "Ghedt.WholeSearch.C134_years",
    "Ghedt.WholeSearch.C134_rising",
    "Ghedt.WholeSearch.C134_limits",
    "Ghedt.WholeSearch.C134_design"
   ],
   "note": ""
  },
  {
   "property": "C135",
   "status": "proved",
   "theorems": [
    "Ghedt.WholeSearch.C135_hours",
    "Ghedt.WholeSearch.C135_limits",
    "Ghedt.WholeSearch.C135_design"
   ],
   "note": ""
  },
  {
   "property": "C136",
   "status": "proved",
   "theorems": [
    "Ghedt.WholeSearch.C136_sum",
    "Ghedt.WholeSearch.C136_scale",
    "Ghedt.WholeSearch.C136_limits",
    "Ghedt.WholeSearch.C136_design"
   ],
   "note": ""
  },
  {
   "property": "C137",
   "status": "proved",
   "theorems": [
    "Ghedt.WholeSearch.C137_temperatures",
    "Ghedt.WholeSearch.C137_design",
    "Ghedt.WholeSearch.C137_tooLoose"
   ],
   "note": ""
  },
  {
   "property": "C138",
   "status": "proved",
   "theorems": [
    "Ghedt.Whole.C138_returns",
    "Ghedt.Whole.C138_least",
    "Ghedt.Whole.C138_limits",
    "Ghedt.Whole.C138_loads",
    "Ghedt.Whole.C138_oversized"
   ],
   "note": ""
  },
  {
   "property": "C139",
   "status": "proved",
   "theorems": [
    "Ghedt.GL.C139_hybrid",
    "Ghedt.GL.C139_tolerance",
    "Ghedt.WholeSearch.C139_made",
    "Ghedt.WholeSearch.C139_temperatures",
    "Ghedt.WholeSearch.C139_limits",
    "Ghedt.WholeSearch.C139_design",
    "Ghedt.Whole.C139_size"
   ],
   "note": ""
  },
  {
   "property": "C140",
   "status": "proved",
   "theorems": [
    "Ghedt.WholeSearch.C140_hours",
    "Ghedt.WholeSearch.C140_solver",
    "Ghedt.WholeSearch.C140_design",
    "Ghedt.WholeSearch.C140_exact",
    "Ghedt.Whole.C140_size"
   ],
   "note": ""
  },
  {
   "property": "C141",
   "status": "proved",
   "theorems": [
    "Ghedt.Whole.C141_history",
    "Ghedt.Whole.C141_hybrid",
    "Ghedt.Whole.C141_size",
    "Ghedt.WholeSearch.C141_made",
    "Ghedt.WholeSearch.C141_stale"
   ],
   "note": ""
  },
  {
   "property": "C142",
   "status": "proved",
   "theorems": [
    "Ghedt.Refill.C142_history",
    "Ghedt.Refill.C142_conductivities",
    "Ghedt.Refill.C142_resistance"
   ],
   "note": ""
  },
  {
   "property": "C143",
   "status": "proved",
   "theorems": [
    "Ghedt.Compare.C143_alone",
    "Ghedt.Compare.C143_order",
    "Ghedt.Compare.C143_report"
   ],
   "note": ""
  },
  {
   "property": "C144",
   "status": "proved",
   "theorems": [
    "Ghedt.Library.C144_simulate",
    "Ghedt.Library.C144_size",
    "Ghedt.Library.C144_computed",
    "Ghedt.Library.C144_live",
    "Ghedt.Library.C144_search"
   ],
   "note": ""
  },
  {
   "property": "C145",
   "status": "proved",
   "theorems": [
    "Ghedt.Creation.C145_keywords",
    "Ghedt.Creation.C145_unknown",
    "Ghedt.Creation.C145_files",
    "Ghedt.Creation.C145_then"
   ],
   "note": ""
  },
  {
   "property": "C146",
   "status": "proved",
   "theorems": [
    "Ghedt.Rounded.C146_exact",
    "Ghedt.Rounded.C146_interp",
    "Ghedt.Rounded.C146_points",
    "Ghedt.Rounded.C146_radius",
    "Ghedt.Rounded.C146_response",
    "Ghedt.Rounded.C146_temperatures",
    "Ghedt.Rounded.C146_decision"
   ],
   "note": ""
  },
  {
   "property": "C147",
   "status": "proved",
   "theorems": [
    "Ghedt.WholeSearch.C147_exact",
    "Ghedt.WholeSearch.C147_bounds",
    "Ghedt.WholeSearch.C147_hourly",
    "Ghedt.WholeSearch.C147_hybrid"
   ],
   "note": ""
  },
  {
   "property": "C148",
   "status": "proved",
   "theorems": [
    "Ghedt.WholeSearch.C148_order",
    "Ghedt.WholeSearch.C148_exact",
    "Ghedt.WholeSearch.C148_returned",
    "Ghedt.WholeSearch.C148_same",
    "Ghedt.WholeSearch.C148_hourly",
    "Ghedt.WholeSearch.C148_hybrid"
   ],
   "note": ""
  },
  {
   "property": "C149",
   "status": "proved",
   "theorems": [
    "Ghedt.TubeScript.C149_double",
    "Ghedt.TubeScript.C149_coaxial"
   ],
   "note": ""
  },
  {
   "property": "C150",
   "status": "proved",
   "theorems": [
    "Ghedt.TubeScript.C150_single",
    "Ghedt.TubeScript.C150_double",
    "Ghedt.TubeScript.C150_coaxial",
    "Ghedt.TubeScript.C150_sweep",
    "Ghedt.TubeScript.C150_plots"
   ],
   "note": ""
  },
  {
   "property": "C151",
   "status": "proved",
   "theorems": [
    "Ghedt.Ornl.C151_raises",
    "Ghedt.Ornl.C151_keys",
    "Ghedt.Ornl.C151_length"
   ],
   "note": ""
  },
  {
   "property": "C152",
   "status": "proved",
   "theorems": [
    "Ghedt.WholeSearch.C152_moved",
    "Ghedt.WholeSearch.C152_sized",
    "Ghedt.WholeSearch.C152_file",
    "Ghedt.WholeSearch.C152_rectangle",
    "Ghedt.WholeSearch.C152_biRectangle",
    "Ghedt.WholeSearch.C152_curve"
   ],
   "note": ""
  },
  {
   "property": "C153",
   "status": "proved",
   "theorems": [
    "Ghedt.FindScripts.C153_candidates",
    "Ghedt.FindScripts.C153_printed",
    "Ghedt.FindScripts.C153_picture",
    "Ghedt.FindScripts.C153_clear",
    "Ghedt.FindScripts.C153_routines"
   ],
   "note": ""
  },
  {
   "property": "C154",
   "status": "proved",
   "theorems": [
    "Ghedt.Office.C154_loads",
    "Ghedt.Office.C154_last_day",
    "Ghedt.Office.C154_lasting",
    "Ghedt.Office.C154_pipes",
    "Ghedt.Office.C154_sensible",
    "Ghedt.Office.C154_made",
    "Ghedt.Office.C154_design",
    "Ghedt.Office.C154_simulated",
    "Ghedt.Office.C154_size",
    "Ghedt.Office.C154_found",
    "Ghedt.Office.C154_zoned"
   ],
   "note": ""
  }
 ]
}