import Verif.Props.Calendar
import Verif.Props.CoaxialExample
import Verif.Props.Compare
import Verif.Props.CompareExample
import Verif.Props.Coordinates
import Verif.Props.Crash
import Verif.Props.Creation
import Verif.Props.Deeper
import Verif.Props.Design
import Verif.Props.DesignExample
import Verif.Props.Domains
import Verif.Props.EmptyField
import Verif.Props.Equivalence
import Verif.Props.EquivalenceExample
import Verif.Props.Export
import Verif.Props.Features
import Verif.Props.FieldContents
import Verif.Props.Files
import Verif.Props.FindScripts
import Verif.Props.FluidPlots
import Verif.Props.GDamaged
import Verif.Props.GFunction
import Verif.Props.GKinds
import Verif.Props.Gaps
import Verif.Props.GapsExact
import Verif.Props.GapsIff
import Verif.Props.GridExample
import Verif.Props.GroundHeatExchangers
import Verif.Props.HoursSlow
import Verif.Props.Hybrid
import Verif.Props.HybridFits
import Verif.Props.HybridScale
import Verif.Props.HybridScaleExample
import Verif.Props.HybridWitness
import Verif.Props.Inexact
import Verif.Props.Inputs
import Verif.Props.Library
import Verif.Props.LibraryExample
import Verif.Props.Loads
import Verif.Props.LoadsExample
import Verif.Props.Mirror
import Verif.Props.MoreLoad
import Verif.Props.MoreLoadExample
import Verif.Props.Moved
import Verif.Props.Nan
import Verif.Props.NestedSearch
import Verif.Props.Network
import Verif.Props.Office
import Verif.Props.OfficeSize
import Verif.Props.Ornl
import Verif.Props.PeakDuration
import Verif.Props.PeakTable
import Verif.Props.PeaksShort
import Verif.Props.Pipes
import Verif.Props.Plots
import Verif.Props.Radial
import Verif.Props.Refill
import Verif.Props.RefillExample
import Verif.Props.Report
import Verif.Props.Round
import Verif.Props.Rounded
import Verif.Props.RoundedAgree
import Verif.Props.RoundedDesign
import Verif.Props.RoundedExample
import Verif.Props.RoundedFindings
import Verif.Props.RoundedGhe
import Verif.Props.RoundedHybrid
import Verif.Props.RoundedLoads
import Verif.Props.RoundedNested
import Verif.Props.RoundedResponse
import Verif.Props.RoundedSearch
import Verif.Props.RoundedSearchExample
import Verif.Props.RoundedSimulation
import Verif.Props.RoundedWhole
import Verif.Props.RoundedWholeExample
import Verif.Props.RoundedZoned
import Verif.Props.RoundedZonedNested
import Verif.Props.Script
import Verif.Props.SearchRoutines
import Verif.Props.Session
import Verif.Props.SessionExample
import Verif.Props.Shared
import Verif.Props.SharedExample
import Verif.Props.Slowing
import Verif.Props.Stability
import Verif.Props.StabilityExample
import Verif.Props.SuccessiveOutcomes
import Verif.Props.Superpose
import Verif.Props.Synthetic
import Verif.Props.Texts
import Verif.Props.Ticks
import Verif.Props.TownExample
import Verif.Props.TubeScripts
import Verif.Props.TubeScriptsExample
import Verif.Props.Utilities
import Verif.Props.Warm
import Verif.Props.WholeDesign
import Verif.Props.WholeGhe
import Verif.Props.WholeMake
import Verif.Props.WholeSearch
import Verif.Props.WholeSize
import Verif.Props.WholeValue
import Verif.Props.Workflow
import Verif.Props.WorkflowExample
import Verif.Props.Year
import Verif.Props.ZonedDesign
import Verif.Props.ZonedExample
import Verif.Props.ZonedFields
import Verif.Props.ZonedShape

/-! Axioms of every theorem named in MANIFEST.json (generated list). -/

#print axioms Ghedt.Coordinates.C01_rectangle_outcome
#print axioms Ghedt.Coordinates.C01_rectangle_lattice
#print axioms Ghedt.Coordinates.C02_openRectangle_outline
#print axioms Ghedt.Coordinates.C02_openRectangle_degenerate
#print axioms Ghedt.Coordinates.C03_lShape
#print axioms Ghedt.Coordinates.C03_lopU
#print axioms Ghedt.Coordinates.C03_cShape
#print axioms Ghedt.Coordinates.C03_cShape_duplicate
#print axioms Ghedt.Coordinates.C03_cShape_no_column
#print axioms Ghedt.Coordinates.C04_uShape_always_fails
#print axioms Ghedt.Coordinates.C04_uShape_returns_only_rectangles
#print axioms Ghedt.Coordinates.C05_zonedRectangle_guard
#print axioms Ghedt.Coordinates.C05_zonedRectangle_content
#print axioms Ghedt.Domains.C05_zonedRectangle_valueError
#print axioms Ghedt.Domains.C05_zonedRectangle_points
#print axioms Ghedt.Coordinates.C06_transpose
#print axioms Ghedt.Domains.C07_nearSquare_guard
#print axioms Ghedt.Domains.C07_nearSquare_fields
#print axioms Ghedt.Design.C08_nearSquare_overshoot
#print axioms Ghedt.Domains.C09_rectangular_in_land
#print axioms Ghedt.Domains.C10_rectangular_spacing
#print axioms Ghedt.Domains.C11_rectangular_sizes
#print axioms Ghedt.Domains.C11_rectangular_fields
#print axioms Ghedt.Domains.C12_biRectangular
#print axioms Ghedt.Domains.C12_biRectangular_wrong_axis
#print axioms Ghedt.Domains.C12_biRectangular_fields
#print axioms Ghedt.Domains.C13_nested
#print axioms Ghedt.Domains.C13_nested_fields
#print axioms Ghedt.Domains.C14_zoned_domain
#print axioms Ghedt.Domains.C14_zoned_domain_fields
#print axioms Ghedt.Domains.C14_zoned_domain_guard
#print axioms Ghedt.Domains.C14_zoned_domain_interiors
#print axioms Ghedt.Domains.C15_first_field_not_transposed
#print axioms Ghedt.Domains.C15_first_field_outside
#print axioms Ghedt.Domains.C16_zonedNested_walk
#print axioms Ghedt.Domains.C16_zonedNested_too_short
#print axioms Ghedt.Domains.C16_zonedNested_contents
#print axioms Ghedt.Domains.C16_zonedNested_guards
#print axioms Ghedt.Domains.C17_zonedNested_in_land
#print axioms Ghedt.Domains.C17_zonedNested_distinct
#print axioms Ghedt.Domains.C18_zonedNested_outside
#print axioms Ghedt.Domains.C19_polygonal
#print axioms Ghedt.WholeSearch.C20_search
#print axioms Ghedt.WholeSearch.C20_polygonal_search
#print axioms Ghedt.Domains.C20_polygonal_empty_field
#print axioms Ghedt.Domains.C21_reorder
#print axioms Ghedt.Domains.C21_reorder_perm
#print axioms Ghedt.Domains.C21_reorder_drops
#print axioms Ghedt.Domains.C22_verifyExcess
#print axioms Ghedt.FeatureRecognition.C23_removeCutout
#print axioms Ghedt.FeatureRecognition.C23_removeCutout_partition
#print axioms Ghedt.FeatureRecognition.C24_largest_rectangle
#print axioms Ghedt.FeatureRecognition.C24_largest_rectangle_contains
#print axioms Ghedt.Utilities.C25_area_nonneg
#print axioms Ghedt.Utilities.C25_area_rotate
#print axioms Ghedt.Utilities.C25_area_rotate_any
#print axioms Ghedt.Utilities.C25_area_reverse
#print axioms Ghedt.Utilities.C25_area_translate
#print axioms Ghedt.Utilities.C25_area_scale
#print axioms Ghedt.Utilities.C25_area_rectangle
#print axioms Ghedt.Utilities.C25_area_triangle
#print axioms Ghedt.Utilities.C25_area_cut
#print axioms Ghedt.Utilities.C25_area_fan
#print axioms Ghedt.Utilities.C26_inverse
#print axioms Ghedt.Utilities.C26_floor_fits
#print axioms Ghedt.Utilities.C26_ceil_spacing
#print axioms Ghedt.Utilities.C27_spacing
#print axioms Ghedt.Utilities.C27_spacing_rectangle
#print axioms Ghedt.Utilities.C27_spacing_openRectangle
#print axioms Ghedt.Utilities.C27_spacing_zonedRectangle
#print axioms Ghedt.Utilities.C28_sign
#print axioms Ghedt.Utilities.C28_checkBracket
#print axioms Ghedt.Utilities.C28_bracket_any
#print axioms Ghedt.Utilities.C29_mpe
#print axioms Ghedt.Utilities.C29_mpe_self
#print axioms Ghedt.Utilities.C29_mpe_scale
#print axioms Ghedt.Utilities.C29_mpe_pos
#print axioms Ghedt.Search.C30_feasible
#print axioms Ghedt.Search.C31_smallest
#print axioms Ghedt.Search.C31_ties_miss_smallest
#print axioms Ghedt.Search.C31_few_iterations
#print axioms Ghedt.Search.C32_outcomes
#print axioms Ghedt.Search.C32_never_none
#print axioms Ghedt.Search.C33_configured
#print axioms Ghedt.Search.C33_recorded
#print axioms Ghedt.Search.C34_simulations
#print axioms Ghedt.Search.C34_count
#print axioms Ghedt.Search.C35_shortcut
#print axioms Ghedt.Search.C35_infeasible_returned
#print axioms Ghedt.Search.C36_returned_field
#print axioms Ghedt.Search.C36_inner_search
#print axioms Ghedt.Search.C36_shortcut
#print axioms Ghedt.Search.C36_outcomes
#print axioms Ghedt.Search.C36_oversized_first_fails
#print axioms Ghedt.Search.C37_successive
#print axioms Ghedt.Search.C37_same_field
#print axioms Ghedt.Search.C37_start
#print axioms Ghedt.Search.C37_nothing_sized
#print axioms Ghedt.Search.C37_outcomes
#print axioms Ghedt.Search.C38_consistent
#print axioms Ghedt.Search.C38_equivalent
#print axioms Ghedt.Search.C38_borehole
#print axioms Ghedt.Search.C38_other
#print axioms Ghedt.Search.C38_empty_first_field
#print axioms Ghedt.GHE.C39_cost
#print axioms Ghedt.GHE.C39_cost_pos
#print axioms Ghedt.GHE.C40_superposition
#print axioms Ghedt.GHE.C40_ordered
#print axioms Ghedt.GHE.C40_zero_load
#print axioms Ghedt.GHE.C40_linear
#print axioms Ghedt.GHE.C40_causal
#print axioms Ghedt.GHE.C40_scaling
#print axioms Ghedt.GHE.C41_split
#print axioms Ghedt.GHE.C42_hourly
#print axioms Ghedt.GHE.C42_unknown_method
#print axioms Ghedt.GHE.C43_extremes
#print axioms Ghedt.GHE.C44_bounds
#print axioms Ghedt.GHE.C44_no_sign_change
#print axioms Ghedt.GHE.C44_exact_bound
#print axioms Ghedt.GHE.C44_last_asked
#print axioms Ghedt.GHE.C45_table
#print axioms Ghedt.GHE.C46_combine
#print axioms Ghedt.GF.C47_single
#print axioms Ghedt.GF.C47_stored
#print axioms Ghedt.GF.C48_in_range
#print axioms Ghedt.GF.C48_out_of_range_first
#print axioms Ghedt.GF.C48_out_of_range_later
#print axioms Ghedt.GF.C49_radius
#print axioms Ghedt.GF.C49_zero_radius
#print axioms Ghedt.GF.C50_scaling
#print axioms Ghedt.GF.C51_import
#print axioms Ghedt.GL.C52_split
#print axioms Ghedt.GL.C52_units
#print axioms Ghedt.GL.C53_month
#print axioms Ghedt.GL.C53_periodic
#print axioms Ghedt.GL.C53_year
#print axioms Ghedt.GL.C53_increasing
#print axioms Ghedt.GL.C53_calendar
#print axioms Ghedt.GL.C54_month
#print axioms Ghedt.GL.C54_year
#print axioms Ghedt.GL.C54_assert
#print axioms Ghedt.GL.C55_day
#print axioms Ghedt.GL.C56_window
#print axioms Ghedt.GL.C57_own_day
#print axioms Ghedt.Radial.C58_computed
#print axioms Ghedt.GL.C58_month
#print axioms Ghedt.GL.C58_year
#print axioms Ghedt.GL.C59_tolerance
#print axioms Ghedt.GL.C60_range
#print axioms Ghedt.GL.C61_conserved
#print axioms Ghedt.GL.C61_whole
#print axioms Ghedt.GL.C61_hourly
#print axioms Ghedt.GL.C62_formula
#print axioms Ghedt.GL.C62_same_day
#print axioms Ghedt.GL.C62_loses
#print axioms Ghedt.GL.C63_total
#print axioms Ghedt.GL.C63_hybrid
#print axioms Ghedt.GL.C63_aligned
#print axioms Ghedt.GL.C63_ends
#print axioms Ghedt.GL.C64_increasing
#print axioms Ghedt.GL.C64_backwards
#print axioms Ghedt.GL.C64_first_hour
#print axioms Ghedt.GL.C65_middle
#print axioms Ghedt.GL.C65_peaks
#print axioms Ghedt.GL.C66_steps
#print axioms Ghedt.C67_round
#print axioms Ghedt.GL.C67_writer
#print axioms Ghedt.GL.C67_block
#print axioms Ghedt.GL.C67_wraps
#print axioms Ghedt.GL.C67_year
#print axioms Ghedt.GL.C67_december
#print axioms Ghedt.GL.C67_content
#print axioms Ghedt.GL.C67_lost
#print axioms Ghedt.GL.C68_length
#print axioms Ghedt.GL.C68_values
#print axioms Ghedt.GL.C69_number
#print axioms Ghedt.GL.C69_name
#print axioms Ghedt.Radial.C70_filled
#print axioms Ghedt.Radial.C70_seams
#print axioms Ghedt.Radial.C70_fluid_mass
#print axioms Ghedt.Radial.C71_unique
#print axioms Ghedt.Radial.C71_conduction
#print axioms Ghedt.Radial.C71_no_undershoot
#print axioms Ghedt.Radial.C71_no_overshoot
#print axioms Ghedt.Radial.C71_energy
#print axioms Ghedt.Radial.C72_increasing
#print axioms Ghedt.Radial.C72_history
#print axioms Ghedt.Radial.C73_times
#print axioms Ghedt.Radial.C73_hours
#print axioms Ghedt.Radial.C73_short
#print axioms Ghedt.Radial.C73_wall
#print axioms Ghedt.Bhe.C74_multiple
#print axioms Ghedt.Bhe.C74_coaxial
#print axioms Ghedt.Bhe.C74_dispatch
#print axioms Ghedt.Bhe.C74_raises
#print axioms Ghedt.Bhe.C75_circle
#print axioms Ghedt.Bhe.C75_centroid
#print axioms Ghedt.Bhe.C75_disjoint
#print axioms Ghedt.Bhe.C75_legs
#print axioms Ghedt.Bhe.C75_none
#print axioms Ghedt.Bhe.C76_pipe
#print axioms Ghedt.Bhe.C76_annulus
#print axioms Ghedt.Bhe.C76_no_annulus
#print axioms Ghedt.Bhe.C76_report
#print axioms Ghedt.Design.C77_missing
#print axioms Ghedt.Design.C77_unknown
#print axioms Ghedt.Design.C77_available
#print axioms Ghedt.Design.C77_dispatch
#print axioms Ghedt.Design.C77_changed
#print axioms Ghedt.Export.C78_export
#print axioms Ghedt.Export.C78_repr
#print axioms Ghedt.Design.C79_rectangle
#print axioms Ghedt.Design.C79_nearSquare
#print axioms Ghedt.Design.C79_biRectangle
#print axioms Ghedt.Design.C79_biZoned
#print axioms Ghedt.Design.C79_biZoned_shape
#print axioms Ghedt.GF.C80_gap
#print axioms Ghedt.GF.C81_live
#print axioms Ghedt.GF.C81_cover
#print axioms Ghedt.Radial.C82_resistance
#print axioms Ghedt.Bhe.C83_flow
#print axioms Ghedt.Bhe.C83_balance
#print axioms Ghedt.Bhe.C84_flow
#print axioms Ghedt.Bhe.C84_fluid
#print axioms Ghedt.Bhe.C84_stale
#print axioms Ghedt.Bhe.C84_coefficient
#print axioms Ghedt.Bhe.C84_coaxial
#print axioms Ghedt.Bhe.C84_asked
#print axioms Ghedt.Bhe.C85_multiple
#print axioms Ghedt.Bhe.C85_multiple_wrong
#print axioms Ghedt.Bhe.C85_coaxial
#print axioms Ghedt.Bhe.C86_conductivity
#print axioms Ghedt.Bhe.C86_zero
#print axioms Ghedt.Bhe.C86_bounds
#print axioms Ghedt.Bhe.C86_start
#print axioms Ghedt.Bhe.C87_multiple
#print axioms Ghedt.Bhe.C87_coaxial
#print axioms Ghedt.Bhe.C87_bounds
#print axioms Ghedt.Bhe.C87_nearest
#print axioms Ghedt.Bhe.C87_error
#print axioms Ghedt.Whole.C88_multiple
#print axioms Ghedt.Whole.C88_coaxial
#print axioms Ghedt.Whole.C88_single
#print axioms Ghedt.Whole.C89_history
#print axioms Ghedt.Whole.C89_refinement
#print axioms Ghedt.Whole.C89_size
#print axioms Ghedt.Whole.C90_hybrid
#print axioms Ghedt.Whole.C90_hourly
#print axioms Ghedt.Whole.C91_too_long
#print axioms Ghedt.Whole.C91_beyond
#print axioms Ghedt.Whole.C92_site
#print axioms Ghedt.Whole.C92_hybrid
#print axioms Ghedt.Whole.C92_hourly
#print axioms Ghedt.WholeSearch.C93_returned
#print axioms Ghedt.WholeSearch.C93_zoned
#print axioms Ghedt.WholeSearch.C94_initial_height
#print axioms Ghedt.WholeSearch.C94_repeat
#print axioms Ghedt.WholeSearch.C94_repeat_zoned
#print axioms Ghedt.WholeSearch.C95_made
#print axioms Ghedt.WholeSearch.C95_refused
#print axioms Ghedt.WholeSearch.C95_year
#print axioms Ghedt.WholeSearch.C95_design
#print axioms Ghedt.WholeSearch.C95_design_year
#print axioms Ghedt.WholeSearch.C96_hourly
#print axioms Ghedt.WholeSearch.C96_hybrid
#print axioms Ghedt.WholeSearch.C96_search
#print axioms Ghedt.WholeSearch.C97_cover
#print axioms Ghedt.WholeSearch.C97_same
#print axioms Ghedt.WholeSearch.C97_size
#print axioms Ghedt.WholeSearch.C97_design
#print axioms Ghedt.WholeSearch.C97_zoned
#print axioms Ghedt.Report.C98_export
#print axioms Ghedt.Report.C98_stale
#print axioms Ghedt.Report.C98_times
#print axioms Ghedt.Report.C98_design
#print axioms Ghedt.Report.C99_sized
#print axioms Ghedt.Report.C100_simulated
#print axioms Ghedt.Report.C100_sized
#print axioms Ghedt.Report.C100_design
#print axioms Ghedt.Network.C101_exchanger
#print axioms Ghedt.Network.C101_settings
#print axioms Ghedt.Network.C101_asked
#print axioms Ghedt.Network.C102_hourly
#print axioms Ghedt.Network.C102_hybrid
#print axioms Ghedt.Network.C102_answered
#print axioms Ghedt.Radial.C103_samples
#print axioms Ghedt.Radial.C103_hours
#print axioms Ghedt.GL.C104_month
#print axioms Ghedt.GL.C104_gaps
#print axioms Ghedt.GL.C104_apart
#print axioms Ghedt.GL.C104_short
#print axioms Ghedt.GL.C104_iff
#print axioms Ghedt.GL.C104_late
#print axioms Ghedt.WholeSearch.C104_input
#print axioms Ghedt.GL.C104_lasting
#print axioms Ghedt.WholeSearch.C104_ends
#print axioms Ghedt.WholeSearch.C105_usable
#print axioms Ghedt.WholeSearch.C106_rectangle
#print axioms Ghedt.WholeSearch.C106_nearSquare
#print axioms Ghedt.WholeSearch.C106_biRectangle
#print axioms Ghedt.WholeSearch.C106_biZoned
#print axioms Ghedt.WholeSearch.C106_biZoned_shape
#print axioms Ghedt.WholeSearch.C107_nearSquare
#print axioms Ghedt.WholeSearch.C107_rectangle
#print axioms Ghedt.WholeSearch.C107_biRectangle
#print axioms Ghedt.WholeSearch.C107_biZoned
#print axioms Ghedt.GF.C108_unknown
#print axioms Ghedt.GF.C108_single
#print axioms Ghedt.GF.C108_first
#print axioms Ghedt.GF.C108_later
#print axioms Ghedt.GF.C108_stored
#print axioms Ghedt.GL.C109_table
#print axioms Ghedt.Report.C110_single
#print axioms Ghedt.Report.C110_multiple
#print axioms Ghedt.Report.C110_coaxial
#print axioms Ghedt.Report.C110_rough
#print axioms Ghedt.Report.C110_report
#print axioms Ghedt.Report.C110_design
#print axioms Ghedt.Files.C111_good
#print axioms Ghedt.Files.C111_untouched
#print axioms Ghedt.Files.C111_json
#print axioms Ghedt.Files.C111_pickle
#print axioms Ghedt.Files.C111_extension
#print axioms Ghedt.Files.C111_no_directory
#print axioms Ghedt.Files.C111_destroyed
#print axioms Ghedt.Files.C111_directory
#print axioms Ghedt.Files.C111_write
#print axioms Ghedt.Files.C111_export
#print axioms Ghedt.Files.C111_design
#print axioms Ghedt.Plots.C112_field
#print axioms Ghedt.Plots.C112_area
#print axioms Ghedt.Plots.C112_names
#print axioms Ghedt.Plots.C112_domain
#print axioms Ghedt.Plots.C112_curves
#print axioms Ghedt.Plots.C112_legend
#print axioms Ghedt.Plots.C112_mismatch
#print axioms Ghedt.Plots.C112_zero_height
#print axioms Ghedt.GL.C113_histories
#print axioms Ghedt.GL.C113_quiet
#print axioms Ghedt.Plots.C113_figure
#print axioms Ghedt.Plots.C113_own_month
#print axioms Ghedt.Plots.C113_hourly
#print axioms Ghedt.Ticks.C114_ticks
#print axioms Ghedt.Ticks.C114_decades
#print axioms Ghedt.Ticks.C114_few
#print axioms Ghedt.WholeSearch.C115_size
#print axioms Ghedt.WholeSearch.C115_design
#print axioms Ghedt.WholeSearch.C115_zoned
#print axioms Ghedt.WholeSearch.C115_biZoned
#print axioms Ghedt.GF.C116_short_curve
#print axioms Ghedt.GF.C116_long_curve
#print axioms Ghedt.GF.C116_no_depth
#print axioms Ghedt.C117_double
#print axioms Ghedt.Rounded.C117_exact
#print axioms Ghedt.Rounded.C117_rectangular
#print axioms Ghedt.Rounded.C117_numberOfBoreholes
#print axioms Ghedt.Rounded.C117_nearSquare
#print axioms Ghedt.Rounded.C117_design
#print axioms Ghedt.Rounded.C117_nested
#print axioms Ghedt.Rounded.C118_rectangular
#print axioms Ghedt.Rounded.C119_square_loses_field
#print axioms Ghedt.Rounded.C119_nested_repeats
#print axioms Ghedt.Rounded.C119_nested_too_close
#print axioms Ghedt.Rounded.C119_outside
#print axioms Ghedt.Rounded.C119_number_of_boreholes
#print axioms Ghedt.Rounded.C120_zoned_domain
#print axioms Ghedt.Rounded.C120_zoned_agrees
#print axioms Ghedt.Rounded.C121_tie
#print axioms Ghedt.Rounded.C121_barely_longer
#print axioms Ghedt.Rounded.C122_zonedNested
#print axioms Ghedt.Rounded.C122_design
#print axioms Ghedt.Rounded.C123_exact
#print axioms Ghedt.Rounded.C123_hourly
#print axioms Ghedt.Rounded.C123_hybrid
#print axioms Ghedt.Rounded.C124_exact
#print axioms Ghedt.Rounded.C124_monthly
#print axioms Ghedt.Rounded.C124_constant
#print axioms Ghedt.Rounded.C124_whole
#print axioms Ghedt.Rounded.C124_constant_exact
#print axioms Ghedt.Rounded.C124_constant_raises
#print axioms Ghedt.Rounded.C124_constant_48
#print axioms Ghedt.Crash.C125_finished
#print axioms Ghedt.Crash.C125_dump
#print axioms Ghedt.Crash.C125_create
#print axioms Ghedt.Crash.C125_reading
#print axioms Ghedt.Crash.C125_again
#print axioms Ghedt.Crash.C125_directory
#print axioms Ghedt.Crash.C125_history
#print axioms Ghedt.Crash.C125_kept
#print axioms Ghedt.Crash.C125_domain
#print axioms Ghedt.Crash.C125_possible
#print axioms Ghedt.Crash.C125_export
#print axioms Ghedt.Rounded.C126_exact
#print axioms Ghedt.Rounded.C126_loads
#print axioms Ghedt.Rounded.C126_close
#print axioms Ghedt.Rounded.C126_increasing
#print axioms Ghedt.Rounded.C126_energy
#print axioms Ghedt.Rounded.C126_conserved
#print axioms Ghedt.Rounded.C127_exact
#print axioms Ghedt.Rounded.C127_sign
#print axioms Ghedt.Rounded.C127_temperatures
#print axioms Ghedt.Rounded.C127_decision
#print axioms Ghedt.Rounded.C127_hybrid
#print axioms Ghedt.Rounded.C127_hourly
#print axioms Ghedt.Session.C128_apart
#print axioms Ghedt.Session.C128_heights
#print axioms Ghedt.Session.C128_changed
#print axioms Ghedt.Session.C128_raised
#print axioms Ghedt.Session.C128_size
#print axioms Ghedt.Session.C128_kept
#print axioms Ghedt.GL.C129_hours
#print axioms Ghedt.GL.C129_peak
#print axioms Ghedt.Whole.C129_entries
#print axioms Ghedt.Whole.C129_extremes
#print axioms Ghedt.Whole.C129_lost
#print axioms Ghedt.WholeSearch.C129_fresh
#print axioms Ghedt.WholeSearch.C129_hybrid
#print axioms Ghedt.WholeSearch.C129_first_hour
#print axioms Ghedt.Script.C130_disk
#print axioms Ghedt.Script.C130_repeat
#print axioms Ghedt.Script.C130_saved
#print axioms Ghedt.Script.C130_outcome
#print axioms Ghedt.Script.C130_ornl
#print axioms Ghedt.Radial.C131_slows
#print axioms Ghedt.Radial.C131_close
#print axioms Ghedt.Radial.C131_hours
#print axioms Ghedt.Radial.C131_enough
#print axioms Ghedt.WholeSearch.C132_design
#print axioms Ghedt.WholeSearch.C132_sized
#print axioms Ghedt.WholeSearch.C132_built
#print axioms Ghedt.WholeSearch.C132_simulate
#print axioms Ghedt.WholeSearch.C132_size
#print axioms Ghedt.WholeSearch.C132_file
#print axioms Ghedt.WholeSearch.C132_curve
#print axioms Ghedt.WholeSearch.C133_design
#print axioms Ghedt.WholeSearch.C133_sized
#print axioms Ghedt.WholeSearch.C133_built
#print axioms Ghedt.WholeSearch.C133_simulate
#print axioms Ghedt.WholeSearch.C133_size
#print axioms Ghedt.WholeSearch.C133_file
#print axioms Ghedt.WholeSearch.C133_loads
#print axioms Ghedt.WholeSearch.C134_hours
#print axioms Ghedt.WholeSearch.C134_ground
#print axioms Ghedt.WholeSearch.C134_years
#print axioms Ghedt.WholeSearch.C134_rising
#print axioms Ghedt.WholeSearch.C134_limits
#print axioms Ghedt.WholeSearch.C134_design
#print axioms Ghedt.WholeSearch.C135_hours
#print axioms Ghedt.WholeSearch.C135_limits
#print axioms Ghedt.WholeSearch.C135_design
#print axioms Ghedt.WholeSearch.C136_sum
#print axioms Ghedt.WholeSearch.C136_scale
#print axioms Ghedt.WholeSearch.C136_limits
#print axioms Ghedt.WholeSearch.C136_design
#print axioms Ghedt.WholeSearch.C137_temperatures
#print axioms Ghedt.WholeSearch.C137_design
#print axioms Ghedt.WholeSearch.C137_tooLoose
#print axioms Ghedt.Whole.C138_returns
#print axioms Ghedt.Whole.C138_least
#print axioms Ghedt.Whole.C138_limits
#print axioms Ghedt.Whole.C138_loads
#print axioms Ghedt.Whole.C138_oversized
#print axioms Ghedt.GL.C139_hybrid
#print axioms Ghedt.GL.C139_tolerance
#print axioms Ghedt.WholeSearch.C139_made
#print axioms Ghedt.WholeSearch.C139_temperatures
#print axioms Ghedt.WholeSearch.C139_limits
#print axioms Ghedt.WholeSearch.C139_design
#print axioms Ghedt.Whole.C139_size
#print axioms Ghedt.WholeSearch.C140_hours
#print axioms Ghedt.WholeSearch.C140_solver
#print axioms Ghedt.WholeSearch.C140_design
#print axioms Ghedt.WholeSearch.C140_exact
#print axioms Ghedt.Whole.C140_size
#print axioms Ghedt.Whole.C141_history
#print axioms Ghedt.Whole.C141_hybrid
#print axioms Ghedt.Whole.C141_size
#print axioms Ghedt.WholeSearch.C141_made
#print axioms Ghedt.WholeSearch.C141_stale
#print axioms Ghedt.Refill.C142_history
#print axioms Ghedt.Refill.C142_conductivities
#print axioms Ghedt.Refill.C142_resistance
#print axioms Ghedt.Compare.C143_alone
#print axioms Ghedt.Compare.C143_order
#print axioms Ghedt.Compare.C143_report
#print axioms Ghedt.Library.C144_simulate
#print axioms Ghedt.Library.C144_size
#print axioms Ghedt.Library.C144_computed
#print axioms Ghedt.Library.C144_live
#print axioms Ghedt.Library.C144_search
#print axioms Ghedt.Creation.C145_keywords
#print axioms Ghedt.Creation.C145_unknown
#print axioms Ghedt.Creation.C145_files
#print axioms Ghedt.Creation.C145_then
#print axioms Ghedt.Rounded.C146_exact
#print axioms Ghedt.Rounded.C146_interp
#print axioms Ghedt.Rounded.C146_points
#print axioms Ghedt.Rounded.C146_radius
#print axioms Ghedt.Rounded.C146_response
#print axioms Ghedt.Rounded.C146_temperatures
#print axioms Ghedt.Rounded.C146_decision
#print axioms Ghedt.WholeSearch.C147_exact
#print axioms Ghedt.WholeSearch.C147_bounds
#print axioms Ghedt.WholeSearch.C147_hourly
#print axioms Ghedt.WholeSearch.C147_hybrid
#print axioms Ghedt.WholeSearch.C148_order
#print axioms Ghedt.WholeSearch.C148_exact
#print axioms Ghedt.WholeSearch.C148_returned
#print axioms Ghedt.WholeSearch.C148_same
#print axioms Ghedt.WholeSearch.C148_hourly
#print axioms Ghedt.WholeSearch.C148_hybrid
#print axioms Ghedt.TubeScript.C149_double
#print axioms Ghedt.TubeScript.C149_coaxial
#print axioms Ghedt.TubeScript.C150_single
#print axioms Ghedt.TubeScript.C150_double
#print axioms Ghedt.TubeScript.C150_coaxial
#print axioms Ghedt.TubeScript.C150_sweep
#print axioms Ghedt.TubeScript.C150_plots
#print axioms Ghedt.Ornl.C151_raises
#print axioms Ghedt.Ornl.C151_keys
#print axioms Ghedt.Ornl.C151_length
#print axioms Ghedt.WholeSearch.C152_moved
#print axioms Ghedt.WholeSearch.C152_sized
#print axioms Ghedt.WholeSearch.C152_file
#print axioms Ghedt.WholeSearch.C152_rectangle
#print axioms Ghedt.WholeSearch.C152_biRectangle
#print axioms Ghedt.WholeSearch.C152_curve
#print axioms Ghedt.FindScripts.C153_candidates
#print axioms Ghedt.FindScripts.C153_printed
#print axioms Ghedt.FindScripts.C153_picture
#print axioms Ghedt.FindScripts.C153_clear
#print axioms Ghedt.FindScripts.C153_routines
#print axioms Ghedt.Office.C154_loads
#print axioms Ghedt.Office.C154_last_day
#print axioms Ghedt.Office.C154_lasting
#print axioms Ghedt.Office.C154_pipes
#print axioms Ghedt.Office.C154_sensible
#print axioms Ghedt.Office.C154_made
#print axioms Ghedt.Office.C154_design
#print axioms Ghedt.Office.C154_simulated
#print axioms Ghedt.Office.C154_size
#print axioms Ghedt.Office.C154_found
#print axioms Ghedt.Office.C154_zoned
