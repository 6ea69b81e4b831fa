{
 "claims": [
  {
   "property": "C01",
   "status": "partial",
   "theorems": [
    "Verif.Paths.C01_reload_partial",
    "Verif.Paths.C01_session_partial",
    "Verif.Paths.C01_full_false",
    "Verif.Paths.C01_linebreak_blocks_sessions"
   ],
   "note": "Proved for all clean names and paths (no blank, no line break) and all histories. False in full: a line of the registry is cut at blanks, so a name or path with a blank comes back shortened, and one with a line break stops later sessions (C01_full_false, C01_linebreak_blocks_sessions)."
  },
  {
   "property": "C02",
   "status": "proved",
   "theorems": [
    "Verif.Paths.C02_frame",
    "Verif.Paths.C02_declined",
    "Verif.Paths.C02_unanswered",
    "Verif.Paths.C02_accepted",
    "Verif.Paths.C02_no_root"
   ],
   "note": ""
  },
  {
   "property": "C03",
   "status": "proved",
   "theorems": [
    "Verif.Handler.C03_active_selection",
    "Verif.Handler.C03_restrict_step",
    "Verif.Handler.C03_refused"
   ],
   "note": ""
  },
  {
   "property": "C04",
   "status": "proved",
   "theorems": [
    "Verif.Handler.C04_row_alignment",
    "Verif.Handler.C04_same_object"
   ],
   "note": ""
  },
  {
   "property": "C05",
   "status": "proved",
   "theorems": [
    "Verif.Handler.C05_reads_file_values",
    "Verif.Handler.C05_history_invisible"
   ],
   "note": ""
  },
  {
   "property": "C06",
   "status": "partial",
   "theorems": [
    "Verif.Handler.C06_claimed_returned_partial",
    "Verif.Handler.C06_full_false"
   ],
   "note": "False after unloading a generated property (C06_full_false); proved for histories that unload only saved properties."
  },
  {
   "property": "C07",
   "status": "partial",
   "theorems": [
    "Verif.Handler.C07_values",
    "Verif.Handler.C07_rowwise",
    "Verif.Handler.C07_full_false"
   ],
   "note": "Proved for every function returning float arrays; functions returning integers make the call fail (C07_full_false)."
  },
  {
   "property": "C08",
   "status": "partial",
   "theorems": [
    "Verif.Handler.C08_no_write_no_change",
    "Verif.Handler.C08_touches_only_named",
    "Verif.Handler.C08_no_silent_overwrite_partial",
    "Verif.Handler.C08_full_false",
    "Verif.Handler.C08_restricted_refused_partial",
    "Verif.Handler.C08_restricted_full_false"
   ],
   "note": "Silent overwrite is possible with two handlers on one file (C08_full_false) and the restricted-selection guard fails for one-object catalogues (C08_restricted_full_false)."
  },
  {
   "property": "C09",
   "status": "partial",
   "theorems": [
    "Verif.Handler.C09_units",
    "Verif.Handler.C09_roundtrip_partial",
    "Verif.Handler.C09_tuple_fails",
    "Verif.Handler.C09_full_false"
   ],
   "note": "Reading back is exact for every power of h. A function that returns several properties as a tuple, in physical units and with a power of h other than zero, cannot be used: line 132 of galprops.py assigns to an entry of the tuple (C09_tuple_fails, for every catalogue and function)."
  },
  {
   "property": "C10",
   "status": "partial",
   "theorems": [
    "Verif.Sim.C10_lookup_partial",
    "Verif.Sim.C10_top_edge_fails",
    "Verif.Sim.C10_below_range_wraps",
    "Verif.Sim.C10_full_false",
    "Verif.Sim.C10_metadata_of_snapshot",
    "Verif.Sim.C10_lookup_metadata",
    "Verif.Sim.C16_lookup"
   ],
   "note": "False at the highest edge (IndexError) and below the lowest edge of tables that do not start at zero (wraps to the highest redshift); proved for all other redshifts."
  },
  {
   "property": "C11",
   "status": "partial",
   "theorems": [
    "Verif.Sim.C11_rows_read",
    "Verif.Sim.C11_nothing_lost_partial",
    "Verif.Sim.C11_no_h_partial",
    "Verif.Sim.C11_no_h_loses",
    "Verif.Sim.C11_below_lowest_loses",
    "Verif.Sim.C11_above_highest_loses",
    "Verif.Sim.C11_full_false"
   ],
   "note": "False without h units for every 0<h<1 (the limit is divided by h instead of multiplied), below the lowest cut and above the highest; proved in h units between the cuts."
  },
  {
   "property": "C12",
   "status": "proved",
   "theorems": [
    "Verif.Format.C12_sorted_rows",
    "Verif.Format.C12_usable_data_are_formatted"
   ],
   "note": ""
  },
  {
   "property": "C13",
   "status": "proved",
   "theorems": [
    "Verif.Format.C13_mass_cut_table",
    "Verif.Format.C13_table_for_reads"
   ],
   "note": ""
  },
  {
   "property": "C14",
   "status": "proved",
   "theorems": [
    "Verif.Format.C14_one_run",
    "Verif.Format.C14_history",
    "Verif.Format.C14_metadata_listed",
    "Verif.Format.C14_metadata_rows"
   ],
   "note": ""
  },
  {
   "property": "C15",
   "status": "partial",
   "theorems": [
    "Verif.Format.C15_declined",
    "Verif.Format.C15_raw_deleted_last",
    "Verif.Format.C15_nothing_lost_partial",
    "Verif.Format.C15_remake_destroys",
    "Verif.Format.C15_listed_without_data",
    "Verif.Format.C15_incomplete_kept",
    "Verif.Format.C15_incomplete_reached",
    "Verif.Format.C15_full_false"
   ],
   "note": "Raw data are deleted only after their snapshot is complete, and without remake nothing is lost at any crash point. False: metadata list snapshots before (and without) their data, remake destroys snapshots whose raw data are gone, and a half-written snapshot is taken for complete by later runs."
  },
  {
   "property": "C16",
   "status": "proved",
   "theorems": [
    "Verif.Sim.C16_tiling",
    "Verif.Sim.C16_lookup",
    "Verif.Sim.C16_misordered_rejected"
   ],
   "note": ""
  },
  {
   "property": "C17",
   "status": "partial",
   "theorems": [
    "Verif.Map.C17_grid_geometry_partial",
    "Verif.Map.C17_edges_uniform",
    "Verif.Map.C17_scalar",
    "Verif.Map.C17_single_cell_fails",
    "Verif.Map.C17_extent_shrinks",
    "Verif.Map.C17_full_false"
   ],
   "note": "Proved for extents of at least two cells after rounding; a single cell raises IndexError and rounding to one decimal can shrink the extent (C17_full_false)."
  },
  {
   "property": "C18",
   "status": "partial",
   "theorems": [
    "Verif.Map.C18_cells_partial",
    "Verif.Map.C18_inside",
    "Verif.Map.C18_one_cell",
    "Verif.Map.C18_total",
    "Verif.Map.C18_new_props",
    "Verif.Map.C18_integer_positions_fail",
    "Verif.Map.C18_columns_swapped",
    "Verif.Map.C18_columns_out_of_range",
    "Verif.Map.C18_full_false"
   ],
   "note": "Proved for float positions and one column, or as many columns as properties in order; integer positions raise TypeError and column k goes to property k instead of properties[k]."
  },
  {
   "property": "C19",
   "status": "proved",
   "theorems": [
    "Verif.Map.C19_order",
    "Verif.Map.C19_batches",
    "Verif.Map.C19_pieces"
   ],
   "note": ""
  },
  {
   "property": "C20",
   "status": "partial",
   "theorems": [
    "Verif.Map.C20_sample_partial",
    "Verif.Map.C20_sample_after_add",
    "Verif.Map.C20_integer_positions_fail",
    "Verif.Map.C20_full_false"
   ],
   "note": "Proved for float positions; integer positions raise TypeError."
  },
  {
   "property": "C21",
   "status": "partial",
   "theorems": [
    "Verif.Map.C21_pad_unpad_partial",
    "Verif.Map.C21_aligned_range",
    "Verif.Map.C21_aligned_perm",
    "Verif.Map.C21_single_axis_fails",
    "Verif.Map.C21_refused",
    "Verif.Map.C21_full_false"
   ],
   "note": "Proved where pad[ax[i]] is the amount for axis i (e.g. all axes in order); a single axis other than the first always raises (C21_single_axis_fails)."
  },
  {
   "property": "C22",
   "status": "partial",
   "theorems": [
    "Verif.Map.C22_crop_partial",
    "Verif.Map.C22_refusal",
    "Verif.Map.C22_gap_fails",
    "Verif.Map.C22_one_cell_fails",
    "Verif.Map.C22_full_false"
   ],
   "note": "Proved where at least two cells remain and coordinates are floats; limits between two centres or around one raise after changing the grid."
  },
  {
   "property": "C23",
   "status": "proved",
   "theorems": [
    "Verif.Map.C23_round_trip",
    "Verif.Map.C23_axis_order",
    "Verif.Map.C23_one_axis_at_a_time"
   ],
   "note": ""
  },
  {
   "property": "C24",
   "status": "partial",
   "theorems": [
    "Verif.Map.C24_restores_partial",
    "Verif.Map.C24_restores_cross",
    "Verif.Map.C24_refused",
    "Verif.Map.C24_succeeds",
    "Verif.Map.C24_nonneg",
    "Verif.Map.C24_value",
    "Verif.Map.C24_cross_with_itself",
    "Verif.Map.C24_failure_leaves_transformed",
    "Verif.Map.C24_units_fail",
    "Verif.Map.C24_shapes_fail",
    "Verif.Map.C24_full_false"
   ],
   "note": "Maps are restored whenever a spectrum is returned; values are non-negative and agree with the cross spectrum of an equal copy. False for calls that fail late (units not one per property, cross map of another size): the map stays transformed."
  },
  {
   "property": "C25",
   "status": "partial",
   "theorems": [
    "Verif.Map.C25_one_axis_partial",
    "Verif.Map.C25_total",
    "Verif.Map.C25_mean_bounds",
    "Verif.Map.C25_new_copy",
    "Verif.Map.C25_several_axes_wrong",
    "Verif.Map.C25_property_weights_wrong",
    "Verif.Map.C25_full_false"
   ],
   "note": "One axis: exactly that axis removed, sums, weighted means and their bounds, totals preserved, in place or as a new grid. Two or more axes at once never work, for any map, weights or mode, nor do weights for every property."
  },
  {
   "property": "C26",
   "status": "partial",
   "theorems": [
    "Verif.Map.C26_value_partial",
    "Verif.Map.C26_mean_bounds",
    "Verif.Map.C26_succeeds",
    "Verif.Map.C26_given_increasing",
    "Verif.Map.C26_auto_increasing",
    "Verif.Map.C26_last_shell_lost",
    "Verif.Map.C26_one_shell_empty",
    "Verif.Map.C26_auto_farthest_lost",
    "Verif.Map.C26_small_weights_lost",
    "Verif.Map.C26_full_false"
   ],
   "note": "Every shell but the last holds the mean of exactly its cells (integer weights). False for every map: the last shell is always empty and its average not a number, so the farthest cells are never used with automatic shells; fractional weights are truncated to integers one by one."
  },
  {
   "property": "C27",
   "status": "proved",
   "theorems": [
    "Verif.Map.C27_chunks",
    "Verif.Map.C27_cells",
    "Verif.Map.C27_empty_new_prop_fails",
    "Verif.Map.C27_empty"
   ],
   "note": "For grids of at least two dimensions and functions acting object by object."
  },
  {
   "property": "C28",
   "status": "partial",
   "theorems": [
    "Verif.Map.C28_copy_partial",
    "Verif.Map.C28_copy_all",
    "Verif.Map.C28_sum_partial",
    "Verif.Map.C28_sum_in_place",
    "Verif.Map.C28_selection_fails",
    "Verif.Map.C28_sum_fails",
    "Verif.Map.C28_copy_after_add_fails",
    "Verif.Map.C28_sum_forgets_space",
    "Verif.Map.C28_units_not_reordered",
    "Verif.Map.C28_full_false"
   ],
   "note": "Copies keep axes, space and selected values if the number of units fits; for every grid with two or more units other selections, sums into a new grid, and copies after adding a property raise ValueError."
  },
  {
   "property": "C29",
   "status": "proved",
   "theorems": [
    "Verif.LC.C29_image",
    "Verif.LC.C29_rotation",
    "Verif.LC.C29_lightcone"
   ],
   "note": "For every accepted line of sight, position angle, mirroring, start and number of copies of the box."
  },
  {
   "property": "C30",
   "status": "partial",
   "theorems": [
    "Verif.LC.C30_geometry_partial",
    "Verif.LC.C30_behind_observer",
    "Verif.LC.C30_full_false"
   ],
   "note": "Distances, redshifts and angles are right; objects behind the observer are included whenever the lightcone begins nearer than the buffer (C30_behind_observer)."
  },
  {
   "property": "C31",
   "status": "proved",
   "theorems": [
    "Verif.LC.C31_partition",
    "Verif.LC.C31_slice_length",
    "Verif.LC.C31_once"
   ],
   "note": ""
  },
  {
   "property": "C32",
   "status": "proved",
   "theorems": [
    "Verif.LC.C32_sorted",
    "Verif.LC.C32_blocks",
    "Verif.LC.C32_table"
   ],
   "note": ""
  },
  {
   "property": "C33",
   "status": "partial",
   "theorems": [
    "Verif.LC.C33_scalar",
    "Verif.LC.C33_kept",
    "Verif.LC.C33_session",
    "Verif.LC.C33_vector_partial",
    "Verif.LC.C33_vector_mirrored",
    "Verif.LC.C33_empty_fails",
    "Verif.LC.C33_repeated_fails",
    "Verif.LC.C33_full_false"
   ],
   "note": "Scalar properties proved for all histories of calls (stored in single precision, a parameter). Vectors are rotated but never mirrored: wrong for every mirrored axis and nonzero component. No property can be added to a set in which one lightcone is empty (C33_empty_fails, chunks of length zero), or if a new property is named twice (C33_repeated_fails)."
  },
  {
   "property": "C34",
   "status": "partial",
   "theorems": [
    "Verif.LC.C34_build",
    "Verif.LC.C34_build_again",
    "Verif.LC.C34_add",
    "Verif.LC.C34_add_again",
    "Verif.LC.C34_lost",
    "Verif.LC.C34_empty_lost",
    "Verif.LC.C34_full_false"
   ],
   "note": "Flags are right after every interruption, and building again is right. Adding again after an interruption writes nothing and marks the lightcones as complete (C34_lost). No interruption is needed for this if a lightcone of the set is empty: the call raises, repeated it does not, and the lightcones before the empty one keep zeros (C34_empty_lost)."
  },
  {
   "property": "C35",
   "status": "proved",
   "theorems": [
    "Verif.LC.C35_consent",
    "Verif.LC.C35_init_keeps",
    "Verif.LC.C35_no_loss"
   ],
   "note": ""
  },
  {
   "property": "C36",
   "status": "partial",
   "theorems": [
    "Verif.LC.C36_once",
    "Verif.LC.C36_image",
    "Verif.LC.C36_nearest",
    "Verif.LC.C36_region",
    "Verif.LC.C36_iff",
    "Verif.LC.C36_complete_partial",
    "Verif.LC.C36_accepts",
    "Verif.LC.C36_misses",
    "Verif.LC.C36_sorted",
    "Verif.LC.C36_full_false"
   ],
   "note": "Each halo at most once per snapshot, at its nearest image (eighths: in the box at the corner), inside shell and region, in order of distance: proved. Refusal fails: the check compares Mpc/h with Mpc, so for h<1 spheres larger than the box are accepted (C36_accepts gives the exact condition) and images outside the cube around the observer are missing (C36_iff, C36_misses, C36_full_false). Complete if the sphere fits in the units of the positions."
  },
  {
   "property": "C37",
   "status": "partial",
   "theorems": [
    "Verif.LCH.C37_value",
    "Verif.LCH.C37_split",
    "Verif.LCH.C37_nonneg_partial",
    "Verif.LCH.C37_reversed",
    "Verif.LCH.C37_refused_redshift",
    "Verif.LCH.C37_contained_partial",
    "Verif.LCH.C37_box_in_circle_partial",
    "Verif.LCH.C37_box_sticks_out",
    "Verif.LCH.C37_circle_sticks_out",
    "Verif.LCH.C37_sphere",
    "Verif.LCH.C37_full_false"
   ],
   "note": "Volumes add up over every split of the range, and redshifts outside are refused. Redshifts in the wrong order give negative volumes. Containment is checked correctly only for the shape of the lightcone; for every circular lightcone below one radian some rectangles, and for every rectangle with aspect ratio below one the circle of full width, are accepted although they stick out. Light spheres raise KeyError by default and accept any rectangle."
  },
  {
   "property": "C38",
   "status": "partial",
   "theorems": [
    "Verif.LCH.C38_values_partial",
    "Verif.LCH.C38_once_partial",
    "Verif.LCH.C38_edge_twice",
    "Verif.LCH.C38_selection_ignored",
    "Verif.LCH.C38_restored_partial",
    "Verif.LCH.C38_count",
    "Verif.LCH.C38_failure_keeps_bin",
    "Verif.LCH.C38_full_false"
   ],
   "note": "Each bin uses exactly the objects with redshift between its edges, edges included: objects at inner edges count twice (C38_edge_twice), the selection is ignored (C38_selection_ignored), the number of active objects is wrong afterwards (C38_count), and a failing statistic leaves the objects of the bin selected (C38_failure_keeps_bin)."
  },
  {
   "property": "C39",
   "status": "partial",
   "theorems": [
    "Verif.Inst.C39_samples_partial",
    "Verif.Inst.C39_refused",
    "Verif.Inst.C39_edit_unnoticed",
    "Verif.Inst.C39_full_false"
   ],
   "note": "Proved for every history of calls of the instrument; a grid held by reference that other code changes is not noticed (C39_edit_unnoticed)."
  },
  {
   "property": "C40",
   "status": "proved",
   "theorems": [
    "Verif.Inst.C40_beam_groups",
    "Verif.Inst.C40_pointing_groups",
    "Verif.Inst.C40_map",
    "Verif.Inst.C40_samples"
   ],
   "note": ""
  },
  {
   "property": "C41",
   "status": "partial",
   "theorems": [
    "Verif.Inst.C41_unique",
    "Verif.Inst.C41_failed_partial",
    "Verif.Inst.C41_instrument_failed",
    "Verif.Inst.C41_instrument_added",
    "Verif.Inst.C41_automatic_partial",
    "Verif.Inst.C41_automatic_name_partial",
    "Verif.Inst.C41_number_blocks",
    "Verif.Inst.C41_other_failures",
    "Verif.Inst.C41_full_false"
   ],
   "note": "Names are unique in every history and failures leave no trace unless the detector is to be called 'instrument', which overwrites defaults; automatic names collide exactly with numbers given as names."
  },
  {
   "property": "C42",
   "status": "partial",
   "theorems": [
    "Verif.Inst.C42_first_property",
    "Verif.Inst.C42_one_property_partial",
    "Verif.Inst.C42_negative_refused",
    "Verif.Inst.C42_fourth_refused",
    "Verif.Inst.C42_missing_accepted",
    "Verif.Inst.C42_copy_refused",
    "Verif.Inst.C42_units_refused",
    "Verif.Inst.C42_no_beam_fails",
    "Verif.Inst.C42_full_false"
   ],
   "note": "Holds for fields with one property; the index is compared with the number of dimensions, and the first property is always the one mapped (C42_first_property)."
  },
  {
   "property": "C43",
   "status": "partial",
   "theorems": [
    "Verif.AM.C43_accepted",
    "Verif.AM.C43_monotone_partial",
    "Verif.AM.C43_quantile_partial",
    "Verif.AM.C43_fraction",
    "Verif.AM.C43_array_partial",
    "Verif.AM.C43_interior_partial",
    "Verif.AM.C43_back_array",
    "Verif.AM.C43_distributions_partial",
    "Verif.AM.C43_extremes_zero",
    "Verif.AM.C43_array_decreases",
    "Verif.AM.C43_full_false"
   ],
   "note": "Order and quantiles proved for halos passed one at a time.  In arrays every halo gets the same or 0; with the default missing fractions the heaviest and the lightest halo of an array always get 0."
  },
  {
   "property": "C44",
   "status": "partial",
   "theorems": [
    "Verif.Handler.C44_evaluate_all",
    "Verif.Handler.C44_common_power_partial",
    "Verif.Handler.C44_full_false",
    "Verif.Handler.C44_per_property_powers_fail",
    "Verif.Handler.C44_evaluate_drops_keywords"
   ],
   "note": "Per-property powers of h are not honoured (C44_full_false)."
  },
  {
   "property": "C45",
   "status": "proved",
   "theorems": [
    "Verif.Gal.C45_duty_fraction",
    "Verif.Gal.C45_yang_fraction",
    "Verif.Gal.C45_starburst_fraction",
    "Verif.Gal.C45_starforming_fraction",
    "Verif.Gal.C45_starforming_default",
    "Verif.Gal.C45_keating_cut",
    "Verif.Gal.C45_pullen_duty",
    "Verif.Gal.C45_lidz_duty",
    "Verif.Gal.C45_breysse_duty",
    "Verif.Gal.C45_yang_duty",
    "Verif.Gal.C45_rates",
    "Verif.Gal.C45_pullen_average",
    "Verif.Gal.C45_average",
    "Verif.Gal.C45_yang_redshift",
    "Verif.Gal.C45_main_sequence",
    "Verif.Gal.C45_low_redshift",
    "Verif.Gal.C45_flags"
   ],
   "note": "Powers are positive for positive bases and the error function lies in [-1,1] (hypothesis Usual, shown for the real numbers); ages are positive in the range of the redshifts. The rates of galaxies without stellar mass (NaN) are NaN. sffrac is a fraction whenever the quenched fraction of the lightest galaxies is, shown for the default parameters at every redshift."
  },
  {
   "property": "C46",
   "status": "partial",
   "theorems": [
    "Verif.Gal.C46_own_generator_partial",
    "Verif.Gal.C46_rates",
    "Verif.Gal.C46_others_untouched",
    "Verif.Gal.C46_behroozi_ignores",
    "Verif.Gal.C46_behroozi_differs",
    "Verif.Gal.C46_yang_duty_ignores",
    "Verif.Gal.C46_used_up",
    "Verif.Gal.C46_full_false"
   ],
   "note": "Proved for all functions except yang22 with duty cycle, which uses the global generator of numpy for it, and sfr and stellarmass of sfr_behroozi13 with scatter, which never use the generator passed; for these it is false."
  },
  {
   "property": "C47",
   "status": "partial",
   "theorems": [
    "Verif.Load.C47_in_order",
    "Verif.Load.C47_loaded_partial",
    "Verif.Load.C47_loader_partial",
    "Verif.Load.C47_none",
    "Verif.Load.C47_object",
    "Verif.Load.C47_first_empty",
    "Verif.Load.C47_single_field",
    "Verif.Load.C47_full_false"
   ],
   "note": "Objects of all files in order, for files with complete fields and objects in the first file. If the first file has no objects the call fails (C47_first_empty), files with short arrays are filled with zeros, and a single field is returned in a form the caller cannot use (C47_single_field)."
  },
  {
   "property": "C48",
   "status": "partial",
   "theorems": [
    "Verif.Format.C48_documented_partial",
    "Verif.Format.C48_labels_partial",
    "Verif.Format.C48_distinct_partial",
    "Verif.Format.C48_powers",
    "Verif.Format.C48_masses",
    "Verif.Format.C48_sfr_hr_missing",
    "Verif.Format.C48_bhmdot",
    "Verif.Format.C48_radius_label",
    "Verif.Format.C48_full_false"
   ],
   "note": "Proved for the tables of all simulations and every history of completed calls, except two properties of Illustris and TNG: the raw field of sfr_hr is listed twice so that sfr_hr is never stored (and sfr_2hr holds the value within one half mass radius); of the two conversions listed for bhmdot only the last is applied. Radii of UniverseMachine are labelled kpc/h but stored in Mpc/h (C48_radius_label)."
  },
  {
   "property": "C49",
   "status": "partial",
   "theorems": [
    "Verif.Sim.C49_illustris_partial",
    "Verif.Sim.C49_illustris_full_false",
    "Verif.Sim.C49_universemachine_numbers",
    "Verif.Sim.C49_universemachine_partial",
    "Verif.Sim.C49_universemachine_full_false"
   ],
   "note": "Both download_meta methods are right for servers that list snapshots in order and wrong for others."
  },
  {
   "property": "C50",
   "status": "partial",
   "theorems": [
    "Verif.Handler.C50_reopen_partial",
    "Verif.Handler.C50_full_false"
   ],
   "note": "False: delete then write of a loaded property leaves an unreadable file (C50_full_false)."
  },
  {
   "property": "C51",
   "status": "proved",
   "theorems": [
    "Verif.Handler.C51_written_persists"
   ],
   "note": ""
  },
  {
   "property": "C52",
   "status": "partial",
   "theorems": [
    "Verif.LC.C52_partial",
    "Verif.LC.C52_loses",
    "Verif.LC.C52_full_false"
   ],
   "note": "False whenever a mass cut lies between the minimum mass and the minimum mass divided by h (C52_loses)."
  },
  {
   "property": "C53",
   "status": "proved",
   "theorems": [
    "Verif.SimAll.C53_written",
    "Verif.SimAll.C53_prefix",
    "Verif.SimAll.C53_rowwise"
   ],
   "note": "C53_prefix also describes failures: the snapshots before the failing one are completely written, the others untouched."
  },
  {
   "property": "C54",
   "status": "partial",
   "theorems": [
    "Verif.SimAll.C54_never",
    "Verif.SimAll.C54_full_false",
    "Verif.SimAll.C54_initialize_partial",
    "Verif.SimAll.C54_twice"
   ],
   "note": "init_snaps=True always raises TypeError (C54_never); calling initialize_all_snaps afterwards does what was asked for."
  },
  {
   "property": "C55",
   "status": "partial",
   "theorems": [
    "Verif.Format.C55_alike_partial",
    "Verif.Format.C55_simulations",
    "Verif.Format.C55_full_false"
   ],
   "note": "Proved for the tables of all simulations (C55_simulations) and all tables whose fields do not begin with a column called none...; for others fields are lost in snapshots added later (C55_full_false)."
  },
  {
   "property": "C56",
   "status": "partial",
   "theorems": [
    "Verif.Map.C56_roundtrip_partial",
    "Verif.Map.C56_other_name_fails",
    "Verif.Map.C56_added_property_fails",
    "Verif.Map.C56_full_false"
   ],
   "note": "Proved for names ending in .npz and one unit per property; false otherwise."
  },
  {
   "property": "C57",
   "status": "partial",
   "theorems": [
    "Verif.Map.C57_no_overwrite_partial",
    "Verif.Map.C57_refused",
    "Verif.Map.C57_other_name_replaces",
    "Verif.Map.C57_full_false"
   ],
   "note": "Proved for names ending in .npz; any other name bypasses the check (C57_other_name_replaces)."
  },
  {
   "property": "C58",
   "status": "partial",
   "theorems": [
    "Verif.Map.C58_partial",
    "Verif.Map.C58_always_wrong",
    "Verif.Map.C58_full_false"
   ],
   "note": "Right in place or for all axes; a new grid is labelled as Fourier along every axis, wrong for every map and every axis not chosen."
  },
  {
   "property": "C59",
   "status": "partial",
   "theorems": [
    "Verif.Map.C59_fourier_axes_partial",
    "Verif.Map.C59_fourier_edges_wrong",
    "Verif.Map.C59_full_false"
   ],
   "note": "False for every grid: the inner Fourier edges are the cell centres (C59_fourier_edges_wrong). Proved: centres are the DFT frequencies, outer edges are right."
  },
  {
   "property": "C60",
   "status": "partial",
   "theorems": [
    "Verif.Map.C60_history_partial",
    "Verif.Map.C60_failed_crop_breaks",
    "Verif.Map.C60_full_false"
   ],
   "note": "Proved for histories of successful calls on float grids; a crop that raises leaves the grid inconsistent."
  },
  {
   "property": "C61",
   "status": "partial",
   "theorems": [
    "Verif.Map.C61_scale_partial",
    "Verif.Map.C61_single_axis_fails",
    "Verif.Map.C61_reversed_axes_swapped",
    "Verif.Map.C61_fixed_center_fails",
    "Verif.Map.C61_full_false"
   ],
   "note": "Proved where factor[ax[j]] is the factor for ax[j]; false otherwise."
  },
  {
   "property": "C62",
   "status": "partial",
   "theorems": [
    "Verif.Map.C62_with_data_fails",
    "Verif.Map.C62_one_factor_fails",
    "Verif.Map.C62_without_data_wrong",
    "Verif.Map.C62_full_false"
   ],
   "note": "False for every map: down_sample fails on every map with data and for every single factor; without data the result is not a well-formed grid."
  },
  {
   "property": "C63",
   "status": "proved",
   "theorems": [
    "Verif.Map.C63_value",
    "Verif.Map.C23_one_axis_at_a_time"
   ],
   "note": "Normalised forward transforms of one axis; several axes by C23_one_axis_at_a_time."
  },
  {
   "property": "C64",
   "status": "partial",
   "theorems": [
    "Verif.Map.C64_partial",
    "Verif.Map.C64_always_wrong",
    "Verif.Map.C64_full_false"
   ],
   "note": "Wrong whenever a map with one property is crossed with a map with several."
  },
  {
   "property": "C65",
   "status": "partial",
   "theorems": [
    "Verif.Map.C65_partial",
    "Verif.Map.C65_mixed_wrong",
    "Verif.Map.C65_full_false"
   ],
   "note": "Right if all axes are in the same space; wrong for every other axis in the other space."
  },
  {
   "property": "C66",
   "status": "partial",
   "theorems": [
    "Verif.LC.C66_iff",
    "Verif.LC.C66_buffer_partial",
    "Verif.LC.C66_full_false"
   ],
   "note": "Exactly the images that fit into the box of their slice are included (C66_iff); the code's buffer is too small for some accepted lines of sight (C66_full_false)."
  },
  {
   "property": "C67",
   "status": "partial",
   "theorems": [
    "Verif.LC.C67_room_partial",
    "Verif.LC.C67_flags_kept",
    "Verif.LC.C67_full_false"
   ],
   "note": "The flags of the two tests are not reset for a new draw, so that a direction need not pass both."
  },
  {
   "property": "C68",
   "status": "partial",
   "theorems": [
    "Verif.LC.C68_partial",
    "Verif.LC.C68_touching_fails",
    "Verif.LC.C68_boundary_fails",
    "Verif.LC.C68_full_false"
   ],
   "note": "Fails for every request that begins or ends where the range of a snapshot does."
  },
  {
   "property": "C69",
   "status": "partial",
   "theorems": [
    "Verif.LC.C69_list_partial",
    "Verif.LC.C69_rest_kept",
    "Verif.LC.C69_stale",
    "Verif.LC.C69_full_false"
   ],
   "note": "Files with higher numbers of an earlier build stay and are listed with the new ones."
  },
  {
   "property": "C70",
   "status": "proved",
   "theorems": [
    "Verif.LC.C70_direction"
   ],
   "note": "Over the reals with the functions of numpy; objects exactly at the observer (NaN in the code) excluded."
  },
  {
   "property": "C71",
   "status": "partial",
   "theorems": [
    "Verif.LC.C71_never",
    "Verif.LC.C71_zeros"
   ],
   "note": "The property is false: the files of light spheres have no transformation matrices, so every call that would add a vector raises KeyError after creating datasets of zeros. C71_zeros shows that nothing else changes."
  },
  {
   "property": "C72",
   "status": "partial",
   "theorems": [
    "Verif.LC.C72_left",
    "Verif.LC.C72_kept_partial",
    "Verif.LC.C72_full_false"
   ],
   "note": "The folder of a new set is made before mode, redshifts and size are checked: the name is in use after a refusal. Existing sets and other names are never changed."
  },
  {
   "property": "C73",
   "status": "partial",
   "theorems": [
    "Verif.LCH.C73_keywords_partial",
    "Verif.LCH.C73_dictionary_changed",
    "Verif.LCH.C73_next_call_fails",
    "Verif.LCH.C73_full_false"
   ],
   "note": "Requested values and other keywords are passed in every bin; keywords zmin and zmax of the caller only in the first; the dictionary is changed in place, so that the volume of the last bin reaches the next call."
  },
  {
   "property": "C74",
   "status": "partial",
   "theorems": [
    "Verif.LCH.C74_consistent_partial",
    "Verif.LCH.C74_accepts_partial",
    "Verif.LCH.C74_sphere_never",
    "Verif.LCH.C74_shape_ignored",
    "Verif.LCH.C74_full_false"
   ],
   "note": "Numbers are compared, the shape is not; light spheres are never accepted."
  },
  {
   "property": "C75",
   "status": "partial",
   "theorems": [
    "Verif.Inst.C75_pair_partial",
    "Verif.Inst.C75_integer_fails",
    "Verif.Inst.C75_full_false"
   ],
   "note": "One number per axis works; a whole number always fails."
  },
  {
   "property": "C76",
   "status": "partial",
   "theorems": [
    "Verif.Inst.C76_added_partial",
    "Verif.Inst.C76_set",
    "Verif.Inst.C76_set_iff",
    "Verif.Inst.C76_default",
    "Verif.Inst.C76_defaults"
   ],
   "note": "Proved for every name but 'instrument', see C41_instrument_added."
  },
  {
   "property": "C77",
   "status": "partial",
   "theorems": [
    "Verif.SimAll.C77_make_partial",
    "Verif.SimAll.C77_delete_partial",
    "Verif.SimAll.C77_memory_replaced",
    "Verif.SimAll.C77_full_false"
   ],
   "note": "Only the first snapshot is checked; holds for properties of the first snapshot and for snapshots with the same own properties. With held snapshots a refused overwrite has replaced the property in memory (C77_memory_replaced)."
  },
  {
   "property": "C78",
   "status": "partial",
   "theorems": [
    "Verif.SimAll.C78_stuck",
    "Verif.SimAll.C78_full_false"
   ],
   "note": "False: the snapshots before the failing one keep the property (C53_prefix) and the repeated call is refused for every function (C78_stuck)."
  },
  {
   "property": "C79",
   "status": "partial",
   "theorems": [
    "Verif.SimAll.C79_initialised_partial",
    "Verif.SimAll.C79_not_initialised",
    "Verif.SimAll.C79_full_false"
   ],
   "note": "Holds in every history once the snapshots are initialised; before, snapshots never use h units."
  },
  {
   "property": "C80",
   "status": "partial",
   "theorems": [
    "Verif.SimAll.C80_all_snapshots",
    "Verif.SimAll.C80_listed_partial",
    "Verif.SimAll.C80_other_snapshot",
    "Verif.SimAll.C80_full_false"
   ],
   "note": "The list is used as positions, not snapshot numbers; correct where both agree, and for all snapshots."
  },
  {
   "property": "C81",
   "status": "proved",
   "theorems": [
    "Verif.SimAll.C81_handler",
    "Verif.SimAll.C81_deleted"
   ],
   "note": ""
  },
  {
   "property": "C82",
   "status": "proved",
   "theorems": [
    "Verif.SimAll.C82_restricted",
    "Verif.SimAll.C82_refused"
   ],
   "note": ""
  },
  {
   "property": "C83",
   "status": "partial",
   "theorems": [
    "Verif.SimAll.C83_inverse",
    "Verif.SimAll.C83_units_partial",
    "Verif.SimAll.C83_full_false"
   ],
   "note": "The inverse of the number is returned, for every volume."
  },
  {
   "property": "C84",
   "status": "partial",
   "theorems": [
    "Verif.Load.C84_values",
    "Verif.Load.C84_inside_iff",
    "Verif.Load.C84_full_false"
   ],
   "note": "Halos and values proved; positions are not wrapped into the box, because the result of the modulo operation is discarded (C84_inside_iff)."
  },
  {
   "property": "C85",
   "status": "proved",
   "theorems": [
    "Verif.Load.C85_values",
    "Verif.Load.C85_accepted",
    "Verif.Format.C85_table"
   ],
   "note": ""
  },
  {
   "property": "C86",
   "status": "proved",
   "theorems": [
    "Verif.AM.C86_catalogue",
    "Verif.AM.C86_distributions"
   ],
   "note": "For single numbers; quantile and cumulative fraction of the distribution are assumed inverse to each other."
  },
  {
   "property": "C87",
   "status": "partial",
   "theorems": [
    "Verif.AM.C87_catalogue_partial",
    "Verif.AM.C87_back_partial",
    "Verif.AM.C87_empty_range",
    "Verif.AM.C87_options_ignored",
    "Verif.AM.C87_wrong_option",
    "Verif.AM.C87_distributions_false",
    "Verif.AM.C87_full_false"
   ],
   "note": "Holds for a catalogue if a part is missing on that side; with the default missing fractions the options have no effect, and am_dfdf uses the option of the wrong property. If the first distribution has no counts between its limits, am_dfdf gives NaN for a number and zero for the same number in an array (C87_empty_range)."
  },
  {
   "property": "C88",
   "status": "partial",
   "theorems": [
    "Verif.Gal.C88_duty_partial",
    "Verif.Gal.C88_alone",
    "Verif.Gal.C88_duty_interpolated",
    "Verif.Gal.C88_full_false"
   ],
   "note": "Proved for all models that do not use f_duty, and for f_duty with up to 100 galaxies or galaxies all at one redshift. False for more galaxies: ages are interpolated between 50 redshifts that depend on the other galaxies."
  },
  {
   "property": "C89",
   "status": "partial",
   "theorems": [
    "Verif.Gal.C89_delooze_partial",
    "Verif.Gal.C89_comp_agn",
    "Verif.Gal.C89_fir_partial",
    "Verif.Gal.C89_silicon",
    "Verif.Gal.C89_schaerer",
    "Verif.Gal.C89_kamenetzky",
    "Verif.Gal.C89_yang_partial",
    "Verif.Gal.C89_yang_ci",
    "Verif.Gal.C89_yang_co_number",
    "Verif.Gal.C89_yang_cii_number",
    "Verif.Gal.C89_full_false"
   ],
   "note": "The documented options that work are proved to work, and the others proved never to work: set comp/agn of delooze14, lines [SiIII]33um and [SiIII]19um of uzgil14 and spinoglio12, every line of kamenetzky16, CI1-0 and CI2-1 of yang22, CO of yang22 for a single redshift, CII of yang22 for a single halo with duty cycle unless scatter has the model's own width."
  },
  {
   "property": "C90",
   "status": "partial",
   "theorems": [
    "Verif.Gal.C90_one_each_partial",
    "Verif.Gal.C90_redshifts_refused",
    "Verif.Gal.C90_one_redshift",
    "Verif.Gal.C90_exception_returned",
    "Verif.Gal.C90_full_false"
   ],
   "note": "Proved for all functions except sfr and stellarmass of sfr_behroozi13 before the set-up, which return an exception object."
  },
  {
   "property": "C91",
   "status": "partial",
   "theorems": [
    "Verif.LF.C91_count",
    "Verif.LF.C91_cumulative",
    "Verif.LF.C91_node",
    "Verif.LF.C91_quantile_one_less",
    "Verif.LF.C91_quantile_partial",
    "Verif.LF.C91_quantiles_increase",
    "Verif.LF.C91_quantile_ends",
    "Verif.LF.C91_parameters",
    "Verif.LF.C91_full_false"
   ],
   "note": "Numbers and cumulative fractions of every positive function agree and the cumulative distribution never decreases; the quantiles increase and bracket the value. False: the quantile of the cumulative fraction of a value of the table is the value before it, for every positive function (C91_quantile_one_less). Logarithms are real functions with the laws of logarithms; rounding is left out."
  },
  {
   "property": "C92",
   "status": "partial",
   "theorems": [
    "Verif.LF.C92_gamma",
    "Verif.LF.C92_count_partial",
    "Verif.LF.C92_count_below",
    "Verif.LF.C92_lum",
    "Verif.LF.C92_single",
    "Verif.LF.C92_arrays_partial",
    "Verif.LF.C92_arrays_fail",
    "Verif.LF.C92_cumulative",
    "Verif.LF.C92_quantile_table",
    "Verif.LF.C92_quantile_partial",
    "Verif.LF.C92_quantile_ends",
    "Verif.LF.C92_parameters",
    "Verif.LF.C92_full_false"
   ],
   "note": "The recursion equals the integral for every real slope, so counts, cumulative fractions of single values and quantiles at the values of the table are right. False: a number below the lower limit has count one (C92_count_below), and every array of two or more values inside the support raises an exception (C92_arrays_fail). scipy's special functions are assumed to equal their integrals."
  },
  {
   "property": "C93",
   "status": "partial",
   "theorems": [
    "Verif.LF.C93_single",
    "Verif.LF.C93_total",
    "Verif.LF.C93_interval_partial",
    "Verif.LF.C93_table",
    "Verif.LF.C93_full_false"
   ],
   "note": "Tabulated densities add up to one per unit of the logarithm (C93_table). The density of a Schechter function is not divided by its norm: its integral is the number of objects (C93_total), and its integral up to a value is that number times the cumulative fraction (C93_interval_partial)."
  },
  {
   "property": "C94",
   "status": "partial",
   "theorems": [
    "Verif.Rel.C94_accepted",
    "Verif.Rel.C94_abundance_partial",
    "Verif.Rel.C94_numbers",
    "Verif.Rel.C94_table_numbers",
    "Verif.Rel.C94_made",
    "Verif.Rel.C94_infrared_fair",
    "Verif.Rel.C94_schechter_fair",
    "Verif.Rel.C94_heaviest_zero",
    "Verif.Rel.C94_unmatched_nan",
    "Verif.Rel.C94_heaviest_loses",
    "Verif.Rel.C94_outside",
    "Verif.Rel.C94_between",
    "Verif.Rel.C94_full_false"
   ],
   "note": "False as stated: the table is zero from the heaviest halo of a snapshot on, so that the heaviest halo gets less than a lighter one in every simulation, and NaN for halos that have more heavier halos than there are galaxies. Proved: between the halos of a catalogue the table holds the value that as many galaxies exceed as there are heavier halos; tables are made and hold numbers for every usable simulation; the two luminosity functions meet the hypotheses."
  },
  {
   "property": "C95",
   "status": "partial",
   "theorems": [
    "Verif.Rel.C95_lf_ignored",
    "Verif.Rel.C95_pars_ignored",
    "Verif.Rel.C95_pars_partial",
    "Verif.Rel.C95_cache",
    "Verif.Rel.C95_remake_without_comp",
    "Verif.Rel.C95_uninitialised",
    "Verif.Rel.C95_auto_needs_zero",
    "Verif.Rel.C95_auto_partial",
    "Verif.Rel.C95_invalid_partial",
    "Verif.Rel.C95_breaks",
    "Verif.Rel.C95_sfr",
    "Verif.Rel.C95_full_false"
   ],
   "note": "False as stated: lf_alpha0, lf_sigma0, lf_lstar0 and lf_phistar0 never change the relation, and get_irlf_pars of an object ignores them; existing files are used whatever else is asked for, also if it is invalid; remake works without comp although documented as ignored; auto needs a snapshot 0. Proved: what auto stands for, refusal of invalid properties when the table is made, no relation without files and the agreement of the formulas where they meet."
  },
  {
   "property": "C96",
   "status": "partial",
   "theorems": [
    "Verif.Rel.C96_first_partial",
    "Verif.Rel.C96_repeat",
    "Verif.Rel.C96_mixed",
    "Verif.Rel.C96_mixed_values",
    "Verif.Rel.C96_refused",
    "Verif.Rel.C96_full_false"
   ],
   "note": "False as stated: an interrupted remake leaves the new halo axis with the old table, which later objects load and whose values belong to other masses; if the number of snapshots has changed, later objects fail. Proved: an interrupted first construction leaves nothing that is taken for a table, and making the table again repairs every interruption."
  },
  {
   "property": "C97",
   "status": "partial",
   "theorems": [
    "Verif.Map.C97_given_region",
    "Verif.Map.C97_default_region",
    "Verif.Map.C97_default_partial",
    "Verif.Map.C97_extreme_objects_lost",
    "Verif.Map.C97_flat_axis_fails",
    "Verif.Map.C97_integer_positions_fail",
    "Verif.Map.C97_empty_refused",
    "Verif.Map.C97_lengths_refused",
    "Verif.Map.C97_counts",
    "Verif.Map.C97_columns",
    "Verif.Map.C97_order",
    "Verif.Map.C97_full_false"
   ],
   "note": "For a given region and for the default region every cell has the sum over the objects in it (C97_given_region, C97_default_region). False as stated: if the side length exceeds a whole number of pixels by at most a twentieth, the grid is smaller than the catalogue and the objects at the smallest and largest coordinate are lost, although the region was enlarged to contain them (C97_extreme_objects_lost); catalogues in which all objects have the same coordinate on an axis, and catalogues of integers, always fail. C97_default_partial says when every object is in the grid."
  },
  {
   "property": "C98",
   "status": "partial",
   "theorems": [
    "Verif.Map.C98_axes_partial",
    "Verif.Map.C98_regular_partial",
    "Verif.Map.C98_uneven_refused",
    "Verif.Map.C98_one_cell_fails",
    "Verif.Map.C98_one_edge_fails",
    "Verif.Map.C98_tiny_steps",
    "Verif.Map.C98_function_partial",
    "Verif.Map.C98_function_one_property",
    "Verif.Map.C98_function_shape",
    "Verif.Map.C98_one_pixel_too_many",
    "Verif.Map.C98_function_refused",
    "Verif.Map.C98_full_false"
   ],
   "note": "With exact numbers the axes, centres and function values are the given ones (C98_axes_partial, C98_function_partial). False with floating point numbers: the number of pixels is computed again without the rounding that Grid uses, so that seven equal cells from 0 to 17 give eight pixels for every rounding to nearest (C98_one_pixel_too_many), and a function is refused. Also false: a grid with one cell along an axis cannot be made, more than one property cannot be used with a function, and unequal steps of at most 5e-9 are silently replaced by equal ones. The rounding of the edges themselves is left out."
  },
  {
   "property": "C99",
   "status": "partial",
   "theorems": [
    "Verif.HGrid.C99_cells",
    "Verif.HGrid.C99_default",
    "Verif.HGrid.C99_selection",
    "Verif.HGrid.C99_units",
    "Verif.HGrid.C99_empty_refused",
    "Verif.HGrid.C99_names_needed",
    "Verif.HGrid.C99_limits_refused",
    "Verif.HGrid.C99_face_lost",
    "Verif.HGrid.C99_full_false"
   ],
   "note": "Cells, totals, selections and units are right for all halos inside the limits, and with the defaults the grid has 100 cells on each axis from 0 to the box length. False as stated: halos on an upper face of the box are lost (C99_face_lost)."
  },
  {
   "property": "C100",
   "status": "partial",
   "theorems": [
    "Verif.HGrid.C100_cells",
    "Verif.HGrid.C100_default",
    "Verif.HGrid.C100_inside_partial",
    "Verif.HGrid.C100_edge_lost",
    "Verif.HGrid.C100_circle_lost",
    "Verif.HGrid.C100_sphere_fails",
    "Verif.HGrid.C100_empty_refused",
    "Verif.HGrid.C100_full_false"
   ],
   "note": "Cells and totals are right for all objects inside the limits, also on frequency axes (C100_cells, C100_inside_partial). False as stated: objects at the maximum redshift (at the minimum redshift with frequencies) are lost; for round lightcones with an aspect ratio below one, which does not change the shape but is stored, all objects further from the axis in declination are lost (C100_circle_lost); light spheres raise AttributeError without limits in both angles."
  },
  {
   "property": "C101",
   "status": "partial",
   "theorems": [
    "Verif.Map.C101_width",
    "Verif.Map.C101_cells",
    "Verif.Map.C101_area",
    "Verif.Map.C101_symmetric",
    "Verif.Map.C101_peak_even",
    "Verif.Map.C101_peak_partial",
    "Verif.Map.C101_refused",
    "Verif.Map.C101_coarse_fails",
    "Verif.Map.C101_full_false"
   ],
   "note": "Values, normalisation to area, symmetry and refusals are proved for all arguments. False as stated: with norm 'peak' the greatest value is less than one whenever an axis has an even number of cells (C101_peak_even), as with the default side and a pixel that divides three widths; a default side of at most 1.05 pixels fails."
  },
  {
   "property": "C102",
   "status": "partial",
   "theorems": [
    "Verif.Map.C102_cells",
    "Verif.Map.C102_slices",
    "Verif.Map.C102_labelled_partial",
    "Verif.Map.C102_descending_fails",
    "Verif.Map.C102_side_fails",
    "Verif.Map.C102_edges_fail",
    "Verif.Map.C102_one_channel_fails",
    "Verif.Map.C102_uneven_refused",
    "Verif.Map.C102_uneven_accepted",
    "Verif.Map.C102_full_false"
   ],
   "note": "Values and the normalisation of each channel are proved for all arguments, and for ascending frequencies that the widths belong to the labels. False as stated: for descending frequencies the order of the widths is opposite to that of the labels; the default side is three instead of six widths, whatever the exponent; the edges of the spectral axis are its centres; one channel raises IndexError; uneven frequencies with the extent of even ones are accepted."
  },
  {
   "property": "C103",
   "status": "partial",
   "theorems": [
    "Verif.Map.C103_values_partial",
    "Verif.Map.C103_padding",
    "Verif.Map.C103_response",
    "Verif.Map.C103_centre_partial",
    "Verif.Map.C103_total",
    "Verif.Map.C103_new_partial",
    "Verif.Map.C103_channels",
    "Verif.Map.C103_channels_new",
    "Verif.Map.C103_refused",
    "Verif.Map.C103_list_fails",
    "Verif.Map.C103_list_leaves",
    "Verif.Map.C103_padded_axis_fails",
    "Verif.Map.C103_other_axis_fails",
    "Verif.Map.C103_property_chosen",
    "Verif.Map.C103_properties_fail",
    "Verif.Map.C103_even_fails",
    "Verif.Map.C103_full_false"
   ],
   "note": "Proved for every size: along the first axes each cell is the sum of what arrives, padding makes no difference and is removed, a point becomes the source around it, totals multiply, the copy has the same values, refused requests change nothing; a source with the channels of the grid on its last axes smears each channel with its own source (C103_channels). False in full: a source with an even number of cells (the usual size of PSF) puts the response half a cell too high along that axis (C103_even_fails, C103_centre_partial); a source of one axis cannot be used along another axis than the first unless the sizes happen to agree, and with padding never (C103_other_axis_fails, C103_padded_axis_fails); a list as padding raises only after the map was convolved and leaves the padding (C103_list_leaves); different numbers of properties raise but leave the padding (C103_properties_fail); a map of one property silently uses the middle property of a source with several (C103_property_chosen)."
  },
  {
   "property": "C104",
   "status": "partial",
   "theorems": [
    "Verif.Inst.C104_beam",
    "Verif.Inst.C104_beam_width",
    "Verif.Inst.C104_scaling",
    "Verif.Inst.C104_reference",
    "Verif.Inst.C104_typical_partial",
    "Verif.Inst.C104_default_grows",
    "Verif.Inst.C104_refused",
    "Verif.Inst.C104_spectral_gauss",
    "Verif.Inst.C104_boxcar",
    "Verif.Inst.C104_box_width_partial",
    "Verif.Inst.C104_box_one_more",
    "Verif.Inst.C104_touching_boxes",
    "Verif.Inst.C104_noise",
    "Verif.Inst.C104_noise_time",
    "Verif.Inst.C104_noise_blocks",
    "Verif.Inst.C104_noise_refused",
    "Verif.Inst.C104_noise_unseeded",
    "Verif.Inst.C104_noise_no_time",
    "Verif.Inst.C104_no_noise",
    "Verif.Inst.C104_box_false",
    "Verif.Inst.C104_full_false"
   ],
   "note": "Profiles, documented scaling, heights, noise levels, blocks and refusals are proved for all arguments. False in full: the default exponent -1 of gauss_psf_freq_dependent, documented as correct for a typical beam over frequencies, makes the beam wider at higher frequency (C104_default_grows; C104_typical_partial is for exponent 1); a box whose ends are at channel centres counts one channel too many, and boxes that touch both count the channel between them (C104_box_one_more, C104_touching_boxes); a time step that is not positive is accepted and gives no finite value (C104_noise_no_time)."
  },
  {
   "property": "C105",
   "status": "partial",
   "theorems": [
    "Verif.Map.C105_values",
    "Verif.Map.C105_point",
    "Verif.Map.C105_centred_partial",
    "Verif.Map.C105_sides_partial",
    "Verif.Map.C105_uniform",
    "Verif.Map.C105_padding",
    "Verif.Map.C105_linear",
    "Verif.Map.C105_default",
    "Verif.Map.C105_refused",
    "Verif.Map.C105_even_fails",
    "Verif.Map.C105_full_false"
   ],
   "note": "Values, points, uniform fields, sums, padding, default kernels and refusals are proved for all fields, responses and kernels of at least two cells. False in full: a kernel with an even number of cells puts the image half a cell too high, for every response with equal sides (C105_even_fails; the _partial theorems are for odd numbers, which the default always gives). A whole number as kernel size, as documented, raises TypeError, and a kernel of one cell along an axis always fails (C105_refused). Assumed: divisors are not zero, the grid is of floats."
  },
  {
   "property": "C106",
   "status": "partial",
   "theorems": [
    "Verif.Raw.C106_um",
    "Verif.Raw.C106_um_redownload",
    "Verif.Raw.C106_um_repeat",
    "Verif.Raw.C106_um_kept",
    "Verif.Raw.C106_um_crash_partial",
    "Verif.Raw.C106_um_crash_fails",
    "Verif.Raw.C106_um_redownload_crash_fails",
    "Verif.Raw.C106_uchuu_place_partial",
    "Verif.Raw.C106_uchuu_partial",
    "Verif.Raw.C106_uchuu_repeat",
    "Verif.Raw.C106_uchuu_kept",
    "Verif.Raw.C106_uchuu_redownload",
    "Verif.Raw.C106_uchuu_crash_partial",
    "Verif.Raw.C106_uchuu_elsewhere",
    "Verif.Raw.C106_uchuu_missing_fails",
    "Verif.Raw.C106_ill_redownload_fails",
    "Verif.Raw.C106_ill_skip_fails",
    "Verif.Raw.C106_ill_complete_partial",
    "Verif.Raw.C106_ill_unchecked",
    "Verif.Raw.C106_ill_found",
    "Verif.Raw.C106_ill_read",
    "Verif.Raw.C106_ill_missing",
    "Verif.Raw.C106_ill_never_read",
    "Verif.Raw.C106_full_false"
   ],
   "note": "Completeness, repetition, replacement and the safety of existing files are proved for all lists of snapshots and disks. False in full: interrupted within a file, this file is taken for complete by every later call (C106_um_crash_fails; the _partial theorems are for interruptions between files); with UM-Uchuu all data files but the first are stored elsewhere if the path of the simulation contains 'data1' (C106_uchuu_elsewhere, C106_uchuu_missing_fails); with Illustris a snapshot is left out as soon as its first file exists, existing files are never replaced even with redownload, and without metadata nothing is checked."
  },
  {
   "property": "C107",
   "status": "partial",
   "theorems": [
    "Verif.Raw.C107_asked",
    "Verif.Raw.C107_removes_partial",
    "Verif.Raw.C107_kept_partial",
    "Verif.Raw.C107_space_fails",
    "Verif.Raw.C107_space_left",
    "Verif.Raw.C107_um_partial",
    "Verif.Raw.C107_uchuu_partial",
    "Verif.Raw.C107_uchuu_used_partial",
    "Verif.Raw.C107_uchuu_twelfth_fails",
    "Verif.Raw.C107_ill_partial",
    "Verif.Raw.C107_full_false"
   ],
   "note": "For absolute paths of letters, digits and / . _ - the deletions are exactly those stated. False in full: the path is passed to the shell without quotes, so that for every path with a space the folder named by the part before the space is deleted with everything in it, and the raw data are kept (C107_space_fails, C107_space_left); with UM-Uchuu the twelfth data file is never deleted while formatting (C107_uchuu_twelfth_fails). Other characters with a meaning to the shell are not modelled."
  },
  {
   "property": "C108",
   "status": "partial",
   "theorems": [
    "Verif.Raw.C108_snaps",
    "Verif.Raw.C108_without",
    "Verif.Raw.C108_downloaded",
    "Verif.Raw.C108_no_snapshots",
    "Verif.Raw.C108_stale_fails",
    "Verif.Raw.C108_crash_partial",
    "Verif.Raw.C108_crash_fails",
    "Verif.Raw.C108_repair",
    "Verif.Raw.C108_um_report",
    "Verif.Raw.C108_uchuu_report_partial",
    "Verif.Raw.C108_uchuu_report_fails",
    "Verif.Raw.C108_full_false"
   ],
   "note": "Snapshots, metadata and reports are proved for all requests. False in full: an interruption anywhere between the first and the last step of saving the metadata makes every later attempt to open a catalogue raise, and download_meta() does nothing because the first file exists (C108_crash_fails; only an object that is still in use can repair it, C108_repair); metadata saved for fewer snapshots are never completed by download_meta() (C108_stale_fails)."
  },
  {
   "property": "C109",
   "status": "partial",
   "theorems": [
    "Verif.Beh.C109_made",
    "Verif.Beh.C109_nodes",
    "Verif.Beh.C109_between",
    "Verif.Beh.C109_outside",
    "Verif.Beh.C109_range",
    "Verif.Beh.C109_incomplete",
    "Verif.Beh.C109_no_value",
    "Verif.Beh.C109_first",
    "Verif.Beh.C109_before_setup",
    "Verif.Beh.C109_interrupted_fails",
    "Verif.Beh.C109_interrupted_partial",
    "Verif.Beh.C109_full_false"
   ],
   "note": "The values are proved for all tables that can be used, all redshifts and all masses. False in full: the files are written one after the other and only the first of them is looked for, so that an interruption of the first import after the first file is opened and before the last one is complete makes every later `import simim` raise, and nothing is ever written again (C109_interrupted_fails)."
  },
  {
   "property": "C110",
   "status": "partial",
   "theorems": [
    "Verif.Ready.C110_values",
    "Verif.Ready.C110_make",
    "Verif.Ready.C110_missing",
    "Verif.Ready.C110_sled_fails",
    "Verif.Ready.C110_before_setup",
    "Verif.Ready.C110_full_false"
   ],
   "note": "Proved for every ready-made property but one, all states and selections. False in full: prop_co_sled can never be made, whatever the handler holds, because its function uses a variable (L_ir) that is assigned only later (C110_sled_fails); prop_pullen_co is exact only for at most 100 halos or equal redshifts, otherwise it uses interpolated ages (see C88); before setupsimim the two properties from tables return an exception as their value (C110_before_setup)."
  },
  {
   "property": "C111",
   "status": "partial",
   "theorems": [
    "Verif.Plot.C111_plot",
    "Verif.Plot.C111_possible",
    "Verif.Plot.C111_unknown",
    "Verif.Plot.C111_sequence",
    "Verif.Plot.C111_label_fails",
    "Verif.Plot.C111_argument_changed",
    "Verif.Plot.C111_hist",
    "Verif.Plot.C111_hist_possible",
    "Verif.Plot.C111_full_false"
   ],
   "note": "What is drawn is proved for every reachable state and selection, and that earlier calls have no influence although all calls share the default dictionary. False in full: the entries 'ls' and 'marker' are added to the dictionary of the caller (C111_argument_changed), and a 'label' (for comparisons also a 'color') in it, although documented to be passed on, raises a TypeError (C111_label_fails). Assumed of matplotlib: an artist is made from the arrays passed to it; values whose range is not finite cannot be binned."
  },
  {
   "property": "C112",
   "status": "partial",
   "theorems": [
    "Verif.Plot.C112_keys",
    "Verif.Plot.C112_lists_partial",
    "Verif.Plot.C112_delete_lists_mass_cuts",
    "Verif.Plot.C112_delete_stays",
    "Verif.Plot.C112_list_is_shared",
    "Verif.Plot.C112_saved_is_shared",
    "Verif.Plot.C112_full_false"
   ],
   "note": "Proved as an invariant of all sequences of calls without delete_property in which the names under which properties are made differ. False in full: after deleting, 'mass_cuts' is listed as a saved property (C112_delete_lists_mass_cuts), and a deleted property stays listed as loaded and generated (C112_delete_stays); the lists returned are the handler's own, so that a name appended by the user becomes a property whose value is None (C112_list_is_shared, C112_saved_is_shared)."
  },
  {
   "property": "C113",
   "status": "partial",
   "theorems": [
    "Verif.Pic.C113_view_partial",
    "Verif.Pic.C113_swapped",
    "Verif.Pic.C113_refused",
    "Verif.Pic.C113_fourier_labels",
    "Verif.Pic.C113_movie_partial",
    "Verif.Pic.C113_animate_refused",
    "Verif.Pic.C113_drawn_edges_wrong",
    "Verif.Pic.C113_movie_edges_wrong",
    "Verif.Pic.C113_late_axis_fails",
    "Verif.Pic.C113_still_fails",
    "Verif.Pic.C113_full_false"
   ],
   "note": "Proved for all regular grids: visualize is right when the axes are named in increasing order; animate shows in each frame the right sums if no axis before the slide axis is summed over. False in full: with the axes in decreasing order visualize raises, or, if they have equally many cells, shows a transposed image (C113_swapped); axes in Fourier space are labelled with positions (C113_fourier_labels); animate always draws the edges between cells half a cell too high, and its titles are the lower ends of the slides (C113_movie_edges_wrong); slides along the fourth or a later axis always raise (C113_late_axis_fails); still=True always raises at the end (C113_still_fails). Colours, logscale and the limits of the colour scale are not modelled."
  },
  {
   "property": "C114",
   "status": "partial",
   "theorems": [
    "Verif.Cone.C114_movie",
    "Verif.Cone.C114_once_partial",
    "Verif.Cone.C114_end_of_slide_lost",
    "Verif.Cone.C114_slide_width",
    "Verif.Cone.C114_default_units_wrong",
    "Verif.Cone.C114_titles_wrong",
    "Verif.Cone.C114_nothing_visible",
    "Verif.Cone.C114_sphere_fails",
    "Verif.Cone.C114_refused",
    "Verif.Cone.C114_full_false"
   ],
   "note": "What each frame shows is proved for all reachable handlers. Each halo strictly inside a slide, in units of Mpc/h, is visible in exactly one frame. False in full: with in_h_units=False (the default) positions in Mpc are compared with slides in Mpc/h, so that halos appear in wrong frames and those beyond h times the far end never (C114_default_units_wrong); a halo exactly at the end of a slide is never visible (C114_end_of_slide_lost); titles give the redshift at which the distance in Mpc has the value in Mpc/h, too low for h < 1 (C114_titles_wrong); a single value that is NaN (or not positive on the logarithmic scale), or equal values for all, make everything invisible (C114_nothing_visible); light spheres raise a KeyError (C114_sphere_fails)."
  },
  {
   "property": "C115",
   "status": "partial",
   "theorems": [
    "Verif.InstPlot.C115_reference",
    "Verif.InstPlot.C115_reference_rough",
    "Verif.InstPlot.C115_box_lower_end",
    "Verif.InstPlot.C115_narrow_unseen",
    "Verif.InstPlot.C115_narrow_box",
    "Verif.InstPlot.C115_upper_end",
    "Verif.InstPlot.C115_panels_partial",
    "Verif.InstPlot.C115_beam_partial",
    "Verif.InstPlot.C115_beam_exchanged",
    "Verif.InstPlot.C115_refused",
    "Verif.InstPlot.C115_spectra_fail",
    "Verif.InstPlot.C115_full_false"
   ],
   "note": "For every response with one maximum (strictly rising, then falling) between 10^-20 and 10^20 the search ends and finds its logarithm up to 1/1250 (C115_reference). False in full: the tolerance of 0.01 is not reached, since the search stops as soon as two rounds give the same point: an error of more than 10^7 near 10^11 (C115_reference_rough); a box gives its lower end (C115_box_lower_end); a response between two points of the first round gives NaN (C115_narrow_unseen, C115_narrow_box). plot_detector_response draws one panel for each detector with the documented ranges, but beams with the two positions exchanged (C115_panels_partial, C115_beam_exchanged; right for symmetric beams in square regions: C115_beam_partial). plot_spectral_response always raises (C115_spectra_fail)."
  },
  {
   "property": "C116",
   "status": "partial",
   "theorems": [
    "Verif.Map.C116_std_partial",
    "Verif.Map.C116_real_partial",
    "Verif.Map.C116_linear",
    "Verif.Map.C116_modes",
    "Verif.Map.C116_last_shell_lost",
    "Verif.Map.C116_single",
    "Verif.Map.C116_log_edges",
    "Verif.Map.C116_log_centre_lost",
    "Verif.Map.C116_complex_wrong",
    "Verif.Map.C116_full_false"
   ],
   "note": "Every shell but the last has the standard deviation of exactly its cells for maps of real numbers and integer weights (C116_std_partial, C116_real_partial: root of mean square minus squared mean, zero exactly if the cells are equal); a shell with one cell has no corrected one (C116_single). False in full: for complex data the squares themselves, not the squares of the absolute values, are averaged, so that the modes 1, i, -1, -i have the standard deviation 0 (C116_complex_wrong); the last shell is always lost (C116_last_shell_lost). Logarithmic shells leave out a cell at the centre (C116_log_centre_lost). Square roots, logarithms and powers are parameters; fractional weights as in C26."
  },
  {
   "property": "C117",
   "status": "partial",
   "theorems": [
    "Verif.Format.C117_opens",
    "Verif.Format.C117_read",
    "Verif.Format.C117_select",
    "Verif.Format.C117_all_partial",
    "Verif.Format.C117_missing",
    "Verif.Format.C117_empty_refused",
    "Verif.Format.C117_full_false"
   ],
   "note": "Reading back is proved for every snapshot that was formatted, through any history of runs and handler calls. False in full: the list of snapshots. A catalogue opened for some snapshots still has the saved metadata of all of them, and a new file gets all of that: the simulation then lists snapshots that are not in the file, getting one raises, and no operation on all snapshots succeeds (C117_missing). C117_all_partial has the case in which the metadata are those of the snapshots asked for."
  },
  {
   "property": "C118",
   "status": "partial",
   "theorems": [
    "Verif.LC.C118_objects",
    "Verif.LC.C118_sphere_partial",
    "Verif.LC.C118_considered_partial",
    "Verif.LC.C118_light_lost",
    "Verif.LC.C118_missing",
    "Verif.LC.C118_full_false"
   ],
   "note": "C118_objects is the composition of formatting, building and adding properties, for any history of formatting runs. False in full: if the catalogue had metadata of more snapshots than it was asked for (as in C117), building raises for every redshift range that includes one of them, after the files were created (C118_missing); and as in C52 halos above the minimum mass are lost if a mass cut lies between the minimum mass and the minimum mass divided by h (C118_light_lost). C118_considered_partial has the other case. C118_sphere_partial has the same for light spheres, with completeness: where the sphere fits into the box and no cut lies in between, every image in the shell and region of every raw halo at or above the minimum mass is an object, once."
  },
  {
   "property": "C119",
   "status": "partial",
   "theorems": [
    "Verif.LC.C119_opens",
    "Verif.LC.C119_read_partial",
    "Verif.LC.C119_raw",
    "Verif.LC.C119_unfinished",
    "Verif.LC.C119_absent",
    "Verif.LC.C119_zeros",
    "Verif.LC.C119_full_false"
   ],
   "note": "C119_opens holds for every state left by completed calls and one interrupted call; C119_raw is the composition with formatting (C118), from raw halos to what the handler shows. False in full: the handler does not look at the status flags, so after an interruption of add_properties it shows 0 for every object as the value of the new property, and repeating the call skips the property, marks the lightcone as complete and leaves the zeros (C119_zeros, for every call that would have completed)."
  },
  {
   "property": "C120",
   "status": "partial",
   "theorems": [
    "Verif.LC.C120_cells",
    "Verif.LC.C120_default",
    "Verif.LC.C120_complete_partial",
    "Verif.LC.C120_opened",
    "Verif.LC.C120_raw_partial",
    "Verif.LC.C120_lost",
    "Verif.LC.C120_volume",
    "Verif.LC.C120_full_false"
   ],
   "note": "C120_opened shows that every lightcone built (C119) has what the other theorems ask for (Shows); C120_raw_partial is the whole path from raw halos to the sum over the map. False in full: a circular lightcone made with an aspect ratio below one has objects above and below its default map, and objects of a rectangular lightcone exactly on the upper limits are lost (C120_lost); complete for circular lightcones with aspect ratio at least one (the default) and when nothing lies on the upper limits (for frequencies: no object exactly at the minimum redshift)."
  },
  {
   "property": "C121",
   "status": "partial",
   "theorems": [
    "Verif.LCI.C121_each",
    "Verif.LCI.C121_returns",
    "Verif.LCI.C121_raises",
    "Verif.LCI.C121_history",
    "Verif.LCI.C121_opens",
    "Verif.LCI.C121_values",
    "Verif.LCI.C121_numbers",
    "Verif.LCI.C121_evo_partial",
    "Verif.LCI.C121_evo_lost",
    "Verif.LCI.C121_full_false",
    "Verif.LCI.C121_evo_full_false"
   ],
   "note": "C121_each and C121_history hold for all sets of handlers and sequences of calls; C121_opens and C121_values are compositions with C119. False in full: a call that raises at one lightcone has already changed those before it (C121_raises; after an interruption of add_properties set_property_range restricts the first lightcones and raises at the first without the property), and keywords zmin and zmax that the user gives to eval_stat_evo reach only the first lightcone, because it removes them from the dictionary all lightcones share: the others are evaluated without them (C121_evo_lost, for all statistics and sets; C121_evo_partial otherwise). A number given twice is one lightcone but is counted twice in n_lcs; a single number that is not in a list is refused with a TypeError (C121_numbers)."
  },
  {
   "property": "C122",
   "status": "partial",
   "theorems": [
    "Verif.Load.C122_values",
    "Verif.Load.C122_truncated",
    "Verif.Load.C122_sfr_wrong",
    "Verif.Load.C122_sfr_large",
    "Verif.Load.C122_sfr_order",
    "Verif.Load.C122_full_false"
   ],
   "note": "Records are modelled byte by byte (offsets, alignment, two's complement, IEEE bits). False in full: the record type has an integer for 'sfr', which the file has as a float (the table of fields, line 154, and the type of the text catalogues, line 234, have a float), so the bits of the star formation rate are taken for an integer; the result is right only for zero, and every rate of at least 2^-126 is read as at least 8388608, though the order of the rates is kept. A file that was cut off is read without an error: the halos after the cut are missing (C122_truncated). That the files have a float there is taken from these two places, since no file is in the repository."
  },
  {
   "property": "C123",
   "status": "partial",
   "theorems": [
    "Verif.Load.C123_values_partial",
    "Verif.Load.C123_single",
    "Verif.Load.C123_wide",
    "Verif.Load.C123_cut",
    "Verif.Load.C123_cut_line",
    "Verif.Load.C123_cut_number",
    "Verif.Load.C123_full_false"
   ],
   "note": "np.loadtxt is modelled character by character for the arguments used (lines, comments, words, integers; reading a floating point number from a word is a parameter). False in full: a catalogue with exactly one halo raises a TypeError, because the array then has no dimension and len() fails (C123_single); a file cut off at the end of a line loses the other halos without an error (C123_cut_line), and one cut off in the last number of a line is read with the shortened number (C123_cut_number); C123_cut shows that nothing else can come from a cut. Identification numbers beyond 32 bits make the whole file unreadable, whatever is asked for (C123_wide), although binary catalogues have 64 bits for them."
  },
  {
   "property": "C124",
   "status": "partial",
   "theorems": [
    "Verif.Rel.C124_centre",
    "Verif.Rel.C124_between",
    "Verif.Rel.C124_outside",
    "Verif.Rel.C124_valid",
    "Verif.Rel.C124_made_partial",
    "Verif.Rel.C124_loses",
    "Verif.Rel.C124_full_false"
   ],
   "note": "Proved for all cosmologies and redshifts: the parameters at the published redshifts, between them and outside them, that they are always accepted by the Schechter function, and that the relation is then made for every simulation with the properties needed. False: heavier halos do not get less. For every choice of cosmologies there is a simulation in which the heaviest halo gets less stellar mass than a lighter one, because the relation gives 0 beyond the heaviest halo and interpolates towards it (as in C94). Decimal numbers are exact reals; distances and volumes are parameters that are positive at positive redshifts; scipy's special functions are a parameter with their defining equations."
  },
  {
   "property": "C125",
   "status": "partial",
   "theorems": [
    "Verif.Inst.C125_observed_partial",
    "Verif.Inst.C125_default",
    "Verif.Inst.C125_integer_fails",
    "Verif.Inst.C125_full_false"
   ],
   "note": "The composition of C39/C40 (bookkeeping), C105 (maps) and C20 (samples): the operations that are open in the model of the instrument are instantiated with those of the grids, and mapping and sampling are shown to succeed and to give the stated numbers. C125_default reduces the kernel used by default to one with 10 r + 1 cells. False in full: an array of integer positions is refused with a TypeError whenever some detector has an integer pointing offset, as all detectors have that were added without one (C125_integer_fails, for every instrument and sky). For kernels with even numbers of cells the beam is half a cell off (Reaches and away in the specification, see C105). The values of response and noise functions are parameters; nothing that is divided by vanishes."
  },
  {
   "property": "C126",
   "status": "partial",
   "theorems": [
    "Verif.LC.C126_iff",
    "Verif.LC.C126_almost_surely",
    "Verif.LC.C126_circle_partial",
    "Verif.LC.C126_square_fails",
    "Verif.LC.C126_wide_fails",
    "Verif.LC.C126_full_false"
   ],
   "note": "C126_iff is exact: a line of sight exists if and only if the radius of the circle around the cross section is below 15 degrees and the diagonal of the (copied) box exceeds twice the buffer by 10 Mpc/h; C126_almost_surely is about independent uniform draws (Lebesgue measure). Round lightcones below 30 degrees that fit into a box of at least 40 Mpc/h are all right (C126_circle_partial). False in full: LCMaker accepts requests up to side = box, but a square lightcone with a side above 0.86 of the box at its far end (and no copies of the box) never gets a line of sight, and neither does any lightcone with a radius of 15 to 60 degrees: build_lightcones then runs for ever. Real numbers instead of floating point ones; radii of 60 degrees and more are not treated."
  },
  {
   "property": "C127",
   "status": "partial",
   "theorems": [
    "Verif.Inst.C127_sky",
    "Verif.Inst.C127_seen",
    "Verif.Inst.C127_added",
    "Verif.Inst.C127_observed_partial",
    "Verif.Inst.C127_full_false"
   ],
   "note": "C127_sky: the map of one property of the opened lightcone is a sky with the sums of the values; C127_seen: the smeared and averaged sky in a cell is the sum over the objects; C127_observed_partial: the chain lcGrid, addField, mapFields, sampleFields succeeds and every detector records noise plus the objects' shares, for positions that are not integers (C125) and maps whose limits and pixel sizes are not all integers. False in full: maps of lightcones have no units, so that add_field only warns and takes them, whatever the units of the instrument (C127_added); an instrument in degrees reads the radians of the map as degrees (C127_full_false)."
  },
  {
   "property": "C128",
   "status": "partial",
   "theorems": [
    "Verif.Map.C128_units_partial",
    "Verif.Map.C128_iff",
    "Verif.Map.C128_without",
    "Verif.Map.C128_shorter",
    "Verif.Map.C128_cut",
    "Verif.Map.C128_none_kept",
    "Verif.Map.C128_never_longer",
    "Verif.Map.C128_swapped",
    "Verif.Map.C128_same",
    "Verif.Map.C128_full_false",
    "Verif.Inst.C128_refused"
   ],
   "note": "C128_units_partial: with room in the arrays of units, and in lists the unit of axis i at position i, the axes have the units asked for and everything else is as in C61; C128_iff: for one unit just then. Room: always for grids made without units (C128_without), else for units no longer than one the grid was made with (C128_shorter). False in full: units are kept in numpy arrays of texts with a fixed number of letters, so a longer unit is cut off without a message (C128_cut; 'rad' to 'arcmin' gives 'arc', 'm' to 'mm' gives 'm'), None becomes the text 'None' or a part of it (C128_none_kept), and no history of calls ever gives a longer unit (C128_never_longer). A converted map is then refused by the instrument in the new unit (C128_refused). Lists of units are indexed by the axis, so axes in reverse order get each other's units (C128_swapped)."
  },
  {
   "property": "C129",
   "status": "partial",
   "theorems": [
    "Verif.Format.C129_groups",
    "Verif.Format.C129_reads_partial",
    "Verif.Format.C129_opens_iff",
    "Verif.Format.C129_basic_only",
    "Verif.Format.C129_looks_complete",
    "Verif.Format.C129_spreads",
    "Verif.Format.C129_never_repaired",
    "Verif.Format.C129_remake",
    "Verif.Format.C129_full_false"
   ],
   "note": "C129_reads_partial (with C129_groups): after any history of calls, each cut off at any write, what a snapshot that opens shows is true: every property is one the call was to write, all in one order of the raw halos, right values and powers of h, whatever is done with the handler meanwhile. C129_opens_iff: a snapshot opens just if the masses are there and every dataset has both attributes. Completeness is false (C129_full_false): for every catalogue and every usable raw data there is a write after which the simulation and its snapshot open without complaint but have the basic properties only (C129_basic_only, C129_looks_complete); later calls without remake, overwriting or not, then write no further fields for any snapshot and end normally (C129_spreads, C129_never_repaired), because the fields to write are guessed from the first snapshot in the file; remake=True repairs it (C129_remake). Writes to the file are taken to reach the disk in program order, one dataset or attribute at a time."
  },
  {
   "property": "C130",
   "status": "partial",
   "theorems": [
    "Verif.Paths.C130_later_partial",
    "Verif.Paths.C130_view_partial",
    "Verif.Paths.C130_stale",
    "Verif.Paths.C130_unasked",
    "Verif.Paths.C130_old_root",
    "Verif.Paths.C130_root_confirmed",
    "Verif.Paths.C130_full_false"
   ],
   "note": "Turns last until the next access to a file; a line is appended as a whole (cut off writes are in C131). C130_later_partial: no registration is lost, for all schedules. C130_view_partial: a running session shows, for every name, what was current under its root at some moment since it last began to read. False in full: sessions read the files only once, so a running session does not see what others register (C130_stale, C130_full_false), two sessions replace each other's path without asking (C130_unasked, for every reachable state), and what a session registers after another has changed the data directory goes to the old one, where no later session looks (C130_old_root). A root is written only after confirmation and only if it exists (C130_root_confirmed)."
  },
  {
   "property": "C131",
   "status": "partial",
   "theorems": [
    "Verif.Paths.C131_iff_partial",
    "Verif.Paths.C131_complete",
    "Verif.Paths.C131_name_cut",
    "Verif.Paths.C131_path_cut",
    "Verif.Paths.C131_glued",
    "Verif.Paths.C131_glued_name",
    "Verif.Paths.C131_root",
    "Verif.Paths.C131_forever",
    "Verif.Paths.C131_full_false"
   ],
   "note": "C131_iff_partial says exactly which interruptions of a registration are harmless: before the first character, after the whole path, or if what was written of the path happens to be the old path. False in full: cut off in the name, no session can be begun any more (C131_name_cut: an IndexError in the constructor that every handler and catalogue uses), and no calls ever mend it unless a session is still running (C131_forever); cut off in the path, the name resolves to part of it (C131_path_cut), and the next registration is glued to the line and lost as well (C131_glued, C131_glued_name); interrupted while writing the root file, sessions cannot be begun or use a truncated data directory (C131_root)."
  },
  {
   "property": "C132",
   "status": "proved",
   "theorems": [
    "Verif.Inst.C132_added_iff",
    "Verif.Inst.C132_refused",
    "Verif.Inst.C132_sharp",
    "Verif.Inst.C132_suits",
    "Verif.Inst.C132_kernel"
   ],
   "note": "C132_added_iff says exactly when add_field takes a grid: it includes that several properties are only possible if the chosen one or the instrument has no unit, and that the index is compared with the number of axes (both in C42). C132_sharp holds with the checks off as well, C132_suits needs them on. C132_kernel: the size chosen for a beam is odd and at least 11 pixels. A field without units fits any instrument (see C127 for what that leads to); a grid added by reference can be changed from outside, which the documentation says."
  },
  {
   "property": "C133",
   "status": "partial",
   "theorems": [
    "Verif.Handler.C133_rows",
    "Verif.Handler.C133_reads",
    "Verif.Handler.C133_untouched",
    "Verif.Handler.C133_blind",
    "Verif.Handler.C133_stale",
    "Verif.Handler.C133_unseen",
    "Verif.Handler.C133_deleted",
    "Verif.Handler.C133_overwrites",
    "Verif.Handler.C133_apart_partial",
    "Verif.Handler.C133_full_false"
   ],
   "note": "Proved by induction over the interleaving: rows stay aligned in every handler (C133_rows); untouched properties are returned by every handler, whenever opened, as they are in the file (C133_untouched); and a handler whose properties the others do not make, write or delete behaves as if it were alone, in what its calls return, in its lists and selection, and in the file (C133_apart_partial). False in full (C133_full_false): a handler reads the current values from the file but converts them with the power of h it recorded when it was opened (C133_reads says exactly this), so values rewritten by another handler with a different power of h are returned in wrong units. Further, whatever the values: handlers do not see what others add (C133_unseen: ValueError), still list what others deleted (C133_deleted: KeyError), go on returning what they had loaded (C133_stale), and overwrite what others have written although not asked to overwrite (C133_overwrites). Calls are atomic in the model (made in turn in one process); simultaneous access of two processes to one HDF5 file is not modelled."
  },
  {
   "property": "C134",
   "status": "partial",
   "theorems": [
    "Verif.Paths.C134_simulation_partial",
    "Verif.Paths.C134_cone_partial",
    "Verif.Paths.C134_refused",
    "Verif.Paths.C134_cut",
    "Verif.Paths.C134_full_false",
    "Verif.Paths.C134_setup_home",
    "Verif.Paths.C134_tilde"
   ],
   "note": "Proved by induction over the programs: as long as no directory has a blank or line break in its name, SimHandler and LCHandler use exactly the directory that the last catalogue or lightcone maker reported (and raise ValueError if there is none); accepted names themselves have no blanks. False in full: for every directory with a blank, the catalogue object itself uses it but simulations are then looked for in the directory named by the part before the blank (C134_cut). setupsimim takes an empty answer as the home directory (C134_setup_home) but refuses directories given with a leading ~, as it asks whether they exist before replacing the ~ (C134_tilde). A catalogue whose path the user does not want remembered is used but not found later, as the notebook of the specification says. The questions of LCMaker about existing lightcones are in C118; making directories (mkdir) is not modelled."
  },
  {
   "property": "C135",
   "status": "partial",
   "theorems": [
    "Verif.Handler.C135_kept",
    "Verif.Inst.C135_observed_partial",
    "Verif.Inst.C135_left_out",
    "Verif.Inst.C135_opened",
    "Verif.Inst.C135_full_false"
   ],
   "note": "C135_kept: induction over the calls after make_property. C135_observed_partial follows the values from the columns of a reachable handler through make_property, any calls before and after, the map and an instrument with any history to the recorded numbers; C135_opened shows that every lightcone built and opened is such a handler. Missing: integer positions (C125), and objects that were not selected when the property was computed. False in full (C135_full_false): for every model and every lightcone, one such object makes its cell of the map NaN (C135_left_out). Unloading a property that was not written loses it: see C06. Models with a state of their own (random numbers) are covered as long as they return a number per object; write_to_disk=True at make_property is in C08 and C51, here the property may be written by a later call."
  },
  {
   "property": "C136",
   "status": "proved",
   "theorems": [
    "Verif.Map.C136_value",
    "Verif.Map.C136_cross",
    "Verif.Map.C136_parseval",
    "Verif.Map.C136_moved",
    "Verif.Map.C136_opposite",
    "Verif.Map.C136_sum",
    "Verif.Map.C136_objects",
    "Verif.Map.C136_single",
    "Verif.Map.C136_mean",
    "Verif.Map.C136_space"
   ],
   "note": "For maps of any dimension with numbers as values (exact complex arithmetic). The values are given for maps in real space; C136_space shows that spectra are the same after any axes have been transformed, also for the map crossed with. Calls that do not return are covered by C24 and C64; the units and the flags of the spaces of the returned grid by C58 and C64."
  },
  {
   "property": "C137",
   "status": "partial",
   "theorems": [
    "Verif.Map.C137_average_partial",
    "Verif.Map.C137_succeeds",
    "Verif.Map.C137_accounted",
    "Verif.Map.C137_flat",
    "Verif.Map.C137_last_lost",
    "Verif.Map.C137_full_false"
   ],
   "note": "Proved for all shells but the last (composition of C136 with C26, for exact square roots and without weights). False in full: the last shell is always reported as empty (C137_last_lost, see C26). With automatic shells the power of the largest frequencies is therefore always missing; C137_accounted says how the averages and the missing power add up."
  },
  {
   "property": "C138",
   "status": "partial",
   "theorems": [
    "Verif.LC.C138_objects",
    "Verif.LC.C138_opened",
    "Verif.LC.C138_considered_partial",
    "Verif.LC.C138_zeros",
    "Verif.LC.C138_full_false"
   ],
   "note": "Objects and properties added by a first call are proved for everything interrupted formatting can leave (C138_objects; C138_opened through the handler). False in full: a snapshot left without some of its properties makes the call that adds one raise after the datasets were made; calling again then ends normally and the lightcones show zeros, marked as complete (C138_zeros, for every such file). C138_considered_partial: as in C118, a cut between the minimum mass and the minimum mass divided by h is excluded."
  },
  {
   "property": "C139",
   "status": "proved",
   "theorems": [
    "Verif.Gal.C139_scatter",
    "Verif.Gal.C139_mean",
    "Verif.Gal.C139_median",
    "Verif.Gal.C139_total"
   ],
   "note": "Over the reals with the laws of Mathlib for the random numbers; nothing is assumed about independence. For delooze14 and yang22 the width is the one given by fix_scatter; yang22 is taken without its duty cycle (fduty=False). pullen13: redshifts within a range where the age is positive, duty cycle as in C45. An observation: log10normal documents preserve_linear_mean as True by default and has False (log10normal.py:14 and :3); no caller in the package relies on the default."
  },
  {
   "property": "C140",
   "status": "proved",
   "theorems": [
    "Verif.Gal.C140_relation",
    "Verif.Gal.C140_more",
    "Verif.Gal.C140_unknown",
    "Verif.Gal.C140_width"
   ],
   "note": "Over the reals. The tables of the specification repeat the numbers of the code, which documents none of them elsewhere; they were not checked against the papers. Star formation rates are positive, as are slopes and conversions: numpy gives 0 for a rate of 0 (10 to the power of minus infinity), which real logarithms do not express. The names of lines used are those the code accepts; the documentation of uzgil14 and spinoglio12 spells two of them differently (C89)."
  },
  {
   "property": "C141",
   "status": "proved",
   "theorems": [
    "Verif.Gal.C141_chances",
    "Verif.Gal.C141_number"
   ],
   "note": "Over the reals with the laws and the independence of Mathlib. Assumed of the generator: normal and even numbers, independent between the calls for the same galaxy, and a state that depends only on how many numbers were used. Galaxies whose stellar mass is NaN are left out here (C45)."
  },
  {
   "property": "C142",
   "status": "proved",
   "theorems": [
    "Verif.LF.C142_modified",
    "Verif.LF.C142_modified_rarer",
    "Verif.LF.C142_doubled",
    "Verif.LF.C142_doubled_rarer",
    "Verif.LF.C142_modified_units",
    "Verif.LF.C142_doubled_units"
   ],
   "note": "Closeness to the power laws does not depend on the minimum. Units and amplitude are changed together, by any two positive factors; count, cdf, pdf and ppf as scipy passes them on are compared. Numbers are real; rounding is left out."
  },
  {
   "property": "C143",
   "status": "proved",
   "theorems": [
    "Verif.Ready.C143_total"
   ],
   "note": "C110 and C139 together: property, handler and random numbers. The relations are written out as published, with real logarithms and powers; the tables of Behroozi et al. and the fits of Yang et al. are parameters. yang22 switches halos on with the global generator, its scatter comes from the generator of the function. The ladder of Kamenetzky et al. cannot be made (C110)."
  },
  {
   "property": "C144",
   "status": "proved",
   "theorems": [
    "Verif.Ready.C144_map"
   ],
   "note": "C143 and C100 together, for one property in the map. Positions are read as numbers; objects on an edge belong to the upper cell. Written in memory only (write_to_disk false), as in C143."
  },
  {
   "property": "C145",
   "status": "proved",
   "theorems": [
    "Verif.Ready.C145_total",
    "Verif.Ready.C145_map"
   ],
   "note": "Pairwise independence of the halos is an assumption on the generators (numpy's); an example of such generators is given. Together with C143 and C144; properties are kept in memory, as there."
  },
  {
   "property": "C146",
   "status": "proved",
   "theorems": [
    "Verif.Ready.C146_observed"
   ],
   "note": "C143, C100 and C125 together. What a detector receives is that of C127, with its conventions: kernels with an even number of cells are centred half a cell off, and units are not compared. The noise is that of the call (its random numbers are held fixed). Properties are kept in memory, as in C143."
  },
  {
   "property": "C147",
   "status": "proved",
   "theorems": [
    "Verif.Inst.C147_observed"
   ],
   "note": "C138 and C127 together; the selection is not empty, and the catalogue has positions and masses and all three components of vectors. Angles are position divided by distance, as in the code (C30). Not claimed here: that no halo is left out (C31, C138), that units of map and instrument agree (C127), or that calls repeated after a failure add the raw values (C138). Beams in kernels with an even number of cells are half a cell off (C105)."
  },
  {
   "property": "C148",
   "status": "proved",
   "theorems": [
    "Verif.Ready.C148_noise"
   ],
   "note": "Detector noise is held fixed: the covariance is over the random numbers of the property. SampleIs and SamplesVary are stated in Spec/ReadyNoise.lean with Mathlib's covariance; spread (C145) is the variance of one object's property."
  },
  {
   "property": "C149",
   "status": "proved",
   "theorems": [
    "Verif.Inst.C149_samples",
    "Verif.Inst.C149_average"
   ],
   "note": "White says that the noise function of a detector is white_noise (the function of the model, C104); Fresh says that the generators, made anew by white_noise for each field and detector when no rng is given, give independent standard normal numbers. A generator given by the user in noise_kwargs is the subject of C152."
  },
  {
   "property": "C150",
   "status": "proved",
   "theorems": [
    "Verif.Inst.C150_covariance"
   ],
   "note": "The sky may be any random family of states of instruments, such as those of C148; the noise is that of C149 (White, Fresh), on a second probability space. That sky and noise are independent is an assumption on the generators: white_noise makes its own."
  },
  {
   "property": "C151",
   "status": "proved",
   "theorems": [
    "Verif.Ready.C151_total"
   ],
   "note": "C148 and C150 together, with their conventions: properties are kept in memory, units are not compared, and that the random numbers of the property and of the noise are independent is an assumption on the generators (a product measure)."
  },
  {
   "property": "C152",
   "status": "proved",
   "theorems": [
    "Verif.Inst.C152_handed",
    "Verif.Inst.C152_shared"
   ],
   "note": "In the model of sample_fields the state of the generator for each field and detector is an input; handed gives the states in the order of the calls, and C152_handed says that each is what white_noise left at the call before. That the calls are made in this order (fields, then detectors) is read off the code. One call of sample_fields (two calls: C154); all detectors share the generator."
  },
  {
   "property": "C153",
   "status": "proved",
   "theorems": [
    "Verif.Inst.C153_parts"
   ],
   "note": "The noise is that of C149 (White, Fresh). The same random numbers means the same states of the generators for each field and detector."
  },
  {
   "property": "C154",
   "status": "proved",
   "theorems": [
    "Verif.Inst.C154_left",
    "Verif.Inst.C154_calls"
   ],
   "note": "Two calls; as in C152 the states of the generator are inputs of the model in the order of the calls, and C154_left says that the second call gets what white_noise left at the end of the first. Nothing else draws from the generator between the calls."
  }
 ]
}