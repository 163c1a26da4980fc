{
 "claims": [
  {
   "property": "C01",
   "status": "proved",
   "theorems": [
    "SG.C01_round_trip"
   ],
   "note": "hypotheses on F: a double is its bit pattern (LawfulF64) and 0.0 == 0"
  },
  {
   "property": "C02",
   "status": "proved",
   "theorems": [
    "SG.C02_byte_layout"
   ],
   "note": "arrays with a single row or column (repeated by numpy) included"
  },
  {
   "property": "C03",
   "status": "proved",
   "theorems": [
    "SG.C03_read_positional",
    "SG.C03_trailing_bytes_ignored"
   ],
   "note": ""
  },
  {
   "property": "C04",
   "status": "proved",
   "theorems": [
    "SG.C04_short_file_raises",
    "SG.C04_torn_write_rejected"
   ],
   "note": ""
  },
  {
   "property": "C05",
   "status": "proved",
   "theorems": [
    "SG.C05_strict_iff"
   ],
   "note": ""
  },
  {
   "property": "C06",
   "status": "proved",
   "theorems": [
    "SG.C06_strict_changes_no_data"
   ],
   "note": ""
  },
  {
   "property": "C07",
   "status": "proved",
   "theorems": [
    "SG.C07_failed_write",
    "SG.C07_write_iff"
   ],
   "note": "arrays with a single row or column (repeated by numpy) included"
  },
  {
   "property": "C08",
   "status": "proved",
   "theorems": [
    "SG.C08_none_becomes_nan"
   ],
   "note": ""
  },
  {
   "property": "C09",
   "status": "proved",
   "theorems": [
    "SG.C09_read_then_write"
   ],
   "note": ""
  },
  {
   "property": "C10",
   "status": "proved",
   "theorems": [
    "SG.C10_nearest_is_closest"
   ],
   "note": ""
  },
  {
   "property": "C11",
   "status": "proved",
   "theorems": [
    "SG.C11_tie_break",
    "SG.C11_rot90_equivariant"
   ],
   "note": ""
  },
  {
   "property": "C12",
   "status": "proved",
   "theorems": [
    "SG.C12_sentinel_iff",
    "SG.C12_valueError_iff",
    "SG.C12_sentinel_number"
   ],
   "note": ""
  },
  {
   "property": "C13",
   "status": "proved",
   "theorems": [
    "SG.C13_unit_norm",
    "SG.C13_raises_iff",
    "SG.C13_periodic",
    "SG.C13_pointwise",
    "SG.C13_rad_ignored"
   ],
   "note": ""
  },
  {
   "property": "C14",
   "status": "proved",
   "theorems": [
    "SG.C14_bretschneider",
    "SG.C14_rigid_motion",
    "SG.C14_nonneg_and_order",
    "SG.C14_triangles",
    "SG.C14_at_most_two",
    "SG.C14_array"
   ],
   "note": ""
  },
  {
   "property": "C15",
   "status": "proved",
   "theorems": [
    "SG.C15_sum_of_excesses",
    "SG.C15_nonneg",
    "SG.C15_rotation",
    "SG.C15_order",
    "SG.C15_array"
   ],
   "note": ""
  },
  {
   "property": "C16",
   "status": "proved",
   "theorems": [
    "SG.C16_squad_cellwise",
    "SG.C16_pquad_cellwise"
   ],
   "note": ""
  },
  {
   "property": "C17",
   "status": "proved",
   "theorems": [
    "SG.C17_fill_preserves"
   ],
   "note": " That fill leaves its argument arrays alone (it works on np.copy of them) is part of the model, not of the theorem."
  },
  {
   "property": "C18",
   "status": "proved",
   "theorems": [
    "SG.C18_fill_subdivides"
   ],
   "note": ""
  },
  {
   "property": "C19",
   "status": "proved",
   "theorems": [
    "SG.C19_nonneg_convention",
    "SG.C19_negative_convention"
   ],
   "note": ""
  },
  {
   "property": "C20",
   "status": "proved",
   "theorems": [
    "SG.C20_edges"
   ],
   "note": ""
  },
  {
   "property": "C21",
   "status": "proved",
   "theorems": [
    "SG.C21_tomitgrid_complete"
   ],
   "note": ""
  },
  {
   "property": "C22",
   "status": "proved",
   "theorems": [
    "SG.C22_partition"
   ],
   "note": ""
  },
  {
   "property": "C23",
   "status": "proved",
   "theorems": [
    "SG.C23_tomitgrid_entries"
   ],
   "note": ""
  },
  {
   "property": "C24",
   "status": "proved",
   "theorems": [
    "SG.C24_boundary_zero",
    "SG.C24_mkgrid",
    "SG.C24_regrid"
   ],
   "note": ""
  },
  {
   "property": "C25",
   "status": "proved",
   "theorems": [
    "SG.C25_area_conserved"
   ],
   "note": ""
  },
  {
   "property": "C26",
   "status": "proved",
   "theorems": [
    "SG.C26_mkgrid_corners"
   ],
   "note": ""
  },
  {
   "property": "C27",
   "status": "proved",
   "theorems": [
    "SG.C27_mkgrid_sizes"
   ],
   "note": ""
  },
  {
   "property": "C28",
   "status": "proved",
   "theorems": [
    "SG.C28_mkgrid_rejects"
   ],
   "note": ""
  },
  {
   "property": "C29",
   "status": "proved",
   "theorems": [
    "SG.C29_sgmkgrid_strict",
    "SG.C29_sgmkgrid_failure_keeps_file"
   ],
   "note": ""
  },
  {
   "property": "C30",
   "status": "proved",
   "theorems": [
    "SG.C30_alignment_terminates",
    "SG.C30_regrid_stops"
   ],
   "note": ""
  },
  {
   "property": "C31",
   "status": "partial",
   "theorems": [
    "SG.C31_hangs_if_one_corner_unlocated",
    "SG.C31_never_hangs_partial"
   ],
   "note": "the property is false of the code (C31_hangs_if_one_corner_unlocated); the _partial theorem proves it for all inputs for which both or neither corner can be located"
  },
  {
   "property": "C32",
   "status": "proved",
   "theorems": [
    "SG.C32_regrid_preserves_points"
   ],
   "note": ""
  },
  {
   "property": "C33",
   "status": "proved",
   "theorems": [
    "SG.C33_regrid_orientation"
   ],
   "note": ""
  },
  {
   "property": "C34",
   "status": "proved",
   "theorems": [
    "SG.C34_regrid_sizes",
    "SG.C34_regrid_succeeds",
    "SG.C34_regrid_rejects_subscale",
    "SG.C34_regrid_rejects_degenerate"
   ],
   "note": ""
  },
  {
   "property": "C35",
   "status": "proved",
   "theorems": [
    "SG.C35_orientation_independent"
   ],
   "note": ""
  },
  {
   "property": "C36",
   "status": "partial",
   "theorems": [
    "SG.C36_callers_grid_is_modified",
    "SG.C36_callers_grid_kept_partial"
   ],
   "note": "the property is false of the code (C36_callers_grid_is_modified); the _partial theorem proves what holds: the other fields never change, and XG, YG only if a rotation is needed"
  },
  {
   "property": "C37",
   "status": "proved",
   "theorems": [
    "SG.C37_history_independent",
    "SG.C37_outcome_unique"
   ],
   "note": ""
  },
  {
   "property": "C38",
   "status": "proved",
   "theorems": [
    "SG.C38_mitgridfile_first",
    "SG.C38_csv_second",
    "SG.C38_binary_second",
    "SG.C38_counts_required",
    "SG.C38_matrices_third",
    "SG.C38_no_source"
   ],
   "note": ""
  },
  {
   "property": "C39",
   "status": "proved",
   "theorems": [
    "SG.C39_identity"
   ],
   "note": ""
  },
  {
   "property": "C40",
   "status": "proved",
   "theorems": [
    "SG.C40_only_opposite"
   ],
   "note": ""
  },
  {
   "property": "C41",
   "status": "proved",
   "theorems": [
    "SG.C41_reported_edges",
    "SG.C41_rejects",
    "SG.C41_accepts",
    "SG.C41_millionth"
   ],
   "note": ""
  },
  {
   "property": "C42",
   "status": "proved",
   "theorems": [
    "SG.C42_all_corners_near",
    "SG.C42_coinciding_corners",
    "SG.C42_self"
   ],
   "note": ""
  },
  {
   "property": "C43",
   "status": "proved",
   "theorems": [
    "SG.C43_addfringe_keeps",
    "SG.C43_addfringe_accepts"
   ],
   "note": ""
  },
  {
   "property": "C44",
   "status": "partial",
   "theorems": [
    "SG.C44_boundary_terms_stay_zero",
    "SG.C44_zero_entries_recomputed_partial"
   ],
   "note": "the property is false of the code; theorems prove the failure and the part that holds"
  },
  {
   "property": "C45",
   "status": "proved",
   "theorems": [
    "SG.C45_stitch_sizes"
   ],
   "note": ""
  },
  {
   "property": "C46",
   "status": "proved",
   "theorems": [
    "SG.C46_stitch_content"
   ],
   "note": ""
  },
  {
   "property": "C47",
   "status": "proved",
   "theorems": [
    "SG.C47_area_conserved"
   ],
   "note": ""
  },
  {
   "property": "C48",
   "status": "partial",
   "theorems": [
    "SG.C48_seam_terms_partial",
    "SG.C48_seam_terms_stay_zero"
   ],
   "note": "the property is false of the code; theorems prove the failure and the part that holds"
  },
  {
   "property": "C49",
   "status": "proved",
   "theorems": [
    "SG.C49_unequal_edges_raise"
   ],
   "note": ""
  },
  {
   "property": "C50",
   "status": "proved",
   "theorems": [
    "SG.C50_padding",
    "SG.C50_sizes"
   ],
   "note": ""
  },
  {
   "property": "C51",
   "status": "partial",
   "theorems": [
    "SG.C51_parent_from_results_raises"
   ],
   "note": "the property is false of the code for every input; the theorem proves that (every such call raises and writes no boundary file)"
  },
  {
   "property": "C52",
   "status": "partial",
   "theorems": [
    "SG.C52_vectors_rejected",
    "SG.C52_ints_rejected",
    "SG.C52_zero_is_default",
    "SG.C52_single_index_partial",
    "SG.C52_negative_off_by_one"
   ],
   "note": "the property is false of the code; the first theorems prove how it fails, the _partial theorem the part that holds"
  },
  {
   "property": "C53",
   "status": "proved",
   "theorems": [
    "SG.C53_default_boundaries"
   ],
   "note": ""
  },
  {
   "property": "C54",
   "status": "proved",
   "theorems": [
    "SG.C54_assembly"
   ],
   "note": ""
  },
  {
   "property": "C55",
   "status": "partial",
   "theorems": [
    "SG.C55_documented_order_fails",
    "SG.C55_single_level_partial"
   ],
   "note": "the property is false of the code; the actual order is Spec.BytesOf (see C54), C55_documented_order_fails is the failure, the _partial theorem the part that holds"
  },
  {
   "property": "C56",
   "status": "proved",
   "theorems": [
    "SG.C56_weightfilename_injective"
   ],
   "note": ""
  },
  {
   "property": "C57",
   "status": "partial",
   "theorems": [
    "SG.C57_fresh_directory_partial",
    "SG.C57_stale_weights"
   ],
   "note": "the property is false of the code (C57_stale_weights); the _partial theorem proves it for directories without weight files"
  },
  {
   "property": "C58",
   "status": "proved",
   "theorems": [
    "SG.C58_meta_round_trip"
   ],
   "note": "Full text of the meta file, including simulation, times and fields; the hypotheses (non-empty lists, names without quotes, time texts shorter than 20 characters) are necessary for the corresponding entries only and are shown to fail otherwise by examples. For doubles the assumptions on time texts are proved (doubleLabels, C123)."
  },
  {
   "property": "C59",
   "status": "proved",
   "theorems": [
    "SG.C59_data_round_trip"
   ],
   "note": "Both precisions (float32: elements rounded), any number of folded leading dimensions, at least two dimensions per record, no stale tile files; the cases left out are C70 and C71."
  },
  {
   "property": "C60",
   "status": "proved",
   "theorems": [
    "SG.C60_tile_assembly",
    "SG.C60_order_independent"
   ],
   "note": "Any number of tiles of one common size (as the code requires), any global size, any number of records; order independence for tiles that do not overlap, any arguments."
  },
  {
   "property": "C61",
   "status": "proved",
   "theorems": [
    "SG.C61_area_formula",
    "SG.C61_ten_km"
   ],
   "note": ""
  },
  {
   "property": "C62",
   "status": "proved",
   "theorems": [
    "SG.C62_dxg_conserved",
    "SG.C62_dyg_conserved"
   ],
   "note": ""
  },
  {
   "property": "C63",
   "status": "proved",
   "theorems": [
    "SG.C63_edge_interpolation"
   ],
   "note": ""
  },
  {
   "property": "C64",
   "status": "proved",
   "theorems": [
    "SG.C64_only_corners_compared"
   ],
   "note": ""
  },
  {
   "property": "C65",
   "status": "proved",
   "theorems": [
    "SG.C65_tile_b_is_ignored"
   ],
   "note": ""
  },
  {
   "property": "C66",
   "status": "proved",
   "theorems": [
    "SG.C66_stitch_joins_crosswise",
    "SG.C66_crossed_edges_accepted"
   ],
   "note": ""
  },
  {
   "property": "C67",
   "status": "proved",
   "theorems": [
    "SG.C67_sgaddfringe",
    "SG.C67_sgstitch"
   ],
   "note": ""
  },
  {
   "property": "C68",
   "status": "partial",
   "theorems": [
    "SG.C68_slice_per_file"
   ],
   "note": "the property is false of the code for tiled results; the theorem gives the number of slices in all cases (with one file per step it is the number of steps)"
  },
  {
   "property": "C69",
   "status": "proved",
   "theorems": [
    "SG.C69_selection_is_slice"
   ],
   "note": "Levels are dimensions not cut into tiles (as the code requires); squeeze=True; tiles that do not overlap."
  },
  {
   "property": "C70",
   "status": "proved",
   "theorems": [
    "SG.C70_vector_unreadable"
   ],
   "note": ""
  },
  {
   "property": "C71",
   "status": "proved",
   "theorems": [
    "SG.C71_stale_tiles_shadow"
   ],
   "note": ""
  },
  {
   "property": "C72",
   "status": "proved",
   "theorems": [
    "SG.C72_nan_reads_all",
    "SG.C72_inf_reads_last",
    "SG.C72_none_on_disk"
   ],
   "note": ""
  },
  {
   "property": "C73",
   "status": "proved",
   "theorems": [
    "SG.C73_iterations_stacked"
   ],
   "note": ""
  },
  {
   "property": "C74",
   "status": "proved",
   "theorems": [
    "SG.C74_keeps_list_dimensions",
    "SG.C74_all_records_raise"
   ],
   "note": ""
  },
  {
   "property": "C75",
   "status": "proved",
   "theorems": [
    "SG.C75_axes",
    "SG.C75_law_of_cosines",
    "SG.C75_same_point_iff"
   ],
   "note": ""
  },
  {
   "property": "C76",
   "status": "proved",
   "theorems": [
    "SG.C76_sgregrid"
   ],
   "note": ""
  },
  {
   "property": "C77",
   "status": "proved",
   "theorems": [
    "SG.C77_mkgrid_then_regrid"
   ],
   "note": ""
  },
  {
   "property": "C78",
   "status": "proved",
   "theorems": [
    "SG.C78_any_side",
    "SG.C78_adjacent_tiles"
   ],
   "note": "C78_any_side: all four positions, the corners off the common side being farther than the tolerance from the other box. C78_adjacent_tiles: first tile west of the second, one such corner being enough. Corner arrays only; the other fields of stitched grids are C46-C48."
  },
  {
   "property": "C79",
   "status": "proved",
   "theorems": [
    "SG.C79_equal_spacing"
   ],
   "note": "Exact real arithmetic (no rounding)."
  },
  {
   "property": "C80",
   "status": "proved",
   "theorems": [
    "SG.C80_sphere_great_circles",
    "SG.C80_sphere_exists"
   ],
   "note": "Exact real arithmetic; the laws C79 needs, from a specification of the sphere, and a sphere meeting the specification."
  },
  {
   "property": "C81",
   "status": "proved",
   "theorems": [
    "SG.C81_meridian_sides"
   ],
   "note": "Exact real arithmetic; pyproj is represented by Spec.IsSphere."
  },
  {
   "property": "C82",
   "status": "proved",
   "theorems": [
    "SG.C82_sides_bulge"
   ],
   "note": "Exact real arithmetic; pyproj is represented by Spec.IsSphere."
  },
  {
   "property": "C83",
   "status": "proved",
   "theorems": [
    "SG.C83_grid_files"
   ],
   "note": "Composition of the wrmds/rdmds model with mds2mitgrid; big-endian files, as mds2mitgrid reads."
  },
  {
   "property": "C84",
   "status": "proved",
   "theorems": [
    "SG.C84_results_to_boundaries"
   ],
   "note": "Composition of the wrmds/rdmds model with getobcs; success of the call is a hypothesis, met by the concrete case beside it."
  },
  {
   "property": "C85",
   "status": "proved",
   "theorems": [
    "SG.Cli.C85_command_line",
    "SG.Cli.C85_order"
   ],
   "note": ""
  },
  {
   "property": "C86",
   "status": "partial",
   "theorems": [
    "SG.Cli.C86_negative_numbers_partial",
    "SG.Cli.C86_other_spellings_rejected"
   ],
   "note": "Full statement false of the code (C86_other_spellings_rejected): argparse takes -128., -1e2 or -inf for an option. Proved part: values without a leading minus sign, the spellings -digits, -digits.digits and -.digits, and values with a blank are accepted and mean the same as --name=value. The two theorems together decide every value whose second character, after a minus sign, is not -, h, s or v."
  },
  {
   "property": "C87",
   "status": "proved",
   "theorems": [
    "SG.Cli.C87_missing_subscale",
    "SG.Cli.C87_missing_outfile",
    "SG.Cli.C87_missing_coordinate",
    "SG.Cli.C87_missing_coordinate_verbose"
   ],
   "note": "The property describes the defect; proved for all command lines without the option. numpy turning None into NaN, and pyproj not raising on NaN, are part of the trusted reading."
  },
  {
   "property": "C88",
   "status": "proved",
   "theorems": [
    "SG.Cli.C88_resultsdir_required",
    "SG.Cli.C88_boundary_options",
    "SG.Cli.C88_empty_resultsdir"
   ],
   "note": "The property describes the defects; proved for all command lines of the forms named."
  },
  {
   "property": "C89",
   "status": "proved",
   "theorems": [
    "SG.Cli.C89_only_outfile",
    "SG.Cli.C89_outfile"
   ],
   "note": "C89_only_outfile is for arbitrary argument lists, including abbreviations, grouped flags and malformed ones; C89_outfile, which names --outfile, is for command lines of the forms of C85."
  },
  {
   "property": "C90",
   "status": "proved",
   "theorems": [
    "SG.Cli.C90_stitch_tiles",
    "SG.Cli.C90_any_side"
   ],
   "note": "C90_any_side: all four positions. C90_stitch_tiles: first tile west of the second, with weaker hypotheses on the distances (as in C78)."
  },
  {
   "property": "C91",
   "status": "proved",
   "theorems": [
    "SG.Cli.C91_regrid_grid"
   ],
   "note": ""
  },
  {
   "property": "C92",
   "status": "proved",
   "theorems": [
    "SG.Cli.C92_sgregrid",
    "SG.Cli.C92_sgaddfringe",
    "SG.Cli.C92_sgstitch",
    "SG.Cli.C92_sgmkgrid"
   ],
   "note": ""
  },
  {
   "property": "C93",
   "status": "proved",
   "theorems": [
    "SG.Cli.C93_missing_tile"
   ],
   "note": ""
  },
  {
   "property": "C94",
   "status": "proved",
   "theorems": [
    "SG.Cli.C94_sggetobcs"
   ],
   "note": ""
  },
  {
   "property": "C95",
   "status": "proved",
   "theorems": [
    "SG.Cli.C95_stray_words"
   ],
   "note": ""
  },
  {
   "property": "C96",
   "status": "proved",
   "theorems": [
    "SG.C96_positions"
   ],
   "note": "Over the real numbers; pyproj represented by Spec.IsSphere (satisfiable, C80)."
  },
  {
   "property": "C97",
   "status": "proved",
   "theorems": [
    "SG.C97_refinement"
   ],
   "note": "Over the real numbers; pyproj represented by Spec.IsSphere (satisfiable, C80)."
  },
  {
   "property": "C98",
   "status": "proved",
   "theorems": [
    "SG.C98_moved_east"
   ],
   "note": "Over the real numbers; pyproj represented by Spec.IsSphere (satisfiable, C80)."
  },
  {
   "property": "C99",
   "status": "proved",
   "theorems": [
    "SG.C99_any_diagonal"
   ],
   "note": "Over the real numbers."
  },
  {
   "property": "C100",
   "status": "proved",
   "theorems": [
    "SG.C100_cut"
   ],
   "note": "Over the real numbers. Points E and F strictly inside the sides."
  },
  {
   "property": "C101",
   "status": "proved",
   "theorems": [
    "SG.C101_boundary_only"
   ],
   "note": "Over the real numbers. Both arrays in the same open hemisphere."
  },
  {
   "property": "C102",
   "status": "proved",
   "theorems": [
    "SG.C102_strips",
    "SG.C102_total_area",
    "SG.C102_large"
   ],
   "note": "Over the real numbers; pyproj represented by Spec.IsSphere (satisfiable, C80). C102_large gives a simple sufficient condition for the size of the cells. Grids with smaller cells use the planar formula, whose values do not add up exactly."
  },
  {
   "property": "C103",
   "status": "proved",
   "theorems": [
    "SG.C103_regrid_positions"
   ],
   "note": "Over the real numbers; pyproj represented by Spec.IsSphere (satisfiable, C80). Hypothesis: XG of the source is a well-formed array (every element visited once)."
  },
  {
   "property": "C104",
   "status": "proved",
   "theorems": [
    "SG.C104_regrid_areas"
   ],
   "note": "Over the real numbers, sphere. The source's own RAC is not used by regrid; the claim is about the exact area of the source cell. Small new cells use the planar formula, whose values do not add up exactly."
  },
  {
   "property": "C105",
   "status": "proved",
   "theorems": [
    "SG.C105_refines",
    "SG.C105_column_areas",
    "SG.C105_large"
   ],
   "note": "Over the real numbers, sphere. Totals per column, not per cell: the midpoints mkgrid uses for its own cell areas are not on the great circles between cell corners that regrid subdivides. C105_large gives a simple sufficient condition for the size of the new cells. The example beside it also meets the hypotheses of C103 and C104."
  },
  {
   "property": "C106",
   "status": "proved",
   "theorems": [
    "SG.C106_memmap_same"
   ],
   "note": "np.memmap is modelled in its default mode 'r+' (numpy: extends short files with zero bytes). Conditions exclude what differs: an empty data file (memmap raises ValueError), rec=[] and records beyond nrecords (memmap raises IndexError, ordinary reading may succeed if the file is longer than its meta file says)."
  },
  {
   "property": "C107",
   "status": "proved",
   "theorems": [
    "SG.C107_memmap_short"
   ],
   "note": "Finding: usememmap writes to the input files. Elements of which only some bytes are left are not specified."
  },
  {
   "property": "C108",
   "status": "proved",
   "theorems": [
    "SG.C108_returned_meta"
   ],
   "note": "One iteration and untiled files, as wrmds writes them. Keys are compared through a lookup for every key, so nothing else is in the dictionary."
  },
  {
   "property": "C109",
   "status": "proved",
   "theorems": [
    "SG.C109_meta_as_arguments"
   ],
   "note": "The TypeError is the finding: any data set written with itr, times or fields. The machine format is not among the meta data, so little-endian files come out big-endian."
  },
  {
   "property": "C110",
   "status": "proved",
   "theorems": [
    "SG.C110_bytes_written",
    "SG.C110_bytes_read",
    "SG.C110_file_names"
   ],
   "note": "Added after mutation q1 (byte order ignored by writer and reader alike) survived C59. Bits of a number are those of the F64/F32 interface."
  },
  {
   "property": "C111",
   "status": "proved",
   "theorems": [
    "SG.C111_failed_write",
    "SG.C111_meta_file_destroyed"
   ],
   "note": "The destroyed meta file is the finding. wrmdsOn (all arguments, effects on the directory) is shown to agree with wrmds, used by C58-C60, on every successful call with a non-negative iteration number (wrmdsOn_ok)."
  },
  {
   "property": "C112",
   "status": "proved",
   "theorems": [
    "SG.C112_deltat",
    "SG.C112_number_from_times",
    "SG.C112_time_from_number",
    "SG.C112_there_and_back"
   ],
   "note": "The there-and-back theorem says exactly when the number changes; the quotient of the doubles next to 0.3 and 0.1 is computed in an example. That // is the floor of the exact quotient is a hypothesis (FloorLaw), proved for doubles in C123."
  },
  {
   "property": "C113",
   "status": "proved",
   "theorems": [
    "SG.C113_formulas_agree",
    "SG.C113_areas"
   ],
   "note": "One cell and computegrid.areas. Exact real arithmetic; for rounding of the planar value see C118."
  },
  {
   "property": "C114",
   "status": "proved",
   "theorems": [
    "SG.C114_strips"
   ],
   "note": "Sphere with exact geodesics as in C102. The condition on the quarter cells is met by every grid on a box whose corners are pairwise at most a quarter turn apart, with some r < 1 (smallCells_exist)."
  },
  {
   "property": "C115",
   "status": "proved",
   "theorems": [
    "SG.Cli.C115_abbreviation",
    "SG.Cli.C115_ambiguous",
    "SG.Cli.C115_grouped_flags"
   ],
   "note": ""
  },
  {
   "property": "C116",
   "status": "proved",
   "theorems": [
    "SG.Cli.C116_bad_group",
    "SG.Cli.C116_unknown_option"
   ],
   "note": ""
  },
  {
   "property": "C117",
   "status": "proved",
   "theorems": [
    "SG.C117_area_conserved_rounded",
    "SG.C117_length_conserved_rounded"
   ],
   "note": "Assumption RoundedAdd: a finite sum has finite summands and relative error at most u. The four quarter areas themselves are as computed (see C118). Doubles satisfy the error model (doubles in Props/Doubles, proved from their bit patterns)."
  },
  {
   "property": "C118",
   "status": "proved",
   "theorems": [
    "SG.C118_planar_area_error",
    "SG.C118_corner_error",
    "SG.C118_areas_error"
   ],
   "note": "Assumption Rounded: finite results have finite operands and relative error at most u (products also eta). Scalar products are evaluated from left to right without fused operations; the accuracy eps of sin and cos is a hypothesis. Rounding in squad_uarea is not covered: the code itself warns that it is inaccurate for small cells. Doubles satisfy the error model (doubles in Props/Doubles, proved from their bit patterns); see C119."
  },
  {
   "property": "C119",
   "status": "proved",
   "theorems": [
    "SG.C119_double_areas",
    "SG.C119_double_spherical"
   ],
   "note": "IEEE-754 double arithmetic (Base/Ieee) with an arbitrary C library of the stated accuracy. Planar branch of areas only: the spherical formula is ill conditioned (at a pole it gives NaN, C122)."
  },
  {
   "property": "C120",
   "status": "proved",
   "theorems": [
    "SG.C120_single_round_trip"
   ],
   "note": "Conversion to and from binary32 modelled by bit patterns with rounding to nearest even; all NaNs are one."
  },
  {
   "property": "C121",
   "status": "proved",
   "theorems": [
    "SG.C121_double_longitudes"
   ],
   "note": "IEEE-754 double arithmetic (Base/Ieee). 360.0 is stored for the meridian 0 if npts returns a longitude from -2^-45 to 0."
  },
  {
   "property": "C122",
   "status": "proved",
   "theorems": [
    "SG.C122_pole_areas",
    "SG.C122_pole_tile",
    "SG.C122_mkgrid"
   ],
   "note": "IEEE-754 double arithmetic (Base/Ieee); what is used of the C library is Spec.PoleLibm, true of glibc (cos of the double nearest to pi/2 is 6.1e-17) and shown to be satisfiable. C122_mkgrid also assumes Spec.Npts180 and Spec.NptsPole of Geod.npts."
  },
  {
   "property": "C123",
   "status": "proved",
   "theorems": [
    "SG.C123_times",
    "SG.C123_number",
    "SG.C123_there_and_back"
   ],
   "note": "Text formatting, float(), floor division and multiplication are modelled (Model/MdsFloats), not assumed. The bounds (2^1000, 2^49, 2^-1000) are sufficient, not claimed to be sharp."
  },
  {
   "property": "C124",
   "status": "proved",
   "theorems": [
    "SG.C124_mkgrid",
    "SG.C124_regrid"
   ],
   "note": ""
  },
  {
   "property": "C125",
   "status": "proved",
   "theorems": [
    "SG.C125_east_west",
    "SG.C125_north_south"
   ],
   "note": "Over the real numbers; pyproj represented by Spec.IsSphere (satisfiable, C80)."
  },
  {
   "property": "C126",
   "status": "proved",
   "theorems": [
    "SG.C126_stitch",
    "SG.C126_adjacent"
   ],
   "note": "C126_stitch is the formula for all tiles (composition of C43, C44 and C46). C126_adjacent is for tiles made by sgmkgrid; entries of the first tile that are zero without being boundary terms (a cell centre at longitude 0, say) follow C126_stitch."
  },
  {
   "property": "C127",
   "status": "proved",
   "theorems": [
    "SG.C127_sources_agree",
    "SG.C127_binary_agree",
    "SG.C127_ties_matter"
   ],
   "note": "C127_sources_agree: any two of the four sources; C127_binary_agree: mitgrid and binary files without the assumption on nearest points; C127_ties_matter: the assumption is needed. np.loadtxt is not modelled: what the csv files parse to is a parameter."
  },
  {
   "property": "C128",
   "status": "proved",
   "theorems": [
    "SG.Cli.C128_announce_inj",
    "SG.Cli.C128_same_runs",
    "SG.Cli.C128_sgmkgrid",
    "SG.Cli.C128_sgregrid",
    "SG.Cli.C128_sgaddfringe",
    "SG.Cli.C128_sgstitch"
   ],
   "note": "array dumps and read progress are left out of the model; sgmkgrid without a coordinate is C87"
  },
  {
   "property": "C129",
   "status": "proved",
   "theorems": [
    "SG.C129_addfringe_again",
    "SG.C129_sgaddfringe_again",
    "SG.C129_stitch_after_addfringe",
    "SG.C129_sgstitch_after_sgaddfringe"
   ],
   "note": "C129_addfringe_again, C129_stitch_after_addfringe: the functions; C129_sgaddfringe_again, C129_sgstitch_after_sgaddfringe: the files."
  },
  {
   "property": "C130",
   "status": "proved",
   "theorems": [
    "SG.C130_earlier_seam"
   ],
   "note": "the values are given by Spec.Tile.entry."
  },
  {
   "property": "C131",
   "status": "proved",
   "theorems": [
    "SG.C131_stitch_order"
   ],
   "note": "that both orders match the same sides is a hypothesis; C134 gives conditions for it."
  },
  {
   "property": "C132",
   "status": "proved",
   "theorems": [
    "SG.C132_stitch_assoc"
   ],
   "note": "nothing is claimed about entries that are zero in their tile: they are filled from different tiles in the two orders."
  },
  {
   "property": "C133",
   "status": "proved",
   "theorems": [
    "SG.C133_two_steps",
    "SG.C133_same_corners",
    "SG.C133_mkgrid_then_regrid",
    "SG.C133_mkgrid_same_corners",
    "SG.C133_order_matters"
   ],
   "note": "Over the real numbers, sphere. In y-second refinement the half-cell points, and so the centres and areas, differ: they divide the grid line between two cell corners, not the one of the coarse cell. C133_order_matters shows that the restriction to x first is needed."
  },
  {
   "property": "C134",
   "status": "proved",
   "theorems": [
    "SG.C134_addfringe_swapped",
    "SG.C134_stitch_swapped"
   ],
   "note": "Spec.SameNear states that each pair of corners is within the tolerance in both orders or in neither."
  },
  {
   "property": "C135",
   "status": "proved",
   "theorems": [
    "SG.C135_stitch_block"
   ],
   "note": "entries that are zero in their tile are filled from different tiles in the two orders and can differ."
  },
  {
   "property": "C136",
   "status": "proved",
   "theorems": [
    "SG.C136_block_only",
    "SG.C136_window_first"
   ],
   "note": "blockSize/inBlock say in source indices which block the call takes and how it is turned."
  },
  {
   "property": "C137",
   "status": "proved",
   "theorems": [
    "SG.C137_part",
    "SG.C137_stitched"
   ],
   "note": "the conditions on longitudes and on the area formula are Spec.SameLongitudes and Spec.SameFormula."
  },
  {
   "property": "C138",
   "status": "proved",
   "theorems": [
    "SG.C138_cut_and_join"
   ],
   "note": "unlike C137_stitched the success of stitch is derived here, from the distances between the corners (Spec.PartsApart)."
  },
  {
   "property": "C139",
   "status": "proved",
   "theorems": [
    "SG.C139_history",
    "SG.C139_again"
   ],
   "note": "the converse of C57_stale_weights: there other grids of the same sizes, here the same grids. A run killed in the middle of writing a weight file is not covered."
  },
  {
   "property": "C140",
   "status": "proved",
   "theorems": [
    "SG.C140_one_data_set",
    "SG.C140_mixed_files_raise"
   ],
   "note": "C140_mixed_files_raise is the observable consequence for entries with different integers, different texts, different lengths, or missing in one file."
  },
  {
   "property": "C141",
   "status": "proved",
   "theorems": [
    "SG.C141_unequal_tiles_raise",
    "SG.C141_record_repeated",
    "SG.C141_other_order_raises",
    "SG.C141_mapped_repeated"
   ],
   "note": "C141_record_repeated, C141_mapped_repeated and C141_other_order_raises describe a defect: what is read is silently wrong, and whether it is depends on the order in which the directory is listed."
  },
  {
   "property": "C142",
   "status": "proved",
   "theorems": [
    "SG.C142_double_points",
    "SG.C142_different_points",
    "SG.C142_full_turn"
   ],
   "note": "IEEE-754 double arithmetic (Base/Ieee); the accuracy of sine and cosine is the only assumption on the C library."
  },
  {
   "property": "C143",
   "status": "proved",
   "theorems": [
    "SG.C143_plain_name",
    "SG.C143_wildcard_directories"
   ],
   "note": "glob and fnmatch are modelled in Model/MdsGlob; the pattern language is specified separately by the inductive relation Spec.Shell. The theorem about wildcards is for one directory part; brackets in the wildcard are modelled but not covered."
  },
  {
   "property": "C144",
   "status": "proved",
   "theorems": [
    "SG.C144_astype",
    "SG.C144_file_type"
   ],
   "note": "Conversions are total functions, so integer types (numpy refuses NaN) are outside; the word 0 is assumed to be the number 0, and a double to be its bit pattern (true for IEEE-754)."
  },
  {
   "property": "C145",
   "status": "proved",
   "theorems": [
    "SG.C145_brackets",
    "SG.C145_own_files_not_found",
    "SG.C145_mds2mitgrid_brackets",
    "SG.C145_mds2mitgrid_own_directory",
    "SG.C145_mds2mitgrid_nothing"
   ],
   "note": "Ordinary: none of ! ] [ * ? / . -. That files with brackets in their names exist is shown in the cases (ExBracket)."
  },
  {
   "property": "C146",
   "status": "proved",
   "theorems": [
    "SG.C146_own_files_only",
    "SG.C146_damaged_as_missing",
    "SG.C146_damaged_field_missing"
   ],
   "note": "Names without shell wildcards (see C143). The bare except of mds2mitgrid also catches errors of reading."
  },
  {
   "property": "C147",
   "status": "proved",
   "theorems": [
    "SG.C147_failed_call",
    "SG.C147_other_files",
    "SG.C147_failed_files"
   ],
   "note": "Errors of the operating system while writing (a full disk) are not modelled; a file is written in one step."
  },
  {
   "property": "C148",
   "status": "proved",
   "theorems": [
    "SG.C148_brackets",
    "SG.C148_own_directory",
    "SG.C148_not_found"
   ],
   "note": "Describes what the code does; reading run1 when asked for run[1] is a defect, listed in DESIGN.md. The pattern dir/response.*.data is modelled as dir/* followed by the test for response.*.data on the name. In the second and third sentence the directory is directly below the current one."
  },
  {
   "property": "C149",
   "status": "proved",
   "theorems": [
    "SG.C149_unused",
    "SG.C149_missing"
   ],
   "note": "Arrays read from files are functions on all index triples; agreement of two arrays is agreement of these functions. A later step with fewer levels is an error in the model (the code passes the whole 3-d array on, which fails in the interpolator or in the assignment)."
  },
  {
   "property": "C150",
   "status": "proved",
   "theorems": [
    "SG.C150_separate"
   ],
   "note": "Results are compared as what rdmds returns for the response at every step; C146 shows that this depends on the files of that response only."
  },
  {
   "property": "C151",
   "status": "proved",
   "theorems": [
    "SG.C151_one_step",
    "SG.C151_input_files"
   ],
   "note": "C151_one_step is the statement on rdmds, C151_input_files that on getobcs with a parent results directory (no parent grid given as a file)."
  }
 ]
}