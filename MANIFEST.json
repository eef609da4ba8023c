{
 "claims": [
  {
   "property": "C01",
   "status": "proved",
   "theorems": [
    "Verif.Props.C01_ctor_checks",
    "Verif.Props.C01_ctor_wellFormed"
   ],
   "note": ""
  },
  {
   "property": "C02",
   "status": "proved",
   "theorems": [
    "Verif.Props.C02_count_children",
    "Verif.Props.C02_count_children_default",
    "Verif.Props.C02_count_children_to_bottom"
   ],
   "note": ""
  },
  {
   "property": "C03",
   "status": "proved",
   "theorems": [
    "Verif.Props.C03_counts_add_up",
    "Verif.Props.C03_counts_add_up_consistent"
   ],
   "note": ""
  },
  {
   "property": "C04",
   "status": "proved",
   "theorems": [
    "Verif.Props.C04_ragged_valueError",
    "Verif.Props.C04_replicate_parent_ids",
    "Verif.Props.C04_ancestor_unique",
    "Verif.Props.C04_orphan_keyError"
   ],
   "note": ""
  },
  {
   "property": "C05",
   "status": "proved",
   "theorems": [
    "Verif.Props.C05_requested_rows",
    "Verif.Props.C05_requested_ids",
    "Verif.Props.C05_empty_level_error",
    "Verif.Props.C05_unknown_entity"
   ],
   "note": "An empty level raises AttributeError, so the statements are for non-empty levels."
  },
  {
   "property": "C06",
   "status": "proved",
   "theorems": [
    "Verif.Props.C06_descendants",
    "Verif.Props.C06_descendants_mem",
    "Verif.Props.C06_unknown_ids",
    "Verif.Props.C06_orphans_of_unknown_id_kept"
   ],
   "note": "Orphans of a requested but absent id are kept (witness theorem)."
  },
  {
   "property": "C07",
   "status": "proved",
   "theorems": [
    "Verif.Props.C07_ancestors"
   ],
   "note": ""
  },
  {
   "property": "C08",
   "status": "proved",
   "theorems": [
    "Verif.Props.C08_no_orphans_kept",
    "Verif.Props.C08_no_childless_kept",
    "Verif.Props.C08_idempotent",
    "Verif.Props.C08_idempotent_exact"
   ],
   "note": "The second reduction is claimed when no level has become empty; otherwise it raises (C05_empty_level_error)."
  },
  {
   "property": "C09",
   "status": "proved",
   "theorems": [
    "Verif.Props.C09_check_parent_child",
    "Verif.Props.C09_zero_iff_consistent",
    "Verif.Props.C09_empty_level_error"
   ],
   "note": ""
  },
  {
   "property": "C10",
   "status": "partial",
   "theorems": [
    "Verif.Props.C10_repair_partial",
    "Verif.Props.C10_repair_iff",
    "Verif.Props.C10_consistent_unchanged",
    "Verif.Props.C10_full_false"
   ],
   "note": "Violated by the code: groups of missing flashes and groups without events survive the repair. Full statement C10_full, refuted by C10_full_false; C10_repair_iff says exactly for which files the repair works."
  },
  {
   "property": "C100",
   "status": "partial",
   "theorems": [
    "Verif.Props.C100_partial",
    "Verif.Props.C100_exact",
    "Verif.Props.C100_full_false"
   ],
   "note": "Proved for plot_glm_grid. False for plot_glm of the examples with data in memory: missing values of the plotted fields become zero in the dataset (C100_exact says exactly which)."
  },
  {
   "property": "C101",
   "status": "partial",
   "theorems": [
    "Verif.Props.C101_partial",
    "Verif.Props.C101_exact",
    "Verif.Props.C101_same_minute",
    "Verif.Props.C101_blank",
    "Verif.Props.C101_never",
    "Verif.Props.C101_full_false"
   ],
   "note": "False: open_glm_time_series gives data that is computed on demand, whose maximum plot_glm cannot format, so the program never makes an image (C101_never). Given plots that succeed: names have minutes, so that the last time of each minute remains (C101_exact, C101_same_minute), and an output directory with a blank or colon fails (C101_blank)."
  },
  {
   "property": "C102",
   "status": "proved",
   "theorems": [
    "Verif.Props.C102_flash",
    "Verif.Props.C102_missing"
   ],
   "note": ""
  },
  {
   "property": "C103",
   "status": "proved",
   "theorems": [
    "Verif.Props.C103_bounds",
    "Verif.Props.C103_none"
   ],
   "note": ""
  },
  {
   "property": "C104",
   "status": "proved",
   "theorems": [
    "Verif.Props.C104_series",
    "Verif.Props.C104_unscaled"
   ],
   "note": "Counts are stored and read as the attributes of the variables say (xarray is not modelled beyond that). Values above 65535 steps are excluded: what becomes of them depends on numpy."
  },
  {
   "property": "C105",
   "status": "proved",
   "theorems": [
    "Verif.Props.C105_sums",
    "Verif.Props.C105_minimum"
   ],
   "note": "Average areas: see C43."
  },
  {
   "property": "C106",
   "status": "proved",
   "theorems": [
    "Verif.Props.C106_energy",
    "Verif.Props.C106_image"
   ],
   "note": "The condition on the grid is the conclusion of C94, proved there for footprints whose cells the search finds."
  },
  {
   "property": "C107",
   "status": "partial",
   "theorems": [
    "Verif.Props.C107_full_false",
    "Verif.Props.C107_log_partial",
    "Verif.Props.C107_lightning_partial",
    "Verif.Props.C107_none_partial",
    "Verif.Props.C107_shape_partial",
    "Verif.Props.C107_products"
   ],
   "note": "The numbers are right for all frames; the time has a blank instead of T for exactly the frames without lightning in the lassos. The test of a position against the lassos is a parameter (lmatools), sums are exact. C107_products: three of the eight products have file names that the gridder does not write."
  },
  {
   "property": "C108",
   "status": "proved",
   "theorems": [
    "Verif.Props.C108_sum",
    "Verif.Props.C108_counts",
    "Verif.Props.C108_min",
    "Verif.Props.C108_single",
    "Verif.Props.C108_float32",
    "Verif.Props.C108_frames",
    "Verif.Props.C108_counts_sharp",
    "Verif.Props.C108_counts_stop"
   ],
   "note": "For any rounding with relative error u (C108_sum), and for round to nearest even with 24 significant bits (C108_single, C108_float32). Sums have to stay below 2^126, the range of the exponent is otherwise not modelled."
  },
  {
   "property": "C109",
   "status": "partial",
   "theorems": [
    "Verif.Props.C109_full_false",
    "Verif.Props.C109_written_partial",
    "Verif.Props.C109_lattice_partial",
    "Verif.Props.C109_options_partial",
    "Verif.Props.C109_shift"
   ],
   "note": "The coordinates that are written pass for all sectors, resolutions and tilings (C109_written_partial). Read back from the files (16 bits, steps of 56 microradian, always the offset of the 2 km full disk) they pass if they are on the grid of the imager (C109_lattice_partial); around the nadir exactly for 2 and 10 km (C109_options_partial); with 4 and 8 km all pixels are read 28 microradian too far west and north (C109_shift), with 0.5 and 1 km the spacing is off. get_GOESR_grid of lmatools is a parameter."
  },
  {
   "property": "C11",
   "status": "partial",
   "theorems": [
    "Verif.Props.C11_check_tree_fails",
    "Verif.Props.C11_empty_opens_partial",
    "Verif.Props.C11_half_empty_fails",
    "Verif.Props.C11_full_false"
   ],
   "note": "Violated with default options: AttributeError for every file with an empty level. Proved: check_tree off and all levels empty opens; otherwise ValueError."
  },
  {
   "property": "C110",
   "status": "proved",
   "theorems": [
    "Verif.Props.C110_selected",
    "Verif.Props.C110_understood",
    "Verif.Props.C110_lonlat_no_margin"
   ],
   "note": "A grid in longitude and latitude has no margin (C110_lonlat_no_margin): a flash with centroid just outside of it is not counted though its events are inside."
  },
  {
   "property": "C111",
   "status": "partial",
   "theorems": [
    "Verif.Props.C111_full_false",
    "Verif.Props.C111_flags",
    "Verif.Props.C111_sector",
    "Verif.Props.C111_times_partial",
    "Verif.Props.C111_name_partial",
    "Verif.Props.C111_variables_partial",
    "Verif.Props.C111_complete_partial",
    "Verif.Props.C111_scene_partial",
    "Verif.Props.C111_resolution_partial",
    "Verif.Props.C111_series_partial",
    "Verif.Props.C111_products_partial"
   ],
   "note": "Violated by the code in two places: every file announces six quality flags and lists two (C111_flags), and a file of a sector that is none of the known ones has the name of mesoscale sector 1 and states Custom (C111_sector says that exactly these do). All other clauses are proved."
  },
  {
   "property": "C112",
   "status": "partial",
   "theorems": [
    "Verif.Props.C112_full_false",
    "Verif.Props.C112_parse",
    "Verif.Props.C112_program",
    "Verif.Props.C112_refused",
    "Verif.Props.C112_files_apart",
    "Verif.Props.C112_unknown",
    "Verif.Props.C112_abbreviated",
    "Verif.Props.C112_ambiguous",
    "Verif.Props.C112_corner",
    "Verif.Props.C112_meso"
   ],
   "note": "Violated by the code in two places: --corner_points is accepted and never changes what the program does (C112_corner), and for a mesoscale sector the centre is taken as longitude and latitude, not as coordinates of the fixed grid as the help says (C112_meso). All other clauses are proved."
  },
  {
   "property": "C113",
   "status": "partial",
   "theorems": [
    "Verif.Props.C113_full_false",
    "Verif.Props.C113_double",
    "Verif.Props.C113_whole_partial",
    "Verif.Props.C113_multiple_partial",
    "Verif.Props.C113_decimal_partial"
   ],
   "note": "Violated by the code: int(width/dx) truncates, so --width 0.6 --dx 0.2 gives 2 boxes (C113_full_false). Proved: the rounding is that of doubles (C113_double); the number is right for whole kilometres (C113_whole_partial), for exact doubles (C113_multiple_partial), and unless the size is within one part in 2^51 of a whole number of boxes; it is off by at most one always, and for a whole number of boxes is right or one too small (C113_decimal_partial). Overflow and underflow are not modelled."
  },
  {
   "property": "C114",
   "status": "partial",
   "theorems": [
    "Verif.Props.C114_full_false",
    "Verif.Props.C114_order",
    "Verif.Props.C114_boxes_partial",
    "Verif.Props.C114_exact_partial"
   ],
   "note": "Violated by the code: the number of boxes is a truncated quotient, so the 1500 rows of the continental US sector at 2 km are cut into tiles of 749 and 751 rows (C114_full_false). Proved: order, shared edges and exact bounds for all domains (C114_order); every tile but the last has the whole quotient of boxes, or one less if the division is even, and the last has the rest (C114_boxes_partial); where the numbers are short enough the tiles are those of C47 (C114_exact_partial)."
  },
  {
   "property": "C115",
   "status": "partial",
   "theorems": [
    "Verif.Props.C115_full_false",
    "Verif.Props.C115_single",
    "Verif.Props.C115_near_partial"
   ],
   "note": "Violated by the code: the unscaled counts are truncated, not rounded, so count 40000 becomes 40001 and count 65535 becomes 0 (C115_full_false). Proved exactly for attributes in single precision, as in the product: the lower half of the counts is restored, the upper half is one too large, the largest becomes the smallest (C115_single). For either precision every count is off by at most one, but the largest may become the smallest (C115_near_partial)."
  },
  {
   "property": "C116",
   "status": "proved",
   "theorems": [
    "Verif.Props.C116_frame",
    "Verif.Props.C116_order",
    "Verif.Props.C116_timedelta",
    "Verif.Props.C116_edges",
    "Verif.Props.C116_aggregate",
    "Verif.Props.C116_chunks"
   ],
   "note": "C116_aggregate and C116_chunks say that the functions in doubles are those of the model of whole numbers, of which C20, C42 and C43 speak."
  },
  {
   "property": "C117",
   "status": "partial",
   "theorems": [
    "Verif.Props.C117_full_false",
    "Verif.Props.C117_area_partial",
    "Verif.Props.C117_minutes"
   ],
   "note": "Violated by the code: int(dx*dy*1e12) truncates, so the label for 10 km boxes (280 microradians) says 78399 instead of 78400 (C117_full_false). Proved: the area is right or one too small, and the minutes are right (C117_area_partial); any length is given to the nearest tenth of a minute (C117_minutes)."
  },
  {
   "property": "C118",
   "status": "proved",
   "theorems": [
    "Verif.Props.C118_lookup",
    "Verif.Props.C118_pad_needed",
    "Verif.Props.C118_one_cell"
   ],
   "note": "For exact numbers. The default padding of two cells is the least that works (C118_pad_needed). A grid one cell across is an IndexError (C118_one_cell). The function is documented as incomplete and untested; nothing calls it."
  },
  {
   "property": "C119",
   "status": "proved",
   "theorems": [
    "Verif.Props.C119_lines"
   ],
   "note": ""
  },
  {
   "property": "C12",
   "status": "proved",
   "theorems": [
    "Verif.Props.C12_derived_variables",
    "Verif.Props.C12_counts_sum",
    "Verif.Props.C12_flash_events_sum"
   ],
   "note": ""
  },
  {
   "property": "C120",
   "status": "proved",
   "theorems": [
    "Verif.Props.C120_writes",
    "Verif.Props.C120_raises"
   ],
   "note": "The shapes that the trimming needs (a grid at least as large as its padding) are those of C48."
  },
  {
   "property": "C121",
   "status": "partial",
   "theorems": [
    "Verif.Props.C121_full_false",
    "Verif.Props.C121_exact"
   ],
   "note": "Violated by the code: the function has no return statement, and the quotient is the wrong way round (C121_exact)."
  },
  {
   "property": "C122",
   "status": "proved",
   "theorems": [
    "Verif.Props.C122_area",
    "Verif.Props.C122_near",
    "Verif.Props.C122_share",
    "Verif.Props.C122_energy",
    "Verif.Props.C122_conserved",
    "Verif.Props.C122_mesh"
   ],
   "note": "Products, differences, sums in any order, quotients and weighting are rounded; coordinates are given exactly. Overflow and underflow are not modelled."
  },
  {
   "property": "C123",
   "status": "proved",
   "theorems": [
    "Verif.Props.C123_file",
    "Verif.Props.C123_tree",
    "Verif.Props.C123_newer"
   ],
   "note": "Versions of xarray without the argument inplace raise a TypeError and nothing is written (C123_newer). Reading numbers is a parameter. Assumes that the file holds the dataset that is written to it."
  },
  {
   "property": "C124",
   "status": "proved",
   "theorems": [
    "Verif.Props.C124_cell",
    "Verif.Props.C124_same",
    "Verif.Props.C124_interval",
    "Verif.Props.C124_rows"
   ],
   "note": "The mean of the locations of a row is exact here."
  },
  {
   "property": "C125",
   "status": "proved",
   "theorems": [
    "Verif.Props.C125_file",
    "Verif.Props.C125_spectra",
    "Verif.Props.C125_no_intervals",
    "Verif.Props.C125_missing"
   ],
   "note": "flash_size_stats is a parameter; without intervals the program ends with a ValueError."
  },
  {
   "property": "C126",
   "status": "partial",
   "theorems": [
    "Verif.Props.C126_full_false",
    "Verif.Props.C126_query_partial",
    "Verif.Props.C126_positions",
    "Verif.Props.C126_corners",
    "Verif.Props.C126_lookup_partial",
    "Verif.Props.C126_lookup_exact",
    "Verif.Props.C126_missing"
   ],
   "note": "Two parts fail: the documented query has latitude first, but the tree has longitude first; load_pixel_lookup returns five things where three are documented, so that assigning them to three names is a ValueError. Queries with longitude first, files of positions and tables of corners are proved."
  },
  {
   "property": "C127",
   "status": "proved",
   "theorems": [
    "Verif.Props.C127_exact",
    "Verif.Props.C127_cells",
    "Verif.Props.C127_energy"
   ],
   "note": "The rows of the lookup table are exact (C128 rounds them). Overflow and underflow are not modelled. The mean point of a footprint, from which its cells are searched, is rounded; a footprint so large that a rounding of its mean changes which of its pieces are found is excluded (SearchStable; room_stable: a margin of the rounding error inside two cells suffices)."
  },
  {
   "property": "C128",
   "status": "proved",
   "theorems": [
    "Verif.Props.C128_table",
    "Verif.Props.C128_grids",
    "Verif.Props.C128_energy",
    "Verif.Props.C128_image",
    "Verif.Props.C128_exact"
   ],
   "note": "A footprint so large that a rounding of its mean changes which of its pieces are found is excluded (SearchStable). Edges of cells need not be equally far apart, only at least dx. The locations of discretize_2d_location are those of exact arithmetic (C124 treats them). Overflow and underflow are not modelled. The footprints around all events must lie on the grid and be convex (FileFl)."
  },
  {
   "property": "C129",
   "status": "proved",
   "theorems": [
    "Verif.Props.C129_tiles",
    "Verif.Props.convexClip_beside",
    "Verif.Props.rectClip_beside"
   ],
   "note": "Exact arithmetic. Both calls are assumed to complete: every chunk of flashes has a footprint with a part on the padded grid (otherwise C68). Events that the table puts together are at one place (see C93), footprints reach at most two boxes from their mean. The division by the extent densities comes afterwards and is cell by cell (C37)."
  },
  {
   "property": "C13",
   "status": "proved",
   "theorems": [
    "Verif.Props.C13_subset_flashes",
    "Verif.Props.C13_no_data_error"
   ],
   "note": ""
  },
  {
   "property": "C130",
   "status": "proved",
   "theorems": [
    "Verif.Props.C130_order",
    "Verif.Props.C130_apart",
    "Verif.Props.C130_order_any",
    "Verif.Props.C130_apart_any"
   ],
   "note": "Exact arithmetic; the files meet the conditions of C93 (FileOk) or (the theorems _any) are without defects, with events of a pixel at any places and footprints of any size."
  },
  {
   "property": "C131",
   "status": "proved",
   "theorems": [
    "Verif.Props.C131_stricter",
    "Verif.Props.C131_from_files"
   ],
   "note": "Exact arithmetic; the files meet the conditions of C93 (FileOk) for both criteria."
  },
  {
   "property": "C132",
   "status": "proved",
   "theorems": [
    "Verif.Props.C132_average",
    "Verif.Props.C132_average_any",
    "Verif.Props.C132_from_files"
   ],
   "note": "Exact arithmetic; the files meet the conditions of C93 (FileOk) or (C132_average_any) are without defects, with events of a pixel at any places and footprints of any size. C132_from_files says it of the images of calls for files as recorded."
  },
  {
   "property": "C133",
   "status": "partial",
   "theorems": [
    "Verif.Props.C133_energy_partial",
    "Verif.Props.C133_image_partial",
    "Verif.Props.C133_rounded_partial",
    "Verif.Props.C133_image_rounded_partial",
    "Verif.Props.C133_no_data",
    "Verif.Props.C133_full_false",
    "Verif.Props.C133_from_files_partial"
   ],
   "note": "False for a file without lightning, which cannot be opened by total_energy_in_L2 (AttributeError, C11 and C73). Proved for files with lightning; the comparison with the image needs the conditions of C94 and a call that selects the same flashes. In double and single precision both sums hold up to a part of the energy that does not depend on the energies (C133_rounded_partial, C133_image_rounded_partial, with the conditions of C128)."
  },
  {
   "property": "C134",
   "status": "proved",
   "theorems": [
    "Verif.Props.C134_bounded",
    "Verif.Props.C134_from_files",
    "Verif.Props.C134_any_size",
    "Verif.Props.C134_frames"
   ],
   "note": "C134_any_size and, for each frame, C134_frames: for files as they are recorded, whatever the sizes of boxes, footprints and flashes (as C168_files). Exact arithmetic; every chunk needs a footprint with a part on the grid (else C68). C94_exact gives the value of every cell."
  },
  {
   "property": "C135",
   "status": "partial",
   "theorems": [
    "Verif.Props.C135_interrupted_partial",
    "Verif.Props.C135_again_partial",
    "Verif.Props.C135_broken",
    "Verif.Props.C135_default_path",
    "Verif.Props.C135_full_false"
   ],
   "note": "False: an image is written under its final name, so every call leaves a broken image if it is stopped while it writes one. Proved: there is at most one such image, all before it are whole, everything else is as before; calling again with the same paths gives what the call would have given. With the default path calling again does not mend the broken image, because the path has the time of the call in it."
  },
  {
   "property": "C136",
   "status": "partial",
   "theorems": [
    "Verif.Props.C136_exact",
    "Verif.Props.C136_partial",
    "Verif.Props.C136_race",
    "Verif.Props.C136_full_false"
   ],
   "note": "False: write_goes_imagery looks for the directory and then makes it, and a call that makes it in between ends the other with FileExistsError, for every two calls that need the same new directory. Proved for all schedules: this is the only way to fail, and calls of which no two need the same new directory all succeed and write what they would write alone."
  },
  {
   "property": "C137",
   "status": "proved",
   "theorems": [
    "Verif.Props.C137_end_to_end",
    "Verif.Props.C137_convex"
   ],
   "note": "In exact arithmetic. The clipper, the table of footprints, the opening of files and lmatools' np.arange of the edges are parameters; what is assumed of them is in the hypotheses. C137_convex assumes of the clipper only that it makes the intersection of a convex polygon and a rectangle, and of the footprints that they are convex and centred at their events. Centroid densities are left to lmatools and are not stated."
  },
  {
   "property": "C138",
   "status": "partial",
   "theorems": [
    "Verif.Props.C138_full_false",
    "Verif.Props.C138_partial_success",
    "Verif.Props.C138_partial_prefix",
    "Verif.Props.C138_partial_unreadable",
    "Verif.Props.C138_partial_no_events",
    "Verif.Props.C138_partial_options",
    "Verif.Props.C138_partial_one_tile",
    "Verif.Props.C138_partial_centred"
   ],
   "note": "Refuted: tiles are written one by one, and an exception while a later tile is read leaves the images of the earlier ones. Proved: the images left behind are exactly those of the tiles before the one that fails; files that cannot be opened, files without events, missing options and calls for one tile leave nothing; with footprints centred on their events no call fails. Exceptions in the middle of one file (a full disk) are not modelled."
  },
  {
   "property": "C139",
   "status": "proved",
   "theorems": [
    "Verif.Props.C139_same_pixels",
    "Verif.Props.C139_one_value",
    "Verif.Props.C139_from_files"
   ],
   "note": "Under the hypotheses of C137, which convex footprints centred at their events meet (convex_centred). In exact arithmetic; calls that are compared are written with the same choice of scaled integers."
  },
  {
   "property": "C14",
   "status": "partial",
   "theorems": [
    "Verif.Props.C14_one_event_in_view_partial",
    "Verif.Props.C14_unmixed_partial",
    "Verif.Props.C14_iff",
    "Verif.Props.C14_full_false"
   ],
   "note": "Violated by the code: a flash with one event in view keeps its other events."
  },
  {
   "property": "C140",
   "status": "proved",
   "theorems": [
    "Verif.Props.C140_files_add",
    "Verif.Props.C140_from_files",
    "Verif.Props.C140_any_size"
   ],
   "note": "Under the hypotheses of C137, for energies that are not negative. Averages are compared in images that are not scaled. C140_any_size holds whatever the sizes and positions of boxes, footprints and flashes (as C168_files), for images with the same pixels."
  },
  {
   "property": "C141",
   "status": "proved",
   "theorems": [
    "Verif.Props.C141_energy",
    "Verif.Props.C141_convex",
    "Verif.Props.C141_from_files"
   ],
   "note": "Under the hypotheses of C137. C141_convex assumes of the clipper only that it makes the intersection of a convex polygon and a rectangle."
  },
  {
   "property": "C142",
   "status": "proved",
   "theorems": [
    "Verif.Props.C142_from_files"
   ],
   "note": "In exact arithmetic, for files in which every group has a flash and an event, so that the tree can be repaired (C10). Of the clipper it is assumed only that it makes the intersection of a convex polygon and a rectangle. Energies and areas are those that the dataset has after the corrections of values, which are C51 to C53."
  },
  {
   "property": "C143",
   "status": "proved",
   "theorems": [
    "Verif.Props.C143_units"
   ],
   "note": "In exact arithmetic, with the hypotheses of C142. Energies are taken not to be missing. Files of the time in which times are corrected are taken to have a consistent tree (C64)."
  },
  {
   "property": "C144",
   "status": "partial",
   "theorems": [
    "Verif.Props.C144_exact",
    "Verif.Props.C144_never",
    "Verif.Props.C144_full_false",
    "Verif.Props.C144_mesh_partial"
   ],
   "note": "Refuted: the assertions use the names nx and ny, which are not defined, so every call raises NameError; without assertions the function returns None, because it has no return statement. Proved: it never returns coordinates, and the mesh that it converts has every pixel once."
  },
  {
   "property": "C145",
   "status": "proved",
   "theorems": [
    "Verif.Props.C145_same_lightning"
   ],
   "note": "Under the hypotheses of C143, which both calls meet; for the six fields of C139."
  },
  {
   "property": "C146",
   "status": "proved",
   "theorems": [
    "Verif.Props.C146_arguments",
    "Verif.Props.C146_command_line"
   ],
   "note": "Under the hypotheses of C143 on the files and the grid. As C49 says, only the first tile is written as requested with regard to scaled integers; the others are always scaled, and the theorem says so. The one frame of the call and the readers of files are parameters."
  },
  {
   "property": "C147",
   "status": "partial",
   "theorems": [
    "Verif.Props.C147_full_false",
    "Verif.Props.C147_exact",
    "Verif.Props.C147_partial",
    "Verif.Props.C147_command_line_partial",
    "Verif.Props.C147_lost",
    "Verif.Props.C147_no_directory"
   ],
   "note": "Holds for a single tile, and when the path template asks for the name of the data set and no two tiles are made in the same second, from the call and from the command line, for every template of C148 that names a file in a directory. The name of a file holds the second in which it was made but not the tile: if the template does not ask for the name, or all tiles of a grid that is divided evenly are made within one second, only the last is left on the disk, C147_lost. In general the last tile with the same letter and second is left, C147_exact. A template without a directory, such as the name alone, is refused, C147_no_directory."
  },
  {
   "property": "C148",
   "status": "proved",
   "theorems": [
    "Verif.Props.C148_template",
    "Verif.Props.C148_one_path",
    "Verif.Props.C148_unknown_name",
    "Verif.Props.C148_unclosed",
    "Verif.Props.C148_unopened",
    "Verif.Props.C148_same_frame",
    "Verif.Props.C148_name_last",
    "Verif.Props.C148_start_template"
   ],
   "note": "For times from the year 1000 on (before, the C library does not pad years). Attributes, indices, conversions and widths in a field, an empty format, and other directives of strftime, are not covered: parameters of the model."
  },
  {
   "property": "C149",
   "status": "partial",
   "theorems": [
    "Verif.Props.C149_full_false",
    "Verif.Props.C149_exact",
    "Verif.Props.C149_partial",
    "Verif.Props.C149_contained_partial"
   ],
   "note": "Lightning is put at the product time of its file, not at its own time: the image of a frame shows the files whose product time is in the frame, C149_exact and C149_partial. In full for energies if no file is across an edge of the frames, C149_contained_partial. Refuted by a file that starts in a frame and whose events are after it. The selection of times by lmatools (start included, end excluded, any order) is assumed, and that opening a file keeps its product time."
  },
  {
   "property": "C15",
   "status": "partial",
   "theorems": [
    "Verif.Props.C15_check_off_always_fails",
    "Verif.Props.C15_full_false",
    "Verif.Props.C15_criteria_select_partial"
   ],
   "note": "Violated by the code for every input (UnboundLocalError)."
  },
  {
   "property": "C150",
   "status": "proved",
   "theorems": [
    "Verif.Props.C150_apart",
    "Verif.Props.C150_exact",
    "Verif.Props.C150_pixels",
    "Verif.Props.C150_position",
    "Verif.Props.C150_grids"
   ],
   "note": "C150_exact discharges the assumption on places of C93 and of the theorems that follow from it. C150_position: the mean of the places in double precision, added up in any order, is within 4e-14 radians of the pixel for up to a thousand events at it. Events of one pixel whose places differ (by less than 28 microradians) may still get two entries, shown by an example."
  },
  {
   "property": "C151",
   "status": "partial",
   "theorems": [
    "Verif.Props.C151_full_false",
    "Verif.Props.C151_partial",
    "Verif.Props.C151_late_partial"
   ],
   "note": "Refuted as stated: intervals are open on the left and closed on the right, so the frame that starts with an interval is counted in the interval before and the frame that starts at its end is included. C151_partial: it holds for intervals that begin and end just before the long frame (by less than a short frame, e.g. 1 ns). C151_late_partial: an interval aligned with the frames shows the image of the frame that begins and ends one short frame later. Values are taken without packing (scale_and_offset False); average_group_area is left out (C43), as are the centroid densities, which are a parameter."
  },
  {
   "property": "C152",
   "status": "partial",
   "theorems": [
    "Verif.Props.C152_stamp",
    "Verif.Props.C152_format",
    "Verif.Props.C152_order",
    "Verif.Props.C152_full_false",
    "Verif.Props.C152_exact",
    "Verif.Props.C152_partial"
   ],
   "note": "The part without a format is refuted: the second is that of the rounded time, the milliseconds are those of the time itself, so in the last half microsecond of a second a time is shown that is almost a second late. C152_exact: exactly then; C152_partial: at all other times it is right. The format that the program sets (C152_format) has no such defect. The zone is the same for the records that are compared."
  },
  {
   "property": "C153",
   "status": "proved",
   "theorems": [
    "Verif.Props.C153_energy",
    "Verif.Props.C153_area",
    "Verif.Props.C153_times",
    "Verif.Props.C153_all_rows",
    "Verif.Props.C153_tree",
    "Verif.Props.C153_parents"
   ],
   "note": "Each theorem is about any setting of the other options. That with all options on this is the opening of C138 to C149 is openFull_eq."
  },
  {
   "property": "C154",
   "status": "partial",
   "theorems": [
    "Verif.Props.C154_same",
    "Verif.Props.C154_others",
    "Verif.Props.C154_full_false",
    "Verif.Props.C154_exact",
    "Verif.Props.C154_partial",
    "Verif.Props.C154_once",
    "Verif.Props.C154_half",
    "Verif.Props.C154_early",
    "Verif.Props.C154_refused"
   ],
   "note": "The part about the given dataset is refuted: with a consistent tree, or without the check, it becomes the opened one, with new variables and units (C154_exact), so it can not be given again (C154_once), and a call that fails in the last step leaves it half done (C154_half). A dataset whose tree is repaired is not changed (C154_partial). Datasets of the time of the bad times are refused with the correction of times on (C154_refused), as a dataset is not a file; C154_same has the opposite as a hypothesis. Datasets that are given are as read from a file."
  },
  {
   "property": "C155",
   "status": "proved",
   "theorems": [
    "Verif.Props.C155_finer_grid",
    "Verif.Props.C155_any_width_false",
    "Verif.Props.C155_from_files"
   ],
   "note": "Wider footprints lose energy on the finer grid (C155_any_width_false). From what the pixels hold (C137) and the area of a footprint cut along a line (Proofs/Refine). For the average areas without scaled integers. The clipper is the exact intersection with a convex footprint, as in C141_convex."
  },
  {
   "property": "C156",
   "status": "proved",
   "theorems": [
    "Verif.Props.C156_down",
    "Verif.Props.C156_same_level",
    "Verif.Props.C156_up"
   ],
   "note": "The chains of parents through a reduced dataset are the chains of the whole one (ClosedUp). Without the condition on the first step the second raises AttributeError (an example is beside the theorems)."
  },
  {
   "property": "C157",
   "status": "partial",
   "theorems": [
    "Verif.Props.C157_together",
    "Verif.Props.C157_denser",
    "Verif.Props.C157_largest",
    "Verif.Props.C157_least_partial",
    "Verif.Props.C157_full_false",
    "Verif.Props.C157_from_files_partial",
    "Verif.Props.C157_least_dense_partial",
    "Verif.Props.C157_least_files_partial"
   ],
   "note": "Proved from the sums behind each pixel (PixelHolds): the places of a flash are among those of its groups, and averages are weighted by shares. The last clause fails with scaled integers: a density below 1/16 is raised to 1/16 before the area is divided by it, so the average can be below the minimum (C157_full_false, a call for the sample files). It can fail only at pixels whose density is shown as 1/16 (C157_least_dense_partial, and C157_least_files_partial for files)."
  },
  {
   "property": "C158",
   "status": "proved",
   "theorems": [
    "Verif.Props.C158_densities",
    "Verif.Props.C158_areas",
    "Verif.Props.C158_energy"
   ],
   "note": "From the description of pixels by lightning (C145): each field is a sum over the flashes that count, of which only the part it depends on is compared. Factors are for images without scaled integers, where small values are not raised."
  },
  {
   "property": "C159",
   "status": "partial",
   "theorems": [
    "Verif.Props.C159_agree",
    "Verif.Props.C159_quiet",
    "Verif.Props.C159_range",
    "Verif.Props.C159_full_false"
   ],
   "note": "Proved except for the range of the average group area, which aggregate calculates from the flash areas: C159_full_false has groups of 20 square kilometres with an average of 187.5."
  },
  {
   "property": "C16",
   "status": "partial",
   "theorems": [
    "Verif.Props.C16_unique_partial",
    "Verif.Props.C16_collisions",
    "Verif.Props.C16_field_of_view",
    "Verif.Props.C16_full_false"
   ],
   "note": "Violated by the code in one column: the last, incomplete column of a row shares its ids with the first column of the next row. C16_collisions says exactly which ids collide; C16_field_of_view shows that no GLM event is affected with the default settings."
  },
  {
   "property": "C160",
   "status": "proved",
   "theorems": [
    "Verif.Props.C160_pixels",
    "Verif.Props.C160_everywhere",
    "Verif.Props.C160_once",
    "Verif.Props.C160_from_files",
    "Verif.Props.C160_once_from_files"
   ],
   "note": "Points are counted in half-open boxes by the density grids of lmatools (a parameter of the model). Centroids are assumed near the events of their flash; the padding of tiles is what makes the count independent of tiles."
  },
  {
   "property": "C161",
   "status": "partial",
   "theorems": [
    "Verif.Props.C161_exact",
    "Verif.Props.C161_everywhere",
    "Verif.Props.C161_contained_partial",
    "Verif.Props.C161_once",
    "Verif.Props.C161_from_files",
    "Verif.Props.C161_once_from_files",
    "Verif.Props.C161_full_false"
   ],
   "note": "C161_full_false: extents are put at the product time of the file, centroids at the start of the flash; a flash that starts 65 s after the base date in a file whose product time is before 60 s has its extent in the first minute and its centroid in the second. C161_contained_partial: in full if no file is across the edges of the frame. C161_exact and C161_once hold for all files."
  },
  {
   "property": "C162",
   "status": "proved",
   "theorems": [
    "Verif.Props.C162_sums",
    "Verif.Props.C162_energy",
    "Verif.Props.C162_from_files",
    "Verif.Props.C162_energy_from_files",
    "Verif.Props.C162_any_size"
   ],
   "note": "For files whose footprints and flashes are within the padding of tiles, as C140 and C141; a frame picks the files by product time. frames_sample is a numerical case. C162_any_size, for a frame cut into two, holds whatever the sizes and positions of boxes, footprints and flashes (as C168_frames_files), for images with the same pixels."
  },
  {
   "property": "C163",
   "status": "proved",
   "theorems": [
    "Verif.Props.C163_more_files",
    "Verif.Props.C163_longer_frame",
    "Verif.Props.C163_any_size"
   ],
   "note": "For files as they are recorded that meet the conditions of C142 (FileCall), with areas and energies that are not negative. C163_any_size holds whatever the sizes and positions of boxes, footprints and flashes (as C168_files), for images with the same pixels."
  },
  {
   "property": "C164",
   "status": "proved",
   "theorems": [
    "Verif.Props.C164_near",
    "Verif.Props.C164_dark",
    "Verif.Props.C164_frames",
    "Verif.Props.C164_dark_frames",
    "Verif.Props.C164_any_size",
    "Verif.Props.C164_dark_any_size",
    "Verif.Props.C164_dark_frames_any_size"
   ],
   "note": "For calls that meet the conditions of C143 (UnitsCall), frames for those of C142 (FileCall). C164_any_size, C164_dark_any_size and C164_dark_frames_any_size hold whatever the sizes and positions of boxes, footprints and flashes (as C168_files); C164_any_size compares images with the same pixels, since what is shown there can depend on the range of the image (C168)."
  },
  {
   "property": "C165",
   "status": "proved",
   "theorems": [
    "Verif.Props.C165_extents",
    "Verif.Props.C165_frames",
    "Verif.Props.C165_at_most",
    "Verif.Props.C165_frames_at_most"
   ],
   "note": "For files as they are recorded that meet the conditions of C142 (FileCall); C165_at_most and, for each frame, C165_frames_at_most whatever the sizes and positions of boxes, footprints and flashes (as C168_files)."
  },
  {
   "property": "C166",
   "status": "partial",
   "theorems": [
    "Verif.Props.C166_full_false",
    "Verif.Props.C166_exact",
    "Verif.Props.C166_partial",
    "Verif.Props.C166_missing",
    "Verif.Props.C166_succeeds",
    "Verif.Props.C166_files"
   ],
   "note": "The full statement is refuted by a flash of two events six milliradians apart in a domain of two by two tiles. The other theorems assume what C139 assumes of a call and its opened files, except that nothing is assumed of the sizes of flashes; C166_succeeds and C166_files are for files as they are recorded (as C142)."
  },
  {
   "property": "C167",
   "status": "partial",
   "theorems": [
    "Verif.Props.C167_full_false",
    "Verif.Props.C167_exact",
    "Verif.Props.C167_partial",
    "Verif.Props.C167_at_most",
    "Verif.Props.C167_succeeds",
    "Verif.Props.C167_files"
   ],
   "note": "The full statement is refuted by a footprint of one and a half milliradians on a grid with boxes of a fifth of a milliradian. The other theorems assume of opened files only that they are not defective, that flashes have areas, that the table of pixels keeps places apart, and that footprints have an area and are centred at their places; C167_succeeds and C167_files are for files as they are recorded (as C142)."
  },
  {
   "property": "C168",
   "status": "partial",
   "theorems": [
    "Verif.Props.C168_full_false",
    "Verif.Props.C168_succeeds",
    "Verif.Props.C168_exact",
    "Verif.Props.C168_at_most",
    "Verif.Props.C168_files_succeed",
    "Verif.Props.C168_files",
    "Verif.Props.C168_frames_succeed",
    "Verif.Props.C168_frames",
    "Verif.Props.C168_frames_files"
   ],
   "note": "The full statement is refuted by a flash of one event next to the seam between two tiles of boxes of five milliradians. The other theorems are as for C167, without its condition that boxes are at most half as large as the padding; C168_files_succeed and C168_files are for files as they are recorded (as C142), C168_frames_succeed, C168_frames and C168_frames_files for calls with several frames (as C149). Tiles still have at least two columns and one row."
  },
  {
   "property": "C169",
   "status": "partial",
   "theorems": [
    "Verif.Props.C169_full_false",
    "Verif.Props.C169_iff",
    "Verif.Props.C169_only_if",
    "Verif.Props.C169_nothing_written"
   ],
   "note": "The full statement is refuted by two by two boxes in four tiles. C169_only_if and C169_nothing_written are for all files and options of a call on the fixed grid; C169_iff is for files as they are recorded, under the assumptions of C168_files without those about the number of boxes."
  },
  {
   "property": "C17",
   "status": "proved",
   "theorems": [
    "Verif.Props.C17_conservation"
   ],
   "note": ""
  },
  {
   "property": "C18",
   "status": "proved",
   "theorems": [
    "Verif.Props.C18_parent_statistics",
    "Verif.Props.C18_no_data",
    "Verif.Props.C18_missing_parent"
   ],
   "note": ""
  },
  {
   "property": "C19",
   "status": "proved",
   "theorems": [
    "Verif.Props.C19_chunk_independence"
   ],
   "note": "At the level of the lookup tables; the gridded positions of a location are means per chunk, so their count-weighted sum is what is conserved."
  },
  {
   "property": "C20",
   "status": "proved",
   "theorems": [
    "Verif.Props.C20_chunks",
    "Verif.Props.C20_order",
    "Verif.Props.C20_selection_order"
   ],
   "note": ""
  },
  {
   "property": "C21",
   "status": "proved",
   "theorems": [
    "Verif.Props.C21_filter_iff_asked"
   ],
   "note": ""
  },
  {
   "property": "C22",
   "status": "proved",
   "theorems": [
    "Verif.Props.C22_value",
    "Verif.Props.C22_empty",
    "Verif.Props.C22_affine",
    "Verif.Props.C22_translation",
    "Verif.Props.C22_reversal",
    "Verif.Props.C22_start",
    "Verif.Props.C22_dilation",
    "Verif.Props.C22_rectangle",
    "Verif.Props.C22_chord",
    "Verif.Props.C22_vectorized"
   ],
   "note": "Over exact rationals; float rounding is not modelled."
  },
  {
   "property": "C23",
   "status": "proved",
   "theorems": [
    "Verif.Props.C23_quads",
    "Verif.Props.C23_tiling"
   ],
   "note": ""
  },
  {
   "property": "C24",
   "status": "partial",
   "theorems": [
    "Verif.Props.C24_full_false",
    "Verif.Props.C24_exact",
    "Verif.Props.C24_inside_partial",
    "Verif.Props.C24_outside_empty",
    "Verif.Props.C24_arranged",
    "Verif.Props.C24_arranged_inside_partial"
   ],
   "note": "Violated by the code: a box that reaches past the grid on both sides, or past one side, loses cells. C24_exact says exactly which cells are returned. C24_arranged and C24_arranged_inside_partial say it for meshes with x along the first or the second dimension and edges that run up or down."
  },
  {
   "property": "C25",
   "status": "proved",
   "theorems": [
    "Verif.Props.C25_neighbourhood",
    "Verif.Props.C25_coverage",
    "Verif.Props.C25_outside_empty",
    "Verif.Props.C25_arranged",
    "Verif.Props.C25_narrow_missed"
   ],
   "note": "A polygon whose mean vertex is outside of the grid gets no cell at all (C25_outside_empty). C25_arranged is for meshes with x along either dimension and edges that run up or down; with x along the first dimension the x edges must span more than 2e-8, or nothing is found (C25_narrow_missed)."
  },
  {
   "property": "C26",
   "status": "partial",
   "theorems": [
    "Verif.Props.C26_full_false",
    "Verif.Props.C26_exact",
    "Verif.Props.C26_small_quads_partial"
   ],
   "note": "Violated by the code for quads that contain the box without having a corner in its range. C26_exact says exactly which quads are returned."
  },
  {
   "property": "C27",
   "status": "partial",
   "theorems": [
    "Verif.Props.C27_full_false",
    "Verif.Props.C27_explicit_box",
    "Verif.Props.C27_single_cell",
    "Verif.Props.C27_grid_partial",
    "Verif.Props.C27_irregular_partial",
    "Verif.Props.C27_searched_points"
   ],
   "note": "Violated by the code for an explicit bounding box (UnboundLocalError) and for a single candidate cell (ValueError); proved for everything else. The clipper is a parameter."
  },
  {
   "property": "C28",
   "status": "proved",
   "theorems": [
    "Verif.Props.C28_share",
    "Verif.Props.C28_levels",
    "Verif.Props.C28_chunk",
    "Verif.Props.C28_conserved",
    "Verif.Props.C28_rectangles",
    "Verif.Props.C28_convex"
   ],
   "note": "Energy of a row = energy times share of its footprint that the clipper finds; conserved whenever the clipper finds the whole footprint (its specification, a hypothesis), and with no assumption on clipper or search for rectangular footprints (C28_rectangles) and for convex ones (C28_convex, with a clipper that convexClip_points shows to be the exact intersection)."
  },
  {
   "property": "C29",
   "status": "proved",
   "theorems": [
    "Verif.Props.C29_fractions",
    "Verif.Props.C29_grid",
    "Verif.Props.C29_transposed_negative"
   ],
   "note": "The identity holds with signed cell areas; for meshes with x along the first dimension the fractions are negative (C29_transposed_negative)."
  },
  {
   "property": "C30",
   "status": "proved",
   "theorems": [
    "Verif.Props.C30_rows",
    "Verif.Props.C30_fake_ids",
    "Verif.Props.C30_lut",
    "Verif.Props.C30_lut_missing",
    "Verif.Props.C30_levels",
    "Verif.Props.C30_levels_missing"
   ],
   "note": ""
  },
  {
   "property": "C31",
   "status": "proved",
   "theorems": [
    "Verif.Props.C31_cells",
    "Verif.Props.C31_totals",
    "Verif.Props.C31_no_pieces"
   ],
   "note": "A chunk with no piece on the grid raises ValueError (C31_no_pieces)."
  },
  {
   "property": "C32",
   "status": "partial",
   "theorems": [
    "Verif.Props.C32_full_false",
    "Verif.Props.C32_exact",
    "Verif.Props.C32_partial",
    "Verif.Props.C32_off_grid",
    "Verif.Props.C32_pipeline"
   ],
   "note": "Violated: numpy's buffered += adds only the last of several rows of one data set that name the same cell. C32_exact says exactly what is added; C32_partial covers rows with distinct cells on the grid, which is what the regrouped pieces of a chunk are."
  },
  {
   "property": "C33",
   "status": "partial",
   "theorems": [
    "Verif.Props.C33_full_false",
    "Verif.Props.C33_exact",
    "Verif.Props.C33_partial",
    "Verif.Props.C33_order_partial"
   ],
   "note": "Violated: of several rows of one data set that name the same cell only the last counts. C33_exact says exactly what is stored; C33_partial covers distinct cells per data set."
  },
  {
   "property": "C34",
   "status": "proved",
   "theorems": [
    "Verif.Props.C34_forwarded",
    "Verif.Props.C34_effect"
   ],
   "note": ""
  },
  {
   "property": "C35",
   "status": "proved",
   "theorems": [
    "Verif.Props.C35_contents",
    "Verif.Props.C35_tables"
   ],
   "note": ""
  },
  {
   "property": "C36",
   "status": "partial",
   "theorems": [
    "Verif.Props.C36_full_false",
    "Verif.Props.C36_exact",
    "Verif.Props.C36_lut_partial",
    "Verif.Props.C36_one_missing"
   ],
   "note": "Violated for the plain gridder, which unpacks three flash grids into four names; C36_exact characterises the set-ups that succeed; C36_one_missing: one more flash grid would be enough."
  },
  {
   "property": "C37",
   "status": "partial",
   "theorems": [
    "Verif.Props.C37_partial",
    "Verif.Props.C37_exact",
    "Verif.Props.C37_full_false"
   ],
   "note": "False with scaling for densities below one step: the density is raised in place before it divides the area. Proved unscaled, and scaled for densities and averages of at least one step; the exact value is proved for all."
  },
  {
   "property": "C38",
   "status": "partial",
   "theorems": [
    "Verif.Props.C38_partial",
    "Verif.Props.C38_exact",
    "Verif.Props.C38_full_false"
   ],
   "note": "False for the average areas: the grids are divided in place, so a second call divides again. All other fields are proved equal, and the exact value of the averages after the second call is proved."
  },
  {
   "property": "C39",
   "status": "proved",
   "theorems": [
    "Verif.Props.C39_scaling",
    "Verif.Props.C39_tables"
   ],
   "note": "Over the rationals; rounding is half to even."
  },
  {
   "property": "C40",
   "status": "proved",
   "theorems": [
    "Verif.Props.C40_orientation",
    "Verif.Props.C40_onto",
    "Verif.Props.C40_directions"
   ],
   "note": "For the write half; that the accumulated value belongs to the cell with these indices is part of the gridding theorems (C25-C36). The value is the accumulated one for unscaled fields that are not averages; scaled fields and averages are in C37-C39."
  },
  {
   "property": "C41",
   "status": "proved",
   "theorems": [
    "Verif.Props.C41_frames",
    "Verif.Props.C41_written"
   ],
   "note": ""
  },
  {
   "property": "C42",
   "status": "partial",
   "theorems": [
    "Verif.Props.C42_partial",
    "Verif.Props.C42_exact",
    "Verif.Props.C42_full_false",
    "Verif.Props.C42_intervals",
    "Verif.Props.C42_fields",
    "Verif.Props.C42_success"
   ],
   "note": "False without start_end: the intervals are open to the left and start at the earliest time, so the earliest frames are lost (and a single frame is an exception). Proved with start_end before the first frame; the exact set of lost frames is proved."
  },
  {
   "property": "C43",
   "status": "partial",
   "theorems": [
    "Verif.Props.C43_flash_partial",
    "Verif.Props.C43_group_exact",
    "Verif.Props.C43_full_false"
   ],
   "note": "Proved for flashes. False for groups: the total group area is computed from the flash area and flash density."
  },
  {
   "property": "C44",
   "status": "partial",
   "theorems": [
    "Verif.Props.C44_partial",
    "Verif.Props.C44_exact",
    "Verif.Props.C44_full_false"
   ],
   "note": "An image with a single column (or no row) raises an exception. Totality, priority and naming are proved for all others."
  },
  {
   "property": "C45",
   "status": "proved",
   "theorems": [
    "Verif.Props.C45_roundtrip",
    "Verif.Props.C45_distinct"
   ],
   "note": "Platform names without an underscore and without '.nc'; years from 1000, the C library of Linux does not pad earlier ones."
  },
  {
   "property": "C46",
   "status": "proved",
   "theorems": [
    "Verif.Props.C46_stamps"
   ],
   "note": ""
  },
  {
   "property": "C47",
   "status": "proved",
   "theorems": [
    "Verif.Props.C47_tiles",
    "Verif.Props.C47_rounding"
   ],
   "note": "Over exact rationals; C47_rounding covers a number of boxes that rounding made too small."
  },
  {
   "property": "C48",
   "status": "proved",
   "theorems": [
    "Verif.Props.C48_trim"
   ],
   "note": ""
  },
  {
   "property": "C49",
   "status": "partial",
   "theorems": [
    "Verif.Props.C49_full_false",
    "Verif.Props.C49_exact",
    "Verif.Props.C49_partial",
    "Verif.Props.C49_program"
   ],
   "note": "Violated: the first tile removes scale_and_offset from the caller's dictionary, later tiles get the default."
  },
  {
   "property": "C50",
   "status": "partial",
   "theorems": [
    "Verif.Props.C50_full_false",
    "Verif.Props.C50_exact",
    "Verif.Props.C50_partial"
   ],
   "note": "Violated by clip_events=False, which still selects clipping; without the option no tile can be processed."
  },
  {
   "property": "C51",
   "status": "proved",
   "theorems": [
    "Verif.Props.C51_positive",
    "Verif.Props.C51_again",
    "Verif.Props.C51_success"
   ],
   "note": "Missing energies stay missing."
  },
  {
   "property": "C52",
   "status": "partial",
   "theorems": [
    "Verif.Props.C52_partial",
    "Verif.Props.C52_exact",
    "Verif.Props.C52_once",
    "Verif.Props.C52_full_false"
   ],
   "note": "False: if the group or event energy is not in J, the energies before it have already been converted when the exception is raised. The outcome for every combination of units is proved."
  },
  {
   "property": "C53",
   "status": "partial",
   "theorems": [
    "Verif.Props.C53_partial",
    "Verif.Props.C53_exact",
    "Verif.Props.C53_again",
    "Verif.Props.C53_full_false"
   ],
   "note": "Units other than m2 and km2 are kept. Everything else is proved."
  },
  {
   "property": "C54",
   "status": "partial",
   "theorems": [
    "Verif.Props.C54_partial",
    "Verif.Props.C54_exact",
    "Verif.Props.C54_raw",
    "Verif.Props.C54_all_events",
    "Verif.Props.C54_equivalent",
    "Verif.Props.C54_unsigned",
    "Verif.Props.C54_full_false"
   ],
   "note": "False: the largest count (65535, read as -1) with any positive rounding error is truncated to 0 and becomes the smallest count. The restored count is proved for all counts and errors."
  },
  {
   "property": "C55",
   "status": "proved",
   "theorems": [
    "Verif.Props.C55_switch",
    "Verif.Props.C55_valid",
    "Verif.Props.C55_revisionFor"
   ],
   "note": ""
  },
  {
   "property": "C56",
   "status": "partial",
   "theorems": [
    "Verif.Props.C56_partial",
    "Verif.Props.C56_exact",
    "Verif.Props.C56_full_false"
   ],
   "note": "False: the function calls ltg_ellps_rev, which does not exist (its name is ltg_ellpse_rev), so every call is a NameError. The table it would read from is right (C56_partial)."
  },
  {
   "property": "C57",
   "status": "proved",
   "theorems": [
    "Verif.Props.C57_direction",
    "Verif.Props.C57_place_exists",
    "Verif.Props.C57_symmetry",
    "Verif.Props.C57_nadir",
    "Verif.Props.C57_orientation"
   ],
   "note": "Over the real numbers; the direction is for latitudes between the poles."
  },
  {
   "property": "C58",
   "status": "proved",
   "theorems": [
    "Verif.Props.C58_lookup",
    "Verif.Props.C58_mixed"
   ],
   "note": ""
  },
  {
   "property": "C59",
   "status": "proved",
   "theorems": [
    "Verif.Props.C59_corners",
    "Verif.Props.C59_no_missing",
    "Verif.Props.C59_inflate",
    "Verif.Props.C59_missing_iff",
    "Verif.Props.C59_nadir",
    "Verif.Props.C59_official_table"
   ],
   "note": "The scipy interpolators are parameters."
  },
  {
   "property": "C60",
   "status": "proved",
   "theorems": [
    "Verif.Props.C60_frames",
    "Verif.Props.C60_success"
   ],
   "note": "int and float are parameters; white space is ASCII; lines end with LF or CR LF, the last one possibly without."
  },
  {
   "property": "C61",
   "status": "proved",
   "theorems": [
    "Verif.Props.C61_series"
   ],
   "note": ""
  },
  {
   "property": "C62",
   "status": "proved",
   "theorems": [
    "Verif.Props.C62_resolution",
    "Verif.Props.C62_custom",
    "Verif.Props.C62_sector",
    "Verif.Props.C62_lonlat",
    "Verif.Props.C62_centre_needed",
    "Verif.Props.C62_times",
    "Verif.Props.C62_given"
   ],
   "note": "lmatools (views, coordinate systems) is a parameter. Files are taken to last 20 s, as the program does."
  },
  {
   "property": "C63",
   "status": "proved",
   "theorems": [
    "Verif.Props.C63_pool"
   ],
   "note": ""
  },
  {
   "property": "C64",
   "status": "partial",
   "theorems": [
    "Verif.Props.C64_partial",
    "Verif.Props.C64_exact",
    "Verif.Props.C64_otherwise",
    "Verif.Props.C64_full_false"
   ],
   "note": "False: the times are read again in the order of the file and assigned to rows that the repair has reordered, or raise ValueError if the repair removed rows. Proved for consistent files; what happens for all others is proved too."
  },
  {
   "property": "C65",
   "status": "partial",
   "theorems": [
    "Verif.Props.C65_full_false",
    "Verif.Props.C65_exact",
    "Verif.Props.C65_single_partial",
    "Verif.Props.C65_points_partial"
   ],
   "note": "Violated: the code writes the number of events of the whole chunk into every record."
  },
  {
   "property": "C66",
   "status": "proved",
   "theorems": [
    "Verif.Props.C66_chunk",
    "Verif.Props.C28_share"
   ],
   "note": ""
  },
  {
   "property": "C67",
   "status": "proved",
   "theorems": [
    "Verif.Props.C67_chunk",
    "Verif.Props.C67_chunk_min",
    "Verif.Props.C67_grids",
    "Verif.Props.C67_rectangles"
   ],
   "note": "Over exact rationals; the clipper is a parameter with its specification as hypothesis, except in C67_rectangles, which has no such hypothesis."
  },
  {
   "property": "C68",
   "status": "partial",
   "theorems": [
    "Verif.Props.C68_full_false",
    "Verif.Props.C68_exact",
    "Verif.Props.C68_partial"
   ],
   "note": "Violated: a chunk without a piece on the grid always raises ValueError."
  },
  {
   "property": "C69",
   "status": "proved",
   "theorems": [
    "Verif.Props.C69_mosaic"
   ],
   "note": "The edges that lmatools makes from bounds are a parameter with a specification, shown for np.arange."
  },
  {
   "property": "C70",
   "status": "partial",
   "theorems": [
    "Verif.Props.C70_full_false",
    "Verif.Props.C70_partial",
    "Verif.Props.C70_iff",
    "Verif.Props.C70_call_partial"
   ],
   "note": "Violated for flashes whose centroid is further from the tile than the padding."
  },
  {
   "property": "C71",
   "status": "partial",
   "theorems": [
    "Verif.Props.C71_full_false",
    "Verif.Props.C71_exact",
    "Verif.Props.C71_partial"
   ],
   "note": "Violated: for tiles of a fixed grid the list of names is always empty."
  },
  {
   "property": "C72",
   "status": "partial",
   "theorems": [
    "Verif.Props.C72_full_false",
    "Verif.Props.C72_exact",
    "Verif.Props.C72_partial"
   ],
   "note": "Violated: ellipse_rev is required, and for a fixed grid nadir_lon, output_filename_prefix and output_writer; C72_exact is an equivalence."
  },
  {
   "property": "C73",
   "status": "partial",
   "theorems": [
    "Verif.Props.C73_full_false",
    "Verif.Props.C73_exact",
    "Verif.Props.C73_partial",
    "Verif.Props.C73_no_events_error"
   ],
   "note": "Violated: opening such a file raises AttributeError (C11), so the whole call fails; a file that opens as an empty dataset is skipped."
  },
  {
   "property": "C74",
   "status": "proved",
   "theorems": [
    "Verif.Props.C74_minimum"
   ],
   "note": ""
  },
  {
   "property": "C75",
   "status": "partial",
   "theorems": [
    "Verif.Props.C75_partial",
    "Verif.Props.C75_exact",
    "Verif.Props.C75_full_false"
   ],
   "note": "False for day 366 of a year with 365 days, which is taken as the first day of the next year. Everything accepted is characterised exactly."
  },
  {
   "property": "C76",
   "status": "partial",
   "theorems": [
    "Verif.Props.C76_partial",
    "Verif.Props.C76_exact",
    "Verif.Props.C76_collision",
    "Verif.Props.C76_full_false"
   ],
   "note": "False: the prefix of a tile is ignored by the gridder for lookup tables, so tiles of equal size overwrite each other. The exact condition for equal names is proved."
  },
  {
   "property": "C77",
   "status": "partial",
   "theorems": [
    "Verif.Props.C77_partial",
    "Verif.Props.C77_exact",
    "Verif.Props.C77_full_false"
   ],
   "note": "False for a path without a directory: os.makedirs('') raises FileNotFoundError. Exact characterisation proved."
  },
  {
   "property": "C78",
   "status": "partial",
   "theorems": [
    "Verif.Props.C78_partial",
    "Verif.Props.C78_exact",
    "Verif.Props.C78_full_false"
   ],
   "note": "False: the corrections drop the encoding that they need, so opening again always raises KeyError (C78_exact)."
  },
  {
   "property": "C79",
   "status": "partial",
   "theorems": [
    "Verif.Props.C79_exact",
    "Verif.Props.C79_full_false"
   ],
   "note": "False for every possible result of the cast: missing locations become a number. The number is proved (C79_exact); locations that are not missing are C54."
  },
  {
   "property": "C80",
   "status": "proved",
   "theorems": [
    "Verif.Props.C80_injective"
   ],
   "note": "Over the real numbers."
  },
  {
   "property": "C81",
   "status": "partial",
   "theorems": [
    "Verif.Props.C81_partial",
    "Verif.Props.C81_exact",
    "Verif.Props.C81_full_false"
   ],
   "note": "False: a name with less than five underscores is an IndexError, but only ValueError is caught. Exact condition proved."
  },
  {
   "property": "C82",
   "status": "partial",
   "theorems": [
    "Verif.Props.C82_partial",
    "Verif.Props.C82_exact",
    "Verif.Props.C82_full_false"
   ],
   "note": "False without --split_events: the option clip_events is then missing, which is an error in proc_each_grid. Exact condition proved."
  },
  {
   "property": "C83",
   "status": "proved",
   "theorems": [
    "Verif.Props.C83_fixed",
    "Verif.Props.C83_custom"
   ],
   "note": "For runs that complete (see C82); lmatools, the gridder and the reader are parameters, coordinates are exact numbers."
  },
  {
   "property": "C84",
   "status": "proved",
   "theorems": [
    "Verif.Props.C84_thresholds"
   ],
   "note": "For opened datasets, whose derived counts are right (C12)."
  },
  {
   "property": "C85",
   "status": "partial",
   "theorems": [
    "Verif.Props.C85_partial",
    "Verif.Props.C85_exact",
    "Verif.Props.C85_coarse",
    "Verif.Props.C85_fine",
    "Verif.Props.C85_half",
    "Verif.Props.C85_image",
    "Verif.Props.C85_full_false"
   ],
   "note": "False for grids finer than 2 km or off the imager grid: coordinates are stored with a step of 56 microradian. No gaps, bounded error and weak order proved for all; strict order for coarser grids; exact recovery characterised."
  },
  {
   "property": "C86",
   "status": "proved",
   "theorems": [
    "Verif.Props.C86_points",
    "Verif.Props.C86_sent",
    "Verif.Props.C86_cells_unset"
   ],
   "note": "The cell columns of these records are not set by the code (C86_cells_unset); without a base date the times are missing."
  },
  {
   "property": "C87",
   "status": "partial",
   "theorems": [
    "Verif.Props.C87_exact",
    "Verif.Props.C87_count_partial",
    "Verif.Props.C87_one_polygon_partial",
    "Verif.Props.C87_events_partial",
    "Verif.Props.C87_full_false"
   ],
   "note": "False for flashes and groups whose outline has several polygons: the energy is given to every polygon. Exact sum proved; equality for outlines of one polygon and for events."
  },
  {
   "property": "C88",
   "status": "partial",
   "theorems": [
    "Verif.Props.C88_never_partial",
    "Verif.Props.C88_other_modes_partial",
    "Verif.Props.C88_full_false"
   ],
   "note": "False: NameError, datetime is not imported. The other modes complete."
  },
  {
   "property": "C89",
   "status": "partial",
   "theorems": [
    "Verif.Props.C89_exact",
    "Verif.Props.C89_partial",
    "Verif.Props.C89_generators_partial",
    "Verif.Props.C89_full_false"
   ],
   "note": "False: of several files that begin in the same second only the last is read, once for each; a file without selected flashes raises ValueError. Exact behaviour proved; the property for distinct seconds and files with selected flashes. With a numpy that does not stack generators iteration always raises TypeError (C89_generators_partial). The base classes of lmatools are modelled as stated in Model/Collection."
  },
  {
   "property": "C90",
   "status": "partial",
   "theorems": [
    "Verif.Props.C90_exact",
    "Verif.Props.C90_partial",
    "Verif.Props.C90_full_false"
   ],
   "note": "False: base_date is not passed on, the default of the base class is used. Exact behaviour proved."
  },
  {
   "property": "C91",
   "status": "partial",
   "theorems": [
    "Verif.Props.C91_exact",
    "Verif.Props.C91_partial",
    "Verif.Props.C91_full_false"
   ],
   "note": "False: events and flashes are selected independently. Proved for lassos that do not cut through flashes."
  },
  {
   "property": "C92",
   "status": "partial",
   "theorems": [
    "Verif.Props.C92_exact",
    "Verif.Props.C92_partial",
    "Verif.Props.C92_full_false"
   ],
   "note": "False: the centroid is stored. Exact behaviour proved; the property where the centroid is the place of the first event."
  },
  {
   "property": "C93",
   "status": "partial",
   "theorems": [
    "Verif.Props.C93_partial",
    "Verif.Props.C93_convex_partial",
    "Verif.Props.C93_chunk_size_partial",
    "Verif.Props.C93_exact",
    "Verif.Props.C93_full_false"
   ],
   "note": "False in full: events at different places that the table puts together are moved to their mean place, which depends on the chunk; so the grids depend on chunk_size. Proved for files in which a pixel of the table has one place, for any clipper and footprints of which the search finds all cells; every chunk needs a footprint on the grid (else C68). C93_convex_partial assumes nothing of clipper or search, for convex footprints on the grid. C93_exact says what every cell of every grid holds, for files without defects and nothing else assumed of places, chunks, clipper and search."
  },
  {
   "property": "C94",
   "status": "partial",
   "theorems": [
    "Verif.Props.C94_partial",
    "Verif.Props.C94_rectangles_partial",
    "Verif.Props.C94_convex_partial",
    "Verif.Props.C94_exact",
    "Verif.Props.C94_full_false"
   ],
   "note": "False for footprints wider than the search. Proved for any clipper whose pieces add up and footprints of which the search finds all cells; with no assumption on clipper or search for rectangular footprints of up to four cells and for convex footprints that reach at most two cells from their mean. C94_exact says what every cell and the whole image hold for any clipper, search and footprint."
  },
  {
   "property": "C95",
   "status": "partial",
   "theorems": [
    "Verif.Props.C95_exact",
    "Verif.Props.C95_no_data_ends",
    "Verif.Props.C95_partial",
    "Verif.Props.C95_check_off",
    "Verif.Props.C95_loop",
    "Verif.Props.C95_full_false"
   ],
   "note": "False: the check of the tree that GLMDataset does by default repairs such files, so KeyError is never raised and no name is ever printed; a file without data ends the program. Exact behaviour proved; with the check off the KeyError appears iff the group of an event is missing."
  },
  {
   "property": "C96",
   "status": "proved",
   "theorems": [
    "Verif.Props.C96_flash_init",
    "Verif.Props.C96_printed",
    "Verif.Props.C96_no_groups"
   ],
   "note": "With the check of the tree off, a flash without groups makes both functions fail (C96_no_groups)."
  },
  {
   "property": "C97",
   "status": "partial",
   "theorems": [
    "Verif.Props.C97_exact",
    "Verif.Props.C97_any_bounds",
    "Verif.Props.C97_partial",
    "Verif.Props.C97_iff",
    "Verif.Props.C97_altitude",
    "Verif.Props.C97_full_false"
   ],
   "note": "False: events are not filtered (the program says so in a comment). Flashes are exactly those within the bounds; the property for events holds iff every event is of a flash within the bounds. Altitudes of GLM flashes are zero."
  },
  {
   "property": "C98",
   "status": "proved",
   "theorems": [
    "Verif.Props.C98_energy",
    "Verif.Props.C98_area",
    "Verif.Props.C98_footprint",
    "Verif.Props.C98_rounded",
    "Verif.Props.C98_message",
    "Verif.Props.C98_silent",
    "Verif.Props.C98_coordinates"
   ],
   "note": "The error of the integer clipper is a parameter (area of the intersection of a convex polygon and a rectangle); C98_rounded has a concrete clipper that rounds corners to the nearest integers, for which the error is proved. Footprints below the unit of the clipper are lost (example)."
  },
  {
   "property": "C99",
   "status": "proved",
   "theorems": [
    "Verif.Props.C99_plot",
    "Verif.Props.C99_labels"
   ],
   "note": "The middle of a drawn pixel is off by dx h (1/2 - (j + 1/2)/n), because the image is stretched between the outermost pixel centres instead of edges. Maps, colours and colour bars are not modelled."
  }
 ]
}