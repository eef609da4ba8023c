{"id": "C01", "title": "Traversal construction checks its arguments and tolerates empty levels", "statement": "OneToManyTraversal(dataset, entity_id_vars, parent_id_vars) raises ValueError exactly when the number of parent variables is not one less than the number of entity variables; otherwise it succeeds for every dataset, including one in which any or all of the levels have no rows.", "quantifier": "every dataset, every number of levels, every list of entity and parent variable names", "why_tests_cant": "the arity and the emptiness pattern range over an unbounded family", "anchors": ["glmtools/io/traversal.py:OneToManyTraversal.__init__"]}
{"id": "C02", "title": "count_children reports the true number of children of every entity", "statement": "count_children(entity, child) on a hierarchy with no empty level returns one array per level strictly below entity down to and including child; the array for a level has one entry per row of the level above it, in row order, and that entry is the number of rows of the level whose parent id equals that row's id (0 for a childless row). With child omitted only the level immediately below is reported.", "quantifier": "every dataset (any number of levels and rows, any ids, orphans allowed) and every pair of levels with entity above child", "why_tests_cant": "counts must be right for every possible pattern of repeated, missing and orphan ids", "anchors": ["glmtools/io/traversal.py:OneToManyTraversal.count_children"]}
{"id": "C03", "title": "Child counts add up to the number of children", "statement": "If ids are unique at a level and every row of the next level refers to an existing parent, the counts reported by count_children for that level sum to the number of rows in the next level, and if instead some rows are orphans the sum is smaller by exactly the number of orphan rows.", "quantifier": "every pair of adjacent levels of every dataset with unique entity ids", "why_tests_cant": "a conservation law over all datasets", "anchors": ["glmtools/io/traversal.py:OneToManyTraversal.count_children", "glmtools/io/glm.py:GLMDataset.__init_parent_child_data"]}
{"id": "C04", "title": "replicate_parent_ids gives each bottom row its true ancestor", "statement": "For a hierarchy with unique ids and no orphans, replicate_parent_ids(entity, parent) returns one id per row of the level that carries the parent variable, in row order, and each id is the id reached from that row by following parent links up to the entity level.", "quantifier": "every hierarchy depth, every dataset with unique ids and no orphans, every choice of ancestor and descendant level", "why_tests_cant": "the depth of the climb and the tree shape are unbounded", "anchors": ["glmtools/io/traversal.py:OneToManyTraversal.replicate_parent_ids"]}
{"id": "C05", "title": "reduce_to_entities keeps exactly the requested entities in the requested order", "statement": "At the entity level the reduced dataset contains, for each requested id in the order given and as many times as it was requested, the row with that id, and nothing else; requested ids absent from the dataset contribute no row at that level.", "quantifier": "every dataset with no empty level, every level, and every list of requested ids, including repeated and unknown ids", "why_tests_cant": "order and replication must be kept for every request list", "anchors": ["glmtools/io/traversal.py:OneToManyTraversal.reduce_to_entities"]}
{"id": "C06", "title": "reduce_to_entities keeps exactly the descendants", "statement": "At every level below the entity level the reduced dataset holds, for each kept parent in order, all rows that refer to it in their original order, and no other row.", "quantifier": "every dataset with no empty level and with unique ids at the entity level whose orphan rows do not refer to a requested id, every level, every request", "why_tests_cant": "descendant closure must hold on every tree shape", "anchors": ["glmtools/io/traversal.py:OneToManyTraversal.reduce_to_entities"]}
{"id": "C07", "title": "reduce_to_entities keeps exactly the ancestors", "statement": "At every level above the entity level the reduced dataset holds exactly the rows that are an ancestor of a kept row, each once when ids are unique, sorted by id, no matter how often a descendant was replicated.", "quantifier": "every dataset with no empty level, every level, every request", "why_tests_cant": "ancestor closure must hold on every tree shape", "anchors": ["glmtools/io/traversal.py:OneToManyTraversal.reduce_to_entities"]}
{"id": "C08", "title": "Reducing a consistent hierarchy gives a consistent hierarchy, and again changes nothing", "statement": "If every row of the dataset has a parent, then after reduce_to_entities every row still has its parent in the reduced dataset; if in addition every non-bottom row had a child, it still has one; and reducing the result by the same ids gives the same set of rows at every level.", "quantifier": "every consistent dataset with no empty level, every level and request", "why_tests_cant": "closure is a statement about all trees and all requests", "anchors": ["glmtools/io/traversal.py:OneToManyTraversal.reduce_to_entities", "glmtools/io/glm.py:GLMDataset.get_flashes"]}
{"id": "C09", "title": "check_parent_child reports exactly the inconsistencies", "statement": "For each adjacent pair of levels check_parent_child reports the number of distinct ids at the parent level, the exact set of them without children and its size, the number of distinct ids in the child's parent variable, and the exact set of those with no parent row and its size; all the reported counts are zero iff the tree is consistent.", "quantifier": "every dataset of any depth with no empty level", "why_tests_cant": "exactness must hold for every id pattern", "anchors": ["glmtools/io/traversal.py:OneToManyTraversal.check_parent_child"]}
{"id": "C10", "title": "Opening an inconsistent file yields a self-consistent hierarchy", "statement": "After GLMDataset(filename) with check_tree left on, every group belongs to a flash in the dataset, every event belongs to a group in the dataset, every flash has a group and every group has an event, whatever the inconsistencies in the file.", "quantifier": "every file content (any ids and parent ids)", "why_tests_cant": "the repair must work for every possible corruption pattern", "anchors": ["glmtools/io/glm.py:GLMDataset.__init__", "glmtools/io/traversal.py:OneToManyTraversal.check_parent_child"]}
{"id": "C11", "title": "A file without data can be opened with default options", "statement": "GLMDataset(filename) succeeds for a file in which there are no flashes, groups and events, giving a dataset with empty derived variables.", "quantifier": "every file with an empty level, both values of check_tree", "why_tests_cant": "needs the failure of a whole family of inputs to be characterised, not one sample", "anchors": ["glmtools/io/glm.py:GLMDataset.__init__", "glmtools/io/traversal.py:OneToManyTraversal.check_parent_child"]}
{"id": "C12", "title": "Derived parent and count variables describe the tree", "statement": "After opening a consistent file, event_parent_flash_id of an event is the id of the flash of its group, flash_child_group_count, group_child_event_count and flash_child_event_count are the numbers of groups, events and events below each row, the first two sum to the numbers of groups and events, and the flash event count equals the sum of the event counts of its groups.", "quantifier": "every consistent file with data and unique flash and group ids", "why_tests_cant": "holds for all trees; a sample file shows one", "anchors": ["glmtools/io/glm.py:GLMDataset.__init_parent_child_data"]}
{"id": "C13", "title": "subset_flashes selects exactly the flashes that meet every given criterion", "statement": "subset_flashes returns the flashes for which each criterion that was given holds (strictly inside each range, at least the minimum child counts) and which have at least one event inside the sensor field of view, together with exactly their groups and events.", "quantifier": "every opened dataset with data and unique flash and group ids, every combination of present and absent criteria, every order in which the id set is iterated", "why_tests_cant": "2^6 combinations of criteria over arbitrary data and arbitrary set order", "anchors": ["glmtools/io/glm.py:GLMDataset.subset_flashes", "glmtools/io/glm.py:GLMDataset._check_event_xy"]}
{"id": "C14", "title": "A selected flash has no event outside the field of view", "statement": "Every event of the dataset returned by subset_flashes with check_event_xy=True lies strictly inside the expected field of view.", "quantifier": "every dataset and request", "why_tests_cant": "a safety property over all data", "anchors": ["glmtools/io/glm.py:GLMDataset.subset_flashes", "glmtools/io/glm.py:GLMDataset._check_event_xy"]}
{"id": "C15", "title": "subset_flashes works with the event location check switched off", "statement": "subset_flashes(check_event_xy=False) returns the flashes that meet the other criteria.", "quantifier": "every dataset and request", "why_tests_cant": "needs all requests, not one", "anchors": ["glmtools/io/glm.py:GLMDataset.subset_flashes"]}
{"id": "C16", "title": "Discretised event locations identify a pixel uniquely", "statement": "Two events get the same location id from discretize_2d_location iff they fall in the same row and the same column of the discretisation, for locations inside the given ranges.", "quantifier": "every pair of points in the ranges, every scale", "why_tests_cant": "infinitely many pairs of points, and the failing pairs sit on one boundary column", "anchors": ["glmtools/io/glm.py:discretize_2d_location"]}
{"id": "C17", "title": "Pre-aggregation conserves energy and event count and uses every event once", "statement": "In the table built by get_lutevents every event contributes to exactly one location row; the row energies and event counts sum to the total event energy and the number of events; row ids are distinct and sorted.", "quantifier": "every dataset and discretisation", "why_tests_cant": "conservation over all inputs", "anchors": ["glmtools/io/glm.py:get_lutevents", "glmtools/io/glm.py:event_lut_iter"]}
{"id": "C18", "title": "Pre-aggregated flash and group statistics count each parent once per location", "statement": "A location row's flash count (group count) is the number of distinct flashes (groups) with an event there, its total flash area (group area) is the sum of their areas counted once each, and its minimum flash area is the smallest of them.", "quantifier": "every consistent dataset and discretisation", "why_tests_cant": "distinctness over arbitrary repetition patterns", "anchors": ["glmtools/io/glm.py:get_lutevents", "glmtools/io/glm.py:event_lut_iter"]}
{"id": "C19", "title": "Per-location counts do not depend on how flashes are chunked", "statement": "Summing, over the chunks made by read_flashes, the per-location flash counts, group counts, event counts, energies and areas gives the same totals as processing all flashes in one chunk; the minimum area over chunks is the same too.", "quantifier": "every consistent dataset and every chunk size", "why_tests_cant": "all chunk sizes times all datasets", "anchors": ["glmtools/io/mimic_lma.py:read_flashes", "glmtools/io/mimic_lma.py:fast_fixed_grid_read_chunk", "glmtools/io/glm.py:event_lut_iter"]}
{"id": "C20", "title": "read_flashes processes every selected flash exactly once in bounded chunks", "statement": "The flash id chunks that read_flashes processes concatenate to the selected flash ids in order, none is empty, they differ in size by at most one, and each holds fewer than twice chunk_size ids.", "quantifier": "every opened dataset with data and unique flash and group ids, every set of criteria and every positive chunk size", "why_tests_cant": "arithmetic over all n and chunk sizes", "anchors": ["glmtools/io/mimic_lma.py:read_flashes"]}
{"id": "C21", "title": "Filtering is applied only when asked for", "statement": "read_flashes subsets the dataset iff at least one of the six criteria is given, and then passes all of them on; with none given, every flash in the file is processed.", "quantifier": "every combination of criteria and every opened dataset with data and unique flash and group ids", "why_tests_cant": "combinatorial over criteria and data", "anchors": ["glmtools/io/mimic_lma.py:read_flashes"]}
{"id": "C22", "title": "Polygon area obeys the laws of signed area", "statement": "poly_area is translation invariant, changes sign when the vertex order is reversed, does not depend on the starting vertex, scales with the square of a dilation, and is width times height for an axis-aligned rectangle; vectorized_poly_area gives the same value for every polygon of a stack.", "quantifier": "every polygon with any number of vertices", "why_tests_cant": "algebraic identities over all polygons", "anchors": ["glmtools/grid/clipping.py:poly_area", "glmtools/grid/clipping.py:vectorized_poly_area"]}
{"id": "C23", "title": "The quads of a mesh tile it", "statement": "polys_from_quadmesh turns an (N+1)x(M+1) vertex mesh into NxM quads, quad (i,j) having the four mesh vertices around it; the signed quad areas sum to the signed area of the mesh outline, so no area is lost or double counted.", "quantifier": "every mesh of every size, regular or not", "why_tests_cant": "a telescoping identity for all sizes", "anchors": ["glmtools/grid/clipping.py:polys_from_quadmesh", "glmtools/grid/clipping.py:vectorized_poly_area"]}
{"id": "C24", "title": "The regular-grid lookup returns every cell that can touch the box", "statement": "For a regular mesh, quads_in_bbox returns every cell whose area meets the requested box.", "quantifier": "every regular grid and every box", "why_tests_cant": "the failing boxes are those that reach past the grid edge", "anchors": ["glmtools/grid/clipping.py:QuadMeshSubset._quads_in_bbox_fast"]}
{"id": "C25", "title": "The point lookup on a regular grid covers a neighbourhood of two cells", "statement": "For a point inside a regular grid, quads_nearest returns the cell containing the point and all existing cells within two rows and columns of it, each once, with indices in range; so a polygon that extends no more than two cell widths from the point is covered up to the grid edge.", "quantifier": "every regular grid and every interior point", "why_tests_cant": "all grids, all points", "anchors": ["glmtools/grid/clipping.py:QuadMeshSubset.quads_nearest", "glmtools/grid/clipping.py:QuadMeshSubset._quads_in_bbox_fast"]}
{"id": "C26", "title": "The irregular-mesh box search finds every quad that meets the box", "statement": "For a mesh that is not regular, quads_in_bbox returns each candidate quad that meets the box.", "quantifier": "every mesh and box", "why_tests_cant": "quads larger than the box are easy to forget", "anchors": ["glmtools/grid/clipping.py:QuadMeshSubset.quads_in_bbox"]}
{"id": "C27", "title": "Split pieces stay paired with their mesh cell and source polygon", "statement": "QuadMeshPolySlicer.slice returns one entry per input polygon, in order; inside an entry the k-th piece, area fraction and index pair belong together: the piece was clipped from that polygon by the cell with that index, and all pieces of all candidate cells are present.", "quantifier": "every list of polygons, every candidate cell set, any number of pieces per cell (including none or several), any pool scheduling", "why_tests_cant": "misalignment shows only for particular piece-count patterns", "anchors": ["glmtools/grid/clipping.py:QuadMeshPolySlicer.slice", "glmtools/grid/clipping.py:QuadMeshPolySlicer.clip_polys_by_one_poly", "glmtools/grid/clipping.py:make_sub_polys"]}
{"id": "C28", "title": "Splitting conserves energy", "statement": "If the pieces of each event polygon partition it, the split energies of an event sum to the energy of the event, and the total split energy is the total energy.", "quantifier": "every set of events and every partition into pieces", "why_tests_cant": "conservation over all splits", "anchors": ["glmtools/grid/split_events.py:replicate_and_weight_split_child_dataset", "glmtools/io/mimic_lma.py:replicate_and_weight_split_child_dataset_new", "glmtools/grid/clipping.py:make_sub_polys"]}
{"id": "C29", "title": "Mesh fractions are consistent with polygon fractions", "statement": "The fraction of a mesh cell covered by a piece, times the cell area, equals the fraction of the polygon in that piece times the polygon area.", "quantifier": "every polygon, cell and piece", "why_tests_cant": "identity over all real geometry, with signs", "anchors": ["glmtools/grid/clipping.py:QuadMeshPolySlicer.quad_frac_from_poly_frac_area"]}
{"id": "C30", "title": "Split rows line up with the properties of their parent", "statement": "In the split dataset every row carries the id, geometry and weighted property values of one piece, where the property values are those of the row's own parent, in the order of the pieces.", "quantifier": "every dataset and every assignment of pieces to parents", "why_tests_cant": "alignment of two replications over all inputs", "anchors": ["glmtools/grid/split_events.py:replicate_and_weight_split_child_dataset", "glmtools/grid/split_events.py:split_event_data", "glmtools/io/mimic_lma.py:replicate_and_weight_split_child_dataset_new"]}
{"id": "C31", "title": "Regrouping split pieces by target cell merges exactly the pieces of one cell", "statement": "_fake_lma_events_from_split_glm_lutevents gives one row per occupied target cell; additive quantities are summed over the pieces of that cell, the minimum area is the least, and totals are unchanged.", "quantifier": "every set of pieces with any cell indices", "why_tests_cant": "an injectivity argument over all index pairs", "anchors": ["glmtools/io/mimic_lma.py:_fake_lma_events_from_split_glm_lutevents"]}
{"id": "C32", "title": "Accumulation adds every value to its cell", "statement": "After sending any sequence of datasets to accumulate_var_on_grid_direct_idx each grid cell has grown by the sum of the values sent to it.", "quantifier": "every sequence of datasets", "why_tests_cant": "unbounded histories; failing ones repeat a cell inside one dataset", "anchors": ["glmtools/grid/accumulate.py:accumulate_var_on_grid_direct_idx"]}
{"id": "C33", "title": "Minimum accumulation yields the smallest value and ignores order", "statement": "After sending any sequence of datasets with positive values, each cell holds the least value sent to it, or 0 if none was sent, independent of how the values were split into datasets and of their order.", "quantifier": "every sequence of datasets of positive values", "why_tests_cant": "unbounded histories", "anchors": ["glmtools/grid/accumulate.py:accumulate_minvar_on_grid_direct_idx"]}
{"id": "C34", "title": "Only non-empty frames reach the accumulators", "statement": "select_dataset forwards the chosen table of each frame that has at least one row, in order, and nothing else.", "quantifier": "every sequence of frames", "why_tests_cant": "unbounded histories", "anchors": ["glmtools/grid/accumulate.py:select_dataset"]}
{"id": "C35", "title": "Every grid has its own name, unit, description and storage type", "statement": "The eight grids of the gridder are paired position by position with name, file suffix, description, units and storage format; each average is divided by the extent density of its own kind and no other grid is divided.", "quantifier": "all configurations of the gridder", "why_tests_cant": "a table must be right in every position for all data", "anchors": ["glmtools/grid/make_grids.py:GLMlutGridder", "glmtools/grid/make_grids.py:GLMGridder.output_setup"]}
{"id": "C36", "title": "The non-LUT gridder can be set up", "statement": "GLMGridder.pipeline_setup succeeds.", "quantifier": "every configuration", "why_tests_cant": "needs all configurations", "anchors": ["glmtools/grid/make_grids.py:GLMGridder.pipeline_setup", "glmtools/grid/make_grids.py:GLMGridder.flash_pipeline_setup"]}
{"id": "C37", "title": "Written averages are total over extent density", "statement": "In the file written by write_goes_imagery, average flash (group) area in a cell is accumulated area divided by accumulated flash (group) extent density, and 0 where nothing was accumulated.", "quantifier": "every grid content and both scale_and_offset settings", "why_tests_cant": "aliasing of in-place updates appears only for small densities", "anchors": ["glmtools/io/imagery.py:write_goes_imagery", "glmtools/io/imagery.py:glm_image_to_var"]}
{"id": "C38", "title": "Writing the same grids twice gives the same file", "statement": "Calling write_grids twice produces the same images.", "quantifier": "every grid content", "why_tests_cant": "history dependence", "anchors": ["glmtools/grid/make_grids.py:GLMlutGridder.write_grids", "glmtools/io/imagery.py:write_goes_imagery"]}
{"id": "C39", "title": "Scaling never hides lightning", "statement": "In a variable prepared by glm_image_to_var with scaling, a cell is stored as the missing value 0 iff its value was zero; every positive value up to the largest storable one is stored as a non-zero count and decodes to within half a step, or to one step if it was smaller.", "quantifier": "every value and every scale", "why_tests_cant": "all reals", "anchors": ["glmtools/io/imagery.py:glm_image_to_var", "glmtools/io/imagery.py:glm_scaling"]}
{"id": "C40", "title": "Images are oriented north up and west left with matching coordinates", "statement": "The value accumulated in the cell of column c and row r of the target mesh is written at the pixel whose x and y coordinates are the centre of that cell, with x increasing and y decreasing along the image axes.", "quantifier": "every grid size and cell", "why_tests_cant": "index transposition must be right for all non-square sizes", "anchors": ["glmtools/io/imagery.py:write_goes_imagery", "glmtools/grid/make_grids.py:GLMlutGridder", "glmtools/grid/accumulate.py:accumulate_var_on_grid_direct_idx", "glmtools/grid/clipping.py:QuadMeshSubset"]}
{"id": "C41", "title": "One image per frame and frames abut", "statement": "write_goes_imagery writes one file per consecutive pair of time edges, in order; each file's start is the previous file's end.", "quantifier": "every list of edges", "why_tests_cant": "all lengths", "anchors": ["glmtools/io/imagery.py:write_goes_imagery", "glmtools/io/imagery.py:pairwise"]}
{"id": "C42", "title": "Aggregation uses every frame exactly once", "statement": "aggregate(glm, minutes) adds every frame of the time series to exactly one output interval, so totals of additive fields are conserved.", "quantifier": "every set of frame times and every interval length", "why_tests_cant": "boundary frames; all alignments of times and intervals", "anchors": ["glmtools/io/imagery.py:aggregate"]}
{"id": "C43", "title": "Aggregated average areas are density-weighted means", "statement": "aggregate's average_flash_area (average_group_area) of an interval is the mean of the frame values weighted by flash (group) extent density.", "quantifier": "every time series", "why_tests_cant": "all data", "anchors": ["glmtools/io/imagery.py:aggregate"]}
{"id": "C44", "title": "Scene inference is total and its answer can always be named", "statement": "infer_scene_from_dataset returns one of FULL, CONUS, MESO1, OTHER for every coordinate extent, in the documented priority, and get_glm_global_attrs accepts every such answer.", "quantifier": "every coordinate extent", "why_tests_cant": "all extents", "anchors": ["glmtools/io/imagery.py:infer_scene_from_dataset", "glmtools/io/imagery.py:get_glm_global_attrs"]}
{"id": "C45", "title": "Product file names round-trip through the parser", "statement": "parse_glm_filename applied to the dataset_name made by get_glm_global_attrs returns the platform and the start, end and creation times truncated to whole seconds; different start seconds give different names.", "quantifier": "every platform name without underscore or '.nc' and every time in years 1000-9999", "why_tests_cant": "all dates including leap days and year ends", "anchors": ["glmtools/io/imagery.py:get_glm_global_attrs", "glmtools/io/glm.py:parse_glm_filename", "glmtools/io/glm.py:parse_glm_filename_time"]}
{"id": "C46", "title": "File name times keep tenths of a second", "statement": "parse_glm_filename_time inverts the GOES-R time stamp format sYYYYDDDHHMMSSt for every valid time.", "quantifier": "every valid time", "why_tests_cant": "all dates including day 366", "anchors": ["glmtools/io/glm.py:parse_glm_filename_time"]}
{"id": "C47", "title": "Tiles cover the domain without overlap", "statement": "subdivide_bnd(bnd, delta, s) returns s+1 edges from the lower to the upper bound, each interior tile is a whole number of grid boxes, and every grid box lies in exactly one tile.", "quantifier": "every domain, grid spacing and number of tiles", "why_tests_cant": "arithmetic over all sizes", "anchors": ["glmtools/grid/make_grids.py:subdivide_bnd", "glmtools/grid/make_grids.py:subdivided_fixed_grid"]}
{"id": "C48", "title": "Trimming the padding restores the tile", "statement": "Grids and coordinates written for a padded tile are those of the unpadded tile: the trimmed arrays have the tile's length and the k-th trimmed cell is the k-th cell of the tile; with zero padding nothing is removed.", "quantifier": "every tile size and pad, including 0", "why_tests_cant": "negative slice arithmetic, 0 is special", "anchors": ["glmtools/grid/make_grids.py:GridOutputPreprocess.get_pad_slices", "glmtools/grid/make_grids.py:GridOutputPreprocess.capture_write_call", "glmtools/grid/make_grids.py:subdivided_fixed_grid"]}
{"id": "C49", "title": "All tiles are written with the options the caller gave", "statement": "Every tile produced by grid_GLM_flashes is written with the scale_and_offset and padding options of the call, independent of its position in the sequence of tiles.", "quantifier": "every number of tiles and every options dictionary", "why_tests_cant": "shared mutable state across an unbounded sequence", "anchors": ["glmtools/grid/make_grids.py:grid_GLM_flashes", "glmtools/grid/make_grids.py:subdivided_fixed_grid", "glmtools/grid/make_grids.py:GLMlutGridder.write_grids"]}
{"id": "C50", "title": "clip_events=False selects the unclipped gridder", "statement": "grid_GLM_flashes uses polygon clipping iff the clip_events option is true.", "quantifier": "every options dictionary", "why_tests_cant": "presence versus truth of an option, for all dictionaries", "anchors": ["glmtools/grid/make_grids.py:grid_GLM_flashes", "glmtools/grid/make_grids.py:proc_each_grid"]}
{"id": "C51", "title": "No event has zero energy after opening", "statement": "After opening with default options every event has positive energy in nJ: energies of at least one quantisation step are kept (times 1e9), smaller ones become half a step; applying the correction again changes nothing.", "quantifier": "every dataset with positive offset plus scale", "why_tests_cant": "all values", "anchors": ["glmtools/io/glm.py:GLMDataset._eliminate_zero_energy", "glmtools/io/glm.py:GLMDataset._change_energy_units"]}
{"id": "C52", "title": "Energy unit conversion happens once or not at all", "statement": "_change_energy_units converts all three energies from J to nJ, or raises ValueError and leaves the dataset unchanged.", "quantifier": "every combination of units", "why_tests_cant": "all unit combinations and histories", "anchors": ["glmtools/io/glm.py:GLMDataset._change_energy_units"]}
{"id": "C53", "title": "Areas end up in km2 whatever the input unit, and missing areas become the maximum", "statement": "After opening, group and flash areas are in km2: values in m2 are divided by 1e6 once even if the check is repeated, and missing areas are replaced by the largest representable area.", "quantifier": "every dataset", "why_tests_cant": "all values and repeated application", "anchors": ["glmtools/io/glm.py:GLMDataset._check_area_units", "glmtools/io/glm.py:GLMDataset._check_area_overflow"]}
{"id": "C54", "title": "Unsigned integers read as signed are restored", "statement": "fix_event_locations (fix_unsigned) restores the location of every event whose 16-bit unsigned count was read as signed, and leaves others unchanged; with rounding error below one count the result is off by at most one count.", "quantifier": "all 65536 counts, every scale and offset, every rounding error", "why_tests_cant": "all counts times all scales times error", "anchors": ["glmtools/io/glm.py:fix_event_locations", "glmtools/io/glm.py:fix_unsigned"]}
{"id": "C55", "title": "The lightning ellipsoid revision switches once", "statement": "ltg_ellpse_rev returns 0 for all dates before 15 Oct 2018 and 1 from then on, and both are valid for ltg_ellps_lon_lat_to_fixed_grid; any other revision raises KeyError.", "quantifier": "every date and revision number", "why_tests_cant": "all dates", "anchors": ["glmtools/io/lightning_ellipse.py:ltg_ellpse_rev", "glmtools/io/lightning_ellipse.py:ltg_ellps_lon_lat_to_fixed_grid"]}
{"id": "C56", "title": "ltg_ellps_radii returns the ellipsoid of a date", "statement": "ltg_ellps_radii(date) returns the radii of the ellipsoid valid on that date.", "quantifier": "every date", "why_tests_cant": "all dates", "anchors": ["glmtools/io/lightning_ellipse.py:ltg_ellps_radii"]}
{"id": "C57", "title": "Fixed-grid navigation is symmetric and wraps in longitude", "statement": "ltg_ellps_lon_lat_to_fixed_grid maps the sub-satellite point to (0,0); mirroring latitude negates y and keeps x; mirroring longitude about the satellite negates x and keeps y; longitudes that differ by 360 degrees give the same result when both are within the documented range; the result is the direction of the point on the lightning ellipsoid as seen from the satellite.", "quantifier": "every lon/lat, satellite longitude and revision", "why_tests_cant": "real analysis over all coordinates", "anchors": ["glmtools/io/lightning_ellipse.py:ltg_ellps_lon_lat_to_fixed_grid"]}
{"id": "C58", "title": "Pixel corner lookup keeps indices and positions together", "statement": "create_pixel_lookup returns tree points and index arrays in which the k-th index pair is the pixel whose position is the k-th tree point, listing exactly the pixels with finite position, each once.", "quantifier": "every CCD size and every pattern of missing pixels", "why_tests_cant": "alignment for all masks", "anchors": ["glmtools/io/ccd.py:create_pixel_lookup"]}
{"id": "C59", "title": "Event quads scale about the pixel", "statement": "quads_from_corner_lookup returns for every event four corners; inflating by f multiplies each corner's offset from the pixel by f, and so the quad area by f squared; with extrapolation no corner is missing.", "quantifier": "every event list, corner table and inflation", "why_tests_cant": "all geometry", "anchors": ["glmtools/io/ccd.py:quads_from_corner_lookup"]}
{"id": "C60", "title": "LCFA text parsing assigns every line to its own kind", "statement": "The flash, group and event generators yield one record per line of their own kind, in order, with the columns in the documented places, and ignore all other lines.", "quantifier": "every text file", "why_tests_cant": "all line sequences", "anchors": ["glmtools/io/convert_lcfa.py:gen_flash_data", "glmtools/io/convert_lcfa.py:gen_group_data", "glmtools/io/convert_lcfa.py:gen_event_data"]}
{"id": "C61", "title": "A time series spans its files", "statement": "open_glm_time_series gives one frame per file in the order given, and its coverage starts at the earliest start and ends at the latest end.", "quantifier": "every list of files", "why_tests_cant": "all lists", "anchors": ["glmtools/io/imagery.py:open_glm_time_series", "glmtools/io/imagery.py:gen_file_times"]}
{"id": "C62", "title": "Command-line grids are centred and have the requested number of cells", "statement": "grid_setup's bounds for a custom sector are symmetric about the requested centre and span the requested number of grid boxes; the nearest supported resolution is chosen; the time span covers the 20 s of every input file and no more, and --start and --end, if given, override its ends independently.", "quantifier": "every centre, size, resolution and file list", "why_tests_cant": "all numbers", "anchors": ["examples/grid/make_GLM_grids.py:grid_setup", "examples/grid/make_GLM_grids.py:nearest_resolution"]}
{"id": "C63", "title": "Process-pool results are collected in order", "statement": "Results of the clipping pool are those of sequential processing, in input order, for any completion order.", "quantifier": "every schedule of the worker processes", "why_tests_cant": "schedules", "anchors": ["glmtools/grid/clipping.py:QuadMeshPolySlicer.slice", "glmtools/grid/make_grids.py:grid_GLM_flashes"]}
{"id": "C64", "title": "Corrected times stay with their rows", "statement": "When the flash times of a file are re-derived because the file lacks the unsigned attribute, every row of the opened dataset has the corrected time of its own flash, group or event, also after the parent-child repair has removed or reordered rows.", "quantifier": "every file, with or without inconsistencies in its tree", "why_tests_cant": "all interactions of two repairs", "anchors": ["glmtools/io/glm.py:GLMDataset._check_and_fix_missing_unsigned_time", "glmtools/io/glm.py:GLMDataset.__init__"]}
{"id": "C65", "title": "Parent records carry their own number of events", "statement": "In the flash and group records sent to the grid, n_points is the number of events of that flash or group.", "quantifier": "every chunk", "why_tests_cant": "all numbers of flashes per chunk", "anchors": ["glmtools/io/mimic_lma.py:_fake_lma_from_glm_lutflashes", "glmtools/io/mimic_lma.py:_fake_lma_from_glm_lutgroups"]}
{"id": "C66", "title": "Extent density integrates to the footprint", "statement": "The counts handed to the grid, each multiplied by the area of its cell, sum to the count of the lookup table row times the area of its footprint on the grid.", "quantifier": "every lookup table, footprint and grid", "why_tests_cant": "all geometry", "anchors": ["glmtools/io/mimic_lma.py:replicate_and_weight_split_child_dataset_new", "glmtools/grid/split_events.py:split_event_data"]}
{"id": "C67", "title": "The gridded fields are the exact shares of the footprints", "statement": "After any number of chunks of flashes has been processed, every cell of the flash extent density, group extent density, total flash area, total group area and total energy grids holds the sum, over all lookup table rows of all chunks, of the row's value times the share that belongs to that cell (share of the cell's area for densities and areas, share of the footprint's area for energy), and the minimum flash area grid holds the least flash area of the rows with a piece in the cell; the x index of the cell is the first grid index and the y index the second.", "quantifier": "every sequence of chunks, every footprint geometry and every rectilinear grid", "why_tests_cant": "end-to-end identity over all inputs", "anchors": ["glmtools/grid/make_grids.py:GLMlutGridder.process_flashes", "glmtools/grid/make_grids.py:GLMlutGridder.flash_pipeline_setup", "glmtools/io/mimic_lma.py:fast_fixed_grid_read_chunk", "glmtools/grid/accumulate.py:accumulate_var_on_grid_direct_idx"]}
{"id": "C68", "title": "A chunk without lightning on the grid is skipped", "statement": "Reading a chunk of flashes none of which has a footprint on the target grid raises no exception and leaves all grids unchanged.", "quantifier": "every chunk, footprint geometry and grid", "why_tests_cant": "all positions of all footprints", "anchors": ["glmtools/io/mimic_lma.py:fast_fixed_grid_read_chunk", "glmtools/io/mimic_lma.py:mimic_lma_dataset_lut"]}
{"id": "C69", "title": "Trimmed tiles are a mosaic of the domain", "statement": "The tiles of a subdivided fixed grid, after the padding has been trimmed off, have coordinates that together are exactly the coordinates of the undivided domain, each once.", "quantifier": "every domain, spacing, number of tiles and padding", "why_tests_cant": "all sizes", "anchors": ["glmtools/grid/make_grids.py:subdivided_fixed_grid", "glmtools/grid/make_grids.py:GridOutputPreprocess.get_pad_slices"]}
{"id": "C70", "title": "A tile receives every flash with an event in it", "statement": "Every flash with an event inside the written part of a tile and inside the field of view is among the flashes selected for that tile.", "quantifier": "every file and every tile", "why_tests_cant": "all flash shapes and sizes", "anchors": ["glmtools/grid/make_grids.py:subdivided_fixed_grid", "glmtools/io/glm.py:GLMDataset.subset_flashes"]}
{"id": "C71", "title": "The names of the written files are returned", "statement": "grid_GLM_flashes returns, for every tile, the names of the files that it wrote.", "quantifier": "every call", "why_tests_cant": "all combinations of options", "anchors": ["glmtools/grid/make_grids.py:grid_GLM_flashes", "glmtools/grid/make_grids.py:proc_each_grid", "glmtools/grid/make_grids.py:GridOutputPreprocess.write_all"]}
{"id": "C72", "title": "Optional keyword arguments can be omitted", "statement": "grid_GLM_flashes succeeds on readable files when the target grid and clip_events are given, whatever other keyword arguments are omitted.", "quantifier": "every set of keyword arguments", "why_tests_cant": "all subsets of the options", "anchors": ["glmtools/grid/make_grids.py:grid_GLM_flashes", "glmtools/grid/make_grids.py:proc_each_grid", "glmtools/grid/make_grids.py:subdivided_fixed_grid"]}
{"id": "C73", "title": "Files without events are skipped", "statement": "A file without any event in the list of files to grid makes no difference to the result.", "quantifier": "every list of files and position in it", "why_tests_cant": "all file lists", "anchors": ["glmtools/grid/make_grids.py:proc_each_grid", "glmtools/io/glm.py:GLMDataset.__init__"]}
{"id": "C74", "title": "Aggregated minimum flash area is the least of its frames", "statement": "The minimum_flash_area that aggregate gives for an interval and pixel is the least of the values of the frames in that interval, ignoring frames without lightning there, and is missing only if all are missing.", "quantifier": "every time series, interval length and pixel", "why_tests_cant": "all data and alignments", "anchors": ["glmtools/io/imagery.py:aggregate"]}
{"id": "C75", "title": "Impossible time stamps are rejected", "statement": "Parsing the time stamp of a GLM file name succeeds only if the stamp denotes an existing time (day within its year, hour below 24, minute and second below 60), and returns that time.", "quantifier": "every stamp of a letter and fourteen digits", "why_tests_cant": "10^14 stamps", "anchors": ["glmtools/io/glm.py:parse_glm_filename_time", "glmtools/io/glm.py:parse_glm_filename"]}
{"id": "C76", "title": "Tiles are written to different files", "statement": "The tiles of a subdivided fixed grid written by one gridding call go to different files, so that no tile overwrites another.", "quantifier": "every subdivision, tile size, frame and platform", "why_tests_cant": "all subdivisions", "anchors": ["glmtools/grid/make_grids.py:subdivided_fixed_grid", "glmtools/grid/make_grids.py:GLMlutGridder.write_grids", "glmtools/io/imagery.py:write_goes_imagery"]}
{"id": "C77", "title": "Every output path works", "statement": "Writing imagery to any non-empty output path template makes the directory that the file needs, or finds it, and does not fail.", "quantifier": "every path and every set of existing directories", "why_tests_cant": "all paths", "anchors": ["glmtools/io/imagery.py:write_goes_imagery"]}
{"id": "C78", "title": "An open dataset can be opened again", "statement": "The dataset of a GLMDataset opened with default options can be passed to GLMDataset again and is not changed by that.", "quantifier": "every dataset", "why_tests_cant": "all datasets and histories", "anchors": ["glmtools/io/glm.py:GLMDataset.__init__", "glmtools/io/glm.py:GLMDataset._check_area_overflow", "glmtools/io/glm.py:GLMDataset._eliminate_zero_energy"]}
{"id": "C79", "title": "Missing locations stay missing", "statement": "fix_event_locations leaves missing (NaN) locations missing.", "quantifier": "every list of locations and every result of the cast of NaN to an integer", "why_tests_cant": "all positions, and casts that C leaves undefined", "anchors": ["glmtools/io/glm.py:fix_event_locations"]}
{"id": "C80", "title": "Navigation tells visible places apart", "statement": "Two places of the lightning ellipsoid that face the satellite and get the same fixed grid coordinates from ltg_ellps_lon_lat_to_fixed_grid are the same place: the latitudes are equal and the longitudes differ by full turns.", "quantifier": "all longitudes, latitudes between the poles, satellite longitudes and revisions", "why_tests_cant": "real analysis over all coordinates", "anchors": ["glmtools/io/lightning_ellipse.py:ltg_ellps_lon_lat_to_fixed_grid"]}
{"id": "C81", "title": "Files with any name can be gridded", "statement": "If --start and --end are given, make_GLM_grids accepts input files with non-standard names (as its log message says).", "quantifier": "every list of file names and every pair of times", "why_tests_cant": "all names", "anchors": ["examples/grid/make_GLM_grids.py:grid_setup", "glmtools/io/glm.py:parse_glm_filename"]}
{"id": "C82", "title": "The command line program runs with and without --split_events", "statement": "make_GLM_grids completes on readable files for every target grid that it can set up, whether --split_events is given or not.", "quantifier": "all option sets, file lists and grids", "why_tests_cant": "all combinations of options", "anchors": ["examples/grid/make_GLM_grids.py:grid_setup", "glmtools/grid/make_grids.py:grid_GLM_flashes", "glmtools/grid/make_grids.py:proc_each_grid"]}
{"id": "C83", "title": "The command line program grids what was asked for", "statement": "A run of make_GLM_grids on the fixed grid makes subdivide by subdivide tiles whose coordinates, without the margins, together are the target grid (for a custom domain: as many cells of the requested size as fit into the requested width and height, symmetric about the requested centre); every tile is gridded from all input files, for the time span that the options or else the names of the files give, with the requested ellipsoid, frame length and thresholds and written to the requested path.", "quantifier": "all option sets, file lists and grids for which the program completes", "why_tests_cant": "all combinations of options", "anchors": ["examples/grid/make_GLM_grids.py:grid_setup", "examples/grid/make_GLM_grids.py:nearest_resolution", "glmtools/grid/make_grids.py:grid_GLM_flashes", "glmtools/grid/make_grids.py:proc_each_grid", "glmtools/grid/make_grids.py:subdivided_fixed_grid"]}
{"id": "C84", "title": "Thresholds up to one need no check", "statement": "make_GLM_grids drops thresholds for events and groups per flash of one or less; the selected data is the same as with these thresholds applied.", "quantifier": "every opened dataset, every pair of thresholds, every other criterion", "why_tests_cant": "all datasets and thresholds", "anchors": ["examples/grid/make_GLM_grids.py:grid_setup", "glmtools/io/glm.py:GLMDataset.subset_flashes"]}
{"id": "C85", "title": "Coordinates of written imagery survive storage", "statement": "The x and y coordinates of a written image, read back from the file (stored as scaled 16-bit integers), have no gaps and are in the same strict order: different columns and rows keep different coordinates.", "quantifier": "every grid spacing, grid position within the field of view and grid size", "why_tests_cant": "all coordinates and spacings", "anchors": ["glmtools/io/imagery.py:get_goes_imager_fixedgrid_coords", "glmtools/io/imagery.py:new_goes_imagery_dataset", "glmtools/io/imagery.py:write_goes_imagery"]}
{"id": "C86", "title": "Reading without clipping passes every event on once", "statement": "read_flashes with clip_events=False and target None returns, over all chunks, one parent record for every selected flash, every group and every event of the selected flashes, and at each of the three levels exactly one child record for every event of the selected flashes, with its position, energy and time and with the id of its flash, its group or its own id; every child refers to a parent of its own chunk and every parent has a child. With targets given, the targets receive the same.", "quantifier": "every opened dataset, set of criteria, chunk size and base date", "why_tests_cant": "all datasets and chunk sizes", "anchors": ["glmtools/io/mimic_lma.py:read_flashes", "glmtools/io/mimic_lma.py:read_flash_chunk", "glmtools/io/mimic_lma.py:mimic_lma_dataset"]}
{"id": "C87", "title": "Splitting conserves the energy of flashes and groups", "statement": "If read_flash_chunk splits the outlines of flashes and groups by a mesh that covers them, the energies of the pieces of one flash or group sum to its energy.", "quantifier": "every chunk, mesh, clipper and union of footprints", "why_tests_cant": "all shapes, in particular flashes with separate parts or holes", "anchors": ["glmtools/io/mimic_lma.py:read_flash_chunk", "glmtools/grid/clipping.py:join_polys", "glmtools/grid/split_events.py:replicate_and_weight_split_child_dataset"]}
{"id": "C88", "title": "The full-quality mode of read_flash_chunk works", "statement": "read_flash_chunk completes in the mode that its documentation calls full quality, with clip_events and fixed_grid both given.", "quantifier": "every chunk and mesh", "why_tests_cant": "all chunks; the mode is not used by the rest of the package", "anchors": ["glmtools/io/mimic_lma.py:read_flash_chunk"]}
{"id": "C89", "title": "Iterating over a collection gives every file once", "statement": "Iterating over a GLMncCollection gives, in the order of their start times, for every file the records of its selected flashes and of their events.", "quantifier": "every list of files, all contents, criteria and base dates", "why_tests_cant": "all contents and start times, in particular files that begin in the same second", "anchors": ["glmtools/io/mimic_lma.py:GLMncCollection", "glmtools/io/mimic_lma.py:GLMncCollection._table_times_for_file", "glmtools/io/mimic_lma.py:GLMncCollection.data_for_time"]}
{"id": "C90", "title": "Time series refer to the base date they are given", "statement": "The times of the events and flashes of a TimeSeriesGLMFlashSubset with base_date given are seconds since that date.", "quantifier": "every list of files, start time and base date", "why_tests_cant": "all dates", "anchors": ["glmtools/io/mimic_lma.py:TimeSeriesGLMFlashSubset"]}
{"id": "C91", "title": "A lasso keeps flashes whole", "statement": "TimeSeriesGLMPolygonFlashSubset keeps an event in an interval exactly if it keeps the flash of that event.", "quantifier": "every lasso, every series of events and flashes", "why_tests_cant": "all shapes of lassos and flashes", "anchors": ["glmtools/io/mimic_lma.py:TimeSeriesGLMPolygonFlashSubset.gen_chopped_events_flashes"]}
{"id": "C92", "title": "The place of initiation of a flash record is where it began", "statement": "The init_lon and init_lat of the flash records that read_flashes makes are the position of the first event of the flash.", "quantifier": "every dataset, all criteria", "why_tests_cant": "all datasets", "anchors": ["glmtools/io/mimic_lma.py:_fake_lma_from_glm_flashes"]}
{"id": "C93", "title": "Grids hold what the selected flashes put there", "statement": "Gridding files with the lookup table gives in every cell: the sum over the events of the selected flashes of their energy times the part of their footprint in the cell; for flashes and groups the part of the cell under each of their pixels, summed, plain and times their area; and the least area of the selected flashes that reach the cell. None of this depends on chunk_size or on the order in which flashes are selected.", "quantifier": "every list of files, criteria, chunk size, grid, clipper and base date", "why_tests_cant": "all data and chunk sizes", "anchors": ["glmtools/io/mimic_lma.py:read_flashes", "glmtools/io/mimic_lma.py:fast_fixed_grid_read_chunk", "glmtools/grid/make_grids.py:proc_each_grid", "glmtools/grid/make_grids.py:GLMlutGridder.pipeline_setup", "glmtools/grid/accumulate.py:accumulate_var_on_grid_direct_idx"]}
{"id": "C94", "title": "The energy image adds up to the energy of the lightning", "statement": "If the footprints of all events lie on the grid, the values of all cells of the total_energy grid sum to the energy of the events of the selected flashes of all files, whatever chunk_size and however the lookup table groups events.", "quantifier": "every list of files, criteria, chunk size and grid", "why_tests_cant": "all data and chunk sizes", "anchors": ["glmtools/io/mimic_lma.py:read_flashes", "glmtools/io/mimic_lma.py:fast_fixed_grid_read_chunk", "glmtools/grid/make_grids.py:proc_each_grid", "glmtools/grid/make_grids.py:GLMlutGridder.pipeline_setup"]}
{"id": "C95", "title": "The checking program names the broken files", "statement": "examples/check_glm_data.py prints the name of every file whose groups or events refer to missing parents, and completes on every list of readable files.", "quantifier": "every list of files and all contents", "why_tests_cant": "all file contents", "anchors": ["examples/check_glm_data.py:GLMDataset", "glmtools/io/glm.py:GLMDataset.__init__"]}
{"id": "C96", "title": "The place of initiation is that of the earliest group", "statement": "For a file with unique flash ids opened with default options, add_flash_init_data and calculate_flash_init give every flash the longitude and latitude of its group with the earliest frame time (the first of several in the file), the former rounded to four byte floats, and flash_init_manual prints the same places in order of flash id.", "quantifier": "every file that opens, any order of flashes and groups in it", "why_tests_cant": "all orders of rows and all ties", "anchors": ["examples/flash_init_dataset.py:get_first_group", "examples/flash_init_dataset.py:add_flash_init_data", "examples/flash_init_dataset.py:calculate_flash_init", "examples/flash_init_dataset.py:flash_init_manual"]}
{"id": "C97", "title": "Filtering a time series by flash properties", "statement": "The lasso statistics program keeps in every interval the flashes whose area, altitude and energy are within the bounds, and the events of these flashes.", "quantifier": "every time series and all bounds", "why_tests_cant": "all data and bounds", "anchors": ["examples/glm-lasso-stats.py:gen_filtered_time_series"]}
{"id": "C98", "title": "Rounding inside the clipper costs little energy", "statement": "Slicing polygons converts coordinates to integers in units of 2^-31 and back. For convex footprints that reach at most two cells from their mean the energy that fast_fixed_grid_read_chunk puts on the grid differs from the energy of the events by at most the part eps, if the outline of each footprint (in units of 2^-31), its number of corners and the errors of the integer clipper in 25 cells are together at most the part eps of its area. If eps is 1/1000, the debug message about uncovered footprints is not logged; it is logged exactly if the pieces found differ from the footprint by more than 1/1000.", "quantifier": "every chunk, every grid, every convex shape of footprints, every integer clipper with bounded error", "why_tests_cant": "all coordinates and shapes; errors are far below what a test compares", "anchors": ["glmtools/grid/clipping.py:clip_polys_by_one_poly", "glmtools/grid/clipping.py:clip_poly_pair", "glmtools/grid/clipping.py:make_sub_polys", "glmtools/grid/clipping.py:QuadMeshPolySlicer.slice", "glmtools/io/mimic_lma.py:fast_fixed_grid_read_chunk"]}
{"id": "C99", "title": "Every pixel is drawn over its own place", "statement": "plot_glm_grid makes one panel for each field, in order, with the label of that field, which shows the values of that field at the requested time (missing values as zero), each pixel drawn over the place its coordinates denote (its middle off by less than half a pixel), and the largest of the values.", "quantifier": "every dataset with evenly spaced coordinates, every time that occurs once in it, every list of at most twelve fields with labels that fit the panels", "why_tests_cant": "all values, grids, times and fields", "anchors": ["glmtools/plot/grid.py:plot_glm_grid"]}
{"id": "C100", "title": "Plotting leaves the data alone", "statement": "plot_glm_grid and the plot_glm of the examples leave the dataset that they are given as it is.", "quantifier": "every dataset, in memory or computed on demand; every time and list of fields", "why_tests_cant": "all data and kinds of storage", "anchors": ["glmtools/plot/grid.py:plot_glm_grid", "examples/plot/plots.py:plot_glm"]}
{"id": "C101", "title": "The plotting program makes an image for every time", "statement": "examples/plot/plot_glm_file.py makes, for every list of image files, one image for each time of the series.", "quantifier": "every list of files, every output directory and file system", "why_tests_cant": "all files, times and paths", "anchors": ["examples/plot/plot_glm_file.py:__main__", "examples/plot/plots.py:plot_glm", "glmtools/io/imagery.py:open_glm_time_series"]}
{"id": "C102", "title": "The plot of a flash shows that flash", "statement": "plot_flash shows one marker at the place of the flash with the given id, one for each of its groups and one for each event of these groups, with their energies, and a title with the id and the times of the first and last event; an id that no flash has is an IndexError.", "quantifier": "every dataset with unique flash and group ids, every id", "why_tests_cant": "all datasets and ids", "anchors": ["glmtools/plot/locations.py:plot_flash", "glmtools/io/glm.py:GLMDataset.get_flashes"]}
{"id": "C103", "title": "fov_bounds is the smallest box around the events", "statement": "GLMDataset.fov_bounds gives bounds of longitude and latitude that contain all events, and no smaller bounds do; without events it is a ValueError.", "quantifier": "every dataset", "why_tests_cant": "all datasets", "anchors": ["glmtools/io/glm.py:GLMDataset.fov_bounds"]}
{"id": "C104", "title": "Written images are read back as what was gridded", "statement": "The files that write_goes_imagery writes, opened with open_glm_time_series, form a series with one frame for each pair of consecutive time edges, at the time where it begins, in which every pixel of every field has the value of the grids in the cell under the pixel: missing exactly where that value is 0; with scaling within half a step of the field (one step for positive values below a step) for all values that fit into 16 bits, without scaling exactly.", "quantifier": "every grid, padding, list of time edges and all values", "why_tests_cant": "all values and positions", "anchors": ["glmtools/io/imagery.py:write_goes_imagery", "glmtools/io/imagery.py:glm_image_to_var", "glmtools/io/imagery.py:open_glm_time_series"]}
{"id": "C105", "title": "Aggregated maps hold the sums of the grids", "statement": "Maps made by aggregate from written images hold in every interval and pixel, for the fields that add up, the sum of the gridded values over the frames that begin in the interval, at most half a step too low and one step too high for each frame with lightning there, and 0 exactly if there was none; the minimum flash area is within one step of the least gridded one.  An interval without frames has no value.", "quantifier": "every grid, list of time edges, interval length and all values", "why_tests_cant": "all values and alignments, through three programs", "anchors": ["glmtools/io/imagery.py:write_goes_imagery", "glmtools/io/imagery.py:open_glm_time_series", "glmtools/io/imagery.py:aggregate"]}
{"id": "C106", "title": "The stored energy image adds up to the energy of the lightning", "statement": "If the energy grid conserves the energy of the selected flashes (see C94), the sum over all pixels of the total_energy image, as read from the written file, is the energy of the events of the selected flashes, at most half a step of 1.52597e-6 nJ too low and one step too high for each cell with energy.", "quantifier": "every list of GLM files, criteria, chunk size and grid", "why_tests_cant": "all data, from GLM files to image files", "anchors": ["glmtools/io/mimic_lma.py:read_flashes", "glmtools/grid/make_grids.py:GLMlutGridder.pipeline_setup", "glmtools/io/imagery.py:write_goes_imagery", "glmtools/io/imagery.py:open_glm_time_series"]}
{"id": "C107", "title": "The lasso log has one right line for each frame", "statement": "The log that glm-lasso-stats.py writes for a gridded product has one line for each frame from the first to the last time of the lassos, in order, with the time of the frame in ISO format, the greatest value and the sum of the cells whose centres are in the lassos, and the 5th, 50th and 95th percentile of their positive values.", "quantifier": "every list of frames, lassos, time range and all values that are not negative", "why_tests_cant": "all data and every lasso; the sample program has no tests", "anchors": ["examples/glm-lasso-stats.py:plot_lasso_grid_subset"]}
{"id": "C108", "title": "Accumulation in 32 bit floats stays close to the sum", "statement": "A grid of 32 bit floats that starts from zeros and receives any sequence of datasets that do not repeat a cell inside a dataset: a cell that received n values (each 0 or at least the least normal float) differs from their exact sum by at most the fraction (1+2^-24)^(n+1)-1 of it, below half a percent up to 65536 values, and is 0 exactly if the sum is 0; counts whose sum is at most 2^24 are exact; the minimum is the rounded least value.", "quantifier": "every sequence of datasets, every rounding with the given error, and round to nearest even of 24 bits", "why_tests_cant": "rounding errors depend on all values and their order", "anchors": ["glmtools/grid/accumulate.py:accumulate_var_on_grid_direct_idx", "glmtools/grid/accumulate.py:accumulate_minvar_on_grid_direct_idx", "glmtools/grid/make_grids.py:GLMlutGridder.flash_pipeline_setup"]}
{"id": "C109", "title": "Images of the sectors match the product user guide", "statement": "For every sector and every resolution that make_GLM_grids offers, the x and y coordinates read from the written images have the number of pixels, the spacing, the span and the centre of the product user guide, as check_against_pug compares them, in however many tiles the sector was gridded.", "quantifier": "every sector size and centre in the field of view, all six resolutions, every number of tiles", "why_tests_cant": "the tests compare one sector and one resolution each", "anchors": ["examples/grid/test_grid_specs.py:check_against_pug", "examples/grid/make_GLM_grids.py:grid_setup", "glmtools/io/imagery.py:get_goes_imager_fixedgrid_coords", "glmtools/grid/make_grids.py:subdivided_fixed_grid"]}
{"id": "C110", "title": "A gridding call counts exactly the flashes it asks for", "statement": "Every tile of a gridding call reads, from every file, exactly the flashes that have the least number of events and groups that the call gives (no limit if it gives none) and whose centroid is strictly inside the bounds of the tile: for a grid in longitude and latitude the bounds of the grid itself, for the fixed grid those of the tile widened on all sides by one margin of at most 0.0028 radian and at least that less one pixel, for other projections everywhere. It gets all groups and events of these flashes. No option of a call is rejected.", "quantifier": "every file contents, every option of a call, every number of tiles", "why_tests_cant": "a test checks one file with one set of thresholds and one domain; which flashes near a bound are counted depends on the domain, the tiling and the pixel size", "anchors": ["glmtools/grid/make_grids.py:grid_GLM_flashes", "glmtools/grid/make_grids.py:subdivided_grid", "glmtools/grid/make_grids.py:GLMlutGridder.process_flashes", "glmtools/io/glm.py:GLMDataset.subset_flashes", "glmtools/io/mimic_lma.py:read_flashes"]}
{"id": "C111", "title": "The metadata of an image describe it", "statement": "Every image of a gridding call can be described, if its frames are within a year of the reference time. The file states as its start and end the reference time plus the edges of its frame, to the microsecond, in a text that determines the time, and the same times to a tenth of a second in its name, also across the ends of months and years. Every field of the gridder is a variable of its own over the pixels of the file with the name, description and unit of that product; every variable over the pixels names a projection that is in the file, for the longitude of the satellite that the file states. The quality flags are all valid. Stated resolution and sector are those of the axes. Read back as a time series, the images have the times of the frames of the call within 500 nanoseconds. As many quality flags are announced as are listed, and the name of a mesoscale sector is given only to files that state it.", "quantifier": "every gridding call, reference time, frame, sector, spacing and set of fields", "why_tests_cant": "a test compares one file with a stored one; the calendar, the order of the fields against the tables of names and units, and the inferred sector vary with the call", "anchors": ["glmtools/io/imagery.py:get_glm_global_attrs", "glmtools/io/imagery.py:new_goes_imagery_dataset", "glmtools/io/imagery.py:get_goes_imager_all_valid_dqf", "glmtools/io/imagery.py:get_goes_imager_proj", "glmtools/io/imagery.py:get_goes_imager_subpoint_vars", "glmtools/io/imagery.py:glm_image_to_var", "glmtools/io/imagery.py:infer_scene_from_dataset", "glmtools/io/imagery.py:write_goes_imagery", "glmtools/io/imagery.py:gen_file_times"]}
{"id": "C112", "title": "The options of the command line mean what the help says", "statement": "In every line of documented options in any order, each with a value of its kind, before and after the names of the files, each option has the last value that is given for it, with a space or an equals sign before it, and the documented default if none is given; the program then does what these values ask for, or hands the files to lmatools if --lma is among them. A negative number is a value and no option. The beginning of a name that no other name shares stands for the name, and one that is shared is refused. A line is refused if a value is not of the kind of its option, if one is missing or is given to a flag, if an option is not documented, or if the names of the files do not stand together. Each documented option can make a difference, and for a mesoscale sector the centre is given in coordinates of the fixed grid.", "quantifier": "every command line of the gridding program", "why_tests_cant": "a test parses a few lines; the meaning of an option depends on all other tokens, their order and their spelling", "anchors": ["examples/grid/make_GLM_grids.py:create_parser", "examples/grid/make_GLM_grids.py:grid_setup"]}
{"id": "C113", "title": "The number of boxes survives floating point", "statement": "The number of grid boxes of a custom grid is the number of times that the requested spacing fits in the requested size, for the decimal numbers as the user writes them, although the program reads and divides them in double precision.", "quantifier": "every positive size and spacing, up to 2^50 boxes", "why_tests_cant": "there are infinitely many decimal numbers, and whether the rounded quotient falls below the next whole number depends on all their digits", "anchors": ["examples/grid/make_GLM_grids.py:grid_setup", "examples/grid/make_GLM_grids.py:create_parser"]}
{"id": "C114", "title": "Tiles survive floating point", "statement": "In double precision the edges of the tiles of a domain run in order from its lower to its upper bound, both exactly, so that neighbouring tiles share an edge; every tile is a whole number of boxes wide, to a small fraction of a box; and if the number of tiles divides the number of boxes, all tiles have the same number of boxes.", "quantifier": "every spacing, centre, number of boxes and number of tiles, up to 2^30 boxes and as many boxes from the origin", "why_tests_cant": "rounding errors depend on all digits of the numbers", "anchors": ["glmtools/grid/make_grids.py:subdivide_bnd", "examples/grid/make_GLM_grids.py:grid_setup"]}
{"id": "C115", "title": "Packed locations survive floating point", "statement": "The latitude and longitude of every event come back as the count that is stored in the file, although the counts are scaled, unscaled, truncated and scaled again in double precision, whether the attributes of the file are stored in single or in double precision.", "quantifier": "all 65536 counts of both coordinates, both precisions of the attributes", "why_tests_cant": "the error of the unscaled count is far below one count and of either sign, and truncation makes a whole count of it", "anchors": ["glmtools/io/glm.py:fix_event_locations"]}
{"id": "C116", "title": "Times survive floating point", "statement": "Although times are divided and compared in double precision: an event falls in a frame between two whole seconds exactly if its time in nanoseconds does; the order of times is kept; frame edges in whole microseconds come back exactly in the file; the intervals of an aggregated series begin at all whole multiples of the interval that are not after the end; and the chunks of a file are those of whole-number division.", "quantifier": "every time within 104 days of the base date (frames), 71 years (edges), 73 years of 1970 (intervals), every number of flashes below 2^53", "why_tests_cant": "an error of one unit in the last place of one of about 10^14 numbers would move an event to another frame", "anchors": ["glmtools/io/mimic_lma.py:sec_since_basedate", "glmtools/io/mimic_lma.py:read_flashes", "glmtools/io/imagery.py:aggregate", "glmtools/io/imagery.py:write_goes_imagery"]}
{"id": "C117", "title": "Units of densities", "statement": "The units of the densities on the fixed grid name the area of a grid box in square microradians and the length of a frame in minutes.", "quantifier": "all spacings of whole microradians, all frames of whole minutes", "why_tests_cant": "whether the product of two rounded numbers falls below the whole number depends on all their digits", "anchors": ["glmtools/grid/make_grids.py:GLMGridder.output_setup", "glmtools/grid/make_grids.py:GLMlutGridder.output_setup"]}
{"id": "C118", "title": "The lookup for even grids finds the box", "statement": "The lookup that assumes evenly spaced cells returns, for any box, also one that reaches over the edge of the grid, every cell that has a point in common with the box, each once, and no cell further away than the padding.", "quantifier": "every evenly spaced grid of at least two by two cells, every box, every padding of at least two cells", "why_tests_cant": "a missing cell loses lightning only for boxes in certain positions relative to the cells", "anchors": ["glmtools/grid/clipping.py:QuadMeshSubset._quads_in_bbox_regular"]}
{"id": "C119", "title": "The lines of a mesh meet in its vertices", "statement": "A mesh of m by n vertices has m lines of n points in one direction and n lines of m points in the other, and line i of the first and line j of the second meet in vertex (i, j).", "quantifier": "every mesh, every conversion of coordinates", "why_tests_cant": "the indices range over all shapes", "anchors": ["glmtools/grid/clipping.py:lines_from_quadmesh"]}
{"id": "C120", "title": "The writer of a tile gets the calls of the gridder", "statement": "If the grid is made in tiles, nothing is written while the gridder makes its writer calls; afterwards the writer given by the user is called once for every one of them, in order, with all arguments and keywords unchanged except that the padding is removed from the axes and the grid; the file names are returned in order; if the writer raises at some call, exactly the calls up to that one have been made.", "quantifier": "every sequence of writer calls, every padding, every writer", "why_tests_cant": "the calls, their number and the point of failure are arbitrary", "anchors": ["glmtools/grid/make_grids.py:GridOutputPreprocess.capture_write_call", "glmtools/grid/make_grids.py:GridOutputPreprocess.write_all"]}
{"id": "C121", "title": "Event areas are those of the groups shared out", "statement": "event_areas gives every event the area of its group divided by the number of events of the group.", "quantifier": "every file with right counts", "why_tests_cant": "the areas depend on all groups", "anchors": ["glmtools/io/glm.py:event_areas"]}
{"id": "C122", "title": "Areas and shares survive floating point", "statement": "Although areas are differences of products that are much larger than the area, the area of a polygon computed in double precision, in whatever order the terms are added, is within n(n+3)R^2/2^53 of the exact area (n vertices within R of the origin); the shares of the pieces of a footprint and of the grid cells follow the exact ones, and the energies of the pieces add up to the energy of the event, within the corresponding error.", "quantifier": "every polygon, every order of summation, every list of pieces", "why_tests_cant": "cancellation depends on all digits of all coordinates", "anchors": ["glmtools/grid/clipping.py:poly_area", "glmtools/grid/clipping.py:vectorized_poly_area", "glmtools/grid/clipping.py:make_sub_polys", "glmtools/grid/clipping.py:QuadMeshPolySlicer.quad_frac_from_poly_frac_area", "glmtools/grid/split_events.py:replicate_and_weight_split_child_dataset"]}
{"id": "C123", "title": "Converted text files are the same tree", "statement": "The program that converts LCFA text to NetCDF writes, for every text in the documented format, a file that has the documented variables, one value for each line of its kind, in order, and nothing else but the indices; ids, ids of parents, times and places are coordinates, as the traversal needs; and a traversal of the file gives for each flash id the flash, the groups whose lines name it as parent, and the events whose lines name these groups.", "quantifier": "every text of flash, group, event and other lines whose numbers can be read (for the traversal at least one of each kind), every flash id, for versions of xarray whose set_coords has the argument inplace", "why_tests_cant": "all texts, any nesting and any order of lines", "anchors": ["glmtools/io/convert_lcfa.py:merge_dataframes_to_xarray", "glmtools/io/convert_lcfa.py:main", "glmtools/io/traversal.py:OneToManyTraversal.reduce_to_entities"]}
{"id": "C124", "title": "Location ids in double precision", "statement": "With its default settings and double precision arithmetic, the lookup table of events gives every event in the field of view the id of its cell of 28 by 28 microradians unless it is within 1e-14 radians of the edge of a cell; events with one id are never further apart than one step (plus 1e-14) along either axis, fill an interval of either axis, and are never further than this from the location of their row; ids fit in 31 bits.", "quantifier": "all locations within 0.1349 radians of the middle of the disk, all datasets of events at such locations", "why_tests_cant": "every pair of locations; rounding moves the edges of the cells, and a collision of ids would silently merge places far apart", "anchors": ["glmtools/io/glm.py:discretize_2d_location", "glmtools/io/glm.py:get_lutevents"]}
{"id": "C125", "title": "The flash statistics of a lasso are those of its intervals", "statement": "The file flash_stats.csv of glm-lasso-stats.py has, after the line with the names, one line for each interval of the time series, in order. It begins with start and end of the interval; every further column holds the statistic that is named at its top, computed from the flashes of that interval that are within the bounds for area, altitude and energy. There is one energy spectrum for each interval, made from the areas of its flashes; spectra of intervals that differ (up to the second, within a century) have different file names.", "quantifier": "every time series with at least one interval, all bounds, every statistics function with these fields", "why_tests_cant": "every series; lines and columns that are shifted look plausible", "anchors": ["examples/glm-lasso-stats.py:write_size_stat_data", "examples/glm-lasso-stats.py:gen_flash_summary_time_series", "examples/glm-lasso-stats.py:gen_filtered_time_series"]}
{"id": "C126", "title": "Tables of pixels can be used as documented", "statement": "A query of the tree of create_pixel_lookup with pairs of latitude and longitude, as in its documentation, finds for each the nearest pixel. Tables made from a file of pixel positions have exactly the pixels with a position. What save_pixel_corner_lookup and save_pixel_lookup have saved is loaded as the result of read_official_corner_lut and of create_pixel_lookup.", "quantifier": "every table, every file of positions, every query, every order of saving under different names", "why_tests_cant": "all tables and places; a wrong pixel is a plausible answer", "anchors": ["glmtools/io/ccd.py:create_pixel_lookup", "glmtools/io/ccd.py:read_pixel_location_mat_file", "glmtools/io/ccd.py:save_pixel_corner_lookup", "glmtools/io/ccd.py:load_pixel_corner_lookup", "glmtools/io/ccd.py:save_pixel_lookup", "glmtools/io/ccd.py:load_pixel_lookup"]}
{"id": "C127", "title": "A chunk of events is gridded in floating point as on paper", "statement": "The rows that fast_fixed_grid_read_chunk sends to the grids, with mean points, areas, shares, weights and sums computed in double precision (sums in any order) and stored in single precision, are those of exact arithmetic: the same cells in the same order with the same times and ids, and energies, counts and areas that differ by at most the part 2^-23 and the part 4k of what reaches the cell, where k is the relative error of the areas of footprints and cells. With the rounding of coordinates inside of the clipper, the energy of the events arrives on the grid up to a part that is given explicitly.", "quantifier": "every table, every grid of increasing edges, every clipper that returns polygons (total energy: every integer clipper with bounded error and convex footprints), every order of additions", "why_tests_cant": "rounding errors depend on the order of additions and on the values; tests compare a few cells with a tolerance", "anchors": ["glmtools/io/mimic_lma.py:fast_fixed_grid_read_chunk", "glmtools/io/mimic_lma.py:replicate_and_weight_split_child_dataset_new", "glmtools/io/mimic_lma.py:_fake_lma_events_from_split_glm_lutevents", "glmtools/grid/split_events.py:gen_split_events", "glmtools/grid/clipping.py:QuadMeshPolySlicer.slice", "glmtools/grid/clipping.py:QuadMeshPolySlicer.quad_frac_from_poly_frac_area"]}
{"id": "C128", "title": "The energy of an image, with every rounding on the way", "statement": "Reading files in double precision, putting their events together in the lookup table, cutting the footprints with a clipper on integers, adding up shares, and keeping the grids in single precision changes the total energy over the grid by at most an explicit part of the energy of the events of the flashes asked for: the errors of the table, of the clipper, of the shares and of storage, and one rounding to 24 bits for every chunk of flashes. Written to files and read again, the image differs from that by at most half a step down and one step up for each cell with energy. Each of the eight grids is the sum, rounded after every chunk, of what is sent to each cell, and the minimum flash area is the rounded least area.", "quantifier": "every list of consistent files with numbers in double precision, every size of chunks, every order of additions, every integer clipper with bounded error, every grid with a least distance of edges, every selection of flashes", "why_tests_cant": "errors of many stages accumulate, depend on the order of additions and on the number of chunks; tests compare a few totals with a tolerance", "anchors": ["glmtools/grid/make_grids.py:GLMGridder.process_flashes", "glmtools/io/mimic_lma.py:read_flashes", "glmtools/io/mimic_lma.py:fast_fixed_grid_read_chunk", "glmtools/io/glm.py:GLMDataset.get_lutevents", "glmtools/grid/accumulate.py:accumulate_var_on_grid_direct_idx", "glmtools/grid/accumulate.py:accumulate_minvar_on_grid_direct_idx", "glmtools/io/imagery.py:write_goes_imagery"]}
{"id": "C129", "title": "Tiles hold what the whole domain holds", "statement": "If no footprint reaches further from its event, or from the position of its flash, than the padding, and the padding is at least two boxes, then gridding a domain in any number of tiles gives, after the padding has been trimmed off, the same images as gridding it at once: wherever a tile has the coordinates of the whole domain, flash and group extent density, the sums of flash and of group areas, total energy and minimum flash area have the same value.", "quantifier": "every domain of whole boxes, number of tiles, padding, list of consistent files, selection of flashes, size of chunks, clipper that returns nothing beside a footprint", "why_tests_cant": "every tile selects other flashes, forms other chunks, and searches on another grid; tests compare no tile with the whole", "anchors": ["glmtools/grid/make_grids.py:subdivided_fixed_grid", "glmtools/grid/make_grids.py:GridOutputPreprocess.capture_write_call", "glmtools/io/glm.py:GLMDataset.subset_flashes", "glmtools/io/mimic_lma.py:read_flashes", "glmtools/io/mimic_lma.py:fast_fixed_grid_read_chunk", "glmtools/grid/clipping.py:QuadMeshPolySlicer.slice"]}
{"id": "C130", "title": "Images do not depend on the order or division of the files", "statement": "Giving the files in another order changes no cell of any of the six grids of the lookup table mode. Gridding two lists of files apart and adding the grids cell by cell gives the grids of all files together, for extent densities, areas and energy; the minimum flash area is the lesser of the two where both have lightning, and the one there is otherwise.", "quantifier": "every list of consistent files, every permutation, every division in two, every selection, clipper and grid", "why_tests_cant": "files come in many orders and numbers; tests grid one list", "anchors": ["glmtools/grid/make_grids.py:GLMGridder.process_flashes", "glmtools/io/mimic_lma.py:read_flashes", "glmtools/grid/accumulate.py:accumulate_var_on_grid_direct_idx", "glmtools/grid/accumulate.py:accumulate_minvar_on_grid_direct_idx"]}
{"id": "C131", "title": "Stricter criteria give smaller images", "statement": "If every flash that meets one set of criteria meets another (and some criterion is given, or none in either), then in every cell the first gives no more flash and group extent density, area and energy than the other, none of them negative, and where it still has flashes its minimum flash area is not smaller.", "quantifier": "every pair of criteria, every list of consistent files with areas and energies that are not negative, every size of chunks in either call", "why_tests_cant": "a comparison between two calls over all selections; tests look at single calls", "anchors": ["glmtools/io/glm.py:GLMDataset.subset_flashes", "glmtools/io/mimic_lma.py:read_flashes", "glmtools/grid/make_grids.py:GLMGridder.process_flashes"]}
{"id": "C132", "title": "Average flash area lies between the least and the greatest", "statement": "In every cell with flash extent density, the accumulated flash area divided by the flash extent density is at least the minimum flash area of the cell, which is positive, and at most the area of the largest flash asked for.", "quantifier": "every list of consistent files, selection, clipper and grid", "why_tests_cant": "relates three grids in every cell for all data", "anchors": ["glmtools/grid/accumulate.py:accumulate_minvar_on_grid_direct_idx", "glmtools/grid/accumulate.py:accumulate_var_on_grid_direct_idx", "glmtools/io/imagery.py:write_goes_imagery", "glmtools/io/mimic_lma.py:fast_fixed_grid_read_chunk"]}
{"id": "C133", "title": "The energy of files can be compared with the energy of their image", "statement": "The energy that total_energy_in_L2 computes for a list of files and a range of longitudes and latitudes is the sum over the events of the flashes in that range, and a call that selects the same flashes makes an energy image whose cells add up to it.", "quantifier": "every list of files, with lightning or without, every range", "why_tests_cant": "the comparison in the sample tests is made for three files", "anchors": ["examples/grid/grid_sample_data.py:total_energy_in_L2", "examples/grid/grid_sample_data.py:grid_sample_data", "glmtools/io/glm.py:GLMDataset.subset_flashes", "glmtools/grid/make_grids.py:GLMGridder.process_flashes"]}
{"id": "C134", "title": "The image never holds more energy than the lightning", "statement": "For convex footprints of any size, on the grid, partly on it or off it, no cell of the energy image of the lookup table mode is negative, and its cells together hold no more than the energy of the events asked for. They hold all of it exactly if the search finds, on the grid, the whole footprint of every pixel with energy. The images of a gridding call together hold no more energy than is recorded for the flashes that meet the thresholds, but for one step of each pixel if they are written as scaled integers, whatever the sizes and positions of boxes, tiles, footprints and flashes; the same holds for the images of each frame and the files of the frame.", "quantifier": "every list of consistent files with energies that are not negative, selection, size of chunks, grid, query of nearest cells and table of convex footprints", "why_tests_cant": "a bound over all footprints and data; tests use footprints of a few cells in the middle of the grid", "anchors": ["glmtools/grid/clipping.py:QuadMeshPolySlicer.slice", "glmtools/grid/split_events.py:replicate_and_weight_split_child_dataset", "glmtools/grid/accumulate.py:accumulate_energy_on_grid_direct_idx", "glmtools/io/mimic_lma.py:fast_fixed_grid_read_chunk"]}
{"id": "C135", "title": "A call that is stopped can be repeated", "statement": "A gridding call that is stopped at any moment, by a signal, a crash or a full disk, leaves no broken image under the name of an image; the images that it has finished are whole, and all other files are as they were. Calling again gives what the call would have given.", "quantifier": "every moment at which a call can be stopped, every list of files that it writes, every state of the file system before", "why_tests_cant": "crash points: a test stops a call at a few moments at most", "anchors": ["glmtools/io/imagery.py:write_goes_imagery", "glmtools/grid/make_grids.py:grid_GLM_flashes", "glmtools/grid/make_grids.py:proc_each_grid", "glmtools/io/imagery.py:get_glm_global_attrs"]}
{"id": "C136", "title": "Calls at the same time do not disturb one another", "statement": "Gridding calls that run at the same time and write different files, be it into the same directories, all succeed and leave the files that they would leave one after the other.", "quantifier": "every number of calls, every list of files of each, every order in which their effects on the file system can happen, every state of the file system before", "why_tests_cant": "schedules: the interleaving of processes is not under the control of a test", "anchors": ["glmtools/io/imagery.py:write_goes_imagery", "glmtools/grid/make_grids.py:grid_GLM_flashes"]}
{"id": "C137", "title": "From a call to its images", "statement": "A gridding call for the fixed grid that clips events, with files that can be opened, footprints that are centred on their events and reach no further than two boxes and the margin of 0.0028 rad, and boxes of at most half that margin, succeeds and writes one image for each tile. The pixels of an image are those of its tile, from north to south and from west to east, and every box of the domain is a pixel of one image. In every pixel the total energy is the sum over the events of all files of the energy times the part of the footprint in the pixel; the flash and group extent densities are the sums over flashes and groups of the part of the pixel under their events; the average areas are the totals of the areas over the densities, the minimum flash area is the least area of the flashes that reach the pixel, all up to the smallest step that an image can show. Only flashes with too few events or groups are left out.", "quantifier": "every number of files, every content of a file, every size and position of the domain and of its boxes, every number of tiles, every clipper that finds nothing in a box beside the footprint, every thresholds, every pixel of every image", "why_tests_cant": "inputs: tiles, chunks of 20000 flashes, files, filters, padding and the order of rows interact, and a test compares a few pixels of one case", "anchors": ["glmtools/grid/make_grids.py:grid_GLM_flashes", "glmtools/grid/make_grids.py:proc_each_grid", "glmtools/grid/make_grids.py:subdivided_fixed_grid", "glmtools/grid/make_grids.py:GLMlutGridder", "glmtools/io/mimic_lma.py:read_flashes", "glmtools/grid/split_events.py:split_event_data", "glmtools/grid/accumulate.py:select_dataset", "glmtools/io/imagery.py:write_goes_imagery"]}
{"id": "C138", "title": "A call that fails leaves nothing behind", "statement": "A gridding call that ends with an exception has written no image file.", "quantifier": "every call, every number of files and tiles, every point at which an exception can be raised", "why_tests_cant": "crash points: the exception can come from any file, tile or option, and a test provokes one of them", "anchors": ["glmtools/grid/make_grids.py:grid_GLM_flashes", "glmtools/grid/make_grids.py:proc_each_grid", "glmtools/grid/make_grids.py:GLMlutGridder.write_grids"]}
{"id": "C139", "title": "A place has the same values in every image", "statement": "Two gridding calls for the same data, thresholds and size of boxes show the same values at every place that both cover, however the domain is bounded and cut into tiles and in whatever order the files are listed; and within one call every box of the domain has exactly one value in each field.", "quantifier": "all pairs of domains, subdivisions, orders of files, orders of sets and clocks, every place and field", "why_tests_cant": "two different calls must agree in every pixel; a test compares a pair", "anchors": ["glmtools/grid/make_grids.py:grid_GLM_flashes", "glmtools/grid/make_grids.py:subdivide_bnds", "glmtools/grid/make_grids.py:proc_each_grid"]}
{"id": "C140", "title": "Images of files add up", "statement": "The image of several files is, place by place, the sum of the images of the files for the densities and the energy, the least for the minimum flash area and the mean weighted by the densities for the average areas; images written as scaled integers may differ from it by the one step to which small values are raised.", "quantifier": "all files, all ways to divide them among calls, every place", "why_tests_cant": "a relation between three calls in every pixel, for all data", "anchors": ["glmtools/grid/make_grids.py:grid_GLM_flashes", "glmtools/grid/accumulate.py:accumulate_energy_on_grid", "glmtools/grid/accumulate.py:accumulate_minvar_on_grid_direct_idx", "glmtools/io/imagery.py:write_goes_imagery"]}
{"id": "C141", "title": "The images hold the energy of the data", "statement": "The energy in all images of a gridding call is the energy of the events of all flashes that were asked for, if their footprints are in the domain; images written as scaled integers hold at least that and at most one step more per box.", "quantifier": "all data, domains, subdivisions and thresholds", "why_tests_cant": "a conservation law over all tiles and pixels of a call", "anchors": ["glmtools/grid/make_grids.py:grid_GLM_flashes", "glmtools/grid/accumulate.py:accumulate_var_on_grid_direct_idx", "glmtools/io/imagery.py:write_goes_imagery"]}
{"id": "C142", "title": "From the rows of files to the pixels of images", "statement": "A gridding call for files opens each of them, cuts the domain into tiles and writes one image for each; every pixel of the domain is in one of them and shows what is recorded in the files: the energy of each event of each flash with enough events and groups, in the proportion of its footprint in the pixel, and densities and areas of flashes and groups by the places at which their events are, each place once.", "quantifier": "all files, domains, subdivisions, thresholds, orders of sets, every pixel and field", "why_tests_cant": "the claim joins opening, selection, clipping, accumulation, tiling and writing for every row of every file", "anchors": ["glmtools/grid/make_grids.py:grid_GLM_flashes", "glmtools/io/glm.py:GLMDataset", "glmtools/grid/accumulate.py:accumulate_var_on_grid_direct_idx", "glmtools/io/imagery.py:write_goes_imagery"]}
{"id": "C143", "title": "Images are in nJ and km2 of what is stored", "statement": "A gridding call for files as the ground system writes them shows, in every pixel, their energies in nJ with energies under one step raised to half a step, and their areas in km2 with overflowed areas as the largest that can be recorded; rows that do not belong to the tree, and for the files of October 2018 the missing sign of times, do not change the images.", "quantifier": "all files with the conventional attributes whose groups have flashes and events, all domains, subdivisions, thresholds, every pixel and field", "why_tests_cant": "units, overflow and repair happen while files are opened and show only in images; the claim ranges over every row and encoding", "anchors": ["glmtools/grid/make_grids.py:grid_GLM_flashes", "glmtools/io/glm.py:GLMDataset", "glmtools/io/imagery.py:write_goes_imagery"]}
{"id": "C144", "title": "Longitudes and latitudes of the pixels of an image", "statement": "xy_to_2D_lonlat returns the longitude and latitude of every pixel of an image, in the row and column of the pixel.", "quantifier": "all coordinates and projections, with and without assertions", "why_tests_cant": "a test of one grid does not show what happens for every input", "anchors": ["glmtools/io/imagery.py:xy_to_2D_lonlat"]}
{"id": "C145", "title": "Images depend on the lightning only", "statement": "Two gridding calls for files that hold the same flashes (the same areas, groups, and places and energies of events) show the same values in every pixel that both have, whatever the ids of rows, their order, the way flashes are distributed among files, their times, the energies and places of flashes and groups, and the domains and tiles of the calls.", "quantifier": "all pairs of lists of files with the same flashes, all domains, subdivisions and thresholds, every pixel and field", "why_tests_cant": "non-interference: it compares two arbitrary inputs of the whole program", "anchors": ["glmtools/grid/make_grids.py:grid_GLM_flashes", "glmtools/io/glm.py:GLMDataset", "glmtools/io/imagery.py:write_goes_imagery"]}
{"id": "C146", "title": "From the command line to the pixels", "statement": "A command line of make_GLM_grids.py with options, file names and options that asks for the fixed grid and for events to be split writes one image for each tile of the grid that the options ask for (a sector of the satellite, or a custom domain), and every pixel of it shows what the named files hold there, in nJ and km2, for the flashes with the requested numbers of events and groups, as scaled integers or as floats as requested.", "quantifier": "all command lines of documented options with values that fit, all lists of files, all grids and subdivisions", "why_tests_cant": "the whole program, from the words of the command line to the values in the files, for all inputs at once", "anchors": ["examples/grid/make_GLM_grids.py:create_parser", "examples/grid/make_GLM_grids.py:grid_setup", "glmtools/grid/make_grids.py:grid_GLM_flashes", "glmtools/io/glm.py:GLMDataset", "glmtools/io/imagery.py:write_goes_imagery"]}
{"id": "C147", "title": "From the command line to the disk", "statement": "After a call every pixel of the grid asked for is in a complete file on the disk, in which it shows what the files hold there, under variables with the names, descriptions and units of the products, with the projection, the times of coverage and the platform of the call; files of other calls are as before.", "quantifier": "all calls as in C143 and C146, all disks before the call, all times at which the images are made", "why_tests_cant": "depends on which tiles are made in the same second: a test that looks at one tile, or that runs slowly, does not see it", "anchors": ["glmtools/io/imagery.py:write_goes_imagery", "glmtools/io/imagery.py:get_glm_global_attrs", "glmtools/grid/make_grids.py:grid_GLM_flashes", "examples/grid/make_GLM_grids.py:create_parser"]}
{"id": "C148", "title": "Path templates", "statement": "The path of an image is the template with its named arguments filled in: dataset_name by the name of the data set, start_time and end_time by the times of the image as their strftime format asks (year, month, month name, day, hour, minute, second, day of the year, microseconds), doubled braces by single ones, all else as it stands. Any other name, and a brace without its partner, is refused. Two images of one frame have the same path exactly if the template does not ask for the name or their names are equal; a template that ends with a slash and the name keeps images with different names apart; the documented template with the start time keeps images apart exactly if they start in different seconds.", "quantifier": "all templates made of such parts, all times and names", "why_tests_cant": "all templates and all times", "anchors": ["glmtools/io/imagery.py:write_goes_imagery", "examples/grid/make_GLM_grids.py:create_parser"]}
{"id": "C149", "title": "Frames", "statement": "A call whose period is cut into frames writes, for every tile, one image for each frame, in order, and each image shows the lightning that took place during its frame: from its start up to but not including its end.", "quantifier": "all calls for the fixed grid with the lookup table gridder, all frame edges, all lists of files and all domains, tilings and thresholds", "why_tests_cant": "every pixel of every frame, whatever the files and frames", "anchors": ["glmtools/grid/make_grids.py:GLMlutGridder", "glmtools/io/mimic_lma.py:mimic_lma_dataset", "glmtools/io/imagery.py:write_goes_imagery"]}
{"id": "C150", "title": "One entry of the lookup table for each pixel", "statement": "If the events of a file are at pixels, that is at places in the field of view of which any two are at least 28.001 microradians apart in one direction, then the event lookup table has exactly one entry for each pixel with events: at the place of the pixel, with the energy and the number of the events there; pixels are never put together and never split. So the grids hold for every cell what the pixels send to it.", "quantifier": "all files whose events are at pixels, with the ids computed in double precision", "why_tests_cant": "every pair of places in the field of view; a collision would move energy silently", "anchors": ["glmtools/io/glm.py:get_lutevents", "glmtools/io/glm.py:discretize_2d_location", "glmtools/io/glm.py:event_lut_iter"]}
{"id": "C151", "title": "Aggregating images of short frames", "statement": "Images of short frames that are read again as a time series and aggregated over intervals show what a call with long frames writes for the same files: for an interval from the start to the end of a long frame, flash and group extent density, total energy, average flash area and minimum flash area are those of the image of the long frame, in every pixel of every tile.", "quantifier": "all calls, files, tiles and pixels, all ways to cut the period into frames and intervals", "why_tests_cant": "every number of frames and files, and every position of the intervals relative to the frames", "anchors": ["glmtools/io/imagery.py:aggregate", "glmtools/io/imagery.py:open_glm_time_series", "glmtools/grid/make_grids.py:grid_GLM_flashes", "glmtools/grid/make_grids.py:GLMlutGridder.write_grids"]}
{"id": "C152", "title": "Times in the log", "statement": "A line in the log of the gridding program shows the local time of its record, to the nearest microsecond, in the given format, and later records do not show earlier times; without a format the time is shown to the second with milliseconds and is less than a millisecond away from that of the record.", "quantifier": "every record, time zone and format", "why_tests_cant": "a time is wrong only in the last half microsecond of a second", "anchors": ["examples/grid/make_GLM_grids.py:MyFormatter"]}
{"id": "C153", "title": "Options of a dataset", "statement": "Each option of GLMDataset switches its own correction and nothing else. If a file opens with an option on, it opens with it off. Without the change of energy units, energies are those of the file in its unit. Without the check of areas, areas are those of the file in its unit. Without the correction of times, times are those of the file. Without the parent-child calculation only the computed variables are missing. Without the check of the tree no row is dropped or moved, and the check makes no difference to a consistent file. Whatever is on, apart from times every row is a row of the file.", "quantifier": "every file, its attributes, order of identifiers, navigation and setting of the other options", "why_tests_cant": "there are 32 settings, and the corrections read and write variables of the same dataset one after another", "anchors": ["glmtools/io/glm.py:GLMDataset.__init__", "glmtools/io/glm.py:GLMDataset._check_area_units", "glmtools/io/glm.py:GLMDataset._change_energy_units"]}
{"id": "C154", "title": "Datasets in memory", "statement": "GLMDataset can be given an xarray dataset in memory. What is opened then is what would be opened from the file the dataset was read from, no other dataset in memory is changed, and the given dataset is not changed either, whether the call succeeds or fails.", "quantifier": "every state of memory, dataset, setting of the options, order of identifiers and navigation", "why_tests_cant": "whether the given object is changed depends on whether its tree needs repair; what a failing call leaves behind depends on where it fails", "anchors": ["glmtools/io/glm.py:GLMDataset.__init__", "glmtools/io/glm.py:GLMDataset.__init_parent_child_data", "glmtools/io/traversal.py:OneToManyTraversal.__init__"]}
{"id": "C155", "title": "Finer grids", "statement": "When the same data are gridded twice, and each pixel of the first call is divided into K by L pixels of the second, the energy of a pixel is the sum of the energies of its parts, its extent densities are the means over its parts, its average areas are the means weighted with the densities, and its minimum flash area is the least one that a part shows (0 if none does). With scaled integers the energy and the densities agree up to one step for each part.", "quantifier": "every two calls on the fixed grid whose boxes divide each other, every list of files in any order, all convex footprints centred at their events that are not wider than four boxes of either grid, tiles and thresholds; exact arithmetic", "why_tests_cant": "the claim compares two runs with different lookup chunks, meshes and tiles, and holds for every position of the boxes and each way to cut a footprint", "anchors": ["glmtools/grid/make_grids.py:grid_GLM_flashes", "glmtools/grid/split_events.py:split_event_data", "glmtools/grid/clipping.py:QuadMeshPolySlicer.slice", "glmtools/grid/accumulate.py:accumulate_var_on_grid_direct_idx"]}
{"id": "C156", "title": "Reducing in steps", "statement": "A dataset that was reduced to entities can be reduced again. Reducing to some flashes and then to some groups gives exactly the dataset that comes from reducing once to those of the groups that belong to the flashes; reducing twice on one level is reducing once to the ids asked for in both. Reducing to the groups first and to the flashes then keeps the same entities on each level, perhaps in another order.", "quantifier": "every well-formed tree of any depth without an empty level and with unique ids on each level, every two of its levels, all lists of ids (the first without duplicates), as long as the first step leaves something on each level", "why_tests_cant": "a statement on two chained calls for each pair of levels and each pair of lists; tests reduce once", "anchors": ["glmtools/io/traversal.py:OneToManyTraversal.reduce_to_entities"]}
{"id": "C157", "title": "The fields of an image agree", "statement": "At each pixel the flash and group extent densities, the average flash and group areas, the total energy and the minimum flash area are all positive or all zero; they are positive exactly where an event of a flash that counts has a part of its footprint. No pixel has a greater density of flashes than of groups, the averages are not above the largest area of a flash or group that reaches the pixel, and the minimum flash area is not above the average.", "quantifier": "every call for a fixed grid with convex footprints within the width of the search, every set of files with positive areas and energies, every pixel of every tile, images with and without scaled integers", "why_tests_cant": "relates six fields at every pixel for any data; tests compare single fields at known places", "anchors": ["glmtools/grid/make_grids.py:grid_GLM_flashes", "glmtools/grid/make_grids.py:GLMlutGridder", "glmtools/grid/accumulate.py:accumulate_minvar_on_grid_direct_idx", "glmtools/io/imagery.py:write_goes_imagery"]}
{"id": "C158", "title": "What each field depends on", "statement": "The densities in an image depend on the places of events only (that of flashes on the places of each flash, that of groups on those of each group), and not on energies or areas. The areas of flashes depend on these and the areas of flashes, the areas of groups on the places and areas of groups, the energy on the events. Multiplying all energies, all areas of flashes or all areas of groups by a factor multiplies the energy, the average and minimum flash area or the average group area by it, and changes no other field. With scaled integers, fields whose inputs are the same are the same.", "quantifier": "all pairs of calls for files whose flashes have the same numbers of groups and events, all energies and areas, every factor, domain, subdivision and pixel", "why_tests_cant": "compares calls for all pairs of inputs that differ in something else; a test has one of them", "anchors": ["glmtools/grid/make_grids.py:grid_GLM_flashes", "glmtools/io/mimic_lma.py:_fake_lma_events_from_split_glm_lutevents", "glmtools/io/glm.py:get_lutevents"]}
{"id": "C159", "title": "Aggregated fields agree", "statement": "If in every image, at a pixel, either no field has a value or all have, with 0 < flash density <= group density and 0 < least area <= average area of a flash, then the same holds for the maps of every interval of aggregate: where an image of the interval has lightning all fields have values that agree in this way; where none has, no areas are reported and the densities are zero, or missing if the interval has no images. The average areas of an interval lie between the least and the greatest of the averages of its images.", "quantifier": "all series of images with fields that agree, all lengths of the interval, all start and end times, all intervals and pixels", "why_tests_cant": "combines five fields over any number of images; a test compares single values", "anchors": ["glmtools/io/imagery.py:aggregate"]}
{"id": "C160", "title": "Centroid densities count each flash once", "statement": "In the images of a call of grid_GLM_flashes, a pixel of the flash centroid density is the number of flashes with enough events and groups, in all files, whose centroid is in the pixel (its west and south edge included, east and north not). A pixel of the group centroid density is the number of groups of these flashes with their centroid in the pixel. However the domain is cut into tiles, each such flash and group with its centroid in the domain is counted once in all images together. Centroids are assumed closer than the padding of tiles to an event of their flash.", "quantifier": "all files with compact flashes, domains, tilings and minimum numbers of events and groups; all pixels", "why_tests_cant": "tiles overlap by their padding and each reads the files again, so a flash near an edge is read for up to four tiles; a test has one tiling", "anchors": ["glmtools/grid/make_grids.py:grid_GLM_flashes", "glmtools/grid/make_grids.py:GLMlutGridder.flash_pipeline_setup", "glmtools/grid/make_grids.py:GLMlutGridder.group_pipeline_setup", "glmtools/io/mimic_lma.py:_fake_lma_from_glm_lutflashes", "glmtools/io/mimic_lma.py:_fake_lma_from_glm_lutgroups"]}
{"id": "C161", "title": "The extents and centroids of a frame are of the same flashes", "statement": "When the period of a call is cut into frames, the flash centroid density in the image of a frame counts the flashes whose extents are in that image, those of the files of the frame. What holds: it counts the flashes, of all files, that start in the frame and have their centroid in the pixel, and likewise for groups; if the edges of frames are in order, each flash that starts in the period and has its centroid in the domain is counted once in all frames and tiles together.", "quantifier": "all frames, files, tilings and pixels", "why_tests_cant": "needs every way in which flashes can be spread over frames and files; a test has one frame", "anchors": ["glmtools/grid/make_grids.py:grid_GLM_flashes", "glmtools/grid/make_grids.py:GLMlutGridder.flash_pipeline_setup", "glmtools/grid/make_grids.py:GLMlutGridder.group_pipeline_setup", "glmtools/io/mimic_lma.py:_fake_lma_from_glm_lutflashes", "glmtools/io/mimic_lma.py:_fake_lma_events_from_split_glm_lutevents"]}
{"id": "C162", "title": "Frames share out the lightning of a period", "statement": "When a period is gridded once as one frame and once cut into frames, the images of the frames together hold what the image of the period holds: in each pixel the flash and group extent densities and the energies of the frames add up to those of the period (with scaling, up to one storage step for each further frame), its minimum flash area is the least of theirs, and averages are those of the frames weighted by the densities. The energies in the images of all frames and tiles add up to the energy of the files of the period.", "quantifier": "all edges of frames in order, files, ways of opening, tilings and domains of both calls, and all pixels", "why_tests_cant": "needs every way to cut a period and every place of a file in it; a test has one frame or a few files", "anchors": ["glmtools/grid/make_grids.py:grid_GLM_flashes", "glmtools/grid/make_grids.py:GLMlutGridder", "glmtools/grid/accumulate.py:accumulate_var_on_grid_direct_idx", "glmtools/io/imagery.py:write_goes_imagery"]}
{"id": "C163", "title": "More lightning never lowers an image", "statement": "A gridding call for some files, and one for these and others, whatever their domains and tiles: in every pixel that both show, the flash and group extent density and the energy of the first are not above those of the second; where the first shows a minimum flash area, the second shows one that is not above it; and without scaled integers the areas behind the averages (average times density) are not above those of the second. The same holds for a frame and a frame that contains it.", "quantifier": "all files, additional files, frames within frames, domains, tilings and pixels", "why_tests_cant": "a test compares a few images; that no rounding to steps and no order of files turns the comparison round holds for all inputs", "anchors": ["glmtools/grid/make_grids.py:grid_GLM_flashes", "glmtools/grid/make_grids.py:GLMlutGridder", "glmtools/grid/accumulate.py:accumulate_minvar_on_grid_direct_idx", "glmtools/io/imagery.py:write_goes_imagery"]}
{"id": "C164", "title": "Pixels show the lightning near them", "statement": "The value of a field in a pixel depends only on the flashes that meet the thresholds and have an event whose footprint is not entirely left of, right of, below or above the pixel: two gridding calls whose files have the same such flashes, in any order and any files, show the same there, whatever lightning is elsewhere, and whatever their domains and tiles. Where there is no such flash all fields show 0, whatever the sizes and positions of boxes, tiles, footprints and flashes. The same holds for each frame and the files of the frame. For flashes and boxes of any size, images with the same pixels show the same where the flashes inside their range that come near the pixel are the same.", "quantifier": "all pairs of calls, files, frames and pixels", "why_tests_cant": "a test looks at a few images; that no bookkeeping (ids, padding, tiles, boxes searched) lets far lightning change a pixel holds for all inputs", "anchors": ["glmtools/grid/make_grids.py:grid_GLM_flashes", "glmtools/grid/make_grids.py:GLMlutGridder", "glmtools/io/imagery.py:write_goes_imagery"]}
{"id": "C165", "title": "Densities add up to the extent of the lightning", "statement": "If the footprints of the events of files are in the domain of a gridding call, the flash extent densities of all pixels of its images, times the area of a pixel, add up to the extents of the flashes that meet the thresholds, where the extent of a flash is the area of the footprints at its places, each place once; exactly without scaled integers, otherwise with an excess of at most one step for each pixel. The same holds for groups. Without scaled integers average area times density adds up in the same way to areas times extents. All of this holds for each frame and the files of the frame. Whatever the sizes and positions of boxes, footprints and flashes, densities add up to no more than that, for a call and for each of its frames.", "quantifier": "all files, domains, tilings, thresholds and frames", "why_tests_cant": "a test checks a few images; that no part of a footprint is lost or counted twice at edges of pixels and tiles holds for all inputs", "anchors": ["glmtools/grid/make_grids.py:grid_GLM_flashes", "glmtools/grid/make_grids.py:GLMlutGridder", "glmtools/grid/split_events.py:split_event_data", "glmtools/io/imagery.py:write_goes_imagery"]}
{"id": "C166", "title": "Flashes larger than the padding of tiles", "statement": "The images of a gridding call show in every pixel the lightning recorded there, whatever the sizes of the flashes. (This is false: flashes are selected for a tile by their positions, and the part of a flash that lies in a tile whose padding does not contain the position of the flash is missing there.) What holds for flashes of any size: an image shows in every pixel what those flashes put there whose positions are less than the padding away from one of the pixels of the image; a pixel that only such flashes reach is right; and what is missing from the densities and the energy of a pixel is exactly what the other flashes put there, which is never negative.", "quantifier": "all files with flashes of any size, domains, tilings and pixels", "why_tests_cant": "flashes of hundreds of kilometres are rare, and tests grid a single tile; which tiles lose which parts depends on all positions and tile edges", "anchors": ["glmtools/grid/make_grids.py:grid_GLM_flashes", "glmtools/io/glm.py:GLMDataset.subset_flashes", "glmtools/grid/make_grids.py:subdivided_fixed_grid"]}
{"id": "C167", "title": "Footprints wider than the search for boxes", "statement": "The images of a gridding call show in every pixel the lightning recorded there, whatever the sizes of boxes and footprints. (This is false: on a grid with boxes much smaller than the footprints of events, only the boxes up to two around the centre of a footprint get their share.) What holds whatever the sizes of boxes, footprints and flashes, and wherever flashes and events are: the call succeeds; each pixel shows exactly what is put there by the footprints whose centres are at most two and a half boxes from the centre of the pixel in each direction, of the flashes whose position, and a position of an event of which in the field of view, are less than the padding from a pixel of the image; a pixel of which this leaves nothing out is right; and no density or energy is higher than what all lightning puts there. The same holds for each frame and the files of the frame.", "quantifier": "all files (with flashes and footprints of any size and anywhere), frames, domains, box sizes up to the padding, tilings and pixels", "why_tests_cant": "tests use boxes of about the size of the footprints; which shares are missing depends on every footprint and box", "anchors": ["glmtools/grid/make_grids.py:grid_GLM_flashes", "glmtools/grid/clipping.py:QuadMeshSubset.quads_nearest", "glmtools/io/glm.py:GLMDataset.subset_flashes"]}
{"id": "C168", "title": "Boxes larger than the padding", "statement": "The images of a gridding call show in every pixel the lightning recorded there, if flashes with their footprints are small compared with the padding that is put around tiles, whatever the size of boxes. (This is false: the padding is a whole number of boxes, so there is none if boxes are larger than the padding, and the part of a footprint beyond the seam between two tiles is shown in neither image.) What holds for boxes of any size, for flashes and footprints of any size and anywhere: the call succeeds with one image for each tile; each pixel shows exactly what is put there by the footprints whose centres are at most two and a half boxes from the centre of the pixel and inside the range of the image with its padding, of the flashes whose position, and a position of an event of which in the field of view, are inside that range; and no density or energy is higher than what all lightning puts there. The same holds for each frame and the files of the frame.", "quantifier": "all files (with flashes and footprints of any size and anywhere), frames, domains, box sizes, tilings and pixels", "why_tests_cant": "tests use boxes much smaller than the padding; what is lost at seams depends on the size of boxes and on every footprint and tile", "anchors": ["glmtools/grid/make_grids.py:grid_GLM_flashes", "glmtools/grid/make_grids.py:GridOutputPreprocess.get_pad_slices", "glmtools/grid/make_grids.py:subdivided_fixed_grid", "glmtools/grid/clipping.py:QuadMeshSubset.quads_nearest", "glmtools/io/glm.py:GLMDataset.subset_flashes"]}
{"id": "C169", "title": "Tiles that are too small to be written", "statement": "A gridding call on the fixed grid for readable files succeeds for every domain that has at least as many boxes as tiles in each direction. (This is false: the scene of an image is inferred from its first two columns, so that tiles of one column raise an exception.) What holds for files with flashes and footprints of any size and anywhere, and boxes of any size: the call succeeds exactly if the number of columns of the domain, divided by the number of tiles and rounded down, is at least two, and that of rows at least one; a call with fewer raises an exception whatever the files are, and has written nothing.", "quantifier": "all files, domains, box sizes and tilings", "why_tests_cant": "tests subdivide a few large domains; the answer depends on the numbers of boxes and tiles in both directions", "anchors": ["glmtools/grid/make_grids.py:grid_GLM_flashes", "glmtools/grid/make_grids.py:subdivided_fixed_grid", "glmtools/io/imagery.py:infer_scene_from_dataset", "glmtools/io/imagery.py:write_goes_imagery"]}
