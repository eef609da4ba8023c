# Formal model of glmtools in Lean 4: design

Subject: `deeplycloudy/glmtools`, the python package in `/repo` (pinned commit).
The model is a Lean 4 / Mathlib project in `lean/`. `properties.jsonl` lists the
properties, `MANIFEST.json` maps each property to theorem names,
`seeded/LOG.jsonl` records the seeded-bug experiments.

## 1. How the model is built

* One Lean definition per python function (or per loop of a long function),
  shallow embedding, total and computable wherever the code is. Every definition cites file and lines.
* Layout
  * `Verif/Py/*`     python / numpy / xarray primitives used by the code (slices,
    `np.unique`, `np.array_split`, `np.repeat`, `np.digitize`, groupby, ...)
  * `Verif/Model/*`  the model of glmtools
  * `Verif/Spec/*`   small specifications, written without reference to the model's helpers
  * `Verif/Proofs/*` helper lemmas
  * `Verif/Props/*`  the property theorems, each followed by a concrete non-trivial
    case (`example`) that satisfies its hypotheses, and, where the code violates the
    property, by a theorem that gives a concrete counterexample
* Exceptions are values (`Except Err`), one constructor per python exception class.
* Mutable state that the python code shares (numpy views written in place, shared
  dictionaries) is threaded explicitly.
* Iteration over a python `set` is modelled by an arbitrary permutation: theorems
  quantify over all of them.
* Library calls that do geometry (pyclipper), nearest neighbour search
  (scikit-learn), interpolation (scipy), file I/O and pickling are parameters.
  What is assumed about a parameter is a hypothesis of the theorem, and a concrete
  instance that satisfies it is given beside the theorem. For the clipper the instances
  are general: intersection of rectangles (`rectClip`) and of convex polygons with
  rectangles (`convexClip` in `Spec/ConvexClip`, proved to be the exact intersection in
  `convexClip_points`), so that C28, C93 and C94 have versions that assume nothing of it.

## 2. Trusted base

1. Lean's kernel, and the axioms `propext`, `Classical.choice`, `Quot.sound`
   (no others; no `native_decide`, no `bv_decide`, no own axioms).
2. The correspondence of the model to the python text, by inspection, function by function.
3. Semantics assumed for libraries:
   * numpy: boolean masks and fancy indexing keep order; `a[idx] += v` reads all
     old values before writing, with later writes winning on repeated indices;
     `np.unique` sorts and removes duplicates; `np.array_split` makes the first
     `n % k` parts one longer; `np.digitize(right=True)`; `np.repeat`; basic slicing
     gives views, so in-place updates are visible through the base array.
   * xarray: `groupby(var).groups` maps each distinct value to the ascending list of
     its positions; indexing a dataset by `{dim: list}` selects rows in list order;
     `.loc` by unique label; `groupby_bins` intervals are open on the left and closed on
     the right; reductions skip NaN.
   * lmatools, as hypotheses of the theorems: a frame gets the children whose `time`, and the parents whose
     `start`, is in the frame (start included, end not), in any order (`PicksByTime`, `KeepsByStart`); point
     densities count the parents with their centroid in a box, west and south edge included (`CountsPoints`).
   * Numbers: exact rationals (reals for the navigation formula) in place of IEEE
     floats, except where a property is about rounding. Integer casts that matter (truncation,
     16-bit wrap-around) are modelled everywhere. Rounding to doubles (`double`, nearest with ties
     to even, sums in any order) is modelled for numbers of boxes and tiles (C113, C114), packed
     locations (C115), times (C116), units (C117), areas and shares (C122), location ids (C124, C150),
     the rows of a chunk (C127) and the energy of an image (C128); rounding to 32-bit floats for the
     accumulators (C108) and for C127 and C128. Overflow, underflow and NaN from arithmetic are not
     modelled. What is proved with exact numbers only is not claimed for floats.
4. Not modelled: logging, the look of figures, tests, notebooks, netCDF attributes with no effect on
   data, and the code of the libraries (`lmatools`, pyclipper, scipy, scikit-learn, xarray, pandas)
   beyond the facts above and the assumptions stated as hypotheses. Section 4 lists this by file.

## 3. Plan per property

| id | modelled | proof |
|----|----------|-------|
| C01 | `OneToManyTraversal.__init__` over named levels | decision logic |
| C02 | `count_children` loop with its flags | fold invariant; refinement to `countRows` |
| C03 | as C02 | sum over partition by parent id |
| C04 | `replicate_parent_ids` loop | induction on levels; refinement to following links |
| C05-C07 | `reduce_to_entities`, both loops | induction on levels; refinement to declarative closure |
| C08 | as C05-C07 | consequence of the closure characterisation |
| C09 | `check_parent_child` | fold invariant, set equality |
| C10 | tree repair in `GLMDataset.__init__` | counterexample + `_partial` (what the repair does achieve) |
| C11 | as C10 with empty levels | counterexample + `_partial` (check_tree off) |
| C12 | `__init_parent_child_data` | from C02-C04 |
| C13 | `subset_flashes` | refinement to a filter, for every set order |
| C14 | `_check_event_xy` | counterexample + `_partial` (at least one good event) |
| C15 | `subset_flashes` error path | always fails: proved; `_partial` |
| C16 | `discretize_2d_location` | injectivity on `x_discr < discr_x_max`; counterexample on the last column |
| C17, C18 | `get_lutevents`, `event_lut_iter` | partition of positions by id |
| C19 | chunk loop + C17/C18 | additivity of distinct counts over a partition of flashes |
| C20, C21 | `read_flashes` | arithmetic of `array_split`, decision logic |
| C22 | shoelace formulas | induction on vertices, `ring` |
| C23 | `polys_from_quadmesh` | telescoping, induction on both dimensions |
| C24-C26 | `_quads_in_bbox_fast`, `quads_in_bbox` | characterisation of returned indices; counterexamples off the grid |
| C27 | `slice`, `clip_polys_by_one_poly`, `make_sub_polys` with the clipper as parameter | alignment by induction |
| C28-C30 | split/weight functions | list sums, lookup alignment |
| C31 | `_fake_lma_events_from_split_glm_lutevents` | injectivity of the combined index, partition |
| C32 | `accumulate_var_on_grid_direct_idx` | invariant over sends; counterexample with a repeated cell |
| C33 | `accumulate_minvar_on_grid_direct_idx` | invariant over sends |
| C34 | `select_dataset` | induction |
| C35, C36 | grid tables and pipeline set-up arity | finite tables, decision logic |
| C37, C38 | `write_goes_imagery` with in-place state | counterexamples + `_partial` |
| C39 | `glm_image_to_var`, CF packing | rounding lemmas |
| C40 | mesh index, accumulation index, transposition and flip | index calculation |
| C41 | `pairwise`, file loop | induction |
| C42, C43 | `aggregate` | bin membership; counterexamples + `_partial` |
| C44 | `infer_scene_from_dataset`, name tables | case analysis |
| C45, C46 | `strftime`/`strptime` fragment, name formatting and parsing over character lists | round trip with day-of-year arithmetic |
| C47, C48 | `subdivide_bnd`, `subdivided_fixed_grid`, pad slices | arithmetic |
| C49, C50 | option dictionaries, shared state over the tile sequence | counterexample + `_partial`; decision logic |
| C51-C54 | value corrections in `glm.py` | rational arithmetic |
| C55-C57 | `lightning_ellipse.py` (reals) | decision logic, trigonometric identities |
| C58, C59 | `ccd.py` lookups | mask alignment, algebra |
| C60 | line parsing | induction over lines |
| C61, C62 | `open_glm_time_series`, `grid_setup` | min/max, algebra |
| C63 | pool map with arbitrary completion order | permutation independence |
| C64 | file times and tree repair | misalignment witness, exact condition |
| C65 | parent records of `mimic_lma_dataset_lut` | counterexample, exact value |
| C66 | weights of counts, with C29 | algebra |
| C67 | chunk reader, regrouping and accumulation chained over all chunks | composition of C28-C32 |
| C68 | chunk reader on a chunk off the grid | counterexample, exact outcome |
| C69 | tiles, padding, trimming of coordinates | composition of C47 and C48 |
| C70 | tile bounds as selection criteria, with C13 | counterexample, exact sufficient condition |
| C75 | `parse_glm_filename_time`, `strptime` with `%Y%j%H%M%S` | counterexample (day 366), exact characterisation |
| C76 | file name of a tile | counterexample, exact condition for equal names |
| C77 | `os.path.dirname`, `os.makedirs` | counterexample, exact condition |
| C78 | corrections of values applied twice | counterexample, exact outcome |
| C79 | cast of NaN in `fix_event_locations` | counterexample for every cast |
| C80 | `lightning_ellipse.py` (reals) | quadratic along a line of sight: only the nearer root is visible |
| C81 | file names in `grid_setup`, with the exceptions of the parser | counterexample, exact condition |
| C82 | `grid_setup` and the main program, with C72 | counterexample, exact condition |
| C83 | the main program, with C62, C69 and the driver | composition |
| C84 | thresholds in `grid_setup`, with C13 | equality of the selected ids |
| C85 | coordinate encoding of imagery, with C39 | counterexample, exact condition, bounds |
| C86 | readers without lookup table | rows of children and parents, chunk by chunk |
| C87 | the same with a mesh, unions as a parameter | exact sum, counterexample, one polygon |
| C88 | the same | counterexample, other modes |
| C89 | `GLMncCollection` (`Model/Collection`), base classes of lmatools as parameters | dictionary of start seconds, C86 per file; counterexample |
| C90 | `TimeSeriesGLMFlashSubset` | C89 with the default date; counterexample |
| C91 | `gen_chopped_events_flashes` | membership in the filtered lists; counterexample |
| C92 | `_fake_lma_from_glm_flashes` (`Model/Chunk`) | from C86; counterexample |
| C93 | `readFiles` composed with the chunk reader and the pipelines of the lookup table gridder; cells from the files' own rows | induction over files; tables of chunks summed back to flashes, groups and events; C67 |
| C94 | the same; sum over all cells | C17, C67, tiling of footprints (rectangles, convex polygons cut by lines); counterexample by computation |
| C95 | `checkFiles` over `openDataset` | no KeyError is possible with the check on (case analysis of opening); counterexample by computation |
| C96 | `getFirstGroup`, `addFlashInitData`, `calculateFlashInit`, `flashInitManual` on an opened dataset | argmin as a fold with invariant; opening keeps the rows of a flash in order |
| C97 | `filteredTimeSeries` with `lassoBounds` | filter with an explicit predicate; counterexample by computation |
| C98 | `scaledClip`, `toClipper`, `fromClipper` around a parameter `iclip`; `notCoveredMessage` | the area of a polygon changes by at most its outline times the movement of its corners; the rounded cells tile the rounded footprint; at most 25 cells |
| C99 | `plotGlmGrid`, `pixelBox`: panels with image, limits and maximum; memory with views and copies | induction over the fields; evenly spaced coordinates give the limits; algebra for the boxes |
| C100 | `Memory` with references: `sel` gives a view, `copy` and dask give new arrays | the package copies (invariant over the panels); the example writes into the view: counterexample and exact effect |
| C101 | `plotFiles`, `plotFileStep` over a model of directories and files; `plotProgram` | counterexample; induction over the sorted times; names are injective in the minute |
| C102 | `plotFlash` on top of `getFlashes` | from the description of `get_flashes` |
| C103 | `fovBounds` | minimum and maximum of lists |
| C104 | `writeImagery`, `storeFile`, `openGlmTimeSeries` | composition of C39-C41 and C61 |
| C105 | the same and `aggregate` | sums of stored values, frame by frame |
| C106 | the same and the pipeline of C94 | sum over pixels |
| C107 | `plotLassoGridSubset`, `lassoGridLog`, `scoreAtPercentile` | sums over cells; order statistics of the sorted values |
| C108 | `roundSingle`, `accumulateVarSingle`, `accumulateMinvarSingle` | induction over the values of a cell, error factor 1+u per operation |
| C109 | `checkAgainstPug` with `targetGrid`, `tileCoords`, `coordEncode` | composition of C62, C83 and C85; parity of the stored integers |
| C110 | `processCriteria` (keyword arguments of the tiles to the selection of flashes), `processFlashes`, `gridGlmFlashes` | composition of C70, C20, C105 and C106 with the key tables of `splitKwargs` and `tileOptions` |
| C111 | `Model/Meta`: attributes and variables of a file (`describeFile`), the calendar of `t_ref + timedelta`, reading back of the times | calendar arithmetic by induction on years and months against `instant`; induction on the fields; composition with C41, C44, C61 |
| C112 | `Model/Cli`: argparse (`classify`, `parseTokens`, `parseArgs`), the table of options, `gridProgram` | induction on the options and the tokens; the table by computation |
| C113 | `Model/Double`: `roundBits`, `double`, `cellCountFl` | rounding lemmas in `Proofs/RoundBits` (nearest, monotone, relative error); error analysis of the quotient |
| C114 | `Model/Double`: `axisBoundsFl`, `subdivideBndFl` | the same, with a bound for the error of every edge |
| C115 | `Model/Double`: `decodeFl`, `fixLocationFl` | error analysis of the scaling chain; the error is linear in the count, with bounds at both ends |
| C116 | `Model/DoubleTimes`: `secSinceBasedateFl`, `timedeltaFl`, `binEdgesFl`, `aggregateFl`, `readFlashesChunksFl` | a rounded quotient of whole numbers compares with whole numbers like the exact one |
| C117 | `Model/Labels`: `densityLabel`, `gridderOutputSetup` | error analysis of the product; texts by computation |
| C118 | `Model/Regular`: `Mesh.quadsInBboxRegular` | the centres of an even grid are an arithmetic progression; floors |
| C119 | `Model/Regular`: `linesFromQuadmesh` | indices |
| C120 | `Model/Capture`: `Capture.captureWriteCall`, `Capture.writeAll` | induction on the calls |
| C121 | `Model/EventArea`: `eventAreas` | counterexample; exact value |
| C122 | `Model/DoubleArea`: `areaOfFl`, `fracAreaFl`, `quadFracFl`, `pieceEnergyFl` | forward error analysis; induction on the order of additions |
| C123 | `Model/Convert`: `convertMain`, `mergeFrames`, `ncTraversal` | C60 gives the columns; C05-C07 the tree |
| C124 | `Model/Ids`: `discretizeFl`, `defaultLocD` | relative error of two roundings; C17 for the rows |
| C125 | `Model/LassoStats`: `flashSummarySeries`, `appendTimes`, `writeSizeStatData`, `lassoStatsFile`, `energySpectra` | a reader of comma separated text as specification; lines and fields are recovered because times and numbers have no comma |
| C126 | `Model/PixelFile`: `readPixelLocationMatFile`, `documentedQuery`, `savePickle`, `loadPickle` and the functions that use them | C58 for the points of the tree; counterexample of two pixels |
| C127 | `Model/ChunkFl`: `Arith`, `readChunkFl` and its parts | the reader is a function of an arithmetic; with the exact one it is the reader of C28 (`C127_exact`); with rounding, errors of shares (C122) go through products, sums of groups and storage |
| C128 | `Model/SessionFl`: `getLuteventsFl`, `readFilesFl`, `gridFrameFl` | errors of the table, of a chunk (C127), of a file and of all files add up as parts of the energy; grids by C108 with one rounding per chunk; images by C106; exact arithmetic gives C94 (`C128_exact`) |
| C129 | `Model/Tiles`, `Model/Session` (no new definitions) | C93 for the clipper restricted to the cells that the search looks at; in a cell with two cells around it nothing is missed; flashes that a tile leaves out do not reach its written part |
| C130 | `Model/Session` | sums over files are sums over a permutation, or over two parts; least of two lists |
| C131 | `Model/Session`, `Spec/Dataset` | flashes asked for are a sublist; every term of the sums is not negative |
| C132 | `Model/Session` | bounds term by term: a flash with a share in the cell has a footprint there, so the minimum is at most its area |
| C133 | `Model/SampleEnergy`, `Model/Session` | subset_flashes selects the flashes in the range (C14); sums over their events; C94 |
| C134 | `Model/Session` | C94 for the clipper restricted to the cells searched (`foundClip`), so that no assumption on the search is left; a cut of a convex polygon is not larger than it |
| C135 | `Model/Writing` | the writer as a machine with one step for each effect on the file system; invariant over any number of steps; corollary of C136 with one call |
| C136 | `Model/Writing` | several writers and a schedule; invariant: of each writer the first files are whole, one is at work, the others untouched; a directory that was not there and is there was made by another |
| C137 | `Model/Whole` | composition of C72, C110, C93 (on the padded grid of the tile), the padding argument of C129 and C37/C40/C41; sums over what the tile was asked for equal sums over everything, because what is left out has no part in the pixels of the tile |
| C138 | `Model/Writing` | the call with what has been written when it ends; a footprint beside its event refutes the claim; induction over the tiles gives the initial segment, and the options and files are the same for all tiles, so the usual failures come with the first |
| C139 | `Model/Whole` | C137 determines the values at a place from the data, in a form that does not mention the domain or the tiles |
| C140 | `Model/Whole` | the sums of C137 over files; raising small values to one step is subadditive up to a step |
| C141 | `Model/Whole`, `Spec/ConvexClip` | the parts of a footprint in the boxes of the domain add up to it; sums over boxes and events are exchanged |
| C142 | `Model/Whole`, `Model/Dataset` | opening keeps the content of rows and adds their places and counts (C12), so the sums of C137 over opened datasets are sums over rows of the files |
| C143 | `Model/Opening` | closed form of the corrections on rows; they keep the tree, so C142 applies to the files with their values in nJ and km2 |
| C144 | `Model/LonLat2D` | case analysis on the assertions |
| C145 | `Model/Whole`, `Model/Opening` | the sums of C143 over rows are regrouped, by unique ids, into sums over flashes, their groups and their events, which do not change under permutations and renaming |
| C146 | `Model/Cli`, `Model/Setup`, `Model/Driver`, `Model/Whole`, `Model/Opening` | C112 for the words, C62 for the grid, C49 for scaled integers, then C143 |
| C147 | `Model/Disk`, `Model/Meta`, `Model/Writing`, `Model/Whole` | C143 and C146 for the images, C111 for the data set of an image, the writer of C135 run to its end, and when two names are equal; the code violates it (`C147_full_false`) when tiles share a second |
| C148 | `Model/Template` | a grammar of templates (text, name, start, end with a format) and a relation that says what each part looks like; induction over the parts of the template against the scanner of `str.format` |
| C149 | `Model/Frames` | the children of a file all carry its product time, so a frame gets all or nothing of a file; its grids then hold what the grids of a call for the files of the frame hold (sums and least values do not depend on the order), which is C93 and C137 for those files |
| C150 | `Model/Ids`, `Model/Lut` | from C124: one id implies at most 28 microradians and a margin apart; so equal ids imply equal places, and the rows are in bijection with the places |
| C151 | `Model/Frames`, `Model/Store`, `Model/Aggregate` | C149 for both calls; the files of a long frame are those of its short frames, so sums and minima over files are sums and minima over frames; the frames in an interval are a piece of the list of frames; counterexample by evaluation |
| C152 | `Model/Logging` | the calendar of C111 and the formats of C148; rounding to microseconds is monotone and, before the last half microsecond, stays in the second; a text in a format of fixed widths can be read in one way; counterexample from `C152_exact` |
| C153 | `Model/OpenOptions` | corrections of areas neither read nor write energies, and the other way round; assigning variables keeps what a row has from the file; the repair only selects rows (C10) |
| C154 | `Model/InMemory` | datasets in memory are a list and a dataset is a place in it; each assignment is a step, so that what a failing call has assigned is there; C10 for the repair, C78 for the second call; counterexample from `C154_exact` |
| C155 | `Model/Whole`, `Model/Imagery`, `Model/Clipping` | two calls are compared; cutting a polygon along a line keeps the sum of the areas, by induction over the lines; then C137 for both calls; sample with pixels of half the size |
| C156 | `Model/Traversal` | both calls by the closed form of a reduced dataset; the levels above a set of rows are the same in the reduced and the whole dataset, the levels below by induction; sample in both orders |
| C157 | `Model/*` (whole call) | `ConvexCall.good` gives the sums behind a pixel; a sum of nonnegative shares is positive iff one of them is; subset of places without duplicates for flashes and groups; weighted averages; sample call with and without scaled integers |
| C158 | `Model/*` (whole call) | the description of pixels by lightning of C145, compared field by field up to order; sums with a factor; two sample files with multiples of energies and areas |
| C159 | `Model/Aggregate` | the sums and quotients of an interval (C42, C43, C74) bounded by induction over the images inside; the range of a weighted mean; counterexample for groups |
| C160 | `Model/Whole`, `Model/Split` | the parents sent for a tile are a permutation of the flashes and groups asked for; points counted in half-open boxes; flashes with a centroid in the tile are all read because of the padding; sums over boxes of an axis |
| C161 | `Model/Frames`, `Model/Split` | as C160, with parents picked by their start; an instant is in one of the frames between ascending edges; counterexample with two frames |
| C162 | `Model/Frames`, `Model/Whole` | the files of a period are, up to order, those of the frames between its edges; then the parts of a pixel as for C140 |
| C163 | `Model/Whole`, `Model/Frames` | the sums behind a pixel (C142) are over more files; raising to a step keeps the order |
| C164 | `Model/Whole`, `Model/Frames` | clipping a polygon beside the pixel gives nothing, so the sums of C145 are those over the flashes nearby |
| C165 | `Model/Whole`, `Model/Frames` | parts of a convex footprint in the boxes of a domain add up to it (C141); sums over boxes and rows exchanged |
| C166 | `Model/Whole` | every finite file is compact for some padding, so grids are as for C137; the criteria of a tile are the same as being less than the padding from one of its pixels; sums split into flashes within reach and others |
| C167 | `Model/Whole`, `Model/Clipping` | the search from a point finds exactly the boxes up to two around it, so a box with two boxes on each side gets a share exactly if the centre of the footprint is within two and a half boxes; being asked for is the same as being near the image |
| C168 | `Model/Whole`, `Model/Clipping`, `Model/Tiles` | the runs of a call are the same whatever the padding; a footprint is found from the box its centre is in, so only if its centre is on the padded grid, and being asked for is the same as being inside the range of the padded grid |
| C169 | `Model/Whole`, `Model/Imagery`, `Model/Tiles` | gridding keeps the edges of the grid; the first tile has as many columns and rows as the quotients say, and the writer infers a scene only with two columns and one row (C44); conversely C168 |
| C74 | `aggregate` | least element of the frames in an interval |
| C71-C73 | options, files and results of `grid_GLM_flashes`, `proc_each_grid` | counterexamples, exact characterisations |

## 4. What is modelled and what is not

Every definition in `Verif/Model` and `Verif/Py` cites the lines that it models and says what it leaves out.
The table lists the functions of the package; "parameter" means that the theorem holds for every function
in that place that satisfies the stated hypotheses.

| file in /repo | modelled | module | not modelled |
|---|---|---|---|
| `glmtools/io/traversal.py` | `OneToManyTraversal`: `__init__`, `count_children`, `replicate_parent_ids`, `reduce_to_entities`, `check_parent_child` | `Model/Traversal` | xarray itself (`groupby`, indexing) beyond the facts in section 2 |
| `glmtools/io/glm.py` | file name parsing, `fix_unsigned`, `fix_event_locations`, `GLMDataset.__init__` and its corrections, `event_areas`, `subset_flashes`, `get_flashes`, `_check_event_xy`, `get_lutevents`, `event_lut_iter`, `discretize_2d_location`, `fov_bounds` | `Model/Names`, `Values`, `Dataset`, `Opening` and `OpenOptions` (from packed files), `InMemory`, `Lut`, `EventArea`; in double precision `Ids`, `Double`, `SessionFl` | reading of netCDF |
| `glmtools/io/lightning_ellipse.py` | everything | `Model/Ellipse` | floating point |
| `glmtools/io/ccd.py` | `quads_from_corner_lookup`, `read_official_corner_lut`, `create_pixel_lookup`, files of positions, saving and loading of tables | `Model/Ccd`, `PixelFile` | interpolation, nearest neighbours, pickle and the content of .mat files (parameters) |
| `glmtools/io/convert_lcfa.py` | generators, `parse_LCFA_ASCII`, the tables, the merged dataset and the main program | `Model/Lcfa`, `Convert` | number parsing (parameter) |
| `glmtools/io/mimic_lma.py` | `read_flashes` (chunks), `fast_fixed_grid_read_chunk`, `replicate_and_weight_split_child_dataset_new`, `_fake_lma_*_lut*`, `mimic_lma_dataset_lut`, `read_flash_chunk`, `mimic_lma_dataset`, `_fake_lma_from_glm_*`, `sec_since_basedate`, `GLMncCollection`, `TimeSeriesGLM*` | `Model/Lut`, `Split`, `Accumulate`, `Chunk`, `Collection`, `Session`; in double precision `DoubleTimes`, `ChunkFl`, `SessionFl` | the base classes of lmatools (assumptions in `Model/Collection`) |
| `glmtools/io/imagery.py` | `glm_scaling`, `glm_image_to_var`, `get_glm_global_attrs`, `get_goes_imager_*`, `new_goes_imagery_dataset`, `xy_to_2D_lonlat`, `infer_scene_from_dataset`, `pairwise`, `write_goes_imagery` (with path templates, directories and files that may be left by a call that is stopped or runs beside another), `aggregate`, `gen_file_times`, `open_glm_time_series` | `Model/Imagery`, `Names`, `Aggregate`, `Store`, `Meta`, `Coords`, `LonLat2D`, `Template`, `Writing`, `Disk`; in double precision `DoubleTimes` | encodings of the metadata variables; netCDF compression |
| `glmtools/grid/accumulate.py` | everything; 32-bit rounding of the accumulators | `Model/Accumulate`, `Model/Single` | |
| `glmtools/grid/clipping.py` | `poly_area`, `vectorized_poly_area`, `polys_from_quadmesh`, `lines_from_quadmesh`, `QuadMeshSubset` with all its searches, `clip_polys_by_one_poly`, `QuadMeshPolySlicer`, `make_sub_polys`, `run_pool_map` | `Model/Clipping`, `Regular`, `Scaling`; in double precision `DoubleArea`, `ChunkFl` | pyclipper (parameter; its scaling to integers is modelled); `join_polys` (parameter of `read_flash_chunk`) |
| `glmtools/grid/split_events.py` | everything | `Model/Split`; in double precision `ChunkFl` | |
| `glmtools/grid/make_grids.py` | tables of grids, pipelines, units of densities, `process_flashes`, `subdivide_bnd`, `subdivided_fixed_grid`, `GridOutputPreprocess`, `grid_GLM_flashes`, `proc_each_grid`; calls as a whole, with one or several frames | `Model/Accumulate`, `Driver`, `Select`, `Tiles`, `Capture`, `Labels`, `Session`, `Whole`, `Frames`; in double precision `Double`, `SessionFl` | `lmatools.FlashGridder` (parameter `Gridder`, or as stated in `Whole` and `Frames`) |
| `examples/grid/make_GLM_grids.py` | `create_parser` with the argparse of the standard library, `nearest_resolution`, `grid_setup`, the main program, `MyFormatter` | `Model/Setup`, `Cli`, `Logging`, `Double` (numbers of boxes and bounds in double precision) | the token `--`, clusters of short options, the rest of logging; `lmatools` grids and coordinate systems (parameter) |
| `examples/check_glm_data.py`, `flash_init_dataset.py`, `glm-lasso-stats.py` | the loop over files; all functions; `gen_filtered_time_series` and its bounds, the flash statistics, `plot_lasso_grid_subset` and its loop | `Model/Examples`, `LassoGrid`, `LassoStats` | figures, calculations with altitudes, `slicer` (not reachable), statistics of `lmatools` |
| `examples/grid/test_grid_specs.py` | `check_against_pug` | `Model/Guide` | the tests that call it |
| other `examples/*.py` | | | scripts that plot |
| `glmtools/plot`, `examples/plot` | `plot_glm_grid`, `plot_glm`, `plot_flash`, the program `plot_glm_file.py` | `Model/Plot` | maps, colours, colour bars, fonts |
| `examples/grid/grid_sample_data.py` | `total_energy_in_L2` | `Model/SampleEnergy`, `Model/SampleEnergyFl` | the tests that call it |
| `glmtools/test`, `docs` | | | tests, documentation |

## 5. Deviations of the code from the properties

For the properties with status `partial` the code does not do what the property says. Each has a theorem
`Cxx_full_false` with a concrete counterexample in the model, and theorems about what does hold.

* C10 (Opening an inconsistent file yields a self-consistent hierarchy): Violated by the code: groups of missing flashes and groups without events survive the repair. Full statement C10_full, refuted by C10_full_false; C10_repair_iff says exactly for which files the repair works.
* C100 (Plotting leaves the data alone): Proved for plot_glm_grid. False for plot_glm of the examples with data in memory: missing values of the plotted fields become zero in the dataset (C100_exact says exactly which).
* C101 (The plotting program makes an image for every time): False: open_glm_time_series gives data that is computed on demand, whose maximum plot_glm cannot format, so the program never makes an image (C101_never). Given plots that succeed: names have minutes, so that the last time of each minute remains (C101_exact, C101_same_minute), and an output directory with a blank or colon fails (C101_blank).
* C107 (The lasso log has one right line for each frame): The numbers are right for all frames; the time has a blank instead of T for exactly the frames without lightning in the lassos. The test of a position against the lassos is a parameter (lmatools), sums are exact. C107_products: three of the eight products have file names that the gridder does not write.
* C109 (Images of the sectors match the product user guide): The coordinates that are written pass for all sectors, resolutions and tilings (C109_written_partial). Read back from the files (16 bits, steps of 56 microradian, always the offset of the 2 km full disk) they pass if they are on the grid of the imager (C109_lattice_partial); around the nadir exactly for 2 and 10 km (C109_options_partial); with 4 and 8 km all pixels are read 28 microradian too far west and north (C109_shift), with 0.5 and 1 km the spacing is off. get_GOESR_grid of lmatools is a parameter.
* C11 (A file without data can be opened with default options): Violated with default options: AttributeError for every file with an empty level. Proved: check_tree off and all levels empty opens; otherwise ValueError.
* C111 (The metadata of an image describe it): Violated by the code in two places: every file announces six quality flags and lists two (C111_flags), and a file of a sector that is none of the known ones has the name of mesoscale sector 1 and states Custom (C111_sector says that exactly these do). All other clauses are proved.
* C112 (The options of the command line mean what the help says): Violated by the code in two places: --corner_points is accepted and never changes what the program does (C112_corner), and for a mesoscale sector the centre is taken as longitude and latitude, not as coordinates of the fixed grid as the help says (C112_meso). All other clauses are proved.
* C113 (The number of boxes survives floating point): Violated by the code: int(width/dx) truncates, so --width 0.6 --dx 0.2 gives 2 boxes (C113_full_false). Proved: the rounding is that of doubles (C113_double); the number is right for whole kilometres (C113_whole_partial), for exact doubles (C113_multiple_partial), and unless the size is within one part in 2^51 of a whole number of boxes; it is off by at most one always, and for a whole number of boxes is right or one too small (C113_decimal_partial). Overflow and underflow are not modelled.
* C114 (Tiles survive floating point): Violated by the code: the number of boxes is a truncated quotient, so the 1500 rows of the continental US sector at 2 km are cut into tiles of 749 and 751 rows (C114_full_false). Proved: order, shared edges and exact bounds for all domains (C114_order); every tile but the last has the whole quotient of boxes, or one less if the division is even, and the last has the rest (C114_boxes_partial); where the numbers are short enough the tiles are those of C47 (C114_exact_partial).
* C115 (Packed locations survive floating point): Violated by the code: the unscaled counts are truncated, not rounded, so count 40000 becomes 40001 and count 65535 becomes 0 (C115_full_false). Proved exactly for attributes in single precision, as in the product: the lower half of the counts is restored, the upper half is one too large, the largest becomes the smallest (C115_single). For either precision every count is off by at most one, but the largest may become the smallest (C115_near_partial).
* C117 (Units of densities): Violated by the code: int(dx*dy*1e12) truncates, so the label for 10 km boxes (280 microradians) says 78399 instead of 78400 (C117_full_false). Proved: the area is right or one too small, and the minutes are right (C117_area_partial); any length is given to the nearest tenth of a minute (C117_minutes).
* C121 (Event areas are those of the groups shared out): Violated by the code: the function has no return statement, and the quotient is the wrong way round (C121_exact).
* C126 (Tables of pixels can be used as documented): Two parts fail: the documented query has latitude first, but the tree has longitude first; load_pixel_lookup returns five things where three are documented, so that assigning them to three names is a ValueError. Queries with longitude first, files of positions and tables of corners are proved.
* C133 (The energy of files can be compared with the energy of their image): False for a file without lightning, which cannot be opened by total_energy_in_L2 (AttributeError, C11 and C73). Proved for files with lightning; the comparison with the image needs the conditions of C94 and a call that selects the same flashes. In double and single precision both sums hold up to a part of the energy that does not depend on the energies (C133_rounded_partial, C133_image_rounded_partial, with the conditions of C128).
* C135 (A call that is stopped can be repeated): False: an image is written under its final name, so every call leaves a broken image if it is stopped while it writes one. Proved: there is at most one such image, all before it are whole, everything else is as before; calling again with the same paths gives what the call would have given. With the default path calling again does not mend the broken image, because the path has the time of the call in it.
* C136 (Calls at the same time do not disturb one another): False: write_goes_imagery looks for the directory and then makes it, and a call that makes it in between ends the other with FileExistsError, for every two calls that need the same new directory. Proved for all schedules: this is the only way to fail, and calls of which no two need the same new directory all succeed and write what they would write alone.
* C138 (A call that fails leaves nothing behind): Refuted: tiles are written one by one, and an exception while a later tile is read leaves the images of the earlier ones. Proved: the images left behind are exactly those of the tiles before the one that fails; files that cannot be opened, files without events, missing options and calls for one tile leave nothing; with footprints centred on their events no call fails. Exceptions in the middle of one file (a full disk) are not modelled.
* C14 (A selected flash has no event outside the field of view): Violated by the code: a flash with one event in view keeps its other events.
* C144 (Longitudes and latitudes of the pixels of an image): Refuted: the assertions use the names nx and ny, which are not defined, so every call raises NameError; without assertions the function returns None, because it has no return statement. Proved: it never returns coordinates, and the mesh that it converts has every pixel once.
* C147 (From the command line to the disk): Holds for a single tile, and when the path template asks for the name of the data set and no two tiles are made in the same second, from the call and from the command line, for every template of C148 that names a file in a directory. The name of a file holds the second in which it was made but not the tile: if the template does not ask for the name, or all tiles of a grid that is divided evenly are made within one second, only the last is left on the disk, C147_lost. In general the last tile with the same letter and second is left, C147_exact. A template without a directory, such as the name alone, is refused, C147_no_directory.
* C149 (Frames): Lightning is put at the product time of its file, not at its own time: the image of a frame shows the files whose product time is in the frame, C149_exact and C149_partial. In full for energies if no file is across an edge of the frames, C149_contained_partial. Refuted by a file that starts in a frame and whose events are after it. The selection of times by lmatools (start included, end excluded, any order) is assumed, and that opening a file keeps its product time.
* C15 (subset_flashes works with the event location check switched off): Violated by the code for every input (UnboundLocalError).
* C151 (Aggregating images of short frames): Refuted as stated: intervals are open on the left and closed on the right, so the frame that starts with an interval is counted in the interval before and the frame that starts at its end is included. C151_partial: it holds for intervals that begin and end just before the long frame (by less than a short frame, e.g. 1 ns). C151_late_partial: an interval aligned with the frames shows the image of the frame that begins and ends one short frame later. Values are taken without packing (scale_and_offset False); average_group_area is left out (C43), as are the centroid densities, which are a parameter.
* C152 (Times in the log): The part without a format is refuted: the second is that of the rounded time, the milliseconds are those of the time itself, so in the last half microsecond of a second a time is shown that is almost a second late. C152_exact: exactly then; C152_partial: at all other times it is right. The format that the program sets (C152_format) has no such defect. The zone is the same for the records that are compared.
* C154 (Datasets in memory): The part about the given dataset is refuted: with a consistent tree, or without the check, it becomes the opened one, with new variables and units (C154_exact), so it can not be given again (C154_once), and a call that fails in the last step leaves it half done (C154_half). A dataset whose tree is repaired is not changed (C154_partial). Datasets of the time of the bad times are refused with the correction of times on (C154_refused), as a dataset is not a file; C154_same has the opposite as a hypothesis. Datasets that are given are as read from a file.
* C157 (The fields of an image agree): Proved from the sums behind each pixel (PixelHolds): the places of a flash are among those of its groups, and averages are weighted by shares. The last clause fails with scaled integers: a density below 1/16 is raised to 1/16 before the area is divided by it, so the average can be below the minimum (C157_full_false, a call for the sample files). It can fail only at pixels whose density is shown as 1/16 (C157_least_dense_partial, and C157_least_files_partial for files).
* C159 (Aggregated fields agree): Proved except for the range of the average group area, which aggregate calculates from the flash areas: C159_full_false has groups of 20 square kilometres with an average of 187.5.
* C16 (Discretised event locations identify a pixel uniquely): Violated by the code in one column: the last, incomplete column of a row shares its ids with the first column of the next row. C16_collisions says exactly which ids collide; C16_field_of_view shows that no GLM event is affected with the default settings.
* C161 (The extents and centroids of a frame are of the same flashes): C161_full_false: extents are put at the product time of the file, centroids at the start of the flash; a flash that starts 65 s after the base date in a file whose product time is before 60 s has its extent in the first minute and its centroid in the second. C161_contained_partial: in full if no file is across the edges of the frame. C161_exact and C161_once hold for all files.
* C166 (Flashes larger than the padding of tiles): The full statement is refuted by a flash of two events six milliradians apart in a domain of two by two tiles. The other theorems assume what C139 assumes of a call and its opened files, except that nothing is assumed of the sizes of flashes; C166_succeeds and C166_files are for files as they are recorded (as C142).
* C167 (Footprints wider than the search for boxes): The full statement is refuted by a footprint of one and a half milliradians on a grid with boxes of a fifth of a milliradian. The other theorems assume of opened files only that they are not defective, that flashes have areas, that the table of pixels keeps places apart, and that footprints have an area and are centred at their places; C167_succeeds and C167_files are for files as they are recorded (as C142).
* C168 (Boxes larger than the padding): The full statement is refuted by a flash of one event next to the seam between two tiles of boxes of five milliradians. The other theorems are as for C167, without its condition that boxes are at most half as large as the padding; C168_files_succeed and C168_files are for files as they are recorded (as C142), C168_frames_succeed, C168_frames and C168_frames_files for calls with several frames (as C149). Tiles still have at least two columns and one row.
* C169 (Tiles that are too small to be written): The full statement is refuted by two by two boxes in four tiles. C169_only_if and C169_nothing_written are for all files and options of a call on the fixed grid; C169_iff is for files as they are recorded, under the assumptions of C168_files without those about the number of boxes.
* C24 (The regular-grid lookup returns every cell that can touch the box): Violated by the code: a box that reaches past the grid on both sides, or past one side, loses cells. C24_exact says exactly which cells are returned. C24_arranged and C24_arranged_inside_partial say it for meshes with x along the first or the second dimension and edges that run up or down.
* C26 (The irregular-mesh box search finds every quad that meets the box): Violated by the code for quads that contain the box without having a corner in its range. C26_exact says exactly which quads are returned.
* C27 (Split pieces stay paired with their mesh cell and source polygon): Violated by the code for an explicit bounding box (UnboundLocalError) and for a single candidate cell (ValueError); proved for everything else. The clipper is a parameter.
* C32 (Accumulation adds every value to its cell): Violated: numpy's buffered += adds only the last of several rows of one data set that name the same cell. C32_exact says exactly what is added; C32_partial covers rows with distinct cells on the grid, which is what the regrouped pieces of a chunk are.
* C33 (Minimum accumulation yields the smallest value and ignores order): Violated: of several rows of one data set that name the same cell only the last counts. C33_exact says exactly what is stored; C33_partial covers distinct cells per data set.
* C36 (The non-LUT gridder can be set up): Violated for the plain gridder, which unpacks three flash grids into four names; C36_exact characterises the set-ups that succeed; C36_one_missing: one more flash grid would be enough.
* C37 (Written averages are total over extent density): False with scaling for densities below one step: the density is raised in place before it divides the area. Proved unscaled, and scaled for densities and averages of at least one step; the exact value is proved for all.
* C38 (Writing the same grids twice gives the same file): False for the average areas: the grids are divided in place, so a second call divides again. All other fields are proved equal, and the exact value of the averages after the second call is proved.
* C42 (Aggregation uses every frame exactly once): False without start_end: the intervals are open to the left and start at the earliest time, so the earliest frames are lost (and a single frame is an exception). Proved with start_end before the first frame; the exact set of lost frames is proved.
* C43 (Aggregated average areas are density-weighted means): Proved for flashes. False for groups: the total group area is computed from the flash area and flash density.
* C44 (Scene inference is total and its answer can always be named): An image with a single column (or no row) raises an exception. Totality, priority and naming are proved for all others.
* C49 (All tiles are written with the options the caller gave): Violated: the first tile removes scale_and_offset from the caller's dictionary, later tiles get the default.
* C50 (clip_events=False selects the unclipped gridder): Violated by clip_events=False, which still selects clipping; without the option no tile can be processed.
* C52 (Energy unit conversion happens once or not at all): False: if the group or event energy is not in J, the energies before it have already been converted when the exception is raised. The outcome for every combination of units is proved.
* C53 (Areas end up in km2 whatever the input unit, and missing areas become the maximum): Units other than m2 and km2 are kept. Everything else is proved.
* C54 (Unsigned integers read as signed are restored): False: the largest count (65535, read as -1) with any positive rounding error is truncated to 0 and becomes the smallest count. The restored count is proved for all counts and errors.
* C56 (ltg_ellps_radii returns the ellipsoid of a date): False: the function calls ltg_ellps_rev, which does not exist (its name is ltg_ellpse_rev), so every call is a NameError. The table it would read from is right (C56_partial).
* C64 (Corrected times stay with their rows): False: the times are read again in the order of the file and assigned to rows that the repair has reordered, or raise ValueError if the repair removed rows. Proved for consistent files; what happens for all others is proved too.
* C65 (Parent records carry their own number of events): Violated: the code writes the number of events of the whole chunk into every record.
* C68 (A chunk without lightning on the grid is skipped): Violated: a chunk without a piece on the grid always raises ValueError.
* C70 (A tile receives every flash with an event in it): Violated for flashes whose centroid is further from the tile than the padding.
* C71 (The names of the written files are returned): Violated: for tiles of a fixed grid the list of names is always empty.
* C72 (Optional keyword arguments can be omitted): Violated: ellipse_rev is required, and for a fixed grid nadir_lon, output_filename_prefix and output_writer; C72_exact is an equivalence.
* C73 (Files without events are skipped): Violated: opening such a file raises AttributeError (C11), so the whole call fails; a file that opens as an empty dataset is skipped.
* C75 (Impossible time stamps are rejected): False for day 366 of a year with 365 days, which is taken as the first day of the next year. Everything accepted is characterised exactly.
* C76 (Tiles are written to different files): False: the prefix of a tile is ignored by the gridder for lookup tables, so tiles of equal size overwrite each other. The exact condition for equal names is proved.
* C77 (Every output path works): False for a path without a directory: os.makedirs('') raises FileNotFoundError. Exact characterisation proved.
* C78 (An open dataset can be opened again): False: the corrections drop the encoding that they need, so opening again always raises KeyError (C78_exact).
* C79 (Missing locations stay missing): False for every possible result of the cast: missing locations become a number. The number is proved (C79_exact); locations that are not missing are C54.
* C81 (Files with any name can be gridded): False: a name with less than five underscores is an IndexError, but only ValueError is caught. Exact condition proved.
* C82 (The command line program runs with and without --split_events): False without --split_events: the option clip_events is then missing, which is an error in proc_each_grid. Exact condition proved.
* C85 (Coordinates of written imagery survive storage): False for grids finer than 2 km or off the imager grid: coordinates are stored with a step of 56 microradian. No gaps, bounded error and weak order proved for all; strict order for coarser grids; exact recovery characterised.
* C87 (Splitting conserves the energy of flashes and groups): False for flashes and groups whose outline has several polygons: the energy is given to every polygon. Exact sum proved; equality for outlines of one polygon and for events.
* C88 (The full-quality mode of read_flash_chunk works): False: NameError, datetime is not imported. The other modes complete.
* C89 (Iterating over a collection gives every file once): False: of several files that begin in the same second only the last is read, once for each; a file without selected flashes raises ValueError. Exact behaviour proved; the property for distinct seconds and files with selected flashes. With a numpy that does not stack generators iteration always raises TypeError (C89_generators_partial). The base classes of lmatools are modelled as stated in Model/Collection.
* C90 (Time series refer to the base date they are given): False: base_date is not passed on, the default of the base class is used. Exact behaviour proved.
* C91 (A lasso keeps flashes whole): False: events and flashes are selected independently. Proved for lassos that do not cut through flashes.
* C92 (The place of initiation of a flash record is where it began): False: the centroid is stored. Exact behaviour proved; the property where the centroid is the place of the first event.
* C93 (Grids hold what the selected flashes put there): False in full: events at different places that the table puts together are moved to their mean place, which depends on the chunk; so the grids depend on chunk_size. Proved for files in which a pixel of the table has one place, for any clipper and footprints of which the search finds all cells; every chunk needs a footprint on the grid (else C68). C93_convex_partial assumes nothing of clipper or search, for convex footprints on the grid. C93_exact says what every cell of every grid holds, for files without defects and nothing else assumed of places, chunks, clipper and search.
* C94 (The energy image adds up to the energy of the lightning): False for footprints wider than the search. Proved for any clipper whose pieces add up and footprints of which the search finds all cells; with no assumption on clipper or search for rectangular footprints of up to four cells and for convex footprints that reach at most two cells from their mean. C94_exact says what every cell and the whole image hold for any clipper, search and footprint.
* C95 (The checking program names the broken files): False: the check of the tree that GLMDataset does by default repairs such files, so KeyError is never raised and no name is ever printed; a file without data ends the program. Exact behaviour proved; with the check off the KeyError appears iff the group of an event is missing.
* C97 (Filtering a time series by flash properties): False: events are not filtered (the program says so in a comment). Flashes are exactly those within the bounds; the property for events holds iff every event is of a flash within the bounds. Altitudes of GLM flashes are zero.


Seen while reading, without a property of their own:

* `merge_dataframes_to_xarray` (convert_lcfa.py:152) uses `set_coords(..., inplace=True)`, which current
  xarray does not accept.
* `query_tree` (clipping.py:246) calls `quads_in_bbox_fast`, which does not exist, on a regular mesh.
* `ltg_ellps_radii` (lightning_ellipse.py:44-66) calls `ltg_ellps_rev`, which does not exist (C56).

## 6. Axioms

Output of `#print axioms` for the theorems in `MANIFEST.json`.

* depends on axioms: [propext, Classical.choice, Quot.sound]: `C01_ctor_checks`, `C01_ctor_wellFormed`, `C02_count_children`, `C02_count_children_default`, `C02_count_children_to_bottom`, `C03_counts_add_up`, `C03_counts_add_up_consistent`, `C04_orphan_keyError`, `C04_ragged_valueError`, `C04_replicate_parent_ids`, `C05_empty_level_error`, `C05_requested_ids`, `C05_requested_rows`, `C06_descendants`, `C06_descendants_mem`, `C06_unknown_ids`, `C07_ancestors`, `C08_idempotent`, `C08_idempotent_exact`, `C08_no_childless_kept`, `C08_no_orphans_kept`, `C09_check_parent_child`, `C09_empty_level_error`, `C09_zero_iff_consistent`, `C100_exact`, `C100_full_false`, `C100_partial`, `C101_blank`, `C101_exact`, `C101_full_false`, `C101_never`, `C101_partial`, `C101_same_minute`, `C102_flash`, `C102_missing`, `C103_bounds`, `C104_series`, `C104_unscaled`, `C105_minimum`, `C105_sums`, `C106_energy`, `C106_image`, `C107_full_false`, `C107_lightning_partial`, `C107_log_partial`, `C107_none_partial`, `C107_shape_partial`, `C108_counts`, `C108_counts_sharp`, `C108_counts_stop`, `C108_float32`, `C108_frames`, `C108_min`, `C108_single`, `C108_sum`, `C109_full_false`, `C109_lattice_partial`, `C109_options_partial`, `C109_shift`, `C109_written_partial`, `C10_consistent_unchanged`, `C10_full_false`, `C10_repair_iff`, `C10_repair_partial`, `C110_lonlat_no_margin`, `C110_selected`, `C110_understood`, `C111_complete_partial`, `C111_flags`, `C111_full_false`, `C111_name_partial`, `C111_products_partial`, `C111_resolution_partial`, `C111_scene_partial`, `C111_sector`, `C111_series_partial`, `C111_times_partial`, `C111_variables_partial`, `C112_abbreviated`, `C112_ambiguous`, `C112_corner`, `C112_files_apart`, `C112_full_false`, `C112_meso`, `C112_parse`, `C112_program`, `C112_refused`, `C112_unknown`, `C113_decimal_partial`, `C113_double`, `C113_full_false`, `C113_multiple_partial`, `C113_whole_partial`, `C114_boxes_partial`, `C114_exact_partial`, `C114_full_false`, `C114_order`, `C115_full_false`, `C115_near_partial`, `C115_single`, `C116_aggregate`, `C116_chunks`, `C116_edges`, `C116_frame`, `C116_order`, `C116_timedelta`, `C117_area_partial`, `C117_full_false`, `C117_minutes`, `C118_lookup`, `C118_one_cell`, `C118_pad_needed`, `C11_check_tree_fails`, `C11_full_false`, `C11_half_empty_fails`, `C120_writes`, `C121_exact`, `C121_full_false`, `C122_area`, `C122_conserved`, `C122_energy`, `C122_mesh`, `C122_near`, `C122_share`, `C123_file`, `C123_newer`, `C123_tree`, `C124_cell`, `C124_interval`, `C124_rows`, `C124_same`, `C125_file`, `C125_missing`, `C125_no_intervals`, `C125_spectra`, `C126_full_false`, `C126_positions`, `C126_query_partial`, `C127_cells`, `C127_energy`, `C127_exact`, `C128_energy`, `C128_exact`, `C128_grids`, `C128_image`, `C128_table`, `C129_tiles`, `C12_counts_sum`, `C12_derived_variables`, `C12_flash_events_sum`, `C130_apart`, `C130_apart_any`, `C130_order`, `C130_order_any`, `C131_from_files`, `C131_stricter`, `C132_average`, `C132_average_any`, `C132_from_files`, `C133_energy_partial`, `C133_from_files_partial`, `C133_full_false`, `C133_image_partial`, `C133_image_rounded_partial`, `C133_no_data`, `C133_rounded_partial`, `C134_any_size`, `C134_bounded`, `C134_frames`, `C134_from_files`, `C135_again_partial`, `C135_default_path`, `C135_full_false`, `C135_interrupted_partial`, `C136_full_false`, `C137_convex`, `C137_end_to_end`, `C138_full_false`, `C138_partial_centred`, `C138_partial_no_events`, `C138_partial_one_tile`, `C138_partial_options`, `C138_partial_prefix`, `C138_partial_success`, `C138_partial_unreadable`, `C139_from_files`, `C139_one_value`, `C139_same_pixels`, `C13_no_data_error`, `C13_subset_flashes`, `C140_any_size`, `C140_files_add`, `C140_from_files`, `C141_convex`, `C141_energy`, `C141_from_files`, `C142_from_files`, `C143_units`, `C145_same_lightning`, `C146_arguments`, `C146_command_line`, `C147_command_line_partial`, `C147_exact`, `C147_full_false`, `C147_lost`, `C147_no_directory`, `C147_partial`, `C148_name_last`, `C148_one_path`, `C148_same_frame`, `C148_start_template`, `C148_template`, `C148_unclosed`, `C148_unknown_name`, `C148_unopened`, `C149_contained_partial`, `C149_exact`, `C149_full_false`, `C149_partial`, `C14_full_false`, `C14_iff`, `C14_one_event_in_view_partial`, `C14_unmixed_partial`, `C150_apart`, `C150_exact`, `C150_grids`, `C150_pixels`, `C150_position`, `C151_full_false`, `C151_late_partial`, `C151_partial`, `C152_exact`, `C152_format`, `C152_full_false`, `C152_order`, `C152_partial`, `C152_stamp`, `C153_all_rows`, `C153_area`, `C153_energy`, `C153_parents`, `C153_times`, `C153_tree`, `C154_early`, `C154_exact`, `C154_full_false`, `C154_half`, `C154_once`, `C154_others`, `C154_partial`, `C154_refused`, `C154_same`, `C155_any_width_false`, `C155_finer_grid`, `C155_from_files`, `C156_down`, `C156_same_level`, `C156_up`, `C157_denser`, `C157_from_files_partial`, `C157_full_false`, `C157_largest`, `C157_least_dense_partial`, `C157_least_files_partial`, `C157_least_partial`, `C157_together`, `C158_areas`, `C158_densities`, `C158_energy`, `C159_agree`, `C159_full_false`, `C159_quiet`, `C159_range`, `C15_check_off_always_fails`, `C15_criteria_select_partial`, `C15_full_false`, `C160_everywhere`, `C160_from_files`, `C160_once`, `C160_once_from_files`, `C160_pixels`, `C161_contained_partial`, `C161_everywhere`, `C161_exact`, `C161_from_files`, `C161_full_false`, `C161_once`, `C161_once_from_files`, `C162_any_size`, `C162_energy`, `C162_energy_from_files`, `C162_from_files`, `C162_sums`, `C163_any_size`, `C163_longer_frame`, `C163_more_files`, `C164_any_size`, `C164_dark`, `C164_dark_any_size`, `C164_dark_frames`, `C164_dark_frames_any_size`, `C164_frames`, `C164_near`, `C165_at_most`, `C165_extents`, `C165_frames`, `C165_frames_at_most`, `C166_exact`, `C166_files`, `C166_full_false`, `C166_missing`, `C166_partial`, `C166_succeeds`, `C167_at_most`, `C167_exact`, `C167_files`, `C167_full_false`, `C167_partial`, `C167_succeeds`, `C168_at_most`, `C168_exact`, `C168_files`, `C168_files_succeed`, `C168_frames`, `C168_frames_files`, `C168_frames_succeed`, `C168_full_false`, `C168_succeeds`, `C169_full_false`, `C169_iff`, `C169_nothing_written`, `C169_only_if`, `C16_collisions`, `C16_field_of_view`, `C16_full_false`, `C16_unique_partial`, `C17_conservation`, `C18_missing_parent`, `C18_no_data`, `C18_parent_statistics`, `C19_chunk_independence`, `C20_chunks`, `C20_order`, `C20_selection_order`, `C21_filter_iff_asked`, `C22_affine`, `C22_chord`, `C22_dilation`, `C22_empty`, `C22_rectangle`, `C22_reversal`, `C22_start`, `C22_translation`, `C22_value`, `C22_vectorized`, `C23_quads`, `C23_tiling`, `C24_arranged`, `C24_arranged_inside_partial`, `C24_exact`, `C24_full_false`, `C24_inside_partial`, `C24_outside_empty`, `C25_arranged`, `C25_coverage`, `C25_narrow_missed`, `C25_neighbourhood`, `C25_outside_empty`, `C26_exact`, `C26_full_false`, `C26_small_quads_partial`, `C27_explicit_box`, `C27_full_false`, `C27_grid_partial`, `C27_irregular_partial`, `C27_searched_points`, `C27_single_cell`, `C28_chunk`, `C28_conserved`, `C28_convex`, `C28_levels`, `C28_rectangles`, `C28_share`, `C29_fractions`, `C29_grid`, `C29_transposed_negative`, `C30_fake_ids`, `C30_levels`, `C30_levels_missing`, `C30_lut`, `C30_lut_missing`, `C30_rows`, `C31_cells`, `C31_no_pieces`, `C31_totals`, `C32_exact`, `C32_full_false`, `C32_off_grid`, `C32_partial`, `C32_pipeline`, `C33_exact`, `C33_order_partial`, `C33_partial`, `C34_effect`, `C34_forwarded`, `C35_contents`, `C35_tables`, `C37_exact`, `C37_full_false`, `C37_partial`, `C38_exact`, `C38_full_false`, `C38_partial`, `C39_scaling`, `C39_tables`, `C40_directions`, `C40_onto`, `C40_orientation`, `C41_frames`, `C41_written`, `C42_exact`, `C42_fields`, `C42_full_false`, `C42_intervals`, `C42_partial`, `C42_success`, `C43_flash_partial`, `C43_full_false`, `C43_group_exact`, `C44_exact`, `C44_full_false`, `C44_partial`, `C45_distinct`, `C45_roundtrip`, `C46_stamps`, `C47_rounding`, `C47_tiles`, `C48_trim`, `C49_exact`, `C49_full_false`, `C49_partial`, `C49_program`, `C50_exact`, `C50_full_false`, `C50_partial`, `C51_again`, `C51_positive`, `C51_success`, `C52_exact`, `C52_full_false`, `C52_once`, `C52_partial`, `C53_again`, `C53_exact`, `C53_full_false`, `C53_partial`, `C54_all_events`, `C54_equivalent`, `C54_exact`, `C54_full_false`, `C54_partial`, `C54_raw`, `C54_unsigned`, `C55_valid`, `C56_exact`, `C56_full_false`, `C56_partial`, `C57_direction`, `C57_nadir`, `C57_orientation`, `C57_place_exists`, `C57_symmetry`, `C58_lookup`, `C59_corners`, `C59_inflate`, `C59_nadir`, `C59_no_missing`, `C60_frames`, `C60_success`, `C62_centre_needed`, `C62_custom`, `C62_given`, `C62_lonlat`, `C62_resolution`, `C62_sector`, `C62_times`, `C63_pool`, `C64_exact`, `C64_partial`, `C65_full_false`, `C65_points_partial`, `C66_chunk`, `C67_chunk`, `C67_chunk_min`, `C67_grids`, `C67_rectangles`, `C68_exact`, `C68_full_false`, `C68_partial`, `C69_mosaic`, `C70_call_partial`, `C70_full_false`, `C70_iff`, `C70_partial`, `C71_exact`, `C71_full_false`, `C71_partial`, `C72_exact`, `C72_full_false`, `C72_partial`, `C73_exact`, `C73_full_false`, `C73_no_events_error`, `C73_partial`, `C74_minimum`, `C75_exact`, `C75_full_false`, `C75_partial`, `C76_collision`, `C76_exact`, `C76_full_false`, `C76_partial`, `C77_full_false`, `C78_exact`, `C78_full_false`, `C78_partial`, `C79_exact`, `C79_full_false`, `C80_injective`, `C81_exact`, `C81_full_false`, `C81_partial`, `C82_exact`, `C82_full_false`, `C82_partial`, `C83_custom`, `C83_fixed`, `C84_thresholds`, `C85_coarse`, `C85_exact`, `C85_fine`, `C85_full_false`, `C85_half`, `C85_image`, `C85_partial`, `C86_cells_unset`, `C86_points`, `C86_sent`, `C87_count_partial`, `C87_events_partial`, `C87_exact`, `C87_full_false`, `C87_one_polygon_partial`, `C88_full_false`, `C88_never_partial`, `C88_other_modes_partial`, `C89_exact`, `C89_full_false`, `C89_generators_partial`, `C89_partial`, `C90_exact`, `C90_full_false`, `C90_partial`, `C92_exact`, `C92_full_false`, `C92_partial`, `C93_chunk_size_partial`, `C93_convex_partial`, `C93_exact`, `C93_full_false`, `C93_partial`, `C94_convex_partial`, `C94_exact`, `C94_full_false`, `C94_partial`, `C94_rectangles_partial`, `C95_check_off`, `C95_exact`, `C95_full_false`, `C95_no_data_ends`, `C95_partial`, `C96_flash_init`, `C96_no_groups`, `C96_printed`, `C97_altitude`, `C97_exact`, `C97_full_false`, `C97_iff`, `C97_partial`, `C98_area`, `C98_coordinates`, `C98_energy`, `C98_footprint`, `C98_message`, `C98_rounded`, `C98_silent`, `C99_labels`, `C99_plot`, `convexClip_beside`, `rectClip_beside`
* depends on axioms: [propext, Quot.sound]: `C04_ancestor_unique`, `C05_unknown_entity`, `C119_lines`, `C11_empty_opens_partial`, `C120_raises`, `C135_broken`, `C136_exact`, `C136_partial`, `C136_race`, `C144_full_false`, `C144_mesh_partial`, `C33_full_false`, `C59_official_table`, `C61_series`, `C64_full_false`, `C64_otherwise`, `C65_exact`, `C65_single_partial`, `C77_exact`, `C77_partial`, `C91_exact`, `C91_full_false`, `C91_partial`, `C95_loop`, `C97_any_bounds`
* does not depend on any axioms: `C103_none`, `C126_missing`, `C144_exact`, `C144_never`
* depends on axioms: [propext]: `C06_orphans_of_unknown_id_kept`, `C107_products`, `C126_corners`, `C126_lookup_exact`, `C126_lookup_partial`, `C36_exact`, `C36_full_false`, `C36_lut_partial`, `C36_one_missing`, `C55_revisionFor`, `C55_switch`, `C58_mixed`, `C59_missing_iff`

