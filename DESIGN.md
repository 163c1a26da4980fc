# Formal model of nasa/simplegrid in Lean 4

`properties.jsonl` lists the properties, `MANIFEST.json` says which theorems settle which property,
`seeded/LOG.jsonl` records the wrong programs the theorems were tried on, `lean/` is the Lake project
(`lake build` in `lean/`).

## Layout of `lean/Verif`

| folder | content |
|---|---|
| `Base/` | Python and numpy as the code uses them. `Py`: exceptions as values, 2-d arrays with checked indexing, strided slices, loops, `rot90`, `concatenate`. `NdArr`: arrays of any rank. `Text`: decimal numbers. `Float`: the abstract number type. `Ieee`: doubles and singles by bit patterns. |
| `Model/` | the model, one file per Python file (`mds.py` is split into `MdsMeta`, `MdsData`, `MdsMore`, `MdsWrite` and `MdsFloats`; `CommandLine` and `Commands` hold the command line part of all five commands); every definition cites file and lines of `/repo/simplegrid` |
| `Spec/` | small specifications that do not mention the model: `Format` (mitgrid field order, sizes, byte positions), `CGrid` (which compute-grid points belong to which field), `Obcs` (what the open-boundary files must hold) |
| `Lemmas/` | helper lemmas |
| `Props/` | the property theorems, named `Cxx_...`, with concrete cases (`example`) beside them |

A theorem whose name ends in `_partial` proves less than its property says; the property's line in
`MANIFEST.json` then has status `partial` and says what is missing.

## Modelling decisions

* **Floats.** Model code is polymorphic in a type `F` with classes of the operations the code performs:
  `Arith` (`+ - * / sqrt sin cos arccos radians`, constants) and `PyFloat` (`<`, `<=`, `== 0`, NaN, infinity).
  The classes contain no laws. Theorems on indexing, input/output and control flow assume nothing of the operations,
  so they hold for IEEE doubles. Where laws are needed they are separate classes, visible as hypotheses:
  `FloatOrder`, `FloatTotal` (irreflexive, transitive, ... comparisons, true of IEEE including NaN), `ZeroLaw` (`0.0 == 0`),
  `LawfulF64`/`F32` (a double is its bit pattern; conversion to single). Properties of geometry and sums
  (C13-C15, C25, C62, C75, C79-C82, C96-C105, C113, C114, C125, C133) are proved over the real numbers; **rounding is not modelled there**.
  C117 and C118 are about rounded arithmetic: `RoundedAdd` and `Rounded` state the standard error model (a finite result has finite operands
  and a relative error of at most u; products also an absolute error eta for underflow).
  `Base/Ieee` models IEEE-754 doubles by bit patterns (`Dbl`): `+ - * / sqrt`, comparisons and literals, rounded to nearest even. They are proved to be
  correctly rounded (`Lemmas/IeeeNearest`) and to satisfy `FloatOrder`, `FloatTotal`, `ZeroLaw`, `LawfulF64`, `F32` and `Rounded` with u = 2^-53,
  eta = 2^-1075 (`Props/Doubles`), so every theorem that names these classes holds for doubles. C119-C123 and C142 are stated for `Dbl` itself.
  Not fixed by IEEE-754 and therefore parameters (`Libm`): `sin`, `cos`, `arccos`, and the order in which `ndarray.mean` adds. All NaNs are one.
  The operations were also compared with the processor's on random operands (a test, not a proof).
  `Model/MdsFloats` adds what CPython does with times of mds files: `'{:.12E}'.format`, `float()` of decimals, `//`, `int()` and `deltat*itr`. It was compared with
  Python 3.11.10 on 3000 random cases (a test, not a proof).
  `np.dot` is taken as evaluated from left to right; a BLAS with fused operations or another order is not covered.
* **Concrete cases** use `Toy`, 64-bit patterns read as integers with one NaN, which satisfies all those laws, or the reals.
* **pyproj.** `Geod` is an arbitrary structure: `inv` (a distance), `npt n k` (the k-th of the n points of `npts`), `a` (the radius).
  Nothing is assumed except that `npts` returns n points.
* **2-d arrays.** `Mat`: rows, columns, element function. Statements compare sizes and elements in range only.
  Reads and writes are checked and raise `IndexError` as numpy does. Memory order matters only to `np.nditer` in
  `util.nearest`; there an array (`NArr`) carries its traversal order.
* **Files** are lists of bytes (data), lists of characters (names, meta files). A directory (`MdsDir`) has its names in the
  order the operating system lists them. A function that writes returns the new state together with its outcome, also when it raises.
* **Exceptions** are values (`Except PyErr`); `PyErr` distinguishes the exception classes, not the messages.
* **Loops that may not terminate** (only in `regrid`, and in `getobcs` which calls it) take a bound on the number of loop
  tests; `none` means "still running". Statements quantify over the bound.
* **xESMF.** `Xesmf` is an arbitrary pair of functions: weights from two grids, and application of weights.

## What is modelled

| Python | Lean | left out |
|---|---|---|
| `mitgridfilefields.py` | `Model/Fields` | nothing |
| `gridio.py` `read_mitgridfile`, `write_mitgridfile` | `Model/GridIO` | verbose printing; negative `ni`, `nj`; failing `open`, short writes; buffering |
| `util.py` `nearest` | `Model/Nearest` | arrays that are not 2-d |
| `util.py` `lonlat2cart`, `squad_uarea`, `pquad_uarea` | `Model/Geometry` | 1-d/scalar arguments of `lonlat2cart` |
| `computegrid.py` `fill`, `edges`, `areas`, `tomitgrid` | `Model/ComputeGrid` | verbose printing; negative bounds |
| `mkgrid.py` `mkgrid`, `main` | `Model/MkGrid` | missing keyword arguments (for the command see `Model/Commands`) |
| `regrid.py` `regrid`, `main` | `Model/Regrid` | printing of arrays; missing coordinates or subscales; negative `ni`, `nj`; dictionaries without `XG`/`YG` |
| `matchedges.py` | `Model/MatchEdges` | (message in `Model/Messages`) |
| `addfringe.py` `addfringe`, `main` | `Model/AddFringe` | (messages in `Model/Messages`) |
| `stitch.py` `stitch`, `main` | `Model/Stitch` | (messages in `Model/Messages`) |
| `mds2mitgrid.py` | `Model/Mds2Mitgrid`, with files `Model/RunFiles`, with the name of the directory `Model/RunGlob` | verbose printing; the rare arrays of rank 3 that numpy can broadcast |
| `getobcs.py` `weightfilename`, `getobcs` | `Model/GetObcs`, with the name of the directory `Model/ObcsGlob` | verbose printing; creation of the results directory; parent and regional dictionary being the same object; depths decreasing with time; failing writes |
| `mds.py` `strip_comments`, `parse1`, `parsemeta`, `readmeta`, meta text of `wrmds` | `Model/MdsMeta` | non-ASCII digits and `\w`; `int()` of text with underscores or blanks |
| `mds.py` `scanforfiles`, `rdmds`, `wrmds` | `Model/MdsData`; `usememmap`, `returnmeta`, keyword arguments of `wrmds` in `Model/MdsMore`; all arguments of `wrmds` and what a failing call leaves in `Model/MdsWrite`; times as doubles in `Model/MdsFloats`; `astype` in `Model/MdsType`; `glob` with shell wildcards in `Model/MdsGlob` (C143 shows that for names without wildcards and slashes it agrees with `Model/MdsData`) | names with several slashes together with `..`, links or absolute paths; `**`; `astype` with integer types, `verbose`, `debug`; negative `ndims`, `nrecords`; warnings; read-only files (`np.memmap` opens files for writing); keywords `itr`, `times`, `deltat` in `**kw` |
| `create_parser` of all five commands, and the part of Python's `argparse` they use | `Model/CommandLine` | message texts; non-ASCII digits; a line feed at the end of an argument; `fromfile` prefixes and positional arguments (not used) |
| `main` of all five commands, from arguments to files; messages of `sgmkgrid`, `sgregrid`, `sgaddfringe`, `sgstitch` | `Model/Commands`, `Model/Messages` | other printing (array dumps, read progress, usage); two names for one file; directories and permissions; negative cell counts |

Each file starts with a comment giving the simplifications in detail.
Not modelled at all: `tests/`, documentation, notebooks, packaging, performance, concurrency, the operating system beyond files and directory listings.

## How the properties are proved

| id | method |
|---|---|
| C01-C09 | byte-level lemmas for `write` and `read` by induction over the 16 fields and over byte lists; crash points are prefixes of the bytes written |
| C10-C12 | `nearest` is a fold over the traversal order; loop invariant; rotation permutes the order |
| C13-C16, C75 | trigonometric and vector identities over the reals; triangle inequality for angles from Mathlib |
| C17-C19 | invariants for the two loops of `fill` |
| C20-C25, C61, C62 | one lemma on checked assignment loops, then index arithmetic; sums by induction |
| C117, C118 | forward error analysis: the error of each operation, then Minkowski's inequality for the vectors; the exact area enters by Bretschneider's formula (C14) |
| C119 | C118 with `doubles`; error of `radians`, of the products of sines and cosines; no overflow from bounds on every intermediate result; C113 |
| C143 | matching of patterns equals `Spec.Shell` (induction over the pattern); then the loops over both lists of files take the same steps |
| C144 | conversion of elements commutes with assignment, selection and reshaping, hence with every step of the loops |
| C145 | a bracket with one character matches like the character (induction over the pattern); C143 for directories |
| C146 | files found and files opened all have names `base.*`, so both runs take the same steps; names of different grid fields are never prefixes of each other |
| C147 | an action that adds weight files only, then induction over the responses: files of a response are written after all of it has been assembled |
| C148 | C145 for every file that is read, C143 for plain names, then a case split on the steps of `getobcs` |
| C149 | the loops over steps and levels give the same for directories that agree in what they use (induction); C54 for missing results |
| C150 | both calls split into grids, interpolators and responses; file names of different responses differ |
| C151 | C146 for the reads, C149 for the call |
| C142 | the error of the points in C119, then the triangle inequality |
| C120 | C59, then rounding to 24 bits on bit patterns |
| C121 | C18, then the nearest double to x+360: candidates on the grid of step 2^-44, the tie by kernel evaluation |
| C123 | the decimal text is the nearest 13-digit number, the double read the nearest to that; two 13-digit numbers cannot be nearest to doubles this close; CPython's floor division step by step, the correction being exact below 2^49 |
| C122 | bounds on the products of cosines at the pole, then the nearest double to 1+t is 1 for tiny t; NaN propagates; C61 for the tile, C124 for `mkgrid` |
| C26-C29 | composition |
| C124, C136-C138 | C17, C18, C22, C23 put together: points of the compute grid by division with remainder; C136: the block in source indices for each number of turns, blocks of blocks in 16 combinations; C137: index shifts in the tile, then C135's lemma on what `stitch` keeps; C138: corner points of the parts in the files, then C41 |
| C77, C78 | the commands composed: files written by one are read by the next; entries of `mkgrid` tiles at the corners |
| C79-C82, C96-C105, C114, C125, C133 | spherical trigonometry; pyproj is represented by `Spec.IsSphere` (distance = radius times angle, `npts` = equal steps on a shortest great circle, longitudes in -180..180), shown to be satisfiable |
| C113 | half the excess is the argument of 1+ab+bc+ca+i[abc] (as in C99), so sin x < x < tan x bounds it by the triple product; Cauchy-Schwarz for the planar value |
| C30-C39, C76 | `nearest` commutes with rotation; the four orientations form a cycle, so at most three turns are needed |
| C127 | once the corners are located at the same indices (a single nearest point, or the same memory order) the rotation loop runs in step on both pairs of arrays |
| C128 | the programs with messages are shown to refine those without; all lines before the announcement begin differently, and the counts are read back from the end of the text |
| C40-C42, C63, C64, C66 | case analysis over the corner matrix |
| C43-C49, C65, C67, C126, C129-C132, C134, C135 | composition with C01-C25; `concatenate` lemmas; two runs are compared through the elements of the arrays between them |
| C50, C51 | fold over the fields; the zero padding makes both corner queries `(0,0)` |
| C52-C57, C68 | loop invariants of the assembly over depth and time; string lemmas for names |
| C139 | simulation relation between two disks, the second with more weight files, each of which the call would compute itself; induction over the earlier calls |
| C58 | text round trip by induction over characters |
| C106 | simulation: each step of the loop over meta files with a directory that changes matches the ordinary step; the directory only gets longer by zeros; records one at a time against all at once by a lemma on assignments |
| C140 | invariant of both loops: all meta files read so far agree with the first; dictionaries compared by lookup, the equal number of keys giving the other inclusion |
| C141 | (1) invariant of both loops: the size kept in the state is that of every tile read, since the number of bytes and the shape of the target both have to fit; (2)-(4) the two steps of the loop computed for arbitrary sizes |
| C111, C112 | case analysis over the steps of `wrmds` with the directory as state; refinement to the `wrmds` of C59 |
| C110 | bytes of a number by induction over their count |
| C107-C109 | from C58 and C60's lemmas for one tile with arbitrary bytes; the dictionary as an explicit list of entries |
| C83, C84 | an invariant (the directory holds the files of every earlier call) over the series of `wrmds` calls, then C59 with C50 and C54; file names are injective |
| C85-C88 | classification of words, then induction over the options on the line; option tables checked by kernel evaluation |
| C89 | invariant of the argument loop for arbitrary words: every text in the namespace is on the command line |
| C90, C91 | C85 with C77, C78 |
| C92-C94 | C85, then refinement of each `main` by the function it calls; C01, C02 for the file written |
| C95 | induction over the argument loop: once a word is left over the result is never a namespace |
| C115, C116 | words are classified one by one; induction over the argument loop relates lines with the same end; induction over the letters of a group |
| C59, C60, C69-C74 | invariants of the loops over tile files, records and iterations; row-major index arithmetic |

## Properties the code violates

For these the violation is proved (for all inputs of a class, or by a concrete witness where one input suffices) and the part
that does hold is proved beside it.

| id | finding |
|---|---|
| C07 | a failing `write_mitgridfile` destroys the previous file |
| C13 | `rad` of `lonlat2cart` has no effect |
| C31 | `regrid` never returns when exactly one of the two corners has no finite distance to any point |
| C36 | `regrid(mitgrid_matrices=g)` may leave rotated `XG`, `YG` in `g` |
| C127 | with two equally near grid points, csv files and binary files with the same values give different outcomes |
| C44, C65 | `addfringe` never computes the ring's edges and areas; tile B influences the result by at most one bit |
| C48 | cross-seam terms of `stitch` stay zero |
| C134 | `addfringe` accepts a second tile with more cells along the common side, but not one with fewer |
| C51 | `getobcs` without parent grid always raises |
| C52 | index vectors given by the user never work |
| C55 | boundary files are written with time varying fastest |
| C57 | weights of other grids with the same shapes are reused |
| C66 | edges that run in opposite directions are accepted |
| C68 | tiled results give one slice per tile file instead of one per step |
| C70 | one-dimensional arrays written by `wrmds` cannot be read by `rdmds` |
| C71 | stale tile files shadow new data |
| C74 | `squeeze=False` with `rec=None` raises |
| C86 | negative numbers such as `-128.`, `-1e2` or `-inf` are taken for options |
| C87 | `sgmkgrid` without a coordinate silently writes NaN; with `-v` the same line ends with `TypeError` |
| C88 | `sggetobcs`: leaving out `--resultsdir` is a usage error although a default is documented; the boundary options never work |
| C107 | `usememmap=True` fills truncated data files with zeros, on disk, and reads zeros |
| C111 | `wrmds` of an array without dimensions overwrites the meta file before it raises |
| C112 | a time read back with `deltat` may give another iteration number (`0.3//0.1` is 2) |
| C120 | `wrmds` writes single precision unless told otherwise, so data lose 29 bits by default and numbers from 2^128 on become infinite |
| C121 | in the "0 to 360 range" the meridian 0 may come out as 360.0: `npts` longitudes from -2^-45 to 0 do |
| C122 | cells with a side at a pole have the area NaN where the spherical formula is used, so `mkgrid` gives NaN areas along 90 or -90 degrees |
| C141 | tiles of different sizes are read without an error, and wrongly, when a record is selected or a memory map is used |
| C145 | `rdmds` and `mds2mitgrid` cannot read a directory such as `run[1]`: they read `run1` instead, or `mds2mitgrid` silently returns nothing |
| C146 | `mds2mitgrid` silently leaves out grid fields whose files are damaged |
| C148 | `getobcs` reads the results of `run1` when asked for `run[1]`, or fails if there is no `run1` |
| C109 | meta data returned by `rdmds` cannot be passed to `wrmds` if the files have an iteration number, times or field names |

Also seen while reading, outside the properties: the documentation of `rdmds` shows `T,its = rdmds('T',numpy.Inf)`, but
only the array is returned.

## Mutation tests

`seeded/LOG.jsonl` has one line per wrong program: the definition edited, the edit, the claim it breaks, the property
theorems that no longer hold up (`theorems_failed`: their own proof fails or they use a lemma whose proof fails), the
proofs that failed directly, and the theorems added or tightened as a consequence. A failing proof was replaced by `sorry` in the scratch copy and
the build repeated, so that every module was tried. Statements tightened this way or in the review that went with it:

* `lonlat2cart` with x and y exchanged passed C13; C75 was added.
* C52-C57, C68 were about helper functions of the model; they are now about the files `getobcs` leaves, in the terms of `Spec/Obcs`.
* C36 named the model's rotation count; the count is now determined by the positions of the corners.
* C30 was about the loop only; `C30_regrid_stops` is about the whole call.
* The command line properties used the option tables of the model; the documented options are now written out in the specification. C92, C94 and C95
  were added because wrong commands (tile B instead of tile A, parent and regional grid exchanged, stray words accepted) survived.
* A byte order ignored by `wrmds` and `rdmds` alike passed the round trip C59; C110 fixes the bytes on disk.
* Comparing numbers in the meta data of two tiles with `<=` instead of `==` passed; C140 was added.
* A transition between the area formulas at 1 km instead of 10 km passed, as thresholds were constants of the arithmetic; `C61_ten_km`, `C41_millionth` and `C12_sentinel_number` now give the numbers in double precision.
* A `glob` that does not compare the number of directories passed C143 and C145, which spoke of files one directory below only; they now allow files at any depth.

## Trusted base

* Lean's kernel (4.33.0). No `sorry`, no `native_decide`, no `bv_decide`, no axioms of our own.
  `decide` and `decide +kernel` (kernel evaluation, no compiler) are used for concrete cases and for facts on finite tables such as the 16 field names.
* Mathlib for real analysis (C13-C15, C75, C79-C82, C96-C105, C113, C114, C125, C133, C117-C123, sums), and through it the three standard axioms below.
* `argparse` is that of Python 3.11. The model of it was compared with Python 3.11.10 on random command lines (a test, not a proof). An early version differed on `--opt=--` and was corrected; the present one agrees on 48000 lines, 12000 for each option table.
* The reading of Python, numpy and pyproj recorded in the comments of `Base/` and `Model/`. This is the main thing to check by eye.

Axioms each property theorem depends on (`#print axioms`):

* `Quot.sound`, `propext` only: `C03_read_positional`, `C03_trailing_bytes_ignored`, `C04_short_file_raises`, `C10_nearest_is_closest`, `C11_tie_break`, `C12_sentinel_iff`, `C40_only_opposite`, `C50_padding`, `C56_weightfilename_injective`.
* `Classical.choice`, `Quot.sound`, `propext`: the other 280: `C01_round_trip`, `C02_byte_layout`, `C04_torn_write_rejected`, `C05_strict_iff`, `C06_strict_changes_no_data`, `C07_failed_write`, `C07_write_iff`, `C08_none_becomes_nan`, `C09_read_then_write`, `C100_cut`, `C101_boundary_only`, `C102_large`, `C102_strips`, `C102_total_area`, `C103_regrid_positions`, `C104_regrid_areas`, `C105_column_areas`, `C105_large`, `C105_refines`, `C106_memmap_same`, `C107_memmap_short`, `C108_returned_meta`, `C109_meta_as_arguments`, `C110_bytes_read`, `C110_bytes_written`, `C110_file_names`, `C111_failed_write`, `C111_meta_file_destroyed`, `C112_deltat`, `C112_number_from_times`, `C112_there_and_back`, `C112_time_from_number`, `C113_areas`, `C113_formulas_agree`, `C114_strips`, `C117_area_conserved_rounded`, `C117_length_conserved_rounded`, `C118_areas_error`, `C118_corner_error`, `C118_planar_area_error`, `C119_double_areas`, `C119_double_spherical`, `C11_rot90_equivariant`, `C120_single_round_trip`, `C121_double_longitudes`, `C122_mkgrid`, `C122_pole_areas`, `C122_pole_tile`, `C123_number`, `C123_there_and_back`, `C123_times`, `C124_mkgrid`, `C124_regrid`, `C125_east_west`, `C125_north_south`, `C126_adjacent`, `C126_stitch`, `C127_binary_agree`, `C127_sources_agree`, `C127_ties_matter`, `C129_addfringe_again`, `C129_sgaddfringe_again`, `C129_sgstitch_after_sgaddfringe`, `C129_stitch_after_addfringe`, `C12_sentinel_number`, `C12_valueError_iff`, `C130_earlier_seam`, `C131_stitch_order`, `C132_stitch_assoc`, `C133_mkgrid_same_corners`, `C133_mkgrid_then_regrid`, `C133_order_matters`, `C133_same_corners`, `C133_two_steps`, `C134_addfringe_swapped`, `C134_stitch_swapped`, `C135_stitch_block`, `C136_block_only`, `C136_window_first`, `C137_part`, `C137_stitched`, `C138_cut_and_join`, `C139_again`, `C139_history`, `C13_periodic`, `C13_pointwise`, `C13_rad_ignored`, `C13_raises_iff`, `C13_unit_norm`, `C140_mixed_files_raise`, `C140_one_data_set`, `C141_mapped_repeated`, `C141_other_order_raises`, `C141_record_repeated`, `C141_unequal_tiles_raise`, `C142_different_points`, `C142_double_points`, `C142_full_turn`, `C143_plain_name`, `C143_wildcard_directories`, `C144_astype`, `C144_file_type`, `C145_brackets`, `C145_mds2mitgrid_brackets`, `C145_mds2mitgrid_nothing`, `C145_mds2mitgrid_own_directory`, `C145_own_files_not_found`, `C146_damaged_as_missing`, `C146_damaged_field_missing`, `C146_own_files_only`, `C147_failed_call`, `C147_failed_files`, `C147_other_files`, `C148_brackets`, `C148_not_found`, `C148_own_directory`, `C149_missing`, `C149_unused`, `C14_array`, `C14_at_most_two`, `C14_bretschneider`, `C14_nonneg_and_order`, `C14_rigid_motion`, `C14_triangles`, `C150_separate`, `C151_input_files`, `C151_one_step`, `C15_array`, `C15_nonneg`, `C15_order`, `C15_rotation`, `C15_sum_of_excesses`, `C16_pquad_cellwise`, `C16_squad_cellwise`, `C17_fill_preserves`, `C18_fill_subdivides`, `C19_negative_convention`, `C19_nonneg_convention`, `C20_edges`, `C21_tomitgrid_complete`, `C22_partition`, `C23_tomitgrid_entries`, `C24_boundary_zero`, `C24_mkgrid`, `C24_regrid`, `C25_area_conserved`, `C26_mkgrid_corners`, `C27_mkgrid_sizes`, `C28_mkgrid_rejects`, `C29_sgmkgrid_failure_keeps_file`, `C29_sgmkgrid_strict`, `C30_alignment_terminates`, `C30_regrid_stops`, `C31_hangs_if_one_corner_unlocated`, `C31_never_hangs_partial`, `C32_regrid_preserves_points`, `C33_regrid_orientation`, `C34_regrid_rejects_degenerate`, `C34_regrid_rejects_subscale`, `C34_regrid_sizes`, `C34_regrid_succeeds`, `C35_orientation_independent`, `C36_callers_grid_is_modified`, `C36_callers_grid_kept_partial`, `C37_history_independent`, `C37_outcome_unique`, `C38_binary_second`, `C38_counts_required`, `C38_csv_second`, `C38_matrices_third`, `C38_mitgridfile_first`, `C38_no_source`, `C39_identity`, `C41_accepts`, `C41_millionth`, `C41_rejects`, `C41_reported_edges`, `C42_all_corners_near`, `C42_coinciding_corners`, `C42_self`, `C43_addfringe_accepts`, `C43_addfringe_keeps`, `C44_boundary_terms_stay_zero`, `C44_zero_entries_recomputed_partial`, `C45_stitch_sizes`, `C46_stitch_content`, `C47_area_conserved`, `C48_seam_terms_partial`, `C48_seam_terms_stay_zero`, `C49_unequal_edges_raise`, `C50_sizes`, `C51_parent_from_results_raises`, `C52_ints_rejected`, `C52_negative_off_by_one`, `C52_single_index_partial`, `C52_vectors_rejected`, `C52_zero_is_default`, `C53_default_boundaries`, `C54_assembly`, `C55_documented_order_fails`, `C55_single_level_partial`, `C57_fresh_directory_partial`, `C57_stale_weights`, `C58_meta_round_trip`, `C59_data_round_trip`, `C60_order_independent`, `C60_tile_assembly`, `C61_area_formula`, `C61_ten_km`, `C62_dxg_conserved`, `C62_dyg_conserved`, `C63_edge_interpolation`, `C64_only_corners_compared`, `C65_tile_b_is_ignored`, `C66_crossed_edges_accepted`, `C66_stitch_joins_crosswise`, `C67_sgaddfringe`, `C67_sgstitch`, `C68_slice_per_file`, `C69_selection_is_slice`, `C70_vector_unreadable`, `C71_stale_tiles_shadow`, `C72_inf_reads_last`, `C72_nan_reads_all`, `C72_none_on_disk`, `C73_iterations_stacked`, `C74_all_records_raise`, `C74_keeps_list_dimensions`, `C75_axes`, `C75_law_of_cosines`, `C75_same_point_iff`, `C76_sgregrid`, `C77_mkgrid_then_regrid`, `C78_adjacent_tiles`, `C78_any_side`, `C79_equal_spacing`, `C80_sphere_exists`, `C80_sphere_great_circles`, `C81_meridian_sides`, `C82_sides_bulge`, `C83_grid_files`, `C84_results_to_boundaries`, `C96_positions`, `C97_refinement`, `C98_moved_east`, `C99_any_diagonal`, `Cli.C115_abbreviation`, `Cli.C115_ambiguous`, `Cli.C115_grouped_flags`, `Cli.C116_bad_group`, `Cli.C116_unknown_option`, `Cli.C128_announce_inj`, `Cli.C128_same_runs`, `Cli.C128_sgaddfringe`, `Cli.C128_sgmkgrid`, `Cli.C128_sgregrid`, `Cli.C128_sgstitch`, `Cli.C85_command_line`, `Cli.C85_order`, `Cli.C86_negative_numbers_partial`, `Cli.C86_other_spellings_rejected`, `Cli.C87_missing_coordinate`, `Cli.C87_missing_coordinate_verbose`, `Cli.C87_missing_outfile`, `Cli.C87_missing_subscale`, `Cli.C88_boundary_options`, `Cli.C88_empty_resultsdir`, `Cli.C88_resultsdir_required`, `Cli.C89_only_outfile`, `Cli.C89_outfile`, `Cli.C90_any_side`, `Cli.C90_stitch_tiles`, `Cli.C91_regrid_grid`, `Cli.C92_sgaddfringe`, `Cli.C92_sgmkgrid`, `Cli.C92_sgregrid`, `Cli.C92_sgstitch`, `Cli.C93_missing_tile`, `Cli.C94_sggetobcs`, `Cli.C95_stray_words`.
