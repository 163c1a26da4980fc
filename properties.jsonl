{"id": "C01", "title": "mitgrid file round trip", "statement": "Writing a complete grid (16 arrays of the documented sizes) with write_mitgridfile(f,g,ni,nj) and reading it back with read_mitgridfile(f,ni,nj,strict) succeeds for strict=True and strict=False and returns, for every name, an array of the same size with the same value in every position.", "quantifier": "all cell counts ni,nj, all array contents (every 64-bit pattern, NaN payloads and signed zeros included), both strict modes", "why_tests_cant": "unit tests only round-trip a handful of reference grids; sizes and contents are unbounded", "anchors": ["simplegrid/gridio.py: write_mitgridfile", "simplegrid/gridio.py: read_mitgridfile", "simplegrid/mitgridfilefields.py"]}
{"id": "C02", "title": "mitgrid file byte layout", "statement": "A successful write produces exactly 16*(ni+1)*(nj+1)*8 bytes; the 8 bytes at position 8*(k*(ni+1)*(nj+1) + i + j*(ni+1)) are the big-endian IEEE double of element (i,j) of the k-th field of the documented order, and are a zero double wherever (i,j) lies in that field's padding row/column or the field is None. An array with a single row or column where the field has more is repeated along it.", "quantifier": "all ni,nj, all grids, every field, every (i,j), every byte", "why_tests_cant": "a test can only look at some offsets of some files; the layout has to hold at every offset because MITgcm reads the raw stream", "anchors": ["simplegrid/gridio.py: write_mitgridfile", "simplegrid/mitgridfilefields.py: names, ni_delta_sizes, nj_delta_sizes, datatype, order"]}
{"id": "C03", "title": "reading is positional and total on long enough files", "statement": "Non-strict read of any file holding at least 16*(ni+1)*(nj+1) doubles succeeds; the array returned for the k-th field has the documented size and its (i,j) element is the big-endian double at byte 8*(k*(ni+1)*(nj+1)+i+j*(ni+1)); bytes past 16*(ni+1)*(nj+1) doubles do not influence the result.", "quantifier": "all byte strings, all ni,nj", "why_tests_cant": "the set of input files is infinite", "anchors": ["simplegrid/gridio.py: read_mitgridfile"]}
{"id": "C04", "title": "truncated files are never silently accepted", "statement": "If the file holds fewer than 16*(ni+1)*(nj+1) complete doubles, read_mitgridfile raises (non-strict: always ValueError); in particular a writer killed after any strict prefix of the bytes of a write leaves a file that the reader rejects.", "quantifier": "all ni,nj, all files, all crash points (byte positions) of a write", "why_tests_cant": "crash points are as many as bytes in the file; tests kill the writer at none of them", "anchors": ["simplegrid/gridio.py: read_mitgridfile", "simplegrid/gridio.py: write_mitgridfile"]}
{"id": "C05", "title": "strict mode accepts exactly the zero-padded files", "statement": "On a long enough file, strict read raises RuntimeError if and only if some padding entry (last row of a field with no extra row, or last column of a field with no extra column) of some field is nonzero (NaN counts as nonzero); otherwise it succeeds.", "quantifier": "all files, all ni,nj", "why_tests_cant": "an iff over every padding position of every field", "anchors": ["simplegrid/gridio.py: read_mitgridfile (strict)"]}
{"id": "C06", "title": "strict mode changes no data", "statement": "Whenever strict read succeeds, non-strict read of the same file returns the identical grid.", "quantifier": "all files, all ni,nj", "why_tests_cant": "quantifies over all files", "anchors": ["simplegrid/gridio.py: read_mitgridfile"]}
{"id": "C07", "title": "failed writes: prefix left behind, old file destroyed, never readable as a grid", "statement": "When write_mitgridfile fails on a field (missing name or array that cannot be broadcast to the field's size) the file on disk holds exactly the complete slices of the fields before it and nothing of its previous contents, and reading that file with the same ni,nj raises. (The write is not atomic: the previous file is lost.) A write succeeds exactly if every field is None, of its documented size, or has one row or one column where it should have more (which is then repeated).", "quantifier": "all grids, all failing fields, all previous file contents", "why_tests_cant": "failure points times contents cannot be enumerated", "anchors": ["simplegrid/gridio.py: write_mitgridfile"]}
{"id": "C08", "title": "empty fields become NaN", "statement": "A field that is None in the dictionary is written as a NaN-filled array and is read back as an array of the documented size all of whose entries are NaN (never as None).", "quantifier": "all grids with any subset of fields None", "why_tests_cant": "2^16 subsets, all sizes", "anchors": ["simplegrid/gridio.py: write_mitgridfile"]}
{"id": "C09", "title": "read-then-write reproduces the file", "statement": "For every file of exactly 16*(ni+1)*(nj+1) doubles whose padding entries are +0.0, writing what was read produces a byte-identical file.", "quantifier": "all files, all ni,nj", "why_tests_cant": "quantifies over all files", "anchors": ["simplegrid/gridio.py"]}
{"id": "C10", "title": "nearest returns a closest grid point", "statement": "If some point of equally-shaped lon/lat matrices has a distance below 1e10 (m), util.nearest returns indices inside the matrix together with the geodesic distance to that very point, and no matrix point is strictly closer; points whose distance is NaN are never returned.", "quantifier": "all matrix sizes and contents, all query points, every distance function, any memory layout of the input", "why_tests_cant": "minimality is a universal statement over all points of all matrices", "anchors": ["simplegrid/util.py: nearest"]}
{"id": "C11", "title": "nearest tie-breaking is by memory order and rotation-equivariant", "statement": "Among equally close points nearest returns the first one in memory traversal order; therefore calling it on matrices rotated with numpy.rot90 returns the rotated index pair and the same distance.", "quantifier": "all matrices, layouts and queries, ties included", "why_tests_cant": "ties/layouts are not in the test data", "anchors": ["simplegrid/util.py: nearest", "simplegrid/regrid.py: regrid (rotation loop)"]}
{"id": "C12", "title": "nearest sentinel and shape check", "statement": "On matrices of equal shape nearest returns (-1,-1,1e10) exactly when no point has a distance below 1e10. It raises ValueError exactly when the shapes differ or the size is zero, and no other exception.", "quantifier": "all matrices, all queries", "why_tests_cant": "iff over all inputs", "anchors": ["simplegrid/util.py: nearest"]}
{"id": "C13", "title": "lonlat2cart lands on the unit sphere", "statement": "For all longitudes/latitudes the returned triples have Euclidean norm 1 (in exact arithmetic), 360-degree shifts of longitude do not change them, and each output triple depends only on its own lon/lat pair. The documented rad argument has no effect (the result never has norm rad unless rad=1).", "quantifier": "all real lon/lat matrices, all rad", "why_tests_cant": "trigonometric identity over the reals", "anchors": ["simplegrid/util.py: lonlat2cart"]}
{"id": "C14", "title": "planar cell area", "statement": "pquad_uarea returns for every cell half the norm of the cross product of its diagonals: non-negative, independent of which corner is listed first, of orientation and of rigid motions, equal to the sum of the two triangle areas when the cell is planar and convex, and at most 2 on the unit sphere.", "quantifier": "all corner coordinates in R^3, all array sizes", "why_tests_cant": "real-analytic identity over a continuum", "anchors": ["simplegrid/util.py: pquad_uarea"]}
{"id": "C15", "title": "spherical cell area", "statement": "squad_uarea returns for every cell the sum of the spherical excesses of its two triangles; in exact arithmetic it is non-negative for non-degenerate corner triples on the unit sphere and unchanged by rotations of the sphere.", "quantifier": "all unit-vector corners, all array sizes", "why_tests_cant": "spherical triangle inequality over a continuum", "anchors": ["simplegrid/util.py: squad_uarea"]}
{"id": "C16", "title": "area arrays are cellwise", "statement": "Both area functions return an (m-1)x(n-1) array for m x n corners, and entry (i,j) depends only on corners (i,j),(i+1,j),(i+1,j+1),(i,j+1).", "quantifier": "all sizes and contents", "why_tests_cant": "universal over sizes", "anchors": ["simplegrid/util.py: squad_uarea, pquad_uarea"]}
{"id": "C17", "title": "fill preserves given points and everything outside its window", "statement": "computegrid.fill never changes a compute-grid point at a multiple of the strides inside the window, nor any point outside [ilb..iub]x[jlb..jub] of the arrays it is given in the arrays it returns.", "quantifier": "all subscales >=1, all window sizes, all contents, every npts function", "why_tests_cant": "loop invariants over unbounded sizes", "anchors": ["simplegrid/computegrid.py: fill"]}
{"id": "C18", "title": "fill subdivides edges by great-circle points", "statement": "After fill, points between two adjacent given points of a given column are exactly the geod.npts points of that edge in order, and every remaining point is the corresponding geod.npts point between the two already-filled points of its row; longitudes are shifted by 360 only in the non-negative-longitude convention.", "quantifier": "all subscales >=1, all window sizes, contents and npts functions", "why_tests_cant": "functional correctness for every index", "anchors": ["simplegrid/computegrid.py: fill"]}
{"id": "C19", "title": "longitude convention", "statement": "If no longitude in the input compute grid is negative then no longitude produced by fill is negative; if some is negative, npts results are stored unmodified.", "quantifier": "all grids, all npts results >= -360", "why_tests_cant": "universal over contents", "anchors": ["simplegrid/computegrid.py: fill"]}
{"id": "C20", "title": "edge lengths", "statement": "computegrid.edges returns geod.inv distances between adjacent points inside the window and exactly zero for every edge touching the ring outside it, with shapes (r-1,c) and (r,c-1), without index errors.", "quantifier": "all sizes and windows inside the arrays", "why_tests_cant": "universal over sizes", "anchors": ["simplegrid/computegrid.py: edges"]}
{"id": "C21", "title": "tomitgrid sizes always match the file format", "statement": "For every compute grid with one-cell ring, tomitgrid succeeds (no index error) and returns all 16 fields with exactly the sizes required by the mitgrid format for ni=(iub-ilb)/2, nj=(jub-jlb)/2.", "quantifier": "all grid sizes", "why_tests_cant": "sizes are unbounded", "anchors": ["simplegrid/computegrid.py: tomitgrid", "simplegrid/mitgridfilefields.py"]}
{"id": "C22", "title": "cell centres and corners partition the compute grid", "statement": "XG,YG are the compute grid points at even offsets from (ilb,jlb) and XC,YC the points at odd/odd offsets.", "quantifier": "all sizes and contents", "why_tests_cant": "universal over indices", "anchors": ["simplegrid/computegrid.py: tomitgrid"]}
{"id": "C23", "title": "cell widths, heights and areas", "statement": "Each of DXG,DYG,DXF,DYF,DXC,DYC,DXV,DYU is the sum of the two sub-edges that make up that side of its cell, and RAC,RAZ,RAW,RAS the sum of the four sub-areas of its cell, unless one of the summands is zero, in which case the entry is zero.", "quantifier": "all 12 fields, all sizes, all indices", "why_tests_cant": "universal over indices; off-by-one slips of one cell would be invisible on smooth grids", "anchors": ["simplegrid/computegrid.py: tomitgrid"]}
{"id": "C24", "title": "undefined boundary terms are exactly zero", "statement": "Every entry of a field that would need data beyond the tile (DXC,DXV,RAW,RAZ on the first/last row; DYC,DYU,RAS,RAZ on the first/last column) returned by mkgrid/regrid is exactly zero.", "quantifier": "all sizes, all inputs", "why_tests_cant": "universal over sizes", "anchors": ["simplegrid/computegrid.py: tomitgrid, edges"]}
{"id": "C25", "title": "area conservation", "statement": "In exact arithmetic, with no zero sub-area, the RAC entries of a grid sum to the sum of all sub-areas of the compute grid; every sub-area is counted exactly once.", "quantifier": "all sizes and area values", "why_tests_cant": "sum over unbounded index sets", "anchors": ["simplegrid/computegrid.py: tomitgrid (RAC)"]}
{"id": "C26", "title": "mkgrid corner placement", "statement": "mkgrid puts the user's north-west point at XG/YG[0,-1], south-east at [-1,0], and the two mixed corners at [0,0] and [-1,-1], bit for bit.", "quantifier": "all corner coordinates, all subscales >=1", "why_tests_cant": "universal over inputs", "anchors": ["simplegrid/mkgrid.py: mkgrid"]}
{"id": "C27", "title": "mkgrid sizes and counts", "statement": "mkgrid with subscales m,n >=1 succeeds and returns ni=m, nj=n and the 16 fields with the sizes the file format requires.", "quantifier": "all m,n >= 1, all coordinates", "why_tests_cant": "unbounded sizes", "anchors": ["simplegrid/mkgrid.py: mkgrid"]}
{"id": "C28", "title": "mkgrid rejects non-positive subscales", "statement": "mkgrid raises for every lon_subscale<=0 or lat_subscale<=0 (never returns a grid).", "quantifier": "all integers", "why_tests_cant": "all non-positive integers", "anchors": ["simplegrid/mkgrid.py: mkgrid", "simplegrid/computegrid.py: fill"]}
{"id": "C29", "title": "mkgrid command output is a valid strict mitgrid file", "statement": "The file written by sgmkgrid for subscales m,n>=1 is accepted by read_mitgridfile(file,m,n,strict=True), which returns exactly the grid mkgrid computed.", "quantifier": "all m,n>=1, all coordinates", "why_tests_cant": "end-to-end over all inputs", "anchors": ["simplegrid/mkgrid.py: main", "simplegrid/gridio.py"]}
{"id": "C30", "title": "regrid alignment loop terminates", "statement": "Whenever both corner points are located and lie in different rows and columns, the rotation loop stops after at most three quarter turns, at an orientation with the first corner at smaller i and larger j.", "quantifier": "all grids, layouts, queries, ties included", "why_tests_cant": "termination over all inputs; tests only see terminating runs", "anchors": ["simplegrid/regrid.py: regrid"]}
{"id": "C31", "title": "regrid never hangs", "statement": "regrid returns or raises for every input. (False: when exactly one of the two corners has no finite distance to any grid point, e.g. a NaN coordinate or |lat|>90, the rotation loop runs forever.)", "quantifier": "all inputs", "why_tests_cant": "non-termination cannot be observed by a finite test", "anchors": ["simplegrid/regrid.py: regrid (while loop)", "simplegrid/util.py: nearest"]}
{"id": "C32", "title": "regrid preserves existing corner points", "statement": "The block of the (rotated) input has the points nearest to (lon1,lat1) and (lon2,lat2) at its upper left and lower right corner, and every XG/YG point of it appears unchanged in the output at (p*lon_subscale, q*lat_subscale).", "quantifier": "all grids, corners, subscales>=1", "why_tests_cant": "universal over points", "anchors": ["simplegrid/regrid.py: regrid"]}
{"id": "C33", "title": "regrid orientation", "statement": "On success the grid point nearest to (lon1,lat1) is at output [0,-1] and the one nearest to (lon2,lat2) at output [-1,0].", "quantifier": "all grids, all queries", "why_tests_cant": "universal over inputs", "anchors": ["simplegrid/regrid.py: regrid"]}
{"id": "C34", "title": "regrid sizes and counts", "statement": "On success returned ni,nj equal block rows*lon_subscale, block cols*lat_subscale and are positive, and all 16 fields have the sizes the format requires for them; non-positive subscales and degenerate corner pairs raise.", "quantifier": "all grids, queries, integer subscales", "why_tests_cant": "unbounded", "anchors": ["simplegrid/regrid.py: regrid"]}
{"id": "C35", "title": "regrid result does not depend on the input's orientation", "statement": "Rotating XG and YG of the input by any number of quarter turns beforehand does not change the result.", "quantifier": "all grids, layouts, queries, numbers of turns", "why_tests_cant": "symmetry over all inputs", "anchors": ["simplegrid/regrid.py: regrid"]}
{"id": "C36", "title": "regrid does not modify the caller's grid", "statement": "regrid(mitgrid_matrices=g) leaves g unchanged. (False: if a rotation is needed, g['XG'] and g['YG'] are replaced by rotated arrays while the other 14 fields keep their orientation. True when no rotation is needed.)", "quantifier": "all grids and queries", "why_tests_cant": "aliasing effects over all inputs", "anchors": ["simplegrid/regrid.py: regrid (mitgrid['XG'] = np.rot90(...))"]}
{"id": "C37", "title": "history independence of regrid", "statement": "In any sequence of regrid calls sharing one grid dictionary, every call returns what it would have returned on the original dictionary.", "quantifier": "all call sequences", "why_tests_cant": "unbounded histories", "anchors": ["simplegrid/regrid.py: regrid"]}
{"id": "C38", "title": "regrid input source selection", "statement": "mitgridfile takes precedence over xg_file/yg_file, which take precedence over mitgrid_matrices; ni,nj nonzero are required exactly for the file sources; with no source ValueError is raised; csv parsing is used iff both names have extension .csv.", "quantifier": "all combinations of arguments", "why_tests_cant": "combinatorial over all argument values", "anchors": ["simplegrid/regrid.py: regrid"]}
{"id": "C39", "title": "identity regrid", "statement": "Regridding the full tile with its own NW/SE corners and subscale 1 returns XG and YG unchanged, with the tile's counts.", "quantifier": "all tiles whose corner points are unique nearest points", "why_tests_cant": "universal over tiles", "anchors": ["simplegrid/regrid.py: regrid"]}
{"id": "C40", "title": "only opposite edges are ever matched", "statement": "When matchedges succeeds the edge pair is one of (N,S),(S,N),(E,W),(W,E).", "quantifier": "all tiles, all distance functions", "why_tests_cant": "universal over tiles", "anchors": ["simplegrid/matchedges.py: matchedges", "simplegrid/util.py: N,S,E,W"]}
{"id": "C41", "title": "edge detection criterion", "statement": "matchedges reports edge X for a tile exactly when both corner points of X are within the tolerance (the millionth part of the mean of the four tile diagonals, up to rounding) of some corner of the other tile, and X is the first such edge in the order W,E,S,N; it raises ValueError when no edge of either tile qualifies or the pair is not opposite.", "quantifier": "all tiles, all distances", "why_tests_cant": "iff over all inputs", "anchors": ["simplegrid/matchedges.py: matchedges"]}
{"id": "C42", "title": "a tile never matches itself", "statement": "matchedges (hence addfringe, stitch) of two tiles all of whose corners coincide raises ValueError.", "quantifier": "all tiles", "why_tests_cant": "universal over tiles", "anchors": ["simplegrid/matchedges.py: matchedges"]}
{"id": "C43", "title": "addfringe keeps tile A's data", "statement": "On success, every nonzero entry of tile A is returned unchanged, sizes are tile A's, and XG/YG are returned unchanged entirely.", "quantifier": "all pairs of tiles", "why_tests_cant": "universal over tiles and entries", "anchors": ["simplegrid/addfringe.py: addfringe"]}
{"id": "C44", "title": "addfringe computes the fringe", "statement": "On success, boundary terms along the matched edge that were zero in tile A are filled with the values computed from tile B. (False: the edges and areas of the ring are never computed, so boundary terms that are zero in tile A stay zero, whatever tile B is.)", "quantifier": "all pairs of tiles", "why_tests_cant": "the reference files of the unit tests were produced by the code itself and contain the zeros", "anchors": ["simplegrid/addfringe.py: addfringe", "simplegrid/computegrid.py: tomitgrid, edges", "README.rst: Determining boundary grid terms"]}
{"id": "C45", "title": "stitch sizes", "statement": "On success stitch returns counts (nia+nib,nja) for east/west joins and (nia,nja+njb) for north/south joins and all 16 fields have the sizes the format requires for these counts, so the result can be written and read back.", "quantifier": "all pairs of tiles", "why_tests_cant": "unbounded sizes", "anchors": ["simplegrid/stitch.py: stitch"]}
{"id": "C46", "title": "stitch content", "statement": "Every entry of the stitched grid is the entry of tile A (with fringe) or of tile B at the corresponding position, shared-edge entries being taken from tile A.", "quantifier": "all pairs of tiles, 16 fields, all indices, 4 edge pairs", "why_tests_cant": "64 concatenations over unbounded sizes", "anchors": ["simplegrid/stitch.py: stitch"]}
{"id": "C47", "title": "stitch conserves tracer area", "statement": "The numbers stored as RAC of the stitched grid, summed exactly, give the sum of those of tile A (with fringe) plus the sum of those of tile B.", "quantifier": "all pairs of tiles, every reading of the stored numbers in which sums do not depend on the order", "why_tests_cant": "sums over unbounded sizes", "anchors": ["simplegrid/stitch.py: stitch"]}
{"id": "C48", "title": "stitched seam terms are defined", "statement": "Cross-seam terms (DXC,DXV,RAW,RAZ for east/west; DYC,DYU,RAS,RAZ for north/south) are computed at the seam. (False: they are zero whenever they are zero in tile A, as for every mkgrid/regrid tile.)", "quantifier": "all pairs of tiles", "why_tests_cant": "the reference files of the unit tests contain the zeros", "anchors": ["simplegrid/stitch.py: stitch", "simplegrid/addfringe.py"]}
{"id": "C49", "title": "stitch rejects tiles whose shared edges have different lengths", "statement": "If the matched edges of the two tiles have different numbers of points stitch raises.", "quantifier": "all pairs of tiles", "why_tests_cant": "universal over sizes", "anchors": ["simplegrid/stitch.py: stitch", "simplegrid/matchedges.py: matchedges"]}
{"id": "C50", "title": "mds2mitgrid padding", "statement": "Every array returned by mds2mitgrid is the transposed MITgcm array in its leading block and zero in the extra row/column of the format; fields that cannot be read are None; ni,nj are the size of the first readable field (0,0 if none).", "quantifier": "all run directories", "why_tests_cant": "universal over contents and subsets of present files", "anchors": ["simplegrid/mds2mitgrid.py: mds2mitgrid"]}
{"id": "C51", "title": "getobcs can take its parent grid from the results directory", "statement": "Without parent grid arguments getobcs uses the grid in parent_resultsdir. (False: the zero padding makes both corner queries (0,0), so getobcs raises for every results directory.)", "quantifier": "all results directories", "why_tests_cant": "no test exists; needs all directories", "anchors": ["simplegrid/getobcs.py: getobcs", "simplegrid/mds2mitgrid.py"]}
{"id": "C52", "title": "boundary index vectors", "statement": "A user-supplied index vector of the documented length is honoured: positive k selects cell k, negative k counts from the far side, and an all-zero vector disables the boundary. (False: vectors of length>=2 always raise ValueError, zero vectors of length 1 are replaced by the default, nonzero scalars raise TypeError; no boundary can be disabled.)", "quantifier": "all vectors on all four sides", "why_tests_cant": "universal over vectors", "anchors": ["simplegrid/getobcs.py: getobcs"]}
{"id": "C53", "title": "default boundaries", "statement": "With no index vectors, the N/S/E/W boundary values are those of the last/first column and last/first row of tracer cells; velocity points normal to a boundary are taken on the inner face (V at j=nj-1 for N, j=1 for S; U at i=ni-1 for E, i=1 for W).", "quantifier": "all regional sizes, all fields", "why_tests_cant": "universal over sizes and indices", "anchors": ["simplegrid/getobcs.py: getobcs (obs dictionary)"]}
{"id": "C54", "title": "boundary assembly over depth and time", "statement": "Element (p,d,t) of a boundary array is the interpolated result of depth d at the t-th smallest time step at the p-th boundary cell, for every response present, and outputs exist exactly for the responses present.", "quantifier": "all numbers of depths, times, cells, responses", "why_tests_cant": "unbounded loops", "anchors": ["simplegrid/getobcs.py: getobcs (main loop)"]}
{"id": "C55", "title": "boundary file order", "statement": "Boundary files are written with the boundary position varying fastest, then depth, then time, as MITgcm reads them. (False: tofile writes in C order whatever the memory order, so time varies fastest.)", "quantifier": "all sizes and contents", "why_tests_cant": "only visible for more than one depth or time; tests have none", "anchors": ["simplegrid/getobcs.py: np.asfortranarray(...).tofile"]}
{"id": "C56", "title": "weight file names separate shapes and kinds", "statement": "weightfilename gives different names for different (input shape, output shape, response type) combinations.", "quantifier": "all shapes", "why_tests_cant": "string injectivity over all numbers", "anchors": ["simplegrid/getobcs.py: weightfilename"]}
{"id": "C57", "title": "interpolation weights belong to the grids supplied", "statement": "The regridding weights used by a getobcs call are those of its own grids. (False: an existing weight file of the same shapes in resultsdir is reused although the grids differ.)", "quantifier": "all histories of calls sharing a results directory", "why_tests_cant": "history dependence", "anchors": ["simplegrid/getobcs.py: xe.Regridder(..., reuse_weights=True)"]}
{"id": "C58", "title": "mds meta round trip", "statement": "Parsing the .meta text written by wrmds gives back ndims, dimList, dataprec, nrecords (and timeStepNumber when given) for every shape.", "quantifier": "all shapes, record counts, iteration numbers", "why_tests_cant": "text round trip over all numbers", "anchors": ["simplegrid/mds.py: wrmds, parsemeta, parse1, readmeta"]}
{"id": "C59", "title": "mds data round trip", "statement": "rdmds of what wrmds wrote returns an array with the same elements in the same order (float64 precision), with shape as documented.", "quantifier": "all shapes and contents", "why_tests_cant": "universal over arrays", "anchors": ["simplegrid/mds.py: wrmds, rdmds"]}
{"id": "C60", "title": "tile assembly", "statement": "rdmds places every tile of a multi-tile data set at the position given by its dimList and fill_value elsewhere; the result does not depend on the order in which the tile files are found.", "quantifier": "all tilings, all contents, all file orders", "why_tests_cant": "permutations of unboundedly many tiles", "anchors": ["simplegrid/mds.py: rdmds"]}
{"id": "C61", "title": "choice of area formula", "statement": "All cell areas of a grid use the planar quadrilateral formula when the mean non-zero compute-grid edge lengths in x and in y are both below 10 km and the spherical-excess formula otherwise; ring edges never influence the choice; areas are scaled by the squared radius of the geoid.", "quantifier": "all grid sizes and contents, every distance function", "why_tests_cant": "the switch depends on a mean over an unbounded set of edges; tests see one side of the threshold", "anchors": ["simplegrid/computegrid.py: areas, tomitgrid", "simplegrid/config.py: PLANAR_SPHER_TRANSITION"]}
{"id": "C62", "title": "grid-line length conservation", "statement": "In exact arithmetic, with no zero sub-edge, the DXG entries along a grid line sum to the lengths of all sub-edges of that line, and the DYG entries likewise in the other direction; every sub-edge is counted exactly once.", "quantifier": "all sizes, all grid lines, every distance function", "why_tests_cant": "sum over unbounded index sets", "anchors": ["simplegrid/computegrid.py: tomitgrid (DXG, DYG)"]}
{"id": "C63", "title": "interpolated boundary line", "statement": "On success, for fitting tiles, matchedges returns a line of 2n-1 points for the n points of tile A's matched edge: even entries are the great circle midpoints between the point of A's edge and the corresponding point of B's next line, odd entries are midpoints between neighbours, and the join slice addresses the side of A's compute grid next to the matched edge.", "quantifier": "all pairs of tiles, all edge pairs, all indices", "why_tests_cant": "universal over tile sizes and contents", "anchors": ["simplegrid/matchedges.py: matchedges"]}
{"id": "C64", "title": "only corner points decide a match", "statement": "matchedges accepts or rejects two tiles, and reports edges, on the basis of the eight corner points alone: replacing any other point of either tile never changes the decision.", "quantifier": "all pairs of tiles of fitting sizes", "why_tests_cant": "relational property over all replacements of interior and edge points", "anchors": ["simplegrid/matchedges.py: matchedges"]}
{"id": "C65", "title": "addfringe's dependence on tile B", "statement": "The grid addfringe returns depends on tile B through at most one bit (whether longitudes are wrapped to 0..360): for a given tile A at most two results are possible, and only one if tile A has a negative longitude. This contradicts the documented purpose of using tile B's data.", "quantifier": "all tiles A and all tiles B", "why_tests_cant": "quantifies over all possible second tiles", "anchors": ["simplegrid/addfringe.py: addfringe", "simplegrid/computegrid.py: fill, tomitgrid"]}
{"id": "C66", "title": "edge orientation is not checked", "statement": "matchedges matches tile A's east edge with tile B's west edge also when their end points coincide crosswise, i.e. when tile B runs the other way along the edge; stitch then succeeds and joins tile B's points to tile A's in index order, so that next to tile A's south-east corner come the neighbours of tile B's corner at tile A's north-east corner. (The documentation promises a common edge.)", "quantifier": "all pairs of tiles whose edge end points coincide crosswise", "why_tests_cant": "universal over tiles", "anchors": ["simplegrid/matchedges.py: matchedges", "simplegrid/stitch.py: stitch"]}
{"id": "C67", "title": "sgaddfringe and sgstitch output files", "statement": "If the computation raises, the output file is unchanged; otherwise it is replaced by a file of exactly the documented length from which strict and non-strict reads give the computed grid.", "quantifier": "all input files, sizes and previous contents of the output file", "why_tests_cant": "universal over files", "anchors": ["simplegrid/addfringe.py: main", "simplegrid/stitch.py: main", "simplegrid/gridio.py"]}
{"id": "C68", "title": "one time slice per time step", "statement": "Every open-boundary file written by getobcs has one time slice per time step of the parent results. (False for tiled results: there is one slice per T.*.data file, so each time step is repeated once per tile. True when there is one T file per step.)", "quantifier": "all results directories, all numbers of steps and tiles", "why_tests_cant": "tests use untiled results with two steps; the count is a function of an unbounded directory listing", "anchors": ["simplegrid/getobcs.py: getobcs"]}
{"id": "C69", "title": "rec, lev and region select a part", "statement": "What rdmds returns with rec, lev and region is exactly that part of what it returns without them: the chosen records, the chosen levels in the given order (with repetitions and negative indices) and the chosen window, with fill_value where the window goes beyond the array.", "quantifier": "all tilings, all contents, all record and level lists, all regions", "why_tests_cant": "rdmds computes, per tile and per record, the overlap of the tile with the selection and the file offset to read; agreement must hold for every tiling and selection", "anchors": ["simplegrid/mds.py: rdmds, readmeta"]}
{"id": "C70", "title": "vectors written by wrmds cannot be read", "statement": "An array written by wrmds with one dimension per record is written without error, but rdmds of the files raises IndexError, whatever its other arguments.", "quantifier": "all vectors, all lengths, all numbers of records, all rdmds arguments", "why_tests_cant": "universal over arrays and arguments", "anchors": ["simplegrid/mds.py: wrmds, rdmds"]}
{"id": "C71", "title": "stale tile files shadow new data", "statement": "If the directory holds tile files fname.ddd.ddd.meta of the name (and iteration) that wrmds writes, rdmds afterwards returns exactly what it returned before: the data just written are silently ignored.", "quantifier": "all directories, all arrays, all arguments", "why_tests_cant": "universal over directory contents", "anchors": ["simplegrid/mds.py: wrmds, rdmds"]}
{"id": "C72", "title": "all and last iterations", "statement": "itrs=NaN reads exactly the iterations for which files are on disk, in ascending order, each once; itrs=Inf reads the highest of them; with none on disk both give an empty array instead of an error.", "quantifier": "all directories, all iteration numbers below 10^10, all other arguments", "why_tests_cant": "the directory listing is unbounded and comes in any order", "anchors": ["simplegrid/mds.py: scanforfiles, rdmds"]}
{"id": "C73", "title": "several iterations are stacked", "statement": "Reading a list of iterations gives the readings of the single iterations one after the other along a leading dimension, for any rec, lev and region.", "quantifier": "all lists of iterations, all tilings, all selections", "why_tests_cant": "universal over lists, tilings and selections", "anchors": ["simplegrid/mds.py: rdmds"]}
{"id": "C74", "title": "squeeze=False", "statement": "With squeeze=False rdmds keeps the dimensions of list arguments and drops those of scalar ones; but with rec=None and other than one record it always raises ValueError.", "quantifier": "all data sets, all arguments", "why_tests_cant": "universal over data sets", "anchors": ["simplegrid/mds.py: rdmds"]}
{"id": "C75", "title": "lonlat2cart gives the documented point", "statement": "In exact arithmetic lonlat2cart puts longitude 0 on the equator at (1,0,0), longitude 90 at (0,1,0) and the poles at (0,0,1) and (0,0,-1); the scalar product of two returned points obeys the spherical law of cosines; and away from the poles two returned points are equal exactly when the latitudes are equal and the longitudes differ by a multiple of 360 degrees.", "quantifier": "all real lon/lat matrices and all pairs of elements", "why_tests_cant": "trigonometric identities and injectivity over the reals", "anchors": ["simplegrid/util.py: lonlat2cart"]}
{"id": "C76", "title": "sgregrid writes the regridded grid", "statement": "The sgregrid command leaves the output file unchanged when regrid raises; otherwise the output file has exactly the size of a mitgrid file with the returned cell counts, and reading it back with those counts, strictly or not, gives the grid regrid returned.", "quantifier": "all inputs and argument combinations, all previous contents of the output file", "why_tests_cant": "universal over grids, boxes and output files", "anchors": ["simplegrid/regrid.py: main", "simplegrid/gridio.py: write_mitgridfile"]}
{"id": "C77", "title": "sgmkgrid followed by sgregrid reproduces the grid", "statement": "A file written by sgmkgrid, passed to sgregrid with the same box and subscale 1, gives a file that is readable with the same cell counts and has the same cell corner longitudes and latitudes, provided the two corners of the box are nearest only to themselves among the grid points.", "quantifier": "all boxes, all positive cell counts, any geodesic routine", "why_tests_cant": "composition of two programs over all boxes and sizes", "anchors": ["simplegrid/mkgrid.py: main", "simplegrid/regrid.py: main"]}
{"id": "C78", "title": "adjacent sgmkgrid tiles can be stitched", "statement": "Two tiles made by sgmkgrid for boxes that share a side, in any of the four relative positions and with equally many cells along that side, are accepted by sgstitch. It writes a file that passes a strict read with the cell counts added across the side, and whose cell corners are those of the first tile and, beyond the common side, those of the second.", "quantifier": "all pairs of boxes sharing a side (with distinct other corners), all positive cell counts", "why_tests_cant": "composition of three programs over all boxes and sizes", "anchors": ["simplegrid/mkgrid.py: main", "simplegrid/stitch.py: main"]}
{"id": "C79", "title": "equal spacing of mkgrid grids", "statement": "If distances ignore whole turns of longitude and npts cuts an arc into equal parts, then in a grid made by mkgrid all DYG values of one column of cell corners equal the distance between the column's two end points divided by the number of cells, and all DXG values along the southern (northern) side equal the distance of the two southern (northern) corners divided by the number of cells.", "quantifier": "all boxes, all positive cell counts, all geodesic routines with the two stated laws, exact arithmetic", "why_tests_cant": "universal over boxes and sizes, in real arithmetic", "anchors": ["simplegrid/mkgrid.py: mkgrid", "simplegrid/computegrid.py: fill, tomitgrid"]}
{"id": "C80", "title": "the sphere has the geodesic laws used", "statement": "On a sphere of any radius, with distances radius times angle and npts the points at equal angles along a shortest great circle, distances ignore whole turns of longitude and npts cuts arcs into equal parts; such a sphere exists.", "quantifier": "all radii, all pairs of points including antipodal ones, all numbers of parts", "why_tests_cant": "spherical trigonometry over the reals", "anchors": ["simplegrid/mkgrid.py: pyproj.Geod(ellps='sphere')", "simplegrid/computegrid.py: geod.npts, geod.inv"]}
{"id": "C81", "title": "western and eastern sides of mkgrid grids are meridians", "statement": "On the sphere, for longitudes given in 0..360 or in -180..180 and latitudes strictly between the poles, the cell corners on the western (eastern) side of a mkgrid grid have exactly longitude lon1 (lon2), in the convention used for the arguments, and latitudes at equal steps from lat2 to lat1.", "quantifier": "all such boxes, all positive cell counts, exact arithmetic", "why_tests_cant": "spherical trigonometry over all boxes; depends on the longitude normalisation", "anchors": ["simplegrid/mkgrid.py: mkgrid", "simplegrid/computegrid.py: fill"]}
{"id": "C82", "title": "southern and northern sides of mkgrid grids bulge poleward", "statement": "On the sphere the cell corners on the southern (northern) side of a mkgrid grid do not lie on the parallel of the box: strictly between the corners their latitude is farther from the equator than the box side, unless the side is on the equator, where they stay on it.", "quantifier": "all boxes with latitudes strictly between the poles, all positive cell counts, exact arithmetic", "why_tests_cant": "spherical trigonometry over all boxes", "anchors": ["simplegrid/mkgrid.py: mkgrid", "simplegrid/computegrid.py: fill"]}
{"id": "C83", "title": "grid files written with wrmds are what mds2mitgrid returns", "statement": "If 2-d grid fields (any subset of the 16, each once, any precision) are written with wrmds into a directory that has no meta files of grid fields, mds2mitgrid of that directory returns them: transposed, rounded to the precision written, in the leading block of an array with the extra row and column of the mitgrid format, which are zero. Fields not written are None, and (ni,nj) is the size of the first field in file order.", "quantifier": "all sets of fields, all array sizes and values, both precisions, all other contents of the directory", "why_tests_cant": "composition of meta text, data bytes, file search and assembly over all sizes, values and directories", "anchors": ["simplegrid/mds2mitgrid.py: mds2mitgrid", "simplegrid/mds.py: wrmds, rdmds"]}
{"id": "C84", "title": "boundary files come from the results on disk", "statement": "If results (2-d or 3-d arrays; each response and time step once) are written with wrmds into a directory that has no files of these responses and getobcs then succeeds on that directory: the time slices are the time steps of T in strictly increasing order; every response written was written at each of them; there is a boundary file per response written and side, and no other output changes; element (p,d,t) is the value at boundary cell p of the interpolation of level d of the array written for the t-th time step, rounded to the precision written.", "quantifier": "all lists of results in any order, all sizes, values and time steps, all interpolation packages, all grids and index arguments with which the call succeeds", "why_tests_cant": "composition of two programs through the file system over all sizes, values, orders of writing", "anchors": ["simplegrid/getobcs.py: getobcs", "simplegrid/mds.py: wrmds, rdmds"]}
{"id": "C85", "title": "what command lines mean", "statement": "For each of the five commands: a command line made of options of that command, each written `--name value`, `--name=value`, `--flag` or `-f` (in the first form values that do not begin with a minus sign, a lone minus sign, a plain negative number, or a value with a blank whose second character is not -, h, s or v), in any order and possibly repeated, is accepted if every value can be read as the option's type and no required option is missing. Each option then has the value given last and options not given have none; order does not matter when each is given once. Otherwise the process exits with status 2.", "quantifier": "all lists of options and values, all texts, all ways of reading numbers", "why_tests_cant": "unbounded set of command lines; interaction of prefixes, equals signs, negative numbers and order", "anchors": ["simplegrid/mkgrid.py: create_parser", "simplegrid/regrid.py: create_parser", "simplegrid/addfringe.py: create_parser", "simplegrid/stitch.py: create_parser", "simplegrid/getobcs.py: create_parser"]}
{"id": "C86", "title": "negative coordinates on the command line", "statement": "Every text that float or int can read may be given as the value of a numeric option in the form `--name value`. (False. It is so for values that do not begin with a minus sign, that have the form -digits, -digits.digits or -.digits, or that contain a blank: these mean the same as `--name=value`. Every other value that begins with a minus sign followed by a character other than -, h, s and v, such as -128., -1e2, -1_000 or -inf, is taken for an unknown option and the process exits with status 2.)", "quantifier": "all numeric options of all commands, all such texts, all options of the forms of C85 before; for the rejected spellings all arguments after, for the accepted ones all options of the forms of C85 after", "why_tests_cant": "unbounded set of spellings", "anchors": ["simplegrid/mkgrid.py: create_parser", "simplegrid/regrid.py: create_parser"]}
{"id": "C87", "title": "incomplete sgmkgrid command lines", "statement": "No option of sgmkgrid is marked as required. On a readable command line without a subscale the process ends with TypeError, without an output file with an exception, in both cases with all files as before. With both subscales (at least 1) and an output file but without one or more of the four coordinates: if -v is not given the process ends normally and writes a file that passes a strict read, in which XG (for a longitude) or YG (for a latitude) is NaN at the two corner points that should have the missing coordinate; with -v (or --verbose) it ends with TypeError and all files are as before, since the missing coordinate cannot be printed.", "quantifier": "all command lines of the forms of C85 lacking the option, all files, all geoids that do not raise on NaN", "why_tests_cant": "holds for every incomplete line; the resulting file passes a strict read", "anchors": ["simplegrid/mkgrid.py: create_parser, main"]}
{"id": "C88", "title": "sggetobcs options that cannot be used", "statement": "Without --resultsdir sggetobcs exits with status 2 and writes nothing, although the help text gives a default for this case. On a complete command line: with --resultsdir given as an empty word it does to the disk what a call of getobcs without resultsdir does; with any of --OB_Jnorth, --OB_Jsouth, --OB_Ieast, --OB_Iwest set to a number other than 0 it ends with a traceback and writes nothing.", "quantifier": "all command lines of the forms of C85, all grids, run directories and interpolation packages", "why_tests_cant": "universal over all other options and all data", "anchors": ["simplegrid/getobcs.py: create_parser, main, getobcs"]}
{"id": "C89", "title": "commands change at most the named output file", "statement": "Whatever the arguments of sgmkgrid, sgregrid, sgaddfringe and sgstitch: if the process exits with a usage error or help, all files are as before; if it goes to work, every required option is on the command line (perhaps abbreviated); at most one file is changed, and its name is a word of the command line or what follows an equals sign in one. On command lines of the forms of C85 that file is the one given as --outfile, however the run ends.", "quantifier": "all lists of arguments, all files; for sgregrid all runs that end", "why_tests_cant": "arbitrary argument lists and file contents, including failing runs", "anchors": ["simplegrid/mkgrid.py: main", "simplegrid/regrid.py: main", "simplegrid/addfringe.py: main", "simplegrid/stitch.py: main"]}
{"id": "C90", "title": "two sgmkgrid command lines and one sgstitch", "statement": "Two sgmkgrid command lines for boxes that share a side, in any of the four relative positions, with equally many cells along it and with different output files, followed by an sgstitch command line naming those files, all end normally; the output of sgstitch passes a strict read with the cell counts added across the side and holds the corner points of the first tile and, beyond the common side, those of the second; apart from the three output files no file is changed.", "quantifier": "all command lines with these values in any order and form, all cell counts, all previous files", "why_tests_cant": "three programs composed through the file system, over all sizes, values and command lines", "anchors": ["simplegrid/mkgrid.py: main", "simplegrid/stitch.py: main"]}
{"id": "C91", "title": "an sgmkgrid command line followed by sgregrid", "statement": "An sgmkgrid command line followed by an sgregrid command line on its output with the same corner points (each nearer to the grid's own corner than to any other grid point) and subscale 1 end normally; the output of sgregrid passes a strict read with the same cell counts and the same XG and YG; apart from the two output files, which may be the same, no file is changed.", "quantifier": "all command lines with these values in any order and form, all cell counts, all previous files", "why_tests_cant": "two programs composed through the file system, over all sizes, values and command lines", "anchors": ["simplegrid/mkgrid.py: main", "simplegrid/regrid.py: main"]}
{"id": "C92", "title": "the commands do what the functions do", "statement": "On a command line of the forms of C85 with the values needed and a non-empty output name, sgmkgrid, sgregrid (from whichever source), sgaddfringe and sgstitch (both tile files present) do what mkgrid, regrid, addfringe and stitch do when called with these values, the last three with strict set if and only if --strict or -s is given. If the call raises, the process ends with the same exception and all files are as before. If it returns a grid with its counts (those of tile A for addfringe), the process ends normally, the output file has the documented length for these counts and reads back as the grid, strictly or not, and no other file is changed. If regrid does not stop, sgregrid does not.", "quantifier": "all such command lines, values (cell counts not negative), files and geoids", "why_tests_cant": "universal over all values, files and both outcomes; swapped or dropped arguments show only for some of them", "anchors": ["simplegrid/mkgrid.py: main", "simplegrid/regrid.py: main", "simplegrid/addfringe.py: main", "simplegrid/stitch.py: main"]}
{"id": "C93", "title": "missing tile files", "statement": "If one of the two tile files named on the command line does not exist, sgaddfringe and sgstitch end with a traceback and all files are as before.", "quantifier": "all command lines as in C92, all other files", "why_tests_cant": "universal over contents of the other files and counts", "anchors": ["simplegrid/addfringe.py: main", "simplegrid/stitch.py: main"]}
{"id": "C94", "title": "sggetobcs does what getobcs does", "statement": "On a command line of the forms of C85 with all required options and none of the boundary options, sggetobcs leaves the disk as getobcs does when called with the values given, strict if and only if asked for, and no boundaries; it ends normally if the call returns, with the exception of the call if it raises, and does not stop if the call does not.", "quantifier": "all such command lines, values (cell counts not negative), grid files, run directories and interpolation packages", "why_tests_cant": "universal over all values and data; mixed up parent and regional arguments show only for some of them", "anchors": ["simplegrid/getobcs.py: main"]}
{"id": "C95", "title": "words a command does not know", "statement": "If, after any number of options of the forms of C85, the command line has a word that is not an option value and does not begin with a minus sign, or a word --x.. that is neither an option nor an abbreviation of one (with or without =value), none of the five commands goes to work: the process exits and all files are as before, whatever follows.", "quantifier": "all options before, all such words, all arguments after, all files", "why_tests_cant": "unbounded set of words and continuations", "anchors": ["simplegrid/mkgrid.py: create_parser", "simplegrid/regrid.py: create_parser", "simplegrid/addfringe.py: create_parser", "simplegrid/stitch.py: create_parser", "simplegrid/getobcs.py: create_parser"]}
{"id": "C96", "title": "where the points of a mkgrid grid are", "statement": "On a sphere, for a box less than half a turn wide whose corners are not at the poles, corner (i,j) of the grid mkgrid makes (arrays XG, YG) is at fraction j/n of the great circle arc joining the points at fraction i/m of the southern and of the northern side, the two sides being great circle arcs between the corners asked for; the centre of cell (i,j) (arrays XC, YC) is at the fractions (i+1/2)/m and (j+1/2)/n. All latitudes are strictly between -90 and 90.", "quantifier": "all such boxes (also across the date line), all positive subscales m, n, all indices, all radii; exact arithmetic", "why_tests_cant": "universal over real-valued corners and unbounded sizes", "anchors": ["simplegrid/mkgrid.py: mkgrid", "simplegrid/computegrid.py: fill"]}
{"id": "C97", "title": "refining a mkgrid grid keeps its points", "statement": "For the same box, k times as many cells in x and l times as many in y: corner (i,j) of the coarse grid is the same place (equal latitude, longitudes equal up to whole turns) as corner (k i, l j) of the fine grid. When k and l are even, the centre of coarse cell (i,j) is corner (k i + k/2, l j + l/2) of the fine grid; when both are odd, it is the centre of fine cell (k i + (k-1)/2, l j + (l-1)/2).", "quantifier": "all boxes as in C96, all positive subscales and factors, all indices; exact arithmetic, sphere", "why_tests_cant": "relates two runs with unbounded sizes over real-valued corners", "anchors": ["simplegrid/mkgrid.py: mkgrid", "simplegrid/computegrid.py: fill"]}
{"id": "C98", "title": "a box moved to the east gives the same grid moved", "statement": "If both longitudes given to mkgrid are increased by d degrees, every array other than XC and XG is unchanged entry by entry (latitudes, widths, heights, areas, including the choice of area formula), and every longitude is increased by d up to whole turns.", "quantifier": "all boxes as in C96, all real d, all positive subscales, all arrays and indices; exact arithmetic, sphere", "why_tests_cant": "relates two runs over all real shifts, including those that move the box across the date line", "anchors": ["simplegrid/mkgrid.py: mkgrid", "simplegrid/computegrid.py: tomitgrid"]}
{"id": "C99", "title": "cell areas do not depend on the diagonal", "statement": "For four points of the sphere that form a convex quadrilateral (all in one open hemisphere, corners counterclockwise seen from outside, every three consecutive corners turning left), the value computed for the cell by squad_uarea is positive, and listing the corners from the next one on (which cuts the cell along the other diagonal) gives the same value.", "quantifier": "all convex quadrilaterals of the unit sphere; exact arithmetic", "why_tests_cant": "both triangulations agree only as a trigonometric identity over a continuum of shapes", "anchors": ["simplegrid/util.py: squad_uarea"]}
{"id": "C100", "title": "areas of the two parts of a cut cell add up", "statement": "A convex cell cut in two by an arc from a point inside one side to a point inside the opposite side: the values of squad_uarea for the two parts add up to the value for the whole cell.", "quantifier": "all convex quadrilaterals of the unit sphere and all points inside two opposite sides; exact arithmetic", "why_tests_cant": "additivity of area over a continuum of shapes and cuts; floating-point spot checks cannot establish equality", "anchors": ["simplegrid/util.py: squad_uarea"]}
{"id": "C101", "title": "total area depends on the boundary only", "statement": "For two arrays of m by n cells given to squad_uarea with the same points along the boundary of the array and possibly different points inside (all in one open hemisphere, no folded cells: both triangles of every cell turn left), the sum of all returned areas is the same.", "quantifier": "all m and n, all such arrays; exact arithmetic", "why_tests_cant": "unbounded array sizes and real-valued positions", "anchors": ["simplegrid/util.py: squad_uarea"]}
{"id": "C102", "title": "cell areas of a mkgrid grid fill the box", "statement": "For a box with first corner north-west and second corner south-east (poles excluded, less than 180 degrees wide) on a sphere of positive radius R, and cells large enough for the spherical formula (mean length of the half-cell edges in x, or that in y, at least 10 km): every RAC entry is positive, the RAC entries between any two corner columns add up to R squared times the area (sum of the excesses of two spherical triangles) of the quadrilateral bounded by these columns and the two sides of the box, and all RAC entries add up to that of the quadrilateral with the corners of the box. So the total does not depend on the numbers of cells.", "quantifier": "all such boxes, all radii, all positive subscales, all pairs of columns; exact arithmetic, sphere", "why_tests_cant": "unbounded numbers of cells over real-valued corners", "anchors": ["simplegrid/mkgrid.py: mkgrid", "simplegrid/computegrid.py: tomitgrid", "simplegrid/util.py: squad_uarea"]}
{"id": "C103", "title": "where regrid puts the points", "statement": "On a sphere, if every cell of the selected source block lies in some open hemisphere, the corners of a successful regrid are on great circle arcs between the given points: inside a source cell, new corner (i,j) of lon_subscale by lat_subscale new cells is at fraction j/lat_subscale of the arc that joins the points at fraction i/lon_subscale of the cell's two opposite x-direction sides, and new centres are at the half-way fractions. The given points are those of XG, YG at multiples of the subscales, which C32 identifies with the source's.", "quantifier": "all source grids, corners, radii and positive subscales for which regrid succeeds; exact arithmetic, sphere", "why_tests_cant": "real-valued positions and unbounded sizes", "anchors": ["simplegrid/regrid.py: regrid", "simplegrid/computegrid.py: fill, tomitgrid"]}
{"id": "C104", "title": "regrid divides cell areas exactly", "statement": "On a sphere of positive radius R, if every cell of the selected source block is convex (corners counterclockwise in some open hemisphere) and the new cells are large enough for the spherical formula (mean length of the half-cell edges in x, or that in y, at least 10 km), all RAC entries of a successful regrid are positive and the RAC entries of the lon_subscale by lat_subscale new cells made from one source cell add up to R squared times the area (sum of the excesses of two spherical triangles) of the quadrilateral with the corners of the source cell.", "quantifier": "all source grids, corners, radii and positive subscales for which regrid succeeds, all source cells of the block; exact arithmetic, sphere", "why_tests_cant": "unbounded subscales over real-valued points", "anchors": ["simplegrid/regrid.py: regrid", "simplegrid/computegrid.py: fill, tomitgrid", "simplegrid/util.py: squad_uarea"]}
{"id": "C105", "title": "refining a whole mkgrid grid keeps the area of every column of cells", "statement": "If mkgrid makes a grid of m by n cells of a box with first corner north-west and second corner south-east (poles excluded, less than 180 degrees wide) on a sphere of positive radius, then regrid of that grid (given as a dictionary or by any other source with the same XG and YG values, in any memory order) with the same four corner coordinates and positive subscales ls, lt succeeds with m*ls by n*lt cells, and its points are those C103 describes for the corners of the mkgrid grid. If the cells of both grids are large enough for the spherical formula (mean length of half-cell edges in x or in y at least 10 km), all new RAC entries are positive and for every column of cells of the mkgrid grid the new RAC entries of its refined cells add up to the sum of its old RAC entries.", "quantifier": "all such boxes, radii, sizes, subscales and columns; exact arithmetic, sphere", "why_tests_cant": "a relation between two calls over real-valued corners and unbounded sizes", "anchors": ["simplegrid/mkgrid.py: mkgrid", "simplegrid/regrid.py: regrid", "simplegrid/computegrid.py: tomitgrid", "simplegrid/util.py: squad_uarea, nearest"]}
{"id": "C106", "title": "reading through a memory map gives the same array", "statement": "Whenever rdmds succeeds without usememmap, the same call with usememmap=True succeeds with the same array, provided no data file of the directory is empty and, if records are chosen with rec, at least one is and each is less than the nrecords of every meta file whose name starts with the base name. The call changes no names and no meta files; data files can only become longer, by zero bytes, and if rec is not given the directory is not changed at all.", "quantifier": "all directories without empty data files, base names, iteration, record, level and region selections, fill values and byte orders for which the ordinary call succeeds", "why_tests_cant": "an equivalence of two implementations over unboundedly many directories and selections, and a statement about side effects on files", "anchors": ["simplegrid/mds.py: rdmds"]}
{"id": "C107", "title": "a truncated data file is an error, but a memory map fills it with zeros", "statement": "If the data file that wrmds wrote for an array (at least two record dimensions, no tile files of the same base name) is cut to k bytes, 0 < k < full length, rdmds raises ValueError. With usememmap=True it succeeds instead: the file on disk is filled up with zero bytes to the full length, the array has the same shape as the written one (leading dimensions folded), elements whose bytes are all among the first k are those written (rounded to the file precision), and elements none of whose bytes are left are read as zero. The loss of data is silent and becomes permanent.", "quantifier": "all arrays, shapes, precisions, byte orders, labels and iteration numbers that wrmds accepts as in C59, all cut positions", "why_tests_cant": "unbounded arrays and cut positions; the harm is a side effect on the input files", "anchors": ["simplegrid/mds.py: rdmds, wrmds, fromfileshape"]}
{"id": "C108", "title": "returnmeta gives back what the files were written with", "statement": "After wrmds, rdmds with returnmeta=True returns the same array as without, the list of the one iteration number (-1 if there was none), and a dictionary whose keys are in lower case and whose entries are exactly: simulation, ndims, dataprec, nrecords, dimlist (record dimensions, fastest first), timestepnumber, timeinterval (a list with one list of the times as rounded by their text), nflds and fldlist; simulation, timestepnumber, timeinterval, nflds and fldlist are there if and only if they were given to wrmds.", "quantifier": "all arrays and arguments of wrmds as in C59, all directories without tile files of the same base name", "why_tests_cant": "a round trip over unbounded names, times, field lists and dimensions", "anchors": ["simplegrid/mds.py: rdmds, wrmds, readmeta, parsemeta"]}
{"id": "C109", "title": "returned meta data as arguments of wrmds", "statement": "The dictionary returned with an array that wrmds wrote can be passed to wrmds as keyword arguments with the array that was read if the files have no iteration number, times and field names: with any new base name the new meta file and, for big-endian files and single-precision rounding that is idempotent, the new data file have the same contents as the old ones. If the files have an iteration number, times or field names, wrmds raises TypeError for every array, although its documentation offers dimlist for this use.", "quantifier": "all arrays and arguments of wrmds as in C59, all new base names", "why_tests_cant": "a property of composed calls over unbounded arrays and labels", "anchors": ["simplegrid/mds.py: rdmds, wrmds"]}
{"id": "C110", "title": "names and byte format of mds files", "statement": "wrmds creates the files fbase.meta and fbase.data, with the ten decimal digits of the iteration number (below 10^10) in between if there is one, and no others. The data file has exactly one item of 4 (float32) or 8 (float64) bytes per element and nothing else, in C order (last index fastest), each with the bits of the element in the file precision, the most significant byte first for big-endian and last for little-endian files. Conversely, when the data file of such a file set has any bytes at all of the right total length, rdmds returns the array whose elements have the bits given by those bytes in that order.", "quantifier": "all arrays, shapes, precisions and byte orders that wrmds accepts (reading: at least two record dimensions, no tile files of the same base name, labels as in C59), all bytes", "why_tests_cant": "tests that write and read with the same library accept any byte order that is consistently wrong; all bytes and shapes are unboundedly many", "anchors": ["simplegrid/mds.py: wrmds, rdmds"]}
{"id": "C111", "title": "a failing wrmds keeps the data files, but may destroy the meta file", "statement": "If wrmds raises, every data file is as before and at most one other file, fbase followed by something and .meta, has changed; no file at all has changed if the array has at least one dimension and ndims is not 0. For an array without dimensions, or with ndims=0 (nrecords absent or 1, dimlist absent or empty, no deltat), wrmds raises ValueError only after it has replaced the meta file by its first lines: a following rdmds of that name and iteration raises KeyError whatever its other arguments, even if the data could be read before.", "quantifier": "all directories, arrays, argument combinations (including deltat, dimlist and negative iteration numbers) and exceptions; for the last part: no tile files of the same base name, simulation text without quotes, backslashes and line ends and not ending in white space", "why_tests_cant": "every failing call in every directory; the order of checking and writing matters only in combinations", "anchors": ["simplegrid/mds.py: wrmds, rdmds"]}
{"id": "C112", "title": "deltat computes the iteration number from the time and back", "statement": "With deltat>0 and times but no itr, wrmds does what it does with itr = the number n of whole steps until the last time (n*deltat <= t < (n+1)*deltat): for n>=0 rdmds with that n returns the array, with timestepnumber n and the times. With deltat and itr but no times it writes the one time deltat*itr. With both, deltat has no effect; with neither (or an empty list of times) it raises and no file changes. Passing the time read from a file written with itr=n and deltat back to wrmds with the same deltat gives n again exactly as long as the decimal text did not round the time below n*deltat (and it stays below (n+1)*deltat); otherwise the number is smaller and the files get another name, as for deltat=0.1 and n=3.", "quantifier": "all times, steps and iteration numbers of any number type, where // of the last time and deltat is the floor of the quotient of their values (doubles: C123); arrays and labels as in C59 for the reading part", "why_tests_cant": "all real times and steps; the failing cases depend on rounding", "anchors": ["simplegrid/mds.py: wrmds"]}
{"id": "C113", "title": "planar and spherical cell areas agree for small cells", "statement": "For a cell with corners A, B, C, D on the unit sphere whose triangles ABC and ACD are counterclockwise, have sides of length at most d (d^2 < 8/3) and circumradius at most r, pquad_uarea's value is at least 1-3d^2/8 times squad_uarea's, and at most 1/sqrt(1-r^2) times it. So computegrid.areas, whatever edge lengths it is given and thus whichever formula it takes, returns for every such cell geod.a^2 times the spherical excess of the two triangles up to these factors: at PLANAR_SPHER_TRANSITION areas do not jump by more.", "quantifier": "all positions of the four corners, all d and r, all grid and edge arrays (real arithmetic)", "why_tests_cant": "a bound over a continuum of shapes, positions and sizes", "anchors": ["simplegrid/util.py: squad_uarea, pquad_uarea", "simplegrid/computegrid.py: areas", "simplegrid/config.py: PLANAR_SPHER_TRANSITION"]}
{"id": "C114", "title": "cell areas of a mkgrid grid add up to the area of the box with either formula", "statement": "In a grid mkgrid makes on a sphere of radius R, if the triangles of all quarter cells have sides at most d (d^2 < 8/3) and circumradius at most r on the unit sphere, then all RAC are positive and, between any two columns of corners, they add up to the area T of the spherical quadrilateral between those columns up to the factors of C113: (1-3d^2/8) T <= sum and sqrt(1-r^2) sum <= T. This holds for the planar formula mkgrid uses for small cells as well as for the spherical one.", "quantifier": "all boxes less than half a turn wide with the poles excluded, all numbers of cells, all d and r (real arithmetic, exact geodesics on a sphere)", "why_tests_cant": "a bound for all boxes and grid sizes; a test compares numbers for a few", "anchors": ["simplegrid/mkgrid.py: mkgrid", "simplegrid/computegrid.py: areas, fill, edges", "simplegrid/util.py: pquad_uarea, squad_uarea"]}
{"id": "C115", "title": "abbreviated options and grouped flags", "statement": "For each of the five commands, whatever the other words on the command line are (only `--` must not stand before): a word --xyz, or --xyz=value, that begins exactly one long option of the command (--help included) means that option. If it begins several of them and is none of them, the process exits with status 2. A word -abc of two or more letters of flags of the command (h included) means -a -b -c.", "quantifier": "all commands, all words before (other than --) and after, all abbreviations, values and groups of letters", "why_tests_cant": "unbounded set of surrounding words; an abbreviation is right only in relation to all options of the command", "anchors": ["simplegrid/mkgrid.py: create_parser", "simplegrid/regrid.py: create_parser", "simplegrid/addfringe.py: create_parser", "simplegrid/stitch.py: create_parser", "simplegrid/getobcs.py: create_parser"]}
{"id": "C116", "title": "unknown options among arbitrary words", "statement": "For each of the five commands, whatever the other words on the command line are (only `--` must not stand before), the command does not go to work but exits if a word has the form -c.. with c the letter of a flag of the command and a further character that is not, or begins with a minus sign, has no blank, is not `--`, not a plain negative number, does not begin with -c for a flag c, and is neither a long option nor a beginning of one, with or without =value.", "quantifier": "all commands, all words before (other than --) and after, all such words", "why_tests_cant": "unbounded set of words and surroundings; an unknown option that is silently swallowed shows only in some surroundings", "anchors": ["simplegrid/mkgrid.py: create_parser", "simplegrid/regrid.py: create_parser", "simplegrid/addfringe.py: create_parser", "simplegrid/stitch.py: create_parser", "simplegrid/getobcs.py: create_parser"]}
{"id": "C117", "title": "conservation of area and length with rounding", "statement": "With additions rounded to a relative error u (2^-53 for doubles), if all RAC of a tile are finite and its quarter-cell areas are nonnegative and not zero, each RAC is the sum of its four quarter-cell areas, and their total is the total of all quarter-cell areas, up to the factors (1-u)^3 and (1+u)^3. DXG along each grid line, and DYG across, add up to the lengths of the half edges of that line up to the factors 1-u and 1+u. So errors do not accumulate with the size of the grid.", "quantifier": "all tile sizes, coordinates and distance functions, all additions with relative error u <= 1", "why_tests_cant": "rounding errors over unbounded numbers of cells; a test sees a few sums and needs a tolerance of its own", "anchors": ["simplegrid/computegrid.py: tomitgrid (RAC, DXG, DYG)"]}
{"id": "C118", "title": "accuracy of planar cell areas", "statement": "With additions, subtractions, products and square roots rounded to a relative error u <= 1/1000 (and products to an absolute error eta for underflow): a finite value of pquad_uarea differs from the exact area of the cell with these corners by at most 6u|AC|(|AB|+|AD|) + 6 sqrt(eta). Corners that are off by eps change the exact area by at most eps(|AC|+|BD|) + 2 eps^2. So where the edges are short enough for the planar formula, a finite area returned by computegrid.areas is geod.a^2 times the exact area of the quadrilateral with the four grid points as corners up to geod.a^2 (14u(l+2eps)^2 + 2.1 eps(l+eps) + 8 sqrt(eta)), if sides and diagonals are at most l on the unit sphere and lonlat2cart is accurate to eps (geod.a >= 1, eta <= u).", "quantifier": "all corners, arrays and edge lengths, all arithmetics with such errors; doubles have u = 2^-53, eta = 2^-1075", "why_tests_cant": "a bound on rounding errors over all coordinates; cancellation shows only for particular shapes and sizes", "anchors": ["simplegrid/util.py: pquad_uarea", "simplegrid/computegrid.py: areas"]}
{"id": "C119", "title": "cell areas computed in IEEE doubles", "statement": "Let geod.a be a double between 1 and 2^40, the four corners of a cell have finite longitudes and latitudes of at most 360 degrees, and the C library's sine and cosine be accurate to 2^-51 for arguments up to 8. Where the mean edges are below PLANAR_SPHER_TRANSITION, computegrid.areas run in IEEE-754 double arithmetic returns a finite area that differs from a^2 times the area of the plane quadrilateral through the four exact grid points by at most a^2 (2^-45 l + 2^-90), l being the largest chord between corners. For a counterclockwise cell whose triangles have sides at most d <= 1 and circumradius at most r on the unit sphere, that number v is the exact area S on the sphere of radius a up to E = a^2 (2^-44 d + 2^-90) and the factors of C113: (1-3d^2/8) S <= v+E and sqrt(1-r^2) (v-E) <= S.", "quantifier": "all doubles as coordinates, all shapes and sizes of arrays, every C library with that accuracy, every radius", "why_tests_cant": "an error bound for all inputs in a range of about 2^500 bit patterns per cell; a test needs an exact reference and tries a few", "anchors": ["simplegrid/computegrid.py: areas", "simplegrid/util.py: lonlat2cart, pquad_uarea"]}
{"id": "C120", "title": "what single precision keeps of the data", "statement": "An array of doubles written by wrmds in single precision, which is the default, is read back by rdmds with the same shape, and every value x comes back as y with: |y-x| <= 2^-24 |x| + 2^-150 if |x| <= 2^127, and y finite; y has the sign of x unless x is NaN; y = x if x is itself a single; y is always a single, infinite or NaN; y is infinite if x is finite and |x| >= 2^128, or if x is infinite (then y = x); y is NaN if x is NaN.", "quantifier": "all arrays of at least two dimensions, all their values, both byte orders, all records and names", "why_tests_cant": "all 2^64 bit patterns in arrays of any shape", "anchors": ["simplegrid/mds.py: wrmds, rdmds"]}
{"id": "C121", "title": "longitudes are between 0 and 360, and 360 occurs", "statement": "If all longitudes given to computegrid.fill are finite and in [0, 360) and npts returns finite longitudes in [-180, 180], all longitudes fill returns are finite and in [0, 360]. A subdivision point whose npts longitude x is not negative has longitude x; if x < -2^-45 it has the double nearest to x+360, at most 2^-45 off and less than 360; if -2^-45 <= x < 0 it has longitude 360.0 exactly, so the result is not confined to [0, 360).", "quantifier": "all grids, windows and subscales, every npts function, all doubles", "why_tests_cant": "the value 360.0 arises only for npts results within 3e-14 of the meridian; the range holds for all", "anchors": ["simplegrid/computegrid.py: fill"]}
{"id": "C122", "title": "spherical areas at a pole are NaN", "statement": "Where computegrid.areas takes the spherical formula (a mean edge not below PLANAR_SPHER_TRANSITION), in IEEE-754 double arithmetic and for every C library with |sin|,|cos| <= 1, sin(90)=1, |cos(90)| <= 2^-53, arccos(1)=0, sin(0)=0 and arccos NaN outside its domain, the area of every cell with a side whose two ends are both at the north pole or both at the south pole (latitude 90.0 or -90.0, whatever their longitudes) is NaN, although the cell has a positive area. In the tile that tomitgrid builds on such a grid, every area (raz, rac, raw, ras) to which such a quarter cell contributes is NaN or zero. In particular, let Geod.npts return finite longitudes from -180 to 180 and stay at a pole between two points at that pole: if the side lat1 (or lat2) of the box given to mkgrid is at 90.0 or -90.0 and the areas are spherical, mkgrid succeeds and every rac and raw in the last (or first) row of cells is NaN or zero, for all longitudes and subscales.", "quantifier": "all grids and sizes, all cells, all finite longitudes up to 360 degrees, every such C library, every Geod", "why_tests_cant": "all longitudes and cells; the NaN needs cos 1.0 of the side to come out exactly, for every rounding on the way", "anchors": ["simplegrid/computegrid.py: areas", "simplegrid/util.py: squad_uarea", "simplegrid/mkgrid.py: mkgrid"]}
{"id": "C123", "title": "times of mds files as doubles", "statement": "Times are written by wrmds as '{:.12E}' texts and read by rdmds with float(). With both as in CPython: each finite time t comes back as timeinterval entry u with the same sign and |u-t| <= 1e-12*|t|, and u = t if t has at most 13 significant decimal digits. Writing the array again with the times that were read gives the same files, byte for byte (times zero or at least 2^-1000 in size). With deltat=dt and times, wrmds takes exactly the iteration number n with n*dt <= t < (n+1)*dt for the last time t, without any rounding, if 0 <= t <= 2^1000 and t < 2^49*dt. If dt is a whole number of seconds and n*dt < 10^13, a file written with itr=n and deltat=dt holds the time n*dt exactly, and passing the time that was read back with the same deltat gives n again. For dt=0.1 and n=3 it gives 2.", "quantifier": "all finite double times (except that a negative time with a three-digit exponent must come first), all double steps dt>0, all arrays and labels as in C59", "why_tests_cant": "all doubles: rounding to 13 digits and back, and CPython's floor division with its correction steps", "anchors": ["simplegrid/mds.py: wrmds, rdmds, parse1"]}
{"id": "C124", "title": "every entry of the 16 arrays of mkgrid and regrid", "statement": "The result of mkgrid and regrid as one formula. Take the given points as a mesh: the four corners of the box (mkgrid), or the block of input points between those nearest to (lon1,lat1) and (lon2,lat2), in the input turned by k*90 degrees, k<=3 (regrid). Point (a,b), counted in half cells, is point b mod 2*lat_subscale of 2*lat_subscale equal parts of the geodesic between two points, and these are points a mod 2*lon_subscale of 2*lon_subscale equal parts of the two x-sides of mesh cell (a div 2*lon_subscale, b div 2*lat_subscale). 360 is added to negative longitudes of new points exactly if no given longitude is negative. All 16 arrays have the documented sizes, and each entry is the documented point, the sum of two half-edge geodesic lengths, or the sum of four quarter-cell areas of that mesh (zero if one of the terms is zero or lies beyond the tile); areas are planar exactly if the mean nonzero half-edge length in x and that in y are both below 10 km. Nothing else enters: not the other input arrays, not the points outside the block.", "quantifier": "all coordinates (NaN and infinities too), all subscales>=1, all grids, all geodesic solvers, any arithmetic", "why_tests_cant": "a formula for every entry, of all sizes and inputs", "anchors": ["simplegrid/mkgrid.py: mkgrid", "simplegrid/regrid.py: regrid", "simplegrid/computegrid.py: fill, edges, areas, tomitgrid"]}
{"id": "C125", "title": "mkgrid grids and their mirror images", "statement": "On a sphere, the grid mkgrid makes of a box (first corner north-west, second south-east, less than 180 degrees wide, poles excluded) is symmetric about the middle meridian of the box: entry (i,j) of every array other than XC and XG equals entry (rows-1-i,j), and the longitudes at two such places add up to lon1+lon2, up to whole turns. The box mirrored in the equator, mkgrid(lon1,-lat2,lon2,-lat1), gives the same grid upside down: entry (i,j) of every array is entry (i,columns-1-j) of the other grid, with the opposite sign for latitudes, and up to whole turns for longitudes. This holds with either area formula, and the choice of the formula is the same.", "quantifier": "all such boxes (also across the date line or the equator), all radii, all positive subscales, all arrays and indices; exact arithmetic", "why_tests_cant": "symmetry of all grids of all sizes; a spherical cell area is computed from two triangles, and the mirror image is cut along the other diagonal", "anchors": ["simplegrid/mkgrid.py: mkgrid", "simplegrid/computegrid.py: fill, edges, areas, tomitgrid", "simplegrid/util.py: squad_uarea, pquad_uarea"]}
{"id": "C126", "title": "every entry of the 16 arrays of stitch", "statement": "The result of stitch as one formula. For every pair of tiles it accepts, each entry of each of the 16 arrays is the entry of tile B, or that of tile A unless it is zero, at the corresponding position (entries on the common side from tile A); a zero of tile A is replaced by the point, the sum of two half-edge lengths or the sum of four quarter-cell areas computed from the cell corners of tile A alone, with 360 added to negative new longitudes exactly if no longitude of tile A nor of the edge found by matchedges is negative. In particular, for two tiles made by sgmkgrid for boxes that share a side, in any of the four positions and with equally many cells along it, sgstitch writes a file that passes a strict read and whose 16 arrays are those of the two tiles put side by side: every nonzero entry of tile A and every entry of tile B off the common side is unchanged, and the boundary terms of tile A are zero, also those along the common side.", "quantifier": "all pairs of tiles, all sizes, all 16 fields and indices, any arithmetic and geodesic solver; for sgmkgrid tiles all pairs of boxes sharing a side", "why_tests_cant": "a formula for every entry, for all sizes and inputs", "anchors": ["simplegrid/stitch.py: stitch", "simplegrid/addfringe.py: addfringe", "simplegrid/mkgrid.py: mkgrid"]}
{"id": "C127", "title": "the four ways of giving a grid to regrid agree", "statement": "Two regrid calls that are given the same corner point coordinates XG and YG, each either by a mitgrid file, by a pair of binary files, by a pair of csv files or by a mitgrid_matrices dictionary whose arrays lie in memory in any order, with the same corner points and subscales, have the same outcome: the same 16 arrays and counts, the same exception, or neither returns. This holds if each of the two query points has a single nearest grid point (or none at all); between a mitgrid file and binary files it holds always. With two equally near grid points it fails: a pair of csv files gives a grid where binary files with the same values give ValueError, because the tie is decided by memory order.", "quantifier": "all grids and sizes, all query points and subscales, all file names and contents, all memory orders, any arithmetic with a float order and any geodesic solver", "why_tests_cant": "all pairs of sources, all grids, all memory layouts; tests compare one source with stored output", "anchors": ["simplegrid/regrid.py: regrid", "simplegrid/util.py: nearest", "simplegrid/gridio.py: read_mitgridfile"]}
{"id": "C128", "title": "what the commands print with -v", "statement": "For sgmkgrid, sgregrid, sgaddfringe and sgstitch on a complete command line: giving -v or --verbose changes neither the files left nor how the process ends, compared with the same line without it. Without it none of the messages is printed. With it, a run whose function call returns a grid and its counts prints as its last two lines 'writing F with ni=N, nj=M...' ('writing combined tile to F ...' for sgstitch) and '...done.', where F is the output file and N, M the counts of the grid in it; '...done.' is printed exactly if the process ends normally, and a run whose call raises announces no file. The announcement determines F, N and M, whatever characters F has. The size that sgregrid announces before the work ('resulting grid will be N x M cells') is that of the file written, and the sides named by sgaddfringe and sgstitch are those returned by addfringe.", "quantifier": "all complete command lines of the forms of C85 with -v at any position, any number of times, all files, all geoids, all ways of formatting coordinates", "why_tests_cant": "messages are checked against files for all grids, names and ways a run can end", "anchors": ["simplegrid/mkgrid.py: mkgrid, main", "simplegrid/regrid.py: regrid, main", "simplegrid/addfringe.py: main", "simplegrid/stitch.py: main", "simplegrid/matchedges.py: matchedges"]}
{"id": "C129", "title": "addfringe applied again changes nothing", "statement": "If addfringe succeeds for tiles A and B and its grid is written to a file, then addfringe on that file and the same tile B succeeds with the same two edges and the same 16 arrays; sgaddfringe on its own output file writes the same file, byte for byte. Nor does it matter for stitch: with tile A replaced by the file of addfringe(A,B), stitch returns the same sizes and arrays, or both calls raise; sgstitch writes the same file, byte for byte.", "quantifier": "all pairs of files and sizes for which addfringe succeeds, strict or not, any arithmetic and geodesic solver, any previous contents of the output file", "why_tests_cant": "a statement about two successive runs for all tiles; the second run matches, recomputes and merges arrays that the first one changed", "anchors": ["simplegrid/addfringe.py: addfringe, main", "simplegrid/stitch.py: stitch, main", "simplegrid/matchedges.py: matchedges"]}
{"id": "C130", "title": "terms missing on a seam are computed by the next addfringe", "statement": "Let c be the result of stitch(A,B), written to a file, and let addfringe succeed with that file as its first tile and any file D as its second. A term on the seam of c (DXC, DXV, RAW, RAZ if tile A's edge is E or W, DYC, DYU, RAS, RAZ if it is N or S) that was zero in tile A is zero in c, and in the result of addfringe it has the value computed from the corner points of c. The two cells it lies between are inside c, except for RAZ at the two ends of the seam, which stay zero.", "quantifier": "all files and sizes for which the two calls succeed, all four edges, all seam terms", "why_tests_cant": "two runs on three tiles of any size; the repository has no test that stitches more than two tiles", "anchors": ["simplegrid/stitch.py: stitch", "simplegrid/addfringe.py: addfringe", "simplegrid/computegrid.py: tomitgrid"]}
{"id": "C131", "title": "the order of the two tiles matters on their common side only", "statement": "If stitch(A,B) and stitch(B,A) both succeed, with addfringe matching the same side of A to the same side of B in both, then both results have the same sizes. Off the common side every corner point, and every entry of the other arrays that is nonzero in the tile it comes from, is the same in both results, namely the entry of that tile.", "quantifier": "all pairs of files and sizes for which both calls succeed, all arrays, all indices, any arithmetic and geodesic solver", "why_tests_cant": "compares two runs for all pairs of tiles", "anchors": ["simplegrid/stitch.py: stitch", "simplegrid/addfringe.py: addfringe"]}
{"id": "C132", "title": "three tiles in a row can be stitched in either order", "statement": "Let tiles A, B and D lie in a row. Stitching A and B, writing the result to a file and stitching that with D gives the same sizes, the same corner points everywhere, and the same entry wherever the tile it comes from has a nonzero one, as stitching A with the file of B and D, if all four calls succeed and match the same side of their first tile.", "quantifier": "all triples of files and sizes for which the four calls succeed, any of the four sides, all arrays, all indices, any arithmetic and geodesic solver", "why_tests_cant": "four runs on three tiles of any size", "anchors": ["simplegrid/stitch.py: stitch, main", "simplegrid/addfringe.py: addfringe", "simplegrid/gridio.py: read_mitgridfile, write_mitgridfile"]}
{"id": "C133", "title": "refining twice equals refining once if x is divided first", "statement": "On a sphere in exact arithmetic: regrid by (k,1) followed by regrid of the whole result by (k',l') gives the same points (as points of the sphere), lengths and areas as one regrid by (k*k',l'); mkgrid with m by 1 cells followed by regrid by (ls,lt) gives those of mkgrid with m*ls by lt cells. Dividing again in y keeps the corners only: regrid by (k,l) and then by (1,l') has the corner points of regrid by (k,l*l'), and mkgrid with m by n cells and then regrid by (1,lt) those of mkgrid with m by n*lt cells. Dividing y first and then x is different: for every box whose southern side lies on the equator, mkgrid with 1 by 2 cells and then regrid by (2,1) puts the middle corner at another place than mkgrid with 2 by 2 cells.", "quantifier": "all sources, sizes, subscales, radii, and indices; cell corners within an open hemisphere; the second call selects the whole grid (its corner arguments have the grid's first and last corners as unique nearest points); for mkgrid, boxes with first corner north-west and second corner south-east, poles excluded, less than 180 degrees wide", "why_tests_cant": "a relation between two and three calls over real-valued corners and unbounded sizes and subscales", "anchors": ["simplegrid/regrid.py: regrid", "simplegrid/mkgrid.py: mkgrid", "simplegrid/computegrid.py: fill, tomitgrid"]}
{"id": "C134", "title": "tiles accepted in one order are accepted in the other if their sides have the same number of cells", "statement": "Let addfringe accept the tiles A and B, matching a side of A to a side of B. If these sides have the same number of cells, addfringe also accepts B and A and matches the same sides; if A's side has fewer cells, addfringe(B,A) raises although addfringe(A,B) does not. Tiles that stitch accepts in one order it accepts in the other, with the same matching sides and the same sizes of the result (so C131 applies).", "quantifier": "all pairs of files and sizes for which the first call succeeds; finite tolerances; no pair of corners within the tolerance in one order only (exchanging the tiles exchanges the arguments of geod.inv and reorders a floating point sum); any arithmetic with IEEE comparisons, any geodesic solver", "why_tests_cant": "compares two runs for all pairs of tiles", "anchors": ["simplegrid/matchedges.py: matchedges", "simplegrid/addfringe.py: addfringe", "simplegrid/stitch.py: stitch"]}
{"id": "C135", "title": "four tiles in a block can be stitched by rows or by columns", "statement": "Let tile B lie beside tile A on its eastern or western side, tile C on the northern or southern side of A, and D in the opposite corner of the block. Stitching A with B, C with D, and then the two rows gives the same sizes, the same corner points everywhere, and the same entry wherever the tile it comes from has a nonzero one, as stitching A with C, B with D, and then the two columns, if all six calls succeed and match these sides; intermediate results pass through files.", "quantifier": "all quadruples of files and sizes for which the six calls succeed, all four positions of A in the block, all arrays, all indices, any arithmetic and geodesic solver", "why_tests_cant": "six runs on four tiles of any size; the repository has no test with more than two tiles", "anchors": ["simplegrid/stitch.py: stitch, main", "simplegrid/addfringe.py: addfringe", "simplegrid/gridio.py: read_mitgridfile, write_mitgridfile"]}
{"id": "C136", "title": "regrid depends on the block between the corner points only; cutting out a window first changes nothing", "statement": "Cut a window out of a grid with regrid and subscales 1, and read it in again. Any regrid call whose two corner points are nearest to points of the window then gives the same 16 arrays and cell counts, bit for bit, on the window as on the whole grid, whichever way round grid, window and result are. More generally two sources, of any shapes and orientations, that have the same points in the block between the points nearest to the corner points give the same result: the rest of the source is not used.", "quantifier": "all sources and ways to pass them, all pairs of corner points with one nearest grid point each (strictly, in different rows and columns of the source), all subscales >= 1, all four orientations of either block, any arithmetic with IEEE comparisons, any geodesic solver", "why_tests_cant": "compares runs on different inputs, for all sources and all pairs of nested windows in 16 combinations of orientations; the repository tests single calls", "anchors": ["simplegrid/regrid.py: regrid", "simplegrid/util.py: nearest", "simplegrid/computegrid.py: fill, tomitgrid"]}
{"id": "C137", "title": "regridding in parts gives the parts of the regridded block", "statement": "If regrid takes a block of cells of a grid in one call, and another call with the same subscales takes part of that block, then each of the 16 arrays of the second call is the corresponding part of that of the first, bit for bit, except for the terms on the boundary of the part that need points beyond it. If a block is regridded in two parts that are written to files and joined with stitch, the result has the sizes of the block regridded in one call and the same entries, except for the terms on the common side that need points of both parts, and where the single call's entry is zero (and is no corner coordinate).", "quantifier": "all sources and ways to pass them, all blocks and parts in all four orientations, each corner point with one strictly nearest grid point, all subscales >= 1, all entries of all arrays; both calls with negative longitudes or both without (C19), and, for areas, both by the planar or both by the spherical formula (C61); for stitch: addfringe and stitch succeed and match the common side; any arithmetic with IEEE comparisons, any geodesic solver", "why_tests_cant": "compares two to five runs for all blocks and all their divisions; the repository tests single calls on fixed files", "anchors": ["simplegrid/regrid.py: regrid", "simplegrid/computegrid.py: fill, tomitgrid, areas", "simplegrid/stitch.py: stitch", "simplegrid/addfringe.py: addfringe"]}
{"id": "C138", "title": "cutting a grid in two with sgregrid and joining the parts with sgstitch", "statement": "If sgregrid is run three times on the same files, once for a block of the grid and once for each of two parts that fill the block side by side (in x or in y), and the parts are given to sgstitch, then all four commands succeed; the file of sgstitch has the length of the file of the single run, passes a strict read with the same cell counts and holds the same entries, bit for bit, except for the terms on the common side that need points of both parts, and where the single run's entry is zero (and is no corner coordinate).", "quantifier": "all input files, all blocks in all four orientations and both orders of the parts on all four sides, each corner point with one strictly nearest grid point, all subscales >= 1, all previous contents of the output files; corners of the parts other than those of the common side farther than the tolerance from the corners of the other part; both parts and the block with negative longitudes or none (C19), and, for areas, by the same formula (C61); any arithmetic with IEEE comparisons, any geodesic solver", "why_tests_cant": "relates four program runs for all grids and all ways of cutting them; the repository tests single functions on fixed files", "anchors": ["simplegrid/regrid.py: regrid, main", "simplegrid/stitch.py: stitch, main", "simplegrid/matchedges.py: matchedges", "simplegrid/addfringe.py: addfringe", "simplegrid/gridio.py: read_mitgridfile, write_mitgridfile"]}
{"id": "C139", "title": "getobcs does not depend on earlier calls with the same grids", "statement": "A call of getobcs in a results directory left by any number of earlier calls with the same parent and regional grids, finished or stopped by an error, for whatever model runs and boundary positions, ends as it would have ended in the directory as it was before them: it returns or raises the same error, or neither ends. If it returns, all boundary files of all responses with results are byte for byte those it would have written then, and the weight files in the directory are the same. If it raises, each output file is the same, or touched by neither call. A call that returned, made once more, returns and changes no file.", "quantifier": "all grids, given by file or by matrices, all numbers and orders of earlier calls, all previous contents of the results directory (also weights of other grids, C57), all model runs, all interpolation packages whose weights depend on the grids only; any arithmetic, any geodesic solver; earlier calls end in Python, not by the process being killed while writing, and grid files are not changed in between", "why_tests_cant": "compares two executions over histories of any length; the weights of one call are read by the next, and the repository has no test calling getobcs twice", "anchors": ["simplegrid/getobcs.py: getobcs, weightfilename"]}
{"id": "C140", "title": "rdmds reads together only files of one data set", "statement": "If rdmds returns, every iteration asked for has meta files, and all meta files found, of all tiles and all these iterations, belong to one data set: they have the same entries with the same values (data precision, number of records, field names, missing value, ...), except for the entries of the single file (dimList, timeInterval, timeStepNumber, map2glob), and their dimension lists give the same global sizes. In particular, two tiles or iterations written with different precision, number of records, field names or simulation name make rdmds raise instead of being decoded with the settings of the first file. The same holds with usememmap.", "quantifier": "all directories with distinct file names, any number of tiles and iterations, all contents of meta and data files, all ways of naming iterations, all other arguments (records, fill value, format, endianness); numbers are compared by float comparison, and an entry that is an integer in one file and has a decimal point in another is taken to differ (simplification, not used for the second claim)", "why_tests_cant": "quantifies over all directories and all pairs of files among any number of tiles and iterations; the repository has no test with several meta files that disagree", "anchors": ["simplegrid/mds.py: rdmds, readmeta"]}
{"id": "C141", "title": "tiles of different sizes make rdmds raise, or give wrong data when a record is selected or a memory map is used", "statement": "rdmds takes the size of a tile from the first meta file it reads. (1) Reading all records of a field of which two tiles among the files found have different sizes (the first of them not empty) always raises; no array is returned. (2) When a record is selected with rec this protection is lost: for a field of 1 + k rows written as a tile of one row and a tile of k rows, with the file of the one-row tile listed first, rdmds returns an array of the right shape with the right first row, but each of the k other rows is row r mod k of record r div k of the second tile, so they are k copies of one row, in general not even of record r. (3) With the same files listed in the other order by the directory, k > 1, the same call raises ValueError. (4) With usememmap, and the one-row tile listed first, wrong data are returned even if no record is selected: record r has its first row right and k copies of row r mod k of record r div k of the second tile below it; no file is changed.", "quantifier": "(1) all directories with distinct names, any number of tiles and iterations, all tile positions and sizes, all ways of naming iterations, fill values, byte orders; rec, lev and region not given, usememmap off, well-formed meta and data files of one global field of any rank with at least one record; (2), (3), (4) all k > 0 (k > 1 in (3)), widths, numbers of records, selected records, contents, precisions, byte orders, fill values; in (4) at least two records, at least one column, and no empty data file in the directory", "why_tests_cant": "quantifies over all directories, tile sizes, listing orders and contents; the tests only read tiles of equal size", "anchors": ["simplegrid/mds.py: rdmds"]}
{"id": "C142", "title": "accuracy of lonlat2cart in IEEE doubles", "statement": "If the C library's sine and cosine are accurate to 2^-51 for arguments up to 8, lonlat2cart run in IEEE-754 double arithmetic on finite longitudes and latitudes of at most 360 degrees returns finite points; each is at most 2^-47 away from the exact point of its longitude and latitude on the unit sphere, and its distance from the centre is between 1 - 2^-47 and 1 + 2^-47. Points that are more than 2^-46 apart on the unit sphere (0.1 micrometres on the earth) are never mapped to the same triple, and longitudes that differ by exactly 360 give points at most 2^-46 apart.", "quantifier": "all arrays of doubles, all pairs of elements, all values of rad, every C library with that accuracy", "why_tests_cant": "quantifies over all doubles and all C libraries of a given accuracy; the bound is for the worst case, which sampling does not find", "anchors": ["simplegrid/util.py: lonlat2cart"]}
{"id": "C143", "title": "rdmds with a wildcard reads tiles spread over directories as one data set", "statement": "rdmds('wild/name', ...), where wild contains the shell wildcards * and ? and name does not, returns exactly what rdmds('name', ...) returns when all files of the directories that wild stands for lie together in one directory: the same array, the same iterations for NaN and Inf, or the same error, for every choice of itrs, rec, lev, region, fill_value and squeeze. Files of directories that wild does not stand for, hidden directories among them, and files beside the directories or in directories further below have no influence. For a name without wildcards or slashes the patterns that rdmds gives to glob find exactly the files fname.ddd.ddd.meta, fname.meta and fname.dddddddddd...meta by literal comparison of names.", "quantifier": "all sets of files in directories at any depth, listed in any order; all wildcard patterns without brackets; all arguments. Assumed: no file name occurs in two of the directories, and the data file of a tile, if there is one, is in the directory of its .meta file", "why_tests_cant": "quantifies over all patterns, directory trees, file contents and selections; a test tries a few trees", "anchors": ["simplegrid/mds.py: rdmds, scanforfiles"]}
{"id": "C144", "title": "astype in rdmds changes the elements and nothing else", "statement": "For every floating-point or complex type given as astype, rdmds returns the array it returns without astype, with every element converted to that type: the same shape, the same places, the same errors, for every choice of itrs, rec, lev, region, fill_value, machineformat and squeeze. With astype=None the elements are the single or double words of the data files, bit for bit, and their values are exactly what the default (double precision) returns, so files of singles can be read into half the memory without loss, provided that the fill value is a single-precision number.", "quantifier": "all directories, file contents, arguments and conversions of elements", "why_tests_cant": "quantifies over all directory contents, selections and element types; a test compares a few arrays", "anchors": ["simplegrid/mds.py: rdmds"]}
{"id": "C145", "title": "directories with brackets in their name: another directory is read, or nothing", "statement": "If c is an ordinary character, rdmds('x[c]y', ...) does exactly what rdmds('xcy', ...) does, whatever files exist, for every choice of arguments; so files whose name or directory contains brackets are never read by that name. If no file has a name beginning with xcy, then rdmds('x[c]y') raises IOError when no iteration or one iteration is asked for, and returns an empty array for all or the last iteration, although the files are there. mds2mitgrid('x[c]y') returns the grid of the directory xcy; if there is no such directory, it returns a grid in which every array is missing and both counts are 0, without an error. For a directory whose name has no special characters, mds2mitgrid reads exactly the files in that directory.", "quantifier": "all x without '[' and all y (in the parts about missing files and directories: x and y without special characters), all ordinary characters c, all sets of files (for mds2mitgrid: in any number of directories), all arguments", "why_tests_cant": "quantifies over all directory trees and names; tests run in directories with ordinary names", "anchors": ["simplegrid/mds.py: rdmds, scanforfiles", "simplegrid/mds2mitgrid.py: mds2mitgrid"]}
{"id": "C146", "title": "rdmds depends on the files of its own name only; damaged grid files are treated as missing by mds2mitgrid", "statement": "rdmds('base', ...) gives the same array or the same error in any two directories whose files base.* agree in names, order and contents, whatever other files they have, for every choice of itrs, rec, lev, region, fill_value, machineformat and squeeze. If rdmds raises any error for a grid field, for instance because its data file is truncated or its meta file unreadable, mds2mitgrid returns exactly what it returns when all files of that field are deleted: the entry is None, the other fields are unaffected, and there is no error.", "quantifier": "all directories, names, arguments, grid fields and errors", "why_tests_cant": "quantifies over all contents of directories and all kinds of damage; a test tries one", "anchors": ["simplegrid/mds.py: rdmds, scanforfiles", "simplegrid/mds2mitgrid.py: mds2mitgrid"]}
{"id": "C147", "title": "what a failing getobcs leaves on disk", "statement": "If getobcs raises, at whatever point, then either no boundary file has been written or changed, or there is a response, in the order T, S, Eta, W, U, UICE, V, VICE, such that the disk is exactly as a successful call leaves it on a results directory with the same grid files and the same results of the earlier responses and no results of this and later ones: boundary files of the earlier responses are complete, never cut off, and those of this and all later responses are as before the call. Whatever the outcome, weight files that existed keep their contents, new weight files have names bilinear_AxB_CxD_kind.nc in the output directory, and the only other files written are OB<side><response> of responses that have results.", "quantifier": "all grids, arguments, results directories with any files missing or damaged, interpolation packages, states of the disk and points of failure", "why_tests_cant": "quantifies over all failures at all points of a long computation and all earlier contents of the disk; a test provokes one", "anchors": ["simplegrid/getobcs.py: getobcs"]}
{"id": "C148", "title": "brackets in the name of the results directory of getobcs", "statement": "getobcs(parent_resultsdir='x[c]y', ...) reads, silently, the grid files and results of the directory xcy instead: its outcome, its error if any and all files it writes are those of the call with parent_resultsdir='xcy', except that the output directory, if not given, is named after x[c]y. If there is no directory xcy then getobcs either does not end or raises, and writes no boundary file, whatever results there are in x[c]y. For a directory name without special characters getobcs uses exactly the files directly in that directory, whatever files there are in others.", "quantifier": "all sets of files, contents, grids, arguments, interpolation packages and states of the disk; all x without '[' (without special characters and slashes for the second sentence), all y and all characters c other than ! ] [ * ? / . -", "why_tests_cant": "quantifies over all names and all collections of files; a test tries one name", "anchors": ["simplegrid/getobcs.py: getobcs", "simplegrid/mds.py: rdmds"]}
{"id": "C149", "title": "time steps and levels that getobcs ignores or insists on", "statement": "getobcs takes its time steps from the T files and the number of levels of each response from the first of these steps. Results of any response at other time steps, and levels at later steps beyond those of the first, are ignored without a message: whatever they are, getobcs returns or raises as it would without them, and writes the same files. If getobcs returns then every response of which there are any results could be read at each of the steps of T, as a 2-d array or with at least as many levels as at the first step; otherwise it raises or does not end.", "quantifier": "all grids, arguments, results directories whose T files are named T.<step>[.tile].data, interpolation packages and states of the disk; all numbers of steps, levels and responses", "why_tests_cant": "quantifies over all contents of the ignored files and levels and over unbounded loops", "anchors": ["simplegrid/getobcs.py: getobcs (main loop)"]}
{"id": "C150", "title": "boundary files of a response do not depend on the other responses", "statement": "If two calls of getobcs with the same arguments, from the same state of the disk, on results directories with the same grid files, T files of the same names and the same results of a response r (or none in both) both return, then the files OB<side><r> they leave are byte for byte the same, and so are all weight files, whatever the results of the other responses are in the two directories (r may be T or any other response).", "quantifier": "all responses, grids, arguments, results directories, interpolation packages and states of the disk", "why_tests_cant": "quantifies over all results of seven other responses; arrays are kept in one structure that is reused for all responses, so leaks between them depend on their sizes", "anchors": ["simplegrid/getobcs.py: getobcs (main loop)"]}
{"id": "C151", "title": "getobcs reads only the files of its own fields and steps", "statement": "rdmds('base', t, ...) depends only on the files base.<t in ten digits>.*. Called on a results directory, getobcs depends only on the files of the 16 grid fields, on the names of the T.*.data files, on which responses have data files at all, and on the files <response>.<step in ten digits>.* of these responses at the steps of T: adding, removing or changing any other files (results at other steps, pickups, other fields, even fields whose name begins with that of a response) changes neither the outcome nor any file written.", "quantifier": "all pairs of results directories that agree on the named files, all arguments, grids, interpolation packages and states of the disk", "why_tests_cant": "quantifies over all other contents of a results directory; files are found by wildcards, so whether a stray file is picked up depends on every name", "anchors": ["simplegrid/getobcs.py: getobcs", "simplegrid/mds.py: rdmds"]}
