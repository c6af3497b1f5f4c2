{"id": "C01", "title": "Depositing particles on a grid conserves the total weight", "statement": "For each particle shape (order 0 NGP, 1 tophat, 2 triangle, 3 cubic spline) and in 1, 2 and 3 dimensions, the sum over all bins of the histogram returned by histogramdd equals the sum of the particle weights, provided every particle is far enough inside the range that its shape does not reach over the border.", "quantifier": "all particle lists (any length), all weights, all ranges, all bin counts, all four shapes, 1D/2D/3D", "why_tests_cant": "The weight polynomials are different in each of the twelve hand written loops; tests compare a few random samples against one shape.", "anchors": ["postpic/particles/_particlestogrid.pyx:histogram", "postpic/particles/_particlestogrid.pyx:histogram2d", "postpic/particles/_particlestogrid.pyx:histogram3d", "postpic/particles/_routines.py:histogramdd"]}
{"id": "C02", "title": "Depositing particles never writes outside the allocated arrays", "statement": "The Cython deposition loops run with bounds checking switched off. For every particle position, inside or outside of the requested range, every array cell written lies inside the allocated (ghost cell padded) array, and the returned array has exactly the requested number of bins.", "quantifier": "all particle positions (including outside the range, negative, arbitrarily large), all ranges with min<max, all bin counts, all shapes, 1D/2D/3D", "why_tests_cant": "An out of bounds write needs one particle at one critical position; sampling positions cannot exclude it and the program may not even crash.", "anchors": ["postpic/particles/_particlestogrid.pyx:histogram", "postpic/particles/_particlestogrid.pyx:histogram2d", "postpic/particles/_particlestogrid.pyx:histogram3d"]}
{"id": "C03", "title": "Particle histograms are additive and independent of particle order", "statement": "With fixed bins and range, the histogram of the union of two particle lists is the bin wise sum of both histograms, reordering the particles does not change the histogram, and scaling all weights scales the histogram. Hence a field created from p+q is the sum of the fields created from p and from q.", "quantifier": "all particle lists, all permutations, all weights, all shapes, 1D/2D/3D", "why_tests_cant": "Quantifies over all lists and all permutations; tests only add a list to itself.", "anchors": ["postpic/particles/_particlestogrid.pyx:histogram", "postpic/particles/_particlestogrid.pyx:histogram2d", "postpic/particles/_particlestogrid.pyx:histogram3d", "postpic/particles/particles.py:MultiSpecies.createField"]}
{"id": "C04", "title": "The order 0 histogram counts exactly the particles of each bin, as numpy.histogram does", "statement": "With shape 0 the value of bin i is the sum of the weights of the particles with edge_i <= x < edge_{i+1} (closed on the right for the last bin), as documented to be identical to numpy.histogram.", "quantifier": "all particle lists, ranges and bin counts", "why_tests_cant": "The difference only shows for particles exactly on the range limits, which random tests never generate but the default range (min and max of the data) always does.", "anchors": ["postpic/particles/_particlestogrid.pyx:histogram", "postpic/particles/_routines.py:histogramdd"]}
{"id": "C05", "title": "Non negative weights never produce negative bins", "statement": "If all particle weights are non negative, then every bin of the histogram is non negative, for every particle shape and every particle position.", "quantifier": "all particle lists, positions inside or outside of the range, all shapes", "why_tests_cant": "Violations need a particle in a half cell wide strip next to the lower border of the range.", "anchors": ["postpic/particles/_particlestogrid.pyx:histogram", "postpic/particles/_particlestogrid.pyx:histogram2d", "postpic/particles/_particlestogrid.pyx:histogram3d"]}
{"id": "C06", "title": "2D and 3D histograms are consistent with the lower dimensional ones", "statement": "Summing a 2D histogram over one axis gives the 1D histogram of the other coordinate, if all particles are far enough inside the range along the summed axis; likewise 3D to 2D. A single particle deposits the product of its 1D weights.", "quantifier": "all particle lists, all shapes, all bin counts", "why_tests_cant": "The 2D and 3D loops are separate code with 4..64 hand written updates each.", "anchors": ["postpic/particles/_particlestogrid.pyx:histogram", "postpic/particles/_particlestogrid.pyx:histogram2d", "postpic/particles/_particlestogrid.pyx:histogram3d"]}
{"id": "C07", "title": "Swapping the axes of a 2D histogram transposes it", "statement": "histogram2d(y, x) is the transpose of histogram2d(x, y) for the same particles, weights, and swapped ranges, bins.", "quantifier": "all particle lists, positions inside or outside of the range, all shapes", "why_tests_cant": "The border conditions differ between the axes only for particles within half a cell outside of the range.", "anchors": ["postpic/particles/_particlestogrid.pyx:histogram2d"]}
{"id": "C08", "title": "Filtered particles: every history of filters, inversions, resets and reads returns the data of exactly the selected particles", "statement": "After any sequence of operations on a species (filter by condition, select by ids, uncompress, invert, reading properties at any time, which fills caches), reading a property returns the original dump data restricted to the selected particles in the original order, and len() is the number of selected particles. Conditions are evaluated relative to the current selection.", "quantifier": "all dumps, all finite histories of operations and reads", "why_tests_cant": "Caches are filled depending on the history of reads; only induction over histories covers all of them.", "anchors": ["postpic/particles/particles.py:_SingleSpecies.compress", "postpic/particles/particles.py:_SingleSpecies._compress_bool", "postpic/particles/particles.py:_SingleSpecies._readatomic", "postpic/particles/particles.py:_SingleSpecies.uncompress", "postpic/particles/particles.py:_SingleSpecies.__invert__", "postpic/particles/particles.py:_SingleSpecies.__len__"]}
{"id": "C09", "title": "Selecting particles by id selects exactly the particles with these ids", "statement": "compress(ids) keeps a particle iff its id occurs in ids, irrespective of order and duplicates in ids and of how many ids do not occur in the dump; the surviving particles keep their order.", "quantifier": "all id lists, all dumps", "why_tests_cant": "The code uses sorting and a binary search with an out of range patch; correctness for every list needs a proof about sortedness.", "anchors": ["postpic/particles/particles.py:_SingleSpecies._compress_int"]}
{"id": "C10", "title": "Selecting particles by id leaves the list of ids of the caller alone", "statement": "compress(ids) does not modify the ids object passed in. In particular ParticleHistory returns, for its i-th requested id, the trajectory of this id.", "quantifier": "all id arrays, all simulations", "why_tests_cant": "The effect is an aliasing effect that depends on whether np.asarray copies.", "anchors": ["postpic/particles/particles.py:_SingleSpecies._compress_int", "postpic/particles/particles.py:ParticleHistory.collect", "postpic/particles/particles.py:ParticleHistory._findids"]}
{"id": "C11", "title": "Adding particle collections concatenates them", "statement": "For collections p and q: len(p+q)=len(p)+len(q) and reading any property of p+q gives the values of p followed by the values of q. Neither p nor q is changed. Properties which are a single number per species are repeated for every particle of this species.", "quantifier": "all collections, all properties, all nestings of additions", "why_tests_cant": "Quantifies over all collections and histories, including aliased operands.", "anchors": ["postpic/particles/particles.py:MultiSpecies.__add__", "postpic/particles/particles.py:MultiSpecies.__iadd__", "postpic/particles/particles.py:MultiSpecies.add", "postpic/particles/particles.py:MultiSpecies.__call_sp"]}
{"id": "C12", "title": "Filtering a collection of several species filters each particle by its own condition value", "statement": "compress(condition) with a boolean array of the length of the collection keeps the i-th particle iff condition[i], over all species boundaries; conditions of the wrong length are refused with ValueError as documented.", "quantifier": "all collections, all conditions, including conditions of wrong length", "why_tests_cant": "Offsets are accumulated over species; a wrong offset only shows with several species of different lengths, and the length check is per species.", "anchors": ["postpic/particles/particles.py:MultiSpecies.compress", "postpic/particles/particles.py:MultiSpecies.filter"]}
{"id": "C13", "title": "Weighted quantiles are quantiles", "statement": "quantile(expr, q, weights) returns a value of expr such that the weight of particles with smaller value is at most q times the total and the weight of particles with value at most that value is at least q times the total; it is monotone in q.", "quantifier": "all particle lists with at least one particle, all non negative weights with positive sum, all 0<=q<=1", "why_tests_cant": "Ties, zero weights and the end points q=0 and q=1 all need separate cases.", "anchors": ["postpic/particles/particles.py:MultiSpecies.quantile", "postpic/particles/particles.py:MultiSpecies.median"]}
{"id": "C14", "title": "Weighted mean and variance obey their laws", "statement": "mean is between the minimum and the maximum of the values, var is non negative, var is invariant under shifting and quadratic under scaling of the expression, and both only depend on weight ratios.", "quantifier": "all particle lists with at least one particle, non negative weights with positive sum", "why_tests_cant": "Universally quantified inequalities.", "anchors": ["postpic/particles/particles.py:MultiSpecies.mean", "postpic/particles/particles.py:MultiSpecies.var"]}
{"id": "C15", "title": "The predefined particle scalars satisfy the relativistic relations", "statement": "For every momentum and mass: gamma >= 1, gamma^2 = 1 + (p/mc)^2, gamma_m1 = gamma - 1, 0 <= beta < 1, gamma = 1/sqrt(1-beta^2), v = beta c with |v|^2 = vx^2+vy^2+vz^2, Ekin = (gamma-1) m c^2.", "quantifier": "all real momenta, all positive masses", "why_tests_cant": "Formulae must agree for all real numbers, incl. the numerically motivated reformulation of gamma-1.", "anchors": ["postpic/particles/scalarproperties.py:particle_scalars"]}
{"id": "C16", "title": "The registry of particle scalars never redefines or loses a scalar and lookups find what was added", "statement": "After any history of add and remove calls, a lookup by a registered symbol returns the scalar registered under that symbol, registrations of an existing symbol are refused without changing anything, and a lookup of an unknown expression yields a scalar evaluating this expression.", "quantifier": "all histories of additions, removals and lookups", "why_tests_cant": "Histories.", "anchors": ["postpic/particles/scalarproperties.py:ScalarPropertyContext.add", "postpic/particles/scalarproperties.py:ScalarPropertyContext.__call__", "postpic/particles/scalarproperties.py:ScalarPropertyContext.remove"]}
{"id": "C17", "title": "Resolving predefined particle scalars terminates", "statement": "Evaluating any predefined scalar only needs finitely many recursive property lookups, ending in data stored in the dump: the dependency relation between the predefined scalars is acyclic.", "quantifier": "all predefined scalars", "why_tests_cant": "A cycle would be an endless recursion only for the affected scalar; the whole table has to be checked.", "anchors": ["postpic/particles/scalarproperties.py:particle_scalars", "postpic/particles/particles.py:_SingleSpecies._eval_single_sp"]}
{"id": "C18", "title": "Every constructed axis is well formed", "statement": "Whenever constructing an axis succeeds, it has one more node than grid points, nodes and grid are strictly monotone in the same direction, and every grid point lies between its two neighbouring nodes. Every inconsistent combination of grid, nodes, extent and n is refused.", "quantifier": "all combinations of grid, grid_node, extent and n given by the caller", "why_tests_cant": "The validation has many combinations, one of which is guarded by a misplaced parenthesis.", "anchors": ["postpic/datahandling.py:Axis.__init__", "postpic/helper.py:monotonicity"]}
{"id": "C19", "title": "Looking up a coordinate on an axis returns a nearest grid point", "statement": "For each coordinate the index found has no grid point strictly closer to the coordinate, for increasing and decreasing axes; for linear axes it is the rounded fractional index value_to_index, and value_to_index maps the i-th grid point to i.", "quantifier": "all strictly monotone grids of any length, all coordinates", "why_tests_cant": "Binary search boundary cases and ties at every position.", "anchors": ["postpic/datahandling.py:Axis._find_nearest_index", "postpic/datahandling.py:Axis.value_to_index", "postpic/datahandling.py:Axis._value_to_index_linear", "postpic/datahandling.py:Axis._value_to_index_nonlinear"]}
{"id": "C20", "title": "Cutting out a coordinate range keeps exactly the grid points in this range", "statement": "Indexing an axis or a field with a float slice a:b keeps exactly the grid points with a <= x < b (order of a and b with respect to the axis direction selects the direction of the result), and a range without overlap with the axis is refused.", "quantifier": "all strictly monotone grids, all a and b", "why_tests_cant": "Boundary cases: a or b outside of the axis, on grid points, reversed axes, reversed ranges.", "anchors": ["postpic/datahandling.py:Axis._extent_to_slice", "postpic/datahandling.py:Axis._normalize_slice", "postpic/datahandling.py:Axis._inside_domain", "postpic/datahandling.py:Field.cutout"]}
{"id": "C21", "title": "Slicing an axis slices nodes and grid consistently", "statement": "Indexing an axis with an integer slice returns an axis whose grid is the python slice of the grid and whose nodes are the nodes surrounding these grid points.", "quantifier": "all axes, all slices (positive, negative, missing bounds, reversed)", "why_tests_cant": "Sign cases of slice bounds: there are 27 combinations times boundary values.", "anchors": ["postpic/datahandling.py:Axis.__getitem__", "postpic/datahandling.py:Axis.reversed"]}
{"id": "C22", "title": "Axes always describe the data of a field", "statement": "After any sequence of field operations (slicing, transposing, flipping, rotating, reducing, integrating, padding, halving the resolution, squeezing, adding dimensions, arithmetic, fft), a field has exactly one axis, one transform state and one stored origin per dimension of its matrix, and the length of each axis is the length of the matrix along this dimension.", "quantifier": "all fields of all dimensions, all finite sequences of operations", "why_tests_cant": "Invariant over histories of about twenty operations.", "anchors": ["postpic/datahandling.py:Field", "postpic/datahandling.py:Field.__init__", "postpic/datahandling.py:Field.transpose", "postpic/datahandling.py:Field.__getitem__", "postpic/datahandling.py:Field.pad", "postpic/datahandling.py:_reducing_numpy_method", "postpic/datahandling.py:Field.half_resolution", "postpic/datahandling.py:Field.atleast_nd"]}
{"id": "C23", "title": "Arithmetic between fields broadcasts as numpy does and keeps matching axes", "statement": "For a binary operation on fields and numbers/arrays the resulting shape is the numpy broadcast shape, the operation is refused iff numpy refuses it, and every axis of the result is the axis of the operand that was not broadcast along this dimension.", "quantifier": "all pairs of fields of all dimensions", "why_tests_cant": "Depends on pairs of shapes of arbitrary rank.", "anchors": ["postpic/datahandling.py:Field._get_axes_ats_tao_binary_ufunc_broadcasting", "postpic/datahandling.py:Field.__array_ufunc__"]}
{"id": "C24", "title": "Permuting the axes of a field moves all metadata with the data", "statement": "After transpose (or T, swapaxes) the value at a given tuple of coordinates is unchanged: dimension i of the result carries data, axis, transform state and stored origin of dimension axes[i] of the input; transposing with the inverse permutation restores the field.", "quantifier": "all fields, all permutations", "why_tests_cant": "Permutations of rank > 2 that are not self inverse and mixed transform states are not tested.", "anchors": ["postpic/datahandling.py:Field.transpose", "postpic/datahandling.py:Field.swapaxes", "postpic/datahandling.py:Field.T"]}
{"id": "C25", "title": "Flips and rotations form the group of symmetries of the square", "statement": "flip twice restores the field, rot90 four times restores the field, rot90(k) is k times rot90 for every integer k, and in each case the axis lengths keep describing the data.", "quantifier": "all fields with at least two dimensions, all pairs of axes, all integers k", "why_tests_cant": "All k and all shapes.", "anchors": ["postpic/datahandling.py:Field.flip", "postpic/datahandling.py:Field.rot90"]}
{"id": "C26", "title": "Fast and plain integration agree", "statement": "The fast integration method gives the same result as the documented constant method for every choice of axes, integration is linear, and integrating over several axes at once equals integrating one after the other in any order.", "quantifier": "all fields of all dimensions with linear or non linear axes, all sets of axes", "why_tests_cant": "The fast method dispatches on the number of axes and builds einsum strings.", "anchors": ["postpic/datahandling.py:Field._integrate_constant", "postpic/datahandling.py:Field._integrate_fast", "postpic/datahandling.py:Field.integrate"]}
{"id": "C27", "title": "Padding keeps every sample at its coordinate", "statement": "After pad, every original value is found at the same coordinate as before, all new cells hold the fill value, and the grid spacing is unchanged.", "quantifier": "all fields with linear axes, all pad widths given as cells or as length", "why_tests_cant": "All pad widths, axis directions.", "anchors": ["postpic/datahandling.py:Field.pad", "postpic/datahandling.py:Field.fft_autopad"]}
{"id": "C28", "title": "Reducing the resolution keeps the integral and terminates", "statement": "half_resolution along an axis of even length keeps extent and integral; autoreduce(maxlen) terminates for every field and returns a field with all axis lengths at most maxlen, whose values are the means over the joined cells and which has the same integral.", "quantifier": "all fields, all maxlen >= 1", "why_tests_cant": "Termination and bounds for all lengths.", "anchors": ["postpic/datahandling.py:Field.half_resolution", "postpic/datahandling.py:Field.autoreduce", "postpic/datahandling.py:Axis.half_resolution"]}
{"id": "C29", "title": "Fourier transforming twice restores the field", "statement": "For every field with linear axes, fft followed by the inverse fft restores the data, the axes (grid, name, unit) and the transform state; and the spectrum satisfies Parseval's identity with the spacings of the grids.", "quantifier": "all data, all lengths, all grid spacings and origins, all names and units", "why_tests_cant": "Phase factors depend on origins of both grids and parity of the length; names and units go through string stripping.", "anchors": ["postpic/datahandling.py:Field.fft", "postpic/datahandling.py:Field._conjugate_grid"]}
{"id": "C30", "title": "The Fourier transform is evaluated at the advertised frequencies with the advertised phase", "statement": "The value of the transformed field at frequency k is dx/sqrt(2 pi) times the sum of f(x) exp(-i k x) over the coordinates of the grid, whatever the origin of the grid.", "quantifier": "all data, all lengths, all grid spacings and origins", "why_tests_cant": "A phase error of the origin cancels in round trip tests.", "anchors": ["postpic/datahandling.py:Field.fft", "postpic/datahandling.py:Field._conjugate_grid"]}
{"id": "C31", "title": "Requesting a transform state yields this transform state", "statement": "ensure_transform_state, ensure_spatial_domain and ensure_frequency_domain return a field having the requested state along all axes, for every initial state; requesting the present state changes nothing.", "quantifier": "all initial states, all requests", "why_tests_cant": "2^n times 2^n combinations of states and requests.", "anchors": ["postpic/datahandling.py:Field.ensure_transform_state", "postpic/datahandling.py:Field.ensure_spatial_domain", "postpic/datahandling.py:Field.ensure_frequency_domain", "postpic/datahandling.py:Field._transform_state"]}
{"id": "C32", "title": "Fourier shifts compose and shifting by whole cells rolls the data", "statement": "shift_grid_by with the fourier method: shifting by 0 is the identity, shifting by a then by b equals shifting by a+b (data and axes), and shifting by a whole number of cells rolls the samples cyclically.", "quantifier": "all data, lengths and shifts", "why_tests_cant": "All real shifts.", "anchors": ["postpic/datahandling.py:Field.shift_grid_by", "postpic/datahandling.py:Field._shift_grid_by_fourier"]}
{"id": "C33", "title": "The FFT pad size is the smallest suitable size, whatever was asked before", "statement": "FFTW_Pad(n) returns the least number >= n whose prime factors are only those allowed for fast FFT (with at most one factor of 11 or 13), independent of the history of previous calls; calls never fail.", "quantifier": "all n >= 1, all histories of calls", "why_tests_cant": "The object caches a table that grows with the history of calls.", "anchors": ["postpic/helper.py:FFTW_Pad", "postpic/helper.py:FFTW_Pad.__call__", "postpic/helper.py:FFTW_Pad.fftsize_max"]}
{"id": "C34", "title": "Automatic cut out never removes the signal", "statement": "autocutout returns a connected part of the field that contains all indices where the projection exceeds the larger fraction of its maximum, and the taper window is 1 at all these indices and between 0 and 1 elsewhere.", "quantifier": "all projections, all pairs of fractions", "why_tests_cant": "Index arithmetic and window widths for all lengths.", "anchors": ["postpic/datahandling.py:Field.autocutout", "postpic/helper.py:max_frac_bounds", "postpic/_compat/functions.py:sps_tukey"]}
{"id": "C35", "title": "Saving a field and loading it restores it", "statement": "Exporting a field to npz and importing it again yields the same matrix, axes (grids, nodes, names, units), name, unit, transform states and stored origins.", "quantifier": "all fields", "why_tests_cant": "Strings are stored in fixed width arrays; loss only shows for names of several characters, and padded tables only for axes of different lengths.", "anchors": ["postpic/io/npy.py:_export_field_npy", "postpic/io/npy.py:_import_field_npy"]}
{"id": "C36", "title": "The file format of a save is the file format of the load", "statement": "For each file name accepted by saveto/export_field, loading by the name of the file that was written selects the importer matching the exporter.", "quantifier": "all file names", "why_tests_cant": "Suffix logic over all strings.", "anchors": ["postpic/io/__init__.py:load_field", "postpic/io/__init__.py:export_field", "postpic/io/__init__.py:import_field", "postpic/datahandling.py:Field.saveto"]}
{"id": "C37", "title": "VTK export writes every value to its grid point", "statement": "The data block written for scalar and vector fields lists all points with the first axis running fastest and all components of a point adjacent, as demanded by the legacy VTK format.", "quantifier": "all shapes up to 3 dimensions, all numbers of components", "why_tests_cant": "Ordering errors are invisible for symmetric or cubic data.", "anchors": ["postpic/io/vtk.py:ArrayData.transform_data", "postpic/io/vtk.py:_export_arraydata_vtk"]}
{"id": "C38", "title": "Indexing a simulation behaves like indexing a python sequence", "statement": "For a simulation with n dumps, sim[i] is dump i for 0<=i<n, sim[-i] is dump n-i for 1<=i<=n, everything else raises IndexError; iterating visits each dump exactly once in order.", "quantifier": "all n, all integers i", "why_tests_cant": "All integers, incl. far negative ones.", "anchors": ["postpic/datareader/datareader.py:Simulationreader_ifc.__getitem__", "postpic/datareader/openPMDh5.py:FileSeries", "postpic/datareader/dummy.py:Dummysim"]}
{"id": "C39", "title": "Parallel interpolation gives the result of sequential interpolation for every schedule", "statement": "map_coordinates_parallel splits the output into chunks that are disjoint and cover every output point exactly once, so that in whatever order the threads finish, each output point receives the value computed from its own coordinates.", "quantifier": "all shapes, all chunk lengths, all thread schedules", "why_tests_cant": "Schedules.", "anchors": ["postpic/helper.py:map_coordinates_parallel"]}
{"id": "C40", "title": "k-space reconstruction combines exactly the field components of Maxwell's equations", "statement": "kspace(component) adds to the component of the E (B) field the matching component of the cross product of the wave vector with the other field, with signs of Faraday's (Ampere's) law, so that a plane wave running in the wanted direction is kept and the one running backwards is removed; and it does not modify the fields passed in.", "quantifier": "all six components, all wave vectors, all field values", "why_tests_cant": "Cyclic index arithmetic and sign; each component is different code path in dimension 1..3; aliasing.", "anchors": ["postpic/helper.py:kspace", "postpic/helper.py:kspace_epoch_like", "postpic/_field_calc.py"]}
{"id": "C41", "title": "Propagation in k-space is a one parameter group preserving energy", "statement": "Propagating a spectrum by dt1 and then by dt2 equals propagating by dt1+dt2, by 0 it is the identity, and the absolute value of every Fourier coefficient is preserved; with a moving window the axes move with the window.", "quantifier": "all spectra, all times", "why_tests_cant": "All reals.", "anchors": ["postpic/helper.py:_kspace_propagate_generator", "postpic/helper.py:kspace_propagate", "postpic/helper.py:_linear_phase"]}
{"id": "C42", "title": "Azimuthal mode expansion evaluates the Fourier series at the requested angles", "statement": "The fbpic reader's naive and FFT based expansions agree at the angles of the FFT grid and are the real Fourier series of the modes; the Smilei reader returns for each requested angle the series at this angle.", "quantifier": "all mode data, all numbers of modes and angles", "why_tests_cant": "Depends on accumulators shared between angles and uninitialised entries.", "anchors": ["postpic/datareader/openPMDh5.py:FbpicReader._modeexpansion_naiv", "postpic/datareader/openPMDh5.py:FbpicReader._modeexpansion_fft", "postpic/datareader/smileih5.py:SmileiReader._modeexpansion_naiv"]}
{"id": "C43", "title": "The moveaxis replacement is numpy's moveaxis", "statement": "np_moveaxis returns a permutation of the axes that puts every source axis at its destination and keeps the order of all other axes.", "quantifier": "all ranks, all lists of distinct sources and destinations", "why_tests_cant": "Insertion order matters and depends on sorting by destination.", "anchors": ["postpic/_compat/functions.py:np_moveaxis"]}
{"id": "C44", "title": "The tukey window replacement is a proper window", "statement": "sps_tukey(M, alpha) has length M, takes values in [0,1], is symmetric, and is 1 in its flat part.", "quantifier": "all M, all alpha", "why_tests_cant": "All lengths and real alphas; concatenation boundaries.", "anchors": ["postpic/_compat/functions.py:sps_tukey"]}
{"id": "C45", "title": "Grid points and grid nodes reported by a dump are consistent", "statement": "For each reader: gridnode has one more entry than grid, grid points are the midpoints of the nodes, the spacing is gridspacing; simextent is the first and last node of the simulation grid; EPOCH's staggering moves a component by half a cell along exactly the staggered axes.", "quantifier": "all offsets, spacings, numbers of points, all stagger codes", "why_tests_cant": "Half cell offsets are invisible in most comparisons.", "anchors": ["postpic/datareader/datareader.py:Dumpreader_ifc.gridnode", "postpic/datareader/datareader.py:Dumpreader_ifc.grid", "postpic/datareader/epochsdf.py:Sdfreader.gridoffset"]}
{"id": "C46", "title": "Polar coordinate maps invert each other and their Jacobian factors are right", "statement": "Mapping cartesian to polar coordinates and back is the identity (away from the origin, principal branch), and the stated Jacobian determinants are the absolute determinants of the stated Jacobian matrices.", "quantifier": "all real coordinates", "why_tests_cant": "Real analysis.", "anchors": ["postpic/helper.py:polar2linear", "postpic/helper.py:linear2polar"]}
{"id": "C47", "title": "Results of field operations do not share mutable state with their inputs", "statement": "Modifying the lists or the matrix of a field returned by copy or by an arithmetic operation leaves the input field unchanged.", "quantifier": "all fields, all subsequent modifications", "why_tests_cant": "Aliasing is only visible after a later mutation.", "anchors": ["postpic/datahandling.py:Field.copy", "postpic/datahandling.py:Field.__array_ufunc__", "postpic/datahandling.py:Field._shift_grid_by_fourier"]}
{"id": "C48", "title": "Species names are decoded compositionally", "statement": "identifyspecies returns mass, charge and ion flag for every name consisting of an optional list of prefixes followed by a known species, prefixes never change mass or charge, and every other name is refused.", "quantifier": "all strings", "why_tests_cant": "All strings.", "anchors": ["postpic/particles/_routines.py:SpeciesIdentifier.identifyspecies"]}
{"id": "C49", "title": "Reductions along axes remove exactly the reduced axes", "statement": "sum, mean, max, ... over any axis or tuple of axes (positive or negative numbers) return a field whose axes are the axes of the dimensions that were not reduced, in order; with keepdims the reduced axes keep their extent with a single cell.", "quantifier": "all fields, all axis tuples", "why_tests_cant": "Mixed positive and negative axis numbers.", "anchors": ["postpic/datahandling.py:_reducing_numpy_method"]}
{"id": "C50", "title": "Registering readers: the chosen code decides which reader is used", "statement": "After chooseCode(name) every readDump/readSim uses the readers of this code; the name is not case sensitive; unknown names are refused and leave the previous choice in place; before the first choice reading is refused.", "quantifier": "all histories of chooseCode and read calls", "why_tests_cant": "Global state and histories.", "anchors": ["postpic/datareader/__init__.py:chooseCode", "postpic/datareader/__init__.py:readDump", "postpic/datareader/__init__.py:readSim"]}
{"id": "C51", "title": "Staggered derivative and divergence", "statement": "Differentiating along an axis with the staggered scheme gives, between neighbouring samples, the difference quotient with respect to the coordinate, for increasing and decreasing axes; it inverts summation: integrating the derivative telescopes to the difference of the end values.", "quantifier": "all fields with linear axes, all data", "why_tests_cant": "Axis direction.", "anchors": ["postpic/datahandling.py:Field._derivative_stagger", "postpic/datahandling.py:Field.derivative"]}
{"id": "C52", "title": "Each histogram bin is the B-spline weighted sum over the particles", "statement": "For particle shapes of order 0 to 3, bin i of the histogram equals the sum over all particles of weight times W(i+1/2-x), where x is the particle position in units of bins from the lower end of the range and W is the B-spline assignment function of that order (in 2D and 3D: the product of the W along each axis).", "quantifier": "all particle lists within the range, all ranges, bin counts, weights, shapes, 1D/2D/3D", "why_tests_cant": "The exact distribution is given by twelve hand written polynomial loops; tests only check totals or smoothness.", "anchors": ["postpic/particles/_particlestogrid.pyx:histogram", "postpic/particles/_particlestogrid.pyx:histogram2d", "postpic/particles/_particlestogrid.pyx:histogram3d"]}
{"id": "C53", "title": "histogramdd treats an (N, D) array as N points in D dimensions", "statement": "Passing particle data as numpy array of shape (N, D) gives the same histogram as passing the D columns as a sequence, for every N and every D from 1 to 3.", "quantifier": "all arrays, all N, all D", "why_tests_cant": "The meaning of the argument depends on its shape, a test with many particles does not see the special treatment of short arrays.", "anchors": ["postpic/particles/_routines.py:histogramdd"]}
{"id": "C54", "title": "Missing ends of a histogram range default to the minimum and maximum of the data", "statement": "Each end of the range which is None (or missing) is replaced by the minimum or maximum of the data, the other end is used as given. If minimum and maximum coincide the range is widened and all particles are counted.", "quantifier": "all data, all combinations of given and missing ends", "why_tests_cant": "Combinatorial argument forms, and the degenerate case depends on the sign of the data.", "anchors": ["postpic/particles/_routines.py:histogramdd", "postpic/particles/_particlestogrid.pyx:histogram"]}
{"id": "C55", "title": "Indexing a field selects samples together with their coordinates", "statement": "field[key] with one index per dimension - an integer, a coordinate, a slice of integers or a slice of coordinates in any combination - selects along every dimension exactly the points the index describes; the axes of the result are the selected points with the nodes around them, transform states and origins stay with their dimension, and every sample of the result is the sample of the field at that position. Wrong numbers of indices, numbers out of range and coordinates outside of the extent are refused.", "quantifier": "all fields, all shapes, all combinations of indices", "why_tests_cant": "Data, grid and nodes are sliced by separate code, tests try a few slices.", "anchors": ["postpic/datahandling.py:Field.__getitem__", "postpic/datahandling.py:Field._normalize_slices", "postpic/datahandling.py:Axis.__getitem__", "postpic/datahandling.py:Axis._normalize_slice"]}
{"id": "C56", "title": "Species keywords divide the species of a dump", "statement": "Adding '_ions' and '_nonions' to a MultiSpecies selects each species of the dump exactly once between them, in the order of the dump and according to the ion flag of its name; '_ejected' and '_noejected' likewise, and '_all' selects every species.", "quantifier": "all dumps, all lists of species names", "why_tests_cant": "All combinations of species names.", "anchors": ["postpic/particles/particles.py:MultiSpecies.add", "postpic/particles/_routines.py:SpeciesIdentifier"]}
{"id": "C57", "title": "squeeze removes exactly the dimensions of length one", "statement": "squeeze() returns a field without the dimensions of length one and without their axes; the other axes keep names, units, grids and nodes, and every sample stays at the position given by its remaining coordinates.", "quantifier": "all fields with up to three dimensions, all shapes", "why_tests_cant": "Data and axes are selected by separate code; every pattern of lengths counts.", "anchors": ["postpic/datahandling.py:Field.squeeze"]}
{"id": "C58", "title": "Defaults of bins and shape in histogramdd", "statement": "A single number of bins is used along all axes; without bins 800, 500 x 500 or 200 x 200 x 200 bins are used; without shape the triangular one; more than three columns are refused.", "quantifier": "all data, ranges and weights", "why_tests_cant": "Combinations of optional arguments.", "anchors": ["postpic/particles/_routines.py:histogramdd"]}
{"id": "C59", "title": "Changing the coordinates of one axis keeps the integral", "statement": "map_axis_grid replaces the grid of one axis by transformed coordinates; all other axes stay, and with preserve_integral the data are divided by the absolute Jacobian determinant, so that the integral over the new axis is the integral over the old one.", "quantifier": "all fields, all axes, all monotone transforms, given or approximated Jacobian", "why_tests_cant": "The factor depends on grid positions and on the sign of the spacing; tests try one transform on one rising axis.", "anchors": ["postpic/datahandling.py:Field.map_axis_grid", "postpic/helper.py:approx_1d_jacobian_det"]}
{"id": "C60", "title": "Resampling a field on other axes takes each value from the place the transform names", "statement": "map_coordinates fills each point of the new grid with the interpolated value of the field at the transformed point, times the Jacobian determinant if the integral is preserved; points outside of the old grid get the fill value; resampling a field on its own grid returns the same data. topolar does this for polar coordinates: value at (theta, r) is the field at (r cos(theta - offset), r sin(theta - offset)), times r if the integral is preserved, and its default extent covers all grid points.", "quantifier": "all fields, all axes with equal or different cells, all transforms, all points", "why_tests_cant": "Positions are found by interpolating between nodes and grid points, with separate code for linear axes; every axis and point counts.", "anchors": ["postpic/datahandling.py:Field.map_coordinates", "postpic/datahandling.py:Field.topolar", "postpic/datahandling.py:Axis.value_to_index", "postpic/helper.py:polar2linear"]}
{"id": "C61", "title": "Particle scalars in practical units and for positions", "statement": "x_um, Ekin_MeV, Ekin_keV, mass_u, charge_e, r_xy, ... are the SI quantities divided by the named unit (per atomic mass unit, times charge over mass where the name says so), the radii are distances from the axes or the origin, and expressions of the user are evaluated by the rules of arithmetic from these quantities; the unit label fits the value.", "quantifier": "all particles, all predefined scalars", "why_tests_cant": "A wrong factor or a wrong coordinate is only visible for particular particles.", "anchors": ["postpic/particles/scalarproperties.py:_defaultscalars", "postpic/particles/particles.py:SingleSpecies._eval_single_sp"]}
{"id": "C62", "title": "A distribution function is the density of the particle weights", "statement": "createField(s1, ..., weights=..., bins=..., rangex=..., shape=...) returns a field with one axis per scalar, with the name and unit of the scalar and the requested range and number of equal cells; the value of a cell is the weight deposited into it with the chosen particle shape divided by the volume of the cell. It is additive over particles and not negative without negative weights.", "quantifier": "all collections of particles, all scalars, one to three axes, all ranges, numbers of bins and particle shapes", "why_tests_cant": "Axes, edges and data are set by separate functions with many optional arguments; a wrong default or factor only shows for particular combinations.", "anchors": ["postpic/particles/particles.py:MultiSpecies.createField", "postpic/particles/particles.py:MultiSpecies._createHistgram", "postpic/particles/_routines.py:histogramdd", "postpic/datahandling.py:Field.__init__"]}
{"id": "C63", "title": "Integrating a distribution function gives the projected one and the total weight", "statement": "The integral of createField(s1, s2, ...) over some of its axes is createField of the other scalars alone, and the integral over all axes is the sum of the weights of the particles, if no particle shape reaches over the border.", "quantifier": "all collections of particles, all choices of axes, all ranges and numbers of bins", "why_tests_cant": "Relates calls with different numbers of axes, which run different deposition code.", "anchors": ["postpic/particles/particles.py:MultiSpecies.createField", "postpic/datahandling.py:Field.integrate"]}
{"id": "C64", "title": "The options of createField do what they say", "statement": "simextent enforces the extent of the simulation on the axes, simgrid enforces its grid, force returns an empty histogram if the collection cannot be evaluated, a collection without particles gives an empty histogram, and title, name and weights make up the name of the field.", "quantifier": "all collections of particles, all scalars, all combinations of options", "why_tests_cant": "Many combinations of options, missing scalars and empty collections.", "anchors": ["postpic/particles/particles.py:MultiSpecies._createHistgram", "postpic/particles/particles.py:MultiSpecies.simextent", "postpic/particles/particles.py:MultiSpecies.simgridpoints", "postpic/particles/particles.py:MultiSpecies.createField"]}
{"id": "C65", "title": "The default integral of a field", "statement": "field.integrate() and field.integrate(axes) integrate along the given axes (all axes without an argument) with Simpson's rule: along each line of data the result is the integral of the parabolas through neighbouring points, which is exact for data depending quadratically on the position, on axes with equal or different cells; the other axes stay with the data, the result does not depend on how the axes are numbered, and the integral covers the extent of the axis as the other methods do.", "quantifier": "all fields, all shapes, all axes, all choices of axes", "why_tests_cant": "The rule treats even and odd numbers of points differently and removes axes one by one; tests integrate a few shapes.", "anchors": ["postpic/datahandling.py:Field.integrate", "postpic/datahandling.py:Field._integrate_scipy"]}
{"id": "C66", "title": "The derivative of a field", "statement": "field.derivative(axis) without staggering returns a field on the same axes with the derivative along the axis: second order accurate, thus exact for data depending quadratically on the position, on axes with equal or different cells, at all points; it is linear in the field.", "quantifier": "all fields, all axes, all points", "why_tests_cant": "Interior and border points use different formulas, and cells of different size change the weights.", "anchors": ["postpic/datahandling.py:Field.derivative", "postpic/datahandling.py:Field._derivative"]}
{"id": "C67", "title": "Energy densities and divergence of the fields of a dump", "statement": "For every dump, Ex ... Bz return the data of the dump on the grid of the component with the unit V/m or T; energydensityE, energydensityM and energydensityEM are eps0/2 E^2, B^2/(2 mu0) and their sum at every point, in J/m^3, with all components taken at the same place; divE is the divergence dEx/dx + dEy/dy + dEz/dz in V/m^2, in one, two and three dimensions.", "quantifier": "all dumps, all grids with one to three dimensions, all points", "why_tests_cant": "Values depend on spacings and positions of the grids of the dump; tests only run the functions.", "anchors": ["postpic/_field_calc.py:FieldAnalyzer.Ex", "postpic/_field_calc.py:FieldAnalyzer.energydensityE", "postpic/_field_calc.py:FieldAnalyzer.energydensityM", "postpic/_field_calc.py:FieldAnalyzer.energydensityEM", "postpic/_field_calc.py:FieldAnalyzer.divE"]}
{"id": "C68", "title": "Linear interpolation onto shifted grids and unstaggering of fields", "statement": "shift_grid_by(dx, interpolation='linear') moves the grid of each given axis by dx, keeps everything else about field and axes, and fills every point with the multilinear interpolation of the data at that place (the value at the border outside of the old grid). unstagger_fields and adjust_stagger_to return fields whose grids coincide: on the given origin, that of the first field, or for more than two fields the median of the origins; different shapes, uneven axes and distant grids are refused.", "quantifier": "all fields with up to three dimensions, all shifts, all collections of fields", "why_tests_cant": "Signs, spacings and borders of every dimension matter; staggers depend on the code and the size of the cells.", "anchors": ["postpic/datahandling.py:Field.shift_grid_by", "postpic/datahandling.py:Field._shift_grid_by_linear", "postpic/datahandling.py:Field.adjust_stagger_to", "postpic/helper.py:unstagger_fields"]}
{"id": "C69", "title": "Reconstruction of waves from dumps with half-step means", "statement": "kspace_epoch_like(component, fields, dt, omega_func=..., align_to=...) removes the damping |cos(omega dt/2)| which the mean of the values half a step before and after introduces into the fields with the letter align_to, and then returns the same as kspace: twice the component for the part of a wave running along k, nothing for a wave against k, for the dispersion relation which is passed. The fields of the caller stay as they are.", "quantifier": "all fields with up to three dimensions in either domain, all components, all steps, all dispersion relations", "why_tests_cant": "The response depends on the wave vector and the step; sign and direction errors show only for waves of one direction, and changes of the caller's fields only on a second use.", "anchors": ["postpic/helper.py:kspace_epoch_like", "postpic/helper.py:_linear_interpolation_frequency_response", "postpic/helper.py:_linear_interpolation_frequency_response_on_k"]}
{"id": "C70", "title": "The time profile of a propagating field in a plane", "statement": "time_profile_at_plane(f, axis, value, dir, t_input, algorithm='iterative') returns a field in which the given axis is replaced by time: at each time t the value is that of the field propagated in vacuum from t_input to t, in the plane where the axis has the given value, without the waves running against dir. The times have the distance of the grid divided by the speed of light and start when what is at the exit of the grid at t_input reaches the plane. The other axes stay, in the domain of the input.", "quantifier": "all fields with one to three dimensions in either domain, all axes, all planes, both directions, all start times", "why_tests_cant": "Moving window, phase of the transform and direction all enter the value; tests only compare the two algorithms for a single pulse.", "anchors": ["postpic/helper.py:time_profile_at_plane", "postpic/helper.py:_time_profile_at_plane_iterative", "postpic/helper.py:kspace_propagate"]}
{"id": "C71", "title": "Particle data of a dump are values of single particles in SI units", "statement": "For every dump, the properties weight, x, y, z, px, py, pz, mass, charge and id of a species are those of single particles in SI units: openPMD and Smilei records times unitSI, constant records give one value for all particles, positions include positionOffset, EPOCH data as they are. Ids stay what they are. A property which was not dumped raises a KeyError, but mass and charge are then deduced from the name of the species.", "quantifier": "all dumps of all supported codes, all species, all properties, all numbers of particles", "why_tests_cant": "Units, constant records, offsets and weighting differ between files; tests use a few example dumps.", "anchors": ["postpic/datareader/openPMDh5.py:OpenPMDreader.getSpecies", "postpic/datareader/openPMDh5.py:OpenPMDreader.data", "postpic/datareader/smileih5.py:SmileiReader.getSpecies", "postpic/datareader/epochsdf.py:Sdfreader.getSpecies", "postpic/particles/particles.py:_SingleSpecies._readatomic", "postpic/helper.py:attribidentify"]}
{"id": "C72", "title": "The k-space methods of a dump separate waves by their direction", "statement": "dump.kspace_Ex() ... dump.kspace_Bz() give, for every component and one, two or three dimensions, twice the amplitude of the waves running along their wave vector and 0 for those running against it. With alignment 'epoch' or 'epoch-final' the mean of B or E over two half steps of time is taken into account, with solver='yee' the dispersion relation of that scheme; 'auto' chooses by the code which wrote the dump. Other values of alignment raise ValueError.", "quantifier": "all dumps, all components, all staggered grids, all values of alignment and solver", "why_tests_cant": "The needed components depend on the number of dimensions, the correction on the time step; no test calls these methods.", "anchors": ["postpic/_field_calc.py:FieldAnalyzer._kspace", "postpic/_field_calc.py:FieldAnalyzer.kspace_Ex", "postpic/_field_calc.py:FieldAnalyzer.kspace_Bz", "postpic/helper.py:kspace_epoch_like", "postpic/helper.py:omega_yee_factory"]}
{"id": "C73", "title": "Collections made by any sequence of operations have the right particles and logs", "statement": "However a collection was made from species by adding, compress, filter, selecting ids, inverting (~) and uncompress, with properties read in between: len is the number of selected particles, initial_npart the number of dumped particles, nspecies the number of species, every property has the values of the selected particles in the order of the dump, the logs contain the names of the selections in order, and uncompress gives back all particles. getcompresslog() has the log of every species.", "quantifier": "all histories of operations of any length, all dumps, all conditions", "why_tests_cant": "The state after a sequence of operations depends on caches and masks of several species; tests apply one or two operations to one species.", "anchors": ["postpic/particles/particles.py:MultiSpecies.compress", "postpic/particles/particles.py:MultiSpecies.filter", "postpic/particles/particles.py:MultiSpecies.uncompress", "postpic/particles/particles.py:MultiSpecies.__invert__", "postpic/particles/particles.py:MultiSpecies.getcompresslog", "postpic/particles/particles.py:_SingleSpecies.initial_npart"]}
{"id": "C74", "title": "Selections do not share memory with their arguments", "statement": "compress(array) selects by the values which the array has during the call: later changes of the array by the user do not change the collection, and the call does not change the array.", "quantifier": "all arrays of booleans or ids, all collections, all later writes", "why_tests_cant": "Sharing only shows if the array is used again after the call, which tests do not do.", "anchors": ["postpic/particles/particles.py:_SingleSpecies.compress", "postpic/particles/particles.py:_SingleSpecies._compress_bool", "postpic/particles/particles.py:_SingleSpecies._compress_int", "postpic/particles/particles.py:MultiSpecies.compress"]}
{"id": "C75", "title": "Methods which read one property agree with the scalar of the same name", "statement": "p.X(), p.Px(), p.Ekin_MeV(), ... return the values which p('x'), p('px'), p('Ekin_MeV'), ... return; the warning names the scalar to use instead, and the name and unit used for labels describe it.", "quantifier": "all methods, all particles", "why_tests_cant": "There are 46 methods; tests call a few of them and do not check warnings or units.", "anchors": ["postpic/particles/particles.py:MultiSpecies.X", "postpic/particles/particles.py:MultiSpecies.angle_yz", "postpic/particles/particles.py:MultiSpecies.charge", "postpic/helper.py:deprecated", "postpic/particles/scalarproperties.py:ScalarPropertyContext"]}
{"id": "C76", "title": "Fields exported to csv files can be imported again", "statement": "A field exported to a csv file and imported again has the same values (and the same extent, which is written to the file).", "quantifier": "all fields with one or two dimensions, all numbers", "why_tests_cant": "The format of the file is only fixed by two separate functions; no test imports an exported file.", "anchors": ["postpic/io/csv.py:_export_field_csv", "postpic/io/csv.py:_import_field_csv", "postpic/io/common.py:_header_string"]}
{"id": "C77", "title": "Imported images have the right orientation and count values", "statement": "The value of an imported image at (x, y) is the pixel in column x from the left and row y from below, for every channel; hotpixelremove applies a 3x3 opening to every channel; png files with less significant bits than stored give the original counts.", "quantifier": "all images with one or several channels, all sizes, all bit depths", "why_tests_cant": "Orientation, channels and bit depths combine; tests import one image.", "anchors": ["postpic/io/image.py:_import_field_image", "postpic/io/image.py:_readpng", "postpic/io/image.py:_read_image"]}
{"id": "C78", "title": "Saved figures never replace each other", "statement": "Every figure saved by a plotter gets a file name of its own, lies in the chosen directory, and lastsavename() names the last file.", "quantifier": "all sequences of saved figures, all keys, file extensions, projects and names of readers", "why_tests_cant": "Names are made from counters, user texts and a list of names in use; collisions need particular sequences.", "anchors": ["postpic/plotting/plotter_matplotlib.py:MatplotlibPlotter.savename", "postpic/plotting/plotter_matplotlib.py:MatplotlibPlotter.lastsavename", "postpic/plotting/plotter_matplotlib.py:MatplotlibPlotter.savefig"]}
{"id": "C79", "title": "Figures show the data at the right positions and leave them unchanged", "statement": "A picture shows every cell of a field at its position with the colour of its value, a line connects the points (position, value), lineouts are drawn at the same positions; autoreduce and maxlen limit the number of points; plotting leaves the fields unchanged, and documented keywords are accepted.", "quantifier": "all fields with one or two dimensions, all axes, all scales and limits", "why_tests_cant": "Pictures are judged by eye in the tests; equal cells are drawn in a different way than others.", "anchors": ["postpic/plotting/plotter_matplotlib.py:MatplotlibPlotter.addField2d", "postpic/plotting/plotter_matplotlib.py:MatplotlibPlotter.addField1d", "postpic/plotting/plotter_matplotlib.py:MatplotlibPlotter.plotField"]}
{"id": "C80", "title": "Assignments to parts of a field change exactly the selected samples", "statement": "field[key] = values sets exactly the samples at the positions meant by the indices (numbers, coordinates, slices with any step, ranges of coordinates, KeepDim), with the rules of broadcasting; everything else stays; field[key] gives the values back; values which do not fit are refused.", "quantifier": "all fields, all combinations of indices, all shapes of values", "why_tests_cant": "Indices of several kinds, steps and broadcasting combine; a wrong position is only visible in the samples nobody looks at.", "anchors": ["postpic/datahandling.py:Field.__setitem__", "postpic/datahandling.py:Axis._normalize_slice", "postpic/datahandling.py:KeepDim"]}
{"id": "C81", "title": "A series of files is in the order of time", "statement": "A series given by a pattern has exactly one dump per matching file, whatever order the file system lists them in, and its dumps are in the order of the numbers in the names of the files; times() and timesteps() list the dumps in this order.", "quantifier": "all sets of file names, all listings, all numbers", "why_tests_cant": "The order depends on how names compare as strings; tests use few dumps with numbers of the same width.", "anchors": ["postpic/datareader/openPMDh5.py:FileSeries.__init__", "postpic/datareader/datareader.py:Simulationreader_ifc.times"]}
{"id": "C82", "title": "A .visit file is the series of the files it lists", "statement": "The dumps of a Visitreader are the files listed in the .visit file, in this order, relative to its directory; a missing newline at the end does not matter and nothing else counts as a dump.", "quantifier": "all .visit files", "why_tests_cant": "Line ends, empty lines and directives occur in all combinations.", "anchors": ["postpic/datareader/epochsdf.py:Visitreader.__init__"]}
{"id": "C83", "title": "A dump shows exactly the datasets of its iteration", "statement": "A reader opened with an iteration shows the datasets of this iteration and no others, without an iteration those of the earliest one. The series of a Smilei directory has one dump per iteration found in the files, in the order of time, with the datasets of all files; this holds again after files were added and after an interrupted attempt.", "quantifier": "all contents of files, all iterations, all histories of a directory", "why_tests_cant": "An index file is kept between sessions, its content depends on what happened before, including crashes.", "anchors": ["postpic/datareader/openPMDh5.py:OpenPMDreader.__init__", "postpic/datareader/smileih5.py:SmileiReader.__init__", "postpic/datareader/smileih5.py:SmileiSeries", "postpic/datareader/smileih5.py:_getindexfile"]}
{"id": "C84", "title": "Readers are equal if and only if they represent the same dump", "statement": "a == b says whether two readers represent the same dump, whatever paths they were opened with; it is an equivalence relation. The dump of a collection of species is the common dump of all species, or None. The name of a dump is the one given to it, or else its identifier.", "quantifier": "all readers, all file systems, all collections, all names", "why_tests_cant": "Equality must be right for all pairs and triples of readers and all states of the file system.", "anchors": ["postpic/datareader/datareader.py:Dumpreader_ifc.__eq__", "postpic/datareader/dummy.py:Dummyreader.__eq__", "postpic/particles/particles.py:MultiSpecies.dumpreader", "postpic/datareader/datareader.py:Dumpreader_ifc.name"]}
{"id": "C85", "title": "Every reader returns the field component which was asked for, in SI units", "statement": "Asking a dump for a component of the electric or magnetic field, by any of its names, returns the samples which the simulation code stored for this component (of this or the averaged field), converted to SI units, and for modes the expansion at the angles asked for.", "quantifier": "all dumps of EPOCH, openPMD, fbpic and Smilei, all components and names, all angles", "why_tests_cant": "Readers build keys from tables of names; a wrong table entry or a lost argument gives another field which looks plausible.", "anchors": ["postpic/datareader/datareader.py:Dumpreader_ifc.dataE", "postpic/datareader/openPMDh5.py:FbpicReader.dataB", "postpic/datareader/openPMDh5.py:OpenPMDreader._keyE", "postpic/datareader/smileih5.py:SmileiReader._keyE", "postpic/datareader/epochsdf.py:Sdfreader._keyE"]}
{"id": "C86", "title": "A dump lists its species, derived fields and dimensions completely", "statement": "listSpecies names exactly the species with particle data, getderived exactly the fields besides E and B, each usable as a key, both in order; simdimensions is the number of spatial dimensions of the simulation.", "quantifier": "all dumps of EPOCH, openPMD, fbpic and Smilei, all names of species and fields", "why_tests_cant": "Names are found by regular expressions and prefixes, unexpected names are cut or dropped without notice.", "anchors": ["postpic/datareader/epochsdf.py:Sdfreader.listSpecies", "postpic/datareader/epochsdf.py:Sdfreader.getderived", "postpic/datareader/openPMDh5.py:OpenPMDreader.getderived", "postpic/datareader/openPMDh5.py:OpenPMDreader.simdimensions"]}
{"id": "C87", "title": "An exported VTK file can be read by a reader of the legacy VTK format", "statement": "The file written by export_scalar_vtk, export_scalars_vtk or export_vector_vtk is a file of the legacy VTK format: a reader which follows the description of the format finds the name of the array, the type of the numbers, the numbers of points, and for every point its coordinates and the values of all fields, rounded to the type.", "quantifier": "all fields with two or three dimensions, all names, both types, all values (whatever bytes they have), any file which was there before", "why_tests_cant": "Text and binary numbers are mixed in one file; bytes of numbers may look like line breaks, and names are written as they are.", "anchors": ["postpic/io/vtk.py:export_scalars_vtk", "postpic/io/vtk.py:export_vector_vtk", "postpic/io/vtk.py:VtkData.tofile"]}
{"id": "C88", "title": "A VTK export which fails leaves the files alone", "statement": "If an export to a VTK file raises an exception, the file which had this name before is unchanged, and no incomplete file is left.", "quantifier": "all fields, arguments and contents of an existing file, every point at which an exception can be raised", "why_tests_cant": "The exceptions are raised at different stages, some after the file was opened and partly written.", "anchors": ["postpic/io/vtk.py:_export_arraydata_vtk", "postpic/io/vtk.py:VtkFile", "postpic/io/vtk.py:CellData.tofile"]}
{"id": "C89", "title": "Operators on fields act entry by entry, in the order in which the operands are written", "statement": "For every operator of python, x op y with at least one field is a field whose value at each position is the operator applied to the values of x and y which belong there, in this order, whether the field stands on the left or on the right; comparisons and unary operators likewise, and divmod gives the results of // and %. Name and unit are those of the first field. Operands of other kinds raise a TypeError.", "quantifier": "all operators, all fields, arrays and numbers on both sides, all values", "why_tests_cant": "Three kinds of operands on two sides, twenty-three operators, and operators which python calls with exchanged operands.", "anchors": ["postpic/datahandling.py:Field.__array_ufunc__", "postpic/_compat/mixins.py:NDArrayOperatorsMixin"]}
{"id": "C90", "title": "Operators in place change the values of the field and nothing else", "statement": "f op= y is accepted exactly if y can be broadcast to the shape of f. Afterwards f has the values of f op y, and its name, unit, axes, domains and origins are as before. The result is the same as that of f = f op y. If it is refused, f is unchanged.", "quantifier": "all operators, fields of all dimensions, operands of all kinds", "why_tests_cant": "Depends on pairs of shapes of arbitrary rank and on everything a field carries.", "anchors": ["postpic/datahandling.py:Field.__array_ufunc__", "postpic/_compat/mixins.py:_inplace_binary_method"]}
{"id": "C91", "title": "Methods of numpy's ufuncs give fields with the right axes", "statement": "ufunc.reduce removes exactly the reduced axes, as the methods of fields do, also with keepdims; ufunc.outer gives a field with the axes of the first operand followed by those of the second, where plain arrays get an axis from 0 to 1 for each dimension.", "quantifier": "all fields, all sets of axes, all operands", "why_tests_cant": "Depends on the number of dimensions and all subsets of axes.", "anchors": ["postpic/datahandling.py:Field.__array_ufunc__"]}
{"id": "C92", "title": "numpy functions which do not know fields return a field with the right axes or an array", "statement": "If a function of numpy is applied to a field and the result is a field, then its axes describe the data: they have the right lengths and each value belongs to its position. Otherwise the result is a plain array.", "quantifier": "all functions of numpy which work on arrays, all fields", "why_tests_cant": "Quantifies over all functions from arrays to arrays.", "anchors": ["postpic/datahandling.py:Field.__array_wrap__"]}
{"id": "C93", "title": "Ions of the chemical elements have the mass and charge their name says", "statement": "The symbol of a chemical element (hydrogen to uranium) followed by digits, after any prefixes, names an ion with the charge of the digits and the mass of the element. The species with names of their own (proton, positron, photon, gold10, Palladium2 and so on) have the mass and charge belonging to the name.", "quantifier": "all 92 elements, all charges, all prefixes", "why_tests_cant": "Combines a table of 92 masses with unboundedly many charges and prefixes; a wrong entry of the table changes energies without any error.", "anchors": ["postpic/particles/_routines.py:SpeciesIdentifier.identifyspecies", "postpic/particles/_routines.py:SpeciesIdentifier._masslistelement"]}
{"id": "C94", "title": "Setting the extent of a field", "statement": "Assigning one pair of limits per axis gives every axis cells of equal size between its limits, with name, unit and number of points kept, and does not touch the data; reading the extent returns what was assigned. Assigning the extent a field already has changes nothing. An assignment which is refused (wrong number of values, uneven axis) leaves the field as it was. The spacing is the size of the cells.", "quantifier": "all fields of up to three dimensions, all lists of limits", "why_tests_cant": "Every number of points, every pair of limits (also decreasing ones) and every position of an uneven axis matter; a test checks one field.", "anchors": ["postpic/datahandling.py:Field.extent", "postpic/datahandling.py:Field.spacing", "postpic/datahandling.py:Field.setaxisobj"]}
{"id": "C95", "title": "Parts of complex fields", "statement": "The real and imaginary parts, the angle, the phase and the conjugate of a complex field are fields on the same axes; real and imaginary part make up the field, so do the modulus and the angle (or the phase, unwrapped or not), the angle lies between -pi and pi, and conjugation changes the sign of the imaginary part only.", "quantifier": "all complex fields, all values", "why_tests_cant": "Identities for all complex numbers and all shapes.", "anchors": ["postpic/datahandling.py:Field.real", "postpic/datahandling.py:Field.imag", "postpic/datahandling.py:Field.angle", "postpic/datahandling.py:Field.phase", "postpic/datahandling.py:Field.conj"]}
{"id": "C96", "title": "Evaluating expressions given as text", "statement": "field.evaluate(expression) gives at each grid point the value of the expression with the variables the caller sees (local ones before global ones), keeps the metadata of the field, refuses results of other shapes and unknown names, and leaves the variables of the caller as they are.", "quantifier": "all expressions, all variables of the caller, all places to call from", "why_tests_cant": "The expression is arbitrary, and the effect on the variables depends on the kind of the calling frame.", "anchors": ["postpic/datahandling.py:Field.evaluate"]}
{"id": "C97", "title": "Critical density", "statement": "The critical density for a wavelength is the density at which the plasma frequency equals the frequency of light of this wavelength in vacuum. The constants have the recommended values to one part in a million, and those of vacuum fit together.", "quantifier": "all wavelengths", "why_tests_cant": "An equation for all wavelengths, and about the accuracy of a rounded constant.", "anchors": ["postpic/helper.py:PhysicalConstants"]}
{"id": "C98", "title": "Time profile at a plane from the dispersion relation", "statement": "The default algorithm of time_profile_at_plane gives, for each frequency and transverse wave vector, the amplitude per frequency of the wave which has this frequency and runs in the given direction, with the phase it has at the plane; waves in the opposite direction do not contribute. The axis of the time covers the times at which the parts of the box pass the plane, the time of the input shifts it, and the algorithm is chosen by its name.", "quantifier": "all wave vectors, directions, positions of the plane, times and numbers of dimensions", "why_tests_cant": "The change of variables must be right for all wave vectors including those perpendicular to the axis, and for both directions; tests compare one pulse in one direction by eye.", "anchors": ["postpic/helper.py:time_profile_at_plane", "postpic/helper.py:_time_profile_at_plane_fourier"]}
{"id": "C99", "title": "Adaptive propagation", "statement": "kspace_propagate_adaptive gives the field after steps of half its mean width; each step takes place on a grid with room for everything which can leave the field sideways during the step, and nothing but empty space is added. The times of the results do not decrease; the results end with the first one after the final time and do not end without final time. The initial field is given first if asked for, and fields in the frequency domain give the transforms of what the fields in the spatial domain give. This holds for fields of one to three dimensions.", "quantifier": "all fields, directions, final times and numbers of steps", "why_tests_cant": "The grid changes from step to step, so that all histories of grids occur; whether something wraps around at the border depends on all sizes. There are no tests for this function.", "anchors": ["postpic/experimental.py:kspace_propagate_adaptive", "postpic/experimental.py:_kspace_propagate_adaptive_generator"]}
{"id": "C100", "title": "Data of the dummy reader", "statement": "The same dump number, dimensions, function and seed of the dummy reader always give the same particles, whatever happened before; readers which compare as equal have equal particles. A dump with number n has n particles with exactly one value per attribute: a position for each dimension of the simulation, the momenta computed from the positions of the particles one, two and three places before, weight 1 and the ids 0 to n-1, each once; other attributes raise a KeyError. The fields have the size of the grid and the values of fixed formulas at the grid points. Opening a dump does not change the random numbers the rest of the program gets.", "quantifier": "all dump numbers, dimensions, seeds, functions for random numbers, states of the generator and orders of opening dumps", "why_tests_cant": "The particles are random; tests see the result of one seed in one state of a shared generator.", "anchors": ["postpic/datareader/dummy.py:Dummyreader", "postpic/datareader/dummy.py:Dummysim"]}
{"id": "C101", "title": "Old reconstruction for EPOCH dumps", "statement": "kspace_epoch_like_old reconstructs a component of the field which is not align_to on the grid half a cell further (E) or before (B) along all axes except that of the component: the component is interpolated linearly there, and the result is that of kspace with the fourier method for this field and the other components. A component of the field align_to stays on its grid, and the result is that of kspace with linear interpolation. With an extent, the fields are cut first. The arguments are not changed, so that the same call twice gives the same result.", "quantifier": "all components, dictionaries of fields on evenly spaced grids, extents, dispersion relations and values of align_to", "why_tests_cant": "The values depend on all data and all offsets of the grids; whether a dictionary is changed shows only in later calls.", "anchors": ["postpic/helper.py:kspace_epoch_like_old"]}
{"id": "C102", "title": "Texts in figures", "statement": "A figure made by the plotter shows the time of the dump in femtoseconds rounded to one digit after the point, the step, the name of the dump and the project, each once; the axes show the label and the infostring of the field. There are never two different texts at one place. Without a reader the figure shows only the project.", "quantifier": "all times, steps, names, projects, fields and numbers of fields", "why_tests_cant": "The texts depend on the values of the dump; tests of plots check only that no exception is raised.", "anchors": ["postpic/plotting/plotter_matplotlib.py:annotate", "postpic/plotting/plotter_matplotlib.py:plotField2d", "postpic/plotting/plotter_matplotlib.py:plotFields1d"]}
{"id": "C103", "title": "Propagated fields do not depend on what the caller does meanwhile", "statement": "The results of a propagation over several steps are those determined by the arguments at the time of the call, whatever the caller does with the results it has already got, with the given field and with the given direction, in any order between two results. Computing a result changes no object of the caller. There are never more results than asked for, and arguments which do not fit are reported at once.", "quantifier": "all fields, arguments, numbers of steps and programs which take results and change objects in any order", "why_tests_cant": "The results are computed while the caller works with the previous ones; tests take all results at once.", "anchors": ["postpic/helper.py:_kspace_propagate_generator", "postpic/helper.py:kspace_propagate"]}
{"id": "C104", "title": "Resampling complex fields", "statement": "Resampling a complex field on a new grid samples real and imaginary part (mode cartesian) or modulus and phase (polar modes) at the transformed points; resampling on the grid of the field returns the data in every mode; between neighbouring values which are close to each other the result is close to them; if the integral is to be preserved and no determinant is given, the data are multiplied with the absolute value of the Jacobian determinant of the transform.", "quantifier": "all complex fields, new axes, transforms, modes and interpolations", "why_tests_cant": "Values next to the branch cut of the phase and general linear maps in several dimensions are not sampled by tests.", "anchors": ["postpic/datahandling.py:Field.map_coordinates", "postpic/helper.py:approx_jacobian", "postpic/helper.py:jac_det"]}
{"id": "C105", "title": "The meshes of a field are its coordinates", "statement": "meshgrid returns one array for each dimension which, broadcast to the shape of the field, contains the coordinate of every point along this dimension, for sparse and dense meshes and every supported version of numpy. The replacements for functions of newer versions of numpy (meshgrid, broadcast_to) behave as these.", "quantifier": "all fields of any number of dimensions, all shapes", "why_tests_cant": "Tests run with one version of numpy and few shapes.", "anchors": ["postpic/datahandling.py:Field.meshgrid", "postpic/_compat/functions.py:np_meshgrid", "postpic/_compat/functions.py:np_broadcast_to"]}
{"id": "C106", "title": "Arrays as indices of a field", "statement": "Assigning through a mask or a list of point numbers changes the selected points and no others; masks of another shape and numbers out of range are refused and leave the field as it is; reading through a mask returns the selected values with axes which describe them. Arrays as index mean the same as for numpy arrays.", "quantifier": "all fields, masks, lists of numbers and values", "why_tests_cant": "The meaning of a mask depends on the shapes (a mask of 2 times 2 points is taken for a list of two indices), which tests do not enumerate.", "anchors": ["postpic/datahandling.py:Field.__setitem__", "postpic/datahandling.py:Field.__getitem__", "postpic/datahandling.py:Field._normalize_slices"]}
{"id": "C107", "title": "The version number identifies the source", "statement": "postpic.__version__, which is written to exported files, is the number of the release if exactly a release is used; otherwise it contains the last release, the number of commits since, the commit, and whether files were changed. Different states of the source have different versions, and an archive of a release has the same version as its checkout.", "quantifier": "all tags, numbers of commits, commits and references of a repository, with or without git", "why_tests_cant": "A test runs in a single state of a single repository.", "anchors": ["postpic/_version.py:get_versions", "postpic/_version.py:git_pieces_from_vcs", "postpic/_version.py:git_versions_from_keywords", "postpic/_version.py:render_pep440", "postpic/_version.py:versions_from_parentdir", "postpic/__init__.py:__version__"]}
{"id": "C108", "title": "Collections contain exactly the species asked for", "statement": "MultiSpecies(dump, *names) contains every particle of every species which was asked for by name or by keyword, once for each argument which stands for it, in the order of the arguments and of the dump. A species missing in the dump is a KeyError, or ignored on request; add appends behind the species already there and leaves the collection alone if it fails.", "quantifier": "all dumps, lists of species names, arguments and collections", "why_tests_cant": "Tests use a few dumps with a few well known species.", "anchors": ["postpic/particles/particles.py:MultiSpecies.add", "postpic/particles/particles.py:MultiSpecies.__init__", "postpic/particles/particles.py:_SingleSpecies.__init__", "postpic/particles/particles.py:MultiSpecies.speciess"]}
{"id": "C109", "title": "Staggered fields are moved with the waves they are made of", "statement": "shift_grid_by and unstagger_fields with their default method interpolate with plane waves: every field is, on its grid, a superposition of the waves which the grid resolves, and the moved field has the values of this superposition (for real fields of its real part) at the new grid points. unstagger_fields, adjust_stagger_to and the VTK export bring fields of the same shape and cells to a common origin this way; a superposition which is real everywhere is moved forth and back without a change.", "quantifier": "all numbers of fields, dimensions, grid sizes, staggers and values", "why_tests_cant": "Tests move a few smooth fields and compare with a tolerance.", "anchors": ["postpic/helper.py:unstagger_fields", "postpic/datahandling.py:Field.shift_grid_by", "postpic/datahandling.py:Field.adjust_stagger_to", "postpic/io/vtk.py:_export_arraydata_vtk"]}
{"id": "C110", "title": "Resampling follows the spline through the data", "statement": "A sample of map_coordinates_parallel with order 0 to 5 (3 by default) is the value of the one spline of this degree, mirrored at the borders, which passes through all data; outside of the array it is cval. At the points of the array the data are returned, samples are linear in the data, constants stay constant, and samples stay within the range of the data. A field, real or complex, resampled on its own grid is unchanged. The result does not depend on how the threads are scheduled nor on the type of the numbers.", "quantifier": "all shapes, numbers of dimensions, orders, data, coordinates and schedules", "why_tests_cant": "Tests compare a few smooth fields with a tolerance.", "anchors": ["postpic/helper.py:map_coordinates_parallel", "postpic/datahandling.py:Field.map_coordinates"]}
{"id": "C111", "title": "Histograms are linear in the weights", "statement": "The histogram of all particles with the sum of two sets of weights is the sum of the two histograms, bin by bin; weights multiplied by a number give the histogram multiplied by this number; without weights each particle counts one. This holds in one, two and three dimensions and for all particle shapes.", "quantifier": "all particle data, weights, ranges, numbers of bins and particle shapes", "why_tests_cant": "Tests compare single histograms with numpy for one set of weights.", "anchors": ["postpic/particles/_particlestogrid.pyx:histogram", "postpic/particles/_particlestogrid.pyx:histogram2d", "postpic/particles/_particlestogrid.pyx:histogram3d"]}
{"id": "C112", "title": "Histograms do not depend on the units of the quantities", "statement": "If the data and the given range of a quantity are expressed in another unit (multiplied by a positive factor, with another origin), the contents of all bins stay the same and the edges are the old ones expressed in the new unit. Ends of the range which are not given follow the data.", "quantifier": "all particle data, factors, origins, weights, ranges given completely, in part or not at all, numbers of bins, particle shapes, one to three dimensions", "why_tests_cant": "Tests use one scale of the data.", "anchors": ["postpic/particles/_routines.py:histogramdd", "postpic/particles/_particlestogrid.pyx:histogram", "postpic/particles/_particlestogrid.pyx:histogram2d", "postpic/particles/_particlestogrid.pyx:histogram3d"]}
{"id": "C113", "title": "Coarser histograms are merged finer ones", "statement": "With particle shape 0 a histogram with n bins along each quantity is the histogram with k times as many bins, with each k neighbouring bins added up, and its edges are every k-th edge.", "quantifier": "all particle data, weights, ranges, numbers of bins and factors, one to three dimensions", "why_tests_cant": "Tests look at few numbers of bins and not at the relation between them.", "anchors": ["postpic/particles/_particlestogrid.pyx:histogram", "postpic/particles/_particlestogrid.pyx:histogram2d", "postpic/particles/_particlestogrid.pyx:histogram3d"]}
{"id": "C114", "title": "Selecting and rearranging commute with arithmetic", "statement": "Indexing (integers, slices, coordinates, ranges of coordinates), squeeze, atleast_nd, transpose, swapaxes, flip and rot90, in any sequence, do not look at the values: done after an operation on two fields with the same axes (or on a field and a number, or after a function applied to all samples) they give the same field as the operation on the rearranged fields, with the same axes, names, units and transform states; if one of both raises an exception, so does the other, and it is the same one.", "quantifier": "all fields up to three dimensions, all binary operations, all sequences of these methods and all arguments", "why_tests_cant": "Tests call the methods one at a time with single arguments.", "anchors": ["postpic/datahandling.py:Field.__getitem__", "postpic/datahandling.py:Field.squeeze", "postpic/datahandling.py:Field.atleast_nd", "postpic/datahandling.py:Field.transpose", "postpic/datahandling.py:Field.swapaxes", "postpic/datahandling.py:Field.flip", "postpic/datahandling.py:Field.rot90", "postpic/datahandling.py:Field.__array_ufunc__"]}
{"id": "C115", "title": "Linear methods of fields are linear", "statement": "Sums, means, integrals (constant, fast, Simpson, trapezoid), derivatives, half_resolution and autoreduce, and indexing and rearranging, in any sequence, padding with zeros, the Fourier transform (any axes, both conventions of the signs), ensure_transform_state and shift_grid_by, and map_coordinates and topolar of real data (values outside being 0) and map_axis_grid give a F + b G for a f + b g, if they give F for f and G for g, on the same axes. Whether an exception is raised, and which one, does not depend on the values of the field.", "quantifier": "all fields on the same axes, all factors (complex ones for complex values), all arguments, all sequences of methods", "why_tests_cant": "Tests compare with numbers computed once for single fields.", "anchors": ["postpic/datahandling.py:Field.sum", "postpic/datahandling.py:Field.mean", "postpic/datahandling.py:Field.integrate", "postpic/datahandling.py:Field.derivative", "postpic/datahandling.py:Field.half_resolution", "postpic/datahandling.py:Field.autoreduce", "postpic/datahandling.py:Field.pad", "postpic/datahandling.py:Field.fft", "postpic/datahandling.py:Field.ensure_transform_state", "postpic/datahandling.py:Field.shift_grid_by", "postpic/datahandling.py:Field.map_coordinates", "postpic/datahandling.py:Field.topolar", "postpic/datahandling.py:Field.map_axis_grid", "postpic/helper.py:map_coordinates_parallel"]}
{"id": "C116", "title": "Relations between the Fourier transforms of a field", "statement": "The order in which the axes are given, and repetitions, do not matter, and without axes all are transformed; the transform with exponential_signs='temporal' is the complex conjugate of the one of the complex conjugated field with 'spatial' (other names raise a ValueError); transforming some axes and then others gives the same field as transforming all of them in one call; the transform of real values at -k is the complex conjugate of the one at k; the value at k = 0 is the integral over the transformed axes divided by the square root of 2 pi for each of them.", "quantifier": "order, repetitions, default and conventions: all fields and arguments; the other laws: all fields (values, number of points, positions of the grid), all sets of evenly spaced increasing axes among the first three dimensions, both directions", "why_tests_cant": "Tests transform single fields along one or all axes.", "anchors": ["postpic/datahandling.py:Field.fft", "postpic/datahandling.py:Field._conjugate_grid", "postpic/helper.py:_linear_phase"]}
{"id": "C117", "title": "Operations along different axes of a field commute", "statement": "Integrating over one axis and then over others gives the same field as integrating over all of them in one call, for the default (Simpson) and the trapezoidal rule and whatever the order of the axes; so does reducing one axis and then others with sum, mean, maximum or any other method which collects values; the derivatives along two axes may be taken in either order; the integral along one axis of the derivative along another one is the derivative of the integral. In all cases the values, axes, names, units and states of the axes agree.", "quantifier": "all fields (values, number of points, equal or different cells, rising or falling axes), all different axes; the single axis may be counted from the end, lists have numbers which are not negative; reductions of fields with up to four dimensions", "why_tests_cant": "Tests integrate or derive single fields along one axis or all axes at once.", "anchors": ["postpic/datahandling.py:Field.integrate", "postpic/datahandling.py:Field._integrate_scipy", "postpic/datahandling.py:Field.derivative", "postpic/datahandling.py:_reducing_numpy_method"]}
{"id": "C118", "title": "Particle deposition copes with rounding, infinities and NaN", "statement": "Depositing particles onto a grid with floating point numbers never accesses memory outside of the arrays, whatever doubles (also infinite ones and NaN) the positions, weights and limits are and however intermediate results are rounded: a range without length raises a ZeroDivisionError, every other call returns an array with the requested numbers of bins. Particles whose position is infinite or NaN do not count. The numbers of an order 0 histogram without weights are exact: every bin contains the number of particles whose computed position is inside. If nothing has to be rounded the result is the one of exact arithmetic.", "quantifier": "all lists of doubles, ranges, shapes (order 0 to 3) and numbers of bins up to 2**31 in one, two and three dimensions; every function which rounds (for some parts: every one which is monotonic and keeps half numbers up to 2**31), with or without overflow", "why_tests_cant": "Tests use a few finite positions and cannot try all roundings; an access outside of the arrays is not checked at run time and may go unnoticed.", "anchors": ["postpic/particles/_particlestogrid.pyx:histogram", "postpic/particles/_particlestogrid.pyx:histogram2d", "postpic/particles/_particlestogrid.pyx:histogram3d"]}
{"id": "C119", "title": "Rounding errors of histograms stay small", "statement": "With floating point numbers the sum over all bins of a histogram in one, two or three dimensions equals the sum of the weights up to a relative error which grows only linearly with the number of bins and the number of particles, if all particles are at least two cells inside of the range. Every bin of a one-dimensional order 0 histogram contains the sum of the weights of the particles whose computed position is inside up to a relative error proportional to the number of particles. The errors are relative to the sum of the absolute values of the weights.", "quantifier": "all lists of particles and weights, ranges, shapes (order 0 to 3) and numbers of bins; every function which rounds a result of a single operation with a relative error u, u * (bins + 2) <= 1/4096; no overflow or underflow", "why_tests_cant": "A test can compare a few sums with a tolerance; how errors accumulate over millions of particles and for unlucky roundings is only settled by a bound for all of them.", "anchors": ["postpic/particles/_particlestogrid.pyx:histogram"]}
{"id": "C120", "title": "The short forms of pad widths mean what they mean for numpy", "statement": "pad accepts its widths in all forms of np.pad, to which its documentation refers: a number, one pair (before, after) for all dimensions or one for each, each number being a number of cells or a length; the result is that of the widths written out for each dimension. The object passed as pad_width is not changed.", "quantifier": "all fields with at least one axis, all numbers, lists and tuples of widths, arrays of integers", "why_tests_cant": "Tests use one or two forms with a literal which is not used again, so that neither a changed argument nor a form with another meaning shows up.", "anchors": ["postpic/datahandling.py:Field.pad"]}
{"id": "C121", "title": "A reduction writes its result to the argument out and returns it", "statement": "All reductions of a field (sum, mean, max, ...) with an argument out, a field, an array or a tuple with one of these as for the methods of numpy, write the values which the same call without out returns to it and return it; an argument of another shape is refused and not changed.", "quantifier": "all fields and reductions, all axes, with and without keepdims, all fields, arrays and tuples as out", "why_tests_cant": "Tests do not pass out at all; one which passes a field or a single number different from zero would not notice the other cases.", "anchors": ["postpic/datahandling.py:_reducing_numpy_method"]}
{"id": "C122", "title": "Coordinates are looked up correctly despite rounding", "statement": "Axis.value_to_index and the search of the nearest grid point are computed with rounding. Whatever the rounding, the grid point found has the smallest computed distance and a grid point itself is found at its own index; with relative error u of each operation the true distance of the point found is at most (1+u)/(1-u) times that of any other point, and the fractional index of a value differs from the exact one by at most u*(8*|index+1/2|+1), so that rounding the index of a grid point gives back its number.", "quantifier": "all valid axes in both directions, all values, all monotone roundings (first two statements), all roundings with relative error u (the others)", "why_tests_cant": "the rounding of every value on every grid cannot be enumerated", "anchors": ["postpic/datahandling.py:Axis._find_nearest_index", "postpic/datahandling.py:Axis._value_to_index_linear"]}
{"id": "C123", "title": "Axes made from extent and number of points are valid despite rounding", "statement": "Axis(extent=(a, b), n=n), computed with rounding, has exactly the extent (a, b) and n points; its nodes ascend or descend strictly, every point lies strictly between its two nodes, nodes and points differ from the equidistant ones by a small multiple of the relative error times the size of the coordinates, and the computed index of the i-th point rounds to i.", "quantifier": "all extents, numbers of points and roundings with relative error u", "why_tests_cant": "rounding errors depend on every digit of the extent; collisions of neighbouring nodes occur only for rare combinations of offset and cell size", "anchors": ["postpic/datahandling.py:Axis.__init__", "postpic/datahandling.py:Axis._value_to_index_linear"]}
{"id": "C124", "title": "Particle scalars lose no digits, also for slow particles", "statement": "Reading a predefined scalar of a particle (momenta, velocities, Lorentz factors, kinetic energies in all units, positions, distances, angles) gives the exact value of the formula up to a relative error of 80 roundings. There is no cancellation: the kinetic energy of a particle which moves is not 0, and never negative, however slow the particle is. (A text like gamma - 1 has no such bound.)", "quantifier": "all roundings of given relative accuracy without overflow and underflow, all particles with positive mass, all predefined scalars", "why_tests_cant": "a test compares a few particles; whether the digits survive depends on the ratio of momentum and mass, which ranges over many orders of magnitude", "anchors": ["postpic/particles/scalarproperties.py:_defaultscalars", "postpic/particles/particles.py:_eval_single_sp"]}
{"id": "C125", "title": "Mean, variance and quantiles are accurate despite rounding", "statement": "With floating point numbers, whatever the order in which the entries are added, the weighted mean differs from the exact one by at most a number of roundings (twice the depth of the additions plus two) of the mean absolute value. The variance is never negative, so that the standard deviation is a number, and its error does not grow with the distance of the mean from zero except by the square of the error of the mean. A quantile is a value of the data for every q from 0 to 1, no index is out of range, and the weights below and up to it match q up to two roundings per entry.", "quantifier": "all roundings of given relative accuracy without overflow and underflow (quantiles: which keep the order and are idempotent), all data, all non-negative weights with a positive sum, all orders of additions", "why_tests_cant": "numpy's order of additions depends on the length of the array and the processor; the worst case of rounding is not met by a few samples", "anchors": ["postpic/particles/particles.py:mean", "postpic/particles/particles.py:var", "postpic/particles/particles.py:quantile", "postpic/particles/particles.py:median"]}
{"id": "C126", "title": "Sums and integrals of fields are accurate despite rounding", "statement": "With floating point numbers, whatever the order in which the entries are added, integrating a field over some of its dimensions with the method fast or constant gives a field with the same shape and axes as the exact integral, and each value differs from the exact one by at most a number of roundings (the depth of the additions plus two, per dimension) of the integral of the absolute values. Both methods agree up to rounding. The same holds for sums. Data which is nowhere negative is integrated with a small relative error.", "quantifier": "all roundings of given relative accuracy without overflow and underflow, all fields in order (constant method: up to three dimensions), all lists of dimensions given by non-negative numbers, all orders of additions", "why_tests_cant": "the order of additions differs between numpy and numexpr, and depends on shape and memory layout; tests compare the methods for a few fields with a tolerance", "anchors": ["postpic/datahandling.py:Field._integrate_constant", "postpic/datahandling.py:Field._integrate_fast", "postpic/datahandling.py:Field.sum"]}
{"id": "C127", "title": "Derivatives of fields are accurate despite rounding", "statement": "With floating point numbers the derivative of a field along an axis has the shape, axes and metadata of the exact one. At the first and the last point its relative error is a few roundings; at the other points the error is at most 18 roundings of (|y0|+|y1|)/|x1-x0| + (|y1|+|y2|)/|x2-x1| for the values y and coordinates x of the point and its neighbours, no matter whether numpy takes the axis as evenly spaced or not. The staggered derivative has a small relative error everywhere, hence the right sign.", "quantifier": "all roundings of given relative accuracy without overflow and underflow, all fields in order with at least two points along the axis, all axes, rising and falling", "why_tests_cant": "whether np.gradient takes the branch for even or uneven distances depends on the last bits of the coordinates; tests use a few smooth functions and a tolerance", "anchors": ["postpic/datahandling.py:Field._derivative", "postpic/datahandling.py:Field._derivative_stagger", "postpic/datahandling.py:Field.derivative"]}
{"id": "C128", "title": "Histograms of particles which are all at the same position count them", "statement": "If the minimum and the maximum of the range are the same number, the range is widened by the distance to the next double on both sides, and all particles at this position are counted in the bin in the middle. In two and three dimensions the same holds along each such axis: the histogram is that of the other coordinates, in the row or plane in the middle.", "quantifier": "all doubles as position, all numbers of particles and bins up to 2**31", "why_tests_cant": "np.spacing has the sign of its argument and is subnormal at zero: the widening works for ordinary positive numbers only, and whether the following divisions and products are exact depends on the exponent.", "anchors": ["postpic/particles/_particlestogrid.pyx:histogram", "postpic/particles/_routines.py:histogramdd"]}
{"id": "C129", "title": "Rounding moves particles only across the edge next to them", "statement": "The number in a bin of a histogram of order 0 is at least the number of particles inside of the bin and not closer to its ends than the rounding error, and at most the number of particles inside of the bin or that close to its ends. The same holds for the whole histogram: only particles next to the ends of the range can get lost.", "quantifier": "all positions, ranges, numbers of bins and particles, one to three dimensions, all modes of rounding with a bounded relative error", "why_tests_cant": "The computed position depends on five roundings; whether a particle at an edge is counted on the left, on the right or not at all changes with the number of bins.", "anchors": ["postpic/particles/_particlestogrid.pyx:histogram", "postpic/particles/_particlestogrid.pyx:histogram2d", "postpic/particles/_particlestogrid.pyx:histogram3d"]}
{"id": "C130", "title": "Sums and means of fields are accurate with IEEE doubles", "statement": "For every field of IEEE doubles with up to three dimensions and every choice of dimensions: each value of field.sum(axis) is a double and differs from the exact sum by at most d*2**-52 times the sum of the absolute values, where d is the largest number of additions a value takes part in, whatever the order in which numpy adds. No value is too small: additions of doubles do not underflow. The same holds for field.mean(axis) with d+1, up to 2**-1075. The only exception is overflow: the absolute values must add up to less than 2**1022.", "quantifier": "every field of doubles, including subnormal ones, of up to three dimensions; every list of dimensions; every order of the additions", "why_tests_cant": "the order of the additions depends on the memory layout and on the version of numpy; tests use a few arrays of moderate numbers and a tolerance", "anchors": ["postpic/datahandling.py:Field.sum", "postpic/datahandling.py:Field.mean", "postpic/datahandling.py:_reducing_numpy_method"]}
{"id": "C131", "title": "Weighted histograms are accurate with IEEE doubles", "statement": "For every list of particles with positions and weights which are IEEE doubles, in one, two or three dimensions: each bin of the histogram of order 0 contains the sum of the weights of the particles whose computed position is in the bin, up to an error of n*2**-52 times the sum of the absolute values of these weights for n particles, if all absolute values add up to less than 2**1022. All bins together contain the weights of the particles inside of the range, up to the same relative error. Positions may be infinite or NaN. A weight which is infinite or NaN affects only the bin of its particle.", "quantifier": "every list of up to 2**52 particles, every range, up to 2**31 bins", "why_tests_cant": "the error depends on the order of the particles and grows with their number; tests have few particles with similar weights", "anchors": ["postpic/particles/_particlestogrid.pyx:histogram", "postpic/particles/_particlestogrid.pyx:histogram2d", "postpic/particles/_particlestogrid.pyx:histogram3d"]}
{"id": "C132", "title": "With IEEE doubles, rounding moves particles only across the edge next to them", "statement": "Histograms with nearest grid point deposition of positions which are doubles, over ranges with a length between 2^-500 and 2^500, in one, two and three dimensions: every bin contains at least the particles which are inside of the bin, more than five relative rounding errors of 2^-53 away from its ends and at least 2^-1021 bins above the lower end of the range, and at most the particles inside of the bin or that close to its ends. Also in one dimension for all bins together: no particle far outside is counted, even if the subtraction overflows. The lower bound 2^-1021 is needed: closer particles may be rounded to the end of the range and lost.", "quantifier": "every list of doubles, every range of doubles of that length (also in decreasing order, also widened by the code), every number of bins up to 2^31", "why_tests_cant": "overflow and underflow of intermediate results happen only for extreme positions, which no test contains", "anchors": ["postpic/particles/_particlestogrid.pyx:histogram", "postpic/particles/_particlestogrid.pyx:histogram2d", "postpic/particles/_particlestogrid.pyx:histogram3d"]}
{"id": "C133", "title": "Readers can be created and extended", "statement": "Every reader for dumps and for series of dumps can be created with its own keywords and with a name, and runs the initialisation of each base class which needs it once. Classes of users which extend a reader (with further methods and keywords, passing all others on) can be created too. Classes derived from the interfaces can be created if and only if they have all required methods. Violated: extending the readers for EPOCH or the dummy readers, even by an empty class, ends in a RecursionError; the readers for VSim can never be created because they lack required methods; the reader for Smilei refuses a name.", "quantifier": "every number and kind of extending classes, every list of keywords, every recursion limit", "why_tests_cant": "tests create only the classes which exist, not the ones users derive from them", "anchors": ["postpic/datareader/datareader.py:Dumpreader_ifc", "postpic/datareader/datareader.py:Simulationreader_ifc", "postpic/datareader/epochsdf.py:Sdfreader.__init__", "postpic/datareader/dummy.py:Dummyreader.__init__", "postpic/datareader/vsimhdf5.py:Hdf5reader", "postpic/datareader/smileih5.py:SmileiReader.__init__"]}
{"id": "C134", "title": "With IEEE doubles, coordinates are looked up correctly", "statement": "With the doubles of IEEE 754 (subnormal numbers, overflow, ties to even), looking up a coordinate on an axis finds a grid point which is at most by a factor (1+u)/(1-u), u = 2**-53, farther away than every other one, and the nearest one if all others are farther by more than this factor. The fractional index differs from the exact one by at most u*(8*abs(i+0.5)+2).", "quantifier": "all valid axes in either direction and all coordinates which are doubles below 2**1022 in magnitude; for the fractional index up to 2**53 points, coordinates up to 2**900 lengths of the axis away", "why_tests_cant": "Differences can underflow, quotients can under- and overflow; tests use a few axes with ordinary numbers.", "anchors": ["postpic/datahandling.py:Axis._find_nearest_index", "postpic/datahandling.py:Axis._value_to_index_linear", "postpic/datahandling.py:Axis.value_to_index"]}
{"id": "C135", "title": "Integrals along one dimension are accurate with IEEE doubles", "statement": "Integrating a field along one of its dimensions with the method fast or constant, computed with IEEE doubles: whatever the order in which the entries are added, the result has the shape, axes and metadata of the exact integral. If the nodes of the axis are doubles, its cells are smaller than 2^1023 and the integral of the absolute values is less than 2^1020, each value is a double which differs from the exact integral by at most (d+3)/2^52 of the integral of the absolute values plus n/2^1074, for n cells and at most d additions per entry. With the same order of the additions both methods give the same doubles.", "quantifier": "all fields with at most 2^53 points along the dimension, all positions, all orders of the additions; three dimensions for the method constant", "why_tests_cant": "Underflow and overflow occur only for extreme values; all orders of the additions cannot be tried.", "anchors": ["postpic/datahandling.py:Field._integrate_fast", "postpic/datahandling.py:Field._integrate_constant", "postpic/datahandling.py:Field.integrate"]}
{"id": "C136", "title": "Derivatives of IEEE doubles are accurate", "statement": "For a field of doubles whose samples are 0 or between 2^-300 and 2^300 and whose neighbouring points have distances between 2^-200 and 2^200, derivative computed with IEEE doubles (53 bits, subnormal numbers, overflow) gives finite doubles only. At the border the relative error is at most six roundings; inside the error is at most 18 roundings of the sum of the absolute values of the samples over the distances. The staggered derivative needs no lower limits: every value that does not overflow is a double, has a relative error of at most six roundings plus half of the smallest double, never has the wrong sign, and is 0 for equal samples.", "quantifier": "all fields of doubles of any number of dimensions with any axes within the limits, both for equal and for different distances", "why_tests_cant": "Underflow and overflow occur only for special combinations of samples and distances", "anchors": ["postpic/datahandling.py:Field.derivative", "postpic/datahandling.py:Field._derivative_stagger"]}
{"id": "C137", "title": "Mean, variance and quantiles of IEEE doubles are accurate", "statement": "With IEEE doubles (53 bits, subnormal numbers, overflow), whatever the order in which the entries are added: the weighted mean of up to 2^64 doubles, 0 or between 2^-300 and 2^300, with weights in the same range, is a double with the error of C125. The variance of doubles that are 0 or between 2^-130 and 2^130, with weights 0 or between 2^-50 and 2^50, is a double, not negative, with the error of C125. A quantile of up to 2^51 doubles is a value of the data, and the weights below and up to it match q up to two roundings per entry.", "quantifier": "all lists of doubles within the limits, all non-negative weights with a positive sum, all orders of additions, all q from 0 to 1", "why_tests_cant": "Underflow of products of deviations and weights occurs only for special combinations", "anchors": ["postpic/particles/particles.py:MultiSpecies.mean", "postpic/particles/particles.py:MultiSpecies.var", "postpic/particles/particles.py:MultiSpecies.quantile"]}
{"id": "C138", "title": "Reducing the resolution never leaves the range of the samples with IEEE doubles", "statement": "half_resolution and autoreduce computed with IEEE 754 doubles: the axes of the result are valid, keep every second node, and every new grid point is a double between the two it replaces; every new value is a double between the two samples it replaces and as close to their mean as one rounding (plus half of the smallest double), provided the samples and grid points are less than 2^1022. So rounding never creates a value above or below all samples, equal samples stay exactly equal, and autoreduce ends with no axis longer than requested. Larger samples can give infinity although their mean is a double.", "quantifier": "all fields of doubles of any shape with valid axes, all axes, all lengths of at least 1, any number of halvings", "why_tests_cant": "Rounding errors depend on every bit of the samples and pile up over repeated halvings; tests compare a few fields with a tolerance.", "anchors": ["postpic/datahandling.py:Field.half_resolution", "postpic/datahandling.py:Field.autoreduce", "postpic/datahandling.py:Axis.half_resolution"]}
{"id": "C139", "title": "Integrals along several dimensions are accurate with IEEE doubles", "statement": "Integrating along any set of dimensions with IEEE 754 doubles, by either method and with any order of additions: if the samples and the sizes of the cells are 0 or not extremely small or large (powers of two given in the statement), no operation underflows or overflows, and the result differs from the exact integral by at most a number of roundings (which grows with the number of dimensions and with the depth of the additions) of the integral of the absolute values. Outside these limits the result can be 0 or infinite, depending on the order of the axes.", "quantifier": "all fields of doubles, all sets of dimensions, all orders of additions, all axes whose cell sizes are within the limits", "why_tests_cant": "The error depends on every bit of all samples and on the order of additions chosen by numpy or numexpr; tests compare a few fields with a tolerance.", "anchors": ["postpic/datahandling.py:Field.integrate", "postpic/datahandling.py:Field._integrate_fast", "postpic/datahandling.py:Field._integrate_constant"]}
{"id": "C140", "title": "Default arguments of Fourier transforms never get in the way", "statement": "All transforms of the Fourier helper pass the caller's arguments to the library; the library's planner and thread defaults are added where the caller gave no value and only there, the caller's value always wins, and no earlier call changes what a later one gets. Every call which the library accepts is accepted by the helper. Without pyFFTW the helper is the same as numpy.fft.", "quantifier": "all sequences of calls of all functions, all positional and keyword arguments, all default arguments, libraries with any signatures", "why_tests_cant": "The result of a transform does not show which planner or how many threads were used, and pyFFTW is often not installed where the tests run; a default changed by a call shows only in later calls.", "anchors": ["postpic/helper_fft.py:_fft"]}
{"id": "C141", "title": "Axes made from extent and number of points are valid with IEEE doubles", "statement": "Axis(extent=(a, b), n=n), computed with IEEE 754 doubles, has n grid points and exactly the extent which was given; nodes and grid points ascend or descend strictly, every grid point lies between its nodes, nodes and grid points differ from the equidistant ones only by a few roundings of the ends, and the index computed from the position of the i-th grid point is i.", "quantifier": "all doubles as ends of the extent, all numbers of points", "why_tests_cant": "The nodes depend on every bit of the ends and on the number of points; steps which are not powers of two are rounded, and the error grows with the index.", "anchors": ["postpic/datahandling.py:Axis.__init__", "postpic/datahandling.py:Axis.value_to_index"]}
{"id": "C142", "title": "Even axes are recognized with IEEE doubles", "statement": "An axis made from extent and number of points, and every piece of consecutive cells cut out of it, counts as evenly spaced (islinear), although its nodes are rounded to IEEE 754 doubles; so spacing, Fourier transforms and fast integration remain available. Conversely an axis counts as evenly spaced only if its nodes are evenly spaced up to a small fraction of the spacing.", "quantifier": "all doubles as ends of the extent, all numbers of points, all pieces", "why_tests_cant": "Whether rounded nodes are close enough to the straight line between the ends of a piece depends on every bit of the ends; the tolerance is absolute near 0, so that it fails only for some pieces of axes with large coordinates.", "anchors": ["postpic/datahandling.py:Axis.islinear", "postpic/helper.py:islinear", "postpic/datahandling.py:Axis.__getitem__"]}
{"id": "C143", "title": "The spacing of an axis is right with IEEE doubles", "statement": "An axis made from extent and number of points reports a spacing which times the number of points is the length of the extent, up to an error which is small compared to the spacing, although nodes and their difference are rounded to IEEE 754 doubles.", "quantifier": "all doubles as ends of the extent, all numbers of points", "why_tests_cant": "The spacing is the difference of the first two rounded nodes, so its relative error depends on how far from 0 the axis is compared to the size of a cell; tests use axes near 0.", "anchors": ["postpic/datahandling.py:Axis.spacing", "postpic/datahandling.py:Axis.islinear", "postpic/helper.py:islinear"]}
