# Formal model of skuschel/postpic in Lean 4

## How the model is built

* The code in `/repo` is python (plus one Cython file). It is read as text, never run.
* The model is *shallow*: each python function becomes one small total Lean function that
  mirrors it branch by branch. Exceptions are values (`Except Err α`). Each definition
  cites the file and lines it models and names its simplifications.
* Layout under `lean/Verif/`:
  * `Py/…`      python and numpy primitives (slices, negative indices, searchsorted, C casts);
  * `Model/…`   the model of the code;
  * `Spec/…`    small independent specifications, written without the model;
  * `Lemmas/…`  helper lemmas;
  * `Props/…`   the property theorems, each with a non-vacuity `example` beside it.
* Where the code violates the property, a theorem `…_violated` (a concrete witness, checked by
  the kernel) stands beside a `…_partial` theorem that proves the part which does hold.

### Numbers
Floating point numbers are modelled as elements of an arbitrary linearly ordered field `K`
(with a floor function where the code casts to integers), or as `ℝ`/`ℂ` where `sqrt`, `cos`,
`exp` occur. Witness theorems use `ℚ`. Rounding, overflow, NaN and infinities are only modelled for the
particle deposition (`HistogramFloat`, C118 and C119). Integers are unbounded.

### Arrays
One dimensional arrays are `List`s or functions on `Fin n`. N-dimensional arrays are a shape
(`List ℕ`) and a total function from multi-indices; equality is required only on valid indices.

### Mutable state
Where the property is about aliasing (in-place sort of an id array, shared metadata lists), an
explicit heap (address → value) is modelled. Where it is about thread schedules, the write
operations are a list and the theorem quantifies over all permutations of it.

## Trusted base

* Lean's kernel (4.33.0) and the axioms `propext`, `Classical.choice`, `Quot.sound`
  (no others; no `sorry`, no `native_decide`, no `bv_decide`, no own axioms).
* Mathlib definitions used in statements (ordered fields, `ℝ`, `ℂ`, finite sums, permutations).
* The faithfulness of the reading of `/repo`: nothing ties the Lean text to the python text but
  the citations.
* numpy/scipy primitives are modelled by their documentation (`np.searchsorted`, `np.linspace`,
  slicing, broadcasting, `np.fft.fft`, `np.histogram`).

## Plan per property

| id | model | proof idea |
|----|-------|-----------|
| C01 | `histogram`, `histogram2d`, `histogram3d` loops as folds of guarded cell updates over a ghost padded array | weights of each shape sum to 1 (`ring`); interior particles deposit inside the returned window; induction over the particle list |
| C02 | same; each update is a `(index, value)` write | bounds of the C cast `trunc` under the guard of each branch; induction over particles |
| C03 | same | the fold is a sum over particles; permutation invariance of sums |
| C04 | shape 0 branch against a numpy histogram specification | equal when no particle sits exactly on the range limits (`_partial`); witness for the limits |
| C05 | same loops | non-negativity of the polynomials on `[0,1)`; witness for a particle just below the range |
| C06 | same loops | factorisation of the 2D/3D weights into products; sums of the 1D weights; comparison of the tests which select particles |
| C07 | `histogram2d` | symmetric in the range and far outside (`_partial`); witness just outside |
| C08 | `_SingleSpecies` as a state machine (mask, cache) with operations | refinement: abstraction = list of selected original indices; invariant "each cached array is the selection of the dump array"; induction over histories |
| C09 | `_compress_int`: sort, searchsorted, patch, compare | binary search specification on sorted lists |
| C10 | heap model of the id array | witness; partial theorem for sorted ids or copied arrays |
| C11 | `MultiSpecies` as a list of species | list lemmas; `+=` on itself does not terminate: modelled with fuel |
| C12 | `MultiSpecies.compress` offset loop | induction over species; witness for overlong conditions |
| C13 | `quantile`: argsort, cumsum, searchsorted | properties of partial sums of a sorted list |
| C14 | `mean`, `var` as weighted sums | finite sum inequalities |
| C15 | default scalar formulae over ℝ | real algebra |
| C16 | registry as a state machine | induction over histories |
| C17 | dependency table of the default scalars | rank function over the finite table, checked by the kernel |
| C18 | `Axis.__init__` | invariant of each construction branch; witness for the faulty guard |
| C19 | `_find_nearest_index`, `value_to_index` | binary search specification, ordered field algebra |
| C20 | `_extent_to_slice`, `_normalize_slice` | binary search specification; witnesses |
| C21 | `Axis.__getitem__` with python slices | list lemmas about slices; witnesses for negative starts |
| C22 | `Field` with shape, axes, states, origins; about twenty operations | invariant, induction over operation lists |
| C23 | the `zip_longest` loop | induction over reversed shapes |
| C24 | `transpose` | permutation lemmas; witness for states/origins |
| C25 | `flip`, `rot90` | index functions |
| C26 | `_integrate_constant`, `_integrate_fast` | finite sums, Fubini |
| C27 | `pad` | index arithmetic; witness for reversed axes |
| C28 | `half_resolution`, `autoreduce` | pairing of sums; strong induction on length; blocks of joined cells by induction over the rounds, each of which keeps the integral |
| C29 | `fft` over ℂ, with grids, phases, names, units | orthogonality of roots of unity; witnesses for names |
| C30 | same | rewriting of phases |
| C31 | `ensure_transform_state` | case analysis over the list of states; witness |
| C32 | `_shift_grid_by_fourier` | phases multiply |
| C33 | `FFTW_Pad` as a state machine with a table | sortedness and completeness of the table; history independence; witness |
| C34 | `autocutout`, `max_frac_bounds`, `tukey` | index arithmetic; real analysis for the window |
| C35 | npz export/import with fixed width strings and padded tables | round trip by induction; witness |
| C36 | suffix dispatch | string lemmas |
| C37 | `transform_data` | index bijection |
| C38 | `__getitem__` of simulation readers | case analysis over ℤ; witness |
| C39 | chunk generator and write schedule | tiling, permutation of disjoint writes |
| C40 | `kspace` component loop | algebra in ℂ³; heap model for the mutation |
| C41 | propagation phases | exponential law |
| C42 | mode expansions | finite sums, roots of unity; witness |
| C43 | `np_moveaxis` | insertion into sorted positions |
| C44 | `sps_tukey` | real analysis |
| C45 | `grid`, `gridnode`, EPOCH `gridoffset` | ordered field algebra, bits |
| C46 | `polar2linear`, `linear2polar` | complex argument |
| C47 | heap model of field copies and ufunc results | witnesses and frame lemmas |
| C48 | regular expression as a parser | case analysis |
| C49 | `_reducing_numpy_method` | list lemmas; witness |
| C50 | registry state machine | induction over histories |
| C51 | `_derivative_stagger` | telescoping; witness for reversed axes |
| C52 | weights of one particle against the B-spline of the same order, in the range and far outside | polynomial identities |
| C53, C54, C58 | `histogramdd` argument handling | case analysis over the forms of data, range, bins and shape |
| C55, C57 | `Field.__getitem__`, `squeeze` | composition of the axis theorems over all dimensions |
| C56 | collections made with the keywords of `MultiSpecies.add` (see C108) | filter lemmas |
| C59 | `map_axis_grid` | change of variables for sums of cells; exact difference quotient of affine maps |
| C60 | `map_coordinates`, `topolar` with `interp1d` and the sampling of scipy | piecewise linear interpolation; composition |
| C61 | scalars with units, positions, expressions | evaluation of the verbatim table; structural induction over expressions |
| C62, C63 | `createField`, `_createHistgram` on top of the deposition kernels and `Field.__init__` | kernel theorems of C01; induction over the integrated axes, the shapes sum to one |
| C64 | options of `_createHistgram`, names in `createField` | case analysis over the options |
| C65 | `integrate` with a rule of `scipy.integrate` | induction over points and axes; a specification by parabolas |
| C66 | `derivative` by `np.gradient` | the same specification; case analysis border/inside |
| C68 | `_shift_grid_by_linear`, `unstagger_fields`, `adjust_stagger_to` | induction over the dimensions; a specification by polygons |
| C67 | components, energy densities, `divE` of `_field_calc.py` | with the grids of C45; pointwise arithmetic |
| C69 | `kspace_epoch_like` and the response of half-step means | on top of C40; the response is the modulus of `cos(ω dt/2)`, division undoes it |
| C70 | `time_profile_at_plane`, iterative algorithm | on top of C41 and C30; the sum over the phase is the inverse transform in the plane |
| C71 | `getSpecies` of the readers for openPMD, Smilei and EPOCH, the source of a property in `_readatomic` | specification by the openPMD standard; case analysis over the properties |
| C72 | `_kspace`, `kspace_Ex` ... `kspace_Bz` of a dump | the dictionary of each method satisfies the hypotheses of C40 and C69; with an extent the dump is replaced by one with cut components |
| C73 | `MultiSpecies` and `_SingleSpecies` with logs, filters and numbers of particles | induction over histories of operations with an invariant relating each species to a list of positions |
| C74 | `compress` with arrays of the user at addresses | simulation of the model with values; later writes into the array |
| C75 | the statements of the class which define the methods for single properties, and `deprecated` | table of all methods, with the values of C15 and C61 |
| C76 | `_export_field_csv`, `_import_field_csv`, `savetxt` and `genfromtxt` on the level of characters | splitting is the inverse of joining for texts without delimiters; `'%.18e'` and `float` digit by digit (`Spec/Decimal`): the rounded decimal number is so close to the double that it is the nearest one |
| C77 | `_import_field_image`, `_readpng` | pixel by pixel |
| C78 | names of figures: `savename`, `lastsavename` on lists of characters | induction over the sequence of figures; decimal numbers are injective |
| C79 | `addField2d`, `addField1d`, `plotField`, `_addxlineout`, `_addylineout`, `addFields1d`: what is passed to matplotlib | squeeze of C57, even axes; i/(m-1) lies between i/m and (i+1)/m for the lineouts; concrete fields for the violations |
| C80 | `Field.__setitem__`, `KeepDim`, all steps of slices, broadcasting of the values | positions of slices as arithmetic progressions; selected positions and their numbers are inverse to each other |
| C81 | `FileSeries`, `times` | digits of equal number compare as their values; sorting is unique |
| C82 | `Visitreader.__init__` | induction over the lines |
| C83 | `OpenPMDreader.__init__`, `SmileiReader.__init__`, `SmileiSeries`, the index file | content of files as lists of datasets; index file as a state which survives |
| C84 | `__eq__` of readers, `MultiSpecies.dumpreader`, `name` | equality compared with a location and an iteration |
| C85 | `dataE`, `dataB`, `_keyE`, `_keyB`, `data` of the readers | table of names; unfolding per reader |
| C86 | `listSpecies`, `getderived`, `simdimensions` | the regular expressions have only one way to match, as `/` is no word character |
| C87 | the bytes written by `VtkData.tofile` | a reader after the format description; composition of writing and reading, line by line; codes of `binary64` and `binary32` (`Spec/Ieee`): decoding the code of a number is rounding it, also with carries |
| C88 | the order of checks and writes in `_export_arraydata_vtk` | every write succeeds for ascii text and equal shapes; concrete files for the violations |
| C89 | the table of operators, reflected operators and `__array_ufunc__` for calls | agreement with the arithmetic of C23, case analysis over the kinds of operands |
| C90 | ufuncs with the field as output | the broadcast shape must be that of the field |
| C91 | `reduce` and `outer` in `__array_ufunc__` | agreement with the methods of C49; counting of axes for the violations |
| C92 | `__array_wrap__` without context | case analysis over the number of dimensions |
| C93 | the tables of masses and species in `identifyspecies` | the table is compared with the atomic weights entry by entry, charges and prefixes by the theorem of C48 |
| C94 | the assignment of extents as a loop which can stop halfway, the spacings | induction over the axes; the new axes are computed by the lemmas for even axes |
| C95 | parts of complex fields, numpy's functions on exact complex numbers | pointwise identities of Mathlib |
| C96 | `evaluate` with expressions as trees and the frame of the caller | induction over the expression; the frame is a case distinction |
| C97 | the constants and `ncrit` as real numbers | bounds for pi |
| C98 | the expressions of the Fourier algorithm as real and complex functions, not-a-number as `none` | algebra and the derivative of the dispersion relation |
| C99 | the steps as composition of the models of `autoreduce`, `pad`, `fft_autopad`, `kspace_propagate` and `autocutout`; generators as lists of the first results | the grids are followed through the parts of a step; induction over the number of results |
| C100 | the constructor as a function of the state of the generator, which is abstract; `getSpecies`; `data` | two runs are compared step by step; arithmetic of indices for `np.roll` |
| C101 | composition of the models of linear shifts, the cut to an extent and `kspace` | from the theorems about these parts, with the origin moved by half a cell |
| C102 | the texts handed over to matplotlib, with their places; decimal formatting of rational numbers | every place is considered on its own; bounds for rounding |
| C103 | the generator with its local variables, the objects of the caller in a memory with addresses, programs as lists of actions | invariant along the program: `kspace` of the generator is the one of the pure computation (C41) and out of reach of the allowed actions |
| C104 | `map_coordinates` for complex data, `approx_jacobian`, `jac_det`; the unwrapping of skimage is a parameter which changes angles by whole turns | composition of the real samplings; `np.gradient` is exact on lines, hence the matrix of an affine map is found |
| C105 | `Field.meshgrid`, `np_meshgrid`, `np_broadcast_to` | position by position, counted from the last dimension |
| C106 | arrays of truth values and of numbers as keys of `field[key]` and `field[key] = number`, with numpy's rules for arrays as indices | case distinction on the shape of the key |
| C107 | the version from the answers of git, from the keywords of an archive, or from the name of the directory | texts are split at the last dashes; injectivity by comparing up to the first separator |
| C108 | creating collections from names and keywords, adding to them | induction over the arguments; the depth of calls is a parameter |
| C109 | the fourier method of `unstagger_fields`, `adjust_stagger_to`, and the VTK export of staggered fields | the transforms of C32 as sums of waves |
| C110 | scipy's spline filter and weights against B-splines (Cox and de Boor) on the mirrored line | the recursive filter solves the linear equations; these are diagonally dominant |
| C111 | `histogram`, `histogram2d`, `histogram3d` of C03 | the deposited weight of a particle is its weight times a factor which depends on its place only |
| C112 | the same, and `histogramdd` with its defaults for the range | the place of a particle in units of bins does not change under affine maps; minima and maxima follow the map |
| C113 | the same, order 0 | floor(floor(k y) / k) = floor(y); sums regrouped |
| C114 | the methods of `FieldOps`, in sequences | each method is natural in the values (it maps places to places), and the places stay within the array |
| C115 | the methods of `FieldOps`, `Calculus`, in sequences, `Fft`, `MapGrid` with `Spline` | every method keeps the linear relations between the samples of two fields; applied to the relation `v = a x + b y` and a field of pairs. The Fourier transform: axes and phases do not depend on the values, the sums are linear. Resampling: the recursions of the spline filter and the sums over the neighbours are linear, neighbours are within the array |
| C116 | `Fft` | the sorted list of the axes depends on the set only; the plan of a transform (domain, axes, phases) does not depend on the values; the sums along different dimensions commute; induction over the dimensions for the mirrored places |
| C117 | `Calculus`, `Field` | every rule and every derivative is a weighted sum of the values of a line, weighted sums along different dimensions commute; the positions along several dimensions are a permutation of the positions along one of them for every position along the others |
| C118 | `HistogramFloat` | the guards bound the indices without regard to what rounding did; sums of ones are exact; without rounding the loops are the exact ones |
| C119 | `HistogramFloat` | the standard model of rounding (`Accurate`): every operation has a relative error u; errors of the shape functions, the products and the sums are added up |
| C120 | `PadArg` | the forms are turned into one pair per dimension; what padding does with these is C27 |
| C121 | `ReduceOut` | compared with the model of the same reduction without `out` (C49) |
| C122 | `AxisFloat`, `HistogramFloat` | The binary search compares exactly and splits the grid into the points before and after the value (`search_split`); rounding keeps the order on each side (`beyond_rounded`), so only the two neighbours matter. The error of the fractional index is accumulated operation by operation |
| C123 | `AxisFloat` | numpy's `linspace` operation by operation, `step*i + start` (`node_near`), the means of neighbouring nodes (`mean_near`); the errors are smaller than half a cell, so the order is strict. Violated by an extent of two neighbouring numbers |
| C124 | `ScalarFloat` | Relative errors are factors between `(1-u)^k` and `(1-u)^(-k)`; products, quotients, roots and sums of positive numbers multiply them, `arctan2` too because the angle changes at most by the factor of the ratio (concavity of `arctan`); the number of roundings of each predefined scalar (at most 40) is counted by `roundings`, by `decide` over the table. |
| C125 | `StatisticsFloat` | The order of additions is a binary tree. By induction over it, a rounded sum of depth `d` is a sum of the entries, each multiplied by a factor between `(1-u)^d` and `(1-u)^(-d)`; the factors go through the product with the weights and the division. For the variance all terms are non-negative, and the shift of the mean enters squared. For quantiles the cumulated sums ascend because rounding keeps the order; the last one bounds `last*q`. The hypotheses are proved for rounding to nearest with 53 digits (`nearest53`). |
| C126 | `CalculusFloat` | A relation `Near u k e m y` (the computed `y` is the exact `e` up to `k` roundings of numbers whose absolute values add up to `m`) is kept by rounding, addition, multiplication; sums by induction over the tree of additions; the loops over dimensions by induction as for the exact methods (C26), with the integral of absolute values carried along. |
| C127 | `GradientFloat` | Computed distances, their sum and the weights of `np.gradient` are within a number of roundings of the exact ones (`Within`), the weight of the middle point relative to the sum of its terms (`Near`); if the computed distances are equal, the exact ones are nearly equal and the formula for equal distances is within six roundings of the general one. |
| C128 | `Spec/Double`, `HistogramFloat` | rounding to doubles is defined over the rationals and proved monotonic, idempotent and accurate; the degenerate range is then computed exactly; more dimensions are reduced to fewer ones |
| C129 | `HistogramFloat` | the computed position is the exact one after five roundings (`Within`), compared with the edges; the counts are those of C118 |
| C130 | `MeanFloat` | Doubles are multiples of `2^-1074`, therefore a sum of two doubles which is below the normal range is exact, and additions of doubles agree with additions of numbers of 53 digits without limits of the exponent (`digits53`), for which the errors are known (C126). Induction over the tree of additions. |
| C131 | `HistogramFloat` | The loop adds the weights of a bin one after the other (induction over the particles); then C130 for the order from left to right; the total by exchanging the sums over bins and particles. |
| C132 | `HistogramFloat` | `Limited` (the standard model with a largest and a smallest number, proved for doubles) replaces `Accurate`; overflowing and underflowing positions separately, the others as C129 |
| C133 | `Classes` | classes as lists of methods with their `__init__`, rules of `abc` and `super`; induction over the list of extending classes, and over the recursion limit for the violation |
| C134 | `AxisFloat` with `double` | subtractions of doubles have a small relative error also if they underflow; other operations with an absolute error of the smallest normal number |
| C135 | `_integrate_fast`, `_integrate_constant` for one dimension with `double` | differences of doubles do not underflow, products have an error of at most 2^-1075, sums by C130 |
| C136 | `GradientFloat` with `double` | Within the limits no operation underflows or overflows (`Moderate` bounds the exponents through every operation), so rounding to doubles and rounding to 53 digits agree and C127 applies; the staggered derivative directly from the rounding error of differences and quotients |
| C137 | `StatisticsFloat` with `double` | Sums of multiples of a power of two stay multiples, so no sum, product or quotient underflows; rounding to doubles and to 53 digits agree and C125 applies (`digits53_format`: rounding to 53 digits keeps the order) |
| C138 | `HalfFloat` | The sum of two doubles rounds to a number from twice the smaller to twice the larger one because rounding is monotone and keeps doubles; the same again for the half. Halving a double is exact except below the smallest normal number. Any points between the joined ones make a valid axis; induction over the rounds of `autoreduce`. |
| C139 | `CalculusFloat` with `double` | `Moderate` bounds the exponents of cell sizes, products and sums; therefore rounding to doubles and to 53 digits agree in every step of both loops (induction over the dimensions), and C126 applies |
| C140 | `HelperFft` | Dictionary laws for `update` (induction over the keywords), Python's rules for binding arguments, induction over the sequence of calls; two witnesses for the violations |
| C141 | `AxisFloat` with `double` | `Moderate` bounds the exponents of all intermediate results of `linspace`; nodes are multiples of 2^(-1056), so that halving them is exact; therefore rounding to doubles and to 53 digits agree, and C123 and C134 apply |
| C142 | `LinearFloat` with `double` | the list compared with is computed from the same ends, so it is the same list; for pieces both lists are near the equidistant points (C123, C141), and the tolerance is at least 2^(-27) because rounding is monotone; conversely an accepted node is within 1.1 times the tolerance of the straight line, as the difference of two doubles and the tolerance are rounded by at most 2^(-53); concrete axes for the violations |
| C143 | `LinearFloat` with `double` | the axis counts as even (C142), the first node is the end of the extent, the second is near the equidistant one (C141), and the difference of two doubles is rounded by at most 2^(-53); concrete axis for the violation |

## What is modelled

| Lean file in `Model/` | code | left out |
|---|---|---|
| `Histogram`, `Histogramdd` | `particles/_particlestogrid.pyx` completely, `histogramdd` of `particles/_routines.py` | the C compiler: the cast to `int` is the one of x86 (out of range gives -2^31) |
| `Particles`, `ParticleHistory` | `_SingleSpecies`, `MultiSpecies`, `ParticleHistory` of `particles/particles.py` | plotting helpers |
| `CreateField` | `MultiSpecies.createField`, `_createHistgram`, `simextent`, `simgridpoints` | evaluation of the scalars (see `ScalarEval`), `optargsh` |
| `Statistics` | `mean`, `var`, `quantile`, `median` | |
| `ScalarRegistry`, `ScalarExpr`, `ScalarEval` | `particles/scalarproperties.py`, the whole table of scalars verbatim, resolution of names in `MultiSpecies.__call__` | numexpr beyond the operators used in the table |
| `Axis` | class `Axis` of `datahandling.py` | `value_to_index` of uneven axes is in `MapGrid`; labels |
| `Field`, `FieldOps` | class `Field`: construction, arithmetic, indexing, permutations, flips, reductions, integration, resolution, padding, staggered derivative | `evaluate`, plotting |
| `Calculus` | `_integrate_scipy` with `simpson`, `_derivative` by `np.gradient` | `numpy` before 1.13 |
| `FieldCalc` | components, energy densities and divergence in `_field_calc.py` | keyword arguments for the reader |
| `FieldHeap` | sharing of arrays and lists between fields | views made by `transpose`, `reshape` |
| `Fft`, `FftPad` | `fft`, `ensure_*_domain`, `shift_grid_by` (fourier), `fft_autopad`, `FFTW_Pad` | pyfftw plans |
| `Stagger` | `shift_grid_by` (linear), `adjust_stagger_to`, `unstagger_fields` | integer data |
| `Kspace` | `kspace`, `kspace_propagate`, `omega_free`, `omega_yee_factory` | see `KspaceExtent` for `extent` |
| `EpochLike` | `kspace_epoch_like`, `_linear_interpolation_frequency_response`, `..._on_k` | see `KspaceExtent` for `extent`; `kspace_epoch_like_old` |
| `KspaceExtent` | `extent` of `kspace` and `kspace_epoch_like`, `_kspace_helper_cutfields`, `_extent_to_slices` | limits `None` |
| `DumpKspace` | `_kspace`, `kspace_Ex` ... `kspace_Bz` of `_field_calc.py` | keyword arguments `extent` and `interpolation` |
| `Collection` | `MultiSpecies`: adding, `compress`, `filter`, `~`, `uncompress`, `initial_npart`, `getcompresslog` | expressions of filters are functions of the variables (see C61 for expressions) |
| `CollectionHeap` | `compress` with arrays which the caller keeps | arrays of other types, which are copied |
| `TimeProfile` | `_time_profile_at_plane_iterative`, `apply_linear_phase` | the Fourier algorithm; one-dimensional fields in the spatial domain |
| `DumpSpecies` | `getSpecies` and `data` of `openPMDh5.py`, `smileih5.py`, `epochsdf.py`; `attribidentify` | reading of files, VSim |
| `Interp`, `MapGrid`, `Polar` | `map_coordinates_parallel`, `map_axis_grid`, `map_coordinates`, `topolar`, polar coordinates and Jacobians | complex data, `approx_jacobian` |
| `Autocut`, `Compat` | `autocutout`, `max_frac_bounds`, `np_moveaxis`, `sps_tukey` | |
| `Io` | `io/__init__.py`, `io/npy.py`, `io/vtk.py` | bytes; csv and images are only dispatched |
| `Simulation` | `Simulationreader_ifc` and its implementations, `datareader/__init__.py` | searching for files |
| `ReaderGrid`, `Modes` | grids of all dump readers, `_field_calc.py` as far as grids are concerned, expansion of azimuthal modes | `vsimhdf5.py` (`chooseCode` refuses it) |
| `Species` | `SpeciesIdentifier`, keywords of `MultiSpecies.add` | |
| `Accessors` | the methods of `MultiSpecies` for single properties, `deprecated` | that warnings are shown once |
| `Ieee` | the bytes of numpy's `>f8` and `>f4` numbers | signs of zeros, payloads of NaN |
| `TextImage` | csv files and images | decoding of image files, `grey_opening` (parameters); `'%.18e'` and `float` are given for doubles in `Spec/Decimal`, other texts of numbers are parameters |
| `Plotter` | names of figures, pictures, lines, lineouts | drawing by matplotlib (`Shows` in the specification says which rectangle has which colour), annotations, contour lines |
| `FieldAssign` | `KeepDim`, slices with steps, mixed slices, `field[key] = values` | arrays as indices, `Ellipsis`, conversion of types |
| `Series` | sorting of names, `.visit` files, iterations in hdf5 files, the Smilei index, `__eq__`, `name` | attributes of groups, `int()` of other texts than digits, matching of patterns by `glob` |
| `FieldKeys` | keys of field components, `data`, `getderived`, `listSpecies`, `simdimensions` of the readers | the vsim reader (which cannot be chosen), attributes other than `unitSI` and `value` |
| `Classes` | the reader classes, `__init__` of all of them, the rules of `abc.ABCMeta` and `super` | multiple inheritance, positional arguments, the part of `__init__` which opens files |
| `VtkBytes` | `VtkFile`, `VtkData`, `PointData`, `CellData`, `Scalars`, `Vectors` and data sets: bytes and exceptions | text and bytes of a floating point number (parameters; the bytes of doubles in `Ieee`) |
| `Operators` | `__array_ufunc__` (calls with one and two arguments, output arguments, `reduce`, `outer`), `__array_wrap__`, the operators of `NDArrayOperatorsMixin` | what ufuncs do with single values (parameters), types of numbers, `at`, `accumulate` along other axes, the `context` of old numpy versions |
| `FieldProps` | `datahandling.py` 914-926, 997-1098, 1560-1587 (argument) | assignments to `extent`, `spacing`, complex parts, `phase`, `evaluate` |
| `Constants` | `helper.py` class `PhysicalConstants` | constants and critical densities as real numbers |
| `FourierProfile` | `helper.py` 1216-1378 | the formulas of the Fourier algorithm, the choice of the algorithm |
| `Adaptive` | `experimental.py` 33-121 | one step, the generator, the end at the final time |
| `Dummy` | `dummy.py` | random numbers, particles, fields, dumps of `Dummysim`; the grid is in `ReaderGrid`. The numbers of the generator are abstract |
| `EpochOld` | `kspace_epoch_like_old` of `helper.py` | everything; the dictionary of the caller is part of the result |
| `Annotate` | `settext_*`, `annotate*`, `_plotfinalize` and the texts of `plotField2d`, `plotFields1d` of `plotter_matplotlib.py` | everything; coordinates are names, floating point numbers are rational numbers |
| `PropagateHistory` | `_kspace_propagate_generator`, `kspace_propagate` with `nsteps != 1` in `helper.py`, as a generator interleaved with its caller | everything; assignments into shared `Axis` objects are not modelled |
| `MapComplex` | `map_coordinates` for complex data in `datahandling.py`; `approx_jacobian`, `jac_det` in `helper.py` | everything with numpy 1.13 or later; sampling and unwrapping are parameters |
| `Meshgrid` | `Field.meshgrid` in `datahandling.py`; `np_meshgrid`, `np_broadcast_to` in `_compat/functions.py` | everything; copies and views are not distinguished |
| `FieldMask` | `_normalize_slices`, `__getitem__`, `__setitem__` of `Field` in `datahandling.py` with arrays as keys | numbers as values; tuples which mix arrays with other indices are not modelled |
| `Version` | `_version.py`, `__init__.py` | the style `pep440` of the configuration only; running git, the branch and the date are not modelled |
| `AddSpecies` | `particles.py` `MultiSpecies.__init__`, `add`, `speciess` | `listSpecies()` does not change |
| `StaggerFourier` | `helper.py` `unstagger_fields` with `method='fourier'` | |
| `Spline` | `map_coordinates_parallel` of `helper.py` with `order` up to 5 and `prefilter=True`, scipy's `spline_filter` and weights | real numbers; overflow of integers is not modelled |
| `HistogramFloat` | `particles/_particlestogrid.pyx` once more with doubles: rounding is a parameter, infinities and NaN follow IEEE 754 | the sign of zero; `x**2` is `x*x`; the edges of the bins |
| `PadArg` | the argument `pad_width` of `Field.pad` with the changes of the object of the caller | arrays of floating point numbers or with several dimensions |
| `ReduceOut` | the reductions with the argument `out`: what is written to it, what is raised afterwards | the types of the numbers, an `out` which shares memory with the field |
| `AxisFloat` | `_find_nearest_index` and `_value_to_index_linear` (`datahandling.py:310-331`) with a rounding after each operation | NaN and infinite coordinates; a rounded extent of length 0 |
| `AxisFloat` (second part) | `np.linspace` with rounding and `Axis(extent=..., n=...)` (`datahandling.py:148-160, 192-230`) | the spline: a parameter with error `ε` |
| `ScalarFloat` | `_eval_single_sp` and `ScalarProperty.evaluate` for one particle, each operation followed by a rounding (parameter) | overflow and underflow in the accuracy theorem, the memo table (C17), errors of `numexpr`'s `arctan2` other than one rounding |
| `StatisticsFloat` | `mean`, `var`, `quantile` for one `q`, each operation followed by a rounding (parameter), additions in any order | overflow and underflow in the accuracy theorems |
| `CalculusFloat` | `_integrate_constant`, `_integrate_fast`, `sum`, each operation followed by a rounding (parameter), additions in any order | overflow and underflow in the accuracy theorems; quadrature rules of scipy |
| `GradientFloat` | `np.gradient`, `_derivative`, `_derivative_stagger`, `spacing`, each operation followed by a rounding (parameter) | overflow and underflow in the accuracy theorems; rounding in `islinear` and in the construction of the new axis of the staggered derivative |
| `HalfFloat` | `half_resolution` of axes and fields, `autoreduce`, each operation followed by a rounding (parameter) | axes with grid points which are not finite |
| `HelperFft` | the wrapper `_fft` of the Fourier library: default arguments, binding of arguments, sequences of calls | what the library computes; its parameters are an arbitrary list, the ones in the examples are those of pyFFTW as documented |
| `LinearFloat` | `isclose`, `helper.islinear`, `Axis.islinear`, `Axis.spacing`, each operation followed by a rounding (parameter) | the stored result `_linear` (axes are immutable) |
| `Spec/Double` | `binary64` rounding to nearest, ties to even, with subnormal numbers and overflow; `np.spacing` | signed zeros |
| `MeanFloat` | `np.mean` of doubles: sum divided by the number of values | numpy's order of additions is a parameter |

Descriptions of other libraries which the theorems rest on, each stated where it is used:

* numpy: `searchsorted`, `linspace`, slices, broadcasting, `histogram`, `pad`, `transpose`, `squeeze`, `convolve`,
  assignment to strings of fixed width; `fft.fftn` and `ifftn` by their defining sums.
* scipy: `UnivariateSpline` is an arbitrary function `Splines`, the theorems about derived nodes assume that it
  continues evenly spaced points evenly (`ExactOnEven`); `interp1d` by its segments; `NI_GeometricTransform`
  (`map_coordinates`) by the sum over neighbours with arbitrary weights, `spline_filter` and the weights of the orders 0 to 5
  by their formulas (`ni_splines.c`).
* `scipy.integrate.simpson` (1.11 and later, including the correction for even numbers of points) and `np.gradient` by
  their formulas.
* `scipy.ndimage.shift` of order 1 with `mode='nearest'` by nested linear interpolation.
* `math.log` in `FFTW_Pad` is an arbitrary function which is not too small (`LogOk`).
* `re`: the pattern of species names is executed by a backtracking matcher in Lean; the unicode classes `\\w` and `\\d`
  are arbitrary (`Classes.Ok`: they agree with ASCII on ASCII characters).
* python: threads are interleavings of single writes; `Sequence` mixins by the documentation of `collections.abc`.

## Disagreements between code and properties

Each has a theorem named `..._violated` in `Props/`, with a witness checked by the kernel.

* Particles: deposition drops particles on the limits, gives negative cells just below the range, writes out of bounds in
  2D/3D after overflow of the cast to 32 bit integers and reads beyond the end of short weights; `compress` of an inverted
  unfiltered species; an empty list of ids; ids are sorted in place; `p += p` does not end; too long conditions are
  accepted; the length of a species with ids only and an unknown name; `histogramdd` of up to three points; `Ekin_keV` is labelled `keV/u`; histograms
  of one or two axes without particles are refused, `simgrid` has no effect, `simextent` fails with other scalars than
  positions, `name` is ignored with weights.
* Axes: malformed combinations are accepted; ranges covering the axis are refused; negative starts and step -1 of slices;
  an axis of two uneven cells counts as linear.
* Fields: `transpose` and `rot90` do not move transform states; negative axis numbers in several reductions; `pad` and the
  derivative of decreasing axes; averages of cells of different size; the default
  integral with negative axis numbers, at the border and for single cells; the derivative at the border; four dimensions; arrays which stretch a field; lists
  of states are shared after arithmetic with numbers; `autocutout` of three dimensions; `shift_grid_by` with linear interpolation drops names of axes, moves decreasing axes the
  wrong way and fails for complex data; `unstagger_fields` ignores distances below 10 nm.
* Fourier transforms: requests which need both directions; decreasing axes; single points; names beginning with `k`;
  `FFTW_Pad` depends on earlier calls; `kspace` lacks the documented factor 0.5, overwrites its argument in the frequency
  domain, and a missing field raises `AttributeError`; a field of unknown origin cannot be propagated with a moving window; `kspace_epoch_like` uses the dispersion relation only for
  the response and overwrites a field of the caller; `time_profile_at_plane` adds a constant phase; the `kspace` methods of a
  dump depend on its name and give nan for the first dump of EPOCH; `rfftn` gets no default arguments, and planner or threads cannot be given by position.
* Axes: a piece of an even axis with large coordinates (-1e9 to 1e9, six points) does not count as even with IEEE doubles, so that it has no spacing and
  cannot be transformed.
* Collections: `initial_npart` raises TypeError after inverting an unfiltered species, a filter with a property which is a single
  number raises TypeError, `getcompresslog` loses the logs of species with equal names, `compress` shares the array of booleans
  with the caller and sorts the array of ids of the caller. `angle_yz()` raises KeyError, `Y_um()` recommends a scalar which
  does not exist, the unit of `charge()` is that of `charge_e()`.
* Input and output: names of axes are cut to one character in npz files; csv files cannot be imported with the default delimiter;
  `hotpixelremove` does nothing for grey images and fails for colours; 8 bit png files with the chunk sBIT become black; figures with two cells or cells of nanometers are drawn with even cells, `autoreduce` of `plotField` has no effect,
  lineouts are stretched, `plotFields1d` empties `infos` and refuses `savecsv`; vtk files are imported as images, and describe
  decreasing axes wrongly.
* Readers: ids above 2^53 collide, openPMD records of whole macro-particles are not divided by the weights; `divE` is taken per cell instead of per metre, energy densities ignore staggered grids, `Br` and `Btheta` have
  the unit V/m; dumps -2n..-n-1; EPOCH fields which are not staggered do not begin at `simextent`; the radial grid of
  Smilei has a float as length, only the last digit of the mode number counts and several angles are summed up; the angles of
  fbpic are shifted by half a cell, `Ntheta` above the number of modes reads uninitialised memory and gives a plain array as
  axis; dimensions of length one; the dummy reader. Series are sorted by names as strings, empty lines of a .visit file count as dumps, iterations of a file compare
  equal, the index file of a Smilei directory is never renewed, a `SmileiSeries` of a single file cannot be read, `simgridpoints`
  of a collection returns nothing. The magnetic field of fbpic raises NameError, Smilei ignores `theta`, `getderived` of
  openPMD is empty with h5py 3, names of species with special characters are cut. A field without a name exports to an
  unreadable VTK file, and a name which is not ascii destroys the file that was there. `np.add.reduce(f, keepdims=True)` and
  `np.multiply.outer(f, array)` raise for every field, and `np.take(f, ...)` keeps the old axis. The table of elements has wrong masses for Kr, Rb,
  Tc and Te, does not know Fe, Sn and Re, and ions are 0.7 percent too heavy as the proton mass is used for the atomic mass unit. Assigning an extent which is refused
  because of an uneven axis has changed the axes before it; `squeeze` with an argument is a NameError; `phase()` is a TypeError without
  skimage; `evaluate` in the body of a class deletes the variables of the class; the critical density is 0.4 percent too small. The Fourier algorithm of
  `time_profile_at_plane` gives amplitudes which are too large by the factor c, has the wrong sign and the wrong time window for
  `dir=-1`, gives nan for waves perpendicular to the axis and fails in one dimension. `kspace_propagate_adaptive` always
  fails for fields with one dimension (ValueError) and three dimensions (IndexError in `autocutout`), and ignores the final time 0. Opening a dump of the dummy reader resets the
  generator of random numbers of the whole program, and dummy readers without seed compare as equal with different particles; `str` of a `Dummysim`
  fails because the attribute `dumpidentifier` does not exist. `kspace_epoch_like_old` without extent replaces
  the field of the component in the dictionary of the caller, so that a second call moves it again. Figures do not show the time of
  dumps at the time 0 nor the step 0, and plots of lines draw three texts over each other. The results of `kspace_propagate` in the
  frequency domain are the objects the computation goes on with, and the given direction is normalised in place. Resampling complex data without skimage
  interpolates phases across the branch cut: values close to -1 become 1. The replacement of `broadcast_to` accepts arrays larger than the shape. Masks given as arrays are refused, or select other
  elements of a field with 2 times 2 points; `field[mask]` has no axes. Versions with `+` in the tag are ambiguous; a branch `v2-dev` and a
  directory `Nonesense` are taken for versions. One species of unknown kind in a dump makes `_ions`
  unusable; a species called `_all` makes `add` call itself without end. Moving the field `1, -1` by
  half a cell with the fourier method gives zeros. Cubic interpolation of a density can give
  negative values; resampled integers are rounded. Computed with doubles, a histogram of particles which all have the same negative
  value (such as the charge of electrons) over the default range is a `ZeroDivisionError`, and one of particles which are all at zero is empty.
* Species: some documented examples, four elements which cannot be found (`Fe`, `Sn`, `Re`, `Cf`), prefixes which are keys of
  the result, two different answers to the question whether a species is ejected.
* Replacements for numpy and scipy: `np_moveaxis` accepts numbers out of range and repeated destinations, `sps_tukey`
  calls an undefined function for `alpha >= 1`.
* Interpolation: modes other than `constant` depend on the chunks; an output without points.
* Even axes: squares of nanometres count as even, because the tolerance has an absolute part (`linear_small_violated`); the spacing
  of an axis far from 0 is the difference of two rounded nodes (`axis_spacing_double_violated`).

Found while reading and part of the model without a separate theorem: `pad` of a field without dimensions, where a list is
tested instead of its entries; `ensure_positive_axes` calls a property, so that it always fails.

## Tests of the theorems

`seeded/LOG.jsonl` lists edits of the model which imitate bugs of the program, and the theorems which no longer have a proof
then. Each edit was made in a copy of `lean/`; theorems whose proof failed were replaced by `sorry` until the copy built, and
`#print axioms` told which of the theorems in `MANIFEST.json` depend on them. Theorems which were added or made stronger
because an edit had survived are listed with that edit.

## Not modelled

Drawing by matplotlib, the jupyter layer, file formats on the byte level (HDF5, SDF, zip), floating point rounding (except in the
modules called `...Float` and in `Spec/Double`), signed zeros, the
coefficients of `UnivariateSpline`, performance.
