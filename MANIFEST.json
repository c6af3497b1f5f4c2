{
 "claims": [
  {
   "property": "C01",
   "status": "proved",
   "theorems": [
    "Postpic.Props.histogram_conserves_weight",
    "Postpic.Props.histogram2d_conserves_weight",
    "Postpic.Props.histogram3d_conserves_weight"
   ],
   "note": "Over an ordered field (no rounding); all four shapes, 1D, 2D, 3D, any number of particles."
  },
  {
   "property": "C02",
   "status": "partial",
   "theorems": [
    "Postpic.Props.histogram_memory_safe",
    "Postpic.Props.histogram2d_memory_safe_partial",
    "Postpic.Props.histogram3d_memory_safe_partial",
    "Postpic.Props.histogram2d_memory_safe_violated",
    "Postpic.Props.histogram3d_memory_safe_violated",
    "Postpic.Props.histogram_short_weights_violated"
   ],
   "note": "Full in 1D. In 2D/3D the code violates the property for particles so far above the range that the cast to 32 bit overflows (and for weight arrays that are too short); the _partial theorems cover all other positions."
  },
  {
   "property": "C03",
   "status": "proved",
   "theorems": [
    "Postpic.Props.histogram_additive",
    "Postpic.Props.histogram2d_additive",
    "Postpic.Props.histogram3d_additive",
    "Postpic.Props.histogram_perm",
    "Postpic.Props.histogram2d_perm",
    "Postpic.Props.histogram3d_perm",
    "Postpic.Props.histogram_scale",
    "Postpic.Props.histogram2d_scale",
    "Postpic.Props.histogram3d_scale",
    "Postpic.Props.histogram_narrow",
    "Postpic.Props.histogram2d_narrow",
    "Postpic.Props.histogram3d_narrow",
    "Postpic.Props.narrow_range"
   ],
   "note": "Ranges narrower than the floating point spacing are widened to usual ones (histogram_narrow)."
  },
  {
   "property": "C04",
   "status": "partial",
   "theorems": [
    "Postpic.Props.histogram_ngp_numpy_partial",
    "Postpic.Props.histogram_ngp_numpy_violated"
   ],
   "note": "The code violates the property: particles exactly on the limits of the range are dropped. Proved for all particles which are not exactly on the limits."
  },
  {
   "property": "C05",
   "status": "partial",
   "theorems": [
    "Postpic.Props.histogram_nonneg_partial",
    "Postpic.Props.histogram2d_nonneg_partial",
    "Postpic.Props.histogram3d_nonneg_partial",
    "Postpic.Props.histogram_nonneg_violated",
    "Postpic.Props.histogram_below_range_triangle"
   ],
   "note": "The code violates the property for particles just below the range; proved for all particles in the range or at least 3/2 cells outside (less than 2^31 cells above)."
  },
  {
   "property": "C06",
   "status": "partial",
   "theorems": [
    "Postpic.Props.histogram2d_sum_second",
    "Postpic.Props.histogram2d_sum_first_partial",
    "Postpic.Props.histogram3d_sum_third",
    "Postpic.Props.histogram3d_sum_second_partial",
    "Postpic.Props.histogram3d_sum_first_partial",
    "Postpic.Props.histogram2d_bspline",
    "Postpic.Props.histogram3d_bspline",
    "Postpic.Props.histogram2d_sum_first_violated",
    "Postpic.Props.histogram3d_sum_second_violated",
    "Postpic.Props.histogram3d_sum_first_violated"
   ],
   "note": "Sums over the last axis for all particles. The code violates the property for sums over the other axes if particles are just below the range along a remaining axis; proved for all other particles."
  },
  {
   "property": "C07",
   "status": "partial",
   "theorems": [
    "Postpic.Props.histogram2d_swap_partial",
    "Postpic.Props.histogram2d_swap_violated"
   ],
   "note": "The code violates the property for particles within half a cell below the range; proved for all particles in the range or at least 3/2 cells outside (less than 2^31 cells above)."
  },
  {
   "property": "C52",
   "status": "partial",
   "theorems": [
    "Postpic.Props.histogram_bspline",
    "Postpic.Props.histogram2d_bspline",
    "Postpic.Props.histogram3d_bspline",
    "Postpic.Props.histogram_clear",
    "Postpic.Props.histogram2d_clear",
    "Postpic.Props.histogram3d_clear",
    "Postpic.Props.histogram_ngp_numpy_violated"
   ],
   "note": "For order 0 particles exactly on the limits of the range are dropped (violated). Also for particles at least 3/2 cells outside of the range, which contribute nothing."
  },
  {
   "property": "C53",
   "status": "partial",
   "theorems": [
    "Postpic.Props.histogramdd_array_partial",
    "Postpic.Props.histogramdd_2d",
    "Postpic.Props.histogramdd_3d",
    "Postpic.Props.histogramdd_array_violated"
   ],
   "note": "The code violates the property for up to 3 points; proved for more than 3."
  },
  {
   "property": "C54",
   "status": "partial",
   "theorems": [
    "Postpic.Props.histogramdd_range",
    "Postpic.Props.histogramdd_2d",
    "Postpic.Props.histogramdd_3d",
    "Postpic.Props.histogramdd_range_none",
    "Postpic.Props.histogramdd_range_violated",
    "Postpic.Props.histogram_identical_data_partial",
    "Postpic.Props.histogramdd_identical_data_violated"
   ],
   "note": "Proved for the sequence form and the missing range; the short form (None, x) violates it, and so does degenerate negative data."
  },
  {
   "property": "C08",
   "status": "partial",
   "theorems": [
    "Postpic.Props.species_history_partial",
    "Postpic.Props.reachable_inv",
    "Postpic.Props.filter_after_invert_violated",
    "Postpic.Props.length_unknown_violated",
    "Postpic.Props.select_empty_violated"
   ],
   "note": "Refinement of a list of selected particles for all dumps and all histories. The code violates the property when filtering or selecting after inverting an unfiltered species, and for empty lists of ids."
  },
  {
   "property": "C09",
   "status": "partial",
   "theorems": [
    "Postpic.Props.select_by_ids_partial",
    "Postpic.Props.select_by_ids_collection_partial",
    "Postpic.Props.select_empty_violated"
   ],
   "note": "Every reachable state, every non empty list of ids. The code raises IndexError for the empty list."
  },
  {
   "property": "C10",
   "status": "partial",
   "theorems": [
    "Postpic.Props.ids_unchanged_partial",
    "Postpic.Props.ids_perm",
    "Postpic.Props.ids_sorted_violated",
    "Postpic.Props.collect_trajectories_partial",
    "Postpic.Props.collect_sorts_ids",
    "Postpic.Props.history_ids_violated",
    "Postpic.Props.collect_duplicate_violated",
    "Postpic.Props.skip_ids",
    "Postpic.Props.skip_collect_partial"
   ],
   "note": "The code violates the property: integer arrays are sorted in place. Particle histories are proved to be right in the order of the original request for different ids, after any number of earlier calls."
  },
  {
   "property": "C11",
   "status": "partial",
   "theorems": [
    "Postpic.Props.add_len",
    "Postpic.Props.add_read_partial",
    "Postpic.Props.msRead_spec",
    "Postpic.Props.read_time",
    "Postpic.Props.iadd_eq_add",
    "Postpic.Props.add_inverted_violated",
    "Postpic.Props.iadd_self_violated"
   ],
   "note": "Violated when a species was inverted while unfiltered, and by p += p, which does not terminate."
  },
  {
   "property": "C12",
   "status": "partial",
   "theorems": [
    "Postpic.Props.compress_collection",
    "Postpic.Props.compress_short_partial",
    "Postpic.Props.compress_overlong_violated"
   ],
   "note": "Right for conditions of the right length, too short ones are refused; too long ones are accepted by the code."
  },
  {
   "property": "C13",
   "status": "proved",
   "theorems": [
    "Postpic.Props.quantile_spec",
    "Postpic.Props.median_spec",
    "Postpic.Props.quantile_bounds",
    "Postpic.Props.quantile_mono",
    "Postpic.Props.quantile_argsort_irrelevant",
    "Postpic.Props.isQuantile_unique",
    "Postpic.Props.quantile_refuses"
   ],
   "note": ""
  },
  {
   "property": "C14",
   "status": "proved",
   "theorems": [
    "Postpic.Props.mean_between",
    "Postpic.Props.var_nonneg",
    "Postpic.Props.mean_affine",
    "Postpic.Props.var_affine",
    "Postpic.Props.mean_var_weight_ratio",
    "Postpic.Props.var_eq_mean_sq",
    "Postpic.Props.mean_var_no_weight"
   ],
   "note": ""
  },
  {
   "property": "C15",
   "status": "proved",
   "theorems": [
    "Postpic.Props.scalar_values",
    "Postpic.Props.relativistic_relations",
    "Postpic.Props.angle_to_axis",
    "Postpic.Props.gamma_m1_formula",
    "Postpic.Props.beta_formula"
   ],
   "note": "Over the reals. The expressions are parsed from the verbatim table of the source."
  },
  {
   "property": "C16",
   "status": "proved",
   "theorems": [
    "Postpic.Props.registry_refines_map",
    "Postpic.Props.default_registry_created",
    "Postpic.Props.default_lookup"
   ],
   "note": ""
  },
  {
   "property": "C17",
   "status": "proved",
   "theorems": [
    "Postpic.Props.default_terminates",
    "Postpic.Props.default_acyclic",
    "Postpic.Props.eval_correct",
    "Postpic.Props.symbol_consistent",
    "Postpic.Props.default_parses",
    "Postpic.Props.cyclic_never_terminates"
   ],
   "note": "For the predefined scalars and every expression over them; also for every acyclic registry."
  },
  {
   "property": "C18",
   "status": "partial",
   "theorems": [
    "Postpic.Props.axis_accepts_wellformed",
    "Postpic.Props.axis_keeps_arguments",
    "Postpic.Props.axis_refuses_contradictions",
    "Postpic.Props.axis_refuses_nonmonotone",
    "Postpic.Props.axis_wellformed_given_partial",
    "Postpic.Props.axis_from_nodes_partial",
    "Postpic.Props.axis_from_grid_partial",
    "Postpic.Props.axis_from_extent",
    "Postpic.Props.axis_wellformed_violated",
    "Postpic.Props.axis_reversed_valid",
    "Postpic.Props.axis_half_resolution_valid"
   ],
   "note": "Construction keeps all given arguments, refuses contradicting extents, numbers and non monotone input, and accepts every well formed pair. The code accepts malformed combinations (axis_wellformed_violated); well-formedness is proved under the checks the code omits. The scipy spline for more than three points is an oracle."
  },
  {
   "property": "C19",
   "status": "partial",
   "theorems": [
    "Postpic.Props.nearest_index",
    "Postpic.Props.value_to_index_grid",
    "Postpic.Props.nearest_index_is_rounded_partial",
    "Postpic.Props.nearest_index_is_rounded_violated"
   ],
   "note": "Nearest index proved for all valid axes. The documented equality with the rounded fractional index fails for ties and for two point axes with different cells; proved for uniform axes inside the extent otherwise."
  },
  {
   "property": "C20",
   "status": "partial",
   "theorems": [
    "Postpic.Props.range_keeps_exactly_partial",
    "Postpic.Props.range_keeps_exactly_reversed_partial",
    "Postpic.Props.range_outside_refused",
    "Postpic.Props.range_keeps_exactly_violated"
   ],
   "note": "Proved for ranges in the direction of the axis with one limit inside. Ranges covering the axis are refused and ranges against the direction keep wrong points (violated)."
  },
  {
   "property": "C21",
   "status": "partial",
   "theorems": [
    "Postpic.Props.axis_slice_partial",
    "Postpic.Props.axis_slice_violated"
   ],
   "note": "Proved for forward slices with non-negative start. Negative starts, step -1 and stop 0 are wrong (violated)."
  },
  {
   "property": "C22",
   "status": "partial",
   "theorems": [
    "Postpic.Props.axes_describe_new",
    "Postpic.Props.axes_describe_new_default_partial",
    "Postpic.Props.axes_describe_data_partial",
    "Postpic.Props.axes_describe_data_pad_partial",
    "Postpic.Props.axes_describe_four_dimensions_violated",
    "Postpic.Props.axes_describe_empty_violated",
    "Postpic.Props.axes_describe_pad_violated"
   ],
   "note": "Proved for every program over the modelled field operations (arithmetic, indexing, transposing, reductions, integration, padding, ...). Padding needs one node more than grid points; a field made from a four dimensional or empty matrix has too few axes (violated)."
  },
  {
   "property": "C23",
   "status": "partial",
   "theorems": [
    "Postpic.Props.broadcast_accepts_partial",
    "Postpic.Props.broadcast_result",
    "Postpic.Props.broadcast_states",
    "Postpic.Props.number_result",
    "Postpic.Props.array_result_partial",
    "Postpic.Props.broadcast_array_dimensions_violated",
    "Postpic.Props.broadcast_array_stretch_violated",
    "Postpic.Props.broadcast_four_dimensions_violated"
   ],
   "note": "Accepted exactly as numpy does for up to three dimensions, with the values and axes of the broadcasting rules. Plain arrays which add or stretch dimensions, and four dimensions, are refused (violated)."
  },
  {
   "property": "C24",
   "status": "partial",
   "theorems": [
    "Postpic.Props.transpose_moves_partial",
    "Postpic.Props.transpose_accepts_only_permutations",
    "Postpic.Props.transpose_default_partial",
    "Postpic.Props.transpose_inverse",
    "Postpic.Props.swapaxes_moves_partial",
    "Postpic.Props.transpose_states_violated",
    "Postpic.Props.transpose_list_violated"
   ],
   "note": "Shape, axes and values are moved for every permutation and number of dimensions; the transform states are not always moved along (violation theorem)."
  },
  {
   "property": "C25",
   "status": "partial",
   "theorems": [
    "Postpic.Props.flip_moves",
    "Postpic.Props.flip_flip",
    "Postpic.Props.rot90_moves_partial",
    "Postpic.Props.rot90_add",
    "Postpic.Props.rot90_iterate",
    "Postpic.Props.rot90_four",
    "Postpic.Props.rot90_states_violated"
   ],
   "note": "Values, axes and shape for all fields and any number of quarter turns; rot90 does not move transform states (violation theorem)."
  },
  {
   "property": "C26",
   "status": "partial",
   "theorems": [
    "Postpic.Props.integrate_fast_partial",
    "Postpic.Props.integrate_fast_eq_constant_partial",
    "Postpic.Props.integrate_linear",
    "Postpic.Props.integrate_one_after_other",
    "Postpic.Props.integrate_fast_negative_violated"
   ],
   "note": "Any number of dimensions in any order for the fast method, up to three for the constant one (as in the code). Negative axis numbers are wrong in the code (violation theorem)."
  },
  {
   "property": "C27",
   "status": "partial",
   "theorems": [
    "Postpic.Props.pad_keeps_samples_partial",
    "Postpic.Props.pad_reversed_violated"
   ],
   "note": "Evenly spaced increasing axes, any number of dimensions, widths in cells or as lengths. Decreasing axes are handled wrongly by the code (violation theorem)."
  },
  {
   "property": "C28",
   "status": "partial",
   "theorems": [
    "Postpic.Props.half_resolution_axes",
    "Postpic.Props.half_resolution_integral_partial",
    "Postpic.Props.autoreduce_ends",
    "Postpic.Props.autoreduce_means",
    "Postpic.Props.autoreduce_integral_partial",
    "Postpic.Props.half_resolution_integral_violated",
    "Postpic.Props.autoreduce_negative_violated",
    "Postpic.Props.autoreduce_integral_violated"
   ],
   "note": "Extent and nodes for all axes; the integral is kept if joined cells have equal size (otherwise violated); autoreduce ends for every field of up to three dimensions; it halves as often as necessary and gives the means over the blocks of joined cells, and keeps the integral if the axes it shortens are evenly spaced and no cells are left over (otherwise violated)."
  },
  {
   "property": "C49",
   "status": "partial",
   "theorems": [
    "Postpic.Props.reduce_removes_partial",
    "Postpic.Props.reduce_all",
    "Postpic.Props.reduce_keepdims_partial",
    "Postpic.Props.reduce_negative_violated"
   ],
   "note": "All reductions; several axes must be given by non-negative numbers (violation theorem for negative ones)."
  },
  {
   "property": "C51",
   "status": "partial",
   "theorems": [
    "Postpic.Props.derivative_partial",
    "Postpic.Props.derivative_telescopes_partial",
    "Postpic.Props.derivative_reversed_violated",
    "Postpic.Props.derivative_two_points_violated"
   ],
   "note": "Evenly spaced increasing axes; the code gives the wrong sign on decreasing axes and a wrong cell for two samples (violation theorems)."
  },
  {
   "property": "C29",
   "status": "partial",
   "theorems": [
    "Postpic.Props.fft_roundtrip_partial",
    "Postpic.Props.fft_parseval_partial",
    "Postpic.Props.fft_single_point_violated",
    "Postpic.Props.fft_name_violated"
   ],
   "note": "Data, axes, names, units and states are restored, and the integral of the squared modulus is kept, for every set of evenly spaced increasing axes with at least two points among the first three dimensions. A single point, decreasing axes and names starting with k (units with 1 or /) do violate the property."
  },
  {
   "property": "C30",
   "status": "partial",
   "theorems": [
    "Postpic.Props.fft_value_partial",
    "Postpic.Props.fft_uneven_partial",
    "Postpic.Props.fft_uneven_violated",
    "Postpic.Props.fft_reversed_violated",
    "Postpic.Props.fft_negative_axis_violated"
   ],
   "note": "The transform equals the Fourier sum at every point for any grid start, any set of the first three dimensions, both sign conventions. Decreasing axes give another value; negative axis numbers fail; uneven axes are refused, but not if they deviate by less than the absolute tolerance."
  },
  {
   "property": "C31",
   "status": "partial",
   "theorems": [
    "Postpic.Props.ensure_state_present",
    "Postpic.Props.ensure_state_partial",
    "Postpic.Props.ensure_state_all_partial",
    "Postpic.Props.ensure_state_mixed_violated"
   ],
   "note": "Holds for every request that needs one direction only; a request which needs both directions fails with ValueError."
  },
  {
   "property": "C32",
   "status": "partial",
   "theorems": [
    "Postpic.Props.shift_zero_partial",
    "Postpic.Props.shift_transformable",
    "Postpic.Props.shift_add_partial",
    "Postpic.Props.shift_cells_partial",
    "Postpic.Props.shift_single_point_violated"
   ],
   "note": "Shift by 0, additivity and whole cells for any set of dimensions, with the fourier method and evenly spaced increasing axes of at least two points. A single point is changed by shifting it by 0 (violated). The linear method is C68."
  },
  {
   "property": "C33",
   "status": "partial",
   "theorems": [
    "Postpic.Props.fftw_pad_partial",
    "Postpic.Props.fftw_pad_factors_partial",
    "Postpic.Props.fftw_pad_small_partial",
    "Postpic.Props.fftw_pad_violated",
    "Postpic.Props.padsize_power2",
    "Postpic.Props.fft_autopad_partial"
   ],
   "note": "Sizes are good and minimal among the sizes generated; a size beyond the initial table of a fresh object can fail with an IndexError and the outcome depends on earlier calls (violated)."
  },
  {
   "property": "C43",
   "status": "partial",
   "theorems": [
    "Postpic.Props.moveaxis_partial",
    "Postpic.Props.moveaxis_out_of_range_violated",
    "Postpic.Props.moveaxis_repeated_violated"
   ],
   "note": "The fallback agrees with numpy for valid arguments; it accepts invalid arguments that numpy refuses (violated)."
  },
  {
   "property": "C44",
   "status": "partial",
   "theorems": [
    "Postpic.Props.tukey_partial",
    "Postpic.Props.tukey_border",
    "Postpic.Props.tukey_periodic_partial",
    "Postpic.Props.tukey_one_violated"
   ],
   "note": "Length, range, symmetry, flat part and monotonicity for every length and alpha < 1; alpha >= 1 raises NameError (violated)."
  },
  {
   "property": "C55",
   "status": "partial",
   "theorems": [
    "Postpic.Props.field_index_partial",
    "Postpic.Props.field_index_count",
    "Postpic.Props.field_index_outside",
    "Postpic.Props.field_index_violated",
    "Postpic.Props.keepdim_partial",
    "Postpic.Props.keepdim_refused",
    "Postpic.Props.keepdim_violated"
   ],
   "note": "All combinations of integers, coordinates, forward slices and coordinate ranges. Slices that begin with a negative number or go backward and coordinate ranges wider than the axis give wrong axes or fail (violated); KeepDim with negative numbers or numbers beyond the end and steps other than 1 and -1 do not work (violated)."
  },
  {
   "property": "C38",
   "status": "partial",
   "theorems": [
    "Postpic.Props.sim_index_partial",
    "Postpic.Props.sim_index_high",
    "Postpic.Props.sim_index_low_partial",
    "Postpic.Props.sim_index_low_violated",
    "Postpic.Props.dummy_index_partial",
    "Postpic.Props.sim_slice",
    "Postpic.Props.sim_slice_step",
    "Postpic.Props.sim_iterate",
    "Postpic.Props.sim_reversed",
    "Postpic.Props.sim_other"
   ],
   "note": "Integers -2n..-n-1 return a dump instead of raising IndexError (violated); everything else holds for every number of dumps, all slices with any step, and iteration."
  },
  {
   "property": "C50",
   "status": "proved",
   "theorems": [
    "Postpic.Props.choose_code",
    "Postpic.Props.choose_code_case",
    "Postpic.Props.choose_code_history"
   ],
   "note": ""
  },
  {
   "property": "C35",
   "status": "partial",
   "theorems": [
    "Postpic.Props.npz_roundtrip_data",
    "Postpic.Props.npz_roundtrip_partial",
    "Postpic.Props.npz_axis_names_violated",
    "Postpic.Props.npz_no_dimensions_violated",
    "Postpic.Props.npz_label_frozen_violated"
   ],
   "note": "Matrix, grids, nodes, extents, states and origins are restored for every field of one to three dimensions. Names and units of axes are cut to one character and fields without dimensions cannot be saved (violated)."
  },
  {
   "property": "C36",
   "status": "partial",
   "theorems": [
    "Postpic.Props.saveto_load",
    "Postpic.Props.export_load_partial",
    "Postpic.Props.export_refuses",
    "Postpic.Props.export_format_unique",
    "Postpic.Props.export_vtk_violated",
    "Postpic.Props.export_name_violated"
   ],
   "note": "All file names. There is no importer for vtk files: import_field takes them for images (violated)."
  },
  {
   "property": "C37",
   "status": "partial",
   "theorems": [
    "Postpic.Props.vtk_points_numbered",
    "Postpic.Props.vtk_scalars_partial",
    "Postpic.Props.vtk_vector_partial",
    "Postpic.Props.vtk_grids_refused",
    "Postpic.Props.vtk_coordinates_violated",
    "Postpic.Props.vtk_dimensions_violated"
   ],
   "note": "Order of points and components for all fields of two or three dimensions with the same axes, with coordinates; decreasing axes and axes of two uneven cells get wrong coordinates, 1D data is refused (violated). Fields on different grids are part of C109."
  },
  {
   "property": "C48",
   "status": "partial",
   "theorems": [
    "Postpic.Props.species_default",
    "Postpic.Props.named_species",
    "Postpic.Props.species_element",
    "Postpic.Props.species_ion",
    "Postpic.Props.species_electron",
    "Postpic.Props.species_prefix_partial",
    "Postpic.Props.species_refused_partial",
    "Postpic.Props.species_documented_violated",
    "Postpic.Props.species_elements_violated",
    "Postpic.Props.species_reserved_violated",
    "Postpic.Props.species_name_violated",
    "Postpic.Props.species_ejected_violated"
   ],
   "note": "All names of the documented forms, with any prefixes and suffixes, and a characterisation of the accepted names. Prefixes in front of the known default names, some documented examples and four elements are refused, and reserved words as prefixes corrupt the answer (violated)."
  },
  {
   "property": "C56",
   "status": "partial",
   "theorems": [
    "Postpic.Props.species_keywords_partial",
    "Postpic.Props.collection_unknown_violated",
    "Postpic.Props.collection_recursion_violated"
   ],
   "note": "for dumps where the flag of every species is known and no species is called like a keyword; otherwise the keywords fail (violated)"
  },
  {
   "property": "C34",
   "status": "partial",
   "theorems": [
    "Postpic.Props.autocutout_partial",
    "Postpic.Props.autocutout_3d_violated",
    "Postpic.Props.autocutout_zero_violated",
    "Postpic.Props.autocutout_bounds_violated",
    "Postpic.Props.autocutout_negative_violated"
   ],
   "note": "Fields with up to two dimensions after squeeze and at least one sample that is not zero, all fractions p <= q < 1, all sets of axes. Three dimensions always fail (violated); the documented containment in the outer bounds is false (violated)."
  },
  {
   "property": "C57",
   "status": "partial",
   "theorems": [
    "Postpic.Props.squeeze_partial",
    "Postpic.Props.squeeze_call_partial",
    "Postpic.Props.squeeze_axis_violated"
   ],
   "note": "All fields with up to three dimensions (a limit of the names of the axes). With its argument squeeze raises a NameError (violated)."
  },
  {
   "property": "C39",
   "status": "partial",
   "theorems": [
    "Postpic.Props.map_coordinates_parallel_partial",
    "Postpic.Props.schedule_exists",
    "Postpic.Props.map_coordinates_parallel_refused",
    "Postpic.Props.interp_wrap_violated",
    "Postpic.Props.interp_nearest_violated",
    "Postpic.Props.interp_empty_violated"
   ],
   "note": "All shapes, chunk lengths, spline orders, coordinates and schedules for the default mode 'constant', and for all modes if the coordinates are inside. The modes wrap, mirror, reflect and nearest depend on the chunks (violated)."
  },
  {
   "property": "C58",
   "status": "proved",
   "theorems": [
    "Postpic.Props.histogramdd_bins",
    "Postpic.Props.histogramdd_shape",
    "Postpic.Props.histogramdd_refused"
   ],
   "note": ""
  },
  {
   "property": "C46",
   "status": "partial",
   "theorems": [
    "Postpic.Props.polar_of_cartesian",
    "Postpic.Props.cartesian_of_polar",
    "Postpic.Props.polar_jacobian",
    "Postpic.Props.jac_det_two",
    "Postpic.Props.jac_det_three",
    "Postpic.Props.jac_det_one",
    "Postpic.Props.polar_jacdet_partial",
    "Postpic.Props.polar_jacdet_violated"
   ],
   "note": "The maps are inverse for all points, the stated Jacobian matrix is the derivative, and the determinant is right for non-negative radii (violated for negative ones). Over the reals."
  },
  {
   "property": "C59",
   "status": "partial",
   "theorems": [
    "Postpic.Props.map_axis_grid_value",
    "Postpic.Props.map_axis_grid_keeps_integral",
    "Postpic.Props.map_axis_grid_default_partial",
    "Postpic.Props.map_axis_grid_falling_violated",
    "Postpic.Props.map_axis_grid_minus_one_violated"
   ],
   "note": "Any dimension; the approximated Jacobian is exact for affine transforms of evenly spaced rising axes; falling axes change the sign and a grid point of -1 gives nan (violated)."
  },
  {
   "property": "C60",
   "status": "partial",
   "theorems": [
    "Postpic.Props.value_to_index_nonlinear",
    "Postpic.Props.value_to_index_even",
    "Postpic.Props.value_to_index_grid_partial",
    "Postpic.Props.value_to_index_grid_violated",
    "Postpic.Props.interp_linear",
    "Postpic.Props.interp_linear_exact",
    "Postpic.Props.map_coordinates_value",
    "Postpic.Props.map_coordinates_same_grid_partial",
    "Postpic.Props.map_coordinates_same_grid_violated",
    "Postpic.Props.topolar_value",
    "Postpic.Props.topolar_default_extent"
   ],
   "note": "Any number of dimensions, any transform, real data. Axes with two uneven cells count as linear (violated). The interpolation enters as a parameter, here with order 1; splines: C110, complex data: C104."
  },
  {
   "property": "C45",
   "status": "partial",
   "theorems": [
    "Postpic.Props.reader_grid_partial",
    "Postpic.Props.reader_grid_points",
    "Postpic.Props.reader_simextent",
    "Postpic.Props.reader_simextent_missing",
    "Postpic.Props.reader_grid_violated",
    "Postpic.Props.epoch_positions",
    "Postpic.Props.epoch_stagger",
    "Postpic.Props.epoch_simextent_partial",
    "Postpic.Props.epoch_simextent_violated",
    "Postpic.Props.openpmd_positions",
    "Postpic.Props.fbpic_positions",
    "Postpic.Props.smilei_positions",
    "Postpic.Props.smilei_radial_violated",
    "Postpic.Props.dummy_grid_partial",
    "Postpic.Props.dummy_grid_violated",
    "Postpic.Props.read_field_partial",
    "Postpic.Props.read_field_refuses",
    "Postpic.Props.read_field_single_violated",
    "Postpic.Props.read_field_ntheta_violated"
   ],
   "note": "Interface methods, EPOCH, openPMD, fbpic, Smilei and dummy readers for all dumps. Grids without points, unstaggered EPOCH fields, radial Smilei grids, dummy grids, dimensions of length one and the keyword Ntheta violate the property. VSim is not modelled (chooseCode refuses it)."
  },
  {
   "property": "C42",
   "status": "partial",
   "theorems": [
    "Postpic.Props.fbpic_naive",
    "Postpic.Props.fbpic_naive_even",
    "Postpic.Props.fbpic_fft_partial",
    "Postpic.Props.fbpic_angles",
    "Postpic.Props.fbpic_expansions_agree",
    "Postpic.Props.fbpic_fft_violated",
    "Postpic.Props.fbpic_two_components_violated",
    "Postpic.Props.fbpic_theta_violated",
    "Postpic.Props.smilei_expansion_partial",
    "Postpic.Props.smilei_angles_sum",
    "Postpic.Props.smilei_angles_violated",
    "Postpic.Props.smilei_ten_modes_violated",
    "Postpic.Props.smilei_no_angle"
   ],
   "note": "fbpic: all numbers of modes and all angles; more angles than modes read uninitialised memory and the axis of the angle is off by half a cell (violated). Smilei: one angle and up to ten modes; several angles or more modes are wrong (violated)."
  },
  {
   "property": "C47",
   "status": "partial",
   "theorems": [
    "Postpic.Props.fields_are_values_partial",
    "Postpic.Props.operations_keep_inputs",
    "Postpic.Props.copy_independent",
    "Postpic.Props.sum_independent",
    "Postpic.Props.number_states_violated",
    "Postpic.Props.unary_origins_violated",
    "Postpic.Props.real_violated",
    "Postpic.Props.shallow_copy_shares_data",
    "Postpic.Props.getitem_shares_data"
   ],
   "note": "All programs of copies, arithmetic, reductions, indexing and in-place changes refine the semantics without sharing, unless they edit state lists shared by arithmetic with numbers or write through views (violated)."
  },
  {
   "property": "C40",
   "status": "partial",
   "theorems": [
    "Postpic.Props.kspace_value_partial",
    "Postpic.Props.kspace_plane_wave_partial",
    "Postpic.Props.kspace_missing_component",
    "Postpic.Props.omega_vacuum",
    "Postpic.Props.kspace_extent_partial",
    "Postpic.Props.kspace_extent_length",
    "Postpic.Props.kspace_linear_partial",
    "Postpic.Props.kspace_linear_complex_violated",
    "Postpic.Props.kspace_factor_violated",
    "Postpic.Props.kspace_argument_violated",
    "Postpic.Props.kspace_missing_violated"
   ],
   "note": "evenly spaced grids of one to three dimensions, fields in the spatial or frequency domain, grids aligned or shifted with the fourier or the linear method; with an extent at least two points remain; the factor 0.5 of the documentation is missing, an argument in the frequency domain is overwritten, the linear method fails for fields in the frequency domain, and a missing component of the other field gives an AttributeError"
  },
  {
   "property": "C41",
   "status": "partial",
   "theorems": [
    "Postpic.Props.propagate_frequency_partial",
    "Postpic.Props.propagate_spatial_partial",
    "Postpic.Props.propagate_twice_partial",
    "Postpic.Props.propagate_twice_spatial_partial",
    "Postpic.Props.propagate_zero_partial",
    "Postpic.Props.propagate_zero_spatial_partial",
    "Postpic.Props.propagate_modulus_partial",
    "Postpic.Props.propagate_energy_partial",
    "Postpic.Props.propagate_wrong_length",
    "Postpic.Props.propagate_no_direction",
    "Postpic.Props.propagate_mixed",
    "Postpic.Props.propagate_origin_violated"
   ],
   "note": "evenly spaced grids of one to three dimensions with at least two points; a field in the frequency domain without remembered origin cannot be used with a moving window; real arithmetic"
  },
  {
   "property": "C61",
   "status": "partial",
   "theorems": [
    "Postpic.Props.record_values",
    "Postpic.Props.scalars_covered",
    "Postpic.Props.units_consistent",
    "Postpic.Props.read_expression",
    "Postpic.Props.expressions_arithmetic",
    "Postpic.Props.unit_label_violated"
   ],
   "note": "all predefined scalars (with C15), real arithmetic; expressions of numexpr in the modelled fragment; the label of Ekin_keV is keV/u"
  },
  {
   "property": "C62",
   "status": "partial",
   "theorems": [
    "Postpic.Props.createField_partial",
    "Postpic.Props.createField_additive_partial",
    "Postpic.Props.createField_nonneg_partial",
    "Postpic.Props.createField_outside_violated"
   ],
   "note": "one to three axes, any number of bins, all particle shapes; the particles lie within the ranges or at least 3/2 cells outside, those just below a range get wrong and negative weights (violated); exact arithmetic; splines exact on even grids"
  },
  {
   "property": "C63",
   "status": "partial",
   "theorems": [
    "Postpic.Props.createField_marginal_partial",
    "Postpic.Props.createField_total_partial",
    "Postpic.Props.createField_projection_partial",
    "Postpic.Props.integrate_default_total_violated"
   ],
   "note": "integration with the methods constant and fast; the default method (Simpson over the grid points) misses the outer halves of the border cells (violated)"
  },
  {
   "property": "C64",
   "status": "partial",
   "theorems": [
    "Postpic.Props.createField_name_partial",
    "Postpic.Props.createField_refused",
    "Postpic.Props.createField_simgrid_ignored",
    "Postpic.Props.createField_empty_violated",
    "Postpic.Props.createField_empty_partial",
    "Postpic.Props.createField_simgrid_violated",
    "Postpic.Props.createField_simextent_violated",
    "Postpic.Props.createField_name_violated"
   ],
   "note": "simextent with positions is part of C62; simgrid has no effect, empty histograms with one or two axes are refused, simextent fails with other scalars than positions, name is ignored with weights"
  },
  {
   "property": "C65",
   "status": "partial",
   "theorems": [
    "Postpic.Props.integrate_method_partial",
    "Postpic.Props.integrate_default_axis",
    "Postpic.Props.simpson_value",
    "Postpic.Props.trapezoid_value",
    "Postpic.Props.integrate_default_exact_partial",
    "Postpic.Props.integrate_default_negative_violated",
    "Postpic.Props.integrate_default_total_violated",
    "Postpic.Props.integrate_default_single_violated"
   ],
   "note": "all fields and axes, exact arithmetic; several negative or repeated axis numbers remove the wrong axes, the outer halves of the border cells are not integrated, a single cell gives zero (violated)"
  },
  {
   "property": "C66",
   "status": "partial",
   "theorems": [
    "Postpic.Props.gradient_partial",
    "Postpic.Props.gradient_linear",
    "Postpic.Props.gradient_border_violated"
   ],
   "note": "all fields and axes, exact arithmetic; first order only at the border (violated)"
  },
  {
   "property": "C67",
   "status": "partial",
   "theorems": [
    "Postpic.Props.component_partial",
    "Postpic.Props.energy_density_partial",
    "Postpic.Props.divE_partial",
    "Postpic.Props.divE_linear_partial",
    "Postpic.Props.divE_violated",
    "Postpic.Props.component_unit_violated",
    "Postpic.Props.energy_density_stagger_violated"
   ],
   "note": "grids of one to three dimensions with two or more points; divE is the divergence per cell and not per metre, Br and Btheta have the unit V/m, staggering of the components is ignored (violated)"
  },
  {
   "property": "C68",
   "status": "partial",
   "theorems": [
    "Postpic.Props.shift_linear_partial",
    "Postpic.Props.shift_linear_axes_refused",
    "Postpic.Props.shift_linear_exact",
    "Postpic.Props.unstagger_partial",
    "Postpic.Props.unstagger_refused",
    "Postpic.Props.adjust_stagger_partial",
    "Postpic.Props.shift_linear_name_violated",
    "Postpic.Props.shift_linear_reversed_violated",
    "Postpic.Props.unstagger_tolerance_violated",
    "Postpic.Props.shift_linear_complex_violated"
   ],
   "note": "increasing even axes, real data, exact arithmetic; moved axes lose name and unit, decreasing axes move the wrong way, complex data raise a NameError, staggers below 10 nm are ignored (violated)"
  },
  {
   "property": "C69",
   "status": "partial",
   "theorems": [
    "Postpic.Props.epoch_value_partial",
    "Postpic.Props.epoch_plane_wave_partial",
    "Postpic.Props.epoch_extent_partial",
    "Postpic.Props.epoch_dispersion_violated",
    "Postpic.Props.epoch_argument_violated"
   ],
   "note": "evenly spaced grids, with an extent at least two points remain, response nowhere 0; the dispersion relation passed is not used in the last step and a field of the caller in the frequency domain is overwritten (violated)"
  },
  {
   "property": "C70",
   "status": "partial",
   "theorems": [
    "Postpic.Props.time_profile_partial",
    "Postpic.Props.time_profile_spatial_partial",
    "Postpic.Props.time_profile_modulus",
    "Postpic.Props.valueInPlane_fft",
    "Postpic.Props.time_profile_phase_violated"
   ],
   "note": "evenly spaced grids, iterative algorithm; the result has an additional constant phase (violated), its modulus is right; one-dimensional fields in the spatial domain not modelled"
  },
  {
   "property": "C71",
   "status": "partial",
   "theorems": [
    "Postpic.Props.h5_property_partial",
    "Postpic.Props.h5_missing",
    "Postpic.Props.epoch_property",
    "Postpic.Props.property_spellings",
    "Postpic.Props.weight_records",
    "Postpic.Props.property_errors",
    "Postpic.Props.id_cut_off",
    "Postpic.Props.fetch_speciesDump",
    "Postpic.Props.ids_large_violated",
    "Postpic.Props.momentum_weighted_violated",
    "Postpic.Props.attribute_number_violated"
   ],
   "note": "openPMD, Smilei, EPOCH; records of single particles and integers below 2^53; large ids collide, records written for whole macro-particles are not divided by the weights, the number 5 is not accepted (violated)"
  },
  {
   "property": "C72",
   "status": "partial",
   "theorems": [
    "Postpic.Props.kspace_method_default_partial",
    "Postpic.Props.kspace_method_epoch_partial",
    "Postpic.Props.kspace_method_extent_partial",
    "Postpic.Props.kspace_method_alignment",
    "Postpic.Props.kspace_method_needs",
    "Postpic.Props.kspace_method_solver",
    "Postpic.Props.yee_dispersion",
    "Postpic.Props.kspace_first_dump_violated",
    "Postpic.Props.kspace_name_violated"
   ],
   "note": "evenly spaced grids less than two cells apart, with an extent at least two points remain; the alignment depends on the name of the dump, which can be changed, and the first dump of EPOCH gives nan (violated)"
  },
  {
   "property": "C73",
   "status": "partial",
   "theorems": [
    "Postpic.Props.collection_history_partial",
    "Postpic.Props.uncompress_restores",
    "Postpic.Props.getcompresslog_partial",
    "Postpic.Props.invert_bare_violated",
    "Postpic.Props.filter_number_violated",
    "Postpic.Props.compresslog_names_violated"
   ],
   "note": "histories as in Usable: conditions of the right length, ids not empty, inversion only after a restriction; otherwise TypeError or lost logs (violated)"
  },
  {
   "property": "C74",
   "status": "partial",
   "theorems": [
    "Postpic.Props.compress_array_partial",
    "Postpic.Props.compress_again_independent",
    "Postpic.Props.select_array_partial",
    "Postpic.Props.compress_shared_violated",
    "Postpic.Props.select_sorts_violated"
   ],
   "note": "the selection of a species which was not filtered before is the array of the user, and an array of ids is sorted in place (violated)"
  },
  {
   "property": "C75",
   "status": "partial",
   "theorems": [
    "Postpic.Props.accessors_partial",
    "Postpic.Props.warnings_partial",
    "Postpic.Props.accessor_units_partial",
    "Postpic.Props.momentum_unit_violated",
    "Postpic.Props.angle_yz_violated",
    "Postpic.Props.y_um_hint_violated",
    "Postpic.Props.charge_unit_violated"
   ],
   "note": "all 46 methods but angle_yz, which raises KeyError; the warning of Y_um names a scalar which does not exist, and the unit of charge is that of charge_e, those of momenta are empty (violated)"
  },
  {
   "property": "C76",
   "status": "partial",
   "theorems": [
    "Postpic.Props.csv_roundtrip_partial",
    "Postpic.Props.csv_default_violated",
    "Postpic.Props.csv_dimensions_violated",
    "Postpic.Props.double_text_roundtrip",
    "Postpic.Props.csv_doubles_partial",
    "Postpic.Props.csv_doubles_default_violated"
   ],
   "note": "two dimensions with two or more points and delimiter=' '; with the default delimiter no exported file can be imported, and the extent is lost (violated); the texts '%.18e' of all doubles are read exactly"
  },
  {
   "property": "C77",
   "status": "partial",
   "theorems": [
    "Postpic.Props.image_grey",
    "Postpic.Props.image_channels",
    "Postpic.Props.png_counts_partial",
    "Postpic.Props.png_plain",
    "Postpic.Props.hotpixel_grey_violated",
    "Postpic.Props.hotpixel_channels_violated",
    "Postpic.Props.png_eight_bits_violated",
    "Postpic.Props.png_colours_violated"
   ],
   "note": "orientation for all images; hotpixelremove does nothing or raises RuntimeError, png files with the chunk sBIT and 8 bits become black, those with colours raise TypeError (violated); decoding of images is a parameter"
  },
  {
   "property": "C78",
   "status": "partial",
   "theorems": [
    "Postpic.Props.figures_distinct",
    "Postpic.Props.figures_distinct_partial",
    "Postpic.Props.figures_percent_violated",
    "Postpic.Props.figures_extension_violated",
    "Postpic.Props.figures_outdir_partial",
    "Postpic.Props.figures_outdir_violated",
    "Postpic.Props.lastsavename_partial",
    "Postpic.Props.lastsavename_violated"
   ],
   "note": "all sequences of figures of one reader, and of several readers with one extension and without percent signs; otherwise errors or equal files; outdir without a slash is a prefix, lastsavename() lacks the extension (violated)"
  },
  {
   "property": "C79",
   "status": "partial",
   "theorems": [
    "Postpic.Props.picture_shows_partial",
    "Postpic.Props.line_shows",
    "Postpic.Props.plot_field_partial",
    "Postpic.Props.plot_maxlen_violated",
    "Postpic.Props.picture_two_cells_violated",
    "Postpic.Props.picture_uneven_violated",
    "Postpic.Props.lineout_violated",
    "Postpic.Props.lineout_partial",
    "Postpic.Props.lineouty_partial",
    "Postpic.Props.lineouty_violated",
    "Postpic.Props.lineout_uneven_violated",
    "Postpic.Props.plot_infos_partial",
    "Postpic.Props.plot_infos_violated",
    "Postpic.Props.plot_savecsv_violated"
   ],
   "note": "exactly even axes or axes which do not count as even; two cells and cells below 10 nm are drawn evenly, autoreduce has no effect, lineouts are stretched to the borders, infos of the caller are emptied, savecsv raises a TypeError (violated)"
  },
  {
   "property": "C80",
   "status": "partial",
   "theorems": [
    "Postpic.Props.assign_partial",
    "Postpic.Props.assign_count",
    "Postpic.Props.assign_refused",
    "Postpic.Props.assign_get",
    "Postpic.Props.assign_violated"
   ],
   "note": "all numbers, coordinates, slices with all steps, KeepDim and ranges of coordinates in the direction of the axis; KeepDim(-1) and numbers in KeepDim beyond the end silently select nothing, ranges against the direction of the axis are shifted (violated); arrays as indices: C106"
  },
  {
   "property": "C81",
   "status": "partial",
   "theorems": [
    "Postpic.Props.series_glob_order",
    "Postpic.Props.series_order_partial",
    "Postpic.Props.series_times_partial",
    "Postpic.Props.series_order_violated"
   ],
   "note": "proved for numbers written with equally many digits; names are sorted as strings, so that d10 comes before d9 (violated)"
  },
  {
   "property": "C82",
   "status": "partial",
   "theorems": [
    "Postpic.Props.visit_lines_partial",
    "Postpic.Props.visit_paths",
    "Postpic.Props.visit_lines_violated"
   ],
   "note": "proved for files with one name per line; empty lines and !NBLOCKS lines count as dumps (violated)"
  },
  {
   "property": "C83",
   "status": "partial",
   "theorems": [
    "Postpic.Props.openpmd_iteration",
    "Postpic.Props.first_iteration_partial",
    "Postpic.Props.smilei_series_partial",
    "Postpic.Props.first_iteration_violated",
    "Postpic.Props.padded_iteration_violated",
    "Postpic.Props.smilei_index_violated",
    "Postpic.Props.smilei_crash_violated",
    "Postpic.Props.smilei_file_violated"
   ],
   "note": "proved for explicit iterations, for the earliest one among numbers with equally many digits, and for a Smilei directory without an index file; violated for 90 and 100, for names with leading zeros, for an index file which is out of date or incomplete, and for a SmileiSeries of a single file"
  },
  {
   "property": "C84",
   "status": "partial",
   "theorems": [
    "Postpic.Props.dump_eq_partial",
    "Postpic.Props.dump_eq_equivalence",
    "Postpic.Props.collection_dump_partial",
    "Postpic.Props.collection_dump_empty",
    "Postpic.Props.name_partial",
    "Postpic.Props.dump_eq_violated",
    "Postpic.Props.dump_eq_mixed_violated",
    "Postpic.Props.collection_dump_violated",
    "Postpic.Props.name_zero_violated"
   ],
   "note": "proved if there is one iteration per location; different iterations of a file compare equal, dummy dumps compared with others raise an exception, the number 0 is lost as a name, MultiSpecies.simgridpoints never returns a number (violated)"
  },
  {
   "property": "C85",
   "status": "partial",
   "theorems": [
    "Postpic.Props.epoch_component",
    "Postpic.Props.pmd_component_partial",
    "Postpic.Props.fbpic_component_partial",
    "Postpic.Props.smilei_component_partial",
    "Postpic.Props.fbpic_magnetic_violated",
    "Postpic.Props.smilei_theta_violated",
    "Postpic.Props.constant_component_violated"
   ],
   "note": "proved for EPOCH, openPMD arrays, the electric field of fbpic and Smilei at angle 0; the magnetic field of fbpic raises NameError, Smilei ignores the angle, constant records have no axes (violated)"
  },
  {
   "property": "C86",
   "status": "partial",
   "theorems": [
    "Postpic.Props.epoch_species_partial",
    "Postpic.Props.epoch_derived_partial",
    "Postpic.Props.pmd_derived_partial",
    "Postpic.Props.pmd_species_partial",
    "Postpic.Props.simdimensions_partial",
    "Postpic.Props.epoch_simdimensions",
    "Postpic.Props.epoch_species_violated",
    "Postpic.Props.epoch_derived_violated",
    "Postpic.Props.pmd_derived_violated",
    "Postpic.Props.smilei_derived_partial",
    "Postpic.Props.smilei_derived_violated",
    "Postpic.Props.pmd_species_violated",
    "Postpic.Props.simdimensions_violated"
   ],
   "note": "proved for names of word characters; other names are cut, openPMD drops fields beginning with E or B and lists nothing with h5py 3, fbpic has no simdimensions, openPMD files without particles raise KeyError; Smilei lists everything as a derived field (violated)"
  },
  {
   "property": "C87",
   "status": "partial",
   "theorems": [
    "Postpic.Props.vtk_file_partial",
    "Postpic.Props.vtk_vector_file_partial",
    "Postpic.Props.vtk_default_unstaggers",
    "Postpic.Props.vtk_name_violated",
    "Postpic.Props.values_read",
    "Postpic.Props.vtk_double_partial",
    "Postpic.Props.vtk_float_partial"
   ],
   "note": "proved for names which are not empty, ascii and without tabs or line breaks, on axes as in C37; the bytes of doubles are those of IEEE 754 (bit by bit for type double, relative error 2^-24 for type float, NaN and infinities kept), the text of a double is a parameter which must be read exactly; a field without a name gives an unreadable file (violated)"
  },
  {
   "property": "C88",
   "status": "partial",
   "theorems": [
    "Postpic.Props.vtk_failed_partial",
    "Postpic.Props.vtk_refused",
    "Postpic.Props.vtk_failed_violated"
   ],
   "note": "proved for scalar fields of one shape and ascii names; a name which is not ascii, fields of different shapes and CellData destroy the existing file (violated)"
  },
  {
   "property": "C89",
   "status": "partial",
   "theorems": [
    "Postpic.Props.operator_entries",
    "Postpic.Props.comparison_entries",
    "Postpic.Props.operator_accepts_partial",
    "Postpic.Props.comparison_accepts_partial",
    "Postpic.Props.operator_axes",
    "Postpic.Props.operator_refuses_other",
    "Postpic.Props.unary_entries",
    "Postpic.Props.divmod_entries",
    "Postpic.Props.operator_array_stretch_violated",
    "Postpic.Props.operator_four_dimensions_violated"
   ],
   "note": "what is returned is right for all operands; accepted for up to three dimensions and arrays which do not stretch the field (otherwise violated)"
  },
  {
   "property": "C90",
   "status": "partial",
   "theorems": [
    "Postpic.Props.inplace_accepts",
    "Postpic.Props.inplace_result",
    "Postpic.Props.inplace_as_operator_partial",
    "Postpic.Props.inplace_states_violated"
   ],
   "note": "proved but for domains and origins, which f op y may take from y and f op= y does not (violated); casting of types is not modelled"
  },
  {
   "property": "C91",
   "status": "partial",
   "theorems": [
    "Postpic.Props.ufunc_reduce_method",
    "Postpic.Props.ufunc_reduce_all",
    "Postpic.Props.ufunc_outer_partial",
    "Postpic.Props.ufunc_reduce_keepdims_violated",
    "Postpic.Props.ufunc_outer_array_violated"
   ],
   "note": "reduce agrees with the methods of C49; keepdims and outer products with plain arrays are always refused (violated)"
  },
  {
   "property": "C92",
   "status": "partial",
   "theorems": [
    "Postpic.Props.wrap_partial",
    "Postpic.Props.wrap_lengths_violated",
    "Postpic.Props.wrap_positions_violated"
   ],
   "note": "proved for functions which keep the shape and the positions and for results with another number of dimensions; np.repeat raises, np.take and np.sort keep the old axis (violated)"
  },
  {
   "property": "C93",
   "status": "partial",
   "theorems": [
    "Postpic.Props.element_mass_partial",
    "Postpic.Props.named_species",
    "Postpic.Props.element_missing_violated",
    "Postpic.Props.element_mass_violated",
    "Postpic.Props.element_unit_violated"
   ],
   "note": "all charges and prefixes for 85 elements, to 0.2 percent of the weight in proton masses; three elements are missing, four have wrong masses and the unit should be the atomic mass unit, which is 0.7 percent smaller (violated)"
  },
  {
   "property": "C94",
   "status": "partial",
   "theorems": [
    "Postpic.Props.extent_set_partial",
    "Postpic.Props.extent_count",
    "Postpic.Props.extent_same_partial",
    "Postpic.Props.extent_uneven_partial",
    "Postpic.Props.field_spacing",
    "Postpic.Props.extent_atomic_violated",
    "Postpic.Props.extent_same_violated"
   ],
   "note": "all fields of up to three dimensions (a limit of all fields); a refused assignment can change some axes, and grid points outside the middle of their cells are moved (violated)"
  },
  {
   "property": "C95",
   "status": "partial",
   "theorems": [
    "Postpic.Props.complex_parts",
    "Postpic.Props.complex_angle",
    "Postpic.Props.complex_phase",
    "Postpic.Props.complex_unwrap_partial",
    "Postpic.Props.complex_conj",
    "Postpic.Props.complex_phase_violated"
   ],
   "note": "complex numbers are exact, the function of skimage is a parameter; without skimage the default arguments of phase raise a TypeError (violated)"
  },
  {
   "property": "C96",
   "status": "partial",
   "theorems": [
    "Postpic.Props.evaluate_entries",
    "Postpic.Props.evaluate_numbers",
    "Postpic.Props.evaluate_unknown",
    "Postpic.Props.evaluate_given",
    "Postpic.Props.evaluate_caller_partial",
    "Postpic.Props.evaluate_class_violated"
   ],
   "note": "expressions are trees of functions of one or two arguments; the text is not parsed. In the body of a class or code with a dictionary of its own all variables of the caller are deleted (violated)"
  },
  {
   "property": "C97",
   "status": "partial",
   "theorems": [
    "Postpic.Props.vacuum_constants",
    "Postpic.Props.constants_partial",
    "Postpic.Props.mass_u_violated",
    "Postpic.Props.ncrit_partial",
    "Postpic.Props.ncrit_violated"
   ],
   "note": "mass_u is the mass of a proton (violated), the other constants are right; all wavelengths, to half a percent; the constant is 0.4 percent too small (violated)"
  },
  {
   "property": "C98",
   "status": "partial",
   "theorems": [
    "Postpic.Props.profile_dispersion",
    "Postpic.Props.profile_dispersion_onto",
    "Postpic.Props.profile_amplitude_partial",
    "Postpic.Props.profile_window_partial",
    "Postpic.Props.profile_time",
    "Postpic.Props.profile_algorithms",
    "Postpic.Props.profile_unit_violated",
    "Postpic.Props.profile_backward_violated",
    "Postpic.Props.profile_nan_violated",
    "Postpic.Props.profile_1d_violated",
    "Postpic.Props.profile_window_violated",
    "Postpic.Props.profile_plane_violated"
   ],
   "note": "the formulas at each wave vector; the interpolation between the grid points (map_coordinates) is not part of the statement. The amplitude is too large by the factor c, the sign is wrong for dir < 0, perpendicular waves give nan, one dimension is a TypeError, the time window is wrong for dir < 0 and the default plane is not the documented one (violated)"
  },
  {
   "property": "C99",
   "status": "partial",
   "theorems": [
    "Postpic.Props.adaptive_step_partial",
    "Postpic.Props.adaptive_2d_partial",
    "Postpic.Props.adaptive_times",
    "Postpic.Props.adaptive_stops_partial",
    "Postpic.Props.adaptive_zeroth",
    "Postpic.Props.adaptive_domain",
    "Postpic.Props.adaptive_zero_violated",
    "Postpic.Props.adaptive_1d_violated",
    "Postpic.Props.adaptive_3d_violated"
   ],
   "note": "single steps for evenly spaced fields of any size (more than 4000 points per dimension are reduced first), times and ends for all fields; that a step succeeds is proved for two dimensions if the propagated field is not 0. The final time 0 is ignored, one and three dimensions always raise an exception (violated)"
  },
  {
   "property": "C100",
   "status": "partial",
   "theorems": [
    "Postpic.Props.dummy_reproducible_partial",
    "Postpic.Props.dummy_attributes",
    "Postpic.Props.dummy_momenta",
    "Postpic.Props.dummy_sim_order",
    "Postpic.Props.dummy_sim_particles",
    "Postpic.Props.dummy_fields",
    "Postpic.Props.dummy_fields_finite",
    "Postpic.Props.dummy_time",
    "Postpic.Props.dummy_reproducible_violated",
    "Postpic.Props.dummy_state_violated"
   ],
   "note": "reproducible with a seed and functions which use only the generator of numpy; readers without seed compare as equal with different particles, and opening a dump resets the generator of the whole program (violated)"
  },
  {
   "property": "C101",
   "status": "partial",
   "theorems": [
    "Postpic.Props.epoch_old_partial",
    "Postpic.Props.epoch_old_same_partial",
    "Postpic.Props.epoch_old_extent_partial",
    "Postpic.Props.epoch_old_argument_violated"
   ],
   "note": "fields of real type in the spatial domain on evenly spaced grids; without extent the dictionary of the caller is changed and a second call moves the field again (violated)"
  },
  {
   "property": "C102",
   "status": "partial",
   "theorems": [
    "Postpic.Props.figure_texts_partial",
    "Postpic.Props.axes_texts",
    "Postpic.Props.no_reader",
    "Postpic.Props.figure_time_violated",
    "Postpic.Props.lines_texts_violated"
   ],
   "note": "dumps whose time and step are not 0; at the time 0 no time is shown, at step 0 no step, and plots of lines draw different texts over each other (violated)"
  },
  {
   "property": "C103",
   "status": "partial",
   "theorems": [
    "Postpic.Props.propagate_overwrites_nothing",
    "Postpic.Props.propagate_history_spatial_partial",
    "Postpic.Props.propagate_history_frequency_partial",
    "Postpic.Props.propagate_error_first",
    "Postpic.Props.propagate_direction_changed",
    "Postpic.Props.propagate_result_shared_violated",
    "Postpic.Props.propagate_zeroth_shared_violated",
    "Postpic.Props.propagate_lazy_violated",
    "Postpic.Props.propagate_direction_violated"
   ],
   "note": "evenly spaced grids; fields in the spatial domain: all programs which leave the arguments alone until the first result; in the frequency domain the results are the objects the computation goes on with, the zeroth step is the given field itself, the arguments are read and checked only at the first result, and a direction given as an array of floats is normalised in place (violated)"
  },
  {
   "property": "C104",
   "status": "partial",
   "theorems": [
    "Postpic.Props.map_complex_cartesian",
    "Postpic.Props.map_complex_polar",
    "Postpic.Props.map_complex_refused",
    "Postpic.Props.map_complex_same_grid_partial",
    "Postpic.Props.map_complex_affine_jacobian",
    "Postpic.Props.map_complex_single_point",
    "Postpic.Props.map_complex_cut_violated"
   ],
   "note": "Any number of dimensions and any transform. The numerical Jacobian is exact for affine transforms, for others it is an approximation. Without unwrapping (mode polar-no-unwrap, or skimage missing) values across the branch cut are interpolated to the opposite sign (violated); with the default determinant a new axis with one point is refused."
  },
  {
   "property": "C105",
   "status": "partial",
   "theorems": [
    "Postpic.Props.meshgrid_coordinates",
    "Postpic.Props.broadcast_to_partial",
    "Postpic.Props.broadcast_to_refused",
    "Postpic.Props.broadcast_to_larger_violated"
   ],
   "note": "meshes are right for all fields; with numpy before 1.10 broadcast_to accepts arrays which are larger than the given shape (violated)"
  },
  {
   "property": "C106",
   "status": "partial",
   "theorems": [
    "Postpic.Props.mask_assign_partial",
    "Postpic.Props.mask_shape_refused",
    "Postpic.Props.nums_assign",
    "Postpic.Props.list_assign",
    "Postpic.Props.mask_array_violated",
    "Postpic.Props.mask_square_violated",
    "Postpic.Props.mask_get_violated"
   ],
   "note": "one dimension with masks given as fields or in tuples, or lists in tuples; arrays of truth values are refused unless the field has one point, with 2 times 2 points other elements are changed, lists of numbers which are not in a tuple mean one number per dimension, and reading through a mask returns a field without axes (violated)"
  },
  {
   "property": "C107",
   "status": "partial",
   "theorems": [
    "Postpic.Props.version_checkout",
    "Postpic.Props.version_released",
    "Postpic.Props.version_determines_partial",
    "Postpic.Props.version_untagged",
    "Postpic.Props.archive_version",
    "Postpic.Props.archive_same_version",
    "Postpic.Props.archive_untagged",
    "Postpic.Props.archive_other_tags",
    "Postpic.Props.version_missing",
    "Postpic.Props.version_plus_violated",
    "Postpic.Props.archive_branch_violated",
    "Postpic.Props.version_directory_violated",
    "Postpic.Props.version_other_tag_violated"
   ],
   "note": "the answers of git are parameters; tags with a plus sign make the version ambiguous, in archives without tags a branch is taken for a version, the prefix of the directory is the text None, and without git and keywords there is no version (violated)"
  },
  {
   "property": "C108",
   "status": "partial",
   "theorems": [
    "Postpic.Props.add_species_partial",
    "Postpic.Props.collection_species_partial",
    "Postpic.Props.collection_count_partial",
    "Postpic.Props.add_unknown",
    "Postpic.Props.collection_unknown_violated",
    "Postpic.Props.collection_recursion_violated"
   ],
   "note": "for dumps where no species is called like a keyword and the keywords used are decided for every species; one species of unknown kind makes a keyword unusable, and a species called like a keyword makes it call itself without end (violated)"
  },
  {
   "property": "C109",
   "status": "partial",
   "theorems": [
    "Postpic.Props.shift_waves_partial",
    "Postpic.Props.unstagger_fourier_partial",
    "Postpic.Props.adjust_stagger_fourier_partial",
    "Postpic.Props.stagger_back_partial",
    "Postpic.Props.vtk_unstaggered_partial",
    "Postpic.Props.vtk_unstaggered_vector_partial",
    "Postpic.Props.unstagger_nyquist_violated"
   ],
   "note": "spatial domain, increasing even axes of at least two points, exact arithmetic; unstaggering for real fields; a shortest wave moved by half a cell vanishes (violated), staggers below 10 nm are ignored (C68)"
  },
  {
   "property": "C110",
   "status": "partial",
   "theorems": [
    "Postpic.Props.spline_value",
    "Postpic.Props.spline_unique",
    "Postpic.Props.spline_exact",
    "Postpic.Props.spline_linear",
    "Postpic.Props.spline_constant",
    "Postpic.Props.spline_range_partial",
    "Postpic.Props.spline_range_violated",
    "Postpic.Props.spline_integer_violated",
    "Postpic.Props.map_coordinates_parallel_spline",
    "Postpic.Props.spline_same_grid_partial",
    "Postpic.Props.spline_same_grid_complex_partial"
   ],
   "note": "exact arithmetic, all orders and dimensions; the range of the data is kept for orders 0 and 1, cubic splines of a density can be negative (violated); samples of integers are rounded (violated); short uneven axes: C60"
  },
  {
   "property": "C111",
   "status": "proved",
   "theorems": [
    "Postpic.Props.histogram_weights_add",
    "Postpic.Props.histogram2d_weights_add",
    "Postpic.Props.histogram3d_weights_add",
    "Postpic.Props.histogram_weights_none",
    "Postpic.Props.histogram2d_weights_none",
    "Postpic.Props.histogram3d_weights_none",
    "Postpic.Props.histogram_scale",
    "Postpic.Props.histogram2d_scale",
    "Postpic.Props.histogram3d_scale"
   ],
   "note": "exact arithmetic; non-degenerate range, less than 2^31 bins, one weight per particle"
  },
  {
   "property": "C112",
   "status": "proved",
   "theorems": [
    "Postpic.Props.histogram_units",
    "Postpic.Props.histogram2d_units",
    "Postpic.Props.histogram3d_units",
    "Postpic.Props.histogramdd_units",
    "Postpic.Props.histogramdd_units_2d",
    "Postpic.Props.histogramdd_units_3d"
   ],
   "note": "exact arithmetic; non-degenerate range, less than 2^31 bins, one weight per particle"
  },
  {
   "property": "C113",
   "status": "proved",
   "theorems": [
    "Postpic.Props.histogram_merge",
    "Postpic.Props.histogram2d_merge",
    "Postpic.Props.histogram3d_merge"
   ],
   "note": "exact arithmetic; non-degenerate range, less than 2^31 bins, one weight per particle"
  },
  {
   "property": "C114",
   "status": "proved",
   "theorems": [
    "Postpic.Props.rearrange_each",
    "Postpic.Props.rearrange_related",
    "Postpic.Props.rearrange_binary",
    "Postpic.Props.rearrange_number"
   ],
   "note": "sequences of any length; slices with step 1 or -1; an operation on rearranged fields is possible if they have at most three dimensions"
  },
  {
   "property": "C115",
   "status": "proved",
   "theorems": [
    "Postpic.Props.methods_linear",
    "Postpic.Props.pad_linear",
    "Postpic.Props.fft_linear",
    "Postpic.Props.ensure_state_linear",
    "Postpic.Props.shift_linear",
    "Postpic.Props.resample_linear",
    "Postpic.Props.topolar_linear",
    "Postpic.Props.map_axis_grid_linear"
   ],
   "note": "sequences of any length; exact numbers; the calls which do not end (autoreduce) are compared as well; resampling with splines of any order in all modes"
  },
  {
   "property": "C116",
   "status": "proved",
   "theorems": [
    "Postpic.Props.fft_axes_order",
    "Postpic.Props.fft_axes_default",
    "Postpic.Props.fft_temporal",
    "Postpic.Props.fft_signs",
    "Postpic.Props.fft_separate",
    "Postpic.Props.fft_real",
    "Postpic.Props.fft_zero"
   ],
   "note": "separate calls: at least two points along each of the axes; real values and k = 0: wherever the grid of the frequencies has the points; exact numbers"
  },
  {
   "property": "C117",
   "status": "proved",
   "theorems": [
    "Postpic.Props.integrate_separately",
    "Postpic.Props.reduce_separately",
    "Postpic.Props.derivatives_commute",
    "Postpic.Props.derivative_integrate_commute"
   ],
   "note": "exact numbers"
  },
  {
   "property": "C118",
   "status": "partial",
   "theorems": [
    "Postpic.Props.histogram_float_safe",
    "Postpic.Props.histogram2d_float_safe_partial",
    "Postpic.Props.histogram3d_float_safe_partial",
    "Postpic.Props.histogram2d_float_safe_violated",
    "Postpic.Props.histogram3d_float_safe_violated",
    "Postpic.Props.histogram_not_finite",
    "Postpic.Props.histogram2d_not_finite_partial",
    "Postpic.Props.histogram3d_not_finite_partial",
    "Postpic.Props.histogram_counts",
    "Postpic.Props.histogram2d_counts",
    "Postpic.Props.histogram3d_counts",
    "Postpic.Props.histogram_exact",
    "Postpic.Props.histogram2d_exact",
    "Postpic.Props.histogram3d_exact"
   ],
   "note": "violated in two and three dimensions: a particle at plus infinity (or beyond 2**31 bins) along the second axis, for the tophat shape also the third one, is written outside of the array; everything else holds"
  },
  {
   "property": "C119",
   "status": "proved",
   "theorems": [
    "Postpic.Props.histogram_conserved_rounded",
    "Postpic.Props.histogram2d_conserved_rounded",
    "Postpic.Props.histogram3d_conserved_rounded",
    "Postpic.Props.histogram_weights_rounded",
    "Postpic.Props.histogram_order_rounded_violated",
    "Postpic.Props.binary53_accurate"
   ],
   "note": "histogram_order_rounded_violated shows that the order independence of C03 does not survive rounding, so that a bound is the best one can get"
  },
  {
   "property": "C120",
   "status": "partial",
   "theorems": [
    "Postpic.Props.pad_forms_partial",
    "Postpic.Props.pad_refused",
    "Postpic.Props.pad_argument_partial",
    "Postpic.Props.pad_before_after_violated",
    "Postpic.Props.pad_argument_violated",
    "Postpic.Props.pad_array_violated"
   ],
   "note": "violated: (before, after) is taken for one number per dimension, a list with one entry is lengthened in place, the number in an array is multiplied by the number of dimensions; everything else holds"
  },
  {
   "property": "C121",
   "status": "partial",
   "theorems": [
    "Postpic.Props.reduce_out_field",
    "Postpic.Props.reduce_out_array_partial",
    "Postpic.Props.reduce_out_array_violated",
    "Postpic.Props.reduce_out_zero_violated",
    "Postpic.Props.reduce_out_tuple_violated"
   ],
   "note": "holds for fields. violated for arrays with several entries (written, then a ValueError), for results which are 0 and for tuples (both NameError)"
  },
  {
   "property": "C122",
   "status": "proved",
   "theorems": [
    "Postpic.Props.nearest_rounded",
    "Postpic.Props.nearest_rounded_grid_point",
    "Postpic.Props.nearest_rounded_near",
    "Postpic.Props.nearest_rounded_exact",
    "Postpic.Props.value_to_index_rounded",
    "Postpic.Props.value_to_index_rounded_grid",
    "Postpic.Props.nearest_rounded_violated"
   ],
   "note": "Rounding is a parameter, as in C98 and C119; comparisons are exact. Overflow is included in the first theorem only. nearest_rounded_violated shows why the factor (1+u)/(1-u) is needed: with 53 binary digits, rounded to nearest, the nearest point in the exact sense is missed."
  },
  {
   "property": "C123",
   "status": "partial",
   "theorems": [
    "Postpic.Props.axis_from_extent_rounded_partial",
    "Postpic.Props.axis_from_extent_index_rounded_partial",
    "Postpic.Props.axis_from_extent_rounded_violated"
   ],
   "note": "True if the cells are larger than about 34 (80 for the index) times u*(|a|+|b|) and the spline of scipy, used for more than two points, gives the cell centers up to an error e which is small compared to the cells; neither overflow nor underflow. Violated for smaller cells: an axis with equal nodes is accepted, because nodes made from the extent are not checked."
  },
  {
   "property": "C124",
   "status": "proved",
   "theorems": [
    "Postpic.Props.scalar_rounded",
    "Postpic.Props.scalar_difference_rounded",
    "Postpic.Props.momentum_scalars_rounded",
    "Postpic.Props.record_scalars_rounded",
    "Postpic.Props.ekin_rounded_pos",
    "Postpic.Props.gamma_minus_one_loses_digits"
   ],
   "note": "every arithmetic operation, root and arctan2 followed by a rounding of given relative accuracy, no overflow or underflow; stored values are exact; 80 u at most 1"
  },
  {
   "property": "C125",
   "status": "proved",
   "theorems": [
    "Postpic.Props.mean_rounded",
    "Postpic.Props.var_rounded",
    "Postpic.Props.cumsum_rounded_ascending",
    "Postpic.Props.quantile_rounded",
    "Postpic.Props.mean_rounded_outside",
    "Postpic.Props.var_rounded_positive",
    "Postpic.Props.nearest53_format",
    "Postpic.Props.nearest53_rounding"
   ],
   "note": "every operation followed by a rounding of given relative accuracy, no overflow or underflow; data and weights are exact. mean_rounded_outside and var_rounded_positive show that the errors are real: the computed mean of three equal numbers is larger than the numbers, their variance is not 0."
  },
  {
   "property": "C126",
   "status": "proved",
   "theorems": [
    "Postpic.Props.integrate_fast_rounded",
    "Postpic.Props.integrate_constant_rounded",
    "Postpic.Props.integrate_methods_rounded",
    "Postpic.Props.sum_rounded",
    "Postpic.Props.integrate_fast_rounded_relative",
    "Postpic.Props.chain_summation",
    "Postpic.Props.integrate_methods_differ"
   ],
   "note": "every operation followed by a rounding of given relative accuracy, no overflow or underflow; values and nodes are exact. integrate_methods_differ shows that the errors are real: both methods give different doubles for the same field. Negative numbers of dimensions: see C26."
  },
  {
   "property": "C127",
   "status": "proved",
   "theorems": [
    "Postpic.Props.derivative_rounded",
    "Postpic.Props.derivative_stagger_rounded",
    "Postpic.Props.derivative_stagger_sign",
    "Postpic.Props.derivative_constant_rounded"
   ],
   "note": "every operation followed by a rounding of given relative accuracy, no overflow or underflow; values and coordinates are exact, the test for evenly spaced axes (staggered derivative only) is exact. derivative_constant_rounded shows that the bound cannot be relative: the computed derivative of a constant on the points 0.1, 0.2, 0.5 is not 0."
  },
  {
   "property": "C128",
   "status": "partial",
   "theorems": [
    "Postpic.Props.degenerate_middle",
    "Postpic.Props.histogram_degenerate_partial",
    "Postpic.Props.histogram_degenerate_negative_violated",
    "Postpic.Props.histogram_degenerate_zero_violated",
    "Postpic.Props.double_rounding",
    "Postpic.Props.double_format",
    "Postpic.Props.double_near",
    "Postpic.Props.histogram2d_plane_partial",
    "Postpic.Props.histogram2d_line_partial",
    "Postpic.Props.histogram3d_plane_partial",
    "Postpic.Props.histogram2d_degenerate_partial",
    "Postpic.Props.histogram3d_degenerate_partial",
    "Postpic.Props.histogram2d_degenerate_violated"
   ],
   "note": "holds for positive positions above 2**(-941) and order 0, in one, two and three dimensions, with the doubles of IEEE 754 (subnormal numbers, overflow, ties to even). For negative positions np.spacing is negative and the histogram is a ZeroDivisionError, for zero nothing is counted (violated). double_rounding and double_format show that real doubles meet the assumptions about rounding of C118, C122 and C125"
  },
  {
   "property": "C129",
   "status": "proved",
   "theorems": [
    "Postpic.Props.histogram_bin_rounded",
    "Postpic.Props.histogram2d_bin_rounded",
    "Postpic.Props.histogram3d_bin_rounded",
    "Postpic.Props.histogram_edge_rounded"
   ],
   "note": "ranges which are not widened; histogram_edge_rounded shows with doubles that the margins are needed"
  },
  {
   "property": "C130",
   "status": "proved",
   "theorems": [
    "Postpic.Props.sum_list_double",
    "Postpic.Props.mean_list_double",
    "Postpic.Props.field_sum_double",
    "Postpic.Props.field_mean_double"
   ],
   "note": "Real IEEE doubles (subnormal numbers, overflow, ties to even), not the idealised rounding of C126. mean_double_overflow shows that the limit is needed for means: the sum overflows although the mean is a double. sum_double_order shows that the result depends on the order."
  },
  {
   "property": "C131",
   "status": "proved",
   "theorems": [
    "Postpic.Props.histogram_weights",
    "Postpic.Props.histogram2d_weights",
    "Postpic.Props.histogram3d_weights",
    "Postpic.Props.histogram_weights_double",
    "Postpic.Props.histogram2d_weights_double",
    "Postpic.Props.histogram3d_weights_double",
    "Postpic.Props.histogram_total_double"
   ],
   "note": "The first three theorems hold for every rounding and every weight, the others for the doubles of IEEE 754. How computed positions differ from exact ones is C129. histogram_weights_overflow shows that the limit is needed."
  },
  {
   "property": "C132",
   "status": "proved",
   "theorems": [
    "Postpic.Props.histogram_bin_double",
    "Postpic.Props.histogram2d_bin_double",
    "Postpic.Props.histogram3d_bin_double",
    "Postpic.Props.histogram_lost_double"
   ],
   "note": "C129 without its idealisation of the rounding: IEEE doubles with overflow and underflow. Ranges widened by the code are covered if the widened range has such a length. histogram_lost_double shows that the lower bound is needed."
  },
  {
   "property": "C133",
   "status": "partial",
   "theorems": [
    "Postpic.Props.abstracts_iff",
    "Postpic.Props.user_dumpreader",
    "Postpic.Props.user_simreader",
    "Postpic.Props.user_dumpreader_creates",
    "Postpic.Props.readers_create_partial",
    "Postpic.Props.readers_extend_partial",
    "Postpic.Props.extended_recursion_violated",
    "Postpic.Props.vsim_abstract_violated",
    "Postpic.Props.smilei_name_violated"
   ],
   "note": "Holds for the readers for openPMD, fbpic and Smilei and their series, and for creating the other ones without extending them. Modelled are abstract methods, super and keywords; opening the files is part of other models."
  },
  {
   "property": "C134",
   "status": "proved",
   "theorems": [
    "Postpic.Props.nearest_double",
    "Postpic.Props.nearest_double_exact",
    "Postpic.Props.value_to_index_double"
   ],
   "note": "C122 without its idealisation of the rounding. Comparisons are exact."
  },
  {
   "property": "C135",
   "status": "proved",
   "theorems": [
    "Postpic.Props.integrate_double",
    "Postpic.Props.integrate_constant_double",
    "Postpic.Props.integrate_single_same",
    "Postpic.Props.integrate_double_underflow",
    "Postpic.Props.integrate_double_overflow"
   ],
   "note": "the last two theorems show that the limits are needed: products of small values with small cells underflow to 0, and terms of opposite sign which overflow give NaN although the exact integral is 0"
  },
  {
   "property": "C136",
   "status": "proved",
   "theorems": [
    "Postpic.Props.derivative_double",
    "Postpic.Props.derivative_stagger_double",
    "Postpic.Props.derivative_double_limits"
   ],
   "note": "The samples and grid points are doubles and the model rounds every operation of numpy.gradient to the nearest double, ties to even. derivative_double_limits shows that without limits the derivative underflows to 0 or overflows. The positions of the new axis are computed exactly."
  },
  {
   "property": "C137",
   "status": "proved",
   "theorems": [
    "Postpic.Props.mean_double",
    "Postpic.Props.var_double",
    "Postpic.Props.quantile_double",
    "Postpic.Props.statistics_double_limits"
   ],
   "note": "The data and weights are doubles, every operation is rounded to the nearest double, ties to even. statistics_double_limits shows that outside of the limits the variance of different values is 0 or infinite and the mean of positive values is 0. For quantiles q must be 0 or at least 2^-300."
  },
  {
   "property": "C138",
   "status": "proved",
   "theorems": [
    "Postpic.Props.axis_half_double",
    "Postpic.Props.half_resolution_double",
    "Postpic.Props.autoreduce_double",
    "Postpic.Props.half_resolution_double_limits"
   ],
   "note": "The limit 2^1022 on samples and grid points is part of the statement; half_resolution_double_limits shows that it is needed."
  },
  {
   "property": "C139",
   "status": "proved",
   "theorems": [
    "Postpic.Props.integrals_fast_double",
    "Postpic.Props.integrals_constant_double",
    "Postpic.Props.integrals_double_limits"
   ],
   "note": "The limits are part of the statement; integrals_double_limits shows that such limits are needed."
  },
  {
   "property": "C140",
   "status": "partial",
   "theorems": [
    "Postpic.Props.fft_defaults_partial",
    "Postpic.Props.fft_history",
    "Postpic.Props.fft_numpy",
    "Postpic.Props.fft_other",
    "Postpic.Props.fft_rfftn_violated",
    "Postpic.Props.fft_positional_violated"
   ],
   "note": "Violated by the code: rfftn is missing in the list of transforms, so that it gets no default arguments; positional arguments for parameters with a default are refused. Proved for all other calls and histories."
  },
  {
   "property": "C141",
   "status": "partial",
   "theorems": [
    "Postpic.Props.axis_from_extent_double_partial",
    "Postpic.Props.axis_from_extent_index_double_partial",
    "Postpic.Props.axis_from_extent_double_violated",
    "Postpic.Props.axis_from_extent_double_limits"
   ],
   "note": "True for ends which are 0 or between 2^-900 and 2^900, up to 2^52 points, and cells larger than about 34 (80 for the index) roundings of the ends; the spline of scipy, used for more than two points, is assumed to give the cell centers as doubles up to an error e. Violated for smaller cells: an axis with equal nodes is accepted."
  },
  {
   "property": "C142",
   "status": "partial",
   "theorems": [
    "Postpic.Props.axis_from_extent_linear_double",
    "Postpic.Props.cut_linear_double_partial",
    "Postpic.Props.cut_linear_violated",
    "Postpic.Props.linear_sound_double",
    "Postpic.Props.linear_small_violated"
   ],
   "note": "Proved for all axes made from extent and number of points, and for pieces of axes with coordinates up to about a million. Conversely every node of an axis which counts as even is within the tolerance of the straight line (linear_sound_double); the tolerance has an absolute part of 1e-8, so that squares of nanometres count as even (linear_small_violated). Violated for larger coordinates: an axis from -1e9 to 1e9 with six points is even, three neighbouring points of it are not."
  },
  {
   "property": "C143",
   "status": "partial",
   "theorems": [
    "Postpic.Props.axis_spacing_double_partial",
    "Postpic.Props.axis_spacing_double_violated"
   ],
   "note": "Proved: the spacing exists and differs from the length divided by the number of points by at most 8 * 2^(-53) times the sum of the absolute values of the ends. Violated: this is not small compared to the spacing for axes far from 0; from 2^50 to 2^50 + 1 with three points the spacing is 1/4."
  }
 ]
}