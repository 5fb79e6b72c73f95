{
 "claims": [
  {
   "property": "C01",
   "status": "proved",
   "theorems": [
    "Sdp.C01_create_layout",
    "Sdp.C01_alloc_failure",
    "Sdp.C01_element_sizes"
   ],
   "note": "Layout, injectivity and bounds of the flat addressing of a created array, for every shape; allocation failure outcome."
  },
  {
   "property": "C02",
   "status": "proved",
   "theorems": [
    "Sdp.C02_contiguity_exact",
    "Sdp.C02_contiguous_flat"
   ],
   "note": "Contiguity flag iff row-major strides, and contiguous arrays addressed by their flat index."
  },
  {
   "property": "C03",
   "status": "partial",
   "theorems": [
    "Sdp.C03_slice_addresses_partial",
    "Sdp.C03_slice_inside_partial",
    "Sdp.C03_slice_out_of_parent_false",
    "Sdp.C03_slice_accepted_iff"
   ],
   "note": "Addresses are the parent's for every accepted slice; inside the parent only if offset+extent fits, which the code does not check: C03_slice_out_of_parent_false is the witness."
  },
  {
   "property": "C04",
   "status": "proved",
   "theorems": [
    "Sdp.C04_ownership",
    "Sdp.C04_release_effect",
    "Sdp.C04_refcount_history",
    "Sdp.C04_borrowed_never_owns"
   ],
   "note": "For every history of create/alias/slice/retain/release."
  },
  {
   "property": "C05",
   "status": "partial",
   "theorems": [
    "Sdp.C05_copy_contiguous_partial",
    "Sdp.C05_copy_strided_false"
   ],
   "note": "Exact for contiguous CPU sources; C05_copy_strided_false: strided sources are not copied faithfully."
  },
  {
   "property": "C06",
   "status": "partial",
   "theorems": [
    "Sdp.C06_success_iff_all_hold",
    "Sdp.C06_error_preserved_partial",
    "Sdp.C06_error_preserved_false",
    "Sdp.C06_error_codes",
    "Sdp.C06_first_failure"
   ],
   "note": "Success iff every check holds, for every sequence; error preservation fails for check_same_shape (C06_error_preserved_false)."
  },
  {
   "property": "C07",
   "status": "partial",
   "theorems": [
    "Sdp.C07_view_partial",
    "Sdp.C07_const_view_partial",
    "Sdp.C07_view_stride_false",
    "Sdp.C07_empty_array_refused"
   ],
   "note": "Views are faithful when strides are multiples of the element size; C07_view_stride_false shows the truncation otherwise."
  },
  {
   "property": "C08",
   "status": "proved",
   "theorems": [
    "Sdp.C08_clear_portion",
    "Sdp.C08_copy_contents",
    "Sdp.C08_set_value",
    "Sdp.C08_clear_contents"
   ],
   "note": "Frame and effect of clear/copy/set."
  },
  {
   "property": "C09",
   "status": "partial",
   "theorems": [
    "Sdp.C09_check_uvw",
    "Sdp.C09_check_vis",
    "Sdp.C09_check_weights",
    "Sdp.C09_uvw_metadata",
    "Sdp.C09_vis_metadata",
    "Sdp.C09_weights_metadata_partial",
    "Sdp.C09_weights_metadata_false"
   ],
   "note": "Exact iff characterisation of the three checks and three queries; the weights query accepts an empty complex array (C09_weights_metadata_false)."
  },
  {
   "property": "C10",
   "status": "partial",
   "theorems": [
    "Sdp.C10_elapsed_partial",
    "Sdp.C10_queries_invisible_partial",
    "Sdp.C10_bounds_partial",
    "Sdp.C10_restart_false"
   ],
   "note": "All histories without a restart of a running timer; C10_restart_false is the witness that restart loses time and makes queries visible."
  },
  {
   "property": "C11",
   "status": "proved",
   "theorems": [
    "Sdp.C11_threads",
    "Sdp.C11_single_thread",
    "Sdp.C11_nested_returns"
   ],
   "note": "Any interleaving of any number of threads (explicit handles, slots set up beforehand), and any single-thread sequence; calls are atomic."
  },
  {
   "property": "C12",
   "status": "partial",
   "theorems": [
    "Sdp.Flagger.C12_flags_only_added",
    "Sdp.Flagger.C12_writes_in_range",
    "Sdp.Flagger.C12_independent_partial",
    "Sdp.Flagger.C12_two_runs_partial",
    "Sdp.Flagger.C12_scratch_read_false",
    "Sdp.Flagger.C12_short_history_false",
    "Sdp.Flagger.C12_flags_shape_false",
    "Sdp.Flagger.C12_window_exact",
    "Sdp.Flagger.C12_accepted_iff",
    "Sdp.Flagger.C12_keeps_error"
   ],
   "note": "Flags are only added, writes stay in range, any schedule of the baseline/polarisation jobs gives the same flags; needs at least two samples and a median history of at least two (witnesses C12_scratch_read_false, C12_short_history_false) and a flags array of the visibility shape (unchecked, C12_flags_shape_false)."
  },
  {
   "property": "C13",
   "status": "proved",
   "theorems": [
    "Sdp.Tiles.C13_bucket_sort",
    "Sdp.Tiles.Tiling.C13_items_in_range"
   ],
   "note": "Any number of tiles and items, any processing order; in-range hypothesis discharged for covering tilings by C13_items_in_range."
  },
  {
   "property": "C14",
   "status": "partial",
   "theorems": [
    "Sdp.Tiles.C14_prefix_sum",
    "Sdp.Tiles.C14_prefix_sum_needs_extra",
    "Sdp.Tiles.C14_gpu_scan_partial",
    "Sdp.Tiles.C14_gpu_scan_small",
    "Sdp.Tiles.C14_gpu_scan_race_false"
   ],
   "note": "CPU scan exact; GPU scan exact for all sizes when the block total is not read late; C14_gpu_scan_race_false shows the missing barrier matters."
  },
  {
   "property": "C15",
   "status": "partial",
   "theorems": [
    "Sdp.Tiles.Tiling.C15_gpu_exact",
    "Sdp.Tiles.Tiling.C15_gpu_in_range_partial",
    "Sdp.Tiles.Tiling.C15_cpu_covers_partial",
    "Sdp.Tiles.Tiling.C15_tile_index_past_end_false",
    "Sdp.Tiles.Tiling.C15_tile_index_negative_false",
    "Sdp.Tiles.Tiling.C15_cpu_extra_tiles_false"
   ],
   "note": "GPU lookup exact; in range when the tiling covers the grid; three _false witnesses for past-end, negative and superfluous tiles."
  },
  {
   "property": "C16",
   "status": "partial",
   "theorems": [
    "Sdp.Weighting.C16_uniform_partial",
    "Sdp.Weighting.C16_cell_normalised_partial",
    "Sdp.Weighting.C16_in_range",
    "Sdp.Weighting.C16_negative_false",
    "Sdp.Weighting.C16_wrapped_false",
    "Sdp.Weighting.C16_grid_pols_unchecked_false"
   ],
   "note": "Exact formula, normalisation and frame for all inputs whose cell indices are non-negative; C16_negative_false, C16_wrapped_false (untested negative index) and C16_grid_pols_unchecked_false are the violations."
  },
  {
   "property": "C17",
   "status": "partial",
   "theorems": [
    "Sdp.Weighting.C17_formula_partial",
    "Sdp.Weighting.C17_bounds_monotone_partial"
   ],
   "note": "Formula for every input with non-negative cell indices, bounds and monotonicity in the robustness over the reals; missing case as in C16."
  },
  {
   "property": "C18",
   "status": "proved",
   "theorems": [
    "Sdp.Dft.C18_v00",
    "Sdp.Dft.C18_v01",
    "Sdp.Dft.C18_linear",
    "Sdp.Dft.C18_source_order",
    "Sdp.Dft.C18_split"
   ],
   "note": "Both kernels compute the measurement equation for every execution order of the iterations; linearity, source order, split."
  },
  {
   "property": "C19",
   "status": "partial",
   "theorems": [
    "Sdp.PhaseRotate.C19_length",
    "Sdp.PhaseRotate.C19_in_place",
    "Sdp.PhaseRotate.C19_identity",
    "Sdp.PhaseRotate.C19_roundtrip_partial",
    "Sdp.PhaseRotate.C19_roundtrip_false",
    "Sdp.PhaseRotate.C19_rotation"
   ],
   "note": "Length, identity, in-place; round trip when RA or Dec agree; C19_roundtrip_false otherwise."
  },
  {
   "property": "C20",
   "status": "partial",
   "theorems": [
    "Sdp.PhaseRotate.C20_offsets",
    "Sdp.PhaseRotate.C20_modulus",
    "Sdp.PhaseRotate.C20_identity",
    "Sdp.PhaseRotate.C20_linear",
    "Sdp.PhaseRotate.C20_roundtrip_partial",
    "Sdp.PhaseRotate.C20_roundtrip_false"
   ],
   "note": "Modulus, identity, linearity, in-place; round trip when RA agrees; C20_roundtrip_false otherwise."
  },
  {
   "property": "C21",
   "status": "proved",
   "theorems": [
    "Sdp.Hogbom.C21_hogbom_flux",
    "Sdp.Hogbom.C21_every_iteration"
   ],
   "note": "CPU path in exact arithmetic; the clean-beam convolution is a parameter (instantiated by C25)."
  },
  {
   "property": "C22",
   "status": "partial",
   "theorems": [
    "Sdp.Hogbom.C22_hogbom_in_bounds_partial",
    "Sdp.Hogbom.C22_short_output_false",
    "Sdp.Hogbom.C22_empty_image_false",
    "Sdp.Hogbom.C22_rejected_iff"
   ],
   "note": "Proved for outputs of full shape and a non-empty image; the wrapper only checks the first output dimension and accepts an empty image (C22_short_output_false, C22_empty_image_false)."
  },
  {
   "property": "C23",
   "status": "proved",
   "theorems": [
    "Sdp.Hogbom.C23_hogbom_stops",
    "Sdp.Hogbom.C23_minors_det"
   ],
   "note": "CPU path. GPU path checks the threshold flag only every 100 cycles and is not modelled."
  },
  {
   "property": "C24",
   "status": "partial",
   "theorems": [
    "Sdp.MsClean.C24_ms_clean_partial",
    "Sdp.MsClean.C24_stop_zero",
    "Sdp.MsClean.C24_psf_side_false",
    "Sdp.MsClean.C24_no_scale_false",
    "Sdp.MsClean.C24_threshold_other_scale_false"
   ],
   "note": "Proved for PSF side = 2 x image side, at least one scale, full-size outputs (not checked by the entry point: C24_psf_side_false, C24_no_scale_false); the threshold is applied only to the scale with the best biased peak (C24_threshold_other_scale_false)."
  },
  {
   "property": "C25",
   "status": "partial",
   "theorems": [
    "Sdp.FftConv.C25_pad_dim",
    "Sdp.FftConv.C25_fft_convolution_partial",
    "Sdp.FftConv.C25_odd_output_false",
    "Sdp.FftConv.C25_one_pixel_false",
    "Sdp.FftConv.C25_odd_kernel_false"
   ],
   "note": "Proved for even sides (every contents and loop order); false for odd sides: out-of-bounds write for every odd output side (C25_odd_output_false, C25_one_pixel_false) and a sheared kernel for odd kernel sides (C25_odd_kernel_false). Whole calls with argument checks, and the GPU: C90."
  },
  {
   "property": "C26",
   "status": "partial",
   "theorems": [
    "Sdp.Sizes.C26_padded_size_partial",
    "Sdp.Sizes.C26_exists",
    "Sdp.Sizes.C26_at_most_double",
    "Sdp.Sizes.C26_overflow_false"
   ],
   "note": "Every request; exact product n*padding. False when the answer does not fit an int (C26_overflow_false)."
  },
  {
   "property": "C27",
   "status": "proved",
   "theorems": [
    "Sdp.Fft.C27_fft_1d",
    "Sdp.Fft.C27_fft_2d"
   ],
   "note": "Built-in CPU back end, exact complex arithmetic, every length, batch and loop order. MKL/PocketFFT/cuFFT back ends are not modelled."
  },
  {
   "property": "C28",
   "status": "proved",
   "theorems": [
    "Sdp.Fft.C28_phase_involution",
    "Sdp.Fft.C28_forward_inverse",
    "Sdp.Fft.C28_forward_inverse_1d",
    "Sdp.Fft.C28_shift_centred",
    "Sdp.Fft.C28_shift_square",
    "Sdp.Fft.C28_shift_roundtrip"
   ],
   "note": "Built-in CPU back end. For sides 2*m1, 2*m2 the shifted transform is the centred one times (-1)^(m1+m2) (exactly centred for square images); round trip for every side."
  },
  {
   "property": "C29",
   "status": "proved",
   "theorems": [
    "Sdp.Sizes.C29_good_size",
    "Sdp.Sizes.C29_small"
   ],
   "note": "Every request, exact integer arithmetic (intermediate values below 22 n)."
  },
  {
   "property": "C30",
   "status": "partial",
   "theorems": [
    "Sdp.Swiftly.C30_empty_facet_false",
    "Sdp.Swiftly.C30_create_accepts_iff",
    "Sdp.Swiftly.C30_fn_table",
    "Sdp.Swiftly.C30_fb_table",
    "Sdp.Swiftly.C30_extract_subgrid_in_range_iff",
    "Sdp.Swiftly.C30_negative_offset_false",
    "Sdp.Swiftly.C30_2d_rows_false"
   ],
   "note": "In range for creation tables, facet functions (facets of at least one sample), and accumulation into a subgrid, every offset; exact condition for extraction from a subgrid (C30_extract_subgrid_in_range_iff). False for negative facet offsets (C30_negative_offset_false), empty facets (C30_empty_facet_false) and two-dimensional contributions with too few rows (C30_2d_rows_false)."
  },
  {
   "property": "C31",
   "status": "proved",
   "theorems": [
    "Sdp.Swiftly.C31_extract_window",
    "Sdp.Swiftly.C31_extract",
    "Sdp.Swiftly.C31_add",
    "Sdp.Swiftly.C31_adjoint"
   ],
   "note": "One row of the broadcast; pocketfft is the exact DFT."
  },
  {
   "property": "C32",
   "status": "partial",
   "theorems": [
    "Sdp.Swiftly.C32_add",
    "Sdp.Swiftly.C32_add_pointwise",
    "Sdp.Swiftly.C32_commute",
    "Sdp.Swiftly.C32_extract_partial",
    "Sdp.Swiftly.C32_adjoint_partial",
    "Sdp.Swiftly.C32_negative_offset_false",
    "Sdp.Swiftly.C32_add_2d_partial",
    "Sdp.Swiftly.C32_extract_2d_partial",
    "Sdp.Swiftly.C32_adjoint_2d_partial"
   ],
   "note": "Accumulation: every offset. Extraction and adjointness: offsets not too negative and non-negative or on the subgrid resolution; false otherwise (C32_negative_offset_false). 1-D and 2-D."
  },
  {
   "property": "C33",
   "status": "partial",
   "theorems": [
    "Sdp.Swiftly.C33_prepare_finish_partial",
    "Sdp.Swiftly.C33_finish_prepare_partial",
    "Sdp.Swiftly.C33_sign_false"
   ],
   "note": "Both compositions are (-1)^(offset+M/2) times the identity; C33_sign_false when that is odd."
  },
  {
   "property": "C34",
   "status": "partial",
   "theorems": [
    "Sdp.Clamp.C34_axis_partial",
    "Sdp.Clamp.C34_axis_falling",
    "Sdp.Clamp.C34_axis_guarded",
    "Sdp.Clamp.C34_axis_false",
    "Sdp.Clamp.C34_guard_false",
    "Sdp.Clamp.C34_inline",
    "Sdp.Clamp.C34_single",
    "Sdp.Clamp.C34_uv"
   ],
   "note": "Exact selection in every branch. Matches the documentation for rising coordinates above the numerical guard; for falling coordinates the ends swap roles (C34_axis_false) and unresolved steps are all-or-nothing (C34_guard_false). Exact arithmetic; casts out of range are an error outcome."
  },
  {
   "property": "C35",
   "status": "partial",
   "theorems": [
    "Sdp.Clamp.C35_adjacent_partial",
    "Sdp.Clamp.C35_adjacent_false"
   ],
   "note": "Proved when the guard decides both ranges the same way; C35_adjacent_false otherwise."
  },
  {
   "property": "C36",
   "status": "partial",
   "theorems": [
    "Sdp.Wstack.C36_no_abort_partial",
    "Sdp.Wstack.C36_exactly_once_partial",
    "Sdp.Wstack.C36_plane_completes",
    "Sdp.Wstack.C36_run_exists",
    "Sdp.Wstack.C36_exactly_once_false"
   ],
   "note": "Every visibility set with non-negative channel spacing, positive box sizes and no row misjudged by the guard (condition GuardOk), every schedule and number of threads; C36_exactly_once_false without the guard condition. Exact arithmetic; kernels and FFTs abstracted to the list of visibilities handled."
  },
  {
   "property": "C37",
   "status": "proved",
   "theorems": [
    "Sdp.Wstack.C37_all_chunks_once",
    "Sdp.Wstack.C37_never_twice",
    "Sdp.Wstack.C37_rows_partitioned",
    "Sdp.Wstack.C37_chunk_in_rows",
    "Sdp.Wstack.C37_terminates",
    "Sdp.Wstack.C37_progress"
   ],
   "note": "Every number of threads, every interleaving, tasks as created by the program; termination bound and progress included."
  },
  {
   "property": "C38",
   "status": "partial",
   "theorems": [
    "Sdp.GridUtil.C38_wrap_ends_iff",
    "Sdp.GridUtil.C38_cut",
    "Sdp.GridUtil.C38_add",
    "Sdp.GridUtil.C38_adjoint",
    "Sdp.GridUtil.C38_add_rows_partial",
    "Sdp.GridUtil.C38_add_rows_false"
   ],
   "note": "Every offset, grid and subgrid size; every order of the pixels; termination exactly when both grid dimensions are positive. The parallel loop over rows is race-free only when the subgrid has no more rows than the grid (C38_add_rows_partial, C38_add_rows_false). Unbounded integer arithmetic."
  },
  {
   "property": "C39",
   "status": "partial",
   "theorems": [
    "Sdp.GridUtil.C39_bounds_partial",
    "Sdp.GridUtil.C39_bounds_false"
   ],
   "note": "df >= 0; false for decreasing frequencies (C39_bounds_false)."
  },
  {
   "property": "C40",
   "status": "proved",
   "theorems": [
    "Sdp.WTower.C40_degrid",
    "Sdp.WTower.C40_grid",
    "Sdp.WTower.C40_adjoint",
    "Sdp.WTower.C40_adjoint_conj",
    "Sdp.WTower.C40_degrid_linear",
    "Sdp.WTower.C40_grid_linear",
    "Sdp.WTower.C40_grid_order",
    "Sdp.WTower.C40_grid_split"
   ],
   "note": "Every kernel table, coordinate set, row order, tower and visibilities whose footprint is inside the subgrid (C41 says when); linearity, adjointness (also conjugate-linear), order independence; exact arithmetic."
  },
  {
   "property": "C41",
   "status": "partial",
   "theorems": [
    "Sdp.WTower.C41_exact_partial",
    "Sdp.WTower.C41_edge_false",
    "Sdp.WTower.C41_falling_false",
    "Sdp.WTower.C41_margin_partial",
    "Sdp.WTower.C41_box_partial",
    "Sdp.WTower.C41_w_partial",
    "Sdp.WTower.C41_no_fault_partial"
   ],
   "note": "No fault, and all accesses inside, for visibilities at least half a support from the edge; C41_exact_partial is the exact condition; C41_edge_false and C41_falling_false are visibilities that pass the test and access memory outside."
  },
  {
   "property": "C42",
   "status": "partial",
   "theorems": [
    "Sdp.WTower.C42_grid",
    "Sdp.WTower.C42_rows",
    "Sdp.WTower.C42_degrid",
    "Sdp.WTower.C42_degrid_once_partial",
    "Sdp.WTower.C42_empty_false"
   ],
   "note": "Both sweeps for every plane count, support, range and schedule (even subgrid size, pattern without zeros); C42_empty_false: with nothing selected both calls convert an infinity to int."
  },
  {
   "property": "C43",
   "status": "partial",
   "theorems": [
    "Sdp.Height.C43_admissible",
    "Sdp.Height.C43_largest",
    "Sdp.Height.C43_terminates",
    "Sdp.Height.C43_endless_false",
    "Sdp.Height.C43_failed"
   ],
   "note": "Every error function and target: the returned height is admissible and the next one is not; largest when the error does not decrease; exact termination condition and bound; C43_endless_false: with an error that never reaches the target the search does not end. The measured error itself is abstract."
  },
  {
   "property": "C44",
   "status": "partial",
   "theorems": [
    "Sdp.Custom.C44_split",
    "Sdp.Custom.C44_degrid_partial",
    "Sdp.Custom.C44_planes_false",
    "Sdp.Custom.C44_w_false",
    "Sdp.Custom.C44_rectangular_false",
    "Sdp.Custom.C44_w_periodic"
   ],
   "note": "Every grid, kernels, coordinates and shapes with at least w_kernel_size planes and w above about -2 steps; C44_planes_false, C44_w_false and C44_rectangular_false otherwise. Exact arithmetic; whole calls and the GPU kernel: C96."
  },
  {
   "property": "C45",
   "status": "partial",
   "theorems": [
    "Sdp.Direct.C45_sources",
    "Sdp.Direct.C45_count_partial",
    "Sdp.Direct.C45_count_matches_partial",
    "Sdp.Direct.C45_once",
    "Sdp.Direct.C45_wide_false",
    "Sdp.Direct.C45_tall_false"
   ],
   "note": "Square images; C45_wide_false, C45_tall_false otherwise (the count routine assumes a square image). Exact arithmetic."
  },
  {
   "property": "C46",
   "status": "partial",
   "theorems": [
    "Sdp.Direct.C46_direct_degrid",
    "Sdp.Direct.C46_direct_grid",
    "Sdp.Direct.C46_direct_adjoint_partial",
    "Sdp.Direct.C46_complex_image_false",
    "Sdp.Direct.C46_dft",
    "Sdp.Direct.C46_idft",
    "Sdp.Direct.C46_adjoint",
    "Sdp.Direct.C46_inactive_ignored"
   ],
   "note": "Every visibility set, channel ranges, schedule, taper and shear; adjointness of the whole degridder for real images (C46_complex_image_false otherwise). Exact real arithmetic."
  },
  {
   "property": "C47",
   "status": "partial",
   "theorems": [
    "Sdp.EsFft.C47_buffers_partial",
    "Sdp.EsFft.C47_uvw_type_false",
    "Sdp.EsFft.C47_dims_false",
    "Sdp.EsFft.C47_pixels"
   ],
   "note": "Exact characterisation for coordinates in floating point; C47_uvw_type_false: with single-precision data any type of coordinates is accepted; C47_dims_false: extra dimensions are not noticed."
  },
  {
   "property": "C48",
   "status": "partial",
   "theorems": [
    "Sdp.GridUtil.C48_shift_partial",
    "Sdp.GridUtil.C48_shift_times_partial",
    "Sdp.GridUtil.C48_shift_not_square_false"
   ],
   "note": "Square planes; C48_shift_not_square_false otherwise."
  },
  {
   "property": "C49",
   "status": "proved",
   "theorems": [
    "Sdp.Direct.C49_no_shear",
    "Sdp.Direct.C49_on_sphere",
    "Sdp.Direct.C49_nearest",
    "Sdp.Direct.C49_visible_iff",
    "Sdp.Direct.C49_centre",
    "Sdp.Direct.C49_plain",
    "Sdp.Direct.C49_nonpos"
   ],
   "note": "Exact real arithmetic; field of view where the coordinate is defined."
  },
  {
   "property": "C50",
   "status": "proved",
   "theorems": [
    "Sdp.GridCorrect.C50_value",
    "Sdp.GridCorrect.C50_undone",
    "Sdp.GridCorrect.C50_additive",
    "Sdp.GridCorrect.C50_opposite",
    "Sdp.GridCorrect.C50_modulus",
    "Sdp.GridCorrect.C50_adjoint"
   ],
   "note": "Every facet size, offset, plane and visiting order; exact complex arithmetic; C-contiguous facets (CPU)."
  },
  {
   "property": "C51",
   "status": "partial",
   "theorems": [
    "Sdp.Examples.C51_sum_partial",
    "Sdp.Examples.C51_errors",
    "Sdp.Examples.C51_strided_false",
    "Sdp.Examples.C51_overlap_false",
    "Sdp.Examples.C51_empty_false"
   ],
   "note": "All lengths and descriptors that are accepted, for contiguous vectors that do not overlap from below; C51_strided_false: strides are ignored; C51_overlap_false: output overlapping an input from below; C51_empty_false: empty vectors are refused as read-only."
  },
  {
   "property": "C52",
   "status": "partial",
   "theorems": [
    "Sdp.Examples.C52_exec_partial",
    "Sdp.Examples.C52_larger_false",
    "Sdp.Examples.C52_refused",
    "Sdp.Examples.C52_create"
   ],
   "note": "All plan sizes with outputs up to the planned size; C52_larger_false otherwise."
  },
  {
   "property": "C53",
   "status": "partial",
   "theorems": [
    "Sdp.Station.C53_cpu",
    "Sdp.Station.C53_linear",
    "Sdp.Station.C53_linear_pattern",
    "Sdp.Station.C53_order",
    "Sdp.Station.C53_gpu",
    "Sdp.Station.C53_checks",
    "Sdp.Station.C53_unchecked_false"
   ],
   "note": "CPU loop and chunked GPU kernel, every order of elements and points, both polarisation switches; C53_unchecked_false: precision, number of elements, location and protection of the arrays are not checked. Exact arithmetic."
  },
  {
   "property": "C54",
   "status": "partial",
   "theorems": [
    "Sdp.Legendre.C54_value",
    "Sdp.Legendre.C54_ratio",
    "Sdp.Legendre.C54_angle",
    "Sdp.Legendre.C54_derivative",
    "Sdp.Legendre.C54_pole_false"
   ],
   "note": "All degrees and orders, sin(theta) not zero; C54_pole_false: at the poles 0 is returned instead of the limit."
  },
  {
   "property": "C55",
   "status": "partial",
   "theorems": [
    "Sdp.C55_alias_same_elements_partial",
    "Sdp.C55_alias_of_created_partial",
    "Sdp.C55_read_only_lost_false"
   ],
   "note": "Aliases denote the same elements; the read-only flag is lost by aliases and slices (C55_read_only_lost_false)."
  },
  {
   "property": "C56",
   "status": "proved",
   "theorems": [
    "Sdp.C56_matching_exact"
   ],
   "note": "Exact characterisation of the matching query."
  },
  {
   "property": "C57",
   "status": "partial",
   "theorems": [
    "Sdp.C57_scale_exact_partial",
    "Sdp.C57_scale_read_only_false"
   ],
   "note": "Exact effect and error behaviour; the read-only flag is not honoured (C57_scale_read_only_false)."
  },
  {
   "property": "C58",
   "status": "partial",
   "theorems": [
    "Sdp.C58_convert_exact_partial",
    "Sdp.C58_unsupported_returns_array",
    "Sdp.C58_alloc_failure_false"
   ],
   "note": "CPU sources, element conversions abstract; allocation failure is a NULL store (C58_alloc_failure_false)."
  },
  {
   "property": "C59",
   "status": "proved",
   "theorems": [
    "Sdp.Swiftly.C59_prepare_facet",
    "Sdp.Swiftly.C59_finish_facet",
    "Sdp.Swiftly.C59_round_trip"
   ],
   "note": "One row of the broadcast; pocketfft is the exact DFT; facets of at least one sample."
  },
  {
   "property": "C60",
   "status": "proved",
   "theorems": [
    "Sdp.Swiftly.C60_finish_crop"
   ],
   "note": "One row of the broadcast."
  },
  {
   "property": "C61",
   "status": "partial",
   "theorems": [
    "Sdp.Swiftly.C61_prepare_finish_2d_partial",
    "Sdp.Swiftly.C61_strided_false"
   ],
   "note": "Contiguous subgrids, up to the parity sign; false for row strides larger than the size (C61_strided_false)."
  },
  {
   "property": "C62",
   "status": "proved",
   "theorems": [
    "Sdp.Direct.C62_w_step",
    "Sdp.Direct.C62_w_step_default",
    "Sdp.Direct.C62_w_step_largest"
   ],
   "note": "Exact real arithmetic."
  },
  {
   "property": "C63",
   "status": "partial",
   "theorems": [
    "Sdp.Direct.C63_full_ranges_partial",
    "Sdp.Direct.C63_range_false"
   ],
   "note": "Holds for ranges that are empty or cover all channels; C63_range_false otherwise."
  },
  {
   "property": "C64",
   "status": "proved",
   "theorems": [
    "Sdp.GridCorrect.C64_w_stack_facet",
    "Sdp.GridCorrect.C64_pswf_facet"
   ],
   "note": "Both corrections, every facet size, parity and offset; C-contiguous; the prolate function itself is abstract."
  },
  {
   "property": "C65",
   "status": "partial",
   "theorems": [
    "Sdp.GridCorrect.C65_inside_iff",
    "Sdp.GridCorrect.C65_value",
    "Sdp.GridCorrect.C65_outside_false"
   ],
   "note": "Proved for facets inside the image; C65_outside_false: every facet that sticks out makes the correction read outside the window (offsets unchecked). The prolate function itself is abstract."
  },
  {
   "property": "C66",
   "status": "partial",
   "theorems": [
    "Sdp.WTower.C66_uv",
    "Sdp.WTower.C66_w_partial",
    "Sdp.WTower.C66_w_false"
   ],
   "note": "Proved in u and v; in w except within half a step of the upper end (C66_w_false)."
  },
  {
   "property": "C67",
   "status": "partial",
   "theorems": [
    "Sdp.WTower.C67_one_plane_partial",
    "Sdp.WTower.C67_flat_partial",
    "Sdp.WTower.C67_sweep_partial"
   ],
   "note": "Proved where the clamp guard is inactive on all planes or w = 0; needs non-negative channel spacing (C39). C42_degrid_once_partial derives that each visibility receives exactly one contribution."
  },
  {
   "property": "C68",
   "status": "partial",
   "theorems": [
    "Sdp.WTower.C68_general",
    "Sdp.WTower.C68_adjoint_partial",
    "Sdp.WTower.C68_odd_false"
   ],
   "note": "Even w support; C68_general for all supports shows the extra factor, C68_odd_false that adjointness then fails."
  },
  {
   "property": "C69",
   "status": "partial",
   "theorems": [
    "Sdp.Height.C69_sources_partial",
    "Sdp.Height.C69_division_false",
    "Sdp.Height.C69_odd_false"
   ],
   "note": "C69_division_false: every number up to the edge divides the size; C69_odd_false: odd sizes with the field of view equal to the image."
  },
  {
   "property": "C70",
   "status": "partial",
   "theorems": [
    "Sdp.EsFft.C70_double",
    "Sdp.EsFft.C70_defined",
    "Sdp.EsFft.C70_large_false",
    "Sdp.EsFft.C70_unmet_false",
    "Sdp.EsFft.C70_single_false",
    "Sdp.EsFft.C70_choice_partial"
   ],
   "note": "Exact characterisation of the choice; C70_double for accuracies the table can meet; C70_defined/C70_large_false: defined up to 39999 pixels, never from 69566; C70_unmet_false, C70_single_false. Exact arithmetic; the table is transcribed mechanically."
  },
  {
   "property": "C71",
   "status": "partial",
   "theorems": [
    "Sdp.EsFft.C71_planes_partial",
    "Sdp.EsFft.C71_equal_false",
    "Sdp.EsFft.C71_edge_false",
    "Sdp.EsFft.C71_range_partial",
    "Sdp.EsFft.C71_descending_false",
    "Sdp.EsFft.C71_no_channel_false"
   ],
   "note": "lo < hi and ascending frequencies; C71_equal_false, C71_edge_false, C71_descending_false, C71_no_channel_false otherwise. Exact arithmetic."
  },
  {
   "property": "C72",
   "status": "partial",
   "theorems": [
    "Sdp.EsFft.C72_grid_partial",
    "Sdp.EsFft.C72_degrid_partial",
    "Sdp.EsFft.C72_adjoint",
    "Sdp.EsFft.C72_fits",
    "Sdp.EsFft.C72_overflow_false"
   ],
   "note": "Every interleaving; launches whose kernel tables fit (C72_fits: support up to 15, or 16 off the grid points); C72_overflow_false otherwise. Exact arithmetic, abstract exponential."
  },
  {
   "property": "C73",
   "status": "partial",
   "theorems": [
    "Sdp.EsFft.C73_sum",
    "Sdp.EsFft.C73_scale",
    "Sdp.EsFft.C73_reverse",
    "Sdp.EsFft.C73_launch",
    "Sdp.EsFft.C73_empty_false",
    "Sdp.EsFft.C73_odd_false",
    "Sdp.EsFft.C73_adjoint"
   ],
   "note": "Even part of the image for all sizes; C73_odd_false: the last row and column of odd images; C73_empty_false. Phase screens abstract; adjointness assumes they are conjugate."
  },
  {
   "property": "C74",
   "status": "partial",
   "theorems": [
    "Sdp.Legendre.C74_kernel",
    "Sdp.Legendre.C74_fits",
    "Sdp.Legendre.C74_value",
    "Sdp.Legendre.C74_derivative",
    "Sdp.Legendre.C74_outside_false",
    "Sdp.Legendre.C74_steps_partial",
    "Sdp.Legendre.C74_decreasing_false",
    "Sdp.Legendre.C74_weight"
   ],
   "note": "C74_outside_false: derivative not written at and beyond -1 and 1; C74_decreasing_false: one-sided stopping test. Convergence of Newton's method is not proved (C74_steps_partial characterises what is returned). Exact arithmetic."
  },
  {
   "property": "C75",
   "status": "partial",
   "theorems": [
    "Sdp.Element.C75_power",
    "Sdp.Element.C75_direction",
    "Sdp.Element.C75_axis",
    "Sdp.Element.C75_scalar",
    "Sdp.Element.C75_quarter",
    "Sdp.Element.C75_pattern",
    "Sdp.Element.C75_scalar_pattern",
    "Sdp.Element.C75_stride_false",
    "Sdp.Element.C75_gpu_partial",
    "Sdp.Element.C75_gpu_false"
   ],
   "note": "CPU for all inputs; GPU when the launch matches or the arrays are padded (C75_gpu_partial), C75_gpu_false otherwise; C75_stride_false: stride 1 polarised. Exact arithmetic."
  },
  {
   "property": "C76",
   "status": "partial",
   "theorems": [
    "Sdp.Element.C76_place",
    "Sdp.Element.C76_wave",
    "Sdp.Element.C76_linear",
    "Sdp.Element.C76_directions",
    "Sdp.Element.C76_short_false"
   ],
   "note": "All degrees, coefficients and directions with sin(theta) not zero, i.e. everything but the exact nadir (C76_directions); C76_short_false: short coefficient array. Exact arithmetic, CPU (there is no GPU kernel)."
  },
  {
   "property": "C77",
   "status": "partial",
   "theorems": [
    "Sdp.Dft.C77_gpu_v00",
    "Sdp.Dft.C77_gpu_v01",
    "Sdp.Dft.C77_v00",
    "Sdp.Dft.C77_v01_partial",
    "Sdp.Dft.C77_dims_false",
    "Sdp.Dft.C77_v00_interleaved",
    "Sdp.Dft.C77_v01_interleaved_partial"
   ],
   "note": "v00: all argument lists, CPU and GPU, every interleaving of the stores of loop iterations and threads (C77_v00, C77_v00_interleaved); v01: directions with at least two dimensions (C77_v01_partial, C77_v01_interleaved_partial), C77_dims_false otherwise. Exact arithmetic; cos and sin exact."
  },
  {
   "property": "C78",
   "status": "partial",
   "theorems": [
    "Sdp.PhaseRotate.C78_gpu_uvw",
    "Sdp.PhaseRotate.C78_gpu_vis",
    "Sdp.PhaseRotate.C78_uvw_partial",
    "Sdp.PhaseRotate.C78_vis_partial",
    "Sdp.PhaseRotate.C78_layout_false",
    "Sdp.PhaseRotate.C78_uvw_interleaved_partial",
    "Sdp.PhaseRotate.C78_vis_interleaved_partial"
   ],
   "note": "All argument lists, in place or not, CPU, and GPU with every interleaving of the loads and stores of its threads (C78_uvw_interleaved_partial, C78_vis_interleaved_partial); values are related in memory order, C78_layout_false for arrays that are accepted but not contiguous. Exact arithmetic; cos and sin exact."
  },
  {
   "property": "C79",
   "status": "partial",
   "theorems": [
    "Sdp.Weighting.C79_uniform_partial",
    "Sdp.Weighting.C79_briggs_partial",
    "Sdp.Weighting.C79_refused",
    "Sdp.Weighting.C79_fresh_false",
    "Sdp.Weighting.C79_briggs_crash_false",
    "Sdp.Weighting.C79_unchecked_false"
   ],
   "note": "Documented arguments without negative cells (see C16), CPU, and GPU in any order of its atomic operations and stores (one step each, so every interleaving); Briggs on the GPU only if fresh memory is zero (C79_fresh_false). C79_briggs_crash_false, C79_unchecked_false. Exact arithmetic."
  },
  {
   "property": "C80",
   "status": "proved",
   "theorems": [
    "Sdp.Atomics.C80_linearizable",
    "Sdp.Atomics.C80_add",
    "Sdp.Atomics.C80_min",
    "Sdp.Atomics.C80_max",
    "Sdp.Atomics.C80_bounded",
    "Sdp.Atomics.C80_completes"
   ],
   "note": "All interleavings of loads and compare-and-swap. Exact values, i.e. no NaN and addition without rounding; equal values have equal bit patterns; aligned 64-bit loads are atomic."
  },
  {
   "property": "C81",
   "status": "partial",
   "theorems": [
    "Sdp.GridUtil.C81_add_partial",
    "Sdp.GridUtil.C81_add_false",
    "Sdp.GridUtil.C81_cut",
    "Sdp.GridUtil.C81_shift_partial",
    "Sdp.GridUtil.C81_bounds",
    "Sdp.GridUtil.C81_idft",
    "Sdp.GridUtil.C81_sumdiff_partial",
    "Sdp.GridUtil.C81_sumdiff_false",
    "Sdp.GridUtil.C81_sumdiff_crash_false"
   ],
   "note": "Subgrids no larger than the grid (C81_add_false otherwise), square planes, and sums with warps in lockstep (C81_sumdiff_false otherwise). Exact arithmetic, no int overflow; atomic helpers are single steps (C80)."
  },
  {
   "property": "C82",
   "status": "partial",
   "theorems": [
    "Sdp.GridUtil.C82_accum",
    "Sdp.GridUtil.C82_real_partial",
    "Sdp.GridUtil.C82_inv",
    "Sdp.GridUtil.C82_refused_partial",
    "Sdp.GridUtil.C82_inv_refused_partial",
    "Sdp.GridUtil.C82_real_false",
    "Sdp.GridUtil.C82_error_false",
    "Sdp.GridUtil.C82_shape_false",
    "Sdp.GridUtil.C82_reported"
   ],
   "note": "Complex outputs and quotients in full (C82_accum, C82_inv); real outputs without second input (C82_real_false otherwise); refused calls unless a CPU input has the wrong rank or place (C82_error_false); C82_shape_false. Exact arithmetic; the second input is another array than the output."
  },
  {
   "property": "C83",
   "status": "partial",
   "theorems": [
    "Sdp.GridUtil.C83_kernel_partial",
    "Sdp.GridUtil.C83_kernel_false",
    "Sdp.GridUtil.C83_kernel_sum",
    "Sdp.GridUtil.C83_kernel_mirror",
    "Sdp.GridUtil.C83_kernel_edge",
    "Sdp.GridUtil.C83_pswf_partial",
    "Sdp.GridUtil.C83_pswf_false",
    "Sdp.GridUtil.C83_pswf_overflow_false",
    "Sdp.GridUtil.C83_residual_partial",
    "Sdp.GridUtil.C83_residual_refused",
    "Sdp.GridUtil.C83_rms_partial",
    "Sdp.GridUtil.C83_rms_zero",
    "Sdp.GridUtil.C83_rms_size_false",
    "Sdp.GridUtil.C83_rms_empty_false"
   ],
   "note": "Residuals (C83_residual_partial, and in full for errors: C83_residual_refused; partial because device inputs whose strides reach beyond num_elements are left out); RMS for 1 to 2^31 - 1 elements (C83_rms_size_false, C83_rms_empty_false); kernels of two or more rows (C83_kernel_partial, _sum, _mirror, _edge; one row: C83_kernel_false); prolate spheroidal kernels in double precision or with odd width (C83_pswf_false, C83_pswf_overflow_false). Exact arithmetic."
  },
  {
   "property": "C84",
   "status": "partial",
   "theorems": [
    "Sdp.Pswf.C84_power",
    "Sdp.Pswf.C84_evaluate",
    "Sdp.Pswf.C84_even",
    "Sdp.Pswf.C84_samples_partial",
    "Sdp.Pswf.C84_samples_false",
    "Sdp.Pswf.C84_empty_false",
    "Sdp.Pswf.C84_call_partial",
    "Sdp.Pswf.C84_refused",
    "Sdp.Pswf.C84_copies_partial",
    "Sdp.Pswf.C84_copies_false",
    "Sdp.Pswf.C84_null_false"
   ],
   "note": "Evaluation, symmetry, powers and errors in full (C84_evaluate, C84_even, C84_power, C84_refused); samples for even lengths (C84_samples_partial, C84_call_partial; C84_samples_false, C84_empty_false); copies when each was asked for without a previous error (C84_copies_partial; C84_copies_false, C84_null_false). Exact arithmetic; the coefficients are given."
  },
  {
   "property": "C85",
   "status": "partial",
   "theorems": [
    "Sdp.Pswf.C85_least_partial",
    "Sdp.Pswf.C85_tiny",
    "Sdp.Pswf.C85_zero",
    "Sdp.Pswf.C85_overflow_false"
   ],
   "note": "C85_least_partial: m <= 1000 and 1/1000 <= c < 291, exact real arithmetic; C85_tiny and C85_zero cover c < 1e-10 (value of bandwidth zero); C85_overflow_false: out of bounds for every c >= 291. Missing: 1e-10 <= c < 1/1000, rounding, and the distance of the cut-off recurrence from the infinite one."
  },
  {
   "property": "C86",
   "status": "partial",
   "theorems": [
    "Sdp.Pswf.C86_expansion_partial",
    "Sdp.Pswf.C86_series",
    "Sdp.Pswf.C86_safe",
    "Sdp.Pswf.C86_overflow_false",
    "Sdp.Pswf.C86_unset_false"
   ],
   "note": "C86_safe (memory) and C86_series (power series) for 1e-10 <= c < 174 and every mode and characteristic value; C86_expansion_partial (recurrence, normalisation) provided the values from the first row on stay below 1e100 in size (otherwise one element is rescaled twice); C86_overflow_false for c >= 174; C86_unset_false for 0 <= c < 1e-10. Exact arithmetic; a division by zero is a separate outcome."
  },
  {
   "property": "C87",
   "status": "partial",
   "theorems": [
    "Sdp.Pswf.C87_legendre",
    "Sdp.Pswf.C87_equation_partial"
   ],
   "note": "C87_legendre: exact identity between the power series and the Legendre sum, with the terms that the sums for the coefficients leave out. C87_equation_partial: the equation with explicit residual (the row where the two halves meet, absent for an exact characteristic value, and two cut-off terms bounded by c^2 times the last two coefficients), under the same growth condition as C86_expansion_partial. Missing: a bound on the size of the left-out terms for all bandwidths; rounding."
  },
  {
   "property": "C88",
   "status": "partial",
   "theorems": [
    "Sdp.Hogbom.C88_bounds_false",
    "Sdp.Hogbom.C88_order_false",
    "Sdp.Hogbom.C88_lockstep_false",
    "Sdp.Hogbom.C88_model_false",
    "Sdp.Hogbom.C88_bounds",
    "Sdp.Hogbom.C88_clean_partial",
    "Sdp.Hogbom.C88_flux_partial",
    "Sdp.Hogbom.C88_reproducible_partial",
    "Sdp.Hogbom.C88_any_schedule_partial"
   ],
   "note": "C88_bounds: the peak search stays within its arrays iff the side is 16 or a multiple of 256. C88_clean_partial, C88_flux_partial, C88_reproducible_partial for sides 16 and 256 with the lanes of a warp in lockstep, every schedule of a block between barriers and every order of blocks. C88_any_schedule_partial without lockstep. C88_bounds_false, C88_order_false, C88_lockstep_false, C88_model_false where it fails."
  },
  {
   "property": "C89",
   "status": "partial",
   "theorems": [
    "Sdp.Wstack.C89_calls_partial",
    "Sdp.Wstack.C89_adjoint_partial",
    "Sdp.Wstack.C89_determined_partial"
   ],
   "note": "C89_calls_partial, C89_adjoint_partial, C89_determined_partial: exact arithmetic, CPU, complex image, status clear throughout, Setup.Ok (even image size, positive channel width, sub-grid margin wide enough for the kernel, window nowhere zero, the guard of the channel selection misjudging no row). Missing: channel width 0 with several channels (the box selection uses 0 where the kernel substitutes 10 Hz), GPU, rounding."
  },
  {
   "property": "C90",
   "status": "partial",
   "theorems": [
    "Sdp.FftConv.C90_gpu_partial",
    "Sdp.FftConv.C90_gap",
    "Sdp.FftConv.C90_cpu_partial",
    "Sdp.FftConv.C90_same_partial",
    "Sdp.FftConv.C90_refused",
    "Sdp.FftConv.C90_refused_gpu",
    "Sdp.FftConv.C90_gpu_edge_false",
    "Sdp.FftConv.C90_gpu_pixel_false",
    "Sdp.FftConv.C90_odd_false",
    "Sdp.FftConv.C90_type_false",
    "Sdp.FftConv.C90_place_false",
    "Sdp.FftConv.C90_output_false"
   ],
   "note": "Proved on the GPU for all sides, even or odd, and every interleaving, unless a power of two lies in [n1+n2-1, n1+1] (C90_gpu_partial); on the CPU for even sides (C90_cpu_partial); there both agree (C90_same_partial); refusals (C90_refused, C90_refused_gpu). False otherwise: at the remaining sizes the GPU reads outside its array (C90_gpu_edge_false), 1 x 1 images are refused (C90_gpu_pixel_false), odd sides leave the arrays on the CPU (C90_odd_false), and the type, the place of the second image and the size of the output are not checked (C90_type_false, C90_place_false, C90_output_false)."
  },
  {
   "property": "C91",
   "status": "partial",
   "theorems": [
    "Sdp.Fft.C91_phase_gpu",
    "Sdp.Fft.C91_norm_gpu",
    "Sdp.Fft.C91_shift_partial",
    "Sdp.Fft.C91_mixed_false",
    "Sdp.Fft.C91_no_dims_false",
    "Sdp.Fft.C91_null_false",
    "Sdp.Fft.C91_direction_false",
    "Sdp.Fft.C91_shift_error_false",
    "Sdp.Fft.C91_shift_null_false",
    "Sdp.Fft.C91_overflow_false",
    "Sdp.Fft.C91_batch_norm_false",
    "Sdp.Fft.C91_create",
    "Sdp.Fft.C91_plan_partial"
   ],
   "note": "Proved for the build without CUDA, MKL and PocketFFT: when a plan is created (C91_create), every history of uses of a plan for one or two dimensions of arrays of one precision with is_forward 0 or 1 (C91_plan_partial), shifted transforms of even sides (C91_shift_partial), and the two GPU kernels under every interleaving (C91_phase_gpu, C91_norm_gpu). False otherwise: arrays of different precision and plans of no dimensions succeed and do nothing (C91_mixed_false, C91_no_dims_false), so do uses without a plan (C91_null_false, C91_shift_null_false); a true value of is_forward other than 1 means inverse (C91_direction_false); a refused shifted transform has changed signs in the data (C91_shift_error_false); normalisation overflows int for 65536 x 65536 (C91_overflow_false) and divides row transforms by the size of the whole array (C91_batch_norm_false)."
  },
  {
   "property": "C92",
   "status": "partial",
   "theorems": [
    "Sdp.WTower.C92_edge_false",
    "Sdp.WTower.C92_degrid_partial",
    "Sdp.WTower.C92_grid_partial"
   ],
   "note": "Proved for both kernels when the footprints of the visibilities used are inside the tower: under every interleaving the launch gives the weighted sums, the same as the CPU model (C92_degrid_partial, C92_grid_partial); gridding at the granularity of the steps of the compare-and-swap loops. Without that condition it is false: near the edge the GPU reads pixels of the next row and ends normally (C92_edge_false). Exact arithmetic, so the order of the additions does not matter; in floating point it does in the last digits."
  },
  {
   "property": "C93",
   "status": "partial",
   "theorems": [
    "Sdp.Clamp.C93_refused_partial",
    "Sdp.Clamp.C93_error_false",
    "Sdp.Clamp.C93_rows_false",
    "Sdp.Clamp.C93_dim_false",
    "Sdp.Clamp.C93_single_partial",
    "Sdp.Clamp.C93_uv_partial"
   ],
   "note": "Proved in exact arithmetic for accepted arguments (Args), on both devices, in place or not, with every load and store of a channel number interleaved: C93_single_partial, C93_uv_partial; refused calls leave the arrays alone except on the CPU (C93_refused_partial). False otherwise: on the CPU an input of wrong shape is reported but the outputs are overwritten (C93_error_false), a row range beyond the arrays makes the CPU leave them (C93_rows_false), a coordinate number above 2 is not refused (C93_dim_false). Rounding of the double arithmetic is not modelled."
  },
  {
   "property": "C94",
   "status": "partial",
   "theorems": [
    "Sdp.GridCorrect.C94_w_refused",
    "Sdp.GridCorrect.C94_w_zero",
    "Sdp.GridCorrect.C94_pswf_refused",
    "Sdp.GridCorrect.C94_w_checked",
    "Sdp.GridCorrect.C94_pswf_checked",
    "Sdp.GridCorrect.C94_size_false",
    "Sdp.GridCorrect.C94_odd_false",
    "Sdp.GridCorrect.C94_outside_false",
    "Sdp.GridCorrect.C94_w_stack",
    "Sdp.GridCorrect.C94_pswf_partial"
   ],
   "note": "w-correction proved in full in exact arithmetic (C94_w_stack, C94_w_zero, C94_w_refused). Window correction proved on both devices for even image sizes, support below 232, facets inside the image, windows nowhere zero (C94_pswf_partial); refused calls change nothing (C94_pswf_refused); what a successful call has checked is C94_w_checked, C94_pswf_checked. False otherwise: odd image sizes divide by a zero window value (C94_odd_false), a facet reaching outside the image reads outside the window values (C94_outside_false), an image size that is not positive is refused on the CPU and uses a null pointer on the GPU (C94_size_false)."
  },
  {
   "property": "C95",
   "status": "partial",
   "theorems": [
    "Sdp.OptWeighting.C95_rest_false",
    "Sdp.OptWeighting.C95_empty_false",
    "Sdp.OptWeighting.C95_race_false",
    "Sdp.OptWeighting.C95_cpu",
    "Sdp.OptWeighting.C95_checked",
    "Sdp.OptWeighting.C95_robust_false",
    "Sdp.OptWeighting.C95_last_false",
    "Sdp.OptWeighting.C95_unchecked_false",
    "Sdp.OptWeighting.C95_nearest",
    "Sdp.OptWeighting.C95_tile",
    "Sdp.OptWeighting.C95_block_partial",
    "Sdp.OptWeighting.C95_step_partial"
   ],
   "note": "Proved: grid points and which visibilities a tile has (C95_nearest, C95_tile), what every execution of a block does (C95_block_partial), the exact Briggs weights if the threads are in step (C95_step_partial), what a call checks and that the CPU call fails (C95_checked, C95_cpu). False otherwise: the multiple depends on the schedule (C95_race_false), tiles that start at or after their number of visibilities are not weighted at all (C95_rest_false), tiles after the last visibility load outside an array (C95_empty_false), the last tile has no block (C95_last_false), the robustness is always taken as 0 (C95_robust_false), sizes and types of the sorted arrays are not checked (C95_unchecked_false)."
  },
  {
   "property": "C96",
   "status": "partial",
   "theorems": [
    "Sdp.Custom.C96_agree_partial",
    "Sdp.Custom.C96_tie_false",
    "Sdp.Custom.C96_kernel_false",
    "Sdp.Custom.C96_layout_false",
    "Sdp.Custom.C96_nearest",
    "Sdp.Custom.C96_same_rounding",
    "Sdp.Custom.C96_checked",
    "Sdp.Custom.C96_call_partial"
   ],
   "note": "Proved in exact arithmetic for arrays of the documented shapes on both devices and for every interleaving (C96_call_partial, building on C44), agreement of the devices away from half sub-samples (C96_agree_partial, C96_same_rounding), rounding on the GPU (C96_nearest), refused calls change nothing and what is checked (C96_checked). False otherwise: the devices differ at half a sub-sample (C96_tie_false), kernels without two dimensions are accepted and give zeros or a division by zero (C96_kernel_false), arrays that are not contiguous are accepted and misread (C96_layout_false); too few planes and w below -2 steps as in C44_planes_false and C44_w_false."
  },
  {
   "property": "C97",
   "status": "partial",
   "theorems": [
    "Sdp.Hogbom.C97_refused",
    "Sdp.Hogbom.C97_shift_false",
    "Sdp.Hogbom.C97_odd_image_false",
    "Sdp.Hogbom.C97_odd_beam_false",
    "Sdp.Hogbom.C97_large_beam_false",
    "Sdp.Hogbom.C97_gpu_details_false",
    "Sdp.Hogbom.C97_cpu_partial",
    "Sdp.Hogbom.C97_gpu_partial"
   ],
   "note": "Proved: on the CPU for images and beams of even sides every call succeeds, conserves flux and restores with the Gaussian of the documented shape, but centred one pixel beyond each component (C97_cpu_partial, C97_shift_false); on the GPU for sides 16 and 256 in lockstep and beams of 3 pixels or more, centred on the component if the beam is odd, one pixel beyond if even (C97_gpu_partial); refused calls change nothing (C97_refused). False otherwise on the CPU: every odd image leaves the arrays (C97_odd_image_false), with every odd beam a component adds nothing to its own pixel (C97_odd_beam_false), beams of 32768 pixels are undefined (C97_large_beam_false); on the GPU, beam parameters in device memory are dereferenced by the host (C97_gpu_details_false). Other GPU sides as in C88. Exact arithmetic."
  },
  {
   "property": "C98",
   "status": "partial",
   "theorems": [
    "Sdp.MsClean.C98_refused",
    "Sdp.MsClean.C98_gpu_false",
    "Sdp.MsClean.C98_odd_image_false",
    "Sdp.MsClean.C98_shift_false",
    "Sdp.MsClean.C98_diverges_false",
    "Sdp.MsClean.C98_size_false",
    "Sdp.MsClean.C98_call_partial"
   ],
   "note": "Proved for images of even side in CPU memory whose doubly scaled PSFs have a positive value: every call succeeds and does what is claimed except that every convolution displaces its image by one pixel along both axes and the beam is cut to the side of the PSF (C98_call_partial); refused calls change nothing (C98_refused). False otherwise: the residual is displaced (C98_shift_false); the PSF is taken away two pixels beyond its component, so a point source seen with a perfect PSF is never reduced, however many cycles (C98_diverges_false); the beam size is ignored (C98_size_false); every odd image leaves the arrays (C98_odd_image_false); a call in GPU memory reports success without cleaning (C98_gpu_false). PSF side and empty scale lists are unchecked (C24_psf_side_false, C24_no_scale_false). Exact arithmetic."
  },
  {
   "property": "C99",
   "status": "partial",
   "theorems": [
    "Sdp.OptWeighting.C99_rest_false",
    "Sdp.OptWeighting.C99_empty_false",
    "Sdp.OptWeighting.C99_race_false",
    "Sdp.OptWeighting.C99_cpu",
    "Sdp.OptWeighting.C99_checked",
    "Sdp.OptWeighting.C99_robust_false",
    "Sdp.OptWeighting.C99_last_false",
    "Sdp.OptWeighting.C99_unchecked_false",
    "Sdp.OptWeighting.C99_block_partial",
    "Sdp.OptWeighting.C99_step_partial",
    "Sdp.OptWeighting.C99_mean_false"
   ],
   "note": "Proved: every execution of a block writes only the outputs of the visibilities of its tile that it sees, at their places, each positive and at most w / (1 + (5/10^robust)^2 W) (C99_block_partial); with the threads in step exactly that value away from the first point of the tile (C99_step_partial); what a call checks and that the CPU call fails (C99_checked, C99_cpu). False otherwise: the three shared arrays of the kernel are one, so in every execution every visibility of a tile of mean weight above 1 gets less than its Briggs weight (C99_mean_false); the result depends on the schedule (C99_race_false); tiles that start at or after their number of visibilities are not weighted (C99_rest_false), tiles after the last visibility load outside an array (C99_empty_false), the last tile has no block (C99_last_false), the robustness is always taken as 0 (C99_robust_false), the sorted arrays are not checked (C99_unchecked_false)."
  },
  {
   "property": "C100",
   "status": "partial",
   "theorems": [
    "Sdp.Flagger.C100_exact_partial",
    "Sdp.Flagger.C100_scale",
    "Sdp.Flagger.C100_median_false",
    "Sdp.Flagger.C100_first_false",
    "Sdp.Flagger.C100_changes_false"
   ],
   "note": "Proved exactly, in exact arithmetic, for every parallel execution with at least two samples and a history of at least two (C100_exact_partial), with the levels of the code: place round(n/2) of the ordered numbers, distances of the changes measured from the middle magnitude, channel 0 never flagged along with another; C100_scale needs no such reservation beyond the sizes. False as documented: C100_median_false, C100_changes_false, C100_first_false; shorter histories C12_short_history_false."
  },
  {
   "property": "C101",
   "status": "partial",
   "theorems": [
    "Sdp.EsFft.C101_made",
    "Sdp.EsFft.C101_cpu",
    "Sdp.EsFft.C101_old_false",
    "Sdp.EsFft.C101_keep_false",
    "Sdp.EsFft.C101_weight_false",
    "Sdp.EsFft.C101_plan_false",
    "Sdp.EsFft.C101_readonly_false",
    "Sdp.EsFft.C101_grid_partial",
    "Sdp.EsFft.C101_degrid_partial",
    "Sdp.EsFft.C101_adjoint_partial",
    "Sdp.EsFft.C101_error_partial",
    "Sdp.EsFft.C101_refused"
   ],
   "note": "Proved in exact arithmetic for plans and buffers that go together: what a gridding and a degridding call leave, for every order of additions and threads (C101_grid_partial, C101_degrid_partial), adjointness (C101_adjoint_partial), the error in terms of the error of the kernel sum (C101_error_partial), plans have suitable grids (C101_made), refusals and CPU buffers (C101_refused, C101_cpu). How close the kernel sum is to the exact phase is numerical and not proved. False otherwise: old image contents stay in the dirty image (C101_old_false), old visibilities stay (C101_keep_false), weights are ignored when degridding (C101_weight_false), read-only images are written (C101_readonly_false), smaller buffers than the plan's are read outside (C101_plan_false); odd images: C73_odd_false; wide kernels: C72_overflow_false."
  },
  {
   "property": "C102",
   "status": "partial",
   "theorems": [
    "Sdp.Swiftly.C102_backward_partial",
    "Sdp.Swiftly.C102_adjoint_partial",
    "Sdp.Swiftly.C102_odd_false",
    "Sdp.Swiftly.C102_forward_partial",
    "Sdp.Swiftly.C102_exact_partial",
    "Sdp.Swiftly.C102_rule_partial"
   ],
   "note": "Proved in exact arithmetic, for every window and all sizes with an even contribution size: the error bound of the forward sequence (C102_forward_partial), exactness when the padded subgrid is the whole image (C102_exact_partial), the documented rule (C102_rule_partial), the backward sequence with the parity sign (C102_backward_partial) and adjointness (C102_adjoint_partial). How small the coefficients of the PSWF window are is numerical and not proved; facets as large as the padded facet use the window sample 0, which the plan does not invert (C30_fb_table). False otherwise: odd contribution sizes (C102_odd_false); the sign is C33_sign_false, offsets below minus half the padded facet C30_negative_offset_false and C32_negative_offset_false."
  },
  {
   "property": "C103",
   "status": "partial",
   "theorems": [
    "Sdp.Tiles.C103_sort_cpu_partial",
    "Sdp.Tiles.C103_sort_gpu_partial",
    "Sdp.Tiles.C103_index_cpu_partial",
    "Sdp.Tiles.C103_index_gpu_partial",
    "Sdp.Tiles.C103_count_cpu_partial",
    "Sdp.Tiles.C103_count_gpu_partial",
    "Sdp.Tiles.C103_slots",
    "Sdp.Tiles.C103_count_left_false",
    "Sdp.Tiles.C103_count_float_false",
    "Sdp.Tiles.C103_count_check_false",
    "Sdp.Tiles.C103_count_status_false",
    "Sdp.Tiles.C103_count_gpu_crash_false",
    "Sdp.Tiles.C103_sort_vis_false",
    "Sdp.Tiles.C103_sort_pols_false",
    "Sdp.Tiles.C103_sort_twice_false",
    "Sdp.Tiles.C103_index_coordinates_false"
   ],
   "note": "Proved in exact arithmetic for documented arguments and tilings that cover the grid: CPU calls with footprints that reach further left than the tile (C103_count_cpu_partial, C103_sort_cpu_partial, C103_index_cpu_partial), GPU calls in every interleaving with the exact footprint (C103_count_gpu_partial for fewer than 512 tiles, C103_sort_gpu_partial, C103_index_gpu_partial), and that slots belong to one tile (C103_slots). False otherwise: tiles to the left count on the CPU (C103_count_left_false), single precision on the CPU does nothing (C103_count_float_false), failed checks are ignored (C103_count_check_false), an error on entry overwrites the offsets (C103_count_status_false) or crashes on the GPU (C103_count_gpu_crash_false), sorted visibilities are single real numbers (C103_sort_vis_false), four polarisations (C103_sort_pols_false), sorting twice (C103_sort_twice_false), coordinates of the CPU indexing call (C103_index_coordinates_false); more tiles: C14_gpu_scan_race_false; tilings that do not cover: C15_tile_index_past_end_false."
  },
  {
   "property": "C104",
   "status": "partial",
   "theorems": [
    "Verif.Python.Call.C104_status",
    "Verif.Python.Call.C104_positional",
    "Verif.Python.Call.C104_keywords_false",
    "Verif.Python.Wrap.C104_first_use_partial",
    "Verif.Python.Wrap.C104_warm",
    "Verif.Python.Wrap.C104_first_use_false"
   ],
   "note": "Proved: with at most two threads, or without an error code, every call in every schedule goes through as declared (C104_first_use_partial); likewise for any number of threads once one thread has used the function (C104_warm); error codes over all sequences of calls (C104_status); positional calls of SwiFTly methods (C104_positional). Refuted: three threads that use a function for the first time together can make every later call raise TypeError for ever, because each appends to the shared list of argument types (C104_first_use_false); a SwiFTly method called with a keyword argument does its work and then always raises TypeError (C104_keywords_false)."
  },
  {
   "property": "C105",
   "status": "partial",
   "theorems": [
    "Verif.Python.Life.C105_freed_once",
    "Verif.Python.Life.C105_freed",
    "Verif.Python.Life.C105_calls_partial",
    "Verif.Python.Life.C105_kept_mem_false",
    "Verif.Python.Life.C105_leak_false"
   ],
   "note": "Proved over all histories: nothing is freed twice or while referred to (C105_freed_once), everything is freed at exit (C105_freed), and programs that leave wrapping to the bindings never make C read freed memory (C105_calls_partial). Refuted: a Mem the program keeps does not keep its array alive (C105_kept_mem_false); a creation function that sets an error and returns a structure leaks it (C105_leak_false)."
  },
  {
   "property": "C106",
   "status": "partial",
   "theorems": [
    "Verif.Python.Sky.C106_coord",
    "Verif.Python.Sky.C106_copy_partial",
    "Verif.Python.Sky.C106_copy_false"
   ],
   "note": "Proved for all histories: values, type and epoch (C106_coord), copies except for the epoch (C106_copy_partial). Refuted: a copy does not have the epoch of the original (C106_copy_false)."
  },
  {
   "property": "C107",
   "status": "partial",
   "theorems": [
    "Sdp.Fft.C107_direction_false",
    "Sdp.Fft.C107_mixed_false",
    "Sdp.Fft.C107_dims_false",
    "Sdp.Fft.C107_transform_partial",
    "Sdp.Fft.C107_agree",
    "Sdp.Fft.C107_refused",
    "Sdp.Fft.C107_create_partial"
   ],
   "note": "Proved for every build, shape, number of dimensions (two at most with the built-in transforms) and data, with the documented behaviour of PocketFFT, MKL and cuFFT as trusted base: each gives the transform (C107_transform_partial), hence all agree (C107_agree); unsuitable uses are refused (C107_refused); the same plans are accepted for one or two dimensions of one type (C107_create_partial). Refuted: is_forward = 2 means inverse with the built-in transforms and forward elsewhere (C107_direction_false); mixed precision is handled in three different ways (C107_mixed_false); three dimensions are refused by the built-in transforms only (C107_dims_false)."
  },
  {
   "property": "C108",
   "status": "partial",
   "theorems": [
    "Sdp.Stream.C108_host_copy_false",
    "Sdp.Stream.C108_bytes",
    "Sdp.Stream.C108_finished",
    "Sdp.Stream.C108_one_stream_partial",
    "Sdp.Stream.C108_progress",
    "Sdp.Stream.C108_terminates",
    "Sdp.Stream.C108_no_cuda",
    "Sdp.Stream.C108_refused",
    "Sdp.Stream.C108_round_trip"
   ],
   "note": "Proved for every program whose conflicting copies are ordered by a stream or a wait, and every schedule of the device down to single bytes: no bad access and the sequential value of every byte that has been waited for (C108_bytes), the sequential result at the end (C108_finished), order on one stream for copies CUDA does (C108_one_stream_partial), no deadlock (C108_progress), termination of every program (C108_terminates), round trips (C108_round_trip), builds without CUDA (C108_no_cuda), refused calls (C108_refused). Trusted: CUDA's documented ordering of streams, with the legacy default stream. Refuted: a host-to-host copy issued to a stream does not wait for earlier copies on it (C108_host_copy_false)."
  },
  {
   "property": "C109",
   "status": "partial",
   "theorems": [
    "Sdp.WTower.C109_grid",
    "Sdp.WTower.C109_agree_degrid",
    "Sdp.WTower.C109_agree_grid",
    "Sdp.WTower.C109_adjoint_general",
    "Sdp.WTower.C109_adjoint_partial",
    "Sdp.WTower.C109_refused",
    "Sdp.WTower.C109_checked",
    "Sdp.WTower.C109_bounds_false",
    "Sdp.WTower.C109_count_false",
    "Sdp.WTower.C109_degrid"
   ],
   "note": "Proved for every schedule of every launch, both kinds of atomic addition, any image strides, rows that exist and visibilities within the sub-grid: the calls end with success and the stated values (C109_degrid, C109_grid), which are those of the CPU calls (C109_agree_degrid, C109_agree_grid); adjointness for even support (C109_adjoint_partial; any support up to one factor of the w pattern, C109_adjoint_general); refused calls (C109_refused, C109_checked). Refuted: an observation array of the wrong type leads to conversion of an infinite bound to int (C109_bounds_false); a refused call counts four planes (C109_count_false). Odd support is not adjoint (C68_odd_false). Exact arithmetic; allocation and launch failures are not modelled."
  },
  {
   "property": "C110",
   "status": "partial",
   "theorems": [
    "Sdp.Swiftly.C110_add_to_subgrid_2d_partial",
    "Sdp.Swiftly.C110_finish_subgrid_2d_partial",
    "Sdp.Swiftly.C110_forward_2d_partial",
    "Sdp.Swiftly.C110_exact_2d_partial",
    "Sdp.Swiftly.C110_add_rows_false",
    "Sdp.Swiftly.C110_prepare_facet_refused",
    "Sdp.Swiftly.C110_extract_from_facet_refused",
    "Sdp.Swiftly.C110_add_to_subgrid_refused",
    "Sdp.Swiftly.C110_extract_from_subgrid_refused",
    "Sdp.Swiftly.C110_add_to_facet_refused",
    "Sdp.Swiftly.C110_finish_subgrid_refused",
    "Sdp.Swiftly.C110_finish_facet_refused",
    "Sdp.Swiftly.C110_finish_subgrid_inplace_refused",
    "Sdp.Swiftly.C110_prepare_subgrid_inplace_refused",
    "Sdp.Swiftly.C110_add_to_subgrid_2d_refused",
    "Sdp.Swiftly.C110_finish_subgrid_2d_refused",
    "Sdp.Swiftly.C110_prepare_subgrid_2d_refused",
    "Sdp.Swiftly.C110_prepare_facet",
    "Sdp.Swiftly.C110_extract_from_facet",
    "Sdp.Swiftly.C110_add_to_subgrid",
    "Sdp.Swiftly.C110_add_to_facet",
    "Sdp.Swiftly.C110_finish_facet",
    "Sdp.Swiftly.C110_finish_subgrid",
    "Sdp.Swiftly.C110_extract_from_subgrid_partial",
    "Sdp.Swiftly.C110_finish_subgrid_inplace",
    "Sdp.Swiftly.C110_prepare_subgrid_inplace"
   ],
   "note": "Proved for any strides: every row of prepare_facet, extract_from_facet, add_to_subgrid, finish_subgrid (both forms), prepare_subgrid_inplace, add_to_facet and finish_facet as explicit Fourier sums, everything else unchanged; extract_from_subgrid for facet offsets that are not too negative (C110_extract_from_subgrid_partial); refusals of twelve calls (C110_*_refused); the two-dimensional forward sequence with transposed views against direct sums (C110_forward_2d_partial, C110_exact_2d_partial) for even contribution sizes, facet offsets of at least minus half a contribution and a contiguous accumulator. Refuted: add_to_subgrid_2d does not check the number of rows (C110_add_rows_false); see also C32 (negative offsets), C61 (strided 2-D finish) and C102 (odd contribution sizes). Exact arithmetic."
  },
  {
   "property": "C111",
   "status": "partial",
   "theorems": [
    "Sdp.Direct.C111_dft_accepts",
    "Sdp.Direct.C111_dft_refused",
    "Sdp.Direct.C111_idft_accepts",
    "Sdp.Direct.C111_idft_refused",
    "Sdp.Direct.C111_direct_refused",
    "Sdp.Direct.C111_count_refused",
    "Sdp.Direct.C111_flmn_refused_partial",
    "Sdp.Direct.C111_degrid_float_false",
    "Sdp.Direct.C111_gpu_refused",
    "Sdp.Direct.C111_degrid_zero_false",
    "Sdp.Direct.C111_flmn_readonly_false",
    "Sdp.Direct.C111_window_false",
    "Sdp.Direct.C111_idft_window_false",
    "Sdp.Direct.C111_dft_rows_false",
    "Sdp.Direct.C111_grid_tall_false",
    "Sdp.Direct.C111_dft_partial",
    "Sdp.Direct.C111_idft_partial",
    "Sdp.Direct.C111_count_partial",
    "Sdp.Direct.C111_lmn",
    "Sdp.Direct.C111_flmn_partial",
    "Sdp.Direct.C111_degrid_partial",
    "Sdp.Direct.C111_grid_partial",
    "Sdp.Direct.C111_adjoint_partial"
   ],
   "note": "Proved for any strides, both precisions of idft, CPU and GPU, every schedule: values of dft (C111_dft_partial), idft (C111_idft_partial), counting (C111_count_partial), sources (C111_flmn_partial, C111_lmn), the whole degrid and grid (C111_degrid_partial, C111_grid_partial) and their adjointness on real images (C111_adjoint_partial); exactly which dft and idft calls are accepted (C111_dft_accepts, C111_idft_accepts); refused calls change nothing (C111_dft_refused, C111_idft_refused, C111_count_refused, C111_direct_refused, C111_flmn_refused_partial). Partial because the code violates the property: single precision is never degridded (C111_degrid_float_false), visibilities in GPU memory never work in the whole calls (C111_gpu_refused), an image of zeros is an error (C111_degrid_zero_false), a read-only flux array is changed although an error is reported (C111_flmn_readonly_false), short windows (C111_window_false, C111_idft_window_false), too few visibility rows (C111_dft_rows_false) and images that are not square (C111_grid_tall_false) are accepted and lead out of bounds. Exact arithmetic."
  },
  {
   "property": "C112",
   "status": "partial",
   "theorems": [
    "Sdp.Wstack.Err.C112_ends",
    "Sdp.Wstack.Err.C112_no_loss",
    "Sdp.Wstack.Err.C112_entry",
    "Sdp.Wstack.Err.C112_setup",
    "Sdp.Wstack.Err.C112_returns_partial",
    "Sdp.Wstack.Err.C112_prepare_false",
    "Sdp.Wstack.Err.C112_image_dims_false",
    "Sdp.Wstack.Err.C112_schedule_false",
    "Sdp.Wstack.Err.C112_region",
    "Sdp.Wstack.Err.C112_region_ends"
   ],
   "note": "Proved for every number of workers and every schedule: calls end (C112_ends, C112_region_ends); success is returned exactly if the checks passed and everything called succeeded and counted all visibilities (C112_no_loss, C112_region); exactly which arguments pass the checks (C112_entry); refused calls and failures of the setup return an error and leave the output alone (C112_setup); when every error is returned (C112_returns_partial). Refuted: an error between the selection of a plane's visibilities and the check of their number ends the process with exit(1) (C112_prepare_false), so degridding an image that does not have two dimensions kills the caller (C112_image_dims_false); with an error in a worker it depends on the schedule whether the call returns or kills (C112_schedule_false). Called functions are represented by their statuses, with calls and tests of the status as atomic steps; memory races on the status variable below that are not modelled."
  },
  {
   "property": "C113",
   "status": "partial",
   "theorems": [
    "Sdp.Plans.C113_released_false",
    "Sdp.Plans.C113_faults_false",
    "Sdp.Plans.C113_tables_false",
    "Sdp.Plans.C113_handle_and_error_false",
    "Sdp.Plans.C113_parameters",
    "Sdp.Plans.C113_lifetime",
    "Sdp.Plans.C113_account",
    "Sdp.Plans.C113_released_partial",
    "Sdp.Plans.C113_free",
    "Sdp.Plans.C113_tables_partial",
    "Sdp.Plans.C113_generated",
    "Sdp.Plans.C113_reported"
   ],
   "note": "Proved for all histories and failures: parameters, kinds and w-plane counts (C113_parameters, C113_lifetime), safe release of exactly the handle's blocks (C113_free), account of all memory with at most one lost block per SwiFTly creation (C113_account), nothing left without SwiFTly plans (C113_released_partial); a call that returns success has done what it does when nothing fails (C113_reported); no faults and the right tables in histories without failures in creation, generation or copying (C113_tables_partial, C113_generated). The rest is false of the code: sdp_swiftly_free leaks its structure and a failing sdp_swiftly_create leaks a descriptor (C113_released_false); null pointer to sdp_pswf_free and allocation failures in several creations fault (C113_faults_false); failed GPU copies are cached and make later successful calls fault or use an unfilled table (C113_tables_false); creations may return a handle together with an error (C113_handle_and_error_false)."
  },
  {
   "property": "C114",
   "status": "partial",
   "theorems": [
    "Sdp.Temps.C114_released_false",
    "Sdp.Temps.C114_count_tiles_false",
    "Sdp.Temps.C114_count_tiles_success_false",
    "Sdp.Temps.C114_no_fault_false",
    "Sdp.Temps.C114_nothing_after_error_false",
    "Sdp.Temps.C114_released_partial",
    "Sdp.Temps.C114_success_partial",
    "Sdp.Temps.C114_kept_only_then",
    "Sdp.Temps.C114_undefined_after_errors",
    "Sdp.Temps.C114_no_fault_partial",
    "Sdp.Temps.C114_comes_back",
    "Sdp.Temps.C114_errors_stay",
    "Sdp.Temps.C114_nothing_after_error_partial",
    "Sdp.Temps.C114_runs"
   ],
   "note": "Proved for every pattern of failures, branches and iterations: memory is released on every return of all functions but six (C114_released_partial) and on every successful return of all but one (C114_success_partial); undefined behaviour only after an error (C114_undefined_after_errors) and never in the functions that test first (C114_no_fault_partial; a prolate function without memory, C113, is a separate exit); the process is ended only by the w-stacking calls (C114_comes_back); errors stay (C114_errors_stay); nothing is done after an earlier error (C114_nothing_after_error_partial). Refuted for the rest: the SwiFTly finish calls keep a descriptor when the allocation fails and the ES calls keep a transform that was returned with an error (C114_released_false), sdp_count_and_prefix_sum on the GPU keeps two copies on every return, also after success (C114_count_tiles_false, C114_count_tiles_success_false) and goes to missing memory after any earlier error (C114_nothing_after_error_false), twelve functions go to memory that could not be allocated (C114_no_fault_false). Five of the six keep memory only if the allocation itself reported an error (C114_kept_only_then)."
  },
  {
   "property": "C115",
   "status": "partial",
   "theorems": [
    "Sdp.Width.C115_dft_v00_large_false",
    "Sdp.Width.C115_dft_v00_gpu_large_false",
    "Sdp.Width.C115_flagger_large_false",
    "Sdp.Width.C115_convolution_large_false",
    "Sdp.Width.C115_hogbom_large_false",
    "Sdp.Width.C115_hogbom_psf_false",
    "Sdp.Width.C115_hogbom_psf_other_false",
    "Sdp.Width.C115_ms_clean_scales_false",
    "Sdp.Width.C115_ms_clean_overwrites_false",
    "Sdp.Width.C115_rms_large_false",
    "Sdp.Width.C115_rotate_uvw_gpu_large_false",
    "Sdp.Width.C115_rotate_vis_gpu_large_false",
    "Sdp.Width.C115_weights_gpu_large_false",
    "Sdp.Width.C115_dft_v00_gpu_partial",
    "Sdp.Width.C115_rotate_vis_gpu_partial",
    "Sdp.Width.C115_rotate_uvw_gpu_partial",
    "Sdp.Width.C115_weights_gpu_partial",
    "Sdp.Width.C115_dft_v00_gpu_runs",
    "Sdp.Width.C115_convolution_product_partial",
    "Sdp.Width.C115_convolution_pad",
    "Sdp.Width.C115_hogbom_scan_partial",
    "Sdp.Width.C115_hogbom_subtract_partial",
    "Sdp.Width.C115_ms_clean_scales_partial",
    "Sdp.Width.C115_rms_reads_partial",
    "Sdp.Width.C115_rms_size_partial",
    "Sdp.Width.C115_rotate_uvw_cpu",
    "Sdp.Width.C115_rotate_vis_cpu",
    "Sdp.Width.C115_weights_cpu",
    "Sdp.Width.C115_flagger_partial",
    "Sdp.Width.C115_dft_v00_cpu_partial",
    "Sdp.Width.C115_dft_v01_cpu_partial"
   ],
   "note": "Proved for all sizes: phase rotation and gridding of weights on the CPU, padding of the convolution (everything in int64_t). Proved up to 2^31-1 elements per array (2^32 where the code stores indices in unsigned int): DFT, flagger, products of the convolution, Hogbom and multi-scale CLEAN, RMS differences, and the GPU kernels, whose launch is either refused with an error or visits exactly the documented elements. False beyond that, with witnesses of realistic sizes: DFT and flagger with 130816 baselines x 100 times x 64 channels x 4 polarisations, convolution of a 32768 image, Hogbom on 50000 x 50000 pixels and silently wrong elements of an 80000 x 80000 PSF, multi-scale CLEAN with five scales of a 16384 PSF (pair (3,1) overwrites pair (0,0)), RMS of 50000 x 50000, weights on a 32768 grid with four polarisations, more than 2^32 coordinates on the GPU."
  },
  {
   "property": "C116",
   "status": "partial",
   "theorems": [
    "Sdp.Swiftly.C116_prepare_subgrid_2d",
    "Sdp.Swiftly.C116_extract_from_subgrid_2d_partial",
    "Sdp.Swiftly.C116_extract_from_subgrid_2d_refused",
    "Sdp.Swiftly.C116_extract_rows_false",
    "Sdp.Swiftly.C116_backward_2d_partial",
    "Sdp.Swiftly.C116_exact_2d_partial",
    "Sdp.Swiftly.C116_adjoint_2d_partial"
   ],
   "note": "Proved for any strides and any number of subgrids: prepare_subgrid_inplace_2d; extract_from_subgrid_2d as a call with its refusals; the two-dimensional backward sequence (either way of extraction) against direct sums with an explicit error bound, exact when a padded subgrid is the image, and adjoint to the forward sequence of C110 whatever the window. Restricted to even contribution sizes (C102_odd_false) and facet offsets of at least minus half a contribution (C32_negative_offset_false), and up to the sign of C33_sign_false, because the property fails there. Refuted: extract_from_subgrid_2d does not check the number of rows (C116_extract_rows_false). Exact arithmetic."
  },
  {
   "property": "C117",
   "status": "partial",
   "theorems": [
    "Sdp.Width.C117_station_partial",
    "Sdp.Width.C117_station_gpu_partial",
    "Sdp.Width.C117_dipole_partial",
    "Sdp.Width.C117_harp_partial",
    "Sdp.Width.C117_es_screen_partial",
    "Sdp.Width.C117_es_reverse_partial",
    "Sdp.Width.C117_es_correct_partial",
    "Sdp.Width.C117_es_grid_partial",
    "Sdp.Width.C117_station_large_false",
    "Sdp.Width.C117_station_gpu_large_false",
    "Sdp.Width.C117_dipole_large_false",
    "Sdp.Width.C117_harp_large_false",
    "Sdp.Width.C117_bucket_sort_large_false",
    "Sdp.Width.C117_bucket_sort_gpu_large_false",
    "Sdp.Width.C117_prefix_sum_large_false",
    "Sdp.Width.C117_es_screen_large_false",
    "Sdp.Width.C117_es_reverse_large_false",
    "Sdp.Width.C117_es_correct_large_false",
    "Sdp.Width.C117_es_grid_large_false",
    "Sdp.Width.C117_es_vis_large_false",
    "Sdp.Width.C117_bucket_sort_partial",
    "Sdp.Width.C117_bucket_sort_gpu_partial",
    "Sdp.Width.C117_prefix_sum_partial",
    "Sdp.Width.C117_custom_partial",
    "Sdp.Width.C117_custom_gpu_partial"
   ],
   "note": "Proved for all sizes an int64_t can count, while each dimension fits an int: de-gridding with custom kernels, CPU and GPU. Proved up to 2^31-1 elements: station beam (CPU, GPU), dipole and HARP element beams (CPU), sorting into tiles (CPU, GPU), offsets of tiles, screens and correction of the ES gridder; the ES gridding kernels up to 2^31-1 visibilities (with 255 rows more) and cells of one grid, for a stack of any size. False beyond: 512 patterns x (2^20+1) points x 4 polarisations, 2^29 points of an element beam, 100 x 130816 x 256 visibilities are not all sorted, two tiles of 2^30 points, ES grids of 46342 and 65536 pixels, 13081600 rows of 256 channels."
  },
  {
   "property": "C118",
   "status": "partial",
   "theorems": [
    "Verif.Python.Array.C118_numpy",
    "Verif.Python.Array.C118_cupy",
    "Verif.Python.Array.C118_types",
    "Verif.Python.Array.C118_refused",
    "Verif.Python.Array.C118_none",
    "Verif.Python.Array.C118_two_arrays_false",
    "Verif.Python.Array.C118_field_false",
    "Verif.Python.Array.C118_contiguous_partial",
    "Verif.Python.Array.C118_contiguous_false",
    "Verif.Python.Bind.C118_calls_partial",
    "Verif.Python.Bind.C118_results",
    "Verif.Python.Bind.C118_funcs",
    "Verif.Python.Bind.C118_handles",
    "Verif.Python.Bind.C118_int_false",
    "Verif.Python.Bind.C118_free_false"
   ],
   "note": "Arrays: proved for every element type, shape and strides (C118_numpy, C118_cupy, C118_types, C118_refused, C118_none), with the addresses of elements proved for strides that are multiples of the element size; false of other strides, which C accepts (C118_field_false), of axes of length one, where NumPy's contiguous arrays are refused (C118_contiguous_false), and of several arguments (C118_two_arrays_false). Calls: all 96 call sites of the package except the ones that make Mem and SkyCoord objects (C105, C106, C118_numpy), against the prototypes in the headers: for all Python values either an exception or every C parameter gets the value of its documented name (C118_calls_partial, C118_results, C118_handles). False of integers that do not fit (C118_int_false) and of the release of the example plan, called with one argument too many (C118_free_false). The rules of ctypes and NumPy are trusted and stated in the modules."
  },
  {
   "property": "C119",
   "status": "partial",
   "theorems": [
    "Sdp.GridUtil.C119_pattern_partial",
    "Sdp.GridUtil.C119_small_array_false",
    "Sdp.GridUtil.C119_refused",
    "Sdp.GridUtil.C119_no_size",
    "Sdp.GridUtil.C119_planes",
    "Sdp.GridUtil.C119_centre",
    "Sdp.GridUtil.C119_numbers",
    "Sdp.GridUtil.C119_visibility"
   ],
   "note": "Proved for every size, shear, w step, strides and schedule, if the array has at least as many rows and columns as the size says (C119_pattern_partial); the size is not compared with the array, and a larger size writes behind it (C119_small_array_false). The pattern is what the model of the direct gridder (C46) gives for the one visibility (C119_visibility). Exact arithmetic; roots of negative numbers are values of their own."
  },
  {
   "property": "C120",
   "status": "partial",
   "theorems": [
    "Sdp.Flagger.Machine.C120_later_times",
    "Sdp.Flagger.Machine.C120_thread_partial",
    "Sdp.Flagger.Machine.C120_every_call_false",
    "Sdp.Flagger.Machine.C120_step_zero_false",
    "Sdp.Flagger.Machine.C120_exact"
   ],
   "note": "Every operation of a thread that can be undefined is listed; with fewer than 2^31 visibilities and at least two times, all those after the first time are defined, whatever the data, exactly if the step is positive and gives at least two samples, the history is at least two, the window ends within int and there are flags for all visibilities (C120_exact); at the first time two reads are outside their blocks and nothing else is (C120_thread_partial). No such argument is refused, and the two reads happen in every call that has something to do (C120_every_call_false), a division by zero for step zero (C120_step_zero_false). More visibilities: C115. The accesses of qsort are taken to stay within its array."
  },
  {
   "property": "C121",
   "status": "partial",
   "theorems": [
    "Sdp.Width.C121_fill_large_false",
    "Sdp.Width.C121_fill_gpu_large_false",
    "Sdp.Width.C121_scale_gpu_large_false",
    "Sdp.Width.C121_gpu_empty_false",
    "Sdp.Width.C121_random_integers_false",
    "Sdp.Width.C121_random_gaps_false",
    "Sdp.Width.C121_read_only_false",
    "Sdp.Width.C121_fill_cpu_partial",
    "Sdp.Width.C121_fill_gpu_partial",
    "Sdp.Width.C121_fill_gpu_runs",
    "Sdp.Width.C121_scale_cpu",
    "Sdp.Width.C121_scale_gpu_partial",
    "Sdp.Width.C121_scale_gpu_runs",
    "Sdp.Width.C121_random_partial",
    "Sdp.Width.C121_random_range"
   ],
   "note": "Loop counters and thread indices in the integer types of the code. Filling: proved in main memory while every dimension is at most 2^31-1, for any addressable strides, with the exact cases of failure (C121_fill_cpu_partial); on the GPU below 2^32 per dimension, or an error (C121_fill_gpu_partial, C121_fill_gpu_runs). Scaling: proved in main memory for every size (C121_scale_cpu), on the GPU below 2^32 elements (C121_scale_gpu_partial, C121_scale_gpu_runs). Random filling: proved for arrays without gaps of float or double (C121_random_partial), values in [0,1] for every monotone rounding (C121_random_range). Missing because false: a one-dimensional array of 2^31 numbers is not filled and the call succeeds (C121_fill_large_false); with 2^32+1 numbers on the GPU the last is not filled, or not scaled while the first is scaled twice (C121_fill_gpu_large_false, C121_scale_gpu_large_false); empty arrays on the GPU are errors (C121_gpu_empty_false); random filling ignores integers (C121_random_integers_false), strides (C121_random_gaps_false) and, like scaling, protection (C121_read_only_false). The values themselves: C08 and C57."
  },
  {
   "property": "C122",
   "status": "partial",
   "theorems": [
    "Sdp.BeamCall.C122_precision_false",
    "Sdp.BeamCall.C122_short_angles_false",
    "Sdp.BeamCall.C122_output_false",
    "Sdp.BeamCall.C122_short_coefficients_false",
    "Sdp.BeamCall.C122_gpu_threads_false",
    "Sdp.BeamCall.C122_dipole_cpu",
    "Sdp.BeamCall.C122_dipole_gpu",
    "Sdp.BeamCall.C122_harp_cpu",
    "Sdp.BeamCall.C122_harp_gpu"
   ],
   "note": "Uses of array elements listed with index, assumed type and direction. The exact arguments that are refused and the exact ones that lead only to right uses are proved for both functions in main memory (C122_dipole_cpu, C122_harp_cpu) and for the dipole on the GPU, where threads behind the last point run (C122_dipole_gpu); spherical waves on the GPU always fail (C122_harp_gpu). The property is false, as wrong arguments are not refused: another precision of the angles (C122_precision_false), too few angles (C122_short_angles_false) or coefficients (C122_short_coefficients_false), an output that is too small, too early or protected (C122_output_false); and on the GPU exact arrays are overrun (C122_gpu_threads_false)."
  },
  {
   "property": "C123",
   "status": "partial",
   "theorems": [
    "Sdp.StationCall.C123_short_arrays_false",
    "Sdp.StationCall.C123_precision_false",
    "Sdp.StationCall.C123_place_false",
    "Sdp.StationCall.C123_element_beams_false",
    "Sdp.StationCall.C123_output_false",
    "Sdp.StationCall.C123_station_cpu",
    "Sdp.StationCall.C123_station_gpu"
   ],
   "note": "Uses of array elements listed with index, assumed type and direction, for arbitrary contents of the index array. The exact arguments that are refused and the exact ones that lead only to right uses are proved in main memory and on the GPU (C123_station_cpu, C123_station_gpu). The property is false, as wrong arguments are not refused: arrays that are too short (C123_short_arrays_false), another precision (C123_precision_false), arrays elsewhere (C123_place_false), indices or element beams that do not match (C123_element_beams_false), an output that is too short, too early or protected (C123_output_false). Absent arrays are descriptors without data, as the Python package passes them."
  },
  {
   "property": "C124",
   "status": "partial",
   "theorems": [
    "Sdp.TimerReport.C124_empty_set_false",
    "Sdp.TimerReport.C124_interquartile_false",
    "Sdp.TimerReport.C124_zero_total_false",
    "Sdp.TimerReport.C124_history",
    "Sdp.TimerReport.C124_defined",
    "Sdp.TimerReport.C124_sections",
    "Sdp.TimerReport.C124_every_scope_once",
    "Sdp.TimerReport.C124_figures_partial"
   ],
   "note": "Exact times of timers at rest (the report reads running timers more than once). The report is defined exactly if every scope has a timer (C124_defined), as in every history without an empty set (C124_history); every scope is listed once (C124_every_scope_once), in sections that are sorted and add up (C124_sections); shortest, longest and median time are right, the interquartile range for 4k or 4k+1 timers (C124_figures_partial). False: an empty set makes the report undefined (C124_empty_set_false), the range is 0 for any two or three timers (C124_interquartile_false), percentages of a scope without time divide by zero (C124_zero_total_false)."
  },
  {
   "property": "C125",
   "status": "partial",
   "theorems": [
    "Sdp.Omp.C125_fft_serial",
    "Sdp.Omp.C125_fft",
    "Sdp.Omp.C125_tower",
    "Sdp.Omp.C125_beam",
    "Sdp.Omp.C125_dft",
    "Sdp.Omp.C125_dft1",
    "Sdp.Omp.C125_add_race_false",
    "Sdp.Omp.C125_add_false",
    "Sdp.Omp.C125_add_partial",
    "Sdp.Omp.C125_cut",
    "Sdp.Omp.C125_shift",
    "Sdp.Omp.C125_degrid",
    "Sdp.Omp.C125_grid",
    "Sdp.Omp.C125_phase",
    "Sdp.Omp.C125_norm",
    "Sdp.Omp.C125_wcorrect",
    "Sdp.Omp.C125_pcorrect",
    "Sdp.Omp.C125_reduction",
    "Sdp.Omp.C125_sum_diff",
    "Sdp.Omp.C125_rms"
   ],
   "note": "For every loop: if the serial function returns, every team and every interleaving at the level of single reads and writes gives its result, and fair schedules end. Adding a subgrid is proved for subgrids with no more rows than the grid; for more rows two iterations write one cell (C125_add_race_false, every size) and an update can be lost (C125_add_false). A team may give a thread any iterations in any order, which covers all OpenMP schedules. Arrays are C-contiguous; elements are read and written in one step (the cells of different iterations are disjoint, so tearing does not matter there). The batches of the FFT are programs over both buffers; reductions add the sums of the threads in any order. Elementwise scaling, residuals, w patterns and channel clamping have one thread per element or row in C82, C83 and C93; the loop over baselines of the flagger is covered by order-independence (C12) only."
  },
  {
   "property": "C126",
   "status": "partial",
   "theorems": [
    "Sdp.WTower.C126_grid_unchanged_partial",
    "Sdp.WTower.C126_grid_success",
    "Sdp.WTower.C126_grid_accepted",
    "Sdp.WTower.C126_bounds_false",
    "Sdp.WTower.C126_count_false",
    "Sdp.WTower.C126_refused",
    "Sdp.WTower.C126_degrid_unchanged_partial",
    "Sdp.WTower.C126_degrid_success",
    "Sdp.WTower.C126_degrid_accepted",
    "Sdp.WTower.C126_real_image",
    "Sdp.WTower.C126_real_image_false",
    "Sdp.WTower.C126_real_image_witness"
   ],
   "note": "Both whole calls with their checks and status. Refused at once: nothing changed or counted (C126_refused). Any later error leaves the visibilities (C126_degrid_unchanged_partial) and the image (C126_grid_unchanged_partial) as they were; for protected visibilities the loop does run, and it is proved that no visibility lies on the first plane, the only one processed (up to 21475 channels, rows inside the arrays). Without error the arguments were right and the result is that of C42 (C126_degrid_success, C126_grid_success), and right arguments are accepted (C126_degrid_accepted, C126_grid_accepted). False: a failed check of coordinates or channel ranges converts infinite bounds to int, which is undefined (C126_bounds_false); refused calls add to the counter of planes (C126_count_false); a real image is accepted but gets the real part without the last power of the w pattern (C126_real_image, C126_real_image_false, C126_real_image_witness)."
  },
  {
   "property": "C127",
   "status": "partial",
   "theorems": [
    "Sdp.Logging.C127_shown",
    "Sdp.Logging.C127_fixed",
    "Sdp.Logging.C127_time_partial",
    "Sdp.Logging.C127_threads",
    "Sdp.Logging.C127_other_value_false",
    "Sdp.Logging.C127_time_false",
    "Sdp.Logging.C127_lines_false"
   ],
   "note": "For the documented values and for none the lines are exactly those of the wanted messages (C127_shown); after the first message the level stays whatever happens to the variable (C127_fixed); for any number of threads and any interleaving each thread prints the headers of exactly its wanted messages, in order (C127_threads; reads and writes of the shared variable taken as indivisible, which the code does not ask for). The time stamp is right if no second ends between the two readings of the clock (C127_time_partial). False: the stamps of successive messages can run backwards, since seconds and milliseconds come from different readings (C127_time_false); lines of threads are mixed, since a line is printed in three pieces (C127_lines_false); with a value that is not documented nothing is suppressed (C127_other_value_false). Calendar dates are not modelled."
  },
  {
   "property": "C128",
   "status": "partial",
   "theorems": [
    "Sdp.Mutex.C128_serial",
    "Sdp.Mutex.C128_updates",
    "Sdp.Mutex.C128_exclusive",
    "Sdp.Mutex.C128_progress",
    "Sdp.Mutex.C128_ends",
    "Sdp.Mutex.C128_no_openmp_false"
   ],
   "note": "With OpenMP: never two threads inside (C128_exclusive), the shared data, of any type, end as if all changes had been made one after the other, each thread's in its order (C128_serial, and C128_updates for sums), a thread can always go on until all have ended (C128_progress), and no interleaving is longer than four steps for each change (C128_ends), for every number of threads and every interleaving. Assumed: the OpenMP lock works, memory is sequentially consistent across it, the allocation in sdp_mutex_create succeeds (its result is not tested). The property is false of a library compiled without OpenMP, where the functions do nothing and a change is lost (C128_no_openmp_false)."
  }
 ]
}