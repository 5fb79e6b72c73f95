{"id": "C01", "title": "Array allocation gives a gap-free C-ordered layout", "statement": "An array created with any type, rank and shape reports a number of elements equal to the product of its dimensions, row-major strides (last stride = element size, each earlier stride = next stride times next dimension), and the byte ranges of the elements addressed by distinct in-range multi-indices are pairwise disjoint and together lie inside the allocation (element size times number of elements bytes).", "quantifier": "every element type with non-zero size, every rank and every shape with non-negative dimensions, every pair of in-range multi-indices", "why_tests_cant": "Ranks, shapes and index pairs are unbounded; a test exercises a handful of shapes.", "anchors": [{"file": "src/ska-sdp-func/utility/sdp_mem.cpp", "symbol": "sdp_mem_create"}, {"file": "src/ska-sdp-func/utility/sdp_mem.cpp", "symbol": "sdp_mem_alloc"}, {"file": "src/ska-sdp-func/utility/sdp_mem.cpp", "symbol": "sdp_mem_stride_bytes_dim"}]}
{"id": "C02", "title": "C-contiguity flag is exact", "statement": "For an array wrapped with caller-supplied strides, the C-contiguous query answers true exactly when the rank is at least one and the strides are the row-major strides of the shape; consequently every check that demands contiguity accepts only arrays whose flat element k is at byte k*element-size.", "quantifier": "every rank, shape and stride vector (including negative and zero strides)", "why_tests_cant": "The stride vectors form an infinite space; only a proof covers all of them.", "anchors": [{"file": "src/ska-sdp-func/utility/sdp_mem.cpp", "symbol": "sdp_mem_is_c_contiguous"}, {"file": "src/ska-sdp-func/utility/sdp_mem.cpp", "symbol": "sdp_mem_create_wrapper"}, {"file": "src/ska-sdp-func/utility/sdp_mem.cpp", "symbol": "sdp_mem_check_c_contiguity"}]}
{"id": "C03", "title": "A slice view addresses exactly the selected window of its parent", "statement": "When the slice wrapper succeeds, element i of the slice is element (offset+i) of the parent, and every element of the slice lies inside the parent array. (The first half holds; the second is violated by the code because offset+extent is never compared with the parent dimension.)", "quantifier": "every parent shape, stride vector, offset vector and slice shape", "why_tests_cant": "Out-of-range windows are accepted silently; finding or excluding them needs all offsets and extents.", "anchors": [{"file": "src/ska-sdp-func/utility/sdp_mem.cpp", "symbol": "sdp_mem_create_wrapper_for_slice"}]}
{"id": "C04", "title": "Reference counting frees owned storage exactly once and never frees borrowed storage", "statement": "For any history of retain / release calls on an array in which no call follows the final release, the storage is freed exactly when the number of releases reaches the number of handles, exactly once, and only if the array owns it; wrapped, aliased and sliced storage is never freed through the wrapper.", "quantifier": "every finite interleaving of retain and release calls", "why_tests_cant": "Histories are unbounded; a double free or leak may need a particular long history.", "anchors": [{"file": "src/ska-sdp-func/utility/sdp_mem.cpp", "symbol": "sdp_mem_free"}, {"file": "src/ska-sdp-func/utility/sdp_mem.cpp", "symbol": "sdp_mem_ref_inc"}, {"file": "src/ska-sdp-func/utility/sdp_mem.cpp", "symbol": "sdp_mem_create_alias"}]}
{"id": "C05", "title": "Copying an array preserves every element", "statement": "A copy of an array has the same type and shape, and every in-range multi-index reads the same value in the copy as in the source; the copy reads only allocated bytes. (Holds for C-contiguous sources; the code violates it for strided sources, whose strides are kept although only the dense number of bytes is allocated.)", "quantifier": "every source shape, stride vector and contents", "why_tests_cant": "The failure depends on the stride vector; contiguous test arrays never show it.", "anchors": [{"file": "src/ska-sdp-func/utility/sdp_mem.cpp", "symbol": "sdp_mem_create_copy"}, {"file": "src/ska-sdp-func/utility/sdp_mem.cpp", "symbol": "sdp_mem_copy_contents"}]}
{"id": "C06", "title": "Parameter checks never clear or replace an earlier error, and a clean status means every check held", "statement": "Running any sequence of the array checks (writeable, contiguity, location, type, rank, dimension size, same location, same type, same shape) starting from any status: an earlier error code is returned unchanged, and the final status is success exactly when the initial one was and every checked condition holds. (The same-shape check violates the first half: it overwrites an earlier error code.)", "quantifier": "every sequence of checks, every initial status, every array descriptor", "why_tests_cant": "The property is about all sequences of checks and statuses; each unit test runs one.", "anchors": [{"file": "src/ska-sdp-func/utility/sdp_mem.cpp", "symbol": "sdp_mem_check_writeable_at"}, {"file": "src/ska-sdp-func/utility/sdp_mem.cpp", "symbol": "sdp_mem_check_same_shape_at"}, {"file": "src/ska-sdp-func/utility/sdp_mem.cpp", "symbol": "sdp_mem_check_shape_dim_at"}]}
{"id": "C07", "title": "A typed view is usable exactly when the checks passed", "statement": "Obtaining a typed view of an array: on success type, rank and location match (and, for non-const views, the array is writeable) and the view has the array's shape and strides, so element access through the view hits the same address as the array; on failure the status is an error and the view has all dimensions zero, so no loop over it touches memory.", "quantifier": "every array descriptor, requested type, rank and location, every prior status", "why_tests_cant": "All descriptor combinations times all prior statuses are not enumerable.", "anchors": [{"file": "src/ska-sdp-func/utility/sdp_mem_view.h", "symbol": "sdp_mem_check_and_view_at"}, {"file": "src/ska-sdp-func/utility/sdp_mem_view.h", "symbol": "sdp_MemView"}]}
{"id": "C08", "title": "Clearing, filling and partial copying change exactly the addressed region", "statement": "Clearing a portion changes exactly the elements [start, start+n) to zero; a partial copy makes destination elements [dst, dst+n) equal to the source elements [src, src+n) and leaves the others alone; filling with a value sets exactly the elements reachable through the shape and strides.", "quantifier": "every array size, start, count and contents", "why_tests_cant": "Frame properties quantify over all untouched positions and all offsets.", "anchors": [{"file": "src/ska-sdp-func/utility/sdp_mem.cpp", "symbol": "sdp_mem_clear_portion"}, {"file": "src/ska-sdp-func/utility/sdp_mem.cpp", "symbol": "sdp_mem_copy_contents"}, {"file": "src/ska-sdp-func/utility/sdp_mem.cpp", "symbol": "sdp_mem_set_value"}]}
{"id": "C09", "title": "Visibility/uvw/weight metadata queries establish the documented data model", "statement": "If the uvw, visibility or weights query returns with a success status then the rank, last dimension (3 for uvw), polarisation count (1 or 4), type class (real/complex), location and cross-array agreement all hold, and the reported counts are the array dimensions.", "quantifier": "every array descriptor and every requested property set", "why_tests_cant": "Every combination of rank, shape, type and expected counts must be covered.", "anchors": [{"file": "src/ska-sdp-func/utility/sdp_data_model_checks.c", "symbol": "sdp_data_model_get_vis_metadata"}, {"file": "src/ska-sdp-func/utility/sdp_data_model_checks.c", "symbol": "sdp_data_model_get_uvw_metadata"}, {"file": "src/ska-sdp-func/utility/sdp_data_model_checks.c", "symbol": "sdp_data_model_check_vis_at"}]}
{"id": "C10", "title": "A timer reports exactly the time spent running", "statement": "For any history of start, pause, resume, restart, reset and query calls at non-decreasing clock readings, the elapsed time reported is the total length of the intervals during which the timer was running since its last start or reset; querying does not change any later report. (Violated by restarting a running timer, which discards the time since the last query.)", "quantifier": "every finite history of timer calls and every non-decreasing clock", "why_tests_cant": "Histories are unbounded; double pauses/resumes are the subtle cases.", "anchors": [{"file": "src/ska-sdp-func/utility/sdp_timer.cpp", "symbol": "sdp_timer_elapsed"}, {"file": "src/ska-sdp-func/utility/sdp_timer.cpp", "symbol": "sdp_timer_pause"}, {"file": "src/ska-sdp-func/utility/sdp_timer.cpp", "symbol": "sdp_timer_resume"}]}
{"id": "C11", "title": "Nested timing scopes pair up", "statement": "For any properly nested sequence of scope entries and exits in the hierarchical timer, exiting returns to the enclosing scope, re-entering a scope name under the same parent accumulates into the same entry instead of creating a second one, and the total of an entry counts each of its executions once.", "quantifier": "every nested sequence of scope names and depths", "why_tests_cant": "Call trees are unbounded.", "anchors": [{"file": "src/ska-sdp-func/utility/sdp_timer.cpp", "symbol": "sdp_timers_push"}]}
{"id": "C12", "title": "Flagging only ever adds flags and treats baselines and polarisations independently", "statement": "Running the dynamic-threshold flagger leaves every already-set flag set, and the flags produced for one baseline and polarisation depend only on the visibilities of that baseline and polarisation and on the parameters; so the result is the same for every order or parallel schedule of baselines and polarisations.", "quantifier": "every visibility array, every initial flags array, every schedule of the parallel loop", "why_tests_cant": "Schedules and arrays are unbounded.", "anchors": [{"file": "src/ska-sdp-func/visibility/sdp_flagger.cpp", "symbol": "flagger_dynamic_threshold"}, {"file": "src/ska-sdp-func/visibility/sdp_flagger.cpp", "symbol": "sdp_flagger_dynamic_threshold"}]}
{"id": "C13", "title": "Bucket sort of visibilities is a permutation grouped by tile", "statement": "After counting visibilities per tile, forming tile offsets by prefix sum and scattering, every (visibility, tile) pair that was counted is stored exactly once, the entries of tile t occupy exactly the slots [offset(t), offset(t+1)), and nothing is written elsewhere; the order of processing affects only the order within a tile.", "quantifier": "every list of visibilities, every tile assignment (several tiles per visibility), every processing order", "why_tests_cant": "Needs all inputs and processing orders (atomic increments on the GPU).", "anchors": [{"file": "src/ska-sdp-func/visibility/sdp_tiled_functions.cpp", "symbol": "sdp_bucket_sort_simple"}, {"file": "src/ska-sdp-func/visibility/sdp_tiled_functions.cpp", "symbol": "sdp_tile_count_simple"}, {"file": "src/ska-sdp-func/visibility/sdp_tiled_functions.cpp", "symbol": "sdp_count_and_prefix_sum"}]}
{"id": "C14", "title": "Prefix sum produces running totals", "statement": "The prefix sum of tile counts has one more entry than there are tiles, starts at 0, entry t+1 minus entry t is the count of tile t and the last entry (also reported as total) is the sum of all counts; the block-parallel scan used on the GPU computes the same values for any number of tiles and any power-of-two block size, under every execution that respects its barriers.", "quantifier": "every count array length and contents, every block size", "why_tests_cant": "The parallel scan must be right for every length relative to the block size.", "anchors": [{"file": "src/ska-sdp-func/visibility/sdp_tiled_functions.cpp", "symbol": "sdp_prefix_sum"}, {"file": "src/ska-sdp-func/visibility/sdp_tiled_functions.cu", "symbol": "sdp_prefix_sum"}]}
{"id": "C15", "title": "Tile lookup is inside the tile array and covers the kernel footprint", "statement": "For each visibility whose grid coordinate passes the in-grid test, every tile index computed is inside the tile count array and the set of tiles is exactly those overlapped by the kernel footprint. (Violated on the CPU: the first-tile-in-u result is discarded, and a grid that is a multiple of the tile size yields an index equal to the number of tiles.)", "quantifier": "every grid size, tile size, support and coordinate", "why_tests_cant": "Out-of-bounds needs specific coordinate/size relations.", "anchors": [{"file": "src/ska-sdp-func/visibility/sdp_tiled_functions.cpp", "symbol": "TILE_RANGES"}, {"file": "src/ska-sdp-func/visibility/sdp_tiled_functions.cpp", "symbol": "sdp_tile_count_simple"}]}
{"id": "C16", "title": "Uniform weighting gives each visibility the reciprocal of the summed weight of its cell", "statement": "With uniform weighting every visibility whose (u,v) cell is inside the grid receives one divided by the sum of the input weights of all visibilities falling in the same cell (plus the grid's initial contents); the total over a cell of input weight times output weight is therefore 1 for an initially zero grid; visibilities outside are left untouched. (Violated for visibilities with a negative cell index, which is not tested for, and for a grid with fewer polarisations than the weights.)", "quantifier": "every visibility set, grid size, frequency set and polarisation count", "why_tests_cant": "The sums range over all subsets of visibilities sharing a cell.", "anchors": [{"file": "src/ska-sdp-func/visibility/sdp_weighting.cpp", "symbol": "sdp_weighting_uniform"}]}
{"id": "C17", "title": "Briggs weighting follows the documented formula and interpolates monotonically", "statement": "With Briggs weighting every in-grid visibility of weight w in a cell of summed weight W receives w/(1+R*W) with R=(5*10^-robust)^2/(sum of W^2 / sum of W), the sums taken over the in-grid visibilities; outputs are non-negative, never exceed w, and decrease as robustness decreases.", "quantifier": "every visibility set, robustness value, grid", "why_tests_cant": "The quantifier is over all real robust values and all sets.", "anchors": [{"file": "src/ska-sdp-func/visibility/sdp_weighting.cpp", "symbol": "sdp_weighting_briggs"}]}
{"id": "C18", "title": "The DFT predicts a linear function of the source fluxes, independent of source order", "statement": "Predicted visibilities are linear in the source fluxes, invariant under permuting sources, are the sum of the predictions of any split of the source list, each visibility depends only on its own coordinate, and every in-range output is written exactly once.", "quantifier": "every source list, flux array, coordinate set and output element", "why_tests_cant": "Linear/permutation laws quantify over all lists.", "anchors": [{"file": "src/ska-sdp-func/visibility/sdp_dft.cpp", "symbol": "sdp_dft_point_v00"}, {"file": "src/ska-sdp-func/visibility/sdp_dft.cpp", "symbol": "sdp_dft_point_v01"}]}
{"id": "C19", "title": "Rotating uvw coordinates preserves baseline length and is undone by the reverse rotation", "statement": "Rotating uvw coordinates between two phase centres preserves each baseline length, equals the identity when the centres coincide, may be done in place, and rotating from A to B then from B to A restores the input. (The last part is violated by the code: the two-angle rotation built from coordinate differences is not inverted by negating the differences unless one of them is zero.)", "quantifier": "every pair of phase centres and every uvw triple", "why_tests_cant": "Real-valued parameter space.", "anchors": [{"file": "src/ska-sdp-func/visibility/sdp_phase_rotate.cpp", "symbol": "sdp_phase_rotate_uvw"}]}
{"id": "C20", "title": "Rotating visibilities changes only their phase", "statement": "Phase-rotating visibilities keeps every visibility's modulus, is the identity when both centres coincide, is linear in the visibilities, and rotating back with the centres exchanged (and the coordinates rotated accordingly) restores the input. (The last part is violated when the right ascensions differ.)", "quantifier": "every coordinate, frequency, pair of centres and visibility value", "why_tests_cant": "Real-valued parameter space.", "anchors": [{"file": "src/ska-sdp-func/visibility/sdp_phase_rotate.cpp", "symbol": "sdp_phase_rotate_vis"}]}
{"id": "C21", "title": "Hogbom CLEAN conserves flux: dirty image = residual + model convolved with PSF", "statement": "At every iteration, and hence when it returns after any number of iterations, the residual plus the sum over components of (component value times the PSF centred at the component) equals the dirty image at every pixel; the returned model is the list of components restored with the clean beam plus the residual.", "quantifier": "every dirty image, PSF, gain, threshold, cycle limit", "why_tests_cant": "The invariant holds along unbounded runs on arbitrary images.", "anchors": [{"file": "src/ska-sdp-func/clean/sdp_hogbom_clean.cpp", "symbol": "sdp_hogbom_clean_cpu"}, {"file": "src/ska-sdp-func/clean/sdp_hogbom_clean.cpp", "symbol": "sdp_hogbom_clean_cpu"}]}
{"id": "C22", "title": "Hogbom CLEAN reads the PSF only inside its bounds", "statement": "With a square dirty image of side D and a PSF of side 2D (as the wrapper enforces), every PSF, residual and model access in every iteration is inside the corresponding array, wherever the peaks are.", "quantifier": "every image side, every peak position, every iteration", "why_tests_cant": "Peak position depends on data; corners are rarely tested.", "anchors": [{"file": "src/ska-sdp-func/clean/sdp_hogbom_clean.cpp", "symbol": "sdp_hogbom_clean_cpu"}, {"file": "src/ska-sdp-func/clean/sdp_hogbom_clean.cpp", "symbol": "sdp_hogbom_clean"}]}
{"id": "C23", "title": "Hogbom CLEAN stops at the threshold or cycle limit and its peaks are maxima", "statement": "It performs at most cycle_limit subtractions; each subtraction takes place at the first pixel (row-major) of maximal residual value, whose value is at least the threshold; if fewer subtractions than the limit happened then the maximum residual is below the threshold.", "quantifier": "every image, PSF, threshold and cycle limit", "why_tests_cant": "Termination and stop reasons are claims over all runs.", "anchors": [{"file": "src/ska-sdp-func/clean/sdp_hogbom_clean.cpp", "symbol": "sdp_hogbom_clean_cpu"}]}
{"id": "C24", "title": "Multi-scale CLEAN keeps every scale residual consistent with its component list", "statement": "At every iteration each scale's residual equals its initial scale-convolved dirty image minus the sum of gain*peak times the scale-scale PSF centred at the component, at most cycle_limit components are placed, and the component image is the sum of the scale kernels placed with the same amplitudes.", "quantifier": "every image, PSF, scale list, gain, threshold, cycle limit", "why_tests_cant": "Invariant over unbounded runs.", "anchors": [{"file": "src/ska-sdp-func/clean/sdp_ms_clean_cornwell.cpp", "symbol": "ms_clean_cornwell"}]}
{"id": "C25", "title": "FFT convolution returns the centred same-size linear convolution", "statement": "For any two square arrays the output equals the central same-size part of their full linear convolution and no element is written outside the output. (Holds for even sides; violated for odd sides.)", "quantifier": "every pair of sides and contents", "why_tests_cant": "The odd/even size matrix and contents are unbounded.", "anchors": [{"file": "src/ska-sdp-func/numeric_functions/sdp_fft_convolution.cpp", "symbol": "sdp_fft_convolution"}]}
{"id": "C26", "title": "FFT padded size is the smallest suitable even size", "statement": "The padded-size function returns the smallest even number whose prime factors are at most 11 that is at least max(2, ceil(n*padding)), for every input.", "quantifier": "every requested size and padding factor", "why_tests_cant": "Minimality is a statement about every smaller number for every input.", "anchors": [{"file": "src/ska-sdp-func/fourier_transforms/sdp_fft_padded_size.cpp", "symbol": "sdp_fft_padded_size"}]}
{"id": "C27", "title": "The built-in power-of-two FFT computes the discrete Fourier transform", "statement": "For every power-of-two length the built-in CPU transform returns exactly (in exact arithmetic) the unnormalised DFT with the documented sign, for one and two dimensional transforms, for every batch entry independently.", "quantifier": "every power-of-two length, every input vector, every batch size", "why_tests_cant": "Equality with the DFT for all lengths needs induction on the stages.", "anchors": [{"file": "src/ska-sdp-func/fourier_transforms/sdp_fft.cpp", "symbol": "sdp_fft_exec"}, {"file": "src/ska-sdp-func/fourier_transforms/sdp_fft.cpp", "symbol": "perform_cpu_fft_power_of_two_inplace"}]}
{"id": "C28", "title": "Shifted FFT is the centred transform and forward-then-inverse scales by the size", "statement": "An inverse transform after a forward transform multiplies the input by the number of elements; the checkerboard phase step is an involution; with it applied before and after, the transform of an even-sized array equals the DFT with both origins at the centre pixel (up to the overall documented factor).", "quantifier": "every even size, every input", "why_tests_cant": "Identities over all vectors.", "anchors": [{"file": "src/ska-sdp-func/fourier_transforms/sdp_fft.cpp", "symbol": "sdp_fft_exec_shift"}, {"file": "src/ska-sdp-func/fourier_transforms/sdp_fft.cpp", "symbol": "sdp_fft_phase"}, {"file": "src/ska-sdp-func/fourier_transforms/sdp_fft.cpp", "symbol": "sdp_fft_norm"}]}
{"id": "C29", "title": "Good FFT size is the smallest 11-smooth number not below the request", "statement": "The grid-size helper returns the smallest integer not below the request having no prime factor above 11.", "quantifier": "every request", "why_tests_cant": "Minimality over all smaller candidates.", "anchors": [{"file": "src/ska-sdp-func/grid_data/sdp_gridder_uvw_es_fft_utils.cpp", "symbol": "sdp_good_size_complex"}]}
{"id": "C30", "title": "Distributed-FFT parameter checks guarantee in-range window access", "statement": "When a distributed-FFT (SwiFTly) configuration is accepted at creation, every facet offset and size allowed by the documented checks and every subgrid offset makes all reads of the window functions, facets and contributions fall inside their arrays. (Violated for negative facet offsets in the subgrid extraction / 2D accumulation functions, where the offset is not reduced modulo the size.)", "quantifier": "every accepted configuration, facet offset, facet size and subgrid offset", "why_tests_cant": "Offsets are unbounded signed integers.", "anchors": [{"file": "src/ska-sdp-func/fourier_transforms/sdp_swiftly.cpp", "symbol": "sdp_swiftly_create"}, {"file": "src/ska-sdp-func/fourier_transforms/sdp_swiftly.cpp", "symbol": "sdp_swiftly_add_to_subgrid_2d"}, {"file": "src/ska-sdp-func/fourier_transforms/sdp_swiftly.cpp", "symbol": "sdp_swiftly_extract_from_subgrid"}]}
{"id": "C31", "title": "Facet extraction and accumulation are adjoint circular windows", "statement": "Extracting a contribution from a prepared facet copies exactly the contribution-size window circularly centred at the subgrid offset, each output element coming from exactly one input element; accumulating a contribution into a facet adds each element to exactly that position and leaves the rest unchanged; the two maps are transposes of each other.", "quantifier": "every size, offset (positive or negative) and contents", "why_tests_cant": "All offsets and wrap-around cases.", "anchors": [{"file": "src/ska-sdp-func/fourier_transforms/sdp_swiftly.cpp", "symbol": "sdp_swiftly_extract_from_facet"}, {"file": "src/ska-sdp-func/fourier_transforms/sdp_swiftly.cpp", "symbol": "sdp_swiftly_add_to_facet"}]}
{"id": "C32", "title": "Subgrid accumulation and extraction are adjoint windowed maps", "statement": "Adding a contribution to a subgrid image and extracting a contribution from a subgrid image use the same window weights and the same circular index pairing, so they are adjoint; accumulation is additive and commutative over facets.", "quantifier": "every size, offset and contents", "why_tests_cant": "All offsets and orders of accumulation.", "anchors": [{"file": "src/ska-sdp-func/fourier_transforms/sdp_swiftly.cpp", "symbol": "sdp_swiftly_add_to_subgrid"}, {"file": "src/ska-sdp-func/fourier_transforms/sdp_swiftly.cpp", "symbol": "sdp_swiftly_extract_from_subgrid"}]}
{"id": "C33", "title": "Preparing a subgrid inverts finishing it", "statement": "Preparing a finished subgrid at the same offset returns the original subgrid, as documented. (Violated: the composition multiplies by the parity sign of offset plus half the size.)", "quantifier": "every subgrid size, offset and contents", "why_tests_cant": "Depends on parity of offset and size for all sizes.", "anchors": [{"file": "src/ska-sdp-func/fourier_transforms/sdp_swiftly.cpp", "symbol": "sdp_swiftly_finish_subgrid_inplace"}, {"file": "src/ska-sdp-func/fourier_transforms/sdp_swiftly.cpp", "symbol": "sdp_swiftly_prepare_subgrid_inplace"}]}
{"id": "C34", "title": "Channel clamping selects exactly the channels inside the coordinate range", "statement": "For a visibility with coordinate u0+du*channel, the clamped channel range is exactly the sub-range of the input channels whose coordinate c satisfies min <= c < max. (True for du>0 above the numerical guard; for du<0 the code uses min < c <= max, contrary to the documentation.)", "quantifier": "every u0, du, range and channel interval", "why_tests_cant": "Boundary cases over all reals.", "anchors": [{"file": "src/ska-sdp-func/grid_data/sdp_gridder_clamp_channels.h", "symbol": "sdp_gridder_clamp_channels_inline"}, {"file": "src/ska-sdp-func/grid_data/sdp_gridder_clamp_channels.cpp", "symbol": "sdp_gridder_clamp_channels_single"}]}
{"id": "C35", "title": "Channel clamping of adjacent ranges never overlaps and never loses a channel", "statement": "Clamping the same channels to two adjacent ranges [a,b) and [b,c) gives disjoint channel ranges whose union is the channels inside [a,c). (Holds when the numerical guard takes the same branch in both calls; violated otherwise, because the guard depends on the range ends.)", "quantifier": "every coordinate line, every three range ends", "why_tests_cant": "Needs all triples of ends and slopes.", "anchors": [{"file": "src/ska-sdp-func/grid_data/sdp_gridder_clamp_channels.h", "symbol": "sdp_gridder_clamp_channels_inline"}]}
{"id": "C36", "title": "The w-stacking gridder processes every visibility exactly once", "statement": "Tiling the uvw space into subgrid boxes assigns each visibility to exactly one (u,v,w) box of those enumerated between the computed minimum and maximum box indices, so the counts agree and the (de)gridder does not abort.", "quantifier": "every visibility set, subgrid size and w-stack height (exact arithmetic, uniform numerical guard)", "why_tests_cant": "Partition statement over all real coordinates.", "anchors": [{"file": "src/ska-sdp-func/grid_data/sdp_grid_wstack_wtower.cpp", "symbol": "sdp_grid_wstack_wtower_degrid_all"}, {"file": "src/ska-sdp-func/grid_data/sdp_grid_wstack_wtower.cpp", "symbol": "sdp_grid_wstack_wtower_grid_all"}]}
{"id": "C37", "title": "Worker threads claim each chunk of rows exactly once", "statement": "Under every interleaving of worker threads picking tasks, each row of each subgrid task is claimed exactly once, chunks never overlap, and every worker terminates after all rows have been claimed.", "quantifier": "every number of threads, every schedule, every number of tasks, rows and chunk size", "why_tests_cant": "All interleavings.", "anchors": [{"file": "src/ska-sdp-func/grid_data/sdp_grid_wstack_wtower.cpp", "symbol": "pick_task"}]}
{"id": "C38", "title": "Cutting out and adding subgrids are periodic and mutually adjoint", "statement": "Cutting a subgrid out of a grid reads, for each subgrid pixel, the grid pixel at the centre-aligned offset position modulo the grid size; adding a subgrid with an offset adds each pixel at the corresponding position modulo the grid size; cutting with an offset and adding with the negated offset are adjoint, and both terminate for every offset on non-empty grids.", "quantifier": "every grid size, subgrid size, offset and contents", "why_tests_cant": "Offsets and wrap-around are unbounded.", "anchors": [{"file": "src/ska-sdp-func/grid_data/sdp_gridder_utils.cpp", "symbol": "sdp_gridder_subgrid_cut_out"}, {"file": "src/ska-sdp-func/grid_data/sdp_gridder_utils.cpp", "symbol": "sdp_gridder_subgrid_add"}]}
{"id": "C39", "title": "The uvw bounding box is exact", "statement": "The reported minimum and maximum of u, v, w bound the coordinates of every visibility in the selected channels and are attained by some visibility. (Holds for non-negative channel spacing; violated for decreasing frequencies.)", "quantifier": "every uvw array, start/end channel array, start frequency and spacing", "why_tests_cant": "Needs all signs and channel ranges.", "anchors": [{"file": "src/ska-sdp-func/grid_data/sdp_gridder_utils.cpp", "symbol": "sdp_gridder_uvw_bounds_all"}]}
{"id": "C40", "title": "W-towers gridding is the adjoint of degridding", "statement": "For fixed coordinates and kernels, the map from subgrid stack to visibilities computed by degridding and the map from visibilities to subgrid stack computed by gridding are transposes of each other, both are linear, and gridding visibilities one at a time in any order gives the same subgrids.", "quantifier": "every kernel table, coordinate set, subgrid stack and visibility set", "why_tests_cant": "An inner-product identity over all data.", "anchors": [{"file": "src/ska-sdp-func/grid_data/sdp_gridder_wtower_uvw.cpp", "symbol": "degrid_cpu"}, {"file": "src/ska-sdp-func/grid_data/sdp_gridder_wtower_uvw.cpp", "symbol": "grid_cpu"}]}
{"id": "C41", "title": "W-towers (de)gridding touches only subgrid memory", "statement": "Every visibility that passes the coordinate test accesses only pixels inside the subgrid and rows inside the kernel tables. (Violated within half a support of the subgrid edge and for decreasing coordinates, where the test is insufficient.)", "quantifier": "every coordinate, support, oversampling and subgrid size", "why_tests_cant": "Edge coordinates over all sizes.", "anchors": [{"file": "src/ska-sdp-func/grid_data/sdp_gridder_wtower_uvw.cpp", "symbol": "degrid_cpu"}]}
{"id": "C42", "title": "The w-plane sweep keeps each tower layer at its own w-plane", "statement": "While degridding sweeps over w-planes, at the time plane p is used, layer k of the tower holds the transform of the image multiplied by the w-pattern for plane p+k-support/2; so shifting layers never mixes planes. While gridding, the completed layer is multiplied by the matching inverse pattern.", "quantifier": "every number of planes, supports and start planes", "why_tests_cant": "Invariant along an unbounded sweep.", "anchors": [{"file": "src/ska-sdp-func/grid_data/sdp_gridder_wtower_uvw.cpp", "symbol": "sdp_gridder_wtower_uvw_degrid"}, {"file": "src/ska-sdp-func/grid_data/sdp_gridder_wtower_uvw.cpp", "symbol": "sdp_gridder_wtower_uvw_grid"}, {"file": "src/ska-sdp-func/grid_data/sdp_gridder_utils.cpp", "symbol": "sdp_gridder_shift_subgrids"}]}
{"id": "C43", "title": "The w-tower height search returns an admissible height that cannot be increased by one step", "statement": "The search returns an even height 2k such that either k=0 or the measured error at k is below the target, and the error at k+1 is not; when the error is non-decreasing in the height the result is the largest admissible one; the search terminates once the error can exceed the target.", "quantifier": "every error function (any image, any parameters) and target", "why_tests_cant": "The error function is arbitrary.", "anchors": [{"file": "src/ska-sdp-func/grid_data/sdp_gridder_wtower_height.cpp", "symbol": "sdp_gridder_determine_max_w_tower_height"}]}
{"id": "C44", "title": "Custom-kernel degridding reads the grid only inside its bounds and splits coordinates exactly", "statement": "For each visibility passing the in-grid test all grid reads in u and v are inside the grid; the integer cell and the kernel sub-sample index recombine to the rounded oversampled coordinate, and the kernel index is inside the kernel table.", "quantifier": "every grid size, kernel size, oversampling and coordinate", "why_tests_cant": "Boundary relations over all sizes.", "anchors": [{"file": "src/ska-sdp-func/grid_data/sdp_degrid_uvw_custom.cpp", "symbol": "calculate_coordinates"}, {"file": "src/ska-sdp-func/grid_data/sdp_degrid_uvw_custom.cpp", "symbol": "degrid_uvw_custom"}]}
{"id": "C45", "title": "Converting an image to a source list keeps every non-zero pixel exactly once", "statement": "The count of non-zero pixels equals the number of sources written; sources appear in row-major order, with the pixel value as flux and direction cosines computed from the pixel position; no write exceeds the counted size (square images).", "quantifier": "every image", "why_tests_cant": "All images, all sparsity patterns.", "anchors": [{"file": "src/ska-sdp-func/grid_data/sdp_gridder_utils.cpp", "symbol": "sdp_gridder_count_nonzero_pixels"}, {"file": "src/ska-sdp-func/grid_data/sdp_gridder_utils.cpp", "symbol": "sdp_gridder_image_to_flmn"}]}
{"id": "C46", "title": "Direct gridding is the adjoint of direct degridding", "statement": "The direct (DFT) degridding map from source fluxes to visibilities and the direct gridding map back are conjugate transposes of each other for the same coordinates, and rows whose channel range is empty neither receive nor contribute anything.", "quantifier": "every source list, coordinate set, channel ranges", "why_tests_cant": "Inner-product identity over all data.", "anchors": [{"file": "src/ska-sdp-func/grid_data/sdp_gridder_utils.cpp", "symbol": "sdp_gridder_dft"}, {"file": "src/ska-sdp-func/grid_data/sdp_gridder_utils.cpp", "symbol": "sdp_gridder_idft"}]}
{"id": "C47", "title": "The GPU gridder accepts only consistent buffers", "statement": "If plan creation's buffer check succeeds then all arrays share the required location, type precision, contiguity and matching dimensions.", "quantifier": "every combination of array descriptors", "why_tests_cant": "All descriptor combinations.", "anchors": [{"file": "src/ska-sdp-func/grid_data/sdp_gridder_uvw_es_fft.cpp", "symbol": "sdp_gridder_check_buffers"}]}
{"id": "C48", "title": "Shifting the tower keeps all planes except the first", "statement": "After shifting, plane k holds what plane k+1 held, for all k but the last, and the last plane is unchanged; shifting n times moves plane k+n to plane k.", "quantifier": "every number of planes, plane contents and number of shifts", "why_tests_cant": "All lengths.", "anchors": [{"file": "src/ska-sdp-func/grid_data/sdp_gridder_utils.cpp", "symbol": "sdp_gridder_shift_subgrids"}]}
{"id": "C49", "title": "Image n-coordinate lies on the celestial sphere, with shear", "statement": "The n coordinate computed from l, m and shears satisfies the sheared unit-sphere equation and is zero at the phase centre; without shear it is sqrt(1-l^2-m^2)-1.", "quantifier": "every l, m and shear with real solution", "why_tests_cant": "Real-valued parameter space.", "anchors": [{"file": "src/ska-sdp-func/grid_data/sdp_gridder_utils.h", "symbol": "lm_to_n"}]}
{"id": "C50", "title": "W-stack correction is undone by its inverse", "statement": "Applying the w-stack image correction and then the inverse correction for the same w offset restores the image; the corrections compose additively in w offset.", "quantifier": "every image, w offset, image parameters", "why_tests_cant": "Real/complex parameter space.", "anchors": [{"file": "src/ska-sdp-func/grid_data/sdp_gridder_grid_correct.cpp", "symbol": "sdp_gridder_grid_correct_w_stack"}]}
{"id": "C51", "title": "Vector addition writes the elementwise sum and nothing when it reports an error", "statement": "On success every output element is the sum of the corresponding inputs; on any reported error (read-only output, type, location or size mismatch, unsupported type) the output is unchanged; an incoming error status is preserved.", "quantifier": "every pair of vectors, types, locations and prior status", "why_tests_cant": "All lengths and descriptor combinations.", "anchors": [{"file": "src/ska-sdp-func/examples/sdp_vector_add.cpp", "symbol": "sdp_vector_add"}]}
{"id": "C52", "title": "The example plan writes only inside its buffers", "statement": "Executing the example plan on an accepted output writes only inside the plan work area and the output, and output element f is c times f(f-1)/2. (Memory safety is violated when the output is larger than the planned a*b.)", "quantifier": "every plan size and output size", "why_tests_cant": "All sizes.", "anchors": [{"file": "src/ska-sdp-func/examples/sdp_function_example_a.cpp", "symbol": "sdp_function_example_a_exec"}]}
{"id": "C53", "title": "The station beam is the weighted phasor sum, linear in weights and element patterns", "statement": "The station beam at each point equals the (normalised) sum over elements of weight times phasor times element pattern, is linear in the weights, is independent of element order, depends only on that point, writes each enabled polarisation of each point once and never touches the disabled ones. (Violated for arrays of another precision or number of elements than expected, which the call does not check and accesses as if they fitted.)", "quantifier": "every element layout, weights, element-beam index map, points and polarisation switches", "why_tests_cant": "Sums over arbitrary many elements and all points.", "anchors": [{"file": "src/ska-sdp-func/station_beam/sdp_station.cpp", "symbol": "sdp_station_beam_dft"}]}
{"id": "C54", "title": "The associated Legendre routine returns the Legendre functions", "statement": "For all degrees l >= m >= 0 the routine returns P_l^m of cos(theta) (with Condon-Shortley phase) computed by the standard recurrence, P_l^m/sin(theta), and the derivative with respect to cos(theta) times sin(theta). (Violated at the poles, where 0 is returned instead of the limit for order 1.)", "quantifier": "every degree, order and angle", "why_tests_cant": "Degrees are unbounded.", "anchors": [{"file": "src/ska-sdp-func/math/sdp_legendre_polynomial.h", "symbol": "sdp_legendre2"}]}
{"id": "C55", "title": "An alias denotes the same elements and keeps the protection of its source", "statement": "An alias of an array has the same type, location, shape, strides, contiguity and data, never owns the data, and is as writeable as its source; the same protection holds for slices. (Violated: the read-only flag is dropped by aliases and slices.)", "quantifier": "every array", "why_tests_cant": "All ranks, shapes and strides.", "anchors": [{"file": "src/ska-sdp-func/utility/sdp_mem.cpp", "symbol": "sdp_mem_create_alias"}, {"file": "src/ska-sdp-func/utility/sdp_mem.cpp", "symbol": "sdp_mem_create_wrapper_for_slice"}]}
{"id": "C56", "title": "The matching query is exact", "statement": "Two arrays match exactly when their types, ranks, all extents and all strides agree and, if requested, their locations agree.", "quantifier": "every pair of arrays", "why_tests_cant": "All ranks, shapes and strides.", "anchors": [{"file": "src/ska-sdp-func/utility/sdp_mem.cpp", "symbol": "sdp_mem_is_matching"}]}
{"id": "C57", "title": "Scaling multiplies every element exactly once or changes nothing", "statement": "Scaling a contiguous floating-point CPU array multiplies every element by the factor exactly once; otherwise no element changes and an error is reported; read-only arrays are not modified. (The last part is violated.)", "quantifier": "every array, element values and prior status", "why_tests_cant": "All lengths and descriptors.", "anchors": [{"file": "src/ska-sdp-func/utility/sdp_mem.cpp", "symbol": "sdp_mem_scale_real"}]}
{"id": "C58", "title": "Precision conversion converts every element and fails cleanly", "statement": "Converting a contiguous array between single and double precision returns a new array of the requested type and the same shape whose every element is the converted source element; unsupported conversions and allocation failures are reported as errors without touching invalid memory. (Violated on allocation failure: NULL store.)", "quantifier": "every contiguous array and target type, allocation success or failure", "why_tests_cant": "All lengths; allocation failure cannot be provoked in unit tests.", "anchors": [{"file": "src/ska-sdp-func/utility/sdp_mem.cpp", "symbol": "sdp_mem_convert_precision"}]}
{"id": "C59", "title": "Facet preparation places each weighted sample at its sky position and finishing reads it back", "statement": "Preparing a facet of F samples centred at an offset gives the scaled inverse Fourier transform of a row holding sample j, times the window correction for j, at position (offset - F/2 + j) modulo the facet size and zero elsewhere; finishing a prepared facet reads exactly those positions of its forward transform with the same correction; finishing what was prepared at the same offset returns the facet times the squared correction.", "quantifier": "every accepted configuration, facet size from 1 to the padded size, offset (positive or negative), window and contents", "why_tests_cant": "All offsets, wrap-around cases and sizes.", "anchors": [{"file": "src/ska-sdp-func/fourier_transforms/sdp_swiftly.cpp", "symbol": "sdp_swiftly_prepare_facet"}, {"file": "src/ska-sdp-func/fourier_transforms/sdp_swiftly.cpp", "symbol": "sdp_swiftly_finish_facet"}]}
{"id": "C60", "title": "Finishing a subgrid out of place is the central crop of finishing it in place", "statement": "Finishing a subgrid into an output of any size up to the padded subgrid size writes, for every offset, exactly the central samples of what finishing in place would compute, and touches no memory outside the arrays.", "quantifier": "every even padded size, output size, offset and contents", "why_tests_cant": "Two differently written index computations must agree for all sizes and offsets.", "anchors": [{"file": "src/ska-sdp-func/fourier_transforms/sdp_swiftly.cpp", "symbol": "sdp_swiftly_finish_subgrid"}, {"file": "src/ska-sdp-func/fourier_transforms/sdp_swiftly.cpp", "symbol": "sdp_swiftly_finish_subgrid_inplace"}]}
{"id": "C61", "title": "Two-dimensional subgrid preparation inverts two-dimensional finishing, on any accepted view", "statement": "Preparing a subgrid finished in two dimensions at the same offsets returns it (up to the parity sign of C33), for every accepted memory layout. (Violated for non-contiguous subgrids: the transform writes the contiguous temporary with the strides of the subgrid, past its end.)", "quantifier": "every even size, pair of offsets, stride and contents", "why_tests_cant": "Depends on parity of offsets and on memory layout for all sizes.", "anchors": [{"file": "src/ska-sdp-func/fourier_transforms/sdp_swiftly.cpp", "symbol": "sdp_swiftly_finish_subgrid_inplace_2d"}, {"file": "src/ska-sdp-func/fourier_transforms/sdp_swiftly.cpp", "symbol": "sdp_swiftly_prepare_subgrid_inplace_2d"}]}
{"id": "C62", "title": "The default w step resolves the whole field of view", "statement": "The w-plane spacing chosen for an image is such that the n coordinate of every direction inside the field of view, including its corners and with shear, times twice the spacing is at most the requested fraction, and it is the largest such spacing; without a requested resolution the documented default is used.", "quantifier": "every field of view, shear and direction inside it", "why_tests_cant": "A statement about a maximum over a continuous set of directions.", "anchors": [{"file": "src/ska-sdp-func/grid_data/sdp_gridder_utils.cpp", "symbol": "sdp_gridder_determine_w_step"}]}
{"id": "C63", "title": "Direct degridding only changes the requested channel range", "statement": "When per-row channel ranges are given, visibilities outside them are not changed. (Violated: a row with a non-empty range has all its channels computed.)", "quantifier": "every set of rows, channel ranges, sources and schedule", "why_tests_cant": "All channel ranges and row counts.", "anchors": [{"file": "src/ska-sdp-func/grid_data/sdp_gridder_utils.cpp", "symbol": "sdp_gridder_dft"}]}
{"id": "C64", "title": "Correcting a facet equals correcting the whole image and cutting the facet out", "statement": "For both the window and the w-stack correction, a facet at a given offset is corrected exactly as the same pixels of the whole image would be, so facets can be processed separately.", "quantifier": "every image size, facet size (odd or even), offset, plane and contents", "why_tests_cant": "Offsets by half a pixel only show for particular parities; all sizes and offsets.", "anchors": [{"file": "src/ska-sdp-func/grid_data/sdp_gridder_grid_correct.cpp", "symbol": "sdp_gridder_grid_correct_pswf"}, {"file": "src/ska-sdp-func/grid_data/sdp_gridder_grid_correct.cpp", "symbol": "sdp_gridder_grid_correct_w_stack"}]}
{"id": "C65", "title": "Window correction divides each pixel by its own window values and reads only the window", "statement": "Every facet pixel is divided by the window at its row, the window at its column and the n-window at its direction, and nothing outside the window values is read. (Violated for facets that stick out of the image: the offsets are not checked.)", "quantifier": "every image size, facet size, offset and visiting order", "why_tests_cant": "All offsets and sizes.", "anchors": [{"file": "src/ska-sdp-func/grid_data/sdp_gridder_grid_correct.cpp", "symbol": "sdp_gridder_grid_correct_pswf"}]}
{"id": "C66", "title": "W-towers (de)gridding uses the kernel sample nearest to the visibility", "statement": "For every visibility and every tower pixel it touches, the tabulated kernel value used is the one whose nominal position is within half an oversampling step of the distance between pixel and visibility, in u, v and w. (Violated in w within half a step of the upper end of a plane, where sample 0 is used instead of the last one.)", "quantifier": "every coordinate, oversampling, support and subgrid size", "why_tests_cant": "A statement about rounding for all real coordinates.", "anchors": [{"file": "src/ska-sdp-func/grid_data/sdp_gridder_wtower_uvw.cpp", "symbol": "degrid_cpu"}, {"file": "src/ska-sdp-func/grid_data/sdp_gridder_wtower_uvw.cpp", "symbol": "grid_cpu"}]}
{"id": "C67", "title": "The w-plane sweep handles each visibility on exactly one plane", "statement": "Whatever the range of w in a call, each selected visibility lies on exactly one of the planes visited, so it is degridded or gridded once, and a call with nothing selected is harmless. (Violated with nothing selected, where the plane range is computed from infinities; and only proved where the numerical guard of the channel selection is inactive.)", "quantifier": "every set of visibilities, frequencies, w step and offset", "why_tests_cant": "The planes are computed from the data by floating-point rounding; all w values including plane boundaries.", "anchors": [{"file": "src/ska-sdp-func/grid_data/sdp_gridder_wtower_uvw.cpp", "symbol": "sdp_gridder_wtower_uvw_degrid"}, {"file": "src/ska-sdp-func/grid_data/sdp_gridder_wtower_uvw.cpp", "symbol": "sdp_gridder_wtower_uvw_grid"}]}
{"id": "C68", "title": "A whole w-towers gridding call is the adjoint of a whole degridding call", "statement": "For fixed coordinates, real kernels and a unimodular w pattern, the map from image to visibilities and the map from visibilities to image computed by the two calls are adjoint. (Violated for odd w support: gridding is off by one factor of the w pattern.)", "quantifier": "every image, visibility set, plane range, w support and schedule", "why_tests_cant": "An inner-product identity over all data and unbounded sweeps.", "anchors": [{"file": "src/ska-sdp-func/grid_data/sdp_gridder_wtower_uvw.cpp", "symbol": "sdp_gridder_wtower_uvw_degrid"}, {"file": "src/ska-sdp-func/grid_data/sdp_gridder_wtower_uvw.cpp", "symbol": "sdp_gridder_wtower_uvw_grid"}]}
{"id": "C69", "title": "The worst-case image has exactly four sources inside the field of view", "statement": "The image used to measure gridding accuracy is cleared and gets exactly four sources in four different pixels, at the same distance from the centre and at most at the edge of the field of view. (Violated when every number up to the edge divides the image size: division by zero; and for odd image sizes with the field of view equal to the image: a pixel at index -1 is written.)", "quantifier": "every image size, field of view and previous contents", "why_tests_cant": "All sizes; the loop on divisors depends on arithmetic of the size.", "anchors": [{"file": "src/ska-sdp-func/grid_data/sdp_gridder_wtower_height.cpp", "symbol": "sdp_gridder_worst_case_image"}]}
{"id": "C70", "title": "The ES gridder picks a kernel with the accuracy asked for and the smallest grid", "statement": "Plan creation uses a kernel of the built-in table whose accuracy is at least the one asked for and whose support is at most 16 (8 in single precision), on an even grid that is twice an 11-smooth number, larger than the image by the oversampling factor; no other usable kernel needs a smaller grid. (Violated: accuracies that no kernel reaches are accepted silently; in single precision below 1e-7 a kernel of support 16 is used; for images from 69566 pixels the table is read past its end.)", "quantifier": "every accuracy, image size and precision", "why_tests_cant": "All real accuracies and image sizes; failures only show at extreme sizes or accuracies.", "anchors": [{"file": "src/ska-sdp-func/grid_data/sdp_gridder_uvw_es_fft_utils.cpp", "symbol": "sdp_calculate_params_from_epsilon"}]}
{"id": "C71", "title": "The w planes cover the kernel around every visibility and are a quarter cycle apart", "statement": "For the range of |w| given, the planes are equally spaced, at most a quarter of a cycle apart at the corner of the image, and every plane within half a kernel of any w in the range exists; the helper that computes the range covers all visibilities. (Violated when all |w| are equal, where the spacing is a division by zero; when frequencies do not ascend; and without channels.)", "quantifier": "every range of w, field of view, kernel support, set of coordinates and frequencies", "why_tests_cant": "Statement about all real w in a range, including its ends.", "anchors": [{"file": "src/ska-sdp-func/grid_data/sdp_gridder_uvw_es_fft.cpp", "symbol": "sdp_gridder_uvw_es_fft_create_plan"}, {"file": "src/ska-sdp-func/grid_data/sdp_gridder_uvw_es_fft_utils.h", "symbol": "get_w_range"}]}
{"id": "C72", "title": "The ES de/gridding kernels apply the kernel weights exactly once in any order", "statement": "Whatever order the threads and their atomic additions run in, gridding adds to every cell of the plane stack the sum over all visibilities of the kernel weight times the weighted visibility (conjugated if w is negated), degridding adds to every visibility its kernel-weighted sum of cells once, and the two are adjoint. (Violated: a kernel of support 16 centred on a grid point writes 17 entries into a table of 16.)", "quantifier": "every stack size, coordinate, frequency, weight, support and interleaving", "why_tests_cant": "All interleavings of atomics and all real coordinates.", "anchors": [{"file": "src/ska-sdp-func/grid_data/sdp_gridder_uvw_es_fft_kernels.cu", "symbol": "sdp_cuda_nifty_gridder_gridding_3d"}, {"file": "src/ska-sdp-func/grid_data/sdp_gridder_uvw_es_fft_kernels.cu", "symbol": "sdp_cuda_nifty_gridder_gridding_2d"}]}
{"id": "C73", "title": "The ES image kernels visit every pixel of the image exactly once", "statement": "The kernels that sum the screened planes into the image, scale it by the kernel correction, and spread it back onto the planes treat each pixel exactly once with the screen and cell that belong to it, in any order of threads, and are adjoint. (Violated for odd image sizes, whose last row and column are never visited, and for empty images, whose launch divides by zero.)", "quantifier": "every image, grid size, number of planes and order of threads", "why_tests_cant": "All sizes including odd ones, all interleavings.", "anchors": [{"file": "src/ska-sdp-func/grid_data/sdp_gridder_uvw_es_fft_kernels.cu", "symbol": "apply_w_screen_and_sum"}, {"file": "src/ska-sdp-func/grid_data/sdp_gridder_uvw_es_fft_kernels.cu", "symbol": "reverse_w_screen_to_stack"}, {"file": "src/ska-sdp-func/grid_data/sdp_gridder_uvw_es_fft_kernels.cu", "symbol": "conv_corr_and_scaling"}]}
{"id": "C74", "title": "The Legendre polynomials, their roots and the kernel correction of the ES gridder are right", "statement": "For every degree the routine returns the Legendre polynomial and its derivative, the root finder takes Newton steps and ends at a point it can no longer improve, the quadrature weights follow the standard formula, and the correction kernel built from them is the quadrature sum of its definition at every pixel. (Violated: at and beyond -1 and 1 the derivative is not computed; the root finder compares with a one-sided difference and so stops after the first step that decreases the estimate, however large the step.)", "quantifier": "every degree, argument, support and grid size", "why_tests_cant": "Degrees and iteration counts are unbounded and arguments real.", "anchors": [{"file": "src/ska-sdp-func/grid_data/sdp_gridder_uvw_es_fft_utils.cpp", "symbol": "sdp_get_legendre"}, {"file": "src/ska-sdp-func/grid_data/sdp_gridder_uvw_es_fft_utils.cpp", "symbol": "sdp_calculate_legendre_root"}, {"file": "src/ska-sdp-func/grid_data/sdp_gridder_uvw_es_fft_utils.cpp", "symbol": "sdp_generate_gauss_legendre_conv_kernel"}]}
{"id": "C75", "title": "The dipole element beam is the field of a dipole", "statement": "The pattern written for a direction is that of a dipole of the given length along the given axis: power depends only on the angle between direction and dipole axis, it is zero along the axis, both polarisations and the scalar form follow from the same field, and each direction writes only its own output. (Violated: the GPU kernel has no bounds check and computes directions beyond the last one up to the next multiple of the block size; polarised outputs with stride 1 overlap.)", "quantifier": "every direction, dipole length, orientation, number of points, stride and order of threads", "why_tests_cant": "Statement over all real directions and all point counts.", "anchors": [{"file": "src/ska-sdp-func/station_beam/sdp_element_dipole.cpp", "symbol": "sdp_element_beam_dipole"}]}
{"id": "C76", "title": "The spherical-wave element beam is the sum over all modes", "statement": "The four outputs of a point are the theta and phi components, for X and Y, of the sum over all degrees up to the maximum and all orders of coefficient times vector spherical harmonic; each coefficient is used for exactly one mode, the result is linear in them, and each point writes only its own outputs. (Violated: a coefficient array too short for the maximum degree is read beyond its end.)", "quantifier": "every maximum degree, coefficient set, direction, offset and order of points", "why_tests_cant": "Unbounded degree; all real directions.", "anchors": [{"file": "src/ska-sdp-func/station_beam/sdp_element_spherical_wave_harp.cpp", "symbol": "sdp_element_beam_spherical_wave_harp"}]}
{"id": "C77", "title": "A DFT call computes the sum over components, on either device, for exactly the arrays it accepts", "statement": "Both DFT entry points accept an argument list exactly when the documented requirements on shape, type, contiguity, location and protection hold; an accepted call, on the CPU or as a GPU launch in any order of threads, fills every visibility with the sum over components of flux times the phase of its baseline, channel and time, leaves other arrays alone, and reads nothing outside the arrays; a refused call changes nothing. (Violated: the newer entry point never checks the number of dimensions of the directions.)", "quantifier": "every argument list, shape, coordinate, flux and order of GPU threads", "why_tests_cant": "All descriptors, all sizes and all interleavings of threads.", "anchors": [{"file": "src/ska-sdp-func/visibility/sdp_dft.cpp", "symbol": "sdp_dft_point_v00"}, {"file": "src/ska-sdp-func/visibility/sdp_dft.cpp", "symbol": "sdp_dft_point_v01"}, {"file": "src/ska-sdp-func/visibility/sdp_dft.cu", "symbol": "dft_point_v00"}]}
{"id": "C78", "title": "A phase-rotation call rotates every coordinate or visibility once, on either device, for exactly the arrays it accepts", "statement": "Each of the two phase-rotation calls accepts an argument list exactly when the documented requirements hold; an accepted call, in place or not, on the CPU or as a GPU launch in any order of threads, gives every output element the rotated input element and touches nothing else; a refused call changes nothing. (Violated: the layout of the input coordinates and of the output visibilities is not checked, so arrays that are not contiguous are accepted and rotated as if they were.)", "quantifier": "every argument list, shape, phase centre, coordinate and order of GPU threads", "why_tests_cant": "All descriptors, all sizes and all interleavings of threads.", "anchors": [{"file": "src/ska-sdp-func/visibility/sdp_phase_rotate.cpp", "symbol": "sdp_phase_rotate_uvw"}, {"file": "src/ska-sdp-func/visibility/sdp_phase_rotate.cpp", "symbol": "sdp_phase_rotate_vis"}, {"file": "src/ska-sdp-func/visibility/sdp_phase_rotate.cu", "symbol": "phase_rotate_vis"}]}
{"id": "C79", "title": "A weighting call gives the documented weights on either device, and reports every error without touching its outputs", "statement": "For documented arguments sdp_weighting_uniform and sdp_weighting_briggs give, on the CPU and on the GPU in any order of its atomic additions, the weights of their definition; a call that returns an error has changed neither grid nor output. (Violated: Briggs weighting on the GPU starts its sums from uncleared memory and dereferences NULL when types are unsupported or there is no device; the input weights are not compared with the output weights.)", "quantifier": "every argument list, shape, coordinate, weight, robustness and order of GPU operations", "why_tests_cant": "All descriptors, sizes, interleavings and memory contents.", "anchors": [{"file": "src/ska-sdp-func/visibility/sdp_weighting.cpp", "symbol": "sdp_weighting_uniform"}, {"file": "src/ska-sdp-func/visibility/sdp_weighting.cpp", "symbol": "sdp_weighting_briggs"}, {"file": "src/ska-sdp-func/visibility/sdp_weighting.cu", "symbol": "grid_write_gpu"}]}
{"id": "C80", "title": "The GPU helpers for adding, minimum and maximum are atomic, and always finish", "statement": "When any number of GPU threads call sdp_atomic_add (or min, or max) on the same location at the same time, every call takes effect exactly once as if the calls had been made one after another, so that the final value is the initial value plus all addends (or the smallest, or largest, of all values), and no interleaving keeps the threads going for ever.", "quantifier": "every number of threads, initial value, set of values and interleaving of loads and compare-and-swap operations", "why_tests_cant": "A lost update needs one particular interleaving, which a test cannot force.", "anchors": [{"file": "src/ska-sdp-func/utility/sdp_cuda_atomics.h", "symbol": "sdp_atomic_add"}, {"file": "src/ska-sdp-func/utility/sdp_cuda_atomics.h", "symbol": "sdp_atomic_min"}, {"file": "src/ska-sdp-func/utility/sdp_cuda_atomics.h", "symbol": "sdp_atomic_max"}]}
{"id": "C81", "title": "The GPU helpers of the gridders give the results of the CPU helpers, whatever the threads do", "statement": "Adding a subgrid to a grid, cutting one out, shifting subgrids, finding the uvw bounding box, direct transforms to an image and summing the differences of channel ranges give on the GPU, for every interleaving of the single reads, writes and atomic operations of the launched threads, exactly the result of the CPU function, with no access outside the arrays; every fair schedule finishes. (Violated: adding a subgrid larger than the grid loses updates; the last additions of the sum rely on warps that run in lockstep; an error in the sum is followed by a read through a null pointer.)", "quantifier": "every array, size, offset, channel range and interleaving of GPU threads at single accesses", "why_tests_cant": "A lost update needs a particular interleaving; sizes are unbounded.", "anchors": [{"file": "src/ska-sdp-func/grid_data/sdp_gridder_utils.cu", "symbol": "sdp_gridder_subgrid_add"}, {"file": "src/ska-sdp-func/grid_data/sdp_gridder_utils.cu", "symbol": "sdp_gridder_sum_diff"}, {"file": "src/ska-sdp-func/grid_data/sdp_gridder_utils.cu", "symbol": "sdp_gridder_uvw_bounds_all"}, {"file": "src/ska-sdp-func/grid_data/sdp_gridder_utils.cu", "symbol": "sdp_gridder_idft"}, {"file": "src/ska-sdp-func/grid_data/sdp_gridder_utils.cu", "symbol": "sdp_gridder_shift_subgrids"}]}
{"id": "C82", "title": "Accumulating scaled arrays and dividing arrays follow their formulas on either device, and an error changes nothing", "statement": "For two-dimensional arrays of one shape, any strides and a supported combination of types, sdp_gridder_accumulate_scaled_arrays gives out += in1 * in2 ** exponent and sdp_gridder_scale_inv_array gives out = in1 / in2 ** exponent for every element, in place or not, on either device and whatever the order of its threads; nothing else changes, and a call that returns an error changes nothing. (Violated: with a real output in2 and the exponent are ignored; on the CPU an input with the wrong number of dimensions is reported, and its first value is added all the same; shapes are not compared.)", "quantifier": "every shape, stride, type combination, exponent, value and interleaving of threads", "why_tests_cant": "All descriptors and values; interleavings at single accesses.", "anchors": [{"file": "src/ska-sdp-func/grid_data/sdp_gridder_utils.cpp", "symbol": "sdp_gridder_accumulate_scaled_arrays"}, {"file": "src/ska-sdp-func/grid_data/sdp_gridder_utils.cpp", "symbol": "sdp_gridder_scale_inv_array"}, {"file": "src/ska-sdp-func/grid_data/sdp_gridder_utils.cu", "symbol": "sdp_gridder_accum_scale_array"}]}
{"id": "C83", "title": "Residuals, RMS differences and oversampled kernels are what their formulas say", "statement": "sdp_gridder_residual writes a - b into the output for arrays of one shape, wherever the inputs are and also if an input is the output, and changes nothing when it fails; sdp_gridder_rms_diff returns the root of the mean squared modulus of the difference, and zero exactly for equal arrays; sdp_gridder_make_kernel fills every element with the real part of the Fourier transform of the window at the offset of that row and column, so that every row sums to the central value of the window, rows mirror each other, and the first row is the last moved by one column; sdp_gridder_make_pswf_kernel is that kernel for the prolate spheroidal window.", "quantifier": "every shape, stride, type, location, number of rows, support, window, content and thread schedule", "why_tests_cant": "Tests compare a few shapes on one thread; they do not settle all shapes, aliased buffers, schedules, single precision or kernels of one row.", "anchors": [{"file": "src/ska-sdp-func/grid_data/sdp_gridder_utils.cpp", "symbol": "sdp_gridder_residual"}, {"file": "src/ska-sdp-func/grid_data/sdp_gridder_utils.cpp", "symbol": "sdp_gridder_rms_diff"}, {"file": "src/ska-sdp-func/grid_data/sdp_gridder_utils.cpp", "symbol": "sdp_gridder_make_kernel"}, {"file": "src/ska-sdp-func/grid_data/sdp_gridder_utils.cpp", "symbol": "sdp_gridder_make_pswf_kernel"}]}
{"id": "C84", "title": "Prolate spheroidal functions are sampled where documented, evaluations stay within the coefficients, and copies on the device agree", "statement": "sdp_pswf_evaluate(x) is the sum of the plan's series for |x| < 1, zero elsewhere and even in x, and reads only the coefficients of the plan; sdp_pswf_generate and sdp_generate_pswf put the function at 2 (i - n/2) / n into sample i of n, the first sample replaced by 1e-15 on request, and change nothing else; calls that return an error change nothing; and after every history of calls on a plan the values and coefficients on the device are those on the CPU. (Violated: for an odd number of samples the last is never written and the first is zero; an empty output is written to; a copy asked for after an error is kept without data and returned by later successful calls; a copy of values before any were made dereferences a null pointer.)", "quantifier": "every mode, size parameter below 364, argument, number of samples, stride, type, and history of calls", "why_tests_cant": "All arguments, lengths and strides, and all histories of a plan.", "anchors": [{"file": "src/ska-sdp-func/fourier_transforms/sdp_pswf.cpp", "symbol": "sdp_pswf_evaluate"}, {"file": "src/ska-sdp-func/fourier_transforms/sdp_pswf.cpp", "symbol": "sdp_pswf_generate"}, {"file": "src/ska-sdp-func/fourier_transforms/sdp_pswf.cpp", "symbol": "sdp_pswf_values"}, {"file": "src/ska-sdp-func/fourier_transforms/private_pswf.h", "symbol": "sdp_pswf_aswfa"}]}
{"id": "C85", "title": "A prolate spheroidal plan is built on the least characteristic value of its differential operator", "statement": "Creating a plan for mode m and bandwidth c ends, and the characteristic value on which its series is built is the least number for which the three-term recurrence of the expansion in Legendre functions (with the number of terms the library keeps) has a solution other than zero: the lowest-order function, with a relative error of at most 1e-14. Every array access on the way is in bounds. (Violated: from c = 291 on, arrays of 300 elements are overrun.)", "quantifier": "every mode up to 1000, every real bandwidth from 1/1000 up to 291, and every number of search steps", "why_tests_cant": "A bisection over real numbers driven by sign counts; tests compare a few function values.", "anchors": [{"file": "src/ska-sdp-func/fourier_transforms/sdp_pswf.cpp", "symbol": "pswf_segv"}, {"file": "src/ska-sdp-func/fourier_transforms/sdp_pswf.cpp", "symbol": "sdp_pswf_create"}]}
{"id": "C86", "title": "The coefficients of a prolate spheroidal plan solve its recurrence, are normalised, and come from initialised memory", "statement": "Creating a plan writes and reads only elements within its arrays and only elements written before; the Legendre coefficients it computes satisfy the three-term recurrence for its characteristic value at every row but one (at all rows if the characteristic value is exact) and are scaled so that the function agrees with the Legendre function at zero; and each of the power-series coefficients returned by sdp_pswf_coeff is the sum over those that defines it, possibly ended when a term hardly changes it, the rest being zero. (Violated: bandwidths of 174 and more overrun arrays of 200 elements; bandwidths below 1e-10 read an element never written.)", "quantifier": "every mode, every real bandwidth from 1e-10 up to 174, and every characteristic value", "why_tests_cant": "Two recurrences run towards each other with rescaling and data-dependent stops; tests see a few values.", "anchors": [{"file": "src/ska-sdp-func/fourier_transforms/sdp_pswf.cpp", "symbol": "pswf_sdmn"}, {"file": "src/ska-sdp-func/fourier_transforms/sdp_pswf.cpp", "symbol": "pswf_sckb"}, {"file": "src/ska-sdp-func/fourier_transforms/sdp_pswf.cpp", "symbol": "sdp_pswf_create"}]}
{"id": "C87", "title": "The function that a prolate spheroidal plan describes solves the prolate spheroidal wave equation", "statement": "Created with a mode m, a bandwidth c and the characteristic value of that mode and bandwidth, a plan's coefficients describe (1-x^2)^(m/2) times a power series in 1-x^2 that is a sum of associated Legendre functions of degrees m, m+2, ...; this sum solves d/dx((1-x^2) dS/dx) + (lambda - c^2 x^2 - m^2/(1-x^2)) S = 0 on (-1, 1) up to terms proportional to the last two terms of the sum, and has at x = 0 the value of the Legendre function of degree and order m.", "quantifier": "every mode, every bandwidth, every characteristic value, every point of (-1, 1)", "why_tests_cant": "The equation holds at every point of an interval, for a continuum of bandwidths; a test compares a few samples with tabulated values.", "anchors": [{"file": "src/ska-sdp-func/fourier_transforms/sdp_pswf.cpp", "symbol": "pswf_sdmn"}, {"file": "src/ska-sdp-func/fourier_transforms/sdp_pswf.cpp", "symbol": "pswf_sckb"}, {"file": "src/ska-sdp-func/fourier_transforms/sdp_pswf.cpp", "symbol": "sdp_pswf_create"}, {"file": "src/ska-sdp-func/fourier_transforms/private_pswf.h", "symbol": "sdp_pswf_aswfa"}]}
{"id": "C88", "title": "Hogbom CLEAN on the GPU subtracts the brightest pixel in every cycle and stays within its images", "statement": "With its arrays in GPU memory sdp_hogbom_clean reads and writes only elements of its images; each minor cycle finds a pixel of largest residual, and while that is above the threshold moves loop_gain times it into the model and subtracts the shifted PSF, so that residual plus model convolved with the PSF stays equal to the dirty image; it stops at the cycle limit or when no pixel is above the threshold; and two runs on the same data give the same result, whatever order the threads and blocks ran in. (Violated: the peak search has no bounds check and is within its arrays only for sides of 16 or multiples of 256; for larger multiples the second pass overwrites what other blocks still have to read; the last steps within a warp have no synchronisation; and the model is added to what its array held, while the CPU overwrites it.)", "quantifier": "every square image and PSF, gain, threshold and cycle limit; every interleaving of the threads of a block and every order of the blocks", "why_tests_cant": "A race appears under some schedules only, and a test runs one; the sizes in the tests are powers of two.", "anchors": [{"file": "src/ska-sdp-func/clean/sdp_hogbom_clean.cu", "symbol": "find_maximum_value"}, {"file": "src/ska-sdp-func/clean/sdp_hogbom_clean.cu", "symbol": "warpReduce"}, {"file": "src/ska-sdp-func/clean/sdp_hogbom_clean.cu", "symbol": "add_clean_comp"}, {"file": "src/ska-sdp-func/clean/sdp_hogbom_clean.cu", "symbol": "subtract_psf"}, {"file": "src/ska-sdp-func/clean/sdp_hogbom_clean.cu", "symbol": "add_residual"}, {"file": "src/ska-sdp-func/clean/sdp_hogbom_clean.cpp", "symbol": "sdp_hogbom_clean_gpu"}]}
{"id": "C89", "title": "Imaging with w-stacking and w-towers handles every visibility once, at its own coordinates, and the two directions are adjoint", "statement": "sdp_grid_wstack_wtower_degrid_all sets every visibility to the value predicted from the image at that visibility's (u,v,w): the image divided by the window and moved to the w-plane nearest to it, transformed, cut out around it, moved to the w-layers around it and summed with the kernel. sdp_grid_wstack_wtower_grid_all returns the sum over all visibilities of the reverse of that, each counted once. Both calls end normally, stay within their arrays, give the same result for every number of threads and every schedule, and with real kernels and an even number of w-layers gridding is the adjoint of degridding.", "quantifier": "every image, every set of visibilities and coordinates that meets the stated conditions on sizes, every number of threads, every schedule of the tasks and of all loops", "why_tests_cant": "The result sums over tasks done by threads in any order, and the adjointness ranges over all pairs of images and visibilities.", "anchors": [{"file": "src/ska-sdp-func/grid_data/sdp_grid_wstack_wtower.cpp", "symbol": "sdp_grid_wstack_wtower_degrid_all"}, {"file": "src/ska-sdp-func/grid_data/sdp_grid_wstack_wtower.cpp", "symbol": "sdp_grid_wstack_wtower_grid_all"}, {"file": "src/ska-sdp-func/grid_data/sdp_grid_wstack_wtower.cpp", "symbol": "count_visibilities"}, {"file": "src/ska-sdp-func/grid_data/sdp_grid_wstack_wtower.cpp", "symbol": "pick_task"}]}
{"id": "C90", "title": "FFT convolution computes the linear convolution as a call, on CPU and GPU alike, or refuses", "statement": "sdp_fft_convolution(in1, in2, out, status) on square complex arrays writes to out the linear convolution of the first image with the second, centred at the second image's pixel ((n2-1)/2, (n2-1)/2), for every side length and independently of where the arrays live and of the interleaving of GPU threads; arrays it cannot handle (wrong type, place, shape, output read-only or too small) are refused with an error and the output stays unchanged.", "quantifier": "every pair of sizes, contents, descriptors, every interleaving of the GPU threads at each memory access and every order of the CPU loops", "why_tests_cant": "Sizes are unbounded, the interleavings of the threads cannot be enumerated, and the wrong sizes and types are never tried.", "anchors": [{"file": "src/ska-sdp-func/numeric_functions/sdp_fft_convolution.cpp", "symbol": "sdp_fft_convolution"}, {"file": "src/ska-sdp-func/numeric_functions/sdp_fft_convolution.cpp", "symbol": "sdp_fft_convolution_gpu"}, {"file": "src/ska-sdp-func/numeric_functions/sdp_fft_convolution.cu", "symbol": "fft_shift_2D_gpu"}, {"file": "src/ska-sdp-func/numeric_functions/sdp_fft_convolution.cu", "symbol": "remove_padding_2D_gpu"}]}
{"id": "C91", "title": "An FFT plan transforms exactly the arrays it was made for, however often it is used", "statement": "sdp_fft_create succeeds exactly for arrays it can transform. Every later sdp_fft_exec with arrays of the type, place and shape of the plan writes to the output the unnormalised Fourier transform of the input along the last num_dims_fft dimensions, forward or inverse as asked for, in place or not, whatever the plan was used for before; with any other arrays it is refused and the output is unchanged. sdp_fft_exec_shift does the same about the centre of a two-dimensional array, divided by the number of transformed elements if asked to normalise.", "quantifier": "every pair of array descriptors, number of dimensions, direction, every history of uses of the plan, every order of the parallel loops and every interleaving of the GPU threads of the shift and normalisation kernels", "why_tests_cant": "A plan keeps a work array between uses, so a defect may depend on the history; descriptors and sizes are unbounded.", "anchors": [{"file": "src/ska-sdp-func/fourier_transforms/sdp_fft.cpp", "symbol": "sdp_fft_create"}, {"file": "src/ska-sdp-func/fourier_transforms/sdp_fft.cpp", "symbol": "sdp_fft_exec"}, {"file": "src/ska-sdp-func/fourier_transforms/sdp_fft.cpp", "symbol": "check_params"}, {"file": "src/ska-sdp-func/fourier_transforms/sdp_fft.cpp", "symbol": "sdp_fft_exec_shift"}, {"file": "src/ska-sdp-func/fourier_transforms/sdp_fft.cpp", "symbol": "sdp_fft_norm"}, {"file": "src/ska-sdp-func/fourier_transforms/sdp_fft.cu", "symbol": "sdp_fft_phase"}]}
{"id": "C92", "title": "W-tower kernels give the same result on the GPU as on the CPU, under every interleaving", "statement": "On the GPU, degridding one w-plane adds to every visibility in the row range whose position is on the plane the kernel-weighted sum of the tower pixels in its footprint and changes no other visibility; gridding adds to every tower pixel the kernel-weighted sum of the visibilities on the plane. The result is the one the CPU computes. It does not depend on how the threads interleave, nor on whether the atomic additions are native or compare-and-swap loops, and every fair schedule ends.", "quantifier": "every plan, subgrid, observation, row range, w-plane, number of rows, and every interleaving of the memory accesses of the threads", "why_tests_cant": "Lost updates of concurrent additions and missing last rows depend on the schedule and on sizes; tests on a GPU run few schedules.", "anchors": [{"file": "src/ska-sdp-func/grid_data/sdp_gridder_wtower_uvw.cu", "symbol": "sdp_gridder_wtower_degrid"}, {"file": "src/ska-sdp-func/grid_data/sdp_gridder_wtower_uvw.cu", "symbol": "sdp_gridder_wtower_grid"}, {"file": "src/ska-sdp-func/grid_data/sdp_gridder_wtower_uvw.cpp", "symbol": "degrid_gpu"}, {"file": "src/ska-sdp-func/grid_data/sdp_gridder_wtower_uvw.cpp", "symbol": "grid_gpu"}, {"file": "src/ska-sdp-func/utility/sdp_cuda_atomics.h", "symbol": "sdp_atomic_add"}]}
{"id": "C93", "title": "Channel clamping keeps exactly the channels inside the box, on CPU and GPU alike, in place or not", "statement": "sdp_gridder_clamp_channels_single and _uv set, for every row of the row range, start_ch_out and end_ch_out to the range of those channels of the input range whose coordinate lies in the box, and change nothing else; the outputs may be the inputs. The result is the same on the CPU and the GPU, for every number of rows and every interleaving of the threads. A call that cannot do so reports an error and leaves the outputs alone.", "quantifier": "every descriptor of the five arrays, coordinates, frequencies, box, row range, placement of the channel arrays in memory (in place or not), and every interleaving of loads and stores of the threads", "why_tests_cant": "Number of rows and strides are unbounded and the interleavings cannot be enumerated; the tests call it with valid arrays only.", "anchors": [{"file": "src/ska-sdp-func/grid_data/sdp_gridder_clamp_channels.cpp", "symbol": "sdp_gridder_clamp_channels_single"}, {"file": "src/ska-sdp-func/grid_data/sdp_gridder_clamp_channels.cpp", "symbol": "sdp_gridder_clamp_channels_uv"}, {"file": "src/ska-sdp-func/grid_data/sdp_gridder_clamp_channels.cu", "symbol": "sdp_gridder_clamp_channels_single"}, {"file": "src/ska-sdp-func/grid_data/sdp_gridder_clamp_channels.cu", "symbol": "sdp_gridder_clamp_channels_uv"}]}
{"id": "C94", "title": "Grid correction gives every pixel of a facet the correction of its place, on CPU and GPU alike", "statement": "sdp_gridder_grid_correct_w_stack multiplies every pixel of the facet by the phase screen of its direction and plane; sdp_gridder_grid_correct_pswf divides every pixel by the window at its place in the image. Nothing else changes. The result is the same for a facet in CPU or GPU memory, of any strides, size and type, and for every interleaving of the threads. A call that cannot do so reports an error and leaves the facet alone.", "quantifier": "every descriptor, facet, image size, offset, support, plane, and every interleaving of the loads and stores of the threads", "why_tests_cant": "Sizes, strides and interleavings are unbounded; invalid arguments are never tried, and GPU tests run one schedule.", "anchors": [{"file": "src/ska-sdp-func/grid_data/sdp_gridder_grid_correct.cpp", "symbol": "sdp_gridder_grid_correct_pswf"}, {"file": "src/ska-sdp-func/grid_data/sdp_gridder_grid_correct.cpp", "symbol": "sdp_gridder_grid_correct_w_stack"}, {"file": "src/ska-sdp-func/grid_data/sdp_gridder_grid_correct.cu", "symbol": "sdp_gridder_grid_correct_pswf"}, {"file": "src/ska-sdp-func/grid_data/sdp_gridder_grid_correct.cu", "symbol": "sdp_gridder_grid_correct_w_stack"}]}
{"id": "C95", "title": "Optimised Briggs weighting gives every sorted visibility its weight for its tile", "statement": "After sdp_optimized_weighting every visibility of every tile has its weight divided by 1 + f * W, where W is the weight on its grid point and f = (5 / 10^robust)^2 / (sum W^2 / sum W), the sums taken over the visibilities of the tile, for the robustness given; no other weight changes; and the result does not depend on the interleaving of the threads. Arrays that do not fit are refused, and a refused call launches nothing.", "quantifier": "every set of sorted visibilities, tile, grid size, robustness, descriptor, and every interleaving of the threads of a block", "why_tests_cant": "Sizes and interleavings are unbounded. The only test of this function accepts differing results.", "anchors": [{"file": "src/ska-sdp-func/visibility/sdp_opt_weighting.cpp", "symbol": "sdp_optimized_weighting"}, {"file": "src/ska-sdp-func/visibility/sdp_opt_weighting.cu", "symbol": "sdp_opt_briggs_bucket_gpu"}]}
{"id": "C96", "title": "Degridding with custom kernels gives the same visibilities on CPU and GPU, and refuses what it cannot use", "statement": "sdp_degrid_uvw_custom on arrays of the documented shapes replaces, on either device and under every interleaving of GPU threads, each visibility whose kernel footprint lies inside the grid by the separable interpolation of the grid around its position (conjugated on request) and keeps all others; CPU and GPU agree. Calls with arrays of other shapes, types or locations report an error and leave the visibilities alone.", "quantifier": "every set of descriptors, sizes, kernels, coordinates and frequencies, and every interleaving of the accesses of the threads", "why_tests_cant": "Sizes and interleavings are unbounded; coordinates half way between two sub-samples and invalid kernels are not tested.", "anchors": [{"file": "src/ska-sdp-func/grid_data/sdp_degrid_uvw_custom.cpp", "symbol": "sdp_degrid_uvw_custom"}, {"file": "src/ska-sdp-func/grid_data/sdp_degrid_uvw_custom.cu", "symbol": "degrid_uvw_custom"}, {"file": "src/ska-sdp-func/grid_data/sdp_degrid_uvw_custom.cu", "symbol": "calculate_coordinates"}]}
{"id": "C97", "title": "The sky model of Hogbom CLEAN is the residual plus each component replaced by the clean beam centred on it", "statement": "sdp_hogbom_clean on a dirty image, a PSF of twice its side, four beam parameters [BMAJ, BMIN, THETA, SIZE] and outputs of the image's shape succeeds, does at most cycle_limit minor cycles, leaves residual plus model convolved with the PSF equal to the dirty image, and returns as sky model the residual plus, for every component of the model, its flux times the Gaussian of unit peak with the given widths and angle, cut to SIZE pixels and centred on the pixel of the component - on CPU and GPU, whatever the sides and the schedule. Calls whose arguments do not fit report an error and change nothing.", "quantifier": "every set of descriptors, image, PSF and beam contents, every side of image and beam, every gain, threshold and limit, every order of loops and interleaving of GPU threads", "why_tests_cant": "Sizes are unbounded and the tests use one image and one even beam, with a reference that has the same offset.", "anchors": [{"file": "src/ska-sdp-func/clean/sdp_hogbom_clean.cpp", "symbol": "sdp_hogbom_clean"}, {"file": "src/ska-sdp-func/clean/sdp_hogbom_clean.cpp", "symbol": "sdp_create_cbeam"}, {"file": "src/ska-sdp-func/clean/sdp_hogbom_clean.cu", "symbol": "create_cbeam"}, {"file": "src/ska-sdp-func/clean/sdp_hogbom_clean.h", "symbol": "sdp_hogbom_clean"}]}
{"id": "C98", "title": "Multi-scale CLEAN takes the best component over all scales, and returns what is left and the restored model", "statement": "sdp_ms_clean_cornwell on a dirty image, a PSF of twice its side, four beam parameters, a list of scales and outputs of the image's shape succeeds. It takes at most cycle_limit components, each the largest residual over all pixels and scales divided by the peak of the PSF at its scale, until that residual is below the threshold; the residual of each scale is the dirty image convolved with the Gaussian of the scale minus the doubly convolved PSF centred on each component; the model is the sum of the components' Gaussians, the returned residual that of the first scale, and the sky model the residual plus the model convolved with the clean beam - with nothing displaced, in CPU or GPU memory, whatever the side. Calls whose arguments do not fit report an error and change nothing.", "quantifier": "every set of descriptors, image, PSF, beam and scale list, gain, threshold and limit, and every order of the loops of the transforms", "why_tests_cant": "Sizes, scales and cycles are unbounded; the tests compare one image with a reference that has the same displacement, and do not look at whether the residual falls.", "anchors": [{"file": "src/ska-sdp-func/clean/sdp_ms_clean_cornwell.cpp", "symbol": "sdp_ms_clean_cornwell"}, {"file": "src/ska-sdp-func/clean/sdp_ms_clean_cornwell.cpp", "symbol": "ms_clean_cornwell"}, {"file": "src/ska-sdp-func/clean/sdp_ms_clean_cornwell.cpp", "symbol": "sdp_create_scale_kern"}, {"file": "src/ska-sdp-func/clean/sdp_ms_clean_cornwell.cpp", "symbol": "sdp_create_cbeam"}]}
{"id": "C99", "title": "Optimised indexed Briggs weighting gives every visibility its weight for its tile, at its own place", "statement": "After sdp_optimised_indexed_weighting every visibility that the index of the sort puts in a tile has, at its own place in the output, its weight divided by 1 + f * W, where W is the weight on its grid point and f = (5 / 10^robust)^2 / (sum W^2 / sum W), the sums taken over the visibilities of the tile, for the robustness given; no other weight changes; and the result does not depend on the interleaving of the threads. Arrays that do not fit are refused, and a refused call launches nothing.", "quantifier": "every set of sorted visibilities, index, tile, grid size, robustness, descriptor, and every interleaving of the loads, additions and stores of the threads of a block", "why_tests_cant": "Sizes and interleavings are unbounded. The only test of this function accepts differing results.", "anchors": [{"file": "src/ska-sdp-func/visibility/sdp_opt_weighting.cpp", "symbol": "sdp_optimised_indexed_weighting"}, {"file": "src/ska-sdp-func/visibility/sdp_opt_weighting.cu", "symbol": "sdp_opt_briggs_index_gpu"}]}
{"id": "C100", "title": "The flagger flags exactly the samples its method describes", "statement": "After sdp_flagger_dynamic_threshold a flag is set exactly if it was set before, or if its sample is within the window of channels beside one whose magnitude is far from the median magnitude of that time, at a time whose median magnitude is far from the recent medians, or at a channel whose mean rate of change, then or at the next time, is far from the median of these rates; far means a modified z-score outside the threshold. Multiplying all visibilities by one positive number changes no flag.", "quantifier": "every visibility array, thresholds, sampling step, window, history and parallel schedule", "why_tests_cant": "Arrays, parameters and schedules are unbounded; tests compare a few arrays with a reference that shares the same rank and window conventions.", "anchors": [{"file": "src/ska-sdp-func/visibility/sdp_flagger.cpp", "symbol": "flagger_dynamic_threshold"}, {"file": "src/ska-sdp-func/visibility/sdp_flagger.cpp", "symbol": "sdp_flagger_dynamic_threshold"}, {"file": "src/ska-sdp-func/visibility/sdp_flagger.cpp", "symbol": "median_calc"}, {"file": "src/ska-sdp-func/visibility/sdp_flagger.cpp", "symbol": "median_dev_calc"}, {"file": "src/ska-sdp-func/visibility/sdp_flagger.cpp", "symbol": "modified_zscore"}]}
{"id": "C101", "title": "Whole calls of the ES gridder", "statement": "For a plan and GPU buffers of its sizes, an image of even side, kernels of at most 16 grid points and a grid as the plan chooses it, every outcome of sdp_grid_uvw_es_fft is a success and leaves in each pixel, whatever the order of the atomic additions and threads, the weighted sum over the visibilities of the real part of the visibility (mirrored to positive w) times one number: the sum over the planes and grid points of the three kernel values, the Fourier phase between grid point and pixel and the phase of the plane at the pixel, divided by the correction of the pixel. sdp_ifft_degrid_uvw_es divides the image by the correction in place and gives each visibility the sum over the pixels times the conjugate of the same number; the two calls are each other's adjoint; the dirty image is as close to the exact transform as that number is to the exact phase. The outputs do not depend on what they held before, weights are used in both directions, read-only images are not written, and buffers that do not have the sizes of the plan are refused; buffers on the CPU and other refused calls set an error and write nothing.", "quantifier": "all plans, coordinates, frequencies, weights, visibilities, images, buffer descriptors, and orders of additions and threads", "why_tests_cant": "a test grids a few visibilities and compares with a tolerance; it fixes one schedule, one plan, zeroed outputs and matching buffers", "anchors": [{"file": "src/ska-sdp-func/grid_data/sdp_gridder_uvw_es_fft.cpp", "symbol": "sdp_grid_uvw_es_fft"}, {"file": "src/ska-sdp-func/grid_data/sdp_gridder_uvw_es_fft.cpp", "symbol": "sdp_ifft_degrid_uvw_es"}, {"file": "src/ska-sdp-func/grid_data/sdp_gridder_uvw_es_fft.cpp", "symbol": "sdp_gridder_check_buffers"}, {"file": "src/ska-sdp-func/grid_data/sdp_gridder_uvw_es_fft_kernels.cu", "symbol": "phase_shift"}, {"file": "src/ska-sdp-func/grid_data/sdp_gridder_uvw_es_fft_kernels.cu", "symbol": "apply_w_screen_and_sum"}]}
{"id": "C102", "title": "SwiFTly turns facets into subgrids, and subgrids into facets, as the direct Fourier sum would", "statement": "Preparing facets, extracting their contributions, adding them to a subgrid and finishing it gives, at every usable grid point, the direct Fourier sum over all facet pixels divided by the image size, with an error of at most twice the Fourier coefficients of the window at the grid points left out, each pixel weighted with the inverse of the window there; exactly if the padded subgrid is the whole image; and under the documented rule xA <= xM - W / yN * N at most in proportion to the largest coefficient at distances of at least half of W / yN * N. Preparing subgrids, extracting, adding to a facet and finishing it gives the conjugate sums with the corresponding bound, and is the adjoint of the other direction. No call leaves its arrays and results do not depend on what scratch arrays held. (Violated: plans with odd contribution sizes are accepted and put sources one sample off; the backward direction has the parity sign of C33 and is wrong for facet offsets below minus half the padded facet, see C30 and C32.)", "quantifier": "every accepted plan, window, list of facets and subgrids, offsets, sizes and contents", "why_tests_cant": "Tests use one set of sizes and tolerances; the bound ranges over all windows, sizes and offsets.", "anchors": [{"file": "src/ska-sdp-func/fourier_transforms/sdp_swiftly.cpp", "symbol": "sdp_swiftly_prepare_facet"}, {"file": "src/ska-sdp-func/fourier_transforms/sdp_swiftly.cpp", "symbol": "sdp_swiftly_extract_from_facet"}, {"file": "src/ska-sdp-func/fourier_transforms/sdp_swiftly.cpp", "symbol": "sdp_swiftly_add_to_subgrid"}, {"file": "src/ska-sdp-func/fourier_transforms/sdp_swiftly.cpp", "symbol": "sdp_swiftly_finish_subgrid"}, {"file": "src/ska-sdp-func/fourier_transforms/sdp_swiftly.cpp", "symbol": "sdp_swiftly_extract_from_subgrid"}, {"file": "src/ska-sdp-func/fourier_transforms/sdp_swiftly.cpp", "symbol": "sdp_swiftly_finish_facet"}, {"file": "src/ska-sdp-func/fourier_transforms/sdp_swiftly.h", "symbol": "sdp_swiftly_create"}]}
{"id": "C103", "title": "Counting, sorting and indexing visibilities by tile, as whole calls", "statement": "sdp_count_and_prefix_sum with arrays as documented succeeds and leaves in every tile the number of visibilities whose footprint (support cells to every side of the nearest cell) is inside the grid and shares a cell with the tile, in the offsets the sums of the counts of the tiles before, the total, and the number of visibilities whose footprint leaves the grid, whatever the arrays held. Given these offsets and sorted arrays of at least the total length, sdp_bucket_sort leaves in the slots between the offsets of every tile the coordinates in cells, visibility, weight and tile of exactly those visibilities, one each, zeros beyond the total, and the offsets moved to the ends of the tiles; every slot below the total belongs to one tile; sdp_tiled_indexing does the same with the number of the visibility. On the CPU the visibilities of a tile are in order of time, baseline and channel; on the GPU this holds in every interleaving of the threads. Calls that cannot do this report an error and write nothing. (Violated in many ways, see the _false theorems.)", "quantifier": "every tiling that covers the grid, all coordinates, frequencies, visibilities, weights, sizes, previous contents, descriptors, and every interleaving of the fetch-and-add and store steps of the GPU threads", "why_tests_cant": "Sizes, positions and interleavings are unbounded; the tests use one grid, zeroed arrays and one polarisation, and compare with a reference that repeats the same ranges.", "anchors": [{"file": "src/ska-sdp-func/visibility/sdp_tiled_functions.cpp", "symbol": "sdp_count_and_prefix_sum"}, {"file": "src/ska-sdp-func/visibility/sdp_tiled_functions.cpp", "symbol": "sdp_bucket_sort"}, {"file": "src/ska-sdp-func/visibility/sdp_tiled_functions.cpp", "symbol": "sdp_tiled_indexing"}, {"file": "src/ska-sdp-func/visibility/sdp_tiled_functions.cu", "symbol": "sdp_bucket_sort_simple_gpu"}, {"file": "src/ska-sdp-func/visibility/sdp_tiled_functions.cu", "symbol": "sdp_prefix_sum_gpu"}]}
{"id": "C104", "title": "Calling the library from Python works from any number of threads and reports errors faithfully", "statement": "From Python, every call of a library function reaches the C function with the declared argument and return types, whichever threads use the function first and in whatever order their steps interleave; every call starts with a clear error code, so that an earlier failure does not affect it, and raises CError exactly when the C function set a code, with that code; a SwiFTly method called with its arguments, by position or by name, runs the C function once on the arguments in the declared order, and returns normally if it succeeded.", "quantifier": "every number of threads and calls, every interleaving of the set-up steps, every sequence of calls with any C functions, every parameter list and mix of positional and keyword arguments", "why_tests_cant": "The failure with three threads needs a particular interleaving of the lazy set-up; no test uses threads or keyword arguments.", "anchors": [{"file": "src/ska_sdp_func/utility/lib.py", "symbol": "_wrap_func"}, {"file": "src/ska_sdp_func/utility/lib.py", "symbol": "_get_func"}, {"file": "src/ska_sdp_func/utility/error_checking.py", "symbol": "error_checking"}, {"file": "src/ska_sdp_func/fourier_transforms/swiftly.py", "symbol": "auto_wrap_method"}]}
{"id": "C105", "title": "Python objects free their C structures once and calls never read freed memory", "statement": "In every Python program, whatever it creates, uses, forgets and in whatever order the collector works: no C structure and no array is released twice, nothing the program still refers to is released while the interpreter runs, every structure a constructor made has been released when the interpreter exits, and no library call reads a structure or array that was released.", "quantifier": "every history of constructions, calls, references taken and forgotten, collections and interpreter exit", "why_tests_cant": "Histories are unbounded and collection can happen at any point; tests keep all arrays alive.", "anchors": [{"file": "src/ska_sdp_func/utility/struct_wrapper.py", "symbol": "StructWrapper"}, {"file": "src/ska_sdp_func/utility/mem.py", "symbol": "Mem"}, {"file": "src/ska_sdp_func/utility/error_checking.py", "symbol": "error_checking"}, {"file": "src/ska-sdp-func/grid_data/sdp_gridder_wtower_uvw.cpp", "symbol": "sdp_gridder_wtower_uvw_create"}]}
{"id": "C106", "title": "Sky coordinates keep what was put in, whatever happens to other coordinates", "statement": "A sky coordinate gives back the three values it was made with for dimensions 0 to 2 and zero for any other, its type string up to the first NUL, and as epoch the last one set on it, 2000 if none was, whatever happens before, after and to other objects; a copy equals the original in type, values and epoch and is independent of it afterwards.", "quantifier": "every sequence of constructions, copies and epoch changes on any number of objects, every dimension index", "why_tests_cant": "Histories and indices are unbounded; the tests make one copy and never change its epoch.", "anchors": [{"file": "src/ska-sdp-func/utility/sdp_sky_coord.c", "symbol": "sdp_sky_coord_create"}, {"file": "src/ska-sdp-func/utility/sdp_sky_coord.c", "symbol": "sdp_sky_coord_value"}, {"file": "src/ska-sdp-func/utility/sdp_sky_coord.c", "symbol": "sdp_sky_coord_set_epoch"}, {"file": "src/ska_sdp_func/utility/sky_coord.py", "symbol": "SkyCoord"}]}
{"id": "C107", "title": "All FFT back ends compute the same transform", "statement": "sdp_fft_create and sdp_fft_exec mean the same in every build of the library and in both memories: a plan gives the unnormalised discrete Fourier transform of its input along the last num_dims_fft dimensions, forward exactly if is_forward is true, for every batch entry, in place or not, whether the transform is the library's own or is done by PocketFFT, MKL or cuFFT; so results do not depend on how the library was built. The same requests are accepted by every build, and unsuitable uses of a plan are refused by every build with the output unchanged.", "quantifier": "every build, array shape, number of transformed dimensions, direction and data", "why_tests_cant": "The builds are compiled separately and each is tested only on a few shapes; agreement must hold for all shapes and data.", "anchors": [{"file": "src/ska-sdp-func/fourier_transforms/sdp_fft.cpp", "symbol": "sdp_fft_create"}, {"file": "src/ska-sdp-func/fourier_transforms/sdp_fft.cpp", "symbol": "sdp_fft_exec"}, {"file": "src/ska-sdp-func/fourier_transforms/sdp_fft.cpp", "symbol": "sdp_fft_create_pocketfft"}, {"file": "src/ska-sdp-func/fourier_transforms/sdp_fft.cpp", "symbol": "sdp_fft_create_mkl"}, {"file": "src/ska-sdp-func/fourier_transforms/sdp_fft.cpp", "symbol": "sdp_fft_create_cuda"}]}
{"id": "C108", "title": "Copies on streams are done in order, and programs that wait before using data see the sequential result", "statement": "A thread calls the copy functions, asynchronous on any number of streams or not, and waits for streams. Whatever order the device does its work in: copies issued to one stream take effect in the order of the calls; if copies on unrelated streams, and host copies made before waiting, touch different memory, then every byte has, as soon as the last copy that writes it has been waited for, the value that doing all the copies one after the other gives, and so has all memory at the end; the program never blocks for ever. Copying to the device and back gives the same bytes. A copy that cannot be done changes nothing and sets an error; without CUDA, host copies are done at once. (Violated: a host-to-host copy issued to a stream is done immediately, before earlier copies on that stream.)", "quantifier": "every program of calls, every overlap of arrays, every schedule and byte order of the device, every build", "why_tests_cant": "The result depends on the timing of the device, which tests do not control; there is no test of the asynchronous copy at all.", "anchors": [{"file": "src/ska-sdp-func/utility/sdp_mem.cpp", "symbol": "sdp_mem_copy_contents_async"}, {"file": "src/ska-sdp-func/utility/sdp_mem.cpp", "symbol": "sdp_mem_copy_contents"}, {"file": "src/ska-sdp-func/utility/sdp_device_wrapper.cpp", "symbol": "sdp_cuda_stream_synchronize"}]}
{"id": "C109", "title": "W-tower calls on the GPU give the CPU result and are adjoint to each other", "statement": "sdp_gridder_wtower_uvw_degrid and sdp_gridder_wtower_uvw_grid with all arrays in device memory end, without undefined behaviour, whatever order the threads of each kernel launch run in and however atomic additions are implemented; they report success and leave the visibilities, or the sub-grid image, of the call with the same values in CPU memory, in the selected rows and for any strides of the image, and change nothing else; gridding is the adjoint of degridding; a call that cannot be done reports an error, leaves the caller's arrays alone and counts no planes.", "quantifier": "every plan, observation, image, w pattern, row range, schedule of the threads of every launch and kind of atomic addition, every combination of array descriptors", "why_tests_cant": "Each call makes many kernel launches whose threads run in an unknown order; tests compare one run on one data set and need a GPU.", "anchors": [{"file": "src/ska-sdp-func/grid_data/sdp_gridder_wtower_uvw.cpp", "symbol": "sdp_gridder_wtower_uvw_degrid"}, {"file": "src/ska-sdp-func/grid_data/sdp_gridder_wtower_uvw.cpp", "symbol": "sdp_gridder_wtower_uvw_grid"}, {"file": "src/ska-sdp-func/grid_data/sdp_gridder_wtower_uvw.cpp", "symbol": "degrid_gpu"}, {"file": "src/ska-sdp-func/grid_data/sdp_gridder_wtower_uvw.cpp", "symbol": "grid_gpu"}]}
{"id": "C110", "title": "SwiFTly calls on arrays of any strides, and the two-dimensional sequence", "statement": "Every SwiFTly call on double complex CPU arrays of the documented shapes, with any strides, transposed views included, reports success and leaves in each row of its output the documented transform of the same row of its input, and changes nothing else; a call whose arrays have the wrong type, location, rank, access or sizes reports an error and changes nothing, and so does a call made with an error already set; the calls of the two-dimensional forward sequence leave in the subgrid the direct two-dimensional Fourier sum over all facet pixels, up to the leakage of the window, and exactly if the padded subgrid is as large as the image.", "quantifier": "every accepted plan, window, facet and subgrid offset and size, array contents, strides and descriptors, every list of facets", "why_tests_cant": "Tests run a few plans and offsets and compare to rounding; the arrays they use have one set of strides, and errors for wrong arrays are hardly tested.", "anchors": [{"file": "src/ska-sdp-func/fourier_transforms/sdp_swiftly.cpp", "symbol": "sdp_swiftly_prepare_facet"}, {"file": "src/ska-sdp-func/fourier_transforms/sdp_swiftly.cpp", "symbol": "sdp_swiftly_extract_from_facet"}, {"file": "src/ska-sdp-func/fourier_transforms/sdp_swiftly.cpp", "symbol": "sdp_swiftly_add_to_subgrid"}, {"file": "src/ska-sdp-func/fourier_transforms/sdp_swiftly.cpp", "symbol": "sdp_swiftly_add_to_subgrid_2d"}, {"file": "src/ska-sdp-func/fourier_transforms/sdp_swiftly.cpp", "symbol": "sdp_swiftly_finish_subgrid"}, {"file": "src/ska-sdp-func/fourier_transforms/sdp_swiftly.cpp", "symbol": "sdp_swiftly_finish_subgrid_inplace"}, {"file": "src/ska-sdp-func/fourier_transforms/sdp_swiftly.cpp", "symbol": "sdp_swiftly_finish_subgrid_inplace_2d"}, {"file": "src/ska-sdp-func/fourier_transforms/sdp_swiftly.cpp", "symbol": "sdp_swiftly_prepare_subgrid_inplace"}, {"file": "src/ska-sdp-func/fourier_transforms/sdp_swiftly.cpp", "symbol": "sdp_swiftly_extract_from_subgrid"}, {"file": "src/ska-sdp-func/fourier_transforms/sdp_swiftly.cpp", "symbol": "sdp_swiftly_add_to_facet"}, {"file": "src/ska-sdp-func/fourier_transforms/sdp_swiftly.cpp", "symbol": "sdp_swiftly_finish_facet"}]}
{"id": "C111", "title": "The direct gridder as calls: accepted arguments, values on arrays of any strides, and refusals", "statement": "A call to count the non-zero pixels of a square image returns their number. A call to turn an image into sources writes, for the k-th non-zero pixel in row order, its real part times the window at its two indices and its direction cosines to entry k. A call to sdp_gridder_dft adds to every visibility of every row that takes part the sum over sources of flux times phasor, and a call to sdp_gridder_idft adds to every pixel of a square image the taper times the sum over visibilities of value times conjugate phasor, on the CPU and the GPU and in both precisions, with everything else unchanged. The direct gridder's degrid and grid are the composition of these: direct sums over pixels or visibilities, adjoint to each other on real images. Calls succeed exactly for the documented types, dimensions and locations; a refused call reports an error and changes nothing.", "quantifier": "all images, sources, coordinates, channel ranges, windows, strides and memory layouts, sizes, precisions, locations, schedules of threads, and prior statuses", "why_tests_cant": "Layouts, sizes and schedules are unbounded; the tests use one contiguous image, double precision and matching shapes, so neither strides, nor mismatched shapes, nor failed checks are exercised.", "anchors": [{"file": "src/ska-sdp-func/grid_data/sdp_gridder_direct.cpp", "symbol": "sdp_gridder_direct_degrid"}, {"file": "src/ska-sdp-func/grid_data/sdp_gridder_direct.cpp", "symbol": "sdp_gridder_direct_grid"}, {"file": "src/ska-sdp-func/grid_data/sdp_gridder_utils.cpp", "symbol": "sdp_gridder_dft"}, {"file": "src/ska-sdp-func/grid_data/sdp_gridder_utils.cpp", "symbol": "sdp_gridder_idft"}, {"file": "src/ska-sdp-func/grid_data/sdp_gridder_utils.cpp", "symbol": "sdp_gridder_image_to_flmn"}, {"file": "src/ska-sdp-func/grid_data/sdp_gridder_utils.cpp", "symbol": "sdp_gridder_count_nonzero_pixels"}, {"file": "src/ska-sdp-func/grid_data/sdp_gridder_utils.cu", "symbol": "sdp_gridder_idft"}]}
{"id": "C112", "title": "The w-stacking calls report every error and always return", "statement": "sdp_grid_wstack_wtower_degrid_all and sdp_grid_wstack_wtower_grid_all end for every number of threads and every interleaving. They return success exactly if no error was set before, all arguments pass the checks and everything done on any thread succeeded and accounted for every visibility of every w-plane: an error met by one worker is never lost or overwritten with success by another. If the arguments are refused, or the setup fails, the call returns an error and the output array keeps its values. Every error is returned to the caller through the status, whatever the schedule: the call never ends the process.", "quantifier": "all argument descriptors, all results of the functions called on every thread, numbers of threads and w-planes, distributions of visibilities over chunks, and interleavings of the workers", "why_tests_cant": "Which worker sees an error first depends on the schedule, and tests of the calls only pass valid arguments; one cannot enumerate the interleavings of a failing worker with the others.", "anchors": [{"file": "src/ska-sdp-func/grid_data/sdp_grid_wstack_wtower.cpp", "symbol": "sdp_grid_wstack_wtower_degrid_all"}, {"file": "src/ska-sdp-func/grid_data/sdp_grid_wstack_wtower.cpp", "symbol": "sdp_grid_wstack_wtower_grid_all"}, {"file": "src/ska-sdp-func/grid_data/sdp_grid_wstack_wtower.cpp", "symbol": "count_visibilities"}, {"file": "src/ska-sdp-func/grid_data/sdp_grid_wstack_wtower.cpp", "symbol": "pick_task"}]}
{"id": "C113", "title": "Plan handles over any history of calls: parameters, tables and memory", "statement": "For every sequence of creating, using, querying and freeing plans (prolate spheroidal functions, direct, w-tower and ES gridders, SwiFTly and FFT plans), with arbitrary failures of allocations and copies: a handle keeps the parameters it was made with and counts its w-planes once per call, whatever happens to it or to other handles; a live handle can always be freed, with an error set or not, and freeing it releases exactly its memory; once all handles are freed no memory is left over; no call faults; a failure is always reported, so that a call that returns success has done what it does when nothing fails; and every successful use of a handle, on the CPU or on the GPU, works with exactly the tables that belong to its parameters, also after earlier calls failed.", "quantifier": "all histories of calls on any number of handles, with any status on entry and any pattern of failing allocations, copies and inner calls", "why_tests_cant": "Tests make a plan, use it once or twice without failures and free it; failing allocations and long mixed histories cannot be enumerated.", "anchors": [{"file": "src/ska-sdp-func/grid_data/sdp_gridder_wtower_uvw.cpp", "symbol": "sdp_gridder_wtower_uvw_create"}, {"file": "src/ska-sdp-func/grid_data/sdp_gridder_wtower_uvw.cpp", "symbol": "sdp_gridder_wtower_uvw_free"}, {"file": "src/ska-sdp-func/grid_data/sdp_gridder_direct.cpp", "symbol": "sdp_gridder_direct_create"}, {"file": "src/ska-sdp-func/grid_data/sdp_gridder_direct.cpp", "symbol": "sdp_gridder_direct_free"}, {"file": "src/ska-sdp-func/grid_data/sdp_gridder_uvw_es_fft.cpp", "symbol": "sdp_gridder_uvw_es_fft_create_plan"}, {"file": "src/ska-sdp-func/grid_data/sdp_gridder_uvw_es_fft.cpp", "symbol": "sdp_gridder_uvw_es_fft_free_plan"}, {"file": "src/ska-sdp-func/fourier_transforms/sdp_pswf.cpp", "symbol": "sdp_pswf_create"}, {"file": "src/ska-sdp-func/fourier_transforms/sdp_pswf.cpp", "symbol": "sdp_pswf_coeff"}, {"file": "src/ska-sdp-func/fourier_transforms/sdp_pswf.cpp", "symbol": "sdp_pswf_values"}, {"file": "src/ska-sdp-func/fourier_transforms/sdp_pswf.cpp", "symbol": "sdp_pswf_free"}, {"file": "src/ska-sdp-func/fourier_transforms/sdp_swiftly.cpp", "symbol": "sdp_swiftly_create"}, {"file": "src/ska-sdp-func/fourier_transforms/sdp_swiftly.cpp", "symbol": "sdp_swiftly_free"}, {"file": "src/ska-sdp-func/fourier_transforms/sdp_fft.cpp", "symbol": "sdp_fft_create"}, {"file": "src/ska-sdp-func/fourier_transforms/sdp_fft.cpp", "symbol": "sdp_fft_free"}]}
{"id": "C114", "title": "Memory that calls allocate for themselves: released on every path, never touched when missing", "statement": "A call that allocates arrays, transforms, prolate functions, kernels or locks for its own use (convolution, CLEAN, grid correction, kernels, residuals and differences, coordinate bounds, direct, w-tower, w-stacking and ES gridding and degridding, accuracy of the w-tower, tile counting, Briggs weighting, SwiFTly finish steps, precision conversion) has released all of it, once, when it comes back, whether it succeeded or not, except the array it returns; it never goes to memory that was not allocated or was already released, whichever allocations, transforms or checks inside it fail; and made with an error already set it does nothing.", "quantifier": "all outcomes of every allocation, check, transform and inner call, all branches and numbers of loop iterations, any memory allocated before", "why_tests_cant": "A test sees one path through each function; a failure of one particular allocation inside it, after any number of iterations, is not reached by any input.", "anchors": [{"file": "src/ska-sdp-func/fourier_transforms/sdp_swiftly.cpp", "symbol": "sdp_swiftly_finish_subgrid"}, {"file": "src/ska-sdp-func/numeric_functions/sdp_fft_convolution.cpp", "symbol": "sdp_fft_convolution"}, {"file": "src/ska-sdp-func/clean/sdp_hogbom_clean.cpp", "symbol": "sdp_hogbom_clean"}, {"file": "src/ska-sdp-func/clean/sdp_ms_clean_cornwell.cpp", "symbol": "sdp_ms_clean_cornwell"}, {"file": "src/ska-sdp-func/grid_data/sdp_gridder_utils.cpp", "symbol": "sdp_gridder_sum_diff"}, {"file": "src/ska-sdp-func/grid_data/sdp_gridder_utils.cpp", "symbol": "sdp_gridder_uvw_bounds_all"}, {"file": "src/ska-sdp-func/grid_data/sdp_gridder_wtower_uvw.cpp", "symbol": "sdp_gridder_wtower_uvw_degrid"}, {"file": "src/ska-sdp-func/grid_data/sdp_gridder_wtower_height.cpp", "symbol": "sdp_gridder_determine_max_w_tower_height"}, {"file": "src/ska-sdp-func/grid_data/sdp_grid_wstack_wtower.cpp", "symbol": "sdp_grid_wstack_wtower_degrid_all"}, {"file": "src/ska-sdp-func/visibility/sdp_tiled_functions.cpp", "symbol": "sdp_count_and_prefix_sum"}, {"file": "src/ska-sdp-func/visibility/sdp_weighting.cpp", "symbol": "sdp_weighting_briggs"}, {"file": "src/ska-sdp-func/grid_data/sdp_gridder_uvw_es_fft.cpp", "symbol": "sdp_grid_uvw_es_fft"}, {"file": "src/ska-sdp-func/utility/sdp_mem.cpp", "symbol": "sdp_mem_convert_precision"}]}
{"id": "C115", "title": "Large arrays: index arithmetic in machine integers", "statement": "Functions work on arrays of any size that fits in memory: their loops and GPU launches visit every element once, every access uses the row-major position of the documented element, and no integer overflow or truncation happens on the way; a size that cannot be handled is refused with an error. This holds for the DFT, phase rotation, weighting, flagging, FFT convolution, CLEAN and difference functions on the CPU and on the GPU.", "quantifier": "all shapes of the arrays, all data-dependent grid cells and peak positions", "why_tests_cant": "Tests use small arrays: every overflow needs arrays of gigabytes, and no finite set of sizes covers the boundary conditions of nested index expressions in mixed integer types.", "anchors": [{"file": "src/ska-sdp-func/visibility/sdp_dft.cpp", "symbol": "sdp_dft_point_v00"}, {"file": "src/ska-sdp-func/visibility/sdp_dft.cpp", "symbol": "sdp_dft_point_v01"}, {"file": "src/ska-sdp-func/visibility/sdp_dft.cu", "symbol": "dft_point_v00"}, {"file": "src/ska-sdp-func/visibility/sdp_phase_rotate.cpp", "symbol": "sdp_phase_rotate_uvw"}, {"file": "src/ska-sdp-func/visibility/sdp_phase_rotate.cpp", "symbol": "sdp_phase_rotate_vis"}, {"file": "src/ska-sdp-func/visibility/sdp_phase_rotate.cu", "symbol": "rotate_vis"}, {"file": "src/ska-sdp-func/visibility/sdp_weighting.cpp", "symbol": "weights_grid_write"}, {"file": "src/ska-sdp-func/visibility/sdp_weighting.cu", "symbol": "grid_write_gpu"}, {"file": "src/ska-sdp-func/visibility/sdp_flagger.cpp", "symbol": "flagger_dynamic_threshold"}, {"file": "src/ska-sdp-func/numeric_functions/sdp_fft_convolution.cpp", "symbol": "sdp_fft_convolution_cpu"}, {"file": "src/ska-sdp-func/clean/sdp_hogbom_clean.cpp", "symbol": "sdp_hogbom_clean_cpu"}, {"file": "src/ska-sdp-func/clean/sdp_ms_clean_cornwell.cpp", "symbol": "sdp_ms_clean_cornwell"}, {"file": "src/ska-sdp-func/grid_data/sdp_gridder_utils.cpp", "symbol": "rms_diff"}, {"file": "src/ska-sdp-func/utility/sdp_device_wrapper.cpp", "symbol": "sdp_launch_cuda_kernel"}]}
{"id": "C116", "title": "SwiFTly: subgrids to a facet in two dimensions", "statement": "Preparing padded subgrids along both axes, extracting a facet's contribution (in one call, or in one call per axis), adding contributions to the facet's sum along both axes and finishing the facet along both axes gives, at every pixel, the direct inverse Fourier sum over the grid points of all subgrids at the position the offsets name, up to an error bounded by the window; with no error if a padded subgrid is as large as the image; and the sequence is the adjoint of the one from facets to subgrids. Arrays may be strided and transposed views; other memory stays unchanged; arrays of the wrong shape are refused.", "quantifier": "all plans, windows, numbers and contents of subgrids, offsets, facet sizes, array strides", "why_tests_cant": "A test compares a handful of sizes and one window against a reference; that the two sequences are adjoint and the error bound hold for all of them needs a proof.", "anchors": [{"file": "src/ska-sdp-func/fourier_transforms/sdp_swiftly.cpp", "symbol": "sdp_swiftly_prepare_subgrid_inplace_2d"}, {"file": "src/ska-sdp-func/fourier_transforms/sdp_swiftly.cpp", "symbol": "sdp_swiftly_extract_from_subgrid_2d"}, {"file": "src/ska-sdp-func/fourier_transforms/sdp_swiftly.cpp", "symbol": "sdp_swiftly_add_to_facet"}, {"file": "src/ska-sdp-func/fourier_transforms/sdp_swiftly.cpp", "symbol": "sdp_swiftly_finish_facet"}]}
{"id": "C117", "title": "Large arrays: beams, tiling, custom kernels and the ES gridder", "statement": "The same as C115 for the station and element beams, sorting visibilities into tiles and the offsets of tiles, de-gridding with custom kernels, and every kernel of the ES gridder: loops and GPU launches visit every element once, at its row-major position, with no integer overflow or truncation on the way; a size that cannot be handled is refused with an error.", "quantifier": "all shapes of the arrays, all offsets, strides and index tables, all positions of visibilities, kernels and tiles, all stacks of w-planes", "why_tests_cant": "Tests use small arrays: an overflow needs gigabytes, and no finite set of sizes covers the boundary conditions of nested index expressions in mixed integer types.", "anchors": [{"file": "src/ska-sdp-func/station_beam/sdp_station.cpp", "symbol": "sdp_station_beam_dft"}, {"file": "src/ska-sdp-func/station_beam/sdp_station.cu", "symbol": "sdp_station_beam_dft"}, {"file": "src/ska-sdp-func/station_beam/sdp_element_dipole.cpp", "symbol": "sdp_element_beam_dipole"}, {"file": "src/ska-sdp-func/station_beam/sdp_element_spherical_wave_harp.cpp", "symbol": "sdp_element_beam_spherical_wave_harp"}, {"file": "src/ska-sdp-func/visibility/sdp_tiled_functions.cpp", "symbol": "sdp_bucket_sort_simple"}, {"file": "src/ska-sdp-func/visibility/sdp_tiled_functions.cpp", "symbol": "sdp_prefix_sum"}, {"file": "src/ska-sdp-func/visibility/sdp_tiled_functions.cu", "symbol": "sdp_bucket_sort_simple_gpu"}, {"file": "src/ska-sdp-func/grid_data/sdp_degrid_uvw_custom.cpp", "symbol": "sdp_degrid_uvw_custom"}, {"file": "src/ska-sdp-func/grid_data/sdp_degrid_uvw_custom.cu", "symbol": "degrid_uvw_custom"}, {"file": "src/ska-sdp-func/grid_data/sdp_gridder_uvw_es_fft_kernels.cu", "symbol": "sdp_cuda_nifty_gridder_gridding_3d"}, {"file": "src/ska-sdp-func/grid_data/sdp_gridder_uvw_es_fft_kernels.cu", "symbol": "apply_w_screen_and_sum"}, {"file": "src/ska-sdp-func/grid_data/sdp_gridder_uvw_es_fft_kernels.cu", "symbol": "conv_corr_and_scaling"}]}
{"id": "C118", "title": "Python calls hand over exactly what they were given", "statement": "A NumPy or CuPy array of a supported element type, of any shape and strides, is described to C by its own type, place, shape, strides, first address and permission to write, and every element that C addresses is the element NumPy means; other types are refused with an exception. In every call of the C library from the Python package, each C parameter receives the Python value of its documented name, converted without loss to the parameter's own type, or an exception is raised and the C function does not run; results are read with the type that C returns.", "quantifier": "every array (element type, shape, strides, permission), every Python function of the package that calls the C library and every combination of Python values given to it", "why_tests_cant": "tests call each wrapper with a few well-formed values; a swapped argument of equal type, a stale argtypes list, an unusual stride or an integer that does not fit shows only for particular values.", "anchors": [{"file": "src/ska_sdp_func/utility/mem.py", "symbol": "Mem"}, {"file": "src/ska_sdp_func/utility/lib.py", "symbol": "Lib.wrap_func"}, {"file": "src/ska_sdp_func/utility/error_checking.py", "symbol": "error_checking"}, {"file": "src/ska_sdp_func/fourier_transforms/swiftly.py", "symbol": "auto_wrap_method"}, {"file": "src/ska_sdp_func/grid_data/gridder_utils.py", "symbol": "uvw_bounds_all"}, {"file": "src/ska_sdp_func/fourier_transforms/fft.py", "symbol": "padded_fft_size"}, {"file": "src/ska_sdp_func/clean/hogbom_clean.py", "symbol": "hogbom_clean"}, {"file": "src/ska-sdp-func/utility/sdp_mem.h", "symbol": "sdp_mem_create_wrapper"}]}
{"id": "C119", "title": "The w pattern is the image of a unit visibility one w step away", "statement": "After sdp_gridder_make_w_pattern every element of the square pattern is the phase 2 pi w n of the point of the sheared celestial sphere in its direction: what the direct gridder makes of a single visibility of value 1 at (0, 0, w). Multiplying by the k-th power of a pattern moves an image by k planes, dividing moves it back, the phase centre does not change, and every element is a number for images within the sphere. The result is the same for every schedule of the loop; nothing but the documented square is written, and arguments that do not fit are refused.", "quantifier": "every subgrid size, field of view, shear and w step, every array with any strides, every schedule of the parallel loop", "why_tests_cant": "values, shapes, strides and schedules are unbounded; tests compare one pattern of a fixed size with a reference.", "anchors": [{"file": "src/ska-sdp-func/grid_data/sdp_gridder_utils.cpp", "symbol": "sdp_gridder_make_w_pattern"}, {"file": "src/ska-sdp-func/grid_data/sdp_gridder_utils.h", "symbol": "lm_to_n"}]}
{"id": "C120", "title": "The flagger stays within its memory", "statement": "A call of sdp_flagger_dynamic_threshold reads and writes only the elements of its two arrays and of its own scratch blocks, divides by no zero, asks for no block of negative size and overflows no int, whatever the sampling step, window, history, shapes and values are; arguments for which this is not so are refused.", "quantifier": "every sampling step, window and history of type int, every shape of visibilities and flags, every outcome of the comparisons, every distribution of baselines over threads", "why_tests_cant": "whether a stray access happens depends on combinations of sizes, parameters and data; a stray read of a heap block usually goes unnoticed in a test.", "anchors": [{"file": "src/ska-sdp-func/visibility/sdp_flagger.cpp", "symbol": "flagger_dynamic_threshold"}, {"file": "src/ska-sdp-func/visibility/sdp_flagger.cpp", "symbol": "median_calc"}, {"file": "src/ska-sdp-func/visibility/sdp_flagger.cpp", "symbol": "median_dev_calc"}, {"file": "src/ska-sdp-func/visibility/sdp_flagger.cpp", "symbol": "filler"}, {"file": "src/ska-sdp-func/visibility/sdp_flagger.cpp", "symbol": "sdp_flagger_dynamic_threshold"}]}
{"id": "C121", "title": "Filling and scaling reach every element, once", "statement": "sdp_mem_set_value gives every element of an array the value, sdp_mem_scale_real multiplies every element by the factor exactly once, and sdp_mem_random_fill gives every real number of the array a value between 0 and 1; nothing else in memory changes. This holds for any number of elements, any strides and either location; arrays it cannot be done for are refused with an error and left alone.", "quantifier": "every shape, stride, element type, location and protection of the array, every value and factor, every content of the memory", "why_tests_cant": "tests fill arrays of a few elements; at what size a loop counter or a thread index no longer reaches the end cannot be seen there, and a call that silently does nothing looks like a success", "anchors": [{"file": "src/ska-sdp-func/utility/sdp_mem.cpp", "symbol": "sdp_mem_set_value"}, {"file": "src/ska-sdp-func/utility/sdp_mem.cpp", "symbol": "sdp_mem_scale_real"}, {"file": "src/ska-sdp-func/utility/sdp_mem.cpp", "symbol": "sdp_mem_random_fill"}, {"file": "src/ska-sdp-func/utility/sdp_mem.cu", "symbol": "sdp_mem_set_value_3d"}, {"file": "src/ska-sdp-func/utility/sdp_mem.cu", "symbol": "sdp_mem_scale_real"}]}
{"id": "C122", "title": "Element beam calls stay within the arrays they are given", "statement": "A call of sdp_element_beam_dipole or sdp_element_beam_spherical_wave_harp that does not fail reads and writes only elements of the arrays it is given, each as an element of the type its array has, and writes no protected array; arguments for which this is not so are refused with an error, on either location.", "quantifier": "all numbers of points, strides, offsets and orders, all arrays of any type, place, size and protection, all positions where an angle is not a number", "why_tests_cant": "Tests pass arrays that match. Whether every mismatch of length, type, place or protection is refused is a statement about all descriptors, and an access outside an array usually goes unnoticed.", "anchors": [{"file": "src/ska-sdp-func/station_beam/sdp_element_dipole.cpp", "symbol": "sdp_element_beam_dipole"}, {"file": "src/ska-sdp-func/station_beam/sdp_element_dipole.cu", "symbol": "sdp_dipole_pattern"}, {"file": "src/ska-sdp-func/station_beam/sdp_element_spherical_wave_harp.cpp", "symbol": "sdp_element_beam_spherical_wave_harp"}, {"file": "src/ska-sdp-func/station_beam/sdp_element_spherical_wave_harp.cpp", "symbol": "sdp_spherical_wave_pattern_harp"}]}
{"id": "C123", "title": "Station beam calls stay within the arrays they are given", "statement": "A call of sdp_station_beam_aperture_array that does not fail reads and writes only elements of the arrays it is given, each as an element of the type its array has and in the memory where the computation runs, and writes no protected array; arguments for which this is not so are refused with an error, on either location.", "quantifier": "all numbers of points, offsets and switches, all numbers in the index array, all arrays of any type, place, size and protection, present or absent", "why_tests_cant": "Tests pass arrays that match. Whether every mismatch of length, type, place, index or protection is refused is a statement about all descriptors and contents, and an access outside an array usually goes unnoticed.", "anchors": [{"file": "src/ska-sdp-func/station_beam/sdp_station.cpp", "symbol": "sdp_station_beam_aperture_array"}, {"file": "src/ska-sdp-func/station_beam/sdp_station.cpp", "symbol": "sdp_station_beam_dft"}, {"file": "src/ska-sdp-func/station_beam/sdp_station.cu", "symbol": "sdp_station_beam_dft"}, {"file": "src/ska-sdp-func/utility/sdp_mem.cpp", "symbol": "sdp_mem_gpu_buffer_const"}]}
{"id": "C124", "title": "The timing report lists every scope once and accounts for the time", "statement": "sdp_timers_report writes one line for every scope of the hierarchy, below the line of the scope that contains it, the longest first; the times on the lines of one scope, with a remark on unaccounted time, add up to the time of that scope, or to at least 99 percent of it; percentages are those of that time; and for a set of timers the shortest, longest and median time and the interquartile range are given.", "quantifier": "all hierarchies of any depth and breadth, all sets of timers and times, all ways of sorting equal times", "why_tests_cant": "Hierarchies are trees of any shape: recursion, sorting and the sums at every level must be right for all of them, and a report is usually only looked at.", "anchors": [{"file": "src/ska-sdp-func/utility/sdp_timer.cpp", "symbol": "sdp_timers_report"}, {"file": "src/ska-sdp-func/utility/sdp_timer.cpp", "symbol": "sdp_TimerNode"}, {"file": "src/ska-sdp-func/utility/sdp_timer.cpp", "symbol": "sdp_timers_create_set"}]}
{"id": "C125", "title": "Parallel loops in main memory give the serial result, whatever the threads do", "statement": "Every parallel loop over rows, pixels, points, baselines or planes in main memory (adding, cutting out and moving subgrids, direct gridding and degridding, degridding from a w-tower, grid correction, the batches, the sign pattern and the normalisation of an FFT, station beams, visibilities from components, sums over rows or pixels) leaves in its result exactly what the same call leaves there when run on one thread: no update is lost and no element is written by two threads. This holds for every number of threads, every distribution of the iterations over the threads and every interleaving of their reads and writes, and every loop ends if every thread keeps running.", "quantifier": "all array sizes, data, numbers of threads, distributions of iterations over threads, and interleavings of memory accesses", "why_tests_cant": "a race shows only under particular timings; a test sees a few schedules on one machine and passes when the threads happen not to meet", "anchors": [{"file": "src/ska-sdp-func/grid_data/sdp_gridder_utils.cpp", "symbol": "subgrid_add"}, {"file": "src/ska-sdp-func/grid_data/sdp_gridder_utils.cpp", "symbol": "subgrid_cut_out"}, {"file": "src/ska-sdp-func/grid_data/sdp_gridder_utils.cpp", "symbol": "shift_subgrids"}, {"file": "src/ska-sdp-func/grid_data/sdp_gridder_utils.cpp", "symbol": "dft"}, {"file": "src/ska-sdp-func/grid_data/sdp_gridder_utils.cpp", "symbol": "idft"}, {"file": "src/ska-sdp-func/grid_data/sdp_gridder_wtower_uvw.cpp", "symbol": "degrid"}, {"file": "src/ska-sdp-func/grid_data/sdp_gridder_grid_correct.cpp", "symbol": "grid_corr_pswf"}, {"file": "src/ska-sdp-func/fourier_transforms/sdp_fft.cpp", "symbol": "fft_phase"}, {"file": "src/ska-sdp-func/fourier_transforms/sdp_fft.cpp", "symbol": "sdp_1d_fft_inplace"}, {"file": "src/ska-sdp-func/grid_data/sdp_gridder_utils.cpp", "symbol": "rms_diff"}, {"file": "src/ska-sdp-func/station_beam/sdp_station.cpp", "symbol": "sdp_station_beam_dft"}, {"file": "src/ska-sdp-func/visibility/sdp_dft.cpp", "symbol": "dft_point_v00"}]}
{"id": "C126", "title": "A w-towers call in main memory that reports an error changes nothing, and one that reports none has done all its work", "statement": "sdp_gridder_wtower_uvw_degrid and sdp_gridder_wtower_uvw_grid, on arrays in main memory, report an error exactly for arguments of the wrong place, type, number of dimensions or protection. If a call ends with an error, the visibilities (degridding) or the image (gridding) are as they were, wherever in the sequence of planes the error was found, and the call is not counted. If it ends without one, the arguments were right and the result is the complete sum over all planes.", "quantifier": "every plan, observation, array descriptor, status before the call, range of rows, and schedule of the parallel loops", "why_tests_cant": "the kernels run even after a failed check of the visibilities, and the call continues through many steps after an error: that nothing is written is a statement about all data and planes; tests check the status of a few bad calls at most.", "anchors": [{"file": "src/ska-sdp-func/grid_data/sdp_gridder_wtower_uvw.cpp", "symbol": "sdp_gridder_wtower_uvw_degrid"}, {"file": "src/ska-sdp-func/grid_data/sdp_gridder_wtower_uvw.cpp", "symbol": "sdp_gridder_wtower_uvw_grid"}, {"file": "src/ska-sdp-func/grid_data/sdp_gridder_wtower_uvw.cpp", "symbol": "degrid_cpu"}, {"file": "src/ska-sdp-func/grid_data/sdp_gridder_wtower_uvw.cpp", "symbol": "grid_cpu"}, {"file": "src/ska-sdp-func/grid_data/sdp_gridder_utils.cpp", "symbol": "sdp_gridder_uvw_bounds_all"}, {"file": "src/ska-sdp-func/grid_data/sdp_gridder_utils.cpp", "symbol": "sdp_gridder_accumulate_scaled_arrays"}, {"file": "src/ska-sdp-func/utility/sdp_mem_view.h", "symbol": "sdp_mem_check_and_view_at"}]}
{"id": "C127", "title": "Log messages are shown by the configured level, one line each, with their time", "statement": "With SKA_SDP_FUNC_LOG_LEVEL set to one of the documented names (or not set, which means INFO), exactly the messages at or above that level are printed, in the order in which a thread makes them, for any number of threads logging at the same time; each on a line of its own that gives its level, function, file, line and text, and the time at which it was made. The level is fixed by the first message.", "quantifier": "all values of the variable and changes of it, all sequences of messages, numbers of threads and interleavings, all clock readings", "why_tests_cant": "the level is kept in a variable shared by all threads and set on first use, and a line is printed in pieces: what happens depends on interleavings, and the time stamp on where a second ends, neither of which a test controls.", "anchors": [{"file": "src/ska-sdp-func/utility/sdp_logging.c", "symbol": "sdp_log_message"}, {"file": "src/ska-sdp-func/utility/sdp_logging.h", "symbol": "sdp_LogLevel"}]}
{"id": "C128", "title": "The mutex keeps the changes of different threads apart", "statement": "Threads that read and change shared data only between sdp_mutex_lock and sdp_mutex_unlock on one mutex from sdp_mutex_create are never there at the same time, lose no change, cannot stop each other for ever, and all end.", "quantifier": "all numbers of threads, all sequences of changes, all interleavings of the single reads and writes", "why_tests_cant": "exclusion is a statement about every interleaving; a test runs few of them, and the functions are compiled differently without OpenMP.", "anchors": [{"file": "src/ska-sdp-func/utility/sdp_thread_support.cpp", "symbol": "sdp_mutex_create"}, {"file": "src/ska-sdp-func/utility/sdp_thread_support.cpp", "symbol": "sdp_mutex_lock"}, {"file": "src/ska-sdp-func/utility/sdp_thread_support.cpp", "symbol": "sdp_mutex_unlock"}, {"file": "src/ska-sdp-func/grid_data/sdp_grid_wstack_wtower.cpp", "symbol": "pick_task"}]}
