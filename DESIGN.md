# Formal model of ska-sdp-func in Lean 4 — design

The code is read as text from `/repo`; nothing in it is run. Models live in
`lean/Verif/<Area>/Model.lean` (definitions, each citing file:lines), helper
lemmas in `lean/Verif/<Area>/Lemmas*.lean`, the property theorems in
`lean/Verif/<Area>/Props.lean`, the independent specification (where one is
needed) in `lean/Verif/<Area>/Spec.lean`.

## Modelling conventions

* C/C++ functions become total computable functions. A loop becomes a fold, a
  structural recursion or a fuelled recursion. Mutation through a pointer
  becomes a returned value.
* Out-of-bounds accesses, use-after-free, division by zero and similar
  undefined behaviour are distinct outcomes (`none` / `Outcome.ub`), never
  silently totalised.
* Machine integers (`int`, `int64_t`) are modelled as `Int`/`Nat` unless a
  property is about overflow; the missing overflow is listed below as a
  simplification.
* Floating point: where possible the model is generic over an arbitrary scalar
  type with operations obeying *no* laws (so the theorem also holds for IEEE
  arithmetic); where the claim is algebraic (conservation, adjointness, DFT
  identities) the model is instantiated over an exact field / commutative ring /
  ℝ / ℂ, and rounding is out of scope. This is said at each definition.
* When the code violates the property, the negation is proved with a concrete
  witness (`…_false`), and the strongest true part as `…_partial`.

## Trusted base

Lean 4.33.0 kernel; the axioms `propext`, `Classical.choice`, `Quot.sound`
(standard, those Mathlib uses); the reading of the C++ source into the model.
No project axioms, no `native_decide`, no `bv_decide`. `AXIOMS.md` lists the
axioms each theorem of the manifest depends on. `AXIOMS.md` lists the
axioms each theorem of the manifest depends on. `AXIOMS.md` lists the
axioms each theorem of the manifest depends on. `AXIOMS.md` lists the
axioms each theorem of the manifest depends on. `AXIOMS.md` lists the
axioms each theorem of the manifest depends on. `AXIOMS.md` lists the
axioms each theorem of the manifest depends on. `AXIOMS.md` lists the
axioms each theorem of the manifest depends on. `AXIOMS.md` lists the
axioms each theorem of the manifest depends on. `AXIOMS.md` lists the
axioms each theorem of the manifest depends on. `AXIOMS.md` lists the
axioms each theorem of the manifest depends on. `AXIOMS.md` lists the
axioms each theorem of the manifest depends on. `AXIOMS.md` lists the
axioms each theorem of the manifest depends on. `AXIOMS.md` lists the
axioms each theorem of the manifest depends on. `AXIOMS.md` lists the
axioms each theorem of the manifest depends on. `AXIOMS.md` lists the
axioms each theorem of the manifest depends on. `AXIOMS.md` lists the
axioms each theorem of the manifest depends on. `AXIOMS.md` lists the
axioms each theorem of the manifest depends on. `AXIOMS.md` lists the
axioms each theorem of the manifest depends on. `AXIOMS.md` lists the
axioms each theorem of the manifest depends on. `AXIOMS.md` lists the
axioms each theorem of the manifest depends on. `AXIOMS.md` lists the
axioms each theorem of the manifest depends on. `AXIOMS.md` lists the
axioms each theorem of the manifest depends on. `AXIOMS.md` lists the
axioms each theorem of the manifest depends on. `AXIOMS.md` lists the
axioms each theorem of the manifest depends on. `AXIOMS.md` lists the
axioms each theorem of the manifest depends on. `AXIOMS.md` lists the
axioms each theorem of the manifest depends on. `AXIOMS.md` lists the
axioms each theorem of the manifest depends on. `AXIOMS.md` lists the
axioms each theorem of the manifest depends on. `AXIOMS.md` lists the
axioms each theorem of the manifest depends on. `AXIOMS.md` lists the
axioms each theorem of the manifest depends on. `AXIOMS.md` lists the
axioms each theorem of the manifest depends on. `AXIOMS.md` lists the
axioms each theorem of the manifest depends on. `AXIOMS.md` lists the
axioms each theorem of the manifest depends on. `AXIOMS.md` lists the
axioms each theorem of the manifest depends on. `AXIOMS.md` lists the
axioms each theorem of the manifest depends on. `AXIOMS.md` lists the
axioms each theorem of the manifest depends on. `AXIOMS.md` lists the
axioms each theorem of the manifest depends on. `AXIOMS.md` lists the
axioms each theorem of the manifest depends on. `AXIOMS.md` lists the
axioms each theorem of the manifest depends on. `AXIOMS.md` lists the
axioms each theorem of the manifest depends on. `AXIOMS.md` lists the
axioms each theorem of the manifest depends on. `AXIOMS.md` lists the
axioms each theorem of the manifest depends on. `AXIOMS.md` lists the
axioms each theorem of the manifest depends on. `AXIOMS.md` lists the
axioms each theorem of the manifest depends on. `AXIOMS.md` lists the
axioms each theorem of the manifest depends on. `AXIOMS.md` lists the
axioms each theorem of the manifest depends on. `AXIOMS.md` lists the
axioms each theorem of the manifest depends on. `AXIOMS.md` lists the
axioms each theorem of the manifest depends on. `AXIOMS.md` lists the
axioms each theorem of the manifest depends on. `AXIOMS.md` lists the
axioms each theorem of the manifest depends on. `AXIOMS.md` lists the
axioms each theorem of the manifest depends on. `AXIOMS.md` lists the
axioms each theorem of the manifest depends on. `AXIOMS.md` lists the
axioms each theorem of the manifest depends on. `AXIOMS.md` lists the
axioms each theorem of the manifest depends on. `AXIOMS.md` lists the
axioms each theorem of the manifest depends on. `AXIOMS.md` lists the
axioms each theorem of the manifest depends on. `AXIOMS.md` lists the
axioms each theorem of the manifest depends on.

## Plan per property

| id | model | proof |
|----|-------|-------|
| C01 | `Mem.create` strides/num_elements; flat addressing | induction on the shape; injectivity of mixed radix |
| C02 | contiguity loop over dims | induction over dims, iff canonical strides |
| C03 | slice wrapper incl. its checks | address algebra; witness for the missing check |
| C04 | refcount state machine | invariant over op lists |
| C05 | create_copy on byte/element memory | contiguous round-trip; witness for strided source |
| C06 | checks as `Status → Status` | fold over check list; witness for same-shape |
| C07 | check_and_view | case analysis on checks |
| C08 | clear/copy/set_value on element memory | frame lemmas |
| C09 | data_model checks | decision logic |
| C10 | timer state machine with an explicit clock | refinement to interval sum |
| C11 | timer tree with a cursor | refinement to a zipper/stack spec |
| C12 | flagger per (baseline, pol) and per-schedule fold | monotonicity + independence |
| C13 | counting, offsets, scatter | permutation invariant over processing order |
| C14 | serial scan; block Hillis–Steele scan | induction on steps / chunks |
| C15 | tile range macros | witness + partial |
| C16 | uniform weighting: accumulate then divide | fold = cell sum |
| C17 | Briggs weighting | algebra over ℝ |
| C18 | DFT v00/v01 | linearity of finite sums |
| C19 | uvw rotation matrix | ring identities with sin²+cos²; witness for A→B→A |
| C20 | vis rotation | unit-modulus phasor |
| C21–C23 | Hogbom loop with explicit index checks | loop invariant, argmax lemma |
| C24 | MS-CLEAN loop | loop invariant |
| C25 | padded FFT convolution | convolution theorem for the modelled DFT; odd witnesses |
| C26 | heap-based smooth-number enumeration | heap invariant + completeness |
| C27 | iterative radix-2 FFT | induction on stages |
| C28 | phase/shift/norm | root of unity identities |
| C29 | good_size loops | walk invariant |
| C30–C33 | SwiFTly index maps | modular arithmetic; adjointness by bijection of indices |
| C34–C35 | clamp_channels over ℝ (floor/ceil) | floor/ceil algebra; witnesses |
| C36 | box enumeration | partition of the line |
| C37 | task picker under a mutex | invariant over schedules |
| C38 | cut_out/add | modular arithmetic, adjointness |
| C39 | uvw_bounds_all fold | min/max lemmas; witness dfreq<0 |
| C40–C42 | W-towers kernels & sweep | adjointness, invariants, witnesses |
| C43 | height search | loop invariant with fuel |
| C44 | custom degridder coordinates | `Int` arithmetic |
| C45 | nonzero pixel list | fold/filter |
| C46 | direct dft/idft | conjugate-transpose identity |
| C47 | buffer checks | decision logic |
| C48 | shift of planes | induction |
| C49 | lm_to_n | quadratic root over ℝ |
| C50 | w-stack correction | complex exponential |
| C51–C52 | examples | frame lemmas; witness |
| C53 | station beam DFT | linear finite sums |
| C54 | Legendre recurrence | recurrence vs Rodrigues-style polynomial spec |
| C55–C58 | alias, slice, is_matching, scale, convert_precision on the same memory model | case analysis, frame lemmas; witnesses for the dropped read-only flag and NULL store |
| C59–C61 | SwiFTly facet prepare/finish and 2-D subgrid functions | index maps + the DFT of C27/C28; witness for strided views |
| C62 | determine_w_step over ℝ | concavity of sqrt(1-l²-m²) on the field of view |
| C63 | the channel loop of the direct degridder | frame lemma; witness |
| C64–C65 | window / w-stack correction of facets | index algebra; witness for facets that stick out |
| C66–C68 | W-towers kernel rounding, plane selection, whole calls | floor/round lemmas; composition of C34, C40, C42; witnesses |
| C69 | worst_case_image | divisor loop; witnesses |
| C70 | kernel table (transcribed) and the two selection loops | loop invariants = argmin specification |
| C71 | w-plane set-up and w range | field arithmetic over any ordered field |
| C72 | ES (de)gridding GPU kernels as sets of atomic additions | sum over permuted operations; adjointness by exchanging sums |
| C73 | ES image kernels (quadrants) | each pixel is in exactly one quadrant of one thread |
| C74 | Legendre recurrence, Newton loop, correction kernel | Rodrigues polynomials; loop characterisation |
| C75 | dipole pattern CPU/GPU | trigonometric identities; frame lemmas; witness for the unguarded launch |
| C76 | spherical-wave sum | mode bijection, C54, finite sums |
| C77 | DFT: argument checks, CPU loops and GPU threads with guard, as whole calls on descriptors | check_iff lemmas; guard filters the launch to the index set; sums per visibility; iterations and threads as programs with disjoint footprints (every interleaving) |
| C78 | phase rotation: argument checks, CPU loops, GPU threads, whole calls | check_iff lemmas; loop over any order of distinct elements; threads as programs with disjoint footprints, also in place; witness for Fortran layout |
| C79 | weighting: argument checks, atomic GPU operations in any order, whole calls | the operations that pass the guard permute the samples; accumulation lemmas for any order; witnesses |
| C80 | the compare-and-swap loops, one step per load or swap, any schedule | invariant: cell = fold of the operations of finished threads; a decreasing measure for termination |
| C81 | every GPU thread a program of single reads and writes; the launch interleaves them arbitrarily (`Common/Race`) | threads with disjoint footprints commute with every schedule; barriers split the reduction into phases; witnesses for the races |
| C82 | whole calls on descriptors and strided views, CPU loops and GPU launches as threads of single accesses | each thread touches one cell; every schedule; witnesses |
| C83 | whole calls on descriptors: copies from the device, residual, RMS, kernels, the eight-byte store in the window | one cell per thread, every schedule; sums of roots of unity; witnesses |
| C84 | series, sampling loop, call on a descriptor, caches of a plan | induction over terms and samples; invariant over histories; witnesses |
| C85 | coefficients, bracket, sign count and bisection of `pswf_segv` over the reals | Sturm argument: completing squares against the pivots; spectral theorem for the least eigenvalue; diagonal scaling of the recurrence; induction on steps |
| C86 | both loops of `pswf_sdmn` with rescaling, sums, `pswf_sckb`, arrays of 200 elements with unwritten elements | ghost solution continued row by row; Casorati determinant for the matching row; products of the weights; witnesses |
| C87 | the same model | Legendre functions from Rodrigues' formula (as for C54); their powers of 1 - x^2 by uniqueness of polynomial solutions; multiplication by x^2; derivatives of real powers |
| C88 | kernels of the GPU loop as per-thread programs over shared memory, blocks in any order, warp either interleaved or in lockstep | between two barriers the threads touch disjoint cells, so every schedule gives the sequential result; invariant of the reduction (every value left is one of the input's, and dominates those folded into it); witnesses for the races |
| C89 | both calls from arguments to result as a transition system: w-planes, counting, task queue with worker threads (C36), and per task cut-out, FFT, w-tower kernel (C66-C68), image correction (C64), all in any loop order | every run's kernel calls cover each visibility exactly once (C36, C37); each call adds a term that depends on the visibility only; linearity moves the sums through the FFTs; adjointness stage by stage |
| C90 | the call with its descriptor checks, the CPU path (C25) and the GPU path as six launches whose threads interleave at every access to the array written; cuFFT as documented | each launch writes disjoint cells, so its outcome is unique; circular convolution theorem on the padded arrays; wrap-around index lemma for sides of either parity |
| C91 | plan creation, execution with the descriptor checks, the work array kept by the plan, shift, phase and normalisation calls; the two CUDA kernels as interleaving threads | characterisation of the checks; C27 per use; induction over the history of uses with only the size of the work array as invariant; disjoint cells for the kernels |
| C92 | the two CUDA kernels as one program per thread: degridding interleaves at every access to the visibilities, gridding at every step of an atomic addition (native or compare-and-swap); same selection and coordinates as the CPU model | rows are disjoint cells, so degridding has one outcome; an atomic addition is one update however its retries interleave, so the final value is the sum of all; equality with C40 by pixel address |
| C93 | both calls with all descriptor checks, the OpenMP loop and the kernel as one program per row over one memory holding the four channel arrays | a row touches only its own cells, so every interleaving gives the sequential result; per row C34 |
| C94 | both calls with all descriptor checks, the cached window values and their copies on the GPU (C84), OpenMP loop and kernel as one program per pixel | a pixel touches only its own cell; window values by C84, screen by C50 |
| C95 | the call with its checks and launch parameters; a block as three passes of 512 threads with barriers between: additions to the tile, additions to and loads of the two sums, stores, with every interleaving in each pass | first pass by the addition framework, third by disjoint stores; second by an invariant on positive sums, and exactly for schedules in step; counterexamples for the rest |
| C96 | the call with its checks, the GPU kernel as one program per thread, rounding to even | a thread touches only its own visibilities, so every interleaving gives the result of C44; roundings agree away from halves |
| C97 | whole calls: checks on descriptors, the clean beam (loop and kernel), the loop of C21-C23/C88 and the convolution of C25/C90 composed | the beam is the rotated Gaussian; the real part of the convolution is the sum of shifted beams; offset from the origin of the convolution; one-component calls for the negations |
| C98 | whole calls: checks on descriptors, scale kernels, clean beam, the loop of C24 and the convolution of C25 composed | kernels are the normalised Gaussians; convolution as a sum of shifted kernels; the loop's chain read as prefixes of one component list; point sources for the negations |
| C99 | the indexed call and its kernel: as C95, with the two sums in the first cell of the tile (the shared arrays are one), and loads and atomic additions as separate steps | first and third pass as C95; second by an invariant: the first cell only grows, others stay, so the ratio of the two loads is at most 1 |
| C100 | the flagger of C12 over an ordered field with any sorting function | levels given by rank (`AtRank`), unique, so what the code computes are the levels; the mean change unrolled by induction on time; scaling by mapping the levels |
| C101 | `sdp_grid_uvw_es_fft` and `sdp_ifft_degrid_uvw_es` as relations to their outcomes: loop over planes, clear, gridding launch with additions in any order, cuFFT as exact unnormalised DFT, image kernels with threads in any order, correction | C72 and C73 give each launch; the signs of the kernel, the shift of the FFT and the sign of the image kernel combine to the centred Fourier phase; invariant over the planes; adjoint by exchanging sums |
| C102 | the two call sequences of SwiFTly on one row: loop over facets (prepare, extract, add), finish with crop; loop over subgrids (prepare, extract, add), finish facet; any scratch contents | each call as a sum over roots of unity (`sum_placed`); the sequence is the window sampled with the facet step times a partial Fourier sum; expand the window in its own Fourier coefficients: the coefficients inside the kept window give the exact phase, those outside are aliased and bounded; adjoint by exchanging sums |
| C103 | the three calls of the tiled functions: checks, clearing, loops or GPU threads whose steps (fetch-and-add, store at the slot) interleave, scan, copies to the host | invariant over schedules: done items hold distinct slots, pending stores know theirs (`launch_sorted`); the CPU loops are a launch of one thread; items of a tile against footprints by floor and ceiling division; wrong calls by evaluation |
| C104 | the lazy set-up of a library function as a small-step machine over the shared list of argument types, function objects and class attribute, any threads and schedule; `error_checking`; Python's argument binding around `auto_wrap_method` | invariant with one ghost bit per thread (has it appended?) bounds the list when a thread assigns it; a settled state is closed under all steps; witness schedule for three threads |
| C105 | program histories over arrays, wrappers, references, collection, exit; a `Mem` holds an address, not a reference | induction over histories: collected objects are distinct and unreferenced; the program holds no `Mem` it did not make |
| C106 | `sdp_SkyCoord` and `SkyCoord` as operations on a list of objects | induction over the operations after the object was made |
| C107 | `bCreate`/`bExec` for every build; library transforms by their documented address formulas (byte strides and axes; lengths and distances; advanced layout) over multi-indices of any rank | all three address formulas equal the row-major rank on contiguous arrays; nested-sum specification; uniqueness of the transform |
| C108 | `Stream.Step`: one host thread making calls, a queue of single-byte moves that the device works on in any order CUDA allows, reading each byte some time before writing it | invariant: replaying the queue gives the sequential memory; commuting independent moves; decreasing measure |
| C109 | `degridGpu`, `gridGpu`: both calls as a relation between inputs and possible outcomes, built from the launches of C81, C82, C91, C92 and the descriptors of their arrays | `Ends` (every outcome is good and one exists) composed along the sweep with the invariants of C42; agreement by uniqueness of the value |
| C110 | `Call.lean`: every SwiFTly call with its checks, views and row loops; `toSubgrid2d`, the calls of the two-dimensional sequence | rows by an invariant over the row loop from the kernels of C30-C33, C59-C61; two axes separate into a product of the sums of C102, error by the product rule |
| C111 | `Direct/Call.lean`: count, image to sources, dft, idft (both devices) and the plan's two calls with every check, on descriptors with strides; `CallSpec.lean`: positions of elements, takes part, centre, directions | views by the lemmas of C82; sums by `loop_sum`; threads write distinct pixels or visibilities (`run_yields`); whole calls by composition with the internal arrays; refusals by iff lemmas for the views |
| C112 | `Wstack/Errors.lean`: control flow of the two w-stacking calls around the statuses of the functions they call, workers as phases with any interleaving, `exit(1)` as an outcome | `ErrorsRegion.lean`: an invariant over schedules (every picked chunk is accounted for or an error is set), a measure for termination; `ErrorsProps.lean`: planes and whole calls by induction |
| C113 | `Plans/Model.lean`: the plan structures as blocks of memory with what is known of their contents; creation, lazy copies, queries, use and release with every allocation, copy and inner call failing or not from a tape; histories over a list of handles | `Account.lean`: invariant that allocated = before + owned by handles + lost, with a bound on the lost; `CalmRuns.lean`: all tables intact as an invariant of histories without certain failures; concrete histories for what is false |
| C114 | `Temps/Model.lean`: a small language of allocation, use, test and release with an execution relation in which anything may fail; `Scripts.lean`: 24 functions as programs of it | `Check.lean`: an analysis that tracks what each pointer holds, proved sound for all executions by induction; its run on each program is evaluated by the kernel; counterexamples by a tape interpreter proved to produce executions (`Play.lean`) |
| C115 | `Width/Base.lean`: C integer types, conversions, overflow, loops and launches with CUDA's limits; `Vis.lean`, `Image.lean`: the index arithmetic of 13 functions written as in the code, as traces of array accesses | `Spec.lean`: the documented accesses with row-major positions; equality of traces by a Horner lemma for mixed types and induction over loops; `False.lean`: witnesses of overflow and wrap-around at realistic sizes |
| C116 | `Swiftly/Back2d.lean`: `extract_from_subgrid_2d` as a call, `toFacet2d`, the calls of the backward sequence in two dimensions | `Back2dSpec.lean`: the direct inverse sum; strided arrays by a simulation with a contiguous copy; the two axes separate into the adjoint of the interpolation of C102, so the error bound and the adjoint identity follow from C102 and the product rule |
| C117 | `Width/Beam.lean`, `Tile.lean`, `Es.lean`: index arithmetic of the beams, tiling, custom de-gridding and ES kernels as in the code, as traces of array accesses; which tiles, cells and kernel offsets belong to a visibility is an arbitrary function | `Spec2.lean`: the documented accesses; equality of traces as for C115, with signed offsets from the centre of an image for the ES screens; `False2.lean`: witnesses |
| C118 | `Python/Array.lean`: `Mem.__init__` on the wrapper of C01; `Bind.lean`, `BindTable.lean`: the rules of ctypes, the 97 bound C functions with their prototypes and declarations, the 96 calls | `ArraySpec.lean`: NumPy's meaning of an array; `BindSpec.lean`: the documented name of each parameter, equality of values; one theorem for all arrays; one generic theorem about checked calls for all Python values, and the check of each call by the kernel |
| C119 | `GridUtil/WPattern.lean`: `lm_to_n` with not-a-number, the whole call of `sdp_gridder_make_w_pattern` on a descriptor, one thread per element | `WPatternSpec.lean`: the nearest point of the sheared sphere and its phase; threads that write one cell each (`Common/Race`); the direct gridder of C46 on one visibility |
| C120 | `Flagger/Machine.lean`: the divisions, int results, allocations and element accesses of `flagger_dynamic_threshold`, `median_calc`, `median_dev_calc`, `filler`, in order, for arbitrary outcomes of the comparisons | `MachineSpec.lean`: when an operation is defined, which arguments fit; bounds of mixed-radix positions; both directions of the exact condition |
| C121 | `Width/Fill.lean`: the loops and kernels of `sdp_mem_set_value`, `sdp_mem_scale_real` and `sdp_mem_random_fill` with counters and thread indices in the types of the code, the type switches, the launches | `FillSpec.lean`: where elements are, what accesses make of the memory; traces cover exactly the elements; wrapped indices as witnesses |
| C122 | `Element/Call.lean`: both element beam calls on descriptors: the checks, and every use of an array element with its index, the type it is taken to have and its direction, in loops and GPU launches | `CallSpec.lean`: when a use is right, which arrays suffice; flattening of loops, extreme points of affine indices; iff for all arguments, witnesses for what is not refused |
| C123 | `Station/Call.lean`: the station beam call on descriptors: the checks in order, the buffers asked for on the GPU, and every use of an array element with its index, assumed type and direction | `CallSpec.lean`: when a use is right, which arrays suffice; flattening of loops, extreme points of affine indices; iff for all arguments, witnesses for what is not refused |
| C124 | `Timer/Report.lean`: the recursive report as a list of lines, for trees of scopes with sets of timers; a missing timer is undefined; `ReportHistory.lean`: histories of the calls of C11 | `ReportSpec.lean`: scopes below one, sections that add up, quantiles; mutual induction over the tree for any sorting function; counting in sorted lists; witnesses for the empty set, the range, the zero total |
| C125 | Iterations of the `omp parallel for` loops as programs of single reads and writes (`Verif/Omp/Model.lean`, `Verif/Omp/Batch.lean` for the FFT over two buffers); reductions (`Verif/Omp/Sum.lean`); teams, schedules and barriers (`Verif/Common/Team.lean`) | Iterations stay within disjoint sets of cells, so by the interleaving theorem every schedule of every team gives the serial result; race and lost update for subgrids larger than the grid |
| C126 | `WTower/CpuCall.lean`: both calls in main memory with descriptors, checks and status at every step, including what the kernels do after a failed check (views with zero extents and strides); values as in `WTower/Sweep.lean` | The status of the kernels does not depend on the plane, so an error comes from the first quotient, the first plane or the last accumulation; the bounds put every visibility above the first plane; an accumulation that fails runs on no element; without error the loops are those of C42, step by step; for a real image the last accumulation is compared with what C42 says is due (`RealImage.lean`) |
| C127 | `Logging/Model.lean`: `sdp_log_message` on histories of messages and changes of the environment, with the readings of the two clocks; and threads that test, assign, filter and print step by step | Induction over the history with the value of the static variable; for threads an invariant: the variable is unset or right, and headers printed plus messages ahead are the wanted ones; witnesses for mixed lines and time stamps that run backwards |
| C128 | `Mutex/Model.lean`: lock and unlock with and without OpenMP, threads that lock, read, write and unlock, one step at a time | Invariant: the lock is set exactly if one thread is inside, what it has read is current, and the data are what a list of changes gives in which each thread's changes so far stand in order; a count of the steps left; witness without OpenMP |

Only IEEE rounding, GPU drivers, cuFFT/MKL/pocketfft internals, the texts of log messages
and what the Python wrappers do besides calling C are outside any executable model used here.

## What is modelled and what is not

| source (under `/repo/src/ska-sdp-func`) | modelled (modules under `lean/Verif`) | not modelled |
|---|---|---|
| utility/sdp_mem.cpp, sdp_mem.h | creation, wrappers, aliases, slices, reference counts, copies, clear, set_value, scale, random_fill (also with machine integers and on the GPU, `Width/Fill`), convert_precision, queries, checks (`Mem`); copies in a CUDA build and on streams (`Mem/Stream`) | random_fill, GPU allocation, NumPy export |
| index arithmetic in `int`, `unsigned int`, `int64_t` | DFT, phase rotation, weighting, flagger, convolution, CLEAN, RMS difference, station and element beams (CPU; station beam also GPU), tile sorting and offsets, custom de-gridding, ES kernels, launches (`Width`) | other functions: unbounded integers |
| utility/sdp_mem_view.h | strides and checks of views (`Mem`) | templates for other ranks |
| utility/sdp_data_model_checks.h | all checks and queries (`DataModel`) | |
| utility/sdp_timer.cpp | both timers, scopes, threads, the report (`Timer`) | formatting of numbers in the report; reports while timers run |
| utility/sdp_cuda_atomics.h | everything (`Atomics`) | rounding of the additions |
| utility/sdp_device_wrapper | launch failure without CUDA; streams (`Mem/Stream`) | OS and driver |
| visibility/sdp_flagger.cpp | the flagger's loops and checks (`Flagger`), over arbitrary numbers (C12) and exactly (C100) | wrapper checks except where named |
| visibility/sdp_tiled_functions.{cpp,cu} | counting, prefix sums, bucket sort, tile ranges; the three calls with checks and GPU threads (`Tiles`) | rounding of positions in floating point |
| visibility/sdp_opt_weighting.{cpp,cu} | sdp_optimized_weighting, sdp_optimised_indexed_weighting and their kernels (`OptWeighting`) | overflow of int, `cell_size_rad`, `support` and `num_vis` (unused by the kernels) |
| visibility/sdp_weighting.{cpp,cu} | uniform and Briggs weights, CPU and GPU, argument checks, whole calls (`Weighting`) | |
| visibility/sdp_dft.{cpp,cu} | both kernels on CPU and GPU, argument checks, whole calls (`Dft`) | |
| visibility/sdp_phase_rotate.{cpp,cu} | uvw and visibilities, CPU and GPU, argument checks, whole calls (`PhaseRotate`) | |
| clean/sdp_hogbom_clean.cpp, .cu | CPU loop and wrapper checks (`Hogbom`), GPU loop and kernels (`Hogbom.Gpu`), clean beam and whole calls (`Hogbom.Call`) | beam sizes below 1; on the GPU, calls that do not complete; blocks of one launch run as a whole one after the other; float kernels are the double ones |
| clean/sdp_ms_clean_cornwell.cpp | whole calls (`MsClean`) | wrap-around of `unsigned int` indices, division by a coupling of 0 |
| numeric_functions/sdp_fft_convolution.cpp, .cu | all: CPU path (`FftConv.Model`), GPU path and call (`FftConv.Gpu`) | internals of cuFFT, rounding |
| fourier_transforms/sdp_fft.cpp, .cu | plans and their checks, built-in back end, shift, phase, norm (`Fft.Model`, `Fft.Call`), both kernels (`Fft.Gpu`), plans of the MKL, PocketFFT and cuFFT builds (`Fft.Backend`) | internals of MKL, PocketFFT and cuFFT (trusted to follow their documentation) |
| fourier_transforms/sdp_fft_padded_size.cpp | everything (`Sizes`) | |
| fourier_transforms/sdp_swiftly.cpp | all functions but the plan object, with checks and strides (`Swiftly/Call`, `Swiftly/Back2d`), and the documented call sequences in one and two dimensions, both ways (`Swiftly`) | window tables' values |
| fourier_transforms/sdp_pswf.cpp, private_pswf.h | everything (`Pswf`) | floating-point rounding; abstract function in the models that use it |
| grid_data/sdp_gridder_clamp_channels.{cpp,cu} | both functions as calls with the checks of their arguments, CPU loop and kernel (`Clamp`) | rounding |
| grid_data/sdp_gridder_utils.cpp | bounds, subgrid cut/add, shift, DFT, sources, lm_to_n, w step, counts (`GridUtil`, `Direct`, `WTower`); `.cu`: add, cut, shift, bounds, idft, sum_diff, accumulate, scale_inv (`GridUtil/Gpu`, `GridUtil/SumDiff`, `GridUtil/Scale`); kernels, residual, RMS (`GridUtil/Residual`), w pattern (`GridUtil/WPattern`) | int truncation of shapes |
| grid_data/sdp_gridder_direct.cpp | both calls (`Direct`; with checks and strides `Direct/Call`); creation and release (`Plans`) | values of getters beyond the stored parameters |
| grid_data/sdp_gridder_grid_correct.{cpp,cu} | both corrections, both calls with their checks, the CPU loops and the kernels (`GridCorrect`) | rounding; template instances other than the element types treated as exact numbers |
| grid_data/sdp_gridder_wtower_uvw.cpp, .cu | kernels, sweeps, whole calls (`WTower`), both CUDA kernels (`WTower.Gpu`), whole calls with their checks in main memory (`WTower.CpuCall`) and on the GPU (`WTower.GpuCall`), creation, lazy copies with failures, release (`Plans`) | failures of allocations inside the calls |
| grid_data/sdp_gridder_wtower_height.cpp | search and worst-case image (`Height`) | the measured error |
| grid_data/sdp_grid_wstack_wtower.cpp | both `_all` calls on the CPU: boxes, selection, task queue, worker threads, images, FFTs, kernels (`Wstack`); argument checks and error handling (`Wstack/Errors`) | timing report, GPU values |
| grid_data/sdp_degrid_uvw_custom.cpp | CPU loops, GPU kernel, checks and launch (`Custom`) | `int` overflow |
| grid_data/sdp_gridder_uvw_es_fft*.{cpp,cu} | checks, kernel choice, planes, all kernels, Legendre tools, whole gridding and degridding calls (`EsFft`, `Legendre`) | rounding; in C101 the remaining correction factor (`n_conv`) is an abstract function of the pixel |
| math/sdp_legendre_polynomial.h | everything (`Legendre`) | |
| station_beam/* | CPU and GPU kernels, wrapper choice (`Station`, `Element`); checks and array uses of the element and station beam calls (`Element/Call`, `Station/Call`) | |
| examples/* | everything (`Examples`) | |
| Python: utility/lib.py, error_checking.py, struct_wrapper.py, mem.py, sky_coord.py, swiftly.py::auto_wrap_method | lazy set-up under threads, error codes, lifetimes, SwiFTly methods (C104, C105); with utility/sdp_sky_coord.c (C106); `Mem.__init__` and the argument lists of all bindings and calls (C118) | CPython, ctypes and NumPy themselves (rules stated in the modules); what the Python functions do besides calling C (default values, creation of output arrays) |
| utility/sdp_logging.c | filter, environment, lines and time stamps, threads (`Logging`) | texts of the messages, calendar dates |
| utility/sdp_thread_support.cpp | create, lock, unlock (`Mutex`) | OpenMP's implementation of locks, failed allocation, `sdp_mutex_free` |
| math macros | | |
| `omp parallel for` loops | iterations as single reads and writes, any team and interleaving (`Omp`); see also C82, C83, C93, C112 | flagger (order-independence only), fills and scaling in sdp_mem.cpp |
| every function that allocates memory for the time of a call | allocation, tests of status, access and release (`Temps`); w-stacking on one thread | what the values are; `calloc` of structures succeeds; when a branch or loop is taken (both sides and any number of iterations are possible) |

## Where the code violates a property

Each entry names the theorem that exhibits the violation in the model (all are statements about
the modelled program, with the simplifications of its module).

* C03 `C03_slice_out_of_parent_false`: The code violates the second half of C03: an accepted one-dimensional slice whose element 1 is not an element of the parent.
* C05 `C05_copy_strided_false`: The code violates C05 for strided sources: the copy of a live two-element strided array reports success, but its second element lies outside the storage allocated for the copy.
* C06 `C06_error_preserved_false`: The same-shape check violates the first half of C06: a data-type error is replaced by an invalid-argument error.
* C07 `C07_view_stride_false`: Without whole-element strides the address claim of C07 is false of the code: a float array with a 6-byte stride is viewed with a 4-byte stride.
* C09 `C09_weights_metadata_false`: An empty (hence storage-less) complex array passes the weights query although "the weights array cannot be complex".
* C10 `C10_restart_false`: A restart of a running timer loses the time since the last query, so a query does change a later report: start at 0, [query at 5,] restart at 5, query at 5.
* C12 `C12_scratch_read_false`: Already the first time sample reads one past the end of the one-element median history, for every positive history length: index 1 of an array of 1.
* C12 `C12_short_history_false`: With a median history of one, what lies beyond the scratch array decides which flags are set: same data and parameters, different flags.
* C12 `C12_flags_shape_false`: The parameter check does not compare the shapes: a one-element flag array is accepted for a larger visibility array, whose writes then leave it.
* C14 `C14_gpu_scan_race_false`: A late read of the block total gives a wrong offset: 2 threads, 3 tiles with counts 1, 1, 5; thread 0 reads the total of the first block after the last thread has stored its next value.
* C15 `C15_tile_index_past_end_false`: Violation: grid 64, tile 32 (a multiple). A visibility passing the in-grid test in the right part of the grid gets a tile column equal to the number of tile columns; in the lower right the index is past the end of the tile array.
* C15 `C15_tile_index_negative_false`: Violation: grid 48, tile 32: the tiling starts at column 8, a visibility near column 4 gets tile index −1 − 1·2.
* C15 `C15_cpu_extra_tiles_false`: Violation: the CPU code counts a visibility in tiles its footprint does not touch, even when the tiling covers the grid.
* C16 `C16_negative_false`: Violation: a visibility with u below −max has a negative index, which passes the test; the access is out of bounds.
* C16 `C16_wrapped_false`: Violation: a visibility outside the grid in v (index −1) is gridded into, and reweighted from, an unrelated cell of the previous row.
* C16 `C16_grid_pols_unchecked_false`: Violation: the number of polarisations of the grid is not compared with that of the weights; with fewer the grid is overrun although every cell is inside.
* C19 `C19_roundtrip_false`: Violation of C19 (4): with both coordinates different the round trip does not restore the baseline (1, 0, 0).
* C20 `C20_roundtrip_false`: Violation of C20 (4): centres (0, π/4) and (π, π/4), baseline (0, 1/4, 0) wavelengths: rotating there and back flips the sign of the visibility.
* C22 `C22_short_output_false`: C22 is false as stated: a model array of shape (2, 1) passes the wrapper's checks and is written out of bounds.
* C22 `C22_empty_image_false`: C22 is false as stated: an empty image passes the checks and element 0 of an empty buffer is read.
* C24 `C24_psf_side_false`: The PSF side is not checked against the image side: with a PSF of the image's side the kernel window leaves the kernel.
* C24 `C24_no_scale_false`: An empty scale list is accepted and element 0 of an empty buffer is read.
* C24 `C24_threshold_other_scale_false`: The threshold is compared with the residual of the scale whose biased peak is largest, not with the largest residual: here scale 1 has residual 4 above the threshold 3, but the biased peak is larger on scale 0 (residual 2), so the loop stops.
* C25 `C25_odd_output_false`: C25 is false for odd output sides: with an output of exactly `n1 * n1` elements, *every* call with `n1` odd leaves its buffers (the copy of the result writes `(n1 + 1)` squared elements).
* C25 `C25_one_pixel_false`: The smallest odd case: 1 by 1 images, read of element -2.
* C25 `C25_odd_kernel_false`: C25 is false for odd kernel sides even when the output side is even: a 2 by 2 image with a single 1 and a 3 by 3 kernel. The result is not a convolution with the kernel for *any* choice of origin.
* C26 `C26_overflow_false`: C26 is false for a request of `2 ^ 31 - 1`: the answer `2 ^ 31` is converted to a negative `int`.
* C30 `C30_empty_facet_false`: C30 is violated for an empty facet: a facet of no samples passes the checks of `sdp_swiftly_prepare_facet` (0 ≤ yN), but the whole row is then read from it.
* C30 `C30_negative_offset_false`: C30 is violated: a facet at offset `-image` (accepted, and equivalent to offset 0 for accumulation) makes extraction from a subgrid write outside the contribution.
* C30 `C30_2d_rows_false`: C30 is violated in two dimensions: only the last axis of the contribution is checked, so a contribution with fewer than `m` rows is accepted and then read past its end.
* C32 `C32_negative_offset_false`: C32 is violated for negative offsets off the subgrid resolution: accumulation rounds the facet offset down, extraction towards zero, so the two use different windows.
* C33 `C33_sign_false`: C33 is violated: when `offset + M/2` is odd the documented inverse changes the sign.
* C34 `C34_axis_false`: The documented statement is false: falling coordinate `3 - ch`, range `[1, 3)`: channel 0 (coordinate 3, excluded by the documentation) is selected, channel 2 (coordinate 1, included by the documentation) is not.
* C34 `C34_guard_false`: The documented statement also fails through the guard alone: coordinate `ch`, range `[5, 2147483645)`: nothing is selected although channel 5 is in range.
* C35 `C35_adjacent_false`: The header's promise "two calls where any min is equal to any max will never return overlapping channel ranges" (h:137-141) is false: coordinate `ch`, ranges `[-10^10, 10)` and `[10, 20)`: the first call is not resolved and keeps all channels, the second keeps channels 10..19.
* C36 `C36_exactly_once_false`: Without the condition on the numerical guard C36 fails: visibility (0, 1) of `tiny` is selected by no box, so it is handled on no w-plane, under no schedule.
* C38 `C38_add_rows_false`: Otherwise two rows handled by different threads can update the same grid pixel without synchronisation: 3 subgrid rows on a grid of 2 rows.
* C39 `C39_bounds_false`: C39 as stated is false for decreasing frequencies: one row at 1 m, two channels at coordinates 3 and 2 (`c0 = 1`, start 3, spacing -1): the reported minimum is 3.
* C41 `C41_edge_false`: C41 fails near the edge. A visibility that passes the coordinate test (u = 3/4, 3/2, 9/4 of 4 pixels) makes degridding read and gridding write outside the subgrid.
* C41 `C41_falling_false`: C41 fails for falling coordinates. The test compares the lowest channel with the lower limit and the highest channel with the upper limit; for a row running from u = +10 to u = -10 pixels on a subgrid of +-4 pixels it passes, and all accesses are outside.
* C42 `C42_empty_false`: C42 fails without visibilities. With every channel range empty the bounds are infinite and their conversion to `int` is undefined, in both calls.
* C43 `C43_endless_false`: C43 fails: a constant error is accepted for ever (the height grows without bound, in the code until `int` overflow).
* C44 `C44_planes_false`: C44 fails for too few planes: the plane count of the grid is not compared with the w kernel; with one plane the second one is read past the end of the grid.
* C44 `C44_w_false`: C44 fails for w at or below -2 steps: the remainder of a negative number is negative, and the row of the w kernel is outside the table.
* C44 `C44_rectangular_false`: The v coordinate of a rectangular grid is centred with the u size. In a grid of 8 x 16 pixels a visibility at v = 0 is interpolated around row 4, not row 8.
* C45 `C45_wide_false`: Counting a rectangular image is wrong: the image `[[0, 7]]` of shape [1, 2] is counted as 0 sources and the conversion then writes outside the allocated arrays.
* C45 `C45_tall_false`: A tall image is read outside its bounds: shape [2, 1].
* C46 `C46_complex_image_false`: The direct degridder ignores the imaginary part of the image, so it is not the adjoint of the gridder on complex images: the one-pixel image `i` degrids to nothing, while `<i, grid 1> = i`.
* C47 `C47_uvw_type_false`: C47 fails for coordinates that are not floating point: with single-precision data the type of the coordinates is not checked; integer or byte coordinates are accepted.
* C47 `C47_dims_false`: C47 fails for the number of dimensions: visibilities with four polarisations are accepted with weights for one, and with a stack of images.
* C48 `C48_shift_not_square_false`: Planes that are not square are not shifted as a whole: with 2 planes of 1 row of 2 values only the first value moves.
* C51 `C51_strided_false`: C51 fails for strided vectors: contiguity is not checked. Adding the two-element vectors at positions 0, 2 and 4, 6 into positions 8, 10 leaves position 10 unchanged and overwrites position 9, which is not part of the output.
* C51 `C51_overlap_false`: C51 fails when an input overlaps the output from below: adding positions 0.. to themselves into positions 1.. reads sums already written.
* C51 `C51_empty_false`: Empty vectors are refused as read-only, since they have no storage.
* C52 `C52_larger_false`: C52 fails for outputs larger than planned: the loop runs over the output, so the work area is written past its end, for every size.
* C53 `C53_unchecked_false`: C53 is not protected by the checks. Whatever the precision of the complex arrays, whatever the number of weights, the location of the inputs, the number of polarisations of the element beam, and whether or not the output may be written, the call is accepted, with the precision of the element coordinates for all arrays and their number for the weights.
* C54 `C54_pole_false`: C54 fails at the poles. For `l = m = 1` the ratio is -1 at every angle whose sine is not 0, but the routine returns 0 where the sine is 0 (the limit is -1).
* C55 `C55_read_only_lost_false`: The read-only protection is not inherited: an alias, and a slice, of a read-only array pass the writeable check.
* C57 `C57_scale_read_only_false`: Scaling does not honour the read-only flag.
* C58 `C58_alloc_failure_false`: If the allocation of the result fails, the conversion stores through a NULL pointer.
* C61 `C61_strided_false`: C61 is violated for subgrids that are not contiguous: with a row stride larger than `M` (which the checks accept) the transform writes past the end of the temporary.
* C63 `C63_range_false`: C63 fails in general: channel 0 is outside the requested range `[1, 2)`, and is changed all the same.
* C65 `C65_outside_false`: C65: conversely, a facet that sticks out of the image along either axis makes the correction read outside the window values, whatever the order.
* C66 `C66_w_false`: C66 fails for w close to the upper end of the plane. For w = 7/8 of the plane the nearest row is 2 of the rows 0, 1, 2 of the table (values 5, 6), but row 0 (values 1, 2) is used.
* C68 `C68_odd_false`: C68 fails for odd `w_support`: gridding misses one factor of the w pattern. For every visibility set whose gridded image has a non-zero pixel where the pattern is not 1, there is an image for which the two inner products differ.
* C69 `C69_division_false`: C69 fails when every number up to `edge` divides the image size (in particular for `edge = 0`, or `edge` at most 2 and an even size): division by zero.
* C69 `C69_odd_false`: C69 fails for odd image sizes and a field of view equal to the image (`edge` equal to half the size, rounded down): a pixel in column and row -1 is written.
* C70 `C70_large_false`: C70 fails for large images. For an image of 69566 pixels or more a side the table is read past its end, whatever the accuracy.
* C70 `C70_unmet_false`: C70 fails for accuracies that cannot be met. No row of the table is more accurate than 2.2e-15; for smaller values the last row is used and no error is reported.
* C70 `C70_single_false`: C70 fails in single precision. The support is meant to be at most 8, but for every accuracy below 1.017e-7 and every image the last row of the table, of support 16, is used: it stands in for the supports without a usable row, and has a smaller or equal grid.
* C71 `C71_equal_false`: C71 fails for one value of |w|. If all |w| agree (snapshot of coplanar baselines, or one visibility), the plane spacing is a division by zero.
* C71 `C71_edge_false`: C71 fails at the edge of the kernel. For `w = lo` there is a plane at exactly half a kernel, where the kernel is not zero, that does not exist.
* C71 `C71_descending_false`: C71 fails for frequencies in descending order: the range is then too narrow, or even empty.
* C71 `C71_no_channel_false`: C71 fails without channels: a frequency before the start of the array is read.
* C72 `C72_overflow_false`: C72 fails for support 16 on a grid point. A visibility whose u falls on a grid point at least 8 points away from the edge of the grid, and that reaches the stack in v and w, makes the kernel write past the end of its table. Zero-length baselines do this.
* C73 `C73_empty_false`: C73 fails for empty images: the number of threads is 0 and the number of blocks a division by zero.
* C73 `C73_odd_false`: C73 fails for odd images. Whatever the layers, the last row and the last column of an image of odd size are neither summed nor scaled.
* C74 `C74_outside_false`: C74 fails outside (-1, 1): from degree 2 the derivative is not written there.
* C74 `C74_decreasing_false`: C74 fails for decreasing estimates: `fdim` is not the absolute difference, so if the first step decreases the estimate, however much, the result of that one step is returned whatever the accuracy asked for (not negative).
* C75 `C75_stride_false`: C75 fails for stride 1 in polarised mode: the phi component of the first point is lost, it holds the theta component of the second.
* C75 `C75_gpu_false`: C75 fails on the GPU: with a number of points that is not a multiple of 256, and input arrays of that many points, the threads beyond the last point read past the end, whatever their order.
* C76 `C76_short_false`: C76, violated. The function does not look at the size of the coefficient array: with at least one point and fewer than `4 L (L + 2)` coefficients it reads beyond the end, for every degree, direction and order of the points.
* C77 `C77_dims_false`: C77 is false for directions of more dimensions: a wrapped array of shape (1, 3, 0), which has no values, passes the checks of `sdp_dft_point_v01` as one direction, which is then read.
* C78 `C78_layout_false`: C78 is false for arrays that are not contiguous: `sdp_phase_rotate_uvw` accepts two baselines stored in Fortran order and, for equal centres, where it must copy its input, gives the first baseline a value of the second.
* C79 `C79_fresh_false`: C79 is false for Briggs weighting on the GPU: two calls with the same documented arguments and the same schedule succeed with different output weights, because the sums start from the contents of newly allocated memory.
* C79 `C79_briggs_crash_false`: C79 is false for the errors of Briggs weighting on the GPU: for every call with accepted arguments in GPU memory, an unsupported combination of types or the absence of a CUDA device is not reported: the host copies of the sums have no data and are dereferenced.
* C79 `C79_unchecked_false`: C79 is false for input weights of another shape than the output weights: accepted, and read out of bounds.
* C81 `C81_add_false`: C81 fails when the subgrid is larger than the grid: two threads update one pixel without synchronisation. Three rows of ones on a grid of two: the CPU adds 2 to the first pixel; a complete schedule of the GPU threads adds only 1.
* C81 `C81_sumdiff_false`: C81 fails where the lanes of a warp need not run in lockstep (independent thread scheduling): nothing orders the last additions. The differences of four rows are `1`, and the result can be `3`.
* C81 `C81_sumdiff_crash_false`: C81 fails for arrays that do not hold `int`, and where no kernel can be launched: the error is found, and the result is then read through a null pointer; on the CPU the same call returns the error.
* C82 `C82_real_false`: C82 fails: the sum of a real output and a complex input ignores the second input and the exponent. With `out = 0`, `in1 = 1`, `in2 = 2` and exponent 1 the result is 1.
* C82 `C82_error_false`: C82 fails on the CPU: an input found to have the wrong number of dimensions is reported, and added all the same, its first value to every output.
* C82 `C82_shape_false`: C82 fails: the shapes of the inputs are not compared with that of the output. A first input of one row is read beyond its end by the call that returns success.
* C83 `C83_kernel_false`: C83 fails for a kernel of one row (no oversampling): every element is zero times infinity.
* C83 `C83_pswf_false`: C83 fails for single precision and an even number of columns: the double 1e-15 is stored over the first two values, so the second is 0.0256…, whatever the function is.
* C83 `C83_pswf_overflow_false`: C83 fails where the window has fewer than eight bytes: a kernel of type `char` with two columns, which should be refused, has eight bytes stored in a block of two.
* C83 `C83_rms_size_false`: C83 fails for images of 2³¹ pixels or more, for example 65536 x 32768: the number of elements does not fit an `int`.
* C83 `C83_rms_empty_false`: C83 fails for arrays without elements: the result is not a number, and no error.
* C84 `C84_samples_false`: C84 fails for an odd number of samples from three: the last is not written, and the first is zero.
* C84 `C84_empty_false`: C84 fails for an output array without elements: the first is written.
* C84 `C84_copies_false`: C84 fails after a call with a previous error: an array without data is kept, and a later call without an error returns it.
* C84 `C84_null_false`: C84 fails before values have been generated: the copy is made of a null pointer.
* C85 `C85_overflow_false`: Not for every bandwidth: from 291 on, an array is accessed out of bounds.
* C86 `C86_overflow_false`: Not for larger ones: from 174 on, arrays of 200 elements are overrun.
* C86 `C86_unset_false`: Nor for tiny ones: below `10⁻¹⁰` an element that was never written is read.
* C88 `C88_bounds_false`: C88 fails for most image sizes: with a side of 1000 pixels a thread reads past the end of the residual.
* C88 `C88_order_false`: C88 fails for larger images even in lockstep: from the second launch on, the blocks overwrite what others have yet to read. A 512x512 image with one pixel of value 1: when block 1 of the second launch finishes before block 0 starts, the peak is lost, and the loop ends with the pixel above the threshold.
* C88 `C88_lockstep_false`: C88 fails where the lanes of a warp need not run in lockstep (independent thread scheduling). A 16x16 image with one pixel of value 1: thread 0 can finish before the others start, and the search returns value 0, so that the loop ends with the pixel above the threshold.
* C88 `C88_model_false`: C88 fails on an array that is not zero: the components are added to what the model array held (on the CPU they replace it). The dirty image is zero, and residual plus convolved model is not.
* C90 `C90_gpu_edge_false`: C90 is false on the GPU at the sizes `C90_gpu_partial` leaves out: if a power of two lies between `n1 + n2 - 1` and `n1 + 1`, *every* call reads outside the padded array (its row and column -1). So convolving with a single pixel an image of 4, or with 2 by 2 pixels one of 3.
* C90 `C90_gpu_pixel_false`: C90 is false on the GPU for images of one pixel each: the call is refused with a runtime error, because the launch of the shift has no blocks.
* C90 `C90_odd_false`: C90 is false on the CPU for odd sides, and the back-ends disagree there: with *every* odd side of the first image and every second image the CPU leaves its arrays, where the GPU computes the convolution.
* C90 `C90_type_false`: C90 is false for a second image of another type: nothing checks it, so 4 by 4 real numbers, which take the room of 8 complex ones, are read as 16.
* C90 `C90_place_false`: C90 is false for a second image that is elsewhere: with the first image and the output in host memory, a second image on the device passes every check, and its address is used on the host.
* C90 `C90_output_false`: C90 is false for an output of another size: nothing compares it with the first image. *Every* call on the CPU with an even side and an output array that is too small writes outside it.
* C91 `C91_mixed_false`: C91 is false for an input in single and an output in double precision: the plan is created, its use succeeds, and the output is what it was before.
* C91 `C91_no_dims_false`: C91 is false for no dimensions: a plan that transforms 0 dimensions of a one-dimensional array is accepted, and its use succeeds without writing to the output.
* C91 `C91_null_false`: C91 is false without a plan: the use succeeds and does nothing.
* C91 `C91_direction_false`: C91 is false for a value of `is_forward` that is true but not 1: the transform is the inverse one.
* C91 `C91_shift_error_false`: C91 is false for errors of a shifted transform: with *every* plan, and every two-dimensional array in host memory that it is not for, the call reports an error but has changed the sign of half of the data.
* C91 `C91_shift_null_false`: C91 is false for a shifted transform without a plan: it succeeds and leaves the data as they were.
* C91 `C91_overflow_false`: C91 is false for the normalisation of large arrays: with sides of 65536 the product of the sides does not fit in the `int` it is computed in.
* C91 `C91_batch_norm_false`: C91 is false for normalised shifted transforms of the rows of an array: they are divided by the number of elements of the whole array. Two rows of one element each, whose transforms are the elements themselves, come out halved.
* C92 `C92_edge_false`: C92 fails near the edge. A visibility passes the coordinate test (v = 9/4 of 4 pixels in the last channel) but its footprint leaves the rows of the tower. On the GPU the thread ends normally: it has read the first pixels of the next rows, and an image outside the footprint changes the visibility.
* C93 `C93_error_false`: C93 fails on the CPU: an input found to have the wrong number of dimensions is reported, and the outputs are overwritten all the same.
* C93 `C93_rows_false`: C93 fails for a row range that is too long: on the CPU the call leaves its arrays, although the same call on the GPU succeeds.
* C93 `C93_dim_false`: C93 fails for a coordinate number other than 0, 1 and 2: it is not refused, and row 0 is clamped by a coordinate of row 1.
* C94 `C94_size_false`: C94 fails for an image size that is not positive: it is refused for a facet in the memory of the CPU, and a null pointer is used for one on the GPU.
* C94 `C94_odd_false`: C94 fails for an odd image size: the first window value is zero, and the first pixel of the image becomes infinite or not a number although the call reports success.
* C94 `C94_outside_false`: C94 fails for a facet that is not inside the image: window values outside the array are read although the call reports success.
* C95 `C95_rest_false`: C95 fails for every tile that starts at or after the number of visibilities in it: the end of the loops is a number of visibilities, not the position after the last. No execution of the block changes any weight.
* C95 `C95_empty_false`: C95 fails for the tiles after the last visibility: the block loads a tile number outside the array.
* C95 `C95_race_false`: C95 fails: a thread computes the multiple from the sums as they are when it has added its own share. Two executions of the same block give the same visibility weights 1/11 and 1/26.
* C95 `C95_robust_false`: C95 fails for the robustness parameter: it is a `double` where the kernel takes an `int`, and the kernel gets the low half of its bits: zero for every integer below 2 ^ 21 in absolute value.
* C95 `C95_last_false`: C95 fails for the last tile: of all `ceil(size / 32) ceil(size / 16)` tiles one has no block.
* C95 `C95_unchecked_false`: C95 fails to check the sorted arrays and the output: with any other arrays on the GPU, of whatever type and size, the call does the same.
* C96 `C96_tie_false`: CPU and GPU differ at half a sub-sample. Coordinate `u` times the oversampling is one half: the CPU takes the next pixel and the second row of the kernel, the GPU this pixel and the first.
* C96 `C96_kernel_false`: The dimensions of the kernels are not checked. A kernel of one dimension counts as one of size 0: the call succeeds and the visibilities become 0. For a kernel without dimensions the oversampling is 0, and the call divides by it.
* C96 `C96_layout_false`: Visibilities that are not contiguous are accepted: stored in Fortran order, polarisation 1 of the first baseline gets the value of polarisation 2.
* C97 `C97_shift_false`: C97 is false on the CPU for *every* call with an even image and an even beam: the beam is centred one pixel beyond the component along both axes. With one component, at pixel `(x, y)`, what the sky model adds to the residual is the component's flux at `(x + 1, y + 1)` and less at `(x, y)`.
* C97 `C97_odd_image_false`: C97 is false on the CPU for *every* image with an odd side: the convolution leaves its arrays.
* C97 `C97_odd_beam_false`: C97 is false on the CPU for *every* image with an even side of at least 4 and *every* beam of odd side: the beam is sheared, and a component contributes nothing to its own pixel of the sky model.
* C97 `C97_large_beam_false`: C97 is false for a beam of 32768 pixels or more: undefined behaviour on the CPU, whatever the image.
* C97 `C97_gpu_details_false`: C97 is false for images on the GPU with the beam parameters also there, which is not refused: the host reads them through a device address.
* C98 `C98_gpu_false`: C98 is false in GPU memory: the call reports success, but model and sky model are left as they were; only the residual changes, into a copy of the dirty image.
* C98 `C98_odd_image_false`: C98 is false on the CPU for *every* image with an odd side: the convolution leaves its arrays.
* C98 `C98_shift_false`: C98 is false: with the single scale 0 and nothing above the threshold (or no cycle allowed), the residual should be the dirty image; it is the dirty image moved by one pixel along both axes, with zeros in the first row and column.
* C98 `C98_diverges_false`: C98 is false: the PSF is taken away two pixels beyond the component it was found for, so for a point source seen with a perfect PSF (one pixel of value 1 at its centre) the residual never decreases: every cycle finds the same pixel with the same value `v`, adds to the model, and digs a hole two pixels further on, until the cycle limit is reached.
* C98 `C98_size_false`: C98 is false: the size of the clean beam (the last of the four parameters) is not used. Whatever size is asked for, the beam of the only component reaches every pixel of the sky model.
* C99 `C99_rest_false`: C99 fails for every tile that starts at or after the number of visibilities in it: the end of the loops is a number of visibilities, not the position after the last. No execution of the block changes any weight.
* C99 `C99_empty_false`: C99 fails for the tiles after the last visibility: the block loads a tile number outside the array, and has no execution that completes.
* C99 `C99_race_false`: C99 fails: the weights depend on the schedule. Two executions of the same block give the same visibility weights 1/26 and 1/176; its Briggs weight is 1/11.
* C99 `C99_robust_false`: C99 fails for the robustness parameter: it is a `double` where the kernel takes an `int`, and the kernel gets the low half of its bits: zero for every integer below 2 ^ 21 in absolute value.
* C99 `C99_last_false`: C99 fails for the last tile: of all `ceil(size / 32) ceil(size / 16)` tiles one has no block.
* C99 `C99_unchecked_false`: C99 fails to check the sorted arrays and the output: with any other arrays on the GPU, of whatever type and size, the call does the same.
* C99 `C99_mean_false`: C99 fails for every tile whose mean weight, the sum of the squares over the sum of the weights on the grid points of its visibilities, is above 1: both sums are kept in the first cell of the tile, and in every execution every visibility of the tile gets less than its Briggs weight.
* C100 `C100_median_false`: C100 fails for an odd number of samples: the middle is not the median. Of `2 k + 1` different magnitudes `k + 1` are below it and only `k - 1` above; of three it is the largest.
* C100 `C100_first_false`: C100 fails for channel 0: whatever the window, it is never flagged along with a channel beside it.
* C100 `C100_changes_false`: C100 fails for changes: their distances are measured from the middle of the magnitudes, not from the middle of the changes. A jump in one channel while all others are constant is to be flagged, by any threshold below ten million, but no execution sets any flag.
* C101 `C101_old_false`: C101 fails: the image is not only written. It is documented as output, but what it held before, divided by the correction, stays in the dirty image: even without any visibility other than zero.
* C101 `C101_keep_false`: C101 fails: so are the visibilities. Also documented as output, they keep what they held: degridding an empty image leaves them.
* C101 `C101_weight_false`: C101 fails: degridding takes weights and does not use them.
* C101 `C101_plan_false`: C101 fails for buffers that are not the plan's. The sizes of the buffers are not compared with the plan: with fewer rows than the plan every call reads outside the coordinates.
* C101 `C101_readonly_false`: C101 fails: a read-only image is written. The check of a degridding call asks only whether the visibilities may be written: a read-only image is accepted, and divided by the correction.
* C102 `C102_odd_false`: C102 fails for odd contribution sizes: a plan of 12 pixels with padded facets and subgrids of 6 is accepted, and with a constant window, which leaks nothing to the points left out, a source of flux 1 in the middle of the image gives grid values that are not 1/12: the contribution is added one sample off.
* C103 `C103_count_left_false`: C103 fails on the CPU: a tile to the left of a footprint counts it.
* C103 `C103_count_float_false`: C103 fails for single precision on the CPU: the counting call does nothing but clear its arrays, and reports success; the total is never written.
* C103 `C103_count_check_false`: C103 fails when a check fails on the CPU: coordinates of the wrong shape are noticed, but the loops run all the same and read outside the array.
* C103 `C103_count_status_false`: C103 fails when an error is given on the CPU: the counting call neither clears nor counts, but it replaces the offsets, by the sums of what the array of counts held before, and the total.
* C103 `C103_count_gpu_crash_false`: C103 fails when an error is given on the GPU, or there is no CUDA: the counting call crashes, whatever its arguments.
* C103 `C103_sort_vis_false`: C103 fails for the visibilities: the array of complex numbers is read as one of real numbers, so that a tile does not even hold the real parts of its visibilities.
* C103 `C103_sort_pols_false`: C103 fails for four polarisations: a tile does not hold the weights of its visibilities, but those of other polarisations.
* C103 `C103_sort_twice_false`: C103 fails for a second sort: the sorting call moves the offsets, and a second call with the same arguments writes outside the sorted arrays.
* C103 `C103_index_coordinates_false`: C103 fails for the coordinates of the indexing call on the CPU: the slots of a tile do not hold those of its visibilities.
* C104 `C104_keywords_false`: C104, keyword arguments, fails. Every method of `Swiftly`: a call that Python accepts and that names at least one argument by keyword never returns normally. When the C function succeeds its effect on the arrays has happened and the method raises `TypeError` all the same.
* C104 `C104_first_use_false`: C104, first use, fails. For every function with an error code, whatever its number of arguments: three threads that reach it for the first time together can leave the binding in a state in which every call that any thread ever makes again raises `TypeError` and never reaches the C function. (And such calls are made: thread 7 makes one in its next two steps.)
* C105 `C105_kept_mem_false`: C105, a kept `Mem`, fails. A `Mem` does not keep its array alive: a program that makes one, forgets the array, and uses the `Mem` after the array was collected makes the C function read a freed buffer.
* C105 `C105_leak_false`: C105, failed construction, fails. A C creation function that sets an error code and returns a structure all the same: Python raises before it has seen the structure, and nothing the program does later frees it.
* C106 `C106_copy_false`: C106, the epoch of a copy, fails. A program sets an epoch and copies the object: the copy has epoch 2000.
* C107 `C107_direction_false`: C107 is false for `is_forward = 2`: the same program computes the inverse transform with the library's own transforms and the forward transform with any other build.
* C107 `C107_mixed_false`: C107 is false for an input in single and an output in double precision: the library's own transforms succeed and leave the output as it was; PocketFFT makes the plan and refuses its use; MKL refuses the plan.
* C107 `C107_dims_false`: C107 is false for three dimensions: the library's own transforms refuse what the other builds accept.
* C108 `C108_host_copy_false`: C108 fails for copies between host arrays. Three calls on one stream: device to host, host to host, wait. The second copy does not wait for the first although both are on the same stream, and after the wait the result is the old data.
* C109 `C109_bounds_false`: C109 fails for arrays the bounds cannot be computed from. If an array of the observation has the wrong type, number of dimensions or no rows, the bounds stay infinite and their conversion to `int` is undefined, although an error has been found; likewise if every channel range is empty.
* C109 `C109_count_false`: C109 fails for the counter of planes: without CUDA the call is refused, and still counts four planes.
* C110 `C110_add_rows_false`: C110 fails for the number of rows in `add_to_subgrid_2d`: only the row lengths are checked, so a contribution of one row of the right length is accepted, and rows behind it are read.
* C111 `C111_degrid_float_false`: Single precision data can be gridded (`C111_grid_partial`) but not degridded: whatever the image, a call with coordinates of type `float` does not succeed, because `sdp_gridder_dft` takes the type of the coordinates for that of the fluxes.
* C111 `C111_degrid_zero_false`: An image of zeros should degrid to nothing; instead the call fails, because the internal arrays without elements count as read-only.
* C111 `C111_flmn_readonly_false`: C111 fails for a flux array that is read-only: the call reports an error, yet has changed it.
* C111 `C111_window_false`: C111 fails for a window shorter than the image: the call is accepted and reads behind the window.
* C111 `C111_idft_window_false`: C111 fails for a window shorter than the image also in the other direction.
* C111 `C111_dft_rows_false`: C111 fails for visibilities with fewer rows than coordinates: the call is accepted and changes memory behind them.
* C111 `C111_grid_tall_false`: C111 fails for an image that is not square: one of two rows and one column is accepted, and memory behind it is changed.
* C112 `C112_prepare_false`: C112 fails: errors on a plane end the process. If a function that prepares the grid of the first plane with visibilities, or counts them, reports an error, the call does not return it: in every execution the workers do nothing, the check of the number of visibilities fails, and `exit(1)` is called.
* C112 `C112_image_dims_false`: C112 fails for the number of dimensions of the image: degridding checks it only after it has begun, so a call with an image of one or three dimensions that passes the checks ends the process.
* C112 `C112_schedule_false`: C112 fails: what becomes of an error depends on the schedule. Two chunks whose visibilities have a type the kernel refuses: with one worker the second chunk is never counted and the process ends; with two workers that count before either fails, the error is returned.
* C113 `C113_released_false`: Not all memory is released: a SwiFTly plan is made and freed without any failure and its structure stays allocated; a SwiFTly plan that cannot be made for want of memory leaves the descriptor of an array.
* C113 `C113_faults_false`: Calls can fault: `sdp_pswf_free` of a null pointer; making a spheroidal function, a direct gridder (also with an error already set), an ES gridder or, with an even number of kernel columns, a w-tower gridder when there is no memory for an array; asking for values on the GPU before they were generated.
* C113 `C113_tables_false`: A failure is remembered. A w-tower call on the GPU runs out of memory and says so; the next call, with the status cleared and nothing failing, faults, because the copies without data are kept. If instead the last copy failed, the next call succeeds and works with a table that was never filled. `sdp_pswf_coeff` called once with an error set makes later calls fault.
* C113 `C113_handle_and_error_false`: A creation may report an error and still return a handle, which the caller has to free: a w-tower plan made with an error set, and a transform whose arrays the back end refuses.
* C114 `C114_released_false`: When there is no memory for the data, the descriptor is kept; when a transform cannot be planned, what was made of the plan is kept.
* C114 `C114_count_tiles_false`: `sdp_count_and_prefix_sum` on the GPU always keeps memory when it comes back.
* C114 `C114_count_tiles_success_false`: It can come back without an error.
* C114 `C114_no_fault_false`: The functions of `careless` go to memory that is not there when an allocation fails (or, those for the GPU, when they have refused the data types).
* C114 `C114_nothing_after_error_false`: `sdp_count_and_prefix_sum` goes wrong after every earlier error.
* C115 `C115_dft_v00_large_false`: C115 is false of sdp_dft_point_v00 on the CPU with 100 times, 130816 baselines, 64 channels and 4 polarisations: an index overflows `int`.
* C115 `C115_dft_v00_gpu_large_false`: The same on the GPU, where the launch is accepted.
* C115 `C115_flagger_large_false`: C115 is false of the flagger with as many visibilities.
* C115 `C115_convolution_large_false`: C115 is false of sdp_fft_convolution on the CPU for a padded size of 65536 (an image of 32768 by 32768 and any kernel larger than one pixel): the counter overflows before the loop ends.
* C115 `C115_hogbom_large_false`: C115 is false of Hogbom CLEAN for an image of 50000 by 50000.
* C115 `C115_hogbom_psf_false`: C115 is false of Hogbom CLEAN for an image of 40000 by 40000 (whose pixels an `int` can count) with its point spread function of 80000 by 80000: what is subtracted from some pixels belongs to other pixels.
* C115 `C115_hogbom_psf_other_false`: The element that is used instead: (60000, 40005) becomes another one.
* C115 `C115_ms_clean_scales_false`: C115 is false of multi-scale CLEAN with five scales and a point spread function of 16384 by 16384.
* C115 `C115_ms_clean_overwrites_false`: The pair of scales (3, 1) is stored on top of the pair (0, 0).
* C115 `C115_rms_large_false`: C115 is false of sdp_gridder_rms_diff for arrays of 50000 by 50000: the number of elements overflows.
* C115 `C115_rotate_uvw_gpu_large_false`: C115 is false of sdp_phase_rotate_uvw on the GPU with more than 2^32 coordinates: the launch is accepted, but the index of a thread is calculated in `unsigned int`, and the last coordinates are never rotated.
* C115 `C115_rotate_vis_gpu_large_false`: C115 is false of sdp_phase_rotate_vis on the GPU with more than 2^32 baselines, for the same reason.
* C115 `C115_weights_gpu_large_false`: C115 is false of the gridding of weights on the GPU for a grid of 32768 by 32768 and four polarisations: the position of cell (20000, 5) overflows `int`.
* C116 `C116_extract_rows_false`: C116 fails for the number of rows in `extract_from_subgrid_2d`: only the row lengths are checked, so a subgrid of one row of the right length is accepted, and rows behind it are read.
* C117 `C117_station_large_false`: C117 is false of sdp_station_beam_dft on the CPU with 512 element patterns, 2^20 + 1 points and 4 polarisations: the position of the last element pattern overflows `int`.
* C117 `C117_station_gpu_large_false`: The same on the GPU, where the launch is accepted.
* C117 `C117_dipole_large_false`: C117 is false of sdp_dipole_pattern with 2^29 points in a beam of four polarisations.
* C117 `C117_harp_large_false`: C117 is false of sdp_spherical_wave_pattern_harp with as many points.
* C117 `C117_bucket_sort_large_false`: C117 is false of sdp_bucket_sort_simple on the CPU with 100 times, 130816 baselines and 256 channels, each visibility in one tile: the last visibilities are not sorted.
* C117 `C117_bucket_sort_gpu_large_false`: The same on the GPU, where the launch is accepted.
* C117 `C117_prefix_sum_large_false`: C117 is false of sdp_prefix_sum for two tiles of 2^30 points each: the sum overflows.
* C117 `C117_es_screen_large_false`: C117 is false of the screens of the ES gridder for an image of 32768 by 32768 on grids of 65536 by 65536: the position of the centre overflows `int`.
* C117 `C117_es_reverse_large_false`: The same when de-gridding.
* C117 `C117_es_correct_large_false`: C117 is false of the correction of an image of 65536 by 65536.
* C117 `C117_es_grid_large_false`: C117 is false of the gridding kernels for a grid of 46342 by 46342, even for one visibility under one cell: `size_t(grid_size * grid_size)` multiplies as `int`.
* C117 `C117_es_vis_large_false`: C117 is false of the gridding kernels for 13081600 rows of 256 channels: the index of a visibility overflows.
* C118 `C118_two_arrays_false`: C118 is false of several arguments: they are forgotten, and a null array is made without an error.
* C118 `C118_field_false`: C118 is false of arrays whose strides are not multiples of the element size, such as one field of an array of packed structures (here one byte and a double): C accepts them, and reads elements at other addresses.
* C118 `C118_contiguous_false`: C118 is false of axes of length one: the transpose of a column of three numbers is contiguous for NumPy and not for C, which then refuses it.
* C118 `C118_int_false`: C118 is false of integers outside the range of the C type: they lose their high bits and the C function runs, e.g. `padded_fft_size(232 + 8, 1.0)` is the padded size of 8.
* C118 `C118_free_false`: C118 is false of the release of the example plan: the C function gets one argument more than it has parameters.
* C119 `C119_small_array_false`: C119 fails for an array smaller than the subgrid size given, which is not compared with it: the call succeeds and a thread writes behind the array.
* C120 `C120_every_call_false`: C120 fails for every call with at least one time, baseline and polarisation and a positive history: at the first time the middle of the one recent median is read behind its block.
* C120 `C120_step_zero_false`: C120, step zero is a division by zero in every thread.
* C121 `C121_fill_large_false`: C121 is false of filling a one-dimensional array of 2^31 numbers in main memory: the call succeeds and changes nothing.
* C121 `C121_fill_gpu_large_false`: C121 is false of filling 2^32 + 1 numbers on the GPU: the call succeeds and the last number keeps its value.
* C121 `C121_scale_gpu_large_false`: C121 is false of scaling 2^32 + 1 numbers on the GPU: the call succeeds, the first number is multiplied twice and the last one is not.
* C121 `C121_gpu_empty_false`: C121 is false of arrays without elements on the GPU: filling and scaling fail there, and succeed in main memory.
* C121 `C121_random_integers_false`: C121 is false of random filling of integers or characters: the call succeeds and changes nothing.
* C121 `C121_random_gaps_false`: C121 is false of random filling of an array with gaps: two numbers, two apart. The call succeeds, the number between them is changed, the second one is not.
* C121 `C121_read_only_false`: C121 is false of random filling and scaling of a read-only array: it is changed.
* C122 `C122_precision_false`: C122 is false of a dipole call with angles in single precision and output in double precision: 100 angles are read as 100 numbers of 8 bytes from 400 bytes.
* C122 `C122_short_angles_false`: C122 is false of more points than angles, for both functions.
* C122 `C122_output_false`: C122 is false of an output that is too small, or starts before its array, or is protected: the call writes behind it, before it, or into it.
* C122 `C122_short_coefficients_false`: C122 is false of a spherical-wave call with fewer coefficients than orders.
* C122 `C122_gpu_threads_false`: C122 is false of a dipole call on the GPU with arrays for exactly one point.
* C123 `C123_short_arrays_false`: C123 is false of arrays that are too short: element coordinates, weights, points.
* C123 `C123_precision_false`: C123 is false of other precisions than that of the element coordinates.
* C123 `C123_place_false`: C123 is false of an array of the GPU in a call that runs in main memory.
* C123 `C123_element_beams_false`: C123 is false of numbers in the index array that are not rows of the element beams, and of element beams with fewer polarisations than the output.
* C123 `C123_output_false`: C123 is false of an output that is too short, starts too early, or is protected.
* C124 `C124_empty_set_false`: C124 is false of a set without timers: making the report is undefined.
* C124 `C124_interquartile_false`: C124 is false of the interquartile range: for three timers with the times 1, 2 and 3 the report says 0, which is not the difference of an upper and a lower quartile.
* C124 `C124_zero_total_false`: C124 is false of the percentages of a scope without time: they divide by zero.
* C125 `C125_add_race_false`: C125 fails for every subgrid with more rows than the grid: two iterations of the loop, which may run at the same time, write the same cell.
* C125 `C125_add_false`: C125 fails: an update is lost. Three rows of ones are added to a grid of two rows by two threads, one of which has the first two rows and the other the last. On one thread the first row of the grid is 2 afterwards; if both threads read it before either writes, it is 1.
* C126 `C126_bounds_false`: C126: a failed check of the coordinates or the channel ranges is undefined. The bounds stay infinite, and the planes are computed from them before the status is looked at.
* C126 `C126_count_false`: C126: refused calls count planes. Degridding from an image of the wrong type or dimensions is refused before anything is computed; all planes are counted as processed.
* C126 `C126_real_image_false`: C126 is false of real images. No error is reported, and a pixel does not get the real part of what is due to it wherever dividing by the power of the pattern changes that part.
* C127 `C127_other_value_false`: C127 is false of other values. With a value that the documentation does not list, such as `Warning`, nothing is suppressed.
* C127 `C127_time_false`: C127 is false of the time. For two messages of which the second is made later, it can have the earlier time stamp: if a second passes between the two readings of the clock, the stamp is a second too early.
* C127 `C127_lines_false`: C127 is false of lines. Two threads that each log one message: what is printed can be both headers, both texts and two ends of a line.
* C128 `C128_no_openmp_false`: C128 is false of a library compiled without OpenMP: there the mutex does nothing, and of two threads (of the caller) adding one each, one change is lost.
