import Verif.Temps.Model

/-!
# C114: the functions that allocate memory for themselves

`o` is the number of the first local pointer, so that functions inside others use different ones.  `gpu` is the location of the
arrays.  Arguments of the caller of a public function are not modelled (they exist for the whole call); local arrays that are
passed on are given by `args`.
-/

namespace Sdp.Temps

open Prog

/-- A test of the arguments: `*status = …; return;` if it fails. -/
def refuse : Prog := sq [call [], ifErr .ret]

/-- `x = sdp_mem_create_copy(…)`, utility/sdp_mem.cpp:310-322; `src` is the source if it is a local array. -/
def copy (x : Nat) (src : List Nat) : Prog := sq [make x, call (x :: src)]

/-- A local transform: numeric_functions/sdp_fft_convolution.cpp:184-191, 194-201 and 219-226. -/
def transform (f x : Nat) : Prog := sq [fft f [x], call [f, x], free f]

/-- `sdp_fft_convolution_cpu`, numeric_functions/sdp_fft_convolution.cpp:126-244. -/
def fftConvolutionCpu (o : Nat) (args : List Nat) : Prog :=
  sq [make o, call [o], touch (o :: args), make (o + 1), call [o + 1], touch ((o + 1) :: args), transform (o + 3) o,
    transform (o + 3) (o + 1), make (o + 2), call [o + 2], touch [o + 2, o, o + 1], transform (o + 3) (o + 2),
    touch ((o + 2) :: args), free o, free (o + 1), free (o + 2)]

/-- `sdp_fft_convolution_gpu`, numeric_functions/sdp_fft_convolution.cpp:247-535. -/
def fftConvolutionGpu (o : Nat) (args : List Nat) : Prog :=
  sq [make o, call [o], call (o :: args), make (o + 1), call [o + 1], call ((o + 1) :: args), transform (o + 4) o,
    transform (o + 4) (o + 1), make (o + 2), call [o + 2], call [o, o + 1, o + 2], free o, free (o + 1),
    transform (o + 4) (o + 2), call [o + 2], make (o + 3), call [o + 3], call [o + 2, o + 3], call ((o + 3) :: args),
    free (o + 2), free (o + 3)]

/-- `sdp_fft_convolution`, numeric_functions/sdp_fft_convolution.cpp:538-641. -/
def fftConvolution (gpu : Bool) (o : Nat) (args : List Nat) : Prog :=
  fn (sq [ifErr .ret, refuse, if gpu then fftConvolutionGpu o args else fftConvolutionCpu o args])

/-- `sdp_hogbom_clean_cpu`, clean/sdp_hogbom_clean.cpp:114-278: the beam, the components and their convolution. -/
def hogbomCpu (o : Nat) : Prog :=
  sq [make o, make (o + 1), call [o + 1], call [o], touch [o], loop (sq [either .brk nop, touch [o + 1]]), make (o + 2),
    fftConvolution false (o + 10) [o + 1, o, o + 2], touch [o + 2], touch [o + 1], free o, free (o + 1), free (o + 2)]

/-- `sdp_hogbom_clean_gpu`, clean/sdp_hogbom_clean.cpp:281-730: the flag on the GPU (0) and its copy (1), the beam (2), the
components (3), the point spread function (4), the maximum (5) and its place (6), and the convolution (7). -/
def hogbomGpu (o : Nat) : Prog :=
  sq [call [], make o, call [o], make (o + 1), call [o + 1], make (o + 2), call [o + 2], make (o + 3), call [o + 3], make (o + 4),
    call [o + 4], call [], call [o + 4], make (o + 5), make (o + 6),
    loop (sq [call [o + 5], call [o + 6], call [], loop (call [o + 5, o + 6]), call [o + 5, o + 6],
      either nop (sq [call [o + 1, o], touch [o + 1], either .brk nop]), call [], call [o + 5, o + 6, o], call [],
      call [o + 4, o + 5, o + 6]]),
    free (o + 4), call [o + 3], call [o + 2], make (o + 7), call [o + 7], fftConvolution true (o + 10) [o + 3, o + 2, o + 7],
    call [o + 7], call [], free o, free (o + 1), free (o + 2), free (o + 3), free (o + 7), free (o + 5), free (o + 6)]

/-- `sdp_hogbom_clean`, clean/sdp_hogbom_clean.cpp:733-951. -/
def hogbom (gpu : Bool) (o : Nat) : Prog :=
  fn (sq [ifErr .ret, refuse, call [], if gpu then hogbomGpu o else hogbomCpu o])

/-- `sdp_ms_clean_cornwell`, clean/sdp_ms_clean_cornwell.cpp:773-924 and 169-770.  The arrays in the order they are made: point
spread function, residual, components, beam, scaled residual, scaled residuals (5), scaled functions (6), scaled function (7), the
same after one convolution (8), kernels (9), two kernels (10, 11), coupling (12), peaks (13), places (14, 15, 16), and the
convolution (17). -/
def msClean (o : Nat) : Prog :=
  fn (sq [ifErr .ret, refuse, call [],
    make o, call [o], make (o + 1), call [o + 1], make (o + 2), call [o + 2], make (o + 3), call [o + 3], make (o + 4),
    call [o + 4], make (o + 5), call [o + 5], make (o + 6), call [o + 6], make (o + 7), call [o + 7], make (o + 8), call [o + 8],
    make (o + 9), call [o + 9], make (o + 10), call [o + 10], make (o + 11), call [o + 11], make (o + 12), call [o + 12],
    make (o + 13), call [o + 13], make (o + 14), call [o + 14], make (o + 15), call [o + 15], make (o + 16), call [o + 16],
    touch [o + 1], touch [o], touch [o + 3], touch [o + 9],
    loop (sq [touch [o + 10, o + 9],
      loop (sq [touch [o + 11, o + 9], fftConvolution false (o + 20) [o, o + 10, o + 8],
        fftConvolution false (o + 20) [o + 8, o + 11, o + 7], touch [o + 6, o + 7]]),
      fftConvolution false (o + 20) [o + 1, o + 10, o + 4], touch [o + 5, o + 4]]),
    touch [o + 6, o + 12],
    loop (sq [call [o + 13], call [o + 14], call [o + 15], call [o + 16], touch [o + 5, o + 13, o + 14, o + 15, o + 16],
      touch [o + 13, o + 12], either .brk nop, touch [o + 2, o + 9], touch [o + 5, o + 6]]),
    make (o + 17), fftConvolution false (o + 20) [o + 2, o + 3, o + 17], touch [o + 17], touch [o + 2], touch [o + 5],
    free o, free (o + 2), free (o + 1), free (o + 3), free (o + 4), free (o + 5), free (o + 6), free (o + 7), free (o + 8),
    free (o + 9), free (o + 10), free (o + 11), free (o + 12), free (o + 13), free (o + 14), free (o + 15), free (o + 16),
    free (o + 17)])

/-- `sdp_gridder_grid_correct_pswf`, grid_data/sdp_gridder_grid_correct.cpp:119-243. -/
def gridCorrect (gpu : Bool) (o : Nat) (args : List Nat) : Prog :=
  fn (sq [ifErr .ret, pswf o, pswf (o + 1), grow (o + 1),
    if gpu then sq [grow (o + 1), grow o, call [], call ((o + 1) :: o :: args)] else call ((o + 1) :: o :: args),
    free o, free (o + 1)])

/-- `sdp_gridder_wtower_uvw_degrid_correct` and `…_grid_correct`, grid_data/sdp_gridder_wtower_uvw.cpp:912-932 and 1126-1146, and
those of the direct gridder, grid_data/sdp_gridder_direct.cpp:102-122 and 166-186; the plan is accessed before any test. -/
def correct (gpu : Bool) (o : Nat) (plan args : List Nat) : Prog :=
  fn (sq [touch plan, gridCorrect gpu o args, either nop (call args)])

/-- `sdp_gridder_make_pswf_kernel`, grid_data/sdp_gridder_utils.cpp:1329-1350, with `sdp_generate_pswf`,
fourier_transforms/sdp_pswf.cpp:783-795. -/
def makePswfKernel (o : Nat) : Prog :=
  fn (sq [ifErr .ret, refuse, make o, fn (sq [ifErr .ret, pswf (o + 1), call [o + 1, o], free (o + 1)]),
    either nop (touch [o]), call [o], free o])

/-- `sdp_gridder_residual`, grid_data/sdp_gridder_utils.cpp:1383-1466.  The pointers are null from the start; here, as soon as it
is known which arrays are copied. -/
def residual (ga gb : Bool) (o : Nat) : Prog :=
  fn (sq [ifErr .ret, refuse, if ga then copy o [] else null o, if gb then copy (o + 1) [] else null (o + 1),
    call ((if ga then [o] else []) ++ if gb then [o + 1] else []), free o, free (o + 1)])

/-- `sdp_gridder_rms_diff`, grid_data/sdp_gridder_utils.cpp:1469-1538; the same for the pointers. -/
def rmsDiff (ga gb : Bool) (o : Nat) (args : List Nat) : Prog :=
  fn (sq [ifErr .ret, refuse, if ga then copy o [] else null o, if gb then copy (o + 1) [] else null (o + 1),
    call ((if ga then [o] else []) ++ (if gb then [o + 1] else []) ++ args), free o, free (o + 1)])

/-- `sdp_gridder_sum_diff`, grid_data/sdp_gridder_utils.cpp:1919-1989. -/
def sumDiff (gpu : Bool) (o : Nat) (args : List Nat) : Prog :=
  fn (sq [ifErr .ret, if gpu then
    sq [make o, call [o], call [], call (o :: args), copy (o + 1) [o], touch [o + 1], free (o + 1), free o] else call args])

/-- `sdp_gridder_uvw_bounds_all`, grid_data/sdp_gridder_utils.cpp:1992-2102. -/
def bounds (gpu : Bool) (o : Nat) (args : List Nat) : Prog :=
  fn (sq [ifErr .ret, if gpu then
    sq [wrap o, wrap (o + 1), copy (o + 2) [o], copy (o + 3) [o + 1], call [], call ((o + 2) :: (o + 3) :: args), call [o, o + 2],
      call [o + 1, o + 3], free o, free (o + 1), free (o + 2), free (o + 3)] else call args])

/-- `sdp_gridder_wtower_uvw_degrid`, grid_data/sdp_gridder_wtower_uvw.cpp:726-909: the image (0), the transform (1), the stack
(2), its last subgrid (3) and the current one (4).  The copies on the GPU belong to the plan (C113). -/
def towerDegrid (gpu : Bool) (o : Nat) (plan args : List Nat) : Prog :=
  fn (sq [ifErr .ret, refuse, touch plan, if gpu then call [] else nop, bounds gpu (o + 5) args, make o, call (o :: args),
    fft (o + 1) [o], make (o + 2), slice (o + 3) (o + 2),
    loop (sq [slice (o + 4) (o + 2), call [o + 4, o], call [o + 4], call [o + 1, o + 4], call [o + 4], free (o + 4), call [o]]),
    loop (sq [ifErr .brk,
      either nop (sq [call [o + 2], call [o + 3, o], call [o + 3], call [o + 1, o + 3], call [o + 3], call [o]]),
      call ((o + 2) :: args)]),
    touch plan, free o, free (o + 2), free (o + 3), free (o + 1)])

/-- `sdp_gridder_wtower_uvw_grid`, grid_data/sdp_gridder_wtower_uvw.cpp:935-1123: the image (0), the stack (1), the buffer (2) and
the transform (3). -/
def towerGrid (gpu : Bool) (o : Nat) (plan args : List Nat) : Prog :=
  fn (sq [ifErr .ret, refuse, touch plan, if gpu then call [] else nop, bounds gpu (o + 5) args, make o, make (o + 1),
    call [o + 1], call [o], make (o + 2), fft (o + 3) [o + 2],
    loop (sq [ifErr .brk,
      either nop (sq [call [o], call [o + 2, o + 1], call [o + 2], call [o + 3, o + 2], call [o + 2], call [o, o + 2],
        call [o + 1], call [o + 1]]),
      call ((o + 1) :: args)]),
    loop (sq [call [o], call [o + 2, o + 1], call [o + 2], call [o + 3, o + 2], call [o + 2], call [o, o + 2]]),
    call (o :: args), touch plan, free o, free (o + 1), free (o + 2), free (o + 3)])

/-- `sdp_gridder_direct_degrid`, grid_data/sdp_gridder_direct.cpp:60-99. -/
def directDegrid (o : Nat) : Prog :=
  fn (sq [ifErr .ret, call [], make o, make (o + 1), call [o, o + 1], call [o, o + 1], free o, free (o + 1)])

/-- `sdp_gridder_direct_grid`, grid_data/sdp_gridder_direct.cpp:125-163. -/
def directGrid (o : Nat) : Prog := fn (sq [ifErr .ret, make o, call [o], call [o], free o])

/-- `find_gridder_accuracy`, grid_data/sdp_gridder_wtower_height.cpp:18-182: image (0), fluxes (1), directions (2), first and last
channels (3, 4), subgrid (5), coordinates (6), visibilities (7, 8), and the transforms (9, 10). -/
def accuracy (o : Nat) (plan : List Nat) : Prog :=
  fn (sq [ifErr .ret, touch plan, make o, make (o + 1), make (o + 2), make (o + 3), make (o + 4), make (o + 5), make (o + 6),
    make (o + 7), make (o + 8),
    ifErr (sq [free o, free (o + 1), free (o + 2), free (o + 3), free (o + 4), free (o + 5), free (o + 6), free (o + 7),
      free (o + 8), .ret]),
    call [o], call [o, o + 1, o + 2], correct false (o + 20) plan [o], fft (o + 9) [o], fft (o + 10) [o + 5], call [o],
    call [o + 9, o], call [o], call [o, o + 5], free o, call [o + 5], call [o + 10, o + 5], call [o + 5], call [o + 5],
    free (o + 9), free (o + 10), touch [o + 6], touch [o + 4], call [o + 8], call [o + 3],
    towerDegrid false (o + 20) plan [o + 5, o + 6, o + 3, o + 4, o + 8], free (o + 5), free (o + 3), free (o + 4),
    call [o + 7], touch [o + 6, o + 2, o + 1, o + 7], free (o + 1), free (o + 2), free (o + 6),
    rmsDiff false false (o + 20) [o + 8, o + 7], free (o + 7), free (o + 8)])

/-- `sdp_gridder_determine_max_w_tower_height`, grid_data/sdp_gridder_wtower_height.cpp:187-270. -/
def maxHeight (o : Nat) : Prog :=
  fn (sq [ifErr .ret, tower o, ifErr (sq [free o, .ret]), either nop (accuracy (o + 1) [o]),
    loop (sq [ifErr .brk, accuracy (o + 1) [o], either .brk nop]), free o])

/-- `count_visibilities`, grid_data/sdp_grid_wstack_wtower.cpp:66-136, on one thread: the arrays are the channel ranges of the
plane and of the subgrid. -/
def countVisibilities (gpu : Bool) (o : Nat) (ws uvs : List Nat) : Prog :=
  fn (sq [either (wrap o) (null o), loop (sq [call (ws ++ uvs), sumDiff gpu (o + 1) uvs]), free o])

/-- `sdp_grid_wstack_wtower_degrid_all`, grid_data/sdp_grid_wstack_wtower.cpp:218-472, on one thread: channel ranges (0-3),
gridding kernel (4), subgrid (5) and its transform (6), channel ranges of subgrids (7, 8), grid (9) and its transform (10), the
mutex (11). -/
def wstackDegrid (gpu : Bool) (o : Nat) : Prog :=
  fn (sq [ifErr .ret, refuse, make o, make (o + 1), make (o + 2), make (o + 3), call [o], call [o + 1], tower (o + 4),
    make (o + 5), fft (o + 6) [o + 5], make (o + 7), make (o + 8), bounds gpu (o + 20) [o, o + 1], make (o + 9),
    fft (o + 10) [o + 9], call [],
    loop (sq [ifErr .brk, call [o, o + 1, o + 2, o + 3], sumDiff gpu (o + 20) [o + 3, o + 2],
      either nop (sq [call [o + 9], call [o + 9], correct gpu (o + 20) [o + 4] [o + 9], call [o + 10, o + 9],
        countVisibilities gpu (o + 20) [o + 2, o + 3] [o + 7, o + 8], wrap (o + 11),
        loop (sq [ifErr .brk, either .brk nop, call [o + 2, o + 3, o + 7, o + 8], sumDiff gpu (o + 20) [o + 8, o + 7],
          either nop (sq [call [o + 9, o + 5], call [o + 6, o + 5],
            towerDegrid gpu (o + 20) [o + 4] [o + 5, o + 7, o + 8]])]),
        free (o + 11), either .halt nop])]),
    either nop (ifOk (touch [o + 4])),
    free (o + 6), free (o + 4), free (o + 5), free (o + 7), free (o + 8), free (o + 10), free (o + 9), free o, free (o + 1),
    free (o + 2), free (o + 3)])

/-- `sdp_grid_wstack_wtower_grid_all`, grid_data/sdp_grid_wstack_wtower.cpp:475-736, on one thread; the same pointers. -/
def wstackGrid (gpu : Bool) (o : Nat) : Prog :=
  fn (sq [ifErr .ret, refuse, make o, make (o + 1), make (o + 2), make (o + 3), call [o], call [o + 1], tower (o + 4),
    make (o + 5), fft (o + 6) [o + 5], make (o + 7), make (o + 8), bounds gpu (o + 20) [o, o + 1], make (o + 9),
    fft (o + 10) [o + 9], call [],
    loop (sq [ifErr .brk, call [o, o + 1, o + 2, o + 3], sumDiff gpu (o + 20) [o + 3, o + 2],
      either nop (sq [call [o + 9], countVisibilities gpu (o + 20) [o + 2, o + 3] [o + 7, o + 8], wrap (o + 11),
        loop (sq [ifErr .brk, either .brk nop, call [o + 2, o + 3, o + 7, o + 8], sumDiff gpu (o + 20) [o + 8, o + 7],
          either nop (sq [call [o + 5], towerGrid gpu (o + 20) [o + 4] [o + 5, o + 7, o + 8], call [o + 6, o + 5],
            call [o + 9, o + 5]])]),
        free (o + 11), either .halt nop, call [o + 10, o + 9], correct gpu (o + 20) [o + 4] [o + 9], call [o + 9]])]),
    either nop (ifOk (touch [o + 4])),
    free (o + 6), free (o + 4), free (o + 5), free (o + 7), free (o + 8), free (o + 10), free (o + 9), free o, free (o + 1),
    free (o + 2), free (o + 3)])

/-- `sdp_count_and_prefix_sum`, visibility/sdp_tiled_functions.cpp:302-490. -/
def countTiles (gpu : Bool) (o : Nat) : Prog :=
  sq [call [], if gpu then sq [call [], copy o [], touch [o], copy (o + 1) [], touch [o + 1]] else call []]

/-- `sdp_weighting_briggs`, visibility/sdp_weighting.cpp:506-858. -/
def briggs (gpu : Bool) (o : Nat) : Prog :=
  fn (sq [ifErr .ret, refuse, if gpu then
    sq [call [], make o, make (o + 1), call [o, o + 1], copy (o + 2) [o + 1], copy (o + 3) [o], touch [o + 2, o + 3],
      free (o + 1), free o, free (o + 3), free (o + 2), call []] else call []])

/-- What the three functions do once they have their memory, fourier_transforms/sdp_swiftly.cpp:515-544, 582-623, 688-722. -/
def finishTail (o : Nat) : Prog := sq [call [o], touch [o], free o]

/-- `sdp_swiftly_finish_subgrid_inplace`, fourier_transforms/sdp_swiftly.cpp:481-545. -/
def finishInplace (o : Nat) : Prog :=
  sq [refuse, either .ret nop, make o, ifErr .ret, finishTail o]

/-- `sdp_swiftly_finish_subgrid`, fourier_transforms/sdp_swiftly.cpp:548-624. -/
def finishSubgrid (o : Nat) : Prog :=
  sq [ifErr .ret, refuse, make o, ifErr .ret, finishTail o]

/-- `sdp_swiftly_finish_subgrid_inplace_2d`, fourier_transforms/sdp_swiftly.cpp:627-723. -/
def finishInplace2d (o : Nat) : Prog :=
  sq [refuse, make o, ifErr .ret, finishTail o]

/-- What it does once it has its plan, grid_data/sdp_gridder_uvw_es_fft.cpp:572-741. -/
def esGridTail (o : Nat) : Prog :=
  sq [loop (sq [call [], ifErr .brk, call [], call [o], call []]), free o, call []]

/-- `sdp_grid_uvw_es_fft`, grid_data/sdp_gridder_uvw_es_fft.cpp:532-742. -/
def esGrid (o : Nat) : Prog :=
  sq [ifErr .ret, refuse, refuse, fft o [], ifErr .ret, esGridTail o]

/-- What it does once it has its plan, grid_data/sdp_gridder_uvw_es_fft.cpp:786-955. -/
def esDegridTail (o : Nat) : Prog :=
  sq [call [], loop (sq [call [], ifErr .brk, call [], call [o], call []]), free o]

/-- `sdp_ifft_degrid_uvw_es`, grid_data/sdp_gridder_uvw_es_fft.cpp:745-956. -/
def esDegrid (o : Nat) : Prog :=
  sq [ifErr .ret, refuse, refuse, fft o [], ifErr .ret, esDegridTail o]

/-- `sdp_mem_convert_precision`, utility/sdp_mem.cpp:365-441: the result (0) and the copy of the source (1). -/
def convertPrecision (gpu : Bool) (o : Nat) : Prog :=
  sq [ifErr (sq [null o, .ret]), call [], ifErr (sq [null o, .ret]), either nop (sq [copy o [], .ret]),
    if gpu then copy (o + 1) [] else null (o + 1), make o,
    either (touch (o :: if gpu then [o + 1] else [])) (call []), free (o + 1), .ret]

/-- The functions. -/
inductive Fn where
  | fftConvolution (gpu : Bool)
  | hogbom (gpu : Bool)
  | msClean
  | gridCorrect (gpu : Bool)
  | makePswfKernel
  | residual (ga gb : Bool)
  | rmsDiff (ga gb : Bool)
  | sumDiff (gpu : Bool)
  | bounds (gpu : Bool)
  | towerDegrid (gpu : Bool)
  | towerGrid (gpu : Bool)
  | directDegrid
  | directGrid
  | maxHeight
  | wstackDegrid (gpu : Bool)
  | wstackGrid (gpu : Bool)
  | countTiles (gpu : Bool)
  | briggs (gpu : Bool)
  | finishInplace
  | finishSubgrid
  | finishInplace2d
  | esGrid
  | esDegrid
  | convertPrecision (gpu : Bool)
deriving DecidableEq

/-- What they do. -/
def script : Fn → Prog
  | .fftConvolution gpu => fftConvolution gpu 0 []
  | .hogbom gpu => hogbom gpu 0
  | .msClean => msClean 0
  | .gridCorrect gpu => gridCorrect gpu 0 []
  | .makePswfKernel => makePswfKernel 0
  | .residual ga gb => residual ga gb 0
  | .rmsDiff ga gb => rmsDiff ga gb 0 []
  | .sumDiff gpu => sumDiff gpu 0 []
  | .bounds gpu => bounds gpu 0 []
  | .towerDegrid gpu => towerDegrid gpu 0 [] []
  | .towerGrid gpu => towerGrid gpu 0 [] []
  | .directDegrid => directDegrid 0
  | .directGrid => directGrid 0
  | .maxHeight => maxHeight 0
  | .wstackDegrid gpu => wstackDegrid gpu 0
  | .wstackGrid gpu => wstackGrid gpu 0
  | .countTiles gpu => countTiles gpu 0
  | .briggs gpu => briggs gpu 0
  | .finishInplace => finishInplace 0
  | .finishSubgrid => finishSubgrid 0
  | .finishInplace2d => finishInplace2d 0
  | .esGrid => esGrid 0
  | .esDegrid => esDegrid 0
  | .convertPrecision gpu => convertPrecision gpu 0

/-- The pointers that a function returns: only that of `sdp_mem_convert_precision`. -/
def returns : Fn → List Nat
  | .convertPrecision _ => [0]
  | _ => []

end Sdp.Temps
