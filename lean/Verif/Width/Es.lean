import Verif.Width.Vis

/-
Which elements the kernels of the ES gridder touch, calculated in the integer
types of the code (property C117).  Values are modelled elsewhere (EsFft).
-/
namespace Sdp.Width

/-- `if (a <= b) body`, comparing in the common type. -/
def whenLe (a b : Num) (body : Trace) : Trace :=
  a.bind fun x => b.bind fun y =>
    if (x.ty.join y.ty).wrap x.val ≤ (x.ty.join y.ty).wrap y.val then body
    else skip

/-- The grid cells under the kernel of one visibility: first u and v and number
of them, first w plane (counted from the first of the stack) and number of
planes. -/
structure Box where
  u0 : Int
  v0 : Int
  nu : Nat
  nv : Nat
  k0 : Nat
  nk : Nat

/-- The loops over the cells under the kernel:
src/ska-sdp-func/grid_data/sdp_gridder_uvw_es_fft_kernels.cu:216-263 (three
dimensions) and 368-415 (two). -/
def esCells (G : Num) (start : Int) (b : Box) : Trace :=
  let origin_offset_uv := G / num 2
  iters (fun k =>
    let grid_w := lit .i32 (start + (b.k0 + k : Nat))
    let grid_offset_w := (grid_w - lit .i32 start) * as .u64 (G * G)
    iters (fun i =>
      iters (fun j =>
        let grid_u := lit .i32 (b.u0 + i)
        let grid_v := lit .i32 (b.v0 + j)
        touch "stack" (grid_offset_w + as .u64 (grid_u + origin_offset_uv) * G +
          as .u64 (grid_v + origin_offset_uv))) b.nv) b.nu) b.nk

/-- Both gridding kernels, on `R` rows and `C` channels: each thread calculates
`i_vis` before it is known to have a visibility
(src/ska-sdp-func/grid_data/sdp_gridder_uvw_es_fft_kernels.cu:150-155 and
301-306); launched with 1 x 256 threads (sdp_gridder_uvw_es_fft.cpp:620-625). -/
def esGrid (R C G : Nat) (start : Int) (box : Nat → Nat → Option Box) : Launched :=
  let num_vis_rows := intDim R
  let num_vis_chan := intDim C
  launch3 C R 1 1 256 1 fun x y _ =>
    let i_chan := as .i32 x
    let i_row := as .i32 y
    (i_chan + num_vis_chan * i_row).bind fun vis =>
    let i_vis : Num := some vis
    whenLt i_chan num_vis_chan (whenLt i_row num_vis_rows (
      touch "uvw" i_row ;; touch "freq" i_chan ;;
      touch "vis" i_vis ;; touch "weight" i_vis ;;
      i_row.bind fun r => i_chan.bind fun c =>
      match box r.val.toNat c.val.toNat with
      | none => skip
      | some b => esCells (lit .i32 G) start b))

/-- Threads along one axis of the image, `std::min(32, (npix + 1) / 2)`:
src/ska-sdp-func/grid_data/sdp_gridder_uvw_es_fft.cpp:667-668 and 709-710. -/
def pixelThreads (N : Nat) : Nat := min 32 ((N + 1) / 2)

/-- `image_index_offset_image_centre`, and the same for the grid:
src/ska-sdp-func/grid_data/sdp_gridder_uvw_es_fft_kernels.cu:456-458 and
518-520. -/
def centreIndex (N : Num) : Num :=
  let origin := as .i32 (N / num 2)
  origin * as .i32 N + origin

/-- The four elements of a square array of size `N` at `(j, i)`, `(j, -i)`,
`(-j, i)` and `(-j, -i)` from the element `centre`. -/
def quad (N centre i j : Num) : Num × Num × Num × Num :=
  (centre + j * as .i32 N + i, centre + j * as .i32 N - i,
    centre - j * as .i32 N + i, centre - j * as .i32 N - i)

/-- Accesses of those elements under the conditions of
src/ska-sdp-func/grid_data/sdp_gridder_uvw_es_fft_kernels.cu:522-545 and
747-768. -/
def quadTouch (a : String) (half i j : Num) (q : Num × Num × Num × Num) : Trace :=
  (whenLt i half (whenLt j half (touch a q.1))) ;;
  (whenLt (num 0) i (whenLt j half (touch a q.2.1))) ;;
  (whenLt (num 0) j (whenLt i half (touch a q.2.2.1))) ;;
  (whenLt (num 0) i (whenLt (num 0) j (touch a q.2.2.2)))

/-- Position of plane `k` of the stack, `(grid_coord_w - grid_start_w) *
((int)(grid_size * grid_size))`, in which the product is an `unsigned int`:
src/ska-sdp-func/grid_data/sdp_gridder_uvw_es_fft_kernels.cu:478-481. -/
def planeCentre (G : Num) (start : Int) (k : Nat) : Num :=
  (lit .i32 (start + k) - lit .i32 start) * as .i32 (G * G) + centreIndex G

/-- apply_w_screen_and_sum:
src/ska-sdp-func/grid_data/sdp_gridder_uvw_es_fft_kernels.cu:430-547, launched as
in sdp_gridder_uvw_es_fft.cpp:667-673. -/
def screenSum (N G K : Nat) (start : Int) : Launched :=
  let image_size := lit .u32 N
  let grid_size := lit .u32 G
  launch3 (N / 2 + 1) (N / 2 + 1) 1 (pixelThreads N) (pixelThreads N) 1 fun x y _ =>
    let i := as .i32 x
    let j := as .i32 y
    let half := as .i32 (image_size / num 2)
    whenLe i half (whenLe j half (
      (iters (fun k =>
        let q := quad grid_size (planeCentre grid_size start k) i j
        touch "stack" q.1 ;; touch "stack" q.2.2.1 ;; touch "stack" q.2.1 ;;
        touch "stack" q.2.2.2) K) ;;
      quadTouch "image" half i j (quad image_size (centreIndex image_size) i j)))

/-- reverse_w_screen_to_stack:
src/ska-sdp-func/grid_data/sdp_gridder_uvw_es_fft_kernels.cu:555-679. -/
def screenReverse (N G K : Nat) (start : Int) : Launched :=
  let image_size := lit .u32 N
  let grid_size := lit .u32 G
  launch3 (N / 2 + 1) (N / 2 + 1) 1 (pixelThreads N) (pixelThreads N) 1 fun x y _ =>
    let i := as .i32 x
    let j := as .i32 y
    let half := as .i32 (image_size / num 2)
    whenLe i half (whenLe j half (
      let q := quad image_size (centreIndex image_size) i j
      (whenLt j half (whenLt i half (touch "image" q.1))) ;;
      (whenLt j half (touch "image" q.2.1)) ;;
      (whenLt i half (touch "image" q.2.2.1)) ;;
      touch "image" q.2.2.2 ;;
      iters (fun k =>
        let g := quad grid_size (planeCentre grid_size start k) i j
        (whenLt i half (whenLt j half (touch "stack" g.1))) ;;
        (whenLt (num 0) j (whenLt i half (touch "stack" g.2.2.1))) ;;
        (whenLt (num 0) i (whenLt j half (touch "stack" g.2.1))) ;;
        (whenLt (num 0) i (whenLt (num 0) j (touch "stack" g.2.2.2)))) K))

/-- conv_corr_and_scaling:
src/ska-sdp-func/grid_data/sdp_gridder_uvw_es_fft_kernels.cu:691-769. -/
def convCorr (N : Nat) : Launched :=
  let image_size := lit .u32 N
  launch3 (N / 2 + 1) (N / 2 + 1) 1 (pixelThreads N) (pixelThreads N) 1 fun x y _ =>
    let i := as .i32 x
    let j := as .i32 y
    let half := as .i32 (image_size / num 2)
    whenLe i half (whenLe j half (
      touch "kernel" i ;; touch "kernel" j ;;
      quadTouch "image" half i j (quad image_size (centreIndex image_size) i j)))

end Sdp.Width
