import Verif.Width.Vis

/-
Which elements the tiling functions and the de-gridder with custom kernels
touch, calculated in the integer types of the code (property C117).  Values are
modelled elsewhere (Tiles, Custom).
-/
namespace Sdp.Width

/-- INDEX_5D, src/ska-sdp-func/grid_data/sdp_degrid_uvw_custom.cpp:16-17. -/
def INDEX_5D (_N5 N4 N3 N2 N1 I5 I4 I3 I2 I1 : Num) : Num :=
  N1 * (N2 * (N3 * (N4 * I5 + I4) + I3) + I2) + I1

/-- Accesses for each tile a visibility belongs to, with its coordinates given
by the caller of the loop. -/
def atTiles (t b c : Num) (hits : Nat → Nat → Nat → Nat) (body : Trace) : Trace :=
  t.bind fun t' => b.bind fun b' => c.bind fun c' =>
    iters (fun _ => body) (hits t'.val.toNat b'.val.toNat c'.val.toNat)

/-- sdp_bucket_sort_simple on the CPU, where visibility (t, b, c) belongs to
`hits t b c` tiles: src/ska-sdp-func/visibility/sdp_tiled_functions.cpp:127-215.
An `int` holds indices that are calculated in `int64_t`.  tiled_indexing
(218-299) calculates the same indices and stores `i_vis`. -/
def bucketCpu (T B C : Nat) (hits : Nat → Nat → Nat → Nat) : Trace :=
  let num_times := longDim T
  let num_baselines := longDim B
  let num_channels := longDim C
  loop .i32 num_times fun t =>
  loop .i32 num_baselines fun b =>
    let i_uv := as .i32 (INDEX_3D num_times num_baselines (num 3) t b (num 0))
    loop .i32 num_channels fun c =>
      let i_vis := as .i32
        (INDEX_4D num_times num_baselines num_channels (num 1) t b c (num 0))
      touch "freq" c ;; touch "uvw" (i_uv + num 0) ;;
      touch "uvw" (i_uv + num 1) ;;
      atTiles t b c hits
        (loop .i32 (num 1) fun i =>
          touch "vis" (i_vis + i) ;; touch "weight" (i_vis + i))

/-- sdp_bucket_sort_simple on the GPU:
src/ska-sdp-func/visibility/sdp_tiled_functions.cu:130-209, thread indices in
`size_t`, the sizes in `int`; launched with 128 x 2 x 2 threads
(sdp_tiled_functions.cpp:642-647). -/
def bucketGpu (T B C : Nat) (hits : Nat → Nat → Nat → Nat) : Launched :=
  let num_times := intDim T
  let num_baselines := intDim B
  let num_channels := intDim C
  launch3 B C T 128 2 2 fun x y z =>
    let b := as .u64 x
    let c := as .u64 y
    let t := as .u64 z
    whenLt b num_baselines (whenLt c num_channels (whenLt t num_times (
      let i_uv := as .i32 (INDEX_3D num_times num_baselines (num 3) t b (num 0))
      let i_vis := as .i32
        (INDEX_3D num_times num_baselines num_channels t b c)
      touch "freq" c ;; touch "uvw" (i_uv + num 0) ;;
      touch "uvw" (i_uv + num 1) ;;
      atTiles t b c hits (touch "vis" i_vis ;; touch "weight" i_vis))))

/-- sdp_prefix_sum: the offsets it stores, if tile `i` has `count i` points:
src/ska-sdp-func/visibility/sdp_tiled_functions.cpp:106-122; the sum is an
`int`. -/
def prefixOffsets (count : Nat → Nat) : Nat → Option (List Num × Num)
  | 0 => some ([], num 0)
  | n + 1 => (prefixOffsets count n).bind fun p =>
      (p.2 + lit .i32 (count n)).bind fun s => some (p.1 ++ [p.2], some s)

/-- The stored offsets, including the total at the end. -/
def prefixSum (count : Nat → Nat) (n : Nat) : Option (List Num) :=
  (prefixOffsets count n).map fun p => p.1 ++ [p.2]

/-- De-gridding one visibility whose grid coordinates are (x, y) and whose
kernel offsets are (sx, sy, sz):
src/ska-sdp-func/grid_data/sdp_degrid_uvw_custom.cpp:138-184 (CPU) and
sdp_degrid_uvw_custom.cu:133-176 (GPU), where `t b c` are `int`. -/
def customPoint (S W X Y Z T B C P : Num) (t b c : Num)
    (pt : Nat × Nat × Nat × Nat × Nat) : Trace :=
  let half := S / num 2
  let gx := lit .i32 pt.1
  let gy := lit .i32 pt.2.1
  let sx := lit .i32 pt.2.2.1
  let sy := lit .i32 pt.2.2.2.1
  let sz := lit .i32 pt.2.2.2.2
  loop .i32 P fun p =>
    (loop .i32 W fun z =>
      (loop .i32 S fun y =>
        let i_grid_y := gy + y - half
        (loop .i32 S fun x =>
          let i_grid_x := gx + x - half
          touch "grid" (INDEX_5D C Z Y X P c z i_grid_y i_grid_x p) ;;
          touch "uv_kernel" (sx + x)) ;;
        touch "uv_kernel" (sy + y)) ;;
      touch "w_kernel" (sz + z)) ;;
    touch "vis" (INDEX_4D T B C P t b c p)

/-- sdp_degrid_uvw_custom on the CPU:
src/ska-sdp-func/grid_data/sdp_degrid_uvw_custom.cpp:65-188; `pt t b c`: grid
coordinates and kernel offsets of a visibility whose kernel lies within the
grid. -/
def customCpu (S W X Y Z T B C P : Nat)
    (pt : Nat → Nat → Nat → Option (Nat × Nat × Nat × Nat × Nat)) : Trace :=
  loop .i32 (longDim T) fun t =>
  loop .i32 (longDim B) fun b =>
    let i_uvw := INDEX_3D (longDim T) (longDim B) (num 3) t b (num 0)
    touch "uvw" i_uvw ;; touch "uvw" (i_uvw + num 1) ;;
    touch "uvw" (i_uvw + num 2) ;;
    loop .i32 (longDim C) fun c =>
      t.bind fun t' => b.bind fun b' => c.bind fun c' =>
      match pt t'.val.toNat b'.val.toNat c'.val.toNat with
      | none => skip
      | some q => customPoint (longDim S) (longDim W) (longDim X) (longDim Y)
          (longDim Z) (longDim T) (longDim B) (longDim C) (longDim P) t b c q

/-- sdp_degrid_uvw_custom on the GPU:
src/ska-sdp-func/grid_data/sdp_degrid_uvw_custom.cu:60-177, launched with
128 x 2 x 2 threads (sdp_degrid_uvw_custom.cpp:282-287).  Coordinates are read
in elements of three. -/
def customGpu (S W X Y Z T B C P : Nat)
    (pt : Nat → Nat → Nat → Option (Nat × Nat × Nat × Nat × Nat)) : Launched :=
  launch3 B C T 128 2 2 fun x y z =>
    let b := as .i32 x
    let c := as .i32 y
    let t := as .i32 z
    whenLt b (longDim B) (whenLt c (longDim C) (whenLt t (longDim T) (
      touch "uvw" (INDEX_2D (longDim T) (longDim B) t b) ;;
      t.bind fun t' => b.bind fun b' => c.bind fun c' =>
      match pt t'.val.toNat b'.val.toNat c'.val.toNat with
      | none => skip
      | some q => customPoint (longDim S) (longDim W) (longDim X) (longDim Y)
          (longDim Z) (longDim T) (longDim B) (longDim C) (longDim P) t b c q)))

end Sdp.Width
