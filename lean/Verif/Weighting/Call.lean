import Verif.Weighting.Props
import Verif.Common.Launch
import Verif.Common.Desc

/-!
# Model of the GPU kernels and the entry points of visibility/sdp_weighting.{cpp,cu}

Exact arithmetic; sizes and indices fit `int`.  A GPU kernel is the set of its atomic operations (one per
thread and polarisation), executed in any order; the addresses and the values added depend only on arrays
that the kernel does not write.
-/

namespace Sdp.Weighting

section
variable {F : Type} [Field F] [LinearOrder F] [FloorRing F]

/-- Guard of the four kernels, sdp_weighting.cu:38-44, 119-125, 187-193, 262-268; `x` is (baseline,
channel, time, polarisation). -/
def gpuOp {σ : Type} (D : Dims) (body : σ → Nat × Nat × Nat × Nat → Option σ) (s : σ)
    (x : Nat × Nat × Nat × Nat) : Option σ :=
  if x.1 ≥ D.baselines ∨ x.2.1 ≥ D.channels ∨ x.2.2.1 ≥ D.times then some s
  else body s (x.2.2.1, x.1, x.2.1, x.2.2.2)

/-- `grid_write_gpu`, sdp_weighting.cu:19-86.  Cell, indices and test are those of the CPU loops. -/
def gpuWrite (D : Dims) (maxUv : F) (uvw freq win : Arr F) :=
  gpuOp D fun (g : Arr F) x =>
    (cell D maxUv uvw freq x.1 x.2.1 x.2.2.1).bind fun k =>
      if k.1 < D.grid ∧ k.2 < D.grid then
        (win.read (index4 D.baselines D.channels D.pols x.1 x.2.1 x.2.2.1 0 + x.2.2.2)).bind fun w =>
          g.addAt (index3 D.grid D.pols k.1 k.2 0 + x.2.2.2) w
      else some g

/-- `calc_sum_gpu`, sdp_weighting.cu:98-160 (the two additions, to different cells, as one step). -/
def gpuSum (D : Dims) (maxUv : F) (uvw freq grid : Arr F) :=
  gpuOp D fun (s : F × F) x =>
    (cell D maxUv uvw freq x.1 x.2.1 x.2.2.1).bind fun k =>
      if k.1 < D.grid ∧ k.2 < D.grid then
        (grid.read (index3 D.grid D.pols k.1 k.2 0 + x.2.2.2)).bind fun w => some (s.1 + w, s.2 + w * w)
      else some s

/-- `grid_briggs_read_gpu`, sdp_weighting.cu:166-236. -/
def gpuBriggs (D : Dims) (maxUv rob : F) (uvw freq grid win : Arr F) :=
  gpuOp D fun (o : Arr F) x =>
    (cell D maxUv uvw freq x.1 x.2.1 x.2.2.1).bind fun k =>
      if k.1 < D.grid ∧ k.2 < D.grid then
        let i := index4 D.baselines D.channels D.pols x.1 x.2.1 x.2.2.1 0 + x.2.2.2
        (win.read i).bind fun wi =>
        (grid.read (index3 D.grid D.pols k.1 k.2 0 + x.2.2.2)).bind fun w =>
          o.write i (wi / (1 + rob * w))
      else some o

/-- `grid_uniform_read_gpu`, sdp_weighting.cu:242-310. -/
def gpuUniform (D : Dims) (maxUv : F) (uvw freq grid : Arr F) :=
  gpuOp D fun (o : Arr F) x =>
    (cell D maxUv uvw freq x.1 x.2.1 x.2.2.1).bind fun k =>
      if k.1 < D.grid ∧ k.2 < D.grid then
        (grid.read (index3 D.grid D.pols k.1 k.2 0 + x.2.2.2)).bind fun w =>
          o.write (index4 D.baselines D.channels D.pols x.1 x.2.1 x.2.2.1 0 + x.2.2.2) (1 / w)
      else some o

/-- The operations of a launch, sdp_weighting.cpp:410-415 and 683-688 (blocks of 128 x 2 x 2). -/
def ops (D : Dims) : List (Nat × Nat × Nat × Nat) :=
  nest4 (blocks D.baselines 128 * 128) (blocks D.channels 2 * 2) (blocks D.times 2 * 2) D.pols

/-- Extents passed to the kernels (sdp_weighting.cpp:307-315, 333, 539-547, 565): those of the output
weights and of the grid. -/
def dimsOf (out grid : Mem) : Dims :=
  ⟨(out.shapeDim 0).toNat, (out.shapeDim 1).toNat, (out.shapeDim 2).toNat, (out.shapeDim 3).toNat,
    (grid.shapeDim 0).toNat⟩

/-- The checks of `sdp_weighting_uniform` and `sdp_weighting_briggs`, sdp_weighting.cpp:287-336 and
517-568.  (The out-parameters of the first metadata call are overwritten by the second.) -/
def checkCall (uvw freq grid win out : Mem) (status : Status) : Status :=
  if status ≠ .success then status
  else
    let s := (getWeightsMetadata {} win status).2
    let r := getWeightsMetadata {} out s
    let loc := r.1.location.getD out.location
    let s := checkUvw uvw .void loc (r.1.numTimes.getD 0) (r.1.numBaselines.getD 0) r.2
    let s := checkLocation freq loc s
    let s := checkLocation grid loc s
    let s := checkWriteable out s
    let s := checkWriteable grid s
    let s := checkNumDims grid 3 s
    checkDimSize grid 1 (grid.shapeDim 0) s

/-- The combinations of types that have kernels, sdp_weighting.cpp:341-344, 372-375, 417-428. -/
def typesOk (uvw freq grid out : Mem) : Bool :=
  decide (uvw.type = .double ∧ freq.type = .double ∧
    (out.type = .double ∧ grid.type = .double ∨ out.type = .float ∧ grid.type = .float))

/-- How a call is run: whether kernels can be launched, the orders of the operations of up to three
launches, and what the freshly allocated memory for the two sums holds. -/
structure Run (F : Type) where
  cuda : Bool
  first : List (Nat × Nat × Nat × Nat)
  second : List (Nat × Nat × Nat × Nat)
  third : List (Nat × Nat × Nat × Nat)
  fresh : F × F

/-- `sdp_weighting_uniform`, sdp_weighting.cpp:277-503: status, grid and output weights.  On the GPU the
location of the input weights is checked when the arguments of the kernel are collected (447,
sdp_mem.cpp:594-604). -/
def callUniform (maxUv : F) (uM fM gM wM oM : Mem) (status : Status) (r : Run F)
    (uvw freq grid win out : Arr F) : Option (Status × Arr F × Arr F) :=
  let s := checkCall uM fM gM wM oM status
  if s ≠ .success then some (s, grid, out)
  else
    let D := dimsOf oM gM
    match oM.location with
    | .cpu =>
      if typesOk uM fM gM oM then
        (uniform D maxUv uvw freq win grid out).map fun x => (.success, x.1, x.2)
      else some (.dataType, grid, out)
    | .gpu =>
      if typesOk uM fM gM oM then
        if wM.location ≠ .gpu ∧ wM.type ≠ .void then some (.memLocation, grid, out)
        else if r.cuda then
          (loop (gpuWrite D maxUv uvw freq win) grid r.first).bind fun g =>
          (loop (gpuUniform D maxUv uvw freq g) out r.second).bind fun o => some (.success, g, o)
        else some (.runtime, grid, out)
      else some (.dataType, grid, out)
    | .other => some (.success, grid, out)

/-- `sdp_weighting_briggs`, sdp_weighting.cpp:506-858.  On the GPU the sums are accumulated in newly
allocated device memory (732-745), which `sdp_mem_create` does not clear (sdp_mem.cpp:57-73), and read
back from host copies (793-806) that have no data if there was an error. -/
def callBriggs (maxUv tenPow : F) (uM fM gM wM oM : Mem) (status : Status) (r : Run F)
    (uvw freq grid win out : Arr F) : Option (Status × Arr F × Arr F) :=
  let s := checkCall uM fM gM wM oM status
  if s ≠ .success then some (s, grid, out)
  else
    let D := dimsOf oM gM
    match oM.location with
    | .cpu =>
      if typesOk uM fM gM oM then
        (briggs D maxUv tenPow uvw freq win grid out).map fun x => (.success, x.1, x.2)
      else some (.dataType, grid, out)
    | .gpu =>
      if typesOk uM fM gM oM = true ∧ ¬ (wM.location ≠ .gpu ∧ wM.type ≠ .void) ∧ r.cuda = true then
        (loop (gpuWrite D maxUv uvw freq win) grid r.first).bind fun g =>
        (loop (gpuSum D maxUv uvw freq g) r.fresh r.second).bind fun s =>
        (loop (gpuBriggs D maxUv (robustness s.2 s.1 tenPow) uvw freq g win) out r.third).bind fun o =>
          some (.success, g, o)
      else none
    | .other => some (.success, grid, out)

end
end Sdp.Weighting
