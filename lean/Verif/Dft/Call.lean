import Verif.Dft.Props
import Verif.Common.Launch
import Verif.Common.Desc

/-!
# Model of the GPU kernels and the entry points of visibility/sdp_dft.{cpp,cu}

Exact real and complex arithmetic; casts of sizes to `int` do not overflow.  Every thread of a launch
reads the inputs and writes its own outputs.
-/

namespace Sdp.Dft
noncomputable section

/-- Loop over components of a thread, sdp_dft.cu:61-87 and 160-186. -/
def localVisGpu (D : Dims) (dirs : Arr ℝ) (flux : Arr ℂ) (k u v w : ℝ) (c : Nat) : Option (Arr ℂ) :=
  loop (fun loc (s : Nat) =>
    (dirs.read (3 * s)).bind fun l =>
    (dirs.read (3 * s + 1)).bind fun m =>
    (dirs.read (3 * s + 2)).bind fun n =>
      let phase := -2 * Real.pi * k * (l * u + m * v + n * w)
      let x := Real.cos phase
      let y := Real.sin phase
      let start := index3 D.channels D.pols s c 0
      let one := fun (loc : Arr ℂ) (p : Nat) =>
        (flux.read (start + p)).bind fun f =>
          loc.addAt p (⟨x * f.re - y * f.im, x * f.im + y * f.re⟩ : ℂ)
      if D.pols = 1 then one loc 0
      else if D.pols = 4 then loop one loc (List.range 4)
      else some loc)
    ⟨4, fun _ => 0⟩ (List.range D.comps)

/-- One thread of `dft_point_v00`, sdp_dft.cu:31-97; `x` is (baseline, channel, time). -/
def threadV00 (D : Dims) (dirs : Arr ℝ) (flux : Arr ℂ) (uvw : Arr ℝ) (vis : Arr ℂ)
    (x : Nat × Nat × Nat) : Option (Arr ℂ) :=
  if D.pols > 4 ∨ x.1 ≥ D.baselines ∨ x.2.1 ≥ D.channels ∨ x.2.2 ≥ D.times then some vis
  else
    let i := 3 * index3 D.baselines D.channels x.2.2 x.1 x.2.1
    (uvw.read i).bind fun u =>
    (uvw.read (i + 1)).bind fun v =>
    (uvw.read (i + 2)).bind fun w =>
    (localVisGpu D dirs flux 1 u v w x.2.1).bind fun loc =>
      store D vis loc x.2.2 x.2.1 x.1

/-- One thread of `dft_point_v01`, sdp_dft.cu:127-194. -/
def threadV01 (D : Dims) (dirs : Arr ℝ) (flux : Arr ℂ) (uvw : Arr ℝ) (f0 df : ℝ) (vis : Arr ℂ)
    (x : Nat × Nat × Nat) : Option (Arr ℂ) :=
  if D.pols > 4 ∨ x.1 ≥ D.baselines ∨ x.2.1 ≥ D.channels ∨ x.2.2 ≥ D.times then some vis
  else
    let i := 3 * index2 D.baselines x.2.2 x.1
    (uvw.read i).bind fun u =>
    (uvw.read (i + 1)).bind fun v =>
    (uvw.read (i + 2)).bind fun w =>
    (localVisGpu D dirs flux ((f0 + x.2.1 * df) / 299792458) u v w x.2.1).bind fun loc =>
      store D vis loc x.2.2 x.2.1 x.1

/-- All threads of a launch, sdp_dft.cpp:204-209 and 452-457 (blocks of 128 x 2 x 2). -/
def threads (D : Dims) : List (Nat × Nat × Nat) :=
  nest3 (blocks D.baselines 128 * 128) (blocks D.channels 2 * 2) (blocks D.times 2 * 2)

/-- `check_params_v00`, sdp_dft.cpp:101-147. -/
def checkV00 (dirs flux uvw vis : Mem) (status : Status) : Status :=
  if status ≠ .success then status
  else
    let r := getVisMetadata { type := false } vis status
    let get := fun (x : Option Int) => x.getD 0
    let loc := r.1.location.getD .cpu
    let s := checkCContiguity dirs r.2
    let s := checkCContiguity flux s
    let s := checkCContiguity uvw s
    let s := checkCContiguity vis s
    let s := checkWriteable vis s
    if flux.location ≠ loc ∨ dirs.location ≠ loc ∨ uvw.location ≠ loc then .memLocation
    else if !flux.queryComplex then .dataType
    else
      let n := dirs.shapeDim 0
      let s := checkShape dirs [n, 3] s
      let s := checkShape flux [n, get r.1.numChannels, get r.1.numPols] s
      checkShape uvw [get r.1.numTimes, get r.1.numBaselines, get r.1.numChannels, 3] s

/-- `check_params_v01`, sdp_dft.cpp:339-402. -/
def checkV01 (dirs flux uvw vis : Mem) (status : Status) : Status :=
  if status ≠ .success then status
  else
    let r := getVisMetadata {} vis status
    let get := fun (x : Option Int) => x.getD 0
    let loc := r.1.location.getD .cpu
    let s := checkWriteable vis r.2
    let s := checkCContiguity vis s
    let s := checkUvw uvw .void loc (get r.1.numTimes) (get r.1.numBaselines) s
    let s := checkLocation dirs loc s
    let s := checkCContiguity dirs s
    let n := dirs.shapeDim 0
    let s := checkDimSize dirs 1 3 s
    if s ≠ .success then s
    else if !flux.queryComplex then .dataType
    else
      let s := checkLocation flux loc s
      let s := checkCContiguity flux s
      checkShape flux [n, get r.1.numChannels, get r.1.numPols] s

/-- The combinations of types that have a kernel (sdp_dft.cpp:166-169, 183-186, 417-420, 436-439). -/
def typesOk (dirs flux uvw vis : Mem) : Bool :=
  decide (dirs.type = .double ∧ flux.type = .complexDouble ∧ uvw.type = .double ∧
    (vis.type = .complexDouble ∨ vis.type = .complexFloat))

/-- Extents passed to the kernels, sdp_dft.cpp:159-163 and 410-414. -/
def dimsOf (dirs vis : Mem) : Dims :=
  ⟨(dirs.shapeDim 0).toNat, (vis.shapeDim 3).toNat, (vis.shapeDim 2).toNat, (vis.shapeDim 1).toNat,
    (vis.shapeDim 0).toNat⟩

/-- A call is executed by a CPU loop in some order, or by GPU threads in some order. -/
structure Run where
  cpu : List (Nat × Nat × Nat)
  gpu : List (Nat × Nat × Nat)
  /-- Built with CUDA, and the launch succeeds. -/
  cuda : Bool

/-- The orders are those of a loop nest and of a launch. -/
def Run.Ok (r : Run) (D : Dims) : Prop :=
  r.cpu.Perm (nest3 D.times D.channels D.baselines) ∧ r.gpu.Perm (threads D)

/-- What follows the checks (sdp_dft.cpp:164-243, 415-508): status and visibilities. -/
def dispatch (dirs flux uvw vis : Mem) (r : Run) (a : Arr ℂ) (cpu gpu : Option (Arr ℂ)) :
    Option (Status × Arr ℂ) :=
  match vis.location with
  | .cpu => if typesOk dirs flux uvw vis then cpu.map fun v => (.success, v) else some (.dataType, a)
  | .gpu =>
    if typesOk dirs flux uvw vis then
      if r.cuda then gpu.map fun v => (.success, v) else some (.runtime, a)
    else some (.dataType, a)
  | .other => some (.success, a)

/-- `sdp_dft_point_v00`, sdp_dft.cpp:150-243. -/
def callV00 (dirs flux uvw vis : Mem) (status : Status) (r : Run) (d : Arr ℝ) (f : Arr ℂ) (u : Arr ℝ)
    (a : Arr ℂ) : Option (Status × Arr ℂ) :=
  let s := checkV00 dirs flux uvw vis status
  if s ≠ .success then some (s, a)
  else dispatch dirs flux uvw vis r a (v00 (dimsOf dirs vis) d f u a r.cpu)
    (loop (threadV00 (dimsOf dirs vis) d f u) a r.gpu)

/-- `sdp_dft_point_v01`, sdp_dft.cpp:405-508. -/
def callV01 (dirs flux uvw vis : Mem) (f0 df : ℝ) (status : Status) (r : Run) (d : Arr ℝ) (f : Arr ℂ)
    (u : Arr ℝ) (a : Arr ℂ) : Option (Status × Arr ℂ) :=
  let s := checkV01 dirs flux uvw vis status
  if s ≠ .success then some (s, a)
  else dispatch dirs flux uvw vis r a (v01 (dimsOf dirs vis) d f u f0 df a r.cpu)
    (loop (threadV01 (dimsOf dirs vis) d f u f0 df) a r.gpu)

end
end Sdp.Dft
