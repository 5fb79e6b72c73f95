import Verif.PhaseRotate.Props2
import Verif.Common.Launch
import Verif.Common.Desc

/-!
# Model of the GPU kernels and the entry points of visibility/sdp_phase_rotate.{cpp,cu}

Exact arithmetic; products of sizes do not overflow.  `src = none` means that input and output are the
same array.
-/

namespace Sdp.PhaseRotate
noncomputable section

/-- One thread of `rotate_uvw`, sdp_phase_rotate.cu:12-36 (a `double3` or `float3` is three consecutive
values). -/
def uvwThread (num : Nat) (m : Nat → ℝ) (src : Option (Arr ℝ)) (out : Arr ℝ) (i : Nat) : Option (Arr ℝ) :=
  if i ≥ num then some out
  else
    let i3 : Int := 3 * i
    (readSrc src out i3).bind fun x =>
    (readSrc src out (i3 + 1)).bind fun y =>
    (readSrc src out (i3 + 2)).bind fun z =>
    (out.write i3 (m 0 * x + m 1 * y + m 2 * z)).bind fun out =>
    (out.write (i3 + 1) (m 3 * x + m 4 * y + m 5 * z)).bind fun out =>
    out.write (i3 + 2) (m 6 * x + m 7 * y + m 8 * z)

/-- One thread of `rotate_vis`, sdp_phase_rotate.cu:42-84; `x` is (baseline, channel, time). -/
def visThread (D : Dims) (f0 df : ℝ) (d : ℝ × ℝ × ℝ) (uvw : Arr ℝ) (src : Option (Arr ℂ))
    (out : Arr ℂ) (x : Nat × Nat × Nat) : Option (Arr ℂ) :=
  if D.pols > 4 ∨ x.1 ≥ D.baselines ∨ x.2.1 ≥ D.channels ∨ x.2.2 ≥ D.times then some out
  else
    let i : Int := 3 * ((D.baselines : Int) * x.2.2 + x.1)
    (uvw.read i).bind fun u =>
    (uvw.read (i + 1)).bind fun v =>
    (uvw.read (i + 2)).bind fun w =>
      let inv := (f0 + x.2.1 * df) / 299792458
      let ph := 2 * Real.pi * inv * (u * d.1 + v * d.2.1 + w * d.2.2)
      loop (fun out (p : Nat) =>
        let j := index4 D.baselines D.channels D.pols x.2.2 x.1 x.2.1 p
        (readSrc src out j).bind fun y =>
          out.write j (⟨Real.cos ph * y.re - Real.sin ph * y.im,
            Real.cos ph * y.im + Real.sin ph * y.re⟩ : ℂ)) out (List.range D.pols)

/-- Threads of the two launches, sdp_phase_rotate.cpp:164-167 and 325-330. -/
def uvwThreads (num : Nat) : List Nat := List.range (blocks num 256 * 256)

def visThreads (D : Dims) : List (Nat × Nat × Nat) :=
  nest3 (blocks D.baselines 128 * 128) (blocks D.channels 2 * 2) (blocks D.times 2 * 2)

/-- The checks of `sdp_phase_rotate_uvw`, sdp_phase_rotate.cpp:96-118: status, times and baselines. -/
def checkUvwCall (ui uo : Mem) (status : Status) : Status × Int × Int :=
  if status ≠ .success then (status, 0, 0)
  else
    let s := checkWriteable uo status
    let r := getUvwMetadata { numChannels := false, numPols := false } ui s
    let nt := r.1.numTimes.getD 0
    let nb := r.1.numBaselines.getD 0
    (checkUvw uo (r.1.type.getD .void) (r.1.location.getD .cpu) nt nb r.2, nt, nb)

/-- The checks of `sdp_phase_rotate_vis`, sdp_phase_rotate.cpp:216-255: status and extents. -/
def checkVisCall (uvw vi vo : Mem) (status : Status) : Status × Int × Int × Int × Int :=
  if status ≠ .success then (status, 0, 0, 0, 0)
  else
    let s := checkWriteable vo status
    let s := checkLocation vo uvw.location s
    let r := getVisMetadata {} vo s
    let nt := r.1.numTimes.getD 0
    let nb := r.1.numBaselines.getD 0
    let nc := r.1.numChannels.getD 0
    let np := r.1.numPols.getD 0
    let s := checkVis vi (r.1.type.getD .void) uvw.location nt nb nc np r.2
    (checkUvw uvw .void uvw.location nt nb s, nt, nb, nc, np)

/-- Combinations of types that have a kernel, sdp_phase_rotate.cpp:140-149 and 169-175. -/
def uvwTypes (ui uo : Mem) : Bool :=
  decide (ui.type = .double ∧ uo.type = .double ∨ ui.type = .float ∧ uo.type = .float)

/-- The same for visibilities, sdp_phase_rotate.cpp:279-300 and 332-340. -/
def visTypes (uvw vi vo : Mem) : Bool :=
  decide (uvw.type = .double ∧ vi.type = .complexDouble ∧ vo.type = .complexDouble ∨
    uvw.type = .float ∧ vi.type = .complexFloat ∧ vo.type = .complexFloat)

/-- Choice of device after the checks (sdp_phase_rotate.cpp:138-201, 277-366); `cuda` says whether
kernels can be launched. -/
def dispatch {α : Type} (loc : MemLocation) (types cuda : Bool) (a : Arr α) (cpu gpu : Option (Arr α)) :
    Option (Status × Arr α) :=
  match loc with
  | .cpu => if types then cpu.map fun v => (.success, v) else some (.dataType, a)
  | .gpu =>
    if types then
      if cuda then gpu.map fun v => (.success, v) else some (.runtime, a)
    else some (.dataType, a)
  | .other => some (.success, a)

/-- `sdp_phase_rotate_uvw`, sdp_phase_rotate.cpp:88-202; `order` is the order of the GPU threads. -/
def callUvw (orig new : Coord) (ui uo : Mem) (status : Status) (cuda : Bool) (order : List Nat)
    (src : Option (Arr ℝ)) (out : Arr ℝ) : Option (Status × Arr ℝ) :=
  let c := checkUvwCall ui uo status
  if c.1 ≠ .success then some (c.1, out)
  else
    let num := (c.2.1 * c.2.2).toNat
    dispatch ui.location (uvwTypes ui uo) cuda out (rotateUvw num (mat orig new) src out)
      (loop (uvwThread num (mat orig new) src) out order)

/-- `sdp_phase_rotate_vis`, sdp_phase_rotate.cpp:205-367. -/
def callVis (orig new : Coord) (f0 df : ℝ) (uvw vi vo : Mem) (status : Status) (cuda : Bool)
    (order : List (Nat × Nat × Nat)) (u : Arr ℝ) (src : Option (Arr ℂ)) (out : Arr ℂ) :
    Option (Status × Arr ℂ) :=
  let c := checkVisCall uvw vi vo status
  if c.1 ≠ .success then some (c.1, out)
  else
    let D : Dims := ⟨c.2.1.toNat, c.2.2.1.toNat, c.2.2.2.1.toNat, c.2.2.2.2.toNat⟩
    dispatch uvw.location (visTypes uvw vi vo) cuda out (rotateVis D f0 df (delta orig new) u src out)
      (loop (visThread D f0 df (delta orig new) u src) out order)

end
end Sdp.PhaseRotate
