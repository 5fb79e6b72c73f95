import Mathlib.Analysis.SpecialFunctions.Trigonometric.Basic
import Verif.Common.Loops

/-!
# Model of visibility/sdp_dft.cpp (CPU kernels)

Exact real and complex arithmetic; `int` / `unsigned int` indices do not overflow.
The `omp parallel for` over baselines is modelled by letting the (time, channel,
baseline) iterations run in an arbitrary order: each iteration only reads the inputs
and writes its own outputs.
-/

namespace Sdp.Dft
noncomputable section

/-- Extents, sdp_dft.cpp:27-31. -/
structure Dims where
  comps : Nat
  pols : Nat
  channels : Nat
  baselines : Nat
  times : Nat
  deriving DecidableEq

/-- Loop over components with the inner loop over polarisations, sdp_dft.cpp:57-84
(`k` = 1) and sdp_dft.cpp:297-321 (`k` = inverse wavelength): accumulates into
`vis_local[4]`. -/
def localVis (D : Dims) (dirs : Arr ℝ) (flux : Arr ℂ) (k u v w : ℝ) (c : Nat) : Option (Arr ℂ) :=
  loop (fun loc (s : Nat) =>
    (dirs.read (3 * s)).bind fun l =>
    (dirs.read (3 * s + 1)).bind fun m =>
    (dirs.read (3 * s + 2)).bind fun n =>
      let phase := -2 * Real.pi * k * (l * u + m * v + n * w)
      let phasor : ℂ := ⟨Real.cos phase, Real.sin phase⟩
      loop (fun loc (p : Nat) =>
        (flux.read (index3 D.channels D.pols s c 0 + p)).bind fun f =>
          loc.addAt p (phasor * f)) loc (List.range D.pols))
    ⟨4, fun _ => 0⟩ (List.range D.comps)

/-- Store the local visibility, sdp_dft.cpp:86-94. -/
def store (D : Dims) (vis : Arr ℂ) (loc : Arr ℂ) (t c b : Nat) : Option (Arr ℂ) :=
  loop (fun vis (p : Nat) =>
    (loc.read p).bind fun x =>
      vis.write (index4 D.baselines D.channels D.pols t b c p) x) vis (List.range D.pols)

/-- One (time, channel, baseline) iteration of `dft_point_v00`, sdp_dft.cpp:43-95. -/
def bodyV00 (D : Dims) (dirs : Arr ℝ) (flux : Arr ℂ) (uvw : Arr ℝ) (vis : Arr ℂ)
    (x : Nat × Nat × Nat) : Option (Arr ℂ) :=
  let i := index4 D.baselines D.channels 3 x.1 x.2.2 x.2.1 0
  (uvw.read i).bind fun u =>
  (uvw.read (i + 1)).bind fun v =>
  (uvw.read (i + 2)).bind fun w =>
  (localVis D dirs flux 1 u v w x.2.1).bind fun loc =>
    store D vis loc x.1 x.2.1 x.2.2

/-- `dft_point_v00`, sdp_dft.cpp:26-98, running its iterations in the given order. -/
def v00 (D : Dims) (dirs : Arr ℝ) (flux : Arr ℂ) (uvw : Arr ℝ) (vis : Arr ℂ)
    (order : List (Nat × Nat × Nat)) : Option (Arr ℂ) :=
  loop (bodyV00 D dirs flux uvw) vis order

/-- One (time, channel, baseline) iteration of `dft_point_v01`, sdp_dft.cpp:274-335
(there the channel loop is inside the baseline loop; the uvw load is repeated per
channel here). -/
def bodyV01 (D : Dims) (dirs : Arr ℝ) (flux : Arr ℂ) (uvw : Arr ℝ) (f0 df : ℝ) (vis : Arr ℂ)
    (x : Nat × Nat × Nat) : Option (Arr ℂ) :=
  let i := index3 D.baselines 3 x.1 x.2.2 0
  (uvw.read i).bind fun u =>
  (uvw.read (i + 1)).bind fun v =>
  (uvw.read (i + 2)).bind fun w =>
  (localVis D dirs flux ((f0 + x.2.1 * df) / 299792458) u v w x.2.1).bind fun loc =>
    store D vis loc x.1 x.2.1 x.2.2

/-- `dft_point_v01`, sdp_dft.cpp:259-335, running its iterations in the given order. -/
def v01 (D : Dims) (dirs : Arr ℝ) (flux : Arr ℂ) (uvw : Arr ℝ) (f0 df : ℝ) (vis : Arr ℂ)
    (order : List (Nat × Nat × Nat)) : Option (Arr ℂ) :=
  loop (bodyV01 D dirs flux uvw f0 df) vis order

end
end Sdp.Dft
