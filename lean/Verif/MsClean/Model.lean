import Mathlib.Algebra.Order.Field.Basic
import Verif.Hogbom.Model

/-!
# Model of clean/sdp_ms_clean_cornwell.cpp

Exact arithmetic over an ordered field; all images are real in exact arithmetic, so only
the real parts are kept.  `conv` stands for `sdp_fft_convolution` and `cbeam` for the clean
beam image; the scale kernels (`sdp_create_scale_kern`) are an input here and are modelled
in `Verif.MsClean.Call`.  Division by a zero coupling (NaN in the code) is not modelled.
-/

namespace Sdp.MsClean
variable {F : Type} [Field F] [LinearOrder F]

/-- Extents: number of scales, image side, PSF side. -/
structure Dims where
  S : Nat
  D : Nat
  P : Nat

/-- Copy one `n`-element block out of a list of images, sdp_ms_clean_cornwell.cpp:418-432 and
437-452 (the element loops are taken as one block copy). -/
def getBlock (a : Arr F) (b n : Nat) : Option (Arr F) :=
  if n * b + n ≤ a.size then some ⟨n, fun i => a.get (n * b + i)⟩ else none

/-- Copy an image into block `b` of a list of images, sdp_ms_clean_cornwell.cpp:468-485 and
497-515. -/
def setBlock (a : Arr F) (b n : Nat) (x : Arr F) : Option (Arr F) :=
  if n * b + n ≤ a.size ∧ n ≤ x.size then
    some ⟨a.size, fun i => if n * b ≤ i ∧ i < n * b + n then x.get (i - n * b) else a.get i⟩
  else none

/-- Scaled PSFs for a fixed first scale, sdp_ms_clean_cornwell.cpp:434-486. -/
def scalePsf (conv : Arr F → Arr F → Option (Arr F)) (d : Dims) (psf kern k1 : Arr F) (s : Nat)
    (spsf : Arr F) : Option (Arr F) :=
  loop (fun spsf (p : Nat) =>
    (getBlock kern p (d.P * d.P)).bind fun k2 =>
    (conv psf k1).bind fun pre =>
    (conv pre k2).bind fun sp =>
      setBlock spsf (d.S * s + p) (d.P * d.P) sp) spsf (List.range d.S)

/-- Scale the PSF and the dirty image, sdp_ms_clean_cornwell.cpp:414-516. -/
def setup (conv : Arr F → Arr F → Option (Arr F)) (d : Dims) (psf dirty kern : Arr F) :
    Option (Arr F × Arr F) :=
  loop (fun (st : Arr F × Arr F) (s : Nat) =>
    (getBlock kern s (d.P * d.P)).bind fun k1 =>
    (scalePsf conv d psf kern k1 s st.1).bind fun spsf =>
    (conv dirty k1).bind fun r =>
    (setBlock st.2 s (d.D * d.D) r).map fun res => (spsf, res))
    (⟨d.S * d.S * (d.P * d.P), fun _ => 0⟩, ⟨d.S * (d.D * d.D), fun _ => 0⟩) (List.range d.S)

/-- Coupling entry for scales `s`, `p`: the largest positive value of the scaled PSF,
sdp_ms_clean_cornwell.cpp:525-548. -/
def coupling1 (d : Dims) (spsf : Arr F) (s p : Nat) : Option F :=
  loop (fun m (q : Nat × Nat) =>
    (spsf.read (index4 d.S d.P d.P s p q.1 q.2)).bind fun v =>
      if v > m then some v else some m) 0 (nest2 d.P d.P)

/-- The coupling matrix, sdp_ms_clean_cornwell.cpp:520-550. -/
def coupling (d : Dims) (spsf : Arr F) : Option (Arr F) :=
  loop (fun m (q : Nat × Nat) =>
    (coupling1 d spsf q.1 q.2).bind fun v => m.write (index2 d.S q.1 q.2) v)
    ⟨d.S * d.S, fun _ => 0⟩ (nest2 d.S d.S)

/-- Peak of one scale, sdp_ms_clean_cornwell.cpp:570-594: value and position, starting from
`(0, 0, 0)`. -/
def peak1 (d : Dims) (res : Arr F) (s : Nat) : Option (F × (Nat × Nat)) :=
  loop (fun (st : F × (Nat × Nat)) (q : Nat × Nat) =>
    (res.read (index3 d.D d.D s q.1 q.2)).bind fun v =>
      if v > st.1 then some (v, q) else some st) (0, (0, 0)) (nest2 d.D d.D)

/-- Overall peak: `(max_scaled_biased, (max_scale, (x, y)))`,
sdp_ms_clean_cornwell.cpp:596-611, with the peaks of the scales computed on the fly. -/
def peakAll (d : Dims) (cpl res : Arr F) : Option (F × (Nat × (Nat × Nat))) :=
  (peak1 d res 0).bind fun p0 =>
  loop (fun (st : F × (Nat × (Nat × Nat))) (i : Nat) =>
    (peak1 d res i).bind fun p =>
    (cpl.read (index2 d.S i i)).bind fun c =>
      if p.1 / c > st.1 then some (p.1 / c, (i, p.2)) else some st) (0, (0, p0.2)) (List.range d.S)

/-- The image the loop updates. -/
structure St (F : Type) where
  res : Arr F
  comps : Arr F

/-- Add the scale kernel to the components, sdp_ms_clean_cornwell.cpp:632-660. -/
def addKern (d : Dims) (kern : Arr F) (a : F) (s x y : Nat) (comps : Arr F) : Option (Arr F) :=
  loop (fun c (q : Nat × Nat) =>
    (kern.read (index3 d.P d.P s (d.D - x + q.1) (d.D - y + q.2))).bind fun k =>
      c.addAt (index2 d.D q.1 q.2) (a * k)) comps (nest2 d.D d.D)

/-- Subtract the scaled PSFs from every scale, sdp_ms_clean_cornwell.cpp:662-701. -/
def subPsf (d : Dims) (spsf : Arr F) (a : F) (p x y : Nat) (res : Arr F) : Option (Arr F) :=
  loop (fun r (q : Nat × Nat × Nat) =>
    (spsf.read (index4 d.S d.P d.P q.1 p (d.D - x + q.2.1) (d.D - y + q.2.2))).bind fun k =>
      r.addAt (index3 d.D d.D q.1 q.2.1 q.2.2) (-(a * k))) res (nest3 d.S d.D d.D)

/-- One pass of the while body, sdp_ms_clean_cornwell.cpp:560-703; `inl` is `break`. -/
def cycle (d : Dims) (kern spsf cpl : Arr F) (gain thr : F) (st : St F) :
    Option (St F ⊕ St F) :=
  (peakAll d cpl st.res).bind fun pk =>
  (st.res.read (index3 d.D d.D pk.2.1 pk.2.2.1 pk.2.2.2)).bind fun v =>
    if v < thr then some (.inl st) else
    (addKern d kern (gain * pk.1) pk.2.1 pk.2.2.1 pk.2.2.2 st.comps).bind fun comps =>
    (subPsf d spsf (gain * pk.1) pk.2.1 pk.2.2.1 pk.2.2.2 st.res).map fun res =>
      .inr ⟨res, comps⟩

/-- The CLEAN loop, sdp_ms_clean_cornwell.cpp:558-704, with `n` cycles left. -/
def run (d : Dims) (kern spsf cpl : Arr F) (gain thr : F) : Nat → St F → Option (St F)
  | 0, st => some st
  | n + 1, st => (cycle d kern spsf cpl gain thr st).bind fun
    | .inl st => some st
    | .inr st' => run d kern spsf cpl gain thr n st'

/-- `ms_clean_cornwell`, sdp_ms_clean_cornwell.cpp:170-770 (without the memory management):
components, residual and sky model, for output buffers of full size. -/
def clean (conv : Arr F → Arr F → Option (Arr F)) (d : Dims) (psf dirty kern cbeam : Arr F)
    (gain thr : F) (limit : Nat) (o : Hogbom.Out F) : Option (Hogbom.Out F) :=
  (setup conv d psf dirty kern).bind fun su =>
  (coupling d su.1).bind fun cpl =>
  (run d kern su.1 cpl gain thr limit ⟨su.2, ⟨d.D * d.D, fun _ => 0⟩⟩).bind fun st =>
  (conv st.comps cbeam).bind fun c =>
  (Hogbom.copyN c (d.D * d.D) o.sky).bind fun sky =>
  (Hogbom.copyN st.comps (d.D * d.D) o.model).bind fun model =>
  (Hogbom.addResidual st.res (d.D * d.D) sky).bind fun sky =>
  (Hogbom.copyN st.res (d.D * d.D) o.res).map fun res => ⟨model, res, sky⟩

end Sdp.MsClean
