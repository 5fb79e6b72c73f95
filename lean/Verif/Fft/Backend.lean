import Verif.Fft.Call

/-!
# Model of the FFT plans of fourier_transforms/sdp_fft.cpp for every back end

`sdp_fft_create` and `sdp_fft_exec` with cuFFT, MKL, PocketFFT or the library's own transforms.  The external
libraries are taken to do what their documentation says (`pocketC2c`, `mklCompute`, `cufftExec` below; trusted):
the unnormalised transform of the values at the documented addresses, in place or not; `ok` is their answer, and
covers their own limits (cuFFT: at most three dimensions; no dimension of size zero).
-/

namespace Sdp.Fft
open Complex
noncomputable section

/-- `exp(± 2 pi i s k / n)`: the factor of one dimension in a transform (the documented definition of all three
libraries; `sign` is -1 for forward). -/
def waveI (sign n s k : Int) : ℂ := cexp (2 * Real.pi * I * ((sign * (s * k) : Int) / n))

/-- Product of the factors of all dimensions of sizes `ns`. -/
def waves (sign : Int) : List Int → List Int → List Int → ℂ
  | n :: ns, s :: ss, k :: ks => waveI sign n s k * waves sign ns ss ks
  | _, _, _ => 1

/-- All multi-indices below `ns`. -/
def box : List Int → List (List Int)
  | [] => [[]]
  | n :: ns => (List.range n.toNat).flatMap fun (i : Nat) => (box ns).map fun k => (i : Int) :: k

/-- Position of a multi-index in a row-major array of sizes `ns`: the default strides of an MKL descriptor. -/
def rowPos : List Int → List Int → Int
  | n :: ns, k :: ks => k * (ns.foldr (· * ·) 1) + rowPos ns ks
  | _, _ => 0

/-- A library transform: the output at `aout k` becomes the sum over the sources `s` of `k` of `w s k` times the
input at `ain s`; `none` if an address is outside the array. -/
def transforms {κ : Type} (ks : List κ) (src : κ → List κ) (w : κ → κ → ℂ) (ain aout : κ → Int)
    (inp out : Arr ℂ) : Option (Arr ℂ) :=
  loop (fun a k => ((src k).mapM fun s => (inp.read (ain s)).map (w s k * ·)).bind fun l =>
    a.write (aout k) l.sum) out ks

/-- Element number of a byte address; -1, outside every array, if it is inside an element. -/
def element (e addr : Int) : Int := if e ∣ addr then addr / e else -1

/-- Dot product of a multi-index with strides. -/
def dot (k stride : List Int) : Int := (List.zipWith (· * ·) k stride).sum

/-- `pocketfft::c2c` with factor 1, called at sdp_fft.cpp:642-667: strides are in bytes; the indices along `axes`
are summed over. -/
def pocketC2c (e : Int) (shape sin sout : List Int) (axes : List Nat) (sign : Int) (inp out : Arr ℂ) :
    Option (Arr ℂ) :=
  transforms (box shape)
    (fun k => (box shape).filter fun s => (List.range shape.length).all fun j => j ∈ axes || s.getD j 0 == k.getD j 0)
    (fun s k => (axes.map fun j => waveI sign (shape.getD j 0) (s.getD j 0) (k.getD j 0)).prod)
    (fun s => element e (dot s sin)) (fun k => element e (dot k sout)) inp out

/-- `DftiComputeForward`/`Backward`, called at sdp_fft.cpp:571-586, of a descriptor of the given lengths with
default strides, `count` transforms and equal distances. -/
def mklCompute (lengths : List Int) (count dist : Int) (sign : Int) (inp out : Arr ℂ) : Option (Arr ℂ) :=
  transforms ((List.range count.toNat).flatMap fun (t : Nat) => (box lengths).map fun k => ((t : Int), k))
    (fun p => (box lengths).map fun s => (p.1, s)) (fun s k => waves sign lengths s.2 k.2)
    (fun s => s.1 * dist + rowPos lengths s.2) (fun k => k.1 * dist + rowPos lengths k.2) inp out

/-- Position of a multi-index in cuFFT's advanced data layout: `((x0 * embed[1] + x1) * embed[2] + x2) ...`. -/
def embedPos (embed k : List Int) : Int := (embed.zip k).foldl (fun a p => a * p.1 + p.2) 0

/-- `cufftExecC2C`/`Z2Z`, called at sdp_fft.cpp:437-448, of a plan made by `cufftPlanMany` (`embed` is both
`inembed` and `onembed`). -/
def cufftExec (n embed : List Int) (istride idist ostride odist batch sign : Int) (inp out : Arr ℂ) :
    Option (Arr ℂ) :=
  transforms ((List.range batch.toNat).flatMap fun (t : Nat) => (box n).map fun k => ((t : Int), k))
    (fun p => (box n).map fun s => (p.1, s)) (fun s k => waves sign n s.2 k.2)
    (fun s => s.1 * idist + embedPos embed s.2 * istride) (fun k => k.1 * odist + embedPos embed k.2 * ostride)
    inp out

/-- Transforms used for arrays in host memory: `SDP_HAVE_MKL`, else `SDP_USE_POCKETFFT`, else the library's own. -/
inductive Host
  | native | pocket | mkl

/-- Compile-time choices: host transforms, and `SDP_HAVE_CUDA`. -/
structure Build where
  host : Host
  cuda : Bool

/-- What a plan stores for its back end, sdp_fft.cpp:280-291 (and the parameters given to the libraries). -/
inductive Layout
  | none
  | pocket (shape sin sout : List Int) (axes : List Nat)
  | mkl (lengths : List Int) (dist : Int)
  | cufft (n : List Int) (istride idist ostride odist : Int)

/-- `sdp_Fft`, sdp_fft.cpp:270-292. -/
structure BPlan where
  base : Plan
  lay : Layout

/-- `dim_size`, sdp_fft.cpp:392-402 and 494-504. -/
def lengths (mi : Mem) (nd : Int) : List Int :=
  (List.range nd.toNat).map fun (i : Nat) => mi.shapeDim ((i : Int) + mi.numDims - nd)

/-- `sdp_fft_create_cuda`, sdp_fft.cpp:362-421. -/
def createCuda (ok : Bool) (mi mo : Mem) (nd : Int) : Layout × Status :=
  let last : Int := (mi.numDims : Int) - 1
  if ¬ sameFloat mi mo then (.none, .dataType)
  else (.cufft (lengths mi nd) (mi.strideElementsDim last) (mi.strideElementsDim 0) (mo.strideElementsDim last)
    (mo.strideElementsDim 0), if ok then .success else .runtime)

/-- `sdp_fft_create_mkl`, sdp_fft.cpp:462-537. -/
def createMkl (ok : Bool) (mi mo : Mem) (nd : Int) : Layout × Status :=
  if ¬ sameFloat mi mo then (.none, .dataType)
  else
    let dims := lengths mi nd
    (.mkl (if nd = 1 then [mi.shapeDim ((mi.numDims : Int) - 1)] else dims) (dims.foldl (· * ·) 1),
      if ok then .success else .runtime)

/-- `sdp_fft_create_pocketfft`, sdp_fft.cpp:603-628. -/
def createPocket (mi mo : Mem) (nd : Int) : Layout :=
  .pocket ((List.range mi.numDims).map fun (i : Nat) => mi.shapeDim (i : Int))
    ((List.range mi.numDims).map fun (i : Nat) => mi.strideBytesDim (i : Int))
    ((List.range mi.numDims).map fun (i : Nat) => mo.strideBytesDim (i : Int))
    ((List.range nd.toNat).map fun (i : Nat) => ((mi.numDims : Int) - nd + i).toNat)

/-- `sdp_fft_create`, sdp_fft.cpp:816-880, for any build. -/
def bCreate (b : Build) (ok : Bool) (mi mo : Mem) (nd fwd : Int) (st : Status) : Option BPlan × Status :=
  let s := checkParams mi mo nd st
  if s ≠ .success then (none, s)
  else
    let batch := if (mi.numDims : Int) ≠ nd then mi.shapeDim 0 else 1
    match mi.location with
    | .gpu =>
      if b.cuda then
        let c := createCuda ok mi mo nd
        (some ⟨⟨mi, mo, nd, 0, 0, batch, fwd⟩, c.1⟩, c.2)
      else (some ⟨⟨mi, mo, nd, 0, 0, batch, fwd⟩, .none⟩, .runtime)
    | .cpu =>
      match b.host with
      | .mkl =>
        let c := createMkl ok mi mo nd
        (some ⟨⟨mi, mo, nd, 0, 0, batch, fwd⟩, c.1⟩, c.2)
      | .pocket => (some ⟨⟨mi, mo, nd, 0, 0, batch, fwd⟩, createPocket mi mo nd⟩, .success)
      | .native =>
        let c := createNative mi nd
        (some ⟨⟨mi, mo, nd, c.1.1, c.1.2, batch, fwd⟩, .none⟩, c.2)
    | .other => (some ⟨⟨mi, mo, nd, 0, 0, batch, fwd⟩, .none⟩, .memLocation)

/-- Sign of a library transform, sdp_fft.cpp:433, 569, 647, 661: any true value is forward. -/
def libSign (fwd : Int) : Int := if fwd ≠ 0 then -1 else 1

/-- The transform made by the back end of a plan: `sdp_fft_exec_cuda`, sdp_fft.cpp:425-455,
`sdp_fft_exec_mkl`, 541-595, or `sdp_fft_exec_pocketfft`, 632-672. -/
def libExec (p : BPlan) (ok : Bool) (mi mo : Mem) (inp out : Arr ℂ) : Option (Status × Arr ℂ) :=
  let done := fun r : Option (Arr ℂ) => r.map fun r => (if ok then Status.success else .runtime, r)
  match p.lay with
  | .none => some (.success, out)
  | .pocket shape sin sout axes =>
    if sameFloat mi mo then
      (pocketC2c mi.type.size shape sin sout axes (libSign p.base.fwd) inp out).map fun r => (.success, r)
    else some (.invalidArgument, out)
  | .mkl ls dist => done (mklCompute ls p.base.batch dist (libSign p.base.fwd) inp out)
  | .cufft n istride idist ostride odist =>
    if sameFloat mi mo then
      done (cufftExec n n istride idist ostride odist p.base.batch (libSign p.base.fwd) inp out)
    else some (.success, out)

/-- `sdp_fft_exec`, sdp_fft.cpp:883-921, for any build; see `fftExec`. -/
def bExec (b : Build) (ok : Bool) (p : Option BPlan) (mi mo : Mem) (st : Status) (o1 o2 : List Nat) (same : Bool)
    (inp out tmp : Arr ℂ) : Option (Status × Arr ℂ × Arr ℂ) :=
  match p with
  | none => some (st, out, tmp)
  | some p =>
    if st ≠ .success then some (st, out, tmp)
    else
      let s := checkParams mi mo p.base.dims st
      if s ≠ .success then some (s, out, tmp)
      else if ¬ isMatching p.base.inM mi true ∨ ¬ isMatching p.base.outM mo true then some (.runtime, out, tmp)
      else match mi.location with
        | .gpu =>
          if b.cuda then (libExec p ok mi mo inp out).map fun r => (r.1, r.2, tmp)
          else some (.runtime, out, tmp)
        | .other => some (.success, out, tmp)
        | .cpu =>
          match b.host with
          | .native => fftExec (some p.base) mi mo st o1 o2 same inp out tmp
          | _ => (libExec p ok mi mo inp out).map fun r => (r.1, r.2, tmp)

end
end Sdp.Fft
