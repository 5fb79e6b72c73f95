import Mathlib.Algebra.Order.Field.Basic
import Verif.Common.Loops

/-!
# Model of clean/sdp_hogbom_clean.cpp (CPU path)

Exact arithmetic over an ordered field `F` (the code uses `T` = float or double and keeps
`highest_value` in double).  The complex component image has zero imaginary part
throughout, so only its real part is kept.  `int` and `unsigned int` indices do not
overflow.  The convolution with the clean beam is a parameter (it is modelled in
`Verif.FftConv`).
-/

namespace Sdp.Hogbom
variable {F : Type} [Field F] [LinearOrder F]

/-- The two images the loop updates: `residual` and `clean_comp_complex_ptr`. -/
structure St (F : Type) where
  res : Arr F
  comps : Arr F

/-- The peak scan, sdp_hogbom_clean.cpp:184-194: start from element 0, take strictly
larger values. -/
def findMax (res : Arr F) (n : Nat) : Option (F × Nat) :=
  (res.read 0).bind fun v0 =>
    loop (fun (hi : F × Nat) (i : Nat) =>
      (res.read i).bind fun v => if v > hi.1 then some (v, i) else some hi)
      (v0, 0) (List.range n)

/-- PSF window subtraction, sdp_hogbom_clean.cpp:215-236. -/
def subtract (psf : Arr F) (D P : Nat) (a : F) (mx my : Int) (res : Arr F) : Option (Arr F) :=
  loop (fun res (p : Nat × Nat) =>
    (psf.read (index2 P (D - mx + p.1) (D - my + p.2))).bind fun q =>
    (res.read (index2 D p.1 p.2)).bind fun r =>
      res.write (index2 D p.1 p.2) (r - a * q)) res (nest2 D D)

/-- One pass of the while body, sdp_hogbom_clean.cpp:183-238; `inl` is `break`. -/
def cycle (psf : Arr F) (D P : Nat) (gain thr : F) (s : St F) : Option (St F ⊕ St F) :=
  (findMax s.res (D * D)).bind fun hi =>
  (s.res.read hi.2).bind fun v =>
    if v < thr then some (.inl s) else
    (s.comps.addAt hi.2 (gain * hi.1)).bind fun comps =>
    (subtract psf D P (gain * hi.1) (hi.2 / D : Nat) (hi.2 % D : Nat) s.res).map fun res =>
      .inr ⟨res, comps⟩

/-- The CLEAN loop, sdp_hogbom_clean.cpp:181-239, with `n` cycles left. -/
def run (psf : Arr F) (D P : Nat) (gain thr : F) : Nat → St F → Option (St F)
  | 0, s => some s
  | n + 1, s => (cycle psf D P gain thr s).bind fun
    | .inl s => some s
    | .inr s' => run psf D P gain thr n s'

/-- `sdp_create_copy_real`, sdp_hogbom_clean.cpp:98-110: copy `n` elements. -/
def copyN (src : Arr F) (n : Nat) (dst : Arr F) : Option (Arr F) :=
  loop (fun d (i : Nat) => (src.read i).bind fun x => d.write i x) dst (List.range n)

/-- Add the residual to the sky model, sdp_hogbom_clean.cpp:262-265. -/
def addResidual (res : Arr F) (n : Nat) (sky : Arr F) : Option (Arr F) :=
  loop (fun d (i : Nat) => (d.read i).bind fun x => (res.read i).bind fun r => d.write i (x + r))
    sky (List.range n)

/-- The three outputs. -/
structure Out (F : Type) where
  model : Arr F
  res : Arr F
  sky : Arr F

/-- `sdp_hogbom_clean_cpu`, sdp_hogbom_clean.cpp:114-277.  `conv` is the convolution with
the clean beam (sdp_hogbom_clean.cpp:252-256); the residual already holds the dirty image. -/
def cleanCpu (conv : Arr F → Option (Arr F)) (psf : Arr F) (D P : Nat) (gain thr : F)
    (limit : Nat) (o : Out F) : Option (Out F) :=
  (run psf D P gain thr limit ⟨o.res, ⟨D * D, fun _ => 0⟩⟩).bind fun s =>
  (conv s.comps).bind fun c =>
  (copyN c (D * D) o.sky).bind fun sky =>
  (addResidual s.res (D * D) sky).bind fun sky =>
  (copyN s.comps (D * D) o.model).map fun model => ⟨model, s.res, sky⟩

/-- A two-dimensional image handed to the wrapper: its shape and its buffer. -/
structure Img (F : Type) where
  d0 : Nat
  d1 : Nat
  buf : Arr F

inductive Err | runtime

/-- Outcome of the wrapper: undefined behaviour, a reported error (outputs untouched), or
the three outputs. -/
inductive Res (F : Type)
  | ub
  | err (e : Err)
  | ok (o : Out F)

/-- `sdp_hogbom_clean`, sdp_hogbom_clean.cpp:733-900, for arrays of one real type in CPU
memory with a writable sky model and four clean-beam entries (the other checks at
sdp_hogbom_clean.cpp:761-788 then pass). -/
def clean (conv : Arr F → Option (Arr F)) (dirty psf : Img F) (gain thr : F) (limit : Int)
    (model res sky : Img F) : Res F :=
  if model.d0 ≠ dirty.d0 then .err .runtime else
  if res.d0 ≠ dirty.d0 then .err .runtime else
  if sky.d0 ≠ dirty.d0 then .err .runtime else
  if dirty.d0 ≠ dirty.d1 then .err .runtime else
  if psf.d0 ≠ psf.d1 then .err .runtime else
  if psf.d0 ≠ dirty.d0 * 2 then .err .runtime else
  if limit < 1 then .err .runtime else
  if gain ≤ 0 then .err .runtime else
  match (copyN dirty.buf (dirty.d0 * dirty.d0) res.buf).bind fun r0 =>
      cleanCpu conv psf.buf dirty.d0 psf.d0 gain thr limit.toNat ⟨model.buf, r0, sky.buf⟩ with
  | none => .ub
  | some o => .ok o

end Sdp.Hogbom
