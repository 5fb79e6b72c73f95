import Verif.Mem.Model
import Verif.Common.Arr
import Verif.Common.Loops
import Mathlib.Analysis.SpecialFunctions.Pow.Real

/-!
# Model of the prolate spheroidal wave functions (fourier_transforms/sdp_pswf.cpp, private_pswf.h)

Exact arithmetic.  The library calls everything with both mode parameters equal to `m` (sdp_pswf.cpp:629-637,
683 and 584-596), and so does the model.  `none` is an access outside an array, or the use of a value never set.
-/

namespace Sdp.Pswf
noncomputable section

/-- A cast from `double` to `int`. -/
def trunc (c : ℝ) : Int := if 0 ≤ c then ⌊c⌋ else ⌈c⌉

/-- The loop of `sdp_pswf_cipow`, private_pswf.h:38-43. -/
def cipowLoop (base : ℝ) (exp : Nat) (result : ℝ) : ℝ :=
  if h : exp = 0 then result
  else cipowLoop (base * base) (exp / 2) (if exp % 2 ≠ 0 then result * base else result)
termination_by exp
decreasing_by omega

/-- `sdp_pswf_cipow`, private_pswf.h:32-45. -/
def cipow (base : ℝ) (exp : Nat) : ℝ := if exp = 1 then base else cipowLoop base exp 1

/-- The loop of `sdp_pswf_aswfa`, private_pswf.h:75-81; `fuel` is the number of values of `k` left.  The quotient
by a sum of zero is infinite or not a number, and the test fails. -/
def aswfaLoop (ck : Arr ℝ) (x1 : ℝ) (k : Nat) (x1p su1 : ℝ) : Nat → Option ℝ
  | 0 => some su1
  | fuel + 1 =>
    (ck.read k).bind fun v =>
    let r := v * x1p
    let su := su1 + r
    if 10 ≤ k ∧ su ≠ 0 ∧ |r / su| < 1 / 10 ^ 14 then some su
    else aswfaLoop ck x1 (k + 1) (x1p * x1) su fuel

/-- `sdp_pswf_aswfa`, private_pswf.h:64-84, for `n = m`; `pow(x1, m * 0.5)` is the power of reals. -/
def aswfa (m : Nat) (c : ℝ) (ck : Arr ℝ) (x : ℝ) : Option ℝ :=
  let nm2 := (trunc c + 40).tdiv 2 - 2
  let x1 := 1 - x * x
  let a0 := if m = 0 ∧ x1 = 0 then 1 else x1 ^ ((m : ℝ) * (1 / 2))
  (ck.read 0).bind fun v => (aswfaLoop ck x1 1 x1 v nm2.toNat).bind fun su1 => some (a0 * su1)

/-- What the functions below need of a plan: `struct sdp_Pswf`, sdp_pswf.cpp:604-613, without the caches. -/
structure Params where
  m : Nat
  c : ℝ
  coeff : Arr ℝ

/-- `sdp_pswf_evaluate`, sdp_pswf.cpp:680-685. -/
def evaluate (p : Params) (x : ℝ) : Option ℝ := if |x| < 1 then aswfa p.m p.c p.coeff |x| else some 0

/-- One step of the loop over the other values, sdp_pswf.cpp:589-596. -/
def generateStep (p : Params) (size : Nat) (stride : Int) (out : Arr ℝ) (i : Nat) : Option (Arr ℝ) :=
  (aswfa p.m p.c p.coeff (2 * i / size)).bind fun s =>
  (out.write (((size / 2 + i : Nat) : Int) * stride) s).bind fun out =>
  out.write (((size / 2 : Nat) - (i : Int)) * stride) s

/-- `generate_pswf`, sdp_pswf.cpp:569-601, after its checks: `size` is the extent of the view. -/
def generate (p : Params) (size : Nat) (stride : Int) (correct : Bool) (out : Arr ℝ) : Option (Arr ℝ) :=
  (out.write (0 * stride) 0).bind fun out =>
  (aswfa p.m p.c p.coeff 0).bind fun s =>
  (out.write (((size / 2 : Nat) : Int) * stride) s).bind fun out =>
  (loop (generateStep p size stride) out ((List.range (size / 2 - 1)).map (· + 1))).bind fun out =>
  if correct = true ∧ size % 2 = 0 then out.write (0 * stride) (1 / 10 ^ 15) else some out

/-- `sdp_pswf_generate` with an output array, sdp_pswf.cpp:718-731 and 752-776, and `generate_pswf`. -/
def generateInto (p : Params) (mo : Mem) (size : Int) (correct : Bool) (st : Status) (out : Arr ℝ) :
    Option (Status × Arr ℝ) :=
  if st ≠ .success then some (st, out)
  else if size ≠ 0 then some (.invalidArgument, out)
  else if mo.numDims ≠ 1 then some (.invalidArgument, out)
  else if mo.location ≠ .cpu then some (.memLocation, out)
  else if mo.type = .double ∨ mo.type = .float ∨ mo.type = .complexFloat ∨ mo.type = .complexDouble then
    let v := checkAndView mo mo.type 1 .cpu st
    if v.2 ≠ .success then some (v.2, out)
    else (generate p (v.1.shape.getD 0 0).toNat (v.1.stride.getD 0 0) correct out).map fun r => (.success, r)
  else some (.dataType, out)

/-! ## The cached values -/

/-- A cached array: the location is that of its field; `none` is an array without data. -/
abbrev Cached := Option (List ℝ)

/-- The caches of a plan, sdp_pswf.cpp:608-611; `none` is a null pointer. -/
structure Cache where
  values : Option Cached
  valuesGpu : Option Cached
  coeff : Cached
  coeffGpu : Option Cached

/-- `sdp_mem_create_copy` to the device, sdp_mem.cpp:310-322, of an array with data: after an error, or if the
copy cannot be made, there is an array without data.  `cuda`: memory of the device is available now. -/
def copyGpu (cuda : Bool) (src : Cached) (st : Status) : Cached × Status :=
  if st ≠ .success then (none, st) else if cuda then (src, .success) else (none, .memLocation)

/-- `sdp_pswf_values`, sdp_pswf.cpp:660-677: the array returned, a null pointer being `none` in it. -/
def queryValues (cuda gpu : Bool) (s : Cache) (st : Status) : Option (Cache × Option Cached × Status) :=
  if gpu then
    match s.valuesGpu with
    | some v => some (s, some v, st)
    | none =>
      match s.values with
      | none => none
      | some v => let r := copyGpu cuda v st; some ({ s with valuesGpu := some r.1 }, some r.1, r.2)
  else some (s, s.values, st)

/-- `sdp_pswf_coeff`, sdp_pswf.cpp:642-657. -/
def queryCoeff (cuda gpu : Bool) (s : Cache) (st : Status) : Cache × Cached × Status :=
  if gpu then
    match s.coeffGpu with
    | some v => (s, v, st)
    | none => let r := copyGpu cuda s.coeff st; ({ s with coeffGpu := some r.1 }, r.1, r.2)
  else (s, s.coeff, st)

/-- A fresh plan, sdp_pswf.cpp:619-637. -/
def fresh (p : Params) : Cache := ⟨none, none, some ((List.range p.coeff.size).map p.coeff.get), none⟩

/-- `sdp_pswf_generate` without an output array, sdp_pswf.cpp:718 and 732-777; `allocOk`: there is memory. -/
def generateCached (p : Params) (allocOk : Bool) (size : Nat) (correct : Bool) (s : Cache) (st : Status) :
    Option (Cache × Status) :=
  if st ≠ .success then some (s, st)
  else if size = 0 then some (s, .invalidArgument)
  else if allocOk then
    (generate p size 1 correct ⟨size, fun _ => 0⟩).map fun r =>
      ({ s with values := some (some ((List.range size).map r.get)), valuesGpu := none }, .success)
  else some ({ s with values := some none, valuesGpu := none }, .memAllocFailure)

/-- A call on a plan with what it meets: the device, memory, and the status on entry. -/
inductive Op
  | values (cuda gpu : Bool) (st : Status)
  | coeff (cuda gpu : Bool) (st : Status)
  | generate (allocOk : Bool) (size : Nat) (correct : Bool) (st : Status)

/-- The plan after a call. -/
def Op.apply (p : Params) (s : Cache) : Op → Option Cache
  | .values cuda gpu st => (queryValues cuda gpu s st).map fun r => r.1
  | .coeff cuda gpu st => some (queryCoeff cuda gpu s st).1
  | .generate allocOk size correct st => (generateCached p allocOk size correct s st).map fun r => r.1

end
end Sdp.Pswf
