import Verif.Common.Warp
import Verif.Hogbom.Model

/-!
# Model of clean/sdp_hogbom_clean.{cpp,cu} (GPU path)

Exact arithmetic over an ordered field, one real type.  Threads of a block interleave at every access to
its shared memory between two `__syncthreads`.  The blocks of one launch run in any order, each as a whole
with respect to global memory (in the first launch of the peak search they read an array nobody writes and
each writes a cell of its own, so this loses nothing; in later launches with more than one block it keeps
only some of the behaviours).  `int` indices do not overflow.
-/

namespace Sdp.Hogbom
open Sdp.Race
variable {F : Type} [Field F] [LinearOrder F]

/-- A cell of the shared memory of a block, sdp_hogbom_clean.cu:281-282: entry `t` of `max_values` is cell
`2 t`, entry `t` of `max_indices` is cell `2 t + 1`. -/
abbrev Cell (F : Type) := F ⊕ Int

/-- `max_values[t]`. -/
def getVal (t : Nat) (k : F → Prog (Cell F)) : Prog (Cell F) :=
  .read ((2 * t : Nat) : Int) (Sum.elim k fun _ => .fault)

/-- `max_indices[t]`. -/
def getIdx (t : Nat) (k : Int → Prog (Cell F)) : Prog (Cell F) :=
  .read ((2 * t + 1 : Nat) : Int) (Sum.elim (fun _ => .fault) k)

/-- `max_values[t] = v`. -/
def setVal (t : Nat) (v : F) (k : Prog (Cell F)) : Prog (Cell F) := .write ((2 * t : Nat) : Int) (.inl v) k

/-- `max_indices[t] = j`. -/
def setIdx (t : Nat) (j : Int) (k : Prog (Cell F)) : Prog (Cell F) := .write ((2 * t + 1 : Nat) : Int) (.inr j) k

/-- One comparison of the reduction, sdp_hogbom_clean.cu:193-197, 311-315. -/
def takeIf (s t : Nat) (k : Prog (Cell F)) : Prog (Cell F) :=
  getVal t fun v => getVal (t + s) fun w =>
    if v < w then
      getVal (t + s) fun w => setVal t w (getIdx (t + s) fun j => setIdx t j k)
    else k

/-- Thread `t` of block `b` loads its element, sdp_hogbom_clean.cu:284-303 (the first two stores, at once
overwritten, are left out); `idx` is `index_in`, absent in the first launch.  There is no bounds check. -/
def load (input : Arr F) (idx : Option (Arr Int)) (b t : Nat) : Prog (Cell F) :=
  .need (input.read ((256 * b + t : Nat) : Int)) fun v => setVal t v (
    match idx with
    | none => setIdx t ((256 * b + t : Nat) : Int) .done
    | some a => .need (a.read ((256 * b + t : Nat) : Int)) fun j => setIdx t j .done)

/-- A pass of the loop over strides, sdp_hogbom_clean.cu:307-318. -/
def phase (s t : Nat) : Prog (Cell F) := if t < s then takeIf s t .done else .done

/-- `warpReduce`, sdp_hogbom_clean.cu:193-217: no synchronisation between the steps. -/
def warpGo (t : Nat) : List Nat → Prog (Cell F)
  | [] => .done
  | s :: ss => takeIf s t (warpGo t ss)

/-- sdp_hogbom_clean.cu:320. -/
def warp (t : Nat) : Prog (Cell F) := if t < 16 then warpGo t [16, 8, 4, 2, 1] else .done

/-- One step of `warpReduce`, sdp_hogbom_clean.cu:193-197. -/
def warpPhase (s t : Nat) : Prog (Cell F) := if t < 16 then takeIf s t .done else .done

/-- The last five steps without any assumption: the sixteen threads interleave at every access. -/
def WarpAny (m r : Arr (Cell F)) : Prop := Finishes 256 warp m r

/-- The last five steps in lockstep: the sixteen threads make every access together, and those whose
comparison fails wait for the others. -/
def WarpLock (m r : Arr (Cell F)) : Prop :=
  ∃ m1 m2 m3 m4, Lockstep 16 6 (warpPhase 16) m m1 ∧ Lockstep 16 6 (warpPhase 8) m1 m2 ∧
    Lockstep 16 6 (warpPhase 4) m2 m3 ∧ Lockstep 16 6 (warpPhase 2) m3 m4 ∧ Lockstep 16 6 (warpPhase 1) m4 r

/-- Block `b` of `find_maximum_value` finds value `v` and index `j`, sdp_hogbom_clean.cu:281-327; `m` is what
its shared memory held. -/
def BlockRun (last : Arr (Cell F) → Arr (Cell F) → Prop) (input : Arr F) (idx : Option (Arr Int)) (b : Nat)
    (m : Arr (Cell F)) (v : F) (j : Int) : Prop :=
  ∃ m0 m1 m2 m3 m4, Finishes 256 (load input idx b) m m0 ∧ Finishes 256 (phase 128) m0 m1 ∧
    Finishes 256 (phase 64) m1 m2 ∧ Finishes 256 (phase 32) m2 m3 ∧ last m3 m4 ∧
    m4.get 0 = .inl v ∧ m4.get 1 = .inr j

/-- `max_val_mem` and `max_idx_mem`. -/
structure Peaks (F : Type) where
  val : Arr F
  idx : Arr Int

/-- Blocks of `find_maximum_value` in a given order, sdp_hogbom_clean.cu:272-328.  `res` is the image in the
first launch; afterwards the blocks read the arrays they write (sdp_hogbom_clean.cpp:472). -/
inductive Blocks (last : Arr (Cell F) → Arr (Cell F) → Prop) (res : Option (Arr F)) :
    List Nat → Peaks F → Peaks F → Prop
  | nil {p} : Blocks last res [] p p
  | cons {b l p p' m v j pv pi} : m.size = 512 →
      BlockRun last (res.getD p.val) (if res.isSome then none else some p.idx) b m v j →
      p.val.write (b : Int) v = some pv → p.idx.write (b : Int) j = some pi →
      Blocks last res l ⟨pv, pi⟩ p' → Blocks last res (b :: l) p p'

/-- One launch with `n` blocks. -/
def Launch (last : Arr (Cell F) → Arr (Cell F) → Prop) (res : Option (Arr F)) (n : Nat) (p p' : Peaks F) : Prop :=
  ∃ order : List Nat, order.Perm (List.range n) ∧ Blocks last res order p p'

/-- The peak search, sdp_hogbom_clean.cpp:457-478, with `n` blocks in the next launch. -/
inductive Reduce (last : Arr (Cell F) → Arr (Cell F) → Prop) : Option (Arr F) → Nat → Peaks F → Peaks F → Prop
  | final {res n p p'} : n ≤ 1 → Launch last res n p p' → Reduce last res n p p'
  | more {res n p p1 p'} : 1 < n → Launch last res n p p1 → Reduce last none (blocks n 256) p1 p' →
      Reduce last res n p p'

/-- The images and flag on the GPU during the loop. -/
structure GSt (F : Type) where
  res : Arr F
  model : Arr F
  flag : Bool

/-- `add_clean_comp`, sdp_hogbom_clean.cu:407-431, one thread. -/
def addComp (gain thr : F) (p : Peaks F) (model : Arr F) (flag : Bool) : Option (Arr F × Bool) :=
  (p.val.read 0).bind fun v =>
    if v > thr ∧ flag = false then
      (p.idx.read 0).bind fun j => (model.addAt j (gain * v)).map fun m => (m, flag)
    else some (model, true)

/-- Thread `i` of `subtract_psf`, sdp_hogbom_clean.cu:479-540, one pixel per thread
(sdp_hogbom_clean.cpp:14). -/
def subtractAt (psf : Arr F) (D P : Nat) (gain thr : F) (p : Peaks F) (i : Nat) : Prog F :=
  .need (p.val.read 0) fun v =>
    if v > thr then
      .need (p.idx.read 0) fun j =>
        if i < D * D then
          .need (psf.read (((i / D : Nat) + (D - j.tdiv D)) * P + ((i % D : Nat) + (D - j.tmod D)))) fun q =>
          .read i fun r => .write i (r - gain * v * q) .done
        else .done
    else .done

/-- Thread `i` of `create_copy_real`, sdp_hogbom_clean.cu:24-52, and of `create_copy_complex`,
sdp_hogbom_clean.cu:642-655 (real parts). -/
def copyAt (src : Arr F) (n i : Nat) : Prog F :=
  if i < n then .need (src.read i) fun v => .write i v .done else .done

/-- Thread `i` of `add_residual`, sdp_hogbom_clean.cu:612-624. -/
def addResAt (res : Arr F) (n i : Nat) : Prog F :=
  if i < n then .read i fun v => .need (res.read i) fun r => .write i (v + r) .done else .done

/-- Number of threads of a launch over `n` pixels, sdp_hogbom_clean.cpp:385-388. -/
def threads (n : Nat) : Nat := blocks n 256 * 256

/-- `max_val_mem` and `max_idx_mem` after they are cleared, sdp_hogbom_clean.cpp:427-429. -/
def cleared (n : Nat) : Peaks F := ⟨⟨n, fun _ => 0⟩, ⟨n, fun _ => 0⟩⟩

/-- The CLEAN loop, sdp_hogbom_clean.cpp:425-586, from cycle `c`. -/
inductive GRun (last : Arr (Cell F) → Arr (Cell F) → Prop) (psf : Arr F) (D P : Nat) (gain thr : F) (limit : Nat) :
    Nat → GSt F → GSt F → Prop
  | limit {c s} : limit ≤ c → GRun last psf D P gain thr limit c s s
  | stop {c s p} : c < limit → Reduce last (some s.res) (blocks (D * D) 256) (cleared (blocks (D * D) 256)) p →
      0 < c → c % 100 = 0 → s.flag = true → GRun last psf D P gain thr limit c s s
  | cycle {c s p mf res' s'} : c < limit →
      Reduce last (some s.res) (blocks (D * D) 256) (cleared (blocks (D * D) 256)) p →
      ¬ (0 < c ∧ c % 100 = 0 ∧ s.flag = true) →
      addComp gain thr p s.model s.flag = some mf →
      Finishes (threads (D * D)) (subtractAt psf D P gain thr p) s.res res' →
      GRun last psf D P gain thr limit (c + 1) ⟨res', mf.1, mf.2⟩ s' →
      GRun last psf D P gain thr limit c s s'

/-- `sdp_hogbom_clean_gpu`, sdp_hogbom_clean.cpp:281-730, for a square image of side `D` and a PSF of side
`P`.  `conv` is the convolution with the clean beam; the images are copied to and from working arrays by
kernels. -/
def CleanGpu (last : Arr (Cell F) → Arr (Cell F) → Prop) (conv : Arr F → Option (Arr F)) (dirty psf : Arr F)
    (D P : Nat) (gain thr : F) (limit : Nat) (o o' : Out F) : Prop :=
  ∃ (res0 comps cc sky1 sky2 : Arr F) (s : GSt F), copyN dirty (D * D) o.res = some res0 ∧
    GRun last psf D P gain thr limit 0 ⟨res0, o.model, false⟩ s ∧
    Finishes (threads (D * D)) (copyAt s.model (D * D)) ⟨D * D, fun _ => 0⟩ comps ∧
    conv comps = some cc ∧
    Finishes (threads (D * D)) (copyAt cc (D * D)) o.sky sky1 ∧
    Finishes (threads (D * D)) (addResAt s.res (D * D)) sky1 sky2 ∧ o' = ⟨s.model, s.res, sky2⟩

end Sdp.Hogbom
