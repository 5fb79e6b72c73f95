import Mathlib.Data.Real.Archimedean
import Mathlib.Algebra.Order.Floor.Ring
import Mathlib.NumberTheory.Padics.PadicVal.Basic
import Verif.Common.Loops

/-!
# Models of fourier_transforms/sdp_fft_padded_size.cpp and of `sdp_good_size_complex`

The heap is an `Arr Int` whose size is `heap_size` (so any access at or beyond `heap_size`
gives `none`, which is stricter than the C array's capacity).  Allocation is assumed to
succeed, and the product `n * padding_factor` is taken in exact real arithmetic.
-/

namespace Sdp.Sizes

/-- `temp = heap[i]; heap[i] = heap[j]; heap[j] = temp`. -/
def swap (a : Arr Int) (i j : Nat) : Option (Arr Int) :=
  (a.read i).bind fun x => (a.read j).bind fun y =>
    (a.write i y).bind fun a => a.write j x

theorem swap_size {a b : Arr Int} {i j : Nat} (h : swap a i j = some b) : b.size = a.size := by
  unfold swap at h
  rw [Option.bind_eq_some_iff] at h
  obtain ⟨x, _, h⟩ := h
  rw [Option.bind_eq_some_iff] at h
  obtain ⟨y, _, h⟩ := h
  rw [Option.bind_eq_some_iff] at h
  obtain ⟨c, hc, h⟩ := h
  rw [(Arr.write_some h).2.2, (Arr.write_some hc).2.2]; rfl

/-- `heapify_up`, sdp_fft_padded_size.cpp:15-26. -/
def up (a : Arr Int) (index : Nat) : Option (Arr Int) :=
  if h : index = 0 then some a else
    let parent := (index - 1) / 2
    (a.read parent).bind fun p => (a.read index).bind fun v =>
      if p > v then (swap a parent index).bind fun a => up a parent else some a
termination_by index
decreasing_by omega

/-- The choice of `smallest` in `heapify_down`, sdp_fft_padded_size.cpp:31-42. -/
def smallest (a : Arr Int) (index : Nat) : Option Nat :=
  let left := 2 * index + 1
  let right := 2 * index + 2
  (if left < a.size then
    (a.read left).bind fun x => (a.read index).bind fun y => some (if x < y then left else index)
   else some index).bind fun s =>
  if right < a.size then
    (a.read right).bind fun x => (a.read s).bind fun y => some (if x < y then right else s)
  else some s

theorem smallest_bounds {a : Arr Int} {i s : Nat} (h : smallest a i = some s) (hne : s ≠ i) :
    i < s ∧ s < a.size := by
  unfold smallest at h
  simp only [Arr.read_nat, Nat.cast_add, Nat.cast_mul, Nat.cast_ofNat, Nat.cast_one] at h
  have r1 : ∀ k : Nat, a.read ((2 : Int) * i + k) = if 2 * i + k < a.size then
      some (a.get (2 * i + k)) else none := fun k => by
    rw [← Arr.read_nat]; push_cast; rfl
  have r2 := r1 2
  have r1 := r1 1
  push_cast at r1 r2
  rw [r1, r2] at h
  by_cases c1 : 2 * i + 1 < a.size <;> by_cases c2 : 2 * i + 2 < a.size <;>
    by_cases c3 : i < a.size <;> simp only [c1, c2, c3, if_true, if_false, Option.bind_some,
      Option.bind_none, reduceCtorEq, Option.some.injEq] at h <;> try omega
  · by_cases c4 : a.get (2 * i + 1) < a.get i
    · simp only [c4, if_true, Arr.read_nat] at h
      rw [if_pos c1] at h
      simp only [Option.bind_some, Option.some.injEq] at h
      split at h <;> omega
    · simp only [c4, if_false, Arr.read_nat, c3, if_true, Option.bind_some,
        Option.some.injEq] at h
      split at h <;> omega
  · split at h <;> omega

/-- `heapify_down`, sdp_fft_padded_size.cpp:29-50. -/
def down (a : Arr Int) (index : Nat) : Option (Arr Int) :=
  match h : smallest a index with
  | none => none
  | some s =>
    if hne : s ≠ index then
      match h2 : swap a index s with
      | none => none
      | some a' => down a' s
    else some a
termination_by a.size - index
decreasing_by
  have := smallest_bounds h hne
  have := swap_size h2
  omega

/-- `heap_extract_min`, sdp_fft_padded_size.cpp:53-59. -/
def extractMin (a : Arr Int) : Option (Int × Arr Int) :=
  (a.read 0).bind fun m =>
  (a.read ((a.size : Int) - 1)).bind fun last =>
  (a.write 0 last).bind fun a =>
  (down ⟨a.size - 1, a.get⟩ 0).bind fun a => some (m, a)

/-- `heap_insert`, sdp_fft_padded_size.cpp:62-84. -/
def insert (a : Arr Int) (value : Int) : Option (Arr Int) :=
  let a : Arr Int := ⟨a.size + 1, fun k => if k = a.size then value else a.get k⟩
  up a (a.size - 1)

/-- Conversion of an `int64_t` to `int`, sdp_fft_padded_size.cpp:126. -/
def toInt32 (x : Int) : Int := (x + 2 ^ 31) % 2 ^ 32 - 2 ^ 31

/-- Outcome of one pass through the main loop. -/
inductive Step
  | more (heap : Arr Int) (prev next : Int)
  | done (next : Int)

/-- The loop body, sdp_fft_padded_size.cpp:108-124. -/
def step (n : Int) (heap : Arr Int) (prev next : Int) : Option Step :=
  if heap.size > 0 then
    (extractMin heap).bind fun r =>
      if r.1 ≥ n then some (.done r.1)
      else if r.1 = prev then some (.more r.2 prev r.1)
      else
        (loop (fun h (p : Int) => if r.1 * p ≤ n * 2 then insert h (r.1 * p) else some h) r.2
          [2, 3, 5, 7, 11]).bind fun h => some (.more h r.1 r.1)
  else some (.done next)

/-- The main loop, at most `fuel` passes; `none` also when the fuel runs out. -/
def run (n : Int) : Nat → Arr Int → Int → Int → Option Int
  | 0, _, _, _ => none
  | fuel + 1, heap, prev, next =>
    (step n heap prev next).bind fun
      | .done r => some r
      | .more heap prev next => run n fuel heap prev next

/-- `sdp_fft_padded_size` after the computation of the padded `n`, with a bound on the number
of passes, sdp_fft_padded_size.cpp:87-127. -/
def paddedFrom (fuel : Nat) (n : Int) : Option Int :=
  (insert ⟨0, fun _ => 0⟩ 2).bind fun heap =>
  (run n fuel heap 0 0).bind fun next => some (toInt32 next)

/-- `sdp_fft_padded_size`, sdp_fft_padded_size.cpp:87-127.  Simplification: exact product. -/
noncomputable def paddedSize (fuel : Nat) (n : Int) (padding : ℝ) : Option Int :=
  paddedFrom fuel ⌈(n : ℝ) * padding⌉

/-! ## `sdp_good_size_complex` -/

/-- Outcome of a piece of `sdp_good_size_complex`: the function has returned, or the loop ended
with the given `best_factor`. -/
inductive Good
  | ret (r : Nat)
  | best (b : Nat)
deriving DecidableEq, Repr

/-- The `while (x < n) x *= 2` loop, sdp_gridder_uvw_es_fft_utils.cpp:193-196; started from 0
it would not terminate. -/
def doubleUp (n x : Nat) : Option Nat :=
  if h0 : x = 0 then none
  else if x < n then doubleUp n (2 * x) else some x
termination_by n - x

/-- The `for (;;)` loop, sdp_gridder_uvw_es_fft_utils.cpp:197-213. -/
def search (n x best : Nat) : Option Good :=
  if h0 : x = 0 then none
  else if x < n then search n (3 * x) best
  else if n < x then
    let best := if x < best then x else best
    if h1 : x % 2 = 1 then some (.best best) else search n (x / 2) best
  else some (.ret n)
termination_by (padicValNat 2 x, n - x)
decreasing_by
  · have : padicValNat 2 (3 * x) = padicValNat 2 x := by
      rw [padicValNat.mul (by norm_num) h0, padicValNat.eq_zero_of_not_dvd (by norm_num)]; simp
    rw [this]
    apply Prod.Lex.right
    omega
  · apply Prod.Lex.left
    have : padicValNat 2 x = padicValNat 2 (2 * (x / 2)) := by congr 1; omega
    rw [this, padicValNat.mul (by norm_num) (by omega), padicValNat.self (by norm_num)]
    omega

/-- `for (f = start; f < best_factor; f *= m) body`, where the body may lower `best_factor` or
return; at most `fuel` passes. -/
def mulLoop (m : Nat) (body : Nat → Nat → Option Good) : Nat → Nat → Nat → Option Good
  | 0, f, best => if f < best then none else some (.best best)
  | fuel + 1, f, best =>
    if f < best then
      (body f best).bind fun
        | .ret r => some (.ret r)
        | .best b => mulLoop m body fuel (f * m) b
    else some (.best best)

/-- `sdp_good_size_complex`, sdp_gridder_uvw_es_fft_utils.cpp:181-218.  Simplification: `int`
arithmetic without overflow (all intermediate values are below `22 * n`). -/
def goodSize (n : Int) : Option Int :=
  if n ≤ 12 then some n else
    let N := n.toNat
    (mulLoop 11 (fun f11 best => mulLoop 7 (fun f117 best => mulLoop 5 (fun f1175 best =>
      (doubleUp N f1175).bind fun x => search N x best) (2 * N) f117 best) (2 * N) f11 best)
      (2 * N) 1 (2 * N)).bind fun
    | .ret r => some (r : Int)
    | .best b => some (b : Int)

end Sdp.Sizes
