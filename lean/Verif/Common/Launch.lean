import Mathlib.Data.List.Nodup
import Mathlib.Data.List.Perm.Basic
import Verif.Common.Loops

/-!
# GPU launches

`sdp_launch_cuda_kernel` with `ceil(n / t)` blocks of `t` threads starts at least `n` threads;
kernels return at once in threads of index `n` or more.
-/

namespace Sdp

/-- Number of blocks: `(n + t - 1) / t`. -/
def blocks (n t : Nat) : Nat := (n + t - 1) / t

theorem le_blocks (n t : Nat) (h : 0 < t) : n ≤ blocks n t * t := by
  unfold blocks
  have h1 := Nat.div_add_mod (n + t - 1) t
  have h2 := Nat.mod_lt (n + t - 1) h
  rw [Nat.mul_comm] at h1
  omega

theorem lt_blocks {n t q : Nat} (h : 0 < t) : q < blocks n t ↔ t * q < n := by
  unfold blocks
  rw [← Nat.succ_le_iff, Nat.le_div_iff_mul_le h, Nat.succ_mul, Nat.mul_comm]
  omega

/-- The threads of a one-dimensional launch, in any order, that do not return at once. -/
theorem launch1 {n total : Nat} (h : n ≤ total) {order : List Nat} (ho : order.Perm (List.range total)) :
    (order.filter fun i : Nat => decide (i < n)).Perm (List.range n) := by
  refine (ho.filter _).trans ?_
  rw [List.perm_ext_iff_of_nodup (List.nodup_range.filter _) List.nodup_range]
  intro i
  rw [List.mem_filter, List.mem_range, List.mem_range, decide_eq_true_iff]
  omega

/-- The threads of a two-dimensional launch, in any order, that do not return at once. -/
theorem launch2 {m n tm tn : Nat} (hm : m ≤ tm) (hn : n ≤ tn) {order : List (Nat × Nat)}
    (ho : order.Perm (nest2 tm tn)) :
    (order.filter fun p : Nat × Nat => decide (p.1 < m ∧ p.2 < n)).Perm (nest2 m n) := by
  refine (ho.filter _).trans ?_
  rw [List.perm_ext_iff_of_nodup ((nest2_nodup _ _).filter _) (nest2_nodup _ _)]
  intro p
  rw [List.mem_filter, mem_nest2, mem_nest2, decide_eq_true_iff]
  omega

/-- The threads of a three-dimensional launch, in any order, that do not return at once. -/
theorem launch3 {l m n tl tm tn : Nat} (hl : l ≤ tl) (hm : m ≤ tm) (hn : n ≤ tn)
    {order : List (Nat × Nat × Nat)} (ho : order.Perm (nest3 tl tm tn)) :
    (order.filter fun p : Nat × Nat × Nat => decide (p.1 < l ∧ p.2.1 < m ∧ p.2.2 < n)).Perm (nest3 l m n) := by
  refine (ho.filter _).trans ?_
  rw [List.perm_ext_iff_of_nodup ((nest3_nodup _ _ _).filter _) (nest3_nodup _ _ _)]
  intro p
  rw [List.mem_filter, mem_nest3, mem_nest3, decide_eq_true_iff]
  omega

theorem flatMap_perm {α β : Type} {l l' : List α} (h : l.Perm l') (f : α → List β) :
    (l.flatMap f).Perm (l'.flatMap f) := h.flatMap_right f

end Sdp
