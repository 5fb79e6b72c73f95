import Verif.Width.Image
import Mathlib.Tactic.Ring
import Mathlib.Tactic.Common

/-
Lemmas: when C integer arithmetic gives the mathematical result.
-/
namespace Sdp.Width

theorem wrap_of_fits (t : Ty) (v : Nat) (h : (v : Int) ≤ t.hi) :
    t.wrap v = v := by
  unfold Ty.wrap
  rw [Int.emod_eq_of_lt (by cases t <;> simp only [Ty.lo] <;> omega)
    (by cases t <;> simp only [Ty.lo, Ty.hi] at * <;> omega)]
  omega

theorem fit_of_fits (t : Ty) (v : Nat) (h : (v : Int) ≤ t.hi) :
    fit t v = lit t v := by
  unfold fit
  cases hs : t.signed
  · simp only [Bool.false_eq_true, if_false, wrap_of_fits t v h, lit]
  · simp only [if_true]
    rw [if_pos ⟨by cases t <;> simp only [Ty.lo] <;> omega, h⟩]
    rfl

theorem mul_lit (s t : Ty) (a b : Nat) (ha : (a : Int) ≤ (s.join t).hi)
    (hb : (b : Int) ≤ (s.join t).hi)
    (h : ((a * b : Nat) : Int) ≤ (s.join t).hi) :
    lit s a * lit t b = lit (s.join t) ((a * b : Nat) : Int) := by
  show arith (· * ·) (lit s a) (lit t b) = _
  unfold arith lit
  simp only [Option.bind_some, wrap_of_fits _ _ ha, wrap_of_fits _ _ hb]
  rw [← Int.natCast_mul, fit_of_fits _ _ h]
  rfl

theorem add_lit (s t : Ty) (a b : Nat)
    (h : ((a + b : Nat) : Int) ≤ (s.join t).hi) :
    lit s a + lit t b = lit (s.join t) ((a + b : Nat) : Int) := by
  show arith (· + ·) (lit s a) (lit t b) = _
  unfold arith lit
  have ha : (a : Int) ≤ (s.join t).hi := by omega
  have hb : (b : Int) ≤ (s.join t).hi := by omega
  simp only [Option.bind_some, wrap_of_fits _ _ ha, wrap_of_fits _ _ hb]
  rw [← Int.natCast_add, fit_of_fits _ _ h]
  rfl

theorem sub_lit (s t : Ty) (a b : Nat) (ha : (a : Int) ≤ (s.join t).hi)
    (h : b ≤ a) :
    lit s a - lit t b = lit (s.join t) ((a - b : Nat) : Int) := by
  show arith (· - ·) (lit s a) (lit t b) = _
  unfold arith lit
  have hb : (b : Int) ≤ (s.join t).hi := by omega
  simp only [Option.bind_some, wrap_of_fits _ _ ha, wrap_of_fits _ _ hb]
  rw [← Int.natCast_sub h, fit_of_fits _ _ (by omega)]
  rfl

theorem as_lit (t s : Ty) (v : Nat) (h : (v : Int) ≤ t.hi) :
    as t (lit s v) = lit t v := by
  simp only [as, lit, Option.bind_some, wrap_of_fits t v h]

/-- One step of a row-major index: `n * x + i` with `x < m` and `i < n` is a
number below `m * n`. -/
theorem step_lit (tn tx ti : Ty) (m n x i : Nat) (hx : x < m) (hi : i < n)
    (h1 : ((m * n : Nat) : Int) ≤ (tn.join tx).hi)
    (h2 : ((m * n : Nat) : Int) ≤ ((tn.join tx).join ti).hi) :
    lit tn n * lit tx x + lit ti i =
      lit ((tn.join tx).join ti) ((x * n + i : Nat) : Int) := by
  have hlt : x * n + i < m * n := by
    calc x * n + i < x * n + n := by omega
      _ = (x + 1) * n := by ring
      _ ≤ m * n := Nat.mul_le_mul_right _ hx
  have hxn : x ≤ x * n := Nat.le_mul_of_pos_right _ (by omega)
  have hnm : n ≤ m * n := Nat.le_mul_of_pos_left _ (by omega)
  rw [mul_lit tn tx n x (by omega) (by omega) (by rw [Nat.mul_comm]; omega)]
  rw [add_lit _ _ _ _ (by rw [Nat.mul_comm]; omega), Nat.mul_comm]

theorem step_lt (m n x i : Nat) (hx : x < m) (hi : i < n) :
    x * n + i < m * n := by
  calc x * n + i < x * n + n := by omega
    _ = (x + 1) * n := by ring
    _ ≤ m * n := Nat.mul_le_mul_right _ hx

theorem touch_lit (a : String) (t : Ty) (v : Int) :
    touch a (lit t v) = some [(a, v)] := rfl

theorem seq_some (a b : List Acc) : (some a ;; some b) = some (a ++ b) := rfl

theorem iters_some (body : Nat → Trace) (f : Nat → List Acc) (n : Nat)
    (h : ∀ i, i < n → body i = some (f i)) :
    iters body n = some ((List.range n).flatMap f) := by
  induction n with
  | zero => rfl
  | succ n ih =>
    simp only [iters, ih (fun i hi => h i (by omega)), h n (by omega), seq_some,
      List.range_succ, List.flatMap_append, List.flatMap_cons, List.flatMap_nil,
      List.append_nil]

theorem iters_none (body : Nat → Trace) (n i : Nat) (hi : i < n)
    (h : body i = none) : iters body n = none := by
  induction n with
  | zero => omega
  | succ n ih =>
    simp only [iters]
    by_cases hn : i < n
    · rw [ih hn]; rfl
    · have : i = n := by omega
      subst this
      rw [h]
      cases iters body i <;> rfl

theorem loop_lit (t s : Ty) (n : Nat) (body : Num → Trace)
    (f : Nat → List Acc) (hn : (n : Int) ≤ t.hi)
    (h : ∀ i, i < n → body (lit t i) = some (f i)) :
    loop t (lit s n) body = some ((List.range n).flatMap f) := by
  simp only [loop, lit, Option.bind_some]
  rw [if_pos hn]
  exact iters_some _ _ _ h

theorem loop_none (t s : Ty) (n i : Nat) (body : Num → Trace) (hi : i < n)
    (h : body (lit t i) = none) : loop t (lit s n) body = none := by
  simp only [loop, lit, Option.bind_some]
  split
  · exact iters_none _ _ i hi h
  · rfl

theorem loop_overflow (t s : Ty) (n : Nat) (body : Num → Trace)
    (hn : t.hi < (n : Int)) : loop t (lit s n) body = none := by
  simp only [loop, lit, Option.bind_some]
  rw [if_neg (by omega)]

theorem loopFrom_lit (t s s' : Ty) (a n : Nat) (body : Num → Num → Trace)
    (f : Nat → List Acc) (hn : ((a + n : Nat) : Int) ≤ t.hi)
    (h : ∀ i, i < n → body (lit t ((a + i : Nat) : Int)) (lit t i) =
      some (f i)) :
    loopFrom t (lit s a) (lit s' ((a + n : Nat) : Int)) body =
      some ((List.range n).flatMap f) := by
  unfold loopFrom
  rw [as_lit t s a (by omega)]
  simp only [lit, Option.bind_some]
  rw [if_pos ⟨hn, by omega⟩]
  have : (((a + n : Nat) : Int) - a).toNat = n := by omega
  rw [this]
  refine iters_some _ _ _ fun i hi => ?_
  have e := h i hi
  simp only [lit, Int.natCast_add] at e ⊢
  exact e

theorem seq_none_left (b : Trace) : (none ;; b) = none := rfl

theorem seq_none_right (a : Trace) : (a ;; none) = none := by
  cases a <;> rfl

theorem whenLt_lit (s t : Ty) (a b : Nat) (body : Trace)
    (ha : (a : Int) ≤ (s.join t).hi) (hb : (b : Int) ≤ (s.join t).hi) :
    whenLt (lit s a) (lit t b) body = if a < b then body else skip := by
  simp only [whenLt, lit, Option.bind_some, wrap_of_fits _ _ ha,
    wrap_of_fits _ _ hb, Int.ofNat_lt]

theorem flatMap_ext {l : List Nat} {f g : Nat → List Acc}
    (h : ∀ i ∈ l, f i = g i) : l.flatMap f = l.flatMap g := by
  induction l with
  | nil => rfl
  | cons a l ih =>
    rw [List.flatMap_cons, List.flatMap_cons, h a (by simp),
      ih (fun i hi => h i (List.mem_cons_of_mem _ hi))]

/-- Threads beyond the end do nothing. -/
theorem flatMap_guard (f : Nat → List Acc) (n m : Nat) (h : n ≤ m) :
    (List.range m).flatMap (fun g => if g < n then f g else []) =
      (List.range n).flatMap f := by
  induction m, h using Nat.le_induction with
  | base =>
    refine flatMap_ext fun g hg => ?_
    rw [if_pos (List.mem_range.1 hg)]
  | succ m hm ih =>
    rw [List.range_succ, List.flatMap_append, ih, List.flatMap_cons,
      List.flatMap_nil, if_neg (by omega), List.append_nil, List.append_nil]

end Sdp.Width
