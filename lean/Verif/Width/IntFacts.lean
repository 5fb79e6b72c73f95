import Verif.Width.ImageProps
import Verif.Width.Spec2
import Verif.Width.Beam
import Verif.Width.Es
import Verif.Width.Tile

/-
Arithmetic in machine integers on values that may be negative.
-/
namespace Sdp.Width

theorem wrap_range (t : Ty) (v : Int) (h1 : t.lo ≤ v) (h2 : v ≤ t.hi) : t.wrap v = v := by
  unfold Ty.wrap
  rw [Int.emod_eq_of_lt (by omega) (by omega)]
  omega

theorem fit_range (t : Ty) (v : Int) (h1 : t.lo ≤ v) (h2 : v ≤ t.hi) : fit t v = lit t v := by
  unfold fit
  cases hs : t.signed
  · simp only [Bool.false_eq_true, if_false, wrap_range t v h1 h2, lit]
  · simp only [if_true]
    rw [if_pos ⟨h1, h2⟩]
    rfl

/-- A value of type `int`. -/
def In32 (v : Int) : Prop := -2147483648 ≤ v ∧ v ≤ 2147483647

theorem op32 (f : Int → Int → Int) (a b : Int) (ha : In32 a) (hb : In32 b) (h : In32 (f a b)) :
    arith f (lit .i32 a) (lit .i32 b) = lit .i32 (f a b) := by
  unfold arith lit
  simp only [Option.bind_some, Ty.join]
  rw [wrap_range .i32 a ha.1 ha.2, wrap_range .i32 b hb.1 hb.2, fit_range .i32 _ h.1 h.2]
  rfl

theorem add32 (a b : Int) (ha : In32 a) (hb : In32 b) (h : In32 (a + b)) :
    lit .i32 a + lit .i32 b = lit .i32 (a + b) := op32 (· + ·) a b ha hb h

theorem sub32 (a b : Int) (ha : In32 a) (hb : In32 b) (h : In32 (a - b)) :
    lit .i32 a - lit .i32 b = lit .i32 (a - b) := op32 (· - ·) a b ha hb h

theorem mul32 (a b : Int) (ha : In32 a) (hb : In32 b) (h : In32 (a * b)) :
    lit .i32 a * lit .i32 b = lit .i32 (a * b) := op32 (· * ·) a b ha hb h

theorem as32 (t : Ty) (v : Int) (h : In32 v) : as .i32 (lit t v) = lit .i32 v := by
  simp only [as, lit, Option.bind_some, wrap_range .i32 v h.1 h.2]

theorem whenLt32 (a b : Int) (ha : In32 a) (hb : In32 b) (body : Trace) :
    whenLt (lit .i32 a) (lit .i32 b) body = if a < b then body else skip := by
  have e1 := wrap_range .i32 a ha.1 ha.2
  have e2 := wrap_range .i32 b hb.1 hb.2
  simp only [whenLt, lit, Option.bind_some, Ty.join, e1, e2]

theorem whenLe32 (a b : Int) (ha : In32 a) (hb : In32 b) (body : Trace) :
    whenLe (lit .i32 a) (lit .i32 b) body = if a ≤ b then body else skip := by
  have e1 := wrap_range .i32 a ha.1 ha.2
  have e2 := wrap_range .i32 b hb.1 hb.2
  simp only [whenLe, lit, Option.bind_some, Ty.join, e1, e2]

theorem num_lit (v : Int) : num v = lit .i32 v := rfl

theorem rowMajor5 (n m l o r i j k p q : Nat) :
    rowMajor [(n, i), (m, j), (l, k), (o, p), (r, q)] = (((i * m + j) * l + k) * o + p) * r + q := by
  simp [rowMajor]

/-- Touching an element and the following ones. -/
theorem polTouch_lit (P : Nat) (hP : P = 1 ∨ P = 4) (ex ey : Bool) (a : String) (q : Nat)
    (h : q * P + P ≤ 2147483647) :
    polTouch P ex ey a (lit .i32 ((q * P : Nat) : Int)) =
      some (pols P ex ey fun p => (a, ((q * P + p : Nat) : Int))) := by
  unfold polTouch pols
  rcases hP with rfl | rfl
  · rfl
  · rw [if_neg (show ¬ (4 = 1) by decide), if_neg (show ¬ (4 = 1) by decide)]
    have e : ∀ k : Nat, k < 4 → touch a (lit .i32 ((q * 4 : Nat) : Int) + num (k : Int)) =
        some [(a, ((q * 4 + k : Nat) : Int))] := by
      intro k hk
      rw [num_lit, add32 _ _ ⟨by omega, by omega⟩ ⟨by omega, by omega⟩ ⟨by omega, by omega⟩, touch_lit,
        ← Int.natCast_add]
    have e0 : touch a (lit .i32 ((q * 4 : Nat) : Int) + num 0) = _ := e 0 (by omega)
    have e1 : touch a (lit .i32 ((q * 4 : Nat) : Int) + num 1) = _ := e 1 (by omega)
    have e2 : touch a (lit .i32 ((q * 4 : Nat) : Int) + num 2) = _ := e 2 (by omega)
    have e3 : touch a (lit .i32 ((q * 4 : Nat) : Int) + num 3) = _ := e 3 (by omega)
    rw [e0, e1, e2, e3]
    cases ex <;> cases ey <;> rfl

end Sdp.Width
