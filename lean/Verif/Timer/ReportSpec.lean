import Verif.Timer.Report

/-
Specification for C124: what a report of timers should say.  Independent of the model
of the report; a report is a list of lines.
-/
namespace Sdp.TimerReport

/-- The times of a set of timers.  One that was never made has measured no time. -/
def timesOf : List (Option Rat) → List Rat
  | [] => []
  | none :: l => 0 :: timesOf l
  | some t :: l => t :: timesOf l

/-- `t` is the longest time of a set of timers. -/
def IsLongest (t : Rat) (timers : List (Option Rat)) : Prop :=
  t ∈ timesOf timers ∧ ∀ u ∈ timesOf timers, u ≤ t

/-- `t` is the shortest. -/
def IsShortest (t : Rat) (timers : List (Option Rat)) : Prop :=
  t ∈ timesOf timers ∧ ∀ u ∈ timesOf timers, t ≤ u

/-- `v` is an `a / b` quantile of a list: a member, such that at least that part of the
list is not above it, and at least the rest is not below it. -/
def IsQuantile (a b : Nat) (v : Rat) (l : List Rat) : Prop :=
  v ∈ l ∧ a * l.length ≤ b * l.countP (fun u => decide (u ≤ v)) ∧
  (b - a) * l.length ≤ b * l.countP (fun u => decide (v ≤ u))

mutual
/-- All scopes below one, with depth and name. -/
def below (depth : Nat) : Scope → List (Nat × String × Scope)
  | .mk _ children => belowAll depth children
/-- The scopes of a list and all below them. -/
def belowAll (depth : Nat) : Scopes → List (Nat × String × Scope)
  | .nil => []
  | .cons name scope rest => (depth, name, scope) :: below (depth + 1) scope ++ belowAll depth rest
end

/-- The scopes that a report lists. -/
def entries (l : List Line) : List (Nat × String × Rat) :=
  l.filterMap fun x => match x with
    | .entry d n t _ => some (d, n, t)
    | _ => none

/-- The times listed at one depth. -/
def timesAt (depth : Nat) (l : List Line) : List Rat :=
  l.filterMap fun x => match x with
    | .entry d _ t _ => if d = depth then some t else none
    | _ => none

/-- The times reported as missing at one depth. -/
def missingAt (depth : Nat) (l : List Line) : List Rat :=
  l.filterMap fun x => match x with
    | .unaccounted d t _ => if d = depth then some t else none
    | _ => none

/-- A section of the report says what the time of a scope was spent on: the longest first,
everything or, without a remark, at least 99 parts in 100; percentages are those of
the whole, unless that is 0. -/
def AddsUp (depth : Nat) (total : Rat) (l : List Line) : Prop :=
  (timesAt depth l).Pairwise (fun a b => b ≤ a) ∧
  ((missingAt depth l = [] ∧ 99 / 100 * total ≤ (timesAt depth l).sum) ∨
    ∃ m, missingAt depth l = [m] ∧ (timesAt depth l).sum + m = total) ∧
  (total ≠ 0 → ∀ n t p, Line.entry depth n t p ∈ l → p = some (100 * t / total))

/-- `std::sort` with the comparison of the report: a rearrangement with decreasing
times. -/
def Sorts (order : List Child → List Child) : Prop :=
  ∀ l, (order l).Perm l ∧ ((order l).map Child.time).Pairwise (fun a b => b ≤ a)

end Sdp.TimerReport
