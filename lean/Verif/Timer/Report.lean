import Mathlib.Algebra.Order.Field.Rat

/-
The report of the timer hierarchy, src/ska-sdp-func/utility/sdp_timer.cpp:182-306 and
414-422 (property C124).  Times are exact rational numbers instead of `double`, and are
those of timers that stand still while the report is made (the timer of the root
runs, but is read only once).  Formatting of numbers is not modelled.
-/
namespace Sdp.TimerReport

mutual
/-- `sdp_TimerNode`, src/ska-sdp-func/utility/sdp_timer.cpp:194-200: the elapsed times of
its timers (`none` is a NULL timer) and its children in the order of the map. -/
inductive Scope where
  | mk (timers : List (Option Rat)) (children : Scopes)
/-- `std::map<string, sdp_TimerNode>`. -/
inductive Scopes where
  | nil
  | cons (name : String) (scope : Scope) (rest : Scopes)
end

/-- The timers of a scope. -/
def Scope.timers : Scope → List (Option Rat)
  | .mk timers _ => timers

/-- `child.size() == 0`. -/
def Scope.leaf : Scope → Bool
  | .mk _ .nil => true
  | _ => false

/-- Elapsed times, 0 for a NULL timer:
src/ska-sdp-func/utility/sdp_timer.cpp:238-242 and 284-288. -/
def times (timers : List (Option Rat)) : List Rat := timers.map fun t => t.getD 0

/-- `get_max_time`, src/ska-sdp-func/utility/sdp_timer.cpp:236-244.  Without a timer
`std::max_element` returns the end, which must not be dereferenced: `none`. -/
def longest (timers : List (Option Rat)) : Option Rat :=
  match times timers with
  | [] => none
  | t :: ts => some (ts.foldl max t)

/-- `100 * (TIME) / total`, src/ska-sdp-func/utility/sdp_timer.cpp:185; `none` is a
division by zero. -/
def percent (t total : Rat) : Option Rat := if total = 0 then none else some (100 * t / total)

/-- The figures of a scope with several timers. -/
inductive Figure where
  | minimum | maximum | median
deriving DecidableEq, Repr

/-- The lines of the report: `depth` stands for the indentation and `part` for the
percentage. -/
inductive Line where
  | title (name : String) (time : Rat)
  | entry (depth : Nat) (name : String) (time : Rat) (part : Option Rat)
  | figure (depth : Nat) (which : Figure) (time : Rat) (part : Option Rat)
  | interquartile (depth : Nat) (time : Rat)
  | unaccounted (depth : Nat) (time : Rat) (part : Option Rat)
deriving DecidableEq, Repr

/-- What is known of a child when its line is written: name, longest time
(src/ska-sdp-func/utility/sdp_timer.cpp:260-267), timers and its own report. -/
structure Child where
  name : String
  time : Rat
  timers : List (Option Rat)
  leaf : Bool
  sub : List Line
deriving DecidableEq, Repr

/-- The figures of a set of timers:
src/ska-sdp-func/utility/sdp_timer.cpp:281-298.  Of the sorted times those at 0, the end,
`num / 2`, `3 * quart` and `quart` are used. -/
def figures (depth : Nat) (total : Rat) (timers : List (Option Rat)) : List Line :=
  let time := (times timers).mergeSort (fun a b => decide (a ≤ b))
  let num := time.length
  let quart := num / 4
  let at' := fun (i : Nat) => time.getD i 0
  [.figure depth .minimum (at' 0) (percent (at' 0) total),
    .figure depth .maximum (at' (num - 1)) (percent (at' (num - 1)) total),
    .figure depth .median (at' (num / 2)) (percent (at' (num / 2)) total),
    .interquartile depth (at' (3 * quart) - at' quart)]

/-- The lines of one child: src/ska-sdp-func/utility/sdp_timer.cpp:274-303. -/
def childLines (depth : Nat) (total : Rat) (c : Child) : List Line :=
  [.entry depth c.name c.time (percent c.time total)] ++
  (if c.timers.length > 1 then figures depth total c.timers else []) ++
  if c.leaf then [] else c.sub

/-- The lines of all children in the order `order` puts them (`std::sort`, which
may put equal times in any order) and the time that is missing:
src/ska-sdp-func/utility/sdp_timer.cpp:268-304. -/
def body (order : List Child → List Child) (depth : Nat) (total : Rat) (children : List Child) :
    List Line :=
  let sum := ((order children).map Child.time).sum
  (order children).flatMap (childLines depth total) ++
  if sum < 99 / 100 * total then
    [.unaccounted depth (total - sum) (percent (total - sum) total)]
  else []

mutual
/-- `sdp_TimerNode::report` without the title,
src/ska-sdp-func/utility/sdp_timer.cpp:247-305.  `none` is undefined behaviour. -/
def lines (order : List Child → List Child) (depth : Nat) : Scope → Option (List Line)
  | .mk timers children =>
    (longest timers).bind fun total =>
    (gather order depth children).map fun l => body order depth total l
/-- The children of a scope, src/ska-sdp-func/utility/sdp_timer.cpp:260-267, with the
reports that 301 makes of them if they have children. -/
def gather (order : List Child → List Child) (depth : Nat) : Scopes → Option (List Child)
  | .nil => some []
  | .cons name scope rest =>
    (longest scope.timers).bind fun t =>
    (lines order (depth + 1) scope).bind fun sub =>
    (gather order depth rest).map fun l => ⟨name, t, scope.timers, scope.leaf, sub⟩ :: l
end

/-- `sdp_timers_report`, src/ska-sdp-func/utility/sdp_timer.cpp:414-422, with the title
(259). -/
def report (order : List Child → List Child) (name : String) (root : Scope) : Option (List Line) :=
  (longest root.timers).bind fun total => (lines order 0 root).map fun l => .title name total :: l

end Sdp.TimerReport
