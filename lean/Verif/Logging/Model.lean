/-!
# Logging: model

`/repo/src/ska-sdp-func/utility/sdp_logging.c` and `sdp_logging.h`.  Messages are formatted text; times are microseconds
since the epoch.  Not modelled: the conversion of seconds to a calendar date, and the branch for a time stamp of more
than 47 characters, which no calendar date has.
-/

namespace Sdp.Logging

/-- `sdp_LogLevel`, sdp_logging.h:75-83. -/
inductive Level | undef | debug | info | warning | error | critical
  deriving DecidableEq, Repr

/-- Values of the enumeration, sdp_logging.h:75-83. -/
def Level.num : Level → Nat
  | .undef => 0
  | .debug => 1
  | .info => 2
  | .warning => 3
  | .error => 4
  | .critical => 5

/-- Level as text, sdp_logging.c:78-102. -/
def Level.text : Level → List Char
  | .undef => ['U', 'N', 'D', 'E', 'F']
  | .debug => ['D', 'E', 'B', 'U', 'G']
  | .info => ['I', 'N', 'F', 'O']
  | .warning => ['W', 'A', 'R', 'N', 'I', 'N', 'G']
  | .error => ['E', 'R', 'R', 'O', 'R']
  | .critical => ['C', 'R', 'I', 'T', 'I', 'C', 'A', 'L']

inductive Stream | out | err
  deriving DecidableEq, Repr

/-- One call of `sdp_log_message` (sdp_logging.c:15-23): arguments, and what the two clocks give in it (L64, L66). -/
structure Call where
  level : Level
  stream : Stream
  func : List Char
  file : List Char
  line : Int
  text : List Char
  clock1 : Nat
  clock2 : Nat
  deriving DecidableEq

/-- The line that is printed, sdp_logging.c:108-112: with seconds and milliseconds of the time stamp. -/
structure Line where
  seconds : Nat
  millis : Nat
  level : List Char
  stream : Stream
  func : List Char
  file : List Char
  line : Int
  text : List Char
  deriving DecidableEq

/-- Value of the environment variable: comparisons with `strncmp`, sdp_logging.c:29-51. -/
def parse (e : List Char) : Option Level :=
  if ['d', 'e', 'b', 'u', 'g'].isPrefixOf e ∨ ['D', 'E', 'B', 'U', 'G'].isPrefixOf e then some .debug
  else if ['i', 'n', 'f', 'o'].isPrefixOf e ∨ ['I', 'N', 'F', 'O'].isPrefixOf e then some .info
  else if ['w', 'a', 'r', 'n'].isPrefixOf e ∨ ['W', 'A', 'R', 'N'].isPrefixOf e then some .warning
  else if ['e', 'r', 'r'].isPrefixOf e ∨ ['E', 'R', 'R'].isPrefixOf e then some .error
  else if ['c', 'r', 'i', 't'].isPrefixOf e ∨ ['C', 'R', 'I', 'T'].isPrefixOf e then some .critical
  else none

/-- Assignment of the static variable from the environment, sdp_logging.c:28-55. -/
def assign (env : Option (List Char)) (filter : Level) : Level :=
  match env with
  | none => .info
  | some e => (parse e).getD filter

/-- Time stamp and line, sdp_logging.c:62-112.  The seconds are those of `time`, the milliseconds those of
`gettimeofday`, which is called later. -/
def Call.made (c : Call) : Line :=
  ⟨c.clock1 / 1000000, c.clock2 % 1000000 / 1000, c.level.text, c.stream, c.func, c.file, c.line, c.text⟩

/-- `sdp_log_message`, sdp_logging.c:15-114: new value of the static variable, and the line if one is printed. -/
def logMessage (env : Option (List Char)) (filter : Level) (c : Call) : Level × Option Line :=
  let filter := if filter = .undef then assign env filter else filter
  if c.level.num < filter.num then (filter, none) else (filter, some c.made)

/-- What a process does with the environment and the log. -/
inductive Op
  | setenv (value : Option (List Char))
  | log (c : Call)

/-- Lines printed in a history on one thread, from a value of the environment and of the static variable
(sdp_logging.c:11). -/
def run : Option (List Char) → Level → List Op → List Line
  | _, _, [] => []
  | _, filter, .setenv v :: ops => run v filter ops
  | env, filter, .log c :: ops =>
    (logMessage env filter c).2.toList ++ run env (logMessage env filter c).1 ops

/-! ## Threads -/

/-- Output of one call of `fprintf` (sdp_logging.c:108-112), which no other call interrupts. -/
inductive Piece
  | header (c : Call)
  | text (c : Call)
  | newline
  deriving DecidableEq

/-- Where a thread is in its first remaining call: at the test of the variable (L26), the assignment (L28-55), the filter
(L59), or one of the outputs (L108-112). -/
inductive At | test | assign | filter | header | text | newline
  deriving DecidableEq

/-- The static variable, what has been printed and by whom, and the calls that each thread still has to make. -/
structure State where
  filter : Level
  out : List (Nat × Piece)
  todo : Nat → List Call × At

def State.set (s : State) (i : Nat) (t : List Call × At) : State :=
  { s with todo := fun j => if j = i then t else s.todo j }

/-- One step of thread `i` (sdp_logging.c:26-112).  Reading and writing the static variable are taken as indivisible,
which the code does not ask for. -/
def step (env : Option (List Char)) (s : State) (i : Nat) : State :=
  match s.todo i with
  | ([], _) => s
  | (c :: cs, .test) => s.set i (c :: cs, if s.filter = .undef then .assign else .filter)
  | (c :: cs, .assign) => { s with filter := assign env s.filter }.set i (c :: cs, .filter)
  | (c :: cs, .filter) => if c.level.num < s.filter.num then s.set i (cs, .test) else s.set i (c :: cs, .header)
  | (c :: cs, .header) => { s with out := s.out ++ [(i, Piece.header c)] }.set i (c :: cs, .text)
  | (c :: cs, .text) => { s with out := s.out ++ [(i, Piece.text c)] }.set i (c :: cs, .newline)
  | (_ :: cs, .newline) => { s with out := s.out ++ [(i, Piece.newline)] }.set i (cs, .test)

/-- Threads with the given calls, one step after the other as in `schedule`. -/
def runThreads (env : Option (List Char)) (calls : Nat → List Call) (schedule : List Nat) : State :=
  schedule.foldl (step env) ⟨.undef, [], fun i => (calls i, .test)⟩

end Sdp.Logging
