import Mathlib.Algebra.Group.Basic
import Verif.Timer.Model

/-!
# What a timer, and a hierarchy of timers, should report

Independent of the model: only histories of calls with clock readings.
-/

namespace Sdp.TimerSpec

variable {T : Type} [AddCommGroup T]

/-- Is the timer running after this history (most recent call first)?  Queries
do not matter; a timer never started is not running. -/
def running : List (T × TimerOp) → Bool
  | [] => false
  | (_, .query) :: older => running older
  | (_, .pause) :: _ => false
  | (_, .reset) :: _ => false
  | (_, .start) :: _ => true
  | (_, .resume) :: _ => true
  | (_, .restart) :: _ => true

/-- Total time spent running, up to `now`, since the last start or reset: the
sum over consecutive events of the time between them, if the timer was running
in between. -/
def runningTime : List (T × TimerOp) → T → T
  | [], _ => 0
  | (t, op) :: older, now =>
    (if running ((t, op) :: older) then now - t else 0) +
    (if op = .start ∨ op = .reset then 0 else runningTime older t)

/-- No restart is issued while the timer is running. -/
def NoRestartWhileRunning : List (T × TimerOp) → Prop
  | [] => True
  | (_, op) :: older => (op = .restart → running older = false) ∧ NoRestartWhileRunning older

/-- Events of one thread on a hierarchy of timers. -/
inductive Ev (T : Type)
  | push (name : String) (t : T)
  | pop (t : T)

/-- Open scopes of a thread, innermost first, with their entry times, and the
summed duration of the completed executions of every scope path. -/
structure Scopes (T : Type) where
  opened : List (String × T)
  done : TPath → T

def Scopes.empty : Scopes T := ⟨[], fun _ => 0⟩

/-- The path of the innermost open scope. -/
def pathOf (l : List (String × T)) : TPath := l.map Prod.fst

/-- Parenthesis matching: an exit adds (exit time − entry time) of the innermost
open scope to that scope's total. -/
def Scopes.step (s : Scopes T) : Ev T → Scopes T
  | .push n t => { s with opened := (n, t) :: s.opened }
  | .pop t =>
    match s.opened with
    | [] => s
    | (n, t0) :: rest =>
      { opened := rest
        done := fun p => if p = n :: pathOf rest then s.done p + (t - t0) else s.done p }

/-- Entry time of the open scope with this path, if it is open. -/
def openSince : List (String × T) → TPath → Option T
  | [], _ => none
  | (n, t) :: rest, p => if p = n :: pathOf rest then some t else openSince rest p

/-- The time an entry should show at `now`. -/
def Scopes.total (s : Scopes T) (p : TPath) (now : T) : T :=
  s.done p + (match openSince s.opened p with | some t => now - t | none => 0)

end Sdp.TimerSpec

namespace Sdp
open TimerSpec

/-- A call made on a shared hierarchy: thread `i` enters or leaves a scope, or
somebody reads (reports) slot `i` of entry `p`. -/
inductive TEv (T : Type)
  | act (i : Nat) (e : Ev T)
  | read (p : TPath) (i : Nat) (t : T)

section
variable {T : Type} [AddCommGroup T]

/-- The threads' own nestings after a call; reads do not matter. -/
def TimerSpec.stepAll (sc : Nat → Scopes T) : TEv T → Nat → Scopes T
  | .act i e => fun j => if j = i then (sc i).step e else sc j
  | .read .. => sc

def TimerSpec.runAll (sc : Nat → Scopes T) : List (TEv T) → Nat → Scopes T
  | [] => sc
  | e :: es => runAll (stepAll sc e) es

/-- Thread 0 may use any scope name; another thread only scopes for which a slot
with its number has been set up beforehand (`len` = slots set up per entry). -/
def TimerSpec.SlotsReady (len : TPath → Nat) : (Nat → Scopes T) → List (TEv T) → Prop
  | _, [] => True
  | sc, e :: es =>
    (match e with
      | .act i (.push n _) =>
        (i = 0 ∨ i < len (n :: pathOf (sc i).opened))
      | _ => True) ∧ SlotsReady len (stepAll sc e) es

end
end Sdp
