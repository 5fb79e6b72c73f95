import Verif.Plans.Good

/-! # C113: what is claimed of histories of calls on handles -/

namespace Sdp.Plans
variable {P V : Type}

/-- The parameters a handle was made with. -/
def Handle.par : Handle P V → P
  | .pswf h => h.par
  | .tower h => h.par
  | .direct h => h.par
  | .swiftly h => h.par
  | .fft h => h.par
  | .es h => h.par

/-- The kind of a handle. -/
def Handle.kind : Handle P V → Kind
  | .pswf _ => .pswf
  | .tower _ => .tower
  | .direct _ => .direct
  | .swiftly _ => .swiftly
  | .fft _ => .fft
  | .es _ => .es

/-- How many values of the spheroidal function the handle holds. -/
def Handle.samples : Handle P V → Nat
  | .pswf h => h.size
  | _ => 0

/-- W-planes counted by a w-tower plan, for degridding and gridding. -/
def Handle.planes : Handle P V → Int × Int
  | .tower h => h.planes
  | _ => (0, 0)

/-- W-planes a call with `*status = st` adds for handle `i`. -/
def counted (op : Op P) (st : Status) (i : Nat) : Int × Int :=
  match op with
  | .use j _ grid planes => if j = i ∧ st = .success then (if grid then (0, planes) else (planes, 0)) else (0, 0)
  | _ => (0, 0)

/-- The blocks of all handles. -/
def total (l : List (Option (Handle P V))) : Multiset Nat := (l.map made).sum

/-- Before the first call: no handles, `base` allocated by others. -/
def start (base : Multiset Nat) (n : Nat) : State P V := ⟨[], base, n⟩

/-- A history: for each call its `*status` and what fails in it. -/
abbrev History (P : Type) := List (Op P × Status × List Status)

/-- Creations of SwiFTly plans in a history. -/
def swiftlies : History P → Nat
  | [] => 0
  | (.make .swiftly _ _, _) :: cs => swiftlies cs + 1
  | _ :: cs => swiftlies cs

/-- Nothing fails. -/
def Quiet (tape : List Status) : Prop := ∀ t ∈ tape, t = .success

/-- Calls with which tables stay intact: nothing fails while a plan is made, while values are generated or while tables are copied
to the GPU, such a call is not made with an error set, values are asked for after they were generated, and no null pointer
goes to `sdp_pswf_free`. -/
def Calm (s : State P V) (c : Op P × Status × List Status) : Prop :=
  match c.1 with
  | .make k _ _ => Quiet c.2.2 ∧ (k = .tower ∨ k = .direct → c.2.1 = .success)
  | .use _ gpu _ _ => gpu = true → Quiet (c.2.2.take 6)
  | .coeff _ gpu => gpu = true → c.2.1 = .success ∧ Quiet c.2.2
  | .values i gpu => (gpu = true → c.2.1 = .success ∧ Quiet c.2.2) ∧
      ∀ h : Handle P V, s.handles[i]? = some (some h) → h.kind = .pswf → h.samples ≠ 0
  | .generate _ _ => Quiet c.2.2
  | .free _ => True
  | .freeNull k => k ≠ .pswf

/-- All calls of a history are such. -/
def CalmRun (T : Tables P V) (s : State P V) : History P → Prop
  | [] => True
  | c :: cs => Calm s c ∧ ∀ r, step T s c.1 c.2.1 c.2.2 = some r → CalmRun T r.1 cs

/-- The tables a call that uses the handle is to find. -/
def expected (T : Tables P V) : Handle P V → List V
  | .pswf _ => []
  | .tower h => [T.uv h.par, T.w h.par, T.pattern h.par]
  | .direct h => [T.window h.par]
  | .swiftly h => [T.inverse h.par, T.window h.par]
  | .fft _ => []
  | .es h => [T.quad h.par, T.quad h.par, T.quad h.par, T.quad h.par]

/-- What a call is to find in the state `s`. -/
def found (T : Tables P V) (s : State P V) (op : Op P) : List V :=
  match op with
  | .use i _ _ _ =>
    match s.handles[i]? with
    | some (some h) => expected T h
    | _ => []
  | .coeff i _ =>
    match s.handles[i]? with
    | some (some (.pswf h)) => [T.coeff h.par]
    | _ => []
  | .values i _ =>
    match s.handles[i]? with
    | some (some (.pswf h)) => [T.values h.par h.size]
    | _ => []
  | _ => []

end Sdp.Plans
