import Verif.Mem.StreamProps
import Mathlib.Algebra.BigOperators.Group.List.Basic
/-!
# C108: copies on streams
-/

namespace Sdp.Stream

/-- **C108.** Whatever the device does when, a separated program makes no bad
access; and between two calls every byte has the value the copies called so far
give it, done one after the other, unless an unfinished copy writes it: one by
the device that no later call has waited for. -/
theorem C108_bytes {live : Nat → Option Int} {jobs : List Job} {prog : List Call} (init : Cells)
    (h : List.Forall₂ (Describes live) jobs prog) (hs : Separated jobs) {c : Config}
    (hr : Reach true live (start init prog) c) :
    host true live c ≠ .fault ∧ c.status = .success ∧
    ∃ done rest, jobs = done ++ rest ∧ rest.length = c.todo.length ∧
      (c.blocked = none → ∀ p,
        (∀ x a y, done = x ++ .copy a :: y → a.host = false → a.blocks = false → In p a.dst a.n →
          ∃ j ∈ y, Awaits j a) →
        c.cells p = inOrder done init p) := by
  have hi := inv_reach h hs hr
  refine ⟨(inv_host hi).1, hi.status, ?_⟩
  obtain ⟨done, rest, h1, h2, h3, -, h5⟩ := hi.ex
  refine ⟨done, rest, h1, h2.length_eq, fun hb p hp => ?_⟩
  rw [← h3, replay_frame]
  rintro m hm rfl
  obtain ⟨x, a, y, e1, e2, -, e4, -, e6, -⟩ := h5 hb m hm
  obtain ⟨j, hj, ha⟩ := hp x a y e1 e2.1 e2.2 e4
  exact e6 j hj ha

/-- **C108.** When a separated program is through and the device idle, memory is
as if all the copies had been done one after the other. -/
theorem C108_finished {live : Nat → Option Int} {jobs : List Job} {prog : List Call} (init : Cells)
    (h : List.Forall₂ (Describes live) jobs prog) (hs : Separated jobs) {c : Config}
    (hr : Reach true live (start init prog) c) (ht : c.todo = []) (hp : c.pending = []) :
    c.cells = inOrder jobs init := by
  obtain ⟨done, rest, h1, h2, h3, -, -⟩ := (inv_reach h hs hr).ex
  rw [ht] at h2
  cases h2
  rw [hp] at h3
  rw [h1, List.append_nil]; exact h3

/-- **C108.** Work that CUDA does on one stream (and the default stream) is done
in order, however the copies overlap.  (The property asks this of every copy
called with that stream; see `C108_host_copy_false`.) -/
theorem C108_one_stream_partial {live : Nat → Option Int} {jobs : List Job} {prog : List Call}
    (init : Cells) (h : List.Forall₂ (Describes live) jobs prog) (stream : Option Nat)
    (hs : ∀ a, Job.copy a ∈ jobs → a.host = false ∧ (a.stream = stream ∨ a.stream = none))
    {c : Config} (hr : Reach true live (start init prog) c) (ht : c.todo = [])
    (hp : c.pending = []) : c.cells = inOrder jobs init := by
  refine C108_finished init h ?_ hr ht hp
  clear h hr
  have key : ∀ (l : List Job) (a : Copy),
      (∀ a, Job.copy a ∈ l → a.host = false ∧ (a.stream = stream ∨ a.stream = none)) →
      (a.stream = stream ∨ a.stream = none) → SafeAfter a l := by
    intro l
    induction l with
    | nil => intro a _ _; trivial
    | cons j l ih =>
      intro a hl ha
      refine ⟨fun b hb => Or.inr ?_, Or.inr (ih a (fun b hb => hl b (by simp [hb])) ha)⟩
      obtain ⟨q1, q2⟩ := hl b (by simp [hb])
      refine ⟨q1, ?_⟩
      rcases ha with ha | ha
      · rcases q2 with q2 | q2
        · exact Or.inl (ha.trans q2.symm)
        · exact Or.inr (Or.inr q2)
      · exact Or.inr (Or.inl ha)
  induction jobs with
  | nil => trivial
  | cons j l ih =>
    have hl := fun a ha => hs a (List.mem_cons_of_mem _ ha)
    cases j with
    | copy a => exact ⟨Or.inr (key l a hl (hs a (by simp)).2), ih hl⟩
    | wait s => exact ih hl

/-- **C108.** Nothing is ever stuck: until the program is through and the device
idle, the host or the device can go on. -/
theorem C108_progress {live : Nat → Option Int} {jobs : List Job} {prog : List Call} (init : Cells)
    (h : List.Forall₂ (Describes live) jobs prog) (hs : Separated jobs) {c : Config}
    (hr : Reach true live (start init prog) c) (hn : c.todo ≠ [] ∨ c.pending ≠ []) :
    ∃ c', Step true live c c' := by
  have hi := inv_reach h hs hr
  cases hp : c.pending with
  | cons m l =>
    cases hh : m.held with
    | none => exact ⟨_, .fetch (pre := []) hp rfl hh⟩
    | some v => exact ⟨_, .store (pre := []) hp rfl hh⟩
  | nil =>
    have hnext : host true live c ≠ .stuck := by
      unfold host
      cases hb : c.blocked with
      | some k => simp [hp]
      | none =>
        cases ht : c.todo with
        | nil => simp [ht, hp] at hn
        | cons call todo =>
          cases call with
          | wait s => simp [hp]
          | copy x => simp only [issue]; cases act true live x c.status <;> simp
          | async x s => simp only [issue]; cases act true live x c.status <;> simp
    cases e : host true live c with
    | stuck => exact absurd e hnext
    | fault => exact absurd e (inv_host hi).1
    | next c' => exact ⟨c', .host e⟩

/-- `n` steps. -/
inductive Takes (cuda : Bool) (live : Nat → Option Int) : Nat → Config → Config → Prop where
  | none {c} : Takes cuda live 0 c c
  | more {n a b c} : Takes cuda live n a b → Step cuda live b c → Takes cuda live (n + 1) a c

/-- Steps a call can still cause. -/
def Xfer.work (x : Xfer) : Nat :=
  match x.src with
  | some s => 2 * (s.type.size * x.n).toNat + 2
  | none => 2

/-- Steps a call can still cause. -/
def Call.work : Call → Nat
  | .wait _ => 1
  | .copy x => x.work
  | .async x _ => x.work

/-- Steps left at most. -/
def Config.work (c : Config) : Nat :=
  (c.todo.map Call.work).sum +
    (c.pending.map fun m => if m.held = none then 2 else 1).sum +
    (if c.blocked = none then 0 else 1)

theorem act_dev {cuda : Bool} {live : Nat → Option Int} {x : Xfer} {st : Status} {b : Bool}
    {dp sp : Ptr} {n : Nat} (h : act cuda live x st = .dev b dp sp n) : x.work = 2 * n + 2 := by
  unfold act at h
  split at h
  · cases h
  · split at h
    · split at h
      · split at h
        · cases h
        · simp only at h
          split at h <;> (try split at h) <;> (try split at h) <;> first | cases h | skip
          all_goals simp_all [Xfer.work]
      · cases h
    · cases h

theorem issue_work {cuda : Bool} {live : Nat → Option Int} {c c' : Config} {call : Call}
    {todo : List Call} {x : Xfer} {stream : Option Nat} {sync : Bool} (ht : c.todo = call :: todo)
    (hw : call.work = x.work) (hb : c.blocked = none)
    (h : issue cuda live c todo x stream sync = .next c') : c'.work < c.work := by
  have hpos : 0 < x.work := by unfold Xfer.work; split <;> omega
  have key : ∀ p st cl, (Config.mk cl c.pending p todo st c.blocked).work < c.work := by
    intro p st cl
    simp only [Config.work, ht, List.map_cons, List.sum_cons, hw]; omega
  unfold issue at h
  cases ha : act cuda live x c.status with
  | skip => rw [ha] at h; cases h; exact key _ _ _
  | fail e => rw [ha] at h; cases h; exact key _ _ _
  | ub => rw [ha] at h; cases h
  | host dp sp n => rw [ha] at h; cases h; exact key _ _ _
  | dev b dp sp n =>
    rw [ha] at h; cases h
    have e := act_dev ha
    have hsum : ((bytesOf c.next stream dp sp n).map
        fun m => if m.held = none then 2 else 1).sum = 2 * n := by
      simp [bytesOf, Function.comp_def, Nat.mul_comm]
    simp only [Config.work, ht, List.map_cons, List.sum_cons, hw, List.map_append,
      List.sum_append, hsum, hb, e]
    split <;> simp <;> omega

theorem step_work {cuda : Bool} {live : Nat → Option Int} {c c' : Config}
    (h : Step cuda live c c') : c'.work < c.work := by
  cases h with
  | host h =>
    unfold host at h
    cases hb : c.blocked with
    | some k =>
      rw [hb] at h
      simp only at h
      split at h
      · cases h
      · cases h; simp [Config.work, hb]
    | none =>
      rw [hb] at h
      simp only at h
      cases ht : c.todo with
      | nil => rw [ht] at h; cases h
      | cons call todo =>
        rw [ht] at h
        cases call with
        | wait s =>
          simp only at h
          split at h
          · cases h
          · cases h; simp [Config.work, hb, ht, Call.work]
        | copy x => exact issue_work ht rfl hb h
        | async x s => exact issue_work ht rfl hb h
  | fetch e hr hh => simp [Config.work, e, hh]
  | store e hr hh => simp [Config.work, e, hh]

/-- **C108.** Every execution of every program comes to an end. -/
theorem C108_terminates (cuda : Bool) (live : Nat → Option Int) (init : Cells)
    (prog : List Call) :
    ∃ most, ∀ n c, Takes cuda live n (start init prog) c → n ≤ most := by
  refine ⟨(start init prog).work, fun n c h => ?_⟩
  have : ∀ {n a c}, Takes cuda live n a c → n + c.work ≤ a.work := by
    intro n a c h
    induction h with
    | none => simp
    | more _ st ih => have := step_work st; omega
  have := this h; omega

/-- **C108.** In a build without CUDA copies on streams between host arrays are
plain copies in order, whatever the streams. -/
theorem C108_no_cuda {live : Nat → Option Int} {jobs : List Job} {prog : List Call} (init : Cells)
    (h : List.Forall₂ (Describes live) jobs prog) (hh : ∀ a, Job.copy a ∈ jobs → a.host = true)
    {c : Config} (hr : Reach false live (start init prog) c) :
    c.pending = [] ∧ c.status = .success ∧ host false live c ≠ .fault ∧
    ∃ done rest, jobs = done ++ rest ∧ rest.length = c.todo.length ∧
      c.cells = inOrder done init := by
  have act_host : ∀ {x : Xfer} {d s : Ptr} {n : Nat}, Given live x true d s n →
      act false live x .success = .host d s n := by
    intro x d s n g
    have g' := act_given g
    simp only [true_and, Bool.true_eq_false, false_and, or_false] at g'
    obtain ⟨⟨d', s', pd, ps, hd, hs, hpd, hps, -, -, -, -, -, -, -, lo⟩, -, -, -, -⟩ := g
    obtain ⟨l1, l2⟩ := lo.1 rfl
    unfold act at g' ⊢
    simp only [hd, hs, hpd, hps, l1, l2] at g' ⊢
    exact g'
  suffices hinv : c.pending = [] ∧ c.status = .success ∧ c.blocked = none ∧
      ∃ done rest, jobs = done ++ rest ∧ List.Forall₂ (Describes live) rest c.todo ∧
        c.cells = inOrder done init by
    obtain ⟨i1, i2, i3, done, rest, i4, i5, i6⟩ := hinv
    refine ⟨i1, i2, ?_, done, rest, i4, i5.length_eq, i6⟩
    unfold host
    rw [i3]
    cases ht : c.todo with
    | nil => simp
    | cons call todo =>
      rw [ht] at i5
      cases rest with
      | nil => cases i5
      | cons j rest =>
        rw [List.forall₂_cons] at i5
        cases call with
        | wait s => simp [i1]
        | copy x =>
          cases j with
          | wait s => exact absurd i5.1 (by simp [Describes])
          | copy k =>
            have g := i5.1.1
            rw [hh k (by rw [i4]; simp)] at g
            simp [issue, i2, act_host g]
        | async x s =>
          cases j with
          | wait s => exact absurd i5.1 (by simp [Describes])
          | copy k =>
            have g := i5.1.1
            rw [hh k (by rw [i4]; simp)] at g
            simp [issue, i2, act_host g]
  induction hr with
  | here => exact ⟨rfl, rfl, rfl, [], jobs, rfl, h, rfl⟩
  | step _ st ih =>
    rename_i b c' _
    obtain ⟨i1, i2, i3, done, rest, i4, i5, i6⟩ := ih
    cases st with
    | fetch e => rw [i1] at e; simp at e
    | store e => rw [i1] at e; simp at e
    | host e =>
      unfold host at e
      rw [i3] at e
      cases ht : b.todo with
      | nil => rw [ht] at e; cases e
      | cons call todo =>
        rw [ht] at e i5
        cases rest with
        | nil => cases i5
        | cons j rest =>
          rw [List.forall₂_cons] at i5
          obtain ⟨hj, i5⟩ := i5
          have host_done : ∀ {x : Xfer} {st : Option Nat} {sy : Bool} {k : Copy}, j = .copy k →
              Given live x k.host k.dst k.src k.n →
              issue false live b todo x st sy = .next c' → c'.pending = [] ∧
              c'.status = .success ∧ c'.blocked = none ∧ ∃ done rest, jobs = done ++ rest ∧
              List.Forall₂ (Describes live) rest c'.todo ∧ c'.cells = inOrder done init := by
            rintro x st sy k rfl g e
            rw [hh k (by rw [i4]; simp)] at g
            simp only [issue, i2, act_host g] at e
            cases e
            refine ⟨i1, rfl, i3, done ++ [.copy k], rest, by rw [i4]; simp, i5, ?_⟩
            rw [inOrder_append, ← i6]
            exact memcpy_apply _ _ _ _ _ _ _
          cases call with
          | wait s =>
            cases j with
            | copy k => exact absurd hj (by simp [Describes])
            | wait t =>
              simp [i1] at e
              subst e
              exact ⟨rfl, i2, rfl, done ++ [.wait t], rest, by rw [i4]; simp, i5,
                by rw [inOrder_append, ← i6]; rfl⟩
          | copy x =>
            cases j with
            | wait s => exact absurd hj (by simp [Describes])
            | copy k => exact host_done rfl hj.1 e
          | async x s =>
            cases j with
            | wait s => exact absurd hj (by simp [Describes])
            | copy k => exact host_done rfl hj.1 e

/-- What the copy functions decide about calls they refuse. -/
theorem act_refused (cuda : Bool) (live : Nat → Option Int) (x : Xfer) (status : Status) :
    (status ≠ .success ∨ x.dst = none ∨ x.src = none ∨ (∃ d, x.dst = some d ∧ d.data = none) ∨
        (∃ s, x.src = some s ∧ (s.data = none ∨ s.numElements = 0)) ∨ x.n = 0 →
      act cuda live x status = .skip) ∧
    (∀ d s, x.dst = some d → x.src = some s → d.data ≠ none → s.data ≠ none →
      s.numElements ≠ 0 → x.n ≠ 0 →
      (d.location = .other ∨ s.location = .other ∨
        (cuda = false ∧ (d.location ≠ .cpu ∨ s.location ≠ .cpu)) →
        act cuda live x .success = .fail .memLocation) ∧
      (cuda = true → x.ok = false → d.location ≠ .other → s.location ≠ .other →
        ¬ (d.location = .cpu ∧ s.location = .cpu) →
        act cuda live x .success = .fail .memCopyFailure)) := by
  constructor
  · intro h
    unfold act
    by_cases hs : status = .success
    · rw [if_neg (by simpa using hs)]
      cases hd : x.dst with
      | none => rfl
      | some d =>
        cases hsr : x.src with
        | none => rfl
        | some s =>
          simp only
          cases hdd : d.data with
          | none => rfl
          | some pd =>
            cases hsd : s.data with
            | none => rfl
            | some ps =>
              simp only
              rw [if_pos]
              simp only [hs, hd, hsr, Option.some.injEq, exists_eq_left', hdd, hsd] at h
              simpa using h
    · rw [if_pos hs]
  · intro d s hd hs hdd hsd hne hn
    obtain ⟨pd, hpd⟩ := Option.ne_none_iff_exists'.1 hdd
    obtain ⟨ps, hps⟩ := Option.ne_none_iff_exists'.1 hsd
    unfold act
    simp only [hd, hs, hpd, hps]
    rw [if_neg (by simp), if_neg (by simp [hne, hn])]
    constructor
    · intro h
      cases hdl : d.location <;> cases hsl : s.location <;> cases cuda <;> simp_all
    · intro hc ho h1 h2 h3
      subst hc
      cases hdl : d.location <;> cases hsl : s.location <;> simp_all

/-- **C108.** A copy involving anything but host memory in a build without CUDA,
or a location that is neither host nor device, and a copy CUDA refuses, change
nothing and set the status; with an error already set, a NULL handle, an array
without data or nothing to copy a call does nothing at all. -/
theorem C108_refused (cuda : Bool) (live : Nat → Option Int) (x : Xfer) (c : Config)
    (rest : List Call)
    (hc : c.todo = .copy x :: rest ∨ ∃ s, c.todo = .async x s :: rest) (hb : c.blocked = none) :
    (c.status ≠ .success ∨ x.dst = none ∨ x.src = none ∨ (∃ d, x.dst = some d ∧ d.data = none) ∨
        (∃ s, x.src = some s ∧ (s.data = none ∨ s.numElements = 0)) ∨ x.n = 0 →
      host cuda live c = .next { c with todo := rest }) ∧
    (∀ d s, x.dst = some d → x.src = some s → d.data ≠ none → s.data ≠ none →
      s.numElements ≠ 0 → x.n ≠ 0 → c.status = .success →
      (d.location = .other ∨ s.location = .other ∨
        (cuda = false ∧ (d.location ≠ .cpu ∨ s.location ≠ .cpu)) →
        host cuda live c = .next { c with todo := rest, status := .memLocation }) ∧
      (cuda = true → x.ok = false → d.location ≠ .other → s.location ≠ .other →
        ¬ (d.location = .cpu ∧ s.location = .cpu) →
        host cuda live c = .next { c with todo := rest, status := .memCopyFailure })) := by
  have hh : ∃ st sy, host cuda live c = issue cuda live c rest x st sy := by
    unfold host
    rw [hb]
    rcases hc with hc | ⟨s, hc⟩
    · rw [hc]; exact ⟨_, _, rfl⟩
    · rw [hc]; exact ⟨_, _, rfl⟩
  obtain ⟨st, sy, e⟩ := hh
  rw [e]
  obtain ⟨r1, r2⟩ := act_refused cuda live x c.status
  refine ⟨fun h => by unfold issue; rw [r1 h], ?_⟩
  intro d s hd hs hdd hsd hne hn hst
  obtain ⟨q1, q2⟩ := r2 d s hd hs hdd hsd hne hn
  refine ⟨fun h => ?_, fun h1 h2 h3 h4 h5 => ?_⟩
  · unfold issue; rw [hst, q1 h]
  · unfold issue; rw [hst, q2 h1 h2 h3 h4 h5]

/-- **C108.** Copying an array to the device and back gives the same bytes,
whatever is on either side before. -/
theorem C108_round_trip {live : Nat → Option Int} (init : Cells) {x y : Xfer} {a d b : Ptr}
    {n : Nat} (hx : Given live x false d a n) (hy : Given live y false b d n)
    (h1 : OneHost x) (h2 : OneHost y) {c : Config}
    (hr : Reach true live (start init [.copy x, .copy y]) c) (ht : c.todo = [])
    (hb : c.blocked = none) (i : Nat) (hi : i < n) :
    c.cells ⟨b.block, b.off + i⟩ = init ⟨a.block, a.off + i⟩ := by
  have hn : n ≠ 0 := by omega
  have hd : List.Forall₂ (Describes live)
      [.copy ⟨false, none, true, d, a, n⟩, .copy ⟨false, none, true, b, d, n⟩]
      [.copy x, .copy y] :=
    .cons ⟨hx, rfl, by simp [h1, hn]⟩ (.cons ⟨hy, rfl, by simp [h2, hn]⟩ .nil)
  have hs : Separated
      [.copy ⟨false, none, true, d, a, n⟩, .copy ⟨false, none, true, b, d, n⟩] := by
    refine ⟨Or.inr ⟨?_, Or.inr trivial⟩, Or.inr trivial, trivial⟩
    rintro k ⟨⟩
    exact Or.inr ⟨rfl, Or.inl rfl⟩
  obtain ⟨-, -, done, rest, e, el, hv⟩ := C108_bytes init hd hs hr
  have hrest : rest = [] := by rw [ht] at el; exact List.eq_nil_of_length_eq_zero el
  rw [hrest, List.append_nil] at e
  subst e
  rw [hv hb]
  · simp only [inOrder, Copy.apply]
    rw [if_pos ⟨rfl, by simp only []; omega, by simp only []; omega⟩,
      if_pos ⟨rfl, by simp only []; omega, by simp only []; omega⟩]
    congr 1; simp only [Ptr.mk.injEq, true_and]; omega
  · intro x' k y' e _ hk _
    exfalso
    have : Job.copy k ∈ [Job.copy ⟨false, none, true, d, a, n⟩,
        .copy ⟨false, none, true, b, d, n⟩] := by rw [e]; simp
    simp at this
    rcases this with rfl | rfl <;> cases hk

end Sdp.Stream
