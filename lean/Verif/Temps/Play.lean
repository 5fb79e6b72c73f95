import Verif.Temps.Scripts
import Mathlib.Tactic.Common

/-!
# C114: executions chosen by a list of decisions

Used for examples and counterexamples: `play` follows one execution of those that `Exec` allows.
-/

namespace Sdp.Temps

/-- The next decision; `true` when there are no more. -/
def pop : List Bool → Bool × List Bool
  | [] => (true, [])
  | b :: l => (b, l)

/-- `St.Reach`, computed. -/
def St.reach (s : St) (x : Nat) : Bool :=
  match s.vars x with
  | none => false
  | some i => i.usable && decide (i.desc ∈ s.live) && match i.data with
    | none => true
    | some d => decide (d ∈ s.live)

/-- A loop: `true` for another round. -/
def playLoop (f : List Bool → St → Option (Exit × St × List Bool)) : Nat → List Bool → St → Option (Exit × St × List Bool)
  | n + 1, true :: l, s => match f l s with
    | some (.next, t, l') => playLoop f n l' t
    | some (.brk, t, l') => some (.next, t, l')
    | r => r
  | _, l, s => some (.next, s, l.tail)

/-- One execution. -/
def play : Prog → List Bool → St → Option (Exit × St × List Bool)
  | .nop, l, s => some (.next, s, l)
  | .seq a b, l, s => match play a l s with
    | some (.next, t, l') => play b l' t
    | r => r
  | .null x, l, s => some (.next, s.set x none, l)
  | .make x, l, s =>
    if s.ok then
      if (pop l).1 then some (.next, s.put x 1 (some (s.next + 1)) true, (pop l).2)
      else some (.next, (s.put x 0 none false).err false, (pop l).2)
    else some (.next, s.put x 0 none false, l)
  | .slice x y, l, s => match s.vars y with
    | some i => if i.desc ∈ s.live then some (.next, s.put x 0 i.data i.usable, l) else none
    | none => none
  | .wrap x, l, s => some (.next, s.put x 0 none true, l)
  | .fft x xs, l, s =>
    if s.ok then
      if xs.all s.reach then some (.next, (s.put x 1 none (pop l).1).err (pop l).1, (pop l).2) else some (.fault, s, l)
    else some (.next, s.set x none, l)
  | .pswf x, l, s => some (.next, s.put x 2 none true, l)
  | .grow x, l, s => match s.vars x with
    | some i => if i.desc ∈ s.live then
        some (.next, ((s.more 2).set x (some { i with more := (List.range 2).map (s.next + ·) ++ i.more })).err s.ok, l)
      else none
    | none => none
  | .tower x, l, s => some (.next, (s.put x 3 none s.ok).err s.ok, l)
  | .call xs, l, s =>
    if s.ok then
      if xs.all s.reach then some (.next, s.err (pop l).1, (pop l).2) else some (.fault, s, l)
    else some (.next, s, l)
  | .touch xs, l, s => if xs.all s.reach then some (.next, s, l) else some (.fault, s, l)
  | .free x, l, s => match s.vars x with
    | none => some (.next, s, l)
    | some i => if i.blocks ≤ s.live then some (.next, { s with live := s.live - i.blocks }, l) else some (.fault, s, l)
  | .either a b, l, s => if (pop l).1 then play a (pop l).2 s else play b (pop l).2 s
  | .loop a, l, s => playLoop (play a) l.length l s
  | .ifErr a, l, s => if s.ok then some (.next, s, l) else play a l s
  | .ifOk a, l, s => if s.ok then play a l s else some (.next, s, l)
  | .ret, l, s => some (.ret, s, l)
  | .brk, l, s => some (.brk, s, l)
  | .halt, l, s => some (.halt, s, l)
  | .fn a, l, s => match play a l s with
    | some (.ret, t, l') => some (.next, t, l')
    | r => r

theorem reach_iff (s : St) (x : Nat) : s.reach x = true ↔ s.Reach x := by
  unfold St.reach St.Reach
  cases hx : s.vars x with
  | none => simp
  | some i =>
    cases hd : i.data <;> simp [hd, and_assoc]

theorem all_reach {s : St} {xs : List Nat} (h : xs.all s.reach = true) : ∀ y ∈ xs, s.Reach y :=
  fun y hy => (reach_iff s y).1 (List.all_eq_true.1 h y hy)

theorem not_reach {s : St} {xs : List Nat} (h : ¬ xs.all s.reach = true) : ∃ y ∈ xs, ¬ s.Reach y := by
  by_contra hn
  push Not at hn
  exact h (List.all_eq_true.2 fun y hy => (reach_iff s y).2 (hn y hy))

theorem playLoop_sound {a : Prog} (ih : ∀ l s e t l', play a l s = some (e, t, l') → Exec a s e t) :
    ∀ n l s e t l', playLoop (play a) n l s = some (e, t, l') → Exec (.loop a) s e t := by
  intro n
  induction n with
  | zero =>
    intro l s e t l' h
    unfold playLoop at h
    cases h
    exact .loopEnd
  | succ n hn =>
    intro l s e t l' h
    match l with
    | [] => unfold playLoop at h; cases h; exact .loopEnd
    | false :: l => unfold playLoop at h; cases h; exact .loopEnd
    | true :: l =>
      unfold playLoop at h
      match hp : play a l s with
      | none => rw [hp] at h; cases h
      | some (.next, u, l2) => rw [hp] at h; exact .loopStep (ih _ _ _ _ _ hp) (hn _ _ _ _ _ h)
      | some (.brk, u, l2) => rw [hp] at h; cases h; exact .loopBreak (ih _ _ _ _ _ hp)
      | some (.ret, u, l2) => rw [hp] at h; cases h; exact .loopExit (by decide) (by decide) (ih _ _ _ _ _ hp)
      | some (.halt, u, l2) => rw [hp] at h; cases h; exact .loopExit (by decide) (by decide) (ih _ _ _ _ _ hp)
      | some (.fault, u, l2) => rw [hp] at h; cases h; exact .loopExit (by decide) (by decide) (ih _ _ _ _ _ hp)
      | some (.crash, u, l2) => rw [hp] at h; cases h; exact .loopExit (by decide) (by decide) (ih _ _ _ _ _ hp)

/-- What is followed is an execution. -/
theorem play_sound : ∀ (p : Prog) l s e t l', play p l s = some (e, t, l') → Exec p s e t := by
  intro p
  induction p with
  | nop => intro l s e t l' h; cases h; exact .nop
  | seq a b ia ib =>
    intro l s e t l' h
    simp only [play] at h
    match hp : play a l s with
    | none => rw [hp] at h; cases h
    | some (.next, u, l2) => rw [hp] at h; exact .seq (ia _ _ _ _ _ hp) (ib _ _ _ _ _ h)
    | some (.brk, u, l2) => rw [hp] at h; cases h; exact .cut (by decide) (ia _ _ _ _ _ hp)
    | some (.ret, u, l2) => rw [hp] at h; cases h; exact .cut (by decide) (ia _ _ _ _ _ hp)
    | some (.halt, u, l2) => rw [hp] at h; cases h; exact .cut (by decide) (ia _ _ _ _ _ hp)
    | some (.fault, u, l2) => rw [hp] at h; cases h; exact .cut (by decide) (ia _ _ _ _ _ hp)
    | some (.crash, u, l2) => rw [hp] at h; cases h; exact .cut (by decide) (ia _ _ _ _ _ hp)
  | null x => intro l s e t l' h; cases h; exact .null
  | make x =>
    intro l s e t l' h
    simp only [play] at h
    by_cases ho : s.ok = true
    · rw [if_pos ho] at h
      by_cases hb : (pop l).1 = true
      · rw [if_pos hb] at h; cases h; exact .make ho
      · rw [if_neg hb] at h; cases h; exact .makeFail ho
    · rw [if_neg ho] at h; cases h; exact .makeErr (by simpa using ho)
  | slice x y =>
    intro l s e t l' h
    simp only [play] at h
    split at h
    · next i hi =>
      split at h
      · next hd => cases h; exact .slice hi hd
      · cases h
    · cases h
  | wrap x => intro l s e t l' h; cases h; exact .wrap
  | fft x xs =>
    intro l s e t l' h
    simp only [play] at h
    by_cases ho : s.ok = true
    · rw [if_pos ho] at h
      by_cases hb : xs.all s.reach = true
      · rw [if_pos hb] at h; cases h; exact .fft ho (all_reach hb)
      · rw [if_neg hb] at h; cases h; exact .fftFault ho (not_reach hb)
    · rw [if_neg ho] at h; cases h; exact .fftErr (by simpa using ho)
  | pswf x => intro l s e t l' h; cases h; exact .pswf
  | grow x =>
    intro l s e t l' h
    simp only [play] at h
    split at h
    · next i hi =>
      split at h
      · next hd => cases h; exact .grow id hi hd
      · cases h
    · cases h
  | tower x => intro l s e t l' h; cases h; exact .tower id
  | call xs =>
    intro l s e t l' h
    simp only [play] at h
    by_cases ho : s.ok = true
    · rw [if_pos ho] at h
      by_cases hb : xs.all s.reach = true
      · rw [if_pos hb] at h; cases h; exact .call ho (all_reach hb)
      · rw [if_neg hb] at h; cases h; exact .callFault ho (not_reach hb)
    · rw [if_neg ho] at h; cases h; exact .callErr (by simpa using ho)
  | touch xs =>
    intro l s e t l' h
    simp only [play] at h
    by_cases hb : xs.all s.reach = true
    · rw [if_pos hb] at h; cases h; exact .touch (all_reach hb)
    · rw [if_neg hb] at h; cases h; exact .touchFault (not_reach hb)
  | free x =>
    intro l s e t l' h
    simp only [play] at h
    split at h
    · next hi => cases h; exact .freeNull hi
    · next i hi =>
      split at h
      · next hd => cases h; exact .free hi hd
      · next hd => cases h; exact .freeFault hi hd
  | either a b ia ib =>
    intro l s e t l' h
    simp only [play] at h
    by_cases hb : (pop l).1 = true
    · rw [if_pos hb] at h; exact .left (ia _ _ _ _ _ h)
    · rw [if_neg hb] at h; exact .right (ib _ _ _ _ _ h)
  | loop a ia =>
    intro l s e t l' h
    exact playLoop_sound ia _ _ _ _ _ _ h
  | ifErr a ia =>
    intro l s e t l' h
    simp only [play] at h
    by_cases ho : s.ok = true
    · rw [if_pos ho] at h; cases h; exact .ifErrNot ho
    · rw [if_neg ho] at h; exact .ifErr (by simpa using ho) (ia _ _ _ _ _ h)
  | ifOk a ia =>
    intro l s e t l' h
    simp only [play] at h
    by_cases ho : s.ok = true
    · rw [if_pos ho] at h; exact .ifOk ho (ia _ _ _ _ _ h)
    · rw [if_neg ho] at h; cases h; exact .ifOkNot (by simpa using ho)
  | ret => intro l s e t l' h; cases h; exact .ret
  | brk => intro l s e t l' h; cases h; exact .brk
  | halt => intro l s e t l' h; cases h; exact .halt
  | fn a ia =>
    intro l s e t l' h
    simp only [play] at h
    match hp : play a l s with
    | none => rw [hp] at h; cases h
    | some (.ret, u, l2) => rw [hp] at h; cases h; exact .fnRet (ia _ _ _ _ _ hp)
    | some (.next, u, l2) => rw [hp] at h; cases h; exact .fnNext (ia _ _ _ _ _ hp)
    | some (.brk, u, l2) => rw [hp] at h; cases h; exact .fnExit (by decide) (by decide) (ia _ _ _ _ _ hp)
    | some (.halt, u, l2) => rw [hp] at h; cases h; exact .fnExit (by decide) (by decide) (ia _ _ _ _ _ hp)
    | some (.fault, u, l2) => rw [hp] at h; cases h; exact .fnExit (by decide) (by decide) (ia _ _ _ _ _ hp)
    | some (.crash, u, l2) => rw [hp] at h; cases h; exact .fnExit (by decide) (by decide) (ia _ _ _ _ _ hp)

/-- Nothing is allocated, and there is no error; one block belongs to the caller. -/
def start : St := ⟨true, fun _ => none, {0}, 1⟩

/-- The end of an execution from there: how, the status, and whether the caller's block and nothing else is left. -/
def outcome (p : Prog) (l : List Bool) : Option (Exit × Bool × Bool) :=
  (play p l start).map fun r => (r.1, r.2.1.ok, decide (r.2.1.live = start.live))

theorem outcome_spec {p : Prog} {l : List Bool} {e : Exit} {ok same : Bool} (h : outcome p l = some (e, ok, same)) :
    ∃ t, Exec p start e t ∧ t.ok = ok ∧ (t.live = start.live ↔ same = true) := by
  unfold outcome at h
  rw [Option.map_eq_some_iff] at h
  obtain ⟨⟨e', t, l'⟩, h1, h2⟩ := h
  simp only [Prod.mk.injEq] at h2
  obtain ⟨rfl, rfl, rfl⟩ := h2
  exact ⟨t, play_sound _ _ _ _ _ _ h1, rfl, by simp⟩

end Sdp.Temps
