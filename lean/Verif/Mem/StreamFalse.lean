import Verif.Mem.StreamMain
/-!
# C108: where the property fails, and examples
-/

namespace Sdp.Stream

/-- A one-dimensional array of `n` bytes at the start of block `b`. -/
def bytes (loc : MemLocation) (b n : Nat) : Mem :=
  (createWrapper (some ⟨b, 0⟩) .char loc [n] none .success).1

/-- Copy the first `n` bytes. -/
def xfer (d s : Mem) (n : Nat) : Xfer := ⟨some d, some s, 0, 0, n, true⟩

/-- Block 0 is on the device, blocks 1 and 2 on the host; four bytes each. -/
def live3 : Nat → Option Int := fun b => if b < 3 then some 4 else none

/-- Device to host. -/
def down : Xfer := xfer (bytes .cpu 1 4) (bytes .gpu 0 4) 4
/-- Host to host. -/
def across : Xfer := xfer (bytes .cpu 2 4) (bytes .cpu 1 4) 4

theorem given3 {d s : Nat} {ld ls : MemLocation} (hd : d < 3) (hs : s < 3) (h : d ≠ s)
    (hld : ld ≠ .other) (hls : ls ≠ .other) (onHost : Bool)
    (ho : onHost = true ↔ ld = .cpu ∧ ls = .cpu) :
    Given live3 (xfer (bytes ld d 4) (bytes ls s 4) 4) onHost ⟨d, 0⟩ ⟨s, 0⟩ 4 := by
  refine ⟨⟨bytes ld d 4, bytes ls s 4, ⟨d, 0⟩, ⟨s, 0⟩, rfl, rfl, rfl, rfl, rfl, rfl, rfl, ?_, ?_,
    hld, hls, ho⟩, rfl, ⟨4, ?_, ?_, ?_⟩, ⟨4, ?_, ?_, ?_⟩, ?_⟩
  · show (0 : Int) < 4; omega
  · show (4 : Int) ≠ 0; omega
  · simp [live3, hd]
  · simp
  · simp
  · simp [live3, hs]
  · simp
  · simp
  · rintro p ⟨⟨a, -⟩, b, -⟩
    exact h (a.symm.trans b)

/-- **C108 fails for copies between host arrays.** Three calls on one stream: device
to host, host to host, wait.  The second copy does not wait for the first although
both are on the same stream, and after the wait the result is the old data. -/
theorem C108_host_copy_false :
    ∃ (jobs : List Job) (prog : List Call) (init : Cells) (c : Config),
      List.Forall₂ (Describes live3) jobs prog ∧
      (∀ a, Job.copy a ∈ jobs → a.stream = some 0) ∧
      (∃ x y, prog = [.async x (some 0), .async y (some 0), .wait 0]) ∧
      Reach true live3 (start init prog) c ∧ c.todo = [] ∧ c.pending = [] ∧
      c.cells ⟨2, 0⟩ = 0 ∧ inOrder jobs init ⟨2, 0⟩ = 7 := by
  let init : Cells := fun p => if p.block = 0 then 7 else 0
  let jobs : List Job := [.copy ⟨false, some 0, false, ⟨1, 0⟩, ⟨0, 0⟩, 4⟩,
    .copy ⟨true, some 0, false, ⟨2, 0⟩, ⟨1, 0⟩, 4⟩, .wait 0]
  let prog : List Call := [.async down (some 0), .async across (some 0), .wait 0]
  have g1 : Given live3 down false ⟨1, 0⟩ ⟨0, 0⟩ 4 :=
    given3 (by decide) (by decide) (by decide) (by decide) (by decide) false (by decide)
  have g2 : Given live3 across true ⟨2, 0⟩ ⟨1, 0⟩ 4 :=
    given3 (by decide) (by decide) (by decide) (by decide) (by decide) true (by decide)
  have hd : List.Forall₂ (Describes live3) jobs prog :=
    .cons ⟨g1, rfl, rfl⟩ (.cons ⟨g2, rfl, rfl⟩ (.cons rfl .nil))
  -- the device does nothing until the host waits
  have e0 : act true live3 down .success = .dev true ⟨1, 0⟩ ⟨0, 0⟩ 4 := by
    rcases act_given g1 with ⟨q, -⟩ | ⟨-, b, hb, e⟩
    · cases q
    · rw [e, hb.2 (Or.inl ⟨_, rfl, rfl⟩)]
  have e1 : act true live3 across .success = .host ⟨2, 0⟩ ⟨1, 0⟩ 4 := by
    rcases act_given g2 with ⟨-, e⟩ | ⟨q, -⟩
    · exact e
    · cases q
  let mv (i : Nat) (h : Option UInt8) : Move := ⟨0, some 0, ⟨1, i⟩, ⟨0, i⟩, h⟩
  let copied : Cells := memcpy init ⟨2, 0⟩ ⟨1, 0⟩ 4
  have hb : bytesOf 0 (some 0) ⟨1, 0⟩ ⟨0, 0⟩ 4 = [mv 0 none, mv 1 none, mv 2 none, mv 3 none] := by
    decide +kernel
  have s1 : Step true live3 (start init prog)
      ⟨init, [mv 0 none, mv 1 none, mv 2 none, mv 3 none], 1,
        [.async across (some 0), .wait 0], .success, none⟩ := by
    refine .host ?_
    simp only [host, start, prog, issue, e0, hb]; rfl
  have s2 : Step true live3
      ⟨init, [mv 0 none, mv 1 none, mv 2 none, mv 3 none], 1,
        [.async across (some 0), .wait 0], .success, none⟩
      ⟨copied, [mv 0 none, mv 1 none, mv 2 none, mv 3 none], 1, [.wait 0], .success, none⟩ := by
    refine .host ?_
    simp only [host, issue, e1]; rfl
  -- one byte
  have byte : ∀ (cells : Cells) (i : Nat) (l : List Move), cells ⟨0, i⟩ = 7 →
      ∀ a, Reach true live3 a ⟨cells, mv i none :: l, 1, [.wait 0], .success, none⟩ →
      Reach true live3 a ⟨put cells ⟨1, i⟩ 7, l, 1, [.wait 0], .success, none⟩ := by
    intro cells i l hc a hr
    refine .step (.step hr (.fetch (pre := []) (m := mv i none) (post := l) rfl rfl rfl)) ?_
    have := Step.store (cuda := true) (live := live3)
      (c := ⟨cells, mv i (some 7) :: l, 1, [.wait 0], .success, none⟩)
      (pre := []) (m := mv i (some 7)) (post := l) (v := 7) rfl rfl rfl
    have e : ({ mv i none with held := some (cells (mv i none).src) } : Move) = mv i (some 7) := by
      show (⟨0, some 0, ⟨1, i⟩, ⟨0, i⟩, some (cells ⟨0, i⟩)⟩ : Move) = _
      rw [hc]
    simp only [List.nil_append] at this ⊢
    rw [e]; exact this
  have r2 := Reach.step (Reach.step Reach.here s1) s2
  have r3 := byte _ 0 _ (by decide +kernel) _ r2
  have r4 := byte _ 1 _ (by decide +kernel) _ r3
  have r5 := byte _ 2 _ (by decide +kernel) _ r4
  have r6 := byte _ 3 _ (by decide +kernel) _ r5
  refine ⟨jobs, prog, init, _, hd, ?_, ⟨_, _, rfl⟩, .step r6 (.host rfl), rfl, rfl, ?_, ?_⟩
  · intro a ha
    simp only [jobs, List.mem_cons, Job.copy.injEq, List.not_mem_nil, or_false, reduceCtorEq] at ha
    rcases ha with rfl | rfl <;> rfl
  · decide +kernel
  · decide +kernel

/-- A separated program: two streams and a host copy after waiting. -/
def goodJobs : List Job := [.copy ⟨false, some 0, false, ⟨1, 0⟩, ⟨0, 0⟩, 4⟩, .wait 0,
  .copy ⟨true, some 0, false, ⟨2, 0⟩, ⟨1, 0⟩, 4⟩]

example : List.Forall₂ (Describes live3) goodJobs
      [.async down (some 0), .wait 0, .async across (some 0)] ∧ Separated goodJobs := by
  refine ⟨.cons ⟨given3 (by decide) (by decide) (by decide) (by decide) (by decide) false
    (by decide), rfl, rfl⟩ (.cons rfl (.cons ⟨given3 (by decide) (by decide) (by decide) (by decide)
    (by decide) true (by decide), rfl, rfl⟩ .nil)), ?_⟩
  refine ⟨Or.inr ⟨(fun b hb => by cases hb), Or.inl rfl⟩, Or.inl rfl, trivial⟩

/-- Up and down again: the hypotheses of `C108_round_trip`. -/
example : Given live3 (xfer (bytes .gpu 0 4) (bytes .cpu 1 4) 4) false ⟨0, 0⟩ ⟨1, 0⟩ 4 ∧
    Given live3 (xfer (bytes .cpu 2 4) (bytes .gpu 0 4) 4) false ⟨2, 0⟩ ⟨0, 0⟩ 4 ∧
    OneHost (xfer (bytes .gpu 0 4) (bytes .cpu 1 4) 4) ∧
    OneHost (xfer (bytes .cpu 2 4) (bytes .gpu 0 4) 4) :=
  ⟨given3 (by decide) (by decide) (by decide) (by decide) (by decide) false (by decide),
    given3 (by decide) (by decide) (by decide) (by decide) (by decide) false (by decide),
    Or.inr ⟨_, rfl, rfl⟩, Or.inl ⟨_, rfl, rfl⟩⟩

/-- Two device copies on one stream, the second overwriting the source of the first, meet the
hypotheses of `C108_one_stream_partial`. -/
example : ∀ a, Job.copy a ∈ [Job.copy ⟨false, some 0, false, ⟨1, 0⟩, ⟨0, 0⟩, 4⟩,
      .copy ⟨false, some 0, false, ⟨0, 0⟩, ⟨2, 0⟩, 4⟩] →
    a.host = false ∧ (a.stream = some 0 ∨ a.stream = none) := by
  intro a ha
  simp at ha
  rcases ha with rfl | rfl <;> simp

end Sdp.Stream
