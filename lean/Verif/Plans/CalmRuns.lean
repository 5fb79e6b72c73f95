import Verif.Plans.Account

/-! # C113: histories in which tables stay intact -/

namespace Sdp.Plans
variable {P V : Type}

theorem good_zero {e : Env} (h : e.st = .success) : Good 0 e := ⟨h, by simp⟩

theorem Quiet.good {e : Env} {n : Nat} (h : e.st = .success) (q : Quiet e.tape) : Good n e :=
  ⟨h, fun s hs => q s (List.mem_of_mem_take hs)⟩

/-- What a call reads. -/
def Read (l : List V) (st : Status) (o : List (Option V)) : Prop := if st = .success then o = l.map some else o = []

theorem read_fail {l : List V} {st : Status} (h : st ≠ .success) : Read l st [] := by
  unfold Read; rw [if_neg h]

theorem read_ok {l : List V} {st : Status} {o : List (Option V)} (h : o = l.map some) (hs : st = .success) : Read l st o := by
  unfold Read; rw [if_pos hs]; exact h

variable (T : Tables P V)

theorem access_holds {m : Obj V} {v : V} {e : Env} {r : Multiset Nat} (h : e.live = m.owned + r) (hm : m.Holds v) :
    access m e = some (some v) := by
  rw [access_good h hm.1, hm.2]

theorem towerCopies_good {h : TowerPlan P V} {e : Env} (hg : Good 6 e) (hs : (Handle.tower h).Sound T) :
    Good 0 (towerCopies h e).2 ∧ (Handle.tower (towerCopies h e).1).Sound T ∧
    ∃ u w q, (towerCopies h e).1.uvGpu = some u ∧ (towerCopies h e).1.wGpu = some w ∧ (towerCopies h e).1.patternGpu = some q ∧
        u.Holds (T.uv h.par) ∧ w.Holds (T.w h.par) ∧ q.Holds (T.pattern h.par) := by
  obtain ⟨s1, s2, s3, s4⟩ := hs
  unfold towerCopies
  split
  · next g hq =>
    refine ⟨good_zero hg.1, ⟨s1, s2, s3, s4⟩, ?_⟩
    rcases s4 with ⟨h1, -⟩ | h1
    · rw [hq] at h1; cases h1
    · exact h1
  · obtain ⟨w1, w2⟩ := copyOf_good hg s2
    obtain ⟨u1, u2⟩ := copyOf_good w1 s1
    obtain ⟨q1, q2⟩ := copyOf_good u1 s3
    exact ⟨q1, ⟨s1, s2, s3, Or.inr ⟨_, _, _, rfl, rfl, rfl, u2, w2, q2⟩⟩, _, _, _, rfl, rfl, rfl, u2, w2, q2⟩

theorem towerUse_good {gpu grid : Bool} {planes : Int} {h : TowerPlan P V} {e : Env} {r : Multiset Nat}
    (hl : e.live = (Handle.tower h).owned + r) (hg : h.patternGpu = none → h.uvGpu = none ∧ h.wGpu = none)
    (hs : (Handle.tower h).Sound T) (hq : gpu = true → Quiet (e.tape.take 6)) :
    ∃ s, towerUse gpu grid planes h e = some s ∧ (Handle.tower s.1).Sound T ∧
      Read (expected T (.tower h)) s.2.1.st s.2.2 := by
  unfold towerUse
  by_cases h0 : e.st ≠ .success
  · rw [if_pos h0]; exact ⟨_, rfl, hs, read_fail h0⟩
  rw [if_neg h0]
  have h0' : e.st = .success := not_not.1 h0
  have key : ∀ c : TowerPlan P V × Env, c.2.st = .success → c.2.live = (Handle.tower c.1).owned + r →
      (Handle.tower c.1).Sound T →
      (∃ a b d : Obj V, towerArrays gpu c.1 = some (a, b, d) ∧ a.Holds (T.uv h.par) ∧ b.Holds (T.w h.par) ∧
        d.Holds (T.pattern h.par) ∧ (∃ r, c.2.live = a.owned + r) ∧ (∃ r, c.2.live = b.owned + r) ∧ ∃ r, c.2.live = d.owned + r) →
      ∃ s, (let n := if grid then (c.1.planes.1, c.1.planes.2 + planes) else (c.1.planes.1 + planes, c.1.planes.2)
        let h := { c.1 with planes := n }
        if c.2.st ≠ .success then some (h, c.2, [])
        else
          let r := c.2.attempt
          if r.1 ≠ .success then some (h, r.2.fail r.1, [])
          else (towerArrays gpu h).bind fun a => (access3 a r.2).bind fun l => some (h, r.2, l)) = some s ∧
        (Handle.tower s.1).Sound T ∧ Read (expected T (.tower h)) s.2.1.st s.2.2 := by
    rintro c c0 c1 c2 ⟨a, b, d, c3, ha, hb, hd, ⟨ra, la⟩, ⟨rb, lb⟩, rd, ld⟩
    simp only
    rw [if_neg (by rw [c0]; simp)]
    by_cases ht : c.2.attempt.1 ≠ .success
    · rw [if_pos ht]; exact ⟨_, rfl, c2, read_fail ht⟩
    rw [if_neg ht]
    have : ∀ n, towerArrays gpu { c.1 with planes := n } = towerArrays gpu c.1 := fun n => rfl
    rw [this, c3, Option.bind_some]
    unfold access3
    simp only
    rw [access_holds (e := c.2.attempt.2) la ha, Option.bind_some, access_holds (e := c.2.attempt.2) lb hb, Option.bind_some,
      access_holds (e := c.2.attempt.2) ld hd]
    exact ⟨_, rfl, c2, read_ok rfl c0⟩
  cases gpu
  · refine key (h, e) h0' hl hs ⟨h.uv, h.w, h.pattern, rfl, hs.1, hs.2.1, hs.2.2.1, ⟨?_, ?_⟩, ⟨?_, ?_⟩, ⟨?_, ?_⟩⟩
    · exact {h.block} + h.w.owned + h.pattern.owned + (held h.uvGpu + held h.wGpu + held h.patternGpu) + r
    · simp only [hl, Handle.owned]; ac_rfl
    · exact {h.block} + h.uv.owned + h.pattern.owned + (held h.uvGpu + held h.wGpu + held h.patternGpu) + r
    · simp only [hl, Handle.owned]; ac_rfl
    · exact {h.block} + h.uv.owned + h.w.owned + (held h.uvGpu + held h.wGpu + held h.patternGpu) + r
    · simp only [hl, Handle.owned]; ac_rfl
  · obtain ⟨g1, g2, u, w, q, e1, e2, e3, hu, hw, hq'⟩ := towerCopies_good T ⟨h0', hq rfl⟩ hs
    obtain ⟨l1, l2, -⟩ := towerCopies_live h e hl hg
    refine key (towerCopies h e) g1.1 l1 g2 ⟨u, w, q, ?_, hu, hw, hq', ⟨?_, ?_⟩, ⟨?_, ?_⟩, ⟨?_, ?_⟩⟩
    · unfold towerArrays
      simp only [if_true, e1, e2, e3, Option.bind_some, Option.map_some]
    · exact {(towerCopies h e).1.block} + ((towerCopies h e).1.uv.owned + (towerCopies h e).1.w.owned +
        (towerCopies h e).1.pattern.owned + (w.owned + q.owned)) + r
    · rw [l1]; simp only [Handle.owned, e1, e2, e3, held]; ac_rfl
    · exact {(towerCopies h e).1.block} + ((towerCopies h e).1.uv.owned + (towerCopies h e).1.w.owned +
        (towerCopies h e).1.pattern.owned + (u.owned + q.owned)) + r
    · rw [l1]; simp only [Handle.owned, e1, e2, e3, held]; ac_rfl
    · exact {(towerCopies h e).1.block} + ((towerCopies h e).1.uv.owned + (towerCopies h e).1.w.owned +
        (towerCopies h e).1.pattern.owned + (u.owned + w.owned)) + r
    · rw [l1]; simp only [Handle.owned, e1, e2, e3, held]; ac_rfl

theorem useHandle_good {gpu grid : Bool} {planes : Int} {h : Handle P V} {e : Env} {r : Multiset Nat} (hl : e.live = h.owned + r)
    (hv : Valid h) (hs : h.Sound T) (hq : gpu = true → Quiet (e.tape.take 6)) :
    ∃ s, useHandle gpu grid planes h e = some s ∧ s.1.Sound T ∧ Read (expected T h) s.2.1.st s.2.2 := by
  cases h with
  | pswf h =>
    refine ⟨_, rfl, hs, ?_⟩
    unfold Read expected
    split <;> rfl
  | fft h =>
    refine ⟨_, rfl, hs, ?_⟩
    unfold Read expected
    split <;> rfl
  | tower h =>
    obtain ⟨s, h1, h2, h3⟩ := towerUse_good (grid := grid) (planes := planes) T hl hv hs hq
    exact ⟨(.tower s.1, s.2), by simp only [useHandle, h1, Option.map_some], h2, h3⟩
  | direct h =>
    suffices ∃ s, directUse h e = some s ∧ (Handle.direct s.1).Sound T ∧ Read (expected T (.direct h)) s.2.1.st s.2.2 by
      obtain ⟨s, h1, h2, h3⟩ := this
      exact ⟨(.direct s.1, s.2), by simp only [useHandle, h1, Option.map_some], h2, h3⟩
    unfold directUse
    by_cases h0 : e.st ≠ .success
    · rw [if_pos h0]; exact ⟨_, rfl, hs, read_fail h0⟩
    rw [if_neg h0]
    simp only
    by_cases ht : e.attempt.1 ≠ .success
    · rw [if_pos ht]; exact ⟨_, rfl, hs, read_fail ht⟩
    rw [if_neg ht, access_holds (e := e.attempt.2) (r := {h.block} + r) (by show e.live = _; rw [hl]; simp only [Handle.owned]; ac_rfl) hs]
    exact ⟨_, rfl, hs, read_ok rfl (not_not.1 h0)⟩
  | swiftly h =>
    suffices ∃ s, swiftlyUse h e = some s ∧ (Handle.swiftly s.1).Sound T ∧ Read (expected T (.swiftly h)) s.2.1.st s.2.2 by
      obtain ⟨s, h1, h2, h3⟩ := this
      exact ⟨(.swiftly s.1, s.2), by simp only [useHandle, h1, Option.map_some], h2, h3⟩
    unfold swiftlyUse
    by_cases h0 : e.st ≠ .success
    · rw [if_pos h0]; exact ⟨_, rfl, hs, read_fail h0⟩
    rw [if_neg h0]
    simp only
    by_cases ht : e.attempt.1 ≠ .success
    · rw [if_pos ht]; exact ⟨_, rfl, hs, read_fail ht⟩
    rw [if_neg ht,
      access_holds (e := e.attempt.2) (r := {h.block} + h.fn.owned + r) (by show e.live = _; rw [hl]; simp only [Handle.owned]; ac_rfl) hs.1,
      Option.bind_some,
      access_holds (e := e.attempt.2) (r := {h.block} + h.fb.owned + r) (by show e.live = _; rw [hl]; simp only [Handle.owned]; ac_rfl) hs.2]
    exact ⟨_, rfl, hs, read_ok rfl (not_not.1 h0)⟩
  | es h =>
    suffices ∃ s, esUse h e = some s ∧ (Handle.es s.1).Sound T ∧ Read (expected T (.es h)) s.2.1.st s.2.2 by
      obtain ⟨s, h1, h2, h3⟩ := this
      exact ⟨(.es s.1, s.2), by simp only [useHandle, h1, Option.map_some], h2, h3⟩
    unfold esUse
    by_cases h0 : e.st ≠ .success
    · rw [if_pos h0]; exact ⟨_, rfl, hs, read_fail h0⟩
    rw [if_neg h0]
    simp only
    by_cases ht : e.attempt.1 ≠ .success
    · rw [if_pos ht]; exact ⟨_, rfl, hs, read_fail ht⟩
    rw [if_neg ht]
    obtain ⟨a, b, c, d, k1, k2, k3, k4, ha, hb, hc, hd⟩ := hs
    have hl' : e.attempt.2.live = {h.block} + (held h.stack + a.owned + b.owned + c.owned + d.owned) + r := by
      show e.live = _
      rw [hl]
      simp only [Handle.owned, k1, k2, k3, k4, held]
    rw [k1, Option.bind_some, k2, Option.bind_some, k3, Option.bind_some, k4, Option.bind_some]
    unfold access3
    simp only
    rw [access_holds (r := {h.block} + (held h.stack + b.owned + c.owned + d.owned) + r) (by rw [hl']; ac_rfl) ha, Option.bind_some,
      access_holds (r := {h.block} + (held h.stack + a.owned + c.owned + d.owned) + r) (by rw [hl']; ac_rfl) hb, Option.bind_some,
      access_holds (r := {h.block} + (held h.stack + a.owned + b.owned + d.owned) + r) (by rw [hl']; ac_rfl) hc, Option.map_some,
      Option.bind_some,
      access_holds (r := {h.block} + (held h.stack + a.owned + b.owned + c.owned) + r) (by rw [hl']; ac_rfl) hd, Option.bind_some]
    exact ⟨_, rfl, ⟨a, b, c, d, k1, k2, k3, k4, ha, hb, hc, hd⟩, read_ok rfl (not_not.1 h0)⟩

theorem lookAt_good {m : Obj V} {v : V} {e : Env} {r : Multiset Nat} (h : e.live = m.owned + r) (hm : m.Holds v) :
    ∃ o, lookAt (some m) e = some o ∧ Read [v] e.st o := by
  unfold lookAt
  by_cases h0 : e.st ≠ .success
  · rw [if_pos h0]; exact ⟨_, rfl, read_fail h0⟩
  · rw [if_neg h0, Option.bind_some, access_holds h hm]
    exact ⟨_, rfl, read_ok rfl (not_not.1 h0)⟩

theorem pswfCoeff_good {gpu : Bool} {h : PswfPlan P V} {e : Env} {r : Multiset Nat} (hl : e.live = (Handle.pswf h).owned + r)
    (hs : (Handle.pswf h).Sound T) (hq : gpu = true → e.st = .success ∧ Quiet e.tape) :
    (Handle.pswf (pswfCoeff gpu h e).1).Sound T ∧
    ∃ o, lookAt (pswfCoeff gpu h e).2.2 (pswfCoeff gpu h e).2.1 = some o ∧ Read [T.coeff h.par] (pswfCoeff gpu h e).2.1.st o := by
  unfold pswfCoeff
  cases gpu
  · exact ⟨hs, lookAt_good (r := {h.block} + (held h.coeffGpu + (held h.pswf + held h.pswfGpu)) + r)
      (by show e.live = _; rw [hl]; simp only [Handle.owned]; ac_rfl) hs.1⟩
  · obtain ⟨q1, q2⟩ := hq rfl
    simp only [if_true]
    split
    · next hg =>
      obtain ⟨c1, c2⟩ := copyOf_good (n := 0) (Quiet.good q1 q2) hs.1
      refine ⟨⟨hs.1, ?_, hs.2.2⟩, lookAt_good (copyOf_live _ _) c2⟩
      intro m hm
      rw [← Option.some.inj hm]
      exact c2
    · next g hg =>
      refine ⟨hs, lookAt_good (r := {h.block} + (h.coeff.owned + (held h.pswf + held h.pswfGpu)) + r) ?_ (hs.2.1 g hg)⟩
      show e.live = _
      rw [hl]
      simp only [Handle.owned, hg, held]
      ac_rfl

theorem pswfValues_good {gpu : Bool} {h : PswfPlan P V} {e : Env} {r : Multiset Nat} (hl : e.live = (Handle.pswf h).owned + r)
    (hs : (Handle.pswf h).Sound T) (hq : gpu = true → e.st = .success ∧ Quiet e.tape) (hn : h.size ≠ 0) :
    ∃ s, pswfValues gpu h e = some s ∧ (Handle.pswf s.1).Sound T ∧
    ∃ o, lookAt s.2.2 s.2.1 = some o ∧ Read [T.values h.par h.size] s.2.1.st o := by
  obtain ⟨s1, s2, s3, s4, s5⟩ := hs
  cases hp : h.pswf with
  | none => exact absurd hp (s5 hn)
  | some m =>
  unfold pswfValues
  cases gpu
  · simp only [Bool.false_eq_true, if_false, hp]
    refine ⟨_, rfl, ⟨s1, s2, s3, s4, s5⟩, lookAt_good (r := {h.block} + (h.coeff.owned + held h.coeffGpu + held h.pswfGpu) + r) ?_ (s3 m hp)⟩
    show e.live = _
    rw [hl]
    simp only [Handle.owned, hp, held]
    ac_rfl
  · obtain ⟨q1, q2⟩ := hq rfl
    simp only [if_true]
    split
    · obtain ⟨c1, c2⟩ := copyOf_good (n := 0) (Quiet.good q1 q2) (s3 m hp)
      refine ⟨_, Option.bind_eq_some_iff.2 ⟨m, hp, rfl⟩, ⟨s1, s2, s3, ?_, s5⟩, lookAt_good (copyOf_live _ _) c2⟩
      intro m' hm
      rw [← Option.some.inj hm]
      exact c2
    · next g hg =>
      refine ⟨_, rfl, ⟨s1, s2, s3, s4, s5⟩, lookAt_good (r := {h.block} + (h.coeff.owned + held h.coeffGpu + held h.pswf) + r) ?_ (s4 g hg)⟩
      show e.live = _
      rw [hl]
      simp only [Handle.owned, hg, held]
      ac_rfl

theorem pswfGenerate_good {n : Nat} {h : PswfPlan P V} {e : Env} {r : Multiset Nat} (hl : e.live = (Handle.pswf h).owned + r)
    (hs : (Handle.pswf h).Sound T) (hq : Quiet e.tape) :
    ∃ s, pswfGenerate T n h e = some s ∧ (Handle.pswf s.1).Sound T ∧ (e.st = .success → n ≠ 0 → s.1.size = n ∧ s.2.st = .success) := by
  unfold pswfGenerate
  by_cases h0 : e.st ≠ .success
  · rw [if_pos h0]; exact ⟨_, rfl, hs, fun h => absurd h h0⟩
  rw [if_neg h0]
  by_cases hn : n = 0
  · rw [if_pos hn]; exact ⟨_, rfl, hs, fun _ h => absurd hn h⟩
  rw [if_neg hn]
  simp only [Handle.owned] at hl
  rw [memFree?_ok (r := {h.block} + (h.coeff.owned + held h.coeffGpu) + held h.pswfGpu + r) (by rw [hl]; ac_rfl), Option.bind_some,
    memFree?_ok (r := {h.block} + (h.coeff.owned + held h.coeffGpu) + r) (by simp only; ac_rfl), Option.bind_some]
  obtain ⟨c1, c2⟩ := create_good (V := V) (n := 1)
    (e := { e with live := {h.block} + (h.coeff.owned + held h.coeffGpu) + r }) (Quiet.good (not_not.1 h0) hq)
  obtain ⟨f1, f2⟩ := fill_good (v := T.values h.par n) c1 c2
  refine ⟨_, rfl, ⟨hs.1, hs.2.1, ?_, ?_, ?_⟩, fun _ _ => ⟨rfl, f1.1⟩⟩
  · intro m hm
    rw [← Option.some.inj hm]
    exact f2
  · intro m hm
    cases hm
  · intro _ hh
    cases hh

theorem makeHandle_good {k : Kind} {good : Bool} {p : P} {e : Env} (hq : Quiet e.tape) (hst : k = .tower ∨ k = .direct → e.st = .success) :
    ∃ r, makeHandle T k good p e = some r ∧ Fine T r.1 := by
  unfold makeHandle
  cases k with
  | pswf =>
    obtain ⟨r, h1, h2, -⟩ := pswfCreate_good T (n := 0) (p := p) (e := e) (fun s hs => hq s (List.mem_of_mem_take hs))
    refine ⟨_, by simp only [h1, Option.map_some]; rfl, fun x hx => ?_⟩
    rw [← Option.some.inj hx]
    exact h2
  | tower =>
    obtain ⟨r, h1, h2⟩ := towerCreate_good T (p := p) (e := e) (Quiet.good (hst (by simp)) hq)
    exact ⟨_, by simp only [h1, Option.map_some]; rfl, h2⟩
  | direct =>
    obtain ⟨r, h1, h2⟩ := directCreate_good T (p := p) (e := e) (Quiet.good (hst (by simp)) hq)
    refine ⟨_, by simp only [h1, Option.map_some]; rfl, fun x hx => ?_⟩
    rw [← Option.some.inj hx]
    exact h2
  | swiftly =>
    by_cases h0 : e.st = .success
    · obtain ⟨r, h1, h2, -⟩ := swiftlyCreate_good T (good := good) (p := p) (e := e) (Quiet.good h0 hq)
      exact ⟨_, by simp only [h1, Option.map_some]; rfl, h2⟩
    · have h1 : swiftlyCreate T good p e = some (none, e) := by unfold swiftlyCreate; rw [if_pos h0]
      exact ⟨_, by simp only [h1, Option.map_some]; rfl, fun x hx => by cases hx⟩
  | fft =>
    refine ⟨_, rfl, fun x hx => ?_⟩
    simp only [Option.map_eq_some_iff] at hx
    obtain ⟨y, -, rfl⟩ := hx
    trivial
  | es =>
    by_cases h0 : e.st = .success
    · obtain ⟨r, h1, h2⟩ := esCreate_good T (p := p) (e := e) (Quiet.good h0 hq)
      exact ⟨_, by simp only [h1, Option.map_some]; rfl, h2⟩
    · have h1 : esCreate T p e = some (none, e) := by unfold esCreate; rw [if_pos h0]
      exact ⟨_, by simp only [h1, Option.map_some]; rfl, fun x hx => by cases hx⟩

/-- All tables are intact. -/
def Intact (s : State P V) : Prop := ∀ h, some h ∈ s.handles → h.Sound T

theorem Intact.set {s : State P V} (hi : Intact T s) {i : Nat} {x : Option (Handle P V)} (hx : ∀ h, x = some h → h.Sound T)
    {l : Multiset Nat} {n : Nat} : Intact T ⟨s.handles.set i x, l, n⟩ := by
  intro h hh
  rcases List.mem_or_eq_of_mem_set hh with hh | hh
  · exact hi h hh
  · exact hx h hh.symm

theorem read_nil (st : Status) : Read ([] : List V) st [] := by
  unfold Read; split <;> rfl

theorem calm_step {base : Multiset Nat} {used : Nat} {s : State P V} (hi : Inv base used s) (hs : Intact T s)
    {c : Op P × Status × List Status} (hc : Calm s c) :
    ∃ r, step T s c.1 c.2.1 c.2.2 = some r ∧ Intact T r.1 ∧ Read (found T s c.1) r.2.1 r.2.2 := by
  obtain ⟨op, st, tape⟩ := c
  unfold step
  cases op with
  | make k good p =>
    obtain ⟨r, h1, h2⟩ := makeHandle_good T (k := k) (good := good) (p := p) (e := ⟨st, tape, s.live, s.next⟩) hc.1 hc.2
    simp only
    rw [h1, Option.bind_some]
    refine ⟨_, rfl, ?_, read_nil _⟩
    intro h hh
    rcases List.mem_append.1 hh with hh | hh
    · exact hs h hh
    · exact h2 h (List.mem_singleton.1 hh).symm
  | use i gpu grid planes =>
    simp only [found]
    split
    · next h hx =>
      obtain ⟨r0, hr0⟩ := hi.at hx
      obtain ⟨a, a1, a2, a3⟩ := useHandle_good (grid := grid) (planes := planes) (e := ⟨st, tape, s.live, s.next⟩) T hr0
        (hi.valid_at hx) (hs h (List.mem_of_getElem? hx)) hc
      rw [a1, Option.bind_some]
      exact ⟨_, rfl, hs.set T (fun h hh => by rw [← Option.some.inj hh]; exact a2), by simp only [hx]; exact a3⟩
    · next hx =>
      refine ⟨_, rfl, hs, ?_⟩
      split
      · next h hh => exact absurd hh (hx h)
      · exact read_nil _
  | coeff i gpu =>
    simp only [found]
    split
    · next h hx =>
      obtain ⟨r0, hr0⟩ := hi.at hx
      obtain ⟨a1, o, a2, a3⟩ := pswfCoeff_good (e := ⟨st, tape, s.live, s.next⟩) T hr0 (hs _ (List.mem_of_getElem? hx)) hc
      rw [a2, Option.bind_some]
      exact ⟨_, rfl, hs.set T (fun h hh => by rw [← Option.some.inj hh]; exact a1), by simp only [hx]; exact a3⟩
    · next hx =>
      refine ⟨_, rfl, hs, ?_⟩
      split
      · next h hh => exact absurd hh (hx h)
      · exact read_nil _
  | values i gpu =>
    simp only [found]
    split
    · next h hx =>
      obtain ⟨r0, hr0⟩ := hi.at hx
      obtain ⟨a, a0, a1, o, a2, a3⟩ := pswfValues_good (e := ⟨st, tape, s.live, s.next⟩) T hr0
        (hs _ (List.mem_of_getElem? hx)) hc.1 (hc.2 _ hx rfl)
      rw [a0, Option.bind_some, a2, Option.bind_some]
      exact ⟨_, rfl, hs.set T (fun h hh => by rw [← Option.some.inj hh]; exact a1), by simp only [hx]; exact a3⟩
    · next hx =>
      refine ⟨_, rfl, hs, ?_⟩
      split
      · next h hh => exact absurd hh (hx h)
      · exact read_nil _
  | generate i n =>
    simp only [found]
    split
    · next h hx =>
      obtain ⟨r0, hr0⟩ := hi.at hx
      obtain ⟨a, a0, a1, -⟩ := pswfGenerate_good (n := n) (e := ⟨st, tape, s.live, s.next⟩) T hr0 (hs _ (List.mem_of_getElem? hx)) hc
      rw [a0, Option.bind_some]
      exact ⟨_, rfl, hs.set T (fun h hh => by rw [← Option.some.inj hh]; exact a1), read_nil _⟩
    · exact ⟨_, rfl, hs, read_nil _⟩
  | free i =>
    simp only [found]
    split
    · next h hx =>
      obtain ⟨r0, hr0⟩ := hi.at hx
      obtain ⟨lost, f1, -⟩ := freeHandle_acc (e := ⟨st, tape, s.live, s.next⟩) hr0
      rw [f1, Option.bind_some]
      exact ⟨_, rfl, hs.set T (fun h hh => by cases hh), read_nil _⟩
    · exact ⟨_, rfl, hs, read_nil _⟩
  | freeNull k =>
    simp only [found]
    have : freeNothing k ⟨st, tape, s.live, s.next⟩ = some ⟨st, tape, s.live, s.next⟩ := by
      unfold freeNothing; rw [if_neg hc]
    rw [this, Option.bind_some]
    exact ⟨_, rfl, hs, read_nil _⟩

theorem calm_run {base : Multiset Nat} {used : Nat} {s : State P V} (hi : Inv base used s) (hs : Intact T s) {cs : History P}
    (hc : CalmRun T s cs) : ∃ s', run T s cs = some s' ∧ Inv base (used + swiftlies cs) s' ∧ Intact T s' := by
  induction cs generalizing s used with
  | nil => exact ⟨s, rfl, hi, hs⟩
  | cons c cs ih =>
    obtain ⟨r, h1, h2, -⟩ := calm_step T hi hs hc.1
    obtain ⟨s', a, b, d⟩ := ih (step_inv T hi h1).1 h2 (hc.2 r h1)
    exact ⟨s', by simp only [run, h1, Option.bind_some, a], by rw [swiftlies_cons, ← Nat.add_assoc]; exact b, d⟩

end Sdp.Plans
