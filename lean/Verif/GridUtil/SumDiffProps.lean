import Verif.GridUtil.SumDiff
import Verif.GridUtil.BoundsProps

/-!
# C81: the GPU sum of differences
-/

namespace Sdp.GridUtil
open Sdp.Race

/-! ## Halving -/

theorem halve_within (h t : Nat) : (halve h t).Within fun i => t < h ∧ (i = t ∨ i = ((t + h : Nat) : Int)) := by
  unfold halve
  by_cases c : t < h
  · rw [if_pos c]
    exact ⟨⟨c, Or.inr rfl⟩, fun v => ⟨⟨c, Or.inl rfl⟩, fun u => ⟨⟨c, Or.inl rfl⟩, trivial⟩⟩⟩
  · rw [if_neg c]; trivial

/-- After a halving step the first `h` values have the others added. -/
def halved (h : Nat) (m : Arr Int) : Arr Int :=
  ⟨m.size, fun t => if t < h then m.get t + m.get (t + h) else m.get t⟩

theorem halve_yields (h : Nat) (m : Arr Int) (hm : 2 * h ≤ m.size) (hh : h ≤ 512) :
    Yields (halve h) (List.range 512) m (halved h m) := by
  refine yields_each _ _ _ (fun t _ => halve_within h t) ?_ m _ rfl ?_ ?_
  · rintro t _ t' _ hne i ⟨h1, h2⟩ ⟨h3, h4⟩
    omega
  · intro t _
    unfold halve
    by_cases c : t < h
    · rw [if_pos c]
      refine ⟨m.put t (m.get t + m.get (t + h)), ?_, ?_⟩
      · simp only [Prog.exec]
        rw [Arr.read_nat, if_pos (by omega)]
        simp only [Option.bind_some]
        rw [Arr.read_nat, if_pos (by omega)]
        simp only [Option.bind_some]
        rw [Arr.write_nat, if_pos (by omega)]
        rfl
      · rintro i ⟨_, hi⟩
        simp only [halved, Arr.put_get]
        by_cases e : i = t
        · subst e; rw [if_pos rfl, if_pos c]
        · rw [if_neg e, if_neg (by omega)]
    · rw [if_neg c]
      exact ⟨m, rfl, fun i hi => absurd hi.1 c⟩
  · intro i hi
    simp only [halved]
    rw [if_neg]
    intro c
    exact hi i (List.mem_range.2 (by omega)) ⟨c, Or.inl rfl⟩

theorem halved_sum (h : Nat) (m : Arr Int) :
    ∑ t ∈ Finset.range h, (halved h m).get t = ∑ t ∈ Finset.range (2 * h), m.get t := by
  rw [two_mul, Finset.sum_range_add, ← Finset.sum_add_distrib]
  apply Finset.sum_congr rfl
  intro t ht
  rw [Finset.mem_range] at ht
  simp only [halved]
  rw [if_pos ht, Nat.add_comm h t]

theorem Ran.eq {prog : Nat → Prog Int} {m r r' : Arr Int} (h : Ran prog m r')
    (hy : Yields prog (List.range 512) m r) : r' = r := by
  obtain ⟨sched, h1, s, h2, h3, h4⟩ := h
  obtain ⟨s', e1, e2⟩ := hy.1 sched h1
  rw [e1] at h2
  cases h2
  rw [← h4, e2 h3]

/-! ## Lockstep -/

/-- A round of reads. -/
theorem round_read (order : List Nat) (hn : order.Nodup) (s : St Int Nat) (p : Nat → Nat)
    (k : Nat → Int → Prog Int) (hp : ∀ t ∈ order, s.prog t = .read (p t : Nat) (k t))
    (hb : ∀ t ∈ order, p t < s.mem.size) :
    ∃ s', run s order = some s' ∧ s'.mem = s.mem ∧ (∀ t ∈ order, s'.prog t = k t (s.mem.get (p t))) ∧
      ∀ t, t ∉ order → s'.prog t = s.prog t := by
  induction order generalizing s with
  | nil => exact ⟨s, rfl, rfl, by simp, fun _ _ => rfl⟩
  | cons t l ih =>
    have hnd := List.nodup_cons.1 hn
    have e1 : step s t = some ⟨s.mem, Function.update s.prog t (k t (s.mem.get (p t)))⟩ := by
      unfold step
      rw [hp t (by simp)]
      simp only
      rw [Arr.read_nat, if_pos (hb t (by simp))]
      rfl
    have hne : ∀ t' ∈ l, t' ≠ t := fun t' h' e => hnd.1 (e ▸ h')
    obtain ⟨s', g1, g2, g3, g4⟩ := ih hnd.2 ⟨s.mem, Function.update s.prog t (k t (s.mem.get (p t)))⟩
      (fun t' h' => by simp only; rw [Function.update_of_ne (hne t' h')]; exact hp t' (by simp [h']))
      (fun t' h' => hb t' (by simp [h']))
    refine ⟨s', ?_, g2, fun t' h' => ?_, fun t' h' => ?_⟩
    · unfold run; simp only [loop]; rw [e1]; exact g1
    · rcases List.mem_cons.1 h' with e | h''
      · subst e; rw [g4 t' hnd.1]; simp only [Function.update_self]
      · exact g3 t' h''
    · rw [List.mem_cons, not_or] at h'
      rw [g4 t' h'.2]
      exact Function.update_of_ne h'.1 _ _

/-- A round of writes, each thread to the cell of its own number. -/
theorem round_write (order : List Nat) (hn : order.Nodup) (s : St Int Nat) (v : Nat → Int)
    (k : Nat → Prog Int) (hp : ∀ t ∈ order, s.prog t = .write t (v t) (k t))
    (hb : ∀ t ∈ order, t < s.mem.size) :
    ∃ s', run s order = some s' ∧ s'.mem.size = s.mem.size ∧
      (∀ i, s'.mem.get i = if i ∈ order then v i else s.mem.get i) ∧ (∀ t ∈ order, s'.prog t = k t) ∧
      ∀ t, t ∉ order → s'.prog t = s.prog t := by
  induction order generalizing s with
  | nil => exact ⟨s, rfl, rfl, by simp, by simp, fun _ _ => rfl⟩
  | cons t l ih =>
    have hnd := List.nodup_cons.1 hn
    have e1 : step s t = some ⟨s.mem.put t (v t), Function.update s.prog t (k t)⟩ := by
      unfold step
      rw [hp t (by simp)]
      simp only
      rw [Arr.write_nat, if_pos (hb t (by simp))]
      rfl
    have hne : ∀ t' ∈ l, t' ≠ t := fun t' h' e => hnd.1 (e ▸ h')
    obtain ⟨s', g1, g2, g3, g4, g5⟩ := ih hnd.2 ⟨s.mem.put t (v t), Function.update s.prog t (k t)⟩
      (fun t' h' => by simp only; rw [Function.update_of_ne (hne t' h')]; exact hp t' (by simp [h']))
      (fun t' h' => hb t' (by simp [h']))
    refine ⟨s', ?_, g2, fun i => ?_, fun t' h' => ?_, fun t' h' => ?_⟩
    · unfold run; simp only [loop]; rw [e1]; exact g1
    · rw [g3 i]
      simp only [Arr.put_get]
      by_cases e : i = t
      · subst e; rw [if_neg hnd.1, if_pos rfl, if_pos (by simp)]
      · by_cases hl : i ∈ l
        · rw [if_pos hl, if_pos (by simp [hl])]
        · rw [if_neg hl, if_neg e, if_neg (by simp [hl, e])]
    · rcases List.mem_cons.1 h' with e | h''
      · subst e; rw [g5 t' hnd.1]; simp only [Function.update_self]
      · exact g4 t' h''
    · rw [List.mem_cons, not_or] at h'
      rw [g5 t' h'.2]
      exact Function.update_of_ne h'.1 _ _

theorem run_append (s : St Int Nat) (l l' : List Nat) :
    run s (l ++ l') = (run s l).bind fun s => run s l' := loop_append _ _ _ _

/-- What one addition of the warp does. -/
def warpStep (m : Nat → Int) (h t : Nat) : Int := if t < 32 then m t + m (t + h) else m t

/-- Three rounds make one addition of the warp. -/
theorem warp_rounds (hs : List Nat) (hle : ∀ h ∈ hs, h ≤ 32) (rounds : List (List Nat))
    (hr : rounds.length = 3 * hs.length) (hperm : ∀ x ∈ rounds, x.Perm (List.range 32)) (s : St Int Nat)
    (hm : 64 ≤ s.mem.size) (hp : ∀ t, t < 32 → s.prog t = warpGo t hs) :
    ∃ s', run s rounds.flatten = some s' ∧ s'.mem.size = s.mem.size ∧ (∀ t, t < 32 → s'.prog t = .done) ∧
      s'.mem.get = hs.foldl warpStep s.mem.get := by
  induction hs generalizing rounds s with
  | nil =>
    have : rounds = [] := List.length_eq_zero_iff.1 (by simpa using hr)
    subst this
    exact ⟨s, rfl, rfl, hp, rfl⟩
  | cons h hs ih =>
    match rounds, hr, hperm with
    | [], hr, _ => simp at hr
    | [_], hr, _ => simp at hr; omega
    | [_, _], hr, _ => simp at hr; omega
    | r1 :: r2 :: r3 :: rest, hr, hperm =>
      have hh := hle h (by simp)
      have p1 := hperm r1 (by simp)
      have p2 := hperm r2 (by simp)
      have p3 := hperm r3 (by simp)
      have m1 : ∀ t, t ∈ r1 ↔ t < 32 := fun t => by rw [p1.mem_iff, List.mem_range]
      have m2 : ∀ t, t ∈ r2 ↔ t < 32 := fun t => by rw [p2.mem_iff, List.mem_range]
      have m3 : ∀ t, t ∈ r3 ↔ t < 32 := fun t => by rw [p3.mem_iff, List.mem_range]
      obtain ⟨s1, a1, a2, a3, a4⟩ := round_read r1 (p1.nodup_iff.2 List.nodup_range) s (fun t => t + h)
        (fun t v => .read t fun u => .write t (u + v) (warpGo t hs))
        (fun t ht => by rw [hp t ((m1 t).1 ht)]; rfl) (fun t ht => by have := (m1 t).1 ht; omega)
      obtain ⟨s2, b1, b2, b3, b4⟩ := round_read r2 (p2.nodup_iff.2 List.nodup_range) s1 (fun t => t)
        (fun t u => .write t (u + s.mem.get (t + h)) (warpGo t hs))
        (fun t ht => by rw [a3 t ((m1 t).2 ((m2 t).1 ht))])
        (fun t ht => by rw [a2]; have := (m2 t).1 ht; omega)
      obtain ⟨s3, c1, c2, c3, c4, c5⟩ := round_write r3 (p3.nodup_iff.2 List.nodup_range) s2
        (fun t => s.mem.get t + s.mem.get (t + h)) (fun t => warpGo t hs)
        (fun t ht => by rw [b3 t ((m2 t).2 ((m3 t).1 ht)), a2])
        (fun t ht => by rw [b2, a2]; have := (m3 t).1 ht; omega)
      obtain ⟨s4, d1, d2, d3, d5⟩ := ih (fun x hx => hle x (by simp [hx])) rest
        (by simp only [List.length_cons] at hr; omega) (fun x hx => hperm x (by simp [hx])) s3
        (by rw [c2, b2, a2]; exact hm) (fun t ht => c4 t ((m3 t).2 ht))
      refine ⟨s4, ?_, by rw [d2, c2, b2, a2], d3, ?_⟩
      · simp only [List.flatten_cons]
        rw [run_append, a1]
        simp only [Option.bind_some]
        rw [run_append, b1]
        simp only [Option.bind_some]
        rw [run_append, c1]
        exact d1
      · rw [d5]
        simp only [List.foldl_cons]
        congr 1
        funext i
        unfold warpStep
        rw [c3 i]
        by_cases hi : i < 32
        · rw [if_pos ((m3 i).2 hi), if_pos hi]
        · rw [if_neg (fun h => hi ((m3 i).1 h)), if_neg hi, b2, a2]

theorem warp_sum (h : Nat) (hh : h ≤ 32) (m : Nat → Int) :
    ∑ t ∈ Finset.range h, warpStep m h t =
      ∑ t ∈ Finset.range (2 * h), m t := by
  rw [two_mul, Finset.sum_range_add, ← Finset.sum_add_distrib]
  apply Finset.sum_congr rfl
  intro t ht
  rw [Finset.mem_range] at ht
  unfold warpStep
  rw [if_pos (by omega), Nat.add_comm h t]

theorem lockstep_sum {m r : Arr Int} (hm : m.size = 512) (h : RanLockstep m r) :
    r.get 0 = ∑ t ∈ Finset.range 64, m.get t := by
  obtain ⟨rounds, h1, h2, s, h3, h4⟩ := h
  obtain ⟨s', e1, _, _, e5⟩ := warp_rounds [32, 16, 8, 4, 2, 1] (by decide) rounds h1 h2 ⟨m, warp⟩
    (by simp only; omega) (fun t ht => by simp only [warp]; rw [if_pos ht])
  rw [e1] at h3
  cases h3
  rw [← h4, e5]
  simp only [List.foldl_cons, List.foldl_nil]
  have key : ∀ f : Nat → Int, f 0 = ∑ t ∈ Finset.range 1, f t := by intro f; simp
  refine (key _).trans ?_
  rw [warp_sum 1 (by omega), warp_sum 2 (by omega), warp_sum 4 (by omega), warp_sum 8 (by omega),
    warp_sum 16 (by omega), warp_sum 32 (by omega)]

theorem lockstep_exists {m : Arr Int} (hm : m.size = 512) : ∃ r, RanLockstep m r := by
  obtain ⟨s', e1, -⟩ := warp_rounds [32, 16, 8, 4, 2, 1] (by decide) (List.replicate 18 (List.range 32)) (by simp)
    (fun x hx => by rw [(List.mem_replicate.1 hx).2]) ⟨m, warp⟩
    (by simp only; omega) (fun t ht => by simp only [warp]; rw [if_pos ht])
  exact ⟨s'.mem, _, by simp, fun x hx => by rw [(List.mem_replicate.1 hx).2], s', e1, rfl⟩

theorem Ran.of_yields {prog : Nat → Prog Int} {m r : Arr Int} (hy : Yields prog (List.range 512) m r) :
    Ran prog m r := by
  obtain ⟨N, hN⟩ := hy.2 (fun n => n % 512) (fun n => List.mem_range.2 (Nat.mod_lt _ (by omega)))
    (fun t ht n => ⟨512 * n + t, by omega, by
      have := List.mem_range.1 ht
      omega⟩)
  obtain ⟨s, h1, h2, h3⟩ := hN N le_rfl
  rw [runN_eq] at h1
  refine ⟨_, ?_, s, h1, h2, h3⟩
  intro t ht
  obtain ⟨j, -, rfl⟩ := List.mem_map.1 ht
  exact List.mem_range.2 (Nat.mod_lt _ (by omega))

/-! ## Gathering -/

/-- The difference at offset `x` of the rows summed, zero past the last of the `n`. -/
def off (a b : Arr Int) (p n x : Nat) : Int := if x < n then a.get (p + x) - b.get (p + x) else 0

theorem diffAt_eq {a b : Arr Int} (hab : a.size = b.size) {p n x : Nat} (hn : p + n ≤ a.size) (hx : x < n) :
    diffAt a b ((p + x : Nat) : Int) = some (off a b p n x) := by
  unfold diffAt off
  rw [Arr.read_nat, if_pos (by omega)]
  simp only [Option.bind_some]
  rw [Arr.read_nat, if_pos (by omega), if_pos hx]
  rfl

theorem gatherGo_within (a b : Arr Int) (e : Int) (t f : Nat) (i : Int) :
    (gatherGo a b e t f i).Within fun j => j = t := by
  induction f generalizing i with
  | zero => trivial
  | succ f ih =>
    unfold gatherGo
    by_cases c : i < e
    · rw [if_pos c]
      refine within_need _ _ fun x _ => ⟨rfl, fun v => ⟨rfl, ?_⟩⟩
      by_cases c' : i + 512 < e
      · rw [if_pos c']
        exact within_need _ _ fun y _ => ⟨rfl, fun v => ⟨rfl, ih _⟩⟩
      · rw [if_neg c']; exact ih _
    · rw [if_neg c]; trivial

theorem gatherGo_exec {a b : Arr Int} (hab : a.size = b.size) {p n : Nat} (hn : p + n ≤ a.size) (t f x : Nat)
    (hf : n ≤ x + 8192 * f) (m : Arr Int) (ht : t < m.size) :
    ∃ r, (gatherGo a b ((p + n : Nat) : Int) t (f + 1) ((p + x : Nat) : Int)).exec m = some r ∧
      r.get t = m.get t + ∑ j ∈ Finset.range f, (off a b p n (8192 * j + x) + off a b p n (8192 * j + x + 512)) := by
  have h0 : ∀ y, n ≤ y → off a b p n y = 0 := fun y hy => by unfold off; rw [if_neg (by omega)]
  induction f generalizing x m with
  | zero =>
    unfold gatherGo
    rw [if_neg (by omega)]
    exact ⟨m, rfl, by simp⟩
  | succ f ih =>
    unfold gatherGo
    by_cases c : x < n
    · rw [if_pos (by omega), exec_need, diffAt_eq hab hn c]
      simp only [Option.bind_some, Prog.exec]
      rw [Arr.read_nat, if_pos ht]
      simp only [Option.bind_some]
      rw [Arr.write_nat, if_pos ht]
      simp only [Option.bind_some]
      have e1 : ((p + x : Nat) : Int) + 512 = ((p + (x + 512) : Nat) : Int) := by push_cast; ring
      have e2 : ((p + x : Nat) : Int) + 8192 = ((p + (x + 8192) : Nat) : Int) := by push_cast; ring
      rw [e1, e2]
      have tail : ∀ j, off a b p n (8192 * (j + 1) + x) + off a b p n (8192 * (j + 1) + x + 512) =
          off a b p n (8192 * j + (x + 8192)) + off a b p n (8192 * j + (x + 8192) + 512) := by
        intro j
        rw [show 8192 * (j + 1) + x = 8192 * j + (x + 8192) by ring]
      by_cases c' : x + 512 < n
      · rw [if_pos (by omega), exec_need, diffAt_eq hab hn c']
        simp only [Option.bind_some, Prog.exec]
        rw [Arr.read_nat, if_pos (by simpa using ht)]
        simp only [Option.bind_some]
        rw [Arr.write_nat, if_pos (by simpa using ht)]
        simp only [Option.bind_some]
        obtain ⟨r, r1, r2⟩ := ih (x + 8192) (by omega) (Arr.put (Arr.put m t (m.get t + off a b p n x)) t
          ((Arr.put m t (m.get t + off a b p n x)).get t + off a b p n (x + 512))) (by simpa using ht)
        refine ⟨r, r1, ?_⟩
        rw [r2, Finset.sum_range_succ']
        simp only [tail, Arr.put_get, if_true]
        rw [Nat.mul_zero, Nat.zero_add]
        ring
      · rw [if_neg (by omega)]
        obtain ⟨r, r1, r2⟩ := ih (x + 8192) (by omega) (Arr.put m t (m.get t + off a b p n x)) (by simpa using ht)
        refine ⟨r, r1, ?_⟩
        rw [r2, Finset.sum_range_succ']
        simp only [tail, Arr.put_get, if_true]
        have z := h0 (x + 512) (Nat.le_of_not_lt c')
        rw [Nat.mul_zero, Nat.zero_add]
        generalize off a b p n (x + 512) = w at z ⊢
        rw [z]
        ring
    · rw [if_neg (by omega)]
      refine ⟨m, rfl, ?_⟩
      rw [Finset.sum_eq_zero, Int.add_zero]
      intro j _
      have z1 := h0 (8192 * j + x) (le_trans (Nat.le_of_not_lt c) (Nat.le_add_left _ _))
      have z2 := h0 (8192 * j + x + 512)
        (le_trans (le_trans (Nat.le_of_not_lt c) (Nat.le_add_left _ _)) (Nat.le_add_right _ _))
      simp only [z1, z2, Int.add_zero]

/-- What the shared array holds after the first phase. -/
def gathered (a b : Arr Int) (p n k : Nat) (m : Arr Int) : Arr Int :=
  ⟨m.size, fun t => if t < 512 then
    ∑ j ∈ Finset.range n, (off a b p n (8192 * j + (1024 * k + t)) + off a b p n (8192 * j + (1024 * k + t) + 512))
    else m.get t⟩

theorem gather_yields {a b : Arr Int} (hab : a.size = b.size) {p n : Nat} (hn : p + n ≤ a.size) (k : Nat)
    (m : Arr Int) (hm : m.size = 512) :
    Yields (gather a b p ((p + n : Nat) : Int) k) (List.range 512) m (gathered a b p n k m) := by
  refine yields_each _ (fun (t : Nat) (i : Int) => i = (t : Int)) _ ?_ ?_ m (gathered a b p n k m) (by unfold gathered; rfl) ?_ ?_
  · intro t _
    exact ⟨rfl, gatherGo_within _ _ _ _ _ _⟩
  · intro t _ t' _ hne i h1 h2; omega
  · intro t ht
    rw [List.mem_range] at ht
    unfold gather
    simp only [Prog.exec]
    rw [Arr.write_nat, if_pos (by omega)]
    simp only [Option.bind_some]
    have e1 : ((((p + n : Nat) : Int) - (p : Int)).toNat) = n := by omega
    have e2 : (1024 * (k : Int) + (t : Int) + (p : Int)) = ((p + (1024 * k + t) : Nat) : Int) := by push_cast; ring
    rw [e1, e2]
    obtain ⟨r, r1, r2⟩ := gatherGo_exec hab hn t n (1024 * k + t) (by omega) (m.put t 0) (by simpa using (by omega))
    refine ⟨r, r1, ?_⟩
    intro i hi
    have hi : i = t := by omega
    subst hi
    rw [r2, Arr.put_get, if_pos rfl]
    simp only [gathered]
    rw [if_pos ht, Int.zero_add]
  · intro i hi
    simp only [gathered]
    rw [if_neg]
    intro c
    exact hi i (List.mem_range.2 c) rfl

theorem sum_nested (f : Nat → Int) (m n : Nat) :
    ∑ i ∈ Finset.range m, ∑ j ∈ Finset.range n, f (n * i + j) = ∑ x ∈ Finset.range (n * m), f x := by
  induction m with
  | zero => simp
  | succ m ih => rw [Finset.sum_range_succ, ih, Nat.mul_succ, Finset.sum_range_add]

/-- What block `k` adds. -/
def part (a b : Arr Int) (p n k : Nat) : Int :=
  ∑ j ∈ Finset.range n, ∑ x ∈ Finset.range 1024, off a b p n (8192 * j + (1024 * k + x))

theorem gathered_sum (a b : Arr Int) (p n k : Nat) (m : Arr Int) :
    ∑ t ∈ Finset.range 512, (gathered a b p n k m).get t = part a b p n k := by
  unfold part
  have : ∀ t ∈ Finset.range 512, (gathered a b p n k m).get t = ∑ j ∈ Finset.range n,
      (off a b p n (8192 * j + (1024 * k + t)) + off a b p n (8192 * j + (1024 * k + t) + 512)) := by
    intro t ht
    simp only [gathered]
    rw [if_pos (Finset.mem_range.1 ht)]
  rw [Finset.sum_congr rfl this, Finset.sum_comm]
  apply Finset.sum_congr rfl
  intro j _
  rw [show 1024 = 512 + 512 from rfl, Finset.sum_range_add, ← Finset.sum_add_distrib]
  apply Finset.sum_congr rfl
  intro t _
  rw [show 8192 * j + ((512 + 512) * k + t) + 512 = 8192 * j + ((512 + 512) * k + (512 + t)) by ring]

theorem parts_sum (a b : Arr Int) (p n : Nat) :
    ∑ k ∈ Finset.range 8, part a b p n k = ∑ x ∈ Finset.range n, (a.get (p + x) - b.get (p + x)) := by
  unfold part
  rw [Finset.sum_comm]
  have h1 : ∀ j, ∑ k ∈ Finset.range 8, ∑ x ∈ Finset.range 1024, off a b p n (8192 * j + (1024 * k + x)) =
      ∑ y ∈ Finset.range 8192, off a b p n (8192 * j + y) := fun j =>
    sum_nested (fun y => off a b p n (8192 * j + y)) 8 1024
  simp only [h1]
  rw [sum_nested (off a b p n) n 8192, show 8192 * n = n + 8191 * n by ring, Finset.sum_range_add]
  rw [Finset.sum_eq_zero (s := Finset.range (8191 * n)), Int.add_zero]
  · apply Finset.sum_congr rfl
    intro x hx
    unfold off
    rw [if_pos (Finset.mem_range.1 hx)]
  · intro x _
    unfold off
    rw [if_neg (by omega)]

theorem block_value {a b : Arr Int} (hab : a.size = b.size) {p n : Nat} (hn : p + n ≤ a.size) (k : Nat)
    (m : Arr Int) (hm : m.size = 512) {v : Int}
    (h : BlockRun RanLockstep a b p ((p + n : Nat) : Int) k m v) : v = part a b p n k := by
  obtain ⟨m0, m1, m2, m3, m4, h0, h1, h2, h3, h4, rfl⟩ := h
  have e0 := h0.eq (gather_yields hab hn k m hm)
  subst e0
  have e1 := h1.eq (halve_yields 256 _ (by simp only [gathered]; omega) (by omega))
  subst e1
  have e2 := h2.eq (halve_yields 128 _ (by simp only [gathered, halved]; omega) (by omega))
  subst e2
  have e3 := h3.eq (halve_yields 64 _ (by simp only [gathered, halved]; omega) (by omega))
  subst e3
  rw [lockstep_sum (by simp only [gathered, halved]; exact hm) h4, halved_sum, halved_sum, halved_sum,
    gathered_sum]

theorem block_exists {a b : Arr Int} (hab : a.size = b.size) {p n : Nat} (hn : p + n ≤ a.size) (k : Nat)
    (m : Arr Int) (hm : m.size = 512) : ∃ v, BlockRun RanLockstep a b p ((p + n : Nat) : Int) k m v := by
  obtain ⟨m4, h4⟩ := lockstep_exists (m := halved 64 (halved 128 (halved 256 (gathered a b p n k m))))
    (by simp only [gathered, halved]; exact hm)
  exact ⟨_, _, _, _, _, m4, Ran.of_yields (gather_yields hab hn k m hm),
    Ran.of_yields (halve_yields 256 _ (by simp only [gathered]; omega) (by omega)),
    Ran.of_yields (halve_yields 128 _ (by simp only [gathered, halved]; omega) (by omega)),
    Ran.of_yields (halve_yields 64 _ (by simp only [gathered, halved]; omega) (by omega)), h4, rfl⟩

/-! ## Without lockstep -/

theorem run_exec (p : Prog Int) (t : Nat) (prog : Nat → Prog Int) (m r : Arr Int) (hp : prog t = p)
    (h : p.exec m = some r) :
    ∃ n, run (⟨m, prog⟩ : St Int Nat) (List.replicate n t) = some ⟨r, Function.update prog t .done⟩ := by
  induction p generalizing prog m with
  | done =>
    cases h
    exact ⟨0, by rw [← hp, Function.update_eq_self]; rfl⟩
  | fault => simp [Prog.exec] at h
  | read i k ih =>
    simp only [Prog.exec] at h
    obtain ⟨v, e1, e2⟩ := Option.bind_eq_some_iff.1 h
    obtain ⟨n, hn⟩ := ih v (Function.update prog t (k v)) m (by simp) e2
    refine ⟨n + 1, ?_⟩
    rw [List.replicate_succ]
    unfold run at hn ⊢
    simp only [loop]
    have : step (⟨m, prog⟩ : St Int Nat) t = some ⟨m, Function.update prog t (k v)⟩ := by
      unfold step
      simp only
      rw [hp]
      simp only
      rw [e1]
      rfl
    rw [this]
    simp only [Option.bind_some]
    rw [hn, Function.update_idem]
  | write i v k ih =>
    simp only [Prog.exec] at h
    obtain ⟨m', e1, e2⟩ := Option.bind_eq_some_iff.1 h
    obtain ⟨n, hn⟩ := ih (Function.update prog t k) m' (by simp) e2
    refine ⟨n + 1, ?_⟩
    rw [List.replicate_succ]
    unfold run at hn ⊢
    simp only [loop]
    have : step (⟨m, prog⟩ : St Int Nat) t = some ⟨m', Function.update prog t k⟩ := by
      unfold step
      simp only
      rw [hp]
      simp only
      rw [e1]
      rfl
    rw [this]
    simp only [Option.bind_some]
    rw [hn, Function.update_idem]

theorem warpGo_exec (t : Nat) (hs : List Nat) (m : Arr Int) (hb : t < m.size) (hh : ∀ h ∈ hs, t + h < m.size) :
    ∃ r, (warpGo t hs).exec m = some r ∧ r.size = m.size ∧ (∀ i, i ≠ t → r.get i = m.get i) ∧
      ((∀ h ∈ hs, h ≠ 0) → r.get t = m.get t + (hs.map fun h => m.get (t + h)).sum) := by
  induction hs generalizing m with
  | nil => exact ⟨m, rfl, rfl, fun _ _ => rfl, fun _ => by simp⟩
  | cons h hs ih =>
    have e1 : m.read ((t + h : Nat) : Int) = some (m.get (t + h)) := by
      rw [Arr.read_nat, if_pos (hh h (by simp))]
    have e2 : m.read ((t : Nat) : Int) = some (m.get t) := by rw [Arr.read_nat, if_pos hb]
    have e3 : m.write ((t : Nat) : Int) (m.get t + m.get (t + h)) = some (m.put t (m.get t + m.get (t + h))) := by
      rw [Arr.write_nat, if_pos hb]
    obtain ⟨r, r1, r2, r3, r4⟩ := ih (m.put t (m.get t + m.get (t + h))) (by simpa using hb)
      (fun x hx => by simpa using hh x (by simp [hx]))
    refine ⟨r, ?_, by rw [r2]; rfl, fun i hi => ?_, fun h0 => ?_⟩
    · simp only [warpGo, Prog.exec]
      rw [e1]
      simp only [Option.bind_some]
      rw [e2]
      simp only [Option.bind_some]
      rw [e3]
      exact r1
    · rw [r3 i hi, Arr.put_get, if_neg hi]
    · rw [r4 fun x hx => h0 x (by simp [hx]), Arr.put_get, if_pos rfl, List.map_cons, List.sum_cons]
      have : (hs.map fun h' => (m.put t (m.get t + m.get (t + h))).get (t + h')) = hs.map fun h' => m.get (t + h') := by
        apply List.map_congr_left
        intro x hx
        have := h0 x (by simp [hx])
        rw [Arr.put_get, if_neg (by omega)]
      rw [this]
      ring

/-- The lanes of the warp can run one after the other. -/
theorem warp_serial (m : Arr Int) (hm : m.size = 512) :
    ∃ r, Ran warp m r ∧ r.get 0 = m.get 0 + ([32, 16, 8, 4, 2, 1].map fun h => m.get (0 + h)).sum := by
  have gen : ∀ n ≤ 32, ∃ (sched : List Nat) (s : St Int Nat), (∀ t ∈ sched, t ∈ List.range 512) ∧
      run (⟨m, warp⟩ : St Int Nat) sched = some s ∧ s.mem.size = 512 ∧
      (∀ t, s.prog t = if t < n then .done else warp t) ∧
      (0 < n → s.mem.get 0 = m.get 0 + ([32, 16, 8, 4, 2, 1].map fun h => m.get (0 + h)).sum) ∧
      (n = 0 → s.mem = m) := by
    intro n
    induction n with
    | zero =>
      intro _
      exact ⟨[], ⟨m, warp⟩, by simp, rfl, hm, fun t => by simp, fun h => absurd h (by omega), fun _ => rfl⟩
    | succ n ih =>
      intro hn
      obtain ⟨sched, s, s1, s2, s3, s4, s5, s6⟩ := ih (by omega)
      have hp : s.prog n = warpGo n [32, 16, 8, 4, 2, 1] := by
        rw [s4 n, if_neg (by omega)]
        unfold warp
        rw [if_pos (by omega)]
      obtain ⟨r, r1, r2, r3, r4⟩ := warpGo_exec n [32, 16, 8, 4, 2, 1] s.mem (by omega)
        (by simp; omega)
      obtain ⟨k, hk⟩ := run_exec _ n s.prog s.mem r hp r1
      refine ⟨sched ++ List.replicate k n, ⟨r, Function.update s.prog n .done⟩, ?_, ?_, by rw [r2, s3], ?_, ?_, ?_⟩
      · intro t ht
        rcases List.mem_append.1 ht with h | h
        · exact s1 t h
        · rw [(List.mem_replicate.1 h).2]; exact List.mem_range.2 (by omega)
      · rw [run_append, s2]
        exact hk
      · intro t
        simp only
        by_cases c : t = n
        · subst c; rw [Function.update_self, if_pos (by omega)]
        · rw [Function.update_of_ne c, s4 t]
          by_cases c' : t < n
          · rw [if_pos c', if_pos (by omega)]
          · rw [if_neg c', if_neg (by omega)]
      · intro _
        simp only
        by_cases c : n = 0
        · subst c
          rw [r4 (by simp), s6 rfl]
        · rw [r3 0 (by omega), s5 (by omega)]
      · intro h; omega
  obtain ⟨sched, s, s1, s2, s3, s4, s5, -⟩ := gen 32 le_rfl
  refine ⟨s.mem, ⟨sched, s1, s, s2, fun t _ => ?_, rfl⟩, s5 (by omega)⟩
  rw [s4 t]
  by_cases c : t < 32
  · rw [if_pos c]
  · rw [if_neg c]; unfold warp; rw [if_neg c]

theorem gather_empty (a b : Arr Int) {s e : Int} (h : e ≤ s) (k : Nat) :
    gather a b s e k = gather a b ((0 : Nat) : Int) ((0 + 0 : Nat) : Int) k := by
  funext t
  unfold gather
  rw [show (e - s).toNat = 0 by omega, show (((0 + 0 : Nat) : Int) - ((0 : Nat) : Int)).toNat = 0 by omega]
  simp only [gatherGo]
  rw [if_neg (by omega), if_neg (by omega)]

theorem gather_rows (a b : Arr Int) (s e : Int) (h0 : 0 ≤ s) (h1 : e ≤ a.size) :
    ∃ p n : Nat, p + n ≤ a.size ∧ (∀ k, gather a b s e k = gather a b p ((p + n : Nat) : Int) k) ∧
      ∑ k ∈ Finset.range (e - s).toNat, (a.get (s.toNat + k) - b.get (s.toNat + k)) =
        ∑ x ∈ Finset.range n, (a.get (p + x) - b.get (p + x)) := by
  by_cases c : s < e
  · obtain ⟨p, rfl⟩ := Int.eq_ofNat_of_zero_le h0
    refine ⟨p, (e - p).toNat, by omega, fun k => ?_, by simp⟩
    rw [show ((p + (e - p).toNat : Nat) : Int) = e by omega]
  · exact ⟨0, 0, by omega, fun k => gather_empty a b (by omega) k, by
      rw [show (e - s).toNat = 0 by omega]; rfl⟩

theorem blockRun_rows {last : Arr Int → Arr Int → Prop} {a b : Arr Int} {s e s' e' : Int} {k : Nat}
    (h : gather a b s e k = gather a b s' e' k) (m : Arr Int) (v : Int) :
    BlockRun last a b s e k m v ↔ BlockRun last a b s' e' k m v := by
  unfold BlockRun
  rw [h]

theorem foldl_perm (order : List Nat) (ho : order.Perm (List.range 8)) (val : Nat → Int) :
    order.foldl (fun acc k => acc + val k) 0 = ∑ k ∈ Finset.range 8, val k := by
  have : ∀ (l : List Nat) (x : Int), l.foldl (fun acc k => acc + val k) x = x + (l.map val).sum := by
    intro l
    induction l with
    | nil => intro x; simp
    | cons k l ih => intro x; rw [List.foldl_cons, ih, List.map_cons, List.sum_cons]; ring
  rw [this, Int.zero_add, (ho.map val).sum_eq, list_sum_range]

/-- **C81** (sums, lockstep warps).  Whatever the schedule of the threads between two barriers, the order of
the blocks and the old contents of their shared arrays, the GPU leaves exactly the value of the CPU, as long
as the warp that makes the last additions runs in lockstep; and such a run exists. -/
theorem C81_sumdiff_partial (a b : Arr Int) (hab : a.size = b.size) (s e : Int) (he : e ≤ a.size) (v : Int) :
    SumDiffGpu RanLockstep a b s e v ↔ sumDiff a b s e = some v := by
  rw [sumDiff_spec a b hab s e he]
  unfold SumDiffGpu
  simp only
  generalize hrr : (if s < 0 ∨ e < 0 then ((0 : Int), (a.size : Int)) else (s, e)) = rr
  have h01 : 0 ≤ rr.1 ∧ rr.2 ≤ a.size := by
    rw [← hrr]
    by_cases c : s < 0 ∨ e < 0
    · rw [if_pos c]; simp
    · rw [if_neg c]; simp only; omega
  obtain ⟨p, n, hn, hg, hs⟩ := gather_rows a b rr.1 rr.2 h01.1 h01.2
  rw [hs, ← parts_sum, Option.some_inj]
  constructor
  · rintro ⟨m, order, val, ho, hb, rfl⟩
    rw [foldl_perm order ho]
    apply Finset.sum_congr rfl
    intro k hk
    obtain ⟨hm, hr⟩ := hb k (Finset.mem_range.1 hk)
    exact (block_value hab hn k _ hm ((blockRun_rows (hg k) _ _).1 hr)).symm
  · rintro rfl
    let m0 : Arr Int := ⟨512, fun _ => 0⟩
    refine ⟨fun _ => m0, List.range 8, part a b p n, List.Perm.refl _, fun k _ => ⟨rfl, ?_⟩, ?_⟩
    · obtain ⟨v, hv⟩ := block_exists hab hn k m0 rfl
      rw [blockRun_rows (hg k), ← block_value hab hn k m0 rfl hv]
      exact hv
    · rw [foldl_perm _ (List.Perm.refl _)]

/-- **C81 fails** where the lanes of a warp need not run in lockstep (independent thread scheduling): nothing
orders the last additions.  The differences of four rows are `1`, and the result can be `3`. -/
theorem C81_sumdiff_false : ∃ a b : Arr Int, a.size = b.size ∧ ∃ v, SumDiffGpu (Ran warp) a b 0 4 v ∧
    sumDiff a b 0 4 ≠ some v := by
  refine ⟨⟨4, fun _ => 1⟩, ⟨4, fun _ => 0⟩, rfl, ?_⟩
  generalize ha : (⟨4, fun _ => 1⟩ : Arr Int) = a
  generalize hb : (⟨4, fun _ => 0⟩ : Arr Int) = b
  have hab : a.size = b.size := by rw [← ha, ← hb]
  have hn : 0 + 4 ≤ a.size := by rw [← ha]
  let m0 : Arr Int := ⟨512, fun _ => 0⟩
  let m3 : Nat → Arr Int := fun k => halved 64 (halved 128 (halved 256 (gathered a b 0 4 k m0)))
  have hex : ∀ k : Nat, BlockRun (Ran warp) a b ((0 : Nat) : Int) ((0 + 4 : Nat) : Int) k m0
      ((m3 k).get 0 + ([32, 16, 8, 4, 2, 1].map fun h => (m3 k).get (0 + h)).sum) := by
    intro k
    obtain ⟨r, r1, r2⟩ := warp_serial (m3 k) (by simp only [m3, gathered, halved, m0])
    exact ⟨_, _, _, _, r, Ran.of_yields (gather_yields hab hn k m0 rfl),
      Ran.of_yields (halve_yields 256 _ (by simp only [gathered, m0]; omega) (by omega)),
      Ran.of_yields (halve_yields 128 _ (by simp only [gathered, halved, m0]; omega) (by omega)),
      Ran.of_yields (halve_yields 64 _ (by simp only [gathered, halved, m0]; omega) (by omega)), r1, r2.symm⟩
  refine ⟨3, ?_, ?_⟩
  · unfold SumDiffGpu
    simp only
    rw [if_neg (by omega)]
    refine ⟨fun _ => m0, List.range 8, fun k => (m3 k).get 0 + ([32, 16, 8, 4, 2, 1].map fun h => (m3 k).get (0 + h)).sum,
      List.Perm.refl _, fun k _ => ⟨rfl, hex k⟩, ?_⟩
    simp only [m3, m0]
    subst ha hb
    decide +kernel
  · subst ha hb
    decide +kernel

/-- **C81 fails** for arrays that do not hold `int`, and where no kernel can be launched: the error is found,
and the result is then read through a null pointer; on the CPU the same call returns the error. -/
theorem C81_sumdiff_crash_false (types cuda : Bool) (h : ¬ (types = true ∧ cuda = true)) (v : Int) :
    sumDiffHost types cuda v = none := by
  unfold sumDiffHost
  rw [if_neg h]

example : SumDiffGpu RanLockstep ⟨4, fun _ => 1⟩ ⟨4, fun _ => 0⟩ 0 4 4 :=
  (C81_sumdiff_partial ⟨4, fun _ => 1⟩ ⟨4, fun _ => 0⟩ rfl 0 4 (by decide) 4).2 (by decide +kernel)

end Sdp.GridUtil
