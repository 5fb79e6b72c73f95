import Verif.Mem.StreamSpec
import Mathlib.Tactic.Common

/-! # Facts about copies on streams -/

namespace Sdp.Stream

/-- Finish one byte. -/
def Move.finish (m : Move) (c : Cells) : Cells := put c m.dst (m.held.getD (c m.src))

/-- Finish all the bytes, in the order they were handed over. -/
def replay (l : List Move) (c : Cells) : Cells := l.foldl (fun c m => m.finish c) c

/-- Two byte moves do not interfere. -/
def Free (a b : Move) : Prop := a.dst ≠ b.dst ∧ a.dst ≠ b.src ∧ a.src ≠ b.dst

theorem replay_append (a b : List Move) (c : Cells) :
    replay (a ++ b) c = replay b (replay a c) := by
  simp [replay, List.foldl_append]

theorem replay_cons (m : Move) (b : List Move) (c : Cells) :
    replay (m :: b) c = replay b (m.finish c) := rfl

theorem put_comm {c : Cells} {p q : Ptr} {v w : UInt8} (h : p ≠ q) :
    put (put c p v) q w = put (put c q w) p v := by
  funext r; unfold put
  by_cases h1 : r = q
  · subst h1; simp; intro e; exact absurd e.symm h
  · simp [h1]

theorem replay_frame (l : List Move) (c : Cells) (p : Ptr) (h : ∀ m ∈ l, m.dst ≠ p) :
    replay l c p = c p := by
  induction l generalizing c with
  | nil => rfl
  | cons m l ih =>
    rw [replay_cons, ih _ fun m' hm' => h m' (List.mem_cons_of_mem _ hm')]
    unfold Move.finish put
    rw [if_neg]; intro e; exact h m (List.mem_cons_self ..) e.symm

theorem replay_put (l : List Move) (c : Cells) (p : Ptr) (v : UInt8)
    (h : ∀ m ∈ l, m.dst ≠ p ∧ m.src ≠ p) : replay l (put c p v) = put (replay l c) p v := by
  induction l generalizing c with
  | nil => rfl
  | cons m l ih =>
    rw [replay_cons, replay_cons, ← ih _ fun m' hm' => h m' (List.mem_cons_of_mem _ hm')]
    congr 1
    have hm := h m (List.mem_cons_self ..)
    unfold Move.finish
    have : (put c p v) m.src = c m.src := by unfold put; rw [if_neg hm.2]
    rw [this, put_comm (fun e => hm.1 e.symm)]

/-- Reading a byte early does not change what the queue will do. -/
theorem replay_fetch (pre post : List Move) (m : Move) (c : Cells) (hn : m.held = none)
    (h : ∀ e ∈ pre, Free e m) :
    replay (pre ++ { m with held := some (c m.src) } :: post) c = replay (pre ++ m :: post) c := by
  rw [replay_append, replay_append, replay_cons, replay_cons]
  congr 1
  unfold Move.finish
  rw [hn, replay_frame pre c m.src fun e he => (h e he).2.1]
  rfl

/-- Neither does writing it early. -/
theorem replay_store (pre post : List Move) (m : Move) (c : Cells) (v : UInt8)
    (hn : m.held = some v) (h : ∀ e ∈ pre, Free e m) :
    replay (pre ++ post) (put c m.dst v) = replay (pre ++ m :: post) c := by
  rw [replay_append, replay_append, replay_cons,
    replay_put pre c m.dst v fun e he => ⟨(h e he).1, (h e he).2.2⟩]
  congr 1
  unfold Move.finish
  rw [hn]; rfl

theorem advance_inj {p : Ptr} {i j : Nat} (h : advance p i = advance p j) : i = j := by
  have := congrArg Ptr.off h
  simp only [advance] at this; omega

theorem in_advance {p start : Ptr} {n : Nat} :
    In p start n ↔ ∃ i : Nat, i < n ∧ p = advance start i := by
  constructor
  · rintro ⟨h1, h2, h3⟩
    refine ⟨(p.off - start.off).toNat, by omega, ?_⟩
    cases p; simp only [advance, Ptr.mk.injEq] at *; exact ⟨h1, by omega⟩
  · rintro ⟨i, hi, rfl⟩
    exact ⟨rfl, by simp only [advance]; omega, by simp only [advance]; omega⟩

theorem memcpy_apply (c : Cells) (dp sp : Ptr) (n : Nat) (host blocks : Bool) (st : Option Nat) :
    memcpy c dp sp n = (Copy.mk host st blocks dp sp n).apply c := by
  induction n with
  | zero =>
    funext p
    simp only [memcpy, Copy.apply]
    rw [if_neg]; rintro ⟨h1, h2, h3⟩; push_cast at h3; omega
  | succ n ih =>
    funext p
    simp only [memcpy, put, ih, Copy.apply]
    by_cases hp : p = advance dp n
    · subst hp
      rw [if_pos rfl, if_pos (in_advance.2 ⟨n, by omega, rfl⟩)]
      simp only [advance]; congr 2; omega
    · rw [if_neg hp]
      by_cases h : In p dp n
      · rw [if_pos h, if_pos]
        obtain ⟨i, hi, rfl⟩ := in_advance.1 h
        exact in_advance.2 ⟨i, by omega, rfl⟩
      · rw [if_neg h, if_neg]
        intro h'
        obtain ⟨i, hi, rfl⟩ := in_advance.1 h'
        by_cases hin : i = n
        · subst hin; exact hp rfl
        · exact h (in_advance.2 ⟨i, by omega, rfl⟩)

theorem mem_bytesOf {op st dp sp n m} (h : m ∈ bytesOf op st dp sp n) :
    m.op = op ∧ m.stream = st ∧ m.held = none ∧ ∃ i : Nat, i < n ∧ m.dst = advance dp i ∧
      m.src = advance sp i := by
  simp only [bytesOf, List.mem_map, List.mem_range] at h
  obtain ⟨i, hi, rfl⟩ := h
  exact ⟨rfl, rfl, rfl, i, hi, rfl, rfl⟩

theorem bytesOf_free {op st dp sp n} (h : ∀ p, ¬ (In p dp n ∧ In p sp n)) :
    (bytesOf op st dp sp n).Pairwise Free := by
  unfold bytesOf
  rw [List.pairwise_map]
  refine List.Pairwise.imp_of_mem ?_ (List.pairwise_lt_range (n := n))
  intro i j hi hj hij
  rw [List.mem_range] at hi hj
  refine ⟨fun e => ?_, fun e => ?_, fun e => ?_⟩
  · have := advance_inj e; omega
  · exact h _ ⟨in_advance.2 ⟨i, hi, rfl⟩, in_advance.2 ⟨j, hj, e⟩⟩
  · exact h _ ⟨in_advance.2 ⟨j, hj, rfl⟩, in_advance.2 ⟨i, hi, e.symm⟩⟩

theorem replay_bytesOf (c : Cells) (op st dp sp n) (h : ∀ p, ¬ (In p dp n ∧ In p sp n)) :
    replay (bytesOf op st dp sp n) c = memcpy c dp sp n := by
  induction n with
  | zero => rfl
  | succ n ih =>
    have h' : ∀ p, ¬ (In p dp n ∧ In p sp n) := by
      rintro p ⟨⟨a, b, d⟩, e, f, g⟩
      exact h p ⟨⟨a, b, by push_cast; omega⟩, e, f, by push_cast; omega⟩
    have e : bytesOf op st dp sp (n + 1) = bytesOf op st dp sp n ++
        [⟨op, st, advance dp n, advance sp n, none⟩] := by
      simp [bytesOf, List.range_succ]
    rw [e, replay_append, replay_cons]
    show (Move.finish _ _) = _
    unfold Move.finish
    simp only [memcpy, Option.getD_none, ← ih h']
    congr 1
    apply replay_frame
    intro m hm e'
    obtain ⟨-, -, -, i, hi, h1, h2⟩ := mem_bytesOf hm
    exact h (advance sp n) ⟨in_advance.2 ⟨i, by omega, by rw [← h1, e']⟩,
      in_advance.2 ⟨n, by omega, rfl⟩⟩

/-- A byte move that touches nothing of a copy commutes with it. -/
theorem finish_apply (m : Move) (k : Copy) (c : Cells) (h1 : ¬ In m.dst k.dst k.n)
    (h2 : ¬ In m.dst k.src k.n) (h3 : ¬ In m.src k.dst k.n) :
    m.finish (k.apply c) = k.apply (m.finish c) := by
  funext p
  simp only [Move.finish, put, Copy.apply]
  rw [if_neg h3]
  by_cases hp : p = m.dst
  · subst hp; rw [if_pos rfl, if_neg h1, if_pos rfl]
  · rw [if_neg hp]
    by_cases hi : In p k.dst k.n
    · rw [if_pos hi, if_pos hi, if_neg]
      intro e; apply h2; rw [← e]
      obtain ⟨a, b, d⟩ := hi
      exact ⟨rfl, by simp only []; omega, by simp only []; omega⟩
    · rw [if_neg hi, if_neg hi, if_neg hp]

theorem replay_apply (l : List Move) (k : Copy) (c : Cells)
    (h : ∀ m ∈ l, ¬ In m.dst k.dst k.n ∧ ¬ In m.dst k.src k.n ∧ ¬ In m.src k.dst k.n) :
    replay l (k.apply c) = k.apply (replay l c) := by
  induction l generalizing c with
  | nil => rfl
  | cons m l ih =>
    have hm := h m (List.mem_cons_self ..)
    rw [replay_cons, replay_cons, finish_apply m k c hm.1 hm.2.1 hm.2.2,
      ih _ fun m' hm' => h m' (List.mem_cons_of_mem _ hm')]

theorem orders_iff (s t : Option Nat) : orders s t = true ↔ Ordered s t := by
  unfold orders Ordered
  cases s <;> cases t <;> simp

theorem overlap_apart {dp sp : Ptr} {n : Nat} (h : overlap dp sp n = false) :
    ∀ p, ¬ (In p dp n ∧ In p sp n) := by
  rintro p ⟨⟨a, b, d⟩, e, f, g⟩
  simp only [overlap, decide_eq_false_iff_not] at h
  exact h ⟨by rw [← a, e], by omega, by omega⟩

theorem apart_overlap {dp sp : Ptr} {n : Nat} (h : ∀ p, ¬ (In p dp n ∧ In p sp n)) (hn : 0 < n) :
    overlap dp sp n = false := by
  simp only [overlap, decide_eq_false_iff_not]
  rintro ⟨a, b, d⟩
  by_cases hl : dp.off ≤ sp.off
  · exact h sp ⟨⟨a.symm, hl, d⟩, rfl, Int.le_refl _, by omega⟩
  · exact h dp ⟨⟨rfl, Int.le_refl _, by omega⟩, a, by omega, b⟩

theorem inside_iff {live : Nat → Option Int} {p : Ptr} {n : Nat} :
    inside live p n = true ↔ ∃ size, live p.block = some size ∧ 0 ≤ p.off ∧ p.off + n ≤ size := by
  unfold inside
  cases live p.block <;> simp

/-- Calls with good arguments do what the description says. -/
theorem act_given {live : Nat → Option Int} {x : Xfer} {onHost : Bool} {dp sp : Ptr} {n : Nat}
    (g : Given live x onHost dp sp n) :
    (onHost = true ∧ act true live x .success = .host dp sp n) ∨
    (onHost = false ∧ ∃ b, (b = true ↔ OneHost x) ∧
      act true live x .success = .dev b dp sp n) := by
  obtain ⟨⟨d, s, pd, ps, hd, hs, hpd, hps, e1, e2, en, hn, hne, ld, ls, lo⟩, hok, l1, l2, ha⟩ := g
  have hov : overlap dp sp n = false := by
    by_cases h0 : 0 < n
    · exact apart_overlap ha h0
    · simp only [overlap, decide_eq_false_iff_not]; omega
  have hb : (s.type.size * x.n).toNat = n := by omega
  have hin1 := inside_iff.2 l1
  have hin2 := inside_iff.2 l2
  have hone : OneHost x ↔ d.location = .cpu ∨ s.location = .cpu := by
    simp [OneHost, hd, hs]
  have e1' : advance pd (s.type.size * x.offDst) = dp := e1.symm
  have e2' : advance ps (s.type.size * x.offSrc) = sp := e2.symm
  have hnot : ¬ (x.n < 0 ∨ inside live dp n = false ∨ inside live sp n = false ∨
      overlap dp sp n = true) := by
    rw [hin1, hin2, hov]; simp; omega
  rw [hone]
  unfold act
  rw [if_neg (by simp)]
  simp only [hd, hs, hpd, hps, hb, e1', e2']
  rw [if_neg (by omega)]
  cases hdl : d.location <;> cases hsl : s.location <;> simp only [hdl, hsl] at * <;>
    simp_all

/-- What is true at every moment of every execution of a separated program. -/
structure Inv (live : Nat → Option Int) (jobs : List Job) (init : Cells) (c : Config) : Prop where
  ex : ∃ done rest : List Job, jobs = done ++ rest ∧ List.Forall₂ (Describes live) rest c.todo ∧
    replay c.pending c.cells = inOrder done init ∧ Separated rest ∧
    (c.blocked = none → ∀ m ∈ c.pending, ∃ x a y, done = x ++ .copy a :: y ∧ (a.host = false ∧ a.blocks = false) ∧
      m.stream = a.stream ∧ In m.dst a.dst a.n ∧ In m.src a.src a.n ∧ (∀ j ∈ y, ¬ Awaits j a) ∧
      SafeAfter a rest)
  status : c.status = .success
  pair : c.pending.Pairwise fun a b => Free a b ∨ (Ordered a.stream b.stream ∧ a.op ≠ b.op)
  fresh : ∀ m ∈ c.pending, m.op < c.next
  block : ∀ k, c.blocked = some k → (c.pending = [] ∨ ∃ m ∈ c.pending, m.op = k) ∧
    ∀ pre m post, c.pending = pre ++ m :: post → m.op = k → m.stream = none ∧ ∀ m' ∈ post, m'.op = k

theorem inOrder_append (a b : List Job) (c : Cells) :
    inOrder (a ++ b) c = inOrder b (inOrder a c) := by
  induction a generalizing c with
  | nil => rfl
  | cons j a ih => cases j <;> simp only [List.cons_append, inOrder, ih]

theorem inv_start {live : Nat → Option Int} {jobs : List Job} {prog : List Call} (init : Cells)
    (h : List.Forall₂ (Describes live) jobs prog) (hs : Separated jobs) :
    Inv live jobs init (start init prog) :=
  ⟨⟨[], jobs, rfl, h, rfl, hs, fun _ m hm => by cases hm⟩, rfl, List.Pairwise.nil,
    (fun m hm => by cases hm), (fun k hk => by cases hk)⟩

/-- The moves before one that is ready do not interfere with it. -/
theorem ready_free {pre post : List Move} {m : Move}
    (hp : (pre ++ m :: post).Pairwise
      fun a b => Free a b ∨ (Ordered a.stream b.stream ∧ a.op ≠ b.op))
    (hr : ready pre m = true) : ∀ e ∈ pre, Free e m := by
  intro e he
  rw [List.pairwise_append] at hp
  rcases hp.2.2 e he m (List.mem_cons_self ..) with h | ⟨h1, h2⟩
  · exact h
  · exfalso
    unfold ready at hr
    rw [List.all_eq_true] at hr
    have := hr e he
    rw [(orders_iff _ _).2 h1] at this
    simp at this
    exact h2 this

/-- All moves before one that is ready on the default stream belong to the same copy. -/
theorem ready_default {pre : List Move} {m : Move} (hr : ready pre m = true)
    (hs : m.stream = none) : ∀ e ∈ pre, e.op = m.op := by
  intro e he
  unfold ready at hr
  rw [List.all_eq_true] at hr
  have := hr e he
  rw [(orders_iff _ _).2 (Or.inr (Or.inr hs))] at this
  simpa using this

end Sdp.Stream
