import Verif.Wstack.Images
import Verif.Wstack.Props

/-!
# Kernel calls of a w-plane, any schedule
-/

namespace Sdp.Wstack

open Sdp.Clamp Sdp.GridUtil

/-- Range arrays of the right size; non-empty ranges are within the channels. -/
def Valid (cfg : Cfg ℝ) (p : Ranges) : Prop :=
  Sized cfg p ∧ ∀ r < cfg.numRows, p.1.get r < p.2.get r → 0 ≤ p.1.get r ∧ p.2.get r ≤ cfg.numChan

theorem selectUv_valid (cfg : Cfg ℝ) (hu : cfg.uvw.size = 3 * cfg.numRows) (w buf : Ranges)
    (hw : Valid cfg w) (hb : Valid cfg buf) (iu iv a e : Int) (he : e ≤ cfg.numRows) :
    ∃ b, selectUv cfg w iu iv buf a e = some b ∧ Valid cfg b ∧
      ∀ r : Nat, (rowRange cfg.numRows a e).1 ≤ r → r < (rowRange cfg.numRows a e).2 →
        b.1.get r ≤ b.2.get r ∧
        ∀ ch : Int, (b.1.get r ≤ ch ∧ ch < b.2.get r) ↔
          (w.1.get r ≤ ch ∧ ch < w.2.get r ∧ inBox cfg cfg.dUv r 0 iu ch ∧
            inBox cfg cfg.dUv r 1 iv ch) := by
  obtain ⟨st, h, h1, h2, h3, h4⟩ := C34_uv cfg.c0 cfg.uvw cfg.numRows cfg.f0 cfg.df
    ⟨w.1, w.2, false⟩ (boxLo cfg.dUv iu) (boxHi cfg.dUv iu) (boxLo cfg.dUv iv)
    (boxHi cfg.dUv iv) buf a e hu
    ⟨by rw [hb.1.1], by rw [hb.1.2], fun _ => ⟨by rw [hw.1.1], by rw [hw.1.2]⟩⟩ he
  have g3 : ∀ r : Nat, (rowRange cfg.numRows a e).1 ≤ r → r < (rowRange cfg.numRows a e).2 →
        st.1.get r ≤ st.2.get r ∧
        ∀ ch : Int, (st.1.get r ≤ ch ∧ ch < st.2.get r) ↔
          (w.1.get r ≤ ch ∧ ch < w.2.get r ∧ inBox cfg cfg.dUv r 0 iu ch ∧
            inBox cfg cfg.dUv r 1 iv ch) := fun r a b => h3 r a b
  refine ⟨st, h, ⟨⟨h1.trans hb.1.1, h2.trans hb.1.2⟩, fun r hr hlt => ?_⟩, g3⟩
  by_cases hin : (rowRange cfg.numRows a e).1 ≤ (r : Int) ∧ (r : Int) < (rowRange cfg.numRows a e).2
  · have q := (g3 r hin.1 hin.2).2
    have q1 := (q (st.1.get r)).1 ⟨le_refl _, hlt⟩
    have q2 := (q (st.2.get r - 1)).1 ⟨by omega, by omega⟩
    have v := hw.2 r hr (by omega)
    omega
  · have q := h4 r hin
    unfold rangeOf at q
    obtain ⟨q1, q2⟩ := Prod.mk.inj q
    rw [q1, q2] at hlt ⊢
    exact hb.2 r hr hlt

theorem selectW_valid (cfg : Cfg ℝ) (hu : cfg.uvw.size = 3 * cfg.numRows) (iw : Int) (out : Ranges)
    (ho : Sized cfg out) :
    ∃ w, selectW cfg iw out = some w ∧ Valid cfg w ∧
      ∀ r < cfg.numRows, w.1.get r ≤ w.2.get r ∧
        ∀ ch : Int, (w.1.get r ≤ ch ∧ ch < w.2.get r) ↔
          (0 ≤ ch ∧ ch < cfg.numChan ∧ inBox cfg cfg.dW r 2 iw ch) := by
  obtain ⟨w, h1, h2, h3⟩ := selectW_spec cfg hu iw out ho
  refine ⟨w, h1, ⟨h2, fun r hr hlt => ?_⟩, h3⟩
  have q1 := ((h3 r hr).2 (w.1.get r)).1 ⟨le_refl _, hlt⟩
  have q2 := ((h3 r hr).2 (w.2.get r - 1)).1 ⟨by omega, by omega⟩
  omega

/-- What the counting loop produces, for every assignment of boxes to threads. -/
theorem countAll_spec (cfg : Cfg ℝ) (hu : cfg.uvw.size = 3 * cfg.numRows) (w : Ranges)
    (hw : Valid cfg w) (iu iv : Int × Int) (order : List (Nat × (Int × Int)))
    (ho : (order.map Prod.snd).Perm (boxes iu iv)) (bufs : List Ranges)
    (hb : ∀ b ∈ bufs, Valid cfg b) (hth : ∀ x ∈ order, x.1 < bufs.length) :
    ∃ (bufs' : List Ranges) (v : Int × Int → Nat), countAll cfg w iu iv order bufs = some (bufs',
        (boxes iu iv).map fun p => mkTask p.1 p.2 ((v p : Nat) : Int) cfg.numRows cfg.vpc) ∧
      bufs'.length = bufs.length ∧ (∀ b ∈ bufs', Valid cfg b) ∧
      ∀ p, ∀ r < cfg.numRows, ∀ ch : Int, (w.1.get r ≤ ch ∧ ch < w.2.get r) →
        inBox cfg cfg.dUv r 0 p.1 ch → inBox cfg cfg.dUv r 1 p.2 ch → 0 < v p := by
  classical
  obtain ⟨st, e, i1, i2, i3⟩ := loop_inv (countStep cfg w)
    (fun (done : List (Nat × (Int × Int))) (st : List Ranges × (Int × Int → Task)) =>
      st.1.length = bufs.length ∧ (∀ b ∈ st.1, Valid cfg b) ∧
      ∀ p ∈ done.map Prod.snd, ∃ v : Nat, st.2 p = mkTask p.1 p.2 (v : Int) cfg.numRows cfg.vpc ∧
        ∀ r < cfg.numRows, ∀ ch : Int, (w.1.get r ≤ ch ∧ ch < w.2.get r) →
        inBox cfg cfg.dUv r 0 p.1 ch → inBox cfg cfg.dUv r 1 p.2 ch → 0 < v)
    order (bufs, fun _ => Task.blank) ⟨rfl, hb, by simp⟩ (by
      intro done x l st hl ⟨j1, j2, j3⟩
      have hx : x.1 < st.1.length := by
        rw [j1]; exact hth x (by rw [hl]; simp)
      have hbv : Valid cfg st.1[x.1] := j2 _ (List.getElem_mem hx)
      obtain ⟨b, b1, b2, b3⟩ := selectUv_valid cfg hu w st.1[x.1] hw hbv x.2.1 x.2.2 (-1) (-1)
        (by omega)
      have hrow := fun (r : Nat) (hr : r < cfg.numRows) =>
        b3 r (by simp [rowRange]) (by simp [rowRange]; omega)
      refine ⟨(st.1.set x.1 b, fun q => if q = x.2 then
        mkTask x.2.1 x.2.2 ((visOf b 0 cfg.numRows).length : Int) cfg.numRows cfg.vpc else st.2 q),
        ?_, ?_, ?_, ?_⟩
      · unfold countStep
        rw [List.getElem?_eq_getElem hx]
        simp only [Option.bind_some]
        rw [b1]
        simp only [Option.bind_some]
        rw [sumDiff_all b cfg.numRows b2.1.1 b2.1.2 fun k hk => (hrow k hk).1]
        rfl
      · simp [j1]
      · intro q hq
        rcases List.mem_or_eq_of_mem_set hq with h | h
        · exact j2 q h
        · exact h ▸ b2
      · intro p hp
        by_cases hpx : p = x.2
        · refine ⟨(visOf b 0 cfg.numRows).length, ?_, ?_⟩
          · simp only [hpx, if_true]
          · intro r hr ch hch h1 h2
            apply List.length_pos_of_mem (a := ((r : Int), ch))
            rw [mem_visOf]
            simp only [Int.toNat_natCast]
            rw [hpx] at h1 h2
            exact ⟨⟨by omega, by omega⟩, ((hrow r hr).2 ch).2 ⟨hch.1, hch.2, h1, h2⟩⟩
        · rw [List.map_append, List.mem_append] at hp
          rcases hp with hp | hp
          · obtain ⟨v, v1, v2⟩ := j3 p hp
            exact ⟨v, by simp only [if_neg hpx]; exact v1, v2⟩
          · simp at hp
            exact absurd hp hpx)
  choose v hv1 hv2 using fun (p : {p // p ∈ boxes iu iv}) => i3 p.1 (ho.mem_iff.2 p.2)
  refine ⟨st.1, fun p => if h : p ∈ boxes iu iv then v ⟨p, h⟩ else 1, ?_, i1, i2, ?_⟩
  · unfold countAll
    rw [e]
    simp only [Option.map_some, Option.some.injEq, Prod.mk.injEq, true_and]
    apply List.map_congr_left
    intro p hp
    rw [dif_pos hp]
    exact hv1 ⟨p, hp⟩
  · intro p r hr ch hch h1 h2
    by_cases hp : p ∈ boxes iu iv
    · simp only [dif_pos hp]
      exact hv2 ⟨p, hp⟩ r hr ch hch h1 h2
    · simp only [dif_neg hp]
      omega

section run
variable {β ε ε' : Type}

/-- A run whose log is expanded. -/
theorem Run.expand (work : β → Task → Option (β × Int × List ε))
    (work' : β → Task → Option (β × Int × List ε')) (f : ε → List ε')
    (h : ∀ b t, work' b t = (work b t).map fun r => (r.1, r.2.1, r.2.2.flatMap f))
    (m : Nat) (a s : Par β ε) (hr : Run work m a s) :
    Run work' m ⟨a.tasks, a.threads, a.count, a.finished, a.handled.flatMap f⟩
      ⟨s.tasks, s.threads, s.count, s.finished, s.handled.flatMap f⟩ := by
  induction hr with
  | refl => exact Run.refl _
  | step hr hs ih =>
    refine Run.step ih ?_
    cases hs with
    | pick l1 l2 b t ts hth hp hc => exact Step.pick _ l1 l2 b t ts hth hp hc
    | stop l1 l2 b t ts hth hp hc => exact Step.stop _ l1 l2 b t ts hth hp hc
    | work l1 l2 b b' t v ev hth hw =>
      simp only [List.flatMap_append]
      exact Step.work _ l1 l2 b b' t v (ev.flatMap f) hth (by rw [h, hw]; rfl)

/-- Invariants of buffers and log entries. -/
theorem run_logged (work : β → Task → Option (β × Int × List ε)) (ts0 : List Task)
    (bufs : List β) (I : β → Prop) (P : ε → Prop) (hI : ∀ b ∈ bufs, I b)
    (hw : ∀ b, I b → ∀ t ∈ ts0.flatMap chunksOf, ∀ b' v ev, work b t = some (b', v, ev) →
      I b' ∧ ∀ e ∈ ev, P e)
    (m : Nat) (s : Par β ε) (hr : Run work m (Par.start ts0 bufs) s) :
    s.threads.length = bufs.length ∧ (∀ th ∈ s.threads, I th.buf) ∧ ∀ e ∈ s.handled, P e := by
  have key : ∀ (m : Nat) (a c : Par β ε), Run work m a c → a = Par.start ts0 bufs →
      c.threads.length = bufs.length ∧ (∀ th ∈ c.threads, I th.buf) ∧ ∀ e ∈ c.handled, P e := by
    intro m a c h
    induction h with
    | refl =>
      rintro rfl
      refine ⟨by simp [Par.start], ?_, fun x hx => by simp [Par.start] at hx⟩
      intro th hth
      simp only [Par.start, List.mem_map] at hth
      obtain ⟨b, hb, rfl⟩ := hth
      exact hI b hb
    | @step n a c d hrun hs ih =>
      intro ha
      obtain ⟨i0, i1, i2⟩ := ih ha
      cases hs with
      | pick l1 l2 b t ts' hth hp hc =>
        refine ⟨?_, ?_, i2⟩
        · rw [hth] at i0; simpa using i0
        intro th hm
        rcases List.mem_append.1 hm with hm | hm
        · exact i1 th (by rw [hth]; simp [hm])
        · rcases List.mem_cons.1 hm with rfl | hm
          · exact i1 ⟨.ready, b⟩ (by rw [hth]; simp)
          · exact i1 th (by rw [hth]; simp [hm])
      | stop l1 l2 b t ts' hth hp hc =>
        refine ⟨?_, ?_, i2⟩
        · rw [hth] at i0; simpa using i0
        intro th hm
        rcases List.mem_append.1 hm with hm | hm
        · exact i1 th (by rw [hth]; simp [hm])
        · rcases List.mem_cons.1 hm with rfl | hm
          · exact i1 ⟨.ready, b⟩ (by rw [hth]; simp)
          · exact i1 th (by rw [hth]; simp [hm])
      | work l1 l2 b b' t v ev hth hwk =>
        have hIb := i1 ⟨.busy t, b⟩ (by rw [hth]; simp)
        have htm : t ∈ ts0.flatMap chunksOf := by
          subst ha
          obtain ⟨rest, hperm⟩ := C37_never_twice work ts0 bufs n c hrun
          refine hperm.subset ?_
          rw [hth, busyTasks_append, busyTasks_busy]
          simp
        obtain ⟨j1, j2⟩ := hw b hIb t htm b' v ev hwk
        refine ⟨?_, ?_, ?_⟩
        · rw [hth] at i0; simpa using i0
        · intro th hm
          rcases List.mem_append.1 hm with hm | hm
          · exact i1 th (by rw [hth]; simp [hm])
          · rcases List.mem_cons.1 hm with rfl | hm
            · exact j1
            · exact i1 th (by rw [hth]; simp [hm])
        · intro e he
          rcases List.mem_append.1 he with he | he
          · exact i2 e he
          · exact j2 e he
  exact key m _ s hr rfl

end run

/-- Visibility `(i, c)` belongs to the kernel call. -/
def InCall (e : Event) (i c : Nat) : Prop :=
  (e.1.rowStart ≤ i ∧ (i : Int) < e.1.rowEnd) ∧ e.2.1.get i ≤ c ∧ (c : Int) < e.2.2.get i

/-- A kernel call as made on w-plane `k`: valid ranges, rows of the array, at least one
visibility, and every visibility in the box of the task and on the w-plane. -/
structure GoodCall (cfg : Cfg ℝ) (k : Int) (e : Event) : Prop where
  valid : Valid cfg e.2
  start : 0 ≤ e.1.rowStart
  stop : e.1.rowEnd ≤ cfg.numRows
  box : ∀ i : Nat, e.1.rowStart ≤ i → (i : Int) < e.1.rowEnd → ∀ ch : Int,
    e.2.1.get i ≤ ch → ch < e.2.2.get i → (0 ≤ ch ∧ ch < cfg.numChan) ∧
      inBox cfg cfg.dW i 2 k ch ∧ inBox cfg cfg.dUv i 0 e.1.iu ch ∧
      inBox cfg cfg.dUv i 1 e.1.iv ch
  some_vis : ∃ i c : Nat, InCall e i c

theorem workKernel_spec (cfg : Cfg ℝ) (hu : cfg.uvw.size = 3 * cfg.numRows) (w buf : Ranges)
    (hw : Valid cfg w) (k : Int)
    (hwk : ∀ r < cfg.numRows, ∀ ch : Int, w.1.get r ≤ ch → ch < w.2.get r →
      0 ≤ ch ∧ ch < cfg.numChan ∧ inBox cfg cfg.dW r 2 k ch)
    (hb : Valid cfg buf) (t : Task)
    (h0 : 0 ≤ t.rowStart) (h1 : t.rowEnd ≤ cfg.numRows) (h2 : 0 ≤ t.rowEnd) :
    ∃ b v ev, workKernel cfg w buf t = some (b, v, ev) ∧ Valid cfg b ∧
      ∀ e ∈ ev, GoodCall cfg k e := by
  obtain ⟨b, g1, g2, g3⟩ := selectUv_valid cfg hu w buf hw hb t.iu t.iv t.rowStart t.rowEnd h1
  have hrr : rowRange cfg.numRows t.rowStart t.rowEnd = (t.rowStart, t.rowEnd) := by
    unfold rowRange; rw [if_neg (by omega)]
  rw [hrr] at g3
  have hs := sumDiff_visOf b cfg.numRows g2.1.1 g2.1.2 t.rowStart t.rowEnd h0 h2 h1
    fun k hk1 hk2 => (g3 k hk1 hk2).1
  refine ⟨b, ((visOf b t.rowStart t.rowEnd).length : Int),
    if ((visOf b t.rowStart t.rowEnd).length : Int) = 0 then [] else [(t, b)], ?_, g2, ?_⟩
  · unfold workKernel
    rw [g1]
    simp only [Option.bind_some]
    rw [hs]
    rfl
  · intro e he
    by_cases hz : ((visOf b t.rowStart t.rowEnd).length : Int) = 0
    · rw [if_pos hz] at he; simp at he
    rw [if_neg hz, List.mem_singleton] at he
    subst he
    refine ⟨g2, h0, h1, ?_, ?_⟩
    · intro i hi1 hi2 ch hc1 hc2
      have q := ((g3 i hi1 hi2).2 ch).1 ⟨hc1, hc2⟩
      have q2 := hwk i (by simp only at hi2; omega) ch q.1 q.2.1
      exact ⟨⟨q2.1, q2.2.1⟩, q2.2.2, q.2.2⟩
    · obtain ⟨x, hx⟩ := List.exists_mem_of_length_pos (l := visOf b t.rowStart t.rowEnd) (by omega)
      rw [mem_visOf] at hx
      obtain ⟨n, hn⟩ := Int.eq_ofNat_of_zero_le (le_trans h0 hx.1.1)
      have hn' : x.1.toNat = n := by omega
      rw [hn'] at hx
      have q := ((g3 n (by omega) (by omega)).2 x.2).1 hx.2
      have q2 := hwk n (by omega) x.2 q.1 q.2.1
      obtain ⟨c, hc⟩ := Int.eq_ofNat_of_zero_le q2.1
      exact ⟨n, c, ⟨by simp only; omega, by simp only; omega⟩, by simp only; omega,
        by simp only; omega⟩

/-- Visibilities of a kernel call. -/
def eventVis (e : Event) : List (Int × Int) := visOf e.2 e.1.rowStart e.1.rowEnd

theorem workOn_expand (cfg : Cfg ℝ) (w : Ranges) (b : Ranges) (t : Task) :
    workOn cfg w b t = (workKernel cfg w b t).map fun r => (r.1, r.2.1, r.2.2.flatMap eventVis) := by
  unfold workOn workKernel
  cases selectUv cfg w t.iu t.iv b t.rowStart t.rowEnd with
  | none => rfl
  | some b' =>
    simp only [Option.bind_some]
    cases sumDiff b'.2 b'.1 t.rowStart t.rowEnd with
    | none => rfl
    | some v =>
      simp only [Option.bind_some, Option.map_some]
      by_cases hv : v = 0
      · simp [hv]
      · simp [hv, eventVis]

theorem mem_eventVis {e : Event} (i c : Nat) :
    ((i : Int), (c : Int)) ∈ eventVis e ↔ InCall e i c := by
  unfold eventVis InCall
  rw [mem_visOf]
  simp

open Classical in
/-- One w-plane, any schedule and any sharing of the counting loop: all calls are good, and each
visibility of the w-plane is in one of them. -/
theorem plane_calls (cfg : Cfg ℝ) (h : cfg.Ok) (iw iu iv : Int × Int)
    (hidx : indices cfg = some (iw, iu, iv)) (k : Int) (out w : Ranges) (ho : Sized cfg out)
    (hw : selectW cfg k out = some w) (order : List (Nat × (Int × Int)))
    (hord : (order.map Prod.snd).Perm (boxes iu iv)) (bufs bufs' : List Ranges) (hne : bufs ≠ [])
    (hb : ∀ b ∈ bufs, Valid cfg b) (hth : ∀ x ∈ order, x.1 < bufs.length) (tasks : List Task)
    (hc : countAll cfg w iu iv order bufs = some (bufs', tasks)) (m : Nat) (s : Par Ranges Event)
    (hr : Run (workKernel cfg w) m (Par.start tasks bufs') s) :
    (s.threads.length = bufs.length ∧ (∀ th ∈ s.threads, Valid cfg th.buf) ∧
      ∀ e ∈ s.handled, GoodCall cfg k e) ∧
    (¬ s.final → ∃ s', Step (workKernel cfg w) s s') ∧
    (s.final → sumDiff w.2 w.1 (-1) (-1) = some s.count ∧
      ∀ i < cfg.numRows, ∀ c < cfg.numChan,
        (s.handled.map fun e => if InCall e i c then 1 else 0).sum =
          if inBox cfg cfg.dW i 2 k c then 1 else 0) := by
  obtain ⟨iw', iu', iv', hi', hcov⟩ := indices_spec cfg h
  rw [hidx] at hi'
  simp only [Option.some.injEq, Prod.mk.injEq] at hi'
  obtain ⟨rfl, rfl, rfl⟩ := hi'
  obtain ⟨w', hw1, hw2, hw3⟩ := selectW_valid cfg h.uvw k out ho
  obtain rfl : w' = w := Option.some.inj (hw1.symm.trans hw)
  obtain ⟨bs, v, c1, c2, c3, c4⟩ := countAll_spec cfg h.uvw w' hw2 iu iv order hord bufs hb hth
  rw [hc] at c1
  obtain ⟨rfl, rfl⟩ := Prod.mk.inj (Option.some.inj c1)
  have hrows : ∀ t ∈ ((boxes iu iv).map fun p =>
      mkTask p.1 p.2 (v p) cfg.numRows cfg.vpc).flatMap chunksOf,
      0 ≤ t.rowStart ∧ t.rowEnd ≤ cfg.numRows ∧ 0 ≤ t.rowEnd := by
    intro t htm
    rw [List.mem_flatMap] at htm
    obtain ⟨t0, ht0, htc⟩ := htm
    rw [List.mem_map] at ht0
    obtain ⟨p, _, rfl⟩ := ht0
    exact C37_chunk_in_rows _ _ _ _ _ t htc
  have hsel : ∀ r < cfg.numRows, ∀ ch : Int, w'.1.get r ≤ ch → ch < w'.2.get r →
      0 ≤ ch ∧ ch < cfg.numChan ∧ inBox cfg cfg.dW r 2 k ch := fun r hr' ch a b =>
    ((hw3 r hr').2 ch).1 ⟨a, b⟩
  have A := run_logged (workKernel cfg w') _ bufs' (Valid cfg) (GoodCall cfg k) c3 (by
    intro b hIb t htm b' v' ev' hwk
    obtain ⟨r1, r2, r3⟩ := hrows t htm
    obtain ⟨b2, v2, ev2, e1, e2, e3⟩ := workKernel_spec cfg h.uvw w' b hw2 k hsel hIb t r1 r2 r3
    rw [hwk] at e1
    simp only [Option.some.injEq, Prod.mk.injEq] at e1
    obtain ⟨rfl, rfl, rfl⟩ := e1
    exact ⟨e2, e3⟩) m s hr
  refine ⟨⟨A.1.trans c2, A.2⟩, fun hnf => ?_, fun hf => ?_⟩
  · apply C37_progress (workKernel cfg w') s hnf
    intro th hth' t hph
    have htm : t ∈ ((boxes iu iv).map fun p =>
        mkTask p.1 p.2 (v p) cfg.numRows cfg.vpc).flatMap chunksOf := by
      obtain ⟨rest, hperm⟩ := C37_never_twice (workKernel cfg w') _ bufs' m s hr
      refine hperm.subset ?_
      have : t ∈ busyTasks s.threads := by
        unfold busyTasks
        rw [List.mem_filterMap]
        exact ⟨th, hth', by rw [hph]⟩
      simp [this]
    obtain ⟨r1, r2, r3⟩ := hrows t htm
    obtain ⟨b2, v2, ev2, e1, -⟩ :=
      workKernel_spec cfg h.uvw w' th.buf hw2 k hsel (A.2.1 th hth') t r1 r2 r3
    exact ⟨_, e1⟩
  have hr2 := Run.expand (workKernel cfg w') (workOn cfg w') eventVis (workOn_expand cfg w') m _ _ hr
  have hr2 : Run (workOn cfg w') m (Par.start ((boxes iu iv).map fun p =>
      mkTask p.1 p.2 (v p) cfg.numRows cfg.vpc) bufs')
      ⟨s.tasks, s.threads, s.count, s.finished, s.handled.flatMap eventVis⟩ := hr2
  obtain ⟨_, hc2, hc3⟩ := run_accounting (workOn cfg w') _ bufs' (Sized cfg)
    (fun t x => if taskHas cfg w' t x then 1 else 0) (fun b hb' => (c3 b hb').1)
    (by
      intro b hIb t htm b' v' ev' hwk
      obtain ⟨r1, r2, r3⟩ := hrows t htm
      obtain ⟨b2, v2, ev2, e1, e2, e3, e4⟩ := workOn_spec cfg h.uvw w' b hw2.1 hIb t r1 r2 r3
      rw [hwk] at e1
      simp only [Option.some.injEq, Prod.mk.injEq] at e1
      obtain ⟨rfl, rfl, rfl⟩ := e1
      exact ⟨e2, e3, e4⟩) m _ hr2
  have hbne : bufs' ≠ [] := by
    intro hh
    rw [hh] at c2
    exact hne (List.length_eq_zero_iff.1 c2.symm)
  have hperm := C37_all_chunks_once (workOn cfg w') _ bufs' hbne m _ hr2 hf
  have hcount : ∀ x, (s.handled.flatMap eventVis).count x = (visOf w' 0 cfg.numRows).count x := by
    intro x
    rw [hc3 x, (hperm.map _).sum_eq]
    exact tasks_handle_once cfg h iu iv
      (fun r hr' ch h0 h1 => (hcov r hr' ch h0 h1).2) w'
      (fun r hr' ch hch => by
        have := ((hw3 r hr').2 ch).1 hch
        exact ⟨this.1, this.2.1⟩) v c4 x
  have hp : (s.handled.flatMap eventVis).Perm (visOf w' 0 cfg.numRows) := List.perm_iff_count.2 hcount
  have hsum := sumDiff_all w' cfg.numRows hw2.1.1 hw2.1.2 fun r hr => (hw3 r hr).1
  refine ⟨?_, fun i hi c hcc => ?_⟩
  · rw [hsum, ← hp.length_eq]
    exact congrArg some hc2.symm
  · have e1 : (s.handled.map fun e => if InCall e i c then 1 else 0).sum =
        (s.handled.flatMap eventVis).count ((i : Int), (c : Int)) := by
      rw [List.count_flatMap]
      congr 1
      apply List.map_congr_left
      intro e _
      rw [Function.comp_apply]
      by_cases hh : InCall e i c
      · rw [if_pos hh]
        exact (List.count_eq_one_of_mem (visOf_nodup _ _ _) ((mem_eventVis i c).2 hh)).symm
      · rw [if_neg hh]
        exact (List.count_eq_zero_of_not_mem fun hm => hh ((mem_eventVis i c).1 hm)).symm
    rw [e1, hcount]
    have hiff : ((i : Int), (c : Int)) ∈ visOf w' 0 cfg.numRows ↔ inBox cfg cfg.dW i 2 k c := by
      rw [mem_visOf]
      simp only [Int.toNat_natCast]
      constructor
      · rintro ⟨a, b⟩
        exact (((hw3 i hi).2 c).1 b).2.2
      · intro b
        exact ⟨⟨by omega, by omega⟩, ((hw3 i hi).2 c).2 ⟨by omega, by omega, b⟩⟩
    by_cases hh : inBox cfg cfg.dW i 2 k c
    · rw [if_pos hh]
      exact List.count_eq_one_of_mem (visOf_nodup _ _ _) (hiff.2 hh)
    · rw [if_neg hh]
      exact List.count_eq_zero_of_not_mem fun hm => hh (hiff.1 hm)

end Sdp.Wstack
