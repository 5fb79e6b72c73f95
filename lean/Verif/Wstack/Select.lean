import Verif.GridUtil.BoundsProps
import Verif.Wstack.Boxes
import Verif.Wstack.TaskProps

/-!
# What the selection, counting and per-task work compute
-/

namespace Sdp.Wstack

open Sdp.Clamp Sdp.GridUtil

variable {K : Type} [Field K] [LinearOrder K] [IsStrictOrderedRing K] [FloorRing K]

/-- Channel 0 coordinate and step of row `r`, axis `j` (0 = u, 1 = v, 2 = w). -/
def base (cfg : Cfg K) (r j : Nat) : K := cfg.uvw.get (3 * r + j) * (cfg.f0 / cfg.c0)
def step (cfg : Cfg K) (r j : Nat) : K := cfg.uvw.get (3 * r + j) * (cfg.df / cfg.c0)

/-- Box `i` of axis `j` with box size `d` selects channel `ch` of row `r`. -/
def inBox (cfg : Cfg K) (d : K) (r j : Nat) (i ch : Int) : Prop :=
  Sel (base cfg r j) (step cfg r j) (boxLo d i) (boxHi d i) ch

/-- Both arrays have one entry per row. -/
def Sized (cfg : Cfg K) (p : Arr Int × Arr Int) : Prop :=
  p.1.size = cfg.numRows ∧ p.2.size = cfg.numRows

theorem selectW_spec (cfg : Cfg K) (hu : cfg.uvw.size = 3 * cfg.numRows) (iw : Int)
    (out : Arr Int × Arr Int) (ho : Sized cfg out) :
    ∃ w, selectW cfg iw out = some w ∧ Sized cfg w ∧
      ∀ r < cfg.numRows, w.1.get r ≤ w.2.get r ∧
        ∀ ch : Int, (w.1.get r ≤ ch ∧ ch < w.2.get r) ↔
          (0 ≤ ch ∧ ch < cfg.numChan ∧ inBox cfg cfg.dW r 2 iw ch) := by
  obtain ⟨st, h, h1, h2, h3, -⟩ := C34_single cfg.c0 cfg.uvw cfg.numRows 2 cfg.f0 cfg.df
    ⟨allStart cfg, allEnd cfg, false⟩ (boxLo cfg.dW iw) (boxHi cfg.dW iw) out (-1) (-1) hu
    (by omega) ⟨by rw [ho.1], by rw [ho.2], fun _ => ⟨le_refl _, le_refl _⟩⟩ (by omega)
  refine ⟨st, h, ⟨h1.trans ho.1, h2.trans ho.2⟩, fun r hr => ?_⟩
  have := h3 r (by simp [rowRange]) (by simp [rowRange]; omega)
  exact this

theorem selectUv_spec (cfg : Cfg K) (hu : cfg.uvw.size = 3 * cfg.numRows)
    (w buf : Arr Int × Arr Int) (hw : Sized cfg w) (hb : Sized cfg buf) (iu iv a e : Int)
    (he : e ≤ cfg.numRows) :
    ∃ b, selectUv cfg w iu iv buf a e = some b ∧ Sized cfg b ∧
      ∀ r : Nat, (rowRange cfg.numRows a e).1 ≤ r → r < (rowRange cfg.numRows a e).2 →
        b.1.get r ≤ b.2.get r ∧
        ∀ ch : Int, (b.1.get r ≤ ch ∧ ch < b.2.get r) ↔
          (w.1.get r ≤ ch ∧ ch < w.2.get r ∧ inBox cfg cfg.dUv r 0 iu ch ∧
            inBox cfg cfg.dUv r 1 iv ch) := by
  obtain ⟨st, h, h1, h2, h3, -⟩ := C34_uv cfg.c0 cfg.uvw cfg.numRows cfg.f0 cfg.df
    ⟨w.1, w.2, false⟩ (boxLo cfg.dUv iu) (boxHi cfg.dUv iu) (boxLo cfg.dUv iv)
    (boxHi cfg.dUv iv) buf a e hu
    ⟨by rw [hb.1], by rw [hb.2], fun _ => ⟨by rw [hw.1], by rw [hw.2]⟩⟩ he
  refine ⟨st, h, ⟨h1.trans hb.1, h2.trans hb.2⟩, fun r hr1 hr2 => ?_⟩
  exact h3 r hr1 hr2

theorem rowsOf_length (a b : Int) : (rowsOf a b).length = (b - a).toNat := by
  simp [rowsOf]

theorem mem_visOf (r : Arr Int × Arr Int) (a b : Int) (x : Int × Int) :
    x ∈ visOf r a b ↔ (a ≤ x.1 ∧ x.1 < b) ∧ r.1.get x.1.toNat ≤ x.2 ∧ x.2 < r.2.get x.1.toNat := by
  unfold visOf
  simp only [List.mem_flatMap, List.mem_map, mem_rowsOf]
  constructor
  · rintro ⟨i, hi, ch, hch, rfl⟩; exact ⟨hi, hch⟩
  · rintro ⟨h1, h2⟩; exact ⟨x.1, h1, x.2, h2, rfl⟩

theorem visOf_nodup (r : Arr Int × Arr Int) (a b : Int) : (visOf r a b).Nodup := by
  unfold visOf
  rw [List.nodup_flatMap]
  refine ⟨fun i _ => ?_, ?_⟩
  · apply List.Nodup.map _ (rowsOf_nodup _ _)
    intro x y h
    exact (Prod.mk.inj h).2
  · refine List.Pairwise.imp_of_mem (R := fun i j => i ≠ j) ?_ (rowsOf_nodup a b)
    intro i j _ _ hij
    rw [Function.onFun, List.disjoint_left]
    intro x h1 h2
    rw [List.mem_map] at h1 h2
    obtain ⟨_, _, rfl⟩ := h1
    obtain ⟨_, _, h⟩ := h2
    exact hij (Prod.mk.inj h).1.symm

/-- The number counted is the number of visibilities passed to the kernel. -/
theorem sumDiff_visOf (r : Arr Int × Arr Int) (n : Nat) (h1 : r.1.size = n) (h2 : r.2.size = n)
    (a e : Int) (ha : 0 ≤ a) (he0 : 0 ≤ e) (he : e ≤ n)
    (hle : ∀ k : Nat, a ≤ k → k < e → r.1.get k ≤ r.2.get k) :
    sumDiff r.2 r.1 a e = some ((visOf r a e).length : Int) := by
  rw [sumDiff_spec r.2 r.1 (by rw [h1, h2]) a e (by rw [h2]; exact he)]
  congr 1
  simp only
  rw [if_neg (by omega)]
  simp only
  unfold visOf
  rw [List.length_flatMap]
  unfold rowsOf
  rw [List.map_map, ← list_sum_range]
  have hn : ∀ k ∈ List.range (e - a).toNat,
      (r.2.get (a.toNat + k) - r.1.get (a.toNat + k)) =
        ((((fun x => ((rowsOf (r.1.get x.toNat) (r.2.get x.toNat)).map
          fun ch => (x, ch)).length) ∘ fun k : Nat => a + (k : Int)) k : Nat) : Int) := by
    intro k hk
    rw [List.mem_range] at hk
    simp only [Function.comp, List.length_map, rowsOf_length]
    have e1 : (a + (k : Int)).toNat = a.toNat + k := by omega
    rw [e1]
    have := hle (a.toNat + k) (by omega) (by omega)
    omega
  rw [List.map_congr_left hn]
  generalize List.range (e - a).toNat = l
  induction l with
  | nil => simp
  | cons x l ih =>
    rw [List.map_cons, List.sum_cons, List.map_cons, List.sum_cons, Nat.cast_add]
    congr 1

theorem sumDiff_all (r : Arr Int × Arr Int) (n : Nat) (h1 : r.1.size = n) (h2 : r.2.size = n)
    (hle : ∀ k < n, r.1.get k ≤ r.2.get k) :
    sumDiff r.2 r.1 (-1) (-1) = some ((visOf r 0 n).length : Int) := by
  have h := sumDiff_visOf r n h1 h2 0 n (le_refl _) (by omega) (le_refl _)
    (fun k _ hk => hle k (by omega))
  rw [← h]
  unfold sumDiff
  simp only
  rw [if_pos (by omega), if_neg (by omega), h2]

/-- Task of a box: it has the number of selected visibilities of that box. -/
theorem taskFor_spec (cfg : Cfg K) (hu : cfg.uvw.size = 3 * cfg.numRows)
    (w buf : Arr Int × Arr Int) (hw : Sized cfg w) (hb : Sized cfg buf) (p : Int × Int) :
    ∃ v : Nat, taskFor cfg w buf p = some (mkTask p.1 p.2 v cfg.numRows cfg.vpc) ∧
      ∀ r < cfg.numRows, ∀ ch : Int, (w.1.get r ≤ ch ∧ ch < w.2.get r) →
        inBox cfg cfg.dUv r 0 p.1 ch → inBox cfg cfg.dUv r 1 p.2 ch → 0 < v := by
  obtain ⟨b, h1, h2, h3⟩ := selectUv_spec cfg hu w buf hw hb p.1 p.2 (-1) (-1) (by omega)
  have hrow : ∀ r < cfg.numRows, b.1.get r ≤ b.2.get r ∧
        ∀ ch : Int, (b.1.get r ≤ ch ∧ ch < b.2.get r) ↔
          (w.1.get r ≤ ch ∧ ch < w.2.get r ∧ inBox cfg cfg.dUv r 0 p.1 ch ∧
            inBox cfg cfg.dUv r 1 p.2 ch) := fun r hr =>
    h3 r (by simp [rowRange]) (by simp [rowRange]; omega)
  refine ⟨(visOf b 0 cfg.numRows).length, ?_, ?_⟩
  · unfold taskFor
    rw [h1]
    simp only [Option.bind_some]
    rw [sumDiff_all b cfg.numRows h2.1 h2.2 fun k hk => (hrow k hk).1]
    rfl
  · intro r hr ch hch hi hj
    apply List.length_pos_of_mem (a := ((r : Int), ch))
    rw [mem_visOf]
    simp only [Int.toNat_natCast]
    exact ⟨⟨by omega, by omega⟩, ((hrow r hr).2 ch).2 ⟨hch.1, hch.2, hi, hj⟩⟩

/-- A visibility handled by the work on task `t`. -/
def taskHas (cfg : Cfg K) (w : Arr Int × Arr Int) (t : Task) (x : Int × Int) : Prop :=
  (t.rowStart ≤ x.1 ∧ x.1 < t.rowEnd) ∧
    w.1.get x.1.toNat ≤ x.2 ∧ x.2 < w.2.get x.1.toNat ∧
    inBox cfg cfg.dUv x.1.toNat 0 t.iu x.2 ∧ inBox cfg cfg.dUv x.1.toNat 1 t.iv x.2

open Classical in
/-- Work on a chunk: never crashes, counts what it handles, handles each selected
visibility of the chunk once. -/
theorem workOn_spec (cfg : Cfg K) (hu : cfg.uvw.size = 3 * cfg.numRows)
    (w buf : Arr Int × Arr Int) (hw : Sized cfg w) (hb : Sized cfg buf) (t : Task)
    (h0 : 0 ≤ t.rowStart) (h1 : t.rowEnd ≤ cfg.numRows) (h2 : 0 ≤ t.rowEnd) :
    ∃ b v ev, workOn cfg w buf t = some (b, v, ev) ∧ Sized cfg b ∧ v = (ev.length : Int) ∧
      ∀ x, ev.count x = if taskHas cfg w t x then 1 else 0 := by
  obtain ⟨b, g1, g2, g3⟩ := selectUv_spec cfg hu w buf hw hb t.iu t.iv t.rowStart t.rowEnd h1
  have hrr : rowRange cfg.numRows t.rowStart t.rowEnd = (t.rowStart, t.rowEnd) := by
    unfold rowRange; rw [if_neg (by omega)]
  rw [hrr] at g3
  have hs := sumDiff_visOf b cfg.numRows g2.1 g2.2 t.rowStart t.rowEnd h0 h2 h1
    fun k hk1 hk2 => (g3 k hk1 hk2).1
  have hev : (if ((visOf b t.rowStart t.rowEnd).length : Int) = 0 then []
      else visOf b t.rowStart t.rowEnd) = visOf b t.rowStart t.rowEnd := by
    split
    · rename_i h
      have : (visOf b t.rowStart t.rowEnd).length = 0 := by omega
      exact (List.length_eq_zero_iff.1 this).symm
    · rfl
  refine ⟨b, _, visOf b t.rowStart t.rowEnd, ?_, g2, rfl, fun x => ?_⟩
  · unfold workOn
    rw [g1]
    simp only [Option.bind_some]
    rw [hs]
    simp only [Option.bind_some]
    rw [hev]
  · have hiff : x ∈ visOf b t.rowStart t.rowEnd ↔ taskHas cfg w t x := by
      rw [mem_visOf]
      unfold taskHas
      constructor
      · rintro ⟨hr, hc⟩
        obtain ⟨k, hk⟩ := Int.eq_ofNat_of_zero_le (le_trans h0 hr.1)
        have := g3 k (by rw [← hk]; exact hr.1) (by rw [← hk]; exact hr.2)
        rw [hk, Int.toNat_natCast] at hc ⊢
        exact ⟨by rw [← hk]; exact hr, (this.2 x.2).1 hc⟩
      · rintro ⟨hr, hc⟩
        obtain ⟨k, hk⟩ := Int.eq_ofNat_of_zero_le (le_trans h0 hr.1)
        have := g3 k (by rw [← hk]; exact hr.1) (by rw [← hk]; exact hr.2)
        rw [hk, Int.toNat_natCast] at hc ⊢
        exact ⟨by rw [← hk]; exact hr, (this.2 x.2).2 hc⟩
    by_cases hx : taskHas cfg w t x
    · rw [if_pos hx]
      exact List.count_eq_one_of_mem (visOf_nodup _ _ _) (hiff.2 hx)
    · rw [if_neg hx]
      exact List.count_eq_zero_of_not_mem fun h => hx (hiff.1 h)

/-! ## Accounting over a whole run -/

section run
variable {β ε : Type} [BEq ε] [LawfulBEq ε] (work : β → Task → Option (β × Int × List ε))

/-- If the work on every chunk counts what it handles and handles `cnt t x` copies of
each item, then so does every run. -/
theorem run_accounting (ts0 : List Task) (bufs : List β) (I : β → Prop) (cnt : Task → ε → Nat)
    (hI : ∀ b ∈ bufs, I b)
    (hw : ∀ b, I b → ∀ t ∈ ts0.flatMap chunksOf, ∀ b' v ev, work b t = some (b', v, ev) →
      I b' ∧ v = (ev.length : Int) ∧ ∀ x, ev.count x = cnt t x)
    (m : Nat) (s : Par β ε) (hr : Run work m (Par.start ts0 bufs) s) :
    (∀ th ∈ s.threads, I th.buf) ∧ s.count = (s.handled.length : Int) ∧
      ∀ x, s.handled.count x = (s.finished.map fun t => cnt t x).sum := by
  have key : ∀ (m : Nat) (a c : Par β ε), Run work m a c → a = Par.start ts0 bufs →
      (∀ th ∈ c.threads, I th.buf) ∧ c.count = (c.handled.length : Int) ∧
      ∀ x, c.handled.count x = (c.finished.map fun t => cnt t x).sum := by
    intro m a c h
    induction h with
    | refl =>
      rintro rfl
      refine ⟨?_, by simp [Par.start], fun x => by simp [Par.start]⟩
      intro th hth
      simp only [Par.start, List.mem_map] at hth
      obtain ⟨b, hb, rfl⟩ := hth
      exact hI b hb
    | @step n a c d hrun hs ih =>
      intro ha
      obtain ⟨i1, i2, i3⟩ := ih ha
      cases hs with
      | pick l1 l2 b t ts' hth hp hc =>
        refine ⟨?_, i2, i3⟩
        intro th hm
        rcases List.mem_append.1 hm with hm | hm
        · exact i1 th (by rw [hth]; simp [hm])
        · rcases List.mem_cons.1 hm with rfl | hm
          · exact i1 ⟨.ready, b⟩ (by rw [hth]; simp)
          · exact i1 th (by rw [hth]; simp [hm])
      | stop l1 l2 b t ts' hth hp hc =>
        refine ⟨?_, i2, i3⟩
        intro th hm
        rcases List.mem_append.1 hm with hm | hm
        · exact i1 th (by rw [hth]; simp [hm])
        · rcases List.mem_cons.1 hm with rfl | hm
          · exact i1 ⟨.ready, b⟩ (by rw [hth]; simp)
          · exact i1 th (by rw [hth]; simp [hm])
      | work l1 l2 b b' t v ev hth hwk =>
        have hIb := i1 ⟨.busy t, b⟩ (by rw [hth]; simp)
        have htm : t ∈ ts0.flatMap chunksOf := by
          subst ha
          obtain ⟨rest, hperm⟩ := C37_never_twice work ts0 bufs n c hrun
          refine hperm.subset ?_
          rw [hth, busyTasks_append, busyTasks_busy]
          simp
        obtain ⟨j1, j2, j3⟩ := hw b hIb t htm b' v ev hwk
        refine ⟨?_, ?_, ?_⟩
        · intro th hm
          rcases List.mem_append.1 hm with hm | hm
          · exact i1 th (by rw [hth]; simp [hm])
          · rcases List.mem_cons.1 hm with rfl | hm
            · exact j1
            · exact i1 th (by rw [hth]; simp [hm])
        · simp only
          rw [i2, j2, List.length_append]
          push_cast
          rfl
        · intro x
          simp only
          rw [List.count_append, i3 x, j3 x]
          simp
  exact key m _ s hr rfl

end run

end Sdp.Wstack
