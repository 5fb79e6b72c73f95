import Verif.Wstack.Select

/-!
# C36: the w-stacking gridder processes every visibility exactly once
-/

namespace Sdp.Wstack

open Sdp.Clamp Sdp.GridUtil

variable {K : Type} [Field K] [LinearOrder K] [IsStrictOrderedRing K] [FloorRing K]

/-- Ordinary inputs: positive box sizes, non-negative channel spacing, uvw array of the
right size, at least one visibility, and no row that the numerical guard can
misjudge. -/
structure Cfg.Ok (cfg : Cfg K) : Prop where
  c0 : 0 < cfg.c0
  df : 0 ≤ cfg.df
  uvw : cfg.uvw.size = 3 * cfg.numRows
  dUv : 0 < cfg.dUv
  dW : 0 < cfg.dW
  rows : 0 < cfg.numRows
  chan : 0 < cfg.numChan
  guardU : ∀ r < cfg.numRows, GuardOk (base cfg r 0) (step cfg r 0) cfg.dUv cfg.numChan
  guardV : ∀ r < cfg.numRows, GuardOk (base cfg r 1) (step cfg r 1) cfg.dUv cfg.numChan
  guardW : ∀ r < cfg.numRows, GuardOk (base cfg r 2) (step cfg r 2) cfg.dW cfg.numChan

theorem coord_eq (cfg : Cfg K) (r j : Nat) (ch : Int) :
    coord (base cfg r j) (step cfg r j) ch =
      visCoord cfg.c0 cfg.f0 cfg.df (cfg.uvw.get (3 * r + j)) ch := by
  unfold coord base step visCoord; ring

/-- The index range of an axis exists and covers the box of every visibility. -/
theorem idxRange_covers (cfg : Cfg K) (h : cfg.Ok) (b : MinMax K) (d : K) (hd : 0 < d) (j : Nat)
    (he : Exact b (coords cfg.c0 cfg.f0 cfg.df cfg.uvw (allStart cfg) (allEnd cfg) j
      (List.range cfg.numRows))) :
    ∃ i, idxRange b d = some i ∧ ∀ r < cfg.numRows, ∀ ch : Int, 0 ≤ ch → ch < cfg.numChan →
      ∀ k : Int, (k = ⌊coord (base cfg r j) (step cfg r j) ch / d + 1 / 2⌋ ∨
        k = ⌈coord (base cfg r j) (step cfg r j) ch / d + 1 / 2⌉ - 1) → i.1 ≤ k ∧ k ≤ i.2 := by
  have hmem : ∀ r < cfg.numRows, ∀ ch : Int, 0 ≤ ch → ch < cfg.numChan →
      coords cfg.c0 cfg.f0 cfg.df cfg.uvw (allStart cfg) (allEnd cfg) j
        (List.range cfg.numRows) (coord (base cfg r j) (step cfg r j) ch) := by
    intro r hr ch h0 h1
    exact ⟨r, List.mem_range.2 hr, ch, h0, h1, coord_eq cfg r j ch⟩
  have hz := hmem 0 h.rows 0 (le_refl _) (by have := h.chan; omega)
  obtain ⟨mn, mx⟩ := b
  have l0 := he.lower _ hz
  have u0 := he.upper _ hz
  cases mn with
  | top => exact absurd l0 (by simp)
  | coe lo =>
    cases mx with
    | bot => exact absurd u0 (by simp)
    | coe hi =>
      refine ⟨_, rfl, fun r hr ch h0 h1 k hk => ?_⟩
      have l1 := WithTop.coe_le_coe.1 (he.lower _ (hmem r hr ch h0 h1))
      have u1 := WithBot.coe_le_coe.1 (he.upper _ (hmem r hr ch h0 h1))
      exact idx_covers hd l1 u1 hk

/-- The index ranges cover: along each axis every visibility is selected by exactly
one box, and that box is in the range. -/
theorem indices_spec (cfg : Cfg K) (h : cfg.Ok) :
    ∃ iw iu iv, indices cfg = some (iw, iu, iv) ∧
      ∀ r < cfg.numRows, ∀ ch : Int, 0 ≤ ch → ch < cfg.numChan →
        (∃ k : Int, (iw.1 ≤ k ∧ k ≤ iw.2) ∧ inBox cfg cfg.dW r 2 k ch ∧
          ∀ k', inBox cfg cfg.dW r 2 k' ch → k' = k) ∧
        (∃ k : Int, (iu.1 ≤ k ∧ k ≤ iu.2) ∧ inBox cfg cfg.dUv r 0 k ch ∧
          ∀ k', inBox cfg cfg.dUv r 0 k' ch → k' = k) ∧
        (∃ k : Int, (iv.1 ≤ k ∧ k ≤ iv.2) ∧ inBox cfg cfg.dUv r 1 k ch ∧
          ∀ k', inBox cfg cfg.dUv r 1 k' ch → k' = k) := by
  obtain ⟨b, hb, b1, b2, b3, -⟩ := C39_bounds_partial cfg.c0 cfg.f0 cfg.df h.c0 h.df cfg.uvw
    cfg.numRows (allStart cfg) (allEnd cfg) (by rw [h.uvw]) (le_refl _) (le_refl _)
  obtain ⟨iu, eu, cu⟩ := idxRange_covers cfg h b.1 cfg.dUv h.dUv 0 b1
  obtain ⟨iv, ev, cv⟩ := idxRange_covers cfg h b.2.1 cfg.dUv h.dUv 1 b2
  obtain ⟨iw, ew, cw⟩ := idxRange_covers cfg h b.2.2 cfg.dW h.dW 2 b3
  refine ⟨iw, iu, iv, ?_, fun r hr ch h0 h1 => ⟨?_, ?_, ?_⟩⟩
  · unfold indices
    rw [hb]
    simp only [Option.bind_some]
    rw [eu]
    simp only [Option.bind_some]
    rw [ev]
    simp only [Option.bind_some]
    rw [ew]
    rfl
  · obtain ⟨k, k1, k2, k3⟩ := axis_unique h.dW (h.guardW r hr) ch h0 h1
    exact ⟨k, cw r hr ch h0 h1 k k3, k1, k2⟩
  · obtain ⟨k, k1, k2, k3⟩ := axis_unique h.dUv (h.guardU r hr) ch h0 h1
    exact ⟨k, cu r hr ch h0 h1 k k3, k1, k2⟩
  · obtain ⟨k, k1, k2, k3⟩ := axis_unique h.dUv (h.guardV r hr) ch h0 h1
    exact ⟨k, cv r hr ch h0 h1 k k3, k1, k2⟩

theorem mem_boxes (iu iv : Int × Int) (p : Int × Int) :
    p ∈ boxes iu iv ↔ (iu.1 ≤ p.1 ∧ p.1 ≤ iu.2) ∧ (iv.1 ≤ p.2 ∧ p.2 ≤ iv.2) := by
  unfold boxes
  simp only [List.mem_flatMap, List.mem_map, mem_rowsOf]
  constructor
  · rintro ⟨i, hi, ch, hch, rfl⟩; simp only; omega
  · rintro ⟨h1, h2⟩; exact ⟨p.1, by omega, p.2, by omega, rfl⟩

theorem boxes_nodup (iu iv : Int × Int) : (boxes iu iv).Nodup := by
  unfold boxes
  rw [List.nodup_flatMap]
  refine ⟨fun i _ => ?_, ?_⟩
  · apply List.Nodup.map _ (rowsOf_nodup _ _)
    intro x y h
    exact (Prod.mk.inj h).2
  · refine List.Pairwise.imp_of_mem (R := fun i j => i ≠ j) ?_ (rowsOf_nodup _ _)
    intro i j _ _ hij
    rw [Function.onFun, List.disjoint_left]
    intro x h1 h2
    rw [List.mem_map] at h1 h2
    obtain ⟨_, _, rfl⟩ := h1
    obtain ⟨_, _, h⟩ := h2
    exact hij (Prod.mk.inj h).1.symm

/-- `count_visibilities` succeeds; its task list has one task per box. -/
theorem countTasks_spec (cfg : Cfg K) (hu : cfg.uvw.size = 3 * cfg.numRows) (w buf : Arr Int × Arr Int)
    (hw : Sized cfg w) (hb : Sized cfg buf) (iu iv : Int × Int) :
    ∃ v : Int × Int → Nat, countTasks cfg w buf iu iv =
        some ((boxes iu iv).map fun p => mkTask p.1 p.2 (v p) cfg.numRows cfg.vpc) ∧
      ∀ p, ∀ r < cfg.numRows, ∀ ch : Int, (w.1.get r ≤ ch ∧ ch < w.2.get r) →
        inBox cfg cfg.dUv r 0 p.1 ch → inBox cfg cfg.dUv r 1 p.2 ch → 0 < v p := by
  choose v hv1 hv2 using taskFor_spec cfg hu w buf hw hb
  refine ⟨v, ?_, hv2⟩
  unfold countTasks
  generalize boxes iu iv = l
  have : taskFor cfg w buf = fun p => some (mkTask p.1 p.2 (v p) cfg.numRows cfg.vpc) :=
    funext hv1
  rw [this]
  induction l with
  | nil => rfl
  | cons p l ih => rw [List.mapM_cons, ih]; rfl

theorem sum_ite_countP {α : Type} (P : α → Prop) [DecidablePred P] (l : List α) :
    (l.map fun a => if P a then 1 else 0).sum = l.countP (fun a => decide (P a)) := by
  induction l with
  | nil => rfl
  | cons a l ih =>
    rw [List.map_cons, List.sum_cons, List.countP_cons, ih]
    by_cases h : P a <;> simp [h]; omega

/-- In a duplicate-free list a property with a unique witness counts once. -/
theorem countP_unique {α : Type} (P : α → Prop) [DecidablePred P] [DecidableEq α] (l : List α) (hn : l.Nodup) (a : α) (ha : a ∈ l)
    (hP : P a) (hu : ∀ b, P b → b = a) : l.countP (fun b => decide (P b)) = 1 := by
  have : l.countP (fun b => decide (P b)) = l.countP (· == a) := by
    apply List.countP_congr
    intro b _
    rw [decide_eq_true_iff, beq_iff_eq]
    exact ⟨hu b, fun h => h ▸ hP⟩
  rw [this]
  exact List.count_eq_one_of_mem hn ha

open Classical in
/-- The core accounting: over all chunks of all tasks, each visibility of the w-plane
is handled once, and nothing else. -/
theorem tasks_handle_once (cfg : Cfg K) (h : cfg.Ok) (iu iv : Int × Int)
    (hcov : ∀ r < cfg.numRows, ∀ ch : Int, 0 ≤ ch → ch < cfg.numChan →
        (∃ k : Int, (iu.1 ≤ k ∧ k ≤ iu.2) ∧ inBox cfg cfg.dUv r 0 k ch ∧
          ∀ k', inBox cfg cfg.dUv r 0 k' ch → k' = k) ∧
        (∃ k : Int, (iv.1 ≤ k ∧ k ≤ iv.2) ∧ inBox cfg cfg.dUv r 1 k ch ∧
          ∀ k', inBox cfg cfg.dUv r 1 k' ch → k' = k))
    (w : Arr Int × Arr Int)
    (hwc : ∀ r < cfg.numRows, ∀ ch : Int, (w.1.get r ≤ ch ∧ ch < w.2.get r) →
      0 ≤ ch ∧ ch < cfg.numChan)
    (v : Int × Int → Nat)
    (hv : ∀ p, ∀ r < cfg.numRows, ∀ ch : Int, (w.1.get r ≤ ch ∧ ch < w.2.get r) →
        inBox cfg cfg.dUv r 0 p.1 ch → inBox cfg cfg.dUv r 1 p.2 ch → 0 < v p)
    (x : Int × Int) :
    ((((boxes iu iv).map fun p => mkTask p.1 p.2 (v p) cfg.numRows cfg.vpc).flatMap
      chunksOf).map fun t => if taskHas cfg w t x then 1 else 0).sum =
      (visOf w 0 cfg.numRows).count x := by
  rw [List.flatMap_map, List.map_flatMap]
  have hsumflat : ∀ (l : List (Int × Int)) (f : Int × Int → List Nat),
      (l.flatMap f).sum = (l.map fun p => (f p).sum).sum := by
    intro l f
    induction l with
    | nil => rfl
    | cons a l ih => rw [List.flatMap_cons, List.sum_append, ih]; rfl
  rw [hsumflat]
  -- number of chunks of box p handling x
  have hbox : ∀ p : Int × Int,
      ((chunksOf (mkTask p.1 p.2 (v p) cfg.numRows cfg.vpc)).map
        fun t => if taskHas cfg w t x then 1 else 0).sum =
      if (0 ≤ x.1 ∧ x.1 < cfg.numRows) ∧ (w.1.get x.1.toNat ≤ x.2 ∧ x.2 < w.2.get x.1.toNat) ∧
        inBox cfg cfg.dUv x.1.toNat 0 p.1 x.2 ∧ inBox cfg cfg.dUv x.1.toNat 1 p.2 x.2
        then 1 else 0 := by
    intro p
    rw [sum_ite_countP]
    by_cases hx : (0 ≤ x.1 ∧ x.1 < cfg.numRows) ∧
        (w.1.get x.1.toNat ≤ x.2 ∧ x.2 < w.2.get x.1.toNat) ∧
        inBox cfg cfg.dUv x.1.toNat 0 p.1 x.2 ∧ inBox cfg cfg.dUv x.1.toNat 1 p.2 x.2
    · rw [if_pos hx]
      obtain ⟨hr, hc, hi, hj⟩ := hx
      obtain ⟨k, hk⟩ := Int.eq_ofNat_of_zero_le hr.1
      have hkn : k < cfg.numRows := by omega
      have hvp : 0 < v p := by
        apply hv p x.1.toNat (by omega) x.2 hc hi hj
      rw [← C37_rows_partitioned p.1 p.2 (v p) cfg.vpc cfg.numRows (by exact_mod_cast hvp) k hkn]
      apply List.countP_congr
      intro t ht
      rw [decide_eq_true_iff, decide_eq_true_iff]
      have hiu : t.iu = p.1 := by
        unfold chunksOf at ht
        rw [List.mem_map] at ht
        obtain ⟨_, _, rfl⟩ := ht
        rfl
      have hiv : t.iv = p.2 := by
        unfold chunksOf at ht
        rw [List.mem_map] at ht
        obtain ⟨_, _, rfl⟩ := ht
        rfl
      unfold taskHas
      rw [hiu, hiv, ← hk]
      constructor
      · exact fun h => h.1
      · exact fun h => ⟨h, hc.1, hc.2, hi, hj⟩
    · rw [if_neg hx, List.countP_eq_zero]
      intro t ht hh
      rw [decide_eq_true_iff] at hh
      apply hx
      have hrow := C37_chunk_in_rows p.1 p.2 (v p) cfg.vpc cfg.numRows t ht
      have hiu : t.iu = p.1 := by
        unfold chunksOf at ht
        rw [List.mem_map] at ht
        obtain ⟨_, _, rfl⟩ := ht
        rfl
      have hiv : t.iv = p.2 := by
        unfold chunksOf at ht
        rw [List.mem_map] at ht
        obtain ⟨_, _, rfl⟩ := ht
        rfl
      unfold taskHas at hh
      rw [hiu, hiv] at hh
      obtain ⟨a, b, c, d, e⟩ := hh
      exact ⟨⟨by omega, by omega⟩, ⟨b, c⟩, d, e⟩
  simp only [hbox]
  rw [sum_ite_countP]
  by_cases hx : x ∈ visOf w 0 cfg.numRows
  · rw [List.count_eq_one_of_mem (visOf_nodup _ _ _) hx]
    rw [mem_visOf] at hx
    obtain ⟨hr, hc⟩ := hx
    have hxn : x.1.toNat < cfg.numRows := by omega
    have hcc := hwc x.1.toNat hxn x.2 hc
    obtain ⟨⟨a, ha1, ha2, ha3⟩, ⟨b, hb1, hb2, hb3⟩⟩ := hcov x.1.toNat hxn x.2 hcc.1 hcc.2
    apply countP_unique _ _ (boxes_nodup iu iv) (a, b)
    · rw [mem_boxes]; exact ⟨ha1, hb1⟩
    · exact ⟨hr, hc, ha2, hb2⟩
    · rintro ⟨p, q⟩ ⟨_, _, h1, h2⟩
      exact Prod.ext (ha3 p h1) (hb3 q h2)
  · rw [List.count_eq_zero_of_not_mem hx, List.countP_eq_zero]
    intro p _ hp
    rw [decide_eq_true_iff] at hp
    exact hx ((mem_visOf _ _ _ _).2 ⟨hp.1, hp.2.1⟩)

open Classical in
/-- One w-plane, any schedule: what is handled is exactly the visibilities selected on
the plane, each once, and the counted number is the expected one. -/
theorem plane_spec (cfg : Cfg K) (h : cfg.Ok) (iw iu iv : Int × Int)
    (hidx : indices cfg = some (iw, iu, iv)) (k : Int) (out : Arr Int × Arr Int)
    (ho : Sized cfg out) (bufs : List (Arr Int × Arr Int)) (hb : ∀ b ∈ bufs, Sized cfg b)
    (numVis cnt : Int) (ev : List (Int × Int))
    (hrun : PlaneRun cfg iu iv k out bufs numVis cnt ev) :
    cnt = numVis ∧ ∃ w, selectW cfg k out = some w ∧
      ∀ x, ev.count x = (visOf w 0 cfg.numRows).count x := by
  obtain ⟨iw', iu', iv', hi', hcov⟩ := indices_spec cfg h
  rw [hidx] at hi'
  simp only [Option.some.injEq, Prod.mk.injEq] at hi'
  obtain ⟨rfl, rfl, rfl⟩ := hi'
  obtain ⟨w, hw1, hw2, hw3⟩ := selectW_spec cfg h.uvw k out ho
  have hsum := sumDiff_all w cfg.numRows hw2.1 hw2.2 fun r hr => (hw3 r hr).1
  cases hrun with
  | skip w' hw' hv =>
    rw [hw1] at hw'
    cases hw'
    rw [hsum] at hv
    refine ⟨rfl, w, hw1, fun x => ?_⟩
    have : (visOf w 0 cfg.numRows).length = 0 := by
      have := Option.some.inj hv; omega
    rw [List.length_eq_zero_iff.1 this]
  | run w' scratch _ tasks m s hw' hv hne hs ht hr hf =>
    rw [hw1] at hw'
    cases hw'
    rw [hsum] at hv
    have hv := Option.some.inj hv
    obtain ⟨v, hv1, hv2⟩ := countTasks_spec cfg h.uvw w scratch hw2 (hb _ hs) iu iv
    rw [ht] at hv1
    have hv1 := Option.some.inj hv1
    subst hv1
    have hrows : ∀ t ∈ ((boxes iu iv).map fun p =>
        mkTask p.1 p.2 (v p) cfg.numRows cfg.vpc).flatMap chunksOf,
        0 ≤ t.rowStart ∧ t.rowEnd ≤ cfg.numRows ∧ 0 ≤ t.rowEnd := by
      intro t htm
      rw [List.mem_flatMap] at htm
      obtain ⟨t0, ht0, htc⟩ := htm
      rw [List.mem_map] at ht0
      obtain ⟨p, _, rfl⟩ := ht0
      exact C37_chunk_in_rows _ _ _ _ _ t htc
    obtain ⟨_, hc2, hc3⟩ := run_accounting (workOn cfg w) _ bufs (Sized cfg)
      (fun t x => if taskHas cfg w t x then 1 else 0) hb
      (by
        intro b hIb t htm b' v' ev' hwk
        obtain ⟨r1, r2, r3⟩ := hrows t htm
        obtain ⟨b2, v2, ev2, e1, e2, e3, e4⟩ := workOn_spec cfg h.uvw w b hw2 hIb t r1 r2 r3
        rw [hwk] at e1
        simp only [Option.some.injEq, Prod.mk.injEq] at e1
        obtain ⟨rfl, rfl, rfl⟩ := e1
        exact ⟨e2, e3, e4⟩) m s hr
    have hbne : bufs ≠ [] := fun hh => by rw [hh] at hs; simp at hs
    have hperm := C37_all_chunks_once (workOn cfg w) _ bufs hbne m s hr hf
    have hcount : ∀ x, s.handled.count x = (visOf w 0 cfg.numRows).count x := by
      intro x
      rw [hc3 x, (hperm.map _).sum_eq]
      exact tasks_handle_once cfg h iu iv
        (fun r hr' ch h0 h1 => (hcov r hr' ch h0 h1).2) w
        (fun r hr' ch hch => by
          have := ((hw3 r hr').2 ch).1 hch
          exact ⟨this.1, this.2.1⟩) v hv2 x
    have hp : s.handled.Perm (visOf w 0 cfg.numRows) := List.perm_iff_count.2 hcount
    refine ⟨?_, w, hw1, hcount⟩
    rw [hc2, hp.length_eq, hv]

/-- C36, no abort: for ordinary inputs the number of visibilities processed on every
w-plane equals the number expected, under every schedule of any number of threads, so
the check at L442 / L694 never exits the program. -/
theorem C36_no_abort_partial (cfg : Cfg K) (h : cfg.Ok) (iw iu iv : Int × Int)
    (hidx : indices cfg = some (iw, iu, iv)) (k : Int) (out : Arr Int × Arr Int)
    (ho : Sized cfg out) (bufs : List (Arr Int × Arr Int)) (hb : ∀ b ∈ bufs, Sized cfg b)
    (numVis cnt : Int) (ev : List (Int × Int))
    (hrun : PlaneRun cfg iu iv k out bufs numVis cnt ev) : cnt = numVis :=
  (plane_spec cfg h iw iu iv hidx k out ho bufs hb numVis cnt ev hrun).1

open Classical in
/-- C36: for ordinary inputs, over all w-planes between the computed minimum and
maximum, whatever the schedules, every visibility is handled exactly once; and nothing
else is handled. -/
theorem C36_exactly_once_partial (cfg : Cfg K) (h : cfg.Ok) (iw iu iv : Int × Int)
    (hidx : indices cfg = some (iw, iu, iv)) (out : Int → Arr Int × Arr Int)
    (ho : ∀ k, Sized cfg (out k)) (bufs : Int → List (Arr Int × Arr Int))
    (hb : ∀ k, ∀ b ∈ bufs k, Sized cfg b) (numVis cnt : Int → Int)
    (ev : Int → List (Int × Int))
    (hrun : ∀ k, iw.1 ≤ k → k ≤ iw.2 →
      PlaneRun cfg iu iv k (out k) (bufs k) (numVis k) (cnt k) (ev k)) :
    (∀ r : Nat, r < cfg.numRows → ∀ ch : Int, 0 ≤ ch → ch < cfg.numChan →
      (((rowsOf iw.1 (iw.2 + 1)).flatMap ev).count ((r : Int), ch)) = 1) ∧
    (∀ x ∈ (rowsOf iw.1 (iw.2 + 1)).flatMap ev,
      (0 ≤ x.1 ∧ x.1 < cfg.numRows) ∧ 0 ≤ x.2 ∧ x.2 < cfg.numChan) := by
  obtain ⟨iw', iu', iv', hi', hcov⟩ := indices_spec cfg h
  have hi'' := hi'
  rw [hidx] at hi''
  simp only [Option.some.injEq, Prod.mk.injEq] at hi''
  obtain ⟨rfl, rfl, rfl⟩ := hi''
  have hplane : ∀ k, iw.1 ≤ k → k ≤ iw.2 → ∀ x, (ev k).count x =
      if (0 ≤ x.1 ∧ x.1 < cfg.numRows) ∧ 0 ≤ x.2 ∧ x.2 < cfg.numChan ∧
        inBox cfg cfg.dW x.1.toNat 2 k x.2 then 1 else 0 := by
    intro k hk1 hk2 x
    obtain ⟨_, w, hw1, hw⟩ := plane_spec cfg h iw iu iv hidx k (out k) (ho k) (bufs k) (hb k) _ _ _
      (hrun k hk1 hk2)
    obtain ⟨w', hw1', hw2, hw3⟩ := selectW_spec cfg h.uvw k (out k) (ho k)
    rw [hw1] at hw1'
    cases hw1'
    rw [hw x]
    have hiff : x ∈ visOf w 0 cfg.numRows ↔ ((0 ≤ x.1 ∧ x.1 < cfg.numRows) ∧ 0 ≤ x.2 ∧
        x.2 < cfg.numChan ∧ inBox cfg cfg.dW x.1.toNat 2 k x.2) := by
      rw [mem_visOf]
      constructor
      · rintro ⟨a, b⟩
        exact ⟨a, ((hw3 x.1.toNat (by omega)).2 x.2).1 b⟩
      · rintro ⟨a, b⟩
        exact ⟨a, ((hw3 x.1.toNat (by omega)).2 x.2).2 b⟩
    split
    · rename_i hh
      exact List.count_eq_one_of_mem (visOf_nodup _ _ _) (hiff.2 hh)
    · rename_i hh
      exact List.count_eq_zero_of_not_mem fun hm => hh (hiff.1 hm)
  constructor
  · intro r hr ch h0 h1
    rw [List.count_flatMap]
    have e : (rowsOf iw.1 (iw.2 + 1)).map (List.count ((r : Int), ch) ∘ ev) =
        (rowsOf iw.1 (iw.2 + 1)).map fun k => if inBox cfg cfg.dW r 2 k ch then 1 else 0 := by
      apply List.map_congr_left
      intro k hk
      rw [mem_rowsOf] at hk
      rw [Function.comp_apply, hplane k hk.1 (by omega)]
      simp only [Int.toNat_natCast]
      by_cases hh : inBox cfg cfg.dW r 2 k ch
      · rw [if_pos ⟨⟨by omega, by omega⟩, h0, h1, hh⟩, if_pos hh]
      · rw [if_neg (fun hc => hh hc.2.2.2), if_neg hh]
    rw [e, sum_ite_countP]
    obtain ⟨⟨k, k1, k2, k3⟩, _⟩ := hcov r hr ch h0 h1
    exact countP_unique _ _ (rowsOf_nodup _ _) k (mem_rowsOf.2 ⟨k1.1, by omega⟩) k2 k3
  · intro x hx
    rw [List.mem_flatMap] at hx
    obtain ⟨k, hk, hx⟩ := hx
    rw [mem_rowsOf] at hk
    have hc := hplane k hk.1 (by omega) x
    have := List.count_pos_iff.2 hx
    rw [hc] at this
    split at this
    · rename_i hh
      exact ⟨hh.1, hh.2.1, hh.2.2.1⟩
    · omega

/-- C36, nothing crashes and every plane ends: the selection and task creation succeed,
and from every reachable state of the parallel region that is not final some thread can
continue (runs are finite by `C37_terminates`). -/
theorem C36_plane_completes (cfg : Cfg K) (h : cfg.Ok) (iu iv : Int × Int) (k : Int)
    (out scratch : Arr Int × Arr Int) (ho : Sized cfg out) (hsc : Sized cfg scratch)
    (bufs : List (Arr Int × Arr Int)) (hb : ∀ b ∈ bufs, Sized cfg b) :
    ∃ w tasks v, selectW cfg k out = some w ∧ sumDiff w.2 w.1 (-1) (-1) = some v ∧
      countTasks cfg w scratch iu iv = some tasks ∧
      ∀ m s, Run (workOn cfg w) m (Par.start tasks bufs) s → ¬ s.final →
        ∃ s', Step (workOn cfg w) s s' := by
  classical
  obtain ⟨w, hw1, hw2, hw3⟩ := selectW_spec cfg h.uvw k out ho
  have hsum := sumDiff_all w cfg.numRows hw2.1 hw2.2 fun r hr => (hw3 r hr).1
  obtain ⟨v, hv1, _⟩ := countTasks_spec cfg h.uvw w scratch hw2 hsc iu iv
  refine ⟨w, _, _, hw1, hsum, hv1, fun m s hr hnf => ?_⟩
  have hrows : ∀ t ∈ ((boxes iu iv).map fun p =>
      mkTask p.1 p.2 (v p) cfg.numRows cfg.vpc).flatMap chunksOf,
      0 ≤ t.rowStart ∧ t.rowEnd ≤ cfg.numRows ∧ 0 ≤ t.rowEnd := by
    intro t htm
    rw [List.mem_flatMap] at htm
    obtain ⟨t0, ht0, htc⟩ := htm
    rw [List.mem_map] at ht0
    obtain ⟨p, _, rfl⟩ := ht0
    exact C37_chunk_in_rows _ _ _ _ _ t htc
  obtain ⟨hI, _, _⟩ := run_accounting (workOn cfg w) _ bufs (Sized cfg)
    (fun t x => if taskHas cfg w t x then 1 else 0) hb
    (by
      intro b hIb t htm b' v' ev' hwk
      obtain ⟨r1, r2, r3⟩ := hrows t htm
      obtain ⟨b2, v2, ev2, e1, e2, e3, e4⟩ := workOn_spec cfg h.uvw w b hw2 hIb t r1 r2 r3
      rw [hwk] at e1
      simp only [Option.some.injEq, Prod.mk.injEq] at e1
      obtain ⟨rfl, rfl, rfl⟩ := e1
      exact ⟨e2, e3, e4⟩) m s hr
  apply C37_progress (workOn cfg w) s hnf
  intro th hth t hph
  have htm : t ∈ ((boxes iu iv).map fun p =>
      mkTask p.1 p.2 (v p) cfg.numRows cfg.vpc).flatMap chunksOf := by
    obtain ⟨rest, hperm⟩ := C37_never_twice (workOn cfg w) _ bufs m s hr
    refine hperm.subset ?_
    have : t ∈ busyTasks s.threads := by
      unfold busyTasks
      rw [List.mem_filterMap]
      exact ⟨th, hth, by rw [hph]⟩
    simp [this]
  obtain ⟨r1, r2, r3⟩ := hrows t htm
  obtain ⟨b2, v2, ev2, e1, -⟩ := workOn_spec cfg h.uvw w th.buf hw2 (hI th hth) t r1 r2 r3
  exact ⟨_, e1⟩

/-- C36, runs exist: with at least one thread every plane has a complete run. -/
theorem C36_run_exists (cfg : Cfg K) (h : cfg.Ok) (iu iv : Int × Int) (k : Int)
    (out b0 : Arr Int × Arr Int) (ho : Sized cfg out)
    (bufs : List (Arr Int × Arr Int)) (hb0 : b0 ∈ bufs) (hb : ∀ b ∈ bufs, Sized cfg b) :
    ∃ numVis cnt ev, PlaneRun cfg iu iv k out bufs numVis cnt ev := by
  obtain ⟨w, tasks, v, h1, h2, h3, h4⟩ :=
    C36_plane_completes cfg h iu iv k out b0 ho (hb _ hb0) bufs hb
  by_cases hv : v = 0
  · subst hv
    exact ⟨_, _, _, PlaneRun.skip w h1 h2⟩
  · have ext : ∀ (n m : Nat) (s : Par (Arr Int × Arr Int) (Int × Int)), potential s = n →
        Run (workOn cfg w) m (Par.start tasks bufs) s →
        ∃ m' s', Run (workOn cfg w) m' (Par.start tasks bufs) s' ∧ s'.final := by
      intro n
      induction n using Nat.strong_induction_on with
      | _ n ih =>
        intro m s hp hr
        by_cases hf : s.final
        · exact ⟨m, s, hr, hf⟩
        · obtain ⟨s', hs'⟩ := h4 m s hr hf
          have := potential_step _ hs'
          exact ih (potential s') (by omega) (m + 1) s' rfl (Run.step hr hs')
    obtain ⟨m', s', hr', hf'⟩ := ext _ 0 _ rfl (Run.refl _)
    exact ⟨_, _, _, PlaneRun.run w b0 v tasks m' s' h1 h2 hv hb0 h3 hr' hf'⟩

/-! ## Failure of the unrestricted statement -/

/-- Whatever the parameters, a visibility is only ever handled if some box selects its
u coordinate. -/
theorem plane_only (cfg : Cfg K) (hu : cfg.uvw.size = 3 * cfg.numRows) (iu iv : Int × Int)
    (k : Int) (out : Arr Int × Arr Int) (ho : Sized cfg out)
    (bufs : List (Arr Int × Arr Int)) (hb : ∀ b ∈ bufs, Sized cfg b)
    (numVis cnt : Int) (ev : List (Int × Int))
    (hrun : PlaneRun cfg iu iv k out bufs numVis cnt ev) (x : Int × Int) (hx : x ∈ ev) :
    ∃ i, inBox cfg cfg.dUv x.1.toNat 0 i x.2 := by
  classical
  obtain ⟨w, hw1, hw2, hw3⟩ := selectW_spec cfg hu k out ho
  cases hrun with
  | skip w' hw' hv => simp at hx
  | run w' scratch _ tasks m s hw' hv hne hs ht hr hf =>
    rw [hw1] at hw'
    cases hw'
    obtain ⟨v, hv1, hv2⟩ := countTasks_spec cfg hu w scratch hw2 (hb _ hs) iu iv
    rw [ht] at hv1
    have hv1 := Option.some.inj hv1
    subst hv1
    obtain ⟨_, _, hc3⟩ := run_accounting (workOn cfg w) _ bufs (Sized cfg)
      (fun t x => if taskHas cfg w t x then 1 else 0) hb
      (by
        intro b hIb t htm b' v' ev' hwk
        rw [List.mem_flatMap] at htm
        obtain ⟨t0, ht0, htc⟩ := htm
        rw [List.mem_map] at ht0
        obtain ⟨p, _, rfl⟩ := ht0
        obtain ⟨r1, r2, r3⟩ := C37_chunk_in_rows _ _ _ _ _ t htc
        obtain ⟨b2, v2, ev2, e1, e2, e3, e4⟩ := workOn_spec cfg hu w b hw2 hIb t r1 r2 r3
        rw [hwk] at e1
        simp only [Option.some.injEq, Prod.mk.injEq] at e1
        obtain ⟨rfl, rfl, rfl⟩ := e1
        exact ⟨e2, e3, e4⟩) m s hr
    have hpos := List.count_pos_iff.2 hx
    rw [hc3 x] at hpos
    by_contra hno
    have : (s.finished.map fun t => if taskHas cfg w t x then 1 else 0).sum = 0 := by
      apply List.sum_eq_zero
      intro n hn
      rw [List.mem_map] at hn
      obtain ⟨t, _, rfl⟩ := hn
      rw [if_neg]
      intro hh
      exact hno ⟨t.iu, hh.2.2.2.1⟩
    omega

/-- One baseline, two channels: the step in u is `1/2147483645` of the box size and the
two channels straddle the boundary between two boxes. -/
def tiny : Cfg ℚ where
  c0 := 1
  f0 := 1 / 2 - 1 / 4294967290
  df := 1 / 2147483645
  uvw := ⟨3, fun i => if i = 0 then 1 else 0⟩
  numRows := 1
  numChan := 2
  dUv := 1
  dW := 1
  vpc := 2000

/-- Without the condition on the numerical guard C36 fails: visibility (0, 1) of `tiny`
is selected by no box, so it is handled on no w-plane, under no schedule. -/
theorem C36_exactly_once_false :
    (0 < tiny.c0 ∧ 0 ≤ tiny.df ∧ tiny.uvw.size = 3 * tiny.numRows ∧ 0 < tiny.dUv ∧
      0 < tiny.dW ∧ 0 < tiny.numRows ∧ 1 < tiny.numChan) ∧
    ∀ (iu iv : Int × Int) (k : Int) (out : Arr Int × Arr Int), Sized tiny out →
      ∀ bufs : List (Arr Int × Arr Int), (∀ b ∈ bufs, Sized tiny b) →
      ∀ (numVis cnt : Int) (ev : List (Int × Int)),
        PlaneRun tiny iu iv k out bufs numVis cnt ev → ((0 : Int), (1 : Int)) ∉ ev := by
  refine ⟨by norm_num [tiny], ?_⟩
  intro iu iv k out ho bufs hb numVis cnt ev hrun hx
  obtain ⟨i, hi⟩ := plane_only tiny rfl iu iv k out ho bufs hb numVis cnt ev hrun _ hx
  have e0 : base tiny 0 0 = 1 / 2 - 1 / 4294967290 := by norm_num [base, tiny]
  have e1 : step tiny 0 0 = 1 / 2147483645 := by norm_num [step, tiny]
  have e2 : tiny.dUv = 1 := rfl
  unfold inBox at hi
  simp only [Int.toNat_zero] at hi
  rw [e0, e1, e2] at hi
  unfold Sel resolved coord boxLo boxHi at hi
  have hc : ((i + 1 : Int) : ℚ) = (i : ℚ) + 1 := by push_cast; ring
  rw [hc] at hi
  rcases hi with ⟨⟨r1, r2⟩, _, h1, h2⟩ | ⟨_, h, _⟩ | ⟨hr, h1, h2⟩
  · have hi1 : i = 1 := by
      have a : (i : ℚ) < 2 := by norm_num at h1; linarith
      have b : (0 : ℚ) < i := by norm_num at h2; linarith
      have a' : i < 2 := by exact_mod_cast a
      have b' : 0 < i := by exact_mod_cast b
      omega
    subst hi1
    norm_num [abs_lt] at r2
  · norm_num at h
  · have hi0 : i = 0 := by
      have a : (i : ℚ) < 1 := by norm_num at h1; linarith
      have b : (-1 : ℚ) < i := by norm_num at h2; linarith
      have a' : i < 1 := by exact_mod_cast a
      have b' : -1 < i := by exact_mod_cast b
      omega
    subst hi0
    apply hr
    norm_num [abs_lt]

/-! ## Non-vacuity -/

/-- Two baselines, three channels, two boxes in u. -/
def sample : Cfg ℚ where
  c0 := 1
  f0 := 1
  df := 1 / 4
  uvw := ⟨6, fun i => if i = 0 then 1 else if i = 4 then -3 else 0⟩
  numRows := 2
  numChan := 3
  dUv := 1
  dW := 1
  vpc := 2000

theorem sample_ok : sample.Ok where
  c0 := by norm_num [sample]
  df := by norm_num [sample]
  uvw := rfl
  dUv := by norm_num [sample]
  dW := by norm_num [sample]
  rows := by norm_num [sample]
  chan := by norm_num [sample]
  guardU := by
    intro r hr
    have : r = 0 ∨ r = 1 := by simp only [sample] at hr; omega
    rcases this with rfl | rfl
    · exact Or.inr (Or.inl (by norm_num [step, sample]))
    · exact Or.inl (by norm_num [step, sample])
  guardV := by
    intro r hr
    have : r = 0 ∨ r = 1 := by simp only [sample] at hr; omega
    rcases this with rfl | rfl
    · exact Or.inl (by norm_num [step, sample])
    · exact Or.inr (Or.inl (by norm_num [step, sample]))
  guardW := by
    intro r hr
    have : r = 0 ∨ r = 1 := by simp only [sample] at hr; omega
    rcases this with rfl | rfl
    · exact Or.inl (by norm_num [step, sample])
    · exact Or.inl (by norm_num [step, sample])

/-- The hypotheses of the C36 theorems are met, and plane 0 has six visibilities to
process. -/
example : sample.Ok ∧ indices sample = some ((0, 0), (0, 2), (-5, 0)) ∧
    ((selectW sample 0 (allStart sample, allStart sample)).bind fun w =>
      sumDiff w.2 w.1 (-1) (-1)) = some 6 := by
  refine ⟨sample_ok, ?_, ?_⟩ <;> decide +kernel

/-- In the finite case the guard alone makes the check fail: the two channels of `tiny`
are both expected on plane 0. -/
example : ((selectW tiny 0 (allStart tiny, allStart tiny)).bind fun w =>
      sumDiff w.2 w.1 (-1) (-1)) = some 2 := by decide +kernel

end Sdp.Wstack
