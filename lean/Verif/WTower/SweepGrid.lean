import Verif.WTower.SweepProps

/-!
# C42: the gridding sweep, adjointness of the two calls, one plane per visibility
-/

set_option linter.unusedSectionVars false

namespace Sdp.WTower
open Sdp.Fft Sdp.GridUtil Finset

noncomputable section

variable {K : Type} [Field K] [LinearOrder K] [IsStrictOrderedRing K] [FloorRing K]

/-- Buffer sizes of the gridding sweep. -/
structure GSize (pl : Plan K ℂ) (st : DBufs × Arr ℂ) : Prop where
  sT : st.1.T.size = pl.wSupport * (pl.n * pl.n)
  sI : st.1.img.size = pl.n * pl.n
  sW : st.1.tmp.size = pl.n * pl.n
  sF : st.2.size = pl.n * pl.n

theorem gridAccum_ok (pl : Plan K ℂ) (pat : Arr ℂ) (he : Env pl pat) (s : Sched)
    (rows : List Nat) (hs : s.Ok pl.n rows) (st : DBufs × Arr ℂ) (h : GSize pl st) (i : Nat)
    (hi : i < pl.wSupport) :
    ∃ st', gridAccum pl pat s st i = some st' ∧ GSize pl st' ∧ st'.1.T = st.1.T ∧
      ∀ x, x < pl.n → ∀ y, y < pl.n → im pl.n st'.1.img x y =
        im pl.n st.1.img x y / im pl.n pat x y +
          centred true pl.n pl.n (tower pl st.1.T i) x y := by
  obtain ⟨i1, g1, g2, g3⟩ := scaleInv_same pl.n s.px hs.px st.1.img pat h.sI he.sP
  have hb : pl.n * pl.n * i + pl.n * pl.n ≤ st.1.T.size := by
    rw [h.sT]
    have : (i + 1) * (pl.n * pl.n) ≤ pl.wSupport * (pl.n * pl.n) := Nat.mul_le_mul_right _ hi
    calc pl.n * pl.n * i + pl.n * pl.n = (i + 1) * (pl.n * pl.n) := by ring
      _ ≤ _ := this
  obtain ⟨buf, c1, c2, c3⟩ : ∃ buf, copyBlock st.2 0 st.1.T (pl.n * pl.n * i) (pl.n * pl.n) =
      some buf ∧ buf.size = pl.n * pl.n ∧
      ∀ x, x < pl.n → ∀ y, y < pl.n → im pl.n buf x y = tower pl st.1.T i x y := by
    unfold copyBlock
    rw [if_pos ⟨by rw [h.sF]; omega, hb⟩]
    refine ⟨_, rfl, h.sF, fun x hx y hy => ?_⟩
    have := im_lt hx hy
    rw [tower_block]
    unfold im
    simp only
    rw [if_pos ⟨by omega, by omega⟩]
    congr 1
  obtain ⟨r, t, f1, f2, f3, f4⟩ := fft_ok pl.n he.even he.pos s rows hs 0 buf st.1.tmp c2 h.sW
  obtain ⟨i2, a1, a2, a3⟩ := accumScale_ok pl.n s.px hs.px i1 r none 0 g2 f2 (by simp)
  unfold gridAccum
  rw [g1]
  simp only [Option.bind_some]
  rw [c1]
  simp only [Option.bind_some]
  rw [f1]
  simp only [Option.bind_some]
  rw [a1]
  refine ⟨_, rfl, ⟨h.sT, a2, f3, f2⟩, rfl, fun x hx y hy => ?_⟩
  simp only
  rw [a3 x hx y hy, g3 x hx y hy, f4 x hx y hy]
  simp only [mul_one]
  congr 1
  exact centred_congr _ _ _ _ (fun a ha b hb => c3 a ha b hb) x y

theorem clearLayer_ok (pl : Plan K ℂ) (T : Arr ℂ) (hT : T.size = pl.wSupport * (pl.n * pl.n))
    (i : Nat) (hi : i < pl.wSupport) :
    ∃ T', clearLayer pl.n T i = some T' ∧ T'.size = T.size ∧
      ∀ j, j < pl.wSupport → ∀ x, x < pl.n → ∀ y, y < pl.n →
        tower pl T' j x y = if j = i then 0 else tower pl T j x y := by
  obtain ⟨T', c1, c2, c3⟩ := store_layer pl T ⟨pl.n * pl.n, fun _ => 0⟩ hT rfl i hi
  unfold copyBlock at c1
  unfold clearLayer
  split_ifs at c1 with hb
  rw [if_pos hb.1]
  refine ⟨_, rfl, rfl, ?_⟩
  obtain rfl := Option.some.inj c1
  intro j hj x hx y hy
  exact c3 j hj x hx y hy

/-- Everything gridded on layer `s` (counted from the first layer of the first plane) by the
first `N` planes. -/
def lay (ws : Nat) (G : Nat → Nat → Nat → Nat → ℂ) (N s : Nat) (x y : Nat) : ℂ :=
  ∑ t ∈ range N, if t ≤ s ∧ s < t + ws then G t (s - t) x y else 0

theorem lay_done (ws : Nat) (G : Nat → Nat → Nat → Nat → ℂ) {N s : Nat} (h : s < N) (x y : Nat) :
    lay ws G N s x y = lay ws G (s + 1) s x y := by
  unfold lay
  obtain ⟨d, rfl⟩ := Nat.exists_eq_add_of_lt h
  rw [show s + d + 1 = (s + 1) + d by ring, sum_range_add, add_eq_left]
  apply sum_eq_zero
  intro t _
  rw [if_neg (by omega)]

/-- State after `j` planes: layers hold partial sums, the image the completed layers. -/
structure GInv (pl : Plan K ℂ) (pat : Arr ℂ) (G : Nat → Nat → Nat → Nat → ℂ)
    (st : DBufs × Arr ℂ) (j sh : Nat) : Prop where
  size : GSize pl st
  layer : ∀ k, k < pl.wSupport → ∀ x, x < pl.n → ∀ y, y < pl.n →
    tower pl st.1.T k x y = lay pl.wSupport G j (sh + k) x y
  cur : ∀ x, x < pl.n → ∀ y, y < pl.n → im pl.n st.1.img x y =
    ∑ s ∈ range sh, centred true pl.n pl.n (lay pl.wSupport G (s + 1) s) x y /
      im pl.n pat x y ^ (sh - 1 - s)

theorem cur_step (P : ℂ) (f : Nat → ℂ) (sh : Nat) :
    (∑ s ∈ range sh, f s / P ^ (sh - 1 - s)) / P + f sh =
      ∑ s ∈ range (sh + 1), f s / P ^ (sh + 1 - 1 - s) := by
  rw [sum_range_succ]
  simp only [Nat.add_sub_cancel, Nat.sub_self, pow_zero, div_one]
  congr 1
  rw [div_eq_mul_inv, sum_mul]
  refine sum_congr rfl fun s hs => ?_
  rw [mem_range] at hs
  rw [← div_eq_mul_inv, div_div, ← pow_succ]
  congr 2
  omega

theorem gridMove_ok (pl : Plan K ℂ) (pat : Arr ℂ) (he : Env pl pat) (s : Sched)
    (rows : List Nat) (hs : s.Ok pl.n rows) (G : Nat → Nat → Nat → Nat → ℂ)
    (st : DBufs × Arr ℂ) (j : Nat) (h : GInv pl pat G st (j + 1) j) :
    ∃ st', gridMove pl pat s st = some st' ∧ GInv pl pat G st' (j + 1) (j + 1) := by
  have hw := he.ws
  obtain ⟨a, a1, a2, a3, a4⟩ := gridAccum_ok pl pat he s rows hs st h.size 0 hw
  obtain ⟨T', s1, s2, s3⟩ := shift_ok pl s rows hs a.1.T (by rw [a3, h.size.sT])
  obtain ⟨T2, c1, c2, c3⟩ := clearLayer_ok pl T' (by rw [s2, a3, h.size.sT]) (pl.wSupport - 1)
    (by omega)
  unfold gridMove
  rw [a1]
  simp only [Option.bind_some]
  rw [s1]
  simp only [Option.bind_some]
  rw [c1]
  refine ⟨_, rfl, ⟨⟨by rw [c2, s2, a3, h.size.sT], a2.sI, a2.sW, a2.sF⟩, ?_, ?_⟩⟩
  · intro k hk x hx y hy
    simp only
    rw [c3 k hk x hx y hy]
    by_cases hl : k = pl.wSupport - 1
    · rw [if_pos hl]
      symm
      unfold lay
      apply sum_eq_zero
      intro t ht
      rw [mem_range] at ht
      rw [if_neg (by omega)]
    · rw [if_neg hl, s3 k (by omega) x hx y hy, a3, h.layer (k + 1) (by omega) x hx y hy]
      congr 1
      ring
  · intro x hx y hy
    simp only
    rw [a4 x hx y hy, h.cur x hx y hy, ← cur_step]
    congr 1
    exact centred_congr _ _ _ _ (fun a ha b hb => by
      rw [h.layer 0 hw a ha b hb]; rfl) x y

theorem gridSum_congr_rows {R : Type} [CommRing R] (pl : Plan K R) (ob : Obs K) (p : Int)
    (a b : List Nat) (h : a.Perm b) (v : Nat → Nat → R) (k x y : Nat) :
    gridSum pl ob p a v k x y = gridSum pl ob p b v k x y := by
  unfold gridSum
  exact (h.map _).sum_eq

theorem gridPlane_inv (pl : Plan K ℂ) (ob : Obs K) (m : Nat) (pat vis : Arr ℂ)
    (rows : List Nat) (first : Int) (j sh : Nat)
    (hcall : Call pl ob (first + (j : Nat)) m rows) (hv : vis.size = m * ob.numChan)
    (G : Nat → Nat → Nat → Nat → ℂ)
    (hG : ∀ t k x y, G t k x y = gridSum pl ob (first + (t : Nat)) rows (visAt ob vis) k x y)
    (st : DBufs × Arr ℂ) (h : GInv pl pat G st j sh) (hj : sh = j) :
    ∃ T, gridPlane pl ob (first + j) vis rows st.1.T = some T ∧
      GInv pl pat G (⟨T, st.1.img, st.1.tmp⟩, st.2) (j + 1) sh := by
  obtain ⟨T, g1, g2, g3⟩ := C40_grid pl hcall.plan ob (first + j) m hcall.obs st.1.T h.size.sT rows
    hcall.rows hcall.fits vis hv
  refine ⟨T, g1, ⟨⟨by rw [g2, h.size.sT], h.size.sI, h.size.sW, h.size.sF⟩, ?_, h.cur⟩⟩
  intro k hk x hx y hy
  simp only
  rw [g3 k hk x hx y hy, h.layer k hk x hx y hy]
  unfold lay
  rw [sum_range_succ]
  congr 1
  rw [if_pos (by omega), hG]
  congr 1
  omega

/-- The gridding sweep over `N + 1` planes. -/
theorem gridSweep_ok (pl : Plan K ℂ) (ob : Obs K) (m : Nat) (pat vis : Arr ℂ)
    (he : Env pl pat) (rows : List Nat) (S : Nat → Sched) (hS : ∀ j, (S j).Ok pl.n rows)
    (first : Int) (N : Nat) (hcall : ∀ t, t < N + 1 → Call pl ob (first + (t : Nat)) m rows)
    (hv : vis.size = m * ob.numChan)
    (G : Nat → Nat → Nat → Nat → ℂ)
    (hG : ∀ t k x y, G t k x y = gridSum pl ob (first + (t : Nat)) rows (visAt ob vis) k x y)
    (F0 tmp : Arr ℂ) (hF : F0.size = pl.n * pl.n) (ht : tmp.size = pl.n * pl.n) :
    ∃ r, loop (gridStep pl ob pat vis first rows S)
        ((⟨⟨pl.wSupport * (pl.n * pl.n), fun _ => 0⟩, ⟨pl.n * pl.n, fun _ => 0⟩, tmp⟩ : DBufs), F0)
        (List.range (N + 1)) = some r ∧ GInv pl pat G r (N + 1) N := by
  have main : ∀ n, n ≤ N → ∃ r, loop (gridStep pl ob pat vis first rows S)
        ((⟨⟨pl.wSupport * (pl.n * pl.n), fun _ => 0⟩, ⟨pl.n * pl.n, fun _ => 0⟩, tmp⟩ : DBufs), F0)
        (List.range (n + 1)) = some r ∧ GInv pl pat G r (n + 1) n := by
    intro n
    induction n with
    | zero =>
      intro _
      obtain ⟨T, t1, t2⟩ := gridPlane_inv pl ob m pat vis rows first 0 0
        (hcall 0 (by omega)) hv G hG
        ((⟨⟨pl.wSupport * (pl.n * pl.n), fun _ => 0⟩, ⟨pl.n * pl.n, fun _ => 0⟩, tmp⟩ : DBufs), F0)
        ⟨⟨rfl, rfl, ht, hF⟩, fun k _ x _ y _ => by simp [lay, tower], fun x _ y _ => by simp [im]⟩ rfl
      simp only [List.range_succ, List.range_zero, List.nil_append, loop]
      unfold gridStep
      rw [if_pos rfl]
      simp only [Option.bind_some]
      rw [t1]
      exact ⟨_, rfl, t2⟩
    | succ n ih =>
      intro hn
      obtain ⟨r, r1, r2⟩ := ih (by omega)
      obtain ⟨r', m1, m2⟩ := gridMove_ok pl pat he (S (n + 1)) rows (hS _) G r n r2
      obtain ⟨T, t1, t2⟩ := gridPlane_inv pl ob m pat vis rows first (n + 1) (n + 1)
        (hcall (n + 1) (by omega)) hv G hG r' m2 rfl
      rw [List.range_succ, loop_append, r1]
      simp only [Option.bind_some, loop]
      unfold gridStep
      rw [if_neg (by omega), m1]
      simp only [Option.bind_some]
      rw [t1]
      exact ⟨_, rfl, t2⟩
  exact main N le_rfl

/-- Accumulating the remaining layers. -/
theorem gridFinish_ok (pl : Plan K ℂ) (pat : Arr ℂ) (he : Env pl pat) (rows : List Nat)
    (S : Nat → Sched) (hS : ∀ j, (S j).Ok pl.n rows) (G : Nat → Nat → Nat → Nat → ℂ)
    (st : DBufs × Arr ℂ) (N : Nat) (h : GInv pl pat G st (N + 1) N) :
    ∃ r, loop (fun st i => gridAccum pl pat (S i) st i) st (List.range pl.wSupport) = some r ∧
      GSize pl r ∧
      ∀ x, x < pl.n → ∀ y, y < pl.n → im pl.n r.1.img x y =
        ∑ s ∈ range (N + pl.wSupport), centred true pl.n pl.n (lay pl.wSupport G (N + 1) s) x y /
          im pl.n pat x y ^ (N + pl.wSupport - 1 - s) := by
  have main : ∀ n, n ≤ pl.wSupport → ∃ r,
      loop (fun st i => gridAccum pl pat (S i) st i) st (List.range n) = some r ∧ GSize pl r ∧
      r.1.T = st.1.T ∧
      ∀ x, x < pl.n → ∀ y, y < pl.n → im pl.n r.1.img x y =
        ∑ s ∈ range (N + n), centred true pl.n pl.n (lay pl.wSupport G (N + 1) s) x y /
          im pl.n pat x y ^ (N + n - 1 - s) := by
    intro n
    induction n with
    | zero =>
      intro _
      refine ⟨st, rfl, h.size, rfl, fun x hx y hy => ?_⟩
      rw [h.cur x hx y hy]
      refine sum_congr rfl fun s hs => ?_
      rw [mem_range] at hs
      congr 1
      exact centred_congr _ _ _ _ (fun a _ b _ => (lay_done _ _ (by omega) a b).symm) x y
    | succ n ih =>
      intro hn
      obtain ⟨r, r1, r2, r3, r4⟩ := ih (by omega)
      obtain ⟨r', a1, a2, a3, a4⟩ := gridAccum_ok pl pat he (S n) rows (hS n) r r2 n (by omega)
      rw [List.range_succ, loop_append, r1]
      simp only [Option.bind_some, loop]
      rw [a1]
      refine ⟨r', rfl, a2, a3.trans r3, fun x hx y hy => ?_⟩
      rw [a4 x hx y hy, r4 x hx y hy, r3, ← Nat.add_assoc, ← cur_step]
      congr 1
      exact centred_congr _ _ _ _ (fun a ha b hb => h.layer n (by omega) a ha b hb) x y
  obtain ⟨r, r1, r2, _, r4⟩ := main _ le_rfl
  exact ⟨r, r1, r2, r4⟩

/-- Regrouping layers into planes. -/
theorem centred_lay (n ws : Nat) (G : Nat → Nat → Nat → Nat → ℂ) (N s x y : Nat) :
    centred true n n (lay ws G N s) x y =
      ∑ t ∈ range N, if t ≤ s ∧ s < t + ws then centred true n n (G t (s - t)) x y else 0 := by
  unfold centred lay
  simp only [mul_sum]
  have swap : ∀ f : Nat → Nat → Nat → ℂ, ∑ a ∈ range n, ∑ b ∈ range n, ∑ t ∈ range N, f a b t =
      ∑ t ∈ range N, ∑ a ∈ range n, ∑ b ∈ range n, f a b t := by
    intro f
    rw [sum_comm' (s := range N) (t := fun _ => range n) (t' := range n) (s' := fun _ => range N)
      (by intro a b; tauto)]
    refine sum_congr rfl fun a _ => ?_
    rw [sum_comm]
  rw [swap]
  refine sum_congr rfl fun t _ => ?_
  by_cases h : t ≤ s ∧ s < t + ws
  · simp only [if_pos h]
  · simp only [if_neg h, mul_zero, sum_const_zero]

theorem regroup (ws N : Nat) (f : Nat → ℂ) (g : Nat → Nat → ℂ) :
    ∑ s ∈ range (N + ws), f s * (∑ t ∈ range (N + 1), if t ≤ s ∧ s < t + ws then g t (s - t) else 0) =
      ∑ t ∈ range (N + 1), ∑ k ∈ range ws, f (t + k) * g t k := by
  simp only [mul_sum]
  rw [sum_comm]
  refine sum_congr rfl fun t ht => ?_
  rw [mem_range] at ht
  have e : ∀ s, f s * (if t ≤ s ∧ s < t + ws then g t (s - t) else 0) =
      if t ≤ s ∧ s < t + ws then f s * g t (s - t) else 0 := by
    intro s; split_ifs <;> simp
  simp only [e]
  rw [← sum_filter]
  refine sum_nbij' (fun s => s - t) (fun k => t + k) ?_ ?_ ?_ ?_ ?_
  · intro s hs
    rw [mem_filter, mem_range] at hs
    rw [mem_range]; omega
  · intro k hk
    rw [mem_range] at hk
    rw [mem_filter, mem_range]; omega
  · intro s hs
    rw [mem_filter, mem_range] at hs
    omega
  · intro k hk
    omega
  · intro s hs
    rw [mem_filter, mem_range] at hs
    rw [show t + (s - t) = s by omega]

/-- **C42, gridding.**  `sdp_gridder_wtower_uvw_grid`, for every number of planes, support and
w range: the values gridded on layer `k` of plane `p` are transformed back, multiplied by the
`(p + k - (support - support/2))`-th power of the w pattern and added to the sub-grid image. -/
theorem C42_grid (pl : Plan K ℂ) (ob : Obs K) (m : Nat) (pat vis img : Arr ℂ) (he : Env pl pat)
    (hI : img.size = pl.n * pl.n) (startRow endRow : Int) (S S1 : Nat → Sched)
    (hS : ∀ j, (S j).Ok pl.n (rowList m startRow endRow))
    (hS1 : ∀ j, (S1 j).Ok pl.n (rowList m startRow endRow)) (F0 tmp : Arr ℂ)
    (hF : F0.size = pl.n * pl.n) (ht : tmp.size = pl.n * pl.n)
    (hv : vis.size = m * ob.numChan)
    (b : MinMax K × MinMax K × MinMax K) (fl : Int × Int) (hle : fl.1 ≤ fl.2)
    (hb : uvwBounds (fixFreq ob).c0 (fixFreq ob).f0 (fixFreq ob).df (fixFreq ob).uvw m
      (fixFreq ob).startChs (fixFreq ob).endChs = some b)
    (hfl : planeRange pl.wStep (fixFreq ob).offW b.2.2 = some fl)
    (hcall : ∀ p, fl.1 ≤ p → p ≤ fl.2 →
      Call pl (fixFreq ob) p m (rowList m startRow endRow)) :
    ∃ r, gridCall pl ob m pat vis startRow endRow S S1 F0 tmp img = some (r, 1 + fl.2 - fl.1) ∧
      r.size = img.size ∧
      ∀ x, x < pl.n → ∀ y, y < pl.n → im pl.n r x y = im pl.n img x y +
        ∑ p ∈ Finset.Icc fl.1 fl.2, ∑ k ∈ range pl.wSupport,
          im pl.n pat x y ^ (p + k - ((pl.wSupport - pl.wSupport / 2 : Nat) : Int)) *
            centred true pl.n pl.n (gridSum pl (fixFreq ob) p (rowList m startRow endRow)
              (visAt ob vis) k) x y := by
  have hnc : (fixFreq ob).numChan = ob.numChan := by unfold fixFreq; split_ifs <;> rfl
  have hva : visAt (fixFreq ob) vis = visAt ob vis := by
    funext i c; unfold visAt; rw [hnc]
  obtain ⟨N, hN⟩ : ∃ N : Nat, fl.2 = fl.1 + N := ⟨(fl.2 - fl.1).toNat, by omega⟩
  have hN1 : (1 + fl.2 - fl.1).toNat = N + 1 := by omega
  obtain ⟨st, s1, s2⟩ := gridSweep_ok pl (fixFreq ob) m pat vis he (rowList m startRow endRow) S hS
    fl.1 N (fun t ht' => hcall _ (by omega) (by omega)) (by rw [hv, hnc])
    (fun t k x y => gridSum pl (fixFreq ob) (fl.1 + (t : Nat)) (rowList m startRow endRow)
      (visAt (fixFreq ob) vis) k x y) (fun _ _ _ _ => rfl) F0 tmp hF ht
  obtain ⟨st2, f1, f2, f3⟩ := gridFinish_ok pl pat he _ S1 hS1 _ st N s2
  obtain ⟨r, a1, a2, a3⟩ := accumScale_ok pl.n (S1 pl.wSupport).px (hS1 _).px img st2.1.img
    (some pat) (fl.2 + ((pl.wSupport / 2 : Nat) : Int) - 1) hI f2.sI (by
      intro b hb; cases hb; exact he.sP)
  refine ⟨r, ?_, by rw [a2, hI], fun x hx y hy => ?_⟩
  · unfold gridCall
    simp only
    rw [hb]
    simp only [Option.bind_some]
    rw [hfl]
    simp only [Option.bind_some]
    rw [hN1, s1]
    simp only [Option.bind_some]
    rw [f1]
    simp only [Option.bind_some]
    rw [a1]
    rfl
  · rw [a3 x hx y hy, f3 x hx y hy]
    congr 1
    simp only
    have hP := he.ne x hx y hy
    generalize im pl.n pat x y = P at hP ⊢
    rw [sum_mul]
    have hw := he.ws
    have e1 : ∀ s ∈ range (N + pl.wSupport), centred true pl.n pl.n (lay pl.wSupport
          (fun t k x y => gridSum pl (fixFreq ob) (fl.1 + (t : Nat)) (rowList m startRow endRow)
            (visAt (fixFreq ob) vis) k x y) (N + 1) s) x y / P ^ (N + pl.wSupport - 1 - s) *
          P ^ (fl.2 + ((pl.wSupport / 2 : Nat) : Int) - 1) =
        P ^ (fl.1 + s - ((pl.wSupport - pl.wSupport / 2 : Nat) : Int)) *
          (∑ t ∈ range (N + 1), if t ≤ s ∧ s < t + pl.wSupport then
            centred true pl.n pl.n (gridSum pl (fixFreq ob) (fl.1 + (t : Nat))
              (rowList m startRow endRow) (visAt ob vis) (s - t)) x y else 0) := by
      intro s hs
      rw [mem_range] at hs
      rw [centred_lay, hva]
      rw [mul_comm (P ^ (_ : Int)) (∑ _ ∈ _, _), div_mul_eq_mul_div, mul_div_assoc]
      congr 1
      rw [← zpow_natCast, ← zpow_sub₀ hP]
      congr 1
      omega
    rw [sum_congr rfl e1, regroup pl.wSupport N
      (fun s => P ^ (fl.1 + (s : Int) - ((pl.wSupport - pl.wSupport / 2 : Nat) : Int)))
      (fun t k => centred true pl.n pl.n (gridSum pl (fixFreq ob) (fl.1 + (t : Nat))
              (rowList m startRow endRow) (visAt ob vis) k) x y)]
    refine sum_bij (fun (t : Nat) _ => fl.1 + (t : Int)) ?_ ?_ ?_ ?_
    · intro t ht'
      rw [mem_range] at ht'
      rw [mem_Icc]
      omega
    · intro a _ b _ h
      omega
    · intro p hp
      rw [mem_Icc] at hp
      exact ⟨(p - fl.1).toNat, by rw [mem_range]; omega, by omega⟩
    · intro t _
      refine sum_congr rfl fun k _ => ?_
      congr 2
      push_cast
      ring

end
/-- **C42, rows.**  The rows a call works on: all of them if either limit is negative, otherwise
exactly those from `startRow` to before `endRow`, each once. -/
theorem C42_rows (m : Nat) (startRow endRow : Int) :
    (rowList m startRow endRow).Nodup ∧
    ∀ i : Nat, i ∈ rowList m startRow endRow ↔
      ((startRow < 0 ∨ endRow < 0) ∧ i < m) ∨
      (0 ≤ startRow ∧ 0 ≤ endRow ∧ startRow ≤ i ∧ (i : Int) < endRow) := by
  unfold rowList
  by_cases h : startRow < 0 ∨ endRow < 0
  · rw [if_pos h]
    refine ⟨List.nodup_range, fun i => ?_⟩
    rw [List.mem_range]
    omega
  · rw [if_neg h]
    refine ⟨List.Nodup.map (fun a b hab => by simpa using hab) List.nodup_range, fun i => ?_⟩
    simp only [List.mem_map, List.mem_range]
    constructor
    · rintro ⟨k, h1, rfl⟩
      omega
    · intro h1
      exact ⟨i - startRow.toNat, by omega, by omega⟩

end Sdp.WTower
