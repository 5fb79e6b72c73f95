import Verif.Fft.Props
import Verif.GridUtil.SubgridProps
import Verif.GridUtil.BoundsProps
import Verif.WTower.Edges
import Verif.WTower.Sweep

/-!
# C42: the sweep over w-planes
-/

set_option linter.unusedSectionVars false

namespace Sdp.WTower
open Sdp.Fft Sdp.GridUtil Finset

noncomputable section

/-- The schedule runs every loop over exactly its index set. -/
structure Sched.Ok (s : Sched) (n : Nat) (rows : List Nat) : Prop where
  o1 : s.o1.Perm (List.range n)
  o2 : s.o2.Perm (List.range n)
  px : s.px.Perm (nest2 n n)
  rows : s.rows.Perm rows

/-- `n x n` array as a function. -/
def im (n : Nat) (a : Arr ℂ) (x y : Nat) : ℂ := a.get (x * n + y)

theorem idx2 (n : Nat) (p : Nat × Nat) : index2 n p.1 p.2 = ((p.1 * n + p.2 : Nat) : Int) := by
  simp [index2, Int.mul_comm]

theorem im_lt {n x y : Nat} (hx : x < n) (hy : y < n) : x * n + y < n * n := by
  have := flat_lt hx hy
  rw [Nat.mul_comm x]; exact this

theorem scaleInv_same (n : Nat) (px : List (Nat × Nat)) (hp : px.Perm (nest2 n n))
    (out in2 : Arr ℂ) (ho : out.size = n * n) (h2 : in2.size = n * n) :
    ∃ r, scaleInv n px out none in2 1 = some r ∧ r.size = n * n ∧
      ∀ x, x < n → ∀ y, y < n → im n r x y = im n out x y / im n in2 x y := by
  obtain ⟨r, e1, e2, e3⟩ := pixel_spec n n px hp
    (fun p v => v / in2.get (p.1 * n + p.2)) out ho
  refine ⟨r, ?_, e2, fun x hx y hy => e3 x hx y hy⟩
  unfold scaleInv
  rw [← e1]
  apply loop_congr
  intro p hpm s
  obtain ⟨q1, q2⟩ := mem_nest2.1 (hp.mem_iff.1 hpm)
  simp only [Option.getD_none, if_true]
  rw [idx2, read_lt in2 _ (by rw [h2]; exact im_lt q1 q2)]
  rfl

theorem scaleInv_other (n : Nat) (px : List (Nat × Nat)) (hp : px.Perm (nest2 n n))
    (out in1 in2 : Arr ℂ) (ho : out.size = n * n) (h1 : in1.size = n * n)
    (h2 : in2.size = n * n) (e : Int) :
    ∃ r, scaleInv n px out (some in1) in2 e = some r ∧ r.size = n * n ∧
      ∀ x, x < n → ∀ y, y < n → im n r x y = im n in1 x y / im n in2 x y ^ e := by
  obtain ⟨r, e1, e2, e3⟩ := pixel_spec n n px hp
    (fun p _ => in1.get (p.1 * n + p.2) / in2.get (p.1 * n + p.2) ^ e) out ho
  refine ⟨r, ?_, e2, fun x hx y hy => e3 x hx y hy⟩
  have same : ∀ p ∈ px, ∀ s : Arr ℂ, s.size = n * n →
      ((some in1).getD s).read (index2 n p.1 p.2) = some (in1.get (p.1 * n + p.2)) := by
    intro p hpm s _
    obtain ⟨q1, q2⟩ := mem_nest2.1 (hp.mem_iff.1 hpm)
    rw [Option.getD_some, idx2, read_lt in1 _ (by rw [h1]; exact im_lt q1 q2)]
  -- the destination is written without being read: compare step by step
  have gen : ∀ (l : List (Nat × Nat)), (∀ p ∈ l, p ∈ px) → ∀ s : Arr ℂ, s.size = n * n →
      loop (fun out p =>
        ((Option.getD (some in1) out).read (index2 n p.1 p.2)).bind fun x =>
        (in2.read (index2 n p.1 p.2)).bind fun q =>
        out.write (index2 n p.1 p.2) (if e = 1 then x / q else x / q ^ e)) s l =
      loop (fun d (p : Nat × Nat) => (d.read (index2 n p.1 p.2)).bind fun _ =>
        d.write (index2 n p.1 p.2)
          (in1.get (p.1 * n + p.2) / in2.get (p.1 * n + p.2) ^ e)) s l := by
    intro l
    induction l with
    | nil => intro _ s _; rfl
    | cons p l ih =>
      intro hl s hs
      have hpm := hl p (by simp)
      obtain ⟨q1, q2⟩ := mem_nest2.1 (hp.mem_iff.1 hpm)
      simp only [loop]
      rw [same p hpm s hs, idx2, read_lt in2 _ (by rw [h2]; exact im_lt q1 q2),
        read_lt s _ (by rw [hs]; exact im_lt q1 q2)]
      simp only [Option.bind_some]
      have hv : (if e = 1 then in1.get (p.1 * n + p.2) / in2.get (p.1 * n + p.2)
          else in1.get (p.1 * n + p.2) / in2.get (p.1 * n + p.2) ^ e) =
          in1.get (p.1 * n + p.2) / in2.get (p.1 * n + p.2) ^ e := by
        by_cases h : e = 1
        · rw [if_pos h, h, zpow_one]
        · rw [if_neg h]
      rw [hv, Arr.write_nat, if_pos (by rw [hs]; exact im_lt q1 q2)]
      simp only [Option.bind_some]
      exact ih (fun q hq => hl q (by simp [hq])) _ (by simpa using hs)
  unfold scaleInv
  rw [gen px (fun p hp => hp) out ho]
  exact e1

theorem accumScale_ok (n : Nat) (px : List (Nat × Nat)) (hp : px.Perm (nest2 n n))
    (out in1 : Arr ℂ) (in2 : Option (Arr ℂ)) (e : Int) (ho : out.size = n * n)
    (h1 : in1.size = n * n) (h2 : ∀ b ∈ in2, b.size = n * n) :
    ∃ r, accumScale n px out in1 in2 e = some r ∧ r.size = n * n ∧
      ∀ x, x < n → ∀ y, y < n → im n r x y = im n out x y +
        im n in1 x y * (match in2 with | none => 1 | some b => im n b x y ^ e) := by
  have key : ∀ (g : Nat × Nat → ℂ) (body : Arr ℂ → Nat × Nat → Option (Arr ℂ)),
      (∀ p ∈ px, ∀ s, body s p = Arr.addAt s (index2 n p.1 p.2) (g p)) →
      ∃ r, loop body out px = some r ∧ r.size = n * n ∧
        ∀ x, x < n → ∀ y, y < n → im n r x y = im n out x y + g (x, y) := by
    intro g body hb
    obtain ⟨r, e1, e2, e3⟩ := pixel_spec n n px hp (fun p v => v + g p) out ho
    refine ⟨r, ?_, e2, fun x hx y hy => e3 x hx y hy⟩
    rw [← e1]
    exact loop_congr _ _ _ _ hb
  have rd : ∀ (a : Arr ℂ), a.size = n * n → ∀ p ∈ px,
      a.read (index2 n p.1 p.2) = some (a.get (p.1 * n + p.2)) := by
    intro a ha p hpm
    obtain ⟨q1, q2⟩ := mem_nest2.1 (hp.mem_iff.1 hpm)
    rw [idx2, read_lt a _ (by rw [ha]; exact im_lt q1 q2)]
  unfold accumScale
  cases in2 with
  | none =>
    simp only [mul_one]
    apply key (fun p => in1.get (p.1 * n + p.2))
    intro p hpm s
    rw [rd in1 h1 p hpm]
    rfl
  | some b =>
    have hb : b.size = n * n := h2 b rfl
    by_cases h0 : e = 0
    · simp only [h0, if_true, zpow_zero, mul_one]
      apply key (fun p => in1.get (p.1 * n + p.2))
      intro p hpm s
      rw [rd in1 h1 p hpm]
      rfl
    · simp only [if_neg h0]
      apply key (fun p => in1.get (p.1 * n + p.2) * b.get (p.1 * n + p.2) ^ e)
      intro p hpm s
      rw [rd in1 h1 p hpm, rd b hb p hpm]
      simp only [Option.bind_some]
      by_cases h : e = 1
      · rw [if_pos h, h, zpow_one]
      · rw [if_neg h]

/-- The transform step: centred transform of an even-sized square array. -/
theorem fft_ok (n : Nat) (hn : n % 2 = 0) (h0 : 0 < n) (s : Sched) (rows : List Nat)
    (hs : s.Ok n rows) (dir : Int) (d tmp : Arr ℂ) (hd : d.size = n * n) (ht : tmp.size = n * n) :
    ∃ r t, execShift n n s.o1 s.o2 s.px dir false d tmp = some (r, t) ∧ r.size = n * n ∧
      t.size = n * n ∧ ∀ x, x < n → ∀ y, y < n →
        im n r x y = centred (!(dir = 1)) n n (im n d) x y := by
  obtain ⟨r, t, e1, e2, e3, _⟩ := execShift_spec n n s.o1 s.o2 s.px hs.o1 hs.o2 hs.px dir false d
    tmp hd ht
  obtain ⟨m, rfl⟩ : ∃ m, n = 2 * m := ⟨n / 2, by omega⟩
  obtain ⟨r', t', f1, f2⟩ := C28_shift_square m (by omega) s.o1 s.o2 s.px hs.o1 hs.o2 hs.px dir d
    tmp hd ht
  rw [e1] at f1
  obtain ⟨rfl, rfl⟩ := Prod.mk.inj (Option.some.inj f1)
  exact ⟨r, t, e1, e2, e3, f2⟩

theorem centred_congr (inv : Bool) (n : Nat) (f g : Nat → Nat → ℂ)
    (h : ∀ x, x < n → ∀ y, y < n → f x y = g x y) (x y : Nat) :
    centred inv n n f x y = centred inv n n g x y := by
  unfold centred
  refine sum_congr rfl fun a ha => sum_congr rfl fun b hb => ?_
  rw [h a (mem_range.1 ha) b (mem_range.1 hb)]

variable {K : Type} [Field K] [LinearOrder K] [IsStrictOrderedRing K] [FloorRing K]

/-- Specification: sub-grid of the image at w-plane `q`: the transform of the image divided by
the `q`-th power of the pattern. -/
def planeGrid (n : Nat) (pat img : Nat → Nat → ℂ) (q : Int) (x y : Nat) : ℂ :=
  centred false n n (fun a b => img a b / pat a b ^ q) x y

/-- What the buffers hold when `w_subgrid_image` is at plane `q` and the first `k` layers of
the stack at planes `q0, q0 + 1, ..`. -/
structure DInv (pl : Plan K ℂ) (pat img : Arr ℂ) (st : DBufs) (q0 : Int) (k : Nat) (q : Int) :
    Prop where
  sT : st.T.size = pl.wSupport * (pl.n * pl.n)
  sI : st.img.size = pl.n * pl.n
  sW : st.tmp.size = pl.n * pl.n
  layer : ∀ j, j < k → ∀ x, x < pl.n → ∀ y, y < pl.n →
    tower pl st.T j x y = planeGrid pl.n (im pl.n pat) (im pl.n img) (q0 + j) x y
  cur : ∀ x, x < pl.n → ∀ y, y < pl.n →
    im pl.n st.img x y = im pl.n img x y / im pl.n pat x y ^ q

theorem tower_block (pl : Plan K ℂ) (T : Arr ℂ) (j x y : Nat) :
    tower pl T j x y = T.get (pl.n * pl.n * j + (x * pl.n + y)) := by
  unfold tower
  congr 1
  ring

theorem block_lt {w n j x y : Nat} (hj : j < w) (hx : x < n) (hy : y < n) :
    n * n * j + (x * n + y) < w * (n * n) := by
  have := flat_lt (a := w) (b := n * n) hj (im_lt hx hy)
  exact this

/-- Storing a transformed image in layer `i`. -/
theorem store_layer (pl : Plan K ℂ) (T r : Arr ℂ) (hT : T.size = pl.wSupport * (pl.n * pl.n))
    (hr : r.size = pl.n * pl.n) (i : Nat) (hi : i < pl.wSupport) :
    ∃ T', copyBlock T (pl.n * pl.n * i) r 0 (pl.n * pl.n) = some T' ∧ T'.size = T.size ∧
      ∀ j, j < pl.wSupport → ∀ x, x < pl.n → ∀ y, y < pl.n →
        tower pl T' j x y = if j = i then im pl.n r x y else tower pl T j x y := by
  have hb : pl.n * pl.n * i + pl.n * pl.n ≤ T.size := by
    rw [hT]
    have : (i + 1) * (pl.n * pl.n) ≤ pl.wSupport * (pl.n * pl.n) :=
      Nat.mul_le_mul_right _ hi
    calc pl.n * pl.n * i + pl.n * pl.n = (i + 1) * (pl.n * pl.n) := by ring
      _ ≤ _ := this
  unfold copyBlock
  rw [if_pos ⟨hb, by omega⟩]
  refine ⟨_, rfl, rfl, fun j hj x hx y hy => ?_⟩
  rw [tower_block, tower_block]
  simp only
  have hxy := im_lt hx hy
  by_cases hji : j = i
  · subst hji
    rw [if_pos ⟨by omega, by omega⟩, if_pos rfl]
    unfold im
    congr 1
    omega
  · rw [if_neg hji, if_neg]
    rintro ⟨a, b⟩
    rcases Nat.lt_or_gt_of_ne hji with h | h
    · have : pl.n * pl.n * j + pl.n * pl.n ≤ pl.n * pl.n * i := by
        have := Nat.mul_le_mul_left (pl.n * pl.n) (show j + 1 ≤ i from h)
        rw [Nat.mul_add] at this
        omega
      omega
    · have : pl.n * pl.n * i + pl.n * pl.n ≤ pl.n * pl.n * j := by
        have := Nat.mul_le_mul_left (pl.n * pl.n) (show i + 1 ≤ j from h)
        rw [Nat.mul_add] at this
        omega
      omega

/-- Common hypotheses of the sweeps: even size, pattern without zeros. -/
structure Env (pl : Plan K ℂ) (pat : Arr ℂ) : Prop where
  even : pl.n % 2 = 0
  pos : 0 < pl.n
  ws : 0 < pl.wSupport
  sP : pat.size = pl.n * pl.n
  ne : ∀ x, x < pl.n → ∀ y, y < pl.n → im pl.n pat x y ≠ 0

theorem fillLayer_ok (pl : Plan K ℂ) (pat img : Arr ℂ) (he : Env pl pat) (s : Sched)
    (rows : List Nat) (hs : s.Ok pl.n rows) (st : DBufs) (q0 : Int) (k : Nat) (q : Int)
    (h : DInv pl pat img st q0 k q) (hk : k < pl.wSupport) (hq : q = q0 + k) :
    ∃ st', fillLayer pl pat s st k = some st' ∧ DInv pl pat img st' q0 (k + 1) (q + 1) := by
  obtain ⟨r, t, f1, f2, f3, f4⟩ := fft_ok pl.n he.even he.pos s rows hs 1 st.img st.tmp h.sI h.sW
  obtain ⟨T', c1, c2, c3⟩ := store_layer pl st.T r h.sT f2 k hk
  obtain ⟨i', g1, g2, g3⟩ := scaleInv_same pl.n s.px hs.px st.img pat h.sI he.sP
  unfold fillLayer
  rw [f1]
  simp only [Option.bind_some]
  rw [c1]
  simp only [Option.bind_some]
  rw [g1]
  refine ⟨_, rfl, ⟨c2.trans h.sT, g2, f3, fun j hj x hx y hy => ?_, fun x hx y hy => ?_⟩⟩
  · simp only
    rw [c3 j (by omega) x hx y hy]
    by_cases hjk : j = k
    · rw [if_pos hjk, f4 x hx y hy]
      unfold planeGrid
      rw [hjk, ← hq]
      exact centred_congr _ _ _ _ (fun a ha b hb => h.cur a ha b hb) x y
    · rw [if_neg hjk]
      exact h.layer j (by omega) x hx y hy
  · simp only
    rw [g3 x hx y hy, h.cur x hx y hy, div_div, zpow_add_one₀ (he.ne x hx y hy)]

/-- Shifting moves every layer one plane up. -/
theorem shift_ok (pl : Plan K ℂ) (s : Sched) (rows : List Nat) (hs : s.Ok pl.n rows) (T : Arr ℂ)
    (hT : T.size = pl.wSupport * (pl.n * pl.n)) :
    ∃ T', shiftSubgrids pl.wSupport pl.n pl.n s.px T = some T' ∧ T'.size = T.size ∧
      ∀ j, j + 1 < pl.wSupport → ∀ x, x < pl.n → ∀ y, y < pl.n →
        tower pl T' j x y = tower pl T (j + 1) x y := by
  obtain ⟨r, h1, h2, h3⟩ := C48_shift_partial pl.wSupport pl.n s.px hs.px T hT
  refine ⟨r, h1, h2, fun j hj x hx y hy => ?_⟩
  rw [tower_block, tower_block, h3 j (by omega) _ (im_lt hx hy), if_pos hj]

theorem degridMove_ok (pl : Plan K ℂ) (pat img : Arr ℂ) (he : Env pl pat) (s : Sched)
    (rows : List Nat) (hs : s.Ok pl.n rows) (st : DBufs) (q0 q : Int)
    (h : DInv pl pat img st q0 pl.wSupport q) (hq : q = q0 + pl.wSupport) :
    ∃ st', degridMove pl pat s st = some st' ∧
      DInv pl pat img st' (q0 + 1) pl.wSupport (q + 1) := by
  obtain ⟨T', h1, h2, h3⟩ := shift_ok pl s rows hs st.T h.sT
  have hw := he.ws
  have hinv : DInv pl pat img ⟨T', st.img, st.tmp⟩ (q0 + 1) (pl.wSupport - 1) q := by
    refine ⟨h2.trans h.sT, h.sI, h.sW, fun j hj x hx y hy => ?_, h.cur⟩
    simp only
    rw [h3 j (by omega) x hx y hy, h.layer (j + 1) (by omega) x hx y hy]
    congr 1
    push_cast
    ring
  obtain ⟨st', f1, f2⟩ := fillLayer_ok pl pat img he s rows hs _ (q0 + 1) (pl.wSupport - 1) q hinv
    (by omega) (by omega)
  unfold degridMove
  rw [h1]
  refine ⟨st', f1, ?_⟩
  rwa [show pl.wSupport - 1 + 1 = pl.wSupport by omega] at f2

theorem Call.perm {R : Type} [CommRing R] {pl : Plan K R} {ob : Obs K} {p : Int} {m : Nat}
    {a b : List Nat} (h : Call pl ob p m a) (hp : b.Perm a) : Call pl ob p m b :=
  ⟨h.plan, h.obs, fun i hi => h.rows i (hp.mem_iff.1 hi), hp.nodup_iff.2 h.nodup,
    fun i hi => h.fits i (hp.mem_iff.1 hi)⟩

theorem degridSum_congr {R : Type} [CommRing R] (pl : Plan K R) (ob : Obs K) (p : Int)
    (T U : Nat → Nat → Nat → R)
    (h : ∀ k, k < pl.wSupport → ∀ x, x < pl.n → ∀ y, y < pl.n → T k x y = U k x y) (i c : Nat) :
    degridSum pl ob p T i c = degridSum pl ob p U i c := by
  unfold degridSum
  by_cases hu : Used pl ob p i c
  · rw [if_pos hu, if_pos hu]
    refine sum_congr rfl fun k hk => sum_congr rfl fun x hx => sum_congr rfl fun y hy => ?_
    rw [h k (mem_range.1 hk) x (mem_range.1 hx) y (mem_range.1 hy)]
  · rw [if_neg hu, if_neg hu]

/-- The degridding sweep over `N` planes. -/
theorem degridSweep_ok (pl : Plan K ℂ) (ob : Obs K) (m : Nat) (pat img : Arr ℂ)
    (he : Env pl pat) (rows : List Nat) (S : Nat → Sched) (hS : ∀ j, (S j).Ok pl.n rows)
    (first : Int) (N : Nat) (hcall : ∀ t, t < N → Call pl ob (first + (t : Nat)) m rows)
    (vis : Arr ℂ) (hv : vis.size = m * ob.numChan) (st : DBufs)
    (h : DInv pl pat img st (first - ((pl.wSupport / 2 : Nat) : Int)) pl.wSupport
      (first - ((pl.wSupport / 2 : Nat) : Int) + pl.wSupport)) :
    ∃ r, loop (degridStep pl ob pat first S) (st, vis) (List.range N) = some r ∧
      r.2.size = vis.size ∧
      (∀ i ∈ rows, ∀ c, c < ob.numChan → visAt ob r.2 i c = visAt ob vis i c +
        ∑ t ∈ range N, degridSum pl ob (first + (t : Nat)) (fun k x y =>
          planeGrid pl.n (im pl.n pat) (im pl.n img)
            (first + t + k - ((pl.wSupport / 2 : Nat) : Int)) x y) i c) ∧
      (∀ i, i < m → i ∉ rows → ∀ c, c < ob.numChan → visAt ob r.2 i c = visAt ob vis i c) := by
  generalize ((pl.wSupport / 2 : Nat) : Int) = hw at *
  have main : ∀ n, n ≤ N → ∃ r, loop (degridStep pl ob pat first S) (st, vis) (List.range n) = some r ∧
      r.2.size = vis.size ∧
      DInv pl pat img r.1 (first - hw + (n - 1 : Nat)) pl.wSupport
        (first - hw + pl.wSupport + (n - 1 : Nat)) ∧
      (∀ i ∈ rows, ∀ c, c < ob.numChan → visAt ob r.2 i c = visAt ob vis i c +
        ∑ t ∈ range n, degridSum pl ob (first + (t : Nat)) (fun k x y =>
          planeGrid pl.n (im pl.n pat) (im pl.n img) (first + t + k - hw) x y) i c) ∧
      (∀ i, i < m → i ∉ rows → ∀ c, c < ob.numChan → visAt ob r.2 i c = visAt ob vis i c) := by
    intro n
    induction n with
    | zero =>
      intro _
      refine ⟨(st, vis), rfl, rfl, by simpa using h, fun i _ c _ => by simp, fun _ _ _ _ _ => rfl⟩
    | succ n ih =>
      intro hn
      obtain ⟨r, r1, r2, r3, r4, r5⟩ := ih (by omega)
      rw [List.range_succ, loop_append, r1]
      simp only [Option.bind_some, loop]
      -- the buffers at plane `first + n`
      obtain ⟨b, b1, b2⟩ : ∃ b, (if n = 0 then some r.1 else degridMove pl pat (S n) r.1) = some b ∧
          DInv pl pat img b (first - hw + n) pl.wSupport (first - hw + pl.wSupport + n) := by
        by_cases h0 : n = 0
        · subst h0
          exact ⟨r.1, by simp, by simpa using r3⟩
        · obtain ⟨b, b1, b2⟩ := degridMove_ok pl pat img he (S n) rows (hS n) r.1 _ _ r3 (by ring)
          refine ⟨b, by rw [if_neg h0, b1], ?_⟩
          have e1 : first - hw + ((n - 1 : Nat) : Int) + 1 = first - hw + n := by omega
          have e2 : first - hw + pl.wSupport + ((n - 1 : Nat) : Int) + 1 =
            first - hw + pl.wSupport + n := by omega
          rwa [e1, e2] at b2
      have hc := (hcall n (by omega)).perm (hS n).rows
      obtain ⟨w, w1, w2, w3, w4⟩ := C40_degrid pl hc.plan ob (first + n) m hc.obs b.T b2.sT
        (S n).rows hc.rows hc.nodup hc.fits r.2 (by rw [r2, hv])
      unfold degridStep
      rw [b1]
      simp only [Option.bind_some]
      rw [w1]
      refine ⟨(b, w), rfl, w2.trans r2, by simpa using b2, fun i hi c hc' => ?_,
        fun i hi hni c hc' => ?_⟩
      · simp only
        rw [w3 i ((hS n).rows.mem_iff.2 hi) c hc', r4 i hi c hc', sum_range_succ, add_assoc]
        congr 2
        apply degridSum_congr
        intro k hk x hx y hy
        rw [b2.layer k hk x hx y hy]
        congr 1
        ring
      · simp only
        rw [w4 i hi (fun hh => hni ((hS n).rows.mem_iff.1 hh)) c hc', r5 i hi hni c hc']
  obtain ⟨r, r1, r2, _, r4, r5⟩ := main N le_rfl
  exact ⟨r, r1, r2, r4, r5⟩

/-- The planes the sweep visits: the result of `planeRange` on the exact w bounds. -/
theorem degridFill_ok (pl : Plan K ℂ) (pat img : Arr ℂ) (he : Env pl pat) (rows : List Nat)
    (S : Nat → Sched) (hS : ∀ j, (S j).Ok pl.n rows) (st : DBufs) (q0 : Int)
    (h : DInv pl pat img st q0 0 q0) :
    ∃ r, loop (fun st i => fillLayer pl pat (S i) st i) st (List.range pl.wSupport) = some r ∧
      DInv pl pat img r q0 pl.wSupport (q0 + pl.wSupport) := by
  have main : ∀ n, n ≤ pl.wSupport → ∃ r,
      loop (fun st i => fillLayer pl pat (S i) st i) st (List.range n) = some r ∧
      DInv pl pat img r q0 n (q0 + n) := by
    intro n
    induction n with
    | zero => intro _; exact ⟨st, rfl, by simpa using h⟩
    | succ n ih =>
      intro hn
      obtain ⟨r, r1, r2⟩ := ih (by omega)
      obtain ⟨r', f1, f2⟩ := fillLayer_ok pl pat img he (S n) rows (hS n) r q0 n _ r2 (by omega) rfl
      rw [List.range_succ, loop_append, r1]
      simp only [Option.bind_some, loop]
      rw [f1]
      refine ⟨r', rfl, ?_⟩
      have e : q0 + (n : Int) + 1 = q0 + ((n + 1 : Nat) : Int) := by push_cast; ring
      rwa [e] at f2
  exact main _ le_rfl

/-- **C42, degridding.**  `sdp_gridder_wtower_uvw_degrid`, for every number of planes, support
and w range: at plane `p` layer `k` of the tower is the transform of the image divided by the
`(p + k - support/2)`-th power of the w pattern, and each visibility receives the sum over the
planes `first .. last` of its degridded values; other rows are unchanged.  `fl` are the first
and last plane computed from the bounds. -/
theorem C42_degrid (pl : Plan K ℂ) (ob : Obs K) (m : Nat) (pat img : Arr ℂ) (he : Env pl pat)
    (hI : img.size = pl.n * pl.n) (rows : List Nat) (S0 S : Nat → Sched)
    (hS0 : ∀ j, (S0 j).Ok pl.n rows) (hS : ∀ j, (S j).Ok pl.n rows) (T0 W0 tmp : Arr ℂ)
    (hT : T0.size = pl.wSupport * (pl.n * pl.n)) (hW : W0.size = pl.n * pl.n)
    (ht : tmp.size = pl.n * pl.n) (vis : Arr ℂ) (hv : vis.size = m * ob.numChan)
    (b : MinMax K × MinMax K × MinMax K) (fl : Int × Int)
    (hb : uvwBounds (fixFreq ob).c0 (fixFreq ob).f0 (fixFreq ob).df (fixFreq ob).uvw m
      (fixFreq ob).startChs (fixFreq ob).endChs = some b)
    (hfl : planeRange pl.wStep (fixFreq ob).offW b.2.2 = some fl)
    (hcall : ∀ p, fl.1 ≤ p → p ≤ fl.2 → Call pl (fixFreq ob) p m rows) :
    ∃ r, degridCall pl ob m pat img S0 S T0 W0 tmp vis = some (r, 1 + fl.2 - fl.1) ∧
      r.size = vis.size ∧
      (∀ i ∈ rows, ∀ c, c < ob.numChan → visAt ob r i c = visAt ob vis i c +
        ∑ p ∈ Finset.Icc fl.1 fl.2, degridSum pl (fixFreq ob) p (fun k x y =>
          planeGrid pl.n (im pl.n pat) (im pl.n img)
            (p + k - ((pl.wSupport / 2 : Nat) : Int)) x y) i c) ∧
      (∀ i, i < m → i ∉ rows → ∀ c, c < ob.numChan → visAt ob r i c = visAt ob vis i c) := by
  have hnc : (fixFreq ob).numChan = ob.numChan := by unfold fixFreq; split_ifs <;> rfl
  obtain ⟨W, w1, w2, w3⟩ := scaleInv_other pl.n (S0 0).px (hS0 0).px W0 img pat hW hI he.sP
    (fl.1 - ((pl.wSupport / 2 : Nat) : Int))
  obtain ⟨st, s1, s2⟩ := degridFill_ok pl pat img he rows S0 hS0 ⟨T0, W, tmp⟩
    (fl.1 - ((pl.wSupport / 2 : Nat) : Int))
    ⟨hT, w2, ht, fun j hj => by omega, fun x hx y hy => w3 x hx y hy⟩
  obtain ⟨r, r1, r2, r3, r4⟩ := degridSweep_ok pl (fixFreq ob) m pat img he rows S hS fl.1
    (1 + fl.2 - fl.1).toNat (fun t ht' => hcall _ (by omega) (by omega)) vis (by rw [hv, hnc]) st s2
  refine ⟨r.2, ?_, r2, fun i hi c hc => ?_, fun i hi hni c hc => ?_⟩
  · unfold degridCall
    simp only
    rw [hb]
    simp only [Option.bind_some]
    rw [hfl]
    simp only [Option.bind_some]
    rw [w1]
    simp only [Option.bind_some]
    rw [s1]
    simp only [Option.bind_some]
    rw [r1]
    rfl
  · have h := r3 i hi c (by rw [hnc]; exact hc)
    unfold visAt at h ⊢
    rw [hnc] at h
    rw [h]
    congr 1
    refine sum_bij (fun (t : Nat) _ => fl.1 + (t : Int)) ?_ ?_ ?_ ?_
    · intro t ht'
      rw [mem_range] at ht'
      rw [mem_Icc]
      omega
    · intro a _ b _ h
      omega
    · intro p hp
      rw [mem_Icc] at hp
      exact ⟨(p - fl.1).toNat, by rw [mem_range]; omega, by omega⟩
    · intro t _
      rfl
  · have h := r4 i hi hni c (by rw [hnc]; exact hc)
    unfold visAt at h ⊢
    rwa [hnc] at h

end
end Sdp.WTower
