import Verif.WTower.GpuCallFacts

/-!
# C109: degridding on the GPU, the whole call
-/

set_option linter.unusedSectionVars false

namespace Sdp.WTower
open Sdp.Fft Sdp.GridUtil Sdp.Race Finset

noncomputable section

/-- Types of visibilities. -/
def ComplexType (t : MemType) : Prop := t = .complexDouble ∨ t = .complexFloat

/-- `w_subgrid_image /= w_pattern` on the device. -/
theorem scaleStep_ok (n : Nat) (t : MemType) (ht : ComplexType t) (pat img : Arr ℂ) (hp : pat.size = n * n)
    (hi : img.size = n * n) (hz : ∀ x, x < n → ∀ y, y < n → im n pat x y ≠ 0) :
    Ends (runOn (invCall true (devMem t [(n : Int), n]) (devMem t [(n : Int), n]) (devMem .complexDouble [(n : Int), n]) 1
      .success none pat) img) fun w => w.1 = .success ∧ w.2.size = n * n ∧
        ∀ x, x < n → ∀ y, y < n → im n w.2 x y = im n img x y / im n pat x y := by
  have ha : Arrays true (devMem t [(n : Int), n]) (devMem t [(n : Int), n]) none img n n (fun i j => i * n + j)
      fun i j => i * n + j :=
    ⟨Or.inr ⟨devMem_loc _ _, rfl⟩, rfl, devMem_data _ _, devMem_ro _ _, devMem_plane t ht n _ (by omega),
      square_distinct n, devMem_plane t ht n _ (by rw [Option.getD_none]; omega), fun _ _ _ => rfl⟩
  obtain ⟨h1, r, h2, h3, h4, -⟩ := C82_inv ha (devMem .complexDouble [(n : Int), n]) pat 1 (by
      rcases ht with rfl | rfl
      · exact Or.inl ⟨devMem_type _ _, Or.inr (devMem_type _ _)⟩
      · exact Or.inr ⟨devMem_type _ _, Or.inr (devMem_type _ _)⟩) (devMem_type _ _)
    (by rw [devMem_loc, devMem_loc]) (devMem_plane _ (Or.inl rfl) n _ (by omega)) (fun i j hi hj => hz i hi j hj)
  have hn := invCall_nodup true (devMem t [(n : Int), n]) (devMem t [(n : Int), n])
    (devMem .complexDouble [(n : Int), n]) 1 .success none pat (devMem_loc _ _)
  refine (ends_run (Q := fun r' => r' = r) hn ⟨r, h2, rfl⟩).mono fun w hw => ⟨hw.1.trans h1, by rw [hw.2, h3, hi],
    fun x hx y hy => ?_⟩
  have := h4 x y hx hy
  rw [zpow_one] at this
  rw [hw.2]
  exact this

/-- `w_subgrid_image = subgrid_image / w_pattern ** e` on the device, for an image of any strides. -/
theorem scaleFirst_ok (n : Nat) (t : MemType) (pat img W0 : Arr ℂ) (mi : Mem) (pos : Nat → Nat → Nat)
    (ht : t = .complexDouble ∧ (mi.type = .double ∨ mi.type = .complexDouble) ∨
      t = .complexFloat ∧ (mi.type = .float ∨ mi.type = .complexFloat)) (hl : mi.location = .gpu)
    (hm : Plane mi img.size n n pos) (e : Int) (hp : pat.size = n * n) (hw : W0.size = n * n)
    (hz : ∀ x, x < n → ∀ y, y < n → im n pat x y ≠ 0) :
    Ends (runOn (invCall true (devMem t [(n : Int), n]) mi (devMem .complexDouble [(n : Int), n]) e .success (some img)
      pat) W0) fun w => w.1 = .success ∧ w.2.size = n * n ∧
        ∀ x, x < n → ∀ y, y < n → im n w.2 x y = img.get (pos x y) / im n pat x y ^ e := by
  have hct : ComplexType t := ht.imp And.left And.left
  have ha : Arrays true (devMem t [(n : Int), n]) mi (some img) W0 n n (fun i j => i * n + j) pos :=
    ⟨Or.inr ⟨devMem_loc _ _, rfl⟩, by rw [hl, devMem_loc], devMem_data _ _, devMem_ro _ _,
      devMem_plane t hct n _ (by omega), square_distinct n, hm, by simp⟩
  obtain ⟨h1, r, h2, h3, h4, -⟩ := C82_inv ha (devMem .complexDouble [(n : Int), n]) pat e
    (by rw [devMem_type]; exact ht) (devMem_type _ _)
    (by rw [devMem_loc, devMem_loc]) (devMem_plane _ (Or.inl rfl) n _ (by omega)) (fun i j hi hj => hz i hi j hj)
  have hn := invCall_nodup true (devMem t [(n : Int), n]) mi
    (devMem .complexDouble [(n : Int), n]) e .success (some img) pat (devMem_loc _ _)
  refine (ends_run (Q := fun r' => r' = r) hn ⟨r, h2, rfl⟩).mono fun w hw' => ⟨hw'.1.trans h1, by rw [hw'.2, h3, hw],
    fun x hx y hy => ?_⟩
  rw [hw'.2]
  exact h4 x y hx hy

variable {K : Type} [Field K] [LinearOrder K] [IsStrictOrderedRing K] [FloorRing K]

/-- `DInv` for the buffers on the device. -/
def GInvD (pl : Plan K ℂ) (pat img : Arr ℂ) (s : GBufs) (q0 : Int) (k : Nat) (q : Int) : Prop :=
  s.st = .success ∧ DInv pl pat img ⟨s.T, s.img, ⟨pl.n * pl.n, fun _ => 0⟩⟩ q0 k q

theorem fillGpu_ok (pl : Plan K ℂ) (t : MemType) (ht : ComplexType t) (pat img : Arr ℂ) (he : Env pl pat) (s : GBufs)
    (q0 : Int) (k : Nat) (q : Int) (h : GInvD pl pat img s q0 k q) (hk : k < pl.wSupport) (hq : q = q0 + k) :
    Ends (fillGpu pl t pat s k) fun s' => GInvD pl pat img s' q0 (k + 1) (q + 1) := by
  obtain ⟨hst, hD⟩ := h
  unfold fillGpu
  refine ends_neg (by rw [hst]; simp) ?_
  refine ends_then (gpuFft_ok pl.n he.even he.pos false s.img hD.sI) fun r hr => ?_
  obtain ⟨T', c1, c2, c3⟩ := store_layer pl s.T r hD.sT hr.1 k hk
  refine ends_then (Q := fun T => T = T') (ends_eq ⟨T', c1, rfl⟩) fun T hT => ?_
  subst hT
  refine ends_then (scaleStep_ok pl.n t ht pat s.img he.sP hD.sI he.ne) fun w hw => ends_some ⟨hw.1, ?_⟩
  refine ⟨c2.trans hD.sT, hw.2.1, rfl, fun j hj x hx y hy => ?_, fun x hx y hy => ?_⟩
  · simp only
    rw [c3 j (by omega) x hx y hy]
    by_cases hjk : j = k
    · rw [if_pos hjk, hr.2 x hx y hy]
      unfold planeGrid
      rw [hjk, ← hq]
      exact centred_congr _ _ _ _ (fun a ha b hb => hD.cur a ha b hb) x y
    · rw [if_neg hjk]
      exact hD.layer j (by omega) x hx y hy
  · simp only
    rw [hw.2.2 x hx y hy]
    have := hD.cur x hx y hy
    simp only at this
    rw [this, div_div, zpow_add_one₀ (he.ne x hx y hy)]

theorem shiftThreads_nodup (a b : Nat) : (shiftThreads a b).Nodup := by
  unfold shiftThreads
  exact nest2_nodup _ _

theorem shiftLaunch_ok (pl : Plan K ℂ) (T : Arr ℂ) (hT : T.size = pl.wSupport * (pl.n * pl.n)) :
    Ends (Race.Launch (shiftProg pl.wSupport pl.n pl.n) (shiftThreads pl.n pl.n) T) fun T' => T'.size = T.size ∧
      ∀ j, j + 1 < pl.wSupport → ∀ x, x < pl.n → ∀ y, y < pl.n →
        tower pl T' j x y = tower pl T (j + 1) x y := by
  obtain ⟨r, h1, h2, h3⟩ := C81_shift_partial pl.wSupport pl.n T hT
  refine ends_launch (shiftThreads_nodup _ _) ⟨r, h1, h2, fun j hj x hx y hy => ?_⟩
  rw [tower_block, tower_block, h3 j (by omega) _ (im_lt hx hy), if_pos hj]

theorem moveGpu_ok (pl : Plan K ℂ) (t : MemType) (ht : ComplexType t) (pat img : Arr ℂ) (he : Env pl pat) (s : GBufs)
    (q0 q : Int) (h : GInvD pl pat img s q0 pl.wSupport q) (hq : q = q0 + pl.wSupport) :
    Ends (Then (shiftGpu pl s) fun b => fillGpu pl t pat b (pl.wSupport - 1))
      fun s' => GInvD pl pat img s' (q0 + 1) pl.wSupport (q + 1) := by
  have hw := he.ws
  refine ends_then (Q := fun s' => GInvD pl pat img s' (q0 + 1) (pl.wSupport - 1) q) ?_ fun s' hs' => ?_
  · unfold shiftGpu
    refine ends_neg (by rw [h.1]; simp) ?_
    refine ends_then (shiftLaunch_ok pl s.T h.2.sT) fun T' hT' => ends_some ⟨h.1, ?_⟩
    refine ⟨hT'.1.trans h.2.sT, h.2.sI, h.2.sW, fun j hj x hx y hy => ?_, h.2.cur⟩
    simp only
    rw [hT'.2 j (by omega) x hx y hy]
    have := h.2.layer (j + 1) (by omega) x hx y hy
    simp only at this
    rw [this]
    congr 1
    push_cast
    ring
  · have := fillGpu_ok pl t ht pat img he s' (q0 + 1) (pl.wSupport - 1) q hs' (by omega) (by omega)
    rwa [show pl.wSupport - 1 + 1 = pl.wSupport by omega] at this

/-- Rows a call works on. -/
def InRows (m : Nat) (startRow endRow : Int) (i : Nat) : Prop :=
  i < m ∧ (startRow < 0 ∨ endRow < 0 ∨ (startRow ≤ i ∧ (i : Int) < endRow))

theorem inRows_iff (m : Nat) (startRow endRow : Int) (i : Nat) : InRows m startRow endRow i ↔
    (rowLimits m startRow endRow).1 ≤ i ∧ i < (rowLimits m startRow endRow).2 ∧ i < m := by
  unfold InRows rowLimits
  split_ifs with h
  · simp only
    omega
  · simp only
    omega

/-- Everything a call needs: descriptors of the right types and sizes, arrays in device memory. -/
structure CallArgs.Good (A : CallArgs) (m : Nat) (write : Bool) : Prop where
  vloc : A.vis.location = .gpu
  vdims : A.vis.numDims = 2
  vrows : A.vis.shapeDim 0 = m
  vwrite : write = true → A.vis.data ≠ none ∧ A.vis.isReadOnly = false
  uloc : A.uvw.location = .gpu
  udims : A.uvw.numDims = 2
  urows : A.uvw.shapeDim 0 = m
  sloc : A.startChs.location = .gpu
  stype : A.startChs.type = .int
  sdims : A.startChs.numDims = 1
  eloc : A.endChs.location = .gpu
  etype : A.endChs.type = .int
  edims : A.endChs.numDims = 1
  iloc : A.img.location = .gpu
  rows : 0 < m
  types : A.vis.type = .complexDouble ∧ A.uvw.type = .double ∨
    A.vis.type = .complexFloat ∧ (A.uvw.type = .double ∨ A.uvw.type = .float)

theorem CallArgs.Good.complex {A : CallArgs} {m : Nat} {write : Bool}
    (h : A.Good m write) : ComplexType A.vis.type := h.types.imp And.left And.left

theorem CallArgs.Good.joined {A : CallArgs} {m : Nat} {write : Bool}
    (h : A.Good m write) : A.together = true := by
  unfold CallArgs.together
  rw [decide_eq_true_iff, h.vloc, h.uloc, h.sloc, h.eloc, h.iloc]
  simp

theorem CallArgs.Good.bounds_ok {A : CallArgs} {m : Nat} {write : Bool}
    (h : A.Good m write) : A.boundsStatus = .success := by
  have h1 := (viewConst_status A.startChs .int 1 .gpu .success).2 ⟨rfl, h.stype, h.sdims, h.sloc⟩
  have h2 := (viewConst_status A.endChs .int 1 .gpu .success).2 ⟨rfl, h.etype, h.edims, h.eloc⟩
  have h3 := (viewConst_status A.uvw A.uvw.type 2 .gpu .success).2 ⟨rfl, rfl, h.udims, h.uloc⟩
  have ht : A.uvw.type = .double ∨ A.uvw.type = .float := by
    rcases h.types with ⟨-, h⟩ | ⟨-, h | h⟩
    · exact Or.inl h
    · exact Or.inl h
    · exact Or.inr h
  have := h.rows
  unfold CallArgs.boundsStatus
  simp only
  rw [h1, h2, if_pos ht, h3, if_neg (by simp), if_neg (by rw [h.urows]; omega)]

theorem CallArgs.Good.kernel_ok {A : CallArgs} {m : Nat} {write : Bool}
    (h : A.Good m write) : A.kernelStatus write = .success := by
  have h1 := (viewConst_status A.startChs .int 1 .gpu .success).2 ⟨rfl, h.stype, h.sdims, h.sloc⟩
  have h2 := (viewConst_status A.endChs .int 1 .gpu .success).2 ⟨rfl, h.etype, h.edims, h.eloc⟩
  have h3 := (viewConst_status A.uvw A.uvw.type 2 .gpu .success).2 ⟨rfl, rfl, h.udims, h.uloc⟩
  have h4 := (viewConst_status A.vis A.vis.type 2 .gpu .success).2 ⟨rfl, rfl, h.vdims, h.vloc⟩
  have hk : A.kernel = true := by
    unfold CallArgs.kernel
    rw [decide_eq_true_iff]
    exact h.types
  have := h.rows
  unfold CallArgs.kernelStatus
  simp only
  rw [h1, h2, if_pos hk, h3]
  cases write with
  | false =>
    simp only [Bool.false_eq_true, if_false]
    rw [h4, if_neg (by simp), if_neg (by rw [h.vrows]; omega)]
  | true =>
    have h5 := (view_status A.vis A.vis.type 2 .gpu .success).2 ⟨rfl, rfl, h.vdims, h.vloc, h.vwrite rfl⟩
    simp only [if_true]
    rw [h5, if_neg (by simp), if_neg (by rw [h.vrows]; omega)]

/-- The degridding sweep over `N` planes. -/
theorem degridSweepGpu_ok (pl : Plan K ℂ) (ob : Obs K) (A : CallArgs) (m : Nat) (hA : A.Good m true)
    (pat img : Arr ℂ) (he : Env pl pat) (startRow endRow : Int)
    (first : Int) (N : Nat) (hm : pl.Made) (ho : ob.Made m)
    (hfit : ∀ t, t < N → ∀ i, InRows m startRow endRow i → ∀ c, Used pl ob (first + (t : Nat)) i c →
      Fits pl ob (first + (t : Nat)) i c)
    (vis : Arr ℂ) (hv : vis.size = m * ob.numChan) (s : GBufs)
    (h : GInvD pl pat img s (first - ((pl.wSupport / 2 : Nat) : Int)) pl.wSupport
      (first - ((pl.wSupport / 2 : Nat) : Int) + pl.wSupport)) :
    Ends (EsFft.Steps (degridStepGpu pl ob A pat first (rowLimits m startRow endRow)) (List.range N) (s, vis)) fun r =>
      r.1.st = .success ∧ r.2.size = vis.size ∧
      (∀ i, InRows m startRow endRow i → ∀ c, c < ob.numChan → visAt ob r.2 i c = visAt ob vis i c +
        ∑ t ∈ range N, degridSum pl ob (first + (t : Nat)) (fun k x y =>
          planeGrid pl.n (im pl.n pat) (im pl.n img)
            (first + t + k - ((pl.wSupport / 2 : Nat) : Int)) x y) i c) ∧
      (∀ i, i < m → ¬ InRows m startRow endRow i → ∀ c, c < ob.numChan → visAt ob r.2 i c = visAt ob vis i c) := by
  generalize ((pl.wSupport / 2 : Nat) : Int) = hw at *
  have main := EsFft.steps_ok (degridStepGpu pl ob A pat first (rowLimits m startRow endRow))
    (fun n r => r.2.size = vis.size ∧
      GInvD pl pat img r.1 (first - hw + (n - 1 : Nat)) pl.wSupport (first - hw + pl.wSupport + (n - 1 : Nat)) ∧
      (∀ i, InRows m startRow endRow i → ∀ c, c < ob.numChan → visAt ob r.2 i c = visAt ob vis i c +
        ∑ t ∈ range n, degridSum pl ob (first + (t : Nat)) (fun k x y =>
          planeGrid pl.n (im pl.n pat) (im pl.n img) (first + t + k - hw) x y) i c) ∧
      (∀ i, i < m → ¬ InRows m startRow endRow i → ∀ c, c < ob.numChan → visAt ob r.2 i c = visAt ob vis i c)) N ?_
    (s, vis) ⟨rfl, by simpa using h, fun i _ c _ => by simp, fun _ _ _ _ _ => rfl⟩
  · exact Ends.mono main fun r hr => ⟨hr.2.1.1, hr.1, hr.2.2⟩
  · intro n hn r ⟨r2, r3, r4, r5⟩
    show Ends _ _
    unfold degridStepGpu
    refine ends_neg (by rw [r3.1]; simp) ?_
    refine ends_then (Q := fun b => GInvD pl pat img b (first - hw + n) pl.wSupport (first - hw + pl.wSupport + n)) ?_
      fun b hb => ?_
    · by_cases h0 : n = 0
      · subst h0
        simp only [if_true]
        exact ends_some (by simpa using r3)
      · simp only [if_neg h0]
        have := moveGpu_ok pl A.vis.type hA.complex pat img he r.1 _ _ r3 (by ring)
        have e1 : first - hw + ((n - 1 : Nat) : Int) + 1 = first - hw + n := by omega
        have e2 : first - hw + pl.wSupport + ((n - 1 : Nat) : Int) + 1 =
          first - hw + pl.wSupport + n := by omega
        rwa [e1, e2] at this
    · unfold degridLaunch
      refine ends_neg (by rw [hb.1]; simp) (ends_neg (by rw [hA.kernel_ok]; simp) ?_)
      rw [hA.urows, hA.vrows, Int.toNat_natCast]
      obtain ⟨w, w1, w2, w3, w4, -⟩ := C92_degrid_partial pl hm ob (first + n) m ho b.T hb.2.sT
        (rowLimits m startRow endRow).1 (rowLimits m startRow endRow).2
        (fun i g1 g2 g3 => hfit n hn i ((inRows_iff _ _ _ _).2 ⟨g1, g2, g3⟩)) r.2 (by rw [r2, hv])
      refine ends_then (Q := fun v => v = w) (ends_launch List.nodup_range ⟨w, w1, rfl⟩) fun v hvw => ends_some ?_
      subst hvw
      refine ⟨w2.trans r2, by simpa using hb, fun i hi c hc' => ?_, fun i hi hni c hc' => ?_⟩
      · have g := (inRows_iff _ _ _ _).1 hi
        simp only
        rw [w3 i g.1 g.2.1 g.2.2 c hc', r4 i hi c hc', sum_range_succ, add_assoc]
        congr 2
        apply degridSum_congr
        intro k hk x hx y hy
        rw [hb.2.layer k hk x hx y hy]
        congr 1
        ring
      · simp only
        rw [w4 i hi (fun hh => hni ((inRows_iff _ _ _ _).2 ⟨hh.1, hh.2, hi⟩)) c hc', r5 i hi hni c hc']

theorem gpuBounds_ok (pl : Plan K ℂ) (ob : Obs K) (A : CallArgs) (m : Nat) (write : Bool) (hA : A.Good m write)
    (ho : ob.Made m) (b : MinMax K × MinMax K × MinMax K)
    (hb : uvwBounds ob.c0 ob.f0 ob.df ob.uvw m ob.startChs ob.endChs = some b) :
    Ends (gpuBounds ob A) fun b' => b' = b := by
  have key : ∀ order : List (Nat × Nat × Nat), order.Perm (boundOps m) →
      uvwBoundsGpu ob.c0 ob.f0 ob.df ob.uvw m ob.startChs ob.endChs order = some b := by
    intro order hp
    rw [(C81_bounds ob.c0 ob.f0 ob.df ob.uvw m ob.startChs ob.endChs (by have := ho.uvw; omega) (by have := ho.s; omega)
      (by have := ho.e; omega) order hp).2, hb]
  unfold gpuBounds
  rw [hA.bounds_ok, hA.urows, Int.toNat_natCast]
  simp only [ne_eq, not_true_eq_false, if_false]
  constructor
  · rintro o ⟨order, hp, rfl⟩
    exact ⟨b, key order hp, rfl⟩
  · exact ⟨_, _, List.Perm.refl _, rfl⟩

/-- The image of any strides as a row-major array. -/
def packed (n : Nat) (pos : Nat → Nat → Nat) (img : Arr ℂ) : Arr ℂ := ⟨n * n, fun k => img.get (pos (k / n) (k % n))⟩

theorem im_packed (n : Nat) (pos : Nat → Nat → Nat) (img : Arr ℂ) (x y : Nat) (hy : y < n) :
    im n (packed n pos img) x y = img.get (pos x y) := by
  unfold im packed
  simp only
  rw [Nat.mul_comm, Nat.mul_add_div (by omega), Nat.div_eq_of_lt hy, Nat.mul_add_mod, Nat.mod_eq_of_lt hy, Nat.add_zero]

/-- **C109, degridding.**  `sdp_gridder_wtower_uvw_degrid` with all arrays in device memory, for every schedule of the
threads of every launch: it ends, with success, and each visibility of the selected rows receives the sum over the
planes `first .. last` of its degridded values, as `C42_degrid` says for the CPU; other rows are unchanged.  The image
may have any strides. -/
theorem C109_degrid (pl : Plan K ℂ) (ob : Obs K) (A : CallArgs) (m : Nat) (hA : A.Good m true)
    (pat img : Arr ℂ) (he : Env pl pat) (pos : Nat → Nat → Nat) (hI : Plane A.img img.size pl.n pl.n pos)
    (hti : A.vis.type = .complexDouble ∧ (A.img.type = .double ∨ A.img.type = .complexDouble) ∨
      A.vis.type = .complexFloat ∧ (A.img.type = .float ∨ A.img.type = .complexFloat))
    (startRow endRow : Int) (T0 W0 : Arr ℂ)
    (hT : T0.size = pl.wSupport * (pl.n * pl.n)) (hW : W0.size = pl.n * pl.n)
    (vis : Arr ℂ) (hv : vis.size = m * ob.numChan)
    (b : MinMax K × MinMax K × MinMax K) (fl : Int × Int)
    (hb : uvwBounds (fixFreq ob).c0 (fixFreq ob).f0 (fixFreq ob).df (fixFreq ob).uvw m
      (fixFreq ob).startChs (fixFreq ob).endChs = some b)
    (hfl : planeRange pl.wStep (fixFreq ob).offW b.2.2 = some fl)
    (hm : pl.Made) (ho : (fixFreq ob).Made m)
    (hfit : ∀ p, fl.1 ≤ p → p ≤ fl.2 → ∀ i, InRows m startRow endRow i → ∀ c, Used pl (fixFreq ob) p i c →
      Fits pl (fixFreq ob) p i c) :
    (∃ o, degridGpu true pl ob A pat img startRow endRow .success T0 W0 vis o) ∧
    ∀ o, degridGpu true pl ob A pat img startRow endRow .success T0 W0 vis o →
      ∃ r, o = some (.success, r, 1 + fl.2 - fl.1) ∧ r.size = vis.size ∧
      (∀ i, InRows m startRow endRow i → ∀ c, c < ob.numChan → visAt ob r i c = visAt ob vis i c +
        ∑ p ∈ Finset.Icc fl.1 fl.2, degridSum pl (fixFreq ob) p (fun k x y =>
          planeGrid pl.n (im pl.n pat) (fun x y => img.get (pos x y))
            (p + k - ((pl.wSupport / 2 : Nat) : Int)) x y) i c) ∧
      (∀ i, i < m → ¬ InRows m startRow endRow i → ∀ c, c < ob.numChan → visAt ob r i c = visAt ob vis i c) := by
  have hnc : (fixFreq ob).numChan = ob.numChan := by unfold fixFreq; split_ifs <;> rfl
  suffices hE : Ends (degridGpu true pl ob A pat img startRow endRow .success T0 W0 vis) fun r =>
      r.1 = .success ∧ r.2.2 = 1 + fl.2 - fl.1 ∧ r.2.1.size = vis.size ∧
      (∀ i, InRows m startRow endRow i → ∀ c, c < ob.numChan → visAt ob r.2.1 i c = visAt ob vis i c +
        ∑ p ∈ Finset.Icc fl.1 fl.2, degridSum pl (fixFreq ob) p (fun k x y =>
          planeGrid pl.n (im pl.n pat) (fun x y => img.get (pos x y))
            (p + k - ((pl.wSupport / 2 : Nat) : Int)) x y) i c) ∧
      (∀ i, i < m → ¬ InRows m startRow endRow i → ∀ c, c < ob.numChan → visAt ob r.2.1 i c = visAt ob vis i c) by
    refine ⟨hE.2, fun o ho' => ?_⟩
    obtain ⟨⟨a1, a2, a3⟩, rfl, h1, h2, h3⟩ := hE.1 o ho'
    simp only at h1 h2 h3
    subst h1
    subst h2
    exact ⟨a2, rfl, h3⟩
  unfold degridGpu
  refine ends_neg (by simp) (ends_neg (by rw [hA.joined]; simp) (ends_neg (by simp) ?_))
  rw [hA.urows, Int.toNat_natCast]
  refine ends_then (gpuBounds_ok pl _ A m true hA ho b hb) fun b' hb' => ?_
  subst hb'
  refine ends_then (Q := fun f => f = fl) (ends_eq ⟨fl, hfl, rfl⟩) fun fl' hfl' => ?_
  subst hfl'
  refine ends_then (scaleFirst_ok pl.n A.vis.type pat img W0 A.img pos hti hA.iloc hI
    (fl'.1 - ((pl.wSupport / 2 : Nat) : Int)) he.sP hW he.ne) fun w hw => ?_
  refine ends_then (Q := fun s => GInvD pl pat (packed pl.n pos img) s (fl'.1 - ((pl.wSupport / 2 : Nat) : Int))
      pl.wSupport (fl'.1 - ((pl.wSupport / 2 : Nat) : Int) + pl.wSupport)) ?_ fun s hs => ?_
  · exact EsFft.steps_ok (fun i s => fillGpu pl A.vis.type pat s i)
      (fun n s => GInvD pl pat (packed pl.n pos img) s (fl'.1 - ((pl.wSupport / 2 : Nat) : Int)) n
        (fl'.1 - ((pl.wSupport / 2 : Nat) : Int) + n)) pl.wSupport (fun n hn s hs => by
        have := fillGpu_ok pl A.vis.type hA.complex pat _ he s _ n _ hs hn rfl
        have e : ∀ q0 : Int, q0 + (n : Int) + 1 = q0 + ((n + 1 : Nat) : Int) := by intro q0; push_cast; ring
        rwa [e] at this) _
      ⟨hw.1, ⟨hT, hw.2.1, rfl, fun j hj => by omega, fun x hx y hy => by
        simp only
        rw [hw.2.2 x hx y hy, im_packed _ _ _ _ _ hy]
        simp⟩⟩
  · refine ends_then (degridSweepGpu_ok pl (fixFreq ob) A m hA pat _ he startRow endRow fl'.1
      (1 + fl'.2 - fl'.1).toNat hm ho (fun t ht i hi c => hfit _ (by omega) (by omega) i hi c) vis (by rw [hv, hnc]) s hs)
      fun r hr => ends_some ⟨hr.1, rfl, hr.2.1, fun i hi c hc => ?_, fun i hi hni c hc => ?_⟩
    · have h := hr.2.2.1 i hi c (by rw [hnc]; exact hc)
      unfold visAt at h ⊢
      rw [hnc] at h
      rw [h]
      congr 1
      refine sum_bij (fun (t : Nat) _ => fl'.1 + (t : Int)) ?_ ?_ ?_ ?_
      · intro t ht'
        rw [mem_range] at ht'
        rw [mem_Icc]
        omega
      · intro a _ b _ h
        omega
      · intro p hp
        rw [mem_Icc] at hp
        exact ⟨(p - fl'.1).toNat, by rw [mem_range]; omega, by omega⟩
      · intro t _
        apply degridSum_congr
        intro k hk x hx y hy
        unfold planeGrid
        exact centred_congr _ _ _ _ (fun a _ b hb => by rw [im_packed _ _ _ _ _ hb]) x y
    · have h := hr.2.2.2 i hi hni c (by rw [hnc]; exact hc)
      unfold visAt at h ⊢
      rwa [hnc] at h

end
end Sdp.WTower
