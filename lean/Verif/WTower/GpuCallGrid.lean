import Verif.WTower.GpuCallProps

/-!
# C109: gridding on the GPU, the whole call
-/

set_option linter.unusedSectionVars false

namespace Sdp.WTower
open Sdp.Fft Sdp.GridUtil Sdp.Race Finset

noncomputable section

/-- `w_subgrid_image += fft_buffer` on the device. -/
theorem addStep_ok (n : Nat) (t : MemType) (ht : ComplexType t) (pat img buf : Arr ℂ) (hi : img.size = n * n)
    (hb : buf.size = n * n) :
    Ends (runOn (accumCall true (devMem .complexDouble [(n : Int), n]) (devMem t [(n : Int), n]) none 0 .success
      (some buf) pat) img) fun w => w.1 = .success ∧ w.2.size = n * n ∧
        ∀ x, x < n → ∀ y, y < n → im n w.2 x y = im n img x y + im n buf x y := by
  have ha : Arrays true (devMem .complexDouble [(n : Int), n]) (devMem t [(n : Int), n]) (some buf) img n n
      (fun i j => i * n + j) fun i j => i * n + j :=
    ⟨Or.inr ⟨devMem_loc _ _, rfl⟩, by rw [devMem_loc, devMem_loc], devMem_data _ _, devMem_ro _ _,
      devMem_plane _ (Or.inl rfl) n _ (by omega),
      square_distinct n, devMem_plane t ht n _ (by rw [Option.getD_some]; omega), fun h => by simp at h⟩
  obtain ⟨h1, r, h2, h3, h4, -⟩ := C82_accum (pos2 := fun _ _ => 0) ha none pat 0 (Or.inl (devMem_type _ _))
    (by rw [devMem_type]; exact ht.imp id Or.inl) (by simp) (by simp)
  have hn := accumCall_nodup true (devMem .complexDouble [(n : Int), n]) (devMem t [(n : Int), n])
    none 0 .success (some buf) pat (devMem_loc _ _)
  refine (ends_run (Q := fun r' => r' = r) hn ⟨r, h2, rfl⟩).mono fun w hw => ⟨hw.1.trans h1, by rw [hw.2, h3, hi],
    fun x hx y hy => ?_⟩
  have := h4 x y hx hy
  simp only [Option.isSome_none, Bool.false_eq_true, if_false, mul_one] at this
  rw [hw.2]
  exact this

/-- `subgrid_image += w_subgrid_image * w_pattern ** e` on the device, for a complex image of any strides. -/
theorem addLast_ok (n : Nat) (pat W img : Arr ℂ) (mi : Mem) (pos : Nat → Nat → Nat) (ht : ComplexType mi.type)
    (hl : mi.location = .gpu) (hd : mi.data ≠ none ∧ mi.isReadOnly = false) (hm : Plane mi img.size n n pos)
    (hdis : Distinct n n pos) (e : Int) (hp : pat.size = n * n) (hw : W.size = n * n)
    (hz : ∀ x, x < n → ∀ y, y < n → im n pat x y ≠ 0) :
    Ends (runOn (accumCall true mi (devMem .complexDouble [(n : Int), n]) (some (devMem .complexDouble [(n : Int), n])) e
      .success (some W) pat) img) fun w => w.1 = .success ∧ w.2.size = img.size ∧
        (∀ x, x < n → ∀ y, y < n → w.2.get (pos x y) = img.get (pos x y) + im n W x y * im n pat x y ^ e) ∧
        ∀ k, (∀ x y, x < n → y < n → pos x y ≠ k) → w.2.get k = img.get k := by
  have ha : Arrays true mi (devMem .complexDouble [(n : Int), n]) (some W) img n n pos fun i j => i * n + j :=
    ⟨Or.inr ⟨hl, rfl⟩, by rw [hl, devMem_loc], hd.1, hd.2, hm, hdis,
      devMem_plane _ (Or.inl rfl) n _ (by rw [Option.getD_some]; omega), fun h => by simp at h⟩
  obtain ⟨h1, r, h2, h3, h4, h5⟩ := C82_accum (pos2 := fun i j => i * n + j) ha
    (some (devMem .complexDouble [(n : Int), n])) pat e ht (by rw [devMem_type]; exact Or.inl rfl) (by
      intro m hm'
      cases hm'
      exact ⟨devMem_type _ _, by rw [devMem_loc, hl], devMem_plane _ (Or.inl rfl) n _ (by omega)⟩)
    (fun _ i j hi hj => hz i hi j hj)
  have hn := accumCall_nodup true mi (devMem .complexDouble [(n : Int), n])
    (some (devMem .complexDouble [(n : Int), n])) e .success (some W) pat hl
  refine (ends_run (Q := fun r' => r' = r) hn ⟨r, h2, rfl⟩).mono fun w hw' => ⟨hw'.1.trans h1, by rw [hw'.2, h3],
    fun x hx y hy => ?_, fun k hk => ?_⟩
  · have := h4 x y hx hy
    simp only [Option.isSome_some, if_true] at this
    rw [hw'.2]
    exact this
  · rw [hw'.2]
    exact h5 k hk

variable {K : Type} [Field K] [LinearOrder K] [IsStrictOrderedRing K] [FloorRing K]

/-- The state as one of the CPU sweep. -/
def HBufs.cpu (pl : Plan K ℂ) (s : HBufs) : DBufs × Arr ℂ := (⟨s.T, s.img, ⟨pl.n * pl.n, fun _ => 0⟩⟩, s.buf)

theorem accumGpu_ok (pl : Plan K ℂ) (t : MemType) (ht : ComplexType t) (pat : Arr ℂ) (he : Env pl pat) (s : HBufs)
    (hst : s.st = .success) (h : GSize pl (s.cpu pl)) (i : Nat) (hi : i < pl.wSupport) :
    Ends (accumGpu pl t pat i s) fun s' => s'.st = .success ∧ GSize pl (s'.cpu pl) ∧ s'.T = s.T ∧
      ∀ x, x < pl.n → ∀ y, y < pl.n → im pl.n s'.img x y =
        im pl.n s.img x y / im pl.n pat x y + centred true pl.n pl.n (tower pl s.T i) x y := by
  unfold accumGpu
  refine ends_neg (by rw [hst]; simp) ?_
  refine ends_then (scaleStep_ok pl.n .complexDouble (Or.inl rfl) pat s.img he.sP h.sI he.ne) fun w hw => ?_
  have hb : pl.n * pl.n * i + pl.n * pl.n ≤ s.T.size := by
    have e : s.T.size = pl.wSupport * (pl.n * pl.n) := h.sT
    rw [e]
    have : (i + 1) * (pl.n * pl.n) ≤ pl.wSupport * (pl.n * pl.n) := Nat.mul_le_mul_right _ hi
    calc pl.n * pl.n * i + pl.n * pl.n = (i + 1) * (pl.n * pl.n) := by ring
      _ ≤ _ := this
  refine ends_then (Q := fun b => b.size = pl.n * pl.n ∧
      ∀ x, x < pl.n → ∀ y, y < pl.n → im pl.n b x y = tower pl s.T i x y) (ends_eq ?_) fun b hb => ?_
  · have hF : s.buf.size = pl.n * pl.n := h.sF
    unfold copyBlock
    rw [if_pos ⟨by rw [hF]; omega, hb⟩]
    refine ⟨_, rfl, hF, fun x hx y hy => ?_⟩
    have := im_lt hx hy
    rw [tower_block]
    unfold im
    simp only
    rw [if_pos ⟨by omega, by omega⟩]
    congr 1
  refine ends_then (gpuFft_ok pl.n he.even he.pos true b hb.1) fun r hr => ?_
  rw [hw.1]
  refine ends_then (addStep_ok pl.n t ht pat w.2 r hw.2.1 hr.1) fun w' hw' => ends_some ?_
  refine ⟨hw'.1, ⟨h.sT, hw'.2.1, rfl, hr.1⟩, rfl, fun x hx y hy => ?_⟩
  simp only
  rw [hw'.2.2 x hx y hy, hw.2.2 x hx y hy, hr.2 x hx y hy]
  congr 1
  exact centred_congr _ _ _ _ (fun a ha b' hb' => hb.2 a ha b' hb') x y

/-- `GInv` for the buffers on the device. -/
def GInvG (pl : Plan K ℂ) (pat : Arr ℂ) (G : Nat → Nat → Nat → Nat → ℂ) (s : HBufs) (j sh : Nat) : Prop :=
  s.st = .success ∧ GInv pl pat G (s.cpu pl) j sh

theorem gridMoveGpu_ok (pl : Plan K ℂ) (t : MemType) (ht : ComplexType t) (pat : Arr ℂ) (he : Env pl pat)
    (G : Nat → Nat → Nat → Nat → ℂ) (s : HBufs) (j : Nat) (h : GInvG pl pat G s (j + 1) j) :
    Ends (Then (accumGpu pl t pat 0 s) (dropGpu pl)) fun s' => GInvG pl pat G s' (j + 1) (j + 1) := by
  have hw := he.ws
  refine ends_then (accumGpu_ok pl t ht pat he s h.1 h.2.size 0 hw) fun a ha => ?_
  obtain ⟨a0, a2, a3, a4⟩ := ha
  unfold dropGpu
  refine ends_neg (by rw [a0]; simp) ?_
  refine ends_then (shiftLaunch_ok pl a.T a2.sT) fun T' hT' => ?_
  obtain ⟨T2, c1, c2, c3⟩ := clearLayer_ok pl T' (by rw [hT'.1]; exact a2.sT) (pl.wSupport - 1) (by omega)
  refine ends_then (Q := fun T => T = T2) (ends_eq ⟨T2, c1, rfl⟩) fun T hT => ?_
  subst hT
  refine ends_some ⟨a0, ⟨⟨(c2.trans hT'.1).trans a2.sT, a2.sI, a2.sW, a2.sF⟩, ?_, ?_⟩⟩
  · intro k hk x hx y hy
    show tower pl T k x y = _
    rw [c3 k hk x hx y hy]
    by_cases hl : k = pl.wSupport - 1
    · rw [if_pos hl]
      symm
      unfold lay
      apply sum_eq_zero
      intro t ht
      rw [mem_range] at ht
      rw [if_neg (by omega)]
    · have hlay : tower pl s.T (k + 1) x y = _ := h.2.layer (k + 1) (by omega) x hx y hy
      rw [if_neg hl, hT'.2 k (by omega) x hx y hy, a3, hlay]
      congr 1
      ring
  · intro x hx y hy
    have hc : im pl.n s.img x y = _ := h.2.cur x hx y hy
    show im pl.n a.img x y = _
    rw [a4 x hx y hy, hc, ← cur_step]
    congr 1
    exact centred_congr _ _ _ _ (fun a ha b hb => (h.2.layer 0 hw a ha b hb).trans (by rfl)) x y

/-- Rows of a launch, as a list. -/
def gpuRows (m : Nat) (startRow endRow : Int) : List Nat :=
  (List.range (min (rowLimits m startRow endRow).2 m - (rowLimits m startRow endRow).1)).map
    fun t => t + (rowLimits m startRow endRow).1

theorem mem_gpuRows (m : Nat) (startRow endRow : Int) (i : Nat) :
    i ∈ gpuRows m startRow endRow ↔ InRows m startRow endRow i := by
  rw [inRows_iff]
  unfold gpuRows
  rw [List.mem_map]
  constructor
  · rintro ⟨t, ht, rfl⟩
    have := List.mem_range.1 ht
    omega
  · intro h
    exact ⟨i - (rowLimits m startRow endRow).1, List.mem_range.2 (by omega), by omega⟩

theorem gpuRows_nodup (m : Nat) (startRow endRow : Int) : (gpuRows m startRow endRow).Nodup := by
  unfold gpuRows
  exact List.nodup_range.map fun a b h => by simpa using h

theorem parts_tower (pl : Plan K ℂ) {r : Arr ℝ} {U V : Arr ℂ} (hU : Parts r U) (hV : Parts r V)
    (hs : U.size = pl.wSupport * (pl.n * pl.n)) : V.size = U.size ∧ ∀ k, k < pl.wSupport → ∀ x, x < pl.n → ∀ y, y < pl.n →
      tower pl V k x y = tower pl U k x y := by
  have e : V.size = U.size := by
    have := hU.1
    have := hV.1
    omega
  refine ⟨e, fun k hk x hx y hy => ?_⟩
  rw [tower_block, tower_block]
  have hl := block_lt hk hx hy
  have h1 := hU.2 _ (show _ < U.size by rw [hs]; exact hl)
  have h2 := hV.2 _ (show _ < V.size by rw [e, hs]; exact hl)
  exact Complex.ext (h2.1.symm.trans h1.1) (h2.2.symm.trans h1.2)

/-- The real array behind a complex one. -/
theorem parts_exists (T : Arr ℂ) : ∃ a : Arr ℝ, Parts a T := by
  refine ⟨⟨2 * T.size, fun j => if j % 2 = 0 then (T.get (j / 2)).re else (T.get (j / 2)).im⟩, rfl, fun j _ => ?_⟩
  have h1 : 2 * j % 2 = 0 := by omega
  have h2 : 2 * j / 2 = j := by omega
  have h3 : ¬ (2 * j + 1) % 2 = 0 := by omega
  have h4 : (2 * j + 1) / 2 = j := by omega
  dsimp only
  rw [if_pos h1, if_neg h3, h2, h4]
  exact ⟨rfl, rfl⟩

theorem gridLaunched_ok (native : Bool) (pl : Plan K ℂ) (hm : pl.Made) (ob : Obs K) (p : Int) (m : Nat) (hm0 : 0 < m)
    (ho : ob.Made m) (startRow endRow : Int)
    (hfit : ∀ i, InRows m startRow endRow i → ∀ c, Used pl ob p i c → Fits pl ob p i c) (vis : Arr ℂ)
    (hv : vis.size = m * ob.numChan) (T : Arr ℂ) (hT : T.size = pl.wSupport * (pl.n * pl.n)) :
    Ends (gridLaunched native pl ob p vis m m (rowLimits m startRow endRow) T) fun U => U.size = T.size ∧
      ∀ k, k < pl.wSupport → ∀ x, x < pl.n → ∀ y, y < pl.n → tower pl U k x y = tower pl T k x y +
        gridSum pl ob p (gpuRows m startRow endRow) (visAt ob vis) k x y := by
  have key : ∀ a : Arr ℝ, Parts a T → ∃ (r : Arr ℝ) (U : Arr ℂ),
      (∀ t, gridThread pl ob p vis m (rowLimits m startRow endRow).1 (rowLimits m startRow endRow).2 t ≠ none) ∧
      AddYields native (fun t => (gridThread pl ob p vis m (rowLimits m startRow endRow).1
        (rowLimits m startRow endRow).2 t).getD []) (rowThreads m) a r ∧ Parts r U ∧ U.size = T.size ∧
      ∀ k, k < pl.wSupport → ∀ x, x < pl.n → ∀ y, y < pl.n → tower pl U k x y = tower pl T k x y +
        gridSum pl ob p (gpuRows m startRow endRow) (visAt ob vis) k x y := by
    intro a ha
    obtain ⟨ops, r, U, h1, h2, h3, h4, h5, -⟩ := C92_grid_partial pl hm ob p m ho T hT a ha
      (rowLimits m startRow endRow).1 (rowLimits m startRow endRow).2
      (fun i g1 g2 g3 => hfit i ((inRows_iff _ _ _ _).2 ⟨g1, g2, g3⟩)) vis hv native
    refine ⟨r, U, fun t => by rw [h1]; simp, ?_, h3, h4, h5⟩
    have : (fun t => (gridThread pl ob p vis m (rowLimits m startRow endRow).1
        (rowLimits m startRow endRow).2 t).getD []) = ops := by
      funext t
      rw [h1]
      rfl
    rw [this]
    exact h2
  constructor
  · rintro o (⟨t, -, h, -⟩ | ⟨hne, a, sched, ha, hs, h⟩)
    · obtain ⟨a, ha⟩ := parts_exists T
      obtain ⟨r, U, g, -⟩ := key a ha
      exact absurd h (g t)
    · obtain ⟨r, U, -, hy, hU, hUs, hUt⟩ := key a ha
      obtain ⟨s, e1, e2⟩ := hy.1 sched hs
      simp only at h
      rw [e1] at h
      rcases h with ⟨h, -⟩ | ⟨s', h, hd, V, hV, rfl⟩
      · cases h
      · cases h
        rw [e2 hd] at hV
        obtain ⟨v1, v2⟩ := parts_tower pl hU hV (hUs.trans hT)
        exact ⟨V, rfl, v1.trans hUs, fun k hk x hx y hy => by rw [v2 k hk x hx y hy, hUt k hk x hx y hy]⟩
  · obtain ⟨a, ha⟩ := parts_exists T
    obtain ⟨r, U, g, hy, hU, -⟩ := key a ha
    have hL : 0 < blocks m 256 * 256 := lt_of_lt_of_le hm0 (le_blocks m 256 (by omega))
    have hs1 : ∀ n : Nat, n % (blocks m 256 * 256) ∈ rowThreads m := fun n => List.mem_range.2 (Nat.mod_lt _ hL)
    obtain ⟨N, hN⟩ := hy.2 (fun n => n % (blocks m 256 * 256)) hs1
      (fun t ht n => ⟨t + (blocks m 256 * 256) * n, by
        have : n ≤ (blocks m 256 * 256) * n := Nat.le_mul_of_pos_left n hL
        omega, by
        rw [Nat.add_mul_mod_self_left]
        exact Nat.mod_eq_of_lt (List.mem_range.1 ht)⟩)
    obtain ⟨s, s1, s2, s3⟩ := hN N le_rfl
    refine ⟨some U, Or.inr ⟨fun t _ => g t, a, _, ha, ?_, Or.inr ⟨s, s1, s2, U, by rw [s3]; exact hU, rfl⟩⟩⟩
    intro t ht
    obtain ⟨n, -, rfl⟩ := List.mem_map.1 ht
    exact hs1 n

theorem gridLaunch_ok (native : Bool) (pl : Plan K ℂ) (hm : pl.Made) (ob : Obs K) (A : CallArgs) (m : Nat)
    (hA : A.Good m false) (ho : ob.Made m) (startRow endRow first : Int) (j : Nat)
    (hfit : ∀ i, InRows m startRow endRow i → ∀ c, Used pl ob (first + (j : Nat)) i c → Fits pl ob (first + (j : Nat)) i c)
    (pat vis : Arr ℂ) (hv : vis.size = m * ob.numChan) (G : Nat → Nat → Nat → Nat → ℂ)
    (hG : ∀ t k x y, G t k x y =
      gridSum pl ob (first + (t : Nat)) (gpuRows m startRow endRow) (visAt ob vis) k x y)
    (s : HBufs) (h : GInvG pl pat G s j j) :
    Ends (gridLaunch native pl ob (first + j) A (rowLimits m startRow endRow) vis s) fun s' =>
      GInvG pl pat G s' (j + 1) j := by
  unfold gridLaunch
  refine ends_neg (by rw [h.1]; simp) (ends_neg (by rw [hA.kernel_ok]; simp) ?_)
  rw [hA.urows, hA.vrows, Int.toNat_natCast]
  refine ends_then (gridLaunched_ok native pl hm ob (first + j) m hA.rows ho startRow endRow hfit vis hv s.T h.2.size.sT)
    fun U hU => ends_some ⟨h.1, ⟨⟨hU.1.trans h.2.size.sT, h.2.size.sI, h.2.size.sW, h.2.size.sF⟩, ?_, h.2.cur⟩⟩
  intro k hk x hx y hy
  have hl : tower pl s.T k x y = _ := h.2.layer k hk x hx y hy
  show tower pl U k x y = _
  rw [hU.2 k hk x hx y hy, hl]
  unfold lay
  rw [sum_range_succ]
  congr 1
  rw [if_pos (by omega), hG]
  congr 1
  omega

/-- The gridding sweep over `N + 1` planes. -/
theorem gridSweepGpu_ok (native : Bool) (pl : Plan K ℂ) (hm : pl.Made) (ob : Obs K) (A : CallArgs) (m : Nat)
    (hA : A.Good m false) (ho : ob.Made m) (pat vis : Arr ℂ) (he : Env pl pat) (startRow endRow first : Int) (N : Nat)
    (hfit : ∀ t, t < N + 1 → ∀ i, InRows m startRow endRow i → ∀ c, Used pl ob (first + (t : Nat)) i c →
      Fits pl ob (first + (t : Nat)) i c)
    (hv : vis.size = m * ob.numChan) (G : Nat → Nat → Nat → Nat → ℂ)
    (hG : ∀ t k x y, G t k x y =
      gridSum pl ob (first + (t : Nat)) (gpuRows m startRow endRow) (visAt ob vis) k x y)
    (F0 : Arr ℂ) (hF : F0.size = pl.n * pl.n) :
    Ends (EsFft.Steps (gridStepGpu native pl ob A pat vis first (rowLimits m startRow endRow)) (List.range (N + 1))
      ⟨.success, ⟨pl.wSupport * (pl.n * pl.n), fun _ => 0⟩, ⟨pl.n * pl.n, fun _ => 0⟩, F0⟩)
      fun s => GInvG pl pat G s (N + 1) N := by
  have main := EsFft.steps_ok (gridStepGpu native pl ob A pat vis first (rowLimits m startRow endRow))
    (fun n s => GInvG pl pat G s n (n - 1)) (N + 1) ?_
    ⟨.success, ⟨pl.wSupport * (pl.n * pl.n), fun _ => 0⟩, ⟨pl.n * pl.n, fun _ => 0⟩, F0⟩
    ⟨rfl, ⟨⟨rfl, rfl, rfl, hF⟩, fun k _ x _ y _ => by simp [lay, tower, HBufs.cpu],
      fun x _ y _ => by simp [im, HBufs.cpu]⟩⟩
  · simp only [Nat.add_sub_cancel] at main
    exact main
  · intro n hn s hs
    show Ends _ _
    unfold gridStepGpu
    refine ends_neg (by rw [hs.1]; simp) ?_
    rw [Nat.add_sub_cancel]
    refine ends_then (Q := fun s' => GInvG pl pat G s' n n) ?_ fun s' hs' =>
      gridLaunch_ok native pl hm ob A m hA ho startRow endRow first n (hfit n hn) pat vis hv G hG s' hs'
    cases n with
    | zero => exact ends_pos rfl (ends_some hs)
    | succ n =>
      refine ends_neg (by omega) ?_
      exact gridMoveGpu_ok pl A.vis.type hA.complex pat he G s n hs

/-- Accumulating the remaining layers. -/
theorem gridFinishGpu_ok (pl : Plan K ℂ) (t : MemType) (ht : ComplexType t) (pat : Arr ℂ) (he : Env pl pat)
    (G : Nat → Nat → Nat → Nat → ℂ) (s : HBufs) (N : Nat) (h : GInvG pl pat G s (N + 1) N) :
    Ends (EsFft.Steps (accumGpu pl t pat) (List.range pl.wSupport) s) fun r => r.st = .success ∧
      r.img.size = pl.n * pl.n ∧
      ∀ x, x < pl.n → ∀ y, y < pl.n → im pl.n r.img x y =
        ∑ q ∈ range (N + pl.wSupport), centred true pl.n pl.n (lay pl.wSupport G (N + 1) q) x y /
          im pl.n pat x y ^ (N + pl.wSupport - 1 - q) := by
  have main := EsFft.steps_ok (accumGpu pl t pat)
    (fun n r => r.st = .success ∧ GSize pl (r.cpu pl) ∧ r.T = s.T ∧
      ∀ x, x < pl.n → ∀ y, y < pl.n → im pl.n r.img x y =
        ∑ q ∈ range (N + n), centred true pl.n pl.n (lay pl.wSupport G (N + 1) q) x y /
          im pl.n pat x y ^ (N + n - 1 - q)) pl.wSupport ?_ s ⟨h.1, h.2.size, rfl, fun x hx y hy => ?_⟩
  · exact Ends.mono main fun r hr => ⟨hr.1, hr.2.1.sI, hr.2.2.2⟩
  · intro n hn r ⟨r1, r2, r3, r4⟩
    refine Ends.mono (accumGpu_ok pl t ht pat he r r1 r2 n hn) fun r' ⟨a1, a2, a3, a4⟩ =>
      ⟨a1, a2, a3.trans r3, fun x hx y hy => ?_⟩
    rw [a4 x hx y hy, r4 x hx y hy, r3, ← Nat.add_assoc, ← cur_step]
    congr 1
    exact centred_congr _ _ _ _ (fun a ha b hb => h.2.layer n hn a ha b hb) x y
  · have hc : im pl.n s.img x y = _ := h.2.cur x hx y hy
    rw [hc]
    refine sum_congr rfl fun q hq => ?_
    rw [mem_range] at hq
    congr 1
    exact centred_congr _ _ _ _ (fun a _ b _ => (lay_done _ _ (by omega) a b).symm) x y

/-- **C109, gridding.**  `sdp_gridder_wtower_uvw_grid` with all arrays in device memory, for every schedule of the
threads of every launch and both kinds of atomic addition: it ends, with success; the values gridded on layer `k` of
plane `p` are transformed back, multiplied by the `(p + k - (support - support/2))`-th power of the w pattern and added
to the sub-grid image, as `C42_grid` says for the CPU.  The image is complex and may have any strides; the rest of its
memory is unchanged. -/
theorem C109_grid (native : Bool) (pl : Plan K ℂ) (ob : Obs K) (A : CallArgs) (m : Nat) (hA : A.Good m false)
    (pat vis img : Arr ℂ) (he : Env pl pat) (pos : Nat → Nat → Nat) (hI : Plane A.img img.size pl.n pl.n pos)
    (hdis : Distinct pl.n pl.n pos) (hti : ComplexType A.img.type)
    (hwr : A.img.data ≠ none ∧ A.img.isReadOnly = false)
    (startRow endRow : Int) (F0 : Arr ℂ) (hF : F0.size = pl.n * pl.n) (hv : vis.size = m * ob.numChan)
    (b : MinMax K × MinMax K × MinMax K) (fl : Int × Int) (hle : fl.1 ≤ fl.2)
    (hb : uvwBounds (fixFreq ob).c0 (fixFreq ob).f0 (fixFreq ob).df (fixFreq ob).uvw m
      (fixFreq ob).startChs (fixFreq ob).endChs = some b)
    (hfl : planeRange pl.wStep (fixFreq ob).offW b.2.2 = some fl)
    (hm : pl.Made) (ho : (fixFreq ob).Made m)
    (hfit : ∀ p, fl.1 ≤ p → p ≤ fl.2 → ∀ i, InRows m startRow endRow i → ∀ c, Used pl (fixFreq ob) p i c →
      Fits pl (fixFreq ob) p i c) :
    (∃ o, gridGpu true native pl ob A pat vis startRow endRow .success F0 img o) ∧
    ∀ o, gridGpu true native pl ob A pat vis startRow endRow .success F0 img o →
      ∃ r, o = some (.success, r, 1 + fl.2 - fl.1) ∧ r.size = img.size ∧
      (∀ x, x < pl.n → ∀ y, y < pl.n → r.get (pos x y) = img.get (pos x y) +
        ∑ p ∈ Finset.Icc fl.1 fl.2, ∑ k ∈ range pl.wSupport,
          im pl.n pat x y ^ (p + k - ((pl.wSupport - pl.wSupport / 2 : Nat) : Int)) *
            centred true pl.n pl.n (gridSum pl (fixFreq ob) p (gpuRows m startRow endRow)
              (visAt ob vis) k) x y) ∧
      ∀ k, (∀ x y, x < pl.n → y < pl.n → pos x y ≠ k) → r.get k = img.get k := by
  have hnc : (fixFreq ob).numChan = ob.numChan := by unfold fixFreq; split_ifs <;> rfl
  have hva : visAt (fixFreq ob) vis = visAt ob vis := by
    funext i c; unfold visAt; rw [hnc]
  obtain ⟨N, hN⟩ : ∃ N : Nat, fl.2 = fl.1 + N := ⟨(fl.2 - fl.1).toNat, by omega⟩
  have hN1 : (1 + fl.2 - fl.1).toNat = N + 1 := by omega
  suffices hE : Ends (gridGpu true native pl ob A pat vis startRow endRow .success F0 img) fun r =>
      r.1 = .success ∧ r.2.2 = 1 + fl.2 - fl.1 ∧ r.2.1.size = img.size ∧
      (∀ x, x < pl.n → ∀ y, y < pl.n → r.2.1.get (pos x y) = img.get (pos x y) +
        ∑ p ∈ Finset.Icc fl.1 fl.2, ∑ k ∈ range pl.wSupport,
          im pl.n pat x y ^ (p + k - ((pl.wSupport - pl.wSupport / 2 : Nat) : Int)) *
            centred true pl.n pl.n (gridSum pl (fixFreq ob) p (gpuRows m startRow endRow)
              (visAt ob vis) k) x y) ∧
      ∀ k, (∀ x y, x < pl.n → y < pl.n → pos x y ≠ k) → r.2.1.get k = img.get k by
    refine ⟨hE.2, fun o ho' => ?_⟩
    obtain ⟨⟨a1, a2, a3⟩, rfl, h1, h2, h3⟩ := hE.1 o ho'
    simp only at h1 h2 h3
    subst h1
    subst h2
    exact ⟨a2, rfl, h3⟩
  unfold gridGpu
  refine ends_neg (by simp) (ends_neg (by rw [hA.joined]; simp) (ends_neg (by simp) ?_))
  rw [hA.urows, Int.toNat_natCast]
  refine ends_then (gpuBounds_ok pl (fixFreq ob) A m false hA ho b hb) fun b' hb' => ?_
  subst hb'
  refine ends_then (Q := fun f => f = fl) (ends_eq ⟨fl, hfl, rfl⟩) fun fl' hfl' => ?_
  subst hfl'
  rw [hN1]
  refine ends_then (gridSweepGpu_ok native pl hm (fixFreq ob) A m hA ho pat vis he startRow endRow fl'.1 N
    (fun t ht i hi c => hfit _ (by omega) (by omega) i hi c) (by rw [hv, hnc])
    (fun t k x y => gridSum pl (fixFreq ob) (fl'.1 + (t : Nat)) (gpuRows m startRow endRow)
      (visAt (fixFreq ob) vis) k x y) (fun _ _ _ _ => rfl) F0 hF) fun s hs => ?_
  refine ends_then (gridFinishGpu_ok pl A.vis.type hA.complex pat he _ s N hs) fun s2 hs2 => ?_
  rw [hs2.1]
  refine ends_then (addLast_ok pl.n pat s2.img img A.img pos hti hA.iloc hwr hI hdis
    (fl'.2 + ((pl.wSupport / 2 : Nat) : Int) - 1) he.sP hs2.2.1 he.ne) fun r hr =>
    ends_some ⟨hr.1, rfl, hr.2.1, fun x hx y hy => ?_, hr.2.2.2⟩
  rw [hr.2.2.1 x hx y hy, hs2.2.2 x hx y hy]
  congr 1
  have hP := he.ne x hx y hy
  generalize im pl.n pat x y = P at hP ⊢
  rw [sum_mul]
  have hw := he.ws
  have e1 : ∀ s ∈ range (N + pl.wSupport), centred true pl.n pl.n (lay pl.wSupport
        (fun t k x y => gridSum pl (fixFreq ob) (fl'.1 + (t : Nat)) (gpuRows m startRow endRow)
          (visAt (fixFreq ob) vis) k x y) (N + 1) s) x y / P ^ (N + pl.wSupport - 1 - s) *
        P ^ (fl'.2 + ((pl.wSupport / 2 : Nat) : Int) - 1) =
      P ^ (fl'.1 + s - ((pl.wSupport - pl.wSupport / 2 : Nat) : Int)) *
        (∑ t ∈ range (N + 1), if t ≤ s ∧ s < t + pl.wSupport then
          centred true pl.n pl.n (gridSum pl (fixFreq ob) (fl'.1 + (t : Nat))
            (gpuRows m startRow endRow) (visAt ob vis) (s - t)) x y else 0) := by
    intro s hs
    rw [mem_range] at hs
    rw [centred_lay, hva]
    rw [mul_comm (P ^ (_ : Int)) (∑ _ ∈ _, _), div_mul_eq_mul_div, mul_div_assoc]
    congr 1
    rw [← zpow_natCast, ← zpow_sub₀ hP]
    congr 1
    omega
  rw [sum_congr rfl e1, regroup pl.wSupport N
    (fun s => P ^ (fl'.1 + (s : Int) - ((pl.wSupport - pl.wSupport / 2 : Nat) : Int)))
    (fun t k => centred true pl.n pl.n (gridSum pl (fixFreq ob) (fl'.1 + (t : Nat))
            (gpuRows m startRow endRow) (visAt ob vis) k) x y)]
  refine sum_bij (fun (t : Nat) _ => fl'.1 + (t : Int)) ?_ ?_ ?_ ?_
  · intro t ht'
    rw [mem_range] at ht'
    rw [mem_Icc]
    omega
  · intro a _ b _ h
    omega
  · intro p hp
    rw [mem_Icc] at hp
    exact ⟨(p - fl'.1).toNat, by rw [mem_range]; omega, by omega⟩
  · intro t _
    refine sum_congr rfl fun k _ => ?_
    congr 2
    push_cast
    ring

end
end Sdp.WTower
