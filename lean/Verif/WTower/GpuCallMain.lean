import Verif.WTower.GpuCallGrid
import Verif.WTower.Whole

/-!
# C109: w-towers on the GPU, agreement with the CPU, adjointness, refused calls
-/

set_option linter.unusedSectionVars false

namespace Sdp.WTower
open Sdp.Fft Sdp.GridUtil Sdp.Race Finset

noncomputable section

variable {K : Type} [Field K] [LinearOrder K] [IsStrictOrderedRing K] [FloorRing K]

/-- The rows asked for exist. -/
def RowsExist (m : Nat) (startRow endRow : Int) : Prop := startRow < 0 ∨ endRow < 0 ∨ endRow ≤ m

theorem inRows_rowList {m : Nat} {startRow endRow : Int} (h : RowsExist m startRow endRow) (i : Nat) :
    i ∈ rowList m startRow endRow ↔ InRows m startRow endRow i := by
  rw [(C42_rows m startRow endRow).2 i]
  unfold InRows
  unfold RowsExist at h
  omega

theorem rowList_perm {m : Nat} {startRow endRow : Int} (h : RowsExist m startRow endRow) :
    (gpuRows m startRow endRow).Perm (rowList m startRow endRow) :=
  (List.perm_ext_iff_of_nodup (gpuRows_nodup _ _ _) (C42_rows m startRow endRow).1).2 fun i => by
    rw [mem_gpuRows, inRows_rowList h]

theorem call_rows {pl : Plan K ℂ} {ob : Obs K} {p : Int} {m : Nat} {startRow endRow : Int}
    (h : RowsExist m startRow endRow) (hm : pl.Made) (ho : ob.Made m)
    (hfit : ∀ i, InRows m startRow endRow i → ∀ c, Used pl ob p i c → Fits pl ob p i c) :
    Call pl ob p m (rowList m startRow endRow) :=
  ⟨hm, ho, fun i hi => ((inRows_rowList h i).1 hi).1, (C42_rows m startRow endRow).1,
    fun i hi => hfit i ((inRows_rowList h i).1 hi)⟩

/-- **C109, agreement with the CPU, degridding.**  Given the same plan, visibilities and image values, every outcome of
the call in device memory has the visibilities and the plane count of the call in CPU memory. -/
theorem C109_agree_degrid (pl : Plan K ℂ) (ob : Obs K) (A : CallArgs) (m : Nat) (hA : A.Good m true)
    (pat img : Arr ℂ) (he : Env pl pat) (pos : Nat → Nat → Nat) (hI : Plane A.img img.size pl.n pl.n pos)
    (hti : A.vis.type = .complexDouble ∧ (A.img.type = .double ∨ A.img.type = .complexDouble) ∨
      A.vis.type = .complexFloat ∧ (A.img.type = .float ∨ A.img.type = .complexFloat))
    (startRow endRow : Int) (hrow : RowsExist m startRow endRow) (T0 W0 T1 W1 tmp : Arr ℂ)
    (hT : T0.size = pl.wSupport * (pl.n * pl.n)) (hW : W0.size = pl.n * pl.n)
    (hT1 : T1.size = pl.wSupport * (pl.n * pl.n)) (hW1 : W1.size = pl.n * pl.n) (ht : tmp.size = pl.n * pl.n)
    (S0 S : Nat → Sched) (hS0 : ∀ j, (S0 j).Ok pl.n (rowList m startRow endRow))
    (hS : ∀ j, (S j).Ok pl.n (rowList m startRow endRow))
    (cpuImg : Arr ℂ) (hci : cpuImg.size = pl.n * pl.n)
    (hsame : ∀ x, x < pl.n → ∀ y, y < pl.n → cpuImg.get (x * pl.n + y) = img.get (pos x y))
    (vis : Arr ℂ) (hv : vis.size = m * ob.numChan)
    (b : MinMax K × MinMax K × MinMax K) (fl : Int × Int)
    (hb : uvwBounds (fixFreq ob).c0 (fixFreq ob).f0 (fixFreq ob).df (fixFreq ob).uvw m
      (fixFreq ob).startChs (fixFreq ob).endChs = some b)
    (hfl : planeRange pl.wStep (fixFreq ob).offW b.2.2 = some fl)
    (hm : pl.Made) (ho : (fixFreq ob).Made m)
    (hfit : ∀ p, fl.1 ≤ p → p ≤ fl.2 → ∀ i, InRows m startRow endRow i → ∀ c, Used pl (fixFreq ob) p i c →
      Fits pl (fixFreq ob) p i c) :
    ∃ D n, degridCall pl ob m pat cpuImg S0 S T1 W1 tmp vis = some (D, n) ∧
      (∃ o, degridGpu true pl ob A pat img startRow endRow .success T0 W0 vis o) ∧
      ∀ o, degridGpu true pl ob A pat img startRow endRow .success T0 W0 vis o →
        ∃ r, o = some (.success, r, n) ∧ r.size = D.size ∧ ∀ k, k < D.size → r.get k = D.get k := by
  obtain ⟨D, d1, d2, d3, d4⟩ := C42_degrid pl ob m pat cpuImg he hci (rowList m startRow endRow) S0 S hS0 hS T1 W1 tmp
    hT1 hW1 ht vis hv b fl hb hfl fun p h1 h2 => call_rows hrow hm ho (hfit p h1 h2)
  obtain ⟨g1, g2⟩ := C109_degrid pl ob A m hA pat img he pos hI hti startRow endRow T0 W0 hT hW vis hv b fl hb hfl hm ho
    hfit
  refine ⟨D, 1 + fl.2 - fl.1, d1, g1, fun o h => ?_⟩
  obtain ⟨r, r1, r2, r3, r4⟩ := g2 o h
  have hpg : ∀ q x y, planeGrid pl.n (im pl.n pat) (fun x y => img.get (pos x y)) q x y =
      planeGrid pl.n (im pl.n pat) (im pl.n cpuImg) q x y := by
    intro q x y
    unfold planeGrid
    exact centred_congr _ _ _ _ (fun a ha b hb => by
      have : im pl.n cpuImg a b = _ := hsame a ha b hb
      rw [this]) x y
  have hall : ∀ i, i < m → ∀ c, c < ob.numChan → visAt ob r i c = visAt ob D i c := by
    intro i hi c hc
    by_cases hr : InRows m startRow endRow i
    · rw [r3 i hr c hc, d3 i ((inRows_rowList hrow i).2 hr) c hc]
      simp only [hpg]
    · rw [r4 i hi hr c hc, d4 i hi (fun h => hr ((inRows_rowList hrow i).1 h)) c hc]
  refine ⟨r, r1, by rw [r2, d2], fun k hk => ?_⟩
  rw [d2, hv] at hk
  have hn : 0 < ob.numChan := by
    rcases Nat.eq_zero_or_pos ob.numChan with h0 | h0
    · rw [h0] at hk; omega
    · exact h0
  have h1 : k / ob.numChan < m := (Nat.div_lt_iff_lt_mul hn).2 hk
  have := hall _ h1 _ (Nat.mod_lt k hn)
  unfold visAt at this
  rw [Nat.mul_comm, Nat.div_add_mod] at this
  exact this

/-- **C109, agreement with the CPU, gridding.** -/
theorem C109_agree_grid (native : Bool) (pl : Plan K ℂ) (ob : Obs K) (A : CallArgs) (m : Nat) (hA : A.Good m false)
    (pat vis img : Arr ℂ) (he : Env pl pat) (pos : Nat → Nat → Nat) (hI : Plane A.img img.size pl.n pl.n pos)
    (hdis : Distinct pl.n pl.n pos) (hti : ComplexType A.img.type)
    (hwr : A.img.data ≠ none ∧ A.img.isReadOnly = false)
    (startRow endRow : Int) (hrow : RowsExist m startRow endRow) (F0 F1 tmp : Arr ℂ)
    (hF : F0.size = pl.n * pl.n) (hF1 : F1.size = pl.n * pl.n) (ht : tmp.size = pl.n * pl.n)
    (S S1 : Nat → Sched) (hS : ∀ j, (S j).Ok pl.n (rowList m startRow endRow))
    (hS1 : ∀ j, (S1 j).Ok pl.n (rowList m startRow endRow))
    (cpuImg : Arr ℂ) (hci : cpuImg.size = pl.n * pl.n)
    (hsame : ∀ x, x < pl.n → ∀ y, y < pl.n → cpuImg.get (x * pl.n + y) = img.get (pos x y))
    (hv : vis.size = m * ob.numChan)
    (b : MinMax K × MinMax K × MinMax K) (fl : Int × Int) (hle : fl.1 ≤ fl.2)
    (hb : uvwBounds (fixFreq ob).c0 (fixFreq ob).f0 (fixFreq ob).df (fixFreq ob).uvw m
      (fixFreq ob).startChs (fixFreq ob).endChs = some b)
    (hfl : planeRange pl.wStep (fixFreq ob).offW b.2.2 = some fl)
    (hm : pl.Made) (ho : (fixFreq ob).Made m)
    (hfit : ∀ p, fl.1 ≤ p → p ≤ fl.2 → ∀ i, InRows m startRow endRow i → ∀ c, Used pl (fixFreq ob) p i c →
      Fits pl (fixFreq ob) p i c) :
    ∃ G n, gridCall pl ob m pat vis startRow endRow S S1 F1 tmp cpuImg = some (G, n) ∧
      (∃ o, gridGpu true native pl ob A pat vis startRow endRow .success F0 img o) ∧
      ∀ o, gridGpu true native pl ob A pat vis startRow endRow .success F0 img o →
        ∃ r, o = some (.success, r, n) ∧ r.size = img.size ∧
          (∀ x, x < pl.n → ∀ y, y < pl.n → r.get (pos x y) = G.get (x * pl.n + y)) ∧
          ∀ k, (∀ x y, x < pl.n → y < pl.n → pos x y ≠ k) → r.get k = img.get k := by
  obtain ⟨G, g1, -, g3⟩ := C42_grid pl ob m pat vis cpuImg he hci startRow endRow S S1 hS hS1 F1 tmp hF1 ht hv b fl hle
    hb hfl fun p h1 h2 => call_rows hrow hm ho (hfit p h1 h2)
  obtain ⟨d1, d2⟩ := C109_grid native pl ob A m hA pat vis img he pos hI hdis hti hwr startRow endRow F0 hF hv b fl hle
    hb hfl hm ho hfit
  refine ⟨G, 1 + fl.2 - fl.1, g1, d1, fun o h => ?_⟩
  obtain ⟨r, r1, r2, r3, r4⟩ := d2 o h
  refine ⟨r, r1, r2, fun x hx y hy => ?_, r4⟩
  have hg : G.get (x * pl.n + y) = im pl.n G x y := rfl
  have hs : im pl.n cpuImg x y = img.get (pos x y) := hsame x hx y hy
  have hp : ∀ p k, gridSum pl (fixFreq ob) p (gpuRows m startRow endRow) (visAt ob vis) k =
      gridSum pl (fixFreq ob) p (rowList m startRow endRow) (visAt ob vis) k := by
    intro p k
    funext a b
    exact gridSum_congr_rows pl (fixFreq ob) p _ _ (rowList_perm hrow) (visAt ob vis) k a b
  rw [hg, r3 x hx y hy, g3 x hx y hy, hs]
  simp only [hp]

/-- Everything in order. -/
def serial (n : Nat) (rows : List Nat) : Sched := ⟨List.range n, List.range n, nest2 n n, rows⟩

theorem serial_ok (n : Nat) (rows : List Nat) : (serial n rows).Ok n rows := ⟨.rfl, .rfl, .rfl, .rfl⟩

/-- **C109, adjointness.**  With real kernels and a unimodular w pattern, for any support in w: degridding an image
into zeroed visibilities and gridding visibilities into a zeroed image, both on the device and both for all rows, are
adjoint up to one factor of the w pattern if the support is odd. -/
theorem C109_adjoint_general (native : Bool) (pl : Plan K ℂ)
    (kuv : ∀ j, star (pl.uvKernel.get j) = pl.uvKernel.get j)
    (kw : ∀ j, star (pl.wKernel.get j) = pl.wKernel.get j) (ob : Obs K) (A B : CallArgs) (m : Nat)
    (hA : A.Good m true) (hB : B.Good m false) (pat img v : Arr ℂ) (he : Env pl pat)
    (hu : ∀ x, x < pl.n → ∀ y, y < pl.n → star (im pl.n pat x y) * im pl.n pat x y = 1)
    (pos pos0 : Nat → Nat → Nat) (hI : Plane A.img img.size pl.n pl.n pos)
    (hti : A.vis.type = .complexDouble ∧ (A.img.type = .double ∨ A.img.type = .complexDouble) ∨
      A.vis.type = .complexFloat ∧ (A.img.type = .float ∨ A.img.type = .complexFloat))
    (T0 W0 F0 v0 i0 : Arr ℂ) (hI0 : Plane B.img i0.size pl.n pl.n pos0)
    (hdis : Distinct pl.n pl.n pos0) (htb : ComplexType B.img.type)
    (hwr : B.img.data ≠ none ∧ B.img.isReadOnly = false)
    (hT : T0.size = pl.wSupport * (pl.n * pl.n)) (hW : W0.size = pl.n * pl.n) (hF : F0.size = pl.n * pl.n)
    (hv : v.size = m * ob.numChan) (hv0 : v0.size = m * ob.numChan)
    (zv : ∀ j, v0.get j = 0) (zi : ∀ j, i0.get j = 0)
    (b : MinMax K × MinMax K × MinMax K) (fl : Int × Int) (hle : fl.1 ≤ fl.2)
    (hp : Planes pl (fixFreq ob) m b fl) (hm : pl.Made) (ho : (fixFreq ob).Made m)
    (hfit : ∀ p, fl.1 ≤ p → p ≤ fl.2 → ∀ i, i < m → ∀ c, Used pl (fixFreq ob) p i c → Fits pl (fixFreq ob) p i c) :
    (∃ o o', degridGpu true pl ob A pat img (-1) (-1) .success T0 W0 v0 o ∧
      gridGpu true native pl ob B pat v (-1) (-1) .success F0 i0 o') ∧
    ∀ o o', degridGpu true pl ob A pat img (-1) (-1) .success T0 W0 v0 o →
      gridGpu true native pl ob B pat v (-1) (-1) .success F0 i0 o' →
      ∃ D G n, o = some (.success, D, n) ∧ o' = some (.success, G, n) ∧
        (∑ i ∈ range m, ∑ c ∈ range ob.numChan,
          star (D.get (i * ob.numChan + c)) * v.get (i * ob.numChan + c)) =
        ∑ x ∈ range pl.n, ∑ y ∈ range pl.n, star (img.get (pos x y)) *
          (pat.get (x * pl.n + y) ^ (pl.wSupport % 2) * G.get (pos0 x y)) := by
  have hrow : RowsExist m (-1) (-1) := Or.inl (by omega)
  have hfit' : ∀ p, fl.1 ≤ p → p ≤ fl.2 → ∀ i, InRows m (-1) (-1) i → ∀ c, Used pl (fixFreq ob) p i c →
      Fits pl (fixFreq ob) p i c := fun p h1 h2 i hi => hfit p h1 h2 i hi.1
  have hS : ∀ j : Nat, ((fun _ => serial pl.n (rowList m (-1) (-1))) j : Sched).Ok pl.n (rowList m (-1) (-1)) :=
    fun _ => serial_ok _ _
  have ip : ∀ x, x < pl.n → ∀ y, y < pl.n → (packed pl.n pos img).get (x * pl.n + y) = img.get (pos x y) :=
    fun x _ y hy => im_packed pl.n pos img x y hy
  have ip0 : ∀ x, x < pl.n → ∀ y, y < pl.n → (packed pl.n pos0 i0).get (x * pl.n + y) = i0.get (pos0 x y) :=
    fun x _ y hy => im_packed pl.n pos0 i0 x y hy
  obtain ⟨D, G, c1, c2, c3⟩ := C68_general pl kuv kw ob m pat (packed pl.n pos img) v he hu rfl hv _ _ _ _ hS hS hS hS
    T0 W0 W0 F0 F0 v0 (packed pl.n pos0 i0) hT hW hW hF hF hv0 rfl zv (fun _ => zi _) b fl hle hp
    fun p h1 h2 => call_rows hrow hm ho (hfit' p h1 h2)
  obtain ⟨D', n, a1, a2, a3⟩ := C109_agree_degrid pl ob A m hA pat img he pos hI hti (-1) (-1) hrow T0 W0 T0 W0 W0 hT hW
    hT hW hW _ _ hS hS (packed pl.n pos img) rfl ip v0 hv0 b fl hp.1 hp.2 hm ho hfit'
  obtain ⟨G', n', b1, b2, b3⟩ := C109_agree_grid native pl ob B m hB pat v i0 he pos0 hI0 hdis htb hwr (-1) (-1) hrow F0
    F0 F0 hF hF hF _ _ hS hS (packed pl.n pos0 i0) rfl ip0 hv b fl hle hp.1 hp.2 hm ho hfit'
  rw [c1] at a1
  rw [c2] at b1
  cases a1
  cases b1
  refine ⟨⟨a2.choose, b2.choose, a2.choose_spec, b2.choose_spec⟩, fun o o' h h' => ?_⟩
  obtain ⟨r, r1, r2, r3⟩ := a3 o h
  obtain ⟨g, g1, -, g3, -⟩ := b3 o' h'
  refine ⟨r, g, _, r1, g1, ?_⟩
  have hds : D.size = m * ob.numChan := by
    obtain ⟨D2, d1, d2, -⟩ := C42_degrid pl ob m pat (packed pl.n pos img) he rfl (rowList m (-1) (-1)) _ _ hS hS T0 W0 W0
      hT hW hW v0 hv0 b fl hp.1 hp.2 fun p h1 h2 => call_rows hrow hm ho (hfit' p h1 h2)
    rw [c1] at d1
    cases d1
    rw [d2, hv0]
  have e1 : ∀ i ∈ range m, ∀ c ∈ range ob.numChan, star (r.get (i * ob.numChan + c)) * v.get (i * ob.numChan + c) =
      star (visAt ob D i c) * visAt ob v i c := by
    intro i hi c hc
    have hl : i * ob.numChan + c < m * ob.numChan := by
      rw [Nat.mul_comm i]
      exact flat_lt (mem_range.1 hi) (mem_range.1 hc)
    rw [r3 _ (by rw [hds]; exact hl)]
    rfl
  rw [sum_congr rfl fun i hi => sum_congr rfl (e1 i hi), c3]
  refine sum_congr rfl fun x hx => sum_congr rfl fun y hy => ?_
  rw [im_packed _ _ _ _ _ (mem_range.1 hy), g3 x (mem_range.1 hx) y (mem_range.1 hy)]
  rfl

/-- **C109, adjointness (partial).**  For an even support in w the two calls are adjoint. -/
theorem C109_adjoint_partial (native : Bool) (pl : Plan K ℂ) (hev : pl.wSupport % 2 = 0)
    (kuv : ∀ j, star (pl.uvKernel.get j) = pl.uvKernel.get j)
    (kw : ∀ j, star (pl.wKernel.get j) = pl.wKernel.get j) (ob : Obs K) (A B : CallArgs) (m : Nat)
    (hA : A.Good m true) (hB : B.Good m false) (pat img v : Arr ℂ) (he : Env pl pat)
    (hu : ∀ x, x < pl.n → ∀ y, y < pl.n → star (im pl.n pat x y) * im pl.n pat x y = 1)
    (pos pos0 : Nat → Nat → Nat) (hI : Plane A.img img.size pl.n pl.n pos)
    (hti : A.vis.type = .complexDouble ∧ (A.img.type = .double ∨ A.img.type = .complexDouble) ∨
      A.vis.type = .complexFloat ∧ (A.img.type = .float ∨ A.img.type = .complexFloat))
    (T0 W0 F0 v0 i0 : Arr ℂ) (hI0 : Plane B.img i0.size pl.n pl.n pos0)
    (hdis : Distinct pl.n pl.n pos0) (htb : ComplexType B.img.type)
    (hwr : B.img.data ≠ none ∧ B.img.isReadOnly = false)
    (hT : T0.size = pl.wSupport * (pl.n * pl.n)) (hW : W0.size = pl.n * pl.n) (hF : F0.size = pl.n * pl.n)
    (hv : v.size = m * ob.numChan) (hv0 : v0.size = m * ob.numChan)
    (zv : ∀ j, v0.get j = 0) (zi : ∀ j, i0.get j = 0)
    (b : MinMax K × MinMax K × MinMax K) (fl : Int × Int) (hle : fl.1 ≤ fl.2)
    (hp : Planes pl (fixFreq ob) m b fl) (hm : pl.Made) (ho : (fixFreq ob).Made m)
    (hfit : ∀ p, fl.1 ≤ p → p ≤ fl.2 → ∀ i, i < m → ∀ c, Used pl (fixFreq ob) p i c → Fits pl (fixFreq ob) p i c) :
    ∀ o o', degridGpu true pl ob A pat img (-1) (-1) .success T0 W0 v0 o →
      gridGpu true native pl ob B pat v (-1) (-1) .success F0 i0 o' →
      ∃ D G n, o = some (.success, D, n) ∧ o' = some (.success, G, n) ∧
        (∑ i ∈ range m, ∑ c ∈ range ob.numChan,
          star (D.get (i * ob.numChan + c)) * v.get (i * ob.numChan + c)) =
        ∑ x ∈ range pl.n, ∑ y ∈ range pl.n, star (img.get (pos x y)) * G.get (pos0 x y) := by
  intro o o' h h'
  obtain ⟨D, G, n, e1, e2, e3⟩ := (C109_adjoint_general native pl kuv kw ob A B m hA hB pat img v he hu pos pos0 hI hti
    T0 W0 F0 v0 i0 hI0 hdis htb hwr hT hW hF hv hv0 zv zi b fl hle hp hm ho hfit).2 o o' h h'
  rw [hev] at e3
  simp only [pow_zero, one_mul] at e3
  exact ⟨D, G, n, e1, e2, e3⟩

/-- **C109, refused calls.**  If an error is already set, or an array is not where the visibilities are, or the library
has no CUDA, the call ends with an error and does not touch the caller's arrays. -/
theorem C109_refused (cuda native : Bool) (pl : Plan K ℂ) (ob : Obs K) (A : CallArgs) (pat img vis : Arr ℂ)
    (startRow endRow : Int) (status : Status) (T0 W0 F0 : Arr ℂ)
    (h : status ≠ .success ∨ A.img.location ≠ A.vis.location ∨ A.uvw.location ≠ A.vis.location ∨
      A.startChs.location ≠ A.vis.location ∨ A.endChs.location ≠ A.vis.location ∨ cuda = false) :
    (∃ s n, s ≠ .success ∧ (status ≠ .success → s = status) ∧
      ∀ o, degridGpu cuda pl ob A pat img startRow endRow status T0 W0 vis o ↔ o = some (s, vis, n)) ∧
    ∃ s n, s ≠ .success ∧ (status ≠ .success → s = status) ∧
      ∀ o, gridGpu cuda native pl ob A pat vis startRow endRow status F0 img o ↔ o = some (s, img, n) := by
  unfold degridGpu gridGpu
  by_cases h0 : status ≠ .success
  · simp only [if_pos h0]
    exact ⟨⟨status, 0, h0, fun _ => rfl, fun _ => Iff.rfl⟩, ⟨status, 0, h0, fun _ => rfl, fun _ => Iff.rfl⟩⟩
  · simp only [if_neg h0]
    by_cases h1 : A.together = false
    · simp only [if_pos h1]
      exact ⟨⟨_, _, by decide, fun h => absurd h h0, fun _ => Iff.rfl⟩,
        ⟨_, _, by decide, fun h => absurd h h0, fun _ => Iff.rfl⟩⟩
    · simp only [if_neg h1]
      have hc : cuda = false := by
        unfold CallArgs.together at h1
        simp only [decide_eq_false_iff_not, not_not] at h1
        tauto
      simp only [if_pos hc]
      exact ⟨⟨_, _, by decide, fun h => absurd h h0, fun _ => Iff.rfl⟩,
        ⟨_, _, by decide, fun h => absurd h h0, fun _ => Iff.rfl⟩⟩

theorem then_some {α β : Type} {R : Option α → Prop} {k : α → Option β → Prop} {b : β} (h : Then R k (some b)) :
    ∃ a, R (some a) ∧ k a (some b) := by
  rcases h with ⟨-, h⟩ | h
  · cases h
  · exact h

theorem steps_keep {α : Type} {R : Nat → α → Option α → Prop} (P : α → Prop)
    (hP : ∀ i s s', P s → R i s (some s') → P s') :
    ∀ (l : List Nat) (s s' : α), P s → EsFft.Steps R l s (some s') → P s'
  | [], s, s', h, h' => by
    simp only [EsFft.Steps, Option.some.injEq] at h'
    rw [h']
    exact h
  | i :: l, s, s', h, h' => by
    simp only [EsFft.Steps] at h'
    obtain ⟨a, h1, h2⟩ := then_some h'
    exact steps_keep P hP l a s' (hP i s a h h1) h2

theorem degridLaunch_bad (pl : Plan K ℂ) (ob : Obs K) (p : Int) (A : CallArgs) (hk : A.kernelStatus true ≠ .success)
    (rows : Nat × Nat) (s : GBufs) (vis : Arr ℂ) (r : GBufs × Arr ℂ) (h : degridLaunch pl ob p A rows s vis (some r)) :
    r.1.st ≠ .success ∧ r.2 = vis := by
  unfold degridLaunch at h
  by_cases h0 : s.st ≠ .success
  · rw [if_pos h0, Option.some.injEq] at h
    rw [h]
    exact ⟨h0, rfl⟩
  · rw [if_neg h0, if_pos hk, Option.some.injEq] at h
    rw [h]
    exact ⟨hk, rfl⟩

theorem degridStep_bad (pl : Plan K ℂ) (ob : Obs K) (A : CallArgs) (hk : A.kernelStatus true ≠ .success) (pat : Arr ℂ)
    (first : Int) (rows : Nat × Nat) (j : Nat) (s r : GBufs × Arr ℂ)
    (h : degridStepGpu pl ob A pat first rows j s (some r)) : r.1.st ≠ .success ∧ r.2 = s.2 := by
  unfold degridStepGpu at h
  by_cases h0 : s.1.st ≠ .success
  · rw [if_pos h0, Option.some.injEq] at h
    rw [h]
    exact ⟨h0, rfl⟩
  · rw [if_neg h0] at h
    obtain ⟨b, -, h⟩ := then_some h
    exact degridLaunch_bad pl ob _ A hk rows b s.2 r h

theorem gridLaunch_bad (native : Bool) (pl : Plan K ℂ) (ob : Obs K) (p : Int) (A : CallArgs)
    (hk : A.kernelStatus false ≠ .success) (rows : Nat × Nat) (vis : Arr ℂ) (s r : HBufs)
    (h : gridLaunch native pl ob p A rows vis s (some r)) : r.st ≠ .success := by
  unfold gridLaunch at h
  by_cases h0 : s.st ≠ .success
  · rw [if_pos h0, Option.some.injEq] at h
    rw [h]
    exact h0
  · rw [if_neg h0, if_pos hk, Option.some.injEq] at h
    rw [h]
    exact hk

theorem gridStep_bad (native : Bool) (pl : Plan K ℂ) (ob : Obs K) (A : CallArgs) (hk : A.kernelStatus false ≠ .success)
    (pat vis : Arr ℂ) (first : Int) (rows : Nat × Nat) (j : Nat) (s r : HBufs)
    (h : gridStepGpu native pl ob A pat vis first rows j s (some r)) : r.st ≠ .success := by
  unfold gridStepGpu at h
  by_cases h0 : s.st ≠ .success
  · rw [if_pos h0, Option.some.injEq] at h
    rw [h]
    exact h0
  · rw [if_neg h0] at h
    obtain ⟨b, -, h⟩ := then_some h
    exact gridLaunch_bad native pl ob _ A hk rows vis b r h

theorem accum_bad (pl : Plan K ℂ) (t : MemType) (pat : Arr ℂ) (i : Nat) (s r : HBufs) (h0 : s.st ≠ .success)
    (h : accumGpu pl t pat i s (some r)) : r.st ≠ .success := by
  unfold accumGpu at h
  rw [if_pos h0, Option.some.injEq] at h
  rw [h]
  exact h0

theorem runOn_nothing (st : Status) (a : Arr ℂ) (w : Status × Arr ℂ) (h : runOn (Run.none st) a (some w)) :
    w = (st, a) := by
  unfold runOn at h
  obtain ⟨r, h1, h2⟩ := then_some h
  have := Race.Launch.eq (yields_nothing _ a) h1
  rw [Option.some.injEq] at this h2
  rw [h2, this]
  rfl

/-- **C109, arrays without a kernel.**  If the visibilities, coordinates and channel ranges are not ones the kernel
accepts, no outcome of a call that has planes to do is success, and every outcome leaves the caller's array alone. -/
theorem C109_checked (native : Bool) (pl : Plan K ℂ) (ob : Obs K) (A : CallArgs)
    (pat img vis : Arr ℂ) (startRow endRow : Int) (T0 W0 F0 : Arr ℂ) (s : Status) (r : Arr ℂ) (n : Int) (hn : 0 < n) :
    (A.kernelStatus true ≠ .success →
      degridGpu true pl ob A pat img startRow endRow .success T0 W0 vis (some (s, r, n)) → s ≠ .success ∧ r = vis) ∧
    (A.kernelStatus false ≠ .success →
      gridGpu true native pl ob A pat vis startRow endRow .success F0 img (some (s, r, n)) →
        s ≠ .success ∧ r = img) := by
  constructor
  · intro hk h
    unfold degridGpu at h
    rw [if_neg (by simp)] at h
    by_cases hj : A.together = false
    · rw [if_pos hj] at h
      cases h
      exact ⟨by decide, rfl⟩
    rw [if_neg hj, if_neg (by simp)] at h
    obtain ⟨b, -, h⟩ := then_some h
    obtain ⟨fl, -, h⟩ := then_some h
    obtain ⟨w, -, h⟩ := then_some h
    obtain ⟨g, -, h⟩ := then_some h
    obtain ⟨q, h1, h⟩ := then_some h
    rw [Option.some.injEq] at h
    obtain ⟨rfl, rfl, rfl⟩ : s = q.1.st ∧ r = q.2 ∧ n = 1 + fl.2 - fl.1 := by
      refine ⟨?_, ?_, ?_⟩ <;> simp [Prod.ext_iff] at h <;> tauto
    obtain ⟨N, hN⟩ : ∃ N, (1 + fl.2 - fl.1).toNat = N + 1 := ⟨(1 + fl.2 - fl.1).toNat - 1, by omega⟩
    rw [hN, List.range_succ_eq_map] at h1
    simp only [EsFft.Steps] at h1
    obtain ⟨a, h2, h3⟩ := then_some h1
    obtain ⟨a1, a2⟩ := degridStep_bad pl _ A hk pat _ _ _ _ _ h2
    have := steps_keep (fun s : GBufs × Arr ℂ => s.1.st ≠ .success ∧ s.2 = vis) (fun i s s' hs hR => by
      obtain ⟨b1, b2⟩ := degridStep_bad pl _ A hk pat _ _ _ _ _ hR
      exact ⟨b1, b2.trans hs.2⟩) _ _ _ ⟨a1, a2⟩ h3
    exact this
  · intro hk h
    unfold gridGpu at h
    rw [if_neg (by simp)] at h
    by_cases hj : A.together = false
    · rw [if_pos hj] at h
      cases h
      exact ⟨by decide, rfl⟩
    rw [if_neg hj, if_neg (by simp)] at h
    obtain ⟨b, -, h⟩ := then_some h
    obtain ⟨fl, -, h⟩ := then_some h
    obtain ⟨g, h1, h⟩ := then_some h
    obtain ⟨q, h4, h⟩ := then_some h
    obtain ⟨w, h5, h⟩ := then_some h
    rw [Option.some.injEq] at h
    obtain ⟨rfl, rfl, rfl⟩ : s = w.1 ∧ r = w.2 ∧ n = 1 + fl.2 - fl.1 := by
      refine ⟨?_, ?_, ?_⟩ <;> simp [Prod.ext_iff] at h <;> tauto
    obtain ⟨N, hN⟩ : ∃ N, (1 + fl.2 - fl.1).toNat = N + 1 := ⟨(1 + fl.2 - fl.1).toNat - 1, by omega⟩
    rw [hN, List.range_succ_eq_map] at h1
    simp only [EsFft.Steps] at h1
    obtain ⟨a, h2, h3⟩ := then_some h1
    have a1 := gridStep_bad native pl _ A hk pat vis _ _ _ _ _ h2
    have g1 := steps_keep (fun s : HBufs => s.st ≠ .success) (fun i s s' hs hR =>
      gridStep_bad native pl _ A hk pat vis _ _ _ _ _ hR) _ _ _ a1 h3
    have q1 := steps_keep (fun s : HBufs => s.st ≠ .success) (fun i s s' hs hR => accum_bad pl _ pat i s s' hs hR) _ _ _
      g1 h4
    have e : accumCall true A.img (devMem .complexDouble [(pl.n : Int), pl.n])
        (some (devMem .complexDouble [(pl.n : Int), pl.n])) (fl.2 + ((pl.wSupport / 2 : Nat) : Int) - 1) q.st
        (some q.img) pat = Run.none q.st := by
      unfold accumCall
      rw [if_pos q1]
    rw [e] at h5
    rw [runOn_nothing _ _ _ h5]
    exact ⟨q1, rfl⟩

/-- **C109 fails for arrays the bounds cannot be computed from.**  If an array of the observation has the wrong type,
number of dimensions or no rows, the bounds stay infinite and their conversion to `int` is undefined, although an error
has been found; likewise if every channel range is empty. -/
theorem C109_bounds_false (native : Bool) (pl : Plan K ℂ) (ob : Obs K) (A : CallArgs) (hj : A.together = true)
    (hb : A.boundsStatus ≠ .success) (pat img vis : Arr ℂ) (startRow endRow : Int) (T0 W0 F0 : Arr ℂ) :
    (∀ o, degridGpu true pl ob A pat img startRow endRow .success T0 W0 vis o ↔ o = none) ∧
    ∀ o, gridGpu true native pl ob A pat vis startRow endRow .success F0 img o ↔ o = none := by
  have key : ∀ (β : Type) (k : Int × Int → Option β → Prop) (o : Option β),
      Then (gpuBounds (fixFreq ob) A) (fun b => Then (fun o => o = planeRange pl.wStep (fixFreq ob).offW b.2.2) k) o ↔
        o = none := by
    intro β k o
    have hg : ∀ o, gpuBounds (fixFreq ob) A o ↔ o = some (MinMax.init, MinMax.init, MinMax.init) := by
      intro o
      unfold gpuBounds
      rw [if_pos hb]
    have hp : planeRange pl.wStep (fixFreq ob).offW (MinMax.init : MinMax K) = none := rfl
    constructor
    · intro h
      have := h.exact fun o ho => (hg o).1 ho
      rcases this with ⟨-, h⟩ | ⟨a, h1, -⟩
      · exact h
      · simp only [hp] at h1
        cases h1
    · rintro rfl
      exact .run ((hg _).2 rfl) (Or.inl ⟨hp.symm, rfl⟩)
  constructor <;> intro o
  · unfold degridGpu
    rw [if_neg (by simp), if_neg (by rw [hj]; simp), if_neg (by simp)]
    exact key _ _ o
  · unfold gridGpu
    rw [if_neg (by simp), if_neg (by rw [hj]; simp), if_neg (by simp)]
    exact key _ _ o

/-- **C109 fails for the counter of planes**: without CUDA the call is refused, and still counts four planes. -/
theorem C109_count_false (native : Bool) (pl : Plan K ℂ) (ob : Obs K) (A : CallArgs) (hj : A.together = true)
    (pat img vis : Arr ℂ) (startRow endRow : Int) (T0 W0 F0 : Arr ℂ) :
    (∀ o, degridGpu false pl ob A pat img startRow endRow .success T0 W0 vis o → o = some (.memLocation, vis, 4)) ∧
    ∀ o, gridGpu false native pl ob A pat vis startRow endRow .success F0 img o → o = some (.memLocation, img, 4) := by
  constructor <;> intro o h
  · unfold degridGpu at h
    rw [if_neg (by simp), if_neg (by rw [hj]; simp), if_pos rfl] at h
    exact h
  · unfold gridGpu at h
    rw [if_neg (by simp), if_neg (by rw [hj]; simp), if_pos rfl] at h
    exact h

/-! ## An example -/

/-- Device arrays of the example: one row, three channels, an image of 8 x 8. -/
def exArgs : CallArgs :=
  ⟨devMem .complexDouble [1, 3], devMem .complexDouble [8, 8], devMem .double [1, 3], devMem .int [1], devMem .int [1]⟩

theorem exArgs_good (write : Bool) : exArgs.Good 1 write :=
  ⟨by decide, by decide, by decide, fun _ => by decide, by decide, by decide, by decide, by decide, by decide, by decide,
    by decide, by decide, by decide, by decide, by decide, by decide⟩

/-- Non-vacuity: plan, observation, w pattern and arrays that meet the hypotheses of C109. -/
example : exArgs.Good 1 true ∧ exArgs.Good 1 false ∧ Plane exArgs.img 64 8 8 (fun x y => x * 8 + y) ∧
    Distinct 8 8 (fun x y => x * 8 + y) ∧ Env exPlanC ⟨64, fun _ => Complex.I⟩ ∧
    (∃ b, Planes exPlanC (fixFreq exOb) 1 b (0, 2)) ∧ exPlanC.Made ∧ (fixFreq exOb).Made 1 ∧ RowsExist 1 0 1 ∧
    InRows 1 0 1 0 ∧
    (∀ p, 0 ≤ p → p ≤ 2 → ∀ i, i < 1 → ∀ c, Used exPlanC (fixFreq exOb) p i c → Fits exPlanC (fixFreq exOb) p i c) ∧
    exPlanC.wSupport % 2 = 0 ∧
    ({ exArgs with uvw := devMem .int [1, 3] } : CallArgs).boundsStatus ≠ .success ∧
    ({ exArgs with vis := devMem .complexFloat [1], uvw := devMem .double [1, 3] } : CallArgs).kernelStatus true ≠
      .success := by
  refine ⟨exArgs_good _, exArgs_good _, ?_, square_distinct 8, ?_⟩
  · exact devMem_plane _ (Or.inl rfl) 8 _ (by omega)
  · obtain ⟨h1, h2, h3, -⟩ := exWhole
    exact ⟨h3, h1, (h2 0 (by omega) (by omega)).plan, (h2 0 (by omega) (by omega)).obs, Or.inr (Or.inr (by omega)),
      ⟨by omega, Or.inr (Or.inr (by omega))⟩,
      fun p p1 p2 i hi => (h2 p p1 p2).fits i (by simp; omega), rfl, by decide, by decide⟩

end
end Sdp.WTower
