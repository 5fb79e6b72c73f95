import Verif.WTower.CpuCallGrid

/-!
# C126: gridding into a real image

`sdp_gridder_wtower_uvw_grid` accepts an image of real numbers and reports no error, but adds the real parts without the
last power of the w pattern (sdp_gridder_utils.cpp:82-103 and 808-826; sdp_gridder_wtower_uvw.cpp:1110-1113).
-/

set_option linter.unusedSectionVars false

namespace Sdp.WTower
open Sdp.Fft Sdp.GridUtil Sdp.Clamp
open Finset hiding univ

noncomputable section

variable {K : Type} [Field K] [LinearOrder K] [IsStrictOrderedRing K] [FloorRing K]

/-- Arrays for gridding, with a real image. -/
structure CallArgs.RealGridArgs (A : CallArgs) : Prop extends A.CpuInputs where
  idata : A.img.data ≠ none
  iwrite : A.img.isReadOnly = false
  idims : A.img.numDims = 2
  itype : A.img.type = .double ∨ A.img.type = .float

/-- The last accumulation to a real image: status and elements. -/
theorem accum_real (img : Mem) (hl : img.location = .cpu)
    (ht : img.type = .double ∨ img.type = .float) (n : Nat) (e : Int) (src : Option (Arr ℂ)) (pat : Arr ℂ) :
    let run := accumCall true img (cpuMem .complexDouble [(n : Int), n]) (some (cpuMem .complexDouble [(n : Int), n])) e
      .success src pat
    run.status = (checkAndView img img.type 2 .cpu .success).2 ∧
      run.threads = nest2 (rows (checkAndView img img.type 2 .cpu .success).1)
        (cols (checkAndView img img.type 2 .cpu .success).1) := by
  have hz : (cpuMem .complexDouble [(n : Int), n]).location = .cpu := rfl
  have hk : accumKind img.type (cpuMem .complexDouble [(n : Int), n]).type
      ((some (cpuMem .complexDouble [(n : Int), n])).elim .complexDouble Mem.type) = some .real := by
    unfold accumKind
    rw [if_neg (by rcases ht with h | h <;> simp [h]), if_pos ⟨ht, Or.inl rfl⟩]
  have hz1 : (cpuMem .complexDouble [(n : Int), n]).type = .complexDouble := rfl
  have hv : ∀ s : Status, (checkAndViewConst (cpuMem .complexDouble [(n : Int), n]) .complexDouble 2 .cpu s).2 = s := by
    intro s
    cases s <;> rfl
  generalize hm : cpuMem .complexDouble [(n : Int), n] = m at *
  have hrun : accumCall true img m (some m) e .success src pat = realCpu img m .success src := by
    unfold accumCall
    rw [if_neg (by simp), if_neg (by rw [hl, hz]; simp)]
    simp only [hl, hk]
  simp only
  rw [hrun]
  unfold realCpu
  simp only [hz1]
  refine ⟨?_, rfl⟩
  rw [run_status, hv]

/-- What gridding has to add to a pixel of the image (as in `C42_grid`): the values gridded on layer `k` of plane `p`,
transformed back and multiplied by the power of the w pattern that belongs to the layer. -/
def due (pl : Plan K ℂ) (ob : Obs K) (m : Nat) (pat vis : Arr ℂ) (startRow endRow : Int) (fl : Int × Int) (x y : Nat) :
    ℂ :=
  ∑ p ∈ Finset.Icc fl.1 fl.2, ∑ k ∈ range pl.wSupport,
    im pl.n pat x y ^ (p + k - ((pl.wSupport - pl.wSupport / 2 : Nat) : Int)) *
      centred true pl.n pl.n (gridSum pl (fixFreq ob) p (rowList m startRow endRow) (visAt ob vis) k) x y

/-- **C126, real images.**  For a real image that passes all checks gridding reports no error; a pixel is increased by
the real part of what is due to it divided by the power of the w pattern that belongs to the last layer. -/
theorem C126_real_image (pl : Plan K ℂ) (ob : Obs K) (A : CallArgs) (hA : A.RealGridArgs)
    (hi0 : A.img.shapeDim 0 = pl.n) (hi1 : A.img.shapeDim 1 = pl.n) (m : Nat) (hm : (A.uvw.shapeDim 0).toNat = m)
    (pat vis img : Arr ℂ) (he : Env pl pat)
    (hI : img.size = pl.n * pl.n) (startRow endRow : Int) (S S1 : Nat → Sched)
    (hS : ∀ j, (S j).Ok pl.n (rowList m startRow endRow))
    (hS1 : ∀ j, (S1 j).Ok pl.n (rowList m startRow endRow)) (F0 tmp : Arr ℂ)
    (hF : F0.size = pl.n * pl.n) (ht : tmp.size = pl.n * pl.n)
    (hv : vis.size = m * ob.numChan)
    (b : MinMax K × MinMax K × MinMax K) (fl : Int × Int) (hle : fl.1 ≤ fl.2)
    (hp : Planes pl (fixFreq ob) m b fl)
    (hcall : ∀ p, fl.1 ≤ p → p ≤ fl.2 →
      Call pl (fixFreq ob) p m (rowList m startRow endRow)) :
    ∃ r, gridCpu pl ob A pat vis startRow endRow .success S S1 F0 tmp img = some (.success, r, 1 + fl.2 - fl.1) ∧
      r.size = img.size ∧
      ∀ x, x < pl.n → ∀ y, y < pl.n → im pl.n r x y = im pl.n img x y +
        ((due pl ob m pat vis startRow endRow fl x y /
          im pl.n pat x y ^ (fl.2 + ((pl.wSupport / 2 : Nat) : Int) - 1)).re : ℂ) := by
  obtain ⟨r0, c1, -, c3⟩ := C42_grid pl ob m pat vis img he hI startRow endRow S S1 hS hS1 F0 tmp hF ht hv b fl hle
    hp.1 hp.2 hcall
  have hnc : (fixFreq ob).numChan = ob.numChan := by unfold fixFreq; split_ifs <;> rfl
  obtain ⟨N, hN⟩ : ∃ N : Nat, fl.2 = fl.1 + N := ⟨(fl.2 - fl.1).toNat, by omega⟩
  have hN1 : (1 + fl.2 - fl.1).toNat = N + 1 := by omega
  obtain ⟨st, s1, s2⟩ := gridSweep_ok pl (fixFreq ob) m pat vis he (rowList m startRow endRow) S hS
    fl.1 N (fun t ht' => hcall _ (by omega) (by omega)) (by rw [hv, hnc])
    (fun t k x y => gridSum pl (fixFreq ob) (fl.1 + (t : Nat)) (rowList m startRow endRow)
      (visAt (fixFreq ob) vis) k x y) (fun _ _ _ _ => rfl) F0 tmp hF ht
  obtain ⟨st2, f1, f2, -⟩ := gridFinish_ok pl pat he _ S1 hS1 _ st N s2
  obtain ⟨r1, a1, a2, a3⟩ := accumScale_ok pl.n (S1 pl.wSupport).px (hS1 _).px img st2.1.img
    (some pat) (fl.2 + ((pl.wSupport / 2 : Nat) : Int) - 1) hI f2.sI (by
      intro b hb; cases hb; exact he.sP)
  obtain ⟨r, d1, d2, d3⟩ := accumScale_ok pl.n (S1 pl.wSupport).px (hS1 _).px img
    ⟨st2.1.img.size, fun j => ((st2.1.img.get j).re : ℂ)⟩ none 0 hI f2.sI (by intro b hb; cases hb)
  have hr : r1 = r0 := by
    have : gridCall pl ob m pat vis startRow endRow S S1 F0 tmp img = some (r1, 1 + fl.2 - fl.1) := by
      unfold gridCall
      simp only
      rw [hp.1]
      simp only [Option.bind_some]
      rw [hp.2]
      simp only [Option.bind_some]
      rw [hN1, s1]
      simp only [Option.bind_some]
      rw [f1]
      simp only [Option.bind_some]
      rw [a1]
      rfl
    rw [this] at c1
    exact (Prod.mk.inj (Option.some.inj c1)).1
  have hf : A.gridStatus = .success := (gridStatus_iff A).2 ⟨(kernel_iff A).2 hA.types,
    (chStatus_iff A).2 ⟨⟨hA.stype, hA.sdims, hA.sloc⟩, hA.etype, hA.edims, hA.eloc⟩, ⟨hA.udims, hA.uloc⟩, hA.vdims,
    hA.vloc⟩
  have hj : A.together = true := (together_iff A).2
    ⟨hA.iloc.trans hA.vloc.symm, hA.uloc.trans hA.vloc.symm, hA.sloc.trans hA.vloc.symm, hA.eloc.trans hA.vloc.symm⟩
  have hvt : A.vis.type = .complexDouble ∨ A.vis.type = .complexFloat := hA.types.imp And.left And.left
  have hast : (checkAndView A.img A.img.type 2 .cpu .success).2 = .success :=
    (view_status _ _ _ _ _).2 ⟨rfl, rfl, hA.idims, hA.iloc, hA.idata, hA.iwrite⟩
  have hnt : ¬(A.img.type = .complexDouble ∨ A.img.type = .complexFloat) := by
    rcases hA.itype with h | h <;> simp [h]
  have hstore : gridStore pl A pat (S1 pl.wSupport).px (fl.2 + ((pl.wSupport / 2 : Nat) : Int) - 1) st2.1.img img =
      some (.success, r) := by
    have hac := accum_real A.img hA.iloc hA.itype pl.n (fl.2 + ((pl.wSupport / 2 : Nat) : Int) - 1)
      (some st2.1.img) pat
    simp only at hac
    unfold gridStore
    simp only
    have hth : (accumCall true A.img (cpuMem .complexDouble [(pl.n : Int), pl.n])
        (some (cpuMem .complexDouble [(pl.n : Int), pl.n])) (fl.2 + ((pl.wSupport / 2 : Nat) : Int) - 1) .success
        (some st2.1.img) pat).threads ≠ [] := by
      rw [hac.2]
      have hview : (checkAndView A.img A.img.type 2 .cpu .success).1 = mkView A.img 2 .success := by
        show mkView A.img 2 (checkAndView A.img A.img.type 2 .cpu .success).2 = _
        rw [hast]
      rw [hview]
      have hr : rows (mkView A.img 2 .success) = pl.n := by
        simp [rows, mkView, hi0]
      have hc : cols (mkView A.img 2 .success) = pl.n := by
        simp [cols, mkView, hi1]
      rw [hr, hc]
      intro hnil
      have : (0, 0) ∈ nest2 pl.n pl.n := by
        unfold nest2
        rw [List.mem_flatMap]
        exact ⟨0, List.mem_range.2 he.pos, List.mem_map.2 ⟨0, List.mem_range.2 he.pos, rfl⟩⟩
      rw [hnil] at this
      simp at this
    rw [if_neg hth, if_neg hnt, hac.1, hast, d1]
    rfl
  refine ⟨r, ?_, by rw [d2, hI], fun x hx y hy => ?_⟩
  · unfold gridCpu cpuBounds
    rw [if_neg (by simp), if_neg (by rw [hj]; simp), if_neg (by rw [bounds_ok hA.toCpuInputs]; simp), hm, hp.1]
    simp only [Option.bind_some]
    rw [hp.2]
    simp only [Option.bind_some]
    rw [if_pos hvt, grid_passed pl (fixFreq ob) A pat vis fl.1 _ S hf, hN1, s1]
    simp only [Option.map_some, Option.bind_some]
    rw [if_neg (by simp), f1]
    simp only [Option.bind_some]
    rw [hstore]
    rfl
  · rw [d3 x hx y hy, mul_one]
    have e1 := a3 x hx y hy
    rw [hr, c3 x hx y hy] at e1
    have e2 := add_left_cancel e1
    simp only at e2
    have hP : im pl.n pat x y ^ (fl.2 + ((pl.wSupport / 2 : Nat) : Int) - 1) ≠ 0 :=
      zpow_ne_zero _ (he.ne x hx y hy)
    unfold due
    rw [e2, mul_div_cancel_right₀ _ hP]
    rfl

/-- **C126 is false of real images.**  No error is reported, and a pixel does not get the real part of what is due to it
wherever dividing by the power of the pattern changes that part. -/
theorem C126_real_image_false (pl : Plan K ℂ) (ob : Obs K) (A : CallArgs) (hA : A.RealGridArgs)
    (hi0 : A.img.shapeDim 0 = pl.n) (hi1 : A.img.shapeDim 1 = pl.n) (m : Nat) (hm : (A.uvw.shapeDim 0).toNat = m)
    (pat vis img : Arr ℂ) (he : Env pl pat)
    (hI : img.size = pl.n * pl.n) (startRow endRow : Int) (S S1 : Nat → Sched)
    (hS : ∀ j, (S j).Ok pl.n (rowList m startRow endRow))
    (hS1 : ∀ j, (S1 j).Ok pl.n (rowList m startRow endRow)) (F0 tmp : Arr ℂ)
    (hF : F0.size = pl.n * pl.n) (ht : tmp.size = pl.n * pl.n)
    (hv : vis.size = m * ob.numChan)
    (b : MinMax K × MinMax K × MinMax K) (fl : Int × Int) (hle : fl.1 ≤ fl.2)
    (hp : Planes pl (fixFreq ob) m b fl)
    (hcall : ∀ p, fl.1 ≤ p → p ≤ fl.2 →
      Call pl (fixFreq ob) p m (rowList m startRow endRow)) (x y : Nat) (hx : x < pl.n) (hy : y < pl.n)
    (hne : (due pl ob m pat vis startRow endRow fl x y /
      im pl.n pat x y ^ (fl.2 + ((pl.wSupport / 2 : Nat) : Int) - 1)).re ≠
        (due pl ob m pat vis startRow endRow fl x y).re) :
    ∃ r n, gridCpu pl ob A pat vis startRow endRow .success S S1 F0 tmp img = some (.success, r, n) ∧
      im pl.n r x y ≠ im pl.n img x y + ((due pl ob m pat vis startRow endRow fl x y).re : ℂ) := by
  obtain ⟨r, h1, -, h3⟩ := C126_real_image pl ob A hA hi0 hi1 m hm pat vis img he hI startRow endRow S S1 hS hS1 F0 tmp
    hF ht hv b fl hle hp hcall
  refine ⟨r, _, h1, ?_⟩
  rw [h3 x hx y hy]
  intro h
  exact hne (Complex.ofReal_inj.1 (add_left_cancel h))

end
end Sdp.WTower
