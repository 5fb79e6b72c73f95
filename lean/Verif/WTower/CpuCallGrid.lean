import Verif.WTower.CpuCallMain

/-!
# C126: gridding in main memory; what does not hold
-/

set_option linter.unusedSectionVars false

namespace Sdp.WTower
open Sdp.Fft Sdp.GridUtil Sdp.Clamp

noncomputable section

variable {K : Type} [Field K] [LinearOrder K] [IsStrictOrderedRing K] [FloorRing K]

/-! ## The last accumulation -/

/-- To a complex image: status and elements. -/
theorem accum_complex (img : Mem) (hl : img.location = .cpu)
    (ht : img.type = .complexDouble ∨ img.type = .complexFloat) (n : Nat) (e : Int) (src : Option (Arr ℂ)) (pat : Arr ℂ) :
    let run := accumCall true img (cpuMem .complexDouble [(n : Int), n]) (some (cpuMem .complexDouble [(n : Int), n])) e
      .success src pat
    run.status = (checkAndView img img.type 2 .cpu .success).2 ∧
      run.threads = nest2 (rows (checkAndView img img.type 2 .cpu .success).1)
        (cols (checkAndView img img.type 2 .cpu .success).1) := by
  have hz : (cpuMem .complexDouble [(n : Int), n]).location = .cpu := rfl
  have hk : accumKind img.type (cpuMem .complexDouble [(n : Int), n]).type
      ((some (cpuMem .complexDouble [(n : Int), n])).elim .complexDouble Mem.type) = some .scale := by
    unfold accumKind
    rw [if_pos ⟨ht, Or.inl rfl, rfl⟩]
  have hz1 : (cpuMem .complexDouble [(n : Int), n]).type = .complexDouble := rfl
  have hv : ∀ s : Status, (checkAndViewConst (cpuMem .complexDouble [(n : Int), n]) .complexDouble 2 .cpu s).2 = s := by
    intro s
    cases s <;> rfl
  generalize hm : cpuMem .complexDouble [(n : Int), n] = m at *
  have hrun : accumCall true img m (some m) e .success src pat = accumCpu img m (some m) e .success src pat := by
    unfold accumCall
    rw [if_neg (by simp), if_neg (by rw [hl, hz]; simp)]
    simp only [hl, hk]
    rfl
  simp only
  rw [hrun]
  unfold accumCpu
  simp only [hz1]
  by_cases he : e = 0
  · rw [if_pos he]
    refine ⟨?_, rfl⟩
    rw [run_status, hv]
  · rw [if_neg he]
    refine ⟨?_, rfl⟩
    rw [run_status, hv, hv]

/-- Gridding taken apart. -/
theorem grid_parts {pl : Plan K ℂ} {ob : Obs K} {A : CallArgs} {pat img vis r : Arr ℂ} {startRow endRow : Int}
    {S S1 : Nat → Sched} {F0 tmp : Arr ℂ} {s : Status} {n : Int} (hj : A.together = true)
    (h : gridCpu pl ob A pat vis startRow endRow .success S S1 F0 tmp img = some (s, r, n)) :
    A.cpuBoundsStatus = .success ∧ ∃ b fl, Planes pl (fixFreq ob) (A.uvw.shapeDim 0).toNat b fl ∧
      n = 1 + fl.2 - fl.1 ∧ ∃ q,
      loop (gridCpuStep pl (fixFreq ob) A pat vis fl.1 (rowList (A.uvw.shapeDim 0).toNat startRow endRow) S)
        (if A.vis.type = .complexDouble ∨ A.vis.type = .complexFloat then .success else .dataType,
          (⟨⟨pl.wSupport * (pl.n * pl.n), fun _ => 0⟩, ⟨pl.n * pl.n, fun _ => 0⟩, tmp⟩ : DBufs), F0)
        (List.range (1 + fl.2 - fl.1).toNat) = some q ∧
      ((q.1 ≠ .success ∧ s = q.1 ∧ r = img) ∨
       (q.1 = .success ∧ ∃ st, loop (fun st i => gridAccum pl pat (S1 i) st i) q.2 (List.range pl.wSupport) = some st ∧
        gridStore pl A pat (S1 pl.wSupport).px (fl.2 + ((pl.wSupport / 2 : Nat) : Int) - 1) st.1.img img =
          some (s, r))) := by
  unfold gridCpu at h
  rw [if_neg (by simp), if_neg (by rw [hj]; simp)] at h
  obtain ⟨b, hb, h⟩ := Option.bind_eq_some_iff.1 h
  obtain ⟨fl, hfl, h⟩ := Option.bind_eq_some_iff.1 h
  have hbs : A.cpuBoundsStatus = .success := by
    by_contra hcon
    unfold cpuBounds at hb
    rw [if_pos hcon] at hb
    cases hb
    exact absurd hfl (by simp [planeRange, MinMax.init])
  unfold cpuBounds at hb
  rw [if_neg (by rw [hbs]; simp)] at hb
  simp only at h
  obtain ⟨q, hq, h⟩ := Option.bind_eq_some_iff.1 h
  by_cases hs : q.1 = .success
  · rw [if_neg (by rw [hs]; simp)] at h
    obtain ⟨st, hst, h⟩ := Option.bind_eq_some_iff.1 h
    obtain ⟨x, hx, h⟩ := Option.map_eq_some_iff.1 h
    cases h
    exact ⟨hbs, b, fl, ⟨hb, hfl⟩, rfl, q, hq, Or.inr ⟨hs, st, hst, hx⟩⟩
  · rw [if_pos hs] at h
    cases h
    exact ⟨hbs, b, fl, ⟨hb, hfl⟩, rfl, q, hq, Or.inl ⟨hs, rfl, rfl⟩⟩

theorem bounds_cpu {A : CallArgs} (hj : A.together = true) (h : A.cpuBoundsStatus = .success) :
    A.vis.location = .cpu ∧ A.img.location = .cpu := by
  obtain ⟨j1, j2, -, -⟩ := (together_iff A).1 hj
  have hu : A.uvw.location = .cpu := by
    unfold CallArgs.cpuBoundsStatus at h
    simp only at h
    split_ifs at h
    exact ((viewConst_status _ _ _ _ _).1 h).2.2.2
  exact ⟨j2.symm.trans hu, j1.trans (j2.symm.trans hu)⟩

/-- **C126, gridding (partial).**  A gridding call that ends with an error has not changed the image.  Partial: a failed
check in the computation of the bounds is undefined (`C126_bounds_false`). -/
theorem C126_grid_unchanged_partial (pl : Plan K ℂ) (ob : Obs K) (A : CallArgs) (pat vis : Arr ℂ) (startRow endRow : Int)
    (status : Status) (S S1 : Nat → Sched) (F0 tmp img r : Arr ℂ) (s : Status) (n : Int)
    (h : gridCpu pl ob A pat vis startRow endRow status S S1 F0 tmp img = some (s, r, n)) (hs : s ≠ .success) :
    r = img := by
  by_cases h0 : status ≠ .success
  · unfold gridCpu at h
    rw [if_pos h0] at h
    cases h
    rfl
  have h0' : status = .success := by simpa using h0
  subst h0'
  by_cases hj : A.together = false
  · unfold gridCpu at h
    rw [if_neg h0, if_pos hj] at h
    cases h
    rfl
  have hj' : A.together = true := by simpa using hj
  obtain ⟨hb, b, fl, -, -, q, -, hcase⟩ := grid_parts hj' h
  rcases hcase with ⟨-, -, hr⟩ | ⟨-, st, -, hst⟩
  · exact hr
  unfold gridStore at hst
  simp only at hst
  have hz := cpuMem_view pl.n .success rfl
  split_ifs at hst with h1 h2
  · cases hst
    rfl
  · obtain ⟨x, -, hx⟩ := Option.map_eq_some_iff.1 hst
    cases hx
    exact absurd (accum_failed A.img _ _ (bounds_cpu hj' hb).2 hz hz _ _ _ hs) h1
  · obtain ⟨x, -, hx⟩ := Option.map_eq_some_iff.1 hst
    cases hx
    exact absurd (accum_failed A.img _ _ (bounds_cpu hj' hb).2 hz hz _ _ _ hs) h1

theorem grid_stop (pl : Plan K ℂ) (ob : Obs K) (A : CallArgs) (pat vis : Arr ℂ) (first : Int) (rows : List Nat)
    (S : Nat → Sched) (l : List Nat) (s : Status × DBufs × Arr ℂ) (h : s.1 ≠ .success) :
    loop (gridCpuStep pl ob A pat vis first rows S) s l = some s := by
  induction l with
  | nil => rfl
  | cons j l ih =>
    simp only [loop]
    unfold gridCpuStep
    rw [if_pos h]
    exact ih

theorem gridKernel_status {pl : Plan K ℂ} {ob : Obs K} {p : Int} {A : CallArgs} {T : Arr ℂ} {rows : List Nat}
    {vis : Arr ℂ} {r : Status × Arr ℂ} (h : gridCpuKernel pl ob p A vis rows T = some r) : r.1 = A.gridStatus := by
  unfold gridCpuKernel at h
  unfold CallArgs.gridStatus
  by_cases h1 : A.kernel = false
  · rw [if_pos h1] at h ⊢
    cases h
    rfl
  · rw [if_neg h1] at h ⊢
    by_cases h2 : A.chStatus ≠ .success
    · rw [if_pos h2] at h ⊢
      cases h
      rfl
    · rw [if_neg h2] at h ⊢
      obtain ⟨v, -, rfl⟩ := Option.map_eq_some_iff.1 h
      rfl

/-- **C126, gridding, success.**  A gridding call onto a complex `n x n` image that reports no error was given the right
arrays, and its result is the one of `gridCall`, about which C42 speaks. -/
theorem C126_grid_success (pl : Plan K ℂ) (h0n : 0 < pl.n) (ob : Obs K) (A : CallArgs)
    (hi0 : A.img.shapeDim 0 = pl.n) (hi1 : A.img.shapeDim 1 = pl.n)
    (hit : A.img.type = .complexDouble ∨ A.img.type = .complexFloat) (pat vis : Arr ℂ) (startRow endRow : Int)
    (status : Status) (S S1 : Nat → Sched) (F0 tmp img r : Arr ℂ) (n : Int) (hn : 0 < n)
    (h : gridCpu pl ob A pat vis startRow endRow status S S1 F0 tmp img = some (.success, r, n)) :
    A.GridArgs ∧ gridCall pl ob (A.uvw.shapeDim 0).toNat pat vis startRow endRow S S1 F0 tmp img = some (r, n) := by
  by_cases h0 : status ≠ .success
  · unfold gridCpu at h
    rw [if_pos h0] at h
    simp only [Option.some.injEq, Prod.mk.injEq] at h
    exact absurd h.1 h0
  have h0' : status = .success := by simpa using h0
  subst h0'
  by_cases hj : A.together = false
  · unfold gridCpu at h
    rw [if_neg h0, if_pos hj] at h
    cases h
  have hj' : A.together = true := by simpa using hj
  obtain ⟨hb, b, fl, hp, rfl, q, hq, hcase⟩ := grid_parts hj' h
  rcases hcase with ⟨h1, h2, -⟩ | ⟨hqs, st, hst, hstore⟩
  · exact absurd h2.symm h1
  obtain ⟨lv, li⟩ := bounds_cpu hj' hb
  have hvt : A.vis.type = .complexDouble ∨ A.vis.type = .complexFloat := by
    by_contra hcon
    rw [if_neg hcon, grid_stop _ _ _ _ _ _ _ _ _ _ (by simp)] at hq
    cases hq
    cases hqs
  rw [if_pos hvt] at hq
  have hf : A.gridStatus = .success := by
    by_contra hf
    obtain ⟨N, hN⟩ : ∃ N, (1 + fl.2 - fl.1).toNat = N + 1 := ⟨(1 + fl.2 - fl.1).toNat - 1, by omega⟩
    rw [hN, List.range_succ_eq_map] at hq
    simp only [loop] at hq
    obtain ⟨x, hx, hl⟩ := Option.bind_eq_some_iff.1 hq
    unfold gridCpuStep at hx
    rw [if_neg (by simp), if_pos rfl] at hx
    simp only [Option.bind_some] at hx
    obtain ⟨y, hy, rfl⟩ := Option.map_eq_some_iff.1 hx
    have hy1 := gridKernel_status hy
    rw [grid_stop _ _ _ _ _ _ _ _ _ _ (by simp only; rw [hy1]; exact hf)] at hl
    cases hl
    exact hf (hy1.symm.trans hqs)
  obtain ⟨k1, k2, ⟨k3, k4⟩, k5, k6⟩ := (gridStatus_iff A).1 hf
  obtain ⟨⟨c1, c2, c3⟩, c4, c5, c6⟩ := (chStatus_iff A).1 k2
  have hac := accum_complex A.img li hit pl.n (fl.2 + ((pl.wSupport / 2 : Nat) : Int) - 1) (some st.1.img) pat
  have hast : (checkAndView A.img A.img.type 2 .cpu .success).2 = .success := by
    unfold gridStore at hstore
    simp only at hstore hac
    rw [← hac.1]
    split_ifs at hstore with h1
    · exact (Prod.mk.inj (Option.some.inj hstore)).1
    · obtain ⟨x, -, hx⟩ := Option.map_eq_some_iff.1 hstore
      exact (Prod.mk.inj hx).1
  obtain ⟨-, -, v2, -, v4, v5⟩ := (view_status _ _ _ _ _).1 hast
  refine ⟨⟨⟨k6, li, k4, c3, c6, c1, c2, c4, c5, k5, k3, (kernel_iff A).1 k1⟩, v4, v5, v2, hit⟩, ?_⟩
  have hth : (accumCall true A.img (cpuMem .complexDouble [(pl.n : Int), pl.n])
      (some (cpuMem .complexDouble [(pl.n : Int), pl.n])) (fl.2 + ((pl.wSupport / 2 : Nat) : Int) - 1) .success
      (some st.1.img) pat).threads ≠ [] := by
    rw [hac.2]
    have hview : (checkAndView A.img A.img.type 2 .cpu .success).1 = mkView A.img 2 .success := by
      show mkView A.img 2 (checkAndView A.img A.img.type 2 .cpu .success).2 = _
      rw [hast]
    rw [hview]
    have hr : rows (mkView A.img 2 .success) = pl.n := by
      simp [rows, mkView, hi0]
    have hc : cols (mkView A.img 2 .success) = pl.n := by
      simp [cols, mkView, hi1]
    rw [hr, hc]
    intro hnil
    have : (0, 0) ∈ nest2 pl.n pl.n := by
      unfold nest2
      rw [List.mem_flatMap]
      exact ⟨0, List.mem_range.2 h0n, List.mem_map.2 ⟨0, List.mem_range.2 h0n, rfl⟩⟩
    rw [hnil] at this
    simp at this
  unfold gridStore at hstore
  simp only at hstore
  rw [if_neg hth, if_pos hit] at hstore
  obtain ⟨x, hx, hxe⟩ := Option.map_eq_some_iff.1 hstore
  obtain ⟨-, rfl⟩ := Prod.mk.inj hxe
  rw [grid_passed pl (fixFreq ob) A pat vis fl.1 _ S hf] at hq
  obtain ⟨y, hy, rfl⟩ := Option.map_eq_some_iff.1 hq
  unfold gridCall
  simp only
  rw [hp.1]
  simp only [Option.bind_some]
  rw [hp.2]
  simp only [Option.bind_some]
  rw [hy]
  simp only [Option.bind_some] at hst ⊢
  rw [hst]
  simp only [Option.bind_some]
  rw [hx]
  rfl

/-- **C126, gridding, accepted.**  With the right arrays no error is reported, and the call is `gridCall`. -/
theorem C126_grid_accepted (pl : Plan K ℂ) (h0n : 0 < pl.n) (ob : Obs K) (A : CallArgs) (hA : A.GridArgs)
    (hi0 : A.img.shapeDim 0 = pl.n) (hi1 : A.img.shapeDim 1 = pl.n) (pat vis : Arr ℂ) (startRow endRow : Int)
    (S S1 : Nat → Sched) (F0 tmp img : Arr ℂ) :
    gridCpu pl ob A pat vis startRow endRow .success S S1 F0 tmp img =
      (gridCall pl ob (A.uvw.shapeDim 0).toNat pat vis startRow endRow S S1 F0 tmp img).map fun r =>
        (.success, r.1, r.2) := by
  have hf : A.gridStatus = .success := (gridStatus_iff A).2 ⟨(kernel_iff A).2 hA.types,
    (chStatus_iff A).2 ⟨⟨hA.stype, hA.sdims, hA.sloc⟩, hA.etype, hA.edims, hA.eloc⟩, ⟨hA.udims, hA.uloc⟩, hA.vdims,
    hA.vloc⟩
  have hj : A.together = true := (together_iff A).2
    ⟨hA.iloc.trans hA.vloc.symm, hA.uloc.trans hA.vloc.symm, hA.sloc.trans hA.vloc.symm, hA.eloc.trans hA.vloc.symm⟩
  have hvt : A.vis.type = .complexDouble ∨ A.vis.type = .complexFloat := hA.types.imp And.left And.left
  have hast : (checkAndView A.img A.img.type 2 .cpu .success).2 = .success :=
    (view_status _ _ _ _ _).2 ⟨rfl, rfl, hA.idims, hA.iloc, hA.idata, hA.iwrite⟩
  have hstore : ∀ px e W, gridStore pl A pat px e W img =
      (accumScale pl.n px img W (some pat) e).map fun r => (.success, r) := by
    intro px e W
    have hac := accum_complex A.img hA.iloc hA.itype pl.n e (some W) pat
    simp only at hac
    unfold gridStore
    simp only
    have hth : (accumCall true A.img (cpuMem .complexDouble [(pl.n : Int), pl.n])
        (some (cpuMem .complexDouble [(pl.n : Int), pl.n])) e .success (some W) pat).threads ≠ [] := by
      rw [hac.2]
      have hview : (checkAndView A.img A.img.type 2 .cpu .success).1 = mkView A.img 2 .success := by
        show mkView A.img 2 (checkAndView A.img A.img.type 2 .cpu .success).2 = _
        rw [hast]
      rw [hview]
      have hr : rows (mkView A.img 2 .success) = pl.n := by
        simp [rows, mkView, hi0]
      have hc : cols (mkView A.img 2 .success) = pl.n := by
        simp [cols, mkView, hi1]
      rw [hr, hc]
      intro hnil
      have : (0, 0) ∈ nest2 pl.n pl.n := by
        unfold nest2
        rw [List.mem_flatMap]
        exact ⟨0, List.mem_range.2 h0n, List.mem_map.2 ⟨0, List.mem_range.2 h0n, rfl⟩⟩
      rw [hnil] at this
      simp at this
    rw [if_neg hth, if_pos hA.itype, hac.1, hast]
  unfold gridCpu gridCall cpuBounds
  rw [if_neg (by simp), if_neg (by rw [hj]; simp), if_neg (by rw [bounds_ok hA.toCpuInputs]; simp)]
  simp only
  rw [if_pos hvt]
  cases uvwBounds (fixFreq ob).c0 (fixFreq ob).f0 (fixFreq ob).df (fixFreq ob).uvw (A.uvw.shapeDim 0).toNat
    (fixFreq ob).startChs (fixFreq ob).endChs with
  | none => rfl
  | some b =>
    simp only [Option.bind_some]
    cases planeRange pl.wStep (fixFreq ob).offW b.2.2 with
    | none => rfl
    | some fl =>
      simp only [Option.bind_some]
      rw [grid_passed pl (fixFreq ob) A pat vis fl.1 _ S hf]
      cases loop (gridStep pl (fixFreq ob) pat vis fl.1 (rowList (A.uvw.shapeDim 0).toNat startRow endRow) S)
        ((⟨⟨pl.wSupport * (pl.n * pl.n), fun _ => 0⟩, ⟨pl.n * pl.n, fun _ => 0⟩, tmp⟩ : DBufs), F0)
        (List.range (1 + fl.2 - fl.1).toNat) with
      | none => rfl
      | some q =>
        simp only [Option.map_some, Option.bind_some]
        rw [if_neg (by simp)]
        cases loop (fun st i => gridAccum pl pat (S1 i) st i) q (List.range pl.wSupport) with
        | none => rfl
        | some st =>
          simp only [Option.bind_some]
          rw [hstore, Option.map_map, Option.map_map]
          rfl

/-! ## What does not hold -/

/-- **C126: a failed check of the coordinates or the channel ranges is undefined.**  The bounds stay infinite, and the
planes are computed from them before the status is looked at. -/
theorem C126_bounds_false (pl : Plan K ℂ) (ob : Obs K) (A : CallArgs) (hj : A.together = true)
    (hb : A.cpuBoundsStatus ≠ .success) (pat img vis : Arr ℂ) (startRow endRow : Int) (S0 S S1 : Nat → Sched)
    (T0 W0 F0 tmp : Arr ℂ) :
    degridCpu pl ob A pat img .success S0 S T0 W0 tmp vis = none ∧
      gridCpu pl ob A pat vis startRow endRow .success S S1 F0 tmp img = none := by
  unfold degridCpu gridCpu cpuBounds
  rw [if_neg (by simp), if_neg (by rw [hj]; simp), if_pos hb, if_neg (by simp), if_neg (by rw [hj]; simp)]
  exact ⟨rfl, rfl⟩

/-- **C126: refused calls count planes.**  Degridding from an image of the wrong type or dimensions is refused before
anything is computed; all planes are counted as processed. -/
theorem C126_count_false (pl : Plan K ℂ) (ob : Obs K) (A : CallArgs) (hA : A.CpuInputs)
    (hi : A.img.numDims ≠ 2 ∨ ¬(A.vis.type = .complexDouble ∧ (A.img.type = .double ∨ A.img.type = .complexDouble) ∨
      A.vis.type = .complexFloat ∧ (A.img.type = .float ∨ A.img.type = .complexFloat)))
    (b : MinMax K × MinMax K × MinMax K) (fl : Int × Int)
    (hp : Planes pl (fixFreq ob) (A.uvw.shapeDim 0).toNat b fl) (pat img vis : Arr ℂ) (S0 S : Nat → Sched)
    (T0 W0 tmp : Arr ℂ) :
    ∃ s, s ≠ .success ∧
      degridCpu pl ob A pat img .success S0 S T0 W0 tmp vis = some (s, vis, 1 + fl.2 - fl.1) := by
  have hj : A.together = true := (together_iff A).2
    ⟨hA.iloc.trans hA.vloc.symm, hA.uloc.trans hA.vloc.symm, hA.sloc.trans hA.vloc.symm, hA.eloc.trans hA.vloc.symm⟩
  unfold degridCpu cpuBounds
  rw [if_neg (by simp), if_neg (by rw [hj]; simp), if_neg (by rw [bounds_ok hA]; simp), hp.1]
  simp only [Option.bind_some]
  rw [hp.2]
  simp only [Option.bind_some]
  have hs : (invCall true (cpuMem A.vis.type [(pl.n : Int), pl.n]) A.img
      (cpuMem .complexDouble [(pl.n : Int), pl.n]) (fl.1 - ((pl.wSupport / 2 : Nat) : Int)) .success (some img)
      pat).status ≠ .success := by
    rw [Ne, inv_status _ _ hA.iloc]
    rintro ⟨h1, h2⟩
    rcases hi with h | h
    · exact h h2
    · exact h h1
  rw [if_pos hs]
  exact ⟨_, hs, rfl⟩

/-! ## An example -/

/-- Arrays of the example: one row, three channels, an image of 8 x 8. -/
def exCpuArgs : CallArgs :=
  ⟨cpuMem .complexDouble [1, 3], cpuMem .complexDouble [8, 8], cpuMem .double [1, 3], cpuMem .int [1], cpuMem .int [1]⟩

theorem exCpu_inputs : exCpuArgs.CpuInputs := by
  refine ⟨by decide, by decide, by decide, by decide, by decide, by decide, by decide, by decide, by decide, by decide,
    by decide, by decide⟩

/-- Non-vacuity: right arrays; protected visibilities, which are refused; arguments that are refused for the image, and
for the bounds; an observation with visibilities. -/
example : exCpuArgs.DegridArgs ∧ exCpuArgs.GridArgs ∧
    exCpuArgs.img.shapeDim 0 = exPlanC.n ∧ exCpuArgs.img.shapeDim 1 = exPlanC.n ∧
    ({ exCpuArgs with vis := { exCpuArgs.vis with isReadOnly := true } } : CallArgs).degridStatus ≠ .success ∧
    ({ exCpuArgs with vis := { exCpuArgs.vis with isReadOnly := true } } : CallArgs).cpuBoundsStatus = .success ∧
    ({ exCpuArgs with uvw := cpuMem .int [1, 3] } : CallArgs).cpuBoundsStatus ≠ .success ∧
    ({ exCpuArgs with uvw := cpuMem .int [1, 3] } : CallArgs).together = true ∧
    ({ exCpuArgs with img := cpuMem .float [8, 8] } : CallArgs).CpuInputs ∧
    (∃ b, Planes exPlanC (fixFreq exOb) 1 b (0, 2)) ∧ (exCpuArgs.uvw.shapeDim 0).toNat = 1 ∧
    (fixFreq exOb).Made 1 ∧ exOb.numChan ≤ 21475 ∧ 0 < exPlanC.wStep ∧ 0 < exOb.c0 ∧ 0 ≤ exOb.df := by
  refine ⟨⟨exCpu_inputs, by decide, by decide, by decide, by decide⟩,
    ⟨exCpu_inputs, by decide, by decide, by decide, by decide⟩, by decide, by decide, by decide, by decide, by decide,
    by decide, ?_, exWhole.1, by decide, (exWhole.2.1 0 (by omega) (by omega)).obs, by decide, by decide +kernel,
    by decide +kernel, by decide +kernel⟩
  refine ⟨by decide, by decide, by decide, by decide, by decide, by decide, by decide, by decide, by decide, by decide,
    by decide, by decide⟩

end
end Sdp.WTower
