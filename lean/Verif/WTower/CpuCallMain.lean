import Verif.WTower.CpuCallProps

/-!
# C126: a w-towers call in main memory that reports an error changes nothing; one that reports none has done all its work
-/

set_option linter.unusedSectionVars false

namespace Sdp.WTower
open Sdp.Fft Sdp.GridUtil Sdp.Clamp

noncomputable section

variable {K : Type} [Field K] [LinearOrder K] [IsStrictOrderedRing K] [FloorRing K]

/-! ## What a caller has to pass -/

/-- Arrays that both calls ask for: all in main memory, channel ranges of one dimension and type `int`, coordinates and
visibilities of two dimensions and matching types. -/
structure CallArgs.CpuInputs (A : CallArgs) : Prop where
  vloc : A.vis.location = .cpu
  iloc : A.img.location = .cpu
  uloc : A.uvw.location = .cpu
  sloc : A.startChs.location = .cpu
  eloc : A.endChs.location = .cpu
  stype : A.startChs.type = .int
  sdims : A.startChs.numDims = 1
  etype : A.endChs.type = .int
  edims : A.endChs.numDims = 1
  vdims : A.vis.numDims = 2
  udims : A.uvw.numDims = 2
  types : A.vis.type = .complexDouble ∧ A.uvw.type = .double ∨
    A.vis.type = .complexFloat ∧ (A.uvw.type = .double ∨ A.uvw.type = .float)

/-- Arrays for degridding: the visibilities can be written, the image has their precision. -/
structure CallArgs.DegridArgs (A : CallArgs) : Prop extends A.CpuInputs where
  vdata : A.vis.data ≠ none
  vwrite : A.vis.isReadOnly = false
  idims : A.img.numDims = 2
  itype : A.vis.type = .complexDouble ∧ (A.img.type = .double ∨ A.img.type = .complexDouble) ∨
    A.vis.type = .complexFloat ∧ (A.img.type = .float ∨ A.img.type = .complexFloat)

/-- Arrays for gridding: the image can be written. -/
structure CallArgs.GridArgs (A : CallArgs) : Prop extends A.CpuInputs where
  idata : A.img.data ≠ none
  iwrite : A.img.isReadOnly = false
  idims : A.img.numDims = 2
  itype : A.img.type = .complexDouble ∨ A.img.type = .complexFloat

theorem together_iff (A : CallArgs) : A.together = true ↔ A.img.location = A.vis.location ∧
    A.uvw.location = A.vis.location ∧ A.startChs.location = A.vis.location ∧ A.endChs.location = A.vis.location := by
  unfold CallArgs.together
  rw [decide_eq_true_iff]

theorem kernel_iff (A : CallArgs) : A.kernel = true ↔ (A.vis.type = .complexDouble ∧ A.uvw.type = .double ∨
    A.vis.type = .complexFloat ∧ (A.uvw.type = .double ∨ A.uvw.type = .float)) := by
  unfold CallArgs.kernel
  rw [decide_eq_true_iff]

theorem chStatus_iff (A : CallArgs) : A.chStatus = .success ↔
    (A.startChs.type = .int ∧ A.startChs.numDims = 1 ∧ A.startChs.location = .cpu) ∧
      A.endChs.type = .int ∧ A.endChs.numDims = 1 ∧ A.endChs.location = .cpu := by
  unfold CallArgs.chStatus
  rw [viewConst_status, viewConst_status]
  simp

/-- The checks of the kernel for degridding pass for the right arrays, and only for them. -/
theorem degridStatus_iff (A : CallArgs) : A.degridStatus = .success ↔ A.kernel = true ∧ A.chStatus = .success ∧
    (A.uvw.numDims = 2 ∧ A.uvw.location = .cpu) ∧
    A.vis.numDims = 2 ∧ A.vis.location = .cpu ∧ A.vis.data ≠ none ∧ A.vis.isReadOnly = false := by
  unfold CallArgs.degridStatus
  by_cases h1 : A.kernel = false
  · rw [if_pos h1]
    simp [h1]
  · rw [if_neg h1]
    have h1' : A.kernel = true := by simpa using h1
    by_cases h2 : A.chStatus ≠ .success
    · rw [if_pos h2]
      simp [h2]
    · rw [if_neg h2, view_status, viewConst_status]
      have h2' : A.chStatus = .success := by simpa using h2
      simp [h1', h2', and_assoc]

theorem gridStatus_iff (A : CallArgs) : A.gridStatus = .success ↔ A.kernel = true ∧ A.chStatus = .success ∧
    (A.uvw.numDims = 2 ∧ A.uvw.location = .cpu) ∧ A.vis.numDims = 2 ∧ A.vis.location = .cpu := by
  unfold CallArgs.gridStatus
  by_cases h1 : A.kernel = false
  · rw [if_pos h1]
    simp [h1]
  · rw [if_neg h1]
    have h1' : A.kernel = true := by simpa using h1
    by_cases h2 : A.chStatus ≠ .success
    · rw [if_pos h2]
      simp [h2]
    · rw [if_neg h2, viewConst_status, viewConst_status]
      have h2' : A.chStatus = .success := by simpa using h2
      simp [h1', h2', and_assoc]

theorem bounds_ok {A : CallArgs} (h : A.CpuInputs) : A.cpuBoundsStatus = .success := by
  have h1 := (viewConst_status A.startChs .int 1 .cpu .success).2 ⟨rfl, h.stype, h.sdims, h.sloc⟩
  have h2 := (viewConst_status A.endChs .int 1 .cpu .success).2 ⟨rfl, h.etype, h.edims, h.eloc⟩
  have h3 := (viewConst_status A.uvw A.uvw.type 2 .cpu .success).2 ⟨rfl, rfl, h.udims, h.uloc⟩
  have ht : A.uvw.type = .double ∨ A.uvw.type = .float := by
    rcases h.types with ⟨-, h⟩ | ⟨-, h | h⟩
    · exact Or.inl h
    · exact Or.inl h
    · exact Or.inr h
  unfold CallArgs.cpuBoundsStatus
  simp only
  rw [h1, h2, if_pos ht, h3]

/-- The first quotient is accepted for an image of two dimensions and the right type, and only then. -/
theorem inv_status (t : MemType) (img : Mem) (hl : img.location = .cpu) (n : Nat) (e : Int) (src : Option (Arr ℂ))
    (pat : Arr ℂ) :
    (invCall true (cpuMem t [(n : Int), n]) img (cpuMem .complexDouble [(n : Int), n]) e .success src pat).status =
      .success ↔ (t = .complexDouble ∧ (img.type = .double ∨ img.type = .complexDouble) ∨
        t = .complexFloat ∧ (img.type = .float ∨ img.type = .complexFloat)) ∧ img.numDims = 2 := by
  have hmo : (cpuMem t [(n : Int), n]).location = .cpu := by cases t <;> rfl
  have hty : (cpuMem t [(n : Int), n]).type = t := by cases t <;> rfl
  have hz : (cpuMem .complexDouble [(n : Int), n]).location = .cpu := rfl
  have hzt : (cpuMem .complexDouble [(n : Int), n]).type = .complexDouble := rfl
  have hzv := cpuMem_view n .success rfl
  unfold invCall
  rw [if_neg (by simp), hmo, if_neg (by rw [hl, hz]; simp)]
  simp only [hty, hzt]
  by_cases ht : invTypes t img.type .complexDouble = true
  · rw [if_pos ht, run_status]
    have hv : (checkAndView (cpuMem t [(n : Int), n]) t 2 .cpu .success).2 = .success := by
      unfold invTypes at ht
      rw [decide_eq_true_iff] at ht
      rcases ht.2 with ⟨rfl, -⟩ | ⟨rfl, -⟩ <;> rfl
    rw [hv]
    have ht' := ht
    unfold invTypes at ht'
    rw [decide_eq_true_iff] at ht'
    constructor
    · intro h
      refine ⟨ht'.2, ?_⟩
      by_contra hd
      have : (checkAndViewConst img img.type 2 .cpu .success).2 ≠ .success := by
        rw [Ne, viewConst_status]
        exact fun hh => hd hh.2.2.1
      exact this ((viewConst_status _ _ _ _ _).1 h).1
    · rintro ⟨-, hd⟩
      rw [(viewConst_status img img.type 2 .cpu .success).2 ⟨rfl, rfl, hd, hl⟩]
      exact hzv
  · rw [if_neg ht]
    constructor
    · intro h
      exact absurd h (by simp [Run.none])
    · rintro ⟨h, -⟩
      exfalso
      apply ht
      unfold invTypes
      rw [decide_eq_true_iff]
      exact ⟨rfl, h⟩

/-! ## Refused calls -/

/-- **C126, refused at once.**  After an earlier error, or if the arrays are not all in the same memory, nothing is
changed and nothing is counted; an earlier error is kept. -/
theorem C126_refused (pl : Plan K ℂ) (ob : Obs K) (A : CallArgs) (pat img vis : Arr ℂ) (startRow endRow : Int)
    (status : Status) (S0 S S1 : Nat → Sched) (T0 W0 F0 tmp : Arr ℂ)
    (h : status ≠ .success ∨ A.img.location ≠ A.vis.location ∨ A.uvw.location ≠ A.vis.location ∨
      A.startChs.location ≠ A.vis.location ∨ A.endChs.location ≠ A.vis.location) :
    ∃ s, s ≠ .success ∧ (status ≠ .success → s = status) ∧
      degridCpu pl ob A pat img status S0 S T0 W0 tmp vis = some (s, vis, 0) ∧
      gridCpu pl ob A pat vis startRow endRow status S S1 F0 tmp img = some (s, img, 0) := by
  unfold degridCpu gridCpu
  by_cases h0 : status ≠ .success
  · refine ⟨status, h0, fun _ => rfl, ?_, ?_⟩ <;> rw [if_pos h0]
  · have hj : A.together = false := by
      rw [Bool.eq_false_iff, Ne, together_iff]
      rintro ⟨h1, h2, h3, h4⟩
      rcases h with h | h | h | h | h
      · exact h0 h
      · exact h h1
      · exact h h2
      · exact h h3
      · exact h h4
    refine ⟨.memLocation, by decide, fun h => absurd h h0, ?_, ?_⟩ <;> rw [if_neg h0, if_pos hj]

/-- Degridding taken apart. -/
theorem degrid_parts {pl : Plan K ℂ} {ob : Obs K} {A : CallArgs} {pat img : Arr ℂ} {S0 S : Nat → Sched}
    {T0 W0 tmp vis r : Arr ℂ} {s : Status} {n : Int} (hj : A.together = true)
    (h : degridCpu pl ob A pat img .success S0 S T0 W0 tmp vis = some (s, r, n)) :
    A.cpuBoundsStatus = .success ∧ ∃ b fl, Planes pl (fixFreq ob) (A.uvw.shapeDim 0).toNat b fl ∧
      n = 1 + fl.2 - fl.1 ∧
      (let e := fl.1 - ((pl.wSupport / 2 : Nat) : Int)
      let s0 := (invCall true (cpuMem A.vis.type [(pl.n : Int), pl.n]) A.img
        (cpuMem .complexDouble [(pl.n : Int), pl.n]) e .success (some img) pat).status
      (s0 ≠ .success ∧ s = s0 ∧ r = vis) ∨
      (s0 = .success ∧ ∃ W st q, scaleInv pl.n (S0 0).px W0 (some img) pat e = some W ∧
        loop (fun st i => fillLayer pl pat (S0 i) st i) (⟨T0, W, tmp⟩ : DBufs) (List.range pl.wSupport) = some st ∧
        loop (degridCpuStep pl (fixFreq ob) A pat fl.1 S) (.success, st, vis)
          (List.range (1 + fl.2 - fl.1).toNat) = some (s, q, r))) := by
  unfold degridCpu at h
  rw [if_neg (by simp), if_neg (by rw [hj]; simp)] at h
  obtain ⟨b, hb, h⟩ := Option.bind_eq_some_iff.1 h
  obtain ⟨fl, hfl, h⟩ := Option.bind_eq_some_iff.1 h
  have hbs : A.cpuBoundsStatus = .success := by
    by_contra hcon
    unfold cpuBounds at hb
    rw [if_pos hcon] at hb
    cases hb
    exact absurd hfl (by simp [planeRange, MinMax.init])
  unfold cpuBounds at hb
  rw [if_neg (by rw [hbs]; simp)] at hb
  refine ⟨hbs, b, fl, ⟨hb, hfl⟩, ?_⟩
  simp only at h ⊢
  by_cases hs : (invCall true (cpuMem A.vis.type [(pl.n : Int), pl.n]) A.img
      (cpuMem .complexDouble [(pl.n : Int), pl.n]) (fl.1 - ((pl.wSupport / 2 : Nat) : Int)) .success (some img)
      pat).status = .success
  · rw [if_neg (by rw [hs]; simp)] at h
    obtain ⟨W, hW, h⟩ := Option.bind_eq_some_iff.1 h
    obtain ⟨st, hst, h⟩ := Option.bind_eq_some_iff.1 h
    obtain ⟨q, hq, h⟩ := Option.map_eq_some_iff.1 h
    cases h
    exact ⟨rfl, Or.inr ⟨hs, W, st, q.2.1, hW, hst, hq⟩⟩
  · rw [if_pos hs] at h
    cases h
    exact ⟨rfl, Or.inl ⟨hs, rfl, rfl⟩⟩

/-- **C126, degridding (partial).**  A degridding call that ends with an error has not changed a single visibility, even
where the visibilities are protected and the loop over them runs all the same: no visibility lies on the first plane, and
there is no second one.  Partial: at most 21475 channels, rows and channel ranges inside the arrays; and a failed check
in the computation of the bounds is undefined (`C126_bounds_false`). -/
theorem C126_degrid_unchanged_partial (pl : Plan K ℂ) (hw : 0 < pl.wStep) (ob : Obs K) (hc : 0 < ob.c0) (hd : 0 ≤ ob.df)
    (A : CallArgs) (ho : (fixFreq ob).Made (A.uvw.shapeDim 0).toNat) (hch : ob.numChan ≤ 21475) (pat img : Arr ℂ)
    (status : Status) (S0 S : Nat → Sched) (hrows : ∀ i ∈ (S 0).rows, i < (A.uvw.shapeDim 0).toNat)
    (T0 W0 tmp vis r : Arr ℂ) (s : Status) (n : Int)
    (h : degridCpu pl ob A pat img status S0 S T0 W0 tmp vis = some (s, r, n)) (hs : s ≠ .success) : r = vis := by
  by_cases h0 : status ≠ .success
  · unfold degridCpu at h
    rw [if_pos h0] at h
    cases h
    rfl
  have h0' : status = .success := by simpa using h0
  subst h0'
  by_cases hj : A.together = false
  · unfold degridCpu at h
    rw [if_neg h0, if_pos hj] at h
    cases h
    rfl
  obtain ⟨-, b, fl, hp, -, hcase⟩ := degrid_parts (by simpa using hj) h
  rcases hcase with ⟨-, -, rfl⟩ | ⟨-, W, st, q, -, -, hl⟩
  · rfl
  by_cases hf : A.degridStatus = .success
  · rw [degrid_passed pl (fixFreq ob) A pat fl.1 S hf] at hl
    obtain ⟨x, -, hx⟩ := Option.map_eq_some_iff.1 hl
    cases hx
    exact absurd rfl hs
  · cases hN : (1 + fl.2 - fl.1).toNat with
    | zero =>
      rw [hN] at hl
      cases hl
      rfl
    | succ N =>
      rw [hN, List.range_succ_eq_map] at hl
      simp only [loop] at hl
      obtain ⟨x, hx, hl⟩ := Option.bind_eq_some_iff.1 hl
      unfold degridCpuStep at hx
      rw [if_neg (by simp), if_pos rfl] at hx
      simp only [Option.bind_some] at hx
      obtain ⟨y, hy, rfl⟩ := Option.map_eq_some_iff.1 hx
      have hy1 := kernel_status hy
      rw [degrid_stop _ _ _ _ _ _ _ _ (by simp only; rw [hy1]; exact hf)] at hl
      cases hl
      rcases kernel_failed hy hf with h1 | h1
      · exact h1
      · have hff : 0 < (fixFreq ob).c0 ∧ 0 ≤ (fixFreq ob).df ∧ (fixFreq ob).numChan = ob.numChan := by
          unfold fixFreq
          split_ifs
          · exact ⟨hc, by norm_num, rfl⟩
          · exact ⟨hc, hd, rfl⟩
        have he := first_empty pl hw (fixFreq ob) hff.1 hff.2.1 _ ho b fl hp (by rw [hff.2.2]; exact hch)
        simp only [Nat.cast_zero, add_zero] at h1
        exact plane0_empty pl (fixFreq ob) fl.1 _ ho he st.T _ hrows vis y.2 h1

/-- **C126, degridding, success.**  A degridding call that reports no error was given the right arrays, and its result is
the one of `degridCall`, about which C42 speaks. -/
theorem C126_degrid_success (pl : Plan K ℂ) (ob : Obs K) (A : CallArgs) (pat img : Arr ℂ) (status : Status)
    (S0 S : Nat → Sched) (T0 W0 tmp vis r : Arr ℂ) (n : Int) (hn : 0 < n)
    (h : degridCpu pl ob A pat img status S0 S T0 W0 tmp vis = some (.success, r, n)) :
    A.DegridArgs ∧ degridCall pl ob (A.uvw.shapeDim 0).toNat pat img S0 S T0 W0 tmp vis = some (r, n) := by
  by_cases h0 : status ≠ .success
  · unfold degridCpu at h
    rw [if_pos h0] at h
    simp only [Option.some.injEq, Prod.mk.injEq] at h
    exact absurd h.1 h0
  have h0' : status = .success := by simpa using h0
  subst h0'
  by_cases hj : A.together = false
  · unfold degridCpu at h
    rw [if_neg h0, if_pos hj] at h
    cases h
  have hj' : A.together = true := by simpa using hj
  obtain ⟨-, b, fl, hp, rfl, hcase⟩ := degrid_parts hj' h
  rcases hcase with ⟨h1, h2, -⟩ | ⟨hs0, W, st, q, hW, hst, hl⟩
  · exact absurd h2.symm h1
  have hf : A.degridStatus = .success := by
    by_contra hf
    obtain ⟨N, hN⟩ : ∃ N, (1 + fl.2 - fl.1).toNat = N + 1 := ⟨(1 + fl.2 - fl.1).toNat - 1, by omega⟩
    rw [hN, List.range_succ_eq_map] at hl
    simp only [loop] at hl
    obtain ⟨x, hx, hl⟩ := Option.bind_eq_some_iff.1 hl
    unfold degridCpuStep at hx
    rw [if_neg (by simp), if_pos rfl] at hx
    simp only [Option.bind_some] at hx
    obtain ⟨y, hy, rfl⟩ := Option.map_eq_some_iff.1 hx
    have hy1 := kernel_status hy
    rw [degrid_stop _ _ _ _ _ _ _ _ (by simp only; rw [hy1]; exact hf)] at hl
    simp only [Option.some.injEq, Prod.mk.injEq] at hl
    exact hf (hy1.symm.trans hl.1)
  obtain ⟨k1, k2, ⟨k3, k4⟩, k5, k6, k7, k8⟩ := (degridStatus_iff A).1 hf
  obtain ⟨⟨c1, c2, c3⟩, c4, c5, c6⟩ := (chStatus_iff A).1 k2
  obtain ⟨j1, -, -, -⟩ := (together_iff A).1 hj'
  obtain ⟨i1, i2⟩ := (inv_status _ _ (j1.trans k6) _ _ _ _).1 hs0
  refine ⟨⟨⟨k6, j1.trans k6, k4, c3, c6, c1, c2, c4, c5, k5, k3, (kernel_iff A).1 k1⟩, k7, k8, i2, i1⟩, ?_⟩
  rw [degrid_passed pl (fixFreq ob) A pat fl.1 S hf] at hl
  obtain ⟨x, hx, hxe⟩ := Option.map_eq_some_iff.1 hl
  cases hxe
  unfold degridCall
  simp only
  rw [hp.1]
  simp only [Option.bind_some]
  rw [hp.2]
  simp only [Option.bind_some]
  rw [hW]
  simp only [Option.bind_some]
  rw [hst]
  simp only [Option.bind_some]
  rw [hx]
  rfl

/-- **C126, degridding, accepted.**  With the right arrays no error is reported, and the call is `degridCall`. -/
theorem C126_degrid_accepted (pl : Plan K ℂ) (ob : Obs K) (A : CallArgs) (hA : A.DegridArgs) (pat img : Arr ℂ)
    (S0 S : Nat → Sched) (T0 W0 tmp vis : Arr ℂ) :
    degridCpu pl ob A pat img .success S0 S T0 W0 tmp vis =
      (degridCall pl ob (A.uvw.shapeDim 0).toNat pat img S0 S T0 W0 tmp vis).map fun r => (.success, r.1, r.2) := by
  have hf : A.degridStatus = .success := (degridStatus_iff A).2 ⟨(kernel_iff A).2 hA.types,
    (chStatus_iff A).2 ⟨⟨hA.stype, hA.sdims, hA.sloc⟩, hA.etype, hA.edims, hA.eloc⟩, ⟨hA.udims, hA.uloc⟩, hA.vdims,
    hA.vloc, hA.vdata, hA.vwrite⟩
  have hj : A.together = true := (together_iff A).2
    ⟨hA.iloc.trans hA.vloc.symm, hA.uloc.trans hA.vloc.symm, hA.sloc.trans hA.vloc.symm, hA.eloc.trans hA.vloc.symm⟩
  unfold degridCpu degridCall cpuBounds
  rw [if_neg (by simp), if_neg (by rw [hj]; simp), if_neg (by rw [bounds_ok hA.toCpuInputs]; simp)]
  simp only
  cases uvwBounds (fixFreq ob).c0 (fixFreq ob).f0 (fixFreq ob).df (fixFreq ob).uvw (A.uvw.shapeDim 0).toNat
    (fixFreq ob).startChs (fixFreq ob).endChs with
  | none => rfl
  | some b =>
    simp only [Option.bind_some]
    cases planeRange pl.wStep (fixFreq ob).offW b.2.2 with
    | none => rfl
    | some fl =>
      simp only [Option.bind_some]
      have hs : (invCall true (cpuMem A.vis.type [(pl.n : Int), pl.n]) A.img
          (cpuMem .complexDouble [(pl.n : Int), pl.n]) (fl.1 - ((pl.wSupport / 2 : Nat) : Int)) .success (some img)
          pat).status = .success := (inv_status _ _ hA.iloc _ _ _ _).2 ⟨hA.itype, hA.idims⟩
      rw [if_neg (by rw [hs]; simp)]
      cases scaleInv pl.n (S0 0).px W0 (some img) pat (fl.1 - ((pl.wSupport / 2 : Nat) : Int)) with
      | none => rfl
      | some W =>
        simp only [Option.bind_some]
        cases loop (fun st i => fillLayer pl pat (S0 i) st i) (⟨T0, W, tmp⟩ : DBufs) (List.range pl.wSupport) with
        | none => rfl
        | some st =>
          simp only [Option.bind_some]
          rw [degrid_passed pl (fixFreq ob) A pat fl.1 S hf, Option.map_map, Option.map_map]
          rfl

end
end Sdp.WTower
