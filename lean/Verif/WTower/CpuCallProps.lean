import Verif.WTower.CpuCall
import Verif.WTower.Whole
import Verif.WTower.GpuCallMain

/-!
# C126: w-towers in main memory, refused and accepted calls
-/

set_option linter.unusedSectionVars false

namespace Sdp.WTower
open Sdp.Fft Sdp.GridUtil Sdp.Clamp

noncomputable section

variable {K : Type} [Field K] [LinearOrder K] [IsStrictOrderedRing K] [FloorRing K]

/-! ## The first plane -/

/-- Every selected visibility lies above the first plane by the margin of L787. -/
theorem first_margin (pl : Plan K ℂ) (hw : 0 < pl.wStep) (ob : Obs K) (hc : 0 < ob.c0) (hd : 0 ≤ ob.df) (m : Nat)
    (hm : ob.Made m) (b : MinMax K × MinMax K × MinMax K) (fl : Int × Int) (hp : Planes pl ob m b fl) (i : Nat)
    (hi : i < m) (c : Int) (h1 : ob.startChs.get i ≤ c) (h2 : c < ob.endChs.get i) :
    ((fl.1 : K) + ob.offW + 1 / 100000) * pl.wStep ≤ wAbs ob i c := by
  obtain ⟨b', e1, _, _, ex, _⟩ := C39_bounds_partial ob.c0 ob.f0 ob.df hc hd ob.uvw m ob.startChs
    ob.endChs (by rw [hm.uvw]; omega) (by rw [hm.s]) (by rw [hm.e])
  obtain rfl : b' = b := Option.some.inj (e1.symm.trans hp.1)
  have hmem : GridUtil.coords ob.c0 ob.f0 ob.df ob.uvw ob.startChs ob.endChs 2 (List.range m)
      (wAbs ob i c) := by
    refine ⟨i, List.mem_range.2 hi, c, h1, h2, ?_⟩
    unfold wAbs invLambda visCoord
    ring
  have lo := ex.lower _ hmem
  have hfl := hp.2
  unfold planeRange at hfl
  rcases hmn : b'.2.2.mn with _ | mn
  · rw [hmn] at hfl
    simp at hfl
  rcases hmx : b'.2.2.mx with _ | mx
  · rw [hmn, hmx] at hfl
    simp at hfl
  rw [hmn, hmx] at hfl
  rw [hmn] at lo
  have lo : mn ≤ wAbs ob i c := WithTop.coe_le_coe.1 lo
  simp only [Option.some.injEq] at hfl
  subst hfl
  simp only
  have := Int.floor_le (mn / pl.wStep - 1 / 100000)
  push_cast
  rw [← le_div_iff₀ hw]
  have h3 : mn / pl.wStep ≤ wAbs ob i c / pl.wStep := by gcongr
  linarith

/-- No visibility lies on the first plane, if there are not more than 21475 channels. -/
theorem first_empty (pl : Plan K ℂ) (hw : 0 < pl.wStep) (ob : Obs K) (hc : 0 < ob.c0) (hd : 0 ≤ ob.df) (m : Nat)
    (hm : ob.Made m) (b : MinMax K × MinMax K × MinMax K) (fl : Int × Int) (hp : Planes pl ob m b fl)
    (hch : ob.numChan ≤ 21475) (i : Nat) (hi : i < m) (c : Int) : ¬ OnPlane pl ob fl.1 i c := by
  rintro ⟨h1, h2, hs⟩
  have mg := first_margin pl hw ob hc hd m hm b fl hp i hi c h1 h2
  have hlt : ob.startChs.get i < ob.endChs.get i := by omega
  have c0 : 0 ≤ c := (hm.lo i hi hlt).trans h1
  have c1 : c ≤ 21474 := by
    have := hm.hi i hi hlt
    omega
  have ew : wAbs ob i c = coord (ob.f0 * ob.uvw.get (3 * i + 2) / ob.c0) (ob.df * ob.uvw.get (3 * i + 2) / ob.c0) c := by
    unfold wAbs invLambda coord
    ring
  rw [ew] at mg
  generalize ob.f0 * ob.uvw.get (3 * i + 2) / ob.c0 = u0 at *
  generalize ob.df * ob.uvw.get (3 * i + 2) / ob.c0 = du at *
  have e1 : ((fl.1 : K) + ob.offW + 1 / 100000) * pl.wStep = ((fl.1 : K) + ob.offW) * pl.wStep + pl.wStep / 100000 := by
    ring
  have e2 : ((fl.1 : K) + ob.offW - 1) * pl.wStep = ((fl.1 : K) + ob.offW) * pl.wStep - pl.wStep := by ring
  rw [e1] at mg
  unfold Sel at hs
  rw [e2] at hs
  generalize ((fl.1 : K) + ob.offW) * pl.wStep = hi' at *
  have hm5 : 0 < pl.wStep / 100000 := by positivity
  rcases hs with ⟨_, _, _, h⟩ | ⟨_, _, _, h⟩ | ⟨hr, ha, hb⟩
  · linarith
  · linarith
  · -- the coordinate step is so small that 21474 of them do not bridge the margin
    have hdu : 2147483645 * |du| ≤ pl.wStep := by
      by_contra hcon
      push Not at hcon
      apply hr
      constructor
      · refine lt_of_le_of_lt ?_ hcon
        rw [abs_le]; constructor <;> linarith
      · refine lt_of_le_of_lt ?_ hcon
        rw [abs_le]; constructor <;> linarith
    have hcK : (c : K) ≤ 21474 := by exact_mod_cast c1
    have hc0K : (0 : K) ≤ c := by exact_mod_cast c0
    have h5 : coord u0 du c ≤ u0 + 21474 * |du| := by
      unfold coord
      have : du * (c : K) ≤ |du| * c := mul_le_mul_of_nonneg_right (le_abs_self _) hc0K
      have : |du| * (c : K) ≤ |du| * 21474 := mul_le_mul_of_nonneg_left hcK (abs_nonneg _)
      linarith
    linarith

/-- The loop of `degrid` selects nothing on the first plane. -/
theorem plane0_empty (pl : Plan K ℂ) (ob : Obs K) (p : Int) (m : Nat) (hm : ob.Made m)
    (he : ∀ i, i < m → ∀ c, ¬ OnPlane pl ob p i c) (T : Arr ℂ) (order : List Nat) (ho : ∀ i ∈ order, i < m)
    (vis r : Arr ℂ) (h : degridPlane0 pl ob p T order vis = some r) : r = vis := by
  unfold degridPlane0 at h
  induction order generalizing vis with
  | nil => exact (Option.some.inj h).symm
  | cons i l ih =>
    obtain ⟨q, q1, q2⟩ := rowSel_ok pl ob p m hm i (ho i (by simp))
    have hq : q.2 ≤ q.1 := by
      by_contra hcon
      exact he i (ho i (by simp)) q.1 ((q2 q.1).1 ⟨le_rfl, by omega⟩).1
    have hz : rowsOf q.1 q.2 = [] := by
      unfold rowsOf
      have : (q.2 - q.1).toNat = 0 := by omega
      rw [this]
      rfl
    simp only [loop] at h
    rw [q1] at h
    simp only [Option.bind_some] at h
    rw [hz] at h
    simp only [loop, Option.bind_some] at h
    exact ih (fun i hi => ho i (by simp [hi])) vis h

/-! ## The sweeps -/

/-- Status after the degridding kernel, on every plane. -/
def CallArgs.degridStatus (A : CallArgs) : Status :=
  if A.kernel = false then .dataType
  else if A.chStatus ≠ .success then A.chStatus
  else (checkAndView A.vis A.vis.type 2 .cpu (checkAndViewConst A.uvw A.uvw.type 2 .cpu .success).2).2

theorem kernel_status {pl : Plan K ℂ} {ob : Obs K} {p : Int} {A : CallArgs} {T : Arr ℂ} {rows : List Nat} {vis : Arr ℂ}
    {r : Status × Arr ℂ} (h : degridCpuKernel pl ob p A T rows vis = some r) : r.1 = A.degridStatus := by
  unfold degridCpuKernel at h
  unfold CallArgs.degridStatus
  by_cases h1 : A.kernel = false
  · rw [if_pos h1] at h ⊢
    cases h
    rfl
  · rw [if_neg h1] at h ⊢
    by_cases h2 : A.chStatus ≠ .success
    · rw [if_pos h2] at h ⊢
      cases h
      rfl
    · rw [if_neg h2] at h ⊢
      obtain ⟨v, -, rfl⟩ := Option.map_eq_some_iff.1 h
      rfl

/-- A failed kernel call writes, if at all, as `degridPlane0`. -/
theorem kernel_failed {pl : Plan K ℂ} {ob : Obs K} {p : Int} {A : CallArgs} {T : Arr ℂ} {rows : List Nat} {vis : Arr ℂ}
    {r : Status × Arr ℂ} (h : degridCpuKernel pl ob p A T rows vis = some r) (hf : A.degridStatus ≠ .success) :
    r.2 = vis ∨ degridPlane0 pl ob p T rows vis = some r.2 := by
  unfold degridCpuKernel at h
  unfold CallArgs.degridStatus at hf
  by_cases h1 : A.kernel = false
  · rw [if_pos h1] at h
    cases h
    exact Or.inl rfl
  · rw [if_neg h1] at h hf
    by_cases h2 : A.chStatus ≠ .success
    · rw [if_pos h2] at h
      cases h
      exact Or.inl rfl
    · rw [if_neg h2] at h hf
      simp only [if_neg hf] at h
      obtain ⟨v, hv, rfl⟩ := Option.map_eq_some_iff.1 h
      exact Or.inr hv

theorem kernel_passed {pl : Plan K ℂ} {ob : Obs K} {p : Int} {A : CallArgs} {T : Arr ℂ} {rows : List Nat} {vis : Arr ℂ}
    (hf : A.degridStatus = .success) :
    degridCpuKernel pl ob p A T rows vis = (degridPlane pl ob p T rows vis).map fun v => (.success, v) := by
  unfold CallArgs.degridStatus at hf
  unfold degridCpuKernel
  by_cases h1 : A.kernel = false
  · rw [if_pos h1] at hf
    cases hf
  · rw [if_neg h1] at hf ⊢
    by_cases h2 : A.chStatus ≠ .success
    · rw [if_pos h2] at hf
      exact absurd hf h2
    · rw [if_neg h2] at hf ⊢
      simp only [hf, if_true]

/-- After an error the sweep does nothing more. -/
theorem degrid_stop (pl : Plan K ℂ) (ob : Obs K) (A : CallArgs) (pat : Arr ℂ) (first : Int) (S : Nat → Sched)
    (l : List Nat) (s : Status × DBufs × Arr ℂ) (h : s.1 ≠ .success) :
    loop (degridCpuStep pl ob A pat first S) s l = some s := by
  induction l with
  | nil => rfl
  | cons j l ih =>
    simp only [loop]
    unfold degridCpuStep
    rw [if_pos h]
    exact ih

/-- If the kernels pass, the sweep is the one of `degridCall`. -/
theorem degrid_passed (pl : Plan K ℂ) (ob : Obs K) (A : CallArgs) (pat : Arr ℂ) (first : Int) (S : Nat → Sched)
    (hf : A.degridStatus = .success) (l : List Nat) (b : DBufs × Arr ℂ) :
    loop (degridCpuStep pl ob A pat first S) (.success, b) l =
      (loop (degridStep pl ob pat first S) b l).map fun r => (.success, r) := by
  induction l generalizing b with
  | nil => rfl
  | cons j l ih =>
    simp only [loop]
    have e : degridCpuStep pl ob A pat first S (.success, b) j =
        (degridStep pl ob pat first S b j).map fun r => (.success, r) := by
      unfold degridCpuStep degridStep
      rw [if_neg (by simp)]
      simp only [kernel_passed hf]
      cases (if j = 0 then some b.1 else degridMove pl pat (S j) b.1) with
      | none => rfl
      | some q =>
        simp only [Option.bind_some]
        cases degridPlane pl ob (first + j) q.T (S j).rows b.2 <;> rfl
    rw [e]
    cases degridStep pl ob pat first S b j with
    | none => rfl
    | some q => exact ih q

/-! ## Gridding -/

/-- Status after the gridding kernel, on every plane. -/
def CallArgs.gridStatus (A : CallArgs) : Status :=
  if A.kernel = false then .dataType
  else if A.chStatus ≠ .success then A.chStatus
  else (checkAndViewConst A.vis A.vis.type 2 .cpu (checkAndViewConst A.uvw A.uvw.type 2 .cpu .success).2).2

theorem gridKernel_passed {pl : Plan K ℂ} {ob : Obs K} {p : Int} {A : CallArgs} {T : Arr ℂ} {rows : List Nat}
    {vis : Arr ℂ} (hf : A.gridStatus = .success) :
    gridCpuKernel pl ob p A vis rows T = (gridPlane pl ob p vis rows T).map fun T => (.success, T) := by
  unfold CallArgs.gridStatus at hf
  unfold gridCpuKernel
  by_cases h1 : A.kernel = false
  · rw [if_pos h1] at hf
    cases hf
  · rw [if_neg h1] at hf ⊢
    by_cases h2 : A.chStatus ≠ .success
    · rw [if_pos h2] at hf
      exact absurd hf h2
    · rw [if_neg h2] at hf ⊢
      simp only [hf, if_true]

theorem grid_passed (pl : Plan K ℂ) (ob : Obs K) (A : CallArgs) (pat vis : Arr ℂ) (first : Int) (rows : List Nat)
    (S : Nat → Sched) (hf : A.gridStatus = .success) (l : List Nat) (b : DBufs × Arr ℂ) :
    loop (gridCpuStep pl ob A pat vis first rows S) (.success, b) l =
      (loop (gridStep pl ob pat vis first rows S) b l).map fun r => (.success, r) := by
  induction l generalizing b with
  | nil => rfl
  | cons j l ih =>
    simp only [loop]
    have e : gridCpuStep pl ob A pat vis first rows S (.success, b) j =
        (gridStep pl ob pat vis first rows S b j).map fun r => (.success, r) := by
      unfold gridCpuStep gridStep
      rw [if_neg (by simp)]
      simp only [gridKernel_passed hf]
      cases (if j = 0 then some b else gridMove pl pat (S j) b) with
      | none => rfl
      | some q =>
        simp only [Option.bind_some]
        cases gridPlane pl ob (first + j) vis rows q.1.T <;> rfl
    rw [e]
    cases gridStep pl ob pat vis first rows S b j with
    | none => rfl
    | some q => exact ih q

/-- Views of the arrays made by the call never fail. -/
theorem cpuMem_view (n : Nat) (s : Status) (hs : s = .success) :
    (checkAndViewConst (cpuMem .complexDouble [(n : Int), n]) .complexDouble 2 .cpu s).2 = .success := by
  subst hs
  rfl

/-- A run over a view that failed its checks has no threads. -/
theorem run_failed (img : Mem) (hv : (checkAndView img img.type 2 .cpu .success).2 ≠ .success) (st : Status)
    (body : Nat × Nat → Race.Prog ℂ) :
    (cpuRun st (checkAndView img img.type 2 .cpu .success).1 body).threads = [] := by
  have h : ∀ s : Status, s ≠ .success → rows (mkView img 2 s) = 0 := by
    intro s hs
    simp [rows, mkView, hs]
  have : rows (checkAndView img img.type 2 .cpu .success).1 = 0 := h _ hv
  unfold cpuRun
  simp only
  rw [this]
  rfl

theorem run_status (st : Status) (vo : View) (body : Nat × Nat → Race.Prog ℂ) : (cpuRun st vo body).status = st := rfl

theorem accumCpu_failed (img m1 m2 : Mem) (h1 : (checkAndViewConst m1 m1.type 2 .cpu .success).2 = .success)
    (h2 : (checkAndViewConst m2 .complexDouble 2 .cpu .success).2 = .success) (e : Int) (src : Option (Arr ℂ))
    (pat : Arr ℂ) (h : (accumCpu img m1 (some m2) e .success src pat).status ≠ .success) :
    (accumCpu img m1 (some m2) e .success src pat).threads = [] := by
  by_cases hv : (checkAndView img img.type 2 .cpu .success).2 = .success
  · exfalso
    apply h
    unfold accumCpu
    simp only
    by_cases he : e = 0
    · rw [if_pos he, run_status, hv, h1]
    · rw [if_neg he, run_status, hv, h1, h2]
  · unfold accumCpu
    simp only
    by_cases he : e = 0
    · rw [if_pos he]
      exact run_failed img hv _ _
    · rw [if_neg he]
      exact run_failed img hv _ _

theorem realCpu_failed (img m1 : Mem) (h1 : (checkAndViewConst m1 m1.type 2 .cpu .success).2 = .success)
    (src : Option (Arr ℂ)) (h : (realCpu img m1 .success src).status ≠ .success) :
    (realCpu img m1 .success src).threads = [] := by
  by_cases hv : (checkAndView img img.type 2 .cpu .success).2 = .success
  · exfalso
    apply h
    show (checkAndViewConst m1 m1.type 2 .cpu (checkAndView img img.type 2 .cpu .success).2).2 = _
    rw [hv, h1]
  · exact run_failed img hv _ _

/-- An accumulation in main memory that fails its checks runs on no element. -/
theorem accum_failed (img m1 m2 : Mem) (hl : img.location = .cpu)
    (h1 : (checkAndViewConst m1 m1.type 2 .cpu .success).2 = .success)
    (h2 : (checkAndViewConst m2 .complexDouble 2 .cpu .success).2 = .success) (e : Int) (src : Option (Arr ℂ))
    (pat : Arr ℂ) (h : (accumCall true img m1 (some m2) e .success src pat).status ≠ .success) :
    (accumCall true img m1 (some m2) e .success src pat).threads = [] := by
  unfold accumCall at h ⊢
  rw [if_neg (by simp)] at h ⊢
  by_cases hd : m1.location ≠ img.location
  · rw [if_pos hd]
    rfl
  rw [if_neg hd] at h ⊢
  simp only [hl] at h ⊢
  cases hk : accumKind img.type m1.type ((some m2).elim .complexDouble Mem.type) with
  | none => rfl
  | some k =>
    rw [hk] at h
    cases k with
    | scale => exact accumCpu_failed img m1 m2 h1 h2 _ src pat h
    | real => exact realCpu_failed img m1 h1 src h

end
end Sdp.WTower
