import Verif.EsFft.CallMain
import Verif.EsFft.Choice

/-!
# C101: plans that are made, buffers on the CPU, and where the calls of the ES gridder fall short
-/

set_option linter.unusedSectionVars false

namespace Sdp.EsFft
open Finset Race
noncomputable section

/-- **C101 (plans).** The grid chosen for a plan has even side and is larger than the even part of the image by at least two
points, and the kernel has between 4 and 16 points: what the plan of a call has to meet. -/
theorem C101_made (eps : ℚ) (image : Nat) (double : Bool) (p : Params) (h : chooseParams eps image double = some p) :
    p.gridSize % 2 = 0 ∧ 2 * ((image / 2 : Nat) : Int) + 2 ≤ p.gridSize ∧ 4 ≤ p.support ∧ p.support ≤ 16 := by
  obtain ⟨i, r, h1, h2, -, -, ⟨m, hm, hl⟩, -, -⟩ := C70_choice_partial eps image double p h
  obtain ⟨r', r1, r2, r3, r4, -⟩ := db_facts ⟨i, row_lt h1⟩
  have e := row_unique h1 r1
  subst e
  have hf : ((image / 2 : Nat) : Int) ≤ ⌊(image : ℚ) * r.os * (1 / 2)⌋ := by
    rw [Int.le_floor]
    have a1 : ((image / 2 : Nat) : ℚ) * 2 ≤ image := by
      have : image / 2 * 2 ≤ image := Nat.div_mul_le_self _ _
      exact_mod_cast this
    have a2 : (image : ℚ) * 1 ≤ image * r.os := mul_le_mul_of_nonneg_left (by linarith) (by positivity)
    have a3 : (((image / 2 : Nat) : Int) : ℚ) = ((image / 2 : Nat) : ℚ) := Int.cast_natCast _
    rw [a3]
    linarith
  have := hl.1.2
  refine ⟨by omega, by omega, by omega, by omega⟩

/-- **C101 (CPU).** Buffers on the CPU pass the checks, but the calls then fail and write nothing. -/
theorem C101_cpu (P : Plan) (d : Data) (uvw freq vis weight img : Mem) (hg : vis.location ≠ .gpu)
    (hi : 0 < (img.shapeDim 0).toNat) :
    (checkBuffers uvw freq vis weight img false .success = .success → ∀ o,
      gridCall (some P) uvw freq vis weight img d .success o ↔ o = some (.memLocation, d.img)) ∧
    (checkBuffers uvw freq vis weight img true .success = .success → ∀ o,
      degridCall (some P) uvw freq vis weight img d .success o ↔ o = some (.memLocation, d.img, d.vis)) := by
  have hgd : decide (vis.location = .gpu) = false := by simp [hg]
  generalize hn : (img.shapeDim 0).toNat = n at hi
  have ht : imageThreads n ≠ 0 := by unfold imageThreads; omega
  have stay : ∀ l o, Steps (gridPlane P n false d) l (.memLocation, d.img) o ↔ o = some (.memLocation, d.img) := by
    intro l
    induction l with
    | nil => exact fun o => Iff.rfl
    | cons b l ih =>
      intro o
      have : gridPlane P n false d b (.memLocation, d.img) = fun o => o = some (.memLocation, d.img) := by
        funext o
        unfold gridPlane
        rw [if_pos (by simp)]
      unfold Steps Then
      rw [this]
      simp only [reduceCtorEq, false_and, false_or, Option.some.injEq, exists_eq_left]
      exact ih o
  have stay' : ∀ l o, Steps (degridPlane P n false d d.img) l (.memLocation, d.vis) o ↔ o = some (.memLocation, d.vis) := by
    intro l
    induction l with
    | nil => exact fun o => Iff.rfl
    | cons b l ih =>
      intro o
      have : degridPlane P n false d d.img b (.memLocation, d.vis) = fun o => o = some (.memLocation, d.vis) := by
        funext o
        unfold degridPlane
        rw [if_pos (by simp)]
      unfold Steps Then
      rw [this]
      simp only [reduceCtorEq, false_and, false_or, Option.some.injEq, exists_eq_left]
      exact ih o
  have scale : ∀ s : Status, s = .success ∨ s = .memLocation →
      scalePart P n false (s, d.img) = fun o => o = some (.memLocation, d.img) := by
    rintro s (rfl | rfl)
    · funext o
      unfold scalePart
      rw [if_neg ht, if_neg (by simp), if_pos rfl]
    · funext o
      unfold scalePart
      rw [if_neg ht, if_pos (by simp)]
  constructor
  · intro hc o
    unfold gridCall
    simp only [hc, hgd, hn, ne_eq, not_true_eq_false, if_false]
    cases hp : List.range P.planes with
    | nil =>
      unfold Then
      simp only [Steps, reduceCtorEq, false_and, false_or, Option.some.injEq, exists_eq_left]
      rw [scale .success (Or.inl rfl)]
    | cons b l =>
      have first : gridPlane P n false d b (.success, d.img) = fun o => o = some (.memLocation, d.img) := by
        funext o
        unfold gridPlane
        rw [if_neg (by simp), if_neg ht, if_pos rfl]
      have all : ∀ o, Steps (gridPlane P n false d) (b :: l) (.success, d.img) o ↔ o = some (.memLocation, d.img) := by
        intro o
        unfold Steps Then
        rw [first]
        simp only [reduceCtorEq, false_and, false_or, Option.some.injEq, exists_eq_left]
        exact stay l o
      unfold Then
      simp only [all]
      simp only [reduceCtorEq, false_and, false_or, Option.some.injEq, exists_eq_left]
      rw [scale .memLocation (Or.inr rfl)]
  · intro hc o
    unfold degridCall
    simp only [hc, hgd, hn, ne_eq, not_true_eq_false, if_false]
    rw [scale .success (Or.inl rfl)]
    unfold Then
    simp only [reduceCtorEq, false_and, false_or, Option.some.injEq, exists_eq_left, stay']

/-- **C101 fails: the image is not only written.** It is documented as output, but what it held before, divided by the
correction, stays in the dirty image: even without any visibility other than zero. -/
theorem C101_old_false (P : Plan) (d : Data) (h : P.Ready d) (uvw freq vis weight img : Mem)
    (ha : Accepted P uvw freq vis weight img false) (h0 : ∀ r c, P.visAt d.vis r c = 0) (row col : Nat) (hr : row < P.even)
    (hc : col < P.even) (hold : P.pix d.img row col ≠ 0) (o : Option (Status × Arr ℝ))
    (ho : gridCall (some P) uvw freq vis weight img d .success o) :
    ∃ out, o = some (.success, out) ∧ P.pix out row col = P.pix d.img row col / P.corr row col ∧ P.pix out row col ≠ 0 := by
  obtain ⟨out, rfl, g⟩ := (C101_grid_partial P d h uvw freq vis weight img ha).1 o ho
  have hk := h.corr row col hr hc
  have e : P.corr row col * P.pix out row col = P.pix d.img row col := by
    rw [g.pixel row col hr hc]
    simp [h0, Plan.mirror]
  have e' : P.pix out row col = P.pix d.img row col / P.corr row col := by
    rw [← e]
    field_simp
  exact ⟨out, rfl, e', by rw [e']; exact div_ne_zero hold hk⟩

/-- **C101 fails: so are the visibilities.** Also documented as output, they keep what they held: degridding an empty image
leaves them. -/
theorem C101_keep_false (P : Plan) (d : Data) (h : P.Ready d) (uvw freq vis weight img : Mem)
    (ha : Accepted P uvw freq vis weight img true) (h0 : ∀ row col, P.pix d.img row col = 0)
    (o : Option (Status × Arr ℝ × Arr (ℝ × ℝ))) (ho : degridCall (some P) uvw freq vis weight img d .success o) :
    ∃ i v, o = some (.success, i, v) ∧ ∀ r c, r < P.rows → c < P.chans → P.visAt v r c = P.visAt d.vis r c := by
  obtain ⟨i, v, rfl, g⟩ := (C101_degrid_partial P d h uvw freq vis weight img ha).1 o ho
  refine ⟨i, v, rfl, fun r c hr hc => ?_⟩
  rw [g.vis r c hr hc]
  have z : ∑ row ∈ range P.even, ∑ col ∈ range P.even, (P.pix i row col : ℂ) * (starRingEnd ℂ) (P.wave d r c row col) = 0 := by
    refine sum_eq_zero fun row hr' => sum_eq_zero fun col hc' => ?_
    have e := g.pixel row col (mem_range.1 hr') (mem_range.1 hc')
    rw [h0] at e
    rcases mul_eq_zero.1 e with e | e
    · exact absurd e (h.corr row col (mem_range.1 hr') (mem_range.1 hc'))
    · rw [e]
      simp
  rw [z]
  simp [Plan.mirror]

/-- **C101 fails: degridding takes weights and does not use them.** -/
theorem C101_weight_false (plan : Option Plan) (uvw freq vis weight img : Mem) (d : Data) (w : Arr ℝ) (status : Status)
    (o : Option (Status × Arr ℝ × Arr (ℝ × ℝ))) :
    degridCall plan uvw freq vis weight img d status o ↔ degridCall plan uvw freq vis weight img { d with weight := w } status o :=
  Iff.rfl

theorem mapM_none {α β : Type} (f : α → Option β) (x : α) (hx : f x = none) (l : List α) (h : x ∈ l) : l.mapM f = none := by
  induction l with
  | nil => cases h
  | cons y l ih =>
    rw [List.mapM_cons]
    rcases List.mem_cons.1 h with rfl | h
    · rw [hx]
      rfl
    · rw [ih h]
      cases f y <;> rfl

/-- **C101 fails for buffers that are not the plan's.** The sizes of the buffers are not compared with the plan: with fewer
rows than the plan every call reads outside the coordinates. -/
theorem C101_plan_false (P : Plan) (d : Data) (uvw freq vis weight img : Mem) (ha : Accepted P uvw freq vis weight img false)
    (himg : 0 < P.image) (hp : 0 < P.planes) (hr : 0 < P.rows) (hc : 0 < P.chans) (hu : d.uvw.size ≤ 3 * (P.rows - 1)) :
    ∀ o, gridCall (some P) uvw freq vis weight img d .success o ↔ o = none := by
  have ht : imageThreads P.image ≠ 0 := by unfold imageThreads; omega
  have e : gridCall (some P) uvw freq vis weight img d .success =
      Then (Steps (gridPlane P P.image true d) (List.range P.planes) (.success, d.img)) (scalePart P P.image true) := by
    funext o
    unfold gridCall
    simp only [ha.check, ha.gpu, ha.side, ne_eq, not_true_eq_false, if_false, decide_true, Int.toNat_natCast]
  have ops : ∀ b, gridOps (P.kargs b) d.uvw d.freq d.weight d.vis = none := by
    intro b
    unfold gridOps
    rw [mapM_none _ (P.rows - 1, 0)]
    · rfl
    · unfold gridThread position
      have : d.uvw.read ((3 * (P.rows - 1) : Nat) : Int) = none := by
        rw [Arr.read_nat, if_neg (by omega)]
      simp only [this, Option.bind_none]
    · rw [mem_nest2]
      exact ⟨Nat.sub_lt hr Nat.one_pos, hc⟩
  have run : ∀ b o, GridRun (P.kargs b) d P.clear o ↔ o = none := by
    intro b o
    unfold GridRun
    simp [ops]
  have first : ∀ b o, gridPlane P P.image true d b (.success, d.img) o ↔ o = none := by
    intro b o
    unfold gridPlane
    rw [if_neg (by simp), if_neg ht, if_neg (by simp), if_neg (by omega)]
    unfold Then
    simp [run]
  intro o
  rw [e]
  obtain ⟨n, hn⟩ : ∃ n, P.planes = n + 1 := ⟨P.planes - 1, by omega⟩
  rw [hn, List.range_succ_eq_map]
  have all : ∀ o, Steps (gridPlane P P.image true d) (0 :: (List.range n).map Nat.succ) (.success, d.img) o ↔ o = none := by
    intro o
    unfold Steps Then
    simp [first]
  unfold Then
  simp [all]

/-! ## Examples -/

/-- A plan for two by two pixels and one visibility. -/
def examplePlan : Plan where
  image := 2
  grid := 4
  support := 4
  rows := 1
  chans := 1
  planes := 3
  wstack := true
  pixel := 1 / 10
  beta := 8
  uvScale := 4 / 10
  wScale := 2
  minPlane := 0
  c0 := 1
  kern := ⟨2, fun _ => 2⟩
  nConv _ _ := 3

/-- Its data. -/
def exampleData : Data where
  uvw := ⟨3, fun _ => 1⟩
  freq := ⟨1, fun _ => 1⟩
  weight := ⟨1, fun _ => 1⟩
  vis := ⟨1, fun _ => (0, 0)⟩
  img := ⟨4, fun _ => 5⟩

/-- A GPU array of the given type and shape, with storage. -/
def gpuArr (t : MemType) (shape : List Int) : Mem :=
  (createWrapper (some ⟨0, 0⟩) t .gpu shape none .success).1

theorem example_ready : examplePlan.Ready exampleData where
  image := by decide
  grid := by decide
  larger := by decide
  support := by decide
  rows := by decide
  chans := by decide
  kern := by decide
  corr row col _ _ := by norm_num [Plan.corr, examplePlan]
  sky _ := by norm_num [examplePlan]
  uvw := by decide
  freq := by decide
  weight := by decide
  vis := by decide
  img := by decide
  fits r c _ _ k _ := by
    refine (card_filter_le _ _).trans ?_
    rw [card_range]
    decide

theorem example_accepted (deg : Bool) : Accepted examplePlan (gpuArr .double [1, 3]) (gpuArr .double [1])
    (gpuArr .complexDouble [1, 1]) (gpuArr .double [1, 1]) (gpuArr .double [2, 2]) deg where
  check := by cases deg <;> decide +kernel
  gpu := by decide +kernel
  side := by decide +kernel

/-- An old image stays in a dirty image without visibilities. -/
example : ∃ o, gridCall (some examplePlan) (gpuArr .double [1, 3]) (gpuArr .double [1]) (gpuArr .complexDouble [1, 1])
    (gpuArr .double [1, 1]) (gpuArr .double [2, 2]) exampleData .success o ∧
      ∃ out, o = some (.success, out) ∧ examplePlan.pix out 0 0 ≠ 0 := by
  obtain ⟨h1, o, ho⟩ := C101_grid_partial examplePlan exampleData example_ready _ _ _ _ _ (example_accepted false)
  obtain ⟨out, e, -, hn⟩ := C101_old_false examplePlan exampleData example_ready _ _ _ _ _ (example_accepted false)
    (fun r c => rfl) 0 0 (by decide) (by decide) (by norm_num [Plan.pix, exampleData]) o ho
  exact ⟨o, ho, out, e, hn⟩

/-- **C101 fails: a read-only image is written.** The check of a degridding call asks only whether the visibilities may be
written: a read-only image is accepted, and divided by the correction. -/
theorem C101_readonly_false : ∃ img : Mem, img.queryReadOnly = true ∧
    Accepted examplePlan (gpuArr .double [1, 3]) (gpuArr .double [1]) (gpuArr .complexDouble [1, 1])
      (gpuArr .double [1, 1]) img true ∧
    ∀ o, degridCall (some examplePlan) (gpuArr .double [1, 3]) (gpuArr .double [1]) (gpuArr .complexDouble [1, 1])
      (gpuArr .double [1, 1]) img exampleData .success o → ∃ i v, o = some (.success, i, v) ∧
        examplePlan.pix i 0 0 ≠ examplePlan.pix exampleData.img 0 0 := by
  have ha : Accepted examplePlan (gpuArr .double [1, 3]) (gpuArr .double [1]) (gpuArr .complexDouble [1, 1])
      (gpuArr .double [1, 1]) { gpuArr .double [2, 2] with isReadOnly := true } true :=
    ⟨by decide +kernel, by decide +kernel, by decide +kernel⟩
  refine ⟨_, by decide +kernel, ha, fun o ho => ?_⟩
  obtain ⟨i, v, rfl, g⟩ := (C101_degrid_partial examplePlan exampleData example_ready _ _ _ _ _ ha).1 o ho
  refine ⟨i, v, rfl, fun e => ?_⟩
  have := g.pixel 0 0 (by decide) (by decide)
  rw [e] at this
  norm_num [Plan.corr, examplePlan, Plan.pix, exampleData] at this

end
end Sdp.EsFft
