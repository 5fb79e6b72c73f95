import Verif.Tiles.CallBuckets
import Mathlib.Data.Rat.Floor

set_option linter.unusedSectionVars false

/-!
# C103 — examples, and where the property fails
-/

namespace Sdp.Tiles

/-! ## Slots -/

section
variable {K : Type} [Field K] [LinearOrder K] [FloorRing K] {p : Par K} {n : Sizes} {x : Inputs K}
  {Hits : Int × Int → Nat × Nat × Nat → Prop}

/-- **C103.** With right counts, every slot below the total belongs to exactly one tile. -/
theorem C103_slots (c : Counts) (h : Counted p n x Hits c) (hc : p.tiling.Covers) (hg : 0 < p.gridSize) (j : Nat)
    (hj : (j : Int) < c.offsets.get p.tiling.num.toNat) : ∃! t, Tile p t ∧ j ∈ slots p c.offsets t := by
  have mem : ∀ t, Tile p t → (j ∈ slots p c.offsets t ↔
      c.offsets.get (number p t) ≤ j ∧ (j : Int) < c.offsets.get (number p t + 1)) := by
    intro t ht
    have h0 := h.nonneg hc hg (t := number p t) (le_of_lt (number_lt ht))
    have h1 := h.mono hc hg (show number p t ≤ number p t + 1 by omega) (number_lt ht)
    unfold slots
    rw [List.mem_map]
    constructor
    · rintro ⟨i, hi, rfl⟩
      rw [List.mem_range] at hi
      omega
    · rintro ⟨a, b⟩
      exact ⟨j - (c.offsets.get (number p t)).toNat, by rw [List.mem_range]; omega, by omega⟩
  have ex : ∀ k : Nat, k ≤ p.tiling.num.toNat → (j : Int) < c.offsets.get k →
      ∃ t < k, c.offsets.get t ≤ j ∧ (j : Int) < c.offsets.get (t + 1) := by
    intro k
    induction k with
    | zero => intro _ hk; have := h.first; omega
    | succ k ih =>
      intro hk1 hk2
      by_cases hlt : (j : Int) < c.offsets.get k
      · obtain ⟨t, a, b⟩ := ih (by omega) hlt
        exact ⟨t, by omega, b⟩
      · exact ⟨k, by omega, by omega, hk2⟩
  obtain ⟨k, hk, hk1, hk2⟩ := ex _ (le_refl _) hj
  obtain ⟨t, ht, e⟩ := tile_of hc hg hk
  refine ⟨t, ⟨ht, (mem t ht).2 (by rw [e]; exact ⟨hk1, hk2⟩)⟩, ?_⟩
  rintro t' ⟨ht', hm⟩
  have hm' := (mem t' ht').1 hm
  have e' : number p t' = k := by
    rcases Nat.lt_trichotomy (number p t') k with hlt | heq | hgt
    · have := h.mono hc hg (show number p t' + 1 ≤ k by omega) (by omega)
      omega
    · exact heq
    · have := h.mono hc hg (show k + 1 ≤ number p t' by omega) (le_of_lt (number_lt ht'))
      omega
  apply index_inj p ht' ht
  rw [index_number p ht, index_number p ht', e, e']

end

/-! ## Examples -/

/-- An array. -/
def mem (loc : MemLocation) (t : MemType) (shape : List Int) : Mem :=
  (createWrapper (some ⟨0, 0⟩) t loc shape none .success).1

/-- 70 x 70 cells in tiles of 32 x 32, footprints of 9 x 9; coordinates are in cells. -/
def p70 : Par ℚ := ⟨70, 32, 32, 4, 1 / 70⟩

/-- One time and baseline, two channels. -/
def n2 : Sizes := ⟨1, 1, 2⟩

/-- Both visibilities are at `u` = `v` = `a`. -/
def x2 (a : ℚ) (np : Nat) (vis weights : Nat → ℚ) : Inputs ℚ :=
  ⟨⟨6 / 2, fun _ => a⟩, ⟨2, fun _ => 299792458⟩, ⟨2 * np * 2, vis⟩, ⟨2 * np, weights⟩⟩

def args (loc : MemLocation) (t : MemType) : CountArgs :=
  ⟨mem loc t [1, 1, 3], mem loc t [2], mem loc .complexDouble [1, 1, 2, 1], mem loc .int [10], mem loc .int [9],
    mem loc .int [1]⟩

/-- Output arrays with something in them. -/
def dirt : Counts := ⟨⟨10, fun _ => 5⟩, ⟨9, fun _ => 6⟩, ⟨1, fun _ => 7⟩, none⟩

theorem p70_covers : p70.tiling.Covers := Tiling.T70_covers

theorem args_doc (loc : MemLocation) (a : ℚ) (np : Nat) (vis weights : Nat → ℚ) :
    CountDoc loc (args loc .double) p70 n2 1 (x2 a np vis weights) dirt where
  visShape := by cases loc <;> (unfold HasShape; decide)
  visType := Or.inr (Or.inr rfl)
  visData := by cases loc <;> simp [args, mem, createWrapper, MemType.size]
  pols := Or.inl rfl
  uvwShape := by cases loc <;> (unfold HasShape; decide)
  uvwData := by cases loc <;> simp [args, mem, createWrapper, MemType.size]
  uvwContig := by cases loc <;> decide
  types := Or.inl ⟨rfl, rfl⟩
  places := by cases loc <;> decide
  inputs := ⟨rfl, rfl⟩
  shaped := ⟨by decide, by decide, rfl⟩
  offsets := by cases loc <;> decide
  points := by cases loc <;> decide
  skipped := by cases loc <;> decide

/-- The counting theorems apply. -/
example : ∃ s', Counted p70 n2 (x2 0 1 (fun _ => 1) fun _ => 1) (Reaches p70 n2 (x2 0 1 (fun _ => 1) fun _ => 1)) s' :=
  let ⟨s', h, _⟩ := C103_count_cpu_partial false (args .cpu .double) p70 n2 1 _ dirt
    (args_doc .cpu 0 1 (fun _ => 1) fun _ => 1) p70_covers (by decide)
  ⟨s', h⟩

example : ∃ s', CountCalls true (args .gpu .double) p70 (x2 0 1 (fun _ => 1) fun _ => 1) .success dirt (some (.success, s')) := by
  obtain ⟨⟨o, h⟩, h'⟩ := C103_count_gpu_partial (args .gpu .double) p70 n2 1 _ dirt
    (args_doc .gpu 0 1 (fun _ => 1) fun _ => 1) p70_covers (by decide) (by decide) (by decide)
  obtain ⟨s', rfl, -⟩ := h' o h
  exact ⟨s', h⟩

/-- Both visibilities are in the middle of the grid. -/
theorem middle (np : Nat) (vis weights : Nat → ℚ) (q : Nat × Nat × Nat) :
    column p70 n2 (x2 0 np vis weights) q = 35 ∧ row p70 n2 (x2 0 np vis weights) q = 35 := by
  have h0 : WTower.rnd (0 : ℚ) = 0 := by decide +kernel
  have h1 : posU p70 n2 (x2 0 np vis weights) q = 0 := by
    show (0 : ℚ) * _ * _ = 0
    rw [zero_mul, zero_mul]
  have h2 : posV p70 n2 (x2 0 np vis weights) q = 0 := by
    show (0 : ℚ) * _ * _ = 0
    rw [zero_mul, zero_mul]
  unfold column row
  rw [h1, h2, h0]
  exact ⟨rfl, rfl⟩

theorem middle_touches (np : Nat) (vis weights : Nat → ℚ) (q : Nat × Nat × Nat) :
    Touches p70 n2 (x2 0 np vis weights) (1, 1) q ∧ Reaches p70 n2 (x2 0 np vis weights) (1, 1) q ∧
      Reaches p70 n2 (x2 0 np vis weights) (0, 1) q ∧ ¬ Touches p70 n2 (x2 0 np vis weights) (0, 1) q := by
  obtain ⟨h1, h2⟩ := middle np vis weights q
  unfold Touches Reaches Inside Tiling.Overlaps
  rw [h1, h2]
  have e : p70.tiling.topU = -13 ∧ p70.tiling.topV = -13 ∧ p70.tileU = 32 ∧ p70.tileV = 32 ∧ p70.support = 4 ∧
      p70.gridSize = 70 := by decide
  obtain ⟨e1, e2, e3, e4, e5, e6⟩ := e
  rw [e1, e2, e3, e4, e5, e6]
  refine ⟨⟨by decide, ⟨35, by decide⟩, ⟨35, by decide⟩⟩, ⟨by decide, by decide, ⟨35, by decide⟩⟩,
    ⟨by decide, by decide, ⟨35, by decide⟩⟩, ?_⟩
  rintro ⟨-, ⟨y, hy⟩, -⟩
  simp only at hy
  omega

theorem those_all {n : Sizes} {P : Nat × Nat × Nat → Prop} (h : ∀ q, P q) : those n P = every n := by
  classical
  unfold those
  rw [List.filter_eq_self]
  intro q _
  simpa using h q

theorem those_none {n : Sizes} {P : Nat × Nat × Nat → Prop} (h : ∀ q, ¬ P q) : those n P = [] := by
  classical
  unfold those
  rw [List.filter_eq_nil_iff]
  intro q _
  simpa using h q

/-- **C103 fails on the CPU**: a tile to the left of a footprint counts it. -/
theorem C103_count_left_false : ∃ (m : CountArgs) (x : Inputs ℚ) (s s' : Counts),
    CountDoc .cpu m p70 n2 1 x s ∧ (∀ o, CountCalls false m p70 x .success s o ↔ o = some (.success, s')) ∧
      ∃ t, Tile p70 t ∧ (∀ q, ¬ Touches p70 n2 x t q) ∧ s'.points.get (number p70 t) = 2 := by
  obtain ⟨s', h1, h2⟩ := C103_count_cpu_partial false (args .cpu .double) p70 n2 1 _ dirt
    (args_doc .cpu 0 1 (fun _ => 1) fun _ => 1) p70_covers (by decide)
  have ht : Tile p70 (0, 1) := by unfold Tile; decide
  refine ⟨args .cpu .double, _, dirt, s', args_doc .cpu 0 1 (fun _ => 1) fun _ => 1, h2, (0, 1), ht,
    fun q => (middle_touches _ _ _ q).2.2.2, ?_⟩
  rw [h1.points _ ht, those_all fun q => (middle_touches _ _ _ q).2.2.1]
  rfl

/-- The arrays after they are cleared. -/
def clean : Counts := ⟨zeroed dirt.offsets, zeroed dirt.points, zeroed dirt.skipped, none⟩

theorem clear_dirt (t : MemType) : clearCounts false (args .cpu t) .success dirt = (.success, clean) := rfl

/-- **C103 fails for single precision on the CPU**: the counting call does nothing but clear its arrays, and reports
success; the total is never written. -/
theorem C103_count_float_false (x : Inputs ℚ) : ∃ s' : Counts, (∀ o, CountCalls false (args .cpu .float) p70 x .success dirt o ↔
    o = some (.success, s')) ∧ s'.num = none ∧ ∀ t < 9, s'.points.get t = 0 := by
  refine ⟨clean, fun o => ?_, rfl, fun t ht => ?_⟩
  · have h1 : (countCheck (args .cpu .float).uvw (args .cpu .float).vis .success).2 = .success := by decide
    have h2 : (args .cpu .float).vis.location = .cpu := rfl
    have h3 : ¬ ((args .cpu .float).uvw.type = .double ∧ (args .cpu .float).freqs.type = .double) := by decide
    unfold CountCalls
    rw [if_neg (by decide)]
    simp only [clear_dirt, h2, h1]
    rw [if_neg h3]
  · exact zeroed_get ht

/-- The counting call on the CPU with double precision. -/
theorem count_double (m : CountArgs) (x : Inputs ℚ) (s : Counts) (st : Status) (h : m.vis.location = .cpu)
    (h1 : m.uvw.type = .double ∧ m.freqs.type = .double)
    (h2 : m.uvw.location = .cpu ∧ m.freqs.location = .cpu ∧ m.offsets.location = .cpu ∧ m.points.location = .cpu ∧
      m.skipped.location = .cpu) (o : Option (Status × Counts)) :
    CountCalls false m p70 x st s o ↔
      o = (countCpu p70 (sizesOf (countCheck m.uvw m.vis (clearCounts false m st s).1).1) x (clearCounts false m st s).2).map
        fun r => ((countCheck m.uvw m.vis (clearCounts false m st s).1).2, r) := by
  unfold CountCalls
  rw [if_neg (by decide)]
  simp only [h]
  rw [if_pos h1, if_pos h2]

/-- Coordinates that are too short. -/
def short : Inputs ℚ := ⟨⟨1, fun _ => 0⟩, ⟨2, fun _ => 299792458⟩, ⟨4, fun _ => 1⟩, ⟨2, fun _ => 1⟩⟩

def shortArgs : CountArgs := { args .cpu .double with uvw := mem .cpu .double [1, 1, 1] }

/-- **C103 fails when a check fails on the CPU**: coordinates of the wrong shape are noticed, but the loops run all the
same and read outside the array. -/
theorem C103_count_check_false : ∃ (m : CountArgs) (x : Inputs ℚ), Holds m.uvw x.uvw ∧ Holds m.freqs x.freqs ∧
    (countCheck m.uvw m.vis .success).2 ≠ .success ∧ ∀ o, CountCalls false m p70 x .success dirt o ↔ o = none := by
  refine ⟨shortArgs, short, ⟨by decide, by decide, by decide⟩,
    ⟨by decide, by decide, by decide⟩, by decide, fun o => ?_⟩
  rw [count_double shortArgs short dirt .success rfl (by decide) (by decide)]
  have h : countCpu p70 (sizesOf (countCheck shortArgs.uvw shortArgs.vis (clearCounts false shortArgs .success dirt).1).1) short
      (clearCounts false shortArgs .success dirt).2 = none := by
    rw [← Option.isNone_iff_eq_none]
    decide +kernel
  rw [h]
  rfl

/-- **C103 fails when an error is given on the CPU**: the counting call neither clears nor counts, but it replaces the
offsets, by the sums of what the array of counts held before, and the total. -/
theorem C103_count_status_false : ∃ (m : CountArgs) (x : Inputs ℚ) (s s' : Counts), CountDoc .cpu m p70 n2 1 x s ∧
    (∀ o, CountCalls false m p70 x .runtime s o ↔ o = some (.runtime, s')) ∧ s.offsets.get 1 = 5 ∧ s'.offsets.get 1 = 6 ∧
      s.num = none ∧ s'.num = some 54 := by
  have h1 : (countCpu p70 (sizesOf (countCheck (args .cpu .double).uvw (args .cpu .double).vis
      (clearCounts false (args .cpu .double) .runtime dirt).1).1) (x2 0 1 (fun _ => 1) fun _ => 1)
      (clearCounts false (args .cpu .double) .runtime dirt).2).map (fun r => (r.offsets.get 1, r.num)) = some (6, some 54) := by
    decide +kernel
  rw [Option.map_eq_some_iff] at h1
  obtain ⟨s', e1, e2⟩ := h1
  rw [Prod.mk.injEq] at e2
  refine ⟨args .cpu .double, x2 0 1 (fun _ => 1) fun _ => 1, dirt, s', args_doc .cpu 0 1 (fun _ => 1) fun _ => 1, fun o => ?_,
    rfl, e2.1, rfl, e2.2⟩
  rw [count_double _ _ dirt .runtime rfl (by decide) (by decide), e1]
  rfl

/-- **C103 fails when an error is given on the GPU, or there is no CUDA**: the counting call crashes, whatever its
arguments. -/
theorem C103_count_gpu_crash_false {K : Type} [Field K] [LinearOrder K] [FloorRing K] (cuda : Bool) (m : CountArgs) (p : Par K)
    (x : Inputs K) (st : Status) (s : Counts) (hl : m.vis.location = .gpu) (h : st ≠ .success ∨ cuda = false)
    (o : Option (Status × Counts)) : CountCalls cuda m p x st s o ↔ o = none := by
  unfold CountCalls
  by_cases h0 : p.tileU = 0 ∨ p.tileV = 0
  · rw [if_pos h0]
  · rw [if_neg h0]
    simp only [hl]
    rw [if_pos]
    rcases h with h | h
    · left
      have keep : ∀ {α : Type} [Zero α] (m : Mem) (a : Arr α) (st : Status), st ≠ .success → (clearArr cuda m st a).1 ≠ .success := by
        intro α _ m a st hst
        unfold clearArr
        rw [if_pos (Or.inl hst)]
        exact hst
      have hcl : (clearCounts cuda m st s).1 ≠ .success := by
        unfold clearCounts
        exact keep _ _ _ (keep _ _ _ (keep _ _ _ h))
      have hck : (countCheck m.uvw m.vis (clearCounts cuda m st s).1).2 ≠ .success := by
        intro e
        unfold countCheck at e
        have := ((C09_check_uvw _ _ _ _ _ _).1 e).1
        exact hcl (((C09_vis_metadata _ _ _).1.1 this).1)
      generalize (countCheck m.uvw m.vis (clearCounts cuda m st s).1).2 = st1 at hck ⊢
      have hb : ∀ (l : List Mem) (st : Status), st ≠ .success → gpuBuffers l st ≠ .success := by
        intro l
        induction l with
        | nil => intro st h; exact h
        | cons a l ih =>
          intro st h
          unfold gpuBuffers
          rw [List.foldl_cons]
          exact ih _ (by rw [if_neg (by tauto)]; exact h)
      apply hb
      split_ifs
      · exact hck
      · decide
    · right; left; exact h

/-! ## Sorting -/

/-- Arguments of the sorting call for `np` polarisations. -/
def sortArgs (loc : MemLocation) (np : Int) (k : Int) : SortArgs :=
  ⟨mem loc .double [1, 1, 3], mem loc .double [2], mem loc .complexDouble [1, 1, 2, np], mem loc .double [1, 1, 2, np],
    fun c => if c = .tile ∨ c = .index then mem loc .int [k] else mem loc .double [k], mem loc .int [10]⟩

/-- Sorted arrays of a length. -/
def fresh (k : Nat) : Out ℚ
  | .tile => ⟨k, fun _ => (0 : Int)⟩
  | .index => ⟨k, fun _ => (0 : Int)⟩
  | .uu | .vv | .vis | .weight => ⟨k, fun _ => (0 : ℚ)⟩

theorem fresh_size (k : Nat) (c : Col) : (fresh k c).size = k := by cases c <;> rfl

theorem sort_doc (loc : MemLocation) (a : ℚ) (np : Nat) (hp : np = 1 ∨ np = 4) (vis weights : Nat → ℚ) (c : Counts) (k : Nat)
    (hk : c.offsets.get p70.tiling.num.toNat ≤ k) :
    SortDoc loc (sortArgs loc np k) p70 n2 np (x2 a np vis weights) c (fresh k) where
  pols := hp
  visShape := ⟨rfl, fun _ _ => rfl⟩
  visType := Or.inr (Or.inr rfl)
  visData := by simp [sortArgs, mem, createWrapper, MemType.size]
  uvwShape := ⟨rfl, fun _ _ => rfl⟩
  uvwData := by simp [sortArgs, mem, createWrapper, MemType.size]
  uvwContig := rfl
  weightShape := ⟨rfl, fun _ _ => rfl⟩
  weightData := by simp [sortArgs, mem, createWrapper, MemType.size]
  weightContig := by rcases hp with rfl | rfl <;> rfl
  types := Or.inl fun a ha => by
    simp only [List.mem_cons, List.not_mem_nil, or_false] at ha
    rcases ha with rfl | rfl | rfl <;> rfl
  places := by
    intro a ha
    simp only [List.mem_cons, List.not_mem_nil, or_false] at ha
    rcases ha with rfl | rfl | rfl | rfl | rfl | rfl | rfl | rfl | rfl | rfl <;> rfl
  inputs := ⟨rfl, rfl⟩
  vis := by show 2 * np * 2 = 1 * 1 * 2 * np * 2; omega
  weights := by show 2 * np = 1 * 1 * 2 * np; omega
  out := by
    intro c _
    rw [fresh_size]
    cases c <;> simp [sortArgs, mem, createWrapper, MemType.size, numElementsLoop]
  large := by
    intro c _
    rw [fresh_size]
    exact hk

/-- Counts of visibilities in the middle. -/
theorem counts_ex (np : Nat) (vis weights : Nat → ℚ) :
    ∃ c, Counted p70 n2 (x2 0 np vis weights) (Reaches p70 n2 (x2 0 np vis weights)) c :=
  let ⟨s', h, _⟩ := C103_count_cpu_partial false (args .cpu .double) p70 n2 1 _ dirt (args_doc .cpu 0 np vis weights) p70_covers
    (by decide)
  ⟨s', h⟩

theorem counts_gpu : ∃ c, Counted p70 n2 (x2 0 1 (fun _ => 1) fun _ => 1) (Touches p70 n2 (x2 0 1 (fun _ => 1) fun _ => 1)) c := by
  obtain ⟨⟨o, h⟩, h'⟩ := C103_count_gpu_partial (args .gpu .double) p70 n2 1 _ dirt
    (args_doc .gpu 0 1 (fun _ => 1) fun _ => 1) p70_covers (by decide) (by decide) (by decide)
  obtain ⟨c, -, hc⟩ := h' o h
  exact ⟨c, hc⟩

theorem n2_some : every n2 ≠ [] := by decide

/-- The sorting theorems apply. -/
example : ∃ offs offs' s', ∃ k : Nat, SortCalls false (sortArgs .cpu 1 k) p70 (x2 0 1 (fun _ => 1) fun _ => 1) .success offs
    (fresh k) (some (.success, offs', s')) := by
  obtain ⟨c, hc⟩ := counts_ex 1 (fun _ => 1) fun _ => 1
  obtain ⟨offs', s', -, -, h⟩ := C103_sort_cpu_partial false _ p70 n2 1 _ c _ p70_covers (by decide) hc
    (sort_doc .cpu 0 1 (Or.inl rfl) _ _ c (c.offsets.get p70.tiling.num.toNat).toNat (by omega))
  exact ⟨c.offsets, offs', s', _, (h _).2 rfl⟩

section
attribute [local irreducible] SortCalls

example : ∃ offs offs' s', ∃ k : Nat, SortCalls true (sortArgs .gpu 1 k) p70 (x2 0 1 (fun _ => 1) fun _ => 1) .success offs
    (fresh k) (some (.success, offs', s')) := by
  obtain ⟨c, hc⟩ := counts_gpu
  have hd := sort_doc .gpu 0 1 (Or.inl rfl) (fun _ => 1) (fun _ => 1) c (c.offsets.get p70.tiling.num.toNat).toNat (by omega)
  have H := C103_sort_gpu_partial _ p70 n2 1 _ c _ p70_covers (by decide) n2_some hc hd
  obtain ⟨⟨o, h⟩, h'⟩ := H
  obtain ⟨offs', s', rfl, -⟩ := h' o h
  exact ⟨c.offsets, offs', s', _, h⟩

end

/-- **C103 fails for the visibilities**: the array of complex numbers is read as one of real numbers, so that a tile does
not even hold the real parts of its visibilities. -/
theorem C103_sort_vis_false : ∃ (m : SortArgs) (x : Inputs ℚ) (c : Counts) (s s' : Out ℚ) (offs' : Arr Int),
    SortDoc .cpu m p70 n2 1 x c s ∧ Counted p70 n2 x (Reaches p70 n2 x) c ∧
      (∀ o, SortCalls false m p70 x .success c.offsets s o ↔ o = some (.success, offs', s')) ∧
      ∃ t, Tile p70 t ∧ ¬ ((slots p70 c.offsets t).map fun j => (s' .vis).get j).Perm
        ((those n2 (Reaches p70 n2 x t)).map fun q => x.vis.get (2 * place n2 q)) := by
  obtain ⟨c, hc⟩ := counts_ex 1 (fun j => j + 1) fun _ => 1
  have hd := sort_doc .cpu 0 1 (Or.inl rfl) (fun j => j + 1) (fun _ => 1) c (c.offsets.get p70.tiling.num.toNat).toNat
    (by omega)
  obtain ⟨offs', s', h1, -, h3⟩ := C103_sort_cpu_partial false _ p70 n2 1 _ c _ p70_covers (by decide) hc hd
  have ht : Tile p70 (1, 1) := by unfold Tile; decide
  refine ⟨_, _, c, _, s', offs', hd, hc, h3, (1, 1), ht, fun hperm => ?_⟩
  have h4 := congrArg (List.map fun r : ℚ × ℚ × ℚ × ℚ × Int => r.2.2.1) (h1 _ ht)
  rw [List.map_map, List.map_map] at h4
  replace h4 : (slots p70 c.offsets (1, 1)).map (fun j => (s' .vis).get j) = _ := h4
  rw [h4, those_all fun q => (middle_touches _ _ _ q).2.1] at hperm
  have h5 := hperm.sum_eq
  revert h5
  simp only [rowOf, x2, Function.comp_def]
  decide +kernel

/-- **C103 fails for four polarisations**: a tile does not hold the weights of its visibilities, but those of other
polarisations. -/
theorem C103_sort_pols_false : ∃ (m : SortArgs) (x : Inputs ℚ) (c : Counts) (s s' : Out ℚ) (offs' : Arr Int),
    SortDoc .cpu m p70 n2 4 x c s ∧ Counted p70 n2 x (Reaches p70 n2 x) c ∧
      (∀ o, SortCalls false m p70 x .success c.offsets s o ↔ o = some (.success, offs', s')) ∧
      ∃ t, Tile p70 t ∧ ∀ i < 4, ¬ ((slots p70 c.offsets t).map fun j => (s' .weight).get j).Perm
        ((those n2 (Reaches p70 n2 x t)).map fun q => x.weights.get (4 * place n2 q + i)) := by
  obtain ⟨c, hc⟩ := counts_ex 4 (fun _ => 0) fun j => if j < 4 then 1 else 2
  have hd := sort_doc .cpu 0 4 (Or.inr rfl) (fun _ => 0) (fun j => if j < 4 then 1 else 2) c
    (c.offsets.get p70.tiling.num.toNat).toNat (by omega)
  obtain ⟨offs', s', h1, -, h3⟩ := C103_sort_cpu_partial false _ p70 n2 4 _ c _ p70_covers (by decide) hc hd
  have ht : Tile p70 (1, 1) := by unfold Tile; decide
  refine ⟨_, _, c, _, s', offs', hd, hc, h3, (1, 1), ht, fun i hi hperm => ?_⟩
  have h4 := congrArg (List.map fun r : ℚ × ℚ × ℚ × ℚ × Int => r.2.2.2.1) (h1 _ ht)
  rw [List.map_map, List.map_map] at h4
  replace h4 : (slots p70 c.offsets (1, 1)).map (fun j => (s' .weight).get j) = _ := h4
  rw [h4, those_all fun q => (middle_touches _ _ _ q).2.1] at hperm
  have h5 := hperm.sum_eq
  revert h5 i
  simp only [rowOf, x2, Function.comp_def]
  decide +kernel

/-- The sorting call of the example with any offsets and sorted arrays. -/
theorem sort_example (offs : Arr Int) (s : Out ℚ) (x : Inputs ℚ) (o : Option (Status × Arr Int × Out ℚ)) :
    SortCalls false (sortArgs .cpu 1 4) p70 x .success offs s o ↔
      o = (cpuLoops (sortActs Tiling.rangesCpu p70 n2 x) n2 offs ⟨0, fun _ => 0⟩
        (clearCols false (sortArgs .cpu 1 4).out [.uu, .tile, .vv, .weight, .vis] .success s).2).map
        fun r => (.success, r.1, r.2.2) := by
  have h0 : (clearCols false (sortArgs .cpu 1 4).out [.uu, .tile, .vv, .weight, .vis] .success s).1 = .success := rfl
  have hd := sort_doc .cpu 0 1 (Or.inl rfl) (fun _ => 0) (fun _ => 0) ⟨⟨0, fun _ => 0⟩, ⟨0, fun _ => 0⟩, ⟨0, fun _ => 0⟩, none⟩ 4
    (by decide)
  have hty : RealType (sortArgs .cpu 1 4).uvw.type := Or.inr rfl
  obtain ⟨k1, k2, k3⟩ := countCheck_ok hd.visShape hd.visType hd.visData (Or.inl rfl) hd.uvwShape hd.uvwData hd.uvwContig
    hty rfl
  rw [k2] at k3
  have hw : checkWeights (sortArgs .cpu 1 4).weights .void (sortArgs .cpu 1 4).vis.location n2.times n2.baselines n2.channels 1
      .success = .success := rfl
  unfold SortCalls
  rw [if_neg (by simp), if_neg (by decide)]
  simp only [h0]
  replace k1 : (countCheck (sortArgs .cpu 1 4).uvw (sortArgs .cpu 1 4).vis .success).2 = .success := k1
  replace k2 : (countCheck (sortArgs .cpu 1 4).uvw (sortArgs .cpu 1 4).vis .success).1 = _ := k2
  simp only [k1, k2, k3]
  replace hw : checkWeights (sortArgs .cpu 1 4).weights .void _ _ _ _ _ .success = .success := hw
  have hl : (sortArgs .cpu 1 4).vis.location = .cpu := rfl
  have hs : sameReal [(sortArgs .cpu 1 4).uvw, (sortArgs .cpu 1 4).weights, (sortArgs .cpu 1 4).freqs] = true := rfl
  have hwk : checkWeights (sortArgs .cpu 1 4).weights .void ((some (sortArgs .cpu ↑1 ↑4).vis.location).getD .cpu)
      ((some (n2.times : Int)).getD 0) ((some (n2.baselines : Int)).getD 0) ((some (n2.channels : Int)).getD 0)
      ((some ((1 : Nat) : Int)).getD 0) .success = .success := hw
  simp only [hl, hs, Bool.true_eq_false, if_false]
  rw [if_pos (by
    intro a ha
    simp only [List.mem_cons, List.not_mem_nil, or_false] at ha
    rcases ha with rfl | rfl | rfl | rfl | rfl | rfl | rfl | rfl | rfl <;> rfl)]
  rfl

/-- **C103 fails for a second sort**: the sorting call moves the offsets, and a second call with the same arguments
writes outside the sorted arrays. -/
theorem C103_sort_twice_false : ∃ (m : CountArgs) (m' : SortArgs) (x : Inputs ℚ) (c : Counts) (s s' : Out ℚ) (offs' : Arr Int),
    (∀ o, CountCalls false m p70 x .success dirt o ↔ o = some (.success, c)) ∧
      (∀ o, SortCalls false m' p70 x .success c.offsets s o ↔ o = some (.success, offs', s')) ∧
      ∀ o, SortCalls false m' p70 x .success offs' s' o ↔ o = none := by
  obtain ⟨c, hc, hcall⟩ := C103_count_cpu_partial false (args .cpu .double) p70 n2 1 _ dirt
    (args_doc .cpu 0 1 (fun _ => 1) fun _ => 1) p70_covers (by decide)
  have h1 : ((countCpu p70 (sizesOf (countCheck (args .cpu .double).uvw (args .cpu .double).vis
      (clearCounts false (args .cpu .double) .success dirt).1).1) (x2 0 1 (fun _ => 1) fun _ => 1)
      (clearCounts false (args .cpu .double) .success dirt).2).bind fun c =>
      (cpuLoops (sortActs Tiling.rangesCpu p70 n2 (x2 0 1 (fun _ => 1) fun _ => 1)) n2 c.offsets ⟨0, fun _ => 0⟩
        (clearCols false (sortArgs .cpu 1 4).out [.uu, .tile, .vv, .weight, .vis] .success (fresh 4)).2).map fun r =>
      (cpuLoops (sortActs Tiling.rangesCpu p70 n2 (x2 0 1 (fun _ => 1) fun _ => 1)) n2 r.1 ⟨0, fun _ => 0⟩
        (clearCols false (sortArgs .cpu 1 4).out [.uu, .tile, .vv, .weight, .vis] .success r.2.2).2).isNone) = some true := by
    decide +kernel
  have h2 := (count_double (args .cpu .double) (x2 0 1 (fun _ => 1) fun _ => 1) dirt .success rfl (by decide) (by decide) _).1
    ((hcall _).2 rfl)
  cases e : countCpu p70 (sizesOf (countCheck (args .cpu .double).uvw (args .cpu .double).vis
      (clearCounts false (args .cpu .double) .success dirt).1).1) (x2 0 1 (fun _ => 1) fun _ => 1)
      (clearCounts false (args .cpu .double) .success dirt).2 with
  | none => rw [e] at h2; cases h2
  | some c' =>
    rw [e, Option.map_some] at h2
    have e2 : c = c' := (Prod.ext_iff.1 (Option.some.inj h2)).2
    subst e2
    rw [e, Option.bind_some, Option.map_eq_some_iff] at h1
    obtain ⟨r, e3, e4⟩ := h1
    rw [Option.isNone_iff_eq_none] at e4
    refine ⟨args .cpu .double, sortArgs .cpu 1 4, _, c, fresh 4, r.2.2, r.1, hcall, fun o => ?_, fun o => ?_⟩
    · rw [sort_example, e3]
      rfl
    · rw [sort_example, e4]
      rfl

/-! ## Indexing -/

theorem index_doc (loc : MemLocation) (a : ℚ) (np : Nat) (vis weights : Nat → ℚ) (c : Counts) (k : Nat)
    (hk : c.offsets.get p70.tiling.num.toNat ≤ k) :
    IndexDoc loc (sortArgs loc 1 k) p70 n2 (x2 a np vis weights) c (fresh k) where
  uvwShape := ⟨rfl, fun _ _ => rfl⟩
  uvwData := by simp [sortArgs, mem, createWrapper, MemType.size]
  uvwContig := rfl
  types := Or.inl fun a ha => by
    simp only [List.mem_cons, List.not_mem_nil, or_false] at ha
    rcases ha with rfl | rfl <;> rfl
  places := by
    intro a ha
    simp only [List.mem_cons, List.not_mem_nil, or_false] at ha
    rcases ha with rfl | rfl | rfl | rfl | rfl | rfl | rfl <;> rfl
  inputs := ⟨rfl, rfl⟩
  out := by
    intro c _
    rw [fresh_size]
    cases c <;> simp [sortArgs, mem, createWrapper, MemType.size, numElementsLoop]
  large := by
    intro c _
    rw [fresh_size]
    exact hk

section
attribute [local irreducible] IndexCalls

/-- The theorem for the GPU applies. -/
example : ∃ offs offs' s', ∃ k : Nat, IndexCalls true (sortArgs .gpu 1 k) p70 n2 (x2 0 1 (fun _ => 1) fun _ => 1) .success offs
    (fresh k) (some (.success, offs', s')) := by
  obtain ⟨c, hc⟩ := counts_gpu
  have hd := index_doc .gpu 0 1 (fun _ => 1) (fun _ => 1) c (c.offsets.get p70.tiling.num.toNat).toNat (by omega)
  have H := C103_index_gpu_partial _ p70 n2 _ c _ p70_covers (by decide) n2_some hc hd
  obtain ⟨⟨o, h⟩, h'⟩ := H
  obtain ⟨offs', s', rfl, -⟩ := h' o h
  exact ⟨c.offsets, offs', s', _, h⟩

end

/-- Visibilities 10 cells from the centre of the grid. -/
theorem ten (q : Nat × Nat × Nat) :
    posU p70 n2 (x2 10 1 (fun _ => 1) fun _ => 1) q = 10 ∧
      Reaches p70 n2 (x2 10 1 (fun _ => 1) fun _ => 1) (1, 1) q := by
  have h1 : posU p70 n2 (x2 10 1 (fun _ => 1) fun _ => 1) q = 10 := by
    show (10 : ℚ) * (299792458 / 299792458) * (((70 : Int) : ℚ) * (1 / 70)) = 10
    norm_num
  have h2 : posV p70 n2 (x2 10 1 (fun _ => 1) fun _ => 1) q = 10 := h1
  have h0 : WTower.rnd (10 : ℚ) = 10 := by decide +kernel
  refine ⟨h1, ?_⟩
  unfold Reaches Inside Tiling.Overlaps column row
  rw [h1, h2, h0]
  have e : p70.tiling.topU = -13 ∧ p70.tiling.topV = -13 ∧ p70.tileU = 32 ∧ p70.tileV = 32 ∧ p70.support = 4 ∧
      p70.gridSize = 70 := by decide
  obtain ⟨e1, e2, e3, e4, e5, e6⟩ := e
  rw [e1, e2, e3, e4, e5, e6]
  exact ⟨by decide, by decide, ⟨45, by decide⟩⟩

/-- **C103 fails for the coordinates of the indexing call on the CPU**: the slots of a tile do not hold those of its
visibilities. -/
theorem C103_index_coordinates_false : ∃ (m : SortArgs) (x : Inputs ℚ) (c : Counts) (s s' : Out ℚ) (offs' : Arr Int),
    IndexDoc .cpu m p70 n2 x c s ∧ Counted p70 n2 x (Reaches p70 n2 x) c ∧
      (∀ o, IndexCalls false m p70 n2 x .success c.offsets s o ↔ o = some (.success, offs', s')) ∧
      ∃ t, Tile p70 t ∧ ¬ ((slots p70 c.offsets t).map fun j => (s' .uu).get j).Perm
        ((those n2 (Reaches p70 n2 x t)).map fun q => posU p70 n2 x q) := by
  obtain ⟨c, hc, -⟩ := C103_count_cpu_partial false (args .cpu .double) p70 n2 1 _ dirt
    (args_doc .cpu 10 1 (fun _ => 1) fun _ => 1) p70_covers (by decide)
  have hd := index_doc .cpu 10 1 (fun _ => 1) (fun _ => 1) c (c.offsets.get p70.tiling.num.toNat).toNat (by omega)
  obtain ⟨offs', s', -, h2, -, -, h3⟩ := C103_index_cpu_partial false _ p70 n2 _ c _ p70_covers (by decide) hc hd
  have ht : Tile p70 (1, 1) := by unfold Tile; decide
  refine ⟨_, _, c, _, s', offs', hd, hc, h3, (1, 1), ht, fun hperm => ?_⟩
  rw [those_all fun q => (ten q).2] at hperm
  have hm : (10 : ℚ) ∈ ((every n2).map fun q => posU p70 n2 (x2 10 1 (fun _ => 1) fun _ => 1) q) := by
    rw [List.mem_map]
    exact ⟨(0, 0, 0), by decide, (ten _).1⟩
  rw [← hperm.mem_iff, List.mem_map] at hm
  obtain ⟨j, hj, e⟩ := hm
  have hlt : (j : Int) < c.offsets.get p70.tiling.num.toNat := by
    unfold slots at hj
    rw [List.mem_map] at hj
    obtain ⟨i, hi, rfl⟩ := hj
    rw [List.mem_range] at hi
    have a1 := hc.nonneg p70_covers (by decide) (t := number p70 (1, 1)) (le_of_lt (number_lt ht))
    have a2 := hc.mono p70_covers (by decide) (number_lt ht) (le_refl _)
    have a3 : c.offsets.get (number p70 (1, 1) + 1) ≤ c.offsets.get p70.tiling.num.toNat := a2
    omega
  rw [h2 j (by rw [fresh_size]; omega)] at e
  norm_num at e

end Sdp.Tiles
