import Mathlib.Algebra.Order.Field.Rat
import Mathlib.Tactic.FieldSimp
import Mathlib.Tactic.Linarith
import Mathlib.Tactic.Positivity
import Verif.EsFft.Model
import Verif.Sizes.Good

/-!
# C47, C70, C71: host part of the ES gridder
-/

set_option linter.unusedSectionVars false

namespace Sdp.EsFft
open Sdp.Sizes (Smooth C29_good_size)

/-! ## C47: buffers -/

/-- What a caller expects of accepted buffers: one location; real coordinates, frequencies,
weights and image and complex visibilities, all single or all double precision; shapes
`N x 3`, `C`, `N x C`, `N x C` and square; C contiguous with storage; a writable output. -/
structure Consistent (uvw freq vis weight img : Mem) (deg : Bool) : Prop where
  location : freq.location = uvw.location ∧ vis.location = uvw.location ∧
    weight.location = uvw.location ∧ img.location = uvw.location
  type : (uvw.type = .double ∧ freq.type = .double ∧ vis.type = .complexDouble ∧
      weight.type = .double ∧ img.type = .double) ∨
    (uvw.type = .float ∧ freq.type = .float ∧ vis.type = .complexFloat ∧
      weight.type = .float ∧ img.type = .float)
  shape : uvw.shapeDim 0 = vis.shapeDim 0 ∧ uvw.shapeDim 1 = 3 ∧
    freq.shapeDim 0 = vis.shapeDim 1 ∧ weight.shapeDim 0 = vis.shapeDim 0 ∧
    weight.shapeDim 1 = vis.shapeDim 1 ∧ img.shapeDim 0 = img.shapeDim 1
  contiguous : ∀ m ∈ [uvw, freq, vis, weight, img], m.data.isSome ∧ m.isCContiguous = true
  writable : (if deg then vis else img).isReadOnly = false

theorem contig_iff (m : Mem) : m.queryCContiguous = true ↔ m.data.isSome ∧ m.isCContiguous = true := by
  unfold Mem.queryCContiguous
  cases m.data <;> simp

theorem complex_of (m : Mem) (h : m.data.isSome) :
    m.queryComplex = decide (m.type = .complexBit ∨ m.type = .complexFloat ∨ m.type = .complexDouble) := by
  unfold Mem.queryComplex
  cases hd : m.data <;> simp_all

theorem readOnly_of (m : Mem) (h : m.data.isSome) : m.queryReadOnly = m.isReadOnly := by
  unfold Mem.queryReadOnly
  cases hd : m.data <;> simp_all

/-- **C47 (partial).**  If coordinates are in floating point, buffers are accepted exactly when
they are consistent, and any status passed in survives an accepted check. -/
theorem C47_buffers_partial (uvw freq vis weight img : Mem) (deg : Bool)
    (hf : uvw.type = .float ∨ uvw.type = .double) :
    (checkBuffers uvw freq vis weight img deg .success = .success ↔
      Consistent uvw freq vis weight img deg) ∧
    (Consistent uvw freq vis weight img deg → ∀ s, checkBuffers uvw freq vis weight img deg s = s) := by
  have fwd : checkBuffers uvw freq vis weight img deg .success = .success →
      Consistent uvw freq vis weight img deg := by
    intro h
    unfold checkBuffers at h
    by_cases h1 : uvw.location ≠ freq.location ∨ uvw.location ≠ vis.location ∨
      uvw.location ≠ weight.location ∨ uvw.location ≠ img.location
    · rw [if_pos h1] at h; cases h
    rw [if_neg h1] at h
    by_cases h2 : uvw.queryComplex = true
    · rw [if_pos h2] at h; cases h
    rw [if_neg h2] at h
    by_cases h3 : freq.queryComplex = true
    · rw [if_pos h3] at h; cases h
    rw [if_neg h3] at h
    by_cases h4 : ¬ vis.queryComplex = true
    · rw [if_pos h4] at h; cases h
    rw [if_neg h4] at h
    by_cases h5 : weight.queryComplex = true
    · rw [if_pos h5] at h; cases h
    rw [if_neg h5] at h
    by_cases h6 : img.queryComplex = true
    · rw [if_pos h6] at h; cases h
    rw [if_neg h6] at h
    by_cases h7 : uvw.shapeDim 0 ≠ vis.shapeDim 0
    · rw [if_pos h7] at h; cases h
    rw [if_neg h7] at h
    by_cases h8 : uvw.shapeDim 1 ≠ 3
    · rw [if_pos h8] at h; cases h
    rw [if_neg h8] at h
    by_cases h9 : freq.shapeDim 0 ≠ vis.shapeDim 1
    · rw [if_pos h9] at h; cases h
    rw [if_neg h9] at h
    by_cases h10 : weight.shapeDim 0 ≠ vis.shapeDim 0 ∨ weight.shapeDim 1 ≠ vis.shapeDim 1
    · rw [if_pos h10] at h; cases h
    rw [if_neg h10] at h
    by_cases h11 : img.shapeDim 0 ≠ img.shapeDim 1
    · rw [if_pos h11] at h; cases h
    rw [if_neg h11] at h
    by_cases h12 : uvw.type = .double ∧ (freq.type ≠ .double ∨ vis.type ≠ .complexDouble ∨
      weight.type ≠ .double ∨ img.type ≠ .double)
    · rw [if_pos h12] at h; cases h
    rw [if_neg h12] at h
    by_cases h13 : uvw.type ≠ .double ∧ (freq.type ≠ .float ∨ vis.type ≠ .complexFloat ∨
      weight.type ≠ .float ∨ img.type ≠ .float)
    · rw [if_pos h13] at h; cases h
    rw [if_neg h13] at h
    by_cases h14 : ¬ uvw.queryCContiguous = true ∨ ¬ freq.queryCContiguous = true ∨
      ¬ vis.queryCContiguous = true ∨ ¬ weight.queryCContiguous = true ∨ ¬ img.queryCContiguous = true
    · rw [if_pos h14] at h; cases h
    rw [if_neg h14] at h
    push Not at h1 h4 h7 h8 h9 h10 h11 h12 h13 h14
    obtain ⟨c1, c2, c3, c4, c5⟩ := h14
    rw [contig_iff] at c1 c2 c3 c4 c5
    refine ⟨⟨h1.1.symm, h1.2.1.symm, h1.2.2.1.symm, h1.2.2.2.symm⟩, ?_, ⟨h7, h8, h9, h10.1, h10.2, h11⟩, ?_, ?_⟩
    · rcases hf with hf | hf
      · exact Or.inr ⟨hf, h13 (by rw [hf]; decide)⟩
      · exact Or.inl ⟨hf, h12 hf⟩
    · intro m hm
      simp only [List.mem_cons, List.not_mem_nil, or_false] at hm
      rcases hm with rfl | rfl | rfl | rfl | rfl <;> assumption
    · cases deg
      · simp only [Bool.false_eq_true, if_false] at h ⊢
        rw [readOnly_of img c5.1] at h
        by_contra hr
        rw [if_pos (by simpa using hr)] at h
        cases h
      · simp only [if_true] at h ⊢
        rw [readOnly_of vis c3.1] at h
        by_contra hr
        rw [if_pos (by simpa using hr)] at h
        cases h
  have bwd : Consistent uvw freq vis weight img deg →
      ∀ s, checkBuffers uvw freq vis weight img deg s = s := by
    intro hc s
    obtain ⟨l1, l2, l3, l4⟩ := hc.location
    obtain ⟨s1, s2, s3, s4, s5, s6⟩ := hc.shape
    have c := hc.contiguous
    have c1 := c uvw (by simp)
    have c2 := c freq (by simp)
    have c3 := c vis (by simp)
    have c4 := c weight (by simp)
    have c5 := c img (by simp)
    have k1 := (contig_iff uvw).2 c1
    have k2 := (contig_iff freq).2 c2
    have k3 := (contig_iff vis).2 c3
    have k4 := (contig_iff weight).2 c4
    have k5 := (contig_iff img).2 c5
    have w := hc.writable
    unfold checkBuffers
    rw [complex_of uvw c1.1, complex_of freq c2.1, complex_of vis c3.1, complex_of weight c4.1,
      complex_of img c5.1, k1, k2, k3, k4, k5, readOnly_of vis c3.1, readOnly_of img c5.1,
      l1, l2, l3, l4, s1, s2, s3, s4, s5, s6]
    rcases hc.type with ⟨t1, t2, t3, t4, t5⟩ | ⟨t1, t2, t3, t4, t5⟩ <;>
      rw [t1, t2, t3, t4, t5] <;> cases deg <;> simp at w <;> simp [w]
  exact ⟨⟨fwd, fun h => bwd h .success⟩, bwd⟩

/-- A CPU array of the given type and shape, with storage. -/
def arr (t : MemType) (shape : List Int) : Mem :=
  (createWrapper (some ⟨0, 0⟩) t .cpu shape none .success).1

/-- **C47 fails for coordinates that are not floating point**: with single-precision data the type
of the coordinates is not checked; integer or byte coordinates are accepted. -/
theorem C47_uvw_type_false :
    checkBuffers (arr .int [5, 3]) (arr .float [4]) (arr .complexFloat [5, 4]) (arr .float [5, 4])
      (arr .float [8, 8]) false .success = .success ∧
    checkBuffers (arr .char [5, 3]) (arr .float [4]) (arr .complexFloat [5, 4]) (arr .float [5, 4])
      (arr .float [8, 8]) false .success = .success := by
  decide +kernel

/-- **C47 fails for the number of dimensions**: visibilities with four polarisations are accepted
with weights for one, and with a stack of images. -/
theorem C47_dims_false :
    checkBuffers (arr .float [5, 3]) (arr .float [4]) (arr .complexFloat [5, 4, 4])
      (arr .float [5, 4]) (arr .float [8, 8, 2]) false .success = .success ∧
    (arr .complexFloat [5, 4, 4]).numElements = 4 * (arr .float [5, 4]).numElements := by
  decide +kernel

/-- **C47, pixel sizes.**  A plan is refused, with an invalid-argument status, exactly when the pixel
sizes differ; otherwise an earlier status is kept. -/
theorem C47_pixels (px py : ℚ) :
    (checkParameters px py .success = .success ↔ px = py) ∧
    (px ≠ py → ∀ s, checkParameters px py s = .invalidArgument) ∧
    (px = py → ∀ s, checkParameters px py s = s) := by
  unfold checkParameters
  refine ⟨?_, fun h s => if_pos h, fun h s => by rw [if_neg (by simpa using h)]⟩
  by_cases h : px = py <;> simp [h]

/-- Non-vacuity of C47. -/
example : Consistent (arr .double [5, 3]) (arr .double [4]) (arr .complexDouble [5, 4])
    (arr .double [5, 4]) (arr .double [8, 8]) true := by
  refine ⟨?_, ?_, ?_, ?_, ?_⟩ <;> decide +kernel

/-! ## C70: choice of the kernel -/

/-- A row of the table that meets the request. -/
def Meets (eps : ℚ) (double : Bool) (r : Row) : Prop :=
  r.support ≤ (if double then 16 else 8) ∧ r.eps ≤ eps ∧ r.corr ≤ 10

/-- Row `i`. -/
theorem db_facts : ∀ i : Fin 244, ∃ r, rowAt kernelDB i = some r ∧ 4 ≤ r.support ∧ r.support ≤ 16 ∧
    23 / 20 ≤ r.os ∧ r.os ≤ 5 / 2 := by
  have h : (List.range 244).all (fun i => match rowAt kernelDB i with
      | some r => decide (4 ≤ r.support ∧ r.support ≤ 16 ∧ 23 / 20 ≤ r.os ∧ r.os ≤ 5 / 2)
      | none => false) = true := by decide +kernel
  rw [List.all_eq_true] at h
  intro i
  have hi := h i (List.mem_range.2 i.2)
  cases hr : rowAt kernelDB i with
  | none => rw [hr] at hi; simp at hi
  | some r => rw [hr] at hi; exact ⟨r, rfl, by simpa using hi⟩

theorem db_none : rowAt kernelDB 244 = none := by decide +kernel

/-- The last row of the table (support 16, oversampling 2). -/
def lastRow : Row := ⟨16, 2, 50563492 / 10 ^ 22, 22621631913 / 10 ^ 10, 842695 / 10 ^ 5⟩

theorem db_last : rowAt kernelDB 243 = some lastRow := by decide +kernel

/-- Invariant of the first loop after the rows below `n`. -/
def BestInv (eps : ℚ) (maxSup : Nat) (n : Nat) (b : Best) : Prop :=
  b.idx.size = 20 ∧ b.os.size = 20 ∧ ∀ s, s < 20 →
    (b.idx.get s = 243 ∧ b.os.get s = 13 / 5 ∧
      ∀ i r, i < n → rowAt kernelDB i = some r → r.support = s →
        ¬ (r.support ≤ maxSup ∧ r.eps ≤ eps ∧ r.corr ≤ 10)) ∨
    (∃ r, b.idx.get s < n ∧ rowAt kernelDB (b.idx.get s) = some r ∧ r.support = s ∧ b.os.get s = r.os ∧
      (r.support ≤ maxSup ∧ r.eps ≤ eps ∧ r.corr ≤ 10) ∧
      ∀ i r', i < n → rowAt kernelDB i = some r' → r'.support = s →
        (r'.support ≤ maxSup ∧ r'.eps ≤ eps ∧ r'.corr ≤ 10) → r.os ≤ r'.os)

theorem best_ok (eps : ℚ) (maxSup : Nat) : ∀ n, n ≤ 244 →
    ∃ b, loop (bestStep kernelDB eps maxSup) Best.init (List.range n) = some b ∧
      BestInv eps maxSup n b := by
  intro n
  induction n with
  | zero =>
    intro _
    refine ⟨Best.init, rfl, rfl, rfl, fun s _ => Or.inl ⟨rfl, rfl, fun i r hi => by omega⟩⟩
  | succ n ih =>
    intro hn
    obtain ⟨b, b1, b2, b3, b4⟩ := ih (by omega)
    obtain ⟨r, r1, r2, r3, r4, r5⟩ := db_facts ⟨n, by omega⟩
    simp only at r1
    rw [List.range_succ, loop_append, b1]
    simp only [Option.bind_some, loop]
    have case : ∀ {i : Nat} {r' : Row}, i < n + 1 → rowAt kernelDB i = some r' → i < n ∨ r' = r := by
      intro i r' hi hr'
      rcases Nat.lt_succ_iff_lt_or_eq.1 hi with h | h
      · exact Or.inl h
      · subst h; rw [r1] at hr'; exact Or.inr (Option.some.inj hr').symm
    unfold bestStep
    rw [r1]
    simp only [Option.bind_some]
    by_cases hm : r.support ≤ maxSup ∧ r.eps ≤ eps ∧ r.corr ≤ 10
    · rw [if_pos hm, Arr.read_nat, if_pos (by omega), Option.bind_some]
      by_cases ho : r.os ≤ b.os.get r.support
      · rw [if_pos ho, Arr.write_nat, if_pos (by omega), Option.bind_some, Arr.write_nat,
          if_pos (by omega)]
        simp only [Option.map_some]
        refine ⟨_, rfl, b2, b3, fun s hs => ?_⟩
        simp only [Arr.put_get]
        by_cases hss : s = r.support
        · subst hss
          rw [if_pos rfl, if_pos rfl]
          refine Or.inr ⟨r, by omega, r1, rfl, rfl, hm, fun i r' hi hr' hs' hm' => ?_⟩
          rcases case hi hr' with h | h
          · rcases b4 r.support (by omega) with ⟨_, _, h3⟩ | ⟨q, q1, q2, q3, q4, q5, q6⟩
            · exact absurd hm' (h3 i r' h hr' hs')
            · have := q6 i r' h hr' hs' hm'
              rw [q4] at ho
              exact le_trans ho this
          · rw [h]
        · rw [if_neg hss, if_neg hss]
          rcases b4 s hs with ⟨h1, h2, h3⟩ | ⟨q, q1, q2, q3, q4, q5, q6⟩
          · refine Or.inl ⟨h1, h2, fun i r' hi hr' hs' => ?_⟩
            rcases case hi hr' with h | h
            · exact h3 i r' h hr' hs'
            · subst h; exact absurd hs'.symm hss
          · refine Or.inr ⟨q, by omega, q2, q3, q4, q5, fun i r' hi hr' hs' hm' => ?_⟩
            rcases case hi hr' with h | h
            · exact q6 i r' h hr' hs' hm'
            · subst h; exact absurd hs'.symm hss
      · rw [if_neg ho]
        refine ⟨b, rfl, b2, b3, fun s hs => ?_⟩
        rcases b4 s hs with ⟨h1, h2, h3⟩ | ⟨q, q1, q2, q3, q4, q5, q6⟩
        · refine Or.inl ⟨h1, h2, fun i r' hi hr' hs' => ?_⟩
          rcases case hi hr' with h | h
          · exact h3 i r' h hr' hs'
          · subst h
            subst hs'
            rw [h2] at ho
            exact absurd (by linarith) ho
        · refine Or.inr ⟨q, by omega, q2, q3, q4, q5, fun i r' hi hr' hs' hm' => ?_⟩
          rcases case hi hr' with h | h
          · exact q6 i r' h hr' hs' hm'
          · subst h
            subst hs'
            rw [q4] at ho
            exact (not_le.1 ho).le
    · rw [if_neg hm]
      refine ⟨b, rfl, b2, b3, fun s hs => ?_⟩
      rcases b4 s hs with ⟨h1, h2, h3⟩ | ⟨q, q1, q2, q3, q4, q5, q6⟩
      · refine Or.inl ⟨h1, h2, fun i r' hi hr' hs' => ?_⟩
        rcases case hi hr' with h | h
        · exact h3 i r' h hr' hs'
        · rw [h]; exact hm
      · refine Or.inr ⟨q, by omega, q2, q3, q4, q5, fun i r' hi hr' hs' hm' => ?_⟩
        rcases case hi hr' with h | h
        · exact q6 i r' h hr' hs' hm'
        · rw [h] at hm'; exact absurd hm' hm

/-- The grid size for a row: twice the smallest 11-smooth number above `image * os / 2`. -/
def IsGrid (image : Nat) (os : ℚ) (g : Int) : Prop :=
  ∃ m : Nat, g = 2 * m ∧ IsLeast {m : Nat | Smooth m ∧ ⌊(image : ℚ) * os * (1 / 2)⌋ + 1 ≤ (m : Int)} m

theorem nu_ok (image : Nat) (os : ℚ) (h : 0 ≤ os) :
    ∃ g, nuOf image os = some g ∧ IsGrid image os g := by
  have h1 : 0 ≤ ⌊(image : ℚ) * os * (1 / 2)⌋ := Int.floor_nonneg.2 (by positivity)
  obtain ⟨r, e, hr⟩ := C29_good_size (⌊(image : ℚ) * os * (1 / 2)⌋ + 1) (by omega)
  unfold nuOf
  rw [e]
  exact ⟨_, rfl, r, rfl, hr⟩

theorem isGrid_mono {image : Nat} {o1 o2 : ℚ} {g1 g2 : Int} (h : o1 ≤ o2) (h1 : IsGrid image o1 g1)
    (h2 : IsGrid image o2 g2) : g1 ≤ g2 := by
  obtain ⟨m1, rfl, a1⟩ := h1
  obtain ⟨m2, rfl, a2⟩ := h2
  have : m1 ≤ m2 := a1.2 ⟨a2.1.1, le_trans (by
    have : ⌊(image : ℚ) * o1 * (1 / 2)⌋ ≤ ⌊(image : ℚ) * o2 * (1 / 2)⌋ := by
      apply Int.floor_le_floor
      have := mul_le_mul_of_nonneg_left h (show (0 : ℚ) ≤ image by positivity)
      linarith
    omega) a2.1.2⟩
  omega

/-- The second loop. -/
theorem min_ok (image : Nat) (idx : Arr Nat) (hs : idx.size = 20) (row : Nat → Row)
    (hr : ∀ i, i < 20 → rowAt kernelDB (idx.get i) = some (row i)) (g : Nat → Int)
    (hg : ∀ i, i < 20 → nuOf image (row i).os = some (g i)) : ∀ n, n ≤ 20 →
    ∃ s, loop (minStep kernelDB image idx) (80000, 244) (List.range n) = some s ∧
      ((s = (80000, 244) ∧ ∀ i, i < n → 80000 < g i) ∨
       (∃ i, i < n ∧ s = (g i, idx.get i) ∧ g i ≤ 80000 ∧ (∀ j, j < n → g i ≤ g j) ∧
        ∀ j, i < j → j < n → g i < g j)) := by
  intro n
  induction n with
  | zero => intro _; exact ⟨_, rfl, Or.inl ⟨rfl, by intro i hi; omega⟩⟩
  | succ n ih =>
    intro hn
    obtain ⟨s, s1, s2⟩ := ih (by omega)
    rw [List.range_succ, loop_append, s1]
    simp only [Option.bind_some, loop]
    unfold minStep
    rw [Arr.read_nat, if_pos (by omega), Option.bind_some, hr n (by omega), Option.bind_some,
      hg n (by omega)]
    simp only [Option.map_some]
    by_cases hle : g n ≤ s.1
    · rw [if_pos hle]
      refine ⟨_, rfl, Or.inr ⟨n, by omega, rfl, ?_, ?_, fun j h1 h2 => by omega⟩⟩
      · rcases s2 with ⟨e, _⟩ | ⟨i, _, e, h80, _⟩
        · rw [e] at hle; exact hle
        · rw [e] at hle; exact le_trans hle h80
      · intro j hj
        rcases Nat.lt_succ_iff_lt_or_eq.1 hj with h | h
        · rcases s2 with ⟨e, h3⟩ | ⟨i, _, e, _, h3, _⟩
          · rw [e] at hle; exact le_trans hle (h3 j h).le
          · rw [e] at hle; exact le_trans hle (h3 j h)
        · rw [h]
    · rw [if_neg hle]
      refine ⟨_, rfl, ?_⟩
      rcases s2 with ⟨e, h3⟩ | ⟨i, hi, e, h80, h3, h4⟩
      · refine Or.inl ⟨e, fun j hj => ?_⟩
        rcases Nat.lt_succ_iff_lt_or_eq.1 hj with h | h
        · exact h3 j h
        · rw [h]; rw [e] at hle; exact not_le.1 hle
      · rw [e] at hle
        refine Or.inr ⟨i, by omega, e, h80, fun j hj => ?_, fun j h1 h2 => ?_⟩
        · rcases Nat.lt_succ_iff_lt_or_eq.1 hj with h | h
          · exact h3 j h
          · rw [h]; exact (not_le.1 hle).le
        · rcases Nat.lt_succ_iff_lt_or_eq.1 h2 with h | h
          · exact h4 j h1 h
          · rw [h]; exact not_le.1 hle

/-- Everything known about the choice. -/
theorem choose_full (eps : ℚ) (image : Nat) (double : Bool) :
    ∃ (b : Best) (row : Nat → Row) (g : Nat → Int), BestInv eps (maxSupport double) 244 b ∧
      (∀ i, i < 20 → rowAt kernelDB (b.idx.get i) = some (row i)) ∧
      (∀ i, i < 20 → nuOf image (row i).os = some (g i) ∧ IsGrid image (row i).os (g i)) ∧
      ((chooseParams eps image double = none ∧ ∀ i, i < 20 → 80000 < g i) ∨
       (∃ i, i < 20 ∧ chooseParams eps image double = some ⟨g i, (row i).support, (row i).beta⟩ ∧
        g i ≤ 80000 ∧ (∀ j, j < 20 → g i ≤ g j) ∧ ∀ j, i < j → j < 20 → g i < g j)) := by
  obtain ⟨b, b1, b2⟩ := best_ok eps (maxSupport double) 244 le_rfl
  have lt : ∀ i, i < 20 → b.idx.get i < 244 := by
    intro i hi
    rcases b2.2.2 i hi with ⟨h, _⟩ | ⟨_, h, _⟩ <;> omega
  have hrow : ∀ i, ∃ r : Row, i < 20 → rowAt kernelDB (b.idx.get i) = some r ∧ 0 ≤ r.os := by
    intro i
    by_cases hi : i < 20
    · obtain ⟨r, r1, _, _, r4, _⟩ := db_facts ⟨b.idx.get i, lt i hi⟩
      exact ⟨r, fun _ => ⟨r1, by linarith⟩⟩
    · exact ⟨lastRow, fun h => absurd h hi⟩
  choose row hrow using hrow
  have hg : ∀ i, ∃ g : Int, i < 20 → nuOf image (row i).os = some g ∧ IsGrid image (row i).os g := by
    intro i
    by_cases hi : i < 20
    · obtain ⟨g, g1, g2⟩ := nu_ok image (row i).os (hrow i hi).2
      exact ⟨g, fun _ => ⟨g1, g2⟩⟩
    · exact ⟨0, fun h => absurd h hi⟩
  choose g hg using hg
  refine ⟨b, row, g, b2, fun i hi => (hrow i hi).1, hg, ?_⟩
  obtain ⟨s, s1, s2⟩ := min_ok image b.idx b2.1 row (fun i hi => (hrow i hi).1) g
    (fun i hi => (hg i hi).1) 20 le_rfl
  unfold chooseParams
  rw [b1, Option.bind_some, s1, Option.bind_some]
  rcases s2 with ⟨e, h⟩ | ⟨i, hi, e, h80, h3, h4⟩
  · left
    rw [e]
    simp only
    rw [db_none]
    exact ⟨rfl, h⟩
  · right
    refine ⟨i, hi, ?_, h80, h3, h4⟩
    rw [e]
    simp only
    rw [(hrow i hi).1, Option.bind_some, (hg i hi).1]
    rfl

/-- **C70 (partial).**  Whenever parameters are returned: they are those of one row of the table,
which meets the request or is the last row of the table; the grid is even, twice an 11-smooth
number, larger than the image (by at least 2 if the image is even) and than the image times the
oversampling factor of the row; and no row that meets the
request would give a smaller grid. -/
theorem C70_choice_partial (eps : ℚ) (image : Nat) (double : Bool) (p : Params)
    (h : chooseParams eps image double = some p) :
    ∃ i r, rowAt kernelDB i = some r ∧ p.support = r.support ∧ p.beta = r.beta ∧
      (Meets eps double r ∨ r = lastRow) ∧ IsGrid image r.os p.gridSize ∧
      ((image : Int) < p.gridSize ∧ (Even image → (image : Int) + 2 ≤ p.gridSize)) ∧
      ∀ i' r' g', rowAt kernelDB i' = some r' → Meets eps double r' → IsGrid image r'.os g' →
        p.gridSize ≤ g' := by
  obtain ⟨b, row, g, hb, hrow, hg, hc⟩ := choose_full eps image double
  rcases hc with ⟨hc, _⟩ | ⟨i, hi, hc, _, hmin, _⟩
  · rw [hc] at h; cases h
  rw [hc] at h
  cases h
  have hlt : b.idx.get i < 244 := by
    rcases hb.2.2 i hi with ⟨h, _⟩ | ⟨_, h, _⟩ <;> omega
  refine ⟨b.idx.get i, row i, hrow i hi, rfl, rfl, ?_, (hg i hi).2, ?_, ?_⟩
  · rcases hb.2.2 i hi with ⟨h, _⟩ | ⟨r, _, h2, _, _, h5, _⟩
    · right
      have := hrow i hi
      rw [h, db_last] at this
      exact (Option.some.inj this).symm
    · left
      rw [hrow i hi] at h2
      cases h2
      exact h5
  · obtain ⟨r, r1, _, _, r4, _⟩ := db_facts ⟨b.idx.get i, hlt⟩
    simp only at r1
    rw [hrow i hi] at r1
    cases r1
    obtain ⟨m, hm, hl⟩ := (hg i hi).2
    have h1 := hl.1.2
    have h2 : ((image : ℚ) * (1 / 2) : ℚ) ≤ (image : ℚ) * (row i).os * (1 / 2) := by
      have : (image : ℚ) * 1 ≤ (image : ℚ) * (row i).os :=
        mul_le_mul_of_nonneg_left (by linarith) (by positivity)
      linarith
    have h3 : ((image / 2 : Nat) : Int) ≤ ⌊(image : ℚ) * (row i).os * (1 / 2)⌋ := by
      apply Int.le_floor.2
      refine le_trans ?_ h2
      have hk : 2 * (image / 2) ≤ image := by omega
      generalize image / 2 = k at hk ⊢
      have : (2 : ℚ) * (k : ℚ) ≤ image := by exact_mod_cast hk
      push_cast
      linarith
    simp only
    rw [hm]
    refine ⟨by omega, ?_⟩
    rintro ⟨k, hk⟩
    omega
  · intro i' r' g' hr' hm' hg'
    have hi' : i' < 244 := by
      by_contra hh
      have : rowAt kernelDB i' = none := by
        unfold rowAt
        rw [Array.getElem?_eq_none_iff]
        have : kernelDB.size = 244 := by decide +kernel
        omega
      rw [this] at hr'
      cases hr'
    obtain ⟨r, r1, _, r3, _⟩ := db_facts ⟨i', hi'⟩
    simp only at r1
    rw [hr'] at r1
    cases r1
    refine le_trans (hmin r'.support (by omega)) ?_
    rcases hb.2.2 r'.support (by omega) with ⟨_, _, h3⟩ | ⟨q, _, h2, _, _, _, h6⟩
    · exact absurd hm' (h3 i' r' hi' hr' rfl)
    · rw [hrow _ (by omega)] at h2
      cases h2
      exact isGrid_mono (h6 i' r' hi' hr' rfl hm') (hg _ (by omega)).2 hg'

end Sdp.EsFft
