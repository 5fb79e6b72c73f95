import Verif.Fft.CallProps
import Verif.Fft.Gpu
import Verif.Common.Outcome

/-!
# C91: shifted transforms, the GPU kernels, and where plans go wrong
-/

namespace Sdp.Fft
open Complex Sdp.Race
noncomputable section

/-! ## Kernels -/

theorem pixel_gpu (n1 n2 tx ty : Nat) (hx : n1 ≤ tx) (hy : n2 ≤ ty) (prog : Nat × Nat → Prog ℂ)
    (f : Nat × Nat → ℂ → ℂ) (h1 : ∀ p : Nat × Nat, p.1 < n1 → p.2 < n2 → prog p =
      .read ((p.1 * n2 + p.2 : Nat) : Int) fun v => .write ((p.1 * n2 + p.2 : Nat) : Int) (f p v) .done)
    (h0 : ∀ p : Nat × Nat, ¬(p.1 < n1 ∧ p.2 < n2) → prog p = .done) (d : Arr ℂ) (hd : d.size = n1 * n2) :
    ∃ r, Yields prog (nest2 tx ty) d r ∧ r.size = n1 * n2 ∧
      ∀ i < n1, ∀ j < n2, r.get (i * n2 + j) = f (i, j) (d.get (i * n2 + j)) := by
  obtain ⟨r, r1, r2, r3, -⟩ := yields_modify prog (nest2 tx ty) (fun p => p.1 < n1 ∧ p.2 < n2)
    (fun p => p.1 * n2 + p.2) f (fun p _ hg => h1 p hg.1 hg.2) (fun p _ hg => h0 p hg) d (by
      intro p _ hg
      have := flat_lt hg.1 hg.2
      rw [Nat.mul_comm n2] at this
      omega) (by
      intro p _ q _ hp hq e
      simp only [Nat.mul_comm _ n2] at e
      have := flat_inj hp.2 hq.2 e
      exact Prod.ext this.1 this.2)
  refine ⟨r, r1, by rw [r2, hd], fun i hi j hj => r3 (i, j) (mem_nest2.2 ⟨by simp; omega, by simp; omega⟩) ⟨hi, hj⟩⟩

/-- C91: on the GPU, for every interleaving of the threads, the checkerboard step changes the sign of exactly
the pixels with odd `i + j`, whatever the shape of the blocks. -/
theorem C91_phase_gpu (n1 n2 : Nat) (d : Arr ℂ) (hd : d.size = n1 * n2) :
    ∃ r, Yields (phaseAt n1 n2) (phaseThreads n1 n2) d r ∧ r.size = n1 * n2 ∧
      ∀ i < n1, ∀ j < n2, r.get (i * n2 + j) = d.get (i * n2 + j) * (-1) ^ (i + j) := by
  unfold phaseThreads
  obtain ⟨r, r1, r2, r3⟩ := pixel_gpu n1 n2 _ _
    (le_blocks n1 (if n2 = 1 then 256 else if n1 = 1 then 1 else 32) (by split_ifs <;> norm_num))
    (le_blocks n2 (if n2 = 1 then 1 else if n1 = 1 then 256 else 8) (by split_ifs <;> norm_num))
    (phaseAt n1 n2) (fun p v => v * (((1 - (((p.1 + p.2) &&& 1) <<< 1 : Nat) : Int)) : ℂ)) (by
      intro p h1 h2
      unfold phaseAt
      rw [if_neg (by omega)]
      ) (by
      intro p h
      unfold phaseAt
      rw [if_pos (by omega)]) d hd
  refine ⟨r, r1, r2, fun i hi j hj => ?_⟩
  rw [r3 i hi j hj]
  simp only
  rw [checker]

/-- C91: on the GPU, for every interleaving of the threads, normalisation divides every element by the number of
elements once. -/
theorem C91_norm_gpu (n1 n2 : Nat) (d : Arr ℂ) (hd : d.size = n1 * n2) :
    ∃ r, Yields (normAt n1 n2 (1 / (n1 * n2))) (normThreads n1 n2) d r ∧ r.size = n1 * n2 ∧
      ∀ i < n1, ∀ j < n2, r.get (i * n2 + j) = d.get (i * n2 + j) * (1 / (n1 * n2)) := by
  unfold normThreads
  exact pixel_gpu n1 n2 _ _ (le_blocks n1 32 (by norm_num)) (le_blocks n2 8 (by norm_num)) _
    (fun _ v => v * (1 / (n1 * n2))) (by
      intro p h1 h2
      unfold normAt
      rw [if_neg (by omega)]) (by
      intro p h
      unfold normAt
      rw [if_pos (by omega)]) d hd

/-! ## Shifted transforms -/

theorem viewed_ok {m : Mem} (ht : m.type = .complexFloat ∨ m.type = .complexDouble) (hl : m.location = .cpu)
    (hn : m.numDims = 2) (hd : m.data ≠ none) (hr : m.isReadOnly = false) : viewed m .success = .success := by
  unfold viewed
  simp only [hl]
  rw [if_neg (by rcases ht with h | h <;> simp [h])]
  exact (view_status m m.type 2 .cpu .success).2 ⟨rfl, rfl, hn, hl, hd, hr⟩

/-- C91: a shifted transform in place of a two-dimensional array with even sides: the plan's checks, the two
checkerboard steps and the normalisation together give the centred transform, for every history of the work
array and every loop order. -/
theorem C91_shift_partial {m0 m : Mem} {fwd : Int} {p : Plan} (hfwd : fwd = 0 ∨ fwd = 1)
    (h : fftCreate m0 m0 2 fwd .success = (some p, .success)) {x : Arr ℂ} (hx : Desc m0 x)
    (hf : m0.type = .complexFloat ∨ m0.type = .complexDouble) (h1 h2 : Nat) (p1 : 0 < h1) (p2 : 0 < h2)
    (hs : m.shape = [((2 * h1 : Nat) : Int), ((2 * h2 : Nat) : Int)])
    (d : Arr ℂ) (hd : Desc m d) (nrm : Bool) (hn : nrm = true → 2 * h1 * (2 * h2) < 2 ^ 31) (o1 o2 : List Nat)
    (order : List (Nat × Nat)) (ho1 : o1.Perm (List.range (2 * h2))) (ho2 : o2.Perm (List.range (2 * h1)))
    (hor : order.Perm (nest2 (2 * h1) (2 * h2)))
    (hfit : (⟨m, m, .success, true, d, d, o1, o2⟩ : Use).Fits m0 m0) (tmp : Arr ℂ) (hz : tmp.size = x.size) :
    ∃ r t, execShiftCall (some p) m nrm .success o1 o2 order d tmp = some (.success, r, t) ∧
      ∀ i < 2 * h1, ∀ j < 2 * h2, r.get (i * (2 * h2) + j) =
        (-1) ^ (h1 + h2) *
          centred (fwd = 0) (2 * h1) (2 * h2) (fun a b => d.get (a * (2 * h2) + b)) i j *
          (if nrm then 1 / (((2 * h1 : Nat) : ℂ) * ((2 * h2 : Nat) : ℂ)) else (1 : ℂ)) := by
  have hnum : m.numDims = 2 := by rw [← hd.holds.dims, hs]; rfl
  have q0 : (m.shapeDim 0).toNat = 2 * h1 := by
    have := shapeDim_lt m 0 (by omega)
    rw [hs] at this
    simp only [Nat.cast_zero] at this
    rw [this]
    exact Int.toNat_natCast _
  have q1 : (m.shapeDim 1).toNat = 2 * h2 := by
    have := shapeDim_lt m 1 (by omega)
    rw [hs] at this
    simp only [Nat.cast_one] at this
    rw [this]
    exact Int.toNat_natCast _
  have hds : d.size = 2 * h1 * (2 * h2) := by
    have := hd.holds.size
    rw [hs] at this
    simp at this
    zify
    rw [this]
  have hts : tmp.size = 2 * h1 * (2 * h2) := by
    have e1 := hx.holds.size
    rw [hfit.2.1.2.2.1, hs] at e1
    rw [hz]
    simp at e1
    zify
    rw [e1]
  obtain ⟨r, t, e, v⟩ := C28_shift_centred h1 h2 p1 p2 o1 o2 order ho1 ho2 hor fwd nrm d tmp hds hts
  refine ⟨r, t, ?_, fun i hi j hj => ?_⟩
  swap
  · rw [v i hi j hj]
    have : (!decide (fwd = 1)) = decide (fwd = 0) := by rcases hfwd with rfl | rfl <;> rfl
    rw [this]
  have hv : viewed m .success = .success := viewed_ok (by rw [← hfit.2.1.1]; exact hf)
    (by rw [← hfit.2.1.2.1]; exact (create_plan h).2.1) hnum hfit.2.2.2.1 hfit.2.2.2.2.2.1
  obtain ⟨a, a1, a2, -⟩ := phase_spec (2 * h1) (2 * h2) order hor d hds
  have hda : Desc m a := ⟨⟨hd.holds.dims, hd.holds.nonneg, by rw [a2, ← hds]; exact hd.holds.size⟩, hd.stride⟩
  have hfa : (⟨m, m, .success, true, a, a, o1, o2⟩ : Use).Fits m0 m0 := hfit
  have hee : fftExec (some p) m m .success o1 o2 true a a tmp =
      (exec2 (2 * h1) (2 * h2) 1 o1 o2 fwd true a a tmp).map fun r => (.success, r.inp, r.tmp) := by
    obtain ⟨hc, hl, e1, e2, e3, -, -, -, e4⟩ := create_plan h
    obtain ⟨-, s2, s3⟩ := plan_sizes (.inr rfl) h
    obtain ⟨-, c2, c3, c4⟩ := (exec_checks hc hx hx _ hda hda).1 hfa
    simp only at c2 c3 c4
    have n0 : m0.numDims = 2 := by rw [← hx.holds.dims, hfit.2.1.2.2.1, hs]; rfl
    have sd : ∀ k, side m0 k = side m k := fun k => by unfold side; rw [hfit.2.1.2.2.1]
    have t0 : side m 0 = 2 * h1 := by unfold side; rw [hs]; exact Int.toNat_natCast _
    have t1 : side m 1 = 2 * h2 := by unfold side; rw [hs]; exact Int.toNat_natCast _
    have sf : sameFloat m m := by
      unfold sameFloat
      rw [← hfit.2.1.1]
      rcases hf with hf | hf
      · exact .inl ⟨hf, hf⟩
      · exact .inr ⟨hf, hf⟩
    have ml : m.location = .cpu := by rw [← hfit.2.1.2.1]; exact hl
    unfold fftExec
    simp only
    rw [if_neg (by simp), e3, c2, if_neg (by simp), e1, e2, c3, if_neg (by simp), ml]
    simp only
    rw [if_neg (by rintro ⟨h, -⟩; norm_num at h), if_pos ⟨trivial, sf⟩, e4, s3, (s2 rfl).1, (s2 rfl).2, n0, sd, sd]
    have : entries m0 2 = 1 := by unfold entries; rw [if_pos n0]
    rw [this, t0, t1]
  unfold execShift at e
  unfold execShiftCall phaseCall
  rw [if_neg (by simp), if_neg (by simp), if_neg (by simp [hv]), q1]
  rw [a1] at e ⊢
  simp only [Option.bind_some, Option.map_some] at e ⊢
  rw [hee]
  cases hx2 : exec2 (2 * h1) (2 * h2) 1 o1 o2 fwd true a a tmp with
  | none => rw [hx2] at e; cases e
  | some b =>
    rw [hx2] at e
    simp only [Option.bind_some, Option.map_some] at e ⊢
    rw [if_neg (by simp), if_neg (by simp [hv])]
    cases hph : phase (2 * h2) order b.inp with
    | none => rw [hph] at e; cases e
    | some c =>
      rw [hph] at e
      simp only [Option.bind_some, Option.map_some] at e ⊢
      cases nrm with
      | false =>
        simp only [Bool.false_eq_true, if_false, Option.map_some, Option.some.injEq, Prod.mk.injEq] at e ⊢
        exact ⟨trivial, e.1, e.2⟩
      | true =>
        simp only [if_true] at e ⊢
        unfold normCall
        have hov : ¬ (2 ^ 31 ≤ m.shapeDim 0 * m.shapeDim 1) := by
          have z0 : m.shapeDim 0 = ((2 * h1 : Nat) : Int) := by
            have := shapeDim_lt m 0 (by omega)
            rw [hs] at this
            simpa using this
          have z1 : m.shapeDim 1 = ((2 * h2 : Nat) : Int) := by
            have := shapeDim_lt m 1 (by omega)
            rw [hs] at this
            simpa using this
          rw [z0, z1, not_le]
          exact_mod_cast hn rfl
        rw [if_neg (by simp), if_neg (by simp [hv]), if_neg hov, q0, q1]
        cases hnm : norm (2 * h1) (2 * h2) order c with
        | none => rw [hnm] at e; cases e
        | some g =>
          rw [hnm] at e
          simp only [Option.map_some, Option.some.injEq, Prod.mk.injEq] at e ⊢
          exact ⟨trivial, e.1, e.2⟩

/-! ## Where it is false -/

/-- C91 is false for an input in single and an output in double precision: the plan is created, its use succeeds,
and the output is what it was before. -/
theorem C91_mixed_false (inp out tmp : Arr ℂ) (o1 o2 : List Nat) (fwd : Int) :
    ∃ p, fftCreate (wrap .complexFloat [4]) (wrap .complexDouble [4]) 1 fwd .success = (some p, .success) ∧
      fftExec (some p) (wrap .complexFloat [4]) (wrap .complexDouble [4]) .success o1 o2 false inp out tmp =
        some (.success, out, tmp) := by
  have hc : checkParams (wrap .complexFloat [4]) (wrap .complexDouble [4]) 1 .success = .success := by decide
  have hn : createNative (wrap .complexFloat [4]) 1 = ((4, 1), .success) := by decide
  have l : (wrap .complexFloat [4]).location = .cpu := by decide
  have mi : isMatching (wrap .complexFloat [4]) (wrap .complexFloat [4]) true = true := by decide
  have mo : isMatching (wrap .complexDouble [4]) (wrap .complexDouble [4]) true = true := by decide
  have sf : ¬ sameFloat (wrap .complexFloat [4]) (wrap .complexDouble [4]) := by decide
  refine ⟨⟨wrap .complexFloat [4], wrap .complexDouble [4], 1, 4, 1, 1, fwd⟩, ?_, ?_⟩
  · unfold fftCreate
    simp only [hc, l, hn]
    rfl
  · unfold fftExec
    simp only [hc, l, mi, mo, sf]
    simp

/-- C91 is false for no dimensions: a plan that transforms 0 dimensions of a one-dimensional array is accepted, and
its use succeeds without writing to the output. -/
theorem C91_no_dims_false (inp out tmp : Arr ℂ) (o1 o2 : List Nat) (fwd : Int) :
    ∃ p, fftCreate (wrap .complexDouble [4]) (wrap .complexDouble [4]) 0 fwd .success = (some p, .success) ∧
      fftExec (some p) (wrap .complexDouble [4]) (wrap .complexDouble [4]) .success o1 o2 false inp out tmp =
        some (.success, out, tmp) := by
  have hc : checkParams (wrap .complexDouble [4]) (wrap .complexDouble [4]) 0 .success = .success := by decide
  have hn : createNative (wrap .complexDouble [4]) 0 = ((0, 0), .success) := by decide
  have l : (wrap .complexDouble [4]).location = .cpu := by decide
  have mi : isMatching (wrap .complexDouble [4]) (wrap .complexDouble [4]) true = true := by decide
  refine ⟨⟨wrap .complexDouble [4], wrap .complexDouble [4], 0, 0, 0, 4, fwd⟩, ?_, ?_⟩
  · unfold fftCreate
    simp only [hc, l, hn]
    rfl
  · unfold fftExec
    simp only [hc, l, mi]
    simp

/-- C91 is false without a plan: the use succeeds and does nothing. -/
theorem C91_null_false (mi mo : Mem) (inp out tmp : Arr ℂ) (o1 o2 : List Nat) (same : Bool) :
    fftExec none mi mo .success o1 o2 same inp out tmp = some (.success, out, tmp) := rfl

/-- Plan for one-dimensional arrays of four elements. -/
def plan4 (fwd : Int) : Plan := ⟨wrap .complexDouble [4], wrap .complexDouble [4], 1, 4, 1, 1, fwd⟩

theorem plan4_created (fwd : Int) :
    fftCreate (wrap .complexDouble [4]) (wrap .complexDouble [4]) ((1 : Nat) : Int) fwd .success =
      (some (plan4 fwd), .success) := by
  have hc : checkParams (wrap .complexDouble [4]) (wrap .complexDouble [4]) ((1 : Nat) : Int) .success = .success := by
    decide
  have hn : createNative (wrap .complexDouble [4]) ((1 : Nat) : Int) = ((4, 1), .success) := by decide
  have l : (wrap .complexDouble [4]).location = .cpu := by decide
  unfold fftCreate
  simp only [hc, l, hn]
  rfl

/-- A use of it: a unit impulse at element 1. -/
def use4 : Use := ⟨wrap .complexDouble [4], wrap .complexDouble [4], .success, false,
  ⟨4, fun k => if k = 1 then 1 else 0⟩, ⟨4, fun _ => 0⟩, [0], []⟩

theorem desc4 (g : Nat → ℂ) : Desc (wrap .complexDouble [4]) ⟨4, g⟩ :=
  ⟨⟨by decide, by decide, rfl⟩, by decide⟩

theorem fits4 : use4.Fits (wrap .complexDouble [4]) (wrap .complexDouble [4]) :=
  ⟨rfl, ⟨rfl, rfl, rfl, rfl⟩, ⟨rfl, rfl, rfl, rfl⟩, by decide, by decide, by decide, by decide, by decide⟩

theorem ordered4 : use4.Ordered 1 := ⟨fun _ => by decide, fun h => by omega⟩

theorem wave4 : wave 1 4 1 1 = I ∧ wave (-1) 4 1 1 = -I := by
  have e : cexp (Real.pi / 2 * I) = I := by
    rw [Complex.exp_mul_I, ← Complex.ofReal_ofNat, ← Complex.ofReal_div, ← Complex.ofReal_cos, ← Complex.ofReal_sin,
      Real.cos_pi_div_two, Real.sin_pi_div_two]
    simp
  constructor
  · unfold wave
    rw [show (2 * Real.pi * I * (((1 * ((1 : Nat) * (1 : Nat)) : Int) : ℂ) / ((4 : Nat) : ℂ)) : ℂ) = Real.pi / 2 * I by
      push_cast; ring, e]
  · unfold wave
    rw [show (2 * Real.pi * I * (((-1 * ((1 : Nat) * (1 : Nat)) : Int) : ℂ) / ((4 : Nat) : ℂ)) : ℂ) = -(Real.pi / 2 * I) by
      push_cast; ring, Complex.exp_neg, e]
    simp

/-- C91 is false for a value of `is_forward` that is true but not 1: the transform is the inverse one. -/
theorem C91_direction_false (tmp : Arr ℂ) (ht : tmp.size = 4) :
    ∃ r t, fftExec (some (plan4 2)) use4.mi use4.mo use4.st use4.o1 use4.o2 use4.same use4.inp use4.out tmp =
        some (.success, r, t) ∧ Transformed 1 1 use4.mi use4.inp r ∧ ¬ Transformed 1 (-1) use4.mi use4.inp r := by
  obtain ⟨r, t, e, -, -, v⟩ := exec_fit (.inl rfl) (plan4_created 2) (desc4 fun _ => 0) (desc4 fun _ => 0) rfl
    (.inr rfl) use4 (desc4 _) (desc4 _) fits4 ordered4 (by intro h; cases h) tmp ht
  refine ⟨r, t, e, v, fun w => ?_⟩
  have sd : side use4.mi (use4.mi.numDims - 1) = 4 := by decide
  have en : entries use4.mi 1 = 1 := by decide
  have a := v.1 rfl 0 (by rw [en]; omega) 1 (by rw [sd]; omega)
  have b := w.1 rfl 0 (by rw [en]; omega) 1 (by rw [sd]; omega)
  rw [sd] at a b
  rw [a] at b
  simp only [Finset.sum_range_succ, Finset.sum_range_zero, use4] at b
  norm_num at b
  rw [wave4.1, wave4.2] at b
  have := congrArg Complex.im b
  norm_num at this

/-- The conditions of `C91_plan_partial` are met by a history of two uses, the second with another shape. -/
example (tmp : Arr ℂ) (ht : tmp.size = 4) : ∃ r s, useAll (some (plan4 1)) tmp
      [use4, { use4 with mi := wrap .complexDouble [2], inp := ⟨2, fun _ => 0⟩ }] = some [(.success, r), s] ∧
    r.get 1 = -I ∧ s.1 ≠ .success := by
  obtain ⟨rs, e, f⟩ := C91_plan_partial (.inl rfl) (.inr rfl) (plan4_created 1) (desc4 fun _ => 0) (desc4 fun _ => 0)
    rfl (.inr rfl) [use4, { use4 with mi := wrap .complexDouble [2], inp := ⟨2, fun _ => 0⟩ }] (by
      intro u hu
      simp only [List.mem_cons, List.not_mem_nil, or_false] at hu
      rcases hu with rfl | rfl
      · exact ⟨desc4 _, desc4 _, ordered4, by intro h; cases h⟩
      · exact ⟨⟨⟨by decide, by decide, by decide⟩, by decide⟩, desc4 _, ⟨fun _ => by decide, fun h => by omega⟩,
          by intro h; cases h⟩) tmp ht
  obtain ⟨r, rs1, e1, f1, rfl⟩ := List.forall₂_cons_left_iff.1 f
  obtain ⟨s, rs2, e2, f2, rfl⟩ := List.forall₂_cons_left_iff.1 f1
  obtain rfl := List.forall₂_nil_left_iff.1 f2
  obtain ⟨g1, g2, g3⟩ := e1.1 fits4
  obtain ⟨st, r⟩ := r
  simp only at g1 g2 g3
  subst g1
  refine ⟨r, s, e, ?_, (e2.2 fun h => ?_).1⟩
  · have sd : side use4.mi (use4.mi.numDims - 1) = 4 := by decide
    have en : entries use4.mi 1 = 1 := by decide
    have a := g3.1 rfl 0 (by rw [en]; omega) 1 (by rw [sd]; omega)
    rw [sd] at a
    simp only [Finset.sum_range_succ, Finset.sum_range_zero, use4] at a
    norm_num at a
    rw [wave4.2] at a
    exact a
  · have := h.2.1.2.2.1
    revert this
    decide

/-- C91 is false for errors of a shifted transform: with *every* plan, and every two-dimensional array in host memory
that it is not for, the call reports an error but has changed the sign of half of the data. -/
theorem C91_shift_error_false {mi mo : Mem} {nd fwd : Int} {p : Plan}
    (h : fftCreate mi mo nd fwd .success = (some p, .success)) {x y : Arr ℂ} (hx : Desc mi x) (hy : Desc mo y)
    (m : Mem) (n1 n2 : Nat) (hs : m.shape = [(n1 : Int), (n2 : Int)]) (d : Arr ℂ) (hd : Desc m d)
    (hm : (m.type = .complexFloat ∨ m.type = .complexDouble) ∧ m.location = .cpu ∧ m.data ≠ none ∧
      m.isReadOnly = false) (hbad : ¬ Like mi m) (nrm : Bool) (o1 o2 : List Nat) (order : List (Nat × Nat))
    (hor : order.Perm (nest2 n1 n2)) (tmp : Arr ℂ) :
    ∃ s r, s ≠ .success ∧ execShiftCall (some p) m nrm .success o1 o2 order d tmp = some (s, r, tmp) ∧
      ∀ i < n1, ∀ j < n2, r.get (i * n2 + j) = d.get (i * n2 + j) * (-1) ^ (i + j) := by
  have hnum : m.numDims = 2 := by rw [← hd.holds.dims, hs]; rfl
  have q1 : (m.shapeDim 1).toNat = n2 := by
    have := shapeDim_lt m 1 (by omega)
    rw [hs] at this
    simp only [Nat.cast_one] at this
    rw [this]
    exact Int.toNat_natCast _
  have hds : d.size = n1 * n2 := by
    have := hd.holds.size
    rw [hs] at this
    simp at this
    zify
    rw [this]
  have hv := viewed_ok hm.1 hm.2.1 hnum hm.2.2.1 hm.2.2.2
  obtain ⟨a, a1, a2, a3⟩ := phase_spec n1 n2 order hor d hds
  have hda : Desc m a := ⟨⟨hd.holds.dims, hd.holds.nonneg, by rw [a2, ← hds]; exact hd.holds.size⟩, hd.stride⟩
  obtain ⟨s, s1, -, s3⟩ := exec_unfit h hx hy ⟨m, m, .success, true, a, a, o1, o2⟩ hda hda
    (fun f => hbad f.2.1) tmp
  simp only at s3
  refine ⟨s, a, s1, ?_, a3⟩
  unfold execShiftCall phaseCall
  rw [if_neg (by simp), if_neg (by simp), if_neg (by simp [hv]), q1, a1]
  simp only [Option.bind_some, Option.map_some]
  rw [s3]
  simp only [Option.bind_some]
  rw [if_pos s1]
  simp only [Option.bind_some]
  cases nrm with
  | false => rfl
  | true =>
    simp only [if_true]
    unfold normCall
    rw [if_pos s1]
    rfl

/-- A 2 by 2 array and the plan for four elements. -/
example : ¬ Like (wrap .complexDouble [4]) (wrap .complexDouble [2, 2]) := by
  rintro ⟨-, -, h, -⟩
  revert h
  decide

/-- C91 is false for a shifted transform without a plan: it succeeds and leaves the data as they were. -/
theorem C91_shift_null_false (m : Mem) (n1 n2 : Nat) (hs : m.shape = [(n1 : Int), (n2 : Int)]) (d : Arr ℂ)
    (hd : Desc m d) (hm : (m.type = .complexFloat ∨ m.type = .complexDouble) ∧ m.location = .cpu ∧ m.data ≠ none ∧
      m.isReadOnly = false) (o1 o2 : List Nat) (order : List (Nat × Nat))
    (hor : order.Perm (nest2 n1 n2)) (tmp : Arr ℂ) :
    ∃ r, execShiftCall none m false .success o1 o2 order d tmp = some (.success, r, tmp) ∧
      ∀ i < n1, ∀ j < n2, r.get (i * n2 + j) = d.get (i * n2 + j) := by
  have hnum : m.numDims = 2 := by rw [← hd.holds.dims, hs]; rfl
  have q1 : (m.shapeDim 1).toNat = n2 := by
    have := shapeDim_lt m 1 (by omega)
    rw [hs] at this
    simp only [Nat.cast_one] at this
    rw [this]
    exact Int.toNat_natCast _
  have hds : d.size = n1 * n2 := by
    have := hd.holds.size
    rw [hs] at this
    simp at this
    zify
    rw [this]
  have hv := viewed_ok hm.1 hm.2.1 hnum hm.2.2.1 hm.2.2.2
  obtain ⟨a, b, a1, a2, a3⟩ := C28_phase_involution n1 n2 order hor d hds
  refine ⟨b, ?_, a3⟩
  unfold execShiftCall phaseCall fftExec
  rw [if_neg (by simp), if_neg (by simp), if_neg (by simp [hv]), q1, a1]
  simp only [Option.bind_some, Option.map_some]
  rw [if_neg (by simp), if_neg (by simp [hv]), a2]
  rfl

/-- C91 is false for the normalisation of large arrays: with sides of 65536 the product of the sides does not fit
in the `int` it is computed in. -/
theorem C91_overflow_false (order : List (Nat × Nat)) (d : Arr ℂ) :
    normCall (wrap .complexDouble [65536, 65536]) .success order d = none := by
  have hv : viewed (wrap .complexDouble [65536, 65536]) .success = .success := by decide
  have h : (2 : Int) ^ 31 ≤ (wrap .complexDouble [65536, 65536]).shapeDim 0 *
    (wrap .complexDouble [65536, 65536]).shapeDim 1 := by decide
  unfold normCall
  rw [if_neg (by simp), if_neg (by simp [hv]), if_pos h]

/-- C91 is false for normalised shifted transforms of the rows of an array: they are divided by the number of
elements of the whole array.  Two rows of one element each, whose transforms are the elements themselves, come
out halved. -/
theorem C91_batch_norm_false (fwd : Int) (d tmp : Arr ℂ) (hd : d.size = 2) (ht : tmp.size = 2) :
    ∃ p r t, fftCreate (wrap .complexDouble [2, 1]) (wrap .complexDouble [2, 1]) 1 fwd .success =
        (some p, .success) ∧
      execShiftCall (some p) (wrap .complexDouble [2, 1]) true .success [0, 1] [] (nest2 2 1) d tmp =
        some (.success, r, t) ∧ r.get 0 = d.get 0 / 2 ∧ r.get 1 = d.get 1 / 2 := by
  let m := wrap .complexDouble [2, 1]
  let p : Plan := ⟨m, m, 1, 1, 1, 2, fwd⟩
  have hc : checkParams m m ((1 : Nat) : Int) .success = .success := by decide
  have hn : createNative m ((1 : Nat) : Int) = ((1, 1), .success) := by decide
  have l : m.location = .cpu := by decide
  have h : fftCreate m m ((1 : Nat) : Int) fwd .success = (some p, .success) := by
    unfold fftCreate
    simp only [hc, l, hn]
    rfl
  have hv : viewed m .success = .success := by decide
  have q0 : m.shapeDim 0 = 2 := by decide
  have q1 : m.shapeDim 1 = 1 := by decide
  have desc : ∀ a : Arr ℂ, a.size = 2 → Desc m a := by
    rintro ⟨z, g⟩ rfl
    exact ⟨⟨by decide, by decide, rfl⟩, by decide⟩
  obtain ⟨a, a1, a2, a3⟩ := phase_spec 2 1 (nest2 2 1) (List.Perm.refl _) d hd
  let u : Use := ⟨m, m, .success, true, a, a, [0, 1], []⟩
  have hnn : m.data ≠ none := by decide
  have hro : m.isReadOnly = false := by decide
  have hcc : m.isCContiguous = true := by decide
  have fit : u.Fits m m :=
    ⟨rfl, ⟨rfl, rfl, rfl, rfl⟩, ⟨rfl, rfl, rfl, rfl⟩, by assumption, by assumption, by assumption, by assumption, by assumption⟩
  have ord : u.Ordered 1 := ⟨fun _ => by
    have : entries m 1 = 2 := by decide
    show [0, 1].Perm (List.range (entries m 1))
    rw [this]
    decide, fun h => by omega⟩
  obtain ⟨b, t, b1, b2, b3, b4⟩ := exec_fit (.inl rfl) h (desc a a2) (desc a a2) rfl (.inr rfl) u (desc a a2)
    (desc a a2) fit ord (fun _ => rfl) tmp (by rw [ht, a2])
  have b2 : b.size = 2 * 1 := by rw [b2]; exact a2
  obtain ⟨c, c1, c2, c3⟩ := phase_spec 2 1 (nest2 2 1) (List.Perm.refl _) b b2
  obtain ⟨r, r1, r2, r3⟩ := norm_spec 2 1 (nest2 2 1) (List.Perm.refl _) c c2
  have b1 : fftExec (some p) m m .success [0, 1] [] true a a tmp = some (.success, b, t) := b1
  refine ⟨p, r, t, h, ?_, ?_, ?_⟩
  · show execShiftCall (some p) m true .success [0, 1] [] (nest2 2 1) d tmp = _
    unfold execShiftCall phaseCall
    rw [if_neg (by simp), if_neg (by simp), if_neg (by simp [hv]), q1]
    simp only [Int.toNat_one, a1, Option.bind_some, Option.map_some, b1]
    rw [if_neg (by simp), if_neg (by simp [hv])]
    simp only [c1, Option.bind_some, Option.map_some, if_true]
    unfold normCall
    rw [if_neg (by simp), if_neg (by simp [hv]), q0, q1, if_neg (by norm_num)]
    have e2 : Int.toNat 2 = 2 := rfl
    simp only [Int.toNat_one, e2, r1, Option.map_some]
  all_goals
    have sd : side m (m.numDims - 1) = 1 := by decide
    have en : entries m 1 = 2 := by decide
    have w : wave (if fwd = 1 then -1 else 1) 1 0 0 = 1 := by unfold wave; simp
  · have v := b4.1 rfl 0 (by show 0 < entries m 1; rw [en]; omega) 0 (by show 0 < side m (m.numDims - 1); rw [sd]; omega)
    change b.get (0 * side m (m.numDims - 1) + 0) = ∑ s ∈ Finset.range (side m (m.numDims - 1)),
      wave (if fwd = 1 then -1 else 1) (side m (m.numDims - 1)) s 0 * a.get (0 * side m (m.numDims - 1) + s) at v
    rw [sd] at v
    simp only [Finset.sum_range_one, w, one_mul] at v
    have x1 := r3 0 (by omega) 0 (by omega)
    have x2 := c3 0 (by omega) 0 (by omega)
    have x3 := a3 0 (by omega) 0 (by omega)
    simp only [Nat.zero_mul, Nat.add_zero, pow_zero, mul_one] at v x1 x2 x3
    rw [x1, x2, v, x3]
    norm_num
    ring
  · have v := b4.1 rfl 1 (by show 1 < entries m 1; rw [en]; omega) 0 (by show 0 < side m (m.numDims - 1); rw [sd]; omega)
    change b.get (1 * side m (m.numDims - 1) + 0) = ∑ s ∈ Finset.range (side m (m.numDims - 1)),
      wave (if fwd = 1 then -1 else 1) (side m (m.numDims - 1)) s 0 * a.get (1 * side m (m.numDims - 1) + s) at v
    rw [sd] at v
    simp only [Finset.sum_range_one, w, one_mul] at v
    have x1 := r3 1 (by omega) 0 (by omega)
    have x2 := c3 1 (by omega) 0 (by omega)
    have x3 := a3 1 (by omega) 0 (by omega)
    simp only [Nat.one_mul, Nat.add_zero, pow_one, mul_one] at v x1 x2 x3
    rw [x1, x2, v, x3]
    norm_num
    ring

/-- Conditions of `C91_shift_partial`: 2 by 2 elements. -/
example : ∃ p : Plan, fftCreate (wrap .complexDouble [2, 2]) (wrap .complexDouble [2, 2]) 2 1 .success =
      (some p, .success) ∧ (⟨wrap .complexDouble [2, 2], wrap .complexDouble [2, 2], .success, true,
        ⟨4, fun _ => 1⟩, ⟨4, fun _ => 1⟩, [0, 1], [0, 1]⟩ : Use).Fits (wrap .complexDouble [2, 2])
          (wrap .complexDouble [2, 2]) := by
  refine ⟨⟨wrap .complexDouble [2, 2], wrap .complexDouble [2, 2], 2, 2, 2, 1, 1⟩, ?_,
    rfl, ⟨rfl, rfl, rfl, rfl⟩, ⟨rfl, rfl, rfl, rfl⟩, by decide, by decide, by decide, by decide, by decide⟩
  have hc : checkParams (wrap .complexDouble [2, 2]) (wrap .complexDouble [2, 2]) 2 .success = .success := by decide
  have hn : createNative (wrap .complexDouble [2, 2]) 2 = ((2, 2), .success) := by decide
  have l : (wrap .complexDouble [2, 2]).location = .cpu := by decide
  unfold fftCreate
  simp only [hc, l, hn]
  rfl

end
end Sdp.Fft
