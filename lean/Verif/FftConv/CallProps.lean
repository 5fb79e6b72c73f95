import Verif.FftConv.GpuProps

/-!
# C90: `sdp_fft_convolution` as a call, on the CPU and on the GPU
-/

namespace Sdp.FftConv
open Sdp.Fft Sdp.Race
noncomputable section

/-- Specification: arrays a user passes for a convolution of `n1` by `n1` pixels with `n2` by `n2`: the
descriptors describe the data, are complex of one precision, at `loc`, and the output can be written to. -/
structure ConvArgs (loc : MemLocation) (m1 m2 mo : Mem) (n1 n2 : Nat) (in1 in2 out : Arr ℂ) : Prop where
  shape1 : HasShape m1 [n1, n1]
  shape2 : HasShape m2 [n2, n2]
  shapeo : HasShape mo [n1, n1]
  data1 : Holds m1 in1
  data2 : Holds m2 in2
  datao : Holds mo out
  loc1 : m1.location = loc
  loc2 : m2.location = loc
  loco : mo.location = loc
  type1 : m1.type = .complexDouble ∨ m1.type = .complexFloat
  type2 : m2.type = m1.type
  typeo : mo.type = m1.type
  exists1 : m1.data ≠ none
  writable : mo.data ≠ none ∧ mo.isReadOnly = false

/-- Specification: contents of the output after a successful convolution. -/
def IsConv (n1 n2 : Nat) (in1 in2 out r : Arr ℂ) : Prop :=
  r.size = out.size ∧
    (∀ i < n1, ∀ j < n1, r.get (i * n1 + j) =
      linConv n1 n2 (fun s t => in1.get (s * n1 + t)) (fun s t => in2.get (s * n2 + t))
        (((n2 - 1) / 2 : Nat) : Int) (((n2 - 1) / 2 : Nat) : Int) i j) ∧
    ∀ k, n1 * n1 ≤ k → r.get k = out.get k

theorem shapeDim_of {m : Mem} {a b : Int} (h : HasShape m [a, b]) : m.shapeDim 0 = a ∧ m.shapeDim 1 = b := by
  have s0 := shapeDim_lt m 0 (by rw [h.1]; simp)
  have s1 := shapeDim_lt m 1 (by rw [h.1]; simp)
  have e0 := h.2 0 (by simp)
  have e1 := h.2 1 (by simp)
  simp only [Nat.cast_zero, Nat.cast_one] at s0 s1
  rw [s0, s1]
  exact ⟨e0, e1⟩

theorem size_of {m : Mem} {n : Nat} {a : Arr ℂ} (h : Holds m a) (hs : HasShape m [(n : Int), (n : Int)]) :
    a.size = n * n := by
  have := (h.of_shape hs).2
  simp at this
  exact_mod_cast this

theorem ConvArgs.check {loc : MemLocation} {m1 m2 mo : Mem} {n1 n2 : Nat} {in1 in2 out : Arr ℂ}
    (h : ConvArgs loc m1 m2 mo n1 n2 in1 in2 out) : checkConv m1 m2 mo .success = .success := by
  unfold checkConv
  have d1 := shapeDim_of h.shape1
  have d2 := shapeDim_of h.shape2
  rw [if_neg (by simp), if_neg, if_neg (by rw [h.loc1, h.loco]; simp), if_neg (by rw [h.typeo]; simp), if_neg,
    if_neg (by rw [d1.1, d1.2]; simp), if_neg (by rw [d2.1, d2.2]; simp)]
  · rintro (a | ⟨a, b⟩)
    · exact h.exists1 a
    · exact h.type1.elim a b
  · rintro (a | a)
    · exact h.writable.1 a
    · rw [h.writable.2] at a
      cases a

theorem pad_gap {n1 n2 : Nat} (h1 : 1 ≤ n1) (h2 : 1 ≤ n2) (hgap : ∀ k, 2 ^ k < n1 + n2 - 1 ∨ n1 + 2 ≤ 2 ^ k) :
    n1 + 2 ≤ padDim n1 n2 := by
  obtain ⟨⟨k, hk⟩, hb, -⟩ := C25_pad_dim n1 n2 h1 h2
  rw [hk] at hb ⊢
  rcases hgap k with h | h <;> omega

/-- C90, GPU.  For square images of *any* sides, even or odd, such that no power of two lies between
`n1 + n2 - 1` and `n1 + 1` (no condition at all if `n2 ≥ 3`), and every interleaving of the threads of the six
kernels at every access: the call succeeds, stays inside its arrays, and output pixel `(i, j)` is the linear
convolution with the origin of the second image at its pixel `((n2 - 1) / 2, (n2 - 1) / 2)`.  Missing from the
full property: the other sizes, where it is false (`C90_gpu_edge_false`, `C90_gpu_pixel_false`). -/
theorem C90_gpu_partial (m1 m2 mo : Mem) (n1 n2 : Nat) (in1 in2 out : Arr ℂ) (h1 : 1 ≤ n1) (h2 : 1 ≤ n2)
    (hgap : ∀ k, 2 ^ k < n1 + n2 - 1 ∨ n1 + 2 ≤ 2 ^ k) (h : ConvArgs .gpu m1 m2 mo n1 n2 in1 in2 out) :
    ∃ r, IsConv n1 n2 in1 in2 out r ∧
      ∀ o, ConvCall true m1 m2 mo .success in1 in2 out o ↔ o = some (.success, r) := by
  have hP := pad_gap h1 h2 hgap
  obtain ⟨r, ⟨o, ho⟩, hr, r1, r2, r3⟩ := convGpu_ok in1 in2 out n1 n2 h1 h2 hP (size_of h.data1 h.shape1).ge
    (size_of h.data2 h.shape2).ge (size_of h.datao h.shapeo).ge
  have ho' := hr o ho
  subst ho'
  refine ⟨r, ⟨r1, r2, r3⟩, fun o => ?_⟩
  have d1 := (shapeDim_of h.shape1).1
  have d2 := (shapeDim_of h.shape2).1
  unfold ConvCall
  simp only [h.check, d1, d2, Int.toNat_natCast, h.loc1, h.loc2]
  rw [if_neg (by simp), if_neg (by simp), if_neg (by simp), if_neg (by omega)]
  constructor
  · rintro ⟨o', a, rfl⟩
    rw [hr o' a]
    rfl
  · rintro rfl
    exact ⟨some r, ho, rfl⟩

/-- The condition of `C90_gpu_partial` always holds if the second image has a side of at least 3. -/
theorem C90_gap (n1 n2 : Nat) (h : 3 ≤ n2) (k : Nat) : 2 ^ k < n1 + n2 - 1 ∨ n1 + 2 ≤ 2 ^ k := by omega

/-- C90, CPU.  The same result for images with even sides and every order of the loops of the transforms.
Missing: odd sides, for which it is false (`C90_odd_false`, `C25_odd_kernel_false`). -/
theorem C90_cpu_partial (cuda : Bool) (m1 m2 mo : Mem) (n1 n2 : Nat) (in1 in2 out : Arr ℂ) (h1 : 2 ≤ n1)
    (h2 : 2 ≤ n2) (e1 : n1 % 2 = 0) (e2 : n2 % 2 = 0) (h : ConvArgs .cpu m1 m2 mo n1 n2 in1 in2 out) :
    (∃ o, ConvCall cuda m1 m2 mo .success in1 in2 out o) ∧
      ∀ o, ConvCall cuda m1 m2 mo .success in1 in2 out o →
        ∃ r, IsConv n1 n2 in1 in2 out r ∧ o = some (.success, r) := by
  have d1 := (shapeDim_of h.shape1).1
  have d2 := (shapeDim_of h.shape2).1
  have key : ∀ o, ConvCall cuda m1 m2 mo .success in1 in2 out o ↔
      ∃ o1 o2 : List Nat, o1.Perm (List.range (padDim n1 n2)) ∧ o2.Perm (List.range (padDim n1 n2)) ∧
        o = (convolve o1 o2 in1 in2 n1 n2 out).map fun r => (.success, r) := by
    intro o
    unfold ConvCall
    simp only [h.check, d1, d2, Int.toNat_natCast, h.loc1, h.loc2]
    rw [if_neg (by simp), if_neg (by simp)]
  refine ⟨⟨_, (key _).2 ⟨_, _, List.Perm.refl _, List.Perm.refl _, rfl⟩⟩, fun o ho => ?_⟩
  obtain ⟨o1, o2, p1, p2, rfl⟩ := (key o).1 ho
  obtain ⟨r, r1, r2, r3, r4⟩ := C25_fft_convolution_partial o1 o2 n1 n2 p1 p2 h1 h2 e1 e2 in1 in2 out
    (size_of h.data1 h.shape1) (size_of h.data2 h.shape2) (size_of h.datao h.shapeo).ge
  refine ⟨r, ⟨r2, fun i hi j hj => ?_, r4⟩, by rw [r1]; rfl⟩
  rw [r3 i hi j hj]
  have e : ((n2 / 2 : Nat) : Int) - 1 = (((n2 - 1) / 2 : Nat) : Int) := by omega
  rw [e]

/-- C90: on images with even sides the two back-ends agree in every pixel. -/
theorem C90_same_partial (m1 m2 mo m1' m2' mo' : Mem) (n1 n2 : Nat) (in1 in2 out : Arr ℂ) (h1 : 2 ≤ n1)
    (h2 : 2 ≤ n2) (e1 : n1 % 2 = 0) (e2 : n2 % 2 = 0) (h : ConvArgs .cpu m1 m2 mo n1 n2 in1 in2 out)
    (h' : ConvArgs .gpu m1' m2' mo' n1 n2 in1 in2 out) (o o' : Option (Status × Arr ℂ))
    (ho : ConvCall true m1 m2 mo .success in1 in2 out o)
    (ho' : ConvCall true m1' m2' mo' .success in1 in2 out o') :
    ∃ r r', o = some (.success, r) ∧ o' = some (.success, r') ∧ r.size = r'.size ∧ ∀ k, r.get k = r'.get k := by
  have gap : ∀ k, 2 ^ k < n1 + n2 - 1 ∨ n1 + 2 ≤ 2 ^ k := by
    intro k
    rcases Nat.lt_or_ge 2 n2 with c | c
    · exact C90_gap n1 n2 c k
    · cases k with
      | zero => left; simp; omega
      | succ k => rw [pow_succ]; omega
  obtain ⟨r', a', b'⟩ := C90_gpu_partial m1' m2' mo' n1 n2 in1 in2 out (by omega) (by omega) gap h'
  obtain ⟨r, a, b⟩ := (C90_cpu_partial true m1 m2 mo n1 n2 in1 in2 out h1 h2 e1 e2 h).2 o ho
  refine ⟨r, r', b, (b' o').1 ho', by rw [a.1, a'.1], fun k => ?_⟩
  rcases Nat.lt_or_ge k (n1 * n1) with c | c
  · have x1 : k / n1 < n1 := Nat.div_lt_of_lt_mul c
    have x2 : k % n1 < n1 := Nat.mod_lt _ (by omega)
    have x3 := Nat.div_add_mod k n1
    rw [Nat.mul_comm] at x3
    rw [← x3, a.2.1 _ x1 _ x2, a'.2.1 _ x1 _ x2]
  · rw [a.2.2 k c, a'.2.2 k c]

/-- C90: a call that gets arrays the two back-ends reject is refused with an error and leaves the output
alone: an earlier error, an output that is read-only, in another place or of another type than the first
image, a first image without data or not complex, images that are not square. -/
theorem C90_refused (cuda : Bool) (m1 m2 mo : Mem) (st : Status) (in1 in2 out : Arr ℂ)
    (h : st ≠ .success ∨ mo.data = none ∨ mo.isReadOnly = true ∨ m1.location ≠ mo.location ∨
      m1.type ≠ mo.type ∨ m1.data = none ∨ (m1.type ≠ .complexDouble ∧ m1.type ≠ .complexFloat) ∨
      m1.shapeDim 0 ≠ m1.shapeDim 1 ∨ m2.shapeDim 0 ≠ m2.shapeDim 1) :
    ∃ s, s ≠ .success ∧ (st ≠ .success → s = st) ∧
      ∀ o, ConvCall cuda m1 m2 mo st in1 in2 out o ↔ o = some (s, out) := by
  have key : checkConv m1 m2 mo st ≠ .success ∧ (st ≠ .success → checkConv m1 m2 mo st = st) := by
    unfold checkConv
    by_cases c0 : st ≠ .success
    · rw [if_pos c0]; exact ⟨c0, fun _ => rfl⟩
    · refine ⟨?_, fun c => absurd c c0⟩
      rw [if_neg c0]
      split_ifs with c1 c2 c3 c4 c5 c6 <;> try simp
      simp only [not_or, not_not] at c0 c1 c2 c3 c5 c6
      rcases h with h | h | h | h | h | h | h | h | h
      · exact h c0
      · exact c1.1 h
      · exact c1.2 h
      · exact h c2
      · exact h c3
      · exact c4 (.inl h)
      · exact c4 (.inr h)
      · exact h c5
      · exact h c6
  refine ⟨_, key.1, key.2, fun o => ?_⟩
  unfold ConvCall
  simp only
  rw [if_pos key.1]

/-- C90: on the GPU, a build without CUDA and a second image that is not on the device are refused too. -/
theorem C90_refused_gpu (cuda : Bool) (m1 m2 mo : Mem) (in1 in2 out : Arr ℂ)
    (hc : checkConv m1 m2 mo .success = .success) (hl : m1.location = .gpu)
    (h : cuda = false ∨ (m2.location ≠ .gpu ∧ m2.type ≠ .void)) (o : Option (Status × Arr ℂ)) :
    ConvCall cuda m1 m2 mo .success in1 in2 out o ↔ o = some (.memLocation, out) := by
  unfold ConvCall
  simp only [hc, hl]
  rw [if_neg (by simp)]
  by_cases c : cuda = false
  · rw [if_pos c]
  · rw [if_neg c, if_pos (h.resolve_left c)]

/-! ## Where it is false -/

/-- A thread that starts outside an array is always noticed. -/
theorem never_done {α ι : Type} [DecidableEq ι] (t : ι) : ∀ (sched : List ι) (s x : Race.St α ι),
    s.prog t = .fault → Race.run s sched = some x → x.prog t = .fault := by
  intro sched
  induction sched with
  | nil => intro s x h e; cases e; exact h
  | cons u us ih =>
    intro s x h e
    have e' : (Race.step s u).bind (fun y => Race.run y us) = some x := e
    by_cases c : u = t
    · subst c
      have : Race.step s u = none := by unfold Race.step; rw [h]
      rw [this] at e'
      cases e'
    · cases hs : Race.step s u with
      | none => rw [hs] at e'; cases e'
      | some y =>
        rw [hs] at e'
        refine ih y x ?_ e'
        unfold Race.step at hs
        split at hs
        · cases hs; exact h
        · cases hs
        · rw [Option.map_eq_some_iff] at hs
          obtain ⟨v, -, rfl⟩ := hs
          simpa [Function.update_of_ne (Ne.symm c)] using h
        · rw [Option.map_eq_some_iff] at hs
          obtain ⟨v, -, rfl⟩ := hs
          simpa [Function.update_of_ne (Ne.symm c)] using h

theorem launch_fault {α ι : Type} [DecidableEq ι] {prog : ι → Prog α} {ts : List ι} {a : Arr α} {t : ι}
    (ht : t ∈ ts) (hf : prog t = .fault) (o : Option (Arr α)) : Launch prog ts a o → o = none := by
  intro h
  cases h with
  | done sched hs s h hd =>
    have := never_done t sched _ s hf h
    rw [hd t ht] at this
    cases this
  | fault sched hs h => rfl

theorem then_none {α β : Type} {R : Option α → Prop} {k : α → Option β → Prop}
    (hk : ∀ a o, k a o → o = none) (o : Option β) (h : Then R k o) : o = none := by
  rcases h with ⟨-, h⟩ | ⟨a, -, h⟩
  · exact h
  · exact hk a o h

/-- C90 is false on the GPU at the sizes `C90_gpu_partial` leaves out: if a power of two lies between
`n1 + n2 - 1` and `n1 + 1`, *every* call reads outside the padded array (its row and column -1).  So
convolving with a single pixel an image of 4, or with 2 by 2 pixels one of 3. -/
theorem C90_gpu_edge_false (m1 m2 mo : Mem) (n1 n2 : Nat) (in1 in2 out : Arr ℂ) (h1 : 1 ≤ n1) (h2 : 1 ≤ n2)
    (hbig : 3 ≤ n1 + n2) (hgap : ∃ k, n1 + n2 - 1 ≤ 2 ^ k ∧ 2 ^ k ≤ n1 + 1)
    (h : ConvArgs .gpu m1 m2 mo n1 n2 in1 in2 out) (o : Option (Status × Arr ℂ))
    (ho : ConvCall true m1 m2 mo .success in1 in2 out o) : o = none := by
  obtain ⟨k, k1, k2⟩ := hgap
  obtain ⟨⟨j, hj⟩, hb, hmin⟩ := C25_pad_dim n1 n2 h1 h2
  have hP : padDim n1 n2 ≤ n1 + 1 := le_trans (hmin k k1) k2
  have hP2 : 2 ≤ padDim n1 n2 := by omega
  have he : (padDim n1 n2 - n1) / 2 = 0 := by omega
  have d1 := (shapeDim_of h.shape1).1
  have d2 := (shapeDim_of h.shape2).1
  unfold ConvCall at ho
  simp only [h.check, d1, d2, Int.toNat_natCast, h.loc1, h.loc2] at ho
  rw [if_neg (by simp), if_neg (by simp), if_neg (by simp), if_neg (by omega)] at ho
  obtain ⟨o', ho, rfl⟩ := ho
  have : o' = none := by
    unfold ConvGpu at ho
    refine then_none (fun a o h => then_none (fun b o h => then_none (fun m o h => then_none (fun q o h =>
      then_none (fun s o h => ?_) o h) o h) o h) o h) o' ho
    refine launch_fault (t := (0, 0)) (mem_threads2 h1 h1) ?_ o h
    · unfold removeAt
      rw [if_pos ⟨h1, h1⟩, he]
      have e : s.read (((((0, 0) : Nat × Nat).1 : Int) + (((0 : Nat) : Int) - 1)) * (padDim n1 n2 : Int) +
          ((((0, 0) : Nat × Nat).2 : Int) + (((0 : Nat) : Int) - 1))) = none := by
        unfold Arr.read
        rw [if_neg]
        rintro ⟨x, -⟩
        simp at x
        omega
      rw [e]
      rfl
  rw [this]
  rfl

/-- C90 is false on the GPU for images of one pixel each: the call is refused with a runtime error, because
the launch of the shift has no blocks. -/
theorem C90_gpu_pixel_false (m1 m2 mo : Mem) (in1 in2 out : Arr ℂ) (h : ConvArgs .gpu m1 m2 mo 1 1 in1 in2 out)
    (o : Option (Status × Arr ℂ)) :
    ConvCall true m1 m2 mo .success in1 in2 out o ↔ o = some (.runtime, out) := by
  have d1 := (shapeDim_of h.shape1).1
  have d2 := (shapeDim_of h.shape2).1
  have hP : padDim 1 1 = 1 := by
    have := nextPow2_spec 1 (by norm_num)
    simpa [padDim] using this
  unfold ConvCall
  simp only [h.check, d1, d2, Int.toNat_natCast, h.loc1, h.loc2, hP]
  rw [if_neg (by simp), if_neg (by simp), if_neg (by simp), if_pos (by norm_num)]

/-- C90 is false on the CPU for odd sides, and the back-ends disagree there: with *every* odd side of the first
image and every second image the CPU leaves its arrays, where the GPU computes the convolution. -/
theorem C90_odd_false (m1 m2 mo : Mem) (n1 n2 : Nat) (in1 in2 out : Arr ℂ) (hodd : n1 % 2 = 1) (h2 : 1 ≤ n2)
    (h : ConvArgs .cpu m1 m2 mo n1 n2 in1 in2 out) (cuda : Bool) (o : Option (Status × Arr ℂ))
    (ho : ConvCall cuda m1 m2 mo .success in1 in2 out o) : o = none := by
  have d1 := (shapeDim_of h.shape1).1
  have d2 := (shapeDim_of h.shape2).1
  unfold ConvCall at ho
  simp only [h.check, d1, d2, Int.toNat_natCast, h.loc1, h.loc2] at ho
  rw [if_neg (by simp), if_neg (by simp)] at ho
  obtain ⟨o1, o2, -, -, rfl⟩ := ho
  by_cases c : 1 < n1 + n2 - 1
  · rw [C25_odd_output_false o1 o2 n1 n2 h2 hodd in1 in2 out (size_of h.datao h.shapeo) c]
    rfl
  · have a : n1 = 1 := by omega
    have b : n2 = 1 := by omega
    subst a b
    rw [C25_one_pixel_false]
    rfl

theorem pad_short (data padded : Arr ℂ) (n e : Nat) (hn : 1 ≤ n) (h : data.size < n * n) :
    pad data n e padded = none := by
  unfold pad
  refine loop_none (fun _ => True) _ (fun _ _ _ _ _ => trivial) (n - 1, n - 1) ?_ _ _ trivial
    (mem_nest2.2 ⟨by simp; omega, by simp; omega⟩)
  intro s _
  have e : (n - 1) * n + (n - 1) = n * n - 1 := by
    obtain ⟨m, rfl⟩ : ∃ m, n = m + 1 := ⟨n - 1, by omega⟩
    have : (m + 1) * (m + 1) = m * (m + 1) + (m + 1) := by ring
    simp only [Nat.add_sub_cancel]
    omega
  have : data.read (((n - 1) * n + (n - 1) : Nat) : Int) = none := by
    rw [e]
    unfold Arr.read
    rw [if_neg]
    rintro ⟨-, x⟩
    have : 1 ≤ n * n := Nat.mul_pos hn hn
    omega
  simp only
  rw [this]
  rfl

/-- C90 is false for a second image of another type: nothing checks it, so 4 by 4 real numbers, which take the
room of 8 complex ones, are read as 16. -/
theorem C90_type_false : ∃ (m1 m2 mo : Mem) (in1 in2 out : Arr ℂ), m1 = wrap .complexDouble [4, 4] ∧
    m2 = wrap .double [4, 4] ∧ mo = wrap .complexDouble [4, 4] ∧ Holds m1 in1 ∧ Holds mo out ∧
    in2.size * 16 = 4 * 4 * 8 ∧ checkConv m1 m2 mo .success = .success ∧
    ∀ cuda o, ConvCall cuda m1 m2 mo .success in1 in2 out o → o = none := by
  refine ⟨_, _, _, ⟨16, fun _ => 1⟩, ⟨8, fun _ => 1⟩, ⟨16, fun _ => 0⟩, rfl, rfl, rfl,
    ⟨by decide, by decide, by decide⟩, ⟨by decide, by decide, by decide⟩, by norm_num, by decide, ?_⟩
  intro cuda o ho
  have hc : checkConv (wrap .complexDouble [4, 4]) (wrap .double [4, 4]) (wrap .complexDouble [4, 4]) .success =
    .success := by decide
  have l1 : (wrap .complexDouble [4, 4]).location = .cpu := by decide
  have l2 : (wrap .double [4, 4]).location = .cpu := by decide
  have d1 : (wrap .complexDouble [4, 4]).shapeDim 0 = 4 := by decide
  have d2 : (wrap .double [4, 4]).shapeDim 0 = 4 := by decide
  unfold ConvCall at ho
  simp only [hc, l1, l2, d1, d2] at ho
  rw [if_neg (by simp), if_neg (by simp)] at ho
  obtain ⟨o1, o2, -, -, rfl⟩ := ho
  have hp : ∀ e p, pad (⟨8, fun _ => 1⟩ : Arr ℂ) (Int.toNat 4) e p = none := fun e p =>
    pad_short _ _ _ _ (by decide) (by decide)
  unfold convolve
  simp only [hp, Option.bind_none, bind_none, Option.map_none]

/-- C90 is false for a second image that is elsewhere: with the first image and the output in host memory, a
second image on the device passes every check, and its address is used on the host. -/
theorem C90_place_false : ∃ (m1 m2 mo : Mem) (in1 in2 out : Arr ℂ), m1 = wrap .complexDouble [4, 4] ∧
    m2.location = .gpu ∧ m2.type = .complexDouble ∧ mo = wrap .complexDouble [4, 4] ∧ Holds m1 in1 ∧
    Holds m2 in2 ∧ Holds mo out ∧ checkConv m1 m2 mo .success = .success ∧
    ∀ cuda o, ConvCall cuda m1 m2 mo .success in1 in2 out o → o = none := by
  refine ⟨_, (createWrapper (some ⟨0, 0⟩) .complexDouble .gpu [4, 4] none .success).1, _, ⟨16, fun _ => 1⟩,
    ⟨16, fun _ => 1⟩, ⟨16, fun _ => 0⟩, rfl, by decide, by decide, rfl, ⟨by decide, by decide, by decide⟩,
    ⟨by decide, by decide, by decide⟩, ⟨by decide, by decide, by decide⟩, by decide, ?_⟩
  intro cuda o ho
  have hc : checkConv (wrap .complexDouble [4, 4])
    (createWrapper (some ⟨0, 0⟩) .complexDouble .gpu [4, 4] none .success).1 (wrap .complexDouble [4, 4]) .success =
    .success := by decide
  have l1 : (wrap .complexDouble [4, 4]).location = .cpu := by decide
  have l2 : (createWrapper (some ⟨0, 0⟩) .complexDouble .gpu [4, 4] none .success).1.location = .gpu := by decide
  unfold ConvCall at ho
  simp only [hc, l1, l2] at ho
  rw [if_neg (by simp), if_pos (by simp)] at ho
  exact ho

/-- C90 is false for an output of another size: nothing compares it with the first image.  *Every* call on the
CPU with an even side and an output array that is too small writes outside it. -/
theorem C90_output_false (m1 m2 mo : Mem) (n1 n2 : Nat) (in1 in2 out : Arr ℂ) (h1 : 2 ≤ n1) (h2 : 1 ≤ n2)
    (he : n1 % 2 = 0) (s1 : HasShape m1 [n1, n1]) (s2 : HasShape m2 [n2, n2]) (l1 : m1.location = .cpu)
    (l2 : m2.location = .cpu) (hc : checkConv m1 m2 mo .success = .success) (hs : out.size < n1 * n1)
    (cuda : Bool) (o : Option (Status × Arr ℂ)) (ho : ConvCall cuda m1 m2 mo .success in1 in2 out o) :
    o = none := by
  have d1 := (shapeDim_of s1).1
  have d2 := (shapeDim_of s2).1
  unfold ConvCall at ho
  simp only [hc, d1, d2, Int.toNat_natCast, l1, l2] at ho
  rw [if_neg (by simp), if_neg (by simp)] at ho
  obtain ⟨o1, o2, -, -, rfl⟩ := ho
  obtain ⟨k, hk, -⟩ := padDim_even n1 n2 (by omega) (by omega) (by omega)
  have hge := (C25_pad_dim n1 n2 (by omega) (by omega)).2.1
  have hn : padDim n1 n2 - 2 * ((padDim n1 n2 - n1) / 2) = n1 := by omega
  have hz : ∀ p, removePad p (padDim n1 n2) ((padDim n1 n2 - n1) / 2) out = none := fun p =>
    removePad_none _ _ _ _ (by rw [hn]; exact hs)
  unfold convolve
  simp only [hz, bind_none, Option.map_none]

/-- A 4 by 4 image, a 2 by 2 kernel and an output of 2 by 2 pass the checks. -/
example : checkConv (wrap .complexDouble [4, 4]) (wrap .complexDouble [2, 2]) (wrap .complexDouble [2, 2]) .success =
    .success := by decide

/-! ## Instances -/

/-- Data of one non-zero pixel and a ramp. -/
theorem exConv (loc : MemLocation) : ConvArgs loc
    (createWrapper (some ⟨0, 0⟩) .complexDouble loc [2, 2] none .success).1
    (createWrapper (some ⟨0, 0⟩) .complexDouble loc [4, 4] none .success).1
    (createWrapper (some ⟨0, 0⟩) .complexDouble loc [2, 2] none .success).1 2 4
    ⟨4, fun k => if k = 3 then 2 else 0⟩ ⟨16, fun k => (k : ℂ)⟩ ⟨4, fun _ => 0⟩ := by
  cases loc <;> exact ⟨⟨by decide, by decide⟩, ⟨by decide, by decide⟩, ⟨by decide, by decide⟩,
    ⟨by decide, by decide, by decide⟩, ⟨by decide, by decide, by decide⟩, ⟨by decide, by decide, by decide⟩,
    by decide, by decide, by decide, by decide, by decide, by decide, by decide, by decide⟩

/-- An odd kernel of 3 by 3 pixels, on an odd image of 3 by 3: all conditions hold, and the pixel beside the only
non-zero one gets the kernel's pixel beside its centre. -/
example : ∃ m1 m2 mo in1 in2 out, ConvArgs .gpu m1 m2 mo 3 3 in1 in2 out ∧
    (∀ k, 2 ^ k < 3 + 3 - 1 ∨ 3 + 2 ≤ 2 ^ k) ∧ ∀ r, IsConv 3 3 in1 in2 out r → r.get (1 * 3 + 2) = 10 := by
  let m := (createWrapper (some ⟨0, 0⟩) .complexDouble .gpu [3, 3] none .success).1
  refine ⟨m, m, m, ⟨9, fun k => if k = 4 then 2 else 0⟩, ⟨9, fun k => (k : ℂ)⟩, ⟨9, fun _ => 0⟩,
    ⟨⟨by decide, by decide⟩, ⟨by decide, by decide⟩, ⟨by decide, by decide⟩,
    ⟨by decide, by decide, by decide⟩, ⟨by decide, by decide, by decide⟩, ⟨by decide, by decide, by decide⟩,
    by decide, by decide, by decide, by decide, by decide, by decide, by decide, by decide⟩, C90_gap 3 3 (le_refl 3), ?_⟩
  intro r hr
  rw [hr.2.1 1 (by omega) 2 (by omega)]
  simp [linConv, Finset.sum_range_succ, at0]
  norm_num

/-- An image of 4 by 4 and a kernel of one pixel meet the conditions of `C90_gpu_edge_false`. -/
example : ∃ k, 4 + 1 - 1 ≤ 2 ^ k ∧ 2 ^ k ≤ 4 + 1 := ⟨2, by norm_num⟩

end
end Sdp.FftConv
