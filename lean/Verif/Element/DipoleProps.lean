import Mathlib.Analysis.SpecialFunctions.Trigonometric.Bounds
import Mathlib.Tactic.Linarith
import Mathlib.Tactic.FieldSimp
import Verif.Element.Dipole

/-!
# C75: the dipole element beam
-/

set_option linter.unusedSectionVars false

namespace Sdp.Element

/-- The real functions. -/
noncomputable def real : Lib ℝ := ⟨Real.sin, Real.cos, Real.sqrt, Real.pi / 2⟩

/-- Cosine of the angle between a direction and the axis of the dipole (the x axis). -/
noncomputable def axis (theta phi : ℝ) : ℝ := Real.sin theta * Real.cos phi

/-- Power pattern of a dipole of half length `L`, wavenumber `k`, from the angle to its axis. -/
noncomputable def power (kL c : ℝ) : ℝ := (Real.cos (kL * c) - Real.cos kL) ^ 2 / (1 - c ^ 2)

theorem den_eq (theta phi : ℝ) : 1 + Real.cos phi * Real.cos phi *
    (Real.cos theta * Real.cos theta - 1) = 1 - axis theta phi ^ 2 := by
  unfold axis
  have := Real.sin_sq_add_cos_sq theta
  linear_combination Real.cos phi ^ 2 * this

/-- **C75, power.**  At every direction the squared magnitude of the two components is the power
pattern of a dipole, which depends only on the angle to its axis. -/
theorem C75_power (kL theta phi : ℝ) :
    (dipole real kL (Real.cos kL) phi (Real.sin theta) (Real.cos theta)).1 ^ 2 +
      (dipole real kL (Real.cos kL) phi (Real.sin theta) (Real.cos theta)).2 ^ 2 =
    power kL (axis theta phi) := by
  unfold dipole
  simp only [show real.cos = Real.cos from rfl, show real.sin = Real.sin from rfl]
  rw [den_eq]
  by_cases h : 1 - axis theta phi ^ 2 = 0
  · rw [if_pos h]
    unfold power
    rw [h]; simp
  · rw [if_neg h]
    simp only
    unfold power
    have hd := den_eq theta phi
    have hs := Real.sin_sq_add_cos_sq phi
    rw [show kL * Real.cos phi * Real.sin theta = kL * axis theta phi by unfold axis; ring]
    generalize (Real.cos (kL * axis theta phi) - Real.cos kL) = T
    have e : Real.cos phi ^ 2 * Real.cos theta ^ 2 + Real.sin phi ^ 2 = 1 - axis theta phi ^ 2 := by
      linear_combination hd + hs
    rw [show (-Real.cos phi * Real.cos theta * (T / (1 - axis theta phi ^ 2))) ^ 2 +
      (Real.sin phi * (T / (1 - axis theta phi ^ 2))) ^ 2 =
      (Real.cos phi ^ 2 * Real.cos theta ^ 2 + Real.sin phi ^ 2) * (T / (1 - axis theta phi ^ 2)) ^ 2 by ring, e]
    field_simp

/-- **C75, components.**  The field is along the projection of the axis: the theta and phi components
are in the ratio of the components of the x axis in the local frame. -/
theorem C75_direction (kL theta phi : ℝ) :
    (dipole real kL (Real.cos kL) phi (Real.sin theta) (Real.cos theta)).1 * (-Real.sin phi) =
    (dipole real kL (Real.cos kL) phi (Real.sin theta) (Real.cos theta)).2 *
      (Real.cos theta * Real.cos phi) := by
  unfold dipole
  simp only [show real.cos = Real.cos from rfl, show real.sin = Real.sin from rfl]
  split_ifs
  · simp
  · simp only; ring

theorem axis_sq_le (theta phi : ℝ) : axis theta phi ^ 2 ≤ 1 := by
  unfold axis
  have h1 := Real.sin_sq_add_cos_sq theta
  have h2 := Real.sin_sq_add_cos_sq phi
  nlinarith [sq_nonneg (Real.cos theta), sq_nonneg (Real.sin phi), sq_nonneg (Real.cos phi),
    mul_nonneg (sq_nonneg (Real.sin theta)) (sq_nonneg (Real.sin phi))]

/-- **C75, axis.**  Along its axis, where the quotient is not defined, the value 0 that is returned is
the limit: the power is at most `(kL)^2 (1 - |c|) / (1 + |c|)`. -/
theorem C75_axis (kL c : ℝ) (hc : c ^ 2 ≤ 1) : power kL c ≤ kL ^ 2 * (1 - |c|) / (1 + |c|) := by
  have h0 : 0 ≤ |c| := abs_nonneg c
  have h1 : |c| ≤ 1 := by
    have := sq_abs c
    nlinarith
  have heven : power kL c = power kL |c| := by
    unfold power
    rcases abs_choice c with h | h
    · rw [h]
    · rw [h, mul_neg, Real.cos_neg, neg_sq]
  rw [heven]
  generalize |c| = d at *
  unfold power
  have hl : |Real.cos (kL * d) - Real.cos kL| ≤ |kL * d - kL| := by
    exact Real.abs_cos_sub_cos_le _ _
  have hl2 : (Real.cos (kL * d) - Real.cos kL) ^ 2 ≤ (kL * (1 - d)) ^ 2 := by
    rw [← sq_abs (Real.cos (kL * d) - Real.cos kL)]
    rw [show (kL * (1 - d)) ^ 2 = |kL * d - kL| ^ 2 by rw [sq_abs]; ring]
    exact pow_le_pow_left₀ (abs_nonneg _) hl 2
  rcases eq_or_lt_of_le h1 with rfl | h1
  · simp
  · have hp : 0 < 1 - d ^ 2 := by nlinarith
    have hq : 0 < 1 + d := by linarith
    rw [div_le_div_iff₀ hp hq]
    nlinarith [mul_le_mul_of_nonneg_right hl2 hq.le]

/-- **C75, scalar output**: the root of the mean power of two crossed dipoles. -/
theorem C75_scalar (kL theta phi : ℝ) :
    amplitude real kL (Real.cos kL) phi (Real.sin theta) (Real.cos theta) =
      Real.sqrt ((power kL (axis theta phi) + power kL (axis theta (phi + Real.pi / 2))) / 2) := by
  unfold amplitude
  simp only [show real.sqrt = Real.sqrt from rfl, show real.halfPi = Real.pi / 2 from rfl]
  rw [← C75_power, ← C75_power]
  congr 2
  ring

/-- **C75, symmetry**: turning the crossed dipoles by a quarter of a turn changes nothing. -/
theorem C75_quarter (kL theta phi : ℝ) :
    amplitude real kL (Real.cos kL) (phi + Real.pi / 2) (Real.sin theta) (Real.cos theta) =
      amplitude real kL (Real.cos kL) phi (Real.sin theta) (Real.cos theta) := by
  rw [C75_scalar, C75_scalar]
  have e : axis theta (phi + Real.pi / 2 + Real.pi / 2) = -axis theta phi := by
    unfold axis
    rw [add_assoc, add_halves, Real.cos_add_pi]; ring
  have e2 : power kL (-axis theta phi) = power kL (axis theta phi) := by
    unfold power
    rw [mul_neg, Real.cos_neg, neg_sq]
  rw [e, e2, add_comm]

/-! ## The loops -/

variable {K : Type} [Field K] [DecidableEq K]

/-- **C75, outputs**: with arrays that are large enough and a stride of at least 2, each point gets
its two components, whatever the order of the points, and nothing else is written. -/
theorem C75_pattern (f : Lib K) (n : Nat) (theta phi : Arr K) (kL cosKL : K) (stride off : Nat)
    (out : Arr K) (ht : n ≤ theta.size) (hp : n ≤ phi.size) (hs : 2 ≤ stride)
    (ho : ∀ i, i < n → i * stride + off + 1 < out.size) (order : List Nat)
    (horder : order.Perm (List.range n)) :
    ∃ r, loop (patternAt f theta phi kL cosKL stride off) out order = some r ∧ r.size = out.size ∧
      (∀ i, i < n →
        r.get (i * stride + off) = (dipole f kL cosKL (phi.get i) (f.sin (theta.get i)) (f.cos (theta.get i))).1 ∧
        r.get (i * stride + off + 1) =
          (dipole f kL cosKL (phi.get i) (f.sin (theta.get i)) (f.cos (theta.get i))).2) ∧
      ∀ j, (∀ i, i < n → j ≠ i * stride + off ∧ j ≠ i * stride + off + 1) → r.get j = out.get j := by
  have hmem : ∀ i ∈ order, i < n := fun i hi => List.mem_range.1 (horder.mem_iff.1 hi)
  have hnd : order.Nodup := horder.nodup_iff.2 List.nodup_range
  obtain ⟨r, r1, r2, r3, r4⟩ := loop_inv (patternAt f theta phi kL cosKL stride off)
    (fun done r => r.size = out.size ∧ (∀ i ∈ done,
        r.get (i * stride + off) = (dipole f kL cosKL (phi.get i) (f.sin (theta.get i)) (f.cos (theta.get i))).1 ∧
        r.get (i * stride + off + 1) =
          (dipole f kL cosKL (phi.get i) (f.sin (theta.get i)) (f.cos (theta.get i))).2) ∧
      ∀ j, (∀ i ∈ done, j ≠ i * stride + off ∧ j ≠ i * stride + off + 1) → r.get j = out.get j)
    order out ⟨rfl, by simp, fun _ _ => rfl⟩ (by
      intro done i rest s hsplit hP
      have hi := hmem i (by rw [hsplit]; simp)
      have hnot : i ∉ done := by
        rw [hsplit, List.nodup_append] at hnd
        intro hd
        exact hnd.2.2 i hd i (by simp) rfl
      have hoi := ho i hi
      unfold patternAt
      rw [Arr.read_nat, if_pos (by omega), Option.bind_some, Arr.read_nat, if_pos (by omega),
        Option.bind_some]
      simp only
      rw [show ((i : Int) * (stride : Int) + (off : Int)) = ((i * stride + off : Nat) : Int) by push_cast; ring,
        show ((i : Int) * (stride : Int) + ((off : Int) + 1)) = ((i * stride + off + 1 : Nat) : Int) by
          push_cast; ring,
        Arr.write_nat, if_pos (by rw [hP.1]; omega), Option.bind_some, Arr.write_nat,
        if_pos (by rw [Arr.put_size, hP.1]; omega)]
      refine ⟨_, rfl, hP.1, ?_, ?_⟩
      · intro j hj
        rcases List.mem_append.1 hj with hj' | hj
        · have hne : j ≠ i := fun h => hnot (h ▸ hj')
          have sep : j * stride + 2 ≤ i * stride ∨ i * stride + 2 ≤ j * stride := by
            rcases Nat.lt_or_gt_of_ne hne with h | h
            · left
              have := Nat.mul_le_mul_right stride (Nat.succ_le_of_lt h)
              rw [Nat.succ_mul] at this
              omega
            · right
              have := Nat.mul_le_mul_right stride (Nat.succ_le_of_lt h)
              rw [Nat.succ_mul] at this
              omega
          obtain ⟨q1, q2⟩ := hP.2.1 j hj'
          simp only [Arr.put_get]
          constructor
          · rw [if_neg (by omega), if_neg (by omega), q1]
          · rw [if_neg (by omega), if_neg (by omega), q2]
        · rw [List.mem_singleton] at hj
          subst hj
          simp only [Arr.put_get]
          exact ⟨by rw [if_neg (by omega), if_pos trivial], by rw [if_pos trivial]⟩
      · intro j hj
        have h1 := hj i (by simp)
        simp only [Arr.put_get]
        rw [if_neg h1.2, if_neg h1.1, hP.2.2 j fun i' hi' => hj i' (by simp [hi'])])
  exact ⟨r, r1, r2, fun i hi => r3 i (horder.mem_iff.2 (List.mem_range.2 hi)),
    fun j hj => r4 j fun i hi => hj i (hmem i hi)⟩

/-- **C75, scalar outputs.** -/
theorem C75_scalar_pattern (f : Lib K) (n : Nat) (theta phi : Arr K) (kL cosKL : K) (stride off : Nat)
    (out : Arr K) (ht : n ≤ theta.size) (hp : n ≤ phi.size) (hs : 1 ≤ stride)
    (ho : ∀ i, i < n → i * stride + off < out.size) (order : List Nat)
    (horder : order.Perm (List.range n)) :
    ∃ r, loop (scalarAt f theta phi kL cosKL stride off) out order = some r ∧ r.size = out.size ∧
      (∀ i, i < n → r.get (i * stride + off) =
        amplitude f kL cosKL (phi.get i) (f.sin (theta.get i)) (f.cos (theta.get i))) ∧
      ∀ j, (∀ i, i < n → j ≠ i * stride + off) → r.get j = out.get j := by
  have hmem : ∀ i ∈ order, i < n := fun i hi => List.mem_range.1 (horder.mem_iff.1 hi)
  have hinj : ∀ i i' : Nat, i * stride + off = i' * stride + off → i = i' := by
    intro i i' h
    exact Nat.eq_of_mul_eq_mul_right (by omega : 0 < stride) (by omega)
  obtain ⟨r, r1, r2, r3, r4⟩ := Arr.store_spec order (fun i : Nat => ((i * stride + off : Nat) : Int))
    (fun i => amplitude f kL cosKL (phi.get i) (f.sin (theta.get i)) (f.cos (theta.get i)))
    (by
      refine List.Nodup.map ?_ (horder.nodup_iff.2 List.nodup_range)
      intro i i' h
      simp only at h
      exact hinj i i' (by exact_mod_cast h)) out
    (by intro i hi; have := ho i (hmem i hi); constructor <;> omega)
  refine ⟨r, ?_, r2, ?_, ?_⟩
  · rw [← r1]
    apply loop_congr
    intro i hi s
    have := hmem i hi
    unfold scalarAt
    rw [Arr.read_nat, if_pos (by omega), Option.bind_some, Arr.read_nat, if_pos (by omega),
      Option.bind_some]
    congr 1
  · intro i hi
    exact r3 i (horder.mem_iff.2 (List.mem_range.2 hi))
  · intro j hj
    exact r4 j fun i hi h => hj i (hmem i hi) (by exact_mod_cast h.symm)

/-- **C75 fails for stride 1 in polarised mode**: the phi component of the first point is lost, it
holds the theta component of the second. -/
theorem C75_stride_false (f : Lib K) (theta phi : Arr K) (kL cosKL : K) (ht : theta.size = 2)
    (hp : phi.size = 2) (out : Arr K) (ho : out.size = 3) :
    ∃ r, pattern f 2 theta phi kL cosKL 1 0 out = some r ∧
      r.get 1 = (dipole f kL cosKL (phi.get 1) (f.sin (theta.get 1)) (f.cos (theta.get 1))).1 := by
  unfold pattern
  simp only [show List.range 2 = [0, 1] from rfl, loop, patternAt]
  rw [Arr.read_nat, if_pos (by omega), Option.bind_some, Arr.read_nat, if_pos (by omega), Option.bind_some]
  simp only [Nat.cast_zero, zero_add, Nat.cast_one, add_zero, mul_one]
  rw [show (0 : Int) = ((0 : Nat) : Int) from rfl, Arr.write_nat, if_pos (by omega), Option.bind_some,
    show (1 : Int) = ((1 : Nat) : Int) from rfl, Arr.write_nat, if_pos (by rw [Arr.put_size]; omega),
    Option.bind_some, Arr.read_nat, if_pos (by omega), Option.bind_some, Arr.read_nat,
    if_pos (by omega), Option.bind_some, Arr.write_nat, if_pos (by simp only [Arr.put_size]; omega), Option.bind_some,
    show (((1 : Nat) : Int) + ((1 : Nat) : Int)) = ((2 : Nat) : Int) from rfl, Arr.write_nat,
    if_pos (by simp only [Arr.put_size]; omega), Option.bind_some]
  exact ⟨_, rfl, by simp [Arr.put_get]⟩

/-- **C75, GPU**: with a multiple of 256 points the threads of the launch are the points, so the
theorems above apply. -/
theorem C75_gpu_partial (n : Nat) (h : n % 256 = 0) : gpuThreads n = List.range n := by
  unfold gpuThreads blocks
  congr 1
  omega

/-- **C75 fails on the GPU**: with a number of points that is not a multiple of 256, and input arrays
of that many points, the threads beyond the last point read past the end, whatever their order. -/
theorem C75_gpu_false (f : Lib K) (n : Nat) (theta phi : Arr K) (kL cosKL : K) (stride off : Int)
    (out : Arr K) (ht : theta.size = n) (hp : phi.size = n) (h : n % 256 ≠ 0) (order : List Nat)
    (ho : order.Perm (gpuThreads n)) :
    loop (patternAt f theta phi kL cosKL stride off) out order = none ∧
    loop (scalarAt f theta phi kL cosKL stride off) out order = none := by
  have hmem : n ∈ order := by
    rw [ho.mem_iff]
    unfold gpuThreads blocks
    rw [List.mem_range]
    omega
  constructor
  · refine loop_none (fun _ => True) _ (fun _ _ _ _ _ => trivial) n ?_ order out trivial hmem
    intro s _
    unfold patternAt
    rw [Arr.read_nat, if_neg (by omega)]; rfl
  · refine loop_none (fun _ => True) _ (fun _ _ _ _ _ => trivial) n ?_ order out trivial hmem
    intro s _
    unfold scalarAt
    rw [Arr.read_nat, if_neg (by omega)]; rfl

/-- Non-vacuity: two points, stride 4, offset 2, with simple functions. -/
example : (pattern (⟨fun x => x, fun x => 2 * x, fun x => x, 1⟩ : Lib ℚ) 2 ⟨2, fun i => i⟩ ⟨2, fun i => i + 1⟩
      1 0 4 2 ⟨8, fun _ => 9⟩).map (fun r => (List.range 8).map r.get) =
    some [9, 9, 0, 0, 9, 9, -64 / 49, 16 / 49] := by decide +kernel

end Sdp.Element
