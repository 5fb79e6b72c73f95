import Verif.WTower.GpuCall
import Verif.WTower.SweepGrid
import Verif.GridUtil.GpuProps
import Verif.GridUtil.ScaleProps
import Verif.Fft.CallFalse
import Verif.Fft.BackendProps
import Verif.EsFft.CallPlanes
import Verif.Common.Interleave

/-!
# Pieces of the whole GPU w-tower calls
-/

set_option linter.unusedSectionVars false

namespace Sdp.WTower
open Sdp.Fft Sdp.GridUtil Sdp.Race Sdp.MemSpec Finset

noncomputable section

/-- Every outcome is good, and there is one. -/
def Ends {α : Type} (R : Option α → Prop) (Q : α → Prop) : Prop := (∀ o, R o → ∃ a, o = some a ∧ Q a) ∧ ∃ o, R o

theorem Ends.mono {α : Type} {R : Option α → Prop} {Q Q' : α → Prop} (h : Ends R Q) (hq : ∀ a, Q a → Q' a) : Ends R Q' :=
  ⟨fun o ho => by
    obtain ⟨a, h1, h2⟩ := h.1 o ho
    exact ⟨a, h1, hq a h2⟩, h.2⟩

theorem ends_then {α β : Type} {R : Option α → Prop} {k : α → Option β → Prop} {Q : α → Prop} {S : β → Prop}
    (h1 : Ends R Q) (h2 : ∀ a, Q a → Ends (k a) S) : Ends (Then R k) S := EsFft.then_ok h1 h2

theorem ends_some {β : Type} {S : β → Prop} {b : β} (h : S b) : Ends (fun o => o = some b) S := EsFft.just_ok h

theorem ends_eq {β : Type} {S : β → Prop} {x : Option β} (h : ∃ b, x = some b ∧ S b) : Ends (fun o => o = x) S := by
  obtain ⟨b, rfl, hb⟩ := h
  exact ends_some hb

theorem ends_neg {α : Type} {c : Prop} [Decidable c] {A B : Option α → Prop} {Q : α → Prop} (hc : ¬ c) (h : Ends B Q) :
    Ends (fun o => if c then A o else B o) Q := by
  simp only [if_neg hc]
  exact h

theorem ends_pos {α : Type} {c : Prop} [Decidable c] {A B : Option α → Prop} {Q : α → Prop} (hc : c) (h : Ends A Q) :
    Ends (fun o => if c then A o else B o) Q := by
  simp only [if_pos hc]
  exact h

theorem ends_launch {ι α : Type} [DecidableEq ι] {prog : ι → Prog α} {ts : List ι} (hn : ts.Nodup) {a : Arr α}
    {Q : Arr α → Prop} (h : ∃ r, Yields prog ts a r ∧ Q r) : Ends (Race.Launch prog ts a) Q := by
  obtain ⟨r, hy, hq⟩ := h
  have := fun o => Race.Launch.iff hn hy o
  exact ⟨fun o ho => ⟨r, (this o).1 ho, hq⟩, some r, (this _).2 rfl⟩

theorem ends_run {run : Run ℂ} (hn : run.threads.Nodup) {a : Arr ℂ} {Q : Arr ℂ → Prop}
    (h : ∃ r, Yields run.prog run.threads a r ∧ Q r) :
    Ends (runOn run a) fun w => w.1 = run.status ∧ Q w.2 := by
  unfold runOn
  exact ends_then (ends_launch hn h) fun r hr => ends_some ⟨rfl, hr⟩

theorem gpuRun_nodup {α : Type} (cuda : Bool) (mo : Mem) (st : Status) (vo : View) (body : Nat × Nat → Prog α) :
    (gpuRun cuda mo st vo body).threads.Nodup := by
  unfold gpuRun Run.none
  split_ifs
  · exact List.nodup_nil
  · exact List.nodup_nil
  · exact nest2_nodup _ _

theorem invCall_nodup (cuda : Bool) (mo m1 m2 : Mem) (e : Int) (st : Status) (src : Option (Arr ℂ)) (in2 : Arr ℂ)
    (hl : mo.location = .gpu) : (invCall cuda mo m1 m2 e st src in2).threads.Nodup := by
  unfold invCall
  rw [hl]
  simp only
  split_ifs
  · exact List.nodup_nil
  · exact List.nodup_nil
  · exact gpuRun_nodup _ _ _ _ _
  · exact List.nodup_nil

theorem accumCall_nodup (cuda : Bool) (mo m1 : Mem) (m2 : Option Mem) (e : Int) (st : Status) (src : Option (Arr ℂ))
    (in2 : Arr ℂ) (hl : mo.location = .gpu) : (accumCall cuda mo m1 m2 e st src in2).threads.Nodup := by
  unfold accumCall
  rw [hl]
  simp only
  split_ifs
  · exact List.nodup_nil
  · exact List.nodup_nil
  all_goals
    cases accumKind mo.type m1.type (m2.elim .complexDouble Mem.type) with
    | none => exact List.nodup_nil
    | some k => cases k <;> exact gpuRun_nodup _ _ _ _ _

/-! ## Descriptors -/

theorem devMem_loc (t : MemType) (s : List Int) : (devMem t s).location = .gpu := by
  unfold devMem createWrapper
  split_ifs <;> rfl

theorem devMem_type (t : MemType) (s : List Int) : (devMem t s).type = t := by
  unfold devMem createWrapper
  split_ifs <;> rfl

theorem devMem_data (t : MemType) (s : List Int) : (devMem t s).data ≠ none := by
  unfold devMem createWrapper
  split_ifs <;> simp

theorem devMem_ro (t : MemType) (s : List Int) : (devMem t s).isReadOnly = false := by
  unfold devMem createWrapper
  split_ifs <;> rfl

/-- A square device array of complex numbers is row-major. -/
theorem devMem_plane (t : MemType) (ht : t = .complexDouble ∨ t = .complexFloat) (n size : Nat) (hs : n * n ≤ size) :
    Plane (devMem t [(n : Int), n]) size n n fun i j => i * n + j := by
  have hz : 0 < t.size := by rcases ht with rfl | rfl <;> decide
  have hv : t ≠ .void := by rcases ht with rfl | rfl <;> decide
  have e : devMem t [(n : Int), n] = {
      type := t
      location := .gpu
      isCContiguous := (contiguityLoop t.size [(n : Int), n] (defaultStrideLoop t.size [(n : Int), n]).2).1
      isOwner := false
      isReadOnly := false
      numDims := 2
      numElements := numElementsLoop [(n : Int), n]
      refCount := 1
      shape := [(n : Int), n]
      stride := (defaultStrideLoop t.size [(n : Int), n]).2
      data := some ⟨0, 0⟩ } := by
    unfold devMem createWrapper
    simp only [if_neg hv, if_neg (show ¬ t.size ≤ 0 by omega)]
    rfl
  have s0 : (devMem t [(n : Int), n]).strideElementsDim 0 = n := by
    rw [e]
    unfold Mem.strideElementsDim Mem.strideBytesDim
    simp only [defaultStrideLoop]
    rw [if_pos hz, if_neg (by simp)]
    simp only [Int.toNat_zero, List.getD_cons_zero]
    rw [show (1 : Int) * n * t.size = n * t.size by ring, Int.mul_tdiv_cancel _ (by omega)]
  have s1 : (devMem t [(n : Int), n]).strideElementsDim 1 = 1 := by
    rw [e]
    unfold Mem.strideElementsDim Mem.strideBytesDim
    simp only [defaultStrideLoop]
    rw [if_pos hz, if_neg (by simp)]
    simp only [Int.toNat_one, List.getD_cons_succ, List.getD_cons_zero]
    rw [Int.one_mul, Int.tdiv_self (by omega)]
  refine ⟨by rw [e], by rw [e]; rfl, by rw [e]; rfl, fun i j _ _ => ?_, fun i j hi hj => ?_⟩
  · rw [s0, s1]; push_cast; ring
  · exact (im_lt hi hj).trans_le hs

theorem square_distinct (n : Nat) : Distinct n n fun i j => i * n + j := by
  intro i j i' j' _ hj _ hj' h
  simp only at h
  rw [Nat.mul_comm i, Nat.mul_comm i'] at h
  exact flat_inj hj hj' h

/-! ## The transform -/

theorem wave_root (sign : Int) (n s k : Nat) : wave sign n s k = root n (sign * (s * k)) := rfl

/-- cuFFT on one square array in place. -/
theorem cufft_square (n : Nat) (inv : Bool) (a : Arr ℂ) (ha : a.size = n * n) :
    ∃ r, cufftExec [(n : Int), n] [(n : Int), n] 1 (n * n) 1 (n * n) 1 (sgn inv) a a = some r ∧ r.size = n * n ∧
      ∀ x, x < n → ∀ y, y < n → im n r x y = dft2 inv n n (im n a) x y := by
  obtain ⟨r, r1, r2, r3⟩ := batched_ok [] [(n : Int), n] 1 (Or.inl ⟨rfl, rfl⟩) (sgn inv)
    (fun s => s.1 * (n * n) + embedPos [(n : Int), n] s.2 * 1) (fun s => s.1 * (n * n) + embedPos [(n : Int), n] s.2 * 1)
    (by
      intro t k _ _ hk
      rcases k with _ | ⟨k0, _ | ⟨k1, _ | _⟩⟩ <;> simp [InRange] at hk
      simp [embedPos, flatIndex]) (by
      intro t k _ _ hk
      rcases k with _ | ⟨k0, _ | ⟨k1, _ | _⟩⟩ <;> simp [InRange] at hk
      simp [embedPos, flatIndex]) a a (by simp [ha]) (by simp [ha])
  refine ⟨r, r1, by rw [r2, ha], fun x hx y hy => ?_⟩
  have hd : Dft 2 (sgn inv) [(n : Int), n] a r := dft_of_boxed (by simpa using r3)
  have := hd [] [(x : Int), y] (by simp [InRange]) (by simp [InRange]; omega)
  have fi : ∀ a b : Nat, (flatIndex [(a : Int), b] [(n : Int), n]).toNat = a * n + b := by
    intro a b
    simp [flatIndex]
    omega
  simp only [List.nil_append, fi] at this
  unfold im
  rw [this]
  simp only [List.length_cons, List.length_nil, Nat.zero_add, Nat.reduceAdd, Nat.sub_self, List.drop_zero, nested,
    Int.toNat_natCast, wave_root]
  unfold dft2
  refine sum_congr rfl fun s _ => ?_
  rw [mul_sum]
  refine sum_congr rfl fun t _ => ?_
  rw [fi]
  ring

/-- Phase, transform, phase is the centred transform. -/
theorem dft2_centred (n : Nat) (hn : n % 2 = 0) (h0 : 0 < n) (inv : Bool) (d : Arr ℂ) (hd : d.size = n * n) (x y : Nat)
    (hx : x < n) (hy : y < n) :
    dft2 inv n n (fun a b => im n d a b * (-1) ^ (a + b)) x y * (-1) ^ (x + y) = centred inv n n (im n d) x y := by
  obtain ⟨dir, rfl⟩ : ∃ dir : Int, inv = !(decide (dir = 1)) := by
    cases inv
    · exact ⟨1, by simp⟩
    · exact ⟨0, by simp⟩
  obtain ⟨r, t, e1, -, -, v⟩ := execShift_spec n n (List.range n) (List.range n) (nest2 n n) (List.Perm.refl _)
    (List.Perm.refl _) (List.Perm.refl _) dir false d d hd hd
  obtain ⟨m, rfl⟩ : ∃ m, n = 2 * m := ⟨n / 2, by omega⟩
  obtain ⟨r', t', f1, f2⟩ := C28_shift_square m (by omega) (List.range (2 * m)) (List.range (2 * m))
    (nest2 (2 * m) (2 * m)) (List.Perm.refl _) (List.Perm.refl _) (List.Perm.refl _) dir d d hd hd
  rw [e1] at f1
  obtain ⟨rfl, rfl⟩ := Prod.mk.inj (Option.some.inj f1)
  have a := v x hx y hy
  have b := f2 x hx y hy
  rw [a] at b
  simp only [Bool.false_eq_true, if_false, mul_one] at b
  exact b

theorem gpuFft_ok (n : Nat) (hn : n % 2 = 0) (h0 : 0 < n) (inv : Bool) (d : Arr ℂ) (hd : d.size = n * n) :
    Ends (gpuFft n (sgn inv) d) fun r => r.size = n * n ∧
      ∀ x, x < n → ∀ y, y < n → im n r x y = centred inv n n (im n d) x y := by
  have hnd : (phaseThreads n n).Nodup := by unfold phaseThreads; exact nest2_nodup _ _
  unfold gpuFft
  refine ends_then (Q := fun a => a.size = n * n ∧ ∀ x, x < n → ∀ y, y < n → im n a x y = im n d x y * (-1) ^ (x + y))
    (ends_launch hnd ?_) fun a ha => ?_
  · obtain ⟨r, r1, r2, r3⟩ := C91_phase_gpu n n d hd
    exact ⟨r, r1, r2, r3⟩
  · obtain ⟨b, b1, b2, b3⟩ := cufft_square n inv a ha.1
    refine ends_then (Q := fun b => b.size = n * n ∧ ∀ x, x < n → ∀ y, y < n → im n b x y = dft2 inv n n (im n a) x y)
      (ends_eq ⟨b, b1, b2, b3⟩) fun b hb => ends_launch hnd ?_
    obtain ⟨r, r1, r2, r3⟩ := C91_phase_gpu n n b hb.1
    refine ⟨r, r1, r2, fun x hx y hy => ?_⟩
    have e : im n r x y = im n b x y * (-1) ^ (x + y) := r3 x hx y hy
    rw [e, hb.2 x hx y hy, ← dft2_centred n hn h0 inv d hd x y hx hy]
    congr 1
    exact dft2_congr _ n n (fun a' h1 b' h2 => ha.2 a' h1 b' h2) _ _

end
end Sdp.WTower
