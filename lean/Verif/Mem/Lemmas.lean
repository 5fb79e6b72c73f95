import Verif.Mem.Model
import Verif.Mem.Spec

namespace Sdp
open MemSpec

theorem dot_eq_byteAddr (idx s : List Int) : dot idx s = byteAddr idx s := by
  induction idx generalizing s with
  | nil => cases s <;> simp [dot, byteAddr]
  | cons i is ih => cases s with
    | nil => simp [dot, byteAddr]
    | cons a s => simpa [dot, byteAddr] using ih s

theorem numElementsLoop_eq (shape : List Int) : numElementsLoop shape = shape.prod := by
  induction shape with
  | nil => simp [numElementsLoop]
  | cons n ns ih => simp [numElementsLoop, ih, mul_comm]

theorem defaultStrideLoop_fst (e : Int) (shape : List Int) :
    (defaultStrideLoop e shape).1 = shape.prod := by
  induction shape with
  | nil => simp [defaultStrideLoop]
  | cons n ns ih => simp [defaultStrideLoop, ih, mul_comm]

theorem rowMajor_cons (e n s : Int) (ns ss : List Int) :
    RowMajor e (n :: ns) (s :: ss) ↔ s = e * ns.prod ∧ RowMajor e ns ss := by
  constructor
  · rintro ⟨hl, h⟩
    refine ⟨h 0 (Nat.succ_pos _), by simpa using hl, ?_⟩
    intro i hi
    exact h (i + 1) (Nat.succ_lt_succ hi)
  · rintro ⟨h0, hl, h⟩
    refine ⟨by simpa using hl, ?_⟩
    intro i hi
    cases i with
    | zero => exact h0
    | succ i => exact h i (Nat.lt_of_succ_lt_succ hi)

theorem rowMajor_default (e : Int) (shape : List Int) :
    RowMajor e shape (defaultStrideLoop e shape).2 := by
  induction shape with
  | nil => simp [defaultStrideLoop, RowMajor]
  | cons n ns ih =>
    rw [show (defaultStrideLoop e (n :: ns)).2 =
      ((defaultStrideLoop e ns).1 * e) :: (defaultStrideLoop e ns).2 from rfl,
      rowMajor_cons]
    exact ⟨by rw [defaultStrideLoop_fst, mul_comm], ih⟩

theorem contiguityLoop_snd (e : Int) (shape stride : List Int)
    (h : stride.length = shape.length) :
    (contiguityLoop e shape stride).2 = shape.prod := by
  induction shape generalizing stride with
  | nil => simp [contiguityLoop]
  | cons n ns ih => cases stride with
    | nil => simp at h
    | cons s ss =>
      simp [contiguityLoop, ih ss (by simpa using h), mul_comm]

theorem contiguityLoop_fst (e : Int) (shape stride : List Int)
    (h : stride.length = shape.length) :
    (contiguityLoop e shape stride).1 = true ↔ RowMajor e shape stride := by
  induction shape generalizing stride with
  | nil =>
    have : stride = [] := by simpa using h
    subst this; simp [contiguityLoop, RowMajor]
  | cons n ns ih => cases stride with
    | nil => simp at h
    | cons s ss =>
      have hl : ss.length = ns.length := by simpa using h
      rw [rowMajor_cons, ← ih ss hl]
      simp [contiguityLoop, contiguityLoop_snd e ns ss hl, mul_comm, and_comm]

theorem prod_nonneg' (l : List Int) (h : ∀ n ∈ l, 0 ≤ n) : 0 ≤ l.prod := by
  induction l with
  | nil => simp
  | cons a l ih =>
    simp only [List.prod_cons]
    exact mul_nonneg (h a (by simp)) (ih fun n hn => h n (by simp [hn]))

theorem inRange_cons {i n : Int} {is ns : List Int} :
    InRange (i :: is) (n :: ns) ↔ (0 ≤ i ∧ i < n) ∧ InRange is ns := by
  simp [InRange]

theorem byteAddr_rowMajor (e : Int) (shape stride idx : List Int)
    (hr : RowMajor e shape stride) (hl : idx.length = shape.length) :
    byteAddr idx stride = e * flatIndex idx shape := by
  induction shape generalizing stride idx with
  | nil =>
    have : idx = [] := by simpa using hl
    subst this; simp [byteAddr, flatIndex]
  | cons n ns ih =>
    cases idx with
    | nil => simp at hl
    | cons i is => cases stride with
      | nil => simp [RowMajor] at hr
      | cons s ss =>
        rw [rowMajor_cons] at hr
        have := ih ss is hr.2 (by simpa using hl)
        simp only [byteAddr, List.zipWith_cons_cons, List.sum_cons] at this ⊢
        rw [this, hr.1, flatIndex]; ring

theorem MemSpec.InRange.length {idx shape : List Int} (h : InRange idx shape) :
    idx.length = shape.length := List.Forall₂.length_eq h

theorem inRange_prod_pos {idx shape : List Int} (h : InRange idx shape) :
    0 < shape.prod := by
  induction h with
  | nil => simp
  | cons h _ ih => simp only [List.prod_cons]; exact mul_pos (by omega) ih

theorem flatIndex_bounds {idx shape : List Int} (h : InRange idx shape) :
    0 ≤ flatIndex idx shape ∧ flatIndex idx shape < shape.prod := by
  induction h with
  | nil => simp [flatIndex]
  | @cons i n is ns hi hr ih =>
    have hp := inRange_prod_pos hr
    simp only [flatIndex, List.prod_cons]
    constructor
    · have := mul_nonneg hi.1 hp.le; linarith [ih.1]
    · have : (i + 1) * ns.prod ≤ n * ns.prod :=
        mul_le_mul_of_nonneg_right (by omega) hp.le
      linarith [ih.2]

theorem flatIndex_inj {idx idx' shape : List Int} (h : InRange idx shape)
    (h' : InRange idx' shape) (he : flatIndex idx shape = flatIndex idx' shape) :
    idx = idx' := by
  induction h generalizing idx' with
  | nil => cases h'; rfl
  | @cons i n is ns hi hr ih =>
    cases h' with
    | @cons i' _ is' _ hi' hr' =>
      simp only [flatIndex] at he
      have b := flatIndex_bounds hr
      have b' := flatIndex_bounds hr'
      have hp := inRange_prod_pos hr
      have hii : i = i' := by
        rcases lt_trichotomy i i' with hlt | heq | hgt
        · have : (i + 1) * ns.prod ≤ i' * ns.prod :=
            mul_le_mul_of_nonneg_right (by omega) hp.le
          linarith
        · exact heq
        · have : (i' + 1) * ns.prod ≤ i * ns.prod :=
            mul_le_mul_of_nonneg_right (by omega) hp.le
          linarith
      subst hii
      rw [ih hr' (by linarith)]

theorem flatIndex_surj (shape : List Int) (hn : ∀ n ∈ shape, 0 ≤ n) (k : Int)
    (h0 : 0 ≤ k) (hk : k < shape.prod) :
    ∃ idx, InRange idx shape ∧ flatIndex idx shape = k := by
  induction shape generalizing k with
  | nil => exact ⟨[], by simp [InRange], by simp at hk; simp [flatIndex]; omega⟩
  | cons n ns ih =>
    simp only [List.prod_cons] at hk
    have hn0 : 0 ≤ n := hn n (by simp)
    have hns : 0 ≤ ns.prod := prod_nonneg' _ (fun x hx => hn x (by simp [hx]))
    have hp : 0 < ns.prod := by
      rcases hns.lt_or_eq with h | h
      · exact h
      · rw [← h] at hk; simp at hk; omega
    obtain ⟨t, ht, hte⟩ := ih (fun x hx => hn x (by simp [hx])) (k % ns.prod)
      (Int.emod_nonneg _ hp.ne') (Int.emod_lt_of_pos _ hp)
    refine ⟨(k / ns.prod) :: t, inRange_cons.2 ⟨⟨Int.ediv_nonneg h0 hns, ?_⟩, ht⟩, ?_⟩
    · exact Int.ediv_lt_of_lt_mul hp hk
    · simp only [flatIndex, hte]
      have := Int.mul_ediv_add_emod k ns.prod
      linarith [mul_comm ns.prod (k / ns.prod)]

end Sdp
