import Verif.Sizes.Model

/-!
# The min-heap operations
-/

namespace Sdp.Sizes

/-- The heap order. -/
def IsHeap (a : Arr Int) : Prop := ∀ i, 0 < i → i < a.size → a.get ((i - 1) / 2) ≤ a.get i

/-- Values stored in the heap. -/
def Has (a : Arr Int) (x : Int) : Prop := ∃ i < a.size, a.get i = x

theorem swap_eq (a : Arr Int) (i j : Nat) (hi : i < a.size) (hj : j < a.size) :
    swap a i j = some ((a.put i (a.get j)).put j (a.get i)) := by
  unfold swap
  rw [Arr.read_nat, if_pos hi]; simp only [Option.bind_some]
  rw [Arr.read_nat, if_pos hj]; simp only [Option.bind_some]
  rw [Arr.write_nat, if_pos hi]; simp only [Option.bind_some]
  rw [Arr.write_nat, if_pos (by simpa using hj)]

theorem swapped_get (a : Arr Int) (i j k : Nat) :
    ((a.put i (a.get j)).put j (a.get i)).get k =
      if k = j then a.get i else if k = i then a.get j else a.get k := by
  rw [Arr.put_get, Arr.put_get]

theorem swapped_has (a : Arr Int) (i j : Nat) (hi : i < a.size) (hj : j < a.size) (x : Int) :
    Has ((a.put i (a.get j)).put j (a.get i)) x ↔ Has a x := by
  constructor
  · rintro ⟨k, hk, e⟩
    rw [swapped_get] at e
    simp only [Arr.put_size] at hk
    split at e
    · exact ⟨i, hi, e⟩
    · split at e
      · exact ⟨j, hj, e⟩
      · exact ⟨k, hk, e⟩
  · rintro ⟨k, hk, e⟩
    by_cases h1 : k = i
    · refine ⟨j, hj, ?_⟩
      rw [swapped_get, if_pos rfl, ← h1, e]
    · by_cases h2 : k = j
      · by_cases h3 : i = j
        · exact absurd (h2.trans h3.symm) h1
        · refine ⟨i, hi, ?_⟩
          rw [swapped_get, if_neg h3, if_pos rfl, ← h2, e]
      · exact ⟨k, hk, by rw [swapped_get, if_neg h2, if_neg h1, e]⟩

theorem up_spec (i : Nat) : ∀ a : Arr Int, i < a.size →
    (∀ k, 0 < k → k < a.size → k ≠ i → a.get ((k - 1) / 2) ≤ a.get k) →
    (∀ k, 0 < k → k < a.size → (k - 1) / 2 = i → 0 < i → a.get ((i - 1) / 2) ≤ a.get k) →
    ∃ r, up a i = some r ∧ r.size = a.size ∧ IsHeap r ∧ ∀ x, Has r x ↔ Has a x := by
  induction i using Nat.strong_induction_on with
  | _ i ih =>
    intro a hi h1 h2
    rw [up]
    by_cases h0 : i = 0
    · rw [dif_pos h0]
      exact ⟨a, rfl, rfl, fun k hk hk' => h1 k hk hk' (by omega), fun _ => Iff.rfl⟩
    · rw [dif_neg h0]
      have hp : (i - 1) / 2 < a.size := by omega
      simp only
      rw [Arr.read_nat, if_pos hp]; simp only [Option.bind_some]
      rw [Arr.read_nat, if_pos hi]; simp only [Option.bind_some]
      by_cases hc : a.get ((i - 1) / 2) > a.get i
      · rw [if_pos hc, swap_eq a _ _ hp hi]
        simp only [Option.bind_some]
        obtain ⟨r, r1, r2, r3, r4⟩ := ih ((i - 1) / 2) (by omega)
          ((a.put ((i - 1) / 2) (a.get i)).put i (a.get ((i - 1) / 2))) (by simpa using hp) (by
            intro k hk hk' hne
            simp only [Arr.put_size] at hk'
            simp only [swapped_get]
            have e0 : ¬ (i - 1) / 2 = i := by omega
            by_cases c1 : k = i
            · subst c1
              simp only [if_true, e0, if_false]; omega
            · rw [if_neg c1, if_neg hne]
              by_cases c2 : (k - 1) / 2 = i
              · rw [if_pos c2]; exact h2 k hk hk' c2 (by omega)
              · rw [if_neg c2]
                by_cases c3 : (k - 1) / 2 = (i - 1) / 2
                · rw [if_pos c3]
                  have := h1 k hk hk' c1
                  rw [c3] at this; omega
                · rw [if_neg c3]; exact h1 k hk hk' c1) (by
            intro k hk hk' hpar hpos
            simp only [Arr.put_size] at hk'
            simp only [swapped_get]
            have c1 : ¬ ((i - 1) / 2 - 1) / 2 = i := by omega
            have c2 : ¬ ((i - 1) / 2 - 1) / 2 = (i - 1) / 2 := by omega
            rw [if_neg c1, if_neg c2]
            have hgp := h1 ((i - 1) / 2) hpos hp (by omega)
            by_cases c3 : k = i
            · rw [if_pos c3]; exact hgp
            · rw [if_neg c3, if_neg (by omega)]
              have := h1 k hk hk' c3
              rw [hpar] at this; omega)
        refine ⟨r, r1, by simpa using r2, r3, fun x => ?_⟩
        rw [r4, swapped_has a _ _ hp hi]
      · rw [if_neg hc]
        refine ⟨a, rfl, rfl, fun k hk hk' => ?_, fun _ => Iff.rfl⟩
        by_cases c1 : k = i
        · subst c1; omega
        · exact h1 k hk hk' c1

theorem insert_spec (a : Arr Int) (h : IsHeap a) (v : Int) :
    ∃ r, insert a v = some r ∧ r.size = a.size + 1 ∧ IsHeap r ∧
      ∀ x, Has r x ↔ Has a x ∨ x = v := by
  obtain ⟨r, r1, r2, r3, r4⟩ := up_spec a.size
    ⟨a.size + 1, fun k => if k = a.size then v else a.get k⟩ (by simp only; omega) (by
      intro k hk hk' hne
      simp only at hk' ⊢
      rw [if_neg (by omega), if_neg hne]
      exact h k hk (by omega)) (by
      intro k hk hk' hpar
      simp only at hk'
      omega)
  refine ⟨r, r1, r2, r3, fun x => ?_⟩
  rw [r4]
  constructor
  · rintro ⟨k, hk, e⟩
    simp only at hk e
    split at e
    · exact Or.inr e.symm
    · exact Or.inl ⟨k, by omega, e⟩
  · rintro (⟨k, hk, e⟩ | e)
    · exact ⟨k, by simp only; omega, by simp only; rw [if_neg (by omega), e]⟩
    · exact ⟨a.size, by simp only; omega, by simp only [if_true]; exact e.symm⟩

/-- What `smallest` computes. -/
theorem smallest_spec (a : Arr Int) (i : Nat) (hi : i < a.size) :
    ∃ s, smallest a i = some s ∧ s < a.size ∧ (s = i ∨ s = 2 * i + 1 ∨ s = 2 * i + 2) ∧
      a.get s ≤ a.get i ∧
      (2 * i + 1 < a.size → a.get s ≤ a.get (2 * i + 1)) ∧
      (2 * i + 2 < a.size → a.get s ≤ a.get (2 * i + 2)) := by
  have first : ∃ s, (if 2 * i + 1 < a.size then
      (a.read ((2 * i + 1 : Nat) : Int)).bind fun x => (a.read i).bind fun y =>
        some (if x < y then 2 * i + 1 else i)
      else some i) = some s ∧ s < a.size ∧ (s = i ∨ s = 2 * i + 1) ∧ a.get s ≤ a.get i ∧
      (2 * i + 1 < a.size → a.get s ≤ a.get (2 * i + 1)) := by
    by_cases c : 2 * i + 1 < a.size
    · rw [if_pos c, Arr.read_nat, if_pos c, Arr.read_nat, if_pos hi]
      simp only [Option.bind_some]
      by_cases c' : a.get (2 * i + 1) < a.get i
      · exact ⟨2 * i + 1, by rw [if_pos c'], c, Or.inr rfl, by omega, fun _ => le_refl _⟩
      · exact ⟨i, by rw [if_neg c'], hi, Or.inl rfl, le_refl _, fun _ => by omega⟩
    · rw [if_neg c]
      exact ⟨i, rfl, hi, Or.inl rfl, le_refl _, fun h => absurd h c⟩
  obtain ⟨s, e, hs, hor, h1, h2⟩ := first
  unfold smallest
  simp only
  rw [e]
  simp only [Option.bind_some]
  by_cases c : 2 * i + 2 < a.size
  · rw [if_pos c, Arr.read_nat, if_pos c, Arr.read_nat, if_pos hs]
    simp only [Option.bind_some]
    by_cases c' : a.get (2 * i + 2) < a.get s
    · exact ⟨2 * i + 2, by rw [if_pos c'], c, Or.inr (Or.inr rfl), by omega,
        fun h => by have := h2 h; omega, fun _ => le_refl _⟩
    · exact ⟨s, by rw [if_neg c'], hs, by omega, h1, h2, fun _ => by omega⟩
  · rw [if_neg c]
    exact ⟨s, rfl, hs, by omega, h1, h2, fun h => absurd h c⟩

theorem down_spec (m : Nat) : ∀ (i : Nat) (a : Arr Int), a.size - i = m → i < a.size →
    (∀ k, 0 < k → k < a.size → (k - 1) / 2 ≠ i → a.get ((k - 1) / 2) ≤ a.get k) →
    (∀ k, 0 < k → k < a.size → (k - 1) / 2 = i → 0 < i → a.get ((i - 1) / 2) ≤ a.get k) →
    ∃ r, down a i = some r ∧ r.size = a.size ∧ IsHeap r ∧ ∀ x, Has r x ↔ Has a x := by
  induction m using Nat.strong_induction_on with
  | _ m ih =>
    intro i a hm hi h1 h2
    obtain ⟨s, e, hs, hor, g0, g1, g2⟩ := smallest_spec a i hi
    rw [down]
    split
    · rename_i hn; rw [e] at hn; cases hn
    · rename_i s' hs'
      rw [e] at hs'
      cases hs'
      by_cases hne : s = i
      · rw [dif_neg (by simpa using hne)]
        refine ⟨a, rfl, rfl, fun k hk hk' => ?_, fun _ => Iff.rfl⟩
        by_cases c : (k - 1) / 2 = i
        · rw [c]
          subst hne
          have : k = 2 * s + 1 ∨ k = 2 * s + 2 := by omega
          rcases this with rfl | rfl
          · exact g1 hk'
          · exact g2 hk'
        · exact h1 k hk hk' c
      · rw [dif_pos hne]
        have hsw := swap_eq a i s hi hs
        split
        · rename_i hn; rw [hsw] at hn; cases hn
        · rename_i a' ha'
          rw [hsw] at ha'
          cases ha'
          obtain ⟨r, r1, r2, r3, r4⟩ := ih (a.size - s) (by omega) s
            ((a.put i (a.get s)).put s (a.get i)) rfl (by simpa using hs) (by
              intro k hk hk' hpar
              simp only [Arr.put_size] at hk'
              simp only [swapped_get]
              rw [if_neg hpar]
              by_cases c1 : (k - 1) / 2 = i
              · rw [if_pos c1]
                have hk2 : k = 2 * i + 1 ∨ k = 2 * i + 2 := by omega
                by_cases c2 : k = s
                · rw [if_pos c2]; exact g0
                · rw [if_neg c2, if_neg (by omega)]
                  rcases hk2 with rfl | rfl
                  · exact g1 hk'
                  · exact g2 hk'
              · rw [if_neg c1]
                by_cases c2 : k = s
                · subst c2; omega
                · rw [if_neg c2]
                  by_cases c3 : k = i
                  · rw [if_pos c3]
                    subst c3
                    rcases hor with h | h
                    · exact absurd h hne
                    · exact h2 s (by omega) hs (by omega) hk
                  · rw [if_neg c3]; exact h1 k hk hk' c1) (by
              intro k hk hk' hpar _
              simp only [Arr.put_size] at hk'
              simp only [swapped_get]
              have e1 : (s - 1) / 2 = i := by omega
              rw [e1, if_neg (fun h => hne h.symm), if_pos rfl, if_neg (by omega),
                if_neg (by omega)]
              have := h1 k hk hk' (by omega)
              rw [hpar] at this; exact this)
          refine ⟨r, r1, by simpa using r2, r3, fun x => ?_⟩
          rw [r4, swapped_has a i s hi hs]

theorem root_le (a : Arr Int) (h : IsHeap a) (i : Nat) (hi : i < a.size) : a.get 0 ≤ a.get i := by
  induction i using Nat.strong_induction_on with
  | _ i ih =>
    rcases Nat.eq_zero_or_pos i with h0 | h0
    · subst h0; exact le_refl _
    · exact le_trans (ih ((i - 1) / 2) (by omega) (by omega)) (h i h0 hi)

theorem down_empty (a : Arr Int) (h : a.size = 0) : down a 0 = some a := by
  have e : smallest a 0 = some 0 := by
    unfold smallest
    simp [h]
  rw [down]
  split
  · rename_i hn; rw [e] at hn; cases hn
  · rename_i s hs
    rw [e] at hs
    cases hs
    rw [dif_neg (by simp)]

theorem extractMin_spec (a : Arr Int) (h : IsHeap a) (hs : 0 < a.size) :
    ∃ m r, extractMin a = some (m, r) ∧ r.size + 1 = a.size ∧ IsHeap r ∧ Has a m ∧
      (∀ x, Has a x → m ≤ x) ∧ (∀ x, Has r x → Has a x) ∧
      ∀ x, Has a x → x ≠ m → Has r x := by
  have hl : ((a.size : Int) - 1) = ((a.size - 1 : Nat) : Int) := by omega
  have key : ∃ r, down ⟨a.size - 1, (a.put 0 (a.get (a.size - 1))).get⟩ 0 = some r ∧
      r.size + 1 = a.size ∧ IsHeap r ∧
      ∀ x, Has r x ↔ Has ⟨a.size - 1, (a.put 0 (a.get (a.size - 1))).get⟩ x := by
    by_cases h1 : a.size = 1
    · have := down_empty ⟨a.size - 1, (a.put 0 (a.get (a.size - 1))).get⟩ (by simp only; omega)
      exact ⟨_, this, by simp only; omega, fun k _ hk' => by simp only at hk'; omega,
        fun _ => Iff.rfl⟩
    · obtain ⟨r, r1, r2, r3, r4⟩ := down_spec _ 0
        ⟨a.size - 1, (a.put 0 (a.get (a.size - 1))).get⟩ rfl (by simp only; omega) (by
          intro k hk hk' hpar
          simp only [Arr.put_get] at hk' ⊢
          rw [if_neg hpar, if_neg (by omega)]
          exact h k hk (by omega)) (by intro k _ _ _ h; omega)
      exact ⟨r, r1, by rw [r2]; simp only; omega, r3, r4⟩
  obtain ⟨r, r1, r2, r3, r4⟩ := key
  refine ⟨a.get 0, r, ?_, r2, r3, ⟨0, hs, rfl⟩, ?_, ?_, ?_⟩
  · unfold extractMin
    rw [show (0 : Int) = ((0 : Nat) : Int) from rfl, Arr.read_nat, if_pos hs]
    simp only [Option.bind_some]
    rw [hl, Arr.read_nat, if_pos (by omega)]
    simp only [Option.bind_some]
    rw [Arr.write_nat, if_pos hs]
    simp only [Option.bind_some, Arr.put_size]
    rw [r1]; rfl
  · rintro x ⟨i, hi, rfl⟩
    exact root_le a h i hi
  · intro x hx
    obtain ⟨k, hk, e⟩ := (r4 x).1 hx
    simp only [Arr.put_get] at hk e
    split at e
    · exact ⟨a.size - 1, by omega, e⟩
    · exact ⟨k, by omega, e⟩
  · rintro x ⟨k, hk, e⟩ hne
    rw [r4]
    have hk0 : k ≠ 0 := by rintro rfl; exact hne e.symm
    by_cases c : k = a.size - 1
    · exact ⟨0, by simp only; omega, by simp only [Arr.put_get, if_true]; rw [← c, e]⟩
    · exact ⟨k, by simp only; omega, by simp only [Arr.put_get]; rw [if_neg hk0, e]⟩

end Sdp.Sizes
