import Verif.FftConv.Gpu
import Verif.FftConv.Props

/-!
# C90: FFT convolution as a call, on the CPU and on the GPU
-/

namespace Sdp.FftConv
open Sdp.Fft Sdp.Race
noncomputable section

theorem flat_lt' {P i j : Nat} (hi : i < P) (hj : j < P) : i * P + j < P * P := by
  rw [Nat.mul_comm i]
  exact flat_lt hi hj

theorem flat_inj' {P i j i' j' : Nat} (hj : j < P) (hj' : j' < P) (e : i * P + j = i' * P + j') :
    i = i' ∧ j = j' := flat_inj hj hj' (by rw [Nat.mul_comm _ i, Nat.mul_comm _ i']; exact e)

theorem mem_threads2 {n : Nat} {i j : Nat} (hi : i < n) (hj : j < n) : (i, j) ∈ threads2 n := by
  unfold threads2
  have := le_blocks n 32 (by norm_num)
  exact mem_nest2.2 ⟨by omega, by omega⟩

theorem mem_threads1 {n i : Nat} (hi : i < n) : i ∈ threads1 n := by
  unfold threads1
  have := le_blocks n 256 (by norm_num)
  exact List.mem_range.2 (by omega)

theorem padAt_ok (data : Arr ℂ) (n e P : Nat) (hd : n * n ≤ data.size) (he : n + e ≤ P) :
    ∃ r, Yields (padAt data n e P) (threads2 n) (zeros P) r ∧ r.size = P * P ∧
      ∀ i < P, ∀ j < P, r.get (i * P + j) =
        if e ≤ i ∧ i < e + n ∧ e ≤ j ∧ j < e + n then data.get ((i - e) * n + (j - e)) else 0 := by
  obtain ⟨r, r1, r2, r3, r4⟩ := yields_store (padAt data n e P) (threads2 n)
    (fun p => p.1 < n ∧ p.2 < n) (fun p => (p.1 + e) * P + (p.2 + e))
    (fun p => data.get (p.1 * n + p.2)) (by
      intro p _ hg
      unfold padAt
      rw [if_pos hg, Arr.read_nat, if_pos (by have := flat_lt' hg.1 hg.2; omega)]
      rfl) (by
      intro p _ hg
      unfold padAt
      rw [if_neg hg]) (zeros P) (by
      intro p _ hg
      exact flat_lt' (P := P) (by omega) (by omega)) (by
      intro p _ q _ hp hq e
      have := flat_inj' (P := P) (by omega) (by omega) e
      exact Prod.ext (by omega) (by omega))
  refine ⟨r, r1, r2, fun i hi j hj => ?_⟩
  split
  · rename_i hh
    have hg : i - e < n ∧ j - e < n := by omega
    have := r3 (i - e, j - e) (mem_threads2 hg.1 hg.2) hg
    simp only at this
    rwa [show i - e + e = i by omega, show j - e + e = j by omega] at this
  · rename_i hh
    rw [r4 (i * P + j)]
    · rfl
    · intro p _ hg e'
      have := flat_inj' (P := P) (by omega) hj e'
      omega

theorem multiplyAt_ok (a b : Arr ℂ) (n : Nat) (d : Arr ℂ) (ha : a.size = n) (hb : b.size = n)
    (hd : d.size = n) :
    ∃ r, Yields (multiplyAt a b n) (threads1 n) d r ∧ r.size = n ∧ ∀ i < n, r.get i = a.get i * b.get i := by
  obtain ⟨r, r1, r2, r3, -⟩ := yields_store (multiplyAt a b n) (threads1 n) (fun i => i < n) (fun i => i)
    (fun i => a.get i * b.get i) (by
      intro i _ hg
      unfold multiplyAt
      rw [if_pos hg, Arr.read_nat, if_pos (by omega), Arr.read_nat, if_pos (by omega)]
      rfl) (by
      intro i _ hg
      unfold multiplyAt
      rw [if_neg hg]) d (by intro i _ hg; omega) (by intro i _ j _ _ _ e; exact e)
  exact ⟨r, r1, by rw [r2, hd], fun i hi => r3 i (mem_threads1 hi) hi⟩

theorem normaliseAt_ok (n : Nat) (d : Arr ℂ) (hd : d.size = n) :
    ∃ r, Yields (normaliseAt n) (threads1 n) d r ∧ r.size = n ∧ ∀ i < n, r.get i = d.get i / n := by
  obtain ⟨r, r1, r2, r3, -⟩ := yields_modify (normaliseAt n) (threads1 n) (fun i => i < n) (fun i => i)
    (fun _ v => v / n) (by
      intro i _ hg
      unfold normaliseAt
      rw [if_pos hg]) (by
      intro i _ hg
      unfold normaliseAt
      rw [if_neg hg]) d (by intro i _ hg; omega) (by intro i _ j _ _ _ e; exact e)
  exact ⟨r, r1, by rw [r2, hd], fun i hi => r3 i (mem_threads1 hi) hi⟩

theorem removeAt_ok (padded : Arr ℂ) (P e n : Nat) (he : 0 < e) (hP : n + e ≤ P)
    (hp : padded.size = P * P) (out : Arr ℂ) (ho : n * n ≤ out.size) :
    ∃ r, Yields (removeAt padded P e n) (threads2 n) out r ∧ r.size = out.size ∧
      (∀ i < n, ∀ j < n, r.get (i * n + j) = padded.get ((i + e - 1) * P + (j + e - 1))) ∧
      ∀ k, n * n ≤ k → r.get k = out.get k := by
  obtain ⟨r, r1, r2, r3, r4⟩ := yields_store (removeAt padded P e n) (threads2 n)
    (fun p => p.1 < n ∧ p.2 < n) (fun p => p.1 * n + p.2)
    (fun p => padded.get ((p.1 + e - 1) * P + (p.2 + e - 1))) (by
      intro p _ hg
      unfold removeAt
      have hi : ((p.1 : Int) + ((e : Int) - 1)) * (P : Int) + ((p.2 : Int) + ((e : Int) - 1)) =
          (((p.1 + e - 1) * P + (p.2 + e - 1) : Nat) : Int) := by
        have a : ((p.1 + e - 1 : Nat) : Int) = p.1 + (e - 1) := by omega
        have b : ((p.2 + e - 1 : Nat) : Int) = p.2 + (e - 1) := by omega
        rw [Nat.cast_add ((p.1 + e - 1) * P), Nat.cast_mul, a, b]
      have h1 := flat_lt' (P := P) (i := p.1 + e - 1) (j := p.2 + e - 1) (by omega) (by omega)
      rw [if_pos hg, hi, Arr.read_nat, if_pos (by omega)]
      rfl) (by
      intro p _ hg
      unfold removeAt
      rw [if_neg hg]) out (by
      intro p _ hg
      have := flat_lt' hg.1 hg.2
      omega) (by
      intro p _ q _ hp hq e
      have := flat_inj' hp.2 hq.2 e
      exact Prod.ext this.1 this.2)
  refine ⟨r, r1, r2, fun i hi j hj => r3 (i, j) (mem_threads2 hi hj) ⟨hi, hj⟩, fun k hk => r4 k ?_⟩
  intro p _ hg e'
  have := flat_lt' hg.1 hg.2
  omega

/-- The four cells of a thread of the shift. -/
def quad (h : Nat) (p : Nat × Nat) (k : Int) : Prop :=
  ∃ i j : Nat, (i = p.1 ∨ i = p.1 + h) ∧ (j = p.2 ∨ j = p.2 + h) ∧ k = ((i * (2 * h) + j : Nat) : Int)

theorem shiftAt_ok (h : Nat) (d z : Arr ℂ) (hd : d.size = 2 * h * (2 * h)) (hz : z.size = 2 * h * (2 * h)) :
    ∃ r, Yields (shiftAt d (2 * h) h) (threads2 h) z r ∧ r.size = 2 * h * (2 * h) ∧
      ∀ i < 2 * h, ∀ j < 2 * h, r.get (i * (2 * h) + j) =
        d.get ((i + h) % (2 * h) * (2 * h) + (j + h) % (2 * h)) := by
  obtain ⟨r, rs, rv⟩ : ∃ r : Arr ℂ, r.size = z.size ∧ (∀ i < 2 * h, ∀ j < 2 * h, r.get (i * (2 * h) + j) =
        d.get ((i + h) % (2 * h) * (2 * h) + (j + h) % (2 * h))) ∧
        ∀ k, 2 * h * (2 * h) ≤ k → r.get k = z.get k := by
    refine ⟨⟨z.size, fun k => if k < 2 * h * (2 * h) then
      d.get ((k / (2 * h) + h) % (2 * h) * (2 * h) + (k % (2 * h) + h) % (2 * h)) else z.get k⟩, rfl, ?_, ?_⟩
    · intro i hi j hj
      have := flat_lt' hi hj
      simp only
      rw [if_pos this, Nat.mul_comm i, Nat.mul_add_div (by omega), Nat.div_eq_of_lt hj, Nat.mul_add_mod,
        Nat.mod_eq_of_lt hj, Nat.add_zero]
    · intro k hk
      simp only
      rw [if_neg (by omega)]
  refine ⟨r, ?_, by rw [rs, hz], rv.1⟩
  have low : ∀ i, i < h → (i + h) % (2 * h) = i + h := fun i hi => Nat.mod_eq_of_lt (by omega)
  have high : ∀ i, i < h → (i + h + h) % (2 * h) = i := fun i hi => by
    rw [show i + h + h = i + 2 * h by omega, Nat.add_mod_right, Nat.mod_eq_of_lt (by omega)]
  refine yields_each (shiftAt d (2 * h) h) (fun p k => p.1 < h ∧ p.2 < h ∧ quad h p k) (threads2 h) ?_ ?_ z r rs ?_ ?_
  · intro p _
    unfold shiftAt
    split
    · rename_i hg
      have mk : ∀ i j : Nat, (i = p.1 ∨ i = p.1 + h) → (j = p.2 ∨ j = p.2 + h) → ∀ k : Int,
          k = ((i * (2 * h) + j : Nat) : Int) → p.1 < h ∧ p.2 < h ∧ quad h p k :=
        fun i j hi hj k hk => ⟨hg.1, hg.2, i, j, hi, hj, hk⟩
      refine within_need _ _ fun v1 _ => ⟨mk p.1 p.2 (.inl rfl) (.inl rfl) _ rfl, ?_⟩
      refine within_need _ _ fun v2 _ => ⟨mk (p.1 + h) p.2 (.inr rfl) (.inl rfl) _ rfl, ?_⟩
      refine within_need _ _ fun v3 _ => ⟨mk (p.1 + h) (p.2 + h) (.inr rfl) (.inr rfl) _ (by rw [Nat.add_assoc]), ?_⟩
      refine within_need _ _ fun v4 _ => ⟨mk p.1 (p.2 + h) (.inl rfl) (.inr rfl) _ (by rw [Nat.add_assoc]), ?_⟩
      trivial
    · trivial
  · rintro p _ q _ hne k ⟨hp1, hp2, i, j, hi, hj, hk⟩ ⟨hq1, hq2, i', j', hi', hj', hk'⟩
    rw [hk] at hk'
    have := flat_inj' (P := 2 * h) (i := i) (j := j) (i' := i') (j' := j') (by omega) (by omega)
      (by exact_mod_cast hk')
    exact hne (Prod.ext (by omega) (by omega))
  · intro p _
    by_cases hg : p.1 < h ∧ p.2 < h
    · have b1 := flat_lt' (P := 2 * h) (i := p.1) (j := p.2) (by omega) (by omega)
      have b2 := flat_lt' (P := 2 * h) (i := p.1) (j := p.2 + h) (by omega) (by omega)
      have b3 := flat_lt' (P := 2 * h) (i := p.1 + h) (j := p.2) (by omega) (by omega)
      have b4 := flat_lt' (P := 2 * h) (i := p.1 + h) (j := p.2 + h) (by omega) (by omega)
      have n12 : p.1 * (2 * h) + p.2 ≠ p.1 * (2 * h) + (p.2 + h) := fun e => by
        have := flat_inj' (P := 2 * h) (by omega) (by omega) e; omega
      have n13 : p.1 * (2 * h) + p.2 ≠ (p.1 + h) * (2 * h) + p.2 := fun e => by
        have := flat_inj' (P := 2 * h) (by omega) (by omega) e; omega
      have n14 : p.1 * (2 * h) + p.2 ≠ (p.1 + h) * (2 * h) + (p.2 + h) := fun e => by
        have := flat_inj' (P := 2 * h) (by omega) (by omega) e; omega
      have n23 : p.1 * (2 * h) + (p.2 + h) ≠ (p.1 + h) * (2 * h) + p.2 := fun e => by
        have := flat_inj' (P := 2 * h) (by omega) (by omega) e; omega
      have n24 : p.1 * (2 * h) + (p.2 + h) ≠ (p.1 + h) * (2 * h) + (p.2 + h) := fun e => by
        have := flat_inj' (P := 2 * h) (by omega) (by omega) e; omega
      have n34 : (p.1 + h) * (2 * h) + p.2 ≠ (p.1 + h) * (2 * h) + (p.2 + h) := fun e => by
        have := flat_inj' (P := 2 * h) (by omega) (by omega) e; omega
      refine ⟨(((z.put (p.1 * (2 * h) + p.2) (d.get ((p.1 + h) * (2 * h) + (p.2 + h)))).put
        ((p.1 + h) * (2 * h) + p.2) (d.get (p.1 * (2 * h) + (p.2 + h)))).put
        ((p.1 + h) * (2 * h) + (p.2 + h)) (d.get (p.1 * (2 * h) + p.2))).put
        (p.1 * (2 * h) + (p.2 + h)) (d.get ((p.1 + h) * (2 * h) + p.2)), ?_, ?_⟩
      · unfold shiftAt
        rw [if_pos hg]
        simp only [Nat.add_assoc _ p.2 h]
        rw [exec_need, Arr.read_nat, if_pos (by omega)]
        simp only [Option.bind_some, Prog.exec]
        rw [Arr.write_nat, if_pos (by omega)]
        simp only [Option.bind_some]
        rw [exec_need, Arr.read_nat, if_pos (by omega)]
        simp only [Option.bind_some, Prog.exec]
        rw [Arr.write_nat, if_pos (by simpa using (by omega))]
        simp only [Option.bind_some]
        rw [exec_need, Arr.read_nat, if_pos (by omega)]
        simp only [Option.bind_some, Prog.exec]
        rw [Arr.write_nat, if_pos (by simpa using (by omega))]
        simp only [Option.bind_some]
        rw [exec_need, Arr.read_nat, if_pos (by omega)]
        simp only [Option.bind_some, Prog.exec]
        rw [Arr.write_nat, if_pos (by simpa using (by omega))]
        rfl
      · rintro k ⟨-, -, i, j, hi, hj, hk⟩
        have hk : k = i * (2 * h) + j := by exact_mod_cast hk
        subst hk
        rw [rv.1 i (by omega) j (by omega)]
        simp only [Arr.put_get]
        rcases hi with rfl | rfl <;> rcases hj with rfl | rfl
        · rw [if_neg n12, if_neg n14, if_neg n13, if_pos rfl, low _ hg.1, low _ hg.2]
        · rw [if_pos rfl, low _ hg.1, high _ hg.2]
        · rw [if_neg n23.symm, if_neg n34, if_pos rfl, high _ hg.1, low _ hg.2]
        · rw [if_neg n24.symm, if_pos rfl, high _ hg.1, high _ hg.2]
    · refine ⟨z, by unfold shiftAt; rw [if_neg hg]; rfl, ?_⟩
      rintro k ⟨a, b, -⟩
      exact absurd ⟨a, b⟩ hg
  · intro k hk
    apply rv.2
    by_contra hc
    have hh : 0 < 2 * h := by
      rcases Nat.eq_zero_or_pos h with e | e
      · subst e; simp at hc
      · omega
    have h1 : k / (2 * h) < 2 * h := Nat.div_lt_of_lt_mul (by omega)
    have h2 : k % (2 * h) < 2 * h := Nat.mod_lt _ hh
    have h3 := Nat.div_add_mod k (2 * h)
    generalize k / (2 * h) = i at *
    generalize k % (2 * h) = j at *
    have c : ∀ x, x < 2 * h → ∃ y, y < h ∧ (x = y ∨ x = y + h) := by
      intro x hx
      rcases Nat.lt_or_ge x h with e | e
      · exact ⟨x, e, .inl rfl⟩
      · exact ⟨x - h, by omega, .inr (by omega)⟩
    obtain ⟨a, ha, hia⟩ := c i h1
    obtain ⟨b, hb, hjb⟩ := c j h2
    refine hk (a, b) (mem_threads2 ha hb) ⟨ha, hb, i, j, hia, hjb, ?_⟩
    rw [← h3, Nat.mul_comm]

/-- Where the wrapped index of the padded second image lands, for sides of either parity. -/
theorem wrap_any (h n1 n2 e2 i s : Nat) (hn2 : n2 + 2 * e2 = 2 * h ∨ n2 + 2 * e2 + 1 = 2 * h)
    (hb : n1 + n2 - 1 ≤ 2 * h) (h2 : 1 ≤ n2) (hi : i < n1) (hs : s < n1) (hn1 : n1 + 2 ≤ 2 * h) :
    let T := (i + 3 * h - 1 - s) % (2 * h)
    let c : Nat := (n2 - 1) / 2
    (e2 ≤ T ∧ T < e2 + n2 ↔ 0 ≤ (i : Int) + c - s ∧ (i : Int) + c - s < n2) ∧
      (e2 ≤ T ∧ T < e2 + n2 → T - e2 = ((i : Int) + c - s).toNat) := by
  intro T c
  have hT : T = i + 3 * h - 1 - s ∧ i + 3 * h - 1 - s < 2 * h ∨
      T + 2 * h = i + 3 * h - 1 - s ∧ T < 2 * h ∨
      T + 4 * h = i + 3 * h - 1 - s ∧ T < 2 * h := by
    rcases Nat.lt_or_ge (i + 3 * h - 1 - s) (2 * h) with c | c
    · exact Or.inl ⟨Nat.mod_eq_of_lt c, c⟩
    · rcases Nat.lt_or_ge (i + 3 * h - 1 - s) (4 * h) with c' | c'
      · right; left
        have : T = i + 3 * h - 1 - s - 2 * h := by
          show (i + 3 * h - 1 - s) % (2 * h) = _
          rw [Nat.mod_eq_sub_mod c, Nat.mod_eq_of_lt (by omega)]
        omega
      · right; right
        have : T = i + 3 * h - 1 - s - 2 * h - 2 * h := by
          show (i + 3 * h - 1 - s) % (2 * h) = _
          rw [Nat.mod_eq_sub_mod c, Nat.mod_eq_sub_mod (by omega), Nat.mod_eq_of_lt (by omega)]
        omega
  have hc : c = (n2 - 1) / 2 := rfl
  omega

/-- Sum over a window. -/
theorem sum_window (n e P : Nat) (f : Nat → ℂ) (hP : e + n ≤ P) (h1 : ∀ s < e, f s = 0)
    (h2 : ∀ s, e + n ≤ s → s < P → f s = 0) :
    ∑ s ∈ Finset.range P, f s = ∑ s ∈ Finset.range n, f (e + s) := by
  obtain ⟨m, rfl⟩ : ∃ m, P = (e + n) + m := ⟨P - (e + n), by omega⟩
  rw [Finset.sum_range_add, Finset.sum_range_add, Finset.sum_eq_zero (s := Finset.range e),
    Finset.sum_eq_zero (s := Finset.range m)]
  · simp
  · intro x hx; have := Finset.mem_range.1 hx; exact h2 _ (by omega) (by omega)
  · intro x hx; exact h1 _ (Finset.mem_range.1 hx)

/-- The circular convolution of the padded images is the linear convolution. -/
theorem circ_window (h n1 n2 e1 e2 : Nat) (he1 : 0 < e1) (hn1 : n1 + 2 * e1 ≤ 2 * h)
    (hn2 : n2 + 2 * e2 = 2 * h ∨ n2 + 2 * e2 + 1 = 2 * h) (h2 : 1 ≤ n2) (hb : n1 + n2 - 1 ≤ 2 * h)
    (f1 f2 : Nat → Nat → ℂ) (i j : Nat) (hi : i < n1) (hj : j < n1) :
    circ (2 * h)
      (fun x y => if e1 ≤ x ∧ x < e1 + n1 ∧ e1 ≤ y ∧ y < e1 + n1 then f1 (x - e1) (y - e1) else 0)
      (fun x y => if e2 ≤ x ∧ x < e2 + n2 ∧ e2 ≤ y ∧ y < e2 + n2 then f2 (x - e2) (y - e2) else 0)
      ((i + e1 - 1 + h) % (2 * h)) ((j + e1 - 1 + h) % (2 * h)) =
    linConv n1 n2 f1 f2 (((n2 - 1) / 2 : Nat) : Int) (((n2 - 1) / 2 : Nat) : Int) i j := by
  unfold circ linConv
  have idx : ∀ a s, a < n1 → s < n1 →
      ((a + e1 - 1 + h) % (2 * h) + (2 * h - (e1 + s))) % (2 * h) = (a + 3 * h - 1 - s) % (2 * h) := by
    intro a s ha hs
    rw [Nat.mod_add_mod]
    congr 1
    omega
  rw [sum_window n1 e1 (2 * h) _ (by omega)]
  · refine Finset.sum_congr rfl fun s hs => ?_
    have hs := Finset.mem_range.1 hs
    rw [sum_window n1 e1 (2 * h) _ (by omega)]
    · refine Finset.sum_congr rfl fun t ht => ?_
      have ht := Finset.mem_range.1 ht
      have w1 := wrap_any h n1 n2 e2 i s hn2 hb h2 hi hs (by omega)
      have w2 := wrap_any h n1 n2 e2 j t hn2 hb h2 hj ht (by omega)
      simp only at w1 w2
      beta_reduce
      have g : e1 ≤ e1 + s ∧ e1 + s < e1 + n1 ∧ e1 ≤ e1 + t ∧ e1 + t < e1 + n1 := by omega
      rw [if_pos g, idx i s hi hs, idx j t hj ht, Nat.add_sub_cancel_left, Nat.add_sub_cancel_left]
      congr 1
      unfold at0
      by_cases c : (e2 ≤ (i + 3 * h - 1 - s) % (2 * h) ∧ (i + 3 * h - 1 - s) % (2 * h) < e2 + n2) ∧
          e2 ≤ (j + 3 * h - 1 - t) % (2 * h) ∧ (j + 3 * h - 1 - t) % (2 * h) < e2 + n2
      · rw [if_pos ⟨c.1.1, c.1.2, c.2.1, c.2.2⟩, if_pos ⟨(w1.1.1 c.1).1, (w1.1.1 c.1).2, (w2.1.1 c.2).1,
          (w2.1.1 c.2).2⟩, w1.2 c.1, w2.2 c.2]
      · rw [if_neg fun x => c ⟨⟨x.1, x.2.1⟩, x.2.2.1, x.2.2.2⟩, if_neg fun x => c ⟨w1.1.2 ⟨x.1, x.2.1⟩,
          w2.1.2 ⟨x.2.2.1, x.2.2.2⟩⟩]
    · intro t ht
      beta_reduce
      have g : ¬(e1 ≤ e1 + s ∧ e1 + s < e1 + n1 ∧ e1 ≤ t ∧ t < e1 + n1) := by omega
      rw [if_neg g, zero_mul]
    · intro t ht ht'
      beta_reduce
      have g : ¬(e1 ≤ e1 + s ∧ e1 + s < e1 + n1 ∧ e1 ≤ t ∧ t < e1 + n1) := by omega
      rw [if_neg g, zero_mul]
  · intro s hs
    refine Finset.sum_eq_zero fun t _ => ?_
    beta_reduce
    have g : ¬(e1 ≤ s ∧ s < e1 + n1 ∧ e1 ≤ t ∧ t < e1 + n1) := by omega
    rw [if_neg g, zero_mul]
  · intro s hs hs'
    refine Finset.sum_eq_zero fun t _ => ?_
    beta_reduce
    have g : ¬(e1 ≤ s ∧ s < e1 + n1 ∧ e1 ≤ t ∧ t < e1 + n1) := by omega
    rw [if_neg g, zero_mul]

theorem circ_congr (P : Nat) {A A' B B' : Nat → Nat → ℂ} (hP : 0 < P) (hA : ∀ i < P, ∀ j < P, A i j = A' i j)
    (hB : ∀ i < P, ∀ j < P, B i j = B' i j) (i j : Nat) : circ P A B i j = circ P A' B' i j := by
  unfold circ
  refine Finset.sum_congr rfl fun s hs => Finset.sum_congr rfl fun t ht => ?_
  rw [hA s (Finset.mem_range.1 hs) t (Finset.mem_range.1 ht), hB _ (Nat.mod_lt _ hP) _ (Nat.mod_lt _ hP)]

theorem cufft_get (inv : Bool) (P : Nat) (a : Arr ℂ) (i j : Nat) (hj : j < P) :
    (cufft inv P a).get (i * P + j) = dft2 inv P P (fun x y => a.get (x * P + y)) i j := by
  show dft2 inv P P (fun x y => a.get (x * P + y)) ((i * P + j) / P) ((i * P + j) % P) = _
  rw [Nat.mul_comm i, Nat.mul_add_div (by omega), Nat.div_eq_of_lt hj, Nat.mul_add_mod, Nat.mod_eq_of_lt hj,
    Nat.add_zero]

/-- What the six launches leave in the output. -/
theorem convGpu_ok (in1 in2 out : Arr ℂ) (n1 n2 : Nat) (h1 : 1 ≤ n1) (h2 : 1 ≤ n2)
    (hP : n1 + 2 ≤ padDim n1 n2) (hi1 : n1 * n1 ≤ in1.size) (hi2 : n2 * n2 ≤ in2.size)
    (ho : n1 * n1 ≤ out.size) :
    ∃ r, (∃ o, ConvGpu in1 in2 n1 n2 out o) ∧ (∀ o, ConvGpu in1 in2 n1 n2 out o → o = some r) ∧
      r.size = out.size ∧
      (∀ i < n1, ∀ j < n1, r.get (i * n1 + j) =
        linConv n1 n2 (fun s t => in1.get (s * n1 + t)) (fun s t => in2.get (s * n2 + t))
          (((n2 - 1) / 2 : Nat) : Int) (((n2 - 1) / 2 : Nat) : Int) i j) ∧
      ∀ k, n1 * n1 ≤ k → r.get k = out.get k := by
  obtain ⟨hpow, hb, -⟩ := C25_pad_dim n1 n2 h1 h2
  obtain ⟨k, hk⟩ := hpow
  obtain ⟨h, hh⟩ : ∃ h, padDim n1 n2 = 2 * h := by
    cases k with
    | zero => rw [hk] at hP; norm_num at hP; omega
    | succ k => exact ⟨2 ^ k, by rw [hk, pow_succ]; ring⟩
  have hn2 : n2 ≤ 2 * h := by omega
  obtain ⟨e1, he1⟩ : ∃ e1, e1 = (2 * h - n1) / 2 := ⟨_, rfl⟩
  obtain ⟨e2, he2⟩ : ∃ e2, e2 = (2 * h - n2) / 2 := ⟨_, rfl⟩
  rw [hh] at hb hP
  obtain ⟨a, a1, a2, a3⟩ := padAt_ok in1 n1 e1 (2 * h) hi1 (by omega)
  obtain ⟨b, b1, b2, b3⟩ := padAt_ok in2 n2 e2 (2 * h) hi2 (by omega)
  obtain ⟨m, m1, m2, m3⟩ := multiplyAt_ok (cufft false (2 * h) a) (cufft false (2 * h) b) (2 * h * (2 * h))
    (zeros (2 * h)) a2 b2 rfl
  obtain ⟨q, q1, q2, q3⟩ := normaliseAt_ok (2 * h * (2 * h)) (cufft true (2 * h) m) m2
  obtain ⟨s, s1, s2, s3⟩ := shiftAt_ok h q (zeros (2 * h)) q2 rfl
  obtain ⟨r, r1, r2, r3, r4⟩ := removeAt_ok s (2 * h) e1 n1 (by omega) (by omega) s2 out ho
  have hhalf : 2 * h / 2 = h := by omega
  refine ⟨r, ?_, ?_, r2, ?_, r4⟩
  · have ex2 : ∀ (prog : Nat × Nat → Prog ℂ) (n : Nat) (x y : Arr ℂ), Yields prog (threads2 n) x y →
        Launch prog (threads2 n) x (some y) := by
      intro prog n x y hy
      obtain ⟨o, l⟩ := Launch.exists prog (threads2 n) (nest2_nodup _ _) x
      have := l.eq hy
      rwa [this] at l
    have ex1 : ∀ (prog : Nat → Prog ℂ) (n : Nat) (x y : Arr ℂ), Yields prog (threads1 n) x y →
        Launch prog (threads1 n) x (some y) := by
      intro prog n x y hy
      obtain ⟨o, l⟩ := Launch.exists prog (threads1 n) List.nodup_range x
      have := l.eq hy
      rwa [this] at l
    refine ⟨some r, ?_⟩
    unfold ConvGpu
    rw [hh, ← he1, ← he2, hhalf]
    exact Then.run (ex2 _ _ _ _ a1) (Then.run (ex2 _ _ _ _ b1) (Then.run (ex1 _ _ _ _ m1)
      (Then.run (ex1 _ _ _ _ q1) (Then.run (ex2 _ _ _ _ s1) (ex2 _ _ _ _ r1)))))
  · intro o hc
    unfold ConvGpu at hc
    rw [hh, ← he1, ← he2, hhalf] at hc
    have c1 := Then.exact (fun o l => Launch.eq a1 l) hc
    have c2 := Then.exact (fun o l => Launch.eq b1 l) c1
    have c3 := Then.exact (fun o l => Launch.eq m1 l) c2
    have c4 := Then.exact (fun o l => Launch.eq q1 l) c3
    have c5 := Then.exact (fun o l => Launch.eq s1 l) c4
    exact Launch.eq r1 c5
  · intro i hi j hj
    have hpos : 0 < 2 * h := by omega
    rw [r3 i hi j hj, s3 _ (by omega) _ (by omega)]
    have x1 := Nat.mod_lt (i + e1 - 1 + h) hpos
    have x2 := Nat.mod_lt (j + e1 - 1 + h) hpos
    rw [← circ_window h n1 n2 e1 e2 (by omega) (by omega) (by omega) h2 hb _ _ i j hi hj]
    generalize (i + e1 - 1 + h) % (2 * h) = x at *
    generalize (j + e1 - 1 + h) % (2 * h) = y at *
    rw [q3 _ (flat_lt' x1 x2), cufft_get _ _ _ _ _ x2]
    have e : dft2 true (2 * h) (2 * h) (fun u v => m.get (u * (2 * h) + v)) x y =
        dft2 true (2 * h) (2 * h) (fun u v => dft2 false (2 * h) (2 * h) (fun s t => a.get (s * (2 * h) + t)) u v *
          dft2 false (2 * h) (2 * h) (fun s t => b.get (s * (2 * h) + t)) u v) x y := by
      apply dft2_congr
      intro u hu v hv
      rw [m3 _ (flat_lt' hu hv), cufft_get _ _ _ _ _ hv, cufft_get _ _ _ _ _ hv]
    rw [e, circ_of_product _ _ _ _ _ x1 x2, circ_congr (2 * h) hpos a3 b3]
    have hne : (h : ℂ) ≠ 0 := by
      have : h ≠ 0 := by omega
      exact_mod_cast this
    push_cast
    field_simp

end
end Sdp.FftConv
