import Mathlib.Tactic.Common
import Mathlib.Tactic.Ring
import Mathlib.Tactic.Linarith
import Mathlib.Algebra.Order.Ring.Int
import Verif.Flagger.MachineSpec

/-!
# C120: what the flagger does to memory
-/

namespace Sdp.Flagger.Machine

/-! ## Lists of operations -/

theorem all_append {l l' : List Op} {Q : Op → Prop} : (∀ e ∈ l ++ l', Q e) ↔ (∀ e ∈ l, Q e) ∧ ∀ e ∈ l', Q e :=
  List.forall_mem_append

theorem all_iter {n : Int} {f : Nat → List Op} {Q : Op → Prop} :
    (∀ e ∈ iter n f, Q e) ↔ ∀ i : Nat, (i : Int) < n → ∀ e ∈ f i, Q e := by
  unfold iter
  simp only [List.mem_flatMap, List.mem_range]
  constructor
  · intro h i hi e he
    exact h e ⟨i, by omega, he⟩
  · rintro h e ⟨i, hi, he⟩
    exact h i (by omega) e he

theorem all_flatMap {l : List Nat} {f : Nat → List Op} {Q : Op → Prop} :
    (∀ e ∈ l.flatMap f, Q e) ↔ ∀ i ∈ l, ∀ e ∈ f i, Q e := by
  simp only [List.mem_flatMap]
  constructor
  · intro h i hi e he
    exact h e ⟨i, hi, he⟩
  · rintro h e ⟨i, hi, he⟩
    exact h i hi e he

theorem all_nil {Q : Op → Prop} : (∀ e ∈ ([] : List Op), Q e) ↔ True := by simp

theorem middle_ok {n : Int} : (0 ≤ middle n ∧ middle n < n) ↔ 2 ≤ n := by
  unfold middle
  split <;> omega

theorem medianDevCalc_ok (a : Store) {n : Int} (h : 2 ≤ n) : ∀ e ∈ medianDevCalc a n, e.Defined := by
  unfold medianDevCalc
  simp only [all_append, all_iter, List.forall_mem_cons, all_nil, and_true, Op.Defined, middle_ok]
  exact ⟨⟨by omega, fun i hi => ⟨⟨by omega, hi⟩, by omega, hi⟩⟩, h⟩

theorem flat {a A i B : Int} (ha : 0 ≤ a) (hA : a < A) (hi : 0 ≤ i) (hB : i < B) :
    0 ≤ a * B + i ∧ a * B + i < A * B := by
  have h0 : 0 ≤ a * B := mul_nonneg ha (by omega)
  have h1 : (a + 1) * B ≤ A * B := mul_le_mul_of_nonneg_right (by omega) (by omega)
  rw [add_mul, one_mul] at h1
  omega

/-- Bounds of a position and of its parts. -/
theorem pos_bounds (A : Args) {t b c p : Int} (ht : 0 ≤ t) (ht' : t < A.nTimes) (hb : 0 ≤ b) (hb' : b < A.nBaselines)
    (hc : 0 ≤ c) (hc' : c < A.nChannels) (hp : 0 ≤ p) (hp' : p < A.nPols) :
    0 ≤ c * A.nPols ∧ 0 ≤ b * baselineBlock A ∧ 0 ≤ t * timeBlock A ∧
      basePos A t b + c * A.nPols + p < nVis A ∧ timeBlock A ≤ nVis A ∧ 0 ≤ timeBlock A ∧
      0 ≤ baselineBlock A ∧ baselineBlock A ≤ timeBlock A ∧ (A.nBaselines : Int) * A.nChannels ≤ timeBlock A ∧
      (A.nTimes : Int) ≤ nVis A ∧ (A.nChannels : Int) ≤ baselineBlock A ∧
      basePos A t b = t * timeBlock A + b * baselineBlock A := by
  obtain ⟨h1, h1'⟩ := flat hc hc' hp hp'
  obtain ⟨h2, h2'⟩ := flat hb hb' h1 h1'
  obtain ⟨h3, h3'⟩ := flat ht ht' h2 h2'
  have e0 : (A.nBaselines : Int) * (A.nChannels * A.nPols) = timeBlock A := by unfold timeBlock; ring
  have e1 : (A.nTimes : Int) * timeBlock A = nVis A := by unfold timeBlock nVis; ring
  have e2 : (A.nChannels : Int) * A.nPols = baselineBlock A := rfl
  rw [e0, e2] at h3 h3'
  rw [e2] at h2 h2'
  rw [e1] at h3'
  rw [← e2, e0] at h2'
  rw [e2] at h2' h1'
  have n1 : 0 ≤ c * (A.nPols : Int) := mul_nonneg hc (by omega)
  have n2 : 0 ≤ b * baselineBlock A := mul_nonneg hb (by omega)
  have n3 : 0 ≤ t * timeBlock A := mul_nonneg ht (by omega)
  have n4 : timeBlock A ≤ nVis A := by
    rw [← e1]
    exact le_mul_of_one_le_left (by omega) (by omega)
  have n5 : baselineBlock A ≤ timeBlock A := by
    rw [← e0, e2]
    exact le_mul_of_one_le_left (by omega) (by omega)
  have n6 : (A.nBaselines : Int) * A.nChannels ≤ timeBlock A := by
    unfold timeBlock
    exact le_mul_of_one_le_right (mul_nonneg (by omega) (by omega)) (by omega)
  have n7 : (A.nTimes : Int) ≤ nVis A := by
    rw [← e1]
    exact le_mul_of_one_le_right (by omega) (by omega)
  have n8 : (A.nChannels : Int) ≤ baselineBlock A := by
    rw [← e2]
    exact le_mul_of_one_le_right (by omega) (by omega)
  refine ⟨n1, n2, n3, ?_, n4, by omega, by omega, n5, n6, n7, n8, rfl⟩
  unfold basePos
  omega

/-! ## Everything defined -/

section
variable {A : Args} (hA : A.Fit)
include hA

theorem fit_nVis : nVis A < 2 ^ 31 ∧ nVis A ≤ A.nFlags := by
  have h1 := hA.vis
  have h2 := hA.flags
  unfold nVis
  exact ⟨by exact_mod_cast h1, by exact_mod_cast h2⟩

theorem fit_samples : 2 ≤ numSamples A ∧ numSamples A * A.step ≤ A.nChannels ∧ numSamples A ≤ A.nChannels := by
  have h1 := hA.step
  have h2 := hA.samples
  unfold numSamples
  rw [Int.tdiv_eq_ediv_of_nonneg (by omega)]
  refine ⟨?_, Int.ediv_mul_le _ (by omega), Int.ediv_le_self _ (by omega)⟩
  exact (Int.le_ediv_iff_mul_le (by omega)).2 (by omega)

theorem fit_sample {s : Nat} (hs : (s : Int) < numSamples A) :
    0 ≤ (s : Int) * A.step ∧ (s : Int) * A.step < A.nChannels := by
  have h1 := hA.step
  obtain ⟨-, h2, -⟩ := fit_samples hA
  have h3 : ((s : Int) + 1) * A.step ≤ numSamples A * A.step := mul_le_mul_of_nonneg_right (by omega) (by omega)
  rw [add_mul, one_mul] at h3
  exact ⟨mul_nonneg (by omega) (by omega), by omega⟩

theorem posOps_ok {t b c p : Int} (ht : 0 ≤ t) (ht' : t < A.nTimes) (hb : 0 ≤ b) (hb' : b < A.nBaselines)
    (hc : 0 ≤ c) (hc' : c < A.nChannels) (hp : 0 ≤ p) (hp' : p < A.nPols) :
    (∀ e ∈ posOps A (basePos A t b) c p, e.Defined) ∧
      0 ≤ basePos A t b + c * A.nPols + p ∧ basePos A t b + c * A.nPols + p < nVis A := by
  obtain ⟨h1, h2, h3, h4, h5, h6, h7, h8, h9, h10, h11, h12⟩ := pos_bounds A ht ht' hb hb' hc hc' hp hp'
  obtain ⟨f1, -⟩ := fit_nVis hA
  unfold posOps
  simp only [List.forall_mem_cons, all_nil, and_true, Op.Defined]
  rw [h12] at h4 ⊢
  refine ⟨⟨⟨?_, ?_⟩, ⟨?_, ?_⟩, ?_, ?_⟩, ?_, ?_⟩ <;> omega

theorem setFlag_ok {t b c p : Int} (ht : 0 ≤ t) (ht' : t < A.nTimes) (hb : 0 ≤ b) (hb' : b < A.nBaselines)
    (hc : 0 ≤ c) (hc' : c < A.nChannels) (hp : 0 ≤ p) (hp' : p < A.nPols) :
    ∀ e ∈ setFlag A (basePos A t b) c p, e.Defined := by
  obtain ⟨h1, h2, h3⟩ := posOps_ok hA ht ht' hb hb' hc hc' hp hp'
  obtain ⟨-, f2⟩ := fit_nVis hA
  unfold setFlag
  simp only [all_append, List.forall_mem_cons, all_nil, and_true]
  exact ⟨h1, h2, by omega⟩

theorem windowOps_ok {c : Int} (hc : 0 ≤ c) (hc' : c < A.nChannels) (set : Int → List Op)
    (h : ∀ c' : Int, 0 ≤ c' → c' < A.nChannels → ∀ e ∈ set c', e.Defined) (hn : (A.nChannels : Int) ≤ 2 ^ 31) :
    ∀ e ∈ windowOps A c set, e.Defined := by
  have hw := hA.window
  unfold windowOps
  simp only [all_iter, all_append, List.forall_mem_cons, all_nil, and_true]
  intro w hw'
  have hd : ∀ x : Int, -2147483648 ≤ x → x ≤ 2147483647 → (Op.int x).Defined := fun x a b => ⟨a, b⟩
  refine ⟨⟨⟨⟨hd _ (by omega) (by omega), hd _ (by omega) (by omega)⟩, ?_⟩, hd _ (by omega) (by omega),
    hd _ (by omega) (by omega)⟩, ?_⟩
  · split
    · exact h _ (by omega) (by omega)
    · simp
  · split
    · exact h _ (by omega) (by omega)
    · simp

/-- Methods 1 and 3: all but the reads of the recent medians. -/
theorem method13_ok (ch : Choice) {b p t : Nat} (ht : t < A.nTimes) (hb : b < A.nBaselines) (hp : p < A.nPols)
    (Q : Op → Prop) (hQ : ∀ e : Op, e.Defined → Q e)
    (hm : ∀ e ∈ medianCalc .med (min ((t : Int) + 1) A.hist) ++ medianDevCalc .med (min ((t : Int) + 1) A.hist), Q e) :
    ∀ e ∈ method13 A ch b p t, Q e := by
  have hs := fit_samples hA
  have hh := hA.hist
  have hchan : (0 : Int) < A.nChannels := by omega
  obtain ⟨f1, -⟩ := fit_nVis hA
  obtain ⟨h1, h2, h3, h4, h5, h6, h7, h8, h9, h10, h11, h12⟩ := pos_bounds A (t := t) (b := b) (c := 0) (p := p)
    (by omega) (by omega) (by omega) (by omega) le_rfl hchan (by omega) (by omega)
  have hpos := fun (c : Int) (hc : 0 ≤ c) (hc' : c < A.nChannels) => posOps_ok hA (t := t) (b := b) (c := c) (p := p)
    (by omega) (by omega) (by omega) (by omega) hc hc' (by omega) (by omega)
  have hset := fun (c : Int) (hc : 0 ≤ c) (hc' : c < A.nChannels) => setFlag_ok hA (t := t) (b := b) (c := c) (p := p)
    (by omega) (by omega) (by omega) (by omega) hc hc' (by omega) (by omega)
  have hnn : 0 ≤ (A.nBaselines : Int) * A.nChannels := mul_nonneg (by omega) (by omega)
  have hd : ∀ x : Int, -2147483648 ≤ x → x ≤ 2147483647 → (Op.int x).Defined := fun x a b => ⟨a, b⟩
  have he : ∀ (a : Store) (i n : Int), 0 ≤ i → i < n → (Op.elem a i n).Defined := fun _ _ _ a b => ⟨a, b⟩
  unfold method13
  simp only [all_append] at hm ⊢
  refine ⟨⟨⟨⟨⟨⟨⟨⟨?_, ?_⟩, ?_⟩, ?_⟩, ?_⟩, ?_⟩, hm.1⟩, hm.2⟩, ?_⟩
  · simp only [List.forall_mem_cons, all_nil, and_true]
    refine ⟨hQ _ (hd _ ?_ ?_), hQ _ (hd _ ?_ ?_), hQ _ (hd _ ?_ ?_), hQ _ (hd _ ?_ ?_), hQ _ (hd _ ?_ ?_),
      hQ _ (hd _ ?_ ?_), hQ _ (hd _ ?_ ?_), hQ _ ?_⟩
    all_goals try omega
    show 0 ≤ _
    omega
  · rw [all_iter]
    intro s hs'
    obtain ⟨a1, a2⟩ := fit_sample hA hs'
    obtain ⟨b1, b2, b3⟩ := hpos _ a1 a2
    simp only [all_append, List.forall_mem_cons, all_nil, and_true]
    exact ⟨⟨hQ _ (hd _ (by omega) (by omega)), fun e h => hQ e (b1 e h)⟩, hQ _ (he _ _ _ b2 b3),
      hQ _ (he _ _ _ (by omega) hs')⟩
  · unfold medianCalc
    simp only [List.forall_mem_cons, all_nil, and_true]
    exact hQ _ (middle_ok.2 hs.1)
  · exact fun e h => hQ e (medianDevCalc_ok _ hs.1 e h)
  · simp only [List.forall_mem_cons, all_nil, and_true]
    exact hQ _ (he _ _ _ (by omega) (by omega))
  · rw [all_iter]
    intro tt htt
    simp only [List.forall_mem_cons, all_nil, and_true]
    exact ⟨hQ _ (hd _ (by omega) (by omega)), hQ _ (he _ _ _ (by omega) (by omega)),
      hQ _ (he _ _ _ (by omega) (by omega))⟩
  · rw [all_iter]
    intro c hc
    obtain ⟨b1, b2, b3⟩ := hpos c (by omega) hc
    simp only [all_append, List.forall_mem_cons, all_nil, and_true]
    refine ⟨⟨fun e h => hQ e (b1 e h), hQ _ (he _ _ _ b2 b3)⟩, ?_⟩
    split
    · rw [all_append]
      exact ⟨fun e h => hQ e (hset c (by omega) hc e h),
        fun e h => hQ e (windowOps_ok hA (by omega) hc _ hset (by omega) e h)⟩
    · simp

theorem method2_ok (ch : Choice) {b p t : Nat} (ht0 : 0 < t) (ht : t < A.nTimes) (hb : b < A.nBaselines)
    (hp : p < A.nPols) : ∀ e ∈ method2 A ch b p t, e.Defined := by
  have hs := fit_samples hA
  have hchan : (0 : Int) < A.nChannels := by omega
  obtain ⟨f1, -⟩ := fit_nVis hA
  obtain ⟨h1, h2, h3, h4, h5, h6, h7, h8, h9, h10, h11, h12⟩ := pos_bounds A (t := (t : Int) - 1) (b := b) (c := 0)
    (p := p) (by omega) (by omega) (by omega) (by omega) le_rfl hchan (by omega) (by omega)
  have hpos := fun (c : Int) (hc : 0 ≤ c) (hc' : c < A.nChannels) => posOps_ok hA (t := t) (b := b) (c := c) (p := p)
    (by omega) (by omega) (by omega) (by omega) hc hc' (by omega) (by omega)
  have hpos' := fun (c : Int) (hc : 0 ≤ c) (hc' : c < A.nChannels) => posOps_ok hA (t := (t : Int) - 1) (b := b)
    (c := c) (p := p) (by omega) (by omega) (by omega) (by omega) hc hc' (by omega) (by omega)
  have hset := fun (c : Int) (hc : 0 ≤ c) (hc' : c < A.nChannels) => setFlag_ok hA (t := t) (b := b) (c := c) (p := p)
    (by omega) (by omega) (by omega) (by omega) hc hc' (by omega) (by omega)
  have hset' := fun (c : Int) (hc : 0 ≤ c) (hc' : c < A.nChannels) => setFlag_ok hA (t := (t : Int) - 1) (b := b)
    (c := c) (p := p) (by omega) (by omega) (by omega) (by omega) hc hc' (by omega) (by omega)
  have hd : ∀ x : Int, -2147483648 ≤ x → x ≤ 2147483647 → (Op.int x).Defined := fun x a b => ⟨a, b⟩
  have he : ∀ (a : Store) (i n : Int), 0 ≤ i → i < n → (Op.elem a i n).Defined := fun _ _ _ a b => ⟨a, b⟩
  unfold method2
  simp only [all_append]
  refine ⟨⟨⟨⟨⟨?_, ?_⟩, ?_⟩, ?_⟩, medianDevCalc_ok _ hs.1⟩, ?_⟩
  · simp only [List.forall_mem_cons, all_nil, and_true]
    refine ⟨hd _ ?_ ?_, hd _ ?_ ?_, hd _ ?_ ?_, hd _ ?_ ?_⟩
    all_goals omega
  · rw [all_iter]
    intro c hc
    obtain ⟨b1, b2, b3⟩ := hpos c (by omega) hc
    obtain ⟨c1, c2, c3⟩ := hpos' c (by omega) hc
    simp only [all_append, List.forall_mem_cons, all_nil, and_true]
    exact ⟨⟨b1, c1⟩, he _ _ _ b2 b3, he _ _ _ c2 c3, he _ _ _ (by omega) hc⟩
  · rw [all_iter]
    intro s hs'
    obtain ⟨a1, a2⟩ := fit_sample hA hs'
    simp only [List.forall_mem_cons, all_nil, and_true]
    exact ⟨hd _ (by omega) (by omega), he _ _ _ a1 a2, he _ _ _ (by omega) hs'⟩
  · unfold medianCalc
    simp only [List.forall_mem_cons, all_nil, and_true]
    exact middle_ok.2 hs.1
  · rw [all_iter]
    intro c hc
    obtain ⟨b1, -⟩ := hpos c (by omega) hc
    obtain ⟨c1, -⟩ := hpos' c (by omega) hc
    simp only [all_append, List.forall_mem_cons, all_nil, and_true]
    refine ⟨⟨⟨b1, c1⟩, he _ _ _ (by omega) hc⟩, ?_⟩
    have hboth : ∀ c' : Int, 0 ≤ c' → c' < (A.nChannels : Int) →
        ∀ e ∈ setFlag A (basePos A t b) c' p ++ setFlag A (basePos A ((t : Int) - 1) b) c' p, e.Defined := by
      intro c' a1 a2
      rw [all_append]
      exact ⟨hset c' a1 a2, hset' c' a1 a2⟩
    split
    · simp only [all_append]
      exact ⟨⟨hset c (by omega) hc, hset' c (by omega) hc⟩,
        windowOps_ok hA (by omega) hc _ hboth (by omega)⟩
    · simp

theorem start_ok (hc : (A.nChannels : Int) < 2 ^ 31) :
    ∀ e ∈ start A, e.Defined := by
  have hs := fit_samples hA
  have h1 := hA.step
  unfold start filler
  simp only [all_append, all_iter, List.forall_mem_cons, all_nil, and_true, Op.Defined]
  refine ⟨⟨⟨⟨⟨?_, ⟨?_, ?_⟩, ?_, ?_, ?_, ?_⟩, fun i hi => ⟨?_, hi⟩⟩, fun i hi => ⟨?_, hi⟩⟩, fun i hi => ⟨?_, hi⟩⟩,
    fun i hi => ⟨?_, hi⟩⟩ <;> omega


/-- **C120, one time after the first**: every operation is defined, whatever the comparisons find. -/
theorem C120_later_times (ch : Choice) {b p t : Nat} (ht0 : 0 < t) (ht : t < A.nTimes) (hb : b < A.nBaselines)
    (hp : p < A.nPols) : ∀ e ∈ timeStep A ch b p t, e.Defined := by
  have hh := hA.hist
  unfold timeStep
  rw [if_pos ht0, all_append]
  refine ⟨method13_ok hA ch ht hb hp _ (fun _ h => h) ?_, method2_ok hA ch ht0 ht hb hp⟩
  rw [all_append]
  refine ⟨?_, medianDevCalc_ok _ (by omega)⟩
  unfold medianCalc
  simp only [List.forall_mem_cons, all_nil, and_true]
  exact middle_ok.2 (by omega)

/-- **C120, a whole thread.**  For arguments that fit, the only operations that are not defined are two reads at the
first time of a baseline and polarisation: element 1 of the one recent median and of its one deviation. -/
theorem C120_thread_partial (hc : (A.nChannels : Int) < 2 ^ 31) (ch : Nat → Nat → Nat → Choice) (bs : List Nat)
    (hbs : ∀ b ∈ bs, b < A.nBaselines) :
    ∀ e ∈ thread A ch bs, e.Defined ∨ e = .elem .med 1 1 ∨ e = .elem .devs 1 1 := by
  have hh := hA.hist
  unfold thread
  simp only [all_append, all_flatMap, all_iter]
  refine ⟨fun e he => Or.inl (start_ok hA hc e he), fun b hb p hp t ht => ?_⟩
  have hb' := hbs b hb
  rcases Nat.eq_zero_or_pos t with rfl | ht0
  · unfold timeStep
    rw [if_neg (by omega), List.append_nil]
    refine method13_ok hA _ (by omega) hb' (by omega) _ (fun _ h => Or.inl h) ?_
    have e1 : min (((0 : Nat) : Int) + 1) A.hist = 1 := by omega
    rw [e1]
    intro e he
    have hl : medianCalc .med 1 ++ medianDevCalc .med 1 =
        [.elem .med 1 1, .alloc .devs 1, .elem .devs 0 1, .elem .med 0 1, .elem .devs 1 1] := by decide
    rw [hl] at he
    simp only [List.mem_cons, List.not_mem_nil, or_false] at he
    rcases he with rfl | rfl | rfl | rfl | rfl
    · exact Or.inr (Or.inl rfl)
    · exact Or.inl (by show (0 : Int) ≤ 1; omega)
    · exact Or.inl ⟨by omega, by omega⟩
    · exact Or.inl ⟨by omega, by omega⟩
    · exact Or.inr (Or.inr rfl)
  · exact fun e he => Or.inl (C120_later_times hA _ ht0 (by omega) hb' (by omega) e he)

end

/-! ## What is not defined -/

theorem mem_iter {n : Int} {f : Nat → List Op} {e : Op} (i : Nat) (hi : (i : Int) < n) (he : e ∈ f i) :
    e ∈ iter n f := by
  unfold iter
  exact List.mem_flatMap.2 ⟨i, List.mem_range.2 (by omega), he⟩

/-- Every operation of a time is an operation of the thread. -/
theorem mem_thread {A : Args} {ch : Nat → Nat → Nat → Choice} {bs : List Nat} {b p t : Nat} {e : Op} (hb : b ∈ bs)
    (hp : p < A.nPols) (ht : t < A.nTimes) (he : e ∈ timeStep A (ch b p t) b p t) : e ∈ thread A ch bs := by
  unfold thread
  exact List.mem_append_right _ (List.mem_flatMap.2 ⟨b, hb, mem_iter p (by omega) (mem_iter t (by omega) he)⟩)

theorem mem_recent {A : Args} (ch : Choice) (b p t : Nat) {e : Op}
    (he : e ∈ medianCalc .med (min ((t : Int) + 1) A.hist)) : e ∈ timeStep A ch b p t := by
  unfold timeStep
  apply List.mem_append_left
  unfold method13
  simp only [List.mem_append]
  exact Or.inl (Or.inl (Or.inr he))

theorem mem_samples {A : Args} (ch : Choice) (b p t : Nat) {e : Op}
    (he : e ∈ medianCalc .samples (numSamples A)) : e ∈ timeStep A ch b p t := by
  unfold timeStep
  apply List.mem_append_left
  unfold method13
  simp only [List.mem_append]
  exact Or.inl (Or.inl (Or.inl (Or.inl (Or.inl (Or.inl (Or.inr he))))))

theorem mem_bad {A : Args} (ch : Choice) (b p t c : Nat) (hc : c < A.nChannels) (hbad : ch.bad c = true) {e : Op}
    (he : e ∈ setFlag A (basePos A t b) c p ++ windowOps A c fun c' => setFlag A (basePos A t b) c' p) :
    e ∈ timeStep A ch b p t := by
  unfold timeStep
  apply List.mem_append_left
  unfold method13
  simp only [List.mem_append]
  refine Or.inr (mem_iter c (by omega) ?_)
  rw [if_pos hbad]
  exact List.mem_append_right _ he

/-- **C120 fails for every call** with at least one time, baseline and polarisation and a positive history: at the
first time the middle of the one recent median is read behind its block. -/
theorem C120_every_call_false (A : Args) (ch : Nat → Nat → Nat → Choice) (bs : List Nat) (b : Nat) (hb : b ∈ bs)
    (ht : 0 < A.nTimes) (hp : 0 < A.nPols) (hh : 0 < A.hist) :
    .elem .med 1 1 ∈ thread A ch bs ∧ ¬ (Op.elem .med 1 1).Defined := by
  refine ⟨mem_thread hb hp ht (mem_recent _ _ _ _ ?_), fun h => by have := h.2; omega⟩
  have : min (((0 : Nat) : Int) + 1) A.hist = 1 := by omega
  rw [this]
  decide

/-- **C120, step zero** is a division by zero in every thread. -/
theorem C120_step_zero_false (A : Args) (ch : Nat → Nat → Nat → Choice) (bs : List Nat) (h : A.step = 0) :
    .div 0 ∈ thread A ch bs ∧ ¬ (Op.div 0).Defined := by
  refine ⟨?_, fun h => h rfl⟩
  unfold thread start
  rw [h]
  simp

/-- All flags are set. -/
def allBad : Choice := ⟨fun _ => true, fun _ => true⟩

/-- **C120, exactly which arguments.**  With fewer than 2^31 visibilities and at least two times: all operations
after the first time are defined, whatever the data, exactly if the arguments fit. -/
theorem C120_exact (A : Args) (ht : 2 ≤ A.nTimes) (hb : 0 < A.nBaselines) (hp : 0 < A.nPols)
    (hv : A.nTimes * A.nBaselines * A.nChannels * A.nPols < 2 ^ 31) :
    (∀ ch b p t, b < A.nBaselines → p < A.nPols → 0 < t → t < A.nTimes → ∀ e ∈ timeStep A ch b p t, e.Defined) ↔
      1 ≤ A.step ∧ 2 * A.step ≤ A.nChannels ∧ 2 ≤ A.hist ∧ (A.window ≤ 0 ∨ A.window + A.nChannels ≤ 2 ^ 31) ∧
        A.nTimes * A.nBaselines * A.nChannels * A.nPols ≤ A.nFlags := by
  have hcv : A.nChannels ≤ A.nTimes * A.nBaselines * A.nChannels * A.nPols := by
    have h1 : 1 * A.nChannels * 1 ≤ A.nTimes * A.nBaselines * A.nChannels * A.nPols :=
      Nat.mul_le_mul (Nat.mul_le_mul_right _ (Nat.mul_pos (by omega) hb)) hp
    omega
  constructor
  · intro h
    have hs : 2 ≤ numSamples A := middle_ok.1 (h allBad 0 0 1 hb hp (by omega) (by omega) (.elem .samples _ _)
      (mem_samples _ _ _ _ (by simp [medianCalc])))
    have hm := middle_ok.1 (h allBad 0 0 1 hb hp (by omega) (by omega) (.elem .med (middle (min (((1 : Nat) : Int) + 1) A.hist)) _)
      (mem_recent _ _ _ _ (List.mem_singleton.2 rfl)))
    have hstep : 1 ≤ A.step := by
      by_contra hn
      unfold numSamples at hs
      have : (A.nChannels : Int).tdiv A.step ≤ 0 := by
        have e : A.step = -((-A.step).toNat : Int) := by omega
        rw [e, Int.tdiv_neg]
        have := Int.tdiv_nonneg (a := (A.nChannels : Int)) (b := ((-A.step).toNat : Int)) (by omega) (by omega)
        omega
      omega
    have hsam : 2 * A.step ≤ A.nChannels := by
      unfold numSamples at hs
      rw [Int.tdiv_eq_ediv_of_nonneg (by omega)] at hs
      exact (Int.le_ediv_iff_mul_le (by omega)).1 hs
    have hcpos : 0 < A.nChannels := by omega
    refine ⟨hstep, hsam, by omega, ?_, ?_⟩
    · by_cases hw : A.window ≤ 0
      · exact Or.inl hw
      · right
        have := h allBad 0 0 1 hb hp (by omega) (by omega)
          (.int (((A.nChannels - 1 : Nat) : Int) + ((A.window - 1).toNat : Nat) + 1))
          (mem_bad _ _ _ _ (A.nChannels - 1) (by omega) rfl (by
            apply List.mem_append_right
            unfold windowOps
            refine mem_iter (A.window - 1).toNat (by omega) ?_
            simp))
        have := this.2
        omega
    · have h1 := h allBad (A.nBaselines - 1) (A.nPols - 1) (A.nTimes - 1) (by omega) (by omega) (by omega) (by omega)
        (.elem .flags (basePos A ((A.nTimes - 1 : Nat) : Int) ((A.nBaselines - 1 : Nat) : Int) +
          ((A.nChannels - 1 : Nat) : Int) * A.nPols + ((A.nPols - 1 : Nat) : Int)) A.nFlags)
        (mem_bad _ _ _ _ (A.nChannels - 1) (by omega) rfl (by
          apply List.mem_append_left
          unfold setFlag
          simp))
      have h2 := h1.2
      have e : basePos A ((A.nTimes - 1 : Nat) : Int) ((A.nBaselines - 1 : Nat) : Int) +
          ((A.nChannels - 1 : Nat) : Int) * A.nPols + ((A.nPols - 1 : Nat) : Int) =
          ((A.nTimes * A.nBaselines * A.nChannels * A.nPols : Nat) : Int) - 1 := by
        unfold basePos timeBlock baselineBlock
        rw [Nat.cast_sub (by omega), Nat.cast_sub (by omega), Nat.cast_sub (by omega), Nat.cast_sub (by omega)]
        push_cast
        ring
      rw [e] at h2
      omega
  · rintro ⟨h1, h2, h3, h4, h5⟩ ch b p t hb' hp' ht0 ht'
    rcases h4 with h4 | h4
    · -- a window of no channels behaves like a window of zero
      have hA : Args.Fit { A with window := 0 } := ⟨h1, h2, h3, by simp only; omega, h5, hv⟩
      have hr := C120_later_times hA ch (b := b) (p := p) ht0 ht' hb' hp'
      have hwin : ∀ c set, windowOps A c set = windowOps { A with window := 0 } c set := by
        intro c set
        unfold windowOps iter
        simp only [Int.toNat_of_nonpos h4, Int.toNat_zero]
      have e : timeStep A ch b p t = timeStep { A with window := 0 } ch b p t := by
        unfold timeStep method13 method2
        simp only [hwin]
        rfl
      rw [e]
      exact hr
    · exact C120_later_times ⟨h1, h2, h3, h4, h5, hv⟩ ch ht0 ht' hb' hp'

/-! ## Cases that meet the hypotheses -/

/-- Three times, two baselines, eight channels and four polarisations. -/
def argsExample : Args := ⟨2, 3, 5, 3, 2, 8, 4, 192⟩

theorem argsExample_fit : argsExample.Fit := ⟨by decide, by decide, by decide, by decide, by decide, by decide⟩

example (ch : Nat → Nat → Nat → Choice) :
    ∀ e ∈ thread argsExample ch [1, 0], e.Defined ∨ e = .elem .med 1 1 ∨ e = .elem .devs 1 1 :=
  C120_thread_partial argsExample_fit (by decide) ch [1, 0] (by decide)

example (ch : Nat → Nat → Nat → Choice) : .elem .med 1 1 ∈ thread argsExample ch [1, 0] :=
  (C120_every_call_false argsExample ch [1, 0] 1 (by decide) (by decide) (by decide) (by decide)).1

example : ∃ ch b p t, b < 2 ∧ p < 4 ∧ 0 < t ∧ t < 3 ∧
    ∃ e ∈ timeStep { argsExample with window := 2147483647 } ch b p t, ¬ e.Defined := by
  by_contra h
  have := (C120_exact { argsExample with window := 2147483647 } (by decide) (by decide) (by decide) (by decide)).1
    (fun ch b p t h1 h2 h3 h4 e he => by
      by_contra hn
      exact h ⟨ch, b, p, t, h1, h2, h3, h4, e, he, hn⟩)
  revert this
  decide

end Sdp.Flagger.Machine
