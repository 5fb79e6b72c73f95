import Verif.Swiftly.Round

/-!
# C60, C61 (and C32, C33): out-of-place and two-dimensional subgrid functions
-/

namespace Sdp.Swiftly
open Sdp.Fft
noncomputable section

/-- C60: finishing out of place writes the central `xA` samples of what finishing in place
computes; all accesses in range, for every offset. -/
theorem C60_finish_crop (M : Nat) (hM : 0 < M) (he : Even M) (xA : Nat) (hx : xA ≤ M) (o : Int)
    (img sg : Arr ℂ) (hi : img.size = M) (hs : sg.size = xA) :
    ∃ f r, finishSubgrid M o img = some f ∧ finishSubgridOut M xA o img sg = some r ∧
      r.size = xA ∧ ∀ i < xA, r.get i = f.get (i + M / 2 - xA / 2) := by
  obtain ⟨h, rfl⟩ := even_iff_two_dvd.1 he
  have hh : 0 < h := by omega
  obtain ⟨f, hf, hfs, hfv⟩ := finishSubgrid_spec h hh o img hi
  refine ⟨f, ?_⟩
  unfold finishSubgridOut
  rw [show 2 * h / 2 = h by omega]
  -- the half-turn copy
  obtain ⟨b, hb, hbs, hb1, hb2⟩ := loop_inv
    (fun (buf : Arr ℂ) (i : Nat) =>
      (img.read (i + h : Nat)).bind fun v => (buf.write i v).bind fun buf =>
      (img.read i).bind fun v => buf.write (i + h : Nat) v)
    (fun done r => r.size = 2 * h ∧ (∀ i ∈ done, r.get i = img.get (i + h)) ∧
      (∀ i ∈ done, r.get (i + h) = img.get i))
    (List.range h) ⟨2 * h, fun _ => 0⟩ ⟨rfl, by simp, by simp⟩ (by
      rintro done x rest s he ⟨hs, h1, h2⟩
      have hx : x < h := List.mem_range.1 (by rw [he]; simp)
      have hdl : ∀ i ∈ done, i < h := fun i hi => List.mem_range.1 (by rw [he]; simp [hi])
      refine ⟨(s.put x (img.get (x + h))).put (x + h) (img.get x), ?_, by simpa using hs, ?_, ?_⟩
      · rw [Arr.read_nat, if_pos (by omega), Option.bind_some, Arr.write_nat, if_pos (by omega),
          Option.bind_some, Arr.read_nat, if_pos (by omega), Option.bind_some, Arr.write_nat,
          if_pos (by rw [Arr.put_size]; omega)]
      · intro i hi2
        rw [Arr.put_get, Arr.put_get]
        rcases List.mem_append.1 hi2 with hi3 | hi3
        · have := hdl i hi3
          rw [if_neg (by omega)]
          split
          · rename_i hh; rw [hh]
          · exact h1 i hi3
        · rw [List.mem_singleton] at hi3; subst hi3
          rw [if_neg (by omega), if_pos rfl]
      · intro i hi2
        rw [Arr.put_get, Arr.put_get]
        rcases List.mem_append.1 hi2 with hi3 | hi3
        · have := hdl i hi3
          split
          · rename_i hh; rw [show i = x by omega]
          · rw [if_neg (by omega)]; exact h2 i hi3
        · rw [List.mem_singleton] at hi3; subst hi3
          rw [if_pos rfl])
  rw [hb]
  simp only [Option.bind_some, fftRow]
  rw [if_pos (by omega)]
  simp only [Option.bind_some]
  have hpos : (0 : Int) < ((2 * h : Nat) : Int) := by omega
  obtain ⟨r, hr, hrs, hrv, _⟩ := gather_spec
    (⟨b.size, fun k => if k < 2 * h then 1 / ((2 * h : Nat) : ℂ) * dft true (2 * h) b.get k
      else b.get k⟩ : Arr ℂ)
    (fun i => modP ((i : Int) - (xA / 2 : Nat) + o + (2 * h : Nat)) (2 * h : Nat)) xA sg
    (by
      intro i _
      rw [modP_eq _ hpos]
      have := Int.emod_nonneg ((i : Int) - (xA / 2 : Nat) + o + (2 * h : Nat)) (b := ((2 * h : Nat) : Int)) (by omega)
      have := Int.emod_lt_of_pos ((i : Int) - (xA / 2 : Nat) + o + (2 * h : Nat)) hpos
      constructor
      · omega
      · simp only; omega) (by omega)
  refine ⟨r, hf, hr, by omega, fun i hi' => ?_⟩
  rw [hrv i hi', hfv _ (by omega)]
  simp only
  rw [modP_eq _ hpos]
  have h1 := Int.emod_nonneg ((i : Int) - (xA / 2 : Nat) + o + (2 * h : Nat)) (b := ((2 * h : Nat) : Int)) (by omega)
  have h2 := Int.emod_lt_of_pos ((i : Int) - (xA / 2 : Nat) + o + (2 * h : Nat)) hpos
  rw [if_pos (by omega)]
  congr 1
  unfold dft
  refine Finset.sum_congr rfl fun t ht => ?_
  rw [Finset.mem_range] at ht
  have hbt : b.get t = img.get ((t + h) % (2 * h)) := by
    by_cases ht' : t < h
    · rw [hb1 t (List.mem_range.2 ht'), Nat.mod_eq_of_lt (by omega)]
    · have := hb2 (t - h) (List.mem_range.2 (by omega))
      rw [show t - h + h = t by omega] at this
      rw [this, show t + h = (t - h) + 2 * h by omega, Nat.add_mod_right, Nat.mod_eq_of_lt (by omega)]
  simp only
  rw [hbt, ← mul_assoc (root (2 * h) (sgn true * ((t : Int) * ((i + h - xA / 2 : Nat) : Int))))]
  refine congrArg (· * img.get ((t + h) % (2 * h))) ?_
  simp only [sgn, if_true, one_mul, Int.toNat_of_nonneg h1]
  rw [root_mod, ← root_add]
  rw [show (t : Int) * ((i : Int) - (xA / 2 : Nat) + o + (2 * h : Nat)) =
    ((t : Int) * ((i + h - xA / 2 : Nat) : Int) + t * (o + h)) by
      rw [Nat.cast_sub (by omega)]; push_cast; ring]

example : 0 < 8 ∧ Even 8 ∧ 5 ≤ 8 := ⟨by norm_num, by decide, by norm_num⟩

/-- A loop whose iterations work on disjoint blocks of the array. -/
theorem block_loop {α : Type} (f : Arr ℂ → α → Option (Arr ℂ)) (blk : α → Nat → Prop)
    (tgt : Nat → ℂ) (orig : Nat → ℂ) (n : Nat) : ∀ (l : List α) (a : Arr ℂ), a.size = n →
    l.Pairwise (fun x y => ∀ k, blk x k → ¬ blk y k) →
    (∀ x ∈ l, ∀ k, blk x k → a.get k = orig k) →
    (∀ x ∈ l, ∀ s : Arr ℂ, s.size = n → (∀ k, blk x k → s.get k = orig k) →
      ∃ s', f s x = some s' ∧ s'.size = n ∧ (∀ k, blk x k → s'.get k = tgt k) ∧
        ∀ k, ¬ blk x k → s'.get k = s.get k) →
    ∃ r, loop f a l = some r ∧ r.size = n ∧ (∀ x ∈ l, ∀ k, blk x k → r.get k = tgt k) ∧
      ∀ k, (∀ x ∈ l, ¬ blk x k) → r.get k = a.get k := by
  intro l
  induction l with
  | nil => intro a hn _ _ _; exact ⟨a, rfl, hn, by simp, fun _ _ => rfl⟩
  | cons x l ih =>
    intro a hn hp ho hf
    rw [List.pairwise_cons] at hp
    obtain ⟨s, hs, hss, hsv, hsu⟩ := hf x (by simp) a hn (ho x (by simp))
    obtain ⟨r, hr, hrs, hrv, hru⟩ := ih s hss hp.2
      (fun y hy k hk => by rw [hsu k fun hh => hp.1 y hy k hh hk]; exact ho y (by simp [hy]) k hk)
      (fun y hy => hf y (by simp [hy]))
    refine ⟨r, by simp only [loop, hs, Option.bind_some, hr], hrs, ?_, ?_⟩
    · intro y hy k hk
      rcases List.mem_cons.1 hy with rfl | hy
      · rw [hru k fun z hz hh => hp.1 z hz k hk hh, hsv k hk]
      · exact hrv y hy k hk
    · intro k hk
      rw [hru k fun z hz => hk z (by simp [hz]), hsu k (hk x (by simp))]

/-- A loop carrying a phasor multiplied by `step` each time. -/
theorem phasor_loop {σ : Type} (g : ℂ → σ → Nat → Option σ) (step : ℂ) (p0 : ℂ) (a : σ) (n : Nat) :
    (loop (fun (st : ℂ × σ) (i : Nat) => (g st.1 st.2 i).map fun a => (st.1 * step, a)) (p0, a)
      (List.range n)) =
    (loop (fun (a : σ) (i : Nat) => g (p0 * step ^ i) a i) a (List.range n)).map
      fun r => (p0 * step ^ n, r) := by
  induction n with
  | zero => simp [loop]
  | succ n ih =>
    rw [List.range_succ, loop_append, ih, loop_append]
    cases loop (fun (a : σ) (i : Nat) => g (p0 * step ^ i) a i) a (List.range n) with
    | none => rfl
    | some r =>
      simp only [Option.map_some, Option.bind_some, loop]
      cases g (p0 * step ^ n) r n with
      | none => rfl
      | some r' => simp [pow_succ, mul_assoc]

theorem ix_nat (M i j : Nat) : ix ((M : Int), 1) i j = ((M * i + j : Nat) : Int) := by
  unfold ix; push_cast; ring

theorem nest2_pairwise (a b : Nat) : (nest2 a b).Pairwise (· ≠ ·) := nest2_nodup a b

/-- The four places one iteration of the quadrant loops touches. -/
def quad (h : Nat) (p : Nat × Nat) (k : Nat) : Prop :=
  k = 2 * h * p.1 + p.2 ∨ k = 2 * h * (p.1 + h) + (p.2 + h) ∨ k = 2 * h * (p.1 + h) + p.2 ∨
    k = 2 * h * p.1 + (p.2 + h)

theorem quad_disjoint (h : Nat) :
    (nest2 h h).Pairwise (fun x y => ∀ k, quad h x k → ¬ quad h y k) := by
  refine List.Pairwise.imp_of_mem ?_ (nest2_pairwise h h)
  intro x y hx hy hne k h1 h2
  rw [mem_nest2] at hx hy
  apply hne
  have key : ∀ (i j i' j' : Nat), j < 2 * h → j' < 2 * h → k = 2 * h * i + j → k = 2 * h * i' + j' →
      i = i' ∧ j = j' := fun i j i' j' hj hj' e e' => flat_inj hj hj' (e.symm.trans e')
  unfold quad at h1 h2
  rcases h1 with h1 | h1 | h1 | h1 <;> rcases h2 with h2 | h2 | h2 | h2 <;>
    (have := key _ _ _ _ (by omega) (by omega) h1 h2
     exact Prod.ext (by omega) (by omega))

/-- Generic form of the two quadrant loops. -/
def quadBody (h : Nat) (c0 c1 c2 c3 : ℂ) (a : Arr ℂ) (p : Nat × Nat) : Option (Arr ℂ) :=
  (a.read (ix (((2 * h : Nat) : Int), 1) p.1 p.2)).bind fun t =>
  (a.read (ix (((2 * h : Nat) : Int), 1) (p.1 + h) (p.2 + h))).bind fun v =>
  (a.write (ix (((2 * h : Nat) : Int), 1) p.1 p.2) (c0 * v)).bind fun a =>
  (a.write (ix (((2 * h : Nat) : Int), 1) (p.1 + h) (p.2 + h)) (c1 * t)).bind fun a =>
  (a.read (ix (((2 * h : Nat) : Int), 1) (p.1 + h) p.2)).bind fun t2 =>
  (a.read (ix (((2 * h : Nat) : Int), 1) p.1 (p.2 + h))).bind fun v2 =>
  (a.write (ix (((2 * h : Nat) : Int), 1) (p.1 + h) p.2) (c2 * v2)).bind fun a =>
  a.write (ix (((2 * h : Nat) : Int), 1) p.1 (p.2 + h)) (c3 * t2)

theorem quadBody_spec (h : Nat) (c0 c1 c2 c3 : ℂ) (a s : Arr ℂ) (p : Nat × Nat) (h1 : p.1 < h)
    (h2 : p.2 < h) (hs : s.size = 2 * h * (2 * h)) (hq : ∀ k, quad h p k → s.get k = a.get k) :
    ∃ s', quadBody h c0 c1 c2 c3 s p = some s' ∧ s'.size = 2 * h * (2 * h) ∧
      s'.get (2 * h * p.1 + p.2) = c0 * a.get (2 * h * (p.1 + h) + (p.2 + h)) ∧
      s'.get (2 * h * (p.1 + h) + (p.2 + h)) = c1 * a.get (2 * h * p.1 + p.2) ∧
      s'.get (2 * h * (p.1 + h) + p.2) = c2 * a.get (2 * h * p.1 + (p.2 + h)) ∧
      s'.get (2 * h * p.1 + (p.2 + h)) = c3 * a.get (2 * h * (p.1 + h) + p.2) ∧
      ∀ k, ¬ quad h p k → s'.get k = s.get k := by
  have b0 : 2 * h * p.1 + p.2 < 2 * h * (2 * h) := flat_lt (by omega) (by omega)
  have b1 : 2 * h * (p.1 + h) + (p.2 + h) < 2 * h * (2 * h) := flat_lt (by omega) (by omega)
  have b2 : 2 * h * (p.1 + h) + p.2 < 2 * h * (2 * h) := flat_lt (by omega) (by omega)
  have b3 : 2 * h * p.1 + (p.2 + h) < 2 * h * (2 * h) := flat_lt (by omega) (by omega)
  have g0 := hq _ (Or.inl rfl)
  have g1 := hq _ (Or.inr (Or.inl rfl))
  have g2 := hq _ (Or.inr (Or.inr (Or.inl rfl)))
  have g3 := hq _ (Or.inr (Or.inr (Or.inr rfl)))
  have hmul : 2 * h * (p.1 + h) = 2 * h * p.1 + 2 * h * h := by ring
  have hhh : h ≤ 2 * h * h := by nlinarith
  have hh0 : 0 < h := by omega
  have hhh2 : 2 * h ≤ 2 * h * h := by nlinarith
  generalize e0 : 2 * h * p.1 + p.2 = k0 at *
  generalize e1 : 2 * h * (p.1 + h) + (p.2 + h) = k1 at *
  generalize e2 : 2 * h * (p.1 + h) + p.2 = k2 at *
  generalize e3 : 2 * h * p.1 + (p.2 + h) = k3 at *
  have n01 : k0 ≠ k1 := by omega
  have n02 : k0 ≠ k2 := by omega
  have n03 : k0 ≠ k3 := by omega
  have n12 : k1 ≠ k2 := by omega
  have n13 : k1 ≠ k3 := by omega
  have n23 : k2 ≠ k3 := by omega
  refine ⟨(((s.put k0 (c0 * a.get k1)).put k1 (c1 * a.get k0)).put k2 (c2 * a.get k3)).put k3
    (c3 * a.get k2), ?_, by simpa using hs, ?_, ?_, ?_, ?_, ?_⟩
  · unfold quadBody
    simp only [ix_nat, e0, e1, e2, e3, Arr.read_nat, Arr.write_nat, Arr.put_size, hs, b0, b1, b2, b3,
      if_true, Option.bind_some, Arr.put_get, g0, g1, if_neg n02.symm, if_neg n12.symm,
      if_neg n03.symm, if_neg n13.symm, g2, g3]
  · simp only [Arr.put_get, if_neg n03, if_neg n02, if_neg n01, if_true]
  · simp only [Arr.put_get, if_neg n13, if_neg n12, if_true]
  · simp only [Arr.put_get, if_neg n23, if_true]
  · simp only [Arr.put_get, if_true]
  · intro k hk
    unfold quad at hk
    push Not at hk
    obtain ⟨q0, q1, q2, q3⟩ := hk
    rw [e0] at q0; rw [e1] at q1; rw [e2] at q2; rw [e3] at q3
    simp only [Arr.put_get, if_neg q0, if_neg q1, if_neg q2, if_neg q3]

/-- The quadrant loops: element `(i, j)` comes from the opposite quadrant, times a factor. -/
theorem quad_loop (h : Nat) (u v : Nat → ℂ) (c0 c1 c2 c3 : Nat × Nat → ℂ)
    (hc0 : ∀ i < h, ∀ j < h, c0 (i, j) = u i * v j)
    (hc1 : ∀ i < h, ∀ j < h, c1 (i, j) = u (i + h) * v (j + h))
    (hc2 : ∀ i < h, ∀ j < h, c2 (i, j) = u (i + h) * v j)
    (hc3 : ∀ i < h, ∀ j < h, c3 (i, j) = u i * v (j + h))
    (a : Arr ℂ) (ha : a.size = 2 * h * (2 * h)) :
    ∃ r, loop (fun a p => quadBody h (c0 p) (c1 p) (c2 p) (c3 p) a p) a (nest2 h h) = some r ∧
      r.size = 2 * h * (2 * h) ∧
      ∀ i < 2 * h, ∀ j < 2 * h, r.get (2 * h * i + j) =
        u i * v j * a.get (2 * h * ((i + h) % (2 * h)) + (j + h) % (2 * h)) := by
  let tgt : Nat → ℂ := fun k => u (k / (2 * h)) * v (k % (2 * h)) *
    a.get (2 * h * ((k / (2 * h) + h) % (2 * h)) + (k % (2 * h) + h) % (2 * h))
  have htgt : ∀ i j, j < 2 * h → tgt (2 * h * i + j) =
      u i * v j * a.get (2 * h * ((i + h) % (2 * h)) + (j + h) % (2 * h)) := by
    intro i j hj
    have d1 : (2 * h * i + j) / (2 * h) = i := by
      rw [Nat.mul_add_div (by omega), Nat.div_eq_of_lt hj]; rfl
    have d2 : (2 * h * i + j) % (2 * h) = j := by
      rw [Nat.mul_add_mod, Nat.mod_eq_of_lt hj]
    simp only [tgt, d1, d2]
  have m1 : ∀ x < h, (x + h) % (2 * h) = x + h := fun x hx => Nat.mod_eq_of_lt (by omega)
  have m2 : ∀ x < h, (x + h + h) % (2 * h) = x := fun x hx => by
    rw [show x + h + h = x + 2 * h by omega, Nat.add_mod_right, Nat.mod_eq_of_lt (by omega)]
  obtain ⟨r, hr, hrs, hrv, _⟩ := block_loop
    (fun a p => quadBody h (c0 p) (c1 p) (c2 p) (c3 p) a p) (quad h) tgt a.get (2 * h * (2 * h))
    (nest2 h h) a ha (quad_disjoint h) (fun _ _ _ _ => rfl) (by
      rintro ⟨i, j⟩ hp s hs hq
      rw [mem_nest2] at hp
      obtain ⟨s', e, es, v0, v1, v2, v3, vu⟩ := quadBody_spec h (c0 (i, j)) (c1 (i, j)) (c2 (i, j))
        (c3 (i, j)) a s (i, j) hp.1 hp.2 hs hq
      refine ⟨s', e, es, ?_, vu⟩
      simp only at v0 v1 v2 v3 hp
      intro k hk
      rcases hk with rfl | rfl | rfl | rfl
      · rw [v0, htgt _ _ (by simp only; omega), hc0 i hp.1 j hp.2, m1 i hp.1, m1 j hp.2]
      · rw [v1, htgt _ _ (by simp only; omega), hc1 i hp.1 j hp.2, m2 i hp.1, m2 j hp.2]
      · rw [v2, htgt _ _ (by simp only; omega), hc2 i hp.1 j hp.2, m2 i hp.1, m1 j hp.2]
      · rw [v3, htgt _ _ (by simp only; omega), hc3 i hp.1 j hp.2, m1 i hp.1, m2 j hp.2])
  refine ⟨r, hr, hrs, fun i hi j hj => ?_⟩
  rw [← htgt i j hj]
  by_cases hi' : i < h <;> by_cases hj' : j < h
  · exact hrv (i, j) (mem_nest2.2 ⟨hi', hj'⟩) _ (Or.inl rfl)
  · refine hrv (i, j - h) (mem_nest2.2 ⟨hi', by simp only; omega⟩) _ (Or.inr (Or.inr (Or.inr ?_)))
    simp only; rw [Nat.sub_add_cancel (by omega)]
  · refine hrv (i - h, j) (mem_nest2.2 ⟨by simp only; omega, hj'⟩) _ (Or.inr (Or.inr (Or.inl ?_)))
    simp only; rw [Nat.sub_add_cancel (by omega)]
  · refine hrv (i - h, j - h) (mem_nest2.2 ⟨by simp only; omega, by simp only; omega⟩) _
      (Or.inr (Or.inl ?_))
    simp only; rw [Nat.sub_add_cancel (by omega), Nat.sub_add_cancel (by omega)]

theorem fft2_spec (inv : Bool) (M : Nat) (scale : ℂ) (src dst : Arr ℂ) (h1 : src.size = M * M)
    (h2 : dst.size = M * M) :
    ∃ r, fft2 inv M scale ((M : Int), 1) ((M : Int), 1) src dst = some r ∧ r.size = M * M ∧
      ∀ i < M, ∀ j < M, r.get (M * i + j) =
        scale * dft2 inv M M (fun s t => src.get (M * s + t)) i j := by
  unfold fft2
  have hb : ∀ i < M, ∀ j < M, M * i + j < M * M := fun i hi j hj => flat_lt hi hj
  rw [if_pos (by intro i hi j hj; rw [ix_nat]; have := hb i hi j hj; omega)]
  simp only [ix_nat, Int.toNat_natCast]
  obtain ⟨r, hr, hrs, hrv, _⟩ := Arr.store_spec (nest2 M M)
    (fun p => ((M * p.1 + p.2 : Nat) : Int))
    (fun p => scale * dft2 inv M M (fun s t => src.get (M * s + t)) p.1 p.2)
    (by
      refine List.Nodup.map_on ?_ (nest2_nodup M M)
      intro x hx y hy e
      rw [mem_nest2] at hx hy
      have := flat_inj hx.2 hy.2 (by exact_mod_cast e)
      exact Prod.ext this.1 this.2) dst
    (by intro x hx; rw [mem_nest2] at hx; have := hb _ hx.1 _ hx.2; omega)
  refine ⟨r, hr, by omega, fun i hi j hj => ?_⟩
  have := hrv (i, j) (mem_nest2.2 ⟨hi, hj⟩)
  rw [Int.toNat_natCast] at this
  exact this

theorem swapQuads_spec (h : Nat) (a : Arr ℂ) (ha : a.size = 2 * h * (2 * h)) :
    ∃ r, swapQuads (2 * h) (((2 * h : Nat) : Int), 1) a = some r ∧ r.size = 2 * h * (2 * h) ∧
      ∀ i < 2 * h, ∀ j < 2 * h, r.get (2 * h * i + j) =
        a.get (2 * h * ((i + h) % (2 * h)) + (j + h) % (2 * h)) := by
  obtain ⟨r, hr, hrs, hrv⟩ := quad_loop h (fun _ => 1) (fun _ => 1) (fun _ => 1) (fun _ => 1)
    (fun _ => 1) (fun _ => 1) (by simp) (by simp) (by simp) (by simp) a ha
  refine ⟨r, ?_, hrs, fun i hi j hj => by rw [hrv i hi j hj]; ring⟩
  rw [← hr]
  unfold swapQuads quadBody
  rw [show 2 * h / 2 = h by omega]
  simp only [one_mul]

/-- The copy back: element `(i, j)` is read at both positions shifted. -/
theorem copyShifted2d_spec (h : Nat) (hh : 0 < h) (o0 o1 : Int) (tmp sg : Arr ℂ)
    (ht : tmp.size = 2 * h * (2 * h)) (hs : sg.size = 2 * h * (2 * h)) :
    ∃ r, copyShifted2d (2 * h) (((2 * h : Nat) : Int), 1) o0 o1 tmp sg = some r ∧
      r.size = 2 * h * (2 * h) ∧
      ∀ i < 2 * h, ∀ j < 2 * h, r.get (2 * h * i + j) =
        tmp.get (2 * h * ((i + o0 + h) % (2 * h : Nat)).toNat + ((j + o1 + h) % (2 * h : Nat)).toNat) := by
  unfold copyShifted2d
  rw [show 2 * h / 2 = h by omega]
  have hpos : (0 : Int) < ((2 * h : Nat) : Int) := by omega
  have hb : ∀ i < 2 * h, ∀ j < 2 * h, 2 * h * i + j < 2 * h * (2 * h) := fun i hi j hj => flat_lt hi hj
  simp only
  rw [loop_congr _ (fun (sg : Arr ℂ) (p : Nat × Nat) => sg.write ((2 * h * p.1 + p.2 : Nat) : Int)
    (tmp.get (2 * h * ((p.1 + o0 + h) % (2 * h : Nat)).toNat + ((p.2 + o1 + h) % (2 * h : Nat)).toNat)))]
  · obtain ⟨r, hr, hrs, hrv, _⟩ := Arr.store_spec (nest2 (2 * h) (2 * h))
      (fun p => ((2 * h * p.1 + p.2 : Nat) : Int))
      (fun p => tmp.get (2 * h * ((p.1 + o0 + h) % (2 * h : Nat)).toNat +
        ((p.2 + o1 + h) % (2 * h : Nat)).toNat))
      (by
        refine List.Nodup.map_on ?_ (nest2_nodup _ _)
        intro x hx y hy e
        rw [mem_nest2] at hx hy
        have := flat_inj hx.2 hy.2 (by exact_mod_cast e)
        exact Prod.ext this.1 this.2) sg
      (by intro x hx; rw [mem_nest2] at hx; have := hb _ hx.1 _ hx.2; omega)
    refine ⟨r, hr, by omega, fun i hi j hj => ?_⟩
    have := hrv (i, j) (mem_nest2.2 ⟨hi, hj⟩)
    rw [Int.toNat_natCast] at this
    exact this
  · rintro ⟨i, j⟩ hp s
    rw [mem_nest2] at hp
    simp only at hp ⊢
    rw [modP_eq _ hpos, modP_eq _ hpos, ix_nat]
    have hw := wrap hpos (o1 + h) j (by omega) (by omega)
    have hw' : (if (j : Int) < ((2 * h : Nat) : Int) - (o1 + h) % ((2 * h : Nat) : Int)
        then (j : Int) + (o1 + h) % ((2 * h : Nat) : Int)
        else (j : Int) + (o1 + h) % ((2 * h : Nat) : Int) - ((2 * h : Nat) : Int)) =
        (j + o1 + h) % ((2 * h : Nat) : Int) := by
      rw [hw]; congr 1; ring
    rw [hw']
    have h1 := Int.emod_nonneg ((i : Int) + o0 + h) (b := ((2 * h : Nat) : Int)) (by omega)
    have h2 := Int.emod_lt_of_pos ((i : Int) + o0 + h) hpos
    have h3 := Int.emod_nonneg ((j : Int) + o1 + h) (b := ((2 * h : Nat) : Int)) (by omega)
    have h4 := Int.emod_lt_of_pos ((j : Int) + o1 + h) hpos
    have h5 := hb ((i + o0 + h) % (2 * h : Nat)).toNat (by omega) ((j + o1 + h) % (2 * h : Nat)).toNat
      (by omega)
    generalize ((i : Int) + o0 + h) % ((2 * h : Nat) : Int) = A at *
    generalize ((j : Int) + o1 + h) % ((2 * h : Nat) : Int) = B at *
    have e : A * ((2 * h : Nat) : Int) + B = ((2 * h * A.toNat + B.toNat : Nat) : Int) := by
      have hA := Int.toNat_of_nonneg h1
      have hB := Int.toNat_of_nonneg h3
      push_cast
      rw [hA, hB]; ring
    rw [e, Arr.read_nat, if_pos (by rw [ht]; exact h5)]
    rfl

theorem dft2_shift (M : Nat) (hM : 0 < M) (s0 s1 : Int) (y : Nat → Nat → ℂ) (i j : Nat) :
    dft2 true M M y ((i + s0) % M).toNat ((j + s1) % M).toNat =
      dft2 true M M (fun t0 t1 => root M (t0 * s0) * root M (t1 * s1) * y t0 t1) i j := by
  have h1 := Int.emod_nonneg ((i : Int) + s0) (b := (M : Int)) (by omega)
  have h2 := Int.emod_nonneg ((j : Int) + s1) (b := (M : Int)) (by omega)
  unfold dft2
  refine Finset.sum_congr rfl fun t0 _ => Finset.sum_congr rfl fun t1 _ => ?_
  simp only [sgn, if_true, one_mul, Int.toNat_of_nonneg h1, Int.toNat_of_nonneg h2]
  rw [root_mod, root_mod, mul_add, mul_add, root_add, root_add]
  ring

/-- What finishing in two dimensions computes. -/
theorem finishSubgrid2d_spec (h : Nat) (hh : 0 < h) (o0 o1 : Int) (sg : Arr ℂ)
    (hs : sg.size = 2 * h * (2 * h)) :
    ∃ r, finishSubgrid2d (2 * h) (((2 * h : Nat) : Int), 1) o0 o1 sg = some r ∧
      r.size = 2 * h * (2 * h) ∧
      ∀ i < 2 * h, ∀ j < 2 * h, r.get (2 * h * i + j) =
        1 / ((2 * h : Nat) : ℂ) / ((2 * h : Nat) : ℂ) *
        dft2 true (2 * h) (2 * h) (fun t0 t1 => root (2 * h) (t0 * (o0 + h)) *
          root (2 * h) (t1 * (o1 + h)) *
          sg.get (2 * h * ((t0 + h) % (2 * h)) + (t1 + h) % (2 * h))) i j := by
  obtain ⟨y, hy, hys, hyv⟩ := swapQuads_spec h sg hs
  obtain ⟨t, ht, hts, htv⟩ := fft2_spec true (2 * h) (1 / ((2 * h : Nat) : ℂ) / ((2 * h : Nat) : ℂ)) y
    ⟨2 * h * (2 * h), fun _ => 0⟩ hys rfl
  obtain ⟨r, hr, hrs, hrv⟩ := copyShifted2d_spec h hh o0 o1 t y hts hys
  refine ⟨r, ?_, hrs, fun i hi j hj => ?_⟩
  · unfold finishSubgrid2d
    rw [hy, Option.bind_some, ht, Option.bind_some, hr]
  · have hpos : (0 : Int) < ((2 * h : Nat) : Int) := by omega
    have h1 := Int.emod_nonneg ((i : Int) + o0 + h) (b := ((2 * h : Nat) : Int)) (by omega)
    have h2 := Int.emod_lt_of_pos ((i : Int) + o0 + h) hpos
    have h3 := Int.emod_nonneg ((j : Int) + o1 + h) (b := ((2 * h : Nat) : Int)) (by omega)
    have h4 := Int.emod_lt_of_pos ((j : Int) + o1 + h) hpos
    rw [hrv i hi j hj, htv _ (by omega) _ (by omega)]
    congr 1
    rw [add_assoc, add_assoc, dft2_shift (2 * h) (by omega)]
    exact dft2_congr true _ _ (fun a ha b hb => by rw [hyv a ha b hb]) i j

theorem rampRow_eq (h : Nat) (step1 step02 step12 : ℂ) (i0 : Nat) (p0 : ℂ) (a : Arr ℂ) :
    rampRow (2 * h) (((2 * h : Nat) : Int), 1) step1 step02 step12 i0 p0 a =
      loop (fun (a : Arr ℂ) (i1 : Nat) => quadBody h (p0 * step1 ^ i1)
        (p0 * step1 ^ i1 * step02 * step12) (p0 * step1 ^ i1 * step02) (p0 * step1 ^ i1 * step12) a
        (i0, i1)) a (List.range h) := by
  unfold rampRow
  rw [show 2 * h / 2 = h by omega]
  have := phasor_loop (fun ph (a : Arr ℂ) (i1 : Nat) => quadBody h ph (ph * step02 * step12)
    (ph * step02) (ph * step12) a (i0, i1)) step1 p0 a h
  have e := congrArg (Option.map Prod.snd) this
  rw [Option.map_map] at e
  simp only [Function.comp_def, Option.map_id'] at e
  exact e

/-- What preparing in two dimensions computes. -/
theorem prepareSubgrid2d_spec (h : Nat) (hh : 0 < h) (o0 o1 : Int) (sg : Arr ℂ)
    (hs : sg.size = 2 * h * (2 * h)) :
    ∃ r, prepareSubgrid2d (2 * h) (((2 * h : Nat) : Int), 1) o0 o1 sg = some r ∧
      r.size = 2 * h * (2 * h) ∧
      ∀ i < 2 * h, ∀ j < 2 * h, r.get (2 * h * i + j) =
        root (2 * h) (-((o0 + h) * i)) * root (2 * h) (-((o1 + h) * j)) *
        dft2 false (2 * h) (2 * h) (fun s t => sg.get (2 * h * s + t)) ((i + h) % (2 * h))
          ((j + h) % (2 * h)) := by
  obtain ⟨x, hx, hxs, hxv⟩ := fft2_spec false (2 * h) 1 sg sg hs hs
  have hn : ((2 * h : Nat) : ℝ) ≠ 0 := by positivity
  have c1 : ∀ o : Int, (⟨Real.cos (-2 * Real.pi * ((o + (2 * h / 2 : Nat) : Int) : ℝ) / (2 * h : Nat)),
      Real.sin (-2 * Real.pi * ((o + (2 * h / 2 : Nat) : Int) : ℝ) / (2 * h : Nat))⟩ : ℂ) =
      root (2 * h) (-(o + h)) := fun o =>
    cosSin_root (2 * h) (-(o + h)) _ (by rw [show 2 * h / 2 = h by omega]; push_cast; ring)
  have c2 : ∀ o : Int, (⟨Real.cos (-Real.pi * ((o + (2 * h / 2 : Nat) : Int) : ℝ)),
      Real.sin (-Real.pi * ((o + (2 * h / 2 : Nat) : Int) : ℝ))⟩ : ℂ) =
      root (2 * h) (-((o + h) * h)) := fun o =>
    cosSin_root (2 * h) (-((o + h) * h)) _ (by
      rw [show 2 * h / 2 = h by omega]; field_simp; push_cast; ring)
  unfold prepareSubgrid2d
  simp only [c1, c2]
  rw [hx, Option.bind_some]
  -- the two phasors
  have hu : ∀ (o : Int) (i : Nat), root (2 * h) (-((o + h) * i)) = root (2 * h) (-(o + h)) ^ i := by
    intro o i; rw [root_pow]; congr 1; ring
  have hu2 : ∀ (o : Int) (i : Nat), root (2 * h) (-((o + h) * ((i + h : Nat) : Int))) =
      root (2 * h) (-(o + h)) ^ i * root (2 * h) (-((o + h) * h)) := by
    intro o i; rw [root_pow, ← root_add]; congr 1; push_cast; ring
  obtain ⟨r, hr, hrs, hrv⟩ := quad_loop h (fun i => root (2 * h) (-((o0 + h) * i)))
    (fun j => root (2 * h) (-((o1 + h) * j)))
    (fun p => root (2 * h) (-(o0 + h)) ^ p.1 * root (2 * h) (-(o1 + h)) ^ p.2)
    (fun p => root (2 * h) (-(o0 + h)) ^ p.1 * root (2 * h) (-(o1 + h)) ^ p.2 *
      root (2 * h) (-((o0 + h) * h)) * root (2 * h) (-((o1 + h) * h)))
    (fun p => root (2 * h) (-(o0 + h)) ^ p.1 * root (2 * h) (-(o1 + h)) ^ p.2 *
      root (2 * h) (-((o0 + h) * h)))
    (fun p => root (2 * h) (-(o0 + h)) ^ p.1 * root (2 * h) (-(o1 + h)) ^ p.2 *
      root (2 * h) (-((o1 + h) * h)))
    (by intro i _ j _; simp only [hu])
    (by intro i _ j _; simp only [hu2]; ring)
    (by intro i _ j _; simp only [hu]; ring)
    (by intro i _ j _; simp only [hu]; ring) x hxs
  refine ⟨r, ?_, hrs, fun i hi j hj => ?_⟩
  · rw [← hr]
    unfold ramp2d
    rw [show 2 * h / 2 = h by omega, phasor_loop (fun ph (a : Arr ℂ) (i0 : Nat) =>
      rampRow (2 * h) (((2 * h : Nat) : Int), 1) (root (2 * h) (-(o1 + h)))
        (root (2 * h) (-((o0 + h) * h))) (root (2 * h) (-((o1 + h) * h))) i0 ph a)]
    rw [Option.map_map]
    simp only [Function.comp_def, Option.map_id']
    unfold nest2
    rw [loop_flatMap]
    refine loop_congr _ _ _ _ fun i0 _ s => ?_
    rw [rampRow_eq, loop_map]
    simp only [one_mul]
  · rw [hrv i hi j hj, hxv _ (Nat.mod_lt _ (by omega)) _ (Nat.mod_lt _ (by omega)), one_mul]

theorem dft2_linear (inv : Bool) (n m : Nat) (a : ℂ) (x : Nat → Nat → ℂ) (k l : Nat) :
    dft2 inv n m (fun i j => a * x i j) k l = a * dft2 inv n m x k l := by
  unfold dft2; rw [Finset.mul_sum]
  refine Finset.sum_congr rfl fun _ _ => ?_
  rw [Finset.mul_sum]
  exact Finset.sum_congr rfl fun _ _ => by ring

/-- C33 / C61: the two-dimensional functions undo each other up to the sign
`(-1)^(offset0 + M/2) (-1)^(offset1 + M/2)`, on contiguous subgrids. -/
theorem C61_prepare_finish_2d_partial (M : Nat) (hM : 0 < M) (he : Even M) (o0 o1 : Int) (sg : Arr ℂ)
    (hs : sg.size = M * M) :
    ∃ f r, finishSubgrid2d M (M, 1) o0 o1 sg = some f ∧ prepareSubgrid2d M (M, 1) o0 o1 f = some r ∧
      r.size = M * M ∧ ∀ i < M, ∀ j < M, r.get (M * i + j) =
        (-1) ^ (o0 + (M / 2 : Nat) : Int) * (-1) ^ (o1 + (M / 2 : Nat) : Int) * sg.get (M * i + j) := by
  obtain ⟨h, rfl⟩ := even_iff_two_dvd.1 he
  have hh : 0 < h := by omega
  obtain ⟨f, hf, hfs, hfv⟩ := finishSubgrid2d_spec h hh o0 o1 sg hs
  obtain ⟨r, hr, hrs, hrv⟩ := prepareSubgrid2d_spec h hh o0 o1 f hfs
  refine ⟨f, r, hf, hr, hrs, fun i hi j hj => ?_⟩
  have hli : (i + h) % (2 * h) < 2 * h := Nat.mod_lt _ (by omega)
  have hlj : (j + h) % (2 * h) < 2 * h := Nat.mod_lt _ (by omega)
  rw [hrv i hi j hj, dft2_congr false (2 * h) (2 * h) hfv, dft2_linear]
  have := dft2_dft2 true (2 * h) (2 * h) (fun t0 t1 => root (2 * h) (t0 * (o0 + h)) *
          root (2 * h) (t1 * (o1 + h)) *
          sg.get (2 * h * ((t0 + h) % (2 * h)) + (t1 + h) % (2 * h)))
    ((i + h) % (2 * h)) ((j + h) % (2 * h)) hli hlj
  simp only [Bool.not_true] at this
  rw [this]
  have hn : ((2 * h : Nat) : ℂ) ≠ 0 := by
    have : (2 * h : Nat) ≠ 0 := by omega
    exact_mod_cast this
  have key : ∀ (o : Int) (i : Nat), root (2 * h) (-((o + h) * i)) *
      root (2 * h) ((((i + h) % (2 * h) : Nat) : Int) * (o + h)) = (-1) ^ (o + h : Int) := by
    intro o i
    rw [show ((((i + h) % (2 * h) : Nat) : Int) * (o + h)) =
      (o + h) * (((i + h : Nat) : Int) % ((2 * h : Nat) : Int)) by push_cast; ring, root_mod,
      ← root_add, show -((o + h) * i) + (o + h) * ((i + h : Nat) : Int) = (o + h) * h by
        push_cast; ring, root_half_turn h hh]
  have back : ∀ i < 2 * h, ((i + h) % (2 * h) + h) % (2 * h) = i := by
    intro i hi
    rw [Nat.mod_add_mod, show i + h + h = i + 2 * h by omega, Nat.add_mod_right, Nat.mod_eq_of_lt hi]
  rw [back i hi, back j hj, show 2 * h / 2 = h by omega, ← key o0 i, ← key o1 j]
  field_simp

/-- C61 is violated for subgrids that are not contiguous: with a row stride larger than `M`
(which the checks accept) the transform writes past the end of the temporary. -/
theorem C61_strided_false (M : Nat) (hM : 2 ≤ M) (s0 : Int) (hs0 : (M : Int) < s0) (o0 o1 : Int)
    (sg : Arr ℂ) : finishSubgrid2d M (s0, 1) o0 o1 sg = none := by
  unfold finishSubgrid2d
  cases swapQuads M (s0, 1) sg with
  | none => rfl
  | some y =>
    rw [Option.bind_some]
    have : fft2 true M (1 / (M : ℂ) / M) (s0, 1) (s0, 1) y ⟨M * M, fun _ => 0⟩ = none := by
      unfold fft2
      split
      · refine loop_none (fun s => s.size = M * M) _ ?_ (M - 1, M - 1) ?_ _ _ rfl
          (mem_nest2.2 ⟨by simp only; omega, by simp only; omega⟩)
        · intro s x s' hs he
          obtain ⟨_, _, rfl⟩ := Arr.write_some he
          simpa using hs
        · intro s hs
          unfold Arr.write
          rw [if_neg]
          unfold ix
          simp only
          rw [hs, Nat.cast_sub (by omega)]
          intro hh
          have h1 : ((M : Int) - 1) * (M + 1) ≤ ((M : Int) - 1) * s0 :=
            Int.mul_le_mul_of_nonneg_left (by omega) (by omega)
          have h2 : ((M : Int) - 1) * (M + 1) = M * M - 1 := by ring
          have h3 := hh.2
          push_cast at h3
          omega
      · rfl
    rw [this]; rfl

example : 0 < 4 ∧ Even 4 ∧ (4 : Int) < 5 := ⟨by norm_num, by decide, by norm_num⟩

end
end Sdp.Swiftly
