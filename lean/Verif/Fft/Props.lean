import Verif.Fft.Exec

/-!
# C27, C28: the built-in transform is the DFT; shifted transforms
-/

namespace Sdp.Fft
noncomputable section
open Complex

/-- C27, one dimension.  For every length (power of two or not), batch size, batch order,
direction, and contents, with input, output and work buffers of `batch * nx` elements, in
place or not: the call stays inside its buffers and each batch entry of the output is the
unnormalised DFT of the same entry of the input. -/
theorem C27_fft_1d (nx batch : Nat) (order : List Nat) (ho : order.Perm (List.range batch))
    (isForward : Int) (inplace : Bool) (inp out tmp : Arr ℂ) (x : Nat → Nat → ℂ)
    (hi : inp.size = nx * batch) (hos : out.size = nx * batch) (ht : tmp.size = nx * batch)
    (hx : ∀ f < batch, ∀ i < nx, inp.get (f * nx + i) = x f i)
    (hin : inplace = true → out = inp) :
    ∃ st, exec1 nx batch order isForward inplace inp out tmp = some st ∧
      st.inp.size = nx * batch ∧
      ∀ f < batch, ∀ k < nx, st.inp.get (f * nx + k) =
        ∑ s ∈ Finset.range nx,
          cexp (2 * Real.pi * I * (((if isForward = 1 then -1 else 1) * (s * k) : Int) / nx)) *
            x f s := by
  have hc : nx * batch = batch * nx := Nat.mul_comm _ _
  have key : ∀ o : Arr ℂ, o.size = nx * batch → (∀ i < nx * batch, o.get i = inp.get i) →
      ∃ st, fft1Batch 0 nx order (!(isForward = 1)) ⟨o, tmp⟩ = some st ∧
      st.inp.size = nx * batch ∧
      ∀ f < batch, ∀ k < nx, st.inp.get (f * nx + k) = dft (!(isForward = 1)) nx (x f) k := by
    intro o hsz ho'
    obtain ⟨st, e, f1, f2, v⟩ := fft1Batch_spec 0 nx batch order ho (!(isForward = 1)) ⟨o, tmp⟩ x
      (by
        intro f hf i hi'
        have := flat_lt hf hi'
        rw [Nat.mul_comm nx f] at this
        simp only
        rw [Nat.zero_add, ho' _ (by omega)]
        exact hx f hf i hi') (by simp only; omega) (by simp only; omega)
    refine ⟨st, e, by rw [f1.1]; exact hsz, fun f hf k hk => ?_⟩
    have := v f hf k hk
    rwa [Nat.zero_add] at this
  have fin : ∀ f k, dft (!(isForward = 1)) nx (x f) k = ∑ s ∈ Finset.range nx,
      cexp (2 * Real.pi * I * (((if isForward = 1 then -1 else 1) * (s * k) : Int) / nx)) *
        x f s := by
    intro f k
    unfold dft root sgn
    by_cases h : isForward = 1 <;> simp [h]
  unfold exec1
  cases hb : inplace
  · obtain ⟨o, e1, f1, s1⟩ := copyBlock_spec out inp 0 0 (nx * batch) inp.get (by omega)
      ⟨by omega, fun i _ => by rw [Nat.zero_add]⟩
    rw [if_neg (by simp), e1]
    obtain ⟨st, h1, h2, h3⟩ := key o (by rw [f1.1, hos]) (fun i hi' => by
      have := s1.2 i hi'; rwa [Nat.zero_add] at this)
    exact ⟨st, h1, h2, fun f hf k hk => by rw [h3 f hf k hk, fin]⟩
  · rw [if_pos rfl, hin hb]
    obtain ⟨st, h1, h2, h3⟩ := key inp hi (fun _ _ => rfl)
    exact ⟨st, h1, h2, fun f hf k hk => by rw [h3 f hf k hk, fin]⟩

theorem exec2_spec (nx ny batch : Nat) (o1 o2 : List Nat) (h1 : o1.Perm (List.range ny))
    (h2 : o2.Perm (List.range nx)) (isForward : Int) (inplace : Bool) (inp out tmp : Arr ℂ)
    (x : Nat → Nat → Nat → ℂ)
    (hi : inp.size = nx * ny * batch) (hos : out.size = nx * ny * batch)
    (ht : tmp.size = nx * ny * batch)
    (hx : ∀ f < batch, ∀ i < nx, ∀ j < ny, inp.get (nx * ny * f + (i * ny + j)) = x f i j)
    (hin : inplace = true → out = inp) :
    ∃ st, exec2 nx ny batch o1 o2 isForward inplace inp out tmp = some st ∧
      st.inp.size = nx * ny * batch ∧ st.tmp.size = nx * ny * batch ∧
      ∀ f < batch, ∀ k1 < nx, ∀ k2 < ny, st.inp.get (nx * ny * f + (k1 * ny + k2)) =
        dft2 (!(isForward = 1)) nx ny (x f) k1 k2 := by
  have key : ∀ o : Arr ℂ, o.size = nx * ny * batch →
      (∀ i < nx * ny * batch, o.get i = inp.get i) →
      ∃ st, fft2Batch nx ny batch o1 o2 (!(isForward = 1)) ⟨o, tmp⟩ = some st ∧
      st.inp.size = nx * ny * batch ∧ st.tmp.size = nx * ny * batch ∧
      ∀ f < batch, ∀ k1 < nx, ∀ k2 < ny, st.inp.get (nx * ny * f + (k1 * ny + k2)) =
        dft2 (!(isForward = 1)) nx ny (x f) k1 k2 := by
    intro o hsz ho'
    obtain ⟨st, e, f1, f2, v⟩ := fft2Batch_spec nx ny batch o1 o2 h1 h2 (!(isForward = 1))
      ⟨o, tmp⟩ x (by
        intro f hf i hi' j hj
        have a := flat_lt hi' hj
        have c := flat_lt hf a
        rw [Nat.mul_comm batch, Nat.mul_comm ny i] at c
        simp only
        rw [ho' _ c]
        exact hx f hf i hi' j hj) (by simp only; omega) (by simp only; omega)
    exact ⟨st, e, by rw [f1.1]; exact hsz, by rw [f2.1]; exact ht, v⟩
  unfold exec2
  cases hb : inplace
  · obtain ⟨o, e1, f1, s1⟩ := copyBlock_spec out inp 0 0 (nx * ny * batch) inp.get (by omega)
      ⟨by omega, fun i _ => by rw [Nat.zero_add]⟩
    rw [if_neg (by simp), e1]
    exact key o (by rw [f1.1, hos]) (fun i hi' => by
      have := s1.2 i hi'; rwa [Nat.zero_add] at this)
  · rw [if_pos rfl, hin hb]
    exact key inp hi (fun _ _ => rfl)

/-- C27, two dimensions, for every pair of lengths, batch size, loop orders, direction and
contents. -/
theorem C27_fft_2d (nx ny batch : Nat) (o1 o2 : List Nat) (h1 : o1.Perm (List.range ny))
    (h2 : o2.Perm (List.range nx)) (isForward : Int) (inplace : Bool) (inp out tmp : Arr ℂ)
    (x : Nat → Nat → Nat → ℂ)
    (hi : inp.size = nx * ny * batch) (hos : out.size = nx * ny * batch)
    (ht : tmp.size = nx * ny * batch)
    (hx : ∀ f < batch, ∀ i < nx, ∀ j < ny, inp.get (nx * ny * f + (i * ny + j)) = x f i j)
    (hin : inplace = true → out = inp) :
    ∃ st, exec2 nx ny batch o1 o2 isForward inplace inp out tmp = some st ∧
      st.inp.size = nx * ny * batch ∧
      ∀ f < batch, ∀ k1 < nx, ∀ k2 < ny, st.inp.get (nx * ny * f + (k1 * ny + k2)) =
        ∑ s1 ∈ Finset.range nx, ∑ s2 ∈ Finset.range ny,
          cexp (2 * Real.pi * I * (((if isForward = 1 then -1 else 1) * (s1 * k1) : Int) / nx)) *
          cexp (2 * Real.pi * I * (((if isForward = 1 then -1 else 1) * (s2 * k2) : Int) / ny)) *
            x f s1 s2 := by
  obtain ⟨st, e, z, _, v⟩ := exec2_spec nx ny batch o1 o2 h1 h2 isForward inplace inp out tmp x
    hi hos ht hx hin
  refine ⟨st, e, z, fun f hf k1 hk1 k2 hk2 => ?_⟩
  rw [v f hf k1 hk1 k2 hk2]
  unfold dft2 root sgn
  by_cases h : isForward = 1 <;> simp [h]

/-- The hypotheses are satisfiable: two batch entries of length 3, processed backwards, out
of place. -/
example : ∃ st, exec1 3 2 [1, 0] 1 false ⟨6, fun i => (i : ℂ)⟩ ⟨6, fun _ => 0⟩ ⟨6, fun _ => 0⟩ =
    some st ∧ st.inp.get (1 * 3 + 0) = 12 := by
  obtain ⟨st, e, _, v⟩ := C27_fft_1d 3 2 [1, 0] (by decide) 1 false ⟨6, fun i => (i : ℂ)⟩
    ⟨6, fun _ => 0⟩ ⟨6, fun _ => 0⟩ (fun f i => ((f * 3 + i : Nat) : ℂ)) rfl rfl rfl
    (fun _ _ _ _ => rfl) (by simp)
  refine ⟨st, e, ?_⟩
  rw [v 1 (by omega) 0 (by omega)]
  simp [Finset.sum_range_succ]; norm_num

/-- The power-of-two branch is really taken: length 8. -/
example : bitCount 8 = (1, 4) := by
  simp [bitCount_pos, bitCount_zero]

/-- ... and length 6 takes the general branch. -/
example : (bitCount 6).1 = 2 := by
  simp [bitCount_pos, bitCount_zero]

/-! ## Shifted transforms -/

/-- The checkerboard sign. -/
theorem checker (i j : Nat) :
    ((1 - (((i + j) &&& 1) <<< 1 : Nat) : Int) : ℂ) = (-1) ^ (i + j) := by
  rcases Nat.even_or_odd (i + j) with h | h
  · rw [h.neg_one_pow, Nat.and_one_is_mod, Nat.even_iff.1 h]; simp
  · rw [h.neg_one_pow, Nat.and_one_is_mod, Nat.odd_iff.1 h]
    have e : (1 <<< 1 : Nat) = 2 := rfl
    rw [e]; norm_num

/-- A pixel-wise update in any order. -/
theorem pixel_spec (n1 n2 : Nat) (order : List (Nat × Nat)) (ho : order.Perm (nest2 n1 n2))
    (g : Nat × Nat → ℂ → ℂ) (d : Arr ℂ) (hd : d.size = n1 * n2) :
    ∃ r, loop (fun d (p : Nat × Nat) =>
        (d.read (index2 n2 p.1 p.2)).bind fun v => d.write (index2 n2 p.1 p.2) (g p v)) d order =
        some r ∧ r.size = n1 * n2 ∧
      ∀ i < n1, ∀ j < n2, r.get (i * n2 + j) = g (i, j) (d.get (i * n2 + j)) := by
  have hix : ∀ p : Nat × Nat, index2 n2 p.1 p.2 = ((p.1 * n2 + p.2 : Nat) : Int) := by
    intro p; simp [index2, Int.mul_comm]
  have hmem : ∀ p, p ∈ order ↔ p.1 < n1 ∧ p.2 < n2 := fun p => by rw [ho.mem_iff, mem_nest2]
  have hlt : ∀ i j, i < n1 → j < n2 → i * n2 + j < n1 * n2 := by
    intro i j hi hj
    have := flat_lt hi hj
    rw [Nat.mul_comm i]; exact this
  obtain ⟨r, hl, hs, hv, _⟩ := Arr.modify_spec order (fun p => index2 n2 p.1 p.2) g (by
      refine List.Nodup.map_on ?_ (ho.nodup_iff.2 (nest2_nodup n1 n2))
      rintro ⟨i, j⟩ h ⟨i', j'⟩ h' he
      rw [hmem] at h h'
      simp only [index2] at he
      have := flat_inj (i := i) (i' := i') h.2 h'.2 (by exact_mod_cast he)
      exact Prod.ext this.1 this.2) d (by
      intro p hp
      rw [hmem] at hp
      have := hlt p.1 p.2 hp.1 hp.2
      rw [hix]; omega)
  refine ⟨r, hl, by rw [hs, hd], fun i hi j hj => ?_⟩
  have := hv (i, j) ((hmem _).2 ⟨hi, hj⟩)
  have e := hix (i, j)
  simp only at this e
  rw [e, Int.toNat_natCast] at this
  exact this

theorem phase_spec (n1 n2 : Nat) (order : List (Nat × Nat)) (ho : order.Perm (nest2 n1 n2))
    (d : Arr ℂ) (hd : d.size = n1 * n2) :
    ∃ r, phase n2 order d = some r ∧ r.size = n1 * n2 ∧
      ∀ i < n1, ∀ j < n2, r.get (i * n2 + j) = d.get (i * n2 + j) * (-1) ^ (i + j) := by
  obtain ⟨r, h1, h2, h3⟩ := pixel_spec n1 n2 order ho
    (fun p v => v * ((1 - (((p.1 + p.2) &&& 1) <<< 1 : Nat) : Int) : ℂ)) d hd
  refine ⟨r, h1, h2, fun i hi j hj => ?_⟩
  rw [h3 i hi j hj]
  simp only
  rw [checker]

theorem norm_spec (n1 n2 : Nat) (order : List (Nat × Nat)) (ho : order.Perm (nest2 n1 n2))
    (d : Arr ℂ) (hd : d.size = n1 * n2) :
    ∃ r, norm n1 n2 order d = some r ∧ r.size = n1 * n2 ∧
      ∀ i < n1, ∀ j < n2, r.get (i * n2 + j) = d.get (i * n2 + j) * (1 / (n1 * n2)) :=
  pixel_spec n1 n2 order ho (fun _ v => v * (1 / (n1 * n2))) d hd

/-- C28: the checkerboard phase step is an involution. -/
theorem C28_phase_involution (n1 n2 : Nat) (order : List (Nat × Nat))
    (ho : order.Perm (nest2 n1 n2)) (d : Arr ℂ) (hd : d.size = n1 * n2) :
    ∃ r r', phase n2 order d = some r ∧ phase n2 order r = some r' ∧
      ∀ i < n1, ∀ j < n2, r'.get (i * n2 + j) = d.get (i * n2 + j) := by
  obtain ⟨r, h1, h2, h3⟩ := phase_spec n1 n2 order ho d hd
  obtain ⟨r', g1, g2, g3⟩ := phase_spec n1 n2 order ho r h2
  refine ⟨r, r', h1, g1, fun i hi j hj => ?_⟩
  rw [g3 i hi j hj, h3 i hi j hj, mul_assoc, ← mul_pow]
  simp

/-- C28: an inverse transform after a forward transform (or the other way round) multiplies
every batch entry by the number of elements. -/
theorem C28_forward_inverse (nx ny batch : Nat) (o1 o2 : List Nat)
    (h1 : o1.Perm (List.range ny)) (h2 : o2.Perm (List.range nx)) (dir : Int)
    (hdir : dir = 0 ∨ dir = 1) (inp tmp : Arr ℂ)
    (hi : inp.size = nx * ny * batch) (ht : tmp.size = nx * ny * batch) :
    ∃ st st', exec2 nx ny batch o1 o2 dir true inp inp tmp = some st ∧
      exec2 nx ny batch o1 o2 (1 - dir) true st.inp st.inp st.tmp = some st' ∧
      ∀ f < batch, ∀ i < nx, ∀ j < ny, st'.inp.get (nx * ny * f + (i * ny + j)) =
        nx * ny * inp.get (nx * ny * f + (i * ny + j)) := by
  obtain ⟨st, e, z1, z2, v⟩ := exec2_spec nx ny batch o1 o2 h1 h2 dir true inp inp tmp
    (fun f i j => inp.get (nx * ny * f + (i * ny + j))) hi hi ht (fun _ _ _ _ _ _ => rfl)
    (fun _ => rfl)
  obtain ⟨st', e', _, _, v'⟩ := exec2_spec nx ny batch o1 o2 h1 h2 (1 - dir) true st.inp st.inp
    st.tmp _ z1 z1 z2 (fun f hf i hi j hj => v f hf i hi j hj) (fun _ => rfl)
  refine ⟨st, st', e, e', fun f hf i hi j hj => ?_⟩
  rw [v' f hf i hi j hj]
  have : (!decide (1 - dir = 1)) = !(!decide (dir = 1)) := by
    rcases hdir with rfl | rfl <;> simp
  rw [this]
  exact dft2_dft2 _ nx ny _ i j hi hj

/-- C28, one dimension. -/
theorem C28_forward_inverse_1d (nx batch : Nat) (order : List Nat)
    (ho : order.Perm (List.range batch)) (inv : Bool) (st : Bufs)
    (hi : batch * nx ≤ st.inp.size) (ht : batch * nx ≤ st.tmp.size) :
    ∃ s s', fft1Batch 0 nx order inv st = some s ∧ fft1Batch 0 nx order (!inv) s = some s' ∧
      ∀ f < batch, ∀ k < nx, s'.inp.get (f * nx + k) = nx * st.inp.get (f * nx + k) := by
  obtain ⟨s, e, f1, f2, v⟩ := fft1Batch_spec 0 nx batch order ho inv st
    (fun f i => st.inp.get (0 + (f * nx + i))) (fun _ _ _ _ => rfl) (by omega) (by omega)
  obtain ⟨s', e', f1', f2', v'⟩ := fft1Batch_spec 0 nx batch order ho (!inv) s
    _ (fun f hf i hi => v f hf i hi) (by rw [f1.1]; omega) (by rw [f2.1]; omega)
  refine ⟨s, s', e, e', fun f hf k hk => ?_⟩
  have h1 := v' f hf k hk
  have h2 := dft_dft inv nx (fun i => st.inp.get (0 + (f * nx + i))) k hk
  simp only [Nat.zero_add] at h1 h2
  rw [h1, h2]

/-- Specification: the transform with both origins at the centre pixel `n / 2`. -/
def centred (inverse : Bool) (n1 n2 : Nat) (x : Nat → Nat → ℂ) (k1 k2 : Nat) : ℂ :=
  ∑ s1 ∈ Finset.range n1, ∑ s2 ∈ Finset.range n2,
    cexp (2 * Real.pi * I * (((if inverse then 1 else -1) *
      (((s1 : Int) - (n1 / 2 : Nat)) * ((k1 : Int) - (n1 / 2 : Nat))) : Int) / n1)) *
    cexp (2 * Real.pi * I * (((if inverse then 1 else -1) *
      (((s2 : Int) - (n2 / 2 : Nat)) * ((k2 : Int) - (n2 / 2 : Nat))) : Int) / n2)) *
    x s1 s2

theorem root_sgn_half (inv : Bool) {h : Nat} (hh : 0 < h) (m : Int) :
    root (2 * h) (sgn inv * (h * m)) = (-1) ^ m.natAbs := by
  have base : ∀ b : Bool, root (2 * h) (sgn b * h) = -1 := by
    intro b; cases b
    · simp only [sgn, Bool.false_eq_true, if_false]
      rw [show (-1 : Int) * h = -(h : Int) by ring, root_neg_half hh]
    · simp only [sgn, if_true]
      rw [show (1 : Int) * h = (h : Int) by ring, root_half hh]
  rcases Int.natAbs_eq m with e | e
  · conv_lhs => rw [e]
    rw [show sgn inv * (h * (m.natAbs : Int)) = m.natAbs * (sgn inv * h) by ring, ← root_pow, base]
  · conv_lhs => rw [e]
    rw [show sgn inv * (h * (-(m.natAbs : Int))) = m.natAbs * (sgn (!inv) * h) by
      rw [sgn_not]; ring, ← root_pow, base]

theorem centre_factor (inv : Bool) {h : Nat} (hh : 0 < h) (s k : Nat) :
    root (2 * h) (sgn inv * (((s : Int) - h) * ((k : Int) - h))) =
      (-1) ^ h * ((-1) ^ s * (-1) ^ k * root (2 * h) (sgn inv * (s * k))) := by
  have e : sgn inv * (((s : Int) - h) * ((k : Int) - h)) =
      sgn inv * (s * k) + sgn inv * (h * (-(s : Int))) + sgn inv * (h * (-(k : Int))) +
        sgn inv * (h * (h : Int)) := by ring
  rw [e, root_add, root_add, root_add, root_sgn_half inv hh, root_sgn_half inv hh,
    root_sgn_half inv hh]
  simp only [Int.natAbs_neg, Int.natAbs_natCast]
  ring

theorem execShift_spec (n1 n2 : Nat) (o1 o2 : List Nat) (oph : List (Nat × Nat))
    (h1 : o1.Perm (List.range n2)) (h2 : o2.Perm (List.range n1)) (hp : oph.Perm (nest2 n1 n2))
    (dir : Int) (nrm : Bool) (d tmp : Arr ℂ) (hd : d.size = n1 * n2) (ht : tmp.size = n1 * n2) :
    ∃ r t, execShift n1 n2 o1 o2 oph dir nrm d tmp = some (r, t) ∧ r.size = n1 * n2 ∧
      t.size = n1 * n2 ∧
      ∀ i < n1, ∀ j < n2, r.get (i * n2 + j) =
        dft2 (!(dir = 1)) n1 n2 (fun a b => d.get (a * n2 + b) * (-1) ^ (a + b)) i j *
          (-1) ^ (i + j) * (if nrm then 1 / ((n1 : ℂ) * (n2 : ℂ)) else (1 : ℂ)) := by
  obtain ⟨p, e1, z1, v1⟩ := phase_spec n1 n2 oph hp d hd
  obtain ⟨st, e2, z2, z3, v2⟩ := exec2_spec n1 n2 1 o1 o2 h1 h2 dir true p p tmp
    (fun _ a b => d.get (a * n2 + b) * (-1) ^ (a + b)) (by omega) (by omega) (by omega) (by
      intro f hf i hi j hj
      have : f = 0 := by omega
      subst this
      simp only [Nat.mul_zero, Nat.zero_add]
      exact v1 i hi j hj) (fun _ => rfl)
  obtain ⟨q, e3, z4, v3⟩ := phase_spec n1 n2 oph hp st.inp (by omega)
  have hv : ∀ i < n1, ∀ j < n2, q.get (i * n2 + j) =
      dft2 (!(dir = 1)) n1 n2 (fun a b => d.get (a * n2 + b) * (-1) ^ (a + b)) i j *
        (-1) ^ (i + j) := by
    intro i hi j hj
    have := v2 0 (by omega) i hi j hj
    simp only [Nat.mul_zero, Nat.zero_add] at this
    rw [v3 i hi j hj, this]
  unfold execShift
  simp only [e1, e2, e3, Option.bind_some]
  cases nrm
  · simp only [Bool.false_eq_true, if_false, Option.map_some]
    refine ⟨q, st.tmp, rfl, z4, by omega, fun i hi j hj => ?_⟩
    rw [hv i hi j hj]; ring
  · simp only [if_true]
    obtain ⟨u, e4, z5, v4⟩ := norm_spec n1 n2 oph hp q z4
    rw [e4]
    refine ⟨u, st.tmp, rfl, z5, by omega, fun i hi j hj => ?_⟩
    rw [v4 i hi j hj, hv i hi j hj]

/-- C28: the shifted transform of an array with even sides is the centred transform, up to
the sign `(-1)^(n1/2 + n2/2)`, divided by the number of elements if requested. -/
theorem C28_shift_centred (m1 m2 : Nat) (hm1 : 0 < m1) (hm2 : 0 < m2) (o1 o2 : List Nat)
    (oph : List (Nat × Nat))
    (h1 : o1.Perm (List.range (2 * m2))) (h2 : o2.Perm (List.range (2 * m1)))
    (hp : oph.Perm (nest2 (2 * m1) (2 * m2)))
    (dir : Int) (nrm : Bool) (d tmp : Arr ℂ) (hd : d.size = (2 * m1) * (2 * m2))
    (ht : tmp.size = (2 * m1) * (2 * m2)) :
    ∃ r t, execShift (2 * m1) (2 * m2) o1 o2 oph dir nrm d tmp = some (r, t) ∧
      ∀ i < 2 * m1, ∀ j < 2 * m2, r.get (i * (2 * m2) + j) =
        (-1) ^ (m1 + m2) *
          centred (!(dir = 1)) (2 * m1) (2 * m2) (fun a b => d.get (a * (2 * m2) + b)) i j *
          (if nrm then 1 / (((2 * m1 : Nat) : ℂ) * ((2 * m2 : Nat) : ℂ)) else (1 : ℂ)) := by
  obtain ⟨r, t, e, _, _, v⟩ := execShift_spec (2 * m1) (2 * m2) o1 o2 oph h1 h2 hp dir nrm d tmp
    hd ht
  refine ⟨r, t, e, fun i hi j hj => ?_⟩
  rw [v i hi j hj]
  congr 1
  generalize (!decide (dir = 1)) = inv
  have hc : ∀ s1 s2 : Nat,
      cexp (2 * Real.pi * I * (((if inv then 1 else -1) *
        (((s1 : Int) - (2 * m1 / 2 : Nat)) * ((i : Int) - (2 * m1 / 2 : Nat))) : Int) /
          (2 * m1 : Nat))) *
      cexp (2 * Real.pi * I * (((if inv then 1 else -1) *
        (((s2 : Int) - (2 * m2 / 2 : Nat)) * ((j : Int) - (2 * m2 / 2 : Nat))) : Int) /
          (2 * m2 : Nat))) =
      ((-1) ^ m1 * ((-1) ^ s1 * (-1) ^ i * root (2 * m1) (sgn inv * (s1 * i)))) *
      ((-1) ^ m2 * ((-1) ^ s2 * (-1) ^ j * root (2 * m2) (sgn inv * (s2 * j)))) := by
    intro s1 s2
    rw [← centre_factor inv hm1 s1 i, ← centre_factor inv hm2 s2 j]
    unfold root sgn
    have a1 : 2 * m1 / 2 = m1 := by omega
    have a2 : 2 * m2 / 2 = m2 := by omega
    rw [a1, a2]
  unfold centred
  simp only [hc]
  unfold dft2
  rw [Finset.sum_mul, Finset.mul_sum]
  refine Finset.sum_congr rfl fun s1 _ => ?_
  rw [Finset.sum_mul, Finset.mul_sum]
  refine Finset.sum_congr rfl fun s2 _ => ?_
  have q : ∀ m : Nat, ((-1 : ℂ) ^ m) * (-1) ^ m = 1 := by
    intro m; rw [← mul_pow]; simp
  have a1 := q m1
  have a2 := q m2
  simp only [pow_add]
  generalize root (2 * m1) (sgn inv * (s1 * i)) = R1
  generalize root (2 * m2) (sgn inv * (s2 * j)) = R2
  generalize d.get (s1 * (2 * m2) + s2) = D
  generalize (-1 : ℂ) ^ m1 = A at *
  generalize (-1 : ℂ) ^ m2 = B at *
  linear_combination (-(R1 * R2 * D * (-1) ^ s1 * (-1) ^ s2 * (-1) ^ i * (-1) ^ j)) *
    (a1 * (B * B) + a2)

/-- C28: for square arrays of even side the overall sign is 1: exactly the centred
transform. -/
theorem C28_shift_square (m : Nat) (hm : 0 < m) (o1 o2 : List Nat)
    (oph : List (Nat × Nat))
    (h1 : o1.Perm (List.range (2 * m))) (h2 : o2.Perm (List.range (2 * m)))
    (hp : oph.Perm (nest2 (2 * m) (2 * m)))
    (dir : Int) (d tmp : Arr ℂ) (hd : d.size = (2 * m) * (2 * m))
    (ht : tmp.size = (2 * m) * (2 * m)) :
    ∃ r t, execShift (2 * m) (2 * m) o1 o2 oph dir false d tmp = some (r, t) ∧
      ∀ i < 2 * m, ∀ j < 2 * m, r.get (i * (2 * m) + j) =
        centred (!(dir = 1)) (2 * m) (2 * m) (fun a b => d.get (a * (2 * m) + b)) i j := by
  obtain ⟨r, t, e, v⟩ := C28_shift_centred m m hm hm o1 o2 oph h1 h2 hp dir false d tmp hd ht
  refine ⟨r, t, e, fun i hi j hj => ?_⟩
  rw [v i hi j hj]
  have : ((-1 : ℂ)) ^ (m + m) = 1 := by rw [pow_add, ← mul_pow]; simp
  rw [this]; simp

/-- C28: a shifted forward transform followed by a normalised shifted inverse transform (or
the other way round) restores the array, for all sides. -/
theorem C28_shift_roundtrip (n1 n2 : Nat) (o1 o2 : List Nat) (oph : List (Nat × Nat))
    (h1 : o1.Perm (List.range n2)) (h2 : o2.Perm (List.range n1)) (hp : oph.Perm (nest2 n1 n2))
    (dir : Int) (hdir : dir = 0 ∨ dir = 1) (d tmp : Arr ℂ) (hd : d.size = n1 * n2)
    (ht : tmp.size = n1 * n2) :
    ∃ r t r' t', execShift n1 n2 o1 o2 oph dir false d tmp = some (r, t) ∧
      execShift n1 n2 o1 o2 oph (1 - dir) true r t = some (r', t') ∧
      ∀ i < n1, ∀ j < n2, r'.get (i * n2 + j) = d.get (i * n2 + j) := by
  obtain ⟨r, t, e, z1, z2, v⟩ := execShift_spec n1 n2 o1 o2 oph h1 h2 hp dir false d tmp hd ht
  obtain ⟨r', t', e', _, _, v'⟩ := execShift_spec n1 n2 o1 o2 oph h1 h2 hp (1 - dir) true r t z1 z2
  refine ⟨r, t, r', t', e, e', fun i hi j hj => ?_⟩
  rw [v' i hi j hj]
  have q : ∀ m : Nat, ((-1 : ℂ) ^ m) * (-1) ^ m = 1 := by
    intro m; rw [← mul_pow]; simp
  have hcong : ∀ a < n1, ∀ b < n2, r.get (a * n2 + b) * (-1) ^ (a + b) =
      dft2 (!(dir = 1)) n1 n2 (fun a b => d.get (a * n2 + b) * (-1) ^ (a + b)) a b := by
    intro a ha b hb
    rw [v a ha b hb]
    simp only [Bool.false_eq_true, if_false, mul_one]
    rw [mul_assoc, q, mul_one]
  rw [dft2_congr _ n1 n2 hcong]
  have : (!decide (1 - dir = 1)) = !(!decide (dir = 1)) := by
    rcases hdir with rfl | rfl <;> simp
  rw [this, dft2_dft2 _ n1 n2 _ i j hi hj]
  have n1' : (n1 : ℂ) ≠ 0 := by exact_mod_cast (by omega : n1 ≠ 0)
  have n2' : (n2 : ℂ) ≠ 0 := by exact_mod_cast (by omega : n2 ≠ 0)
  simp only [if_true]
  have := q (i + j)
  field_simp
  linear_combination (d.get (i * n2 + j)) * this

end
end Sdp.Fft
