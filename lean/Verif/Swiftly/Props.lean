import Verif.Swiftly.Facts
import Mathlib.Algebra.BigOperators.Intervals
import Mathlib.Tactic.NormNum

/-!
# C30, C31: creation checks; facet windows

`winStart c o` is the first position of the window of `m` samples centred at subgrid offset
`o` (in facet resolution).  Specifications are by position `k`: a contribution keeps the
sample of position `k` at `k mod m`, a prepared facet at `k mod yN`.
-/

namespace Sdp.Swiftly
open Sdp.Fft
noncomputable section

/-- C30: which configurations are accepted. -/
theorem C30_create_accepts_iff (c : Cfg) :
    createCheck c = .success ↔
      0 < c.image ∧ 0 < c.xM ∧ 0 < c.yN ∧ c.xM ∣ c.image ∧ c.yN ∣ c.image ∧
      c.image ∣ c.xM * c.yN ∧ Even c.xM ∧ Even c.yN := by
  constructor
  · intro h
    have h' := h
    obtain ⟨s, t, hs, ht, hm, hi, hy, hx, _, _, hx2, hy2⟩ := sizes h
    have hyp : 0 < c.yN := by rw [hy]; exact Int.mul_pos hs hm
    have hxp : 0 < c.xM := by rw [hx]; exact Int.mul_pos ht hm
    refine ⟨by rw [hi]; exact Int.mul_pos (Int.mul_pos hs ht) hm, hxp, hyp, ⟨s, ?_⟩, ⟨t, ?_⟩, ⟨c.m, ?_⟩,
      (even_iff_two_dvd).2 hx2, (even_iff_two_dvd).2 hy2⟩
    · rw [hi, hx]; ring
    · rw [hi, hy]; ring
    · rw [hx, hy, hi]; ring
  · rintro ⟨h1, h2, h3, h4, h5, h6, h7, h8⟩
    unfold createCheck
    rw [if_neg (by omega), if_neg (by simp [Int.tmod_eq_zero_of_dvd h4]),
      if_neg (by simp [Int.tmod_eq_zero_of_dvd h5]), if_neg (by simp [Int.tmod_eq_zero_of_dvd h6]),
      if_neg (by simp [Int.tmod_eq_zero_of_dvd (even_iff_two_dvd.1 h7)]),
      if_neg (by simp [Int.tmod_eq_zero_of_dvd (even_iff_two_dvd.1 h8)])]

/-- A gathering loop. -/
theorem gather_spec {α : Type} (src : Arr α) (f : Nat → Int) (n : Nat) (out : Arr α)
    (hf : ∀ i < n, 0 ≤ f i ∧ f i < src.size) (hn : n ≤ out.size) :
    ∃ r, loop (fun (out : Arr α) (i : Nat) => (src.read (f i)).bind fun v => out.write i v) out
        (List.range n) = some r ∧ r.size = out.size ∧
      (∀ i < n, r.get i = src.get (f i).toNat) ∧ (∀ i, n ≤ i → r.get i = out.get i) := by
  rw [loop_congr _ (fun (out : Arr α) (i : Nat) => out.write (i : Int) (src.get (f i).toNat))]
  · obtain ⟨r, h1, h2, h3, h4⟩ := Arr.store_spec (List.range n) (fun i => (i : Int))
      (fun i => src.get (f i).toNat)
      (by apply List.Nodup.map (fun a b h => by simpa using h) List.nodup_range) out
      (by intro x hx; rw [List.mem_range] at hx; constructor <;> omega)
    refine ⟨r, h1, h2, fun i hi => ?_, fun i hi => h4 i fun x hx => ?_⟩
    · have := h3 i (List.mem_range.2 hi); simpa using this
    · rw [List.mem_range] at hx; omega
  · intro i hi a
    rw [List.mem_range] at hi
    obtain ⟨h0, h1⟩ := hf i hi
    unfold Arr.read
    rw [if_pos ⟨h0, h1⟩]; rfl

theorem facetIdx_range {c : Cfg} (hc : createCheck c = .success) (o : Int) (i : Int) (h0 : 0 ≤ i)
    (h1 : i < c.m) :
    ∃ k, winStart c o ≤ k ∧ k < winStart c o + c.m ∧ k % c.m = i ∧
      facetIdx c o i = k % c.yN ∧ 0 ≤ k % c.yN ∧ k % c.yN < c.yN := by
  have hm := m_pos hc
  have hy := m_le_yN hc
  obtain ⟨k, hk0, hk1, hk⟩ := window_surj hm (winStart c o) i h0 h1
  refine ⟨k, hk0, hk1, hk, ?_, Int.emod_nonneg _ (by omega), Int.emod_lt_of_pos _ (by omega)⟩
  rw [← hk]; exact facetIdx_eq hc o k hk0 hk1

/-- C31: extraction from a facet, before its transform: in range for every offset, and the
sample of position `k` moves from `k mod yN` to `k mod m`, for every position of the window. -/
theorem C31_extract_window (c : Cfg) (hc : createCheck c = .success) (o : Int) (fct out : Arr ℂ)
    (hf : (fct.size : Int) = c.yN) (ho : (out.size : Int) = c.m) :
    ∃ r, windowFacet c o fct out = some r ∧ r.size = out.size ∧
      ∀ k, winStart c o ≤ k → k < winStart c o + c.m →
        r.get (k % c.m).toNat = fct.get (k % c.yN).toNat := by
  have hm := m_pos hc
  unfold windowFacet
  obtain ⟨r, h1, h2, h3, _⟩ := gather_spec fct (fun i => facetIdx c o i) c.m.toNat out
    (by
      intro i hi
      obtain ⟨k, _, _, _, he, h0, h1⟩ := facetIdx_range hc o i (by omega) (by omega)
      rw [he]; omega) (by omega)
  refine ⟨r, h1, h2, fun k hk0 hk1 => ?_⟩
  have h0 := Int.emod_nonneg k (b := c.m) (by omega)
  have h1 := Int.emod_lt_of_pos k hm
  rw [h3 _ (by omega)]
  simp only [Int.toNat_of_nonneg h0]
  rw [facetIdx_eq hc o k hk0 hk1]

/-- C31: the whole extraction: the forward transform of that window. -/
theorem C31_extract (c : Cfg) (hc : createCheck c = .success) (o : Int) (fct out : Arr ℂ)
    (hf : (fct.size : Int) = c.yN) (ho : (out.size : Int) = c.m) :
    ∃ (r : Arr ℂ) (x : Nat → ℂ), extractFromFacet c o fct out = some r ∧ r.size = out.size ∧
      (∀ j < c.m.toNat, r.get j = dft false c.m.toNat x j) ∧
      ∀ k, winStart c o ≤ k → k < winStart c o + c.m →
        x (k % c.m).toNat = fct.get (k % c.yN).toNat := by
  obtain ⟨w, hw, hws, hwv⟩ := C31_extract_window c hc o fct out hf ho
  refine ⟨⟨w.size, fun k => if k < c.m.toNat then 1 * dft false c.m.toNat w.get k else w.get k⟩,
    w.get, ?_, hws, fun j hj => by simp [hj], hwv⟩
  unfold extractFromFacet
  rw [hw]
  simp only [Option.bind_some, fftRow]
  rw [if_pos (by omega)]

/-- C31: accumulation into a facet: in range for every offset, the sample of position `k` is
added at `k mod yN`, and nothing else changes. -/
theorem C31_add (c : Cfg) (hc : createCheck c = .success) (o : Int) (contrib fct : Arr ℂ)
    (hf : (fct.size : Int) = c.yN) (hq : (contrib.size : Int) = c.m) :
    ∃ r, addToFacet c o contrib fct = some r ∧ r.size = fct.size ∧
      (∀ k, winStart c o ≤ k → k < winStart c o + c.m →
        r.get (k % c.yN).toNat = fct.get (k % c.yN).toNat + contrib.get (k % c.m).toNat) ∧
      (∀ j : Nat, (∀ k, winStart c o ≤ k → k < winStart c o + c.m → k % c.yN ≠ j) →
        r.get j = fct.get j) := by
  have hm := m_pos hc
  have hy := m_le_yN hc
  unfold addToFacet
  rw [loop_congr _ (fun (a : Arr ℂ) (i : Nat) => (a.read (facetIdx c o i)).bind fun y =>
    a.write (facetIdx c o i) (y + contrib.get i))]
  · obtain ⟨r, h1, h2, h3, h4⟩ := Arr.modify_spec (List.range c.m.toNat)
      (fun i => facetIdx c o i) (fun i y => y + contrib.get i)
      (by
        refine List.Nodup.map_on ?_ List.nodup_range
        intro i hi j hj he
        rw [List.mem_range] at hi hj
        obtain ⟨k, hk0, hk1, hk, hke, _⟩ := facetIdx_range hc o i (by omega) (by omega)
        obtain ⟨l, hl0, hl1, hl, hle, _⟩ := facetIdx_range hc o j (by omega) (by omega)
        have := window_inj hy ⟨hk0, hk1⟩ ⟨hl0, hl1⟩ (by rw [← hke, ← hle]; exact he)
        rw [this] at hk; omega) fct
      (by
        intro i hi; rw [List.mem_range] at hi
        obtain ⟨k, _, _, _, he, h0, h1⟩ := facetIdx_range hc o i (by omega) (by omega)
        rw [he]; omega)
    refine ⟨r, h1, h2, fun k hk0 hk1 => ?_, fun j hj => h4 j fun i hi => ?_⟩
    · have h0 := Int.emod_nonneg k (b := c.m) (by omega)
      have h1 := Int.emod_lt_of_pos k hm
      have := h3 (k % c.m).toNat (List.mem_range.2 (by omega))
      simp only [Int.toNat_of_nonneg h0] at this
      rw [facetIdx_eq hc o k hk0 hk1] at this
      exact this
    · rw [List.mem_range] at hi
      obtain ⟨k, hk0, hk1, _, he, _, _⟩ := facetIdx_range hc o i (by omega) (by omega)
      rw [he]; exact hj k hk0 hk1
  · intro i hi a
    rw [List.mem_range] at hi
    rw [Arr.read_nat, if_pos (by omega)]
    simp [Arr.addAt]

/-- C31: extraction (before its transform) and accumulation are transposes of each other:
for every facet `f` and contribution `g`, the pairing of the extracted window with `g`
equals the pairing of `f` with `g` accumulated into zero. -/
theorem C31_adjoint (c : Cfg) (hc : createCheck c = .success) (o : Int) (f g z out : Arr ℂ)
    (hf : (f.size : Int) = c.yN) (hg : (g.size : Int) = c.m) (hz : (z.size : Int) = c.yN)
    (hz0 : ∀ j, z.get j = 0) (ho : (out.size : Int) = c.m) :
    ∃ w a, windowFacet c o f out = some w ∧ addToFacet c o g z = some a ∧
      ∑ i ∈ Finset.range c.m.toNat, w.get i * g.get i =
        ∑ j ∈ Finset.range c.yN.toNat, f.get j * a.get j := by
  have hm := m_pos hc
  have hy := m_le_yN hc
  obtain ⟨w, hw, _, hwv⟩ := C31_extract_window c hc o f out hf ho
  obtain ⟨a, ha, _, hav, hau⟩ := C31_add c hc o g z hz hg
  refine ⟨w, a, hw, ha, ?_⟩
  refine Finset.sum_of_injOn (fun i : Nat => (facetIdx c o i).toNat) ?_ ?_ ?_ ?_
  · intro i hi j hj he
    simp only [Finset.coe_range, Set.mem_Iio] at hi hj
    obtain ⟨k, hk0, hk1, hk, hke, hk2, _⟩ := facetIdx_range hc o i (by omega) (by omega)
    obtain ⟨l, hl0, hl1, hl, hle, hl2, _⟩ := facetIdx_range hc o j (by omega) (by omega)
    simp only [hke, hle] at he
    have := window_inj hy ⟨hk0, hk1⟩ ⟨hl0, hl1⟩ (by omega)
    rw [this] at hk; omega
  · intro i hi
    simp only [Finset.coe_range, Set.mem_Iio] at hi
    obtain ⟨k, _, _, _, he, h0, h1⟩ := facetIdx_range hc o i (by omega) (by omega)
    simp only [Finset.coe_range, Set.mem_Iio]; rw [he]; omega
  · intro j hj hn
    have : a.get j = 0 := by
      rw [hau j, hz0]
      intro k hk0 hk1 he
      apply hn
      have h0 := Int.emod_nonneg k (b := c.m) (by omega)
      have h1 := Int.emod_lt_of_pos k hm
      refine ⟨(k % c.m).toNat, by simp only [Finset.coe_range, Set.mem_Iio]; omega, ?_⟩
      simp only [Int.toNat_of_nonneg h0, facetIdx_eq hc o k hk0 hk1]; omega
    rw [this, mul_zero]
  · intro i hi
    simp only [Finset.mem_range] at hi
    obtain ⟨k, hk0, hk1, hk, he, _, _⟩ := facetIdx_range hc o i (by omega) (by omega)
    have e : (i : Nat) = (k % c.m).toNat := by omega
    simp only [he]
    rw [hav k hk0 hk1, hz0, zero_add, e, hwv k hk0 hk1]

/-- Non-vacuity: an accepted configuration with a negative offset and a wrapping window. -/
example : createCheck ⟨64, 16, 16⟩ = .success ∧ (Cfg.m ⟨64, 16, 16⟩) = 4 ∧
    winStart ⟨64, 16, 16⟩ (-20) = -7 := by decide

/-- Non-vacuity: an odd contribution size is accepted too. -/
example : createCheck ⟨12, 6, 6⟩ = .success ∧ (Cfg.m ⟨12, 6, 6⟩) = 3 := by decide

/-- C30: the window table lookups made at creation are in range. -/
theorem C30_fn_table (c : Cfg) (hc : createCheck c = .success) (pswf Fn : Arr ℝ)
    (hp : (pswf.size : Int) = c.yN) (hF : (Fn.size : Int) = c.m) :
    ∃ r, makeFn c pswf Fn = some r ∧ r.size = Fn.size ∧
      ∀ i < c.m.toNat, r.get i =
        pswf.get ((c.yN / 2) % (c.image / c.xM) + i * (c.image / c.xM)).toNat := by
  obtain ⟨s, t, hs, ht, hm, hi, hy, hx, hds, hdt, h2x, h2y⟩ := sizes hc
  have hyp : 0 < c.yN := by rw [hy]; exact Int.mul_pos hs hm
  have hds' : c.image / c.xM = s := by
    rw [← hds, Int.tdiv_eq_ediv_of_nonneg]; rw [hi]; positivity
  have hoff : (c.yN.tdiv 2).tmod s = (c.yN / 2) % s := by
    rw [tdiv_two_bounds hyp.le, Int.tmod_eq_emod_of_nonneg (by omega)]
  unfold makeFn
  simp only [hds, hds', hoff]
  obtain ⟨r, h1, h2, h3, _⟩ := gather_spec pswf (fun i => (c.yN / 2) % s + i * s) c.m.toNat Fn
    (by
      intro i hi'
      have h4 := Int.emod_nonneg (c.yN / 2) (b := s) (by omega)
      have h5 := Int.emod_lt_of_pos (c.yN / 2) hs
      have h6 : (i : Int) * s ≤ (c.m - 1) * s := Int.mul_le_mul_of_nonneg_right (by omega) hs.le
      have h7 : 0 ≤ (i : Int) * s := by positivity
      constructor
      · omega
      · rw [sub_mul, one_mul, mul_comm c.m] at h6; omega) (by omega)
  exact ⟨r, h1, h2, h3⟩

/-- C30: the second window table is inverted in range, element 0 excepted. -/
theorem C30_fb_table (c : Cfg) (hc : createCheck c = .success) (Fb : Arr ℝ)
    (hF : (Fb.size : Int) = c.yN) :
    ∃ r, makeFb c Fb = some r ∧ r.size = Fb.size ∧ r.get 0 = Fb.get 0 ∧
      ∀ i, 0 < i → i < c.yN.toNat → r.get i = 1 / Fb.get i := by
  have hm := m_pos hc
  have hy := m_le_yN hc
  unfold makeFb
  obtain ⟨r, h1, h2, h3, h4⟩ := Arr.modify_spec (List.range (c.yN - 1).toNat)
      (fun i => ((i + 1 : Nat) : Int)) (fun _ y => 1 / y)
      (List.Nodup.map (fun a b h => by simpa using h) List.nodup_range) Fb
      (by intro x hx; rw [List.mem_range] at hx; omega)
  refine ⟨r, h1, h2, ?_, fun i hi0 hi1 => ?_⟩
  · apply h4
    intro x hx; omega
  · have := h3 (i - 1) (List.mem_range.2 (by omega))
    simpa [Nat.sub_add_cancel hi0] using this

end
end Sdp.Swiftly
