import Verif.GridUtil.WPattern
import Verif.GridUtil.WPatternSpec
import Verif.GridUtil.ResidualProps
import Verif.Direct.Pipeline

/-!
# C119: the w pattern
-/

namespace Sdp.GridUtil
open Sdp.Race Sdp.Direct

theorem patternEntry_unique {hu hv w l m : ℝ} {x y : Option ℂ} (hx : PatternEntry hu hv w l m x)
    (hy : PatternEntry hu hv w l m y) : x = y := by
  rcases hx with ⟨rfl, h⟩ | ⟨n, h1, h2, rfl⟩ <;> rcases hy with ⟨rfl, h'⟩ | ⟨n', h1', h2', rfl⟩
  · rfl
  · exact absurd ⟨n', h1'⟩ h
  · exact absurd ⟨n, h1⟩ h'
  · rw [le_antisymm (h2' n h1) (h2 n' h1')]

/-! ## Elements -/

theorem nCoord_eq (hu hv l m : ℝ) [Decidable (Visible hu hv l m)] :
    nCoord hu hv l m = if Visible hu hv l m then some (lmToN hu hv l m) else none := by
  unfold nCoord lmToN
  by_cases h : hu = 0 ∧ hv = 0
  · rw [if_pos h]
    have hv' : Visible hu hv l m ↔ ¬ 1 - l * l - m * m < 0 := by
      unfold Visible
      rw [h.1, h.2]
      constructor <;> intro h' <;> nlinarith
    by_cases h2 : Visible hu hv l m
    · rw [if_neg (hv'.1 h2), if_pos h2, if_pos h]
    · rw [if_pos (by_contra fun h3 => h2 (hv'.2 h3)), if_neg h2]
  · rw [if_neg h]
    have hv' : Visible hu hv l m ↔ ¬ (hu * l + hv * m - 1) * (hu * l + hv * m - 1) -
        (hu * hu + hv * hv + 1) * (l * l + m * m) < 0 := by
      unfold Visible
      constructor <;> intro h' <;> linarith
    by_cases h2 : Visible hu hv l m
    · simp only [if_neg (hv'.1 h2), if_pos h2, if_neg h]
    · simp only [if_pos (by_contra fun h3 => h2 (hv'.2 h3)), if_neg h2]

theorem patternCoord_eq (N : Nat) (theta : ℝ) (i : Nat) : patternCoord N theta i = gridCoord N theta i := by
  unfold patternCoord gridCoord
  rw [Int.tdiv_eq_ediv_of_nonneg (by omega)]
  have e : ((N : Int) / 2) = ((N / 2 : Nat) : Int) := by simp
  rw [e]
  generalize N / 2 = h
  push_cast
  ring

theorem cis_exp (x : ℝ) : (⟨Real.cos x, Real.sin x⟩ : ℂ) = Complex.exp (x * Complex.I) := by
  apply Complex.ext
  · rw [Complex.exp_ofReal_mul_I_re]
  · rw [Complex.exp_ofReal_mul_I_im]

/-- The value one thread stores. -/
noncomputable def patternVal (N : Nat) (theta hu hv w : ℝ) (i j : Nat) : Option ℂ :=
  (nCoord hu hv (gridCoord N theta i) (gridCoord N theta j)).map fun n =>
    ⟨Real.cos (2 * Real.pi * w * n), Real.sin (2 * Real.pi * w * n)⟩

theorem patternVal_entry (N : Nat) (theta hu hv w : ℝ) (i j : Nat) :
    PatternEntry hu hv w (gridCoord N theta i) (gridCoord N theta j) (patternVal N theta hu hv w i j) := by
  classical
  unfold patternVal
  generalize gridCoord N theta i = l
  generalize gridCoord N theta j = m
  rw [nCoord_eq]
  by_cases h : Visible hu hv l m
  · rw [if_pos h, Option.map_some]
    refine Or.inr ⟨lmToN hu hv l m, C49_on_sphere hu hv l m h, fun n' h' => C49_nearest hu hv l m n' h', ?_⟩
    rw [cis_exp]
    congr 2
    push_cast
    ring
  · rw [if_neg h]
    exact Or.inl ⟨rfl, fun h' => h ((C49_visible_iff hu hv l m).2 h')⟩

/-! ## The call -/

/-- **C119, every element.**  If the array has at least `N` rows and columns, every schedule of the loop over
rows fills its first `N` rows and columns with the pattern and leaves the rest alone. -/
theorem C119_pattern_partial (N r c : Nat) (theta hu hv w : ℝ) (m : Mem) (out : Arr (Option ℂ))
    (pos : Nat → Nat → Nat) (hm : Plane m out.size r c pos) (hd : Distinct r c pos) (hr : N ≤ r) (hc : N ≤ c)
    (ht : m.type = .complexDouble) (hl : m.location = .cpu) (hdata : m.data ≠ none) (hro : m.isReadOnly = false) :
    (patternCall N theta hu hv w m .success).status = .success ∧
      ∃ q, Yields (patternCall N theta hu hv w m .success).prog
          (patternCall N theta hu hv w m .success).threads out q ∧ q.size = out.size ∧
        (∀ i j, i < N → j < N →
          PatternEntry hu hv w (gridCoord N theta i) (gridCoord N theta j) (q.get (pos i j))) ∧
        ∀ x, (∀ i j, i < N → j < N → pos i j ≠ x) → q.get x = out.get x := by
  have e : patternCall N theta hu hv w m .success =
      ⟨.success, nest2 N N, patternBody N theta hu hv w (mkView m 2 .success)⟩ := by
    unfold patternCall
    rw [if_neg (by simp), view_ok hm.dims ht hl hdata hro]
    simp
  rw [e]
  refine ⟨rfl, ?_⟩
  obtain ⟨q, q1, q2, q3, q4⟩ := yields_own (patternBody N theta hu hv w (mkView m 2 .success)) (nest2 N N)
    (fun _ => True) (fun p => pos p.1 p.2) (fun p => patternVal N theta hu hv w p.1 p.2) out
    (fun p hp _ => by
      have hp' := mem_nest2.1 hp
      have h1 : p.1 < r := by omega
      have h2 : p.2 < c := by omega
      have ha : addr (mkView m 2 .success) p = (pos p.1 p.2 : Nat) := plane_addr hm h1 h2
      unfold patternBody
      simp only [ha]
      refine ⟨⟨rfl, trivial⟩, ?_⟩
      simp only [Prog.exec]
      rw [Arr.write_nat, if_pos (hm.fits _ _ h1 h2), patternCoord_eq, patternCoord_eq]
      rfl)
    (fun _ _ h => absurd trivial h)
    (fun p hp p' hp' _ _ h => by
      have a := mem_nest2.1 hp
      have b := mem_nest2.1 hp'
      have := hd _ _ _ _ (by omega) (by omega) (by omega) (by omega) h
      exact Prod.ext this.1 this.2)
  refine ⟨q, q1, q2, fun i j hi hj => ?_, fun x hx => q4 x fun p hp _ => hx _ _ (mem_nest2.1 hp).1 (mem_nest2.1 hp).2⟩
  rw [q3 (i, j) (mem_nest2.2 ⟨hi, hj⟩) trivial]
  exact patternVal_entry N theta hu hv w i j

/-- **C119 fails** for an array smaller than the subgrid size given, which is not compared with it: the call
succeeds and a thread writes behind the array. -/
theorem C119_small_array_false (N r : Nat) (theta hu hv w : ℝ) (m : Mem) (out : Arr (Option ℂ))
    (hm : Plane m out.size r r (fun i j => i * r + j)) (h0 : m.strideElementsDim 0 = r)
    (h1 : m.strideElementsDim 1 = 1) (hsize : out.size = r * r) (hN : r < N) (ht : m.type = .complexDouble)
    (hl : m.location = .cpu) (hdata : m.data ≠ none) (hro : m.isReadOnly = false) :
    (patternCall N theta hu hv w m .success).status = .success ∧
      ∃ p ∈ (patternCall N theta hu hv w m .success).threads,
        ((patternCall N theta hu hv w m .success).prog p).exec out = none := by
  have e : patternCall N theta hu hv w m .success =
      ⟨.success, nest2 N N, patternBody N theta hu hv w (mkView m 2 .success)⟩ := by
    unfold patternCall
    rw [if_neg (by simp), view_ok hm.dims ht hl hdata hro]
    simp
  rw [e]
  refine ⟨rfl, (r, 0), mem_nest2.2 ⟨hN, by omega⟩, ?_⟩
  have ha : addr (mkView m 2 .success) (r, 0) = ((r * r : Nat) : Int) := by
    simp [addr, mkView, List.range_succ, dot, h0, h1]
  unfold patternBody
  simp only [ha, Prog.exec]
  rw [Arr.write_nat, if_neg (by omega)]
  rfl

/-- **C119, refusal.**  A call succeeds exactly for a writable array of two dimensions of double-precision complex
numbers on the CPU, and no earlier error; otherwise it touches nothing. -/
theorem C119_refused (size : Int) (theta hu hv w : ℝ) (m : Mem) (st : Status) :
    ((patternCall size theta hu hv w m st).status = .success ↔ st = .success ∧ m.type = .complexDouble ∧
      m.numDims = 2 ∧ m.location = .cpu ∧ m.data ≠ none ∧ m.isReadOnly = false) ∧
    ((patternCall size theta hu hv w m st).status ≠ .success →
      (patternCall size theta hu hv w m st).threads = []) ∧
    (st ≠ .success → (patternCall size theta hu hv w m st).status = st) := by
  have hvs := view_status m .complexDouble 2 .cpu st
  unfold patternCall
  by_cases h : st = .success
  · rw [if_neg (by simp [h])]
    simp only
    by_cases h2 : (checkAndView m .complexDouble 2 .cpu st).2 = .success
    · rw [if_neg (by simp [h2])]
      have := hvs.1 h2
      exact ⟨⟨fun _ => by simpa using this, fun _ => rfl⟩, fun h' => absurd rfl h', fun h' => absurd h h'⟩
    · rw [if_pos h2]
      refine ⟨⟨fun h' => absurd h' h2, fun h' => absurd (hvs.2 (by simpa using h')) h2⟩, fun _ => rfl,
        fun h' => absurd h h'⟩
  · rw [if_pos h]
    exact ⟨⟨fun h' => absurd h' h, fun h' => absurd h'.1 h⟩, fun _ => rfl, fun _ => rfl⟩

/-- **C119, nothing to do.**  A size that is zero or negative changes nothing. -/
theorem C119_no_size (size : Int) (hs : size ≤ 0) (theta hu hv w : ℝ) (m : Mem) (st : Status) :
    (patternCall size theta hu hv w m st).threads = [] := by
  unfold patternCall
  split
  · rfl
  · simp only
    split
    · rfl
    · rw [Int.toNat_of_nonpos hs]
      rfl

/-! ## What the pattern is for -/

/-- **C119, moving between planes.**  Patterns multiply as their distances add, the pattern of no distance is one,
and the quotient of two patterns is the pattern of the difference: multiplying an image by the `k`-th power of the
pattern, or dividing by it, moves it by `k` planes. -/
theorem C119_planes {hu hv l m w1 w2 : ℝ} {x y : ℂ} (hx : PatternEntry hu hv w1 l m (some x))
    (hy : PatternEntry hu hv w2 l m (some y)) :
    ‖x‖ = 1 ∧ PatternEntry hu hv (w1 + w2) l m (some (x * y)) ∧
      PatternEntry hu hv (w1 - w2) l m (some (x / y)) ∧ PatternEntry hu hv 0 l m (some 1) ∧
      ∀ k : Int, PatternEntry hu hv (k * w1) l m (some (x ^ k)) := by
  rcases hx with ⟨h, -⟩ | ⟨n, a1, a2, a3⟩
  · cases h
  rcases hy with ⟨h, -⟩ | ⟨n', b1, b2, b3⟩
  · cases h
  obtain rfl : n = n' := le_antisymm (b2 n a1) (a2 n' b1)
  rw [Option.some.injEq] at a3 b3
  subst a3 b3
  refine ⟨?_, Or.inr ⟨n, a1, a2, ?_⟩, Or.inr ⟨n, a1, a2, ?_⟩, Or.inr ⟨n, a1, a2, ?_⟩,
    fun k => Or.inr ⟨n, a1, a2, ?_⟩⟩
  · have : (2 * Real.pi * Complex.I * (w1 * n) : ℂ) = ((2 * Real.pi * (w1 * n) : ℝ) : ℂ) * Complex.I := by
      push_cast
      ring
    rw [this, Complex.norm_exp_ofReal_mul_I]
  · rw [← Complex.exp_add]
    congr 2
    push_cast
    ring
  · rw [← Complex.exp_sub]
    congr 2
    push_cast
    ring
  · simp
  · rw [← Complex.exp_int_mul]
    congr 2
    push_cast
    ring

/-- **C119, the phase centre** is not changed by any pattern. -/
theorem C119_centre (N : Nat) (theta hu hv w : ℝ) :
    PatternEntry hu hv w (gridCoord N theta (N / 2)) (gridCoord N theta (N / 2)) (some 1) := by
  have h := patternVal_entry N theta hu hv w (N / 2) (N / 2)
  have hz : gridCoord N theta (N / 2) = 0 := by simp [gridCoord]
  have hv0 : Visible hu hv 0 0 := by unfold Visible; simp
  rw [hz]
  refine Or.inr ⟨0, ?_, ?_, by simp⟩
  · have := C49_on_sphere hu hv 0 0 hv0
    rwa [C49_centre] at this
  · intro n' h'
    have := C49_nearest hu hv 0 0 n' h'
    rwa [C49_centre] at this

/-- **C119, images within the sphere.**  Without shear, every element is a number if the image is not larger than
`√2` in direction cosines. -/
theorem C119_numbers (N i j : Nat) (hi : i < N) (hj : j < N) (theta w : ℝ) (ht : theta * theta ≤ 2) (x : Option ℂ)
    (hx : PatternEntry 0 0 w (gridCoord N theta i) (gridCoord N theta j) x) : x ≠ none := by
  rintro rfl
  rcases hx with ⟨-, h⟩ | ⟨n, -, -, h⟩
  · apply h
    rw [← C49_visible_iff]
    have key : ∀ k, k < N → gridCoord N theta k * gridCoord N theta k ≤ 1 / 2 := by
      intro k hk
      unfold gridCoord
      have hN : (0 : ℝ) < N := by exact_mod_cast (by omega : 0 < N)
      have h1 : (((k : ℝ) - (N / 2 : Nat)) / N) * (((k : ℝ) - (N / 2 : Nat)) / N) ≤ 1 / 4 := by
        have a1 : -(N : ℝ) ≤ 2 * ((k : ℝ) - (N / 2 : Nat)) := by
          have : (-(N : Int)) ≤ 2 * ((k : Int) - (N / 2 : Nat)) := by omega
          exact_mod_cast this
        have a2 : 2 * ((k : ℝ) - (N / 2 : Nat)) ≤ N := by
          have : 2 * ((k : Int) - (N / 2 : Nat)) ≤ (N : Int) := by omega
          exact_mod_cast this
        generalize (k : ℝ) - (N / 2 : Nat) = d at a1 a2
        rw [div_mul_div_comm, div_le_div_iff₀ (by positivity) (by norm_num)]
        nlinarith
      have h0 := mul_self_nonneg theta
      have h2 := mul_self_nonneg (((k : ℝ) - (N / 2 : Nat)) / N)
      nlinarith
    have a := key i hi
    have b := key j hj
    unfold Visible
    simp only [zero_mul, zero_add, add_zero]
    linarith
  · cases h

/-! ## A single visibility -/

/-- One visibility at `(0, 0, w)` wavelengths. -/
noncomputable def visAt (w : ℝ) : Obs where
  numUvw := 1
  numChan := 1
  uvw := ⟨3, fun i => if i = 2 then w else 0⟩
  f0 := 299792458
  df := 0
  chs := none
  offU := 0
  offV := 0
  offW := 0
  theta := 1
  wStep := 1

/-- **C119, as documented.**  Where the pattern is a number it is what the direct gridder (C46) makes of a single
visibility 1 at `(0, 0, w)`. -/
theorem C119_visibility (g : Geo) (N : Nat) (w : ℝ) (zero : Arr ℂ) (hz : zero.size = N * N)
    (hz0 : ∀ k, zero.get k = 0) (order : List (Nat × Nat)) (ho : order.Perm (nest2 N N)) :
    ∃ r, directGrid (visAt w) g N ⟨N, fun _ => 1⟩ ⟨1, fun _ => 1⟩ order zero = some r ∧
      ∀ i j x, i < N → j < N →
        PatternEntry g.hu g.hv w (gridCoord N g.theta i) (gridCoord N g.theta j) (some x) →
        r.get (N * i + j) = x := by
  classical
  have hok : (visAt w).Ok := ⟨rfl, fun s e h => by simp [visAt] at h⟩
  obtain ⟨r, r1, -, r3⟩ := C46_direct_grid (visAt w) hok g N ⟨1, fun _ => 1⟩ rfl ⟨N, fun _ => 1⟩ (le_refl _) zero hz
    order ho
  refine ⟨r, r1, fun i j x hi hj hx => ?_⟩
  have hA : ∀ i, (visAt w).Active i := fun _ => trivial
  have hat : (visAt w).at 0 0 = (0, 0, w) := by
    unfold Obs.at Obs.centre visAt
    simp [show ¬ (1 : ℝ) ≤ 0 by norm_num]
  have h := r3 i hi j hj
  have e1 : (visAt w).numUvw = 1 := rfl
  have e2 : (visAt w).numChan = 1 := rfl
  simp only [hA, if_true, e1, e2, hz0] at h
  rw [Finset.sum_range_one, Finset.sum_range_one, hat] at h
  rw [h]
  rcases hx with ⟨h', -⟩ | ⟨n, a1, a2, a3⟩
  · cases h'
  rw [Option.some.injEq] at a3
  subst a3
  have hsky : ∀ k, skyCoord g.theta N k = gridCoord N g.theta k := by
    intro k
    rw [← pixCoord_eq]
    unfold pixCoord gridCoord
    ring
  have hn : n = lmToN g.hu g.hv (gridCoord N g.theta i) (gridCoord N g.theta j) :=
    le_antisymm (C49_nearest _ _ _ _ _ a1)
      (a2 _ (C49_on_sphere _ _ _ _ ((C49_visible_iff _ _ _ _).2 ⟨n, a1⟩)))
  simp only [response, pixDir, Sdp.Direct.dot, hsky, ← hn]
  rw [Complex.star_def, ← Complex.exp_conj]
  simp
  rw [show (starRingEnd ℂ) 2 = 2 from map_ofNat _ 2]
  congr 1
  ring

/-! ## Cases that meet the hypotheses -/

/-- An array of four by four. -/
def patternExample : Mem := (createWrapper (some ⟨0, 0⟩) .complexDouble .cpu [4, 4] none .success).1

theorem patternExample_plane : Plane patternExample 16 4 4 (fun i j => i * 4 + j) := by
  refine ⟨rfl, rfl, rfl, fun i j hi hj => ?_, fun i j hi hj => by omega⟩
  simp [patternExample, createWrapper, Mem.strideElementsDim, Mem.strideBytesDim, MemType.size, defaultStrideLoop]

example (w : ℝ) : ∃ q, Yields (patternCall 4 (1 / 10) 0 0 w patternExample .success).prog
    (patternCall 4 (1 / 10) 0 0 w patternExample .success).threads ⟨16, fun _ => none⟩ q ∧
      q.get (2 * 4 + 2) = some 1 := by
  obtain ⟨-, q, q1, -, q3, -⟩ := C119_pattern_partial 4 4 4 (1 / 10) 0 0 w patternExample ⟨16, fun _ => none⟩
    (fun i j => i * 4 + j) patternExample_plane (fun i j i' j' _ _ _ _ h => by simp only at h; omega) le_rfl le_rfl
    rfl rfl (by decide) rfl
  exact ⟨q, q1, patternEntry_unique (q3 2 2 (by omega) (by omega)) (C119_centre 4 (1 / 10) 0 0 w)⟩

example (w : ℝ) : ∃ p ∈ (patternCall 5 (1 / 10) 0 0 w patternExample .success).threads,
    ((patternCall 5 (1 / 10) 0 0 w patternExample .success).prog p).exec ⟨16, fun _ => none⟩ = none :=
  (C119_small_array_false 5 4 (1 / 10) 0 0 w patternExample ⟨16, fun _ => none⟩ patternExample_plane
    (by rfl) (by rfl) rfl (by omega) rfl rfl (by decide) rfl).2

end Sdp.GridUtil
