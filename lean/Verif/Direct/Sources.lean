import Mathlib.Tactic.Ring
import Mathlib.Tactic.Linarith
import Verif.Direct.Model

/-!
# C45: converting an image to a source list
-/

namespace Sdp.Direct

/-! ## Specification -/

section
variable {P : Type} [Zero P] [DecidableEq P]

/-- Non-zero pixels of an `n0 × n1` image in row-major order. -/
def nonzero (n0 n1 : Nat) (image : Arr P) : List (Nat × Nat) :=
  (nest2 n0 n1).filter fun p => decide (image.get (n1 * p.1 + p.2) ≠ 0)

/-- Taper factor of a pixel. -/
def taperOf (taper : Option (Arr ℝ)) (p : Nat × Nat) : ℝ :=
  match taper with
  | none => 1
  | some t => t.get p.1 * t.get p.2

/-- The taper covers both axes. -/
def TaperOk (taper : Option (Arr ℝ)) (n0 n1 : Nat) : Prop :=
  ∀ t, taper = some t → n0 ≤ t.size ∧ n1 ≤ t.size

/-- Sky coordinate of pixel `i` of `n` pixels spanning `theta`: pixel `⌊n / 2⌋` is the
centre. -/
noncomputable def skyCoord (theta : ℝ) (n i : Nat) : ℝ :=
  (((i : ℤ) - (⌊(n : ℚ) / 2⌋ : ℤ) : ℤ) : ℝ) * (theta / n)

theorem pixCoord_eq (theta : ℝ) (n i : Nat) : pixCoord theta n i = skyCoord theta n i := by
  have h : (⌊(n : ℚ) / 2⌋ : ℤ) = ((n / 2 : Nat) : ℤ) := by
    have := Rat.floor_intCast_div_natCast (n : ℤ) 2
    push_cast at this
    rw [this]
    simp
  unfold pixCoord skyCoord
  rw [h]
  generalize n / 2 = y
  push_cast
  ring

/-- Source of a pixel: flux and direction cosines. -/
noncomputable def sourceOf (re : P → ℝ) (g : Geo) (n0 n1 : Nat) (image : Arr P)
    (taper : Option (Arr ℝ)) (p : Nat × Nat) : ℝ × ℝ × ℝ × ℝ :=
  (re (image.get (n1 * p.1 + p.2)) * taperOf taper p,
    skyCoord g.theta n0 p.1, skyCoord g.theta n1 p.2,
    lmToN g.hu g.hv (skyCoord g.theta n0 p.1) (skyCoord g.theta n1 p.2))

/-- Entry `k` of the output lists. -/
def entry (flux lmn : Arr ℝ) (k : Nat) : ℝ × ℝ × ℝ × ℝ :=
  (flux.get k, lmn.get (3 * k), lmn.get (3 * k + 1), lmn.get (3 * k + 2))

/-! ## Proofs -/

theorem taperVal_ok (taper : Option (Arr ℝ)) (n0 n1 : Nat) (ht : TaperOk taper n0 n1)
    (p : Nat × Nat) (h0 : p.1 < n0) (h1 : p.2 < n1) :
    taperVal taper p = some (taperOf taper p) := by
  cases taper with
  | none => rfl
  | some t =>
    obtain ⟨a, b⟩ := ht t rfl
    unfold taperVal
    simp only
    rw [Arr.read_nat, if_pos (by omega), Arr.read_nat, if_pos (by omega)]
    rfl

theorem writeLmn_ok (g : Geo) (n0 n1 : Nat) (lmn : Arr ℝ) (k : Nat) (p : Nat × Nat)
    (h : 3 * k + 2 < lmn.size) :
    ∃ r, writeLmn g n0 n1 lmn k p = some r ∧ r.size = lmn.size ∧
      r.get (3 * k) = skyCoord g.theta n0 p.1 ∧ r.get (3 * k + 1) = skyCoord g.theta n1 p.2 ∧
      r.get (3 * k + 2) =
        lmToN g.hu g.hv (skyCoord g.theta n0 p.1) (skyCoord g.theta n1 p.2) ∧
      ∀ j, j < 3 * k ∨ 3 * k + 2 < j → r.get j = lmn.get j := by
  unfold writeLmn
  simp only
  rw [Arr.write_nat, if_pos (by omega)]
  simp only [Option.bind_some]
  rw [Arr.write_nat, if_pos (by rw [Arr.put_size]; omega)]
  simp only [Option.bind_some]
  rw [Arr.write_nat, if_pos (by rw [Arr.put_size, Arr.put_size]; omega)]
  refine ⟨_, rfl, rfl, ?_, ?_, ?_, ?_⟩
  · simp [Arr.put_get, pixCoord_eq]
  · simp [Arr.put_get, pixCoord_eq]
  · simp [Arr.put_get, pixCoord_eq]
  · intro j hj
    rw [Arr.put_get, Arr.put_get, Arr.put_get, if_neg (by omega), if_neg (by omega),
      if_neg (by omega)]

theorem read_pixel {Q : Type} (n0 n1 : Nat) (image : Arr Q) (hi : image.size = n0 * n1)
    (p : Nat × Nat) (h0 : p.1 < n0) (h1 : p.2 < n1) :
    image.read (index2 n1 p.1 p.2) = some (image.get (n1 * p.1 + p.2)) := by
  have e : index2 (n1 : Int) p.1 p.2 = ((n1 * p.1 + p.2 : Nat) : Int) := by
    unfold index2; push_cast; ring
  rw [e, Arr.read_nat, if_pos (by rw [hi]; exact flat_lt h0 h1)]

/-- C45, conversion: with room for exactly the non-zero pixels the conversion stays in
bounds and produces the sources of the non-zero pixels, each once, in row-major order
(any image shape). -/
theorem C45_sources (re : P → ℝ) (g : Geo) (n0 n1 : Nat) (image : Arr P)
    (hi : image.size = n0 * n1) (taper : Option (Arr ℝ)) (ht : TaperOk taper n0 n1)
    (flux lmn : Arr ℝ) (hf : flux.size = (nonzero n0 n1 image).length)
    (hl : lmn.size = 3 * (nonzero n0 n1 image).length) :
    ∃ f d, imageToFlmn re g n0 n1 image taper flux lmn =
        some ((nonzero n0 n1 image).length, f, d) ∧
      f.size = (nonzero n0 n1 image).length ∧ d.size = 3 * (nonzero n0 n1 image).length ∧
      (List.range (nonzero n0 n1 image).length).map (entry f d) =
        (nonzero n0 n1 image).map (sourceOf re g n0 n1 image taper) := by
  unfold imageToFlmn
  obtain ⟨s, h1, h2⟩ := loop_inv (flmnPixel re g n0 n1 image taper)
    (fun done s => s.1 = (done.filter fun p => decide (image.get (n1 * p.1 + p.2) ≠ 0)).length ∧
      s.2.1.size = flux.size ∧ s.2.2.size = lmn.size ∧
      (List.range s.1).map (entry s.2.1 s.2.2) =
        (done.filter fun p => decide (image.get (n1 * p.1 + p.2) ≠ 0)).map
          (sourceOf re g n0 n1 image taper))
    (nest2 n0 n1) (0, flux, lmn) ⟨rfl, rfl, rfl, rfl⟩
    (by
      intro done x rest st he ⟨i1, i2, i3, i4⟩
      have hx : x ∈ nest2 n0 n1 := by rw [he]; simp
      obtain ⟨hx0, hx1⟩ := mem_nest2.1 hx
      unfold flmnPixel
      rw [read_pixel n0 n1 image hi x hx0 hx1]
      simp only [Option.bind_some]
      by_cases hz : image.get (n1 * x.1 + x.2) ≠ 0
      · rw [if_pos hz, taperVal_ok taper n0 n1 ht x hx0 hx1]
        simp only [Option.bind_some]
        have hlen : st.1 + 1 ≤ (nonzero n0 n1 image).length := by
          rw [i1]
          unfold nonzero
          rw [he, List.filter_append, List.filter_cons_of_pos (by simpa using hz)]
          simp only [List.length_append, List.length_cons]
          omega
        rw [Arr.write_nat, if_pos (by omega)]
        simp only [Option.bind_some]
        obtain ⟨r, w1, w2, w3, w4, w5, w6⟩ := writeLmn_ok g n0 n1 st.2.2 st.1 x (by omega)
        rw [w1]
        refine ⟨_, rfl, ?_, i2, w2.trans i3, ?_⟩
        · rw [List.filter_append, List.filter_cons_of_pos (by simpa using hz)]
          simp only [List.length_append, List.length_cons, List.filter_nil, List.length_nil]
          omega
        · rw [List.filter_append, List.filter_cons_of_pos (by simpa using hz), List.map_append,
            ← i4]
          simp only [List.filter_nil, List.map_cons, List.map_nil]
          rw [List.range_succ, List.map_append]
          congr 1
          · apply List.map_congr_left
            intro j hj
            rw [List.mem_range] at hj
            unfold entry
            rw [Arr.put_get, if_neg (by omega), w6 _ (by omega), w6 _ (by omega),
              w6 _ (by omega)]
          · simp only [List.map_cons, List.map_nil]
            unfold entry sourceOf
            rw [Arr.put_get, if_pos rfl, w3, w4, w5]
      · rw [if_neg hz]
        refine ⟨st, rfl, ?_, i2, i3, ?_⟩
        · rw [List.filter_append, List.filter_cons_of_neg (by simpa using hz)]
          simpa using i1
        · rw [List.filter_append, List.filter_cons_of_neg (by simpa using hz)]
          simpa using i4)
  obtain ⟨k, f, d⟩ := s
  obtain ⟨j1, j2, j3, j4⟩ := h2
  simp only at j1 j2 j3 j4
  subst j1
  exact ⟨f, d, h1, j2.trans hf, j3.trans hl, j4⟩

/-- C45, counting: for a square image the count is the number of non-zero pixels. -/
theorem C45_count_partial (n : Nat) (image : Arr P) (hi : image.size = n * n) :
    countNonzero n n image = some (nonzero n n image).length := by
  unfold countNonzero
  obtain ⟨s, h1, h2⟩ := loop_inv (fun acc (p : Nat × Nat) =>
    (image.read (index2 n p.1 p.2)).bind fun x => some (if x ≠ 0 then acc + 1 else acc))
    (fun done (s : Nat) =>
      s = (done.filter fun p => decide (image.get (n * p.1 + p.2) ≠ 0)).length)
    (nest2 n n) 0 rfl
    (by
      intro done x rest st he hst
      have hx : x ∈ nest2 n n := by rw [he]; simp
      obtain ⟨hx0, hx1⟩ := mem_nest2.1 hx
      rw [read_pixel n n image hi x hx0 hx1]
      refine ⟨_, rfl, ?_⟩
      by_cases hz : image.get (n * x.1 + x.2) ≠ 0
      · rw [if_pos hz, List.filter_append, List.filter_cons_of_pos (by simpa using hz), hst]
        simp
      · rw [if_neg hz, List.filter_append, List.filter_cons_of_neg (by simpa using hz), hst]
        simp)
  rw [h1, h2]
  rfl

/-- C45, end to end for square images: allocating as many sources as counted, the
conversion writes exactly that many. -/
theorem C45_count_matches_partial (re : P → ℝ) (g : Geo) (n : Nat) (image : Arr P)
    (hi : image.size = n * n) (taper : Option (Arr ℝ)) (ht : TaperOk taper n n) :
    ∃ num f d, countNonzero n n image = some num ∧
      imageToFlmn re g n n image taper ⟨num, fun _ => 0⟩ ⟨3 * num, fun _ => 0⟩ =
        some (num, f, d) ∧
      (List.range num).map (entry f d) =
        (nonzero n n image).map (sourceOf re g n n image taper) := by
  obtain ⟨f, d, h1, -, -, h4⟩ := C45_sources re g n n image hi taper ht
    ⟨(nonzero n n image).length, fun _ => 0⟩ ⟨3 * (nonzero n n image).length, fun _ => 0⟩ rfl rfl
  exact ⟨_, f, d, C45_count_partial n image hi, h1, h4⟩

/-- Each non-zero pixel appears exactly once in the list of sources. -/
theorem C45_once (n0 n1 : Nat) (image : Arr P) :
    (nonzero n0 n1 image).Nodup ∧ ∀ i j, (i, j) ∈ nonzero n0 n1 image ↔
      (i < n0 ∧ j < n1) ∧ image.get (n1 * i + j) ≠ 0 := by
  refine ⟨(nest2_nodup n0 n1).filter _, fun i j => ?_⟩
  unfold nonzero
  rw [List.mem_filter, mem_nest2, decide_eq_true_iff]

end

/-- Counting a rectangular image is wrong: the image `[[0, 7]]` of shape [1, 2] is
counted as 0 sources and the conversion then writes outside the allocated arrays. -/
theorem C45_wide_false (re : Int → ℝ) (g : Geo) :
    countNonzero 1 2 (⟨2, fun k => if k = 1 then 7 else 0⟩ : Arr Int) = some 0 ∧
      (nonzero 1 2 (⟨2, fun k => if k = 1 then 7 else 0⟩ : Arr Int)).length = 1 ∧
      imageToFlmn re g 1 2 (⟨2, fun k => if k = 1 then 7 else 0⟩ : Arr Int) none
        ⟨0, fun _ => 0⟩ ⟨0, fun _ => 0⟩ = none := by
  refine ⟨by decide, by decide, ?_⟩
  unfold imageToFlmn
  have e : nest2 1 2 = [(0, 0), (0, 1)] := by decide
  rw [e]
  simp [loop, flmnPixel, index2, Arr.read, Arr.write, taperVal]

/-- A tall image is read outside its bounds: shape [2, 1]. -/
theorem C45_tall_false :
    countNonzero 2 1 (⟨2, fun _ => 1⟩ : Arr Int) = none := by decide

/-- Non-vacuity: a 2 by 2 image with two non-zero pixels. -/
example : nonzero 2 2 (⟨4, fun k => if k = 1 ∨ k = 2 then 5 else 0⟩ : Arr Int) = [(0, 1), (1, 0)] ∧
    countNonzero 2 2 (⟨4, fun k => if k = 1 ∨ k = 2 then 5 else 0⟩ : Arr Int) = some 2 := by
  decide

end Sdp.Direct
