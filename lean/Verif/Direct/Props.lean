import Mathlib.Algebra.BigOperators.Ring.Finset
import Mathlib.Algebra.Star.BigOperators
import Verif.Dft.Props
import Verif.Direct.Sources

/-!
# C46: direct gridding is the adjoint of direct degridding
-/

namespace Sdp.Direct

/-! ## Specification -/

/-- A row takes part unless its channel range is empty. -/
def Obs.Active (o : Obs) (i : Nat) : Prop :=
  match o.chs with
  | none => True
  | some (s, e) => s.get i < e.get i

open Classical in
/-- The arrays have the sizes the shapes promise. -/
structure Obs.Ok (o : Obs) : Prop where
  uvw : o.uvw.size = 3 * o.numUvw
  chs : ∀ s e, o.chs = some (s, e) → o.numUvw ≤ s.size ∧ o.numUvw ≤ e.size

/-- Centre of the subgrid in wavelengths: `1 / theta` per pixel in u and v, `w_step` per
plane in w; the origin if the field size is not positive. -/
noncomputable def Obs.centre (o : Obs) : ℝ × ℝ × ℝ :=
  if o.theta ≤ 0 then 0
  else ((o.offU : ℝ) * o.theta⁻¹, (o.offV : ℝ) * o.theta⁻¹, (o.offW : ℝ) * o.wStep)

theorem Obs.shift_eq (o : Obs) : o.shift = o.centre := by
  unfold Obs.shift Obs.centre
  by_cases h : 0 < o.theta
  · rw [if_pos h, if_neg (not_le.2 h), div_eq_mul_inv, div_eq_mul_inv]
  · rw [if_neg h, if_pos (not_lt.1 h)]
    rfl

/-- Coordinates of a visibility in wavelengths, relative to the subgrid. -/
noncomputable def Obs.at (o : Obs) (i c : Nat) : ℝ × ℝ × ℝ :=
  let k := (o.f0 + o.df * c) / 299792458
  (o.uvw.get (3 * i) * k - o.centre.1, o.uvw.get (3 * i + 1) * k - o.centre.2.1,
    o.uvw.get (3 * i + 2) * k - o.centre.2.2)

/-- `l u + m v + n w`. -/
def dot (d q : ℝ × ℝ × ℝ) : ℝ := d.1 * q.1 + d.2.1 * q.2.1 + d.2.2 * q.2.2

/-- The response `exp(-2 pi i (l u + m v + n w))` of a visibility at `q` to a unit source
in direction `d`. -/
noncomputable def response (d q : ℝ × ℝ × ℝ) : ℂ :=
  Complex.exp (-(2 * Real.pi * dot d q : ℝ) * Complex.I)

/-- Direction `s` of an lmn array. -/
def dirOf (lmn : Arr ℝ) (s : Nat) : ℝ × ℝ × ℝ :=
  (lmn.get (3 * s), lmn.get (3 * s + 1), lmn.get (3 * s + 2))

/-! ## Pieces -/

theorem active_ok (o : Obs) (h : o.Ok) (i : Nat) (hi : i < o.numUvw) :
    ∃ b, o.active i = some b ∧ (b = true ↔ o.Active i) := by
  unfold Obs.active Obs.Active
  cases hc : o.chs with
  | none => exact ⟨true, rfl, by simp⟩
  | some p =>
    obtain ⟨s, e⟩ := p
    obtain ⟨a, b⟩ := h.chs s e hc
    simp only
    rw [Arr.read_nat, if_pos (by omega), Arr.read_nat, if_pos (by omega)]
    exact ⟨_, rfl, by simp⟩

theorem coords_ok (o : Obs) (h : o.Ok) (i c : Nat) (hi : i < o.numUvw) :
    o.coords i c = some (o.at i c) := by
  unfold Obs.coords Obs.at
  simp only
  rw [Arr.read_nat, if_pos (by rw [h.uvw]; omega), Arr.read_nat, if_pos (by rw [h.uvw]; omega),
    Arr.read_nat, if_pos (by rw [h.uvw]; omega)]
  rw [← o.shift_eq]
  rfl

theorem star_response (d q : ℝ × ℝ × ℝ) :
    star (response d q) = Complex.exp ((2 * Real.pi * dot d q : ℝ) * Complex.I) := by
  unfold response
  rw [Complex.star_def, ← Complex.exp_conj]
  congr 1
  simp only [map_mul, map_neg, Complex.conj_ofReal, Complex.conj_I]
  ring

theorem phasor_ok (sign : ℝ) (lmn : Arr ℝ) (s : Nat) (hs : 3 * s + 2 < lmn.size)
    (q : ℝ × ℝ × ℝ) : phasor sign lmn s q =
      some (Complex.exp ((sign * (2 * Real.pi * dot (dirOf lmn s) q) : ℝ) * Complex.I)) := by
  unfold phasor
  rw [Arr.read_nat, if_pos (by omega), Arr.read_nat, if_pos (by omega),
    Arr.read_nat, if_pos (by omega)]
  simp only [Option.bind_some]
  rw [Dft.phasor_eq]
  congr 4
  unfold dot dirOf
  ring

theorem phasor_neg (lmn : Arr ℝ) (s : Nat) (hs : 3 * s + 2 < lmn.size) (q : ℝ × ℝ × ℝ) :
    phasor (-1) lmn s q = some (response (dirOf lmn s) q) := by
  rw [phasor_ok _ _ _ hs]
  congr 2
  push_cast
  ring

theorem phasor_pos (lmn : Arr ℝ) (s : Nat) (hs : 3 * s + 2 < lmn.size) (q : ℝ × ℝ × ℝ) :
    phasor 1 lmn s q = some (star (response (dirOf lmn s) q)) := by
  rw [phasor_ok _ _ _ hs, star_response, one_mul]

theorem sourceSum_ok (lmn flux : Arr ℝ) (hl : 3 * flux.size ≤ lmn.size) (q : ℝ × ℝ × ℝ) :
    sourceSum lmn flux q =
      some (∑ s ∈ Finset.range flux.size, (flux.get s : ℂ) * response (dirOf lmn s) q) := by
  unfold sourceSum
  obtain ⟨s, h1, h2⟩ := loop_inv (fun (acc : ℂ) (s : Nat) =>
    (phasor (-1) lmn s q).bind fun ph =>
    (flux.read s).bind fun f => some (acc + (f : ℂ) * ph))
    (fun done s => s = (done.map fun k => (flux.get k : ℂ) * response (dirOf lmn k) q).sum)
    (List.range flux.size) 0 (by simp)
    (by
      intro done x rest st he hst
      have hx : x ∈ List.range flux.size := by rw [he]; simp
      rw [List.mem_range] at hx
      rw [phasor_neg _ _ (by omega), Arr.read_nat, if_pos hx]
      refine ⟨_, rfl, ?_⟩
      rw [List.map_append, List.sum_append, hst]
      simp)
  rw [h1, h2, list_sum_range]

open Classical in
theorem visSum_ok (o : Obs) (h : o.Ok) (vis : Arr ℂ) (hv : vis.size = o.numUvw * o.numChan)
    (lmn : Arr ℝ) (s : Nat) (hs : 3 * s + 2 < lmn.size) :
    visSum o vis lmn s =
      some (∑ i ∈ Finset.range o.numUvw, ∑ c ∈ Finset.range o.numChan,
        if o.Active i then vis.get (o.numChan * i + c) * star (response (dirOf lmn s) (o.at i c))
        else 0) := by
  unfold visSum
  obtain ⟨r, h1, h2⟩ := loop_inv (fun (acc : ℂ) (x : Nat × Nat) =>
    (o.active x.1).bind fun a =>
    if a then
      (o.coords x.1 x.2).bind fun q =>
      (phasor 1 lmn s q).bind fun ph =>
      (vis.read (index2 o.numChan x.1 x.2)).bind fun v => some (acc + v * ph)
    else some acc)
    (fun done r => r = (done.map fun x : Nat × Nat => if o.Active x.1 then
      vis.get (o.numChan * x.1 + x.2) * star (response (dirOf lmn s) (o.at x.1 x.2)) else 0).sum)
    (nest2 o.numUvw o.numChan) 0 (by simp)
    (by
      intro done x rest st he hst
      have hx : x ∈ nest2 o.numUvw o.numChan := by rw [he]; simp
      obtain ⟨x0, x1⟩ := mem_nest2.1 hx
      obtain ⟨b, hb1, hb2⟩ := active_ok o h x.1 x0
      rw [hb1]
      simp only [Option.bind_some]
      rw [coords_ok o h _ _ x0]
      simp only [Option.bind_some]
      rw [phasor_pos _ _ hs]
      simp only [Option.bind_some]
      rw [read_pixel _ _ vis hv x x0 x1]
      simp only [Option.bind_some]
      by_cases ha : o.Active x.1
      · have : b = true := hb2.2 ha
        rw [if_pos this]
        refine ⟨_, rfl, ?_⟩
        rw [List.map_append, List.sum_append, hst]
        simp [ha]
      · rw [if_neg (fun hb => ha (hb2.1 hb))]
        refine ⟨_, rfl, ?_⟩
        rw [List.map_append, List.sum_append, hst]
        simp [ha])
  rw [h1, h2]
  congr 1
  unfold nest2
  rw [List.map_flatMap, List.flatMap_def, List.sum_flatten, List.map_map, list_sum_range]
  apply Finset.sum_congr rfl
  intro i _
  simp only [Function.comp_apply, List.map_map]
  rw [list_sum_range]
  rfl

/-! ## The two maps -/

open Classical in
/-- C46, degridding: each visibility of a row with a non-empty channel range receives the
sum of the source responses; other rows are untouched.  Every visiting order. -/
theorem C46_dft (o : Obs) (h : o.Ok) (flux lmn : Arr ℝ) (hl : 3 * flux.size ≤ lmn.size)
    (vis : Arr ℂ) (hv : vis.size = o.numUvw * o.numChan) (order : List (Nat × Nat))
    (ho : order.Perm (nest2 o.numUvw o.numChan)) :
    ∃ r, dft o flux lmn order vis = some r ∧ r.size = vis.size ∧
      ∀ i, i < o.numUvw → ∀ c, c < o.numChan →
        r.get (o.numChan * i + c) = vis.get (o.numChan * i + c) +
          if o.Active i then ∑ s ∈ Finset.range flux.size,
            (flux.get s : ℂ) * response (dirOf lmn s) (o.at i c) else 0 := by
  have hmem : ∀ x ∈ order, x.1 < o.numUvw ∧ x.2 < o.numChan :=
    fun x hx => mem_nest2.1 (ho.mem_iff.1 hx)
  unfold dft
  have hcongr : loop (dftBody o flux lmn) vis order =
      loop (fun st (x : Nat × Nat) => if decide (o.Active x.1) then
        (st.read ((o.numChan * x.1 + x.2 : Nat) : Int)).bind fun y =>
        st.write ((o.numChan * x.1 + x.2 : Nat) : Int) (y +
          ∑ s ∈ Finset.range flux.size, (flux.get s : ℂ) * response (dirOf lmn s) (o.at x.1 x.2))
        else some st) vis order := by
    apply loop_congr
    intro x hx st
    obtain ⟨x0, x1⟩ := hmem x hx
    obtain ⟨b, hb1, hb2⟩ := active_ok o h x.1 x0
    unfold dftBody
    rw [hb1]
    simp only [Option.bind_some]
    by_cases ha : o.Active x.1
    · rw [if_pos (hb2.2 ha), if_pos (by simpa using ha), coords_ok o h _ _ x0]
      simp only [Option.bind_some]
      rw [sourceSum_ok lmn flux hl]
      simp only [Option.bind_some]
      have e : index2 (o.numChan : Int) x.1 x.2 = ((o.numChan * x.1 + x.2 : Nat) : Int) := by
        unfold index2; push_cast; ring
      rw [e]
      rfl
    · rw [if_neg (fun hb => ha (hb2.1 hb)), if_neg (by simpa using ha)]
  rw [hcongr, loop_filter]
  have hsub : ∀ x ∈ order.filter (fun x => decide (o.Active x.1)), x ∈ order :=
    fun x hx => (List.mem_filter.1 hx).1
  have hnd : order.Nodup := ho.nodup_iff.2 (nest2_nodup _ _)
  obtain ⟨r, h1, h2, h3, h4⟩ := Arr.modify_spec (order.filter (fun x => decide (o.Active x.1)))
    (fun x : Nat × Nat => ((o.numChan * x.1 + x.2 : Nat) : Int))
    (fun x y => y + ∑ s ∈ Finset.range flux.size,
      (flux.get s : ℂ) * response (dirOf lmn s) (o.at x.1 x.2))
    (by
      refine List.Nodup.map_on ?_ (hnd.filter _)
      intro x hx y hy hxy
      have := flat_inj (hmem x (hsub x hx)).2 (hmem y (hsub y hy)).2 (by exact_mod_cast hxy)
      exact Prod.ext this.1 this.2) vis
    (by
      intro x hx
      have := flat_lt (hmem x (hsub x hx)).1 (hmem x (hsub x hx)).2
      rw [hv]
      exact ⟨by omega, by exact_mod_cast this⟩)
  refine ⟨r, h1, h2, fun i hi c hc => ?_⟩
  by_cases ha : o.Active i
  · rw [if_pos ha]
    have := h3 (i, c) (List.mem_filter.2 ⟨ho.mem_iff.2 (mem_nest2.2 ⟨hi, hc⟩), by simpa using ha⟩)
    rw [Int.toNat_natCast] at this
    exact this
  · rw [if_neg ha, add_zero]
    apply h4
    intro x hx he
    obtain ⟨hx1, hx2⟩ := List.mem_filter.1 hx
    have := flat_inj (hmem x hx1).2 hc (by exact_mod_cast he)
    rw [this.1] at hx2
    exact ha (by simpa using hx2)

open Classical in
/-- C46, gridding: each pixel receives the tapered sum over the visibilities of the rows
with a non-empty channel range of visibility times conjugate response. -/
theorem C46_idft (o : Obs) (h : o.Ok) (n : Nat) (vis : Arr ℂ)
    (hv : vis.size = o.numUvw * o.numChan) (lmn : Arr ℝ) (hl : lmn.size = 3 * (n * n))
    (taper : Option (Arr ℝ)) (ht : TaperOk taper n n) (image : Arr ℂ)
    (hi : image.size = n * n) (order : List (Nat × Nat)) (ho : order.Perm (nest2 n n)) :
    ∃ r, idft o n vis lmn taper order image = some r ∧ r.size = n * n ∧
      ∀ a, a < n → ∀ b, b < n →
        r.get (n * a + b) = image.get (n * a + b) +
          (∑ i ∈ Finset.range o.numUvw, ∑ c ∈ Finset.range o.numChan,
            if o.Active i then vis.get (o.numChan * i + c) *
              star (response (dirOf lmn (n * a + b)) (o.at i c)) else 0) *
            (taperOf taper (a, b) : ℂ) := by
  have hmem : ∀ x ∈ order, x.1 < n ∧ x.2 < n := fun x hx => mem_nest2.1 (ho.mem_iff.1 hx)
  unfold idft
  have hcongr : loop (idftBody o n vis lmn taper) image order =
      loop (fun st (x : Nat × Nat) => (st.read ((n * x.1 + x.2 : Nat) : Int)).bind fun y =>
        st.write ((n * x.1 + x.2 : Nat) : Int) (y +
          (∑ i ∈ Finset.range o.numUvw, ∑ c ∈ Finset.range o.numChan,
            if o.Active i then vis.get (o.numChan * i + c) *
              star (response (dirOf lmn (n * x.1 + x.2)) (o.at i c)) else 0) *
            (taperOf taper x : ℂ))) image order := by
    apply loop_congr
    intro x hx st
    obtain ⟨x0, x1⟩ := hmem x hx
    unfold idftBody
    have := flat_lt x0 x1
    rw [visSum_ok o h vis hv lmn _ (by omega)]
    simp only [Option.bind_some]
    rw [taperVal_ok taper n n ht x x0 x1]
    simp only [Option.bind_some]
    have e : index2 (n : Int) x.1 x.2 = ((n * x.1 + x.2 : Nat) : Int) := by
      unfold index2; push_cast; ring
    rw [e]
    rfl
  rw [hcongr]
  have hnd : order.Nodup := ho.nodup_iff.2 (nest2_nodup _ _)
  obtain ⟨r, h1, h2, h3, -⟩ := Arr.modify_spec order
    (fun x : Nat × Nat => ((n * x.1 + x.2 : Nat) : Int))
    (fun x y => y + (∑ i ∈ Finset.range o.numUvw, ∑ c ∈ Finset.range o.numChan,
            if o.Active i then vis.get (o.numChan * i + c) *
              star (response (dirOf lmn (n * x.1 + x.2)) (o.at i c)) else 0) *
            (taperOf taper x : ℂ))
    (by
      refine List.Nodup.map_on ?_ hnd
      intro x hx y hy hxy
      have := flat_inj (hmem x hx).2 (hmem y hy).2 (by exact_mod_cast hxy)
      exact Prod.ext this.1 this.2) image
    (by
      intro x hx
      have := flat_lt (hmem x hx).1 (hmem x hx).2
      rw [hi]
      exact ⟨by omega, by exact_mod_cast this⟩)
  refine ⟨r, h1, h2.trans hi, fun a ha b hb => ?_⟩
  have := h3 (a, b) (ho.mem_iff.2 (mem_nest2.2 ⟨ha, hb⟩))
  rw [Int.toNat_natCast] at this
  exact this

/-! ## Adjointness -/

theorem square_sum (n : Nat) (f : Nat → ℂ) :
    ∑ s ∈ Finset.range (n * n), f s =
      ∑ a ∈ Finset.range n, ∑ b ∈ Finset.range n, f (n * a + b) := by
  rw [← list_sum_range, ← nest2_flat, List.map_map]
  unfold nest2
  rw [List.map_flatMap, List.flatMap_def, List.sum_flatten, List.map_map, list_sum_range]
  apply Finset.sum_congr rfl
  intro i _
  simp only [Function.comp_apply, List.map_map]
  rw [list_sum_range]
  rfl

/-- C46, adjointness: for the same coordinates, `<degrid F, V> = <F, grid V>` with the
complex inner product, `F` any real fluxes for the pixels of an image, `V` any
visibilities, both outputs starting from zero. -/
theorem C46_adjoint (o : Obs) (h : o.Ok) (n : Nat) (flux lmn : Arr ℝ)
    (hf : flux.size = n * n) (hl : lmn.size = 3 * (n * n)) (vis zv zi : Arr ℂ)
    (hv : vis.size = o.numUvw * o.numChan) (hzv : zv.size = o.numUvw * o.numChan)
    (hzi : zi.size = n * n) (zv0 : ∀ k, zv.get k = 0) (zi0 : ∀ k, zi.get k = 0)
    (o1 o2 : List (Nat × Nat)) (h1 : o1.Perm (nest2 o.numUvw o.numChan))
    (h2 : o2.Perm (nest2 n n)) (D G : Arr ℂ)
    (hD : dft o flux lmn o1 zv = some D) (hG : idft o n vis lmn none o2 zi = some G) :
    ∑ i ∈ Finset.range o.numUvw, ∑ c ∈ Finset.range o.numChan,
        D.get (o.numChan * i + c) * star (vis.get (o.numChan * i + c)) =
      ∑ s ∈ Finset.range (n * n), (flux.get s : ℂ) * star (G.get s) := by
  classical
  obtain ⟨D', e1, -, c1⟩ := C46_dft o h flux lmn (by omega) zv hzv o1 h1
  obtain ⟨G', e2, -, c2⟩ := C46_idft o h n vis hv lmn hl none (fun t ht => by simp at ht) zi hzi
    o2 h2
  rw [hD] at e1
  rw [hG] at e2
  cases e1
  cases e2
  have L : ∑ i ∈ Finset.range o.numUvw, ∑ c ∈ Finset.range o.numChan,
        D.get (o.numChan * i + c) * star (vis.get (o.numChan * i + c)) =
      ∑ i ∈ Finset.range o.numUvw, ∑ c ∈ Finset.range o.numChan, ∑ s ∈ Finset.range (n * n),
        if o.Active i then (flux.get s : ℂ) * response (dirOf lmn s) (o.at i c) *
          star (vis.get (o.numChan * i + c)) else 0 := by
    apply Finset.sum_congr rfl
    intro i hi
    apply Finset.sum_congr rfl
    intro c hc
    rw [c1 i (Finset.mem_range.1 hi) c (Finset.mem_range.1 hc), zv0, zero_add, hf]
    by_cases ha : o.Active i
    · simp only [if_pos ha]
      rw [Finset.sum_mul]
    · simp [ha]
  have R : ∑ s ∈ Finset.range (n * n), (flux.get s : ℂ) * star (G.get s) =
      ∑ s ∈ Finset.range (n * n), ∑ i ∈ Finset.range o.numUvw, ∑ c ∈ Finset.range o.numChan,
        if o.Active i then (flux.get s : ℂ) * response (dirOf lmn s) (o.at i c) *
          star (vis.get (o.numChan * i + c)) else 0 := by
    rw [square_sum, square_sum]
    apply Finset.sum_congr rfl
    intro a ha
    apply Finset.sum_congr rfl
    intro b hb
    rw [c2 a (Finset.mem_range.1 ha) b (Finset.mem_range.1 hb), zi0, zero_add]
    simp only [taperOf, Complex.ofReal_one, mul_one]
    rw [star_sum, Finset.mul_sum]
    apply Finset.sum_congr rfl
    intro i _
    rw [star_sum, Finset.mul_sum]
    apply Finset.sum_congr rfl
    intro c _
    by_cases hA : o.Active i
    · simp only [if_pos hA, star_mul', star_star]
      ring
    · simp [hA]
  rw [L, R]
  calc _ = ∑ i ∈ Finset.range o.numUvw, ∑ s ∈ Finset.range (n * n),
        ∑ c ∈ Finset.range o.numChan,
        (if o.Active i then (flux.get s : ℂ) * response (dirOf lmn s) (o.at i c) *
          star (vis.get (o.numChan * i + c)) else 0) := by
        apply Finset.sum_congr rfl
        intro i _
        exact Finset.sum_comm
    _ = _ := Finset.sum_comm

/-- C46: rows with an empty channel range do not contribute to the image: changing their
visibilities changes nothing. -/
theorem C46_inactive_ignored (o : Obs) (h : o.Ok) (n : Nat) (vis vis' : Arr ℂ)
    (hv : vis.size = o.numUvw * o.numChan) (hv' : vis'.size = o.numUvw * o.numChan)
    (hsame : ∀ i, i < o.numUvw → o.Active i → ∀ c, c < o.numChan →
      vis.get (o.numChan * i + c) = vis'.get (o.numChan * i + c))
    (lmn : Arr ℝ) (hl : lmn.size = 3 * (n * n)) (taper : Option (Arr ℝ))
    (ht : TaperOk taper n n) (image : Arr ℂ) (hi : image.size = n * n)
    (order : List (Nat × Nat)) (ho : order.Perm (nest2 n n)) (r r' : Arr ℂ)
    (hr : idft o n vis lmn taper order image = some r)
    (hr' : idft o n vis' lmn taper order image = some r') :
    ∀ s, s < n * n → r.get s = r'.get s := by
  classical
  obtain ⟨q, e1, -, c1⟩ := C46_idft o h n vis hv lmn hl taper ht image hi order ho
  obtain ⟨q', e2, -, c2⟩ := C46_idft o h n vis' hv' lmn hl taper ht image hi order ho
  rw [hr] at e1
  rw [hr'] at e2
  cases e1
  cases e2
  intro s hs
  have hn : 0 < n := by
    rcases Nat.eq_zero_or_pos n with h | h
    · subst h; simp at hs
    · exact h
  have e : n * (s / n) + s % n = s := Nat.div_add_mod s n
  have a1 : s / n < n := Nat.div_lt_of_lt_mul hs
  have a2 : s % n < n := Nat.mod_lt _ hn
  have k1 := c1 _ a1 _ a2
  have k2 := c2 _ a1 _ a2
  rw [e] at k1 k2
  rw [k1, k2]
  congr 2
  apply Finset.sum_congr rfl
  intro i hi
  apply Finset.sum_congr rfl
  intro c hc
  by_cases hA : o.Active i
  · rw [if_pos hA, if_pos hA, hsame i (Finset.mem_range.1 hi) hA c (Finset.mem_range.1 hc)]
  · rw [if_neg hA, if_neg hA]

end Sdp.Direct
