import Mathlib.Analysis.Complex.Trigonometric
import Mathlib.Algebra.BigOperators.Group.Finset.Basic
import Mathlib.Tactic.FieldSimp
import Mathlib.Tactic.Ring
import Verif.GridCorrect.Model

/-!
# C50: w-stack correction; C64: facets against the whole image; C65: window correction
-/

namespace Sdp.GridCorrect
noncomputable section
open Sdp.Direct

/-- Independent description: the direction of pixel `i` of `num` in a facet whose centre is
`off` pixels from the centre of an image of `size` pixels spanning `theta`. -/
def direction (size : Nat) (theta : ℝ) (num : Nat) (off : Int) (i : Nat) : ℝ :=
  (((i : ℝ) - ((num / 2 : Nat) : ℝ)) + off) * (theta / size)

/-- The phase screen of plane `w`: `exp (2 pi i w n)`. -/
def screen (w n : ℝ) : ℂ := Complex.exp (2 * Real.pi * w * n * Complex.I)

theorem coord_eq (f : Fac) (num : Nat) (off : Int) (i : Nat) :
    f.coord (pixPos num off i) = direction f.imageSize f.theta num off i := by
  unfold Fac.coord pixPos direction
  generalize num / 2 = h
  push_cast
  ring

theorem phasor_eq (x : ℝ) : (⟨Real.cos x, Real.sin x⟩ : ℂ) = Complex.exp (x * Complex.I) := by
  rw [Complex.exp_mul_I, ← Complex.ofReal_cos, ← Complex.ofReal_sin]
  apply Complex.ext <;>
    simp [-Complex.ofReal_cos, -Complex.ofReal_sin]

theorem screen_ne (w n : ℝ) : screen w n ≠ 0 := Complex.exp_ne_zero _

theorem screen_add (a b n : ℝ) : screen (a + b) n = screen a n * screen b n := by
  unfold screen
  rw [← Complex.exp_add]
  congr 1
  push_cast
  ring

theorem screen_zero (n : ℝ) : screen 0 n = 1 := by simp [screen]

theorem screen_neg (a n : ℝ) : screen (-a) n = (screen a n)⁻¹ := by
  rw [← one_div, eq_div_iff (screen_ne _ _), ← screen_add]
  simp [screen_zero]

theorem screen_norm (a n : ℝ) : ‖screen a n‖ = 1 := by
  unfold screen
  rw [show (2 * Real.pi * a * n * Complex.I : ℂ) = ((2 * Real.pi * a * n : ℝ) : ℂ) * Complex.I by
    push_cast; ring]
  exact Complex.norm_exp_ofReal_mul_I _

theorem screen_star (a n : ℝ) : star (screen a n) = screen (-a) n := by
  unfold screen
  rw [Complex.star_def, ← Complex.exp_conj]
  congr 1
  have h2 : (starRingEnd ℂ) 2 = 2 := Complex.conj_ofNat 2
  simp [h2]

theorem wFactor_eq (f : Fac) (w : Int) (inverse : Bool) (p : Nat × Nat) :
    wFactor f w inverse p =
      screen ((if inverse then 1 else -1) * (w * f.wStep)) (f.n p) := by
  have e : (⟨Real.cos (2 * Real.pi * f.wStep * f.n p * w),
      Real.sin (2 * Real.pi * f.wStep * f.n p * w)⟩ : ℂ) = screen (w * f.wStep) (f.n p) := by
    rw [phasor_eq]
    unfold screen
    congr 1
    push_cast
    ring
  unfold wFactor
  simp only
  rw [e]
  cases inverse
  · simp [screen_neg]
  · simp

/-- The value `n` of the pixel, in terms of directions. -/
theorem n_eq (f : Fac) (p : Nat × Nat) :
    f.n p = lmToN f.hu f.hv (direction f.imageSize f.theta f.nl f.offL p.1)
      (direction f.imageSize f.theta f.nm f.offM p.2) := by
  unfold Fac.n
  rw [coord_eq, coord_eq]

/-- A pixelwise in-place pass over all pixels in any order. -/
theorem pass (nl nm : Nat) (g : Nat × Nat → ℂ) (a : Arr ℂ) (ha : a.size = nl * nm)
    (order : List (Nat × Nat)) (ho : order.Perm (nest2 nl nm)) :
    ∃ r, loop (fun (a : Arr ℂ) (p : Nat × Nat) => (a.read (index2 nm p.1 p.2)).bind fun x =>
        a.write (index2 nm p.1 p.2) (x * g p)) a order = some r ∧ r.size = a.size ∧
      ∀ i, i < nl → ∀ j, j < nm → r.get (nm * i + j) = a.get (nm * i + j) * g (i, j) := by
  have e : ∀ p : Nat × Nat, index2 nm p.1 p.2 = ((nm * p.1 + p.2 : Nat) : Int) := by
    intro p; unfold index2; push_cast; rfl
  have hn : (order.map fun p : Nat × Nat => index2 nm p.1 p.2).Nodup := by
    refine ((ho.map _).nodup_iff).2 ?_
    rw [List.map_congr_left (fun p _ => e p)]
    rw [show (fun p : Nat × Nat => ((nm * p.1 + p.2 : Nat) : Int)) =
      (fun k : Nat => (k : Int)) ∘ (fun p : Nat × Nat => nm * p.1 + p.2) from rfl,
      ← List.map_map, nest2_flat]
    exact (List.nodup_map_iff (fun a b h => by simpa using h)).2 List.nodup_range
  obtain ⟨r, h1, h2, h3, -⟩ := Arr.modify_spec order (fun p : Nat × Nat => index2 nm p.1 p.2)
    (fun p x => x * g p) hn a (by
      intro p hp
      obtain ⟨p0, p1⟩ := mem_nest2.1 ((ho.mem_iff).1 hp)
      have := flat_lt p0 p1
      rw [e p]
      omega)
  refine ⟨r, h1, h2, fun i hi j hj => ?_⟩
  have := h3 (i, j) ((ho.mem_iff).2 (mem_nest2.2 ⟨hi, hj⟩))
  rw [e (i, j), Int.toNat_natCast] at this
  exact this

/-- C50: what the correction does: pixel `(i, j)` is multiplied by the phase screen of plane
`w_offset` (inverse) or by its reciprocal (forward), whatever the order. -/
theorem C50_value (f : Fac) (w : Int) (inverse : Bool) (a : Arr ℂ) (ha : a.size = f.nl * f.nm)
    (order : List (Nat × Nat)) (ho : order.Perm (nest2 f.nl f.nm)) :
    ∃ r, wStack f w inverse order a = some r ∧ r.size = a.size ∧
      ∀ i, i < f.nl → ∀ j, j < f.nm → r.get (f.nm * i + j) = a.get (f.nm * i + j) *
        screen ((if inverse then 1 else -1) * (w * f.wStep))
          (lmToN f.hu f.hv (direction f.imageSize f.theta f.nl f.offL i)
            (direction f.imageSize f.theta f.nm f.offM j)) := by
  unfold wStack
  by_cases h0 : w = 0
  · rw [if_pos h0]
    refine ⟨a, rfl, rfl, fun i _ j _ => ?_⟩
    subst h0
    simp [screen_zero]
  · rw [if_neg h0]
    obtain ⟨r, h1, h2, h3⟩ := pass f.nl f.nm (wFactor f w inverse) a ha order ho
    refine ⟨r, h1, h2, fun i hi j hj => ?_⟩
    rw [h3 i hi j hj, wFactor_eq, n_eq]

/-- Contents of an `nl × nm` facet agree. -/
def SameFacet (f : Fac) (a b : Arr ℂ) : Prop :=
  ∀ i, i < f.nl → ∀ j, j < f.nm → a.get (f.nm * i + j) = b.get (f.nm * i + j)

/-- C50: correcting and then applying the opposite correction for the same plane restores the
facet, in whichever order the two are applied. -/
theorem C50_undone (f : Fac) (w : Int) (inverse : Bool) (a b c : Arr ℂ)
    (ha : a.size = f.nl * f.nm) (o1 o2 : List (Nat × Nat)) (h1 : o1.Perm (nest2 f.nl f.nm))
    (h2 : o2.Perm (nest2 f.nl f.nm)) (hb : wStack f w inverse o1 a = some b)
    (hc : wStack f w (!inverse) o2 b = some c) : SameFacet f c a := by
  obtain ⟨b', e1, e2, e3⟩ := C50_value f w inverse a ha o1 h1
  rw [hb] at e1; cases e1
  obtain ⟨c', e4, -, e6⟩ := C50_value f w (!inverse) b (e2.trans ha) o2 h2
  rw [hc] at e4; cases e4
  intro i hi j hj
  rw [e6 i hi j hj, e3 i hi j hj, mul_assoc, ← screen_add]
  have : ((if inverse = true then (1 : ℝ) else -1) * (w * f.wStep) +
      (if (!inverse) = true then (1 : ℝ) else -1) * (w * f.wStep)) = 0 := by
    cases inverse <;> simp
  rw [this, screen_zero, mul_one]

/-- C50: corrections compose additively: planes `w1` then `w2` is plane `w1 + w2`. -/
theorem C50_additive (f : Fac) (w1 w2 : Int) (inverse : Bool) (a b c d : Arr ℂ)
    (ha : a.size = f.nl * f.nm) (o1 o2 o3 : List (Nat × Nat)) (h1 : o1.Perm (nest2 f.nl f.nm))
    (h2 : o2.Perm (nest2 f.nl f.nm)) (h3 : o3.Perm (nest2 f.nl f.nm))
    (hb : wStack f w1 inverse o1 a = some b) (hc : wStack f w2 inverse o2 b = some c)
    (hd : wStack f (w1 + w2) inverse o3 a = some d) : SameFacet f c d := by
  obtain ⟨b', e1, e2, e3⟩ := C50_value f w1 inverse a ha o1 h1
  rw [hb] at e1; cases e1
  obtain ⟨c', e4, -, e6⟩ := C50_value f w2 inverse b (e2.trans ha) o2 h2
  rw [hc] at e4; cases e4
  obtain ⟨d', e7, -, e9⟩ := C50_value f (w1 + w2) inverse a ha o3 h3
  rw [hd] at e7; cases e7
  intro i hi j hj
  rw [e6 i hi j hj, e3 i hi j hj, e9 i hi j hj, mul_assoc, ← screen_add]
  congr 2
  push_cast
  ring

/-- C50: the inverse correction is the correction for the opposite plane. -/
theorem C50_opposite (f : Fac) (w : Int) (a b c : Arr ℂ) (ha : a.size = f.nl * f.nm)
    (o1 o2 : List (Nat × Nat)) (h1 : o1.Perm (nest2 f.nl f.nm))
    (h2 : o2.Perm (nest2 f.nl f.nm)) (hb : wStack f w true o1 a = some b)
    (hc : wStack f (-w) false o2 a = some c) : SameFacet f b c := by
  obtain ⟨b', e1, -, e3⟩ := C50_value f w true a ha o1 h1
  rw [hb] at e1; cases e1
  obtain ⟨c', e4, -, e6⟩ := C50_value f (-w) false a ha o2 h2
  rw [hc] at e4; cases e4
  intro i hi j hj
  rw [e3 i hi j hj, e6 i hi j hj]
  congr 2
  simp

/-- C50: the correction preserves the modulus of every pixel. -/
theorem C50_modulus (f : Fac) (w : Int) (inverse : Bool) (a b : Arr ℂ)
    (ha : a.size = f.nl * f.nm) (o1 : List (Nat × Nat)) (h1 : o1.Perm (nest2 f.nl f.nm))
    (hb : wStack f w inverse o1 a = some b) :
    ∀ i, i < f.nl → ∀ j, j < f.nm → ‖b.get (f.nm * i + j)‖ = ‖a.get (f.nm * i + j)‖ := by
  obtain ⟨b', e1, -, e3⟩ := C50_value f w inverse a ha o1 h1
  rw [hb] at e1; cases e1
  intro i hi j hj
  rw [e3 i hi j hj, norm_mul, screen_norm, mul_one]

/-- C50: the inverse correction (used when gridding) is the adjoint of the correction (used
when degridding). -/
theorem C50_adjoint (f : Fac) (w : Int) (a b x y : Arr ℂ) (ha : a.size = f.nl * f.nm)
    (hb : b.size = f.nl * f.nm) (o1 o2 : List (Nat × Nat)) (h1 : o1.Perm (nest2 f.nl f.nm))
    (h2 : o2.Perm (nest2 f.nl f.nm)) (hx : wStack f w false o1 a = some x)
    (hy : wStack f w true o2 b = some y) :
    ∑ i ∈ Finset.range f.nl, ∑ j ∈ Finset.range f.nm,
        x.get (f.nm * i + j) * star (b.get (f.nm * i + j)) =
      ∑ i ∈ Finset.range f.nl, ∑ j ∈ Finset.range f.nm,
        a.get (f.nm * i + j) * star (y.get (f.nm * i + j)) := by
  obtain ⟨b', e1, -, e3⟩ := C50_value f w false a ha o1 h1
  rw [hx] at e1; cases e1
  obtain ⟨c', e4, -, e6⟩ := C50_value f w true b hb o2 h2
  rw [hy] at e4; cases e4
  apply Finset.sum_congr rfl
  intro i hi
  apply Finset.sum_congr rfl
  intro j hj
  rw [Finset.mem_range] at hi hj
  rw [e3 i hi j hj, e6 i hi j hj, star_mul', screen_star]
  simp only [if_true, one_mul]
  simp only [if_false, Bool.false_eq_true, neg_one_mul]
  ring

/-! ## C64: facets against the whole image -/

/-- The whole image as a facet of itself. -/
def Fac.whole (f : Fac) : Fac :=
  { f with nl := f.imageSize, nm := f.imageSize, offL := 0, offM := 0 }

/-- Row or column of the whole image that facet row or column `i` lies on. -/
def inImage (size num : Nat) (off : Int) (i : Nat) : Int :=
  i - ((num / 2 : Nat) : Int) + off + ((size / 2 : Nat) : Int)

theorem direction_inImage (size : Nat) (theta : ℝ) (num : Nat) (off : Int) (i k : Nat)
    (h : (k : Int) = inImage size num off i) :
    direction size theta size 0 k = direction size theta num off i := by
  have h' : ((k : Int) : ℝ) = (inImage size num off i : Int) := by rw [h]
  unfold inImage at h'
  unfold direction
  generalize num / 2 = x at *
  generalize size / 2 = y at *
  push_cast at h'
  rw [h']
  push_cast
  ring

/-- C64: correcting a facet is correcting the whole image and cutting the facet out, for every
facet that lies in the image: whatever the sizes, parities and offsets. -/
theorem C64_w_stack_facet (f : Fac) (w : Int) (inverse : Bool) (image facet I F : Arr ℂ)
    (hi : image.size = f.imageSize * f.imageSize) (hf : facet.size = f.nl * f.nm)
    (o1 o2 : List (Nat × Nat)) (h1 : o1.Perm (nest2 f.imageSize f.imageSize))
    (h2 : o2.Perm (nest2 f.nl f.nm))
    (hcut : ∀ i, i < f.nl → ∀ j, j < f.nm → ∀ i' j' : Nat,
      (i' : Int) = inImage f.imageSize f.nl f.offL i →
      (j' : Int) = inImage f.imageSize f.nm f.offM j →
      facet.get (f.nm * i + j) = image.get (f.imageSize * i' + j'))
    (hI : wStack f.whole w inverse o1 image = some I)
    (hF : wStack f w inverse o2 facet = some F) :
    ∀ i, i < f.nl → ∀ j, j < f.nm → ∀ i' j' : Nat, i' < f.imageSize → j' < f.imageSize →
      (i' : Int) = inImage f.imageSize f.nl f.offL i →
      (j' : Int) = inImage f.imageSize f.nm f.offM j →
      F.get (f.nm * i + j) = I.get (f.imageSize * i' + j') := by
  obtain ⟨I', e1, -, e3⟩ := C50_value f.whole w inverse image hi o1 h1
  rw [hI] at e1; cases e1
  obtain ⟨F', e4, -, e6⟩ := C50_value f w inverse facet hf o2 h2
  rw [hF] at e4; cases e4
  intro i hi j hj i' j' hi' hj' ei ej
  have e3' := e3 i' hi' j' hj'
  rw [e6 i hi j hj, hcut i hi j hj i' j' ei ej, ← direction_inImage _ _ _ _ i i' ei,
    ← direction_inImage _ _ _ _ j j' ej]
  exact e3'.symm

/-! ## C65: window correction -/

/-- The n-window at a direction with coordinate `n`: its value at `2 |w_step n|`, or 1 outside
its support and when there is no such window. -/
def windowAt (win : NWin) (wStep n : ℝ) : ℝ :=
  open Classical in
  if win.c ≤ 0 ∨ 1 ≤ 2 * (|wStep| * |n|) then 1 else win.val (2 * (|wStep| * |n|))

theorem nWindow_eq (f : Fac) (win : NWin) (p : Nat × Nat) :
    nWindow f win p = windowAt win f.wStep
      (lmToN f.hu f.hv (direction f.imageSize f.theta f.nl f.offL p.1)
        (direction f.imageSize f.theta f.nm f.offM p.2)) := by
  unfold nWindow windowAt
  simp only
  rw [n_eq]
  generalize lmToN f.hu f.hv (direction f.imageSize f.theta f.nl f.offL p.1)
    (direction f.imageSize f.theta f.nm f.offM p.2) = n
  have e : |n * 2 * f.wStep| = 2 * (|f.wStep| * |n|) := by
    rw [abs_mul, abs_mul]
    norm_num
    ring
  rw [e]
  by_cases h1 : 0 < win.c
  · rw [if_pos h1]
    by_cases h2 : 2 * (|f.wStep| * |n|) < 1
    · rw [if_pos h2, if_neg]
      push Not
      exact ⟨h1, h2⟩
    · rw [if_neg h2, if_pos (Or.inr (not_lt.1 h2))]
  · rw [if_neg h1, if_pos (Or.inl (not_lt.1 h1))]

/-- The facet lies inside the image along one axis. -/
def Inside (size num : Nat) (off : Int) : Prop :=
  ∀ i, i < num → 0 ≤ inImage size num off i ∧ inImage size num off i < size

/-- `Inside` in closed form, for a non-empty facet. -/
theorem C65_inside_iff (size num : Nat) (off : Int) (h : 0 < num) :
    Inside size num off ↔ ((num / 2 : Nat) : Int) ≤ off + ((size / 2 : Nat) : Int) ∧
      (num : Int) - ((num / 2 : Nat) : Int) + off + ((size / 2 : Nat) : Int) ≤ size := by
  unfold Inside inImage
  constructor
  · intro hh
    have a := hh 0 h
    have b := hh (num - 1) (by omega)
    omega
  · intro hh i hi
    omega

/-- C65: for a facet inside the image the window correction never reads outside the window
values, and divides pixel `(i, j)` by the window at its row of the whole image, the window at
its column, and the n-window at its direction. -/
theorem C65_value (f : Fac) (pswf : Arr ℝ) (hp : pswf.size = f.imageSize) (win : NWin)
    (a : Arr ℂ) (ha : a.size = f.nl * f.nm) (hl : Inside f.imageSize f.nl f.offL)
    (hm : Inside f.imageSize f.nm f.offM) (order : List (Nat × Nat))
    (ho : order.Perm (nest2 f.nl f.nm)) :
    ∃ r, pswfCorrect f pswf win order a = some r ∧ r.size = a.size ∧
      ∀ i, i < f.nl → ∀ j, j < f.nm → ∀ i' j' : Nat,
        (i' : Int) = inImage f.imageSize f.nl f.offL i →
        (j' : Int) = inImage f.imageSize f.nm f.offM j →
        r.get (f.nm * i + j) = a.get (f.nm * i + j) /
          ((pswf.get i' * pswf.get j' * windowAt win f.wStep
            (lmToN f.hu f.hv (direction f.imageSize f.theta f.nl f.offL i)
              (direction f.imageSize f.theta f.nm f.offM j)) : ℝ) : ℂ) := by
  have e : ∀ p ∈ order, ∀ b : Arr ℂ, pswfPixel f pswf win b p =
      (b.read (index2 f.nm p.1 p.2)).bind fun x => b.write (index2 f.nm p.1 p.2)
        (x * ((1 / (pswf.get (inImage f.imageSize f.nl f.offL p.1).toNat *
          pswf.get (inImage f.imageSize f.nm f.offM p.2).toNat * nWindow f win p) : ℝ) : ℂ)) := by
    intro p hpo b
    obtain ⟨p0, p1⟩ := mem_nest2.1 ((ho.mem_iff).1 hpo)
    have a1 := hl p.1 p0
    have a2 := hm p.2 p1
    unfold pswfPixel
    have r1 : pswf.read (pixPos f.nl f.offL p.1 + ((f.imageSize / 2 : Nat) : Int)) =
        some (pswf.get (inImage f.imageSize f.nl f.offL p.1).toNat) := by
      unfold Arr.read
      rw [if_pos (by rw [hp]; exact a1)]
      rfl
    have r2 : pswf.read (pixPos f.nm f.offM p.2 + ((f.imageSize / 2 : Nat) : Int)) =
        some (pswf.get (inImage f.imageSize f.nm f.offM p.2).toNat) := by
      unfold Arr.read
      rw [if_pos (by rw [hp]; exact a2)]
      rfl
    rw [r1, r2]
    rfl
  unfold pswfCorrect
  rw [loop_congr _ _ a order e]
  obtain ⟨r, h1, h2, h3⟩ := pass f.nl f.nm (fun p =>
    ((1 / (pswf.get (inImage f.imageSize f.nl f.offL p.1).toNat *
          pswf.get (inImage f.imageSize f.nm f.offM p.2).toNat * nWindow f win p) : ℝ) : ℂ))
    a ha order ho
  refine ⟨r, h1, h2, fun i hi j hj i' j' ei ej => ?_⟩
  rw [h3 i hi j hj, ← nWindow_eq f win (i, j)]
  have t1 : (inImage f.imageSize f.nl f.offL i).toNat = i' := by rw [← ei]; simp
  have t2 : (inImage f.imageSize f.nm f.offM j).toNat = j' := by rw [← ej]; simp
  simp only [t1, t2]
  push_cast
  rw [mul_one_div]

/-- C65: conversely, a facet that sticks out of the image along either axis makes the
correction read outside the window values, whatever the order. -/
theorem C65_outside_false (f : Fac) (pswf : Arr ℝ) (hp : pswf.size = f.imageSize) (win : NWin)
    (a : Arr ℂ) (hl : 0 < f.nl) (hm : 0 < f.nm)
    (hout : ¬ (Inside f.imageSize f.nl f.offL ∧ Inside f.imageSize f.nm f.offM))
    (order : List (Nat × Nat)) (ho : order.Perm (nest2 f.nl f.nm)) :
    pswfCorrect f pswf win order a = none := by
  have bad : ∃ p ∈ nest2 f.nl f.nm, ∀ b : Arr ℂ, pswfPixel f pswf win b p = none := by
    by_cases h1 : Inside f.imageSize f.nl f.offL
    · have h2 : ¬ Inside f.imageSize f.nm f.offM := fun h => hout ⟨h1, h⟩
      unfold Inside at h2
      push Not at h2
      obtain ⟨j, hj, h2⟩ := h2
      refine ⟨(0, j), mem_nest2.2 ⟨hl, hj⟩, fun b => ?_⟩
      have : pswf.read (pixPos f.nm f.offM j + ((f.imageSize / 2 : Nat) : Int)) = none := by
        unfold Arr.read
        rw [if_neg]
        rintro ⟨q1, q2⟩
        have := h2 q1
        rw [hp] at q2
        unfold inImage at this
        unfold pixPos at q2
        omega
      unfold pswfPixel
      simp only [this]
      cases pswf.read (pixPos f.nl f.offL 0 + ((f.imageSize / 2 : Nat) : Int)) <;> rfl
    · unfold Inside at h1
      push Not at h1
      obtain ⟨i, hi, h1⟩ := h1
      refine ⟨(i, 0), mem_nest2.2 ⟨hi, hm⟩, fun b => ?_⟩
      have : pswf.read (pixPos f.nl f.offL i + ((f.imageSize / 2 : Nat) : Int)) = none := by
        unfold Arr.read
        rw [if_neg]
        rintro ⟨q1, q2⟩
        have := h1 q1
        rw [hp] at q2
        unfold inImage at this
        unfold pixPos at q2
        omega
      unfold pswfPixel
      simp only [this]
      rfl
  obtain ⟨p, hp', hb⟩ := bad
  exact loop_none (fun _ => True) _ (fun _ _ _ _ _ => trivial) p (fun s _ => hb s) order a trivial
    ((ho.mem_iff).2 hp')

/-- Non-vacuity: a 4 x 4 facet at the corner of a 16 x 16 image is inside it; moved one pixel
further it is not. -/
example : Inside 16 4 6 ∧ ¬ Inside 16 4 7 := by
  rw [C65_inside_iff _ _ _ (by decide), C65_inside_iff _ _ _ (by decide)]
  decide

/-- C64 for the window correction: correcting a facet inside the image is correcting the whole
image and cutting the facet out. -/
theorem C64_pswf_facet (f : Fac) (pswf : Arr ℝ) (hp : pswf.size = f.imageSize) (win : NWin)
    (image facet I F : Arr ℂ)
    (hi : image.size = f.imageSize * f.imageSize) (hf : facet.size = f.nl * f.nm)
    (hl : Inside f.imageSize f.nl f.offL) (hm : Inside f.imageSize f.nm f.offM)
    (o1 o2 : List (Nat × Nat)) (h1 : o1.Perm (nest2 f.imageSize f.imageSize))
    (h2 : o2.Perm (nest2 f.nl f.nm))
    (hcut : ∀ i, i < f.nl → ∀ j, j < f.nm → ∀ i' j' : Nat,
      (i' : Int) = inImage f.imageSize f.nl f.offL i →
      (j' : Int) = inImage f.imageSize f.nm f.offM j →
      facet.get (f.nm * i + j) = image.get (f.imageSize * i' + j'))
    (hI : pswfCorrect f.whole pswf win o1 image = some I)
    (hF : pswfCorrect f pswf win o2 facet = some F) :
    ∀ i, i < f.nl → ∀ j, j < f.nm → ∀ i' j' : Nat, i' < f.imageSize → j' < f.imageSize →
      (i' : Int) = inImage f.imageSize f.nl f.offL i →
      (j' : Int) = inImage f.imageSize f.nm f.offM j →
      F.get (f.nm * i + j) = I.get (f.imageSize * i' + j') := by
  have hin : Inside f.imageSize f.imageSize 0 := by
    intro i hi
    unfold inImage
    omega
  obtain ⟨I', e1, -, e3⟩ := C65_value f.whole pswf hp win image hi hin hin o1 h1
  rw [hI] at e1; cases e1
  obtain ⟨F', e4, -, e6⟩ := C65_value f pswf hp win facet hf hl hm o2 h2
  rw [hF] at e4; cases e4
  intro i hi j hj i' j' hi' hj' ei ej
  have e3' := e3 i' hi' j' hj' i' j' (by simp [inImage, Fac.whole]) (by simp [inImage, Fac.whole])
  rw [e6 i hi j hj i' j' ei ej, hcut i hi j hj i' j' ei ej,
    ← direction_inImage f.imageSize f.theta f.nl f.offL i i' ei,
    ← direction_inImage f.imageSize f.theta f.nm f.offM j j' ej]
  exact e3'.symm

/-- Non-vacuity for C64: cutting a facet out is possible for every image. -/
example (f : Fac) (image : Arr ℂ) :
    ∃ facet : Arr ℂ, facet.size = f.nl * f.nm ∧
      ∀ i, i < f.nl → ∀ j, j < f.nm → ∀ i' j' : Nat,
      (i' : Int) = inImage f.imageSize f.nl f.offL i →
      (j' : Int) = inImage f.imageSize f.nm f.offM j →
      facet.get (f.nm * i + j) = image.get (f.imageSize * i' + j') := by
  refine ⟨⟨f.nl * f.nm, fun k => image.get (f.imageSize *
    (inImage f.imageSize f.nl f.offL (k / f.nm)).toNat +
    (inImage f.imageSize f.nm f.offM (k % f.nm)).toNat)⟩, rfl, ?_⟩
  intro i _ j hj i' j' ei ej
  simp only
  rw [Nat.mul_add_div (by omega), Nat.div_eq_of_lt hj, Nat.mul_add_mod, Nat.mod_eq_of_lt hj,
    Nat.add_zero, ← ei, ← ej]
  simp

end
end Sdp.GridCorrect
