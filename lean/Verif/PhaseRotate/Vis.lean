import Verif.PhaseRotate.Props

/-!
# C20 — rotation of visibilities
-/

namespace Sdp.PhaseRotate
noncomputable section

/-- Row-major position of a visibility sample. -/
def visPos (D : Dims) (t b c p : Nat) : Nat :=
  D.pols * (D.channels * (D.baselines * t + b) + c) + p

/-- uvw of a baseline. -/
def uvwOf (D : Dims) (uvw : Arr ℝ) (t b : Nat) : Fin 3 → ℝ := triple uvw (D.baselines * t + b)

/-- The phase applied to a visibility: 2π · frequency/c · (uvw · delta). -/
def visPhase (D : Dims) (f0 df : ℝ) (d : ℝ × ℝ × ℝ) (uvw : Arr ℝ) (t b c : Nat) : ℝ :=
  2 * Real.pi * ((f0 + c * df) / 299792458) *
    (uvwOf D uvw t b 0 * d.1 + uvwOf D uvw t b 1 * d.2.1 + uvwOf D uvw t b 2 * d.2.2)

def Sample (D : Dims) (t b c p : Nat) : Prop :=
  t < D.times ∧ b < D.baselines ∧ c < D.channels ∧ p < D.pols

theorem phasor_eq (x : ℝ) : (⟨Real.cos x, Real.sin x⟩ : ℂ) = Complex.exp (x * Complex.I) := by
  rw [Complex.exp_mul_I]
  apply Complex.ext <;> simp [← Complex.ofReal_cos, ← Complex.ofReal_sin]

/-- The loops of `rotate_vis` in any order. -/
theorem rotateVis_perm (D : Dims) (f0 df : ℝ) (d : ℝ × ℝ × ℝ) (uvw : Arr ℝ) (src : Option (Arr ℂ))
    (out : Arr ℂ) (hu : uvw.size = D.times * D.baselines * 3)
    (ho : out.size = D.times * D.baselines * D.channels * D.pols)
    (hs : ∀ a, src = some a → a.size = D.times * D.baselines * D.channels * D.pols)
    (L : List (Nat × Nat × Nat × Nat)) (hp : L.Perm (nest4 D.times D.baselines D.channels D.pols)) :
    ∃ r, loop (visBody D f0 df d uvw src) out L = some r ∧ r.size = out.size ∧
      ∀ t b c p, Sample D t b c p → r.get (visPos D t b c p) =
        (src.getD out).get (visPos D t b c p) *
          Complex.exp (visPhase D f0 df d uvw t b c * Complex.I) := by
  have hnd : (L.map fun x => (visPos D x.1 x.2.1 x.2.2.1 x.2.2.2 : Int)).Nodup := by
    refine (hp.map _).nodup_iff.2 ?_
    have h := nest4_flat D.times D.baselines D.channels D.pols
    have : ((nest4 D.times D.baselines D.channels D.pols).map fun x =>
        (visPos D x.1 x.2.1 x.2.2.1 x.2.2.2 : Int)) =
      ((nest4 D.times D.baselines D.channels D.pols).map fun x =>
        visPos D x.1 x.2.1 x.2.2.1 x.2.2.2).map (fun n : Nat => (n : Int)) := by
      simp
    rw [this, show ((nest4 D.times D.baselines D.channels D.pols).map fun x =>
      visPos D x.1 x.2.1 x.2.2.1 x.2.2.2) = List.range _ from h]
    exact List.nodup_range.map fun a b h => by simpa using h
  have hlt : ∀ x ∈ L, visPos D x.1 x.2.1 x.2.2.1 x.2.2.2 <
      D.times * D.baselines * D.channels * D.pols := by
    intro x hx
    obtain ⟨h1, h2, h3, h4⟩ := mem_nest4.1 (hp.mem_iff.1 hx)
    exact flat_lt (flat_lt (flat_lt h1 h2) h3) h4
  -- the body with the uvw reads resolved
  have hbody : ∀ x ∈ L, ∀ o : Arr ℂ,
      (let i := index3 D.baselines 3 x.1 x.2.1 0
       (uvw.read (i + 0)).bind fun u =>
       (uvw.read (i + 1)).bind fun v =>
       (uvw.read (i + 2)).bind fun w =>
         let ph := phase f0 df d x.2.2.1 u v w
         let phasor : ℂ := ⟨Real.cos ph, Real.sin ph⟩
         let j := index4 D.baselines D.channels D.pols x.1 x.2.1 x.2.2.1 x.2.2.2
         (readSrc src o j).bind fun y => o.write j (y * phasor)) =
      (readSrc src o (visPos D x.1 x.2.1 x.2.2.1 x.2.2.2)).bind fun y =>
        o.write (visPos D x.1 x.2.1 x.2.2.1 x.2.2.2)
          (y * Complex.exp (visPhase D f0 df d uvw x.1 x.2.1 x.2.2.1 * Complex.I)) := by
    intro x hx o
    obtain ⟨h1, h2, h3, h4⟩ := mem_nest4.1 (hp.mem_iff.1 hx)
    have hb := flat_lt h1 h2
    have e : ∀ i : Nat, index3 D.baselines 3 x.1 x.2.1 0 + i =
        (((D.baselines * x.1 + x.2.1) * 3 + i : Nat) : Int) := by
      intro i; unfold index3; push_cast; ring
    have r : ∀ i : Nat, i ≤ 2 → uvw.read (index3 D.baselines 3 x.1 x.2.1 0 + i) =
        some (uvw.get ((D.baselines * x.1 + x.2.1) * 3 + i)) := by
      intro i hi
      rw [e, Arr.read_nat, hu, if_pos (by omega)]
    have r0 := r 0 (by omega)
    have r1 := r 1 (by omega)
    have r2 := r 2 (by omega)
    push_cast at r0 r1 r2
    simp only [r0, r1, r2, Option.bind_some]
    rw [show index4 D.baselines D.channels D.pols x.1 x.2.1 x.2.2.1 x.2.2.2 =
      (visPos D x.1 x.2.1 x.2.2.1 x.2.2.2 : Int) by
        unfold index4 visPos; push_cast; ring, phasor_eq]
    rfl
  have hfin : ∀ (r : Arr ℂ) (g : Arr ℂ),
      (∀ x ∈ L, r.get ((visPos D x.1 x.2.1 x.2.2.1 x.2.2.2 : Int)).toNat = g.get (visPos D x.1 x.2.1 x.2.2.1 x.2.2.2) *
        Complex.exp (visPhase D f0 df d uvw x.1 x.2.1 x.2.2.1 * Complex.I)) →
      ∀ t b c p, Sample D t b c p → r.get (visPos D t b c p) = g.get (visPos D t b c p) *
          Complex.exp (visPhase D f0 df d uvw t b c * Complex.I) := by
    intro r g h t b c p hS
    have := h (t, b, c, p) (hp.mem_iff.2 (mem_nest4.2 hS))
    simpa using this
  cases src with
  | none =>
    obtain ⟨r, hr, hrs, hv, -⟩ := Arr.modify_spec L
      (fun x => (visPos D x.1 x.2.1 x.2.2.1 x.2.2.2 : Int))
      (fun x y => y * Complex.exp (visPhase D f0 df d uvw x.1 x.2.1 x.2.2.1 * Complex.I)) hnd out
      (by intro x hx; have := hlt x hx; omega)
    refine ⟨r, ?_, hrs, hfin r out ?_⟩
    · rw [← hr]
      exact loop_congr _ _ _ _ fun x hx o => hbody x hx o
    · intro x hx
      have := hv x hx
      simpa using this
  | some a =>
    have ha := hs a rfl
    obtain ⟨r, hr, hrs, hv, -⟩ := Arr.store_spec L
      (fun x => (visPos D x.1 x.2.1 x.2.2.1 x.2.2.2 : Int))
      (fun x => a.get (visPos D x.1 x.2.1 x.2.2.1 x.2.2.2) *
        Complex.exp (visPhase D f0 df d uvw x.1 x.2.1 x.2.2.1 * Complex.I)) hnd out
      (by intro x hx; have := hlt x hx; omega)
    refine ⟨r, ?_, hrs, hfin r a hv⟩
    rw [← hr]
    refine loop_congr _ _ _ _ fun x hx o => ?_
    refine (hbody x hx o).trans ?_
    unfold readSrc
    rw [Option.getD_some, Arr.read_nat, ha, if_pos (hlt x hx), Option.bind_some]

theorem rotateVis_spec (D : Dims) (f0 df : ℝ) (d : ℝ × ℝ × ℝ) (uvw : Arr ℝ) (src : Option (Arr ℂ))
    (out : Arr ℂ) (hu : uvw.size = D.times * D.baselines * 3)
    (ho : out.size = D.times * D.baselines * D.channels * D.pols)
    (hs : ∀ a, src = some a → a.size = D.times * D.baselines * D.channels * D.pols) :
    ∃ r, rotateVis D f0 df d uvw src out = some r ∧ r.size = out.size ∧
      ∀ t b c p, Sample D t b c p → r.get (visPos D t b c p) =
        (src.getD out).get (visPos D t b c p) *
          Complex.exp (visPhase D f0 df d uvw t b c * Complex.I) :=
  rotateVis_perm D f0 df d uvw src out hu ho hs _ (List.Perm.refl _)

variable (D : Dims) (f0 df : ℝ) (uvw : Arr ℝ) (hu : uvw.size = D.times * D.baselines * 3)
include hu

/-- C20 (1): every visibility keeps its modulus; the output is the input times the unit
phasor of the documented phase (in place or not). -/
theorem C20_modulus (a b : Coord) (src : Option (Arr ℂ)) (out : Arr ℂ)
    (ho : out.size = D.times * D.baselines * D.channels * D.pols)
    (hs : ∀ x, src = some x → x.size = D.times * D.baselines * D.channels * D.pols) :
    ∃ r, rotateVis D f0 df (delta a b) uvw src out = some r ∧ r.size = out.size ∧
      ∀ t b' c p, Sample D t b' c p →
        ‖r.get (visPos D t b' c p)‖ = ‖(src.getD out).get (visPos D t b' c p)‖ ∧
        r.get (visPos D t b' c p) = (src.getD out).get (visPos D t b' c p) *
          Complex.exp (visPhase D f0 df (delta a b) uvw t b' c * Complex.I) := by
  obtain ⟨r, hr, hrs, hv⟩ := rotateVis_spec D f0 df (delta a b) uvw src out hu ho hs
  refine ⟨r, hr, hrs, fun t b' c p hS => ⟨?_, hv t b' c p hS⟩⟩
  rw [hv t b' c p hS, norm_mul, Complex.norm_exp_ofReal_mul_I, mul_one]

/-- C20 (2): equal centres give the identity. -/
theorem C20_identity (a : Coord) (src : Option (Arr ℂ)) (out : Arr ℂ)
    (ho : out.size = D.times * D.baselines * D.channels * D.pols)
    (hs : ∀ x, src = some x → x.size = D.times * D.baselines * D.channels * D.pols) :
    ∃ r, rotateVis D f0 df (delta a a) uvw src out = some r ∧
      ∀ t b' c p, Sample D t b' c p →
        r.get (visPos D t b' c p) = (src.getD out).get (visPos D t b' c p) := by
  obtain ⟨r, hr, -, hv⟩ := rotateVis_spec D f0 df (delta a a) uvw src out hu ho hs
  refine ⟨r, hr, fun t b' c p hS => ?_⟩
  have hd : delta a a = (0, 0, 0) := by
    have h := Real.sin_sq_add_cos_sq a.dec
    simp only [delta, sub_self, neg_zero, Real.sin_zero, Real.cos_zero, mul_zero, mul_one, sub_zero]
    refine Prod.ext rfl (Prod.ext ?_ ?_)
    · simp only; ring
    · simp only; linear_combination -h
  rw [hv t b' c p hS]
  simp [visPhase, hd]

/-- C20 (3): linear in the visibilities. -/
theorem C20_linear (a b : Coord) (z w : ℂ) (v₁ v₂ v₃ out : Arr ℂ)
    (h₁ : v₁.size = D.times * D.baselines * D.channels * D.pols)
    (h₂ : v₂.size = D.times * D.baselines * D.channels * D.pols)
    (h₃ : v₃.size = D.times * D.baselines * D.channels * D.pols)
    (ho : out.size = D.times * D.baselines * D.channels * D.pols)
    (hv : ∀ j, v₃.get j = z * v₁.get j + w * v₂.get j) :
    ∃ r₁ r₂ r₃, rotateVis D f0 df (delta a b) uvw (some v₁) out = some r₁ ∧
      rotateVis D f0 df (delta a b) uvw (some v₂) out = some r₂ ∧
      rotateVis D f0 df (delta a b) uvw (some v₃) out = some r₃ ∧
      ∀ t b' c p, Sample D t b' c p →
        r₃.get (visPos D t b' c p) =
          z * r₁.get (visPos D t b' c p) + w * r₂.get (visPos D t b' c p) := by
  obtain ⟨r₁, e₁, -, w₁⟩ := rotateVis_spec D f0 df (delta a b) uvw (some v₁) out hu ho
    (by rintro _ ⟨⟩; exact h₁)
  obtain ⟨r₂, e₂, -, w₂⟩ := rotateVis_spec D f0 df (delta a b) uvw (some v₂) out hu ho
    (by rintro _ ⟨⟩; exact h₂)
  obtain ⟨r₃, e₃, -, w₃⟩ := rotateVis_spec D f0 df (delta a b) uvw (some v₃) out hu ho
    (by rintro _ ⟨⟩; exact h₃)
  refine ⟨r₁, r₂, r₃, e₁, e₂, e₃, fun t b' c p hS => ?_⟩
  rw [w₁ t b' c p hS, w₂ t b' c p hS, w₃ t b' c p hS]
  simp only [Option.getD_some]
  rw [hv]; ring

/-- C20 (4, partial): rotating visibilities A → B with the original coordinates and back
B → A with the coordinates rotated by A → B restores them when the centres share their
right ascension.  Missing: different right ascensions (`C20_roundtrip_false`). -/
theorem C20_roundtrip_partial (a b : Coord) (hra : a.ra = b.ra) (vis : Arr ℂ)
    (hv : vis.size = D.times * D.baselines * D.channels * D.pols) :
    ∃ uvw' r r', rotateUvw (D.times * D.baselines) (mat a b) none uvw = some uvw' ∧
      rotateVis D f0 df (delta a b) uvw none vis = some r ∧
      rotateVis D f0 df (delta b a) uvw' none r = some r' ∧
      ∀ t b' c p, Sample D t b' c p →
        r'.get (visPos D t b' c p) = vis.get (visPos D t b' c p) := by
  obtain ⟨uvw', hu', hus, huv, -⟩ := rotateUvw_spec (mat a b) none (D.times * D.baselines) uvw
    (by omega) (by simp)
  obtain ⟨r, hr, hrs, hrv⟩ := rotateVis_spec D f0 df (delta a b) uvw none vis hu hv (by simp)
  obtain ⟨r', hr', -, hrv'⟩ := rotateVis_spec D f0 df (delta b a) uvw' none r (by rw [hus, hu])
    (by rw [hrs, hv]) (by simp)
  refine ⟨uvw', r, r', hu', hr, hr', fun t b' c p hS => ?_⟩
  rw [hrv' t b' c p hS]
  simp only [Option.getD_none] at *
  rw [hrv t b' c p hS, mul_assoc, ← Complex.exp_add]
  have hz : visPhase D f0 df (delta a b) uvw t b' c +
      visPhase D f0 df (delta b a) uvw' t b' c = 0 := by
    unfold visPhase uvwOf
    rw [show triple uvw' (D.baselines * t + b') =
      apply (mat a b) (triple uvw (D.baselines * t + b')) from
        funext (huv _ (by have := flat_lt hS.1 hS.2.1; exact this))]
    set x := triple uvw (D.baselines * t + b')
    have z : b.ra - a.ra = 0 := by rw [hra]; ring
    have z' : a.ra - b.ra = 0 := by rw [hra]; ring
    have hA := Real.sin_sq_add_cos_sq a.dec
    have hB := Real.sin_sq_add_cos_sq b.dec
    simp only [apply, mat, delta, z, z', neg_zero, Real.sin_zero, Real.cos_zero, Real.sin_sub,
      Real.cos_sub, Fin.val_zero, Fin.val_one, Fin.val_two, mul_zero, mul_one, zero_mul, zero_add,
      add_zero, Nat.reduceMul, Nat.reduceAdd, one_mul, sub_zero, neg_mul]
    linear_combination (2 * Real.pi * ((f0 + c * df) / 299792458)) * (
      -x 2 * (Real.sin b.dec ^ 2 + Real.cos b.dec ^ 2) * hA - x 2 * hB)
  rw [← add_mul, ← Complex.ofReal_add, hz]
  simp

omit hu in
/-- Violation of C20 (4): centres (0, π/4) and (π, π/4), baseline (0, 1/4, 0) wavelengths:
rotating there and back flips the sign of the visibility. -/
theorem C20_roundtrip_false :
    ∃ (D : Dims) (f0 df : ℝ) (a b : Coord) (uvw uvw' : Arr ℝ) (vis r r' : Arr ℂ),
      uvw.size = D.times * D.baselines * 3 ∧
      vis.size = D.times * D.baselines * D.channels * D.pols ∧
      rotateUvw (D.times * D.baselines) (mat a b) none uvw = some uvw' ∧
      rotateVis D f0 df (delta a b) uvw none vis = some r ∧
      rotateVis D f0 df (delta b a) uvw' none r = some r' ∧
      Sample D 0 0 0 0 ∧ r'.get (visPos D 0 0 0 0) ≠ vis.get (visPos D 0 0 0 0) := by
  set D : Dims := ⟨1, 1, 1, 1⟩ with hD
  set a : Coord := ⟨0, Real.pi / 4⟩ with ha
  set b : Coord := ⟨Real.pi, Real.pi / 4⟩ with hb
  set uvw : Arr ℝ := ⟨3, fun i => if i = 1 then 1 / 4 else 0⟩ with huvw
  set vis : Arr ℂ := ⟨1, fun _ => 1⟩ with hvis
  obtain ⟨uvw', hu', hus, huv, -⟩ := rotateUvw_spec (mat a b) none (D.times * D.baselines) uvw
    (by simp [D, uvw]) (by simp)
  obtain ⟨r, hr, hrs, hrv⟩ := rotateVis_spec D 299792458 0 (delta a b) uvw none vis
    (by simp [D, uvw]) (by simp [D, vis]) (by simp)
  obtain ⟨r', hr', -, hrv'⟩ := rotateVis_spec D 299792458 0 (delta b a) uvw' none r
    (by rw [hus]; simp [D, uvw]) (by rw [hrs]; simp [D, vis]) (by simp)
  have hS : Sample D 0 0 0 0 := ⟨by simp [D], by simp [D], by simp [D], by simp [D]⟩
  refine ⟨D, 299792458, 0, a, b, uvw, uvw', vis, r, r', by simp [D, uvw], by simp [D, vis], hu',
    hr, hr', hS, ?_⟩
  rw [hrv' 0 0 0 0 hS]
  simp only [Option.getD_none] at *
  rw [hrv 0 0 0 0 hS, mul_assoc, ← Complex.exp_add]
  have h2 : Real.sqrt 2 * Real.sqrt 2 = 2 := Real.mul_self_sqrt (by norm_num)
  have hz : visPhase D 299792458 0 (delta a b) uvw 0 0 0 +
      visPhase D 299792458 0 (delta b a) uvw' 0 0 0 = -Real.pi := by
    unfold visPhase uvwOf
    rw [show triple uvw' (D.baselines * 0 + 0) =
      apply (mat a b) (triple uvw (D.baselines * 0 + 0)) from funext (huv _ (by simp [D]))]
    have e0 : triple uvw (D.baselines * 0 + 0) 0 = 0 := by simp [triple, uvw]
    have e1 : triple uvw (D.baselines * 0 + 0) 1 = 1 / 4 := by simp [triple, uvw]
    have e2 : triple uvw (D.baselines * 0 + 0) 2 = 0 := by simp [triple, uvw]
    simp only [apply, e0, e1, e2]
    simp only [mat, delta, ha, hb, sub_self, sub_zero, zero_sub, neg_neg, Real.sin_neg, Real.cos_neg,
      Real.sin_pi, Real.cos_pi, Real.sin_zero, Real.cos_zero, Real.sin_pi_div_four,
      Real.cos_pi_div_four, Fin.val_zero, Fin.val_one, Fin.val_two]
    norm_num
    linear_combination (-(1/2) * Real.pi) * h2
  rw [← add_mul, ← Complex.ofReal_add, hz]
  simp only [Complex.ofReal_neg, neg_mul, Complex.exp_neg, Complex.exp_pi_mul_I]
  simp [vis]
  norm_num

omit hu in
/-- Non-vacuity of the size hypotheses: 2 times, 3 baselines, 2 channels, 4 polarisations. -/
example : (⟨18, fun _ => 0⟩ : Arr ℝ).size = (⟨2, 3, 2, 4⟩ : Dims).times * 3 * 3 ∧
    (⟨48, fun _ => 0⟩ : Arr ℂ).size = 2 * 3 * 2 * 4 ∧ Sample ⟨2, 3, 2, 4⟩ 1 2 1 3 := by
  refine ⟨rfl, rfl, ?_⟩; unfold Sample; decide

end
end Sdp.PhaseRotate
