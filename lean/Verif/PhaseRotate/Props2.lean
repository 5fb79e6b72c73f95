import Verif.PhaseRotate.Vis

/-!
# C19, C20: the rotation and the offsets, stated geometrically
-/

namespace Sdp.PhaseRotate
noncomputable section

/-- Specification: dot product in three dimensions. -/
def dot (a b : Fin 3 → ℝ) : ℝ := a 0 * b 0 + a 1 * b 1 + a 2 * b 2

/-- Specification: unit vector towards a sky position. -/
def direction (c : Coord) : Fin 3 → ℝ :=
  ![Real.cos c.dec * Real.cos c.ra, Real.cos c.dec * Real.sin c.ra, Real.sin c.dec]

/-- Specification: unit vector towards the east at a sky position. -/
def east (c : Coord) : Fin 3 → ℝ := ![-Real.sin c.ra, Real.cos c.ra, 0]

/-- Specification: unit vector towards the north at a sky position. -/
def north (c : Coord) : Fin 3 → ℝ :=
  ![-Real.sin c.dec * Real.cos c.ra, -Real.sin c.dec * Real.sin c.ra, Real.cos c.dec]

/-- C20.  The offsets used for the visibility phases are the direction cosines of the old phase
centre minus those of the new one, both with respect to the old phase centre (east, north and
line of sight there). -/
theorem C20_offsets (a b : Coord) :
    delta a b = (dot (direction a) (east a) - dot (direction b) (east a),
      dot (direction a) (north a) - dot (direction b) (north a),
      dot (direction a) (direction a) - dot (direction b) (direction a)) := by
  have hs : Real.sin (-(b.ra - a.ra)) = -(Real.sin b.ra * Real.cos a.ra -
      Real.cos b.ra * Real.sin a.ra) := by rw [Real.sin_neg, Real.sin_sub]
  have hc : Real.cos (-(b.ra - a.ra)) = Real.cos b.ra * Real.cos a.ra +
      Real.sin b.ra * Real.sin a.ra := by rw [Real.cos_neg, Real.cos_sub]
  have h1 := Real.sin_sq_add_cos_sq a.ra
  have h2 := Real.sin_sq_add_cos_sq a.dec
  simp only [delta, dot, direction, east, north, hs, hc, Matrix.cons_val_zero, Matrix.cons_val_one,
    Matrix.cons_val]
  refine Prod.ext ?_ (Prod.ext ?_ ?_)
  · simp only; ring
  · simp only; linear_combination (Real.cos a.dec * Real.sin a.dec) * h1
  · simp only; linear_combination (-(Real.cos a.dec) ^ 2) * h1 - h2

/-- Specification: rotation about the v axis. -/
def rotV (t : ℝ) (x : Fin 3 → ℝ) : Fin 3 → ℝ :=
  ![Real.cos t * x 0 + Real.sin t * x 2, x 1, -Real.sin t * x 0 + Real.cos t * x 2]

/-- Specification: rotation about the u axis. -/
def rotU (t : ℝ) (x : Fin 3 → ℝ) : Fin 3 → ℝ :=
  ![x 0, Real.cos t * x 1 - Real.sin t * x 2, Real.sin t * x 1 + Real.cos t * x 2]

/-- C19.  Every uvw triple is first rotated about the v axis by minus the right ascension
difference and then about the u axis by the declination difference, in place or not. -/
theorem C19_rotation (a b : Coord) (n : Nat) (src : Option (Arr ℝ)) (out : Arr ℝ)
    (ho : out.size = n * 3) (hs : ∀ x, src = some x → x.size = n * 3) :
    ∃ r, rotateUvw n (mat a b) src out = some r ∧ r.size = out.size ∧
      ∀ k < n, ∀ i, triple r k i =
        rotU (b.dec - a.dec) (rotV (a.ra - b.ra) (triple (src.getD out) k)) i := by
  obtain ⟨r, hr, hrs, hv, -⟩ := rotateUvw_spec (mat a b) src n out (by omega)
    fun x hx => by have := hs x hx; omega
  refine ⟨r, hr, hrs, fun k hk i => ?_⟩
  rw [hv k hk]
  have e : -(b.ra - a.ra) = a.ra - b.ra := by ring
  fin_cases i <;> simp [apply, mat, rotU, rotV, e] <;> ring

end
end Sdp.PhaseRotate
