import Verif.Hogbom.Props

/-!
# C22: which calls are rejected
-/

namespace Sdp.Hogbom
variable {F : Type} [Field F] [LinearOrder F]

/-- C22.  A call is rejected (with a runtime error and untouched outputs) exactly when the
image or the PSF is not square, the PSF is not twice as large as the image, an output's first
dimension differs from the image's, the cycle limit is below 1 or the gain is not positive. -/
theorem C22_rejected_iff (conv : Arr F → Option (Arr F)) (dirty psf : Img F) (gain thr : F)
    (limit : Int) (model res sky : Img F) :
    clean conv dirty psf gain thr limit model res sky = .err .runtime ↔
      ¬ (dirty.d0 = dirty.d1 ∧ psf.d0 = psf.d1 ∧ psf.d0 = 2 * dirty.d0 ∧ model.d0 = dirty.d0 ∧
        res.d0 = dirty.d0 ∧ sky.d0 = dirty.d0 ∧ 1 ≤ limit ∧ 0 < gain) := by
  constructor
  · rintro h ⟨a, b, c, d, e, f, g, i⟩
    unfold clean at h
    rw [if_neg (by omega), if_neg (by omega), if_neg (by omega), if_neg (by omega),
      if_neg (by omega), if_neg (by omega), if_neg (by omega), if_neg (not_le.2 i)] at h
    split at h <;> cases h
  · intro h
    unfold clean
    split_ifs <;> try rfl
    exfalso
    apply h
    refine ⟨by omega, by omega, by omega, by omega, by omega, by omega, by omega, ?_⟩
    rw [← not_le]; assumption

end Sdp.Hogbom
