import Verif.Flagger.Props

/-!
# C12: the window around a flagged channel, and the acceptance conditions
-/

namespace Sdp.Flagger
variable {α : Type}

/-- C12.  Around a flagged channel `c` exactly the channels within the window are written,
except that channel 0 is never reached from the right (an off-by-one in the left test). -/
theorem C12_window_exact (P : Params α) (c c' : Nat) (hc : c < P.nChannels) :
    c' ∈ windowChannels P c ↔
      c' = c ∨ (0 < c' ∧ c' < c ∧ c ≤ c' + P.window) ∨
        (c < c' ∧ c' ≤ c + P.window ∧ c' < P.nChannels) := by
  unfold windowChannels
  simp only [List.mem_cons, List.mem_flatMap, List.mem_range, List.mem_append]
  constructor
  · rintro (h | ⟨w, hw, h | h⟩)
    · exact Or.inl h
    · split at h
      · simp only [List.mem_singleton] at h; omega
      · simp at h
    · split at h
      · simp only [List.mem_singleton] at h; omega
      · simp at h
  · rintro (h | ⟨h1, h2, h3⟩ | ⟨h1, h2, h3⟩)
    · exact Or.inl h
    · right
      refine ⟨c - c' - 1, by omega, Or.inl ?_⟩
      rw [if_pos (by omega)]
      simp only [List.mem_singleton]; omega
    · right
      refine ⟨c' - c - 1, by omega, Or.inr ?_⟩
      rw [if_pos (by omega)]
      simp only [List.mem_singleton]; omega

/-- Instance: window 2 around channel 1 of 3 writes channels 1 and 2, not 0. -/
example (P : Params Nat) (h1 : P.window = 2) (h2 : P.nChannels = 3) :
    0 ∉ windowChannels P 1 ∧ 2 ∈ windowChannels P 1 := by
  constructor
  · rw [C12_window_exact P 1 0 (by omega)]; omega
  · rw [C12_window_exact P 1 2 (by omega)]; omega

/-- C12.  The argument check succeeds exactly when the flags are writable, both arrays are
C contiguous and four-dimensional, the visibilities are complex, the flags are integers and
both are in the same memory space. -/
theorem C12_accepted_iff (vis flags : Mem) :
    checkParams vis flags .success = .success ↔
      flags.queryReadOnly = false ∧ vis.queryCContiguous = true ∧ flags.queryCContiguous = true ∧
      vis.numDims = 4 ∧ flags.numDims = 4 ∧ vis.queryComplex = true ∧ flags.type = .int ∧
      vis.location = flags.location := by
  unfold checkParams
  constructor
  · intro h
    split_ifs at h with a b c d e f g <;>
      simp_all
  · rintro ⟨a, b, c, d, e, f, g, h⟩
    simp [a, b, c, d, e, f, g, h]

/-- C12.  An earlier error is kept. -/
theorem C12_keeps_error (vis flags : Mem) (s : Status) (h : s ≠ .success) :
    checkParams vis flags s = s := by
  unfold checkParams; rw [if_pos h]

end Sdp.Flagger
