import Verif.Fft.BackendProps
import Verif.Fft.CallFalse

/-!
# C107: where the FFT back ends differ, and examples
-/

namespace Sdp.Fft
open Complex MemSpec
noncomputable section

theorem laid4 (g : Nat → ℂ) : Laid (wrap .complexDouble [4]) ⟨4, g⟩ :=
  ⟨desc4 g, fun _ => ⟨rfl, fun i hi => by
    have : i < 1 := hi
    obtain rfl : i = 0 := by omega
    rfl⟩⟩

/-- A plan of a build for arrays of four values. -/
theorem plan4_build (b : Build) (fwd : Int) :
    ∃ p, bCreate b true (wrap .complexDouble [4]) (wrap .complexDouble [4]) 1 fwd .success = (some p, .success) := by
  have hs := C107_create_partial b ⟨.pocket, false⟩ (wrap .complexDouble [4]) (wrap .complexDouble [4]) 1 fwd .success
    (laid4 fun _ => 0) rfl (by omega) (.inr ⟨rfl, rfl⟩)
  have h2 : (bCreate ⟨.pocket, false⟩ true (wrap .complexDouble [4]) (wrap .complexDouble [4]) 1 fwd .success).2 =
      .success := by
    unfold bCreate
    rw [if_neg (by decide)]
    rfl
  have h3 := hs.2.2 (hs.1.trans h2)
  rw [Option.isSome_iff_exists] at h3
  obtain ⟨p, hp⟩ := h3
  exact ⟨p, Prod.ext hp (hs.1.trans h2)⟩

/-- The four host back ends on four values: hypotheses of `C107_transform_partial` and `C107_agree`. -/
example (b b' : Build) : ∃ p p' r t r' t',
    bCreate b true (wrap .complexDouble [4]) (wrap .complexDouble [4]) 1 1 .success = (some p, .success) ∧
    bExec b true (some p) use4.mi use4.mo use4.st use4.o1 use4.o2 use4.same use4.inp use4.out ⟨4, fun _ => 0⟩ =
      some (.success, r, t) ∧
    bExec b' true (some p') use4.mi use4.mo use4.st use4.o1 use4.o2 use4.same use4.inp use4.out ⟨4, fun _ => 0⟩ =
      some (.success, r', t') ∧ ∀ i < 4, r.get i = r'.get i := by
  obtain ⟨p, hp⟩ := plan4_build b 1
  obtain ⟨p', hp'⟩ := plan4_build b' 1
  obtain ⟨r, t, r', t', h1, h2, h3⟩ := C107_agree (nd := 1) (by omega) (.inr rfl) hp hp'
    (laid4 fun _ => 0) (laid4 fun _ => 0) (laid4 fun _ => 0) (laid4 fun _ => 0) rfl rfl (.inr rfl) (.inr rfl)
    use4 use4 rfl rfl ⟨laid4 _, laid4 _, fits4, ordered4, fun h => by cases h⟩
    ⟨laid4 _, laid4 _, fits4, ordered4, fun h => by cases h⟩ ⟨4, fun _ => 0⟩ ⟨4, fun _ => 0⟩ rfl rfl
  exact ⟨p, p', r, t, r', t', hp, h1, h2, h3⟩

/-- A batch of two transforms of 2 x 3 x 1 values in device memory: rank three, cuFFT. -/
def gpu4d : Mem := (createWrapper (some ⟨0, 0⟩) .complexFloat .gpu [2, 2, 3, 1] none .success).1

example : ∃ p r t, bCreate ⟨.native, true⟩ true gpu4d gpu4d (3 : Nat) 7 .success = (some p, .success) ∧
    bExec ⟨.native, true⟩ true (some p) gpu4d gpu4d .success [] [] true ⟨12, fun i => i⟩ ⟨12, fun i => i⟩ ⟨12, fun _ => 0⟩ =
      some (.success, r, t) ∧ Dft 3 (-1) [2, 2, 3, 1] ⟨12, fun i => i⟩ r := by
  have hl : ∀ g : Nat → ℂ, Laid gpu4d ⟨12, g⟩ := fun g =>
    ⟨⟨⟨by decide, by decide, rfl⟩, by decide⟩, fun _ => ⟨by decide, by decide⟩⟩
  have hp : ∃ p, bCreate ⟨.native, true⟩ true gpu4d gpu4d (3 : Nat) 7 .success = (some p, .success) := by
    unfold bCreate
    rw [if_neg (by decide)]
    exact ⟨_, rfl⟩
  obtain ⟨p, hp⟩ := hp
  obtain ⟨r, t, e, -, v⟩ := C107_transform_partial (nd := 3) (by omega) (fun _ h => by revert h; decide) hp (hl fun _ => 0)
    (hl fun _ => 0) rfl (.inl rfl) ⟨gpu4d, gpu4d, .success, true, ⟨12, fun i => i⟩, ⟨12, fun i => i⟩, [], []⟩ (hl _) (hl _)
    ⟨rfl, ⟨rfl, rfl, rfl, rfl⟩, ⟨rfl, rfl, rfl, rfl⟩, by decide, by decide, by decide, by decide, by decide⟩
    ⟨fun h => by omega, fun h => by omega⟩ (fun _ => rfl) ⟨12, fun _ => 0⟩ rfl
  exact ⟨p, r, t, hp, e, v⟩

/-! ## Where the back ends differ -/

theorem dft4 {sign : Int} {r : Arr ℂ} (h : Dft 1 sign [4] use4.inp r) : r.get 1 = wave sign 4 1 1 := by
  have := h [] [1] .nil (.cons ⟨by norm_num, by norm_num⟩ .nil)
  simp only [List.length_singleton, Nat.sub_self, List.drop_zero, List.nil_append, nested, flatIndex, use4,
    List.prod_nil, mul_one, add_zero] at this
  norm_num [Finset.sum_range_succ] at this
  exact this

/-- C107 is false for `is_forward = 2`: the same program computes the inverse transform with the library's own
transforms and the forward transform with any other build. -/
theorem C107_direction_false (b : Build) (hb : b.host ≠ .native) : ∃ p p' r t r' t',
    bCreate ⟨.native, false⟩ true (wrap .complexDouble [4]) (wrap .complexDouble [4]) 1 2 .success =
      (some p, .success) ∧
    bCreate b true (wrap .complexDouble [4]) (wrap .complexDouble [4]) 1 2 .success = (some p', .success) ∧
    bExec ⟨.native, false⟩ true (some p) use4.mi use4.mo use4.st use4.o1 use4.o2 use4.same use4.inp use4.out
      ⟨4, fun _ => 0⟩ = some (.success, r, t) ∧
    bExec b true (some p') use4.mi use4.mo use4.st use4.o1 use4.o2 use4.same use4.inp use4.out ⟨4, fun _ => 0⟩ =
      some (.success, r', t') ∧ r.get 1 = I ∧ r'.get 1 = -I := by
  obtain ⟨p', hp'⟩ := plan4_build b 2
  obtain ⟨r', t', e', -, v'⟩ := C107_transform_partial (nd := 1) (by omega) (fun h => absurd h hb) hp' (laid4 fun _ => 0)
    (laid4 fun _ => 0) rfl (.inr rfl) use4 (laid4 _) (laid4 _) fits4 ordered4 (fun h => by cases h) ⟨4, fun _ => 0⟩ rfl
  obtain ⟨r, t, e, -, -, v⟩ := exec_fit (.inl rfl) (plan4_created 2) (desc4 fun _ => 0) (desc4 fun _ => 0) rfl
    (.inr rfl) use4 (desc4 _) (desc4 _) fits4 ordered4 (by intro h; cases h) ⟨4, fun _ => 0⟩ rfl
  have hn : bCreate ⟨.native, false⟩ true (wrap .complexDouble [4]) (wrap .complexDouble [4]) 1 2 .success =
      (some ⟨plan4 2, .none⟩, .success) := by
    have hc : checkParams (wrap .complexDouble [4]) (wrap .complexDouble [4]) 1 .success = .success := by decide
    have hn : createNative (wrap .complexDouble [4]) 1 = ((4, 1), .success) := by decide
    have l : (wrap .complexDouble [4]).location = .cpu := by decide
    unfold bCreate
    simp only [hc, l, hn]
    rfl
  refine ⟨⟨plan4 2, .none⟩, p', r, t, r', t', hn, hp', ?_, e', ?_, ?_⟩
  · have hc : checkParams (wrap .complexDouble [4]) (wrap .complexDouble [4]) 1 .success = .success := by decide
    have mm : isMatching (wrap .complexDouble [4]) (wrap .complexDouble [4]) true = true := by decide
    have l : (wrap .complexDouble [4]).location = .cpu := by decide
    rw [← e]
    unfold bExec
    simp only [use4, plan4, hc, l, mm]
    rfl
  · rw [← wave4.1]
    exact dft4 (dft_of_transformed (m := use4.mi) rfl (.inl rfl) (.inl rfl) v)
  · rw [← wave4.2]
    exact dft4 v'

/-- C107 is false for an input in single and an output in double precision: the library's own transforms succeed and
leave the output as it was; PocketFFT makes the plan and refuses its use; MKL refuses the plan. -/
theorem C107_mixed_false (inp out tmp : Arr ℂ) (fwd : Int) : ∃ p p',
    bCreate ⟨.native, false⟩ true (wrap .complexFloat [4]) (wrap .complexDouble [4]) 1 fwd .success =
      (some p, .success) ∧
    bExec ⟨.native, false⟩ true (some p) (wrap .complexFloat [4]) (wrap .complexDouble [4]) .success [] [] false inp out
      tmp = some (.success, out, tmp) ∧
    bCreate ⟨.pocket, false⟩ true (wrap .complexFloat [4]) (wrap .complexDouble [4]) 1 fwd .success =
      (some p', .success) ∧
    bExec ⟨.pocket, false⟩ true (some p') (wrap .complexFloat [4]) (wrap .complexDouble [4]) .success [] [] false inp
      out tmp = some (.invalidArgument, out, tmp) ∧
    (bCreate ⟨.mkl, false⟩ true (wrap .complexFloat [4]) (wrap .complexDouble [4]) 1 fwd .success).2 = .dataType := by
  have hc : checkParams (wrap .complexFloat [4]) (wrap .complexDouble [4]) 1 .success = .success := by decide
  have hn : createNative (wrap .complexFloat [4]) 1 = ((4, 1), .success) := by decide
  have l : (wrap .complexFloat [4]).location = .cpu := by decide
  have mi : isMatching (wrap .complexFloat [4]) (wrap .complexFloat [4]) true = true := by decide
  have mo : isMatching (wrap .complexDouble [4]) (wrap .complexDouble [4]) true = true := by decide
  have sf : ¬ sameFloat (wrap .complexFloat [4]) (wrap .complexDouble [4]) := by decide
  refine ⟨⟨⟨wrap .complexFloat [4], wrap .complexDouble [4], 1, 4, 1, 1, fwd⟩, .none⟩,
    ⟨⟨wrap .complexFloat [4], wrap .complexDouble [4], 1, 0, 0, 1, fwd⟩,
      createPocket (wrap .complexFloat [4]) (wrap .complexDouble [4]) 1⟩, ?_, ?_, ?_, ?_, ?_⟩
  · unfold bCreate
    simp only [hc, l, hn]
    rfl
  · unfold bExec fftExec
    simp only [hc, l, mi, mo, sf]
    simp
  · unfold bCreate
    simp only [hc, l]
    rfl
  · unfold bExec libExec createPocket
    simp only [hc, l, mi, mo, sf]
    simp
  · unfold bCreate createMkl
    simp only [hc, l, sf]
    simp

/-- C107 is false for three dimensions: the library's own transforms refuse what the other builds accept. -/
theorem C107_dims_false (fwd : Int) :
    (bCreate ⟨.native, false⟩ true (wrap .complexDouble [2, 2, 2]) (wrap .complexDouble [2, 2, 2]) 3 fwd .success).2 =
      .dataType ∧
    (bCreate ⟨.pocket, false⟩ true (wrap .complexDouble [2, 2, 2]) (wrap .complexDouble [2, 2, 2]) 3 fwd .success).2 =
      .success ∧
    (bCreate ⟨.mkl, false⟩ true (wrap .complexDouble [2, 2, 2]) (wrap .complexDouble [2, 2, 2]) 3 fwd .success).2 =
      .success := by
  have hc : checkParams (wrap .complexDouble [2, 2, 2]) (wrap .complexDouble [2, 2, 2]) 3 .success = .success := by
    decide
  have hn : (createNative (wrap .complexDouble [2, 2, 2]) 3).2 = .dataType := by decide
  have l : (wrap .complexDouble [2, 2, 2]).location = .cpu := by decide
  have sf : sameFloat (wrap .complexDouble [2, 2, 2]) (wrap .complexDouble [2, 2, 2]) := by decide
  refine ⟨?_, ?_, ?_⟩
  · unfold bCreate
    simp only [hc, l, hn]
    rfl
  · unfold bCreate
    simp only [hc, l]
    rfl
  · unfold bCreate createMkl
    simp only [hc, l, sf]
    simp

end
end Sdp.Fft
