import Verif.Element.CallSpec
import Mathlib.Tactic.Ring
import Mathlib.Tactic.Common
import Mathlib.Tactic.Linarith

/-
C122: what the element beam calls do with the arrays they are given.
-/
namespace Sdp.BeamCall

theorem mem_points (n i : Int) : i ∈ points n ↔ 0 ≤ i ∧ i < n := by
  simp only [points, List.mem_map, List.mem_range]
  constructor
  · rintro ⟨k, hk, rfl⟩; omega
  · rintro ⟨h0, h1⟩; exact ⟨i.toNat, by omega, by omega⟩

theorem allRight_points (A : Which → Mem) (n : Int) (f : Int → List Use) :
    AllRight A ((points n).flatMap f) ↔ ∀ i, 0 ≤ i → i < n → AllRight A (f i) := by
  simp only [AllRight, List.mem_flatMap, mem_points]
  constructor
  · intro h i h0 h1 u hu; exact h u ⟨i, ⟨h0, h1⟩, hu⟩
  · rintro h u ⟨i, ⟨h0, h1⟩, hu⟩; exact h i h0 h1 u hu

/-- Reading each of `n` points. -/
theorem read_points (m : Mem) (w : Which) (t : MemType) (n : Int) (hn : 0 < n) :
    (∀ i, 0 ≤ i → i < n → Right m ⟨w, t, i, false⟩) ↔ Has m t n := by
  unfold Right Has
  constructor
  · intro h
    obtain ⟨a, b, c, _, d, _⟩ := h (n - 1) (by omega) (by omega)
    dsimp only at c d
    exact ⟨a, b, c, by omega⟩
  · rintro ⟨a, b, c, d⟩ i h0 h1
    exact ⟨a, b, c, h0, by dsimp only; omega, fun h => by cases h⟩

/-- A position between the first and the last. -/
theorem between (n s i : Int) (h0 : 0 ≤ i) (h1 : i < n) :
    (0 ≤ i * s ∧ i * s ≤ (n - 1) * s) ∨ ((n - 1) * s ≤ i * s ∧ i * s ≤ 0) := by
  rcases le_total 0 s with hs | hs
  · left
    exact ⟨mul_nonneg h0 hs, mul_le_mul_of_nonneg_right (by omega) hs⟩
  · right
    exact ⟨mul_le_mul_of_nonpos_right (by omega) hs, mul_nonpos_of_nonneg_of_nonpos h0 hs⟩

theorem allRight_append (A : Which → Mem) (a b : List Use) :
    AllRight A (a ++ b) ↔ AllRight A a ∧ AllRight A b := by
  simp only [AllRight, List.mem_append]
  exact ⟨fun h => ⟨fun u hu => h u (Or.inl hu), fun u hu => h u (Or.inr hu)⟩,
    fun h u hu => hu.elim (h.1 u) (h.2 u)⟩

theorem allRight_cons (A : Which → Mem) (a : Use) (b : List Use) :
    AllRight A (a :: b) ↔ Right (A a.arr) a ∧ AllRight A b := by
  simp only [AllRight, List.mem_cons]
  exact ⟨fun h => ⟨h a (Or.inl rfl), fun u hu => h u (Or.inr hu)⟩,
    fun h u hu => hu.elim (fun e => e ▸ h.1) (h.2 u)⟩

theorem allRight_nil (A : Which → Mem) : AllRight A [] := fun u hu => by cases hu

/-- Writing one value for each of `n` points. -/
theorem write_points (m : Mem) (n s off p : Int) (hn : 0 < n) (w : Int → List Use)
    (A : Which → Mem)
    (hw : ∀ i, AllRight A (w i) ↔ (m.data.isSome = true ∧ m.isCContiguous = true ∧
      m.isReadOnly = false ∧ 0 ≤ i * s + off ∧ i * s + off + p ≤ m.numElements)) :
    (∀ i, 0 ≤ i → i < n → AllRight A (w i)) ↔ BeamFits m n s off p := by
  unfold BeamFits
  constructor
  · intro h
    obtain ⟨a, b, c, d, e⟩ := (hw _).1 (h 0 (by omega) (by omega))
    obtain ⟨_, _, _, f, g⟩ := (hw _).1 (h (n - 1) (by omega) (by omega))
    rw [zero_mul] at d e
    exact ⟨a, b, c, by omega, by omega, f, g⟩
  · rintro ⟨a, b, c, d, e, f, g⟩ i h0 h1
    refine (hw i).2 ⟨a, b, c, ?_, ?_⟩ <;> rcases between n s i h0 h1 with h | h <;> omega

/-- How many values the dipole functions write for each point. -/
def valuesOf (pol : Bool) : Int := if pol then 2 else 1

theorem dipoleAt_right (A : Which → Mem) (real cplx : MemType) (pol : Bool) (s off : Int)
    (hc : (A .beam).type = cplx) (i : Int) :
    AllRight A (dipoleAt real cplx pol s off i) ↔
      Right (A .phi) ⟨.phi, real, i, false⟩ ∧ Right (A .theta) ⟨.theta, real, i, false⟩ ∧
      ((A .beam).data.isSome = true ∧ (A .beam).isCContiguous = true ∧
        (A .beam).isReadOnly = false ∧ 0 ≤ i * s + off ∧
        i * s + off + valuesOf pol ≤ (A .beam).numElements) := by
  unfold dipoleAt valuesOf
  rw [allRight_append, allRight_cons, allRight_cons]
  have nil := allRight_nil A
  have key : AllRight A (if pol = true then
      [⟨.beam, cplx, i * s + off, true⟩, ⟨.beam, cplx, i * s + (off + 1), true⟩]
      else [⟨.beam, cplx, i * s + off, true⟩]) ↔
      ((A .beam).data.isSome = true ∧ (A .beam).isCContiguous = true ∧
        (A .beam).isReadOnly = false ∧ 0 ≤ i * s + off ∧
        i * s + off + (if pol then 2 else 1) ≤ (A .beam).numElements) := by
    cases pol
    · simp only [Bool.false_eq_true, if_false, allRight_cons, Right, hc, nil]
      constructor
      · rintro ⟨⟨a, b, _, d, e, f⟩, _⟩
        exact ⟨a, b, f trivial, d, by omega⟩
      · rintro ⟨a, b, c, d, e⟩
        exact ⟨⟨a, b, trivial, d, by omega, fun _ => c⟩, trivial⟩
    · simp only [if_true, allRight_cons, Right, hc, nil]
      constructor
      · rintro ⟨⟨a, b, _, d, e, f⟩, ⟨_, _, _, g, h, _⟩, _⟩
        exact ⟨a, b, f trivial, d, by omega⟩
      · rintro ⟨a, b, c, d, e⟩
        exact ⟨⟨a, b, trivial, d, by omega, fun _ => c⟩, ⟨a, b, trivial, by omega, by omega, fun _ => c⟩,
          trivial⟩
  rw [key]
  simp only [nil, and_true, and_assoc]

/-- The arrays of a dipole call. -/
def dipoleArrays (theta phi beam : Mem) : Which → Mem
  | .theta => theta
  | .phi => phi
  | .phiY => phi
  | .coeffs => phi
  | .beam => beam

theorem forall_and_points {n : Int} {p q r : Int → Prop} :
    (∀ i, 0 ≤ i → i < n → (p i ∧ q i ∧ r i)) ↔
    (∀ i, 0 ≤ i → i < n → p i) ∧ (∀ i, 0 ≤ i → i < n → q i) ∧ (∀ i, 0 ≤ i → i < n → r i) :=
  ⟨fun h => ⟨fun i a b => (h i a b).1, fun i a b => (h i a b).2.1, fun i a b => (h i a b).2.2⟩,
    fun h i a b => ⟨h.1 i a b, h.2.1 i a b, h.2.2 i a b⟩⟩

/-- The dipole functions on `n` points use their arrays rightly exactly if these are
large enough and of the right types. -/
theorem dipole_points (real : MemType) (n s off : Int) (hn : 0 < n) (theta phi beam : Mem) (pol : Bool) :
    AllRight (dipoleArrays theta phi beam) ((points n).flatMap (dipoleAt real beam.type pol s off)) ↔
      Has theta real n ∧ Has phi real n ∧ BeamFits beam n s off (valuesOf pol) := by
  rw [allRight_points]
  simp only [dipoleAt_right (dipoleArrays theta phi beam) real beam.type pol s off rfl]
  rw [forall_and_points, show dipoleArrays theta phi beam .phi = phi from rfl,
    show dipoleArrays theta phi beam .theta = theta from rfl,
    show dipoleArrays theta phi beam .beam = beam from rfl,
    read_points phi .phi real n hn, read_points theta .theta real n hn]
  have hb : (∀ i, 0 ≤ i → i < n → (beam.data.isSome = true ∧ beam.isCContiguous = true ∧
      beam.isReadOnly = false ∧ 0 ≤ i * s + off ∧ i * s + off + valuesOf pol ≤ beam.numElements)) ↔
      BeamFits beam n s off (valuesOf pol) := by
    unfold BeamFits
    constructor
    · intro h
      obtain ⟨a, b, c, d, e⟩ := h 0 (by omega) (by omega)
      obtain ⟨_, _, _, f, g⟩ := h (n - 1) (by omega) (by omega)
      rw [zero_mul] at d e
      exact ⟨a, b, c, by omega, by omega, f, g⟩
    · rintro ⟨a, b, c, d, e, f, g⟩ i h0 h1
      refine ⟨a, b, c, ?_, ?_⟩ <;> rcases between n s i h0 h1 with h | h <;> omega
  rw [hb]
  tauto

/-- C122: a dipole call in main memory is refused exactly if there is an earlier error, an
input is elsewhere, or the output is not complex; otherwise it uses its arrays rightly
exactly if they hold all points, in the precision of the output. -/
theorem C122_dipole_cpu (cuda : Bool) (n s off : Int) (theta phi beam : Mem) (st : Status)
    (hb : beam.location = .cpu) (ht : beam.type ≠ .complexBit) :
    ((∃ e, dipoleCall cuda n s off theta phi beam st = .refused e) ↔
      (st ≠ .success ∨ theta.location ≠ .cpu ∨ phi.location ≠ .cpu ∨ beam.queryComplex = false)) ∧
    (∀ l, dipoleCall cuda n s off theta phi beam st = .ran l →
      ∃ real, realOf beam.type = some real ∧
        (AllRight (dipoleArrays theta phi beam) l ↔ (n ≤ 0 ∨ (Has theta real n ∧ Has phi real n ∧
          BeamFits beam n s off (if beam.queryComplex4 then 2 else 1))))) := by
  unfold dipoleCall
  rw [hb]
  by_cases h1 : st = .success
  swap
  · rw [if_pos h1]
    exact ⟨⟨fun _ => Or.inl h1, fun _ => ⟨_, rfl⟩⟩, fun l h => by cases h⟩
  rw [if_neg (not_not.2 h1)]
  by_cases h2 : theta.location ≠ .cpu ∨ phi.location ≠ .cpu
  · rw [if_pos h2]
    exact ⟨⟨fun _ => Or.inr (by tauto), fun _ => ⟨_, rfl⟩⟩, fun l h => by cases h⟩
  rw [if_neg h2]
  by_cases h3 : beam.queryComplex = false
  · rw [if_pos h3]
    exact ⟨⟨fun _ => by tauto, fun _ => ⟨_, rfl⟩⟩, fun l h => by cases h⟩
  rw [if_neg h3]
  obtain ⟨real, hreal⟩ : ∃ real, realOf beam.type = some real := by
    unfold Mem.queryComplex at h3
    cases hd : beam.data <;> cases hty : beam.type <;> simp_all [realOf]
  rw [hreal]
  refine ⟨⟨fun h => (by obtain ⟨e, h⟩ := h; cases h), fun h => by tauto⟩, fun l h => ?_⟩
  have e : (points n).flatMap (dipoleAt real beam.type beam.queryComplex4 s off) = l := by
    injection h
  subst e
  refine ⟨real, rfl, ?_⟩
  by_cases hn : 0 < n
  · rw [dipole_points real n s off hn theta phi beam]
    unfold valuesOf
    constructor
    · exact fun h => Or.inr h
    · rintro (h | h)
      · omega
      · exact h
  · have : points n = [] := by
      unfold points
      rw [show n.toNat = 0 by omega]; rfl
    rw [this]
    exact ⟨fun _ => Or.inl (by omega), fun _ => allRight_nil _⟩

/-- C122: a dipole call on the GPU that runs uses its arrays rightly exactly if they hold
the points of all threads, a multiple of 256. -/
theorem C122_dipole_gpu (cuda : Bool) (n s off : Int) (theta phi beam : Mem) (st : Status)
    (hb : beam.location = .gpu) (l : List Use)
    (h : dipoleCall cuda n s off theta phi beam st = .ran l) :
    ∃ real, realOf beam.type = some real ∧ 0 < n ∧
      (AllRight (dipoleArrays theta phi beam) l ↔
        (Has theta real ((n + 255) / 256 * 256) ∧ Has phi real ((n + 255) / 256 * 256) ∧
          BeamFits beam ((n + 255) / 256 * 256) s off (if beam.queryComplex4 then 2 else 1))) := by
  unfold dipoleCall at h
  rw [hb] at h
  by_cases h1 : st = .success
  swap
  · rw [if_pos h1] at h; cases h
  rw [if_neg (not_not.2 h1)] at h
  by_cases h2 : theta.location ≠ .gpu ∨ phi.location ≠ .gpu
  · rw [if_pos h2] at h; cases h
  rw [if_neg h2] at h
  by_cases h3 : beam.queryComplex = false
  · rw [if_pos h3] at h; cases h
  rw [if_neg h3] at h
  cases hreal : realOf beam.type with
  | none => rw [hreal] at h; cases h
  | some real =>
    rw [hreal] at h
    dsimp only [launchAll] at h
    by_cases h4 : cuda = false ∨ n ≤ 0
    · rw [if_pos h4] at h; cases h
    rw [if_neg h4] at h
    have hn : 0 < n := by
      rcases not_or.1 h4 with ⟨_, h5⟩
      omega
    refine ⟨real, rfl, hn, ?_⟩
    have e : (points ((blocks n.toNat 256 * 256 : Nat) : Int)).flatMap
        (dipoleAt real beam.type beam.queryComplex4 s off) = l := by injection h
    subst e
    have hblocks : ((blocks n.toNat 256 * 256 : Nat) : Int) = (n + 255) / 256 * 256 := by
      unfold blocks
      omega
    rw [hblocks, dipole_points real _ s off (by omega) theta phi beam]
    rfl

/-- Coefficients of all orders up to `L`. -/
theorem coeffs_right (A : Which → Mem) (cplx : MemType) (L : Int) (hL : 0 < L) :
    AllRight A ((points L).flatMap fun k => orderAt cplx (k + 1)) ↔
      Has (A .coeffs) cplx (4 * (L * (L + 2))) := by
  rw [allRight_points]
  have cr : ∀ l m : Int, AllRight A (coeffAt cplx l m) ↔
      ((A .coeffs).data.isSome = true ∧ (A .coeffs).isCContiguous = true ∧
        (A .coeffs).type = cplx ∧ 0 ≤ 4 * (l * l - 1 + l + m) ∧
        4 * (l * l - 1 + l + m) + 4 ≤ (A .coeffs).numElements) := by
    intro l m
    have nil := allRight_nil A
    unfold coeffAt
    simp only [allRight_cons, Right, nil]
    constructor
    · rintro ⟨⟨a, b, c, d, e, f⟩, ⟨_, _, _, g, h, _⟩, ⟨_, _, _, g2, h2, _⟩, ⟨_, _, _, g3, h3, _⟩, _⟩
      exact ⟨a, b, c, d, by omega⟩
    · rintro ⟨a, b, c, d, e⟩
      exact ⟨⟨a, b, c, d, by omega, fun h => by cases h⟩, ⟨a, b, c, by omega, by omega, fun h => by cases h⟩,
        ⟨a, b, c, by omega, by omega, fun h => by cases h⟩,
        ⟨a, b, c, by omega, by omega, fun h => by cases h⟩, trivial⟩
  have ord : ∀ l : Int, 0 < l → (AllRight A (orderAt cplx l) ↔ ∀ d, 0 ≤ d → d < l + 1 →
      AllRight A (if l - d = 0 then coeffAt cplx l 0
        else coeffAt cplx l (-(l - d)) ++ coeffAt cplx l (l - d))) := by
    intro l hl
    unfold orderAt
    rw [allRight_points]
  unfold Has
  constructor
  · intro h
    have h1 := (ord (L - 1 + 1) (by omega)).1 (h (L - 1) (by omega) (by omega)) 0 (by omega) (by omega)
    rw [if_neg (by omega), allRight_append, cr, cr] at h1
    obtain ⟨_, a, b, c, d, e⟩ := h1
    refine ⟨a, b, c, ?_⟩
    rw [show L - 1 + 1 = L by omega, Int.sub_zero] at e
    have : L * (L + 2) = L * L + 2 * L := by ring
    omega
  · rintro ⟨a, b, c, d⟩ k h0 h1
    rw [ord (k + 1) (by omega)]
    intro m hm0 hm1
    have q : (k + 1) * (k + 1) ≤ L * L := by
      exact mul_le_mul (by omega) (by omega) (by omega) (by omega)
    have q1 : (k + 1) * 1 ≤ (k + 1) * (k + 1) := mul_le_mul_of_nonneg_left (by omega) (by omega)
    have q2 : L * (L + 2) = L * L + 2 * L := by ring
    split
    · rw [cr]
      exact ⟨a, b, c, by omega, by omega⟩
    · rw [allRight_append, cr, cr]
      exact ⟨⟨a, b, c, by omega, by omega⟩, a, b, c, by omega, by omega⟩

/-- The arrays of a HARP call. -/
def harpArrays (theta phi phiY coeffs beam : Mem) : Which → Mem
  | .theta => theta
  | .phi => phi
  | .phiY => phiY
  | .coeffs => coeffs
  | .beam => beam

/-- C122: a call of the spherical-wave function in main memory is refused exactly if there
is an earlier error, an input is elsewhere, or the output is not complex with four
polarisations; otherwise it uses its arrays rightly exactly if they hold all points in
the precision of the output, and the coefficients of all orders (if any are used). -/
theorem C122_harp_cpu (n lMax off : Int) (nan : Int → Bool) (theta phi phiY coeffs beam : Mem)
    (st : Status) (hb : beam.location = .cpu) (ht : beam.type ≠ .complexBit) :
    ((∃ e, harpCall n lMax off nan theta phi phiY coeffs beam st = .refused e) ↔
      (st ≠ .success ∨ theta.location ≠ .cpu ∨ phi.location ≠ .cpu ∨ phiY.location ≠ .cpu ∨
        coeffs.location ≠ .cpu ∨ beam.queryComplex4 = false)) ∧
    (∀ l, harpCall n lMax off nan theta phi phiY coeffs beam st = .ran l →
      ∃ real, realOf beam.type = some real ∧
        (AllRight (harpArrays theta phi phiY coeffs beam) l ↔ (n ≤ 0 ∨
          (Has theta real n ∧ Has phi real n ∧ Has phiY real n ∧
          (0 < lMax → (∃ i, 0 ≤ i ∧ i < n ∧ nan i = false) →
            Has coeffs beam.type (4 * (lMax * (lMax + 2)))) ∧
          BeamFits beam n 4 (4 * off) 4)))) := by
  unfold harpCall
  rw [hb]
  have h34 : beam.queryComplex = false → beam.queryComplex4 = false := by
    intro h; unfold Mem.queryComplex4; rw [h]; rfl
  by_cases h1 : st = .success
  swap
  · rw [if_pos h1]
    exact ⟨⟨fun _ => Or.inl h1, fun _ => ⟨_, rfl⟩⟩, fun l h => by cases h⟩
  rw [if_neg (not_not.2 h1)]
  by_cases h2 : theta.location ≠ .cpu ∨ phi.location ≠ .cpu ∨ phiY.location ≠ .cpu ∨
      coeffs.location ≠ .cpu
  · rw [if_pos h2]
    exact ⟨⟨fun _ => Or.inr (by tauto), fun _ => ⟨_, rfl⟩⟩, fun l h => by cases h⟩
  rw [if_neg h2]
  by_cases h3 : beam.queryComplex = false
  · rw [if_pos h3]
    have := h34 h3
    exact ⟨⟨fun _ => by tauto, fun _ => ⟨_, rfl⟩⟩, fun l h => by cases h⟩
  rw [if_neg h3]
  by_cases h4 : beam.queryComplex4 = true
  swap
  · have h4' : beam.queryComplex4 = false := by cases hh : beam.queryComplex4 <;> simp_all
    dsimp only
    rw [if_neg h4]
    exact ⟨⟨fun _ => by tauto, fun _ => ⟨_, rfl⟩⟩, fun l h => by cases h⟩
  dsimp only
  rw [if_pos h4]
  obtain ⟨real, hreal⟩ : ∃ real, realOf beam.type = some real := by
    unfold Mem.queryComplex at h3
    cases hd : beam.data <;> cases hty : beam.type <;> simp_all [realOf]
  rw [hreal]
  have h4' : ¬ beam.queryComplex4 = false := by rw [h4]; decide
  refine ⟨⟨fun h => (by obtain ⟨e, h⟩ := h; cases h), fun h => by tauto⟩, fun l h => ?_⟩
  have e : (points n).flatMap (harpAt real beam.type lMax off nan) = l := by injection h
  subst e
  refine ⟨real, rfl, ?_⟩
  by_cases hn : 0 < n
  swap
  · have : points n = [] := by
      unfold points
      rw [show n.toNat = 0 by omega]; rfl
    rw [this]
    exact ⟨fun _ => Or.inl (by omega), fun _ => allRight_nil _⟩
  have goal : AllRight (harpArrays theta phi phiY coeffs beam)
      ((points n).flatMap (harpAt real beam.type lMax off nan)) ↔
      (Has theta real n ∧ Has phi real n ∧ Has phiY real n ∧
          (0 < lMax → (∃ i, 0 ≤ i ∧ i < n ∧ nan i = false) →
            Has coeffs beam.type (4 * (lMax * (lMax + 2)))) ∧
          BeamFits beam n 4 (4 * off) 4) := by
    rw [allRight_points]
    unfold harpAt
    have nil := allRight_nil (harpArrays theta phi phiY coeffs beam)
    have w : (∀ i, 0 ≤ i → i < n → AllRight (harpArrays theta phi phiY coeffs beam)
        [⟨.beam, beam.type, 4 * (i + off), true⟩, ⟨.beam, beam.type, 4 * (i + off) + 1, true⟩,
          ⟨.beam, beam.type, 4 * (i + off) + 2, true⟩, ⟨.beam, beam.type, 4 * (i + off) + 3, true⟩]) ↔
        BeamFits beam n 4 (4 * off) 4 := by
      refine write_points beam n 4 (4 * off) 4 hn _ _ fun i => ?_
      simp only [allRight_cons, Right, nil, harpArrays]
      constructor
      · rintro ⟨⟨a, b, c, d, e, f⟩, _, _, ⟨_, _, _, g3, h3, _⟩, _⟩
        exact ⟨a, b, f trivial, by omega, by omega⟩
      · rintro ⟨a, b, c, d, e⟩
        exact ⟨⟨a, b, trivial, by omega, by omega, fun _ => c⟩, ⟨a, b, trivial, by omega, by omega, fun _ => c⟩,
          ⟨a, b, trivial, by omega, by omega, fun _ => c⟩, ⟨a, b, trivial, by omega, by omega, fun _ => c⟩,
          trivial⟩
    have c : (∀ i, 0 ≤ i → i < n → AllRight (harpArrays theta phi phiY coeffs beam)
        (if nan i then [] else (points lMax).flatMap fun k => orderAt beam.type (k + 1))) ↔
        (0 < lMax → (∃ i, 0 ≤ i ∧ i < n ∧ nan i = false) →
            Has coeffs beam.type (4 * (lMax * (lMax + 2)))) := by
      by_cases hl : 0 < lMax
      · have cc := coeffs_right (harpArrays theta phi phiY coeffs beam) beam.type lMax hl
        constructor
        · rintro h _ ⟨i, h0, h1, hi⟩
          have := h i h0 h1
          rw [hi] at this
          exact cc.1 this
        · intro h i h0 h1
          by_cases hi : nan i = true
          · rw [if_pos hi]; exact nil
          · rw [if_neg hi]
            exact cc.2 (h hl ⟨i, h0, h1, by cases hh : nan i <;> simp_all⟩)
      · have e : points lMax = [] := by
          unfold points
          rw [show lMax.toNat = 0 by omega]; rfl
        constructor
        · intro _ hl'; exact absurd hl' hl
        · intro _ i _ _
          rw [e]
          split <;> exact nil
    rw [← w, ← c, ← read_points theta .theta real n hn, ← read_points phi .phi real n hn,
      ← read_points phiY .phiY real n hn]
    constructor
    · intro h
      have h' := fun i h0 h1 => (allRight_append _ _ _).1 (h i h0 h1)
      have h'' := fun i h0 h1 => (allRight_append _ _ _).1 (h' i h0 h1).1
      have h3 := fun i h0 h1 => by
        have := (h'' i h0 h1).1
        rw [allRight_cons, allRight_cons, allRight_cons] at this
        exact this
      exact ⟨fun i a b => (h3 i a b).1, fun i a b => (h3 i a b).2.1, fun i a b => (h3 i a b).2.2.1,
        fun i a b => (h'' i a b).2, fun i a b => (h' i a b).2⟩
    · rintro ⟨p1, p2, p3, p4, p5⟩ i a b
      rw [allRight_append, allRight_append, allRight_cons, allRight_cons, allRight_cons]
      exact ⟨⟨⟨p1 i a b, p2 i a b, p3 i a b, nil⟩, p4 i a b⟩, p5 i a b⟩
  rw [goal]
  constructor
  · exact fun h => Or.inr h
  · rintro (h | h)
    · omega
    · exact h

/-- C122: the spherical-wave function never runs on the GPU. -/
theorem C122_harp_gpu (n lMax off : Int) (nan : Int → Bool) (theta phi phiY coeffs beam : Mem)
    (st : Status) (hb : beam.location = .gpu) :
    ∃ e, e ≠ .success ∧ harpCall n lMax off nan theta phi phiY coeffs beam st = .refused e := by
  unfold harpCall
  rw [hb]
  by_cases h1 : st = .success
  swap
  · rw [if_pos h1]; exact ⟨st, h1, rfl⟩
  rw [if_neg (not_not.2 h1)]
  split
  · exact ⟨_, by decide, rfl⟩
  split
  · exact ⟨_, by decide, rfl⟩
  dsimp only
  split
  · split
    · exact ⟨_, by decide, rfl⟩
    · exact ⟨_, by decide, rfl⟩
  · exact ⟨_, by decide, rfl⟩

end Sdp.BeamCall
