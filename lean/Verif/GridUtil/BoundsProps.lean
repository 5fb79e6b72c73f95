import Mathlib.Tactic.Linarith
import Mathlib.Tactic.Positivity
import Mathlib.Tactic.NormNum
import Mathlib.Data.Rat.Defs
import Mathlib.Algebra.Order.Ring.Rat
import Verif.GridUtil.Bounds

/-!
# C39: the uvw bounding box is exact
-/

namespace Sdp.GridUtil

variable {K : Type} [Field K] [LinearOrder K] [IsStrictOrderedRing K]

/-- Coordinate in wavelengths of a visibility: position `x` metres, channel `ch`. -/
def visCoord (c0 f0 df x : K) (ch : Int) : K := (f0 + df * ch) * x / c0

/-- `b` is the exact bounding interval of the set `S` of coordinates. -/
structure Exact (b : MinMax K) (S : K → Prop) : Prop where
  lower : ∀ c, S c → b.mn ≤ (c : WithTop K)
  upper : ∀ c, S c → (c : WithBot K) ≤ b.mx
  attained_min : b.mn = ⊤ ∨ ∃ c, S c ∧ b.mn = (c : WithTop K)
  attained_max : b.mx = ⊥ ∨ ∃ c, S c ∧ b.mx = (c : WithBot K)

/-- Coordinates along one axis (`j = 0, 1, 2`) of all visibilities in rows `R` whose
channel is in the row's channel range. -/
def coords (c0 f0 df : K) (uvw : Arr K) (startCh endCh : Arr Int) (j : Nat) (R : List Nat)
    (c : K) : Prop :=
  ∃ i ∈ R, ∃ ch : Int, startCh.get i ≤ ch ∧ ch < endCh.get i ∧
    c = visCoord c0 f0 df (uvw.get (3 * i + j)) ch

theorem visCoord_eq (c0 f0 df x : K) (ch : Int) :
    f0 * x / c0 + ch * (df * x / c0) = visCoord c0 f0 df x ch := by
  unfold visCoord; ring

theorem visCoord_mono {c0 f0 df x : K} (hc : 0 < c0) (hd : 0 ≤ df) (hx : 0 ≤ x) {a b : Int}
    (h : a ≤ b) : visCoord c0 f0 df x a ≤ visCoord c0 f0 df x b := by
  unfold visCoord
  have : (a : K) ≤ b := by exact_mod_cast h
  have := mul_le_mul_of_nonneg_left this hd
  gcongr

theorem visCoord_anti {c0 f0 df x : K} (hc : 0 < c0) (hd : 0 ≤ df) (hx : x ≤ 0) {a b : Int}
    (h : a ≤ b) : visCoord c0 f0 df x b ≤ visCoord c0 f0 df x a := by
  unfold visCoord
  have : (a : K) ≤ b := by exact_mod_cast h
  have h1 := mul_le_mul_of_nonneg_left this hd
  have h2 : (f0 + df * b) * x ≤ (f0 + df * a) * x :=
    mul_le_mul_of_nonpos_right (by linarith) hx
  gcongr

/-- One row extends an exact bound to an exact bound. -/
theorem boundStep_exact {c0 f0 df x : K} (hc : 0 < c0) (hd : 0 ≤ df) {s e : Int} (hse : s < e)
    {b : MinMax K} {S : K → Prop} (h : Exact b S) :
    Exact (boundStep c0 f0 df x s e b)
      (fun c => S c ∨ ∃ ch : Int, s ≤ ch ∧ ch < e ∧ c = visCoord c0 f0 df x ch) := by
  have key : ∀ (p q : Int), (p = s ∧ q = e - 1) ∨ (p = e - 1 ∧ q = s) →
      (∀ ch : Int, s ≤ ch → ch < e → visCoord c0 f0 df x p ≤ visCoord c0 f0 df x ch ∧
        visCoord c0 f0 df x ch ≤ visCoord c0 f0 df x q) →
      Exact ⟨min ((visCoord c0 f0 df x p : K) : WithTop K) b.mn,
        max ((visCoord c0 f0 df x q : K) : WithBot K) b.mx⟩
        (fun c => S c ∨ ∃ ch : Int, s ≤ ch ∧ ch < e ∧ c = visCoord c0 f0 df x ch) := by
    intro p q hpq hb
    have hp : s ≤ p ∧ p < e := by omega
    have hq : s ≤ q ∧ q < e := by omega
    refine ⟨?_, ?_, ?_, ?_⟩
    · rintro c (hS | ⟨ch, h1, h2, rfl⟩)
      · exact le_trans (min_le_right _ _) (h.lower c hS)
      · exact le_trans (min_le_left _ _) (WithTop.coe_le_coe.2 (hb ch h1 h2).1)
    · rintro c (hS | ⟨ch, h1, h2, rfl⟩)
      · exact le_trans (h.upper c hS) (le_max_right _ _)
      · exact le_trans (WithBot.coe_le_coe.2 (hb ch h1 h2).2) (le_max_left _ _)
    · right
      rcases min_choice ((visCoord c0 f0 df x p : K) : WithTop K) b.mn with hm | hm
      · exact ⟨_, Or.inr ⟨p, hp.1, hp.2, rfl⟩, hm⟩
      · rcases h.attained_min with ht | ⟨c, hc', he⟩
        · rw [ht] at hm
          simp at hm
        · exact ⟨c, Or.inl hc', by rw [← he]; exact hm⟩
    · right
      rcases max_choice ((visCoord c0 f0 df x q : K) : WithBot K) b.mx with hm | hm
      · exact ⟨_, Or.inr ⟨q, hq.1, hq.2, rfl⟩, hm⟩
      · rcases h.attained_max with ht | ⟨c, hc', he⟩
        · rw [ht] at hm
          simp at hm
        · exact ⟨c, Or.inl hc', by rw [← he]; exact hm⟩
  unfold boundStep
  simp only [visCoord_eq]
  by_cases hx : 0 ≤ x
  · rw [if_pos hx]
    exact key s (e - 1) (Or.inl ⟨rfl, rfl⟩) fun ch h1 h2 =>
      ⟨visCoord_mono hc hd hx h1, visCoord_mono hc hd hx (by omega)⟩
  · rw [if_neg hx]
    have hx := (not_le.1 hx).le
    exact key (e - 1) s (Or.inr ⟨rfl, rfl⟩) fun ch h1 h2 =>
      ⟨visCoord_anti hc hd hx (by omega), visCoord_anti hc hd hx h1⟩

omit [Field K] [IsStrictOrderedRing K] in
theorem Exact.congr {b : MinMax K} {S T : K → Prop} (h : Exact b S) (hST : ∀ c, S c ↔ T c) :
    Exact b T := by
  have : S = T := funext fun c => propext (hST c)
  exact this ▸ h

/-- C39, for non-negative channel spacing: for every uvw array, channel ranges and
frequencies the reported box bounds every selected visibility coordinate and each face
is attained by one; with no selected visibility the box is `(∞, -∞)`. -/
theorem C39_bounds_partial (c0 f0 df : K) (hc : 0 < c0) (hd : 0 ≤ df) (uvw : Arr K) (n : Nat)
    (startCh endCh : Arr Int) (hu : 3 * n ≤ uvw.size) (hs : n ≤ startCh.size)
    (he : n ≤ endCh.size) :
    ∃ b, uvwBounds c0 f0 df uvw n startCh endCh = some b ∧
      Exact b.1 (coords c0 f0 df uvw startCh endCh 0 (List.range n)) ∧
      Exact b.2.1 (coords c0 f0 df uvw startCh endCh 1 (List.range n)) ∧
      Exact b.2.2 (coords c0 f0 df uvw startCh endCh 2 (List.range n)) ∧
      ((∀ i < n, endCh.get i ≤ startCh.get i) →
        b = (MinMax.init, MinMax.init, MinMax.init)) := by
  unfold uvwBounds
  obtain ⟨b, hb, h1, h2, h3, h4⟩ := loop_inv (boundRow c0 f0 df uvw startCh endCh)
    (fun (done : List Nat) (b : MinMax K × MinMax K × MinMax K) =>
      Exact b.1 (coords c0 f0 df uvw startCh endCh 0 done) ∧
      Exact b.2.1 (coords c0 f0 df uvw startCh endCh 1 done) ∧
      Exact b.2.2 (coords c0 f0 df uvw startCh endCh 2 done) ∧
      ((∀ i < n, endCh.get i ≤ startCh.get i) →
        b = (MinMax.init, MinMax.init, MinMax.init)))
    (List.range n) (MinMax.init, MinMax.init, MinMax.init)
    (by
      have h0 : ∀ j, Exact (MinMax.init : MinMax K) (coords c0 f0 df uvw startCh endCh j []) :=
        fun j => ⟨by rintro c ⟨i, hi, _⟩; simp at hi, by rintro c ⟨i, hi, _⟩; simp at hi,
          Or.inl rfl, Or.inl rfl⟩
      exact ⟨h0 0, h0 1, h0 2, fun _ => rfl⟩)
    (by
      rintro done i rest b hl ⟨g1, g2, g3, g4⟩
      have hi : i < n := by
        have : i ∈ List.range n := by rw [hl]; simp
        exact List.mem_range.1 this
      unfold boundRow
      rw [Arr.read_nat, if_pos (by omega : i < startCh.size)]
      simp only [Option.bind_some]
      rw [Arr.read_nat, if_pos (by omega : i < endCh.size)]
      simp only [Option.bind_some]
      by_cases hse : endCh.get i ≤ startCh.get i
      · rw [if_pos hse]
        have hcg : ∀ j c, coords c0 f0 df uvw startCh endCh j done c ↔
            coords c0 f0 df uvw startCh endCh j (done ++ [i]) c := by
          intro j c
          constructor
          · rintro ⟨k, hk, h⟩; exact ⟨k, by simp [hk], h⟩
          · rintro ⟨k, hk, ch, h1, h2, h⟩
            rcases List.mem_append.1 hk with hk | hk
            · exact ⟨k, hk, ch, h1, h2, h⟩
            · rw [List.mem_singleton] at hk
              subst hk
              omega
        exact ⟨b, rfl, g1.congr (hcg 0), g2.congr (hcg 1), g3.congr (hcg 2), g4⟩
      · rw [if_neg hse]
        have r0 : uvw.read (3 * (i : Int)) = some (uvw.get (3 * i)) := by
          have : (3 * (i : Int)) = ((3 * i : Nat) : Int) := by omega
          rw [this, Arr.read_nat, if_pos (by omega)]
        have r1 : uvw.read (3 * (i : Int) + 1) = some (uvw.get (3 * i + 1)) := by
          have : (3 * (i : Int) + 1) = ((3 * i + 1 : Nat) : Int) := by omega
          rw [this, Arr.read_nat, if_pos (by omega)]
        have r2 : uvw.read (3 * (i : Int) + 2) = some (uvw.get (3 * i + 2)) := by
          have : (3 * (i : Int) + 2) = ((3 * i + 2 : Nat) : Int) := by omega
          rw [this, Arr.read_nat, if_pos (by omega)]
        rw [r0, r1, r2]
        simp only [Option.bind_some]
        have hcg : ∀ j c, (coords c0 f0 df uvw startCh endCh j done c ∨
              ∃ ch : Int, startCh.get i ≤ ch ∧ ch < endCh.get i ∧
                c = visCoord c0 f0 df (uvw.get (3 * i + j)) ch) ↔
            coords c0 f0 df uvw startCh endCh j (done ++ [i]) c := by
          intro j c
          constructor
          · rintro (⟨k, hk, h⟩ | h)
            · exact ⟨k, by simp [hk], h⟩
            · exact ⟨i, by simp, h⟩
          · rintro ⟨k, hk, h⟩
            rcases List.mem_append.1 hk with hk | hk
            · exact Or.inl ⟨k, hk, h⟩
            · rw [List.mem_singleton] at hk
              subst hk
              exact Or.inr h
        have hlt := not_le.1 hse
        exact ⟨_, rfl, (boundStep_exact hc hd hlt g1).congr (hcg 0),
          (boundStep_exact hc hd hlt g2).congr (hcg 1),
          (boundStep_exact hc hd hlt g3).congr (hcg 2),
          fun hall => absurd (hall i hi) hse⟩)
  exact ⟨b, hb, h1, h2, h3, h4⟩

/-- C39 as stated is false for decreasing frequencies: one row at 1 m, two channels at
coordinates 3 and 2 (`c0 = 1`, start 3, spacing -1): the reported minimum is 3. -/
theorem C39_bounds_false :
    (uvwBounds (1 : ℚ) 3 (-1) ⟨3, fun _ => 1⟩ 1 ⟨1, fun _ => 0⟩ ⟨1, fun _ => 2⟩).map
        (fun b => (b.1.mn, b.1.mx)) = some (((3 : ℚ) : WithTop ℚ), ((2 : ℚ) : WithBot ℚ)) ∧
      visCoord (1 : ℚ) 3 (-1) 1 1 = 2 := by
  constructor <;> decide +kernel

/-- Non-vacuity: two rows, one of them unselected. -/
example : (uvwBounds (2 : ℚ) 3 1 ⟨6, fun k => (k : ℚ) - 1⟩ 2 ⟨2, fun _ => 1⟩
    ⟨2, fun i => if i = 0 then 4 else 1⟩).map
      (fun b => ((b.1.mn, b.1.mx), (b.2.2.mn, b.2.2.mx))) =
    some ((((-3 : ℚ) : WithTop ℚ), ((-2 : ℚ) : WithBot ℚ)),
      (((2 : ℚ) : WithTop ℚ), ((3 : ℚ) : WithBot ℚ))) := by
  decide +kernel

/-! ## Sum of differences -/

/-- `sdp_gridder_sum_diff` over the whole array or an in-range row range is the sum of
`a - b` over exactly those rows (an empty or inverted range gives 0). -/
theorem sumDiff_spec (a b : Arr Int) (hab : a.size = b.size) (s e : Int)
    (he : e ≤ a.size) :
    sumDiff a b s e = some (
      let rr : Int × Int := if s < 0 ∨ e < 0 then (0, a.size) else (s, e)
      ∑ k ∈ Finset.range (rr.2 - rr.1).toNat,
        (a.get (rr.1.toNat + k) - b.get (rr.1.toNat + k))) := by
  unfold sumDiff
  have hrr : ∀ rr : Int × Int, 0 ≤ rr.1 → rr.2 ≤ a.size →
      loop (fun acc (k : Nat) =>
        (a.read (rr.1 + k)).bind fun x =>
        (b.read (rr.1 + k)).bind fun y => some (acc + (x - y))) 0
        (List.range (rr.2 - rr.1).toNat) =
      some (∑ k ∈ Finset.range (rr.2 - rr.1).toNat,
        (a.get (rr.1.toNat + k) - b.get (rr.1.toNat + k))) := by
    intro rr h0 h1
    obtain ⟨p, hp⟩ := Int.eq_ofNat_of_zero_le h0
    generalize hm : (rr.2 - rr.1).toNat = m
    have hbound : ∀ k < m, p + k < a.size := by omega
    rw [hp, Int.toNat_natCast]
    clear hm
    induction m with
    | zero => rfl
    | succ m ih =>
      rw [List.range_succ, loop_append, ih (fun k hk => hbound k (by omega))]
      simp only [Option.bind_some, loop]
      have : ((p : Int) + (m : Int)) = ((p + m : Nat) : Int) := by omega
      have hbm := hbound m (by omega)
      rw [this, Arr.read_nat, if_pos hbm]
      simp only [Option.bind_some]
      rw [Arr.read_nat, if_pos (by omega)]
      simp only [Option.bind_some]
      rw [Finset.sum_range_succ]
  simp only
  split
  · exact hrr (0, a.size) (le_refl _) (le_refl _)
  · rename_i h
    exact hrr (s, e) (by simp only; omega) he

end Sdp.GridUtil
