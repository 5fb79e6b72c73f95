import Verif.OptWeighting.Props
import Mathlib.Data.Rat.Floor
import Mathlib.Tactic.IntervalCases

set_option linter.unusedSectionVars false

/-!
# C95: the call, counterexamples and a case that meets the hypotheses
-/

namespace Sdp.OptWeighting
open Sdp.Race

section
variable {F : Type} [Field F] [LinearOrder F] [IsStrictOrderedRing F] [FloorRing F]

theorem BlockRun.mono {Ok Ok' : (Nat → List (Act F)) → List Nat → Prop} (hm : ∀ a s, Ok a s → Ok' a s) {p : Sorted F}
    {grid robust : Int} {b : Nat} {out o : Arr F} (h : BlockRun Ok p grid robust b out o) :
    BlockRun Ok' p grid robust b out o := by
  obtain ⟨k, hk, ads, s1, st1, a1, a2, a3, a4, ac, s2, b1, b2, b3, b4, rest⟩ := h
  exact ⟨k, hk, ads, s1, st1, a1, a2, a3, a4, ac, s2, b1, b2, b3, hm _ _ b4, rest⟩

/-- **C95 fails** for every tile that starts at or after the number of visibilities in it: the end of the loops is a
number of visibilities, not the position after the last.  No execution of the block changes any weight. -/
theorem C95_rest_false (p : Sorted F) (grid robust : Int) (b : Nat) (k : Tile) (out : Arr F)
    (hk : tileOf p grid b = some k) (h : Good p k out.size) (hs : k.total ≤ k.start) (o : Arr F)
    (ho : BlockRun (fun _ _ => True) p grid robust b out o) (i : Nat) : o.get i = out.get i := by
  obtain ⟨-, ρ, -, hρ⟩ := (C95_block_partial p grid robust b k out hk h).2 o ho
  rw [hρ i, if_neg]
  rintro ⟨g, -⟩
  simp only [seen, Finset.mem_filter, Finset.mem_range] at g
  omega

/-- **C95 fails** for the tiles after the last visibility: the block loads a tile number outside the array. -/
theorem C95_empty_false (p : Sorted F) (grid : Int) (b : Nat) (hb : b < p.offsets.size)
    (hs : (p.tile.size : Int) ≤ p.offsets.get b) : tileOf p grid b = none := by
  unfold tileOf
  rw [rd hb, Option.bind_some]
  have : p.tile.read (p.offsets.get b) = none := by
    unfold Arr.read
    rw [if_neg (by omega)]
  rw [this]
  cases p.offsets.read ((b + 1 : Nat) : Int) <;> rfl

end

/-! ## A tile with two visibilities -/

/-- Two visibilities at grid points (32, 32) and (33, 32) of a grid of 64 x 64, with weights 1 and 3. -/
def pair : Sorted ℚ :=
  ⟨⟨2, fun i => if i = 0 then 1 / 4 else 1⟩, ⟨2, fun _ => 0⟩, ⟨2, fun i => if i = 0 then 1 else 3⟩,
    ⟨2, fun _ => 2 * 32768 + 1⟩, ⟨2, fun i => if i = 0 then 0 else 2⟩⟩

def pairTile : Tile := ⟨0, 2, 16, 24⟩

theorem pair_tile : tileOf pair 64 0 = some pairTile := by decide +kernel

theorem pair_good : Good pair pairTile 2 := ⟨by decide, by decide, by decide, by decide, by decide +kernel⟩

theorem pair_visits (t : Nat) (ht : 2 ≤ t) : visits pairTile t = [] := by
  unfold visits
  rw [List.filter_eq_nil_iff]
  intro i hi
  have : i < 2 := List.mem_range.1 hi
  have h3 : ((i : Int) - 0) % ((512 : Nat) : Int) ≠ t := by omega
  exact fun hc => h3 (of_decide_eq_true hc).2

theorem pair_acts (t : Nat) (ht : 2 ≤ t) : acts pair 64 pairTile t = [] := by
  unfold acts; rw [pair_visits t ht]; rfl

/-- Thread 0 before thread 1. -/
def oneByOne : List Nat := [0, 0, 0, 0, 1, 1, 1, 1]

theorem pair_done (t : Nat) : (brun 0 (acts pair 64 pairTile) oneByOne).todo t = [] := by
  unfold brun
  rw [foldl_todo]
  show List.drop _ (acts pair 64 pairTile t) = []
  by_cases h : 2 ≤ t
  · rw [pair_acts t h, List.drop_nil]
  · have : t = 0 ∨ t = 1 := by omega
    rcases this with rfl | rfl <;> decide +kernel

/-- The example meets the hypotheses of `C95_block_partial` and `C95_step_partial`, and both visibilities are weighted. -/
example : tileOf pair 64 0 = some pairTile ∧ Good pair pairTile 2 ∧ (∀ i < 2, i ∈ seen pairTile ∧ InTile pair 64 pairTile i) ∧
    cellSum pair pairTile 1 = 3 ∧ (∀ t, (brun 0 (acts pair 64 pairTile) oneByOne).todo t = []) :=
  ⟨pair_tile, pair_good, by decide +kernel, by decide +kernel, pair_done⟩

/-- **C95 fails**: a thread computes the multiple from the sums as they are when it has added its own share.  Two
executions of the same block give the same visibility weights 1/11 and 1/26. -/
theorem C95_race_false : ∃ (p : Sorted ℚ) (k : Tile) (out : Arr ℚ), tileOf p 64 0 = some k ∧ Good p k out.size ∧
    ∃ o₁ o₂, BlockRun (fun _ _ => True) p 64 0 0 out o₁ ∧ BlockRun (fun _ _ => True) p 64 0 0 out o₂ ∧
      o₁.get 0 = 1 / 11 ∧ o₂.get 0 = 1 / 26 := by
  let out : Arr ℚ := ⟨2, fun _ => 0⟩
  obtain ⟨⟨o₁, h₁⟩, hall⟩ := C95_step_partial pair 64 0 0 pairTile out pair_tile pair_good
  have e₁ : o₁.get 0 = 1 / 11 := by
    rw [(hall o₁ h₁).2 0]
    decide +kernel
  obtain ⟨ρ, r1, r2⟩ := rob_choice (robust := 0) pair_good (acts pair 64 pairTile) (fun _ _ => rfl) oneByOne (by decide)
    (fun t _ => pair_done t)
  have h₂ : BlockRun (fun _ _ => True) pair 64 0 0 out _ := block_exists out pair_tile pair_good oneByOne (by decide)
    (fun t _ => pair_done t) trivial ρ r1 r2
  have hρ : ρ 0 = 25 := by
    have := r2 0 (by decide) 0 (by decide) (by decide +kernel)
    have e : (brun 0 (acts pair 64 pairTile) oneByOne).rob 0 = some 25 := by decide +kernel
    rw [e] at this
    exact (Option.some.inj this).symm
  refine ⟨pair, pairTile, out, pair_tile, pair_good, o₁, _, h₁.mono fun _ _ _ => trivial, h₂, e₁, ?_⟩
  have hc : 0 ∈ seen pairTile ∧ InTile pair 64 pairTile 0 := by decide +kernel
  have ht : threadOf pairTile 0 = 0 := by decide
  have hs : cellSum pair pairTile 0 = 1 := by decide +kernel
  have hw : pair.weight.get 0 = 1 := by decide +kernel
  simp only [written]
  rw [if_pos hc, ht, hρ, hs, hw]
  norm_num

/-! ## The call -/

/-- **C95, no CPU version.**  A call on visibilities in the memory of the CPU fails and does nothing. -/
theorem C95_cpu (cuda : Bool) (uvw freqs vis weights : Mem) (sorted : List Mem) (out : Mem) (grid robust : Int)
    (st : Status) (h : vis.location = .cpu) :
    (optCall cuda uvw freqs vis weights sorted out grid robust st).1 ≠ .success ∧
      (optCall cuda uvw freqs vis weights sorted out grid robust st).2 = none := by
  unfold optCall
  by_cases h0 : st ≠ .success
  · rw [if_pos h0]; exact ⟨h0, rfl⟩
  · rw [if_neg h0]
    simp only [h]
    refine ⟨?_, trivial⟩
    split_ifs <;> simp

theorem located (s : Status) (l : List Mem) :
    l.foldl (fun s m => if s = .success ∧ m.location ≠ .gpu ∧ m.type ≠ .void then .memLocation else s) s = .success ↔
      s = .success ∧ ∀ m ∈ l, m.location = .gpu ∨ m.type = .void := by
  induction l generalizing s with
  | nil => simp
  | cons m l ih =>
    rw [List.foldl_cons, ih]
    by_cases h : s = .success ∧ m.location ≠ .gpu ∧ m.type ≠ .void
    · rw [if_pos h]
      constructor
      · rintro ⟨g, -⟩; cases g
      · rintro ⟨-, g⟩
        exact absurd (g m (by simp)) (by push Not; exact h.2)
    · rw [if_neg h]
      constructor
      · rintro ⟨g1, g2⟩
        refine ⟨g1, fun m' hm => ?_⟩
        rcases List.mem_cons.1 hm with rfl | hm
        · by_contra hc
          push Not at hc
          exact h ⟨g1, hc⟩
        · exact g2 m' hm
      · rintro ⟨g1, g2⟩
        exact ⟨g1, fun m' hm => g2 m' (by simp [hm])⟩

/-- What a GPU call comes to. -/
theorem call_some {cuda : Bool} {uvw freqs vis weights : Mem} {sorted : List Mem} {out : Mem} {grid robust : Int}
    {st : Status} {l : Launched} (h : (optCall cuda uvw freqs vis weights sorted out grid robust st).2 = some l) :
    (optCall cuda uvw freqs vis weights sorted out grid robust st).1 = .success ∧ st = .success ∧ vis.location = .gpu ∧
      (uvw.type = .double ∧ weights.type = .double ∧ freqs.type = .double) ∧ out.location = .gpu ∧
      (∀ m ∈ sorted, m.location = .gpu ∨ m.type = .void) ∧ cuda = true ∧ 0 < numTiles grid - 1 ∧
      l = ⟨(numTiles grid - 1).toNat, if lowWord robust < 2 ^ 31 then lowWord robust else lowWord robust - 2 ^ 32⟩ := by
  unfold optCall at h ⊢
  by_cases h0 : st ≠ .success
  · rw [if_pos h0] at h; cases h
  rw [if_neg h0] at h ⊢
  cases hl : vis.location with
  | cpu => simp only [hl] at h; cases h
  | other => simp only [hl] at h; cases h
  | gpu =>
    simp only [hl] at h ⊢
    generalize checkWeights weights .void MemLocation.gpu _ _ _ _ _ = s at h ⊢
    by_cases h1 : (sorted ++ [out]).foldl (fun s m =>
        if s = .success ∧ m.location ≠ .gpu ∧ m.type ≠ .void then .memLocation else s) (checkLocation out .gpu s) ≠ .success
    · rw [if_pos h1] at h; cases h
    · rw [if_neg h1] at h ⊢
      by_cases h2 : decide (uvw.type = .double ∧ weights.type = .double ∧ freqs.type = .double) = false
      · rw [if_pos h2] at h; cases h
      · rw [if_neg h2] at h ⊢
        by_cases h3 : cuda = false ∨ numTiles grid - 1 ≤ 0 ∨ 2 ^ 31 ≤ numTiles grid - 1
        · rw [if_pos h3] at h; cases h
        · rw [if_neg h3] at h ⊢
          obtain ⟨g1, g2⟩ := (located _ _).1 (not_not.1 h1)
          push Not at h3
          refine ⟨rfl, not_not.1 h0, trivial, by simpa using h2, ?_, fun m hm => g2 m (by simp [hm]), by simpa using h3.1, h3.2.1,
            (Option.some.inj h).symm⟩
          unfold checkLocation at g1
          by_contra hc
          by_cases hs : s ≠ .success
          · rw [if_pos hs] at g1; exact hs g1
          · rw [if_neg hs, if_pos hc] at g1; cases g1

/-- **C95, what a call checks.**  If a kernel is launched the call succeeds, and uvw, frequencies and weights are in double
precision, the output and the sorted arrays on the GPU. -/
theorem C95_checked (cuda : Bool) (uvw freqs vis weights : Mem) (sorted : List Mem) (out : Mem) (grid robust : Int)
    (st : Status) (l : Launched) (h : (optCall cuda uvw freqs vis weights sorted out grid robust st).2 = some l) :
    (optCall cuda uvw freqs vis weights sorted out grid robust st).1 = .success ∧ st = .success ∧ vis.location = .gpu ∧
      (uvw.type = .double ∧ weights.type = .double ∧ freqs.type = .double) ∧ out.location = .gpu ∧
      (∀ m ∈ sorted, m.location = .gpu ∨ m.type = .void) ∧ cuda = true := by
  obtain ⟨a1, a2, a3, a4, a5, a6, a7, -⟩ := call_some h
  exact ⟨a1, a2, a3, a4, a5, a6, a7⟩

/-- **C95 fails** for the robustness parameter: it is a `double` where the kernel takes an `int`, and the kernel gets the
low half of its bits: zero for every integer below 2 ^ 21 in absolute value. -/
theorem C95_robust_false (cuda : Bool) (uvw freqs vis weights : Mem) (sorted : List Mem) (out : Mem) (grid robust : Int)
    (st : Status) (l : Launched) (hr : robust.natAbs < 2 ^ 21)
    (h : (optCall cuda uvw freqs vis weights sorted out grid robust st).2 = some l) : l.robust = 0 := by
  have e : lowWord robust = 0 := by
    unfold lowWord
    by_cases h0 : robust = 0
    · rw [if_pos h0]
    · rw [if_neg h0]
      have h1 : robust.natAbs.log2 < 21 := (Nat.log2_lt (by omega)).2 hr
      have : 2 ^ (52 - robust.natAbs.log2) = 2 ^ 32 * 2 ^ (20 - robust.natAbs.log2) := by
        rw [← pow_add]; congr 1; omega
      rw [this, ← mul_assoc, mul_comm (_ - _) (2 ^ 32), mul_assoc, Nat.mul_mod_right]
  obtain ⟨-, -, -, -, -, -, -, -, rfl⟩ := call_some h
  simp [e]

/-- **C95 fails** for the last tile: of all `ceil(size / 32) ceil(size / 16)` tiles one has no block. -/
theorem C95_last_false (cuda : Bool) (uvw freqs vis weights : Mem) (sorted : List Mem) (out : Mem) (grid : Nat) (robust : Int)
    (st : Status) (l : Launched) (h : (optCall cuda uvw freqs vis weights sorted out grid robust st).2 = some l) :
    l.blocks + 1 = ((grid + 31) / 32) * ((grid + 15) / 16) := by
  obtain ⟨-, -, -, -, -, -, -, hp, rfl⟩ := call_some h
  have e : numTiles (grid : Int) = (((grid + 31) / 32 * ((grid + 15) / 16) : Nat) : Int) := by
    unfold numTiles
    rw [Int.tdiv_eq_ediv_of_nonneg (by omega), Int.tdiv_eq_ediv_of_nonneg (by omega)]
    push_cast
    rfl
  rw [e] at hp ⊢
  dsimp only
  omega

/-- **C95 fails** to check the sorted arrays and the output: with any other arrays on the GPU, of whatever type and size,
the call does the same. -/
theorem C95_unchecked_false (cuda : Bool) (uvw freqs vis weights : Mem) (sorted sorted' : List Mem) (out out' : Mem)
    (grid robust : Int) (st : Status) (h : ∀ m ∈ out :: sorted, m.location = .gpu)
    (h' : ∀ m ∈ out' :: sorted', m.location = .gpu) :
    optCall cuda uvw freqs vis weights sorted out grid robust st =
      optCall cuda uvw freqs vis weights sorted' out' grid robust st := by
  have e : ∀ (l : List Mem) (s : Status), (∀ m ∈ l, m.location = .gpu) →
      l.foldl (fun s m => if s = .success ∧ m.location ≠ .gpu ∧ m.type ≠ .void then .memLocation else s) s = s := by
    intro l
    induction l with
    | nil => intro s _; rfl
    | cons m l ih =>
      intro s hl
      rw [List.foldl_cons, if_neg (by simp [hl m (by simp)])]
      exact ih s fun m' hm => hl m' (by simp [hm])
  have c : ∀ (o : Mem) (s : Status), o.location = .gpu → checkLocation o .gpu s = s := by
    intro o s ho
    unfold checkLocation
    by_cases hs : s ≠ .success
    · rw [if_pos hs]
    · rw [if_neg hs, if_neg (by simp [ho])]
  unfold optCall
  by_cases h0 : st ≠ .success
  · rw [if_pos h0, if_pos h0]
  · rw [if_neg h0, if_neg h0]
    cases hl : vis.location with
    | cpu => rfl
    | other => rfl
    | gpu =>
      dsimp only
      rw [c out _ (h out (by simp)), c out' _ (h' out' (by simp)), e (sorted ++ [out]), e (sorted' ++ [out'])]
      · intro m hm
        rcases List.mem_append.1 hm with hm | hm
        · exact h' m (by simp [hm])
        · exact h' m (by rw [List.mem_singleton.1 hm]; simp)
      · intro m hm
        rcases List.mem_append.1 hm with hm | hm
        · exact h m (by simp [hm])
        · exact h m (by rw [List.mem_singleton.1 hm]; simp)

/-- A call that launches the kernel: a grid of 64 x 64, robustness 2. -/
example : ∃ uvw freqs vis weights a out : Mem,
    optCall true uvw freqs vis weights [a, a, a, a, a, a] out 64 2 .success = (.success, some ⟨7, 0⟩) :=
  ⟨(createWrapper (some ⟨0, 0⟩) .double .gpu [1, 2, 3] none .success).1,
    (createWrapper (some ⟨0, 0⟩) .double .gpu [1] none .success).1,
    (createWrapper (some ⟨0, 0⟩) .complexDouble .gpu [1, 2, 1, 1] none .success).1,
    (createWrapper (some ⟨0, 0⟩) .double .gpu [1, 2, 1, 1] none .success).1,
    (createWrapper (some ⟨0, 0⟩) .double .gpu [2] none .success).1,
    (createWrapper (some ⟨0, 0⟩) .double .gpu [2] none .success).1, by decide +kernel⟩

/-- A second tile with one visibility, of which nothing is seen. -/
example : ∃ (p : Sorted ℚ) (k : Tile), tileOf p 64 1 = some k ∧ Good p k 2 ∧ k.total ≤ k.start ∧ 0 < k.total :=
  ⟨{ pair with offsets := ⟨3, fun i => (i : Int)⟩ }, ⟨1, 1, 16, 24⟩, by decide +kernel,
    ⟨by decide, by decide, by decide, by decide, by decide +kernel⟩, by decide, by decide⟩

end Sdp.OptWeighting
