import Verif.OptWeighting.IndexedProps

set_option linter.unusedSectionVars false

/-!
# C99: the call of the indexed variant, counterexamples and a case that meets the hypotheses
-/

namespace Sdp.OptWeighting
open Sdp.Race

section
variable {F : Type} [Field F] [LinearOrder F] [IsStrictOrderedRing F] [FloorRing F]

/-- **C99 fails** for every tile that starts at or after the number of visibilities in it: the end of the loops is a
number of visibilities, not the position after the last.  No execution of the block changes any weight. -/
theorem C99_rest_false (q : Indexed F) (grid robust : Int) (b : Nat) (k : Tile) (out : Arr F)
    (hk : tileOf q.p grid b = some k) (h : GoodIndex q k out.size) (hs : k.total ≤ k.start) (o : Arr F)
    (ho : IndexRun (fun _ _ => True) q grid robust b out o) (j : Nat) : o.get j = out.get j := by
  refine ((C99_block_partial q grid robust b k out hk h).2 o ho).2.2 j fun i hi => ?_
  simp only [seen, Finset.mem_filter, Finset.mem_range] at hi
  omega

/-- **C99 fails** for the tiles after the last visibility: the block loads a tile number outside the array, and has no
execution that completes. -/
theorem C99_empty_false (q : Indexed F) (grid robust : Int) (b : Nat) (hb : b < q.p.offsets.size)
    (hs : (q.p.tile.size : Int) ≤ q.p.offsets.get b) (Ok : (Nat → List Move) → List Nat → Prop) (out o : Arr F) :
    ¬ IndexRun Ok q grid robust b out o := by
  rintro ⟨k, hk, -⟩
  rw [C95_empty_false q.p grid b hb hs] at hk
  cases hk

end

/-! ## A tile with two visibilities -/

/-- The two visibilities of `pair`, in the order of the visibilities the other way round. -/
def swapped : Indexed ℚ :=
  ⟨{ pair with weight := ⟨2, fun i => if i = 0 then 3 else 1⟩ }, ⟨2, fun i => if i = 0 then 1 else 0⟩⟩

theorem swapped_tile : tileOf swapped.p 64 0 = some pairTile := by decide +kernel

theorem swapped_good : GoodIndex swapped pairTile 2 :=
  ⟨by decide, by decide, by decide, by decide +kernel, by decide +kernel, by decide +kernel, by decide +kernel, by decide +kernel⟩

theorem swapped_moves (t : Nat) (ht : 2 ≤ t) : moves swapped 64 pairTile t = [] := by
  unfold moves; rw [pair_visits t ht]; rfl

/-- Thread 1 makes all its steps between the last two loads of thread 0. -/
def between : List Nat := [0, 0, 0, 0, 0, 0, 1, 1, 1, 1, 1, 1, 1, 0]

theorem swapped_done (base : Nat → ℚ) (t : Nat) : (irun 0 base (moves swapped 64 pairTile) between).todo t = [] := by
  unfold irun
  rw [ifoldl_todo]
  show List.drop _ (moves swapped 64 pairTile t) = []
  by_cases h : 2 ≤ t
  · rw [swapped_moves t h, List.drop_nil]
  · have : t = 0 ∨ t = 1 := by omega
    rcases this with rfl | rfl <;> decide +kernel

/-- The example meets the hypotheses of `C99_block_partial`, `C99_step_partial` and `C99_mean_false`: both visibilities
are weighted, neither is on the first point of the tile, the mean weight is 5 / 2. -/
example : tileOf swapped.p 64 0 = some pairTile ∧ GoodIndex swapped pairTile 2 ∧
    (∀ i < 2, i ∈ seen pairTile ∧ InTile swapped.p 64 pairTile i ∧
      ((place swapped.p i).1 + centre 64, (place swapped.p i).2 + centre 64) ≠ (pairTile.u, pairTile.v)) ∧
    onPoint swapped pairTile 1 = 3 ∧ visAt swapped 1 = 0 ∧
    (∑ j ∈ (seen pairTile).filter (InTile swapped.p 64 pairTile), onPoint swapped pairTile j ^ 2) /
      (∑ j ∈ (seen pairTile).filter (InTile swapped.p 64 pairTile), onPoint swapped pairTile j) = 5 / 2 :=
  ⟨swapped_tile, swapped_good, by decide +kernel, by decide +kernel, by decide +kernel, by decide +kernel⟩

/-- **C99 fails**: the weights depend on the schedule.  Two executions of the same block give the same visibility weights
1/26 and 1/176; its Briggs weight is 1/11. -/
theorem C99_race_false : ∃ (q : Indexed ℚ) (k : Tile) (out : Arr ℚ), tileOf q.p 64 0 = some k ∧ GoodIndex q k out.size ∧
    ∃ o₁ o₂, IndexRun (fun _ _ => True) q 64 0 0 out o₁ ∧ IndexRun (fun _ _ => True) q 64 0 0 out o₂ ∧
      o₁.get 1 = 1 / 26 ∧ o₂.get 1 = 1 / 176 := by
  let out : Arr ℚ := ⟨2, fun _ => 0⟩
  obtain ⟨⟨o₁, h₁⟩, hall⟩ := C99_step_partial swapped 64 0 0 pairTile out swapped_tile swapped_good
  have e₁ : o₁.get 1 = 1 / 26 := by
    have := hall o₁ h₁ 0 (by decide +kernel) (by decide +kernel) (by decide +kernel)
    have e : visAt swapped 0 = 1 := by decide +kernel
    rw [e] at this
    rw [this]
    decide +kernel
  have h₁' : IndexRun (fun _ _ => True) swapped 64 0 0 out o₁ := by
    obtain ⟨k, hk, ads, s1, st1, a1, a2, a3, a4, mv, s2, b1, b2, b3, b4, rest⟩ := h₁
    exact ⟨k, hk, ads, s1, st1, a1, a2, a3, a4, mv, s2, b1, b2, b3, trivial, rest⟩
  obtain ⟨ρ, -, r2, h₂⟩ := index_exists (Ok := fun _ _ => True) (robust := 0) out swapped_tile swapped_good between
    (by decide) (fun t _ => swapped_done _ t) trivial
  refine ⟨swapped, pairTile, out, swapped_tile, swapped_good, o₁, _, h₁', h₂, e₁, ?_⟩
  have hin : InTile swapped.p 64 pairTile 0 := by decide +kernel
  have hg := placed_get swapped_good
    (after 0 swapped 64 pairTile (moves swapped 64 pairTile) between) ρ out (i := 0) (by decide) hin
  have e : visAt swapped 0 = 1 := by decide +kernel
  have ht : threadOf pairTile 0 = 0 := by decide
  have hρ : ρ 0 = 175 := by
    have := r2 0 (by decide) 0 (by decide) hin
    have e : (irun 0 (cells (gathered swapped pairTile) 64 pairTile).get (moves swapped 64 pairTile) between).rob 0 =
      some 175 := by decide +kernel
    rw [e] at this
    exact (Option.some.inj this).symm
  have hs : (after 0 swapped 64 pairTile (moves swapped 64 pairTile) between).get (cellNat swapped.p 64 pairTile 0) = 1 := by
    decide +kernel
  have hw : swapped.p.weight.get 1 = 1 := by decide +kernel
  rw [e, ht, hρ, hs, hw] at hg
  rw [hg]
  norm_num

/-! ## The call -/

theorem indexCall_eq (cuda : Bool) (uvw vis weights : Mem) (sorted : List Mem) (out : Mem) (grid robust : Int)
    (st : Status) : indexCall cuda uvw vis weights sorted out grid robust st =
      optCall cuda uvw uvw vis weights (weights :: sorted) out grid robust st := by
  have e : decide (uvw.type = .double ∧ weights.type = .double ∧ uvw.type = .double) =
      decide (uvw.type = .double ∧ weights.type = .double) := by
    rw [decide_eq_decide]; tauto
  unfold indexCall optCall
  rw [e]
  rfl

/-- **C99, no CPU version.**  A call on visibilities in the memory of the CPU fails and does nothing. -/
theorem C99_cpu (cuda : Bool) (uvw vis weights : Mem) (sorted : List Mem) (out : Mem) (grid robust : Int)
    (st : Status) (h : vis.location = .cpu) :
    (indexCall cuda uvw vis weights sorted out grid robust st).1 ≠ .success ∧
      (indexCall cuda uvw vis weights sorted out grid robust st).2 = none := by
  rw [indexCall_eq]
  exact C95_cpu cuda uvw uvw vis weights _ out grid robust st h

/-- **C99, what a call checks.**  If a kernel is launched the call succeeds, uvw and weights are in double precision, and
the weights, the output and the sorted arrays are on the GPU. -/
theorem C99_checked (cuda : Bool) (uvw vis weights : Mem) (sorted : List Mem) (out : Mem) (grid robust : Int)
    (st : Status) (l : Launched) (h : (indexCall cuda uvw vis weights sorted out grid robust st).2 = some l) :
    (indexCall cuda uvw vis weights sorted out grid robust st).1 = .success ∧ st = .success ∧ vis.location = .gpu ∧
      uvw.type = .double ∧ weights.type = .double ∧ out.location = .gpu ∧ weights.location = .gpu ∧
      (∀ m ∈ sorted, m.location = .gpu ∨ m.type = .void) ∧ cuda = true := by
  rw [indexCall_eq] at h ⊢
  obtain ⟨a1, a2, a3, a4, a5, a6, a7⟩ := C95_checked _ _ _ _ _ _ _ _ _ _ _ h
  refine ⟨a1, a2, a3, a4.1, a4.2.1, a5, ?_, fun m hm => a6 m (by simp [hm]), a7⟩
  rcases a6 weights (by simp) with g | g
  · exact g
  · rw [a4.2.1] at g; cases g

/-- **C99 fails** for the robustness parameter: it is a `double` where the kernel takes an `int`, and the kernel gets the
low half of its bits: zero for every integer below 2 ^ 21 in absolute value. -/
theorem C99_robust_false (cuda : Bool) (uvw vis weights : Mem) (sorted : List Mem) (out : Mem) (grid robust : Int)
    (st : Status) (l : Launched) (hr : robust.natAbs < 2 ^ 21)
    (h : (indexCall cuda uvw vis weights sorted out grid robust st).2 = some l) : l.robust = 0 := by
  rw [indexCall_eq] at h
  exact C95_robust_false _ _ _ _ _ _ _ _ _ _ _ hr h

/-- **C99 fails** for the last tile: of all `ceil(size / 32) ceil(size / 16)` tiles one has no block. -/
theorem C99_last_false (cuda : Bool) (uvw vis weights : Mem) (sorted : List Mem) (out : Mem) (grid : Nat) (robust : Int)
    (st : Status) (l : Launched) (h : (indexCall cuda uvw vis weights sorted out grid robust st).2 = some l) :
    l.blocks + 1 = ((grid + 31) / 32) * ((grid + 15) / 16) := by
  rw [indexCall_eq] at h
  exact C95_last_false _ _ _ _ _ _ _ _ _ _ _ h

/-- **C99 fails** to check the sorted arrays and the output: with any other arrays on the GPU, of whatever type and size,
the call does the same. -/
theorem C99_unchecked_false (cuda : Bool) (uvw vis weights : Mem) (sorted sorted' : List Mem) (out out' : Mem)
    (grid robust : Int) (st : Status) (hw : weights.location = .gpu) (h : ∀ m ∈ out :: sorted, m.location = .gpu)
    (h' : ∀ m ∈ out' :: sorted', m.location = .gpu) :
    indexCall cuda uvw vis weights sorted out grid robust st =
      indexCall cuda uvw vis weights sorted' out' grid robust st := by
  rw [indexCall_eq, indexCall_eq]
  refine C95_unchecked_false _ _ _ _ _ _ _ _ _ _ _ _ ?_ ?_
  · intro m hm
    simp only [List.mem_cons] at hm
    rcases hm with rfl | rfl | hm
    · exact h m (by simp)
    · exact hw
    · exact h m (by simp [hm])
  · intro m hm
    simp only [List.mem_cons] at hm
    rcases hm with rfl | rfl | hm
    · exact h' m (by simp)
    · exact hw
    · exact h' m (by simp [hm])

/-- A call that launches the kernel: a grid of 64 x 64, robustness 2. -/
example : ∃ uvw vis weights a out : Mem,
    indexCall true uvw vis weights [a, a, a, a, a, a] out 64 2 .success = (.success, some ⟨7, 0⟩) :=
  ⟨(createWrapper (some ⟨0, 0⟩) .double .gpu [1, 2, 3] none .success).1,
    (createWrapper (some ⟨0, 0⟩) .complexDouble .gpu [1, 2, 1, 1] none .success).1,
    (createWrapper (some ⟨0, 0⟩) .double .gpu [1, 2, 1, 1] none .success).1,
    (createWrapper (some ⟨0, 0⟩) .double .gpu [2] none .success).1,
    (createWrapper (some ⟨0, 0⟩) .double .gpu [2] none .success).1, by decide +kernel⟩

/-- A second tile with one visibility, of which nothing is seen, and a third after the last visibility. -/
example : ∃ (q : Indexed ℚ) (k : Tile), tileOf q.p 64 1 = some k ∧ GoodIndex q k 2 ∧ k.total ≤ k.start ∧ 0 < k.total ∧
    2 < q.p.offsets.size ∧ (q.p.tile.size : Int) ≤ q.p.offsets.get 2 :=
  ⟨{ swapped with p := { swapped.p with offsets := ⟨3, fun i => (i : Int)⟩ } }, ⟨1, 1, 16, 24⟩, by decide +kernel,
    ⟨by decide, by decide, by decide, by decide +kernel, by decide +kernel, by decide +kernel, by decide +kernel,
      by decide +kernel⟩, by decide, by decide, by decide, by decide⟩

end Sdp.OptWeighting
