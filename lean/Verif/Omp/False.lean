import Verif.Omp.Props

/-!
# C125: where a parallel loop has a data race

`sdp_gridder_subgrid_add` with a subgrid of more rows than the grid: the rows wrap around, so that two
iterations update the same row of the grid.
-/

namespace Sdp.Omp
open Race

/-- Some run of the program writes cell `x`. -/
def Writes {α : Type} (x : Int) : Prog α → Prop
  | .done => False
  | .fault => False
  | .read _ k => ∃ v, Writes x (k v)
  | .write i _ k => i = x ∨ Writes x k

theorem writes_andThen {α : Type} {x : Int} {p : Prog α} (q : Prog α) (h : Writes x p) : Writes x (p.andThen q) := by
  induction p with
  | done => exact h.elim
  | fault => exact h.elim
  | read i k ih =>
    obtain ⟨v, hv⟩ := h
    exact ⟨v, ih v hv⟩
  | write i v k ih =>
    rcases h with h | h
    · exact Or.inl h
    · exact Or.inr (ih h)

theorem pos_period (gu su : Nat) (off : Int) (i : Nat) : GridUtil.pos gu su off (i + gu) = GridUtil.pos gu su off i := by
  unfold GridUtil.pos
  congr 1
  have e : ((i + gu : Nat) : Int) - ((su / 2 : Nat) : Int) + ((gu / 2 : Nat) : Int) + off =
      ((i : Int) - ((su / 2 : Nat) : Int) + ((gu / 2 : Nat) : Int) + off) + gu := by push_cast; ring
  rw [e, Int.add_emod_right]

section
variable {R : Type} [CommSemiring R]

theorem addRow_writes (gu gv su sv : Nat) (hu : 0 < gu) (hv : 0 < gv) (hsv : 0 < sv) (offU offV : Int) (sub : Arr R)
    (hs : sub.size = su * sv) (factor : R) (i : Nat) (hi : i < su) :
    Writes (index2 gv (GridUtil.pos gu su (-offU) i : Nat) (GridUtil.pos gv sv (-offV) 0 : Nat))
      (addRow gu gv su sv offU offV sub factor i) := by
  obtain ⟨m, rfl⟩ : ∃ m, sv = m + 1 := ⟨sv - 1, by omega⟩
  have hr : sub.read (index2 ((m + 1 : Nat) : Int) i (0 : Nat)) = some (sub.get ((m + 1) * i + 0)) := by
    have e : index2 ((m + 1 : Nat) : Int) (i : Int) ((0 : Nat) : Int) = (((m + 1) * i + 0 : Nat) : Int) := by
      unfold index2; push_cast; ring
    rw [e]
    unfold Arr.read
    have h2 : (m + 1) * i + 0 < sub.size := by rw [hs]; exact flat_lt hi hsv
    rw [if_pos ⟨by omega, by exact_mod_cast h2⟩, Int.toNat_natCast]
  unfold addRow
  rw [List.range_succ_eq_map, List.map_cons]
  refine writes_andThen _ ?_
  rw [GridUtil.wrap_pos hu, GridUtil.wrap_pos hv, hr]
  simp only [Prog.need]
  exact ⟨0, Or.inl rfl⟩

/-- **C125 fails for every subgrid with more rows than the grid**: two iterations of the loop, which may run
at the same time, write the same cell. -/
theorem C125_add_race_false (gu gv su sv : Nat) (hu : 0 < gu) (hv : 0 < gv) (hsv : 0 < sv) (hsu : gu < su)
    (offU offV : Int) (sub : Arr R) (hs : sub.size = su * sv) (factor : R) :
    ∃ i i', i < su ∧ i' < su ∧ i ≠ i' ∧ ∃ x, Writes x (addRow gu gv su sv offU offV sub factor i) ∧
      Writes x (addRow gu gv su sv offU offV sub factor i') := by
  refine ⟨0, gu, by omega, hsu, by omega, _, addRow_writes gu gv su sv hu hv hsv offU offV sub hs factor 0 (by omega), ?_⟩
  have h := addRow_writes gu gv su sv hu hv hsv offU offV sub hs factor gu hsu
  have hp := pos_period gu su (-offU) 0
  rw [Nat.zero_add] at hp
  rwa [hp] at h

end

/-- **C125 fails: an update is lost.**  Three rows of ones are added to a grid of two rows by two threads, one
of which has the first two rows and the other the last.  On one thread the first row of the grid is 2
afterwards; if both threads read it before either writes, it is 1. -/
theorem C125_add_false :
    Team 3 [[0, 1], [2]] ∧
    (GridUtil.subgridAdd 2 1 3 1 0 0 (⟨3, fun _ => 1⟩ : Arr Int) 1 (nest2 3 1) ⟨2, fun _ => 0⟩).map
      (fun r => (List.range 2).map r.get) = some [2, 1] ∧
    (run (⟨⟨2, fun _ => 0⟩, teamProg (addRow 2 1 3 1 0 0 (⟨3, fun _ => 1⟩ : Arr Int) 1) [[0, 1], [2]]⟩ : St Int Nat)
      [0, 1, 0, 1, 0, 0]).map
      (fun s => ((List.range 2).all fun t => (s.prog t).isDone, (List.range 2).map s.mem.get)) =
      some (true, [1, 1]) := by
  refine ⟨by unfold Team; decide, by decide +kernel, by decide +kernel⟩

/-! ## The hypotheses can be met -/

/-- Adding a 2 x 3 subgrid to a grid of 2 x 2 on two threads. -/
example : ∃ r, TeamYields (addRow 2 2 2 3 1 0 (⟨6, fun k => (k : Int)⟩) 2) [[1], [0]] ⟨4, fun _ => 1⟩ r := by
  obtain ⟨r, h, _⟩ := GridUtil.C38_add 2 2 2 3 (by decide) (by decide) 1 0 ⟨4, fun _ => 1⟩
    (⟨6, fun k => (k : Int)⟩) rfl rfl 2 (nest2 2 3) (List.Perm.refl _)
  exact ⟨r, C125_add_partial 2 2 2 3 (by decide) 1 0 _ 2 _ r h _ (by unfold Team; decide)⟩

/-- Moving three planes of 2 x 2 with different teams. -/
example : ∃ r, Regions (shiftRegions 3 2 2 fun k => if k = 0 then [[0], [1]] else [[1, 0]])
    (⟨12, fun k => (k : Int)⟩) r := by
  obtain ⟨r, hr⟩ := Option.isSome_iff_exists.1 (show (GridUtil.shiftSubgrids 3 2 2 (nest2 2 2)
    (⟨12, fun k => (k : Int)⟩ : Arr Int)).isSome = true by decide +kernel)
  refine ⟨r, C125_shift 3 2 2 (by decide) _ r hr _ fun k hk => ?_⟩
  by_cases h : k = 0
  · rw [if_pos h]; unfold Team; decide
  · rw [if_neg h]; unfold Team; decide

end Sdp.Omp
