import Verif.Omp.Model
import Verif.GridUtil.SubgridProps

/-!
# C125: the parallel loops are free of data races

For every parallel loop: whatever the number of threads, the distribution of the iterations over them and
the order of their memory accesses, the loop gives the result that the serial function gives.
-/

namespace Sdp.Omp
open Race

section
variable {α : Type}

/-- Loops over rows whose iterations touch only their own cells. -/
theorem rows_yield (m n : Nat) (prog : Nat → Nat → Prog α) (g : Arr α → Nat × Nat → Option (Arr α))
    (h : ∀ i, i < m → ∀ j, j < n → ∀ a, (prog i j).exec a = g a (i, j)) (S : Nat → Int → Prop)
    (hw : ∀ i, i < m → ∀ j, j < n → (prog i j).Within (S i))
    (hd : ∀ i i', i < m → i' < m → i ≠ i' → ∀ x, S i x → ¬ S i' x) (a r : Arr α)
    (hr : loop g a (nest2 m n) = some r) (chunks : List (List Nat)) (hc : Team m chunks) :
    TeamYields (fun i => .seqAll ((List.range n).map (prog i))) chunks a r := by
  refine team_yields _ S m (fun i hi => within_rows _ _ fun j hj => hw i hi j (List.mem_range.1 hj)) hd a r ?_
    chunks hc
  rw [← hr]
  unfold nest2
  rw [loop_flatMap]
  refine loop_congr _ _ _ _ fun i hi s => ?_
  rw [loop_map]
  exact exec_rows _ _ _ (fun j hj s => h i (List.mem_range.1 hi) j (List.mem_range.1 hj) s) s

/-- The cells of row `i` of a C-contiguous array with `n` columns. -/
def InRow (n i : Nat) (x : Int) : Prop := ∃ j : Nat, j < n ∧ x = index2 n i j

theorem inRow_disjoint (n i i' : Nat) (h : i ≠ i') (x : Int) (hx : InRow n i x) : ¬ InRow n i' x := by
  rintro ⟨j', hj', e'⟩
  obtain ⟨j, hj, e⟩ := hx
  rw [e] at e'
  have c : ∀ a b : Nat, index2 n (a : Int) (b : Int) = ((n * a + b : Nat) : Int) := by
    intro a b; unfold index2; push_cast; ring
  rw [c, c] at e'
  exact h (flat_inj hj hj' (by exact_mod_cast e')).1

end

section
variable {R : Type} [CommSemiring R]

/-- **C125, adding a subgrid that has no more rows than the grid.** -/
theorem C125_add_partial (gu gv su sv : Nat) (hsu : su ≤ gu) (offU offV : Int) (sub : Arr R) (factor : R)
    (grid r : Arr R)
    (hr : GridUtil.subgridAdd gu gv su sv offU offV sub factor (nest2 su sv) grid = some r)
    (chunks : List (List Nat)) (hc : Team su chunks) :
    TeamYields (addRow gu gv su sv offU offV sub factor) chunks grid r := by
  refine rows_yield su sv _ _ ?_ (fun i => InRow gv (GridUtil.pos gu su (-offU) i)) ?_ ?_ grid r hr chunks hc
  · intro i _ j _ a
    unfold GridUtil.addPixel
    simp only [exec_need, exec_add]
  · intro i hi j _
    have hu : 0 < gu := by omega
    rw [GridUtil.wrap_pos hu]
    rcases Nat.eq_zero_or_pos gv with rfl | hv
    · cases hw : GridUtil.wrap (0 : Nat) (GridUtil.place 0 sv (-offV) j) with
      | none => trivial
      | some q =>
        have := (GridUtil.C38_wrap_ends_iff 0 _).1 ⟨q, hw⟩
        omega
    · rw [GridUtil.wrap_pos hv]
      have hin : InRow gv (GridUtil.pos gu su (-offU) i) (index2 gv (GridUtil.pos gu su (-offU) i : Nat)
          (GridUtil.pos gv sv (-offV) j : Nat)) := ⟨_, GridUtil.pos_lt hv _ _ _, rfl⟩
      simp only [Prog.need]
      exact within_need _ _ fun x _ => ⟨hin, fun _ => ⟨hin, trivial⟩⟩
  · intro i i' hi hi' hne x
    exact inRow_disjoint _ _ _ (fun e => hne (GridUtil.C38_add_rows_partial gu su hsu _ i i' hi hi' e)) x

omit [CommSemiring R] in
/-- **C125, cutting out a subgrid**, of any size. -/
theorem C125_cut (gu gv su sv : Nat) (offU offV : Int) (grid sub r : Arr R)
    (hr : GridUtil.subgridCut gu gv su sv offU offV grid (nest2 su sv) sub = some r)
    (chunks : List (List Nat)) (hc : Team su chunks) :
    TeamYields (cutRow gu gv su sv offU offV grid) chunks sub r := by
  refine rows_yield su sv _ _ ?_ (InRow sv) ?_ (fun i i' _ _ h x => inRow_disjoint sv i i' h x) sub r hr chunks hc
  · intro i _ j _ a
    unfold GridUtil.cutPixel
    simp only [exec_need, exec_store]
  · intro i _ j hj
    exact within_need _ _ fun _ _ => within_need _ _ fun _ _ => within_need _ _ fun _ _ => ⟨⟨j, hj, rfl⟩, trivial⟩

end

/-- **C125, moving the planes of a stack of subgrids down by one.**  One parallel loop per plane. -/
theorem C125_shift {M : Type} (planes n nx : Nat) (hn : n ≤ nx) (st r : Arr M)
    (hr : GridUtil.shiftSubgrids planes n nx (nest2 n n) st = some r)
    (team : Nat → List (List Nat)) (hc : ∀ k, k < planes - 1 → Team n (team k)) :
    Regions (shiftRegions planes n nx team) st r := by
  refine regions_yield _ (fun _ j x => ∃ k i : Nat, i < nx ∧ x = index3 n nx k j i ∧ j < n) ?_ ?_ ?_ st r ?_
  · intro g hg j hj
    obtain ⟨k, _, rfl⟩ := List.mem_map.1 hg
    refine within_rows _ _ fun i hi => ?_
    have hi := List.mem_range.1 hi
    exact ⟨⟨k + 1, i, by omega, rfl, hj⟩, fun _ => ⟨⟨k, i, by omega, rfl, hj⟩, trivial⟩⟩
  · rintro g hg j j' hj hj' hne x ⟨k, i, hi, e, h1⟩ ⟨k', i', hi', e', h2⟩
    rw [e] at e'
    have c : ∀ q j i : Nat, index3 (n : Int) nx q j i = ((nx * (n * q + j) + i : Nat) : Int) := by
      intro q j i; unfold index3; push_cast; ring
    rw [c, c] at e'
    obtain ⟨g1, _⟩ := flat_inj hi hi' (by exact_mod_cast e')
    exact hne (flat_inj h1 h2 g1).2
  · intro g hg
    obtain ⟨k, hk, rfl⟩ := List.mem_map.1 hg
    exact hc k (List.mem_range.1 hk)
  · rw [← hr]
    unfold shiftRegions GridUtil.shiftSubgrids
    rw [loop_map, loop_flatMap]
    refine loop_congr _ _ _ _ fun k _ s => ?_
    unfold nest2
    rw [loop_map, loop_flatMap]
    refine loop_congr _ _ _ _ fun j _ s => ?_
    rw [loop_map]
    refine exec_rows _ _ _ (fun i _ a => ?_) s
    unfold GridUtil.shiftPixel
    simp only [Prog.exec, exec_store]

noncomputable section

/-- **C125, direct degridding.** -/
theorem C125_degrid (o : Direct.Obs) (flux lmn : Arr ℝ) (vis r : Arr ℂ)
    (hr : Direct.dft o flux lmn (nest2 o.numUvw o.numChan) vis = some r)
    (chunks : List (List Nat)) (hc : Team o.numUvw chunks) : TeamYields (dftRow o flux lmn) chunks vis r := by
  refine rows_yield _ _ _ _ ?_ (InRow o.numChan) ?_ (fun i i' _ _ h x => inRow_disjoint _ i i' h x) vis r hr chunks hc
  · intro i _ j _ a
    unfold Direct.dftBody
    rw [exec_need]
    congr 1
    funext act
    cases act with
    | false => rfl
    | true => simp only [if_true, exec_need, exec_add]
  · intro i _ j hj
    refine within_need _ _ fun act _ => ?_
    cases act with
    | false => trivial
    | true =>
      exact within_need _ _ fun _ _ => within_need _ _ fun _ _ => ⟨⟨j, hj, rfl⟩, fun _ => ⟨⟨j, hj, rfl⟩, trivial⟩⟩

/-- **C125, direct gridding.** -/
theorem C125_grid (o : Direct.Obs) (n : Nat) (vis : Arr ℂ) (lmn : Arr ℝ) (taper : Option (Arr ℝ))
    (image r : Arr ℂ) (hr : Direct.idft o n vis lmn taper (nest2 n n) image = some r)
    (chunks : List (List Nat)) (hc : Team (n * n) chunks) :
    TeamYields (idftPixel o n vis lmn taper) chunks image r := by
  have hp : ∀ it, it < n * n → it / n < n ∧ it % n < n := by
    intro it h
    have hn : 0 < n := by
      rcases Nat.eq_zero_or_pos n with h0 | h0
      · subst h0; simp at h
      · exact h0
    exact ⟨Nat.div_lt_of_lt_mul h, Nat.mod_lt _ hn⟩
  refine team_yields _ (fun it x => x = (it : Int)) (n * n) ?_ ?_ image r ?_ chunks hc
  · intro it _
    have e : index2 (n : Int) (it / n : Nat) (it % n : Nat) = (it : Int) := by
      have := Nat.div_add_mod it n
      unfold index2
      exact_mod_cast this
    unfold idftPixel
    rw [e]
    exact within_need _ _ fun _ _ => within_need _ _ fun _ _ => ⟨rfl, fun _ => ⟨rfl, trivial⟩⟩
  · rintro i i' _ _ hne x h h'
    omega
  · rw [← hr]
    have hl : nest2 n n = (List.range (n * n)).map fun it => (it / n, it % n) := by
      have h1 := nest2_flat n n
      apply List.ext_getElem
      · have := congrArg List.length h1
        simpa using this
      · intro k g1 g2
        have h2 : ((nest2 n n).map fun p => n * p.1 + p.2)[k]'(by simpa using g1) =
            (List.range (n * n))[k]'(by simpa using g2) := by simp only [h1]
        simp only [List.getElem_map, List.getElem_range] at h2 ⊢
        have hm := mem_nest2.1 (List.getElem_mem g1)
        generalize (nest2 n n)[k] = q at h2 hm
        have hk := hp k (by simpa using g2)
        have d := Nat.div_add_mod k n
        obtain ⟨e1, e2⟩ := flat_inj hm.2 hk.2 (h2.trans d.symm)
        exact Prod.ext e1 e2
    unfold Direct.idft
    rw [hl, loop_map]
    refine loop_congr _ _ _ _ fun it _ s => ?_
    unfold idftPixel Direct.idftBody
    simp only [exec_need, exec_add]

/-- **C125, the sign pattern around a shifted FFT.** -/
theorem C125_phase (n1 n2 : Nat) (d r : Arr ℂ) (hr : Fft.phase n2 (nest2 n1 n2) d = some r)
    (chunks : List (List Nat)) (hc : Team n1 chunks) : TeamYields (phaseRow n2) chunks d r := by
  refine rows_yield n1 n2 _ _ ?_ (InRow n2) ?_ (fun i i' _ _ h x => inRow_disjoint _ i i' h x) d r hr chunks hc
  · intro i _ j _ a
    simp only [Prog.exec, exec_store]
  · intro i _ j hj
    exact ⟨⟨j, hj, rfl⟩, fun _ => ⟨⟨j, hj, rfl⟩, trivial⟩⟩

/-- **C125, the normalisation after an FFT.** -/
theorem C125_norm (n1 n2 : Nat) (d r : Arr ℂ) (hr : Fft.norm n1 n2 (nest2 n1 n2) d = some r)
    (chunks : List (List Nat)) (hc : Team n1 chunks) : TeamYields (normRow n1 n2) chunks d r := by
  refine rows_yield n1 n2 _ _ ?_ (InRow n2) ?_ (fun i i' _ _ h x => inRow_disjoint _ i i' h x) d r hr chunks hc
  · intro i _ j _ a
    simp only [Prog.exec, exec_store]
  · intro i _ j hj
    exact ⟨⟨j, hj, rfl⟩, fun _ => ⟨⟨j, hj, rfl⟩, trivial⟩⟩

/-- **C125, grid correction, w-stacking.** -/
theorem C125_wcorrect (f : GridCorrect.Fac) (wOffset : Int) (hw : wOffset ≠ 0) (inverse : Bool) (a r : Arr ℂ)
    (hr : GridCorrect.wStack f wOffset inverse (nest2 f.nl f.nm) a = some r)
    (chunks : List (List Nat)) (hc : Team f.nl chunks) : TeamYields (wStackRow f wOffset inverse) chunks a r := by
  unfold GridCorrect.wStack at hr
  rw [if_neg hw] at hr
  refine rows_yield f.nl f.nm _ _ ?_ (InRow f.nm) ?_ (fun i i' _ _ h x => inRow_disjoint _ i i' h x) a r hr chunks hc
  · intro i _ j _ a
    unfold GridCorrect.wPixel
    simp only [Prog.exec, exec_store]
  · intro i _ j hj
    exact ⟨⟨j, hj, rfl⟩, fun _ => ⟨⟨j, hj, rfl⟩, trivial⟩⟩

/-- **C125, grid correction, window functions.** -/
theorem C125_pcorrect (f : GridCorrect.Fac) (pswf : Arr ℝ) (win : GridCorrect.NWin) (a r : Arr ℂ)
    (hr : GridCorrect.pswfCorrect f pswf win (nest2 f.nl f.nm) a = some r)
    (chunks : List (List Nat)) (hc : Team f.nl chunks) : TeamYields (pswfRow f pswf win) chunks a r := by
  refine rows_yield f.nl f.nm _ _ ?_ (InRow f.nm) ?_ (fun i i' _ _ h x => inRow_disjoint _ i i' h x) a r hr chunks hc
  · intro i _ j _ a
    unfold GridCorrect.pswfPixel
    simp only [Prog.exec, exec_store, exec_need]
  · intro i _ j hj
    exact within_need _ _ fun _ _ => within_need _ _ fun _ _ => ⟨⟨j, hj, rfl⟩, fun _ => ⟨⟨j, hj, rfl⟩, trivial⟩⟩

end

end Sdp.Omp
