import Verif.Omp.Props

/-!
# C125: more parallel loops

Visibilities from components, degridding from a w-tower, station beams.
-/

namespace Sdp.Omp
open Race

section
variable {K : Type} [Field K] [LinearOrder K] [IsStrictOrderedRing K] [FloorRing K]
variable {R : Type} [CommRing R]

/-- **C125, degridding from a w-tower**, rows `start` to `start + n`. -/
theorem C125_tower (pl : WTower.Plan K R) (ob : WTower.Obs K) (p : Int) (T vis r : Arr R) (start n : Nat)
    (hr : WTower.degridPlane pl ob p T ((List.range n).map (start + ·)) vis = some r)
    (chunks : List (List Nat)) (hc : Team n chunks) :
    TeamYields (fun i => degridRow pl ob p T (start + i)) chunks vis r := by
  refine team_yields _ (fun i => InRow ob.numChan (start + i)) n ?_
    (fun i i' _ _ h x => inRow_disjoint _ _ _ (by omega) x) vis r ?_ chunks hc
  · intro i _
    refine within_need _ _ fun rr _ => within_rows _ _ fun c _ => ?_
    refine within_need _ _ fun _ _ => within_need _ _ fun _ _ => within_need _ _ fun _ _ =>
      within_need _ _ fun j hj => ?_
    have hin : InRow ob.numChan (start + i) j := by
      unfold WTower.visIdx at hj
      split at hj
      · next h =>
        simp only [Option.some.injEq] at hj
        exact ⟨c.toNat, by omega, by rw [← hj, Int.toNat_of_nonneg h.1]⟩
      · simp at hj
    exact ⟨hin, fun _ => ⟨hin, trivial⟩⟩
  · rw [← hr]
    unfold WTower.degridPlane
    rw [loop_map]
    refine loop_congr _ _ _ _ fun i _ s => ?_
    unfold degridRow WTower.degridRow
    rw [exec_need]
    congr 1
    funext rr
    refine exec_rows _ _ _ (fun c _ a => ?_) s
    unfold WTower.degridOne
    simp only [exec_need, exec_add]

end

section
variable {K C : Type} [Ring K] [Ring C]

/-- **C125, station beams.** -/
theorem C125_beam (a : Station.Args K C) (output r : Arr C)
    (hr : Station.cpu a output (List.range a.numOut) = some r)
    (chunks : List (List Nat)) (hc : Team a.numOut chunks) : TeamYields (beamPoint a) chunks output r := by
  have hpos : ∀ k ∈ a.enabled, k < a.pols := by
    intro k hk
    unfold Station.Args.enabled at hk
    unfold Station.Args.pols
    split at hk
    · next h =>
      rw [if_pos h]
      split at hk <;> split at hk <;> simp at hk <;> omega
    · next h =>
      rw [if_neg h]
      simp at hk
      omega
  refine team_yields _ (fun o x => ∃ k : Nat, k < a.pols ∧ x = a.pols * (o + a.offOut) + k) a.numOut ?_ ?_ output r
    ?_ chunks hc
  · intro o _
    refine within_need _ _ fun _ _ => within_need _ _ fun _ _ => within_rows _ _ fun k hk => ?_
    exact within_need _ _ fun _ _ => ⟨⟨k, hpos k hk, rfl⟩, trivial⟩
  · rintro o o' _ _ hne x ⟨k, hk, e⟩ ⟨k', hk', e'⟩
    have e2 : (a.pols : Int) * o + k = a.pols * o' + k' := by
      rw [e, Int.mul_add, Int.mul_add] at e'
      omega
    exact hne (flat_inj hk hk' (by exact_mod_cast e2)).1
  · rw [← hr]
    unfold Station.cpu
    refine loop_congr _ _ _ _ fun o _ s => ?_
    unfold beamPoint Station.body Station.store
    simp only [exec_need]
    congr 1
    funext p
    congr 1
    funext out
    refine exec_rows _ _ _ (fun k _ a => ?_) s
    simp only [exec_need, exec_store]

end

noncomputable section

theorem storeVis_within (D : Dft.Dims) (t b c : Nat) (loc : Arr ℂ) (S : Int → Prop)
    (h : ∀ p : Nat, p < D.pols → S (index4 D.baselines D.channels D.pols t b c p)) :
    (storeVis D t b c loc).Within S := by
  refine within_rows _ _ fun p hp => within_need _ _ fun x _ => ⟨h p (List.mem_range.1 hp), trivial⟩

theorem storeVis_exec (D : Dft.Dims) (t b c : Nat) (loc : Arr ℂ) (a : Arr ℂ) :
    (storeVis D t b c loc).exec a = Dft.store D a loc t c b := by
  refine exec_rows _ _ _ (fun p _ a => ?_) a
  simp only [exec_need, exec_store]

/-- Cells of baseline `b`. -/
def OfBaseline (D : Dft.Dims) (b : Nat) (x : Int) : Prop :=
  b < D.baselines ∧ ∃ t c p : Nat, c < D.channels ∧ p < D.pols ∧
    x = index4 D.baselines D.channels D.pols t b c p

theorem ofBaseline_disjoint (D : Dft.Dims) (b b' : Nat) (h : b ≠ b') (x : Int) (hx : OfBaseline D b x) :
    ¬ OfBaseline D b' x := by
  rintro ⟨hb', t', c', p', hc', hp', e'⟩
  obtain ⟨hb, t, c, p, hc, hp, e⟩ := hx
  rw [e] at e'
  have k : ∀ t b c p : Nat, index4 (D.baselines : Int) D.channels D.pols t b c p =
      ((D.pols * (D.channels * (D.baselines * t + b) + c) + p : Nat) : Int) := by
    intro t b c p; unfold index4; push_cast; ring
  rw [k, k] at e'
  obtain ⟨e1, _⟩ := flat_inj hp hp' (by exact_mod_cast e')
  obtain ⟨e2, _⟩ := flat_inj hc hc' e1
  exact h (flat_inj hb hb' e2).2

/-- **C125, visibilities from components, one coordinate per channel.**  One parallel loop per time and
channel. -/
theorem C125_dft (D : Dft.Dims) (dirs : Arr ℝ) (flux : Arr ℂ) (uvw : Arr ℝ) (vis r : Arr ℂ)
    (hr : Dft.v00 D dirs flux uvw vis (nest3 D.times D.channels D.baselines) = some r)
    (team : Nat × Nat → List (List Nat))
    (hc : ∀ t c, t < D.times → c < D.channels → Team D.baselines (team (t, c))) :
    Regions (dftRegions D dirs flux uvw team) vis r := by
  refine regions_yield _ (fun _ => OfBaseline D) ?_
    (fun _ _ b b' _ _ h x => ofBaseline_disjoint D b b' h x) ?_ vis r ?_
  · intro g hg b hb
    obtain ⟨y, hy, rfl⟩ := List.mem_map.1 hg
    have hy := mem_nest2.1 hy
    refine within_need _ _ fun _ _ => within_need _ _ fun _ _ => within_need _ _ fun _ _ =>
      within_need _ _ fun loc _ => storeVis_within D _ _ _ _ _ fun p hp => ?_
    exact ⟨hb, y.1, y.2, p, hy.2, hp, rfl⟩
  · intro g hg
    obtain ⟨y, hy, rfl⟩ := List.mem_map.1 hg
    have hy := mem_nest2.1 hy
    exact hc y.1 y.2 hy.1 hy.2
  · rw [← hr]
    unfold dftRegions Dft.v00 nest3
    rw [loop_map, loop_flatMap]
    refine loop_congr _ _ _ _ fun y _ s => ?_
    rw [loop_map]
    refine loop_congr _ _ _ _ fun b _ s => ?_
    unfold dftBaseline Dft.bodyV00
    simp only [exec_need, storeVis_exec]

/-- **C125, visibilities from components, one coordinate for all channels.**  One parallel loop per time. -/
theorem C125_dft1 (D : Dft.Dims) (dirs : Arr ℝ) (flux : Arr ℂ) (uvw : Arr ℝ) (f0 df : ℝ) (vis r : Arr ℂ)
    (hr : Dft.v01 D dirs flux uvw f0 df vis
      ((nest3 D.times D.baselines D.channels).map fun x => (x.1, x.2.2, x.2.1)) = some r)
    (team : Nat → List (List Nat)) (hc : ∀ t, t < D.times → Team D.baselines (team t)) :
    Regions (dftRegions1 D dirs flux uvw f0 df team) vis r := by
  refine regions_yield _ (fun _ => OfBaseline D) ?_
    (fun _ _ b b' _ _ h x => ofBaseline_disjoint D b b' h x) ?_ vis r ?_
  · intro g hg b hb
    obtain ⟨t, ht, rfl⟩ := List.mem_map.1 hg
    refine within_rows _ _ fun c hcc => within_need _ _ fun _ _ => within_need _ _ fun _ _ => within_need _ _ fun _ _ =>
      within_need _ _ fun loc _ => storeVis_within D _ _ _ _ _ fun p hp => ?_
    exact ⟨hb, t, c, p, List.mem_range.1 hcc, hp, rfl⟩
  · intro g hg
    obtain ⟨t, ht, rfl⟩ := List.mem_map.1 hg
    exact hc t (List.mem_range.1 ht)
  · rw [← hr]
    unfold dftRegions1 Dft.v01 nest3 nest2
    rw [loop_map, loop_map, loop_flatMap, loop_flatMap]
    refine loop_congr _ _ _ _ fun t _ s => ?_
    rw [loop_map]
    refine loop_congr _ _ _ _ fun b _ s => ?_
    rw [loop_map]
    refine exec_rows _ _ _ (fun c _ a => ?_) s
    unfold Dft.bodyV01
    simp only [exec_need, storeVis_exec]

end

end Sdp.Omp
