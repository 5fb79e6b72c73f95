import Verif.Tiles.CallProps

set_option linter.unusedSectionVars false

/-!
# All visibilities on CPU and GPU
-/

namespace Sdp.Tiles
variable {K : Type} [Field K] [LinearOrder K] [FloorRing K]
variable {R : Tiling → Int → Int → Int × Int × Int × Int} {p : Par K} {n : Sizes} {x : Inputs K}
  {Hits : Int × Int → Nat × Nat × Nat → Prop}

/-- Items of a list of visibilities. -/
def listItems (R : Tiling → Int → Int → Int × Int × Int × Int) (skips : Bool) (p : Par K) (n : Sizes) (x : Inputs K)
    (qs : List (Nat × Nat × Nat)) : List Item := qs.flatMap fun q => (visitItems R skips p n x q).filterMap id

theorem listItems_complete (skips : Bool) {qs : List (Nat × Nat × Nat)} (hq : qs.Perm (every n)) :
    Complete R p n x (listItems R skips p n x qs) := by
  have hm : ∀ (e : Item) q, e ∈ (visitItems R skips p n x q).filterMap id ↔ some e ∈ visitItems R skips p n x q := by
    intro e q
    rw [List.mem_filterMap]
    constructor
    · rintro ⟨a, h1, h2⟩
      exact (show a = some e from h2) ▸ h1
    · intro h
      exact ⟨some e, h, rfl⟩
  constructor
  · unfold listItems
    rw [List.nodup_flatMap]
    refine ⟨fun q _ => visit_nodup skips q, ?_⟩
    have hn : qs.Nodup := hq.nodup_iff.2 (nest3_nodup _ _ _)
    refine hn.imp fun {a b} hab => ?_
    rw [Function.onFun, List.disjoint_left]
    intro e h1 h2
    rw [hm, some_mem_visit] at h1 h2
    exact hab (h1.1.symm.trans h2.1)
  · intro e
    unfold listItems
    rw [List.mem_flatMap]
    constructor
    · rintro ⟨q, h1, h2⟩
      rw [hm, some_mem_visit] at h2
      obtain ⟨rfl, h3⟩ := h2
      exact ⟨hq.subset h1, h3⟩
    · rintro ⟨h1, h2⟩
      exact ⟨e.1, hq.symm.subset h1, by rw [hm, some_mem_visit]; exact ⟨rfl, h2⟩⟩

/-- Skipped visibilities in a list. -/
theorem skips_those {qs : List (Nat × Nat × Nat)} (hq : qs.Perm (every n)) :
    (qs.map fun q => numSkips (visitItems R true p n x q)).sum = (those n fun q => ¬ Inside p n x q).length := by
  classical
  have h1 : ∀ l : List (Nat × Nat × Nat), (l.map fun q => numSkips (visitItems R true p n x q)).sum =
      (l.filter fun q => ¬ Inside p n x q).length := by
    intro l
    induction l with
    | nil => rfl
    | cons q l ih =>
      rw [List.map_cons, List.sum_cons, ih, visit_skips]
      by_cases hg : p.tiling.inGrid (column p n x q) (row p n x q) = true
      · have h := (inside_iff p n x q).1 hg
        rw [if_pos hg, List.filter_cons_of_neg (by simp [h])]
        omega
      · have h : ¬ Inside p n x q := fun h => hg ((inside_iff p n x q).2 h)
        rw [if_neg hg, List.filter_cons_of_pos (by simp [h]), List.length_cons]
        omega
  rw [h1]
  unfold those
  have h2 := (hq.filter fun q => decide (¬ Inside p n x q)).length_eq
  rw [h2]
  congr!

/-- Visibilities of the threads of a launch. -/
def validQ (n : Sizes) : List (Nat × Nat × Nat) :=
  ((threads n).filter fun x => ¬ (x.1 ≥ n.baselines ∨ x.2.1 ≥ n.channels ∨ x.2.2 ≥ n.times)).map
    fun x => (x.2.2, x.1, x.2.1)

theorem threads_nodup (n : Sizes) : (threads n).Nodup := nest3_nodup _ _ _

theorem validQ_perm (n : Sizes) : (validQ n).Perm (every n) := by
  rw [List.perm_ext_iff_of_nodup]
  · intro q
    unfold validQ
    rw [List.mem_map, mem_every]
    constructor
    · rintro ⟨y, hy, rfl⟩
      rw [List.mem_filter] at hy
      have := hy.2
      simp only [decide_eq_true_eq] at this
      simp only
      omega
    · intro h
      refine ⟨(q.2.1, q.2.2, q.1), ?_, rfl⟩
      rw [List.mem_filter]
      refine ⟨?_, by simp only [decide_eq_true_eq]; omega⟩
      unfold threads
      rw [mem_nest3]
      have h1 := le_blocks n.baselines 128 (by omega)
      have h2 := le_blocks n.channels 2 (by omega)
      have h3 := le_blocks n.times 2 (by omega)
      simp only
      omega
  · unfold validQ
    refine List.Nodup.map ?_ ((threads_nodup n).filter _)
    intro a b h
    obtain ⟨a1, a2, a3⟩ := a
    obtain ⟨b1, b2, b3⟩ := b
    simp only [Prod.mk.injEq] at h ⊢
    omega
  · exact nest3_nodup _ _ _

/-- Items of a thread. -/
def threadItems (R : Tiling → Int → Int → Int × Int × Int × Int) (skips : Bool) (p : Par K) (n : Sizes) (x : Inputs K)
    (y : Nat × Nat × Nat) : List (Option Item) :=
  if y.1 ≥ n.baselines ∨ y.2.1 ≥ n.channels ∨ y.2.2 ≥ n.times then [] else visitItems R skips p n x (y.2.2, y.1, y.2.1)

theorem thread_items_eq (skips : Bool) :
    allItems (threads n) (threadItems R skips p n x) = listItems R skips p n x (validQ n) := by
  unfold allItems listItems validQ
  generalize threads n = l
  induction l with
  | nil => rfl
  | cons y l ih =>
    rw [List.flatMap_cons, ih]
    unfold threadItems
    by_cases h : y.1 ≥ n.baselines ∨ y.2.1 ≥ n.channels ∨ y.2.2 ≥ n.times
    · rw [if_pos h, List.filter_cons_of_neg (by rw [decide_eq_true_eq]; exact not_not.2 h)]
      simp [numSkips]
    · rw [if_neg h, List.filter_cons_of_pos (by rw [decide_eq_true_eq]; exact h)]
      simp

theorem thread_skips_eq :
    ((threads n).map fun y => numSkips (threadItems R true p n x y)).sum =
      ((validQ n).map fun q => numSkips (visitItems R true p n x q)).sum := by
  unfold validQ
  generalize threads n = l
  induction l with
  | nil => rfl
  | cons y l ih =>
    rw [List.map_cons, List.sum_cons, ih]
    unfold threadItems
    by_cases h : y.1 ≥ n.baselines ∨ y.2.1 ≥ n.channels ∨ y.2.2 ≥ n.times
    · rw [if_pos h, List.filter_cons_of_neg (by rw [decide_eq_true_eq]; exact not_not.2 h)]
      simp [numSkips]
    · rw [if_neg h, List.filter_cons_of_pos (by rw [decide_eq_true_eq]; exact h)]
      simp

/-- What is left after all visibilities have been processed in some order. -/
structure Processed (R : Tiling → Int → Int → Int × Int × Int × Int) (skips : Bool) (cols : List Col) (p : Par K)
    (n : Sizes) (x : Inputs K) (cells0 skip0 : Arr Int) (out0 : Out K) (order : List Item) (r : Arr Int × Arr Int × Out K) :
    Prop where
  all : Complete R p n x order
  sorted : Sorted (tileE p) cols (valOf p n x) cells0 out0 order r.1 r.2.2
  skipSize : r.2.1.size = skip0.size
  skip : skips = true → r.2.1.get 0 = skip0.get 0 + ((those n fun q => ¬ Inside p n x q).length : Nat)

/-- What is needed of the arrays. -/
structure Ready (R : Tiling → Int → Int → Int × Int × Int × Int) (skips : Bool) (cols : List Col) (p : Par K)
    (n : Sizes) (x : Inputs K) (cells0 skip0 : Arr Int) (out0 : Out K) : Prop where
  cells : p.tiling.num.toNat ≤ cells0.size
  skip : skips = true → 0 < skip0.size
  room : ∀ c ∈ cols, ∀ all, Complete R p n x all →
    Room cells0.get (cnt (tileE p) all) p.tiling.num.toNat (out0 c).size

theorem no_skip {q : Nat × Nat × Nat} (h : none ∈ visitItems R false p n x q) : False := by
  unfold visitItems at h
  by_cases hg : p.tiling.inGrid (column p n x q) (row p n x q) = true
  · rw [if_pos hg] at h; simp at h
  · rw [if_neg hg] at h; simp at h

theorem inside_range (hr : Ranges R p n x Hits) {all : List Item} (ha : Complete R p n x all) {e : Item} (he : e ∈ all) :
    0 ≤ tileE p e ∧ tileE p e < (p.tiling.num.toNat : Nat) := by
  have h := index_range p (ha.range hr he)
  unfold tileE
  omega

/-- All interleavings on the GPU. -/
theorem gpu_processed (hr : Ranges R p n x Hits) (skips : Bool) (cols : List Col) {cells0 skip0 : Arr Int} {out0 : Out K}
    (hy : Ready R skips cols p n x cells0 skip0 out0) {acts : Nat × Nat × Nat → Option (List (Act K))}
    (ha : ∀ q ∈ every n, acts q = some (actions (tileE p) cols (valOf p n x) (visitItems R skips p n x q)))
    {o : Option (Arr Int × Arr Int × Out K)} (h : Launch (guarded acts n) (threads n) cells0 skip0 out0 o) :
    ∃ order r, o = some r ∧ Processed R skips cols p n x cells0 skip0 out0 order r := by
  have hall := listItems_complete (R := R) (p := p) (x := x) skips (validQ_perm n)
  have hin : ∀ y ∈ threads n, ¬ (y.1 ≥ n.baselines ∨ y.2.1 ≥ n.channels ∨ y.2.2 ≥ n.times) →
      (y.2.2, y.1, y.2.1) ∈ every n := by
    intro y _ hg
    rw [mem_every]
    simp only
    omega
  have hf : Fits (tileE p) (fun e => (e.1.2.1, e.1.2.2, e.1.1)) cols (threads n) (threadItems R skips p n x)
      p.tiling.num.toNat cells0 skip0 out0 := by
    refine ⟨threads_nodup n, by rw [thread_items_eq]; exact hall.nodup, ?_, ?_, hy.cells, ?_, ?_⟩
    · intro y _ e he
      unfold threadItems at he
      by_cases hg : y.1 ≥ n.baselines ∨ y.2.1 ≥ n.channels ∨ y.2.2 ≥ n.times
      · rw [if_pos hg] at he; cases he
      · rw [if_neg hg, some_mem_visit] at he
        rw [he.1]
    · intro e he
      rw [thread_items_eq] at he
      exact inside_range hr hall he
    · rintro ⟨y, _, he⟩
      apply hy.skip
      unfold threadItems at he
      by_cases hg : y.1 ≥ n.baselines ∨ y.2.1 ≥ n.channels ∨ y.2.2 ≥ n.times
      · rw [if_pos hg] at he; cases he
      · rw [if_neg hg] at he
        cases skips
        · exact (no_skip he).elim
        · rfl
    · intro c hc
      rw [thread_items_eq]
      exact hy.room c hc _ hall
  obtain ⟨order, cells, skip, out, e1, e2, -, e4, e5, e6⟩ := launch_sorted (val := valOf p n x) hf (guarded acts n) (by
    intro y hyt
    unfold guarded threadItems
    by_cases hg : y.1 ≥ n.baselines ∨ y.2.1 ≥ n.channels ∨ y.2.2 ≥ n.times
    · rw [if_pos hg, if_pos hg]; rfl
    · rw [if_neg hg, if_neg hg]
      exact ha _ (hin y hyt hg)) h
  refine ⟨order, (cells, skip, out), e1, ⟨?_, ?_⟩, e4, e5, ?_⟩
  · rw [thread_items_eq] at e2
    exact e2.nodup_iff.2 hall.nodup
  · intro e
    rw [thread_items_eq] at e2
    rw [e2.mem_iff]
    exact hall.mem e
  · intro hs
    subst hs
    rw [thread_skips_eq, skips_those (validQ_perm n)] at e6
    exact e6

theorem actions_flat (cols : List Col) (f : Nat × Nat × Nat → List (Option Item)) (l : List (Nat × Nat × Nat)) :
    (l.flatMap fun q => actions (tileE p) cols (valOf p n x) (f q)) = actions (tileE p) cols (valOf p n x) (l.flatMap f) := by
  unfold actions
  rw [List.flatMap_assoc]

theorem skips_flat (f : Nat × Nat × Nat → List (Option Item)) (l : List (Nat × Nat × Nat)) :
    numSkips (l.flatMap f) = (l.map fun q => numSkips (f q)).sum := by
  induction l with
  | nil => rfl
  | cons q l ih => rw [List.flatMap_cons, numSkips_append, ih, List.map_cons, List.sum_cons]

/-- The loops on the CPU. -/
theorem cpu_processed (hr : Ranges R p n x Hits) (skips : Bool) (cols : List Col) {cells0 skip0 : Arr Int} {out0 : Out K}
    (hy : Ready R skips cols p n x cells0 skip0 out0) {acts : Nat × Nat × Nat → Option (List (Act K))}
    (ha : ∀ q ∈ every n, acts q = some (actions (tileE p) cols (valOf p n x) (visitItems R skips p n x q))) :
    ∃ r, cpuLoops acts n cells0 skip0 out0 = some r ∧
      Processed R skips cols p n x cells0 skip0 out0 (listItems R skips p n x (every n)) r := by
  have h := cpu_launch acts _ n ha cells0 skip0 out0
  have hall := listItems_complete (R := R) (p := p) (x := x) skips (List.Perm.refl (every n))
  rw [actions_flat] at h
  have e0 : allItems [()] (fun _ => (every n).flatMap (visitItems R skips p n x)) = listItems R skips p n x (every n) := by
    unfold allItems listItems
    simp only [List.flatMap_cons, List.flatMap_nil, List.append_nil]
    rw [List.filterMap_flatMap]
  have hf : Fits (tileE p) (fun _ => ()) cols [()] (fun _ => (every n).flatMap (visitItems R skips p n x))
      p.tiling.num.toNat cells0 skip0 out0 := by
    refine ⟨by simp, by rw [e0]; exact hall.nodup, fun _ _ _ _ => rfl, ?_, hy.cells, ?_, ?_⟩
    · intro e he
      rw [e0] at he
      exact inside_range hr hall he
    · rintro ⟨_, _, he⟩
      apply hy.skip
      rw [List.mem_flatMap] at he
      obtain ⟨q, -, he⟩ := he
      cases skips
      · exact (no_skip he).elim
      · rfl
    · intro c hc
      rw [e0]
      exact hy.room c hc _ hall
  obtain ⟨order, cells, skip, out, e1, e2, e3, e4, e5, e6⟩ := launch_sorted (val := valOf p n x) hf _ (fun _ _ => rfl) h
  have e7 : order = listItems R skips p n x (every n) := by
    have := e3 () (by simp)
    rw [List.filter_eq_self.2 (by simp)] at this
    rw [this]
    unfold listItems
    rw [List.filterMap_flatMap]
  subst e7
  refine ⟨(cells, skip, out), e1, hall, e4, e5, ?_⟩
  intro hs
  subst hs
  simp only [List.map_cons, List.map_nil, List.sum_cons, List.sum_nil, Nat.add_zero] at e6
  rw [skips_flat] at e6
  have := skips_those (R := R) (p := p) (x := x) (List.Perm.refl (every n))
  rw [← this]
  exact e6

end Sdp.Tiles
