import Verif.Tiles.CallSort

set_option linter.unusedSectionVars false

/-!
# C103 — the calls of sdp_bucket_sort and sdp_tiled_indexing
-/

namespace Sdp.Tiles
variable {K : Type} [Field K] [LinearOrder K] [FloorRing K]
variable {p : Par K} {n : Sizes} {x : Inputs K}

theorem clear_any {α : Type} [Zero α] {cuda : Bool} {m : Mem} {a : Arr α} {loc : MemLocation} (hl : m.location = loc)
    (hn : m.numElements = a.size) (hc : loc = .cpu ∨ loc = .gpu ∧ cuda = true) :
    ∃ b, clearArr cuda m .success a = (.success, b) ∧ b.size = a.size ∧ ∀ j < a.size, b.get j = 0 := by
  by_cases h0 : m.numElements = 0
  · refine ⟨a, ?_, rfl, fun j hj => by omega⟩
    unfold clearArr
    rw [if_pos (Or.inr h0)]
  · refine ⟨zeroed a, ?_, rfl, fun j hj => ?_⟩
    · unfold clearArr
      rw [if_neg (by simp [h0])]
      rcases hc with rfl | ⟨rfl, rfl⟩
      · rw [hl]
      · rw [hl]; rfl
    · show (if j < a.size then (0 : α) else a.get j) = 0
      rw [if_pos hj]

theorem clearCols_ok {cuda : Bool} {m : Col → Mem} {loc : MemLocation} (hc : loc = .cpu ∨ loc = .gpu ∧ cuda = true) :
    ∀ (cols : List Col) (s : Out K), cols.Nodup → (∀ c ∈ cols, (m c).location = loc) →
      (∀ c ∈ cols, (m c).numElements = (s c).size) →
      ∃ s' : Out K, clearCols cuda m cols .success s = (.success, s') ∧ (∀ c, (s' c).size = (s c).size) ∧
        (∀ c ∈ cols, ∀ j < (s c).size, (s' c).get j = 0) ∧ ∀ c, c ∉ cols → s' c = s c := by
  intro cols
  induction cols with
  | nil => intro s _ _ _; exact ⟨s, rfl, fun _ => rfl, (fun c hc => by cases hc), fun _ _ => rfl⟩
  | cons c cols ih =>
    intro s hnd hl hn
    rw [List.nodup_cons] at hnd
    obtain ⟨b, e1, e2, e3⟩ := clear_any (a := s c) (hl c (by simp)) (hn c (by simp)) hc
    obtain ⟨s', f1, f2, f3, f4⟩ := ih (Function.update s c b) hnd.2 (fun d hd => hl d (by simp [hd])) (fun d hd => by
      have : d ≠ c := fun e => hnd.1 (e ▸ hd)
      rw [Function.update_of_ne this]
      exact hn d (by simp [hd]))
    have hsz : ∀ d, (Function.update s c b d).size = (s d).size := by
      intro d
      by_cases h : d = c
      · subst h; rw [Function.update_self, e2]
      · rw [Function.update_of_ne h]
    refine ⟨s', ?_, fun d => (f2 d).trans (hsz d), ?_, ?_⟩
    · have : clearCols cuda m (c :: cols) .success s = clearCols cuda m cols .success (Function.update s c b) := by
        show List.foldl _ _ cols = _
        simp only [e1]
        rfl
      rw [this, f1]
    · intro d hd j hj
      by_cases h : d = c
      · subst h
        rw [f4 d hnd.1, Function.update_self]
        exact e3 j hj
      · exact f3 d ((List.mem_cons.1 hd).resolve_left h) j (by rw [hsz]; exact hj)
    · intro d hd
      rw [List.mem_cons, not_or] at hd
      rw [f4 d hd.2, Function.update_of_ne hd.1]

/-- Documented arguments of the sorting call, in memory at `loc`: `np` polarisations, and sorted arrays at least as long as
the total number that the counting call gave. -/
structure SortDoc (loc : MemLocation) (m : SortArgs) (p : Par K) (n : Sizes) (np : Nat) (x : Inputs K) (c : Counts) (s : Out K) : Prop where
  pols : np = 1 ∨ np = 4
  visShape : HasShape m.vis [n.times, n.baselines, n.channels, np]
  visType : ComplexType m.vis.type
  visData : m.vis.data ≠ none
  uvwShape : HasShape m.uvw [n.times, n.baselines, 3]
  uvwData : m.uvw.data ≠ none
  uvwContig : m.uvw.isCContiguous = true
  weightShape : HasShape m.weights [n.times, n.baselines, n.channels, np]
  weightData : m.weights.data ≠ none
  weightContig : m.weights.isCContiguous = true
  types : (∀ a ∈ [m.uvw, m.weights, m.freqs], a.type = .double) ∨ ∀ a ∈ [m.uvw, m.weights, m.freqs], a.type = .float
  places : ∀ a ∈ [m.uvw, m.freqs, m.vis, m.weights, m.offsets, m.out .uu, m.out .vv, m.out .vis, m.out .weight, m.out .tile],
    a.location = loc
  inputs : Sized n x
  vis : x.vis.size = n.times * n.baselines * n.channels * np * 2
  weights : x.weights.size = n.times * n.baselines * n.channels * np
  out : ∀ k ∈ sortCols, (m.out k).numElements = (s k).size
  large : ∀ k ∈ sortCols, c.offsets.get p.tiling.num.toNat ≤ (s k).size

theorem size_weights {loc : MemLocation} {m : SortArgs} {np : Nat} {c : Counts} {s : Out K} (hd : SortDoc loc m p n np x c s) :
    n.times * n.baselines * n.channels ≤ x.weights.size := by
  rw [hd.weights]
  exact Nat.le_mul_of_pos_right _ (by have := hd.pols; omega)

theorem size_vis {loc : MemLocation} {m : SortArgs} {np : Nat} {c : Counts} {s : Out K} (hd : SortDoc loc m p n np x c s) :
    n.times * n.baselines * n.channels ≤ x.vis.size := by
  have h := size_weights hd
  rw [hd.weights] at h
  rw [hd.vis]
  omega

theorem mem_sortCols {k : Col} (h : k ∈ [Col.uu, Col.tile, Col.vv, Col.weight, Col.vis]) : k ∈ sortCols := by
  unfold sortCols
  simp only [List.mem_cons, List.not_mem_nil, or_false] at h ⊢
  tauto

theorem sortCols_mem {k : Col} (h : k ∈ sortCols) : k ∈ [Col.uu, Col.tile, Col.vv, Col.weight, Col.vis] := by
  unfold sortCols at h
  simp only [List.mem_cons, List.not_mem_nil, or_false] at h ⊢
  tauto

/-- What the sorting call comes to. -/
theorem sort_run {cuda : Bool} {loc : MemLocation} {m : SortArgs} {np : Nat} {c : Counts} {s : Out K} (hd : SortDoc loc m p n np x c s)
    (hc : p.tiling.Covers) (hl : loc = .cpu ∨ loc = .gpu ∧ cuda = true ∧ every n ≠ []) :
    ∃ s0 : Out K, (∀ k, (s0 k).size = (s k).size) ∧ (∀ k ∈ sortCols, ∀ j < (s k).size, (s0 k).get j = 0) ∧
      (∀ k, k ∉ sortCols → s0 k = s k) ∧
      ∀ offs o, SortCalls cuda m p x .success offs s o ↔
        if loc = .cpu then
          o = (cpuLoops (sortActs Tiling.rangesCpu p n x) n offs ⟨0, fun _ => 0⟩ s0).map fun r => (.success, r.1, r.2.2)
        else ∃ r, Launch (guarded (sortActs Tiling.rangesGpu p n x) n) (threads n) offs ⟨0, fun _ => 0⟩ s0 r ∧
          o = r.map fun r => (.success, r.1, r.2.2) := by
  have hu : p.tileU ≠ 0 := by have := hc.tu; show p.tiling.tileU ≠ 0; omega
  have hv : p.tileV ≠ 0 := by have := hc.tv; show p.tiling.tileV ≠ 0; omega
  have hlv : m.vis.location = loc := hd.places _ (by simp)
  have hlu : m.uvw.location = m.vis.location := (hd.places _ (by simp)).trans hlv.symm
  have hty : RealType m.uvw.type := by
    rcases hd.types with h | h
    · exact Or.inr (h _ (by simp))
    · exact Or.inl (h _ (by simp))
  have hwt : ¬ ComplexType m.weights.type := by
    unfold ComplexType
    rcases hd.types with h | h <;> rw [h m.weights (by simp)] <;> simp
  obtain ⟨k1, k2, k3⟩ := countCheck_ok hd.visShape hd.visType hd.visData (by have := hd.pols; omega) hd.uvwShape hd.uvwData hd.uvwContig
    hty hlu
  rw [k2] at k3
  have hw : checkWeights m.weights .void m.vis.location n.times n.baselines n.channels np .success = .success :=
    (C09_check_weights _ _ _ _ _ _ _ _).2 ⟨rfl, hd.weightData, hwt, hd.weightShape, (hd.places _ (by simp)).trans hlv.symm,
      Or.inl rfl, hd.weightContig⟩
  have hsr : sameReal [m.uvw, m.weights, m.freqs] = true := by
    unfold sameReal
    exact decide_eq_true hd.types
  have hcol : ∀ k ∈ [Col.uu, Col.tile, Col.vv, Col.weight, Col.vis], (m.out k).location = loc := by
    intro k hk
    have := mem_sortCols hk
    unfold sortCols at this
    simp only [List.mem_cons, List.not_mem_nil, or_false] at this
    rcases this with rfl | rfl | rfl | rfl | rfl <;> exact hd.places _ (by simp)
  obtain ⟨s0, e1, e2, e3, e4⟩ := clearCols_ok (cuda := cuda) (m := m.out) (loc := loc) (by tauto)
    [.uu, .tile, .vv, .weight, .vis] s (by decide) hcol (fun k hk => hd.out k (mem_sortCols hk))
  refine ⟨s0, e2, fun k hk => e3 k (sortCols_mem hk), fun k hk => e4 k (fun h => hk (mem_sortCols h)), fun offs o => ?_⟩
  unfold SortCalls
  rw [if_neg (by simp), if_neg (by simp [hu, hv])]
  simp only [e1, k1, k2, k3, Option.getD_some, hw, hsr, if_true]
  rcases hl with rfl | ⟨rfl, rfl, hne⟩
  · simp only [hlv, Bool.true_eq_false, if_false, if_true]
    rw [if_pos (fun a ha => hd.places a (by
      simp only [List.mem_cons, List.not_mem_nil, or_false] at ha ⊢
      tauto))]
  · have hb : gpuBuffers [m.uvw, m.freqs, m.vis, m.weights, m.offsets, m.out .uu, m.out .vv, m.out .vis,
        m.out .weight, m.out .tile] .success = .success := by
      have : ∀ (l : List Mem), (∀ a ∈ l, a.location = .gpu) → gpuBuffers l .success = .success := by
        intro l
        induction l with
        | nil => intro _; rfl
        | cons a l ih =>
          intro h
          have h1 := h a (by simp)
          have h2 := ih fun b hb => h b (by simp [hb])
          unfold gpuBuffers at h2 ⊢
          rw [List.foldl_cons]
          simp only [h1, ne_eq, not_true_eq_false, false_and, and_false, if_false]
          exact h2
      exact this _ hd.places
    have hth : threads n ≠ [] := by
      intro h
      apply hne
      have := validQ_perm n
      unfold validQ at this
      rw [h] at this
      exact this.nil_eq.symm
    simp only [hlv, hb]
    rw [if_neg (by simp), if_neg (by simp [hth]), if_neg (by simp)]

theorem row_slots {R : Tiling → Int → Int → Int × Int × Int × Int} {c : Counts} {skip : Arr Int} {s : Out K} {order : List Item}
    {r : Arr Int × Arr Int × Out K} (hp : Processed R false sortCols p n x c.offsets skip s order r) (t : Nat) (i : Nat) (e : Item)
    (he : (order.filter fun d => tileE p d = (t : Int))[i]? = some e) :
    rowAt r.2.2 (c.offsets.get t + (i : Int)).toNat = rowOf p n x e.2 e.1 := by
  have h := fun k hk => hp.sorted.slots k hk t i e he
  have h1 := h .uu (by decide)
  have h2 := h .vv (by decide)
  have h3 := h .vis (by decide)
  have h4 := h .weight (by decide)
  have h5 := h .tile (by decide)
  unfold rowAt
  rw [h1, h2, h3, h4, h5]
  rfl

/-- **C103 (partial: CPU).** With documented arguments and the offsets of a counting call, the sorting call succeeds: the
slots of every tile hold exactly its visibilities, in the order of time, baseline and channel; other slots are zero, and
every offset has moved to the end of its tile. -/
theorem C103_sort_cpu_partial (cuda : Bool) (m : SortArgs) (p : Par K) (n : Sizes) (np : Nat) (x : Inputs K) (c : Counts) (s : Out K)
    (hc : p.tiling.Covers) (hg : 0 < p.gridSize) (hcnt : Counted p n x (Reaches p n x) c) (hd : SortDoc .cpu m p n np x c s) :
    ∃ offs' s', (∀ t, Tile p t → (slots p c.offsets t).map (rowAt s') = (those n (Reaches p n x t)).map (rowOf p n x t)) ∧
      Rest p [.uu, .vv, .vis, .weight, .tile] c.offsets offs' s s' ∧
      ∀ o, SortCalls cuda m p x .success c.offsets s o ↔ o = some (.success, offs', s') := by
  obtain ⟨s0, z1, z2, z3, z4⟩ := sort_run (cuda := cuda) hd hc (Or.inl rfl)
  have hr := ranges_cpu p n x hc
  obtain ⟨r, e1, hp⟩ := cpu_processed hr false sortCols (sort_ready hcnt hc hg hr sortCols s0
    (fun k hk => by rw [z1]; exact hd.large k hk) ⟨0, fun _ => 0⟩)
    (fun q hq => sortActs_items Tiling.rangesCpu p n x hd.inputs (size_vis hd) (size_weights hd) hq)
  refine ⟨r.1, r.2.2, fun t ht => ?_, rest_of hcnt hc hg hr hp z1 z2 z3 fun _ h => h, fun o => ?_⟩
  · rw [rows_of hcnt hc hg hr hp.all ht _ (fun e => rowOf p n x e.2 e.1) (rowOf p n x t) (fun _ => rfl)
      (fun i e he => row_slots hp _ i e he), list_tile hr ht]
  · rw [z4, if_pos rfl, e1]
    rfl

/-- **C103 (partial: GPU).** The same in every interleaving of the threads on the GPU, where the slots of a tile hold
exactly the visibilities whose footprint touches it, in some order. -/
theorem C103_sort_gpu_partial (m : SortArgs) (p : Par K) (n : Sizes) (np : Nat) (x : Inputs K) (c : Counts) (s : Out K)
    (hc : p.tiling.Covers) (hg : 0 < p.gridSize) (ht : every n ≠ []) (hcnt : Counted p n x (Touches p n x) c)
    (hd : SortDoc .gpu m p n np x c s) :
    (∃ o, SortCalls true m p x .success c.offsets s o) ∧ ∀ o, SortCalls true m p x .success c.offsets s o →
      ∃ offs' s', o = some (.success, offs', s') ∧
        (∀ t, Tile p t → ((slots p c.offsets t).map (rowAt s')).Perm ((those n (Touches p n x t)).map (rowOf p n x t))) ∧
        Rest p [.uu, .vv, .vis, .weight, .tile] c.offsets offs' s s' := by
  obtain ⟨s0, z1, z2, z3, z4⟩ := sort_run (cuda := true) hd hc (Or.inr ⟨rfl, rfl, ht⟩)
  have hr := ranges_gpu p n x hc
  constructor
  · obtain ⟨r, hl⟩ := launch_exists (guarded (sortActs Tiling.rangesGpu p n x) n) (threads n) c.offsets ⟨0, fun _ => 0⟩ s0
    exact ⟨_, (z4 _ _).2 (by rw [if_neg (by simp)]; exact ⟨r, hl, rfl⟩)⟩
  · intro o h
    rw [z4, if_neg (by simp)] at h
    obtain ⟨r0, hl, rfl⟩ := h
    obtain ⟨order, r, rfl, hp⟩ := gpu_processed hr false sortCols (sort_ready hcnt hc hg hr sortCols s0
      (fun k hk => by rw [z1]; exact hd.large k hk) ⟨0, fun _ => 0⟩)
      (fun q hq => sortActs_items Tiling.rangesGpu p n x hd.inputs (size_vis hd) (size_weights hd) hq) hl
    refine ⟨r.1, r.2.2, rfl, fun t ht => ?_, rest_of hcnt hc hg hr hp z1 z2 z3 fun _ h => h⟩
    rw [rows_of hcnt hc hg hr hp.all ht _ (fun e => rowOf p n x e.2 e.1) (rowOf p n x t) (fun _ => rfl)
      (fun i e he => row_slots hp _ i e he)]
    exact (hp.all.tile hr ht).map _

/-! ## sdp_tiled_indexing -/

/-- Documented arguments of the indexing call, in memory at `loc`. -/
structure IndexDoc (loc : MemLocation) (m : SortArgs) (p : Par K) (n : Sizes) (x : Inputs K) (c : Counts) (s : Out K) : Prop where
  uvwShape : HasShape m.uvw [n.times, n.baselines, 3]
  uvwData : m.uvw.data ≠ none
  uvwContig : m.uvw.isCContiguous = true
  types : (∀ a ∈ [m.uvw, m.freqs], a.type = .double) ∨ ∀ a ∈ [m.uvw, m.freqs], a.type = .float
  places : ∀ a ∈ [m.uvw, m.freqs, m.offsets, m.out .uu, m.out .vv, m.out .index, m.out .tile], a.location = loc
  inputs : Sized n x
  out : ∀ k ∈ [Col.tile, Col.index, Col.vv, Col.uu], (m.out k).numElements = (s k).size
  large : ∀ k ∈ [Col.tile, Col.index, Col.vv, Col.uu], c.offsets.get p.tiling.num.toNat ≤ (s k).size

/-- What the indexing call comes to. -/
theorem index_run {cuda : Bool} {loc : MemLocation} {m : SortArgs} {c : Counts} {s : Out K} (hd : IndexDoc loc m p n x c s)
    (hc : p.tiling.Covers) (hl : loc = .cpu ∨ loc = .gpu ∧ cuda = true ∧ every n ≠ []) :
    ∃ s0 : Out K, (∀ k, (s0 k).size = (s k).size) ∧
      (∀ k ∈ [Col.tile, Col.index, Col.vv, Col.uu], ∀ j < (s k).size, (s0 k).get j = 0) ∧
      (∀ k, k ∉ [Col.tile, Col.index, Col.vv, Col.uu] → s0 k = s k) ∧
      ∀ offs o, IndexCalls cuda m p n x .success offs s o ↔
        if loc = .cpu then
          o = (cpuLoops (indexActsCpu p n x) n offs ⟨0, fun _ => 0⟩ s0).map fun r => (.success, r.1, r.2.2)
        else ∃ r, Launch (guarded (indexActsGpu p n x) n) (threads n) offs ⟨0, fun _ => 0⟩ s0 r ∧
          o = r.map fun r => (.success, r.1, r.2.2) := by
  have hu : p.tileU ≠ 0 := by have := hc.tu; show p.tiling.tileU ≠ 0; omega
  have hv : p.tileV ≠ 0 := by have := hc.tv; show p.tiling.tileV ≠ 0; omega
  have hlu : m.uvw.location = loc := hd.places _ (by simp)
  have hty : RealType m.uvw.type := by
    rcases hd.types with h | h
    · exact Or.inr (h _ (by simp))
    · exact Or.inl (h _ (by simp))
  have hw : checkUvw m.uvw .void m.uvw.location n.times n.baselines .success = .success :=
    (C09_check_uvw _ _ _ _ _ _).2 ⟨rfl, hd.uvwData, hty, hd.uvwShape, rfl, Or.inl rfl, hd.uvwContig⟩
  have hsr : sameReal [m.uvw, m.freqs] = true := by
    unfold sameReal
    exact decide_eq_true hd.types
  have hcol : ∀ k ∈ [Col.tile, Col.index, Col.vv, Col.uu], (m.out k).location = loc := by
    intro k hk
    simp only [List.mem_cons, List.not_mem_nil, or_false] at hk
    rcases hk with rfl | rfl | rfl | rfl <;> exact hd.places _ (by simp)
  obtain ⟨s0, e1, e2, e3, e4⟩ := clearCols_ok (cuda := cuda) (m := m.out) (loc := loc) (by tauto)
    [.tile, .index, .vv, .uu] s (by decide) hcol (fun k hk => hd.out k hk)
  refine ⟨s0, e2, e3, e4, fun offs o => ?_⟩
  unfold IndexCalls
  rw [if_neg (by simp), if_neg (by simp [hu, hv])]
  rcases hl with rfl | ⟨rfl, rfl, hne⟩
  · rw [hlu] at hw
    simp only [e1, hlu, hw, hsr, Bool.true_eq_false, if_false, if_true]
    rw [if_pos (fun a ha => hd.places a (by
      simp only [List.mem_cons, List.not_mem_nil, or_false] at ha ⊢
      tauto))]
  · have hb : gpuBuffers [m.uvw, m.freqs, m.offsets, m.out .uu, m.out .vv, m.out .index, m.out .tile] .success = .success := by
      have : ∀ (l : List Mem), (∀ a ∈ l, a.location = .gpu) → gpuBuffers l .success = .success := by
        intro l
        induction l with
        | nil => intro _; rfl
        | cons a l ih =>
          intro h
          have h1 := h a (by simp)
          have h2 := ih fun b hb => h b (by simp [hb])
          unfold gpuBuffers at h2 ⊢
          rw [List.foldl_cons]
          simp only [h1, ne_eq, not_true_eq_false, false_and, and_false, if_false]
          exact h2
      exact this _ hd.places
    have hth : threads n ≠ [] := by
      intro h
      apply hne
      have := validQ_perm n
      unfold validQ at this
      rw [h] at this
      exact this.nil_eq.symm
    rw [hlu] at hw
    simp only [e1, hlu, hw, hsr, if_true, hb]
    rw [if_neg (by simp), if_neg (by simp [hth]), if_neg (by simp)]

/-- **C103 (partial: CPU; the coordinates are not stored).** With documented arguments and the offsets of a counting
call, the indexing call succeeds: the slots of every tile hold the numbers of its visibilities in order, and the tile; the
arrays of coordinates are set to zero. -/
theorem C103_index_cpu_partial (cuda : Bool) (m : SortArgs) (p : Par K) (n : Sizes) (x : Inputs K) (c : Counts) (s : Out K)
    (hc : p.tiling.Covers) (hg : 0 < p.gridSize) (hcnt : Counted p n x (Reaches p n x) c) (hd : IndexDoc .cpu m p n x c s) :
    ∃ offs' s', (∀ t, Tile p t → (slots p c.offsets t).map (fun j => ((s' .index).get j, (s' .tile).get j)) =
        (those n (Reaches p n x t)).map fun q => ((place n q : Int), t.2 * 32768 + t.1)) ∧
      (∀ j < (s .uu).size, (s' .uu).get j = 0) ∧ (∀ j < (s .vv).size, (s' .vv).get j = 0) ∧
      Rest p [.tile, .index, .vv, .uu] c.offsets offs' s s' ∧
      ∀ o, IndexCalls cuda m p n x .success c.offsets s o ↔ o = some (.success, offs', s') := by
  obtain ⟨s0, z1, z2, z3, z4⟩ := index_run (cuda := cuda) hd hc (Or.inl rfl)
  have hr := ranges_cpu p n x hc
  obtain ⟨r, e1, hp⟩ := cpu_processed hr false [.index, .tile] (sort_ready hcnt hc hg hr [.index, .tile] s0
    (fun k hk => by
      rw [z1]
      refine hd.large k ?_
      simp only [List.mem_cons, List.not_mem_nil, or_false] at hk ⊢
      tauto) ⟨0, fun _ => 0⟩)
    (fun q hq => indexActsCpu_items p n x hd.inputs hq)
  refine ⟨r.1, r.2.2, fun t ht => ?_, ?_, ?_, rest_of hcnt hc hg hr hp z1 z2 z3 ?_, fun o => ?_⟩
  · rw [rows_of hcnt hc hg hr hp.all ht _ (fun e => ((place n e.1 : Int), e.2.2 * 32768 + e.2.1))
      (fun q => ((place n q : Int), t.2 * 32768 + t.1)) (fun _ => rfl)
      (fun i e he => by
        have h1 := hp.sorted.slots .index (by decide) _ i e he
        have h2 := hp.sorted.slots .tile (by decide) _ i e he
        rw [h1, h2]
        rfl), list_tile hr ht]
  · intro j hj
    rw [hp.sorted.unused .uu (by decide)]
    exact z2 .uu (by decide) j hj
  · intro j hj
    rw [hp.sorted.unused .vv (by decide)]
    exact z2 .vv (by decide) j hj
  · intro k hk
    simp only [List.mem_cons, List.not_mem_nil, or_false] at hk ⊢
    tauto
  · rw [z4, if_pos rfl, e1]
    rfl

/-- **C103 (partial: GPU).** On the GPU the coordinates are stored, too, in every interleaving of the threads. -/
theorem C103_index_gpu_partial (m : SortArgs) (p : Par K) (n : Sizes) (x : Inputs K) (c : Counts) (s : Out K)
    (hc : p.tiling.Covers) (hg : 0 < p.gridSize) (ht : every n ≠ []) (hcnt : Counted p n x (Touches p n x) c)
    (hd : IndexDoc .gpu m p n x c s) :
    (∃ o, IndexCalls true m p n x .success c.offsets s o) ∧ ∀ o, IndexCalls true m p n x .success c.offsets s o →
      ∃ offs' s', o = some (.success, offs', s') ∧
        (∀ t, Tile p t → ((slots p c.offsets t).map (indexAt s')).Perm ((those n (Touches p n x t)).map (indexOf p n x t))) ∧
        Rest p [.tile, .index, .vv, .uu] c.offsets offs' s s' := by
  obtain ⟨s0, z1, z2, z3, z4⟩ := index_run (cuda := true) hd hc (Or.inr ⟨rfl, rfl, ht⟩)
  have hr := ranges_gpu p n x hc
  constructor
  · obtain ⟨r, hl⟩ := launch_exists (guarded (indexActsGpu p n x) n) (threads n) c.offsets ⟨0, fun _ => 0⟩ s0
    exact ⟨_, (z4 _ _).2 (by rw [if_neg (by simp)]; exact ⟨r, hl, rfl⟩)⟩
  · intro o h
    rw [z4, if_neg (by simp)] at h
    obtain ⟨r0, hl, rfl⟩ := h
    obtain ⟨order, r, rfl, hp⟩ := gpu_processed hr false [.uu, .vv, .index, .tile]
      (sort_ready hcnt hc hg hr [.uu, .vv, .index, .tile] s0
      (fun k hk => by
        rw [z1]
        refine hd.large k ?_
        simp only [List.mem_cons, List.not_mem_nil, or_false] at hk ⊢
        tauto) ⟨0, fun _ => 0⟩)
      (fun q hq => indexActsGpu_items p n x hd.inputs hq) hl
    refine ⟨r.1, r.2.2, rfl, fun t ht => ?_, rest_of hcnt hc hg hr hp z1 z2 z3 ?_⟩
    · rw [rows_of hcnt hc hg hr hp.all ht _ (fun e => indexOf p n x e.2 e.1) (indexOf p n x t) (fun _ => rfl)
        (fun i e he => by
          have h := fun k hk => hp.sorted.slots k hk _ i e he
          have h1 := h .uu (by decide)
          have h2 := h .vv (by decide)
          have h3 := h .index (by decide)
          have h5 := h .tile (by decide)
          unfold indexAt
          rw [h1, h2, h3, h5]
          rfl)]
      exact (hp.all.tile hr ht).map _
    · intro k hk
      simp only [List.mem_cons, List.not_mem_nil, or_false] at hk ⊢
      tauto

end Sdp.Tiles
