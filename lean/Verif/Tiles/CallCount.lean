import Verif.Tiles.CallMain
import Verif.Common.Desc

set_option linter.unusedSectionVars false

/-!
# C103 — sdp_count_and_prefix_sum
-/

namespace Sdp.Tiles
variable {K : Type} [Field K] [LinearOrder K] [FloorRing K]
variable {R : Tiling → Int → Int → Int × Int × Int × Int} {p : Par K} {n : Sizes} {x : Inputs K}
  {Hits : Int × Int → Nat × Nat × Nat → Prop}

/-- A launch has an outcome. -/
theorem launch_exists {ι : Type} [DecidableEq ι] (acts : ι → Option (List (Act K))) (ts : List ι) (cells skip : Arr Int)
    (out : Out K) : ∃ o, Launch acts ts cells skip out o := by
  by_cases h : ∃ y ∈ ts, acts y = none
  · obtain ⟨y, hy, h⟩ := h
    exact ⟨none, .load y hy h⟩
  · have hl : ∀ y ∈ ts, acts y = some ((acts y).getD []) := by
      intro y hy
      cases e : acts y with
      | none => exact absurd ⟨y, hy, e⟩ h
      | some l => rfl
    have hs : ∀ y ∈ ts.flatMap (fun y => List.replicate ((acts y).getD []).length y), y ∈ ts := by
      intro y hy
      rw [List.mem_flatMap] at hy
      obtain ⟨z, hz, hy⟩ := hy
      rw [List.mem_replicate] at hy
      exact hy.2 ▸ hz
    cases hr : trun (⟨cells, skip, out, fun _ => 0, fun y => (acts y).getD []⟩ : TSt K ι)
        (ts.flatMap (fun y => List.replicate ((acts y).getD []).length y)) with
    | none => exact ⟨none, .fault _ hl _ hs hr⟩
    | some s =>
      refine ⟨_, .done _ hl _ hs s hr fun y hy => ?_⟩
      rw [trun_todo _ hr y]
      simp only
      apply List.drop_eq_nil_of_le
      have key : ∀ l : List ι, y ∈ l → ((acts y).getD []).length ≤
          (l.flatMap (fun y => List.replicate ((acts y).getD []).length y)).count y := by
        intro l
        induction l with
        | nil => intro h; cases h
        | cons z l ih =>
          intro h
          rw [List.flatMap_cons, List.count_append]
          by_cases hz : y = z
          · subst hz
            rw [List.count_replicate_self]
            omega
          · have := ih ((List.mem_cons.1 h).resolve_left hz)
            omega
      exact key ts hy

/-! ## Numbers of tiles -/

theorem numU_pos (hc : p.tiling.Covers) (hg : 0 < p.gridSize) : 0 < p.tiling.numU ∧ 0 < p.tiling.numV := by
  have h1 : 0 < p.tileU := hc.tu
  have h2 : 0 < p.tileV := hc.tv
  unfold Tiling.numU Tiling.numV
  show 0 < (p.gridSize + p.tileU - 1) / p.tileU ∧ 0 < (p.gridSize + p.tileV - 1) / p.tileV
  constructor
  · exact Int.lt_of_lt_of_le Int.zero_lt_one ((Int.le_ediv_iff_mul_le h1).2 (by omega))
  · exact Int.lt_of_lt_of_le Int.zero_lt_one ((Int.le_ediv_iff_mul_le h2).2 (by omega))

/-- Every number is one of a tile. -/
theorem tile_of (hc : p.tiling.Covers) (hg : 0 < p.gridSize) {t : Nat} (ht : t < p.tiling.num.toNat) :
    ∃ q, Tile p q ∧ number p q = t := by
  obtain ⟨h1, h2⟩ := numU_pos hc hg
  have h3 : (t : Int) < p.tiling.numU * p.tiling.numV := by
    have : p.tiling.num = p.tiling.numU * p.tiling.numV := rfl
    omega
  refine ⟨((t : Int) % p.tiling.numU, (t : Int) / p.tiling.numU), ⟨⟨Int.emod_nonneg _ (by omega),
    Int.emod_lt_of_pos _ h1⟩, Int.ediv_nonneg (by omega) (by omega), ?_⟩, ?_⟩
  · exact Int.ediv_lt_of_lt_mul h1 (by rw [Int.mul_comm]; exact h3)
  · unfold number
    simp only
    have := Int.emod_add_mul_ediv (t : Int) p.tiling.numU
    rw [Int.mul_comm] at this
    rw [this]
    exact Int.toNat_natCast _

theorem cnt_tile (hr : Ranges R p n x Hits) {all : List Item} (ha : Complete R p n x all) {t : Int × Int} (ht : Tile p t) :
    cnt (tileE p) all (number p t : Nat) = (those n (Hits t)).length := by
  have := (ha.tile hr ht).length_eq
  rw [List.length_map] at this
  exact this

/-- The counts after all visibilities have been counted. -/
theorem counted_of (hr : Ranges R p n x Hits) {cells0 skip0 : Arr Int} {out0 : Out K}
    {order : List Item} {r : Arr Int × Arr Int × Out K} (hp : Processed R true [] p n x cells0 skip0 out0 order r)
    (h0 : ∀ t : Nat, t < p.tiling.num.toNat → cells0.get t = 0) (h1 : cells0.size = p.tiling.num.toNat) (h2 : skip0.get 0 = 0)
    (h3 : skip0.size = 1) {offs : Arr Int} (h4 : offs.size = p.tiling.num.toNat + 1)
    (h5 : ∀ t ≤ p.tiling.num.toNat, offs.get t = ∑ j ∈ Finset.range t, r.1.get j) :
    Counted p n x Hits ⟨offs, r.1, r.2.1, some (offs.get p.tiling.num.toNat)⟩ := by
  refine ⟨⟨h4, hp.sorted.size.trans h1, hp.skipSize.trans h3⟩, ?_, ?_, ?_, rfl, ?_⟩
  · intro t ht
    have hn : number p t < p.tiling.num.toNat := by
      have e := index_number p ht
      have := index_range p ht
      omega
    show r.1.get (number p t) = _
    rw [hp.sorted.cells, h0 _ hn, cnt_tile hr hp.all ht]
    omega
  · show offs.get 0 = 0
    rw [h5 0 (by omega)]
    simp
  · intro t ht
    show offs.get (t + 1) = offs.get t + r.1.get t
    rw [h5 _ (by omega), h5 t (by omega), Finset.sum_range_succ]
  · show r.2.1.get 0 = _
    rw [hp.skip rfl, h2]
    omega

/-! ## The call -/

/-- Documented arguments of the counting call, in memory at `loc`. -/
structure CountDoc (loc : MemLocation) (m : CountArgs) (p : Par K) (n : Sizes) (np : Int) (x : Inputs K) (s : Counts) : Prop where
  visShape : HasShape m.vis [n.times, n.baselines, n.channels, np]
  visType : ComplexType m.vis.type
  visData : m.vis.data ≠ none
  pols : np = 1 ∨ np = 4
  uvwShape : HasShape m.uvw [n.times, n.baselines, 3]
  uvwData : m.uvw.data ≠ none
  uvwContig : m.uvw.isCContiguous = true
  types : m.uvw.type = .double ∧ m.freqs.type = .double ∨ loc = .gpu ∧ m.uvw.type = .float ∧ m.freqs.type = .float
  places : ∀ a ∈ [m.uvw, m.freqs, m.vis, m.offsets, m.points, m.skipped], a.location = loc
  inputs : Sized n x
  shaped : Shaped p s
  offsets : m.offsets.numElements = s.offsets.size
  points : m.points.numElements = s.points.size
  skipped : m.skipped.numElements = s.skipped.size

theorem zeroed_get {a : Arr Int} {j : Nat} (h : j < a.size) : (zeroed a).get j = 0 := by
  show (if j < a.size then (0 : Int) else a.get j) = 0
  rw [if_pos h]

theorem clear_ok {cuda : Bool} {m : Mem} {a : Arr Int} {loc : MemLocation} (hl : m.location = loc) (h0 : m.numElements ≠ 0)
    (hc : loc = .cpu ∨ loc = .gpu ∧ cuda = true) : clearArr cuda m .success a = (.success, zeroed a) := by
  unfold clearArr
  rw [if_neg (by simp [h0])]
  rcases hc with rfl | ⟨rfl, rfl⟩
  · rw [hl]
  · rw [hl]; rfl

theorem clearCounts_ok {cuda : Bool} {loc : MemLocation} {m : CountArgs} {np : Int} {s : Counts} (hd : CountDoc loc m p n np x s)
    (hn : 0 < p.tiling.num.toNat) (hc : loc = .cpu ∨ loc = .gpu ∧ cuda = true) :
    clearCounts cuda m .success s = (.success, ⟨zeroed s.offsets, zeroed s.points, zeroed s.skipped, s.num⟩) := by
  have e1 := hd.offsets
  have e2 := hd.points
  have e3 := hd.skipped
  have f1 := hd.shaped.offsets
  have f2 := hd.shaped.points
  have f3 := hd.shaped.skipped
  have a1 : clearArr cuda m.offsets .success s.offsets = (.success, zeroed s.offsets) :=
    clear_ok (hd.places _ (by simp)) (by omega) hc
  have a2 : clearArr cuda m.points .success s.points = (.success, zeroed s.points) :=
    clear_ok (hd.places _ (by simp)) (by omega) hc
  have a3 : clearArr cuda m.skipped .success s.skipped = (.success, zeroed s.skipped) :=
    clear_ok (hd.places _ (by simp)) (by omega) hc
  unfold clearCounts
  simp only [a1, a2, a3]

theorem meta_sizes {vis : Mem} {np : Int} {n : Sizes} (hs : HasShape vis [n.times, n.baselines, n.channels, np]) (ht : ComplexType vis.type)
    (hd : vis.data ≠ none) (hp : np = 1 ∨ np = 4) :
    (getVisMetadata {} vis .success).2 = .success ∧
      (getVisMetadata {} vis .success).1 = ⟨some vis.type, some vis.location, some n.times, some n.baselines, some n.channels, some np⟩ := by
  obtain ⟨h1, h2⟩ := C09_vis_metadata {} vis .success
  have e0 : vis.shape.getD 0 0 = (n.times : Int) := hs.2 0 (by simp)
  have e1 : vis.shape.getD 1 0 = (n.baselines : Int) := hs.2 1 (by simp)
  have e2 : vis.shape.getD 2 0 = (n.channels : Int) := hs.2 2 (by simp)
  have e3 : vis.shape.getD 3 0 = np := hs.2 3 (by simp)
  have ok : (getVisMetadata {} vis .success).2 = .success := h1.2 ⟨rfl, hd, ht, hs.1, fun _ => by rw [e3]; exact hp⟩
  obtain ⟨q0, q1, q2, q3, q4, q5⟩ := h2 ok
  refine ⟨ok, ?_⟩
  have := q0 rfl; have := q1 rfl; have := q2 rfl; have := q3 rfl; have := q4 rfl; have := q5 rfl
  cases e : (getVisMetadata {} vis .success).1
  simp_all

theorem countCheck_ok {uvw vis : Mem} {np : Int} {n : Sizes} (hs : HasShape vis [n.times, n.baselines, n.channels, np])
    (ht : ComplexType vis.type) (hd : vis.data ≠ none) (hp : np = 1 ∨ np = 4) (hu : HasShape uvw [n.times, n.baselines, 3])
    (hud : uvw.data ≠ none) (huc : uvw.isCContiguous = true) (hut : RealType uvw.type) (hl : uvw.location = vis.location) :
    (countCheck uvw vis .success).2 = .success ∧
      (countCheck uvw vis .success).1 = ⟨some vis.type, some vis.location, some n.times, some n.baselines, some n.channels, some np⟩ ∧
      sizesOf (countCheck uvw vis .success).1 = n := by
  obtain ⟨h1, h2⟩ := meta_sizes hs ht hd hp
  unfold countCheck
  simp only [h1, h2, Option.getD_some]
  refine ⟨(C09_check_uvw _ _ _ _ _ _).2 ⟨rfl, hud, hut, hu, hl, Or.inl rfl, huc⟩, trivial, ?_⟩
  simp [sizesOf]

theorem count_ready {cells skip : Arr Int} (h1 : cells.size = p.tiling.num.toNat) (h2 : skip.size = 1) :
    Ready R true [] p n x cells skip (noOut (K := K)) :=
  ⟨by omega, fun _ => by omega, fun c hc => by cases hc⟩

theorem num_eq (hc : p.tiling.Covers) (hg : 0 < p.gridSize) : p.tiling.num = (p.tiling.num.toNat : Int) ∧ 0 < p.tiling.num.toNat := by
  obtain ⟨h1, h2⟩ := numU_pos hc hg
  have : 0 < p.tiling.num := Int.mul_pos h1 h2
  omega

/-- **C103 (partial: CPU; tiles count visibilities whose footprint lies entirely to their right, too).** With documented
arguments and a tiling that covers the grid, the counting call succeeds: counts, offsets, total and the number of skipped
visibilities are right, whatever the output arrays held. -/
theorem C103_count_cpu_partial (cuda : Bool) (m : CountArgs) (p : Par K) (n : Sizes) (np : Int) (x : Inputs K) (s : Counts)
    (hd : CountDoc .cpu m p n np x s) (hc : p.tiling.Covers) (hg : 0 < p.gridSize) :
    ∃ s', Counted p n x (Reaches p n x) s' ∧ ∀ o, CountCalls cuda m p x .success s o ↔ o = some (.success, s') := by
  obtain ⟨hn, hn0⟩ := num_eq hc hg
  have hu : p.tileU ≠ 0 := by have := hc.tu; show p.tiling.tileU ≠ 0; omega
  have hv : p.tileV ≠ 0 := by have := hc.tv; show p.tiling.tileV ≠ 0; omega
  have hlv : m.vis.location = .cpu := hd.places _ (by simp)
  have hty : m.uvw.type = .double ∧ m.freqs.type = .double := by
    rcases hd.types with h | ⟨h, -⟩
    · exact h
    · cases h
  obtain ⟨k1, -, k3⟩ := countCheck_ok hd.visShape hd.visType hd.visData hd.pols hd.uvwShape hd.uvwData hd.uvwContig
    (Or.inr hty.1) ((hd.places _ (by simp)).trans hlv.symm)
  have hcl := clearCounts_ok (cuda := cuda) hd hn0 (Or.inl rfl)
  have hloc : m.uvw.location = .cpu ∧ m.freqs.location = .cpu ∧ m.offsets.location = .cpu ∧ m.points.location = .cpu ∧
      m.skipped.location = .cpu :=
    ⟨hd.places _ (by simp), hd.places _ (by simp), hd.places _ (by simp), hd.places _ (by simp), hd.places _ (by simp)⟩
  have hcall : ∀ o, CountCalls cuda m p x .success s o ↔
      o = (countCpu p n x ⟨zeroed s.offsets, zeroed s.points, zeroed s.skipped, s.num⟩).map fun r => (.success, r) := by
    intro o
    unfold CountCalls
    rw [if_neg (by simp [hu, hv])]
    simp only [hcl, k1, k3, hlv]
    rw [if_pos hty, if_pos hloc]
  have hz1 : (zeroed s.points).size = p.tiling.num.toNat := hd.shaped.points
  have hz2 : (zeroed s.skipped).size = 1 := hd.shaped.skipped
  obtain ⟨r, e1, hp⟩ := cpu_processed (ranges_cpu p n x hc) true [] (count_ready hz1 hz2)
    (fun q hq => countActs_items Tiling.rangesCpu p n x hd.inputs hq)
  have hsz : r.1.size = p.tiling.num.toNat := hp.sorted.size.trans hz1
  have ho : (zeroed s.offsets).size = p.tiling.num.toNat + 1 := hd.shaped.offsets
  obtain ⟨offs, f1, f2, -, -, -, f3, -⟩ := C14_prefix_sum p.tiling.num.toNat r.1 (zeroed s.offsets) (by omega) (by omega)
  have hcnt := counted_of (ranges_cpu p n x hc) hp
    (fun t ht => zeroed_get (by rw [hd.shaped.points]; exact ht)) hz1 (zeroed_get (by rw [hd.shaped.skipped]; omega)) hz2
    (f2.trans ho) f3
  have hall : countCpu p n x ⟨zeroed s.offsets, zeroed s.points, zeroed s.skipped, s.num⟩ =
      some ⟨offs, r.1, r.2.1, some (offs.get p.tiling.num.toNat)⟩ := by
    unfold countCpu
    have hrd : offs.read p.tiling.num = some (offs.get p.tiling.num.toNat) := by
      rw [hn, Arr.read_nat, if_pos (by rw [f2]; omega)]
      rw [Int.toNat_natCast]
    simp only [e1, Option.bind_some, f1, hrd, Option.map_some]
  refine ⟨_, hcnt, fun o => ?_⟩
  rw [hcall, hall]
  rfl

/-- **C103 (partial: GPU, fewer than 512 tiles, so that the scan of the counts is one block).** With documented
arguments, CUDA and a tiling that covers the grid, the counting call succeeds in every interleaving of its threads:
every tile counts exactly the visibilities whose footprint touches it. -/
theorem C103_count_gpu_partial (m : CountArgs) (p : Par K) (n : Sizes) (np : Int) (x : Inputs K) (s : Counts)
    (hd : CountDoc .gpu m p n np x s) (hc : p.tiling.Covers) (hg : 0 < p.gridSize) (ht : every n ≠ []) (hsm : p.tiling.num < 512) :
    (∃ o, CountCalls true m p x .success s o) ∧ ∀ o, CountCalls true m p x .success s o →
      ∃ s', o = some (.success, s') ∧ Counted p n x (Touches p n x) s' := by
  obtain ⟨hn, hn0⟩ := num_eq hc hg
  have hu : p.tileU ≠ 0 := by have := hc.tu; show p.tiling.tileU ≠ 0; omega
  have hv : p.tileV ≠ 0 := by have := hc.tv; show p.tiling.tileV ≠ 0; omega
  have hlv : m.vis.location = .gpu := hd.places _ (by simp)
  have hty : m.uvw.type = .double ∧ m.freqs.type = .double ∨ m.uvw.type = .float ∧ m.freqs.type = .float := by
    rcases hd.types with h | ⟨-, h⟩
    · exact Or.inl h
    · exact Or.inr h
  obtain ⟨k1, -, k3⟩ := countCheck_ok hd.visShape hd.visType hd.visData hd.pols hd.uvwShape hd.uvwData hd.uvwContig
    (by unfold RealType; tauto) ((hd.places _ (by simp)).trans hlv.symm)
  have hcl := clearCounts_ok (cuda := true) hd hn0 (Or.inr ⟨rfl, rfl⟩)
  have hb : gpuBuffers [m.uvw, m.freqs, m.points, m.skipped] .success = .success := by
    have a1 : m.uvw.location = .gpu := hd.places _ (by simp)
    have a2 : m.freqs.location = .gpu := hd.places _ (by simp)
    have a3 : m.points.location = .gpu := hd.places _ (by simp)
    have a4 : m.skipped.location = .gpu := hd.places _ (by simp)
    simp [gpuBuffers, a1, a2, a3, a4]
  have hth : threads n ≠ [] := by
    intro h
    apply ht
    have := validQ_perm n
    unfold validQ at this
    rw [h] at this
    exact this.nil_eq.symm
  have hlo : m.offsets.location = .gpu := hd.places _ (by simp)
  have hcall : ∀ o, CountCalls true m p x .success s o ↔
      ∃ r, CountGpu p n x ⟨zeroed s.offsets, zeroed s.points, zeroed s.skipped, s.num⟩ r ∧ o = r.map fun r => (.success, r) := by
    intro o
    unfold CountCalls
    rw [if_neg (by simp [hu, hv])]
    simp only [hcl, k1, k3, hlv, hty, decide_true, if_true, hb]
    rw [if_neg (by simp [hth, hlo])]
  have hz1 : (zeroed s.points).size = p.tiling.num.toNat := hd.shaped.points
  have hz2 : (zeroed s.skipped).size = 1 := hd.shaped.skipped
  have ho : (zeroed s.offsets).size = p.tiling.num.toNat + 1 := hd.shaped.offsets
  constructor
  · obtain ⟨r, hr⟩ := launch_exists (guarded (countActs Tiling.rangesGpu p n x) n) (threads n) (zeroed s.points)
      (zeroed s.skipped) (noOut (K := K))
    cases r with
    | none => exact ⟨_, (hcall _).2 ⟨none, ⟨none, hr, rfl⟩, rfl⟩⟩
    | some r => exact ⟨_, (hcall _).2 ⟨_, ⟨some r, hr, fun _ _ => false, rfl⟩, rfl⟩⟩
  · intro o h
    obtain ⟨r, ⟨l, h1, h2⟩, rfl⟩ := (hcall o).1 h
    obtain ⟨order, r', rfl, hp⟩ := gpu_processed (ranges_gpu p n x hc) true [] (count_ready hz1 hz2)
      (fun q hq => countActs_items Tiling.rangesGpu p n x hd.inputs hq) h1
    simp only at h2
    obtain ⟨late, rfl⟩ := h2
    have hsz : r'.1.size = p.tiling.num.toNat := hp.sorted.size.trans hz1
    have hg2 : ∀ j ≤ p.tiling.num.toNat, gpuOffsets 512 p.tiling.num.toNat r'.1.get late j =
        some (∑ i ∈ Finset.range j, r'.1.get i) :=
      fun j hj => C14_gpu_scan_small 512 _ (by omega) _ _ _ hj
    have hscan : ∃ offs, scanGpu late p.tiling.num.toNat r'.1 (zeroed s.offsets) = some offs ∧ offs.size = p.tiling.num.toNat + 1 ∧
        ∀ j ≤ p.tiling.num.toNat, offs.get j = ∑ i ∈ Finset.range j, r'.1.get i := by
      refine ⟨_, if_pos ⟨by omega, by omega⟩, ho, fun j hj => ?_⟩
      simp only [hg2 j hj, Option.getD_some]
    obtain ⟨offs, f1, f2, f3⟩ := hscan
    have hcnt := counted_of (ranges_gpu p n x hc) hp
      (fun t ht => zeroed_get (by rw [hd.shaped.points]; exact ht)) hz1 (zeroed_get (by rw [hd.shaped.skipped]; omega)) hz2 f2 f3
    have hrd : offs.read p.tiling.num = some (offs.get p.tiling.num.toNat) := by
      rw [hn, Arr.read_nat, if_pos (by rw [f2]; omega), Int.toNat_natCast]
    have hrk : r'.2.1.read 0 = some (r'.2.1.get 0) := by
      have := hp.skipSize
      rw [show (0 : Int) = ((0 : Nat) : Int) from rfl, Arr.read_nat, if_pos (by omega)]
    refine ⟨_, ?_, hcnt⟩
    simp only [f1, Option.bind_some, hrd, hrk, Option.map_some]

end Sdp.Tiles
