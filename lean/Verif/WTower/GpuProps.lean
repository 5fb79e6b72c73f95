import Verif.WTower.Gpu
import Verif.WTower.Plane
import Verif.EsFft.KernelProps

/-!
# C92: w-tower kernels on the GPU
-/

set_option linter.unusedSectionVars false

namespace Sdp.WTower
open Sdp.Clamp Sdp.Race Finset

section
variable {K : Type} [Field K] [LinearOrder K] [IsStrictOrderedRing K] [FloorRing K]
variable {R : Type} [CommRing R]

theorem nest3_sum {M : Type} [AddCommMonoid M] (a b c : Nat) (f : Nat × Nat × Nat → M) :
    ((nest3 a b c).map f).sum = ∑ i ∈ range a, ∑ j ∈ range b, ∑ k ∈ range c, f (i, j, k) := by
  unfold nest3 nest2
  rw [List.map_flatMap, sum_flat, List.map_flatMap, sum_flat, ← list_sum_range]
  congr 1
  refine List.map_congr_left fun i _ => ?_
  rw [List.map_map, ← list_sum_range]
  congr 1
  refine List.map_congr_left fun j _ => ?_
  simp only [Function.comp_apply]
  rw [List.map_map, ← list_sum_range]
  rfl

theorem kernWuv_ok (pl : Plan K R) (cl : Cell) (h : cl.Ok pl) (a : Nat × Nat × Nat)
    (ha : a ∈ nest3 pl.wSupport pl.support pl.support) :
    kernWuv pl cl a = some (pl.wKernel.get (cl.wOff + a.1).toNat * pl.uvKernel.get (cl.uOff + a.2.1).toNat *
      pl.uvKernel.get (cl.vOff + a.2.2).toNat) := by
  obtain ⟨q0, q1, q2⟩ := mem_nest3.1 ha
  have a0 := h.ku0; have a1 := h.ku1; have b0 := h.kv0; have b1 := h.kv1
  have c0 := h.kw0; have c1 := h.kw1
  unfold kernWuv
  rw [read_at _ _ (by omega) (by omega), read_at _ _ (by omega) (by omega), read_at _ _ (by omega) (by omega)]
  rfl

theorem rawPix_eq (pl : Plan K R) (k x y : Nat) :
    rawPix pl k x y = ((pl.n * (pl.n * k + x) + y : Nat) : Int) := by
  unfold rawPix
  push_cast
  ring

/-- One visibility has the same value on both devices. -/
theorem degridVisGpu_ok (pl : Plan K R) (cl : Cell) (h : cl.Ok pl) (T : Arr R)
    (hT : T.size = pl.wSupport * (pl.n * pl.n)) : degridVisGpu pl cl T = degridVis pl cl T := by
  rw [degridVis_ok pl cl h T hT]
  have hu0 := h.u0; have hu1 := h.u1; have hv0 := h.v0; have hv1 := h.v1
  obtain ⟨i0, hi0⟩ := Int.eq_ofNat_of_zero_le hu0
  obtain ⟨j0, hj0⟩ := Int.eq_ofNat_of_zero_le hv0
  unfold degridVisGpu
  rw [loop_sum _ _ (fun a : Nat × Nat × Nat => pl.wKernel.get (cl.wOff + a.1).toNat *
    pl.uvKernel.get (cl.uOff + a.2.1).toNat * pl.uvKernel.get (cl.vOff + a.2.2).toNat *
      T.get (pl.n * (pl.n * a.1 + (cl.iu0 + a.2.1).toNat) + (cl.iv0 + a.2.2).toNat)) (by
    intro a ha acc
    obtain ⟨q0, q1, q2⟩ := mem_nest3.1 ha
    rw [kernWuv_ok pl cl h a ha]
    simp only [Option.bind_some]
    have e1 : cl.iu0 + (a.2.1 : Int) = ((i0 + a.2.1 : Nat) : Int) := by omega
    have e2 : cl.iv0 + (a.2.2 : Int) = ((j0 + a.2.2 : Nat) : Int) := by omega
    rw [e1, e2, rawPix_eq, read_lt _ _ (by
      rw [hT]
      exact tower_lt q0 (by omega) (by omega))]
    simp only [Option.bind_some, Int.toNat_natCast])]
  rw [zero_add, nest3_sum]
  congr 1
  refine sum_congr rfl fun k _ => ?_
  simp only
  have inner : ∀ x : Nat, ∑ y ∈ range pl.n, tap pl.uvKernel cl.vOff cl.iv0 pl.support y *
      T.get (pl.n * (pl.n * k + x) + y) = ∑ b ∈ range pl.support, pl.uvKernel.get (cl.vOff + b).toNat *
      T.get (pl.n * (pl.n * k + x) + (cl.iv0 + b).toNat) := fun x =>
    tap_sum pl.uvKernel cl.vOff cl.iv0 pl.support pl.n hv0 hv1 (fun y => T.get (pl.n * (pl.n * k + x) + y))
  have outer := tap_sum pl.uvKernel cl.uOff cl.iu0 pl.support pl.n hu0 hu1
    (fun x => ∑ y ∈ range pl.n, tap pl.uvKernel cl.vOff cl.iv0 pl.support y * T.get (pl.n * (pl.n * k + x) + y))
  have lhs : ∑ x ∈ range pl.n, ∑ y ∈ range pl.n, weight pl cl k x y * T.get (pl.n * (pl.n * k + x) + y) =
      pl.wKernel.get (cl.wOff + k).toNat * ∑ x ∈ range pl.n, tap pl.uvKernel cl.uOff cl.iu0 pl.support x *
        ∑ y ∈ range pl.n, tap pl.uvKernel cl.vOff cl.iv0 pl.support y * T.get (pl.n * (pl.n * k + x) + y) := by
    rw [mul_sum]
    refine sum_congr rfl fun x _ => ?_
    rw [mul_sum, mul_sum]
    refine sum_congr rfl fun y _ => ?_
    unfold weight
    ring
  rw [lhs, outer, mul_sum]
  refine sum_congr rfl fun a _ => ?_
  rw [inner, mul_sum, mul_sum]
  refine sum_congr rfl fun b _ => ?_
  ring

theorem chanProg_exec (pl : Plan K R) (ob : Obs K) (p : Int) (T : Arr R) (i : Nat) (l : List Int) (vis : Arr R) :
    (chanProg pl ob p T i l).exec vis = loop (fun vis c =>
      (coords pl ob p i c).bind fun q =>
      (cell pl q).bind fun cl =>
      (degridVisGpu pl cl T).bind fun x =>
      (visIdx ob i c).bind fun j => vis.addAt j x) vis l := by
  induction l generalizing vis with
  | nil => rfl
  | cons c l ih =>
    unfold chanProg
    simp only [exec_need, loop, Prog.exec, Arr.addAt]
    cases coords pl ob p i c with
    | none => rfl
    | some q =>
      simp only [Option.bind_some]
      cases cell pl q with
      | none => rfl
      | some cl =>
        simp only [Option.bind_some]
        cases degridVisGpu pl cl T with
        | none => rfl
        | some x =>
          simp only [Option.bind_some]
          cases visIdx ob i c with
          | none => rfl
          | some j =>
            simp only [Option.bind_some]
            cases vis.read j with
            | none => rfl
            | some v =>
              simp only [Option.bind_some]
              cases vis.write j (v + x) with
              | none => rfl
              | some b => exact ih b

/-- Cells of the visibilities of row `i`. -/
def RowCells (ob : Obs K) (i : Nat) (j : Int) : Prop := ∃ c : Int, 0 ≤ c ∧ c < ob.numChan ∧ j = ob.numChan * i + c

theorem chanProg_within (pl : Plan K R) (ob : Obs K) (p : Int) (T : Arr R) (i : Nat) (l : List Int) :
    (chanProg pl ob p T i l).Within (RowCells ob i) := by
  induction l with
  | nil => trivial
  | cons c l ih =>
    unfold chanProg
    refine within_need _ _ fun q _ => within_need _ _ fun cl _ => within_need _ _ fun x _ => within_need _ _ fun j hj => ?_
    have : RowCells ob i j := by
      unfold visIdx at hj
      split_ifs at hj with hc
      simp only [Option.some.injEq] at hj
      exact ⟨c, hc.1, hc.2, by rw [← hj]; rfl⟩
    exact ⟨this, fun v => ⟨this, ih⟩⟩

theorem rows_disjoint (ob : Obs K) {i i' : Nat} (h : i ≠ i') (j : Int) (h1 : RowCells ob i j) :
    ¬ RowCells ob i' j := by
  rintro ⟨c', a', b', e'⟩
  obtain ⟨c, a, b, e⟩ := h1
  obtain ⟨c, rfl⟩ := Int.eq_ofNat_of_zero_le a
  obtain ⟨c', rfl⟩ := Int.eq_ofNat_of_zero_le a'
  refine h (flat_inj (b := ob.numChan) (j := c) (j' := c') (by omega) (by omega) ?_).1
  have : (ob.numChan : Int) * i + c = ob.numChan * i' + c' := by rw [← e, ← e']
  exact_mod_cast this

/-- Rows handled by the threads of a launch. -/
theorem thread_rows (m s e : Nat) :
    ((rowThreads m).filter fun t => ¬ (t + s ≥ e ∨ t + s ≥ m)).map (fun t => t + s) =
      (List.range (min e m - s)).map fun t => t + s := by
  have hb := le_blocks m 256 (by norm_num)
  unfold rowThreads
  congr 1
  obtain ⟨d, hd⟩ : ∃ d, blocks m 256 * 256 = (min e m - s) + d := ⟨blocks m 256 * 256 - (min e m - s), by omega⟩
  rw [hd, List.range_add, List.filter_append]
  have h1 : (List.range (min e m - s)).filter (fun t => ¬ (t + s ≥ e ∨ t + s ≥ m)) = List.range (min e m - s) := by
    rw [List.filter_eq_self]
    intro t ht
    have := List.mem_range.1 ht
    simp only [decide_eq_true_eq]
    omega
  have h2 : ((List.range d).map fun x => min e m - s + x).filter (fun t => ¬ (t + s ≥ e ∨ t + s ≥ m)) = [] := by
    rw [List.filter_eq_nil_iff]
    intro t ht
    obtain ⟨x, -, rfl⟩ := List.mem_map.1 ht
    simp only [decide_eq_true_eq]
    omega
  rw [h1, h2, List.append_nil]

/-- **C92, degridding on the GPU.**  If the footprints of the visibilities used on the plane are inside the tower, the
launch adds to each visibility of the rows asked for the weighted sum of tower pixels and changes no other, under every
interleaving of its threads; and that is what the CPU computes. -/
theorem C92_degrid_partial (pl : Plan K R) (hm : pl.Made) (ob : Obs K) (p : Int) (m : Nat) (ho : ob.Made m)
    (T : Arr R) (hT : T.size = pl.wSupport * (pl.n * pl.n)) (s e : Nat)
    (hfit : ∀ i, s ≤ i → i < e → i < m → ∀ c, Used pl ob p i c → Fits pl ob p i c) (vis : Arr R)
    (hv : vis.size = m * ob.numChan) :
    ∃ r, Yields (degridThread pl ob p T m s e) (rowThreads m) vis r ∧ r.size = vis.size ∧
      (∀ i, s ≤ i → i < e → i < m → ∀ c, c < ob.numChan → visAt ob r i c =
        visAt ob vis i c + degridSum pl ob p (tower pl T) i c) ∧
      (∀ i, i < m → ¬ (s ≤ i ∧ i < e) → ∀ c, c < ob.numChan → visAt ob r i c = visAt ob vis i c) ∧
      degridPlane pl ob p T ((List.range (min e m - s)).map fun t => t + s) vis = some r := by
  have hmem : ∀ i, i ∈ (List.range (min e m - s)).map (fun t => t + s) ↔ s ≤ i ∧ i < e ∧ i < m := by
    intro i
    rw [List.mem_map]
    constructor
    · rintro ⟨t, ht, rfl⟩
      have := List.mem_range.1 ht
      omega
    · intro h
      exact ⟨i - s, List.mem_range.2 (by omega), by omega⟩
  have hnd : ((List.range (min e m - s)).map fun t => t + s).Nodup :=
    List.nodup_range.map fun a b h => by simpa using h
  obtain ⟨r, r1, r2, r3, r4⟩ := C40_degrid pl hm ob p m ho T hT ((List.range (min e m - s)).map fun t => t + s)
    (fun i hi => ((hmem i).1 hi).2.2) hnd (fun i hi => hfit i ((hmem i).1 hi).1 ((hmem i).1 hi).2.1 ((hmem i).1 hi).2.2)
    vis hv
  refine ⟨r, ?_, r2, fun i h1 h2 h3 => r3 i ((hmem i).2 ⟨h1, h2, h3⟩), fun i h1 h2 => r4 i h1 fun h => ?_, r1⟩
  · refine yields_seq _ (fun t => RowCells ob (t + s)) _ List.nodup_range ?_ ?_ vis r ?_
    · intro t _
      unfold degridThread
      simp only
      split_ifs
      · trivial
      · exact within_need _ _ fun r _ => chanProg_within pl ob p T _ _
    · intro t _ t' _ hne j
      exact rows_disjoint ob (by omega) j
    · rw [← r1]
      unfold degridPlane
      rw [← thread_rows m s e, loop_map, ← loop_filter]
      refine loop_congr _ _ _ _ fun t _ v => ?_
      unfold degridThread
      simp only
      by_cases g : t + s ≥ e ∨ t + s ≥ m
      · rw [if_pos g, if_neg (by simp [g])]
        rfl
      · rw [if_neg g, if_pos (by simpa using g)]
        rw [exec_need]
        unfold degridRow
        obtain ⟨q, q1, q2⟩ := rowSel_ok pl ob p m ho (t + s) (by omega)
        rw [q1]
        simp only [Option.bind_some]
        rw [chanProg_exec]
        refine loop_congr _ _ _ _ fun c hc v => ?_
        unfold degridOne
        have hu := (q2 c).1 (mem_rowsOf.1 hc)
        obtain ⟨x, cl, x1, x2, x3, -⟩ := cell_ok pl hm ob p m ho (t + s) (by omega) c
          (hfit (t + s) (by omega) (by omega) (by omega) c hu)
        rw [x1]
        simp only [Option.bind_some]
        rw [x2]
        simp only [Option.bind_some]
        rw [degridVisGpu_ok pl cl x3 T hT]
  · have := (hmem i).1 h
    exact h2 ⟨this.1, this.2.1⟩

end

section
variable {K : Type} [Field K] [LinearOrder K] [IsStrictOrderedRing K] [FloorRing K]

/-- Real and imaginary parts of a complex array, one after the other. -/
def Parts (a : Arr ℝ) (T : Arr ℂ) : Prop :=
  a.size = 2 * T.size ∧ ∀ j < T.size, a.get (2 * j) = (T.get j).re ∧ a.get (2 * j + 1) = (T.get j).im

theorem owed_append (l l' : List (Int × ℝ)) (j : Nat) : owed (l ++ l') j = owed l j + owed l' j := by
  unfold owed
  rw [List.map_append, List.sum_append]

theorem owed_split (l : List (Int × ℂ)) (j : Nat) :
    owed (splitAdds l) (2 * j) = ((l.map fun q : Int × ℂ => if q.1 = (j : Int) then q.2 else 0).sum).re ∧
    owed (splitAdds l) (2 * j + 1) = ((l.map fun q : Int × ℂ => if q.1 = (j : Int) then q.2 else 0).sum).im := by
  induction l with
  | nil => exact ⟨rfl, rfl⟩
  | cons q l ih =>
    have e : splitAdds (q :: l) = [(2 * q.1, q.2.re), (2 * q.1 + 1, q.2.im)] ++ splitAdds l := rfl
    rw [e, owed_append, owed_append, ih.1, ih.2, List.map_cons, List.sum_cons, Complex.add_re, Complex.add_im]
    unfold owed
    simp only [List.map_cons, List.map_nil, List.sum_cons, List.sum_nil, add_zero]
    by_cases h : q.1 = (j : Int)
    · rw [if_pos h, if_pos (by omega), if_neg (by omega), if_neg (by omega), if_pos (by omega)]
      simp
    · rw [if_neg h, if_neg (by omega), if_neg (by omega), if_neg (by omega), if_neg (by omega)]
      simp

/-- Additions to a complex array by its real and imaginary parts, in any order. -/
theorem add_parts {ι : Type} [DecidableEq ι] (native : Bool) (ts : List ι) (hn : ts.Nodup) (adds : ι → List (Int × ℂ))
    (a : Arr ℝ) (T : Arr ℂ) (ha : Parts a T) (hin : ∀ t ∈ ts, ∀ q ∈ adds t, 0 ≤ q.1 ∧ q.1 < T.size) :
    ∃ r U, AddYields native (fun t => splitAdds (adds t)) ts a r ∧ Parts r U ∧
      loop (fun T (q : Int × ℂ) => T.addAt q.1 q.2) T (ts.flatMap adds) = some U := by
  classical
  obtain ⟨U, u1, u2, u3⟩ := Arr.accum_spec (ts.flatMap adds) (fun q => q.1) (fun q => q.2) T (by
    intro q hq
    obtain ⟨t, ht, hq⟩ := List.mem_flatMap.1 hq
    exact hin t ht q hq)
  have tot : ∀ j, (ts.map fun t => owed (splitAdds (adds t)) (2 * j)).sum =
        (((ts.flatMap adds).map fun q : Int × ℂ => if q.1 = (j : Int) then q.2 else 0).sum).re ∧
      (ts.map fun t => owed (splitAdds (adds t)) (2 * j + 1)).sum =
        (((ts.flatMap adds).map fun q : Int × ℂ => if q.1 = (j : Int) then q.2 else 0).sum).im := by
    intro j
    clear u1 u2 u3 hin hn
    induction ts with
    | nil => exact ⟨rfl, rfl⟩
    | cons t ts ih =>
      rw [List.flatMap_cons, List.map_append, List.sum_append, Complex.add_re, Complex.add_im, ← ih.1, ← ih.2,
        ← (owed_split (adds t) j).1, ← (owed_split (adds t) j).2]
      exact ⟨rfl, rfl⟩
  refine ⟨⟨a.size, fun j => if j < a.size then a.get j + (ts.map fun t => owed (splitAdds (adds t)) j).sum else a.get j⟩,
    U, ?_, ⟨?_, ?_⟩, u1⟩
  · refine add_yields native _ ts hn a _ ?_ rfl ?_ ?_
    · intro t ht q hq
      unfold splitAdds at hq
      obtain ⟨z, hz, hq⟩ := List.mem_flatMap.1 hq
      have := hin t ht z hz
      rw [ha.1]
      simp only [List.mem_cons, List.not_mem_nil, or_false] at hq
      rcases hq with rfl | rfl <;> simp only <;> omega
    · intro j hj
      simp only
      rw [if_pos hj]
    · intro j hj
      simp only
      rw [if_neg (by omega)]
  · rw [u2]
    exact ha.1
  · intro j hj
    rw [u2] at hj
    have hz := ha.1
    simp only
    rw [if_pos (by omega), if_pos (by omega), (ha.2 j hj).1, (ha.2 j hj).2, (tot j).1, (tot j).2, u3 j, Complex.add_re,
      Complex.add_im]
    exact ⟨rfl, rfl⟩

/-- The additions of one visibility. -/
def visAdds (pl : Plan K ℂ) (cl : Cell) (v : ℂ) : List (Int × ℂ) :=
  (nest3 pl.wSupport pl.support pl.support).map fun a =>
    (((pl.n * (pl.n * a.1 + (cl.iu0 + a.2.1).toNat) + (cl.iv0 + a.2.2).toNat : Nat) : Int),
      pl.wKernel.get (cl.wOff + a.1).toNat * pl.uvKernel.get (cl.uOff + a.2.1).toNat *
        pl.uvKernel.get (cl.vOff + a.2.2).toNat * v)

theorem gridAdds_ok (pl : Plan K ℂ) (hm : pl.Made) (ob : Obs K) (p : Int) (m : Nat) (ho : ob.Made m) (vis : Arr ℂ)
    (hv : vis.size = m * ob.numChan) (i : Nat) (hi : i < m) (c : Int) (hu : Used pl ob p i c)
    (hf : Fits pl ob p i c) :
    ∃ l, gridAdds pl ob p vis i c = some l ∧ (∀ q ∈ l, 0 ≤ q.1 ∧ q.1 < pl.wSupport * (pl.n * pl.n)) ∧
      ∀ T : Arr ℂ, gridOne pl ob p vis i T c = loop (fun T (q : Int × ℂ) => T.addAt q.1 q.2) T l := by
  obtain ⟨q, cl, c1, c2, h, -⟩ := cell_ok pl hm ob p m ho i hi c hf
  have hr := used_range pl ob p m ho i hi c hu
  have hlt := flat_lt hi (j := c.toNat) (b := ob.numChan) (by omega)
  have hu0 := h.u0; have hu1 := h.u1; have hv0 := h.v0; have hv1 := h.v1
  have a0 := h.ku0; have a1 := h.ku1; have b0 := h.kv0; have b1 := h.kv1
  have d0 := h.kw0; have d1 := h.kw1
  obtain ⟨i0, hi0⟩ := Int.eq_ofNat_of_zero_le hu0
  obtain ⟨j0, hj0⟩ := Int.eq_ofNat_of_zero_le hv0
  refine ⟨visAdds pl cl (vis.get (ob.numChan * i + c.toNat)), ?_, ?_, ?_⟩
  · unfold gridAdds
    rw [c1]
    simp only [Option.bind_some]
    rw [c2]
    simp only [Option.bind_some]
    rw [visIdx_ok _ _ _ hr]
    simp only [Option.bind_some]
    rw [read_lt _ _ (by rw [hv]; exact hlt)]
    simp only [Option.bind_some]
    unfold visAdds
    refine EsFft.mapM_some _ _ _ fun a ha => ?_
    rw [kernWuv_ok pl cl h a ha]
    have e1 : cl.iu0 + (a.2.1 : Int) = ((i0 + a.2.1 : Nat) : Int) := by omega
    have e2 : cl.iv0 + (a.2.2 : Int) = ((j0 + a.2.2 : Nat) : Int) := by omega
    rw [e1, e2, rawPix_eq]
    rfl
  · intro z hz
    unfold visAdds at hz
    obtain ⟨a, ha, rfl⟩ := List.mem_map.1 hz
    obtain ⟨q0, q1, q2⟩ := mem_nest3.1 ha
    have := tower_lt (n := pl.n) q0 (x := (cl.iu0 + a.2.1).toNat) (y := (cl.iv0 + a.2.2).toNat) (by omega) (by omega)
    refine ⟨by simp only; omega, ?_⟩
    simp only
    exact_mod_cast this
  · intro T
    unfold gridOne
    rw [c1]
    simp only [Option.bind_some]
    rw [c2]
    simp only [Option.bind_some]
    rw [visIdx_ok _ _ _ hr]
    simp only [Option.bind_some]
    rw [read_lt _ _ (by rw [hv]; exact hlt)]
    simp only [Option.bind_some]
    unfold visAdds
    rw [loop_map]
    refine loop_congr _ _ _ _ fun a ha T => ?_
    obtain ⟨q0, q1, q2⟩ := mem_nest3.1 ha
    unfold gridPix
    rw [read_at _ _ (by omega) (by omega), read_at _ _ (by omega) (by omega), read_at _ _ (by omega) (by omega),
      pix_ok _ _ _ _ (by omega) (by omega) (by omega) (by omega)]
    simp only [Option.bind_some]
    congr 1
    ring

theorem row_adds (pl : Plan K ℂ) (hm : pl.Made) (ob : Obs K) (p : Int) (m : Nat) (ho : ob.Made m) (vis : Arr ℂ)
    (hv : vis.size = m * ob.numChan) (i : Nat) (hi : i < m)
    (hf : ∀ c, Used pl ob p i c → Fits pl ob p i c) :
    ∃ (r : Int × Int) (ls : List (List (Int × ℂ))), rowSel pl ob p i = some r ∧
      (rowsOf r.1 r.2).mapM (fun c => gridAdds pl ob p vis i c) = some ls ∧
      (∀ q ∈ ls.flatten, 0 ≤ q.1 ∧ q.1 < pl.wSupport * (pl.n * pl.n)) ∧
      ∀ T : Arr ℂ, gridRow pl ob p vis T i = loop (fun T (q : Int × ℂ) => T.addAt q.1 q.2) T ls.flatten := by
  obtain ⟨r, r1, r2⟩ := rowSel_ok pl ob p m ho i hi
  have hall : ∀ c, ∃ l, c ∈ rowsOf r.1 r.2 → gridAdds pl ob p vis i c = some l ∧
      (∀ q ∈ l, 0 ≤ q.1 ∧ q.1 < pl.wSupport * (pl.n * pl.n)) ∧
      ∀ T : Arr ℂ, gridOne pl ob p vis i T c = loop (fun T (q : Int × ℂ) => T.addAt q.1 q.2) T l := by
    intro c
    by_cases hc : c ∈ rowsOf r.1 r.2
    · have hu := (r2 c).1 (mem_rowsOf.1 hc)
      obtain ⟨l, hl⟩ := gridAdds_ok pl hm ob p m ho vis hv i hi c hu (hf c hu)
      exact ⟨l, fun _ => hl⟩
    · exact ⟨[], fun h => absurd h hc⟩
  choose g hg using hall
  refine ⟨r, (rowsOf r.1 r.2).map g, r1, EsFft.mapM_some _ _ _ fun c hc => (hg c hc).1, ?_, ?_⟩
  · intro q hq
    obtain ⟨l, hl, hq⟩ := List.mem_flatten.1 hq
    obtain ⟨c, hc, rfl⟩ := List.mem_map.1 hl
    exact (hg c hc).2.1 q hq
  · intro T
    unfold gridRow
    rw [r1]
    simp only [Option.bind_some]
    rw [← List.flatMap_def, loop_flatMap]
    exact loop_congr _ _ _ _ fun c hc T => (hg c hc).2.2 T

/-- **C92, gridding on the GPU.**  Under the same condition the launch adds to each tower pixel the weighted sum of the
visibilities used on the plane, under every interleaving of the steps of the atomic additions, native or by
compare-and-swap; every fair schedule ends; and the result is what the CPU computes. -/
theorem C92_grid_partial (pl : Plan K ℂ) (hm : pl.Made) (ob : Obs K) (p : Int) (m : Nat) (ho : ob.Made m)
    (T : Arr ℂ) (hT : T.size = pl.wSupport * (pl.n * pl.n)) (a : Arr ℝ) (ha : Parts a T) (s e : Nat)
    (hfit : ∀ i, s ≤ i → i < e → i < m → ∀ c, Used pl ob p i c → Fits pl ob p i c) (vis : Arr ℂ)
    (hv : vis.size = m * ob.numChan) (native : Bool) :
    ∃ (ops : Nat → List (Int × ℝ)) (r : Arr ℝ) (U : Arr ℂ),
      (∀ t, gridThread pl ob p vis m s e t = some (ops t)) ∧
      AddYields native ops (rowThreads m) a r ∧ Parts r U ∧ U.size = T.size ∧
      (∀ k, k < pl.wSupport → ∀ x, x < pl.n → ∀ y, y < pl.n → tower pl U k x y = tower pl T k x y +
        gridSum pl ob p ((List.range (min e m - s)).map fun t => t + s) (visAt ob vis) k x y) ∧
      gridPlane pl ob p vis ((List.range (min e m - s)).map fun t => t + s) T = some U := by
  have hmem : ∀ i, i ∈ (List.range (min e m - s)).map (fun t => t + s) → s ≤ i ∧ i < e ∧ i < m := by
    intro i hi
    obtain ⟨t, ht, rfl⟩ := List.mem_map.1 hi
    have := List.mem_range.1 ht
    omega
  have hall : ∀ t, ∃ l : List (Int × ℂ), gridThread pl ob p vis m s e t = some (splitAdds l) ∧
      (∀ q ∈ l, 0 ≤ q.1 ∧ q.1 < T.size) ∧
      ∀ T : Arr ℂ, loop (fun T (q : Int × ℂ) => T.addAt q.1 q.2) T l =
        if ¬ (t + s ≥ e ∨ t + s ≥ m) then gridRow pl ob p vis T (t + s) else some T := by
    intro t
    by_cases g : t + s ≥ e ∨ t + s ≥ m
    · refine ⟨[], ?_, by simp, fun T => ?_⟩
      · unfold gridThread
        simp only
        rw [if_pos g]
        rfl
      · rw [if_neg (by simp [g])]
        rfl
    · obtain ⟨r, ls, l1, l2, l3, l4⟩ := row_adds pl hm ob p m ho vis hv (t + s) (by omega)
        (hfit (t + s) (by omega) (by omega) (by omega))
      refine ⟨ls.flatten, ?_, ?_, fun T => ?_⟩
      · unfold gridThread
        simp only
        rw [if_neg g, l1]
        simp only [Option.bind_some]
        rw [l2]
        rfl
      · intro q hq
        have := l3 q hq
        rw [hT]
        exact_mod_cast this
      · rw [if_pos g, l4]
  choose adds hadds using hall
  obtain ⟨r, U, y, pr, lp⟩ := add_parts native (rowThreads m) List.nodup_range adds a T ha
    (fun t _ => (hadds t).2.1)
  have same : gridPlane pl ob p vis ((List.range (min e m - s)).map fun t => t + s) T = some U := by
    rw [← lp, loop_flatMap]
    unfold gridPlane
    rw [← thread_rows m s e, loop_map, ← loop_filter]
    refine loop_congr _ _ _ _ fun t _ T => ?_
    rw [(hadds t).2.2 T]
    by_cases g : t + s ≥ e ∨ t + s ≥ m <;> simp [g]
  obtain ⟨U', u1, u2, u3⟩ := C40_grid pl hm ob p m ho T hT ((List.range (min e m - s)).map fun t => t + s)
    (fun i hi => (hmem i hi).2.2) (fun i hi => hfit i (hmem i hi).1 (hmem i hi).2.1 (hmem i hi).2.2) vis hv
  rw [same, Option.some.injEq] at u1
  subst u1
  exact ⟨fun t => splitAdds (adds t), r, U, fun t => (hadds t).1, y, pr, u2, u3, same⟩

end
end Sdp.WTower
