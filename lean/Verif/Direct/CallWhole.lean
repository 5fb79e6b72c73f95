import Verif.Direct.CallSources
import Verif.Common.Outcome

/-!
# C111: the direct gridder as calls
-/

namespace Sdp.Direct
open Sdp.Race Sdp.GridUtil

/-! ## New arrays -/

theorem newArray_line (cuda : Bool) (n : Nat) (h : 0 < n) :
    newArray cuda .double .cpu [(n : Int)] .success =
      (⟨⟨.double, .cpu, true, false, false, 1, n, 1, [(n : Int)], [8], some ⟨0, 0⟩⟩, ⟨n, fun _ => 0⟩⟩, .success) := by
  have e : createWrapper none .double .cpu [(n : Int)] none .success =
      (⟨.double, .cpu, true, false, false, 1, n, 1, [(n : Int)], [8], none⟩, .success) := by
    simp [createWrapper, defaultStrideLoop, numElementsLoop, contiguityLoop, MemType.size]
  unfold newArray
  rw [e]
  simp only [MemType.size]
  rw [if_neg (by simp; omega), if_pos (by simp)]
  simp

theorem newArray_plane (cuda : Bool) {t : MemType} (ht : t = .double ∨ t = .float) (n : Nat) (h : 0 < n) :
    newArray cuda t .cpu [(n : Int), 3] .success =
      (⟨⟨t, .cpu, true, false, false, 2, 3 * n, 1, [(n : Int), 3], [3 * t.size, t.size], some ⟨0, 0⟩⟩,
        ⟨3 * n, fun _ => 0⟩⟩, .success) := by
  have e : createWrapper none t .cpu [(n : Int), 3] none .success =
      (⟨t, .cpu, true, false, false, 2, 3 * n, 1, [(n : Int), 3], [3 * t.size, t.size], none⟩, .success) := by
    rcases ht with rfl | rfl <;>
      simp [createWrapper, defaultStrideLoop, numElementsLoop, contiguityLoop, MemType.size]
  unfold newArray
  rw [e]
  have hs : 0 < t.size := by rcases ht with rfl | rfl <;> decide
  have hne : (3 * (n : Int)) * t.size ≠ 0 := Int.mul_ne_zero (by omega) (by omega)
  simp only
  rw [if_neg (by simp; constructor <;> omega), if_pos (by simp)]
  have hz : ((3 * (n : Int))).toNat = 3 * n := by omega
  rw [hz]

theorem new_stride {t : MemType} (ht : t = .double ∨ t = .float) (n : Nat) :
    let m : Mem := ⟨t, .cpu, true, false, false, 2, 3 * n, 1, [(n : Int), 3], [3 * t.size, t.size], some ⟨0, 0⟩⟩
    m.strideElementsDim 0 = 3 ∧ m.strideElementsDim 1 = 1 := by
  rcases ht with rfl | rfl <;> exact ⟨rfl, rfl⟩

/-- Where the values of the internal arrays are. -/
def Places.inner (P : Places) : Places := { P with flux := fun s => s, lmn := fun s j => 3 * s + j }

theorem new_open {t : MemType} (ht : t = .double ∨ t = .float) (n : Nat) (P : Places) :
    Open ⟨t, .cpu, true, false, false, 2, 3 * n, 1, [(n : Int), 3], [3 * t.size, t.size], some ⟨0, 0⟩⟩ .cpu t (3 * n) n 3
      P.inner.lmn where
  type := rfl
  loc := rfl
  data := by simp
  writeable := rfl
  plane := ⟨rfl, rfl, rfl, fun i j _ _ => by
    rw [(new_stride ht n).1, (new_stride ht n).2]
    show ((3 * i + j : Nat) : Int) = _
    push_cast
    ring, fun i j hi hj => by show 3 * i + j < _; omega⟩
  distinct := fun i j i' j' _ hj _ hj' e => by
    have : 3 * i + j = 3 * i' + j' := e
    omega

theorem new_flux (n : Nat) (P : Places) :
    FluxOk ⟨⟨.double, .cpu, true, false, false, 1, n, 1, [(n : Int)], [8], some ⟨0, 0⟩⟩, ⟨n, fun _ => 0⟩⟩ P.inner n where
  type := rfl
  loc := rfl
  line := ⟨rfl, rfl, fun s _ => by
    show ((s : Nat) : Int) = s * 1
    ring, fun s hs => hs⟩

/-! ## Degridding -/

theorem coords_plan {q : Coords} {l : MemLocation} {t : MemType} {P : Places} {nu : Nat} (h : CoordsOk q l t P nu) (pl : Plan) :
    CoordsOk (pl.coords q) l t P.inner nu := ⟨h.type, h.loc, h.uvw, h.chs⟩

open Classical in
/-- **C111, `sdp_gridder_direct_degrid`.**  Double precision visibilities and coordinates, a square image with at least one
pixel that is not zero and a plan whose window covers it, any strides, every schedule: each visibility of a row that takes
part receives the sum over all pixels of the real part of the pixel times the window times the response of the pixel's
direction; nothing else changes. -/
theorem C111_degrid_partial (cuda : Bool) {pl : Plan} {im : Data ℂ} {q : Coords} {P : Places} {n nu nr nc : Nat} {vis : Mem}
    {out : Arr ℂ} (hit : im.mem.type = .double ∨ im.mem.type = .complexDouble ∨ im.mem.type = .complexFloat)
    (hic : im.mem.location = .cpu) (hi : Plane im.mem im.buf.size n n P.image)
    (hz : ∃ a b, a < n ∧ b < n ∧ im.buf.get (P.image a b) ≠ 0) (hw : WindowOk (some pl.pswf) .cpu P n)
    (hq : CoordsOk q .cpu .double P nu) (hv : Open vis .cpu .complexDouble out.size nr nc P.vis) (hr : nu ≤ nr) :
    ∃ run, degridCall cuda pl im q vis .success = some run ∧ run.status = .success ∧
      ∃ r, Yields run.prog run.threads out r ∧ r.size = out.size ∧
      (∀ i c, i < nu → c < nc → r.get (P.vis i c) = out.get (P.vis i c) + if q.Takes P i then
        ∑ a ∈ Finset.range n, ∑ b ∈ Finset.range n, ((im.buf.get (P.image a b)).re *
          (pl.pswf.buf.get (P.taper a) * pl.pswf.buf.get (P.taper b)) : ℝ) *
          response (pixDir pl.geo n (a, b)) ((pl.sees q).at P i c) else 0) ∧
      ∀ x, (∀ i c, i < nu → c < nc → P.vis i c ≠ x) → r.get x = out.get x := by
  have hpos : 0 < (bright im.buf P n n).length := by
    obtain ⟨a, b, ha, hb, hne⟩ := hz
    apply List.length_pos_of_mem (a := (a, b))
    unfold bright
    rw [List.mem_filter]
    exact ⟨mem_nest2.2 ⟨ha, hb⟩, by simpa using hne⟩
  obtain ⟨N, hN⟩ : ∃ N, N = (bright im.buf P n n).length := ⟨_, rfl⟩
  rw [← hN] at hpos
  unfold degridCall
  rw [if_neg (by simp), C111_count_partial (P := P) (by unfold isImage; tauto) hic hi, ← hN]
  simp only [Option.bind_some]
  rw [hv.loc, newArray_line cuda N hpos]
  simp only
  rw [hq.type, newArray_plane cuda (Or.inl rfl) N hpos]
  simp only
  obtain ⟨f, d, s1, s2, s3, s4, -, -⟩ := C111_flmn_partial (g := pl.geo) (P := P.inner) (im := im) (taper := some pl.pswf)
    (fx := ⟨⟨.double, .cpu, true, false, false, 1, N, 1, [(N : Int)], [8], some ⟨0, 0⟩⟩, ⟨N, fun _ => 0⟩⟩)
    (lmn := ⟨⟨.double, .cpu, true, false, false, 2, 3 * N, 1, [(N : Int), 3], [3 * MemType.double.size, MemType.double.size],
      some ⟨0, 0⟩⟩, ⟨3 * N, fun _ => 0⟩⟩) (n0 := n) (n1 := n) (K := N) (n := n)
    (by unfold flmnTypes; rcases hit with h | h | h <;> rw [h] <;> simp) hi hic hw ⟨Nat.le_refl _, Nat.le_refl _⟩
    (new_open (Or.inl rfl) N P) (new_flux N P) (by simp) rfl (fun s s' _ _ e => e) (by rw [hN]; exact Nat.le_refl _)
  rw [s1]
  simp only [Option.map_some]
  have hd := C111_dft_partial (q := pl.coords q) (P := P.inner) (nu := nu) (nr := nr) (nc := nc) (n := N)
    (coords_plan hq pl) (fx := ⟨⟨.double, .cpu, true, false, false, 1, N, 1, [(N : Int)], [8], some ⟨0, 0⟩⟩, f⟩)
    (lmn := ⟨⟨.double, .cpu, true, false, false, 2, 3 * N, 1, [(N : Int), 3], [3 * MemType.double.size, MemType.double.size],
      some ⟨0, 0⟩⟩, d⟩) ⟨rfl, rfl, ⟨rfl, rfl, (new_flux N P).line.strides, by rw [s2]; exact (new_flux N P).line.fits⟩⟩
    ⟨rfl, rfl, N, Nat.le_refl _, ⟨rfl, rfl, rfl, (new_open (Or.inl rfl) N P).plane.strides, by
      rw [s3]; exact (new_open (t := .double) (Or.inl rfl) N P).plane.fits⟩⟩ hv hr
  obtain ⟨d1, r, d2, d3, d4, d5⟩ := hd
  refine ⟨_, rfl, d1, r, d2, d3, fun i c hi' hc => ?_, d5⟩
  refine (d4 i c hi' hc).trans ?_
  have eT : (pl.coords q).Takes P.inner i = q.Takes P i := rfl
  rw [eT]
  refine congrArg (fun z => out.get (P.vis i c) + z) ?_
  by_cases hT : q.Takes P i
  · rw [if_pos hT, if_pos hT]
    have e0 := nest2_sum n n (fun p => (((im.buf.get (P.image p.1 p.2)).re *
      (pl.pswf.buf.get (P.taper p.1) * pl.pswf.buf.get (P.taper p.2)) : ℝ) : ℂ) *
        response (pixDir pl.geo n p) ((pl.sees q).at P i c))
    rw [← list_sum_range]
    refine Eq.trans ?_ e0
    have e1 : (List.range N).map (fun s => (f.get (P.inner.flux s) : ℂ) *
        response (dirAt d P.inner s) ((pl.sees q).at P.inner i c)) =
        (bright im.buf P n n).map (fun p => (((im.buf.get (P.image p.1 p.2)).re *
      (pl.pswf.buf.get (P.taper p.1) * pl.pswf.buf.get (P.taper p.2)) : ℝ) : ℂ) *
        response (pixDir pl.geo n p) ((pl.sees q).at P i c)) := by
      apply List.ext_getElem
      · rw [List.length_map, List.length_map, List.length_range, hN]
      · intro k h1 h2
        rw [List.length_map] at h2
        rw [List.getElem_map, List.getElem_map, List.getElem_range]
        obtain ⟨a1, a2⟩ := s4 k _ (List.getElem?_eq_getElem h2)
        rw [a1, a2]
        rfl
    refine (congrArg List.sum e1).trans ?_
    unfold bright
    rw [sum_filter_map]
    refine congrArg List.sum ?_
    apply List.map_congr_left
    intro p _
    by_cases hb : im.buf.get (P.image p.1 p.2) ≠ 0
    · rw [if_pos (by simpa using hb)]
    · rw [if_neg (by simpa using hb)]
      have hb0 : im.buf.get (P.image p.1 p.2) = 0 := by simpa using hb
      rw [hb0]
      simp
  · rw [if_neg hT, if_neg hT]

/-! ## Gridding -/

open Classical in
/-- **C111, `sdp_gridder_direct_grid`.**  Either precision, a square complex image that shares no memory with itself, a plan
whose window covers it, any strides, every schedule: each pixel receives the window times the sum over the rows that take
part of visibility times conjugate response; nothing else changes. -/
theorem C111_grid_partial (cuda : Bool) {td tc : MemType} (ht : Prec td tc) {pl : Plan} {vis : Data ℂ} {q : Coords} {P : Places}
    {n nu nr nc : Nat} {im : Data ℂ} (hn : 0 < n) (hnum : im.mem.numElements = n * n)
    (hi : Open im.mem .cpu tc im.buf.size n n P.image) (hw : WindowOk (some pl.pswf) .cpu P n)
    (hq : CoordsOk q .cpu td P nu) (hvt : vis.mem.type = tc) (hvl : vis.mem.location = .cpu)
    (hv : Plane vis.mem vis.buf.size nr nc P.vis) (hr : nu ≤ nr) :
    ∃ run, gridCall cuda pl vis q im .success = some run ∧ run.status = .success ∧
      ∃ r, Yields run.prog run.threads im.buf r ∧ r.size = im.buf.size ∧
      (∀ a b, a < n → b < n → r.get (P.image a b) = im.buf.get (P.image a b) +
        (∑ i ∈ Finset.range nu, ∑ c ∈ Finset.range nc, if q.Takes P i then
          vis.buf.get (P.vis i c) * star (response (pixDir pl.geo n (a, b)) ((pl.sees q).at P i c)) else 0) *
          ((pl.pswf.buf.get (P.taper a) * pl.pswf.buf.get (P.taper b) : ℝ) : ℂ)) ∧
      ∀ x, (∀ a b, a < n → b < n → P.image a b ≠ x) → r.get x = im.buf.get x := by
  have htd : td = .double ∨ td = .float := ht.elim (fun h => Or.inl h.1) fun h => Or.inr h.1
  have hnn : 0 < n * n := Nat.mul_pos hn hn
  have hqn : im.mem.queryNumElements = ((n * n : Nat) : Int) := by
    unfold Mem.queryNumElements
    rw [if_neg, hnum]
    · push_cast; rfl
    · have := hi.data
      cases hd : im.mem.data with
      | none => exact absurd hd this
      | some _ => simp
  unfold gridCall
  rw [if_neg (by simp), hqn, hq.type, hvl, newArray_plane cuda htd (n * n) hnn]
  simp only
  obtain ⟨d, s1, s2, s3, -⟩ := C111_lmn (g := pl.geo) (P := P.inner) (im := im) (taper := none) (n := 0)
    (lmn := ⟨⟨td, .cpu, true, false, false, 2, 3 * ((n * n : Nat) : Int), 1, [((n * n : Nat) : Int), 3], [3 * td.size, td.size],
      some ⟨0, 0⟩⟩, ⟨3 * (n * n), fun _ => 0⟩⟩) (n0 := n) (n1 := n) (K := n * n)
    (by unfold flmnTypes; rcases ht with ⟨rfl, rfl⟩ | ⟨rfl, rfl⟩ <;> rw [hi.type] <;> simp) hi.plane.rows hi.plane.cols
    (fun t h => by simp at h) (new_open htd (n * n) P) (Nat.le_refl _)
  rw [s1]
  simp only [Option.map_some]
  obtain ⟨e1, r, e2, e3, e4, e5⟩ := C111_idft_partial (cuda := cuda) (Or.inl rfl) ht (q := pl.coords q) (P := P.inner) (nu := nu)
    (nr := nr) (nc := nc) (n := n) (coords_plan hq pl) hvt hvl hv hr
    (lmn := ⟨⟨td, .cpu, true, false, false, 2, 3 * ((n * n : Nat) : Int), 1, [((n * n : Nat) : Int), 3], [3 * td.size, td.size],
      some ⟨0, 0⟩⟩, d⟩) ⟨rfl, rfl, n * n, Nat.le_refl _, ⟨rfl, rfl, rfl, (new_open htd (n * n) P).plane.strides, by
      rw [s2]; exact (new_open (t := td) htd (n * n) P).plane.fits⟩⟩ (taper := some pl.pswf) hw (im := im.mem) (out := im.buf) hi
  refine ⟨_, rfl, e1, r, e2, e3, fun a b ha hb => ?_, e5⟩
  refine (e4 a b ha hb).trans ?_
  rw [s3 a b ha hb]
  rfl

/-! ## Adjointness -/

theorem swap4 (A B C D : Nat) (f : Nat → Nat → Nat → Nat → ℂ) :
    ∑ i ∈ Finset.range A, ∑ c ∈ Finset.range B, ∑ a ∈ Finset.range C, ∑ b ∈ Finset.range D, f i c a b =
      ∑ a ∈ Finset.range C, ∑ b ∈ Finset.range D, ∑ i ∈ Finset.range A, ∑ c ∈ Finset.range B, f i c a b := by
  have h1 : ∀ i, ∑ c ∈ Finset.range B, ∑ a ∈ Finset.range C, ∑ b ∈ Finset.range D, f i c a b =
      ∑ a ∈ Finset.range C, ∑ b ∈ Finset.range D, ∑ c ∈ Finset.range B, f i c a b := by
    intro i
    rw [Finset.sum_comm]
    apply Finset.sum_congr rfl
    intro a _
    exact Finset.sum_comm
  simp only [h1]
  rw [Finset.sum_comm]
  apply Finset.sum_congr rfl
  intro a _
  exact Finset.sum_comm

/-- The equality of inner products behind the adjointness. -/
theorem adjoint_sums (nu nc n : Nat) (T : Nat → Prop) [DecidablePred T] (R : Nat → Nat → Nat → Nat → ℂ) (V : Nat → Nat → ℂ)
    (I : Nat → Nat → ℝ) (w : Nat → Nat → ℝ) :
    ∑ i ∈ Finset.range nu, ∑ c ∈ Finset.range nc, (if T i then ∑ a ∈ Finset.range n, ∑ b ∈ Finset.range n,
        ((I a b * w a b : ℝ) : ℂ) * R a b i c else 0) * star (V i c) =
      ∑ a ∈ Finset.range n, ∑ b ∈ Finset.range n, (I a b : ℂ) * star ((∑ i ∈ Finset.range nu, ∑ c ∈ Finset.range nc,
        if T i then V i c * star (R a b i c) else 0) * (w a b : ℂ)) := by
  have L : ∀ i c, (if T i then ∑ a ∈ Finset.range n, ∑ b ∈ Finset.range n, ((I a b * w a b : ℝ) : ℂ) * R a b i c else 0) *
      star (V i c) = ∑ a ∈ Finset.range n, ∑ b ∈ Finset.range n,
        if T i then ((I a b * w a b : ℝ) : ℂ) * R a b i c * star (V i c) else 0 := by
    intro i c
    by_cases h : T i
    · simp only [if_pos h, Finset.sum_mul]
    · simp [h]
  have Rr : ∀ a b, (I a b : ℂ) * star ((∑ i ∈ Finset.range nu, ∑ c ∈ Finset.range nc,
        if T i then V i c * star (R a b i c) else 0) * (w a b : ℂ)) = ∑ i ∈ Finset.range nu, ∑ c ∈ Finset.range nc,
        if T i then ((I a b * w a b : ℝ) : ℂ) * R a b i c * star (V i c) else 0 := by
    intro a b
    have hst : star ((w a b : ℝ) : ℂ) = ((w a b : ℝ) : ℂ) := by rw [Complex.star_def, Complex.conj_ofReal]
    rw [star_mul', hst, star_sum, Finset.sum_mul, Finset.mul_sum]
    apply Finset.sum_congr rfl
    intro i _
    rw [star_sum, Finset.sum_mul, Finset.mul_sum]
    apply Finset.sum_congr rfl
    intro c _
    by_cases h : T i
    · simp only [if_pos h, star_mul', star_star]
      push_cast
      ring
    · simp [h]
  simp only [L, Rr]
  exact swap4 nu nc n n fun i c a b => if T i then ((I a b * w a b : ℝ) : ℂ) * R a b i c * star (V i c) else 0

/-- **C111, adjointness.**  For a real image `im` with a pixel that is not zero and visibilities `vis`, degridding `im` to
zeros and gridding `vis` to zeros give, in every schedule of both calls, `D` and `G` with `<D, vis> = <im, G>`, whatever the
strides of the arrays. -/
theorem C111_adjoint_partial (cuda : Bool) {pl : Plan} {im vis : Data ℂ} {q : Coords} {P : Places} {n nu nc : Nat}
    (hnum : im.mem.numElements = n * n) (hi : Open im.mem .cpu .complexDouble im.buf.size n n P.image)
    (hreal : ∀ a b, a < n → b < n → (im.buf.get (P.image a b)).im = 0)
    (hz : ∃ a b, a < n ∧ b < n ∧ im.buf.get (P.image a b) ≠ 0) (hw : WindowOk (some pl.pswf) .cpu P n)
    (hq : CoordsOk q .cpu .double P nu) (hv : Open vis.mem .cpu .complexDouble vis.buf.size nu nc P.vis)
    (zv zi : Arr ℂ) (hzv : zv.size = vis.buf.size) (hzi : zi.size = im.buf.size) (zv0 : ∀ k, zv.get k = 0)
    (zi0 : ∀ k, zi.get k = 0) :
    ∃ run1 run2, degridCall cuda pl im q vis.mem .success = some run1 ∧
      gridCall cuda pl vis q ⟨im.mem, zi⟩ .success = some run2 ∧
      ∀ o1 o2, Launch run1.prog run1.threads zv o1 → Launch run2.prog run2.threads zi o2 → ∃ D G, o1 = some D ∧ o2 = some G ∧
        ∑ i ∈ Finset.range nu, ∑ c ∈ Finset.range nc, D.get (P.vis i c) * star (vis.buf.get (P.vis i c)) =
          ∑ a ∈ Finset.range n, ∑ b ∈ Finset.range n, im.buf.get (P.image a b) * star (G.get (P.image a b)) := by
  classical
  have hn : 0 < n := by
    obtain ⟨a, b, ha, -⟩ := hz
    omega
  obtain ⟨run1, a1, -, D, a2, -, a3, -⟩ := C111_degrid_partial cuda (out := zv) (Or.inr (Or.inl hi.type)) hi.loc hi.plane hz hw
    hq (by rw [hzv]; exact hv) (Nat.le_refl _)
  obtain ⟨run2, b1, -, G, b2, -, b3, -⟩ := C111_grid_partial cuda (Or.inl ⟨rfl, rfl⟩) (im := ⟨im.mem, zi⟩) hn hnum
    (by show Open im.mem _ _ zi.size _ _ _; rw [hzi]; exact hi) hw hq hv.type hv.loc hv.plane (Nat.le_refl _)
  refine ⟨run1, run2, a1, b1, fun o1 o2 h1 h2 => ⟨D, G, Launch.eq a2 h1, Launch.eq b2 h2, ?_⟩⟩
  have key := adjoint_sums nu nc n (fun i => q.Takes P i)
    (fun a b i c => response (pixDir pl.geo n (a, b)) ((pl.sees q).at P i c)) (fun i c => vis.buf.get (P.vis i c))
    (fun a b => (im.buf.get (P.image a b)).re) (fun a b => pl.pswf.buf.get (P.taper a) * pl.pswf.buf.get (P.taper b))
  refine Eq.trans ?_ (key.trans ?_)
  · apply Finset.sum_congr rfl
    intro i hi'
    apply Finset.sum_congr rfl
    intro c hc
    rw [a3 i c (Finset.mem_range.1 hi') (Finset.mem_range.1 hc), zv0, zero_add]
  · apply Finset.sum_congr rfl
    intro a ha
    apply Finset.sum_congr rfl
    intro b hb
    have hb3 := b3 a b (Finset.mem_range.1 ha) (Finset.mem_range.1 hb)
    rw [hb3, zi0, zero_add]
    have him : (((im.buf.get (P.image a b)).re : ℝ) : ℂ) = im.buf.get (P.image a b) := by
      apply Complex.ext
      · simp
      · simpa using (hreal a b (Finset.mem_range.1 ha) (Finset.mem_range.1 hb)).symm
    rw [him]

end Sdp.Direct
