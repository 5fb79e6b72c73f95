import Verif.Direct.CallSpec

/-!
# C111: transforms between sources and visibilities, as calls
-/

namespace Sdp.Direct
open Sdp.Race Sdp.GridUtil

theorem read_at {α : Type} (a : Arr α) {i : Int} {p : Nat} (hi : i = (p : Nat)) (hp : p < a.size) : a.read i = some (a.get p) := by
  rw [hi, Arr.read_nat, if_pos hp]

theorem line_addr {m : Mem} {size n : Nat} {pos : Nat → Nat} (h : Window m size n pos) {i : Nat} (hi : i < n) :
    addr1 (mkView m 1 .success) i = (pos i : Nat) := by
  rw [h.strides i hi]
  simp [addr1, mkView, List.range_succ, Sdp.dot]

theorem view1Const_ok {m : Mem} {t : MemType} {l : MemLocation} (h : m.numDims = 1) (ht : m.type = t) (hl : m.location = l) :
    checkAndViewConst m t 1 l .success = (mkView m 1 .success, .success) := by
  have := (viewConst_status m t 1 l .success).2 ⟨rfl, ht, by simpa using h, hl⟩
  have e : (checkAndViewConst m t 1 l .success).1 = mkView m 1 (checkAndViewConst m t 1 l .success).2 := rfl
  rw [this] at e
  exact Prod.ext e this

theorem view1_ok {m : Mem} {t : MemType} {l : MemLocation} (h : m.numDims = 1) (ht : m.type = t) (hl : m.location = l)
    (hd : m.data ≠ none) (hr : m.isReadOnly = false) : checkAndView m t 1 l .success = (mkView m 1 .success, .success) := by
  have := (view_status m t 1 l .success).2 ⟨rfl, ht, by simpa using h, hl, hd, hr⟩
  have e : (checkAndView m t 1 l .success).1 = mkView m 1 (checkAndView m t 1 l .success).2 := rfl
  rw [this] at e
  exact Prod.ext e this

/-- The views of the channel ranges of a good call. -/
noncomputable def chsGood (q : Coords) : Option ((View × Arr Int) × (View × Arr Int)) :=
  match q.startChs, q.endChs with
  | some s, some e => some ((mkView s.mem 1 .success, s.buf), (mkView e.mem 1 .success, e.buf))
  | _, _ => none

theorem chsView_ok {q : Coords} {loc : MemLocation} {t : MemType} {P : Places} {nu : Nat} (h : CoordsOk q loc t P nu) :
    chsView q loc .success = (chsGood q, .success) := by
  unfold chsView chsGood
  cases hs : q.startChs with
  | none => rfl
  | some s =>
    cases he : q.endChs with
    | none => rfl
    | some e =>
      obtain ⟨⟨s1, s2, k, -, s3⟩, e1, e2, k', -, e3⟩ := h.chs s e hs he
      simp only
      rw [view1Const_ok s3.dims s1 s2]
      simp only
      rw [view1Const_ok e3.dims e1 e2]

theorem activeAt_ok {q : Coords} {loc : MemLocation} {t : MemType} {P : Places} {nu : Nat} (h : CoordsOk q loc t P nu)
    {i : Nat} (hi : i < nu) : ∃ b, activeAt (chsGood q) i = some b ∧ (b = true ↔ q.Takes P i) := by
  unfold activeAt chsGood Coords.Takes
  cases hs : q.startChs with
  | none => exact ⟨true, rfl, by simp⟩
  | some s =>
    cases he : q.endChs with
    | none => exact ⟨true, rfl, by simp⟩
    | some e =>
      obtain ⟨⟨-, -, k, hk, s3⟩, -, -, k', hk', e3⟩ := h.chs s e hs he
      simp only
      rw [read_at s.buf (line_addr s3 (by omega)) (s3.fits i (by omega)),
        read_at e.buf (line_addr e3 (by omega)) (e3.fits i (by omega))]
      refine ⟨_, rfl, ?_⟩
      simp

theorem Coords.shift_eq (q : Coords) : q.shift = q.centre := by
  unfold Coords.shift Coords.centre
  by_cases h : 0 < q.theta
  · rw [if_pos h, if_neg (not_le.2 h), div_eq_mul_inv, div_eq_mul_inv]
  · rw [if_neg h, if_pos (not_lt.1 h)]
    rfl

theorem coordsAt_ok {q : Coords} {loc : MemLocation} {t : MemType} {P : Places} {nu : Nat} (h : CoordsOk q loc t P nu)
    {i : Nat} (hi : i < nu) (c : Nat) : coordsAt q (mkView q.uvw.mem 2 .success) i c = some (q.at P i c) := by
  unfold coordsAt Coords.at
  simp only
  rw [read_at q.uvw.buf (plane_addr h.uvw hi (by omega)) (h.uvw.fits i 0 hi (by omega)),
    read_at q.uvw.buf (plane_addr h.uvw hi (by omega)) (h.uvw.fits i 1 hi (by omega)),
    read_at q.uvw.buf (plane_addr h.uvw hi (by omega)) (h.uvw.fits i 2 hi (by omega)), q.shift_eq]
  rfl

theorem phasorAt_ok {lmn : Data ℝ} {P : Places} {k : Nat} (h : Plane lmn.mem lmn.buf.size k 3 P.lmn) (sign : ℝ) {s : Nat}
    (hs : s < k) (z : ℝ × ℝ × ℝ) : phasorAt sign lmn.buf (mkView lmn.mem 2 .success) s z =
      some (Complex.exp ((sign * (2 * Real.pi * dot (dirAt lmn.buf P s) z) : ℝ) * Complex.I)) := by
  unfold phasorAt
  rw [read_at lmn.buf (plane_addr h hs (by omega)) (h.fits s 0 hs (by omega)),
    read_at lmn.buf (plane_addr h hs (by omega)) (h.fits s 1 hs (by omega)),
    read_at lmn.buf (plane_addr h hs (by omega)) (h.fits s 2 hs (by omega))]
  simp only [Option.bind_some]
  rw [Dft.phasor_eq]
  congr 4
  unfold dot dirAt
  ring

theorem phasorAt_neg {lmn : Data ℝ} {P : Places} {k : Nat} (h : Plane lmn.mem lmn.buf.size k 3 P.lmn) {s : Nat}
    (hs : s < k) (z : ℝ × ℝ × ℝ) : phasorAt (-1) lmn.buf (mkView lmn.mem 2 .success) s z =
      some (response (dirAt lmn.buf P s) z) := by
  rw [phasorAt_ok h _ hs]
  unfold response
  congr 2
  push_cast
  ring

theorem phasorAt_pos {lmn : Data ℝ} {P : Places} {k : Nat} (h : Plane lmn.mem lmn.buf.size k 3 P.lmn) {s : Nat}
    (hs : s < k) (z : ℝ × ℝ × ℝ) : phasorAt 1 lmn.buf (mkView lmn.mem 2 .success) s z =
      some (star (response (dirAt lmn.buf P s) z)) := by
  rw [phasorAt_ok h _ hs, star_response, one_mul]

theorem sourceSumAt_ok {fx lmn : Data ℝ} {P : Places} {n k : Nat} (hf : Window fx.mem fx.buf.size n P.flux)
    (hl : Plane lmn.mem lmn.buf.size k 3 P.lmn) (hn : n ≤ k) (z : ℝ × ℝ × ℝ) :
    sourceSumAt n fx.buf lmn.buf (mkView fx.mem 1 .success) (mkView lmn.mem 2 .success) z =
      some (∑ s ∈ Finset.range n, (fx.buf.get (P.flux s) : ℂ) * response (dirAt lmn.buf P s) z) := by
  unfold sourceSumAt
  obtain ⟨s, h1, h2⟩ := loop_inv (fun (acc : ℂ) (s : Nat) =>
    (phasorAt (-1) lmn.buf (mkView lmn.mem 2 .success) s z).bind fun ph =>
    (fx.buf.read (addr1 (mkView fx.mem 1 .success) s)).bind fun f => some (acc + (f : ℂ) * ph))
    (fun done s => s = (done.map fun k => (fx.buf.get (P.flux k) : ℂ) * response (dirAt lmn.buf P k) z).sum)
    (List.range n) 0 (by simp)
    (by
      intro done x rest st he hst
      have hx : x ∈ List.range n := by rw [he]; simp
      rw [List.mem_range] at hx
      rw [phasorAt_neg hl (by omega), read_at fx.buf (line_addr hf hx) (hf.fits x hx)]
      refine ⟨_, rfl, ?_⟩
      rw [List.map_append, List.sum_append, hst]
      simp)
  rw [h1, h2, list_sum_range]

open Classical in
theorem visSumAt_ok {q : Coords} {loc : MemLocation} {t : MemType} {P : Places} {nu : Nat} (h : CoordsOk q loc t P nu)
    {vis : Data ℂ} {nr nc : Nat} (hv : Plane vis.mem vis.buf.size nr nc P.vis) (hr : nu ≤ nr) {lmn : Data ℝ} {k : Nat}
    (hl : Plane lmn.mem lmn.buf.size k 3 P.lmn) {s : Nat} (hs : s < k) :
    visSumAt q (chsGood q) nu nc vis.buf lmn.buf (mkView q.uvw.mem 2 .success) (mkView vis.mem 2 .success)
      (mkView lmn.mem 2 .success) s = some (∑ i ∈ Finset.range nu, ∑ c ∈ Finset.range nc,
        if q.Takes P i then vis.buf.get (P.vis i c) * star (response (dirAt lmn.buf P s) (q.at P i c)) else 0) := by
  unfold visSumAt
  obtain ⟨r, h1, h2⟩ := loop_inv (fun (acc : ℂ) (x : Nat × Nat) => (activeAt (chsGood q) x.1).bind fun a =>
    if a then
      (coordsAt q (mkView q.uvw.mem 2 .success) x.1 x.2).bind fun z =>
      (phasorAt 1 lmn.buf (mkView lmn.mem 2 .success) s z).bind fun ph =>
      (vis.buf.read (addr (mkView vis.mem 2 .success) x)).bind fun v => some (acc + v * ph)
    else some acc)
    (fun done r => r = (done.map fun x : Nat × Nat => if q.Takes P x.1 then
      vis.buf.get (P.vis x.1 x.2) * star (response (dirAt lmn.buf P s) (q.at P x.1 x.2)) else 0).sum)
    (nest2 nu nc) 0 (by simp)
    (by
      intro done x rest st he hst
      have hx : x ∈ nest2 nu nc := by rw [he]; simp
      obtain ⟨x0, x1⟩ := mem_nest2.1 hx
      obtain ⟨b, hb1, hb2⟩ := activeAt_ok h x0
      rw [hb1]
      simp only [Option.bind_some]
      rw [coordsAt_ok h x0]
      simp only [Option.bind_some]
      rw [phasorAt_pos hl hs]
      simp only [Option.bind_some]
      rw [read_at vis.buf (plane_addr hv (i := x.1) (j := x.2) (by omega) x1) (hv.fits _ _ (by omega) x1)]
      simp only [Option.bind_some]
      by_cases ha : q.Takes P x.1
      · rw [if_pos (hb2.2 ha)]
        refine ⟨_, rfl, ?_⟩
        rw [List.map_append, List.sum_append, hst]
        simp [ha]
      · rw [if_neg (fun hb => ha (hb2.1 hb))]
        refine ⟨_, rfl, ?_⟩
        rw [List.map_append, List.sum_append, hst]
        simp [ha])
  rw [h1, h2, nest2_sum nu nc fun x => if q.Takes P x.1 then
      vis.buf.get (P.vis x.1 x.2) * star (response (dirAt lmn.buf P s) (q.at P x.1 x.2)) else 0]

theorem taperView_ok {taper : Option (Data ℝ)} {loc : MemLocation} {P : Places} {n : Nat} (h : WindowOk taper loc P n) :
    taperView loc taper .success = (taper.map fun t => (mkView t.mem 1 .success, t.buf), .success) := by
  cases taper with
  | none => rfl
  | some t =>
    obtain ⟨t1, t2, k, -, t3⟩ := h t rfl
    unfold taperView
    simp only
    rw [view1Const_ok t3.dims t1 t2]
    rfl

theorem taperAt_ok {taper : Option (Data ℝ)} {loc : MemLocation} {P : Places} {n : Nat} (h : WindowOk taper loc P n) {a b : Nat}
    (ha : a < n) (hb : b < n) :
    taperAt (taper.map fun t => (mkView t.mem 1 .success, t.buf)) (a, b) = some (taperAtPixel taper P a b) := by
  cases taper with
  | none => rfl
  | some t =>
    obtain ⟨-, -, k, hk, t3⟩ := h t rfl
    unfold taperAt taperAtPixel
    simp only [Option.map_some]
    rw [read_at t.buf (line_addr t3 (by omega)) (t3.fits a (by omega)),
      read_at t.buf (line_addr t3 (by omega)) (t3.fits b (by omega))]
    rfl

theorem put_get_self {α : Type} (a : Arr α) (i : Nat) : a.put i (a.get i) = a := by
  cases a with
  | mk n f =>
    unfold Arr.put
    congr 1
    funext j
    simp only
    split
    · next h => rw [h]
    · rfl

open Classical in
/-- **C111, `sdp_gridder_dft`.**  For double precision arrays with any strides (visibilities that share no memory), in every
schedule: each visibility of a row that takes part receives the sum of flux times response of all sources; nothing else
changes. -/
theorem C111_dft_partial {q : Coords} {P : Places} {nu nr nc n : Nat} (hq : CoordsOk q .cpu .double P nu) {fx lmn : Data ℝ}
    (hf : FluxOk fx P n) (hl : LmnOk lmn .cpu .double P n) {vis : Mem} {out : Arr ℂ}
    (hv : Open vis .cpu .complexDouble out.size nr nc P.vis) (hr : nu ≤ nr) :
    let run := dftCall q fx lmn vis .success
    run.status = .success ∧ ∃ r, Yields run.prog run.threads out r ∧ r.size = out.size ∧
      (∀ i c, i < nu → c < nc → r.get (P.vis i c) = out.get (P.vis i c) + if q.Takes P i then
        ∑ s ∈ Finset.range n, (fx.buf.get (P.flux s) : ℂ) * response (dirAt lmn.buf P s) (q.at P i c) else 0) ∧
      ∀ x, (∀ i c, i < nu → c < nc → P.vis i c ≠ x) → r.get x = out.get x := by
  intro run
  obtain ⟨k, hk, hp⟩ := hl.plane
  have hrun : run = dftCall q fx lmn vis .success := rfl
  unfold dftCall at hrun
  rw [if_neg (by simp)] at hrun
  simp only at hrun
  rw [if_pos hv.loc, if_pos ⟨hl.type, hl.type, hq.type, hv.type⟩] at hrun
  unfold dftKernel at hrun
  rw [if_neg (by simp), chsView_ok hq] at hrun
  simp only at hrun
  rw [viewConst_ok hq.uvw.dims hq.type hq.loc] at hrun
  simp only at hrun
  rw [view1Const_ok hf.line.dims hf.type hf.loc] at hrun
  simp only at hrun
  rw [viewConst_ok hp.dims hl.type hl.loc] at hrun
  simp only at hrun
  rw [view_ok hv.plane.dims hv.type hv.loc hv.data hv.writeable] at hrun
  simp only at hrun
  rw [if_neg (by simp), hq.uvw.rows, hv.plane.cols, hf.line.rows, Int.toNat_natCast, Int.toNat_natCast,
    Int.toNat_natCast] at hrun
  rw [hrun]
  refine ⟨rfl, ?_⟩
  obtain ⟨r, r1, r2, r3, r4⟩ := yields_own (dftThread q (chsGood q) n fx.buf lmn.buf (mkView q.uvw.mem 2 .success)
      (mkView fx.mem 1 .success) (mkView lmn.mem 2 .success) (mkView vis 2 .success)) (nest2 nu nc) (fun _ => True)
      (fun p => P.vis p.1 p.2) (fun p => out.get (P.vis p.1 p.2) + if q.Takes P p.1 then
        ∑ s ∈ Finset.range n, (fx.buf.get (P.flux s) : ℂ) * response (dirAt lmn.buf P s) (q.at P p.1 p.2) else 0) out
      (by
        intro p hp' _
        obtain ⟨i, c⟩ := p
        obtain ⟨hi, hc⟩ := mem_nest2.1 hp'
        simp only at hi hc ⊢
        obtain ⟨b, b1, b2⟩ := activeAt_ok hq hi
        unfold dftThread
        simp only
        rw [plane_addr hv.plane (show i < nr by omega) hc]
        constructor
        · refine within_need _ _ fun a _ => ?_
          split
          · exact within_need _ _ fun x _ => ⟨rfl, fun y => ⟨rfl, trivial⟩⟩
          · trivial
        · rw [exec_need, b1]
          simp only [Option.bind_some]
          by_cases ht : q.Takes P i
          · rw [if_pos (b2.2 ht), if_pos ht, exec_need, coordsAt_ok hq hi]
            simp only [Option.bind_some]
            rw [sourceSumAt_ok hf.line hp hk]
            simp only [Option.bind_some]
            rw [update_exec _ (fun y => y + _) _ (hv.plane.fits i c (by omega) hc)]
          · rw [if_neg (fun hb => ht (b2.1 hb)), if_neg ht, add_zero, put_get_self]
            rfl)
      (fun _ _ h => absurd trivial h)
      (by
        intro p hp p' hp' _ _ e
        obtain ⟨h1, h2⟩ := mem_nest2.1 hp
        obtain ⟨h3, h4⟩ := mem_nest2.1 hp'
        have := hv.distinct _ _ _ _ (by omega) h2 (by omega) h4 e
        exact Prod.ext this.1 this.2)
  exact ⟨r, r1, r2, fun i c hi hc => r3 (i, c) (mem_nest2.2 ⟨hi, hc⟩) trivial,
    fun x hx => r4 x fun p hp _ => hx p.1 p.2 (mem_nest2.1 hp).1 (mem_nest2.1 hp).2⟩

/-- The two precisions: types of directions and coordinates, of visibilities and image. -/
def Prec (td tc : MemType) : Prop := td = .double ∧ tc = .complexDouble ∨ td = .float ∧ tc = .complexFloat

open Classical in
/-- **C111, `sdp_gridder_idft`.**  On either device and in either precision, for arrays with any strides and a square image
that shares no memory with itself, in every schedule: each pixel receives the sum over the rows that take part of visibility
times conjugate response, times the window at the pixel; nothing else changes. -/
theorem C111_idft_partial {cuda : Bool} {loc : MemLocation} (hloc : loc = .cpu ∨ loc = .gpu ∧ cuda = true) {td tc : MemType}
    (ht : Prec td tc) {q : Coords} {P : Places} {nu nr nc n : Nat} (hq : CoordsOk q loc td P nu) {vis : Data ℂ}
    (hvt : vis.mem.type = tc) (hvl : vis.mem.location = loc) (hv : Plane vis.mem vis.buf.size nr nc P.vis) (hr : nu ≤ nr)
    {lmn : Data ℝ} (hl : LmnOk lmn loc td P (n * n)) {taper : Option (Data ℝ)} (hw : WindowOk taper loc P n) {im : Mem}
    {out : Arr ℂ} (hi : Open im loc tc out.size n n P.image) :
    let run := idftCall cuda q vis lmn taper im .success
    run.status = .success ∧ ∃ r, Yields run.prog run.threads out r ∧ r.size = out.size ∧
      (∀ a b, a < n → b < n → r.get (P.image a b) = out.get (P.image a b) +
        (∑ i ∈ Finset.range nu, ∑ c ∈ Finset.range nc, if q.Takes P i then
          vis.buf.get (P.vis i c) * star (response (dirAt lmn.buf P (n * a + b)) (q.at P i c)) else 0) *
          (taperAtPixel taper P a b : ℂ)) ∧
      ∀ x, (∀ a b, a < n → b < n → P.image a b ≠ x) → r.get x = out.get x := by
  intro run
  obtain ⟨k, hk, hp⟩ := hl.plane
  have hrun : run = idftCall cuda q vis lmn taper im .success := rfl
  unfold idftCall at hrun
  rw [if_neg (by simp)] at hrun
  simp only at hrun
  have body : ∀ a b, a < n → b < n →
      (idftThread q (chsGood q) nu nc n vis.buf lmn.buf (taper.map fun t => (mkView t.mem 1 .success, t.buf))
        (mkView q.uvw.mem 2 .success) (mkView vis.mem 2 .success) (mkView lmn.mem 2 .success) (mkView im 2 .success)
        (a, b)).Within (fun x : Int => x = (P.image a b : Nat)) ∧
      (idftThread q (chsGood q) nu nc n vis.buf lmn.buf (taper.map fun t => (mkView t.mem 1 .success, t.buf))
        (mkView q.uvw.mem 2 .success) (mkView vis.mem 2 .success) (mkView lmn.mem 2 .success) (mkView im 2 .success)
        (a, b)).exec out = some (out.put (P.image a b) (out.get (P.image a b) +
        (∑ i ∈ Finset.range nu, ∑ c ∈ Finset.range nc, if q.Takes P i then
          vis.buf.get (P.vis i c) * star (response (dirAt lmn.buf P (n * a + b)) (q.at P i c)) else 0) *
          (taperAtPixel taper P a b : ℂ))) := by
    intro a b ha hb
    unfold idftThread
    simp only
    rw [plane_addr hi.plane ha hb]
    constructor
    · exact within_need _ _ fun x _ => within_need _ _ fun t _ => ⟨rfl, fun y => ⟨rfl, trivial⟩⟩
    · have hlt : n * a + b < n * n := flat_lt ha hb
      rw [exec_need, Nat.mul_comm a n, visSumAt_ok hq hv hr hp (by omega)]
      simp only [Option.bind_some]
      rw [exec_need, taperAt_ok hw ha hb]
      simp only [Option.bind_some]
      rw [update_exec _ (fun y => y + _) _ (hi.plane.fits a b ha hb)]
  rcases hloc with rfl | ⟨rfl, hcu⟩
  · rw [if_pos hvl] at hrun
    have hrun' : run = cpuRun .success (mkView im 2 .success)
        (idftThread q (chsGood q) nu nc n vis.buf lmn.buf (taper.map fun t => (mkView t.mem 1 .success, t.buf))
        (mkView q.uvw.mem 2 .success) (mkView vis.mem 2 .success) (mkView lmn.mem 2 .success) (mkView im 2 .success)) := by
      have core : idftCpu td td tc tc q vis lmn taper im .success = cpuRun .success (mkView im 2 .success)
        (idftThread q (chsGood q) nu nc n vis.buf lmn.buf (taper.map fun t => (mkView t.mem 1 .success, t.buf))
        (mkView q.uvw.mem 2 .success) (mkView vis.mem 2 .success) (mkView lmn.mem 2 .success) (mkView im 2 .success)) := by
        unfold idftCpu
        rw [if_neg (by simp), chsView_ok hq]
        simp only
        rw [viewConst_ok hq.uvw.dims hq.type hq.loc]
        simp only
        rw [viewConst_ok hv.dims hvt hvl]
        simp only
        rw [viewConst_ok hp.dims hl.type hl.loc]
        simp only
        rw [view_ok hi.plane.dims hi.type hi.loc hi.data hi.writeable]
        simp only
        rw [taperView_ok hw]
        simp only
        rw [if_neg (by simp), hq.uvw.rows, hv.cols, hi.plane.rows, Int.toNat_natCast, Int.toNat_natCast, Int.toNat_natCast]
        unfold cpuRun
        rw [(plane_rows hi.plane).1, (plane_rows hi.plane).2]
      rcases ht with ⟨rfl, rfl⟩ | ⟨rfl, rfl⟩
      · rw [if_pos ⟨hl.type, hi.type, hq.type, hvt⟩] at hrun
        rw [hrun, core]
      · rw [if_neg (by rw [hl.type]; simp), if_pos ⟨hl.type, hi.type, hq.type, hvt⟩] at hrun
        rw [hrun, core]
    exact run_yields false false (by simp) im out hi.plane hi.distinct _ _ body run hrun'
  · rw [if_neg (by rw [hvl]; simp)] at hrun
    have hrun' : run = gpuRun cuda im .success (mkView im 2 .success)
        (idftThread q (chsGood q) nu nc n vis.buf lmn.buf (taper.map fun t => (mkView t.mem 1 .success, t.buf))
        (mkView q.uvw.mem 2 .success) (mkView vis.mem 2 .success) (mkView lmn.mem 2 .success) (mkView im 2 .success)) := by
      have core : idftGpu cuda td td tc tc q vis lmn taper im .success = gpuRun cuda im .success (mkView im 2 .success)
        (idftThread q (chsGood q) nu nc n vis.buf lmn.buf (taper.map fun t => (mkView t.mem 1 .success, t.buf))
        (mkView q.uvw.mem 2 .success) (mkView vis.mem 2 .success) (mkView lmn.mem 2 .success) (mkView im 2 .success)) := by
        unfold idftGpu
        rw [view_ok hi.plane.dims hi.type hi.loc hi.data hi.writeable]
        simp only
        rw [viewConst_ok hp.dims hl.type hl.loc]
        simp only
        rw [viewConst_ok hq.uvw.dims hq.type hq.loc]
        simp only
        rw [viewConst_ok hv.dims hvt hvl]
        simp only
        rw [chsView_ok hq]
        simp only
        rw [taperView_ok hw]
        simp only
        rw [if_neg (by simp), if_neg (by simp [hcu]), (plane_rows hq.uvw).1, (plane_rows hv).2, (plane_rows hi.plane).1]
        unfold gpuRun
        rw [if_neg (by simp), if_neg (by simp [hcu]), (plane_rows hi.plane).1, (plane_rows hi.plane).2]
      rcases ht with ⟨rfl, rfl⟩ | ⟨rfl, rfl⟩
      · rw [if_pos ⟨hl.type, hi.type, hq.type, hvt⟩] at hrun
        rw [hrun, core]
      · rw [if_neg (by rw [hl.type]; simp), if_pos ⟨hl.type, hi.type, hq.type, hvt⟩] at hrun
        rw [hrun, core]
    exact run_yields true cuda (fun _ => hcu) im out hi.plane hi.distinct _ _ body run hrun'

end Sdp.Direct
