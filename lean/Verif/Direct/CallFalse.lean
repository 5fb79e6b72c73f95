import Verif.Direct.CallChecks

/-! # C111: the theorems on concrete arrays, and what is not checked -/

namespace Sdp.Direct
open Sdp.Race Sdp.GridUtil
noncomputable section

/-- An array of `n0` by `n1` elements, `s0` and `s1` elements apart. -/
def grd (t : MemType) (l : MemLocation) (n0 n1 s0 s1 : Nat) : Mem :=
  ⟨t, l, false, false, false, 2, n0 * n1, 1, [n0, n1], [t.size * s0, t.size * s1], some ⟨0, 0⟩⟩

/-- A line of `n` elements, `s` elements apart. -/
def lin (t : MemType) (l : MemLocation) (n s : Nat) : Mem :=
  ⟨t, l, false, false, false, 1, n, 1, [n], [t.size * s], some ⟨0, 0⟩⟩

theorem grd_stride {t : MemType} (ht : 0 < t.size) (l : MemLocation) (n0 n1 s0 s1 : Nat) :
    (grd t l n0 n1 s0 s1).strideElementsDim 0 = s0 ∧ (grd t l n0 n1 s0 s1).strideElementsDim 1 = s1 := by
  constructor
  · show (if t.size > 0 then (t.size * s0 : Int).tdiv t.size else 0) = s0
    rw [if_pos ht, Int.mul_tdiv_cancel_left _ (by omega)]
  · show (if t.size > 0 then (t.size * s1 : Int).tdiv t.size else 0) = s1
    rw [if_pos ht, Int.mul_tdiv_cancel_left _ (by omega)]

theorem lin_stride {t : MemType} (ht : 0 < t.size) (l : MemLocation) (n s : Nat) : (lin t l n s).strideElementsDim 0 = s := by
  show (if t.size > 0 then (t.size * s : Int).tdiv t.size else 0) = s
  rw [if_pos ht, Int.mul_tdiv_cancel_left _ (by omega)]

theorem grd_plane {t : MemType} (ht : 0 < t.size) (l : MemLocation) {n0 n1 s0 s1 size : Nat}
    (h : ∀ i j, i < n0 → j < n1 → s0 * i + s1 * j < size) :
    Plane (grd t l n0 n1 s0 s1) size n0 n1 fun i j => s0 * i + s1 * j :=
  ⟨rfl, rfl, rfl, fun i j _ _ => by
    rw [(grd_stride ht l n0 n1 s0 s1).1, (grd_stride ht l n0 n1 s0 s1).2]
    push_cast
    ring, h⟩

theorem grd_open {t : MemType} (ht : 0 < t.size) (l : MemLocation) {n0 n1 s0 s1 size : Nat}
    (h : ∀ i j, i < n0 → j < n1 → s0 * i + s1 * j < size) (hd : Distinct n0 n1 fun i j => s0 * i + s1 * j) :
    Open (grd t l n0 n1 s0 s1) l t size n0 n1 fun i j => s0 * i + s1 * j :=
  ⟨rfl, rfl, by simp [grd], rfl, grd_plane ht l h, hd⟩

theorem lin_window {t : MemType} (ht : 0 < t.size) (l : MemLocation) {n s size : Nat} (h : ∀ i, i < n → s * i < size) :
    Window (lin t l n s) size n fun i => s * i :=
  ⟨rfl, rfl, fun i _ => by
    rw [lin_stride ht]
    push_cast
    ring, h⟩

/-! ## Cases the theorems cover -/

/-- Coordinates of three rows stored by columns, with channel ranges in every second integer; the middle row is left out. -/
def exCoords (t : MemType) (l : MemLocation) : Coords :=
  ⟨⟨grd t l 3 3 1 4, ⟨12, fun k => k⟩⟩, some ⟨lin .int l 3 2, ⟨5, fun _ => 1⟩⟩, some ⟨lin .int l 3 1, ⟨3, fun k => if k = 1 then 1 else 2⟩⟩,
    3, -2, 1, 1 / 10, 2, 100, 7⟩

/-- Visibilities stored by channels, an image stored by columns of 3 in a buffer with columns of 4. -/
def exPlaces : Places :=
  ⟨fun i j => 1 * i + 4 * j, fun i => 2 * i, fun i => 1 * i, fun i => 2 * i, fun i j => 3 * i + 1 * j, fun i => 2 * i,
    fun i c => 1 * i + 3 * c, fun a b => 1 * a + 4 * b⟩

theorem exCoords_ok {t : MemType} (ht : 0 < t.size) (l : MemLocation) : CoordsOk (exCoords t l) l t exPlaces 3 where
  type := rfl
  loc := rfl
  uvw := grd_plane ht l (fun i j hi hj => by show _ < 12; omega)
  chs := by
    intro s e hs he
    cases hs
    cases he
    exact ⟨⟨rfl, rfl, 3, Nat.le_refl _, lin_window (by decide) l fun i hi => by show _ < 5; omega⟩,
      rfl, rfl, 3, Nat.le_refl _, lin_window (by decide) l fun i hi => by show _ < 3; omega⟩

theorem ex_vis {t : MemType} (ht : 0 < t.size) (l : MemLocation) : Open (grd t l 3 2 1 3) l t 6 3 2 exPlaces.vis :=
  grd_open ht l (fun i j hi hj => by omega) (fun i j i' j' hi hj hi' hj' e => by beta_reduce at e; constructor <;> omega)

theorem ex_image {t : MemType} (ht : 0 < t.size) (l : MemLocation) : Open (grd t l 3 3 1 4) l t 12 3 3 exPlaces.image :=
  grd_open ht l (fun i j hi hj => by omega) (fun i j i' j' hi hj hi' hj' e => by beta_reduce at e; constructor <;> omega)

/-- A plan with a window in every second number. -/
def exPlan (l : MemLocation) : Plan := ⟨⟨1 / 10, 1 / 5, 0⟩, 2, ⟨lin .double l 3 2, ⟨5, fun k => 1 + k⟩⟩⟩

theorem exPlan_ok (l : MemLocation) : WindowOk (some (exPlan l).pswf) l exPlaces 3 := by
  intro t h
  cases h
  exact ⟨rfl, rfl, 3, Nat.le_refl _, lin_window (by decide) l fun i hi => by show _ < 5; omega⟩

/-- Degridding a real image with dark pixels. -/
example : ∃ run, degridCall false (exPlan .cpu) ⟨grd .complexDouble .cpu 3 3 1 4, ⟨12, fun k => k⟩⟩ (exCoords .double .cpu)
    (grd .complexDouble .cpu 3 2 1 3) .success = some run ∧ run.status = .success := by
  obtain ⟨run, h1, h2, _⟩ := C111_degrid_partial false (pl := exPlan .cpu) (im := ⟨grd .complexDouble .cpu 3 3 1 4, ⟨12, fun k => k⟩⟩)
    (q := exCoords .double .cpu) (P := exPlaces) (n := 3) (nu := 3) (out := ⟨6, fun _ => 5⟩) (Or.inr (Or.inl rfl)) rfl
    (ex_image (by decide) .cpu).plane ⟨1, 1, by decide, by decide, by
      show ((5 : Nat) : ℂ) ≠ 0
      norm_num⟩ (exPlan_ok .cpu)
    (exCoords_ok (by decide) .cpu) (ex_vis (by decide) .cpu) (Nat.le_refl _)
  exact ⟨run, h1, h2⟩

/-- Gridding, in single precision. -/
example : ∃ run, gridCall false (exPlan .cpu) ⟨grd .complexFloat .cpu 3 2 1 3, ⟨6, fun k => k⟩⟩ (exCoords .float .cpu)
    ⟨grd .complexFloat .cpu 3 3 1 4, ⟨12, fun _ => 1⟩⟩ .success = some run ∧ run.status = .success := by
  obtain ⟨run, h1, h2, _⟩ := C111_grid_partial false (Or.inr ⟨rfl, rfl⟩) (pl := exPlan .cpu)
    (vis := ⟨grd .complexFloat .cpu 3 2 1 3, ⟨6, fun k => k⟩⟩) (q := exCoords .float .cpu) (P := exPlaces) (n := 3) (nu := 3)
    (im := ⟨grd .complexFloat .cpu 3 3 1 4, ⟨12, fun _ => 1⟩⟩) (by decide) rfl (ex_image (by decide) .cpu) (exPlan_ok .cpu)
    (exCoords_ok (by decide) .cpu) rfl rfl (ex_vis (by decide) .cpu).plane (Nat.le_refl _)
  exact ⟨run, h1, h2⟩

/-- The transforms themselves; to the image also on the GPU. -/
example : (dftCall (exCoords .double .cpu) ⟨lin .double .cpu 4 2, ⟨8, fun _ => 1⟩⟩ ⟨grd .double .cpu 4 3 3 1, ⟨12, fun k => k⟩⟩
      (grd .complexDouble .cpu 3 2 1 3) .success).status = .success ∧
    (idftCall true (exCoords .double .gpu) ⟨grd .complexDouble .gpu 3 2 1 3, ⟨6, fun k => k⟩⟩ ⟨grd .double .gpu 9 3 3 1, ⟨27, fun k => k⟩⟩
      (some (exPlan .gpu).pswf) (grd .complexDouble .gpu 3 3 1 4) .success).status = .success :=
  ⟨(C111_dft_partial (P := exPlaces) (nu := 3) (nr := 3) (nc := 2) (n := 4) (exCoords_ok (by decide) .cpu)
      ⟨rfl, rfl, lin_window (by decide) .cpu fun i hi => by show _ < 8; omega⟩
      ⟨rfl, rfl, 4, Nat.le_refl _, grd_plane (by decide) .cpu fun i j hi hj => by show _ < 12; omega⟩
      (out := ⟨6, fun _ => 0⟩) (ex_vis (by decide) .cpu) (Nat.le_refl _)).1,
    (C111_idft_partial (loc := .gpu) (Or.inr ⟨rfl, rfl⟩) (Or.inl ⟨rfl, rfl⟩) (P := exPlaces) (nu := 3) (nr := 3) (nc := 2) (n := 3)
      (exCoords_ok (by decide) .gpu) rfl rfl (ex_vis (by decide) .gpu).plane (Nat.le_refl _)
      ⟨rfl, rfl, 9, Nat.le_refl _, grd_plane (by decide) .gpu fun i j hi hj => by show _ < 27; omega⟩ (exPlan_ok .gpu)
      (out := ⟨12, fun _ => 0⟩) (ex_image (by decide) .gpu)).1⟩

/-- The adjoint relation. -/
example : ∃ run1 run2, degridCall false (exPlan .cpu) ⟨grd .complexDouble .cpu 3 3 1 4, ⟨12, fun k => k⟩⟩ (exCoords .double .cpu)
      (grd .complexDouble .cpu 3 2 1 3) .success = some run1 ∧
    gridCall false (exPlan .cpu) ⟨grd .complexDouble .cpu 3 2 1 3, ⟨6, fun k => k * Complex.I⟩⟩ (exCoords .double .cpu)
      ⟨grd .complexDouble .cpu 3 3 1 4, ⟨12, fun _ => 0⟩⟩ .success = some run2 := by
  obtain ⟨r1, r2, h1, h2, _⟩ := C111_adjoint_partial false (pl := exPlan .cpu)
    (im := ⟨grd .complexDouble .cpu 3 3 1 4, ⟨12, fun k => k⟩⟩) (vis := ⟨grd .complexDouble .cpu 3 2 1 3, ⟨6, fun k => k * Complex.I⟩⟩)
    (q := exCoords .double .cpu) (P := exPlaces) (n := 3) (nu := 3) (nc := 2) rfl (ex_image (by decide) .cpu)
    (fun a b _ _ => Complex.natCast_im _) ⟨1, 1, by decide, by decide, by
      show ((5 : Nat) : ℂ) ≠ 0
      norm_num⟩ (exPlan_ok .cpu)
    (exCoords_ok (by decide) .cpu) (ex_vis (by decide) .cpu) ⟨6, fun _ => 0⟩ ⟨12, fun _ => 0⟩ rfl rfl (fun _ => rfl) (fun _ => rfl)
  exact ⟨r1, r2, h1, h2⟩

/-- Counting and conversion. -/
example : ∃ k f d, countCall ⟨grd .float .cpu 3 3 1 4, ⟨12, fun k => k⟩⟩ .success = some (k, .success) ∧
    flmnCall (exPlan .cpu).geo ⟨grd .float .cpu 3 3 1 4, ⟨12, fun k => k⟩⟩ none (some ⟨lin .double .cpu 9 2, ⟨18, fun _ => 0⟩⟩)
      ⟨grd .float .cpu 9 3 3 1, ⟨27, fun _ => 0⟩⟩ .success = some (.success, f, d) := by
  have hi : Plane (grd .float .cpu 3 3 1 4) 12 3 3 exPlaces.image := (ex_image (t := .float) (by decide) .cpu).plane
  obtain ⟨f, d, h, _⟩ := C111_flmn_partial (g := (exPlan .cpu).geo) (im := ⟨grd .float .cpu 3 3 1 4, ⟨12, fun k => k⟩⟩)
    (fx := ⟨lin .double .cpu 9 2, ⟨18, fun _ => 0⟩⟩) (lmn := ⟨grd .float .cpu 9 3 3 1, ⟨27, fun _ => 0⟩⟩) (taper := none) (P := exPlaces)
    (n0 := 3) (n1 := 3) (K := 9) (n := 3) ⟨rfl, Or.inr (Or.inl ⟨rfl, rfl⟩)⟩ hi rfl (fun t h => by cases h) ⟨by decide, by decide⟩
    (grd_open (by decide) .cpu (fun i j hi hj => by show _ < 27; omega) (fun i j i' j' hi hj hi' hj' e => by beta_reduce at e; constructor <;> omega))
    ⟨rfl, rfl, lin_window (by decide) .cpu fun i hi => by show _ < 18; omega⟩ (by simp [lin]) rfl
    (fun s s' _ _ e => by have : 2 * s = 2 * s' := e; omega) ((List.length_filter_le _ _).trans (by decide))
  exact ⟨_, f, d, C111_count_partial (Or.inr (Or.inr (Or.inr rfl))) rfl hi, h⟩

/-! ## What is not checked -/

/-- An accepted transform to visibilities. -/
theorem dft_run {q : Coords} {fx lmn : Data ℝ} {vis : Mem} {c : Option ((View × Arr Int) × (View × Arr Int))}
    (hc : chsView q .cpu .success = (c, .success)) (hq : Reads q.uvw.mem .double 2 .cpu) (hf : Reads fx.mem .double 1 .cpu)
    (hl : Reads lmn.mem .double 2 .cpu) (hv : Writes vis .complexDouble 2 .cpu) :
    dftCall q fx lmn vis .success = ⟨.success, nest2 (q.uvw.mem.shapeDim 0).toNat (vis.shapeDim 1).toNat,
      dftThread q c (fx.mem.shapeDim 0).toNat fx.buf lmn.buf (mkView q.uvw.mem 2 .success) (mkView fx.mem 1 .success)
        (mkView lmn.mem 2 .success) (mkView vis 2 .success)⟩ := by
  unfold dftCall
  rw [if_neg (by simp)]
  simp only
  rw [if_pos hv.1.2.2, if_pos ⟨hl.1, hl.1, hq.1, hv.1.1⟩]
  unfold dftKernel
  rw [if_neg (by simp)]
  simp only [hc, viewConst_ok (by exact_mod_cast hq.2.1) hq.1 hq.2.2, view1Const_ok (by exact_mod_cast hf.2.1) hf.1 hf.2.2,
    viewConst_ok (by exact_mod_cast hl.2.1) hl.1 hl.2.2, view_ok (by exact_mod_cast hv.1.2.1) hv.1.1 hv.1.2.2 hv.2.1 hv.2.2]
  rw [if_neg (by simp)]

/-- An accepted transform to an image on the CPU. -/
theorem idft_run {q : Coords} {vis : Data ℂ} {lmn t : Data ℝ} {im : Mem} {c : Option ((View × Arr Int) × (View × Arr Int))}
    (hc : chsView q .cpu .success = (c, .success)) (hq : Reads q.uvw.mem .double 2 .cpu) (hv : Reads vis.mem .complexDouble 2 .cpu)
    (hl : Reads lmn.mem .double 2 .cpu) (ht : Reads t.mem .double 1 .cpu) (hi : Writes im .complexDouble 2 .cpu) :
    idftCall false q vis lmn (some t) im .success = ⟨.success, nest2 (im.shapeDim 0).toNat (im.shapeDim 0).toNat,
      idftThread q c (q.uvw.mem.shapeDim 0).toNat (vis.mem.shapeDim 1).toNat (im.shapeDim 0).toNat vis.buf lmn.buf
        (some (mkView t.mem 1 .success, t.buf)) (mkView q.uvw.mem 2 .success) (mkView vis.mem 2 .success)
        (mkView lmn.mem 2 .success) (mkView im 2 .success)⟩ := by
  unfold idftCall
  rw [if_neg (by simp)]
  simp only
  rw [if_pos hv.2.2, if_pos ⟨hl.1, hi.1.1, hq.1, hv.1⟩]
  unfold idftCpu
  rw [if_neg (by simp)]
  simp only [hc, viewConst_ok (by exact_mod_cast hq.2.1) hq.1 hq.2.2, view1Const_ok (by exact_mod_cast ht.2.1) ht.1 ht.2.2,
    viewConst_ok (by exact_mod_cast hl.2.1) hl.1 hl.2.2, viewConst_ok (by exact_mod_cast hv.2.1) hv.1 hv.2.2,
    view_ok (by exact_mod_cast hi.1.2.1) hi.1.1 hi.1.2.2 hi.2.1 hi.2.2, taperView]
  rw [if_neg (by simp)]

theorem idft_bad {q : Coords} {c : Option ((View × Arr Int) × (View × Arr Int))} {nu nc n : Nat} {vis : Arr ℂ} {lmn : Arr ℝ}
    {taper : Option (View × Arr ℝ)} {vu vv vl vi : View} {p : Nat × Nat} {a : Arr ℂ}
    (h : taperAt taper p = none ∨ a.read (addr vi p) = none) :
    (idftThread q c nu nc n vis lmn taper vu vv vl vi p).exec a = none := by
  unfold idftThread
  cases visSumAt q c nu nc vis lmn vu vv vl (p.1 * n + p.2) with
  | none => rfl
  | some x =>
    simp only [Prog.need]
    cases ht : taperAt taper p with
    | none => rfl
    | some t =>
      rcases h with h | h
      · rw [ht] at h; cases h
      · simp only [Prog.exec, h]
        rfl

theorem dft_bad {q : Coords} {num : Nat} {flux lmn : Arr ℝ} {vu vf vl vv : View} {p : Nat × Nat} {a : Arr ℂ}
    (h : a.read (addr vv p) = none) : (dftThread q none num flux lmn vu vf vl vv p).exec a = none := by
  simp only [dftThread, activeAt, Prog.need, if_true]
  cases (coordsAt q vu p.1 p.2).bind (sourceSumAt num flux lmn vf vl) with
  | none => rfl
  | some x =>
    simp only [Prog.exec, h]
    rfl

/-- Fluxes that must not be changed. -/
def roFlux : Mem := ⟨.double, .cpu, true, false, true, 1, 1, 1, [1], [8], some ⟨0, 0⟩⟩

/-- The image of one bright pixel. -/
def onePixel (t : MemType) : Data ℂ := ⟨grd t .cpu 1 1 1 1, ⟨1, fun _ => 1⟩⟩

/-- **C111 fails for a flux array that is read-only**: the call reports an error, yet has changed it. -/
theorem C111_flmn_readonly_false : ∃ (g : Geo) (im : Data ℂ) (fx lmn : Data ℝ) (s : Sdp.Status) (f d : Arr ℝ),
    fx.mem.isReadOnly = true ∧ s ≠ .success ∧ flmnCall g im none (some fx) lmn .success = some (s, f, d) ∧
      f.get 0 ≠ fx.buf.get 0 := by
  have key : ∃ r, flmnCall (exPlan .cpu).geo (onePixel .double) none
      (some ⟨roFlux, ⟨1, fun _ => 0⟩⟩) ⟨grd .double .cpu 1 3 3 1, ⟨3, fun _ => 0⟩⟩ .success =
      some r ∧ r.1 = .invalidArgument ∧ r.2.1.get 0 = 1 := by
    unfold flmnCall
    have hl := view_ok (m := grd .double .cpu 1 3 3 1) (t := .double) (l := .cpu) rfl rfl rfl (by simp [grd]) rfl
    have hi := viewConst_ok (m := grd .double .cpu 1 1 1 1) (t := .double) (l := .cpu) rfl rfl rfl
    have ht : flmnTypes .double .double .double := ⟨rfl, Or.inl ⟨rfl, rfl⟩⟩
    have hf : checkAndView roFlux .double 1 .cpu .success =
        (⟨some ⟨0, 0⟩, [0], [0]⟩, .invalidArgument) := by decide
    have hx : (grd .double .cpu 1 1 1 1).type = .double := rfl
    have hy : (grd .double .cpu 1 3 3 1).type = .double := rfl
    have hz : roFlux.type = .double := rfl
    have a0 : addr (mkView (grd .double .cpu 1 1 1 1) 2 .success) (0, 0) = 0 := by decide
    have a1 : addr (mkView (grd .double .cpu 1 3 3 1) 2 .success) (0, 0) = 0 := by decide
    have a2 : addr (mkView (grd .double .cpu 1 3 3 1) 2 .success) (0, 1) = 1 := by decide
    have a3 : addr (mkView (grd .double .cpu 1 3 3 1) 2 .success) (0, 2) = 2 := by decide
    have a4 : addr1 ⟨some ⟨0, 0⟩, [0], [0]⟩ 0 = 0 := by decide
    have n1 : nest2 ((grd .double .cpu 1 1 1 1).shapeDim 0).toNat ((grd .double .cpu 1 1 1 1).shapeDim 1).toNat = [(0, 0)] := by decide
    simp only [onePixel, Option.elim_some, hx, hy, hz, ht, hl, hi, hf, n1, taperView, if_true, if_neg (not_not.2 rfl : ¬ (Sdp.Status.success ≠ .success))]
    simp only [loop, flmnAt, Data.host, Data.store, hx, a0, a4, taperAt, putLmn, a1, a2, a3, Arr.read, Arr.write]
    simp [grd, roFlux, Arr.put]
  obtain ⟨⟨s, f, d⟩, h1, h2, h3⟩ := key
  refine ⟨(exPlan .cpu).geo, _, ⟨roFlux, ⟨1, fun _ => 0⟩⟩, _, s, f, d, rfl, ?_, h1, ?_⟩
  · rw [show s = .invalidArgument from h2]; simp
  · rw [show f.get 0 = 1 from h3]; simp

/-- **C111 fails for a window shorter than the image**: the call is accepted and reads behind the window. -/
theorem C111_window_false : ∃ (g : Geo) (im : Data ℂ) (t fx lmn : Data ℝ), t.mem.numDims = 1 ∧ t.mem.shapeDim 0 = 1 ∧ t.buf.size = 1 ∧
    im.mem.shapeDim 0 = 2 ∧ im.mem.shapeDim 1 = 2 ∧ im.buf.size = 4 ∧ fx.mem.shapeDim 0 = 4 ∧ lmn.mem.shapeDim 0 = 4 ∧
      flmnCall g im (some t) (some fx) lmn .success = none := by
  refine ⟨(exPlan .cpu).geo, ⟨grd .double .cpu 2 2 2 1, ⟨4, fun k => if k = 0 then 0 else 1⟩⟩, ⟨lin .double .cpu 1 1, ⟨1, fun _ => 1⟩⟩,
    ⟨lin .double .cpu 4 1, ⟨4, fun _ => 0⟩⟩, ⟨grd .double .cpu 4 3 3 1, ⟨12, fun _ => 0⟩⟩, rfl, rfl, rfl, rfl, rfl, rfl, rfl, rfl, ?_⟩
  unfold flmnCall
  have hl := view_ok (m := grd .double .cpu 4 3 3 1) (t := .double) (l := .cpu) rfl rfl rfl (by simp [grd]) rfl
  have hi := viewConst_ok (m := grd .double .cpu 2 2 2 1) (t := .double) (l := .cpu) rfl rfl rfl
  have hf := view1_ok (m := lin .double .cpu 4 1) (t := .double) (l := .cpu) rfl rfl rfl (by simp [lin]) rfl
  have hw := view1Const_ok (m := lin .double .cpu 1 1) (t := .double) (l := .cpu) rfl rfl rfl
  have ht : flmnTypes .double .double .double := ⟨rfl, Or.inl ⟨rfl, rfl⟩⟩
  have hx : (grd .double .cpu 2 2 2 1).type = .double := rfl
  have hy : (grd .double .cpu 4 3 3 1).type = .double := rfl
  have hz : (lin .double .cpu 4 1).type = .double := rfl
  have hc : (grd .double .cpu 2 2 2 1).location = .cpu := rfl
  have a0 : addr (mkView (grd .double .cpu 2 2 2 1) 2 .success) (0, 0) = 0 := by decide
  have a1 : addr (mkView (grd .double .cpu 2 2 2 1) 2 .success) (0, 1) = 1 := by decide
  have b0 : addr1 (mkView (lin .double .cpu 1 1) 1 .success) 0 = 0 := by decide
  have b1 : addr1 (mkView (lin .double .cpu 1 1) 1 .success) 1 = 1 := by decide
  have n1 : nest2 ((grd .double .cpu 2 2 2 1).shapeDim 0).toNat ((grd .double .cpu 2 2 2 1).shapeDim 1).toNat =
      [(0, 0), (0, 1), (1, 0), (1, 1)] := by decide
  simp only [Option.elim_some, hx, hy, hz, ht, hl, hi, hf, hw, n1, taperView, if_true,
    if_neg (not_not.2 rfl : ¬ (Sdp.Status.success ≠ .success))]
  simp [loop, flmnAt, Data.host, hc, a0, a1, b0, b1, taperAt, Arr.read]

/-- **C111 fails for a window shorter than the image** also in the other direction. -/
theorem C111_idft_window_false : ∃ (q : Coords) (vis : Data ℂ) (lmn t : Data ℝ) (im : Mem) (out : Arr ℂ),
    t.mem.numDims = 1 ∧ t.mem.shapeDim 0 = 1 ∧ t.buf.size = 1 ∧ im.shapeDim 0 = 2 ∧ im.shapeDim 1 = 2 ∧
    (idftCall false q vis lmn (some t) im .success).status = .success ∧
      Launch (idftCall false q vis lmn (some t) im .success).prog (idftCall false q vis lmn (some t) im .success).threads out none := by
  refine ⟨exCoords .double .cpu, ⟨grd .complexDouble .cpu 3 2 1 3, ⟨6, fun k => k⟩⟩, ⟨grd .double .cpu 4 3 3 1, ⟨12, fun k => k⟩⟩,
    ⟨lin .double .cpu 1 1, ⟨1, fun _ => 1⟩⟩, grd .complexDouble .cpu 2 2 2 1, ⟨4, fun _ => 0⟩, rfl, rfl, rfl, rfl, rfl, ?_⟩
  have hr : ∀ n0 n1 s0 s1 t, Reads (grd t .cpu n0 n1 s0 s1) t 2 .cpu := fun _ _ _ _ _ => ⟨rfl, rfl, rfl⟩
  rw [idft_run (chsView_ok (exCoords_ok (t := .double) (by decide) .cpu)) (hr _ _ _ _ _) (hr _ _ _ _ _) (hr _ _ _ _ _) ⟨rfl, rfl, rfl⟩
    ⟨hr _ _ _ _ _, by simp [grd], rfl⟩]
  refine ⟨rfl, Launch.bad (t := (1, 1)) (mem_nest2.2 ⟨by decide, by decide⟩) ?_⟩
  dsimp only
  refine idft_bad (Or.inl ?_)
  have b1 : addr1 (mkView (lin .double .cpu 1 1) 1 .success) 1 = ((1 : Nat) : Int) := by decide
  simp only [taperAt, b1, Arr.read_nat]
  simp

/-- **C111 fails for visibilities with fewer rows than coordinates**: the call is accepted and changes memory behind them. -/
theorem C111_dft_rows_false : ∃ (q : Coords) (fx lmn : Data ℝ) (vis : Mem) (out : Arr ℂ), q.uvw.mem.shapeDim 0 = 2 ∧
    vis.shapeDim 0 = 1 ∧ vis.shapeDim 1 = 1 ∧ out.size = 1 ∧ (dftCall q fx lmn vis .success).status = .success ∧
      Launch (dftCall q fx lmn vis .success).prog (dftCall q fx lmn vis .success).threads out none := by
  refine ⟨⟨⟨grd .double .cpu 2 3 3 1, ⟨6, fun k => k⟩⟩, none, none, 0, 0, 0, 1, 1, 1, 1⟩, ⟨lin .double .cpu 1 1, ⟨1, fun _ => 1⟩⟩,
    ⟨grd .double .cpu 1 3 3 1, ⟨3, fun _ => 0⟩⟩, grd .complexDouble .cpu 1 1 1 1, ⟨1, fun _ => 0⟩, rfl, rfl, rfl, rfl, ?_⟩
  have hr : ∀ n0 n1 s0 s1 t, Reads (grd t .cpu n0 n1 s0 s1) t 2 .cpu := fun _ _ _ _ _ => ⟨rfl, rfl, rfl⟩
  rw [dft_run (c := none) rfl (hr _ _ _ _ _) ⟨rfl, rfl, rfl⟩ (hr _ _ _ _ _) ⟨hr _ _ _ _ _, by simp [grd], rfl⟩]
  refine ⟨rfl, Launch.bad (t := (1, 0)) (mem_nest2.2 ⟨by decide, by decide⟩) ?_⟩
  dsimp only
  refine dft_bad ?_
  have a1 : addr (mkView (grd .complexDouble .cpu 1 1 1 1) 2 .success) (1, 0) = ((1 : Nat) : Int) := by decide
  simp only [a1, Arr.read_nat]
  simp

/-- **C111 fails for an image that is not square**: one of two rows and one column is accepted, and memory behind it is
changed. -/
theorem C111_grid_tall_false : ∃ (pl : Plan) (q : Coords) (vis im : Data ℂ) (run : Run ℂ), im.mem.shapeDim 0 = 2 ∧
    im.mem.shapeDim 1 = 1 ∧ im.buf.size = 2 ∧ gridCall false pl vis q im .success = some run ∧ run.status = .success ∧
      Launch run.prog run.threads im.buf none := by
  have hr : ∀ n0 n1 s0 s1 t, Reads (grd t .cpu n0 n1 s0 s1) t 2 .cpu := fun _ _ _ _ _ => ⟨rfl, rfl, rfl⟩
  have hnew := newArray_plane false (t := .double) (Or.inl rfl) 2 (by decide)
  obtain ⟨d, hd, -⟩ := C111_lmn (g := (exPlan .cpu).geo) (im := ⟨grd .complexDouble .cpu 2 1 1 1, ⟨2, fun _ => 0⟩⟩)
    (lmn := ⟨⟨.double, .cpu, true, false, false, 2, 3 * (2 : Nat), 1, [((2 : Nat) : Int), 3], [3 * MemType.double.size, MemType.double.size],
      some ⟨0, 0⟩⟩, ⟨3 * 2, fun _ => 0⟩⟩) (taper := none) (P := exPlaces.inner) (n0 := 2) (n1 := 1) (K := 2) (n := 0)
    ⟨rfl, by right; right; left; exact ⟨rfl, rfl⟩⟩ rfl rfl (fun t h => by cases h) (new_open (Or.inl rfl) 2 exPlaces) (Nat.le_refl _)
  have key : gridCall false (exPlan .cpu) ⟨grd .complexDouble .cpu 3 2 1 3, ⟨6, fun k => k⟩⟩ (exCoords .double .cpu)
      ⟨grd .complexDouble .cpu 2 1 1 1, ⟨2, fun _ => 0⟩⟩ .success = some (idftCall false ((exPlan .cpu).coords (exCoords .double .cpu))
        ⟨grd .complexDouble .cpu 3 2 1 3, ⟨6, fun k => k⟩⟩ ⟨⟨.double, .cpu, true, false, false, 2, 3 * (2 : Nat), 1, [((2 : Nat) : Int), 3],
          [3 * MemType.double.size, MemType.double.size], some ⟨0, 0⟩⟩, d⟩ (some (exPlan .cpu).pswf) (grd .complexDouble .cpu 2 1 1 1)
        .success) := by
    unfold gridCall
    rw [if_neg (by simp)]
    have e1 : (grd .complexDouble .cpu 2 1 1 1).queryNumElements = ((2 : Nat) : Int) := by decide
    have e2 : (exCoords .double .cpu).uvw.mem.type = .double := rfl
    have e3 : (grd .complexDouble .cpu 3 2 1 3).location = .cpu := rfl
    simp only [e1, e2, e3, hnew, hd, Option.map_some]
  rw [idft_run (q := (exPlan .cpu).coords (exCoords .double .cpu)) (c := chsGood (exCoords .double .cpu))
    (by rw [← (chsView_ok (exCoords_ok (t := .double) (by decide) .cpu))]; rfl) (hr _ _ _ _ _)
    (hr _ _ _ _ _) ⟨rfl, rfl, rfl⟩ ⟨rfl, rfl, rfl⟩ ⟨hr _ _ _ _ _, by simp [grd], rfl⟩] at key
  refine ⟨_, _, _, _, _, rfl, rfl, rfl, key, rfl, Launch.bad (t := (1, 1)) (mem_nest2.2 ⟨by decide, by decide⟩) ?_⟩
  dsimp only
  refine idft_bad (Or.inr ?_)
  have a1 : addr (mkView (grd .complexDouble .cpu 2 1 1 1) 2 .success) (1, 1) = ((2 : Nat) : Int) := by decide
  simp only [a1, Arr.read_nat]
  simp

end
end Sdp.Direct
