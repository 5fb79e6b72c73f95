import Verif.Direct.CallWhole

/-!
# C111: which calls of the direct gridder are accepted, and what refused ones do
-/

namespace Sdp.Direct
open Sdp.Race Sdp.GridUtil

/-- What a call may read: elements of type `t`, `d` dimensions, memory at `l`. -/
def Reads (m : Mem) (t : MemType) (d : Nat) (l : MemLocation) : Prop := m.type = t ∧ m.numDims = d ∧ m.location = l

/-- What it may also change. -/
def Writes (m : Mem) (t : MemType) (d : Nat) (l : MemLocation) : Prop := Reads m t d l ∧ m.data ≠ none ∧ m.isReadOnly = false

/-- Channel ranges are integers if both are given. -/
def ChsReads (q : Coords) (l : MemLocation) : Prop :=
  ∀ s e, q.startChs = some s → q.endChs = some e → Reads s.mem .int 1 l ∧ Reads e.mem .int 1 l

theorem reads_iff (m : Mem) (t : MemType) (d : Nat) (l : MemLocation) (st : Sdp.Status) :
    (checkAndViewConst m t d l st).2 = .success ↔ st = .success ∧ Reads m t d l := by
  rw [viewConst_status]
  unfold Reads
  constructor
  · rintro ⟨h1, h2, h3, h4⟩
    exact ⟨h1, h2, by exact_mod_cast h3, h4⟩
  · rintro ⟨h1, h2, h3, h4⟩
    exact ⟨h1, h2, by exact_mod_cast h3, h4⟩

theorem writes_iff (m : Mem) (t : MemType) (d : Nat) (l : MemLocation) (st : Sdp.Status) :
    (checkAndView m t d l st).2 = .success ↔ st = .success ∧ Writes m t d l := by
  rw [view_status]
  unfold Writes Reads
  constructor
  · rintro ⟨h1, h2, h3, h4, h5, h6⟩
    exact ⟨h1, ⟨h2, by exact_mod_cast h3, h4⟩, h5, h6⟩
  · rintro ⟨h1, ⟨h2, h3, h4⟩, h5, h6⟩
    exact ⟨h1, h2, by exact_mod_cast h3, h4, h5, h6⟩

theorem chs_iff (q : Coords) (l : MemLocation) (st : Sdp.Status) :
    (chsView q l st).2 = .success ↔ st = .success ∧ ChsReads q l := by
  unfold chsView ChsReads
  cases hs : q.startChs with
  | none => simp
  | some s =>
    cases he : q.endChs with
    | none => simp
    | some e =>
      simp only
      rw [reads_iff, reads_iff]
      simp only [Option.some.injEq]
      constructor
      · rintro ⟨⟨h1, h2⟩, h3⟩
        refine ⟨h1, ?_⟩
        rintro _ _ rfl rfl
        exact ⟨h2, h3⟩
      · rintro ⟨h1, h2⟩
        obtain ⟨a, b⟩ := h2 s e rfl rfl
        exact ⟨⟨h1, a⟩, b⟩

theorem taper_iff (taper : Option (Data ℝ)) (l : MemLocation) (st : Sdp.Status) :
    (taperView l taper st).2 = .success ↔ st = .success ∧ ∀ t, taper = some t → Reads t.mem .double 1 l := by
  cases taper with
  | none => simp [taperView]
  | some t =>
    unfold taperView
    simp only
    rw [reads_iff]
    simp

/-- **C111, accepted transforms to visibilities**: exactly double precision arrays on the CPU with the right numbers of
dimensions, an output that can be changed, and integer channel ranges if both are given. -/
theorem C111_dft_accepts (q : Coords) (fx lmn : Data ℝ) (vis : Mem) (st : Sdp.Status) :
    (dftCall q fx lmn vis st).status = .success ↔ st = .success ∧ Writes vis .complexDouble 2 .cpu ∧
      Reads lmn.mem .double 2 .cpu ∧ Reads q.uvw.mem .double 2 .cpu ∧ Reads fx.mem .double 1 .cpu ∧ ChsReads q .cpu := by
  unfold dftCall
  by_cases h0 : st = .success
  swap
  · rw [if_pos h0]
    simp [Run.none, h0]
  rw [if_neg (by simp [h0])]
  simp only
  by_cases h1 : vis.location = .cpu
  swap
  · rw [if_neg h1]
    simp [Run.none, Writes, Reads, h1]
  rw [if_pos h1]
  by_cases h2 : lmn.mem.type = .double ∧ lmn.mem.type = .double ∧ q.uvw.mem.type = .double ∧ vis.type = .complexDouble
  · rw [if_pos h2]
    unfold dftKernel
    rw [if_neg (by simp [h0])]
    have key := writes_iff vis .complexDouble 2 .cpu (checkAndViewConst lmn.mem .double 2 .cpu
      (checkAndViewConst fx.mem .double 1 .cpu (checkAndViewConst q.uvw.mem .double 2 .cpu (chsView q .cpu st).2).2).2).2
    rw [reads_iff, reads_iff, reads_iff, chs_iff] at key
    simp only
    generalize checkAndView vis .complexDouble 2 .cpu _ = vv at key ⊢
    split
    · next h =>
      constructor
      · intro h'
        exact absurd h' h
      · rintro ⟨a, b, c, d, e, f⟩
        exact absurd (key.2 ⟨⟨⟨⟨⟨a, f⟩, d⟩, e⟩, c⟩, b⟩) h
    · next h =>
      rw [not_not, key] at h
      obtain ⟨⟨⟨⟨⟨a, f⟩, d⟩, e⟩, c⟩, b⟩ := h
      simp only [true_iff]
      exact ⟨a, b, c, d, e, f⟩
  · rw [if_neg h2, if_neg (by rintro ⟨a, b, -⟩; rw [a] at b; cases b)]
    simp only [Run.none, reduceCtorEq, false_iff]
    rintro ⟨-, b, c, d, -⟩
    exact h2 ⟨c.1, c.1, d.1, b.1.1⟩

/-- **C111, refused transforms to visibilities** touch nothing. -/
theorem C111_dft_refused (q : Coords) (fx lmn : Data ℝ) (vis : Mem) (st : Sdp.Status)
    (h : (dftCall q fx lmn vis st).status ≠ .success) : (dftCall q fx lmn vis st).threads = [] := by
  have hk : ∀ td tu tv, (dftKernel td tu tv q fx lmn vis st).status ≠ .success →
      (dftKernel td tu tv q fx lmn vis st).threads = [] := by
    intro td tu tv
    unfold dftKernel
    simp only
    split
    · intro _; rfl
    · split
      · intro _; rfl
      · intro hh; exact absurd rfl hh
  revert h
  unfold dftCall
  simp only
  split
  · intro _; rfl
  · split
    · split
      · exact hk _ _ _
      · split
        · exact hk _ _ _
        · intro _; rfl
    · intro _; rfl

/-- Where the visibilities of a call to `sdp_gridder_idft` should be: on the device if not on the CPU. -/
def sideOf (m : Mem) : MemLocation := if m.location = .cpu then .cpu else .gpu

/-- **C111, accepted transforms to an image**: exactly the two precisions, everything where the visibilities are, a device if
they are there, the right numbers of dimensions, an image that can be changed. -/
theorem C111_idft_accepts (cuda : Bool) (q : Coords) (vis : Data ℂ) (lmn : Data ℝ) (taper : Option (Data ℝ)) (im : Mem)
    (st : Sdp.Status) : (idftCall cuda q vis lmn taper im st).status = .success ↔ st = .success ∧
      (sideOf vis.mem = .gpu → cuda = true) ∧ (∃ td tc, Prec td tc ∧ Writes im tc 2 (sideOf vis.mem) ∧
        Reads lmn.mem td 2 (sideOf vis.mem) ∧ Reads q.uvw.mem td 2 (sideOf vis.mem) ∧ Reads vis.mem tc 2 (sideOf vis.mem)) ∧
      ChsReads q (sideOf vis.mem) ∧ ∀ t, taper = some t → Reads t.mem .double 1 (sideOf vis.mem) := by
  have hcpu : ∀ td tc, st = .success → ((idftCpu td td tc tc q vis lmn taper im st).status = .success ↔
      (Writes im tc 2 .cpu ∧ Reads lmn.mem td 2 .cpu ∧ Reads q.uvw.mem td 2 .cpu ∧ Reads vis.mem tc 2 .cpu) ∧ ChsReads q .cpu ∧
        ∀ t, taper = some t → Reads t.mem .double 1 .cpu) := by
    intro td tc h0
    unfold idftCpu
    rw [if_neg (by simp [h0])]
    have key := taper_iff taper .cpu (checkAndView im tc 2 .cpu (checkAndViewConst lmn.mem td 2 .cpu
      (checkAndViewConst vis.mem tc 2 .cpu (checkAndViewConst q.uvw.mem td 2 .cpu (chsView q .cpu st).2).2).2).2).2
    rw [writes_iff, reads_iff, reads_iff, reads_iff, chs_iff] at key
    simp only
    split
    · next h =>
      constructor
      · intro h'
        exact absurd h' h
      · rintro ⟨⟨a, b, c, d⟩, e, f⟩
        exact absurd (key.2 ⟨⟨⟨⟨⟨⟨h0, e⟩, c⟩, d⟩, b⟩, a⟩, f⟩) h
    · next h =>
      rw [not_not, key] at h
      obtain ⟨⟨⟨⟨⟨⟨-, e⟩, c⟩, d⟩, b⟩, a⟩, f⟩ := h
      simp only [true_iff]
      exact ⟨⟨a, b, c, d⟩, e, f⟩
  have hgpu : ∀ td tc, st = .success → ((idftGpu cuda td td tc tc q vis lmn taper im st).status = .success ↔ cuda = true ∧
      (Writes im tc 2 .gpu ∧ Reads lmn.mem td 2 .gpu ∧ Reads q.uvw.mem td 2 .gpu ∧ Reads vis.mem tc 2 .gpu) ∧ ChsReads q .gpu ∧
        ∀ t, taper = some t → Reads t.mem .double 1 .gpu) := by
    intro td tc h0
    unfold idftGpu
    have key := taper_iff taper .gpu (chsView q .gpu (checkAndViewConst vis.mem tc 2 .gpu (checkAndViewConst q.uvw.mem td 2 .gpu
      (checkAndViewConst lmn.mem td 2 .gpu (checkAndView im tc 2 .gpu st).2).2).2).2).2
    rw [chs_iff, reads_iff, reads_iff, reads_iff, writes_iff] at key
    simp only
    split
    · next h =>
      constructor
      · intro h'
        exact absurd h' h
      · rintro ⟨-, ⟨a, b, c, d⟩, e, f⟩
        exact absurd (key.2 ⟨⟨⟨⟨⟨⟨h0, a⟩, b⟩, c⟩, d⟩, e⟩, f⟩) h
    · next h =>
      rw [not_not, key] at h
      obtain ⟨⟨⟨⟨⟨⟨-, a⟩, b⟩, c⟩, d⟩, e⟩, f⟩ := h
      split
      · next hc => simp [Run.none, hc]
      · next hc =>
        have : cuda = true := by simpa using hc
        simp only [true_iff]
        exact ⟨this, ⟨a, b, c, d⟩, e, f⟩
  unfold idftCall
  by_cases h0 : st = .success
  swap
  · rw [if_pos h0]
    simp [Run.none, h0]
  rw [if_neg (by simp [h0])]
  simp only
  have types : ∀ {l td tc}, Prec td tc → Writes im tc 2 l → Reads lmn.mem td 2 l → Reads q.uvw.mem td 2 l →
      Reads vis.mem tc 2 l → (lmn.mem.type = .double ∧ im.type = .complexDouble ∧ q.uvw.mem.type = .double ∧
        vis.mem.type = .complexDouble) ∧ td = .double ∧ tc = .complexDouble ∨ (lmn.mem.type = .float ∧ im.type = .complexFloat ∧
        q.uvw.mem.type = .float ∧ vis.mem.type = .complexFloat) ∧ td = .float ∧ tc = .complexFloat := by
    intro l td tc hp a b c d
    rcases hp with ⟨rfl, rfl⟩ | ⟨rfl, rfl⟩
    · exact Or.inl ⟨⟨b.1, a.1.1, c.1, d.1⟩, rfl, rfl⟩
    · exact Or.inr ⟨⟨b.1, a.1.1, c.1, d.1⟩, rfl, rfl⟩
  unfold sideOf
  by_cases h1 : vis.mem.location = .cpu
  · simp only [if_pos h1]
    split
    · next hd =>
      rw [hcpu _ _ h0]
      constructor
      · rintro ⟨⟨a, b, c, d⟩, e, f⟩
        exact ⟨h0, by simp, ⟨_, _, Or.inl ⟨rfl, rfl⟩, a, b, c, d⟩, e, f⟩
      · rintro ⟨-, -, ⟨td, tc, hp, a, b, c, d⟩, e, f⟩
        rcases types hp a b c d with ⟨-, rfl, rfl⟩ | ⟨hx, -⟩
        · exact ⟨⟨a, b, c, d⟩, e, f⟩
        · rw [hd.1] at hx; exact absurd hx.1 (by simp)
    · next hd =>
      split
      · next hf =>
        rw [hcpu _ _ h0]
        constructor
        · rintro ⟨⟨a, b, c, d⟩, e, f⟩
          exact ⟨h0, by simp, ⟨_, _, Or.inr ⟨rfl, rfl⟩, a, b, c, d⟩, e, f⟩
        · rintro ⟨-, -, ⟨td, tc, hp, a, b, c, d⟩, e, f⟩
          rcases types hp a b c d with ⟨hx, -⟩ | ⟨-, rfl, rfl⟩
          · exact absurd hx hd
          · exact ⟨⟨a, b, c, d⟩, e, f⟩
      · next hf =>
        simp only [Run.none, reduceCtorEq, false_iff]
        rintro ⟨-, -, ⟨td, tc, hp, a, b, c, d⟩, -⟩
        rcases types hp a b c d with ⟨hx, -⟩ | ⟨hx, -⟩
        · exact hd hx
        · exact hf hx
  · simp only [if_neg h1]
    split
    · next hd =>
      rw [hgpu _ _ h0]
      constructor
      · rintro ⟨hc, ⟨a, b, c, d⟩, e, f⟩
        exact ⟨h0, fun _ => hc, ⟨_, _, Or.inl ⟨rfl, rfl⟩, a, b, c, d⟩, e, f⟩
      · rintro ⟨-, hc, ⟨td, tc, hp, a, b, c, d⟩, e, f⟩
        rcases types hp a b c d with ⟨-, rfl, rfl⟩ | ⟨hx, -⟩
        · exact ⟨hc trivial, ⟨a, b, c, d⟩, e, f⟩
        · rw [hd.1] at hx; exact absurd hx.1 (by simp)
    · next hd =>
      split
      · next hf =>
        rw [hgpu _ _ h0]
        constructor
        · rintro ⟨hc, ⟨a, b, c, d⟩, e, f⟩
          exact ⟨h0, fun _ => hc, ⟨_, _, Or.inr ⟨rfl, rfl⟩, a, b, c, d⟩, e, f⟩
        · rintro ⟨-, hc, ⟨td, tc, hp, a, b, c, d⟩, e, f⟩
          rcases types hp a b c d with ⟨hx, -⟩ | ⟨-, rfl, rfl⟩
          · exact absurd hx hd
          · exact ⟨hc trivial, ⟨a, b, c, d⟩, e, f⟩
      · next hf =>
        simp only [Run.none, reduceCtorEq, false_iff]
        rintro ⟨-, -, ⟨td, tc, hp, a, b, c, d⟩, -⟩
        rcases types hp a b c d with ⟨hx, -⟩ | ⟨hx, -⟩
        · exact hd hx
        · exact hf hx

/-- **C111, refused transforms to an image** touch nothing. -/
theorem C111_idft_refused (cuda : Bool) (q : Coords) (vis : Data ℂ) (lmn : Data ℝ) (taper : Option (Data ℝ)) (im : Mem)
    (st : Sdp.Status) (h : (idftCall cuda q vis lmn taper im st).status ≠ .success) :
    (idftCall cuda q vis lmn taper im st).threads = [] := by
  have hk : ∀ td tu tv ti, (idftCpu td tu tv ti q vis lmn taper im st).status ≠ .success →
      (idftCpu td tu tv ti q vis lmn taper im st).threads = [] := by
    intro td tu tv ti
    unfold idftCpu
    simp only
    split
    · intro _; rfl
    · split
      · intro _; rfl
      · intro hh; exact absurd rfl hh
  have hg : ∀ td tu tv ti, (idftGpu cuda td tu tv ti q vis lmn taper im st).status ≠ .success →
      (idftGpu cuda td tu tv ti q vis lmn taper im st).threads = [] := by
    intro td tu tv ti
    unfold idftGpu
    simp only
    split
    · intro _; rfl
    · split
      · intro _; rfl
      · intro hh; exact absurd rfl hh
  revert h
  unfold idftCall
  simp only
  split
  · intro _; rfl
  · split
    · split
      · exact hk _ _ _ _
      · split
        · exact hk _ _ _ _
        · intro _; rfl
    · split
      · exact hg _ _ _ _
      · split
        · exact hg _ _ _ _
        · intro _; rfl

/-- **C111, errors of the whole calls.**  A call that reports an error, in particular one made after an error, has left the
caller's array alone. -/
theorem C111_direct_refused (cuda : Bool) (pl : Plan) (q : Coords) (st : Sdp.Status) :
    (∀ im vis run, degridCall cuda pl im q vis st = some run → run.status ≠ .success → run.threads = []) ∧
    (∀ vis im run, gridCall cuda pl vis q im st = some run → run.status ≠ .success → run.threads = []) ∧
    (st ≠ .success → (∀ im vis, degridCall cuda pl im q vis st = some (Run.none st)) ∧
      ∀ vis im, gridCall cuda pl vis q im st = some (Run.none st)) := by
  refine ⟨fun im vis run h hs => ?_, fun vis im run h hs => ?_, fun h => ⟨fun im vis => ?_, fun vis im => ?_⟩⟩
  · unfold degridCall at h
    split at h
    · rw [← Option.some.inj h]; rfl
    · obtain ⟨num, -, h⟩ := Option.bind_eq_some_iff.1 h
      obtain ⟨r, -, h⟩ := Option.map_eq_some_iff.1 h
      rw [← h] at hs ⊢
      exact C111_dft_refused _ _ _ _ _ hs
  · unfold gridCall at h
    split at h
    · rw [← Option.some.inj h]; rfl
    · obtain ⟨r, -, h⟩ := Option.map_eq_some_iff.1 h
      rw [← h] at hs ⊢
      exact C111_idft_refused _ _ _ _ _ _ _ hs
  · unfold degridCall
    rw [if_pos h]
  · unfold gridCall
    rw [if_pos h]

/-- **C111, counting**: exactly images of the four types in two dimensions in CPU memory are counted; other calls report an
error and 0. -/
theorem C111_count_refused (im : Data ℂ) (st : Sdp.Status) (h : ¬ (st = .success ∧ isImage im.mem.type ∧ im.mem.numDims = 2 ∧
    im.mem.location = .cpu)) : ∃ s, s ≠ Sdp.Status.success ∧ countCall im st = some (0, s) := by
  unfold countCall
  by_cases h0 : st = .success
  swap
  · rw [if_pos h0]; exact ⟨st, h0, rfl⟩
  rw [if_neg (by simp [h0])]
  by_cases h1 : isImage im.mem.type
  · rw [if_pos h1]
    have h2 : (checkAndViewConst im.mem im.mem.type 2 .cpu st).2 ≠ .success := by
      intro hs
      rw [reads_iff] at hs
      exact h ⟨hs.1, h1, by exact_mod_cast hs.2.2.1, hs.2.2.2⟩
    simp only
    rw [if_pos h2]
    exact ⟨_, h2, rfl⟩
  · rw [if_neg h1]
    exact ⟨_, by simp, rfl⟩

/-! ## What is never accepted -/

/-- `image_to_flmn` succeeds only with coordinates in CPU memory that can be changed. -/
theorem flmn_lmn (g : Geo) (im : Data ℂ) (taper fx : Option (Data ℝ)) (lmn : Data ℝ) (st : Sdp.Status)
    (r : Sdp.Status × Arr ℝ × Arr ℝ) (h : flmnCall g im taper fx lmn st = some r) (hs : r.1 = .success) :
    st = .success ∧ Writes lmn.mem lmn.mem.type 2 .cpu := by
  unfold flmnCall at h
  simp only at h
  split at h
  · next h0 =>
    have := Option.some.inj h
    rw [← this] at hs
    exact absurd hs h0
  · next h0 =>
    split at h
    · split at h
      · next h1 =>
        have := Option.some.inj h
        rw [← this] at hs
        exact absurd hs h1
      · next h1 =>
        rw [not_not, taper_iff, writes_iff] at h1
        exact h1.1
    · have := Option.some.inj h
      rw [← this] at hs
      cases hs

/-- **C111, refused conversions.**  After an error, for types without a conversion, or if the coordinates or the window are
refused, the call reports an error and changes nothing. -/
theorem C111_flmn_refused_partial (g : Geo) (im : Data ℂ) (taper fx : Option (Data ℝ)) (lmn : Data ℝ) (st : Sdp.Status)
    (h : ¬ (st = .success ∧ flmnTypes im.mem.type (fx.elim .double fun f => f.mem.type) lmn.mem.type ∧
      Writes lmn.mem lmn.mem.type 2 .cpu ∧ ∀ t, taper = some t → Reads t.mem .double 1 .cpu)) :
    ∃ s, s ≠ Sdp.Status.success ∧ flmnCall g im taper fx lmn st = some (s, fx.elim ⟨0, fun _ => 0⟩ Data.buf, lmn.buf) := by
  unfold flmnCall
  simp only
  split
  · next h0 => exact ⟨st, h0, rfl⟩
  · next h0 =>
    split
    · next h1 =>
      split
      · next h2 => exact ⟨_, h2, rfl⟩
      · next h2 =>
        rw [not_not, taper_iff, writes_iff] at h2
        exact absurd ⟨h2.1.1, h1, h2.1.2, h2.2⟩ h
    · exact ⟨_, by simp, rfl⟩

/-- Single precision data can be gridded (`C111_grid_partial`) but not degridded: whatever the image, a call with coordinates
of type `float` does not succeed, because `sdp_gridder_dft` takes the type of the coordinates for that of the fluxes. -/
theorem C111_degrid_float_false (cuda : Bool) (pl : Plan) (im : Data ℂ) (q : Coords) (vis : Mem)
    (hq : q.uvw.mem.type = .float) (st : Sdp.Status) (run : Run ℂ) (h : degridCall cuda pl im q vis st = some run) :
    run.status ≠ .success ∧ run.threads = [] := by
  have hs : run.status ≠ .success := by
    unfold degridCall at h
    split at h
    · next h0 => rw [← Option.some.inj h]; exact h0
    · obtain ⟨num, -, h⟩ := Option.bind_eq_some_iff.1 h
      obtain ⟨r, -, h⟩ := Option.map_eq_some_iff.1 h
      rw [← h]
      intro hs
      rw [C111_dft_accepts] at hs
      have h2 : q.uvw.mem.type = .double := hs.2.2.2.1.1
      rw [hq] at h2
      cases h2
  exact ⟨hs, (C111_direct_refused cuda pl q st).1 im vis run h hs⟩

theorem newArray_loc (cuda : Bool) (t : MemType) (l : MemLocation) (s : List Int) (st : Sdp.Status) :
    (newArray cuda t l s st).1.mem.location = l ∧ (newArray cuda t l s st).1.mem.type = t := by
  have hw : ∀ x, (createWrapper none t l s none x).1.location = l ∧ (createWrapper none t l s none x).1.type = t := by
    intro x
    unfold createWrapper
    simp only
    split
    · exact ⟨rfl, rfl⟩
    · split
      · exact ⟨rfl, rfl⟩
      · split
        · exact ⟨rfl, rfl⟩
        · exact ⟨rfl, rfl⟩
  unfold newArray
  simp only
  split
  · exact hw st
  · split
    · exact hw st
    · exact hw st

/-- Neither direction works on visibilities in GPU memory: a call that ends reports an error and has changed nothing. -/
theorem C111_gpu_refused (cuda : Bool) (pl : Plan) (q : Coords) (st : Sdp.Status) (run : Run ℂ) :
    (∀ im vis, vis.location ≠ .cpu → degridCall cuda pl im q vis st = some run → run.status ≠ .success ∧ run.threads = []) ∧
    (∀ vis im, vis.mem.location ≠ .cpu → gridCall cuda pl vis q im st = some run → run.status ≠ .success ∧ run.threads = []) := by
  refine ⟨fun im vis hl h => ?_, fun vis im hl h => ?_⟩
  · have hs : run.status ≠ .success := by
      have h' := h
      unfold degridCall at h'
      split at h'
      · next h0 => rw [← Option.some.inj h']; exact h0
      · obtain ⟨num, -, h'⟩ := Option.bind_eq_some_iff.1 h'
        obtain ⟨r, -, h'⟩ := Option.map_eq_some_iff.1 h'
        rw [← h']
        intro hs
        rw [C111_dft_accepts] at hs
        exact hl hs.2.1.1.2.2
    exact ⟨hs, (C111_direct_refused cuda pl q st).1 im vis run h hs⟩
  · have hs : run.status ≠ .success := by
      have h' := h
      unfold gridCall at h'
      split at h'
      · next h0 => rw [← Option.some.inj h']; exact h0
      · obtain ⟨r, hr, h'⟩ := Option.map_eq_some_iff.1 h'
        rw [← h']
        intro hs
        rw [C111_idft_accepts] at hs
        obtain ⟨-, hw⟩ := flmn_lmn _ _ _ _ _ _ _ hr hs.1
        exact hl ((newArray_loc _ _ _ _ _).1.symm.trans hw.1.2.2)
    exact ⟨hs, (C111_direct_refused cuda pl q st).2.1 vis im run h hs⟩

/-- An image of zeros should degrid to nothing; instead the call fails, because the internal arrays without elements count as
read-only. -/
theorem C111_degrid_zero_false (cuda : Bool) (pl : Plan) (im : Data ℂ) (q : Coords) (vis : Mem) {P : Places} {n : Nat}
    (hit : isImage im.mem.type) (hic : im.mem.location = .cpu) (hi : Plane im.mem im.buf.size n n P.image)
    (hz : ∀ a b, a < n → b < n → im.buf.get (P.image a b) = 0) :
    ∃ run, degridCall cuda pl im q vis .success = some run ∧ run.status ≠ .success ∧ run.threads = [] := by
  classical
  have hb : (bright im.buf P n n).length = 0 := by
    unfold bright
    rw [List.length_eq_zero_iff, List.filter_eq_nil_iff]
    intro p hp
    have := hz p.1 p.2 (mem_nest2.1 hp).1 (mem_nest2.1 hp).2
    simpa using this
  have hn : ∀ x, (createWrapper none q.uvw.mem.type vis.location [((0 : Nat) : Int), 3] none x).1.numElements = 0 ∧
      (createWrapper none q.uvw.mem.type vis.location [((0 : Nat) : Int), 3] none x).1.data = none := by
    intro x
    unfold createWrapper
    simp only
    split
    · exact ⟨rfl, rfl⟩
    · split
      · exact ⟨rfl, rfl⟩
      · split
        · next hx => cases hx
        · exact ⟨by simp [numElementsLoop], rfl⟩
  have hd : ∀ x, (newArray cuda q.uvw.mem.type vis.location [((0 : Nat) : Int), 3] x).1.mem.data = none := by
    intro x
    unfold newArray
    simp only
    rw [if_pos (Or.inr (by rw [(hn _).1, Int.zero_mul]))]
    exact (hn _).2
  have hrun : ∃ run, degridCall cuda pl im q vis .success = some run ∧ run.status ≠ .success := by
    unfold degridCall
    rw [if_neg (by simp), C111_count_partial (P := P) hit hic hi, hb]
    simp only [Option.bind_some]
    generalize (newArray cuda .double vis.location [((0 : Nat) : Int)] .success) = fx
    obtain ⟨s, h1, h2⟩ := C111_flmn_refused_partial pl.geo im (some pl.pswf) (some fx.1)
      (newArray cuda q.uvw.mem.type vis.location [((0 : Nat) : Int), 3] fx.2).1
      (newArray cuda q.uvw.mem.type vis.location [((0 : Nat) : Int), 3] fx.2).2 (by
        rintro ⟨-, -, h, -⟩
        exact h.2.1 (hd _))
    rw [h2]
    refine ⟨_, rfl, ?_⟩
    intro hs
    rw [C111_dft_accepts] at hs
    exact h1 hs.1
  obtain ⟨run, h1, h2⟩ := hrun
  exact ⟨run, h1, h2, (C111_direct_refused cuda pl q .success).1 im vis run h1 h2⟩

end Sdp.Direct
