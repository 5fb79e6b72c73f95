import Mathlib.Tactic.LinearCombination
import Mathlib.Tactic.FieldSimp
import Verif.FftConv.CallProps
import Verif.Hogbom.Call
import Verif.Hogbom.CallSpec
import Verif.Hogbom.Props2
import Verif.Hogbom.GpuProps

/-!
# C97: whole calls of the Högbom CLEAN

The sky model is the residual plus every component replaced by the clean beam.
-/

namespace Sdp.Hogbom
open Sdp.FftConv
noncomputable section

/-! ## The clean beam -/

theorem component_eq (sx sy rot : ℝ) (hx : sx ≠ 0) (hy : sy ≠ 0) (n x y : Nat) :
    component sx sy rot n x y =
      gauss sx sy rot (((x : Int) - (n / 2 : Nat) : Int) : ℝ) (((y : Int) - (n / 2 : Nat) : Int) : ℝ) := by
  unfold component gauss beamA beamB beamC
  simp only [one_mul]
  generalize (((x : Int) - (n / 2 : Nat) : Int) : ℝ) = u
  generalize (((y : Int) - (n / 2 : Nat) : Int) : ℝ) = v
  generalize Real.pi / 180 * rot = th
  congr 1
  rw [Real.sin_two_mul]
  field_simp
  ring

theorem createBeam_spec (det : Arr ℝ) (hd : det.size = 4) (n : Nat) (hx : det.get 0 ≠ 0) (hy : det.get 1 ≠ 0) :
    ∃ b, createBeam det n (zeros n) = some b ∧ b.size = n * n ∧
      ∀ x < n, ∀ y < n, b.get (n * x + y) = ((gauss (det.get 0) (det.get 1) (det.get 2)
        (((x : Int) - (n / 2 : Nat) : Int) : ℝ) (((y : Int) - (n / 2 : Nat) : Int) : ℝ) : ℝ) : ℂ) := by
  have e0 : det.read 0 = some (det.get 0) := by
    have := Arr.read_nat det 0; rw [if_pos (by omega)] at this; exact this
  have e1 : det.read 1 = some (det.get 1) := by
    have := Arr.read_nat det 1; rw [if_pos (by omega)] at this; exact this
  have e2 : det.read 2 = some (det.get 2) := by
    have := Arr.read_nat det 2; rw [if_pos (by omega)] at this; exact this
  unfold createBeam
  rw [e0, e1, e2]
  simp only [Option.bind_some]
  have hix : ∀ p : Nat × Nat, index2 n p.1 p.2 = ((n * p.1 + p.2 : Nat) : Int) := by
    intro p; simp [index2]
  obtain ⟨r, h1, h2, h3, -⟩ := Arr.store_spec (nest2 n n) (fun p : Nat × Nat => index2 n p.1 p.2)
    (fun p => ((component (det.get 0) (det.get 1) (det.get 2) n p.1 p.2 : ℝ) : ℂ)) (by
      refine List.Nodup.map_on ?_ (nest2_nodup n n)
      rintro ⟨i, j⟩ h ⟨i', j'⟩ h' hh
      have h := mem_nest2.1 h
      have h' := mem_nest2.1 h'
      have hh : ((n * i + j : Nat) : Int) = ((n * i' + j' : Nat) : Int) := by
        rw [← hix (i, j), ← hix (i', j')]; exact hh
      have := flat_inj (b := n) (i := i) (j := j) (i' := i') (j' := j') h.2 h'.2 (by exact_mod_cast hh)
      exact Prod.ext this.1 this.2) (zeros n) (by
      intro p hp
      have hp := mem_nest2.1 hp
      have := flat_lt hp.1 hp.2
      rw [hix p]
      simp only [zeros]
      omega)
  refine ⟨r, h1, h2, fun x hx' y hy' => ?_⟩
  have := h3 (x, y) (mem_nest2.2 ⟨hx', hy'⟩)
  rw [hix (x, y), Int.toNat_natCast] at this
  rw [this, component_eq _ _ _ hx hy]

theorem beam_yields (sx sy rot : ℝ) (hx : sx ≠ 0) (hy : sy ≠ 0) (n : Nat) (hn : 1 ≤ n) :
    ∃ b, Race.Yields (beamAtThread sx sy rot n) (List.range (threads (n * n))) (zeros n) b ∧ b.size = n * n ∧
      ∀ x < n, ∀ y < n, b.get (n * x + y) = ((gauss sx sy rot
        (((x : Int) - (n / 2 : Nat) : Int) : ℝ) (((y : Int) - (n / 2 : Nat) : Int) : ℝ) : ℝ) : ℂ) := by
  obtain ⟨r, h1, h2, h3, -⟩ := Race.yields_store (beamAtThread sx sy rot n) (List.range (threads (n * n)))
    (fun i => i < n * n) id (fun i => ((component sx sy rot n (i / n) (i % n) : ℝ) : ℂ))
    (fun i _ hi => by unfold beamAtThread; rw [if_pos hi]; rfl)
    (fun i _ hi => by unfold beamAtThread; rw [if_neg hi]) (zeros n) (fun i _ hi => by simp only [id, zeros]; omega)
    (fun i _ j _ _ _ e => e)
  refine ⟨r, h1, h2, fun x hx' y hy' => ?_⟩
  have hlt := flat_lt hx' hy'
  have := h3 (n * x + y) (List.mem_range.2 (lt_of_lt_of_le hlt (le_threads _))) hlt
  simp only [id] at this
  rw [this, component_eq _ _ _ hx hy]
  have e1 : (n * x + y) / n = x := by
    rw [Nat.mul_add_div (by omega), Nat.div_eq_of_lt hy', Nat.add_zero]
  have e2 : (n * x + y) % n = y := by rw [Nat.mul_add_mod, Nat.mod_eq_of_lt hy']
  rw [e1, e2]

/-! ## Restoration -/

/-- Real part of the convolution with the beam. -/
theorem restored_of_conv {D n : Nat} (hn : 1 ≤ n) {sx sy rot : ℝ} {comps : Arr ℝ} {beam r : Arr ℂ}
    (hb : ∀ x < n, ∀ y < n, beam.get (n * x + y) = ((gauss sx sy rot
        (((x : Int) - (n / 2 : Nat) : Int) : ℝ) (((y : Int) - (n / 2 : Nat) : Int) : ℝ) : ℝ) : ℂ))
    (h : IsConv D n (complexOf comps) beam (zeros D) r) : ∀ i < D, ∀ j < D, (realOf r).get (D * i + j) =
      restored D n sx sy rot (((n / 2 : Nat) : Int) - ((n - 1) / 2 : Nat)) comps.get i j := by
  intro i hi j hj
  have e := h.2.1 i hi j hj
  unfold realOf
  simp only
  rw [Nat.mul_comm D i, e]
  unfold linConv restored
  rw [Complex.re_sum]
  refine Finset.sum_congr rfl fun s _ => ?_
  rw [Complex.re_sum]
  refine Finset.sum_congr rfl fun t _ => ?_
  unfold complexOf at0 stamp
  simp only
  rw [Nat.mul_comm s D, Complex.re_ofReal_mul]
  congr 1
  by_cases c : -((n / 2 : Nat) : Int) ≤ (i : Int) - s - (((n / 2 : Nat) : Int) - ((n - 1) / 2 : Nat)) ∧
      (i : Int) - s - (((n / 2 : Nat) : Int) - ((n - 1) / 2 : Nat)) < n - ((n / 2 : Nat) : Int) ∧
      -((n / 2 : Nat) : Int) ≤ (j : Int) - t - (((n / 2 : Nat) : Int) - ((n - 1) / 2 : Nat)) ∧
      (j : Int) - t - (((n / 2 : Nat) : Int) - ((n - 1) / 2 : Nat)) < n - ((n / 2 : Nat) : Int)
  · rw [if_pos c, if_pos (by omega)]
    obtain ⟨x, hx⟩ : ∃ x : Nat, (i : Int) + ((n - 1) / 2 : Nat) - s = x := ⟨_, (Int.toNat_of_nonneg (by omega)).symm⟩
    obtain ⟨y, hy⟩ : ∃ y : Nat, (j : Int) + ((n - 1) / 2 : Nat) - t = y := ⟨_, (Int.toNat_of_nonneg (by omega)).symm⟩
    rw [hx, hy, Int.toNat_natCast, Int.toNat_natCast, Nat.mul_comm x n, hb x (by omega) y (by omega), Complex.ofReal_re]
    have f1 : (i : Int) - s - (((n / 2 : Nat) : Int) - ((n - 1) / 2 : Nat)) = (x : Int) - (n / 2 : Nat) := by omega
    have f2 : (j : Int) - t - (((n / 2 : Nat) : Int) - ((n - 1) / 2 : Nat)) = (y : Int) - (n / 2 : Nat) := by omega
    rw [f1, f2]
  · rw [if_neg c, if_neg (by omega), Complex.zero_re]

theorem then_exists {α β : Type} {R : Option α → Prop} {k : α → Option β → Prop} (hR : ∃ x, R x)
    (hk : ∀ a, ∃ x, k a x) : ∃ x, Race.Then R k x := by
  obtain ⟨x, hx⟩ := hR
  cases x with
  | none => exact ⟨none, .inl ⟨hx, rfl⟩⟩
  | some a =>
    obtain ⟨y, hy⟩ := hk a
    exact ⟨y, .inr ⟨a, hx, hy⟩⟩

/-- The convolution always has some outcome. -/
theorem convGpu_exists (in1 in2 : Arr ℂ) (n1 n2 : Nat) (out : Arr ℂ) : ∃ x, ConvGpu in1 in2 n1 n2 out x := by
  have d1 : ∀ m, (threads1 m).Nodup := fun m => List.nodup_range
  have d2 : ∀ m, (threads2 m).Nodup := fun m => nest2_nodup _ _
  unfold ConvGpu
  exact then_exists (Race.Launch.exists _ _ (d2 _) _) fun _ => then_exists (Race.Launch.exists _ _ (d2 _) _) fun _ =>
    then_exists (Race.Launch.exists _ _ (d1 _) _) fun _ => then_exists (Race.Launch.exists _ _ (d1 _) _) fun _ =>
    then_exists (Race.Launch.exists _ _ (d2 _) _) fun _ => Race.Launch.exists _ _ (d2 _) _

/-! ## Whole calls -/

/-- What the caller passes: a square dirty image of side `D` and a PSF of side `2D`, outputs of the image's
shape, all of one real type and in memory `loc`, four beam parameters on the host (standard deviations that
are not 0, and a beam size of `n` pixels that fits `int16_t`), and a writable sky model. -/
structure CleanArgs (loc : MemLocation) (dm pm bm mm rm sm : Mem) (D n : Nat) (dirty psf det : Arr ℝ)
    (o : Out ℝ) : Prop where
  pos : 1 ≤ D
  dshape : HasShape dm [D, D]
  pshape : HasShape pm [2 * D, 2 * D]
  bshape : HasShape bm [4]
  mshape : HasShape mm [D, D]
  rshape : HasShape rm [D, D]
  sshape : HasShape sm [D, D]
  ddata : Holds dm dirty
  pdata : Holds pm psf
  bdata : Holds bm det
  mdata : Holds mm o.model
  rdata : Holds rm o.res
  sdata : Holds sm o.sky
  dloc : dm.location = loc
  ploc : pm.location = loc
  bloc : bm.location = .cpu
  mloc : mm.location = loc
  rloc : rm.location = loc
  sloc : sm.location = loc
  dtype : dm.type = .double ∨ dm.type = .float
  ptype : pm.type = dm.type
  stype : sm.type = dm.type
  writable : sm.data ≠ none ∧ sm.isReadOnly = false
  widths : det.get 0 ≠ 0 ∧ det.get 1 ≠ 0
  beam : trunc (det.get 3) = n ∧ 1 ≤ n ∧ n ≤ 32767

/-- What the outputs are after a CLEAN of at most `limit` minor cycles whose components are restored with a beam
centred `d` pixels beyond them along both axes. -/
structure Cleaned (D n limit : Nat) (d : Int) (det : Arr ℝ) (gain thr : ℝ) (dirty psf : Nat → ℝ)
    (out : Out ℝ) : Prop where
  cycles : ∃ k ≤ limit, Minors psf D gain thr k dirty (fun _ => 0) out.res.get out.model.get ∧
    (k < limit → ∀ p < D * D, out.res.get p < thr)
  flux : ∀ i < D, ∀ j < D, out.res.get (D * i + j) + modelAt psf out.model.get D i j = dirty (D * i + j)
  sky : ∀ i < D, ∀ j < D, out.sky.get (D * i + j) = out.res.get (D * i + j) +
    restored D n (det.get 0) (det.get 1) (det.get 2) d out.model.get i j

theorem minors_congr_right {F : Type} [Field F] [LinearOrder F] {psf : Nat → F} {D : Nat} {gain thr : F} {k : Nat}
    {r c r' c' : Nat → F}
    (h : Minors psf D gain thr k r c r' c') (q : Nat → F) (hq : ∀ p < D * D, q p = c' p) :
    Minors psf D gain thr k r c r' q := by
  induction h with
  | nil hr hc => exact .nil hr fun p hp => by rw [hq p hp, hc p hp]
  | cons hm _ ih => exact .cons hm (ih hq)

theorem restored_congr {D n : Nat} {sx sy rot : ℝ} {d : Int} {m m' : Nat → ℝ} (h : ∀ p < D * D, m p = m' p)
    (i j : Nat) : restored D n sx sy rot d m i j = restored D n sx sy rot d m' i j := by
  unfold restored
  refine Finset.sum_congr rfl fun s hs => Finset.sum_congr rfl fun t ht => ?_
  rw [h _ (flat_lt (Finset.mem_range.1 hs) (Finset.mem_range.1 ht))]

theorem square_size {α : Type} {m : Mem} {n : Nat} {a : Arr α} (h : Holds m a)
    (hs : HasShape m [(n : Int), (n : Int)]) : a.size = n * n := by
  have := (h.of_shape hs).2
  simp at this
  exact_mod_cast this

section
variable {loc : MemLocation} {dm pm bm mm rm sm : Mem} {D n : Nat} {dirty psf det : Arr ℝ} {o : Out ℝ}

theorem CleanArgs.detSize (h : CleanArgs loc dm pm bm mm rm sm D n dirty psf det o) : det.size = 4 := by
  have := (h.bdata.of_shape h.bshape).2
  simp at this
  exact_mod_cast this

theorem CleanArgs.psfSize (h : CleanArgs loc dm pm bm mm rm sm D n dirty psf det o) :
    psf.size = (2 * D) * (2 * D) := by
  have := square_size (n := 2 * D) h.pdata (by push_cast; exact h.pshape)
  exact this

theorem CleanArgs.check (h : CleanArgs loc dm pm bm mm rm sm D n dirty psf det o) {gain : ℝ} (hg : 0 < gain)
    {limit : Int} (hl : 1 ≤ limit) : checkClean dm pm bm mm rm sm gain limit .success = .success := by
  have d1 := shapeDim_of h.dshape
  have d2 := shapeDim_of h.pshape
  have d3 := shapeDim_of h.mshape
  have d4 := shapeDim_of h.rshape
  have d5 := shapeDim_of h.sshape
  have d6 : bm.shapeDim 0 = 4 := by
    have s0 := shapeDim_lt bm 0 (by rw [h.bshape.1]; simp)
    have e0 := h.bshape.2 0 (by simp)
    simp only [Nat.cast_zero] at s0
    rw [s0]
    exact e0
  unfold checkClean
  rw [if_neg (by simp), if_neg (by rw [not_or]; exact ⟨h.writable.1, by rw [h.writable.2]; simp⟩),
    if_neg (by rw [h.dloc, h.sloc]; simp), if_neg (by rw [h.ptype]; simp), if_neg (by rw [h.stype]; simp),
    if_neg (by rw [d3.1, d1.1]; simp), if_neg (by rw [d4.1, d1.1]; simp), if_neg (by rw [d5.1, d1.1]; simp),
    if_neg (by rw [d6]; simp), if_neg (by rw [d1.1, d1.2]; simp), if_neg (by rw [d2.1, d2.2]; simp),
    if_neg (by rw [d2.1, d1.1]; omega), if_neg (by omega), if_neg (not_le.2 hg)]

/-- A call on the CPU, once its arguments pass the checks. -/
theorem CleanArgs.cpu (h : CleanArgs .cpu dm pm bm mm rm sm D n dirty psf det o) {gain : ℝ} (hg : 0 < gain)
    {limit : Int} (hl : 1 ≤ limit) (thr : ℝ) (cuda : Bool) (last : Arr (Cell ℝ) → Arr (Cell ℝ) → Prop)
    (r : Option (Status × Out ℝ)) :
    CleanCall cuda last dm pm bm mm rm sm .success dirty psf det gain thr limit o r ↔
      ∃ o1 o2 : List Nat, o1.Perm (List.range (padDim D n)) ∧ o2.Perm (List.range (padDim D n)) ∧
        r = ((copyN dirty (D * D) o.res).bind fun res0 => (createBeam det n (zeros n)).bind fun beam =>
          cleanCpu (restoreCpu o1 o2 beam D n) psf D (2 * D) gain thr limit.toNat ⟨o.model, res0, o.sky⟩).map
            fun x => (.success, x) := by
  have d1 := (shapeDim_of h.dshape).1
  have d2 := (shapeDim_of h.pshape).1
  obtain ⟨res0, c1, -, -⟩ := copyN_spec dirty o.res (D * D) (square_size h.ddata h.dshape).ge
    (square_size h.rdata h.rshape).ge
  have e3 : det.read 3 = some (det.get 3) := by
    have := Arr.read_nat det 3; rw [if_pos (by rw [h.detSize]; omega)] at this; exact this
  have hP : ((2 * D : Int)).toNat = 2 * D := by omega
  have run : ∀ r', CpuRun dirty psf det D (2 * D) gain thr limit.toNat o r' ↔
      ∃ o1 o2 : List Nat, o1.Perm (List.range (padDim D n)) ∧ o2.Perm (List.range (padDim D n)) ∧
        r' = (createBeam det n (zeros n)).bind fun beam =>
          cleanCpu (restoreCpu o1 o2 beam D n) psf D (2 * D) gain thr limit.toNat ⟨o.model, res0, o.sky⟩ := by
    intro r'
    unfold CpuRun
    have b1 := h.beam.2.1
    have b2 := h.beam.2.2
    simp only [c1, e3, h.beam.1]
    rw [if_neg (by omega), if_neg (by omega), Int.toNat_natCast]
  unfold CleanCall
  simp only [h.check hg hl, d1, d2, Int.toNat_natCast, hP, h.dloc, onHost, h.ploc, h.bloc, h.mloc, h.rloc, if_true]
  rw [if_neg (by simp), if_pos h.dtype, c1]
  simp only [Option.bind_some]
  constructor
  · rintro ⟨r', hr, rfl⟩
    obtain ⟨o1, o2, p1, p2, rfl⟩ := (run r').1 hr
    exact ⟨o1, o2, p1, p2, rfl⟩
  · rintro ⟨o1, o2, p1, p2, rfl⟩
    exact ⟨_, (run _).2 ⟨o1, o2, p1, p2, rfl⟩, rfl⟩

/-- The loop and the restoration with a convolution that accepts the component image. -/
theorem CleanArgs.loop (h : CleanArgs .cpu dm pm bm mm rm sm D n dirty psf det o) {gain : ℝ} (hg : 0 < gain)
    {limit : Int} (hl : 1 ≤ limit) (thr : ℝ) (conv : Arr ℝ → Option (Arr ℝ))
    (hc : ∀ c : Arr ℝ, c.size = D * D → ∃ r, conv c = some r ∧ r.size = D * D) :
    ∃ (out : Out ℝ) (k : Nat) (comps cc : Arr ℝ), ((copyN dirty (D * D) o.res).bind fun res0 =>
        cleanCpu conv psf D (2 * D) gain thr limit.toNat ⟨o.model, res0, o.sky⟩) = some out ∧
      (k : Int) ≤ limit ∧ comps.size = D * D ∧ conv comps = some cc ∧
      Minors psf.get D gain thr k dirty.get (fun _ => 0) out.res.get comps.get ∧
      ((k : Int) < limit → ∀ p < D * D, out.res.get p < thr) ∧
      (∀ p < D * D, out.model.get p = comps.get p) ∧
      (∀ p < D * D, out.sky.get p = cc.get p + out.res.get p) := by
  have g : Good conv ⟨D, D, dirty⟩ ⟨2 * D, 2 * D, psf⟩ ⟨D, D, o.model⟩ ⟨D, D, o.res⟩ ⟨D, D, o.sky⟩ :=
    ⟨h.pos, rfl, square_size h.ddata h.dshape, rfl, rfl, h.psfSize, rfl, square_size h.mdata h.mshape, rfl,
      square_size h.rdata h.rshape, rfl, square_size h.sdata h.sshape, hc⟩
  obtain ⟨out, k, comps, cc, q1, q2, q3, q4, q5, q6, q7, q8⟩ := clean_spec g gain thr limit hg hl
  refine ⟨out, k, comps, cc, ?_, q2, q3, q4, q5, q6, q7, q8⟩
  unfold clean at q1
  simp only at q1
  rw [if_neg (by simp), if_neg (by simp), if_neg (by simp), if_neg (by simp), if_neg (by simp),
    if_neg (by omega), if_neg (by omega), if_neg (not_le.2 hg)] at q1
  split at q1
  · cases q1
  · rename_i x hx
    cases q1
    exact hx

/-- The outputs, if the convolution is the linear one. -/
theorem CleanArgs.cleaned (h : CleanArgs .cpu dm pm bm mm rm sm D n dirty psf det o) {gain : ℝ} (hg : 0 < gain)
    {limit : Int} (hl : 1 ≤ limit) (thr : ℝ) (f : Arr ℂ → Arr ℂ → Option (Arr ℂ))
    (hf : ∀ a b : Arr ℂ, a.size = D * D → b.size = n * n → ∃ r, f a b = some r ∧ IsConv D n a b (zeros D) r) :
    ∃ out, ((copyN dirty (D * D) o.res).bind fun res0 => (createBeam det n (zeros n)).bind fun beam =>
        cleanCpu (fun c => (f (complexOf c) beam).map realOf) psf D (2 * D) gain thr limit.toNat
          ⟨o.model, res0, o.sky⟩) = some out ∧
      Cleaned D n limit.toNat (((n / 2 : Nat) : Int) - ((n - 1) / 2 : Nat)) det gain thr dirty.get psf.get out := by
  obtain ⟨beam, b1, b2, b3⟩ := createBeam_spec det h.detSize n h.widths.1 h.widths.2
  simp only [b1, Option.bind_some]
  obtain ⟨out, k, comps, cc, q1, q2, q3, q4, q5, q6, q7, q8⟩ := h.loop hg hl thr
    (fun c => (f (complexOf c) beam).map realOf) (fun c hc => by
      obtain ⟨r, r1, r2⟩ := hf (complexOf c) beam hc b2
      exact ⟨realOf r, by rw [r1]; rfl, r2.1⟩)
  refine ⟨out, q1, ⟨k, by omega, minors_congr_right q5 _ q7, fun hk => q6 (by omega)⟩, ?_, ?_⟩
  · intro i hi j hj
    have := minors_flux (minors_congr_right q5 out.model.get q7) i hi j hj
    rw [this]
    unfold modelAt
    simp
  · intro i hi j hj
    obtain ⟨r, r1, r2⟩ := hf (complexOf comps) beam q3 b2
    rw [q8 _ (flat_lt hi hj), restored_congr q7, add_comm]
    congr 1
    simp only [r1, Option.map_some, Option.some.injEq] at q4
    rw [← q4]
    exact restored_of_conv h.beam.2.1 b3 r2 i hi j hj

end

/-- **C97** (CPU; image and beam of even sides).  Every call succeeds, whatever the order of the loops of the
transforms.  At most `limit` minor cycles take place, residual plus the model convolved with the PSF is the
dirty image, and the sky model is the residual plus the clean beam times each component - but *centred one pixel
beyond it along both axes* (`C97_shift_false`).  Missing: a beam centred on the component; odd sides
(`C97_odd_image_false`, `C97_odd_beam_false`). -/
theorem C97_cpu_partial (cuda : Bool) (last : Arr (Cell ℝ) → Arr (Cell ℝ) → Prop) (dm pm bm mm rm sm : Mem)
    (D n : Nat) (dirty psf det : Arr ℝ) (o : Out ℝ) (gain thr : ℝ) (limit : Int)
    (h : CleanArgs .cpu dm pm bm mm rm sm D n dirty psf det o) (hD : D % 2 = 0) (hn : n % 2 = 0) (hg : 0 < gain)
    (hl : 1 ≤ limit) :
    (∃ r, CleanCall cuda last dm pm bm mm rm sm .success dirty psf det gain thr limit o r) ∧
    ∀ r, CleanCall cuda last dm pm bm mm rm sm .success dirty psf det gain thr limit o r →
      ∃ out, r = some (.success, out) ∧ Cleaned D n limit.toNat 1 det gain thr dirty.get psf.get out := by
  have key := h.cpu hg hl thr cuda last
  refine ⟨⟨_, (key _).2 ⟨_, _, List.Perm.refl _, List.Perm.refl _, rfl⟩⟩, fun r hr => ?_⟩
  obtain ⟨o1, o2, p1, p2, rfl⟩ := (key r).1 hr
  have hp := h.pos
  have hb := h.beam.2.1
  obtain ⟨out, q1, q2⟩ := h.cleaned hg hl thr (fun a b => convolve o1 o2 a b D n (zeros D)) (by
    intro a b ha hb'
    obtain ⟨r, r1, r2, r3, r4⟩ := C25_fft_convolution_partial o1 o2 D n p1 p2 (by omega) (by omega) hD hn a b
      (zeros D) ha hb' (by simp [zeros])
    refine ⟨r, r1, r2, fun i hi j hj => ?_, r4⟩
    rw [r3 i hi j hj]
    have e : ((n / 2 : Nat) : Int) - 1 = (((n - 1) / 2 : Nat) : Int) := by omega
    rw [e])
  refine ⟨out, ?_, ?_⟩
  · have : (fun c => restoreCpu o1 o2 c D n) = fun beam c =>
        (convolve o1 o2 (complexOf c) beam D n (zeros D)).map realOf := rfl
    show Option.map _ ((copyN dirty (D * D) o.res).bind fun res0 => (createBeam det n (zeros n)).bind fun beam =>
        cleanCpu (fun c => (convolve o1 o2 (complexOf c) beam D n (zeros D)).map realOf) psf D (2 * D) gain thr
          limit.toNat ⟨o.model, res0, o.sky⟩) = _
    rw [q1]
    rfl
  · have e : ((n / 2 : Nat) : Int) - ((n - 1) / 2 : Nat) = 1 := by omega
    rw [e] at q2
    exact q2

/-- **C97** (GPU; sides 16 and 256, warps in lockstep, any beam of more than 2 pixels).  The kernel makes the same
beam for every interleaving of its threads.  Whatever the schedule of the clean, a run that completes does at
most `limit` minor cycles, and the sky model is the residual plus the clean beam times each component of the
model, centred on the component if the beam has an odd side (`d = 0`), and one pixel beyond it if even (`d = 1`).
Such a run exists. -/
theorem C97_gpu_partial (dm pm bm mm rm sm : Mem) (D n : Nat) (dirty psf det : Arr ℝ) (o : Out ℝ) (gain thr : ℝ)
    (limit : Nat) (h : CleanArgs .gpu dm pm bm mm rm sm D n dirty psf det o) (hD : D = 16 ∨ D = 256) (hn : 3 ≤ n) :
    (∃ out, GpuRun WarpLock dirty psf det D (2 * D) gain thr limit o out) ∧
    ∀ out, GpuRun WarpLock dirty psf det D (2 * D) gain thr limit o out →
      (∃ k ≤ limit, PeakMinors psf.get D gain thr k dirty.get o.model.get out.res.get out.model.get ∧
        (k < limit → ∀ p < D * D, out.res.get p ≤ thr)) ∧
      ∀ i < D, ∀ j < D, out.sky.get (D * i + j) = out.res.get (D * i + j) +
        restored D n (det.get 0) (det.get 1) (det.get 2) (if n % 2 = 1 then 0 else 1) out.model.get i j := by
  have hsz := h.detSize
  have e0 : det.read 0 = some (det.get 0) := by
    have := Arr.read_nat det 0; rw [if_pos (by omega)] at this; exact this
  have e1 : det.read 1 = some (det.get 1) := by
    have := Arr.read_nat det 1; rw [if_pos (by omega)] at this; exact this
  have e2 : det.read 2 = some (det.get 2) := by
    have := Arr.read_nat det 2; rw [if_pos (by omega)] at this; exact this
  have e3 : det.read 3 = some (det.get 3) := by
    have := Arr.read_nat det 3; rw [if_pos (by omega)] at this; exact this
  obtain ⟨beam, b1, b2, b3⟩ := beam_yields (det.get 0) (det.get 1) (det.get 2) h.widths.1 h.widths.2 n h.beam.2.1
  have hth : 0 < threads (n * n) := lt_of_lt_of_le (Nat.mul_pos (by omega) (by omega)) (le_threads _)
  have hconv : ∀ c : Arr ℝ, c.size = D * D → ∃ r, (∃ x, ConvGpu (complexOf c) beam D n (zeros D) x) ∧
      (∀ x, ConvGpu (complexOf c) beam D n (zeros D) x → x = some r) ∧
      IsConv D n (complexOf c) beam (zeros D) r := by
    intro c hc
    obtain ⟨r, r1, r2, r3⟩ := convGpu_ok (complexOf c) beam (zeros D) D n h.pos h.beam.2.1
      (pad_gap h.pos h.beam.2.1 (C90_gap D n hn)) (by show D * D ≤ c.size; omega) (by omega) (by simp [zeros])
    exact ⟨r, r1, r2, r3⟩
  have good : ∀ conv : Arr ℝ → Option (Arr ℝ),
      (∀ c, c.size = D * D → ∃ x, ConvGpu (complexOf c) beam D n (zeros D) x ∧ conv c = x.map realOf) →
      GoodGpu conv dirty psf D o := by
    intro conv hcv
    refine ⟨square_size h.ddata h.dshape, h.psfSize, square_size h.mdata h.mshape, square_size h.rdata h.rshape,
      square_size h.sdata h.sshape, fun c hc => ?_⟩
    obtain ⟨r, -, r2, r3⟩ := hconv c hc
    obtain ⟨x, x1, x2⟩ := hcv c hc
    rw [r2 x x1] at x2
    exact ⟨realOf r, x2, r3.1⟩
  have ht : (trunc (det.get 3)).toNat = n := by rw [h.beam.1, Int.toNat_natCast]
  have t1 : 1 ≤ trunc (det.get 3) := by have := h.beam.2.1; rw [h.beam.1]; omega
  have t2 : trunc (det.get 3) ≤ 32767 := by have := h.beam.2.2; rw [h.beam.1]; omega
  constructor
  · have all : ∀ c : Arr ℝ, ∃ x, ConvGpu (complexOf c) beam D n (zeros D) x := fun c => convGpu_exists _ _ _ _ _
    let conv : Arr ℝ → Option (Arr ℝ) := fun c => ((all c).choose).map realOf
    obtain ⟨out, ho⟩ := (C88_clean_partial hD (good conv fun c _ => ⟨_, (all c).choose_spec, rfl⟩) gain thr limit).1
    refine ⟨out, _, _, _, _, e0, e1, e2, e3, fun _ _ => ?_⟩
    rw [ht]
    exact ⟨beam, conv, Race.Finishes.of_yields hth b1, fun c => ⟨_, (all c).choose_spec, rfl⟩, ho⟩
  · rintro out ⟨sx, sy, rot, size, f0, f1, f2, f3, hrun⟩
    rw [e0] at f0; rw [e1] at f1; rw [e2] at f2; rw [e3] at f3
    cases f0; cases f1; cases f2; cases f3
    have hrun := hrun t1 t2
    rw [ht] at hrun
    obtain ⟨beam', conv, hb, hcv, hcl⟩ := hrun
    obtain rfl := hb.eq b1
    obtain ⟨k, comps, cc, k1, k2, k3, k4, k5, k6, k7⟩ :=
      (C88_clean_partial hD (good conv fun c _ => hcv c) gain thr limit).2 out hcl
    refine ⟨⟨k, k1, k2, k3⟩, fun i hi j hj => ?_⟩
    obtain ⟨r, -, r2, r3⟩ := hconv comps k4
    obtain ⟨x, x1, x2⟩ := hcv comps
    rw [r2 x x1, k6] at x2
    rw [k7 _ (flat_lt hi hj), add_comm, ← restored_congr k5]
    congr 1
    cases x2
    rw [restored_of_conv h.beam.2.1 b3 r3 i hi j hj]
    congr 1
    by_cases c : n % 2 = 1
    · rw [if_pos c]; omega
    · rw [if_neg c]; omega

end
end Sdp.Hogbom
