import Mathlib.Analysis.SpecialFunctions.Complex.Log
import Mathlib.Algebra.BigOperators.Fin
import Mathlib.Algebra.BigOperators.Module
import Mathlib.Tactic.Ring
import Verif.Dft.Model

/-!
# C18 — the DFT
-/

namespace Sdp.Dft
open Finset
noncomputable section

/-! ## Specification -/

/-- The measurement equation for one point of one polarisation:
Σ over sources of exp(−2πi·k·(l u + m v + n w)) · flux. -/
def predict (n : Nat) (dir : Nat → Fin 3 → ℝ) (flux : Nat → ℂ) (k : ℝ) (uvw : Fin 3 → ℝ) : ℂ :=
  ∑ s ∈ range n, Complex.exp (-2 * Real.pi * Complex.I *
    ((k * (dir s 0 * uvw 0 + dir s 1 * uvw 1 + dir s 2 * uvw 2) : ℝ) : ℂ)) * flux s

/-- Row-major positions. -/
def visPos (D : Dims) (t b c p : Nat) : Nat :=
  D.pols * (D.channels * (D.baselines * t + b) + c) + p
def fluxPos (D : Dims) (s c p : Nat) : Nat := D.pols * (D.channels * s + c) + p

/-- Direction cosines of source `s`. -/
def dirOf (dirs : Arr ℝ) (s : Nat) (i : Fin 3) : ℝ := dirs.get (3 * s + i)

/-- The sizes enforced by `check_params_v00` / `check_params_v01`. -/
structure Sizes (D : Dims) (dirs : Arr ℝ) (flux : Arr ℂ) (vis : Arr ℂ) : Prop where
  pols : D.pols ≤ 4
  dirs : dirs.size = D.comps * 3
  flux : flux.size = D.comps * D.channels * D.pols
  vis : vis.size = D.times * D.baselines * D.channels * D.pols

/-! ## Lemmas -/

theorem phasor_eq (x : ℝ) : (⟨Real.cos x, Real.sin x⟩ : ℂ) = Complex.exp (x * Complex.I) := by
  rw [Complex.exp_mul_I]
  apply Complex.ext <;> simp [← Complex.ofReal_cos, ← Complex.ofReal_sin]

theorem localVis_spec (D : Dims) {dirs : Arr ℝ} {flux vis : Arr ℂ} (hS : Sizes D dirs flux vis)
    (k u v w : ℝ) (c : Nat) (hc : c < D.channels) :
    ∃ loc, localVis D dirs flux k u v w c = some loc ∧ loc.size = 4 ∧
      ∀ p < D.pols, loc.get p = predict D.comps (dirOf dirs)
        (fun s => flux.get (fluxPos D s c p)) k ![u, v, w] := by
  unfold localVis
  obtain ⟨loc, hl, hP⟩ := loop_inv
    (fun (loc : Arr ℂ) (s : Nat) =>
      (dirs.read (3 * s)).bind fun l =>
      (dirs.read (3 * s + 1)).bind fun m =>
      (dirs.read (3 * s + 2)).bind fun n =>
        let phase := -2 * Real.pi * k * (l * u + m * v + n * w)
        let phasor : ℂ := ⟨Real.cos phase, Real.sin phase⟩
        loop (fun loc (p : Nat) =>
          (flux.read (index3 D.channels D.pols s c 0 + p)).bind fun f =>
            loc.addAt p (phasor * f)) loc (List.range D.pols))
    (fun done loc => loc.size = 4 ∧ ∀ p < D.pols, loc.get p = (done.map fun s =>
      Complex.exp (-2 * Real.pi * Complex.I *
        ((k * (dirOf dirs s 0 * u + dirOf dirs s 1 * v + dirOf dirs s 2 * w) : ℝ) : ℂ)) *
        flux.get (fluxPos D s c p)).sum)
    (List.range D.comps) ⟨4, fun _ => 0⟩ ⟨rfl, fun p _ => by simp⟩
    (by
      intro done s rest loc he hP
      have hs : s < D.comps := by
        have : s ∈ List.range D.comps := by rw [he]; simp
        simpa using this
      have r0 : dirs.read (3 * s) = some (dirOf dirs s 0) := by
        have := Arr.read_nat dirs (3 * s)
        push_cast at this
        rw [this, if_pos (by rw [hS.dirs]; omega)]; rfl
      have r1 : dirs.read (3 * s + 1) = some (dirOf dirs s 1) := by
        have := Arr.read_nat dirs (3 * s + 1)
        push_cast at this
        rw [this, if_pos (by rw [hS.dirs]; omega)]; rfl
      have r2 : dirs.read (3 * s + 2) = some (dirOf dirs s 2) := by
        have := Arr.read_nat dirs (3 * s + 2)
        push_cast at this
        rw [this, if_pos (by rw [hS.dirs]; omega)]; rfl
      set ph := -2 * Real.pi * k * (dirOf dirs s 0 * u + dirOf dirs s 1 * v + dirOf dirs s 2 * w)
        with hph
      have hcongr : loop (fun (loc : Arr ℂ) (p : Nat) =>
          (flux.read (index3 D.channels D.pols s c 0 + p)).bind fun f =>
            loc.addAt p ((⟨Real.cos ph, Real.sin ph⟩ : ℂ) * f)) loc (List.range D.pols) =
          loop (fun (loc : Arr ℂ) (p : Nat) => loc.addAt p
            ((⟨Real.cos ph, Real.sin ph⟩ : ℂ) * flux.get (fluxPos D s c p))) loc
            (List.range D.pols) := by
        apply loop_congr
        intro p hp loc'
        rw [List.mem_range] at hp
        have e : index3 D.channels D.pols s c 0 + p = (fluxPos D s c p : Int) := by
          unfold index3 fluxPos; push_cast; ring
        rw [e, Arr.read_nat, hS.flux, if_pos (show fluxPos D s c p < _ from flat_lt (flat_lt hs hc) hp), Option.bind_some]
      obtain ⟨r, hr, hrs, hrv⟩ := Arr.accum_spec (List.range D.pols) (fun p : Nat => (p : Int))
        (fun p => (⟨Real.cos ph, Real.sin ph⟩ : ℂ) * flux.get (fluxPos D s c p)) loc (by
          intro p hp
          rw [List.mem_range] at hp
          have := hS.pols
          rw [hP.1]; omega)
      refine ⟨r, ?_, by rw [hrs, hP.1], fun p hp => ?_⟩
      · simp only [r0, r1, r2, Option.bind_some]
        rw [← hph, hcongr, hr]
      · rw [hrv, hP.2 p hp, List.map_append, List.sum_append]
        congr 1
        have : (List.range D.pols).map (fun x : Nat => if ((x : Int)) = (p : Int) then
            (⟨Real.cos ph, Real.sin ph⟩ : ℂ) * flux.get (fluxPos D s c x) else 0) =
          (List.range D.pols).map (fun x : Nat => if x = p then
            (⟨Real.cos ph, Real.sin ph⟩ : ℂ) * flux.get (fluxPos D s c p) else 0) := by
          apply List.map_congr_left
          intro x _
          by_cases hx : x = p
          · subst hx; simp
          · rw [if_neg hx, if_neg (by omega)]
        rw [this, list_sum_range, Finset.sum_ite_eq' (range D.pols) p,
          if_pos (Finset.mem_range.2 hp), phasor_eq]
        simp only [List.map_cons, List.map_nil, List.sum_cons, List.sum_nil, add_zero]
        congr 2
        rw [hph]; push_cast; ring)
  refine ⟨loc, hl, hP.1, fun p hp => ?_⟩
  rw [hP.2 p hp, predict, list_sum_range]
  simp

/-- Running iterations that each store their own polarisations, in any order. -/
theorem run_spec (D : Dims) (vis : Arr ℂ)
    (hv : vis.size = D.times * D.baselines * D.channels * D.pols)
    (body : Arr ℂ → Nat × Nat × Nat → Option (Arr ℂ))
    (val : Nat × Nat × Nat → Nat → ℂ)
    (hbody : ∀ x ∈ nest3 D.times D.channels D.baselines, ∀ vis, ∃ loc : Arr ℂ,
      body vis x = store D vis loc x.1 x.2.1 x.2.2 ∧ loc.size = 4 ∧ D.pols ≤ 4 ∧
        ∀ p < D.pols, loc.get p = val x p)
    (order : List (Nat × Nat × Nat)) (ho : order.Perm (nest3 D.times D.channels D.baselines)) :
    ∃ r, loop body vis order = some r ∧ r.size = vis.size ∧
      ∀ t < D.times, ∀ b < D.baselines, ∀ c < D.channels, ∀ p < D.pols,
        r.get (visPos D t b c p) = val (t, c, b) p := by
  set items : List (Nat × Nat × Nat × Nat) :=
    order.flatMap fun x => (List.range D.pols).map fun p => (x.1, x.2.1, x.2.2, p) with hitems
  have hperm : items.Perm (nest4 D.times D.channels D.baselines D.pols) := by
    rw [hitems]; exact ho.flatMap_right _
  have hmem : ∀ x ∈ items, x.1 < D.times ∧ x.2.1 < D.channels ∧ x.2.2.1 < D.baselines ∧
      x.2.2.2 < D.pols := fun x hx => mem_nest4.1 (hperm.mem_iff.1 hx)
  have hloop : loop body vis order = loop (fun (vis : Arr ℂ) x =>
      vis.write (visPos D x.1 x.2.2.1 x.2.1 x.2.2.2) (val (x.1, x.2.1, x.2.2.1) x.2.2.2))
      vis items := by
    rw [hitems, loop_flatMap]
    apply loop_congr
    intro x hx vis'
    obtain ⟨loc, hb, hls, hp4, hlv⟩ := hbody x (ho.mem_iff.1 hx) vis'
    rw [hb, loop_map]
    unfold store
    apply loop_congr
    intro p hp vis''
    rw [List.mem_range] at hp
    rw [Arr.read_nat, hls, if_pos (by omega), Option.bind_some, hlv p hp]
    have e : index4 D.baselines D.channels D.pols x.1 x.2.2 x.2.1 p =
        (visPos D x.1 x.2.2 x.2.1 p : Int) := by
      unfold index4 visPos; push_cast; ring
    rw [e]
  obtain ⟨r, hr, hrs, hrv, -⟩ := Arr.store_spec items
    (fun x => (visPos D x.1 x.2.2.1 x.2.1 x.2.2.2 : Int))
    (fun x => val (x.1, x.2.1, x.2.2.1) x.2.2.2)
    (by
      apply List.Nodup.map_on
      · intro x hx y hy h
        obtain ⟨-, hx2, hx3, hx4⟩ := hmem x hx
        obtain ⟨-, hy2, hy3, hy4⟩ := hmem y hy
        have h' : visPos D x.1 x.2.2.1 x.2.1 x.2.2.2 = visPos D y.1 y.2.2.1 y.2.1 y.2.2.2 := by
          exact_mod_cast h
        obtain ⟨h1, e4⟩ := flat_inj hx4 hy4 h'
        obtain ⟨h2, e2⟩ := flat_inj hx2 hy2 h1
        obtain ⟨e1, e3⟩ := flat_inj hx3 hy3 h2
        obtain ⟨a, b, c, d⟩ := x
        obtain ⟨a', b', c', d'⟩ := y
        simp_all
      · exact hperm.nodup_iff.2 (nest4_nodup _ _ _ _))
    vis (by
      intro x hx
      obtain ⟨h1, h2, h3, h4⟩ := hmem x hx
      have : visPos D x.1 x.2.2.1 x.2.1 x.2.2.2 < _ := flat_lt (flat_lt (flat_lt h1 h3) h2) h4
      rw [hv]; omega)
  refine ⟨r, by rw [hloop, hr], hrs, fun t ht b hb c hc p hp => ?_⟩
  have := hrv (t, c, b, p) (hperm.mem_iff.2 (mem_nest4.2 ⟨ht, hc, hb, hp⟩))
  simpa using this

/-! ## Property theorems -/

/-- uvw of a point for `v00`, in wavelengths. -/
def uvwV00 (D : Dims) (uvw : Arr ℝ) (t b c : Nat) (i : Fin 3) : ℝ :=
  uvw.get (3 * (D.channels * (D.baselines * t + b) + c) + i)

/-- uvw of a baseline for `v01`, in metres. -/
def uvwV01 (D : Dims) (uvw : Arr ℝ) (t b : Nat) (i : Fin 3) : ℝ :=
  uvw.get (3 * (D.baselines * t + b) + i)

/-- C18, `sdp_dft_point_v00`: for every execution order, no access is out of bounds and
each visibility is the measurement-equation sum for its own coordinate (so the result
does not depend on the order or on what the output held before). -/
theorem C18_v00 (D : Dims) {dirs : Arr ℝ} {flux vis : Arr ℂ} (hS : Sizes D dirs flux vis)
    (uvw : Arr ℝ) (hu : uvw.size = D.times * D.baselines * D.channels * 3)
    (order : List (Nat × Nat × Nat)) (ho : order.Perm (nest3 D.times D.channels D.baselines)) :
    ∃ r, v00 D dirs flux uvw vis order = some r ∧ r.size = vis.size ∧
      ∀ t < D.times, ∀ b < D.baselines, ∀ c < D.channels, ∀ p < D.pols,
        r.get (visPos D t b c p) = predict D.comps (dirOf dirs)
          (fun s => flux.get (fluxPos D s c p)) 1 (uvwV00 D uvw t b c) := by
  apply run_spec D vis hS.vis (bodyV00 D dirs flux uvw)
    (fun x p => predict D.comps (dirOf dirs)
      (fun s => flux.get (fluxPos D s x.2.1 p)) 1 (uvwV00 D uvw x.1 x.2.2 x.2.1)) _ order ho
  intro x hx vis'
  obtain ⟨h1, h2, h3⟩ := mem_nest3.1 hx
  set q := 3 * (D.channels * (D.baselines * x.1 + x.2.2) + x.2.1) with hq
  have hlt : q + 2 < uvw.size := by
    rw [hu]
    have : 3 * (D.channels * (D.baselines * x.1 + x.2.2) + x.2.1) + 2 <
      D.times * D.baselines * D.channels * 3 :=
      flat_lt (flat_lt (flat_lt h1 h3) h2) (by omega)
    omega
  have e0 : index4 D.baselines D.channels 3 x.1 x.2.2 x.2.1 0 = (q : Int) := by
    unfold index4; rw [hq]; push_cast; ring
  obtain ⟨loc, hl, hls, hlv⟩ := localVis_spec D hS 1 (uvw.get q) (uvw.get (q + 1))
    (uvw.get (q + 2)) x.2.1 h2
  refine ⟨loc, ?_, hls, hS.pols, fun p hp => ?_⟩
  · unfold bodyV00
    simp only [e0]
    rw [show (q : Int) + 1 = ((q + 1 : Nat) : Int) by push_cast; ring,
      show (q : Int) + 2 = ((q + 2 : Nat) : Int) by push_cast; ring,
      Arr.read_nat, Arr.read_nat, Arr.read_nat, if_pos (by omega), if_pos (by omega), if_pos hlt]
    simp only [Option.bind_some, hl]
  · rw [hlv p hp]
    congr 1
    funext i
    fin_cases i <;> rfl

/-- C18, `sdp_dft_point_v01`: as `C18_v00`, with coordinates in metres scaled by the
channel frequency over the speed of light. -/
theorem C18_v01 (D : Dims) {dirs : Arr ℝ} {flux vis : Arr ℂ} (hS : Sizes D dirs flux vis)
    (uvw : Arr ℝ) (f0 df : ℝ) (hu : uvw.size = D.times * D.baselines * 3)
    (order : List (Nat × Nat × Nat)) (ho : order.Perm (nest3 D.times D.channels D.baselines)) :
    ∃ r, v01 D dirs flux uvw f0 df vis order = some r ∧ r.size = vis.size ∧
      ∀ t < D.times, ∀ b < D.baselines, ∀ c < D.channels, ∀ p < D.pols,
        r.get (visPos D t b c p) = predict D.comps (dirOf dirs)
          (fun s => flux.get (fluxPos D s c p)) ((f0 + c * df) / 299792458)
          (uvwV01 D uvw t b) := by
  apply run_spec D vis hS.vis (bodyV01 D dirs flux uvw f0 df)
    (fun x p => predict D.comps (dirOf dirs)
      (fun s => flux.get (fluxPos D s x.2.1 p)) ((f0 + x.2.1 * df) / 299792458)
      (uvwV01 D uvw x.1 x.2.2)) _ order ho
  intro x hx vis'
  obtain ⟨h1, h2, h3⟩ := mem_nest3.1 hx
  set q := 3 * (D.baselines * x.1 + x.2.2) with hq
  have hlt : q + 2 < uvw.size := by
    rw [hu]
    have : 3 * (D.baselines * x.1 + x.2.2) + 2 < D.times * D.baselines * 3 :=
      flat_lt (flat_lt h1 h3) (by omega)
    omega
  have e0 : index3 D.baselines 3 x.1 x.2.2 0 = (q : Int) := by
    unfold index3; rw [hq]; push_cast; ring
  obtain ⟨loc, hl, hls, hlv⟩ := localVis_spec D hS ((f0 + x.2.1 * df) / 299792458)
    (uvw.get q) (uvw.get (q + 1)) (uvw.get (q + 2)) x.2.1 h2
  refine ⟨loc, ?_, hls, hS.pols, fun p hp => ?_⟩
  · unfold bodyV01
    simp only [e0]
    rw [show (q : Int) + 1 = ((q + 1 : Nat) : Int) by push_cast; ring,
      show (q : Int) + 2 = ((q + 2 : Nat) : Int) by push_cast; ring,
      Arr.read_nat, Arr.read_nat, Arr.read_nat, if_pos (by omega), if_pos (by omega), if_pos hlt]
    simp only [Option.bind_some, hl]
  · rw [hlv p hp]
    congr 1
    funext i
    fin_cases i <;> rfl

/-- Non-vacuity of `Sizes`: two sources, 4 polarisations, 3 channels, 2 baselines, 1 time. -/
example : Sizes ⟨2, 4, 3, 2, 1⟩ ⟨6, fun _ => 0⟩ ⟨24, fun _ => 1⟩ ⟨24, fun _ => 0⟩ := by
  constructor <;> decide

/-- C18: linear in the fluxes — if every flux of run 3 is `a` times that of run 1 plus
`b` times that of run 2, so is every predicted visibility (v01; any orders). -/
theorem C18_linear (D : Dims) {dirs : Arr ℝ} {flux₁ flux₂ flux₃ vis : Arr ℂ} (a b : ℂ)
    (h₁ : Sizes D dirs flux₁ vis) (h₂ : Sizes D dirs flux₂ vis) (h₃ : Sizes D dirs flux₃ vis)
    (hf : ∀ j, flux₃.get j = a * flux₁.get j + b * flux₂.get j)
    (uvw : Arr ℝ) (f0 df : ℝ) (hu : uvw.size = D.times * D.baselines * 3)
    (o₁ o₂ o₃ : List (Nat × Nat × Nat)) (ho₁ : o₁.Perm (nest3 D.times D.channels D.baselines))
    (ho₂ : o₂.Perm (nest3 D.times D.channels D.baselines))
    (ho₃ : o₃.Perm (nest3 D.times D.channels D.baselines)) :
    ∃ r₁ r₂ r₃, v01 D dirs flux₁ uvw f0 df vis o₁ = some r₁ ∧
      v01 D dirs flux₂ uvw f0 df vis o₂ = some r₂ ∧
      v01 D dirs flux₃ uvw f0 df vis o₃ = some r₃ ∧
      ∀ t < D.times, ∀ b' < D.baselines, ∀ c < D.channels, ∀ p < D.pols,
        r₃.get (visPos D t b' c p) =
          a * r₁.get (visPos D t b' c p) + b * r₂.get (visPos D t b' c p) := by
  obtain ⟨r₁, e₁, -, v₁⟩ := C18_v01 D h₁ uvw f0 df hu o₁ ho₁
  obtain ⟨r₂, e₂, -, v₂⟩ := C18_v01 D h₂ uvw f0 df hu o₂ ho₂
  obtain ⟨r₃, e₃, -, v₃⟩ := C18_v01 D h₃ uvw f0 df hu o₃ ho₃
  refine ⟨r₁, r₂, r₃, e₁, e₂, e₃, fun t ht b' hb c hc p hp => ?_⟩
  rw [v₁ t ht b' hb c hc p hp, v₂ t ht b' hb c hc p hp, v₃ t ht b' hb c hc p hp]
  unfold predict
  rw [Finset.mul_sum, Finset.mul_sum, ← Finset.sum_add_distrib]
  apply Finset.sum_congr rfl
  intro s _
  simp only [hf]; ring

/-- C18: reordering the sources by any permutation `σ` of their indices leaves every
visibility unchanged (v01). -/
theorem C18_source_order (D : Dims) {dirs₁ dirs₂ : Arr ℝ} {flux₁ flux₂ vis : Arr ℂ}
    (h₁ : Sizes D dirs₁ flux₁ vis) (h₂ : Sizes D dirs₂ flux₂ vis)
    (σ : Equiv.Perm (Fin D.comps))
    (hd : ∀ (s : Fin D.comps) (i : Fin 3), dirOf dirs₂ s i = dirOf dirs₁ (σ s) i)
    (hf : ∀ (s : Fin D.comps) (c p : Nat), c < D.channels → p < D.pols →
      flux₂.get (fluxPos D s c p) = flux₁.get (fluxPos D (σ s) c p))
    (uvw : Arr ℝ) (f0 df : ℝ) (hu : uvw.size = D.times * D.baselines * 3)
    (o₁ o₂ : List (Nat × Nat × Nat)) (ho₁ : o₁.Perm (nest3 D.times D.channels D.baselines))
    (ho₂ : o₂.Perm (nest3 D.times D.channels D.baselines)) :
    ∃ r₁ r₂, v01 D dirs₁ flux₁ uvw f0 df vis o₁ = some r₁ ∧
      v01 D dirs₂ flux₂ uvw f0 df vis o₂ = some r₂ ∧
      ∀ t < D.times, ∀ b < D.baselines, ∀ c < D.channels, ∀ p < D.pols,
        r₂.get (visPos D t b c p) = r₁.get (visPos D t b c p) := by
  obtain ⟨r₁, e₁, -, v₁⟩ := C18_v01 D h₁ uvw f0 df hu o₁ ho₁
  obtain ⟨r₂, e₂, -, v₂⟩ := C18_v01 D h₂ uvw f0 df hu o₂ ho₂
  refine ⟨r₁, r₂, e₁, e₂, fun t ht b hb c hc p hp => ?_⟩
  rw [v₁ t ht b hb c hc p hp, v₂ t ht b hb c hc p hp]
  unfold predict
  rw [Finset.sum_range, Finset.sum_range]
  refine Fintype.sum_equiv σ _ _ fun s => ?_
  simp only
  rw [hd, hd, hd, hf s c p hc hp]

/-- C18: predicting `n₁` sources and `n₂` further sources separately and adding gives the
prediction of all of them (v01). -/
theorem C18_split (D : Dims) (n₁ n₂ : Nat) (hD : D.comps = n₁ + n₂)
    {dirs dirs₁ dirs₂ : Arr ℝ} {flux flux₁ flux₂ vis : Arr ℂ}
    (h : Sizes D dirs flux vis) (h₁ : Sizes { D with comps := n₁ } dirs₁ flux₁ vis)
    (h₂ : Sizes { D with comps := n₂ } dirs₂ flux₂ vis)
    (hd₁ : ∀ s < n₁, ∀ i, dirOf dirs₁ s i = dirOf dirs s i)
    (hd₂ : ∀ s < n₂, ∀ i, dirOf dirs₂ s i = dirOf dirs (n₁ + s) i)
    (hf₁ : ∀ s < n₁, ∀ c p, flux₁.get (fluxPos D s c p) = flux.get (fluxPos D s c p))
    (hf₂ : ∀ s < n₂, ∀ c p, flux₂.get (fluxPos D s c p) = flux.get (fluxPos D (n₁ + s) c p))
    (uvw : Arr ℝ) (f0 df : ℝ) (hu : uvw.size = D.times * D.baselines * 3)
    (o : List (Nat × Nat × Nat)) (ho : o.Perm (nest3 D.times D.channels D.baselines)) :
    ∃ r r₁ r₂, v01 D dirs flux uvw f0 df vis o = some r ∧
      v01 { D with comps := n₁ } dirs₁ flux₁ uvw f0 df vis o = some r₁ ∧
      v01 { D with comps := n₂ } dirs₂ flux₂ uvw f0 df vis o = some r₂ ∧
      ∀ t < D.times, ∀ b < D.baselines, ∀ c < D.channels, ∀ p < D.pols,
        r.get (visPos D t b c p) = r₁.get (visPos D t b c p) + r₂.get (visPos D t b c p) := by
  obtain ⟨r, e, -, v⟩ := C18_v01 D h uvw f0 df hu o ho
  obtain ⟨r₁, e₁, -, v₁⟩ := C18_v01 { D with comps := n₁ } h₁ uvw f0 df hu o ho
  obtain ⟨r₂, e₂, -, v₂⟩ := C18_v01 { D with comps := n₂ } h₂ uvw f0 df hu o ho
  refine ⟨r, r₁, r₂, e, e₁, e₂, fun t ht b hb c hc p hp => ?_⟩
  have w₁ := v₁ t ht b hb c hc p hp
  have w₂ := v₂ t ht b hb c hc p hp
  rw [v t ht b hb c hc p hp]
  change r₁.get (visPos D t b c p) = _ at w₁
  change r₂.get (visPos D t b c p) = _ at w₂
  rw [w₁, w₂]
  unfold predict
  rw [hD, Finset.sum_range_add]
  congr 1
  · apply Finset.sum_congr rfl
    intro s hs
    rw [Finset.mem_range] at hs
    rw [hd₁ s hs, hd₁ s hs, hd₁ s hs]
    congr 1
    exact (hf₁ s hs c p).symm
  · apply Finset.sum_congr rfl
    intro s hs
    rw [Finset.mem_range] at hs
    rw [hd₂ s hs, hd₂ s hs, hd₂ s hs]
    congr 1
    exact (hf₂ s hs c p).symm

end
end Sdp.Dft
