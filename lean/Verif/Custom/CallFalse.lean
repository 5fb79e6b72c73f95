import Verif.Custom.CallProps
import Verif.PhaseRotate.CallProps

/-!
# C96: agreement of CPU and GPU, counterexamples, and a call that meets the hypotheses
-/

set_option linter.unusedSectionVars false

namespace Sdp.Custom
open Finset Sdp.Race
open Sdp.PhaseRotate (strided)

section
variable {K : Type} [Field K] [LinearOrder K] [IsStrictOrderedRing K] [FloorRing K]
variable {R : Type} [CommRing R] [StarRing R]

/-- No coordinate lies half way between two sub-samples of a kernel. -/
def NoTie (n : Sizes) (p : Par K) (d : Inputs K R) : Prop :=
  ∀ t b c, t < n.times → b < n.baselines → c < n.channels → ∀ i : Int,
    p.theta * coordOf (problem rne n p d) t b c 0 * n.uvOv ≠ i + 1 / 2 ∧
    p.theta * coordOf (problem rne n p d) t b c 1 * n.uvOv ≠ i + 1 / 2 ∧
    (1 + coordOf (problem rne n p d) t b c 2 / p.wstep) * n.wOv ≠ i + 1 / 2

theorem degrid_same (n : Sizes) (p : Par K) (d : Inputs K R) (a : Arr R) (h : NoTie n p d) :
    degrid (problem WTower.rnd n p d) a = degrid (problem rne n p d) a := by
  unfold degrid
  apply loop_congr
  rintro ⟨t, b, c⟩ hx s
  obtain ⟨ht, hb, hc⟩ := mem_nest3.1 hx
  have key := h t b c ht hb hc
  unfold body
  simp only
  have rd : ∀ j : Nat, ∀ v, d.uvw.read (index3 n.baselines 3 t b 0 + (j : Int)) = some v →
      v = d.uvw.get ((t * n.baselines + b) * 3 + j) := by
    intro j v hv
    have e : (index3 n.baselines 3 t b 0 + (j : Int) : Int) = (((t * n.baselines + b) * 3 + j : Nat) : Int) := by
      unfold index3; push_cast; ring
    rw [e, Arr.read_nat] at hv
    by_cases hlt : (t * n.baselines + b) * 3 + j < d.uvw.size
    · rw [if_pos hlt] at hv; exact (Option.some.inj hv).symm
    · rw [if_neg hlt] at hv; cases hv
  show (d.uvw.read (index3 n.baselines 3 t b 0)).bind _ = (d.uvw.read (index3 n.baselines 3 t b 0)).bind _
  cases h0 : d.uvw.read (index3 n.baselines 3 t b 0) with
  | none => rfl
  | some u =>
    simp only [Option.bind_some]
    show (d.uvw.read (index3 n.baselines 3 t b 0 + 1)).bind _ = (d.uvw.read (index3 n.baselines 3 t b 0 + 1)).bind _
    cases h1 : d.uvw.read (index3 n.baselines 3 t b 0 + 1) with
    | none => rfl
    | some v =>
      simp only [Option.bind_some]
      show (d.uvw.read (index3 n.baselines 3 t b 0 + 2)).bind _ = (d.uvw.read (index3 n.baselines 3 t b 0 + 2)).bind _
      cases h2 : d.uvw.read (index3 n.baselines 3 t b 0 + 2) with
      | none => rfl
      | some w =>
        simp only [Option.bind_some]
        have e0 := rd 0 u (by simpa using h0)
        have e1 := rd 1 v (by simpa using h1)
        have e2 := rd 2 w (by simpa using h2)
        have hu := C96_same_rounding _ fun i => (key i).1
        have hv := C96_same_rounding _ fun i => (key i).2.1
        have hw := C96_same_rounding _ fun i => (key i).2.2
        unfold coordOf at hu hv hw
        rw [show (problem rne n p d).uvw = d.uvw from rfl, show (problem rne n p d).numBaselines = n.baselines from rfl,
          ← e0] at hu
        rw [show (problem rne n p d).uvw = d.uvw from rfl, show (problem rne n p d).numBaselines = n.baselines from rfl,
          ← e1] at hv
        rw [show (problem rne n p d).uvw = d.uvw from rfl, show (problem rne n p d).numBaselines = n.baselines from rfl,
          ← e2] at hw
        have hp : place (problem WTower.rnd n p d) ((p.f0 + c * p.df) / 299792458 * u) ((p.f0 + c * p.df) / 299792458 * v)
            ((p.f0 + c * p.df) / 299792458 * w) = place (problem rne n p d) ((p.f0 + c * p.df) / 299792458 * u)
            ((p.f0 + c * p.df) / 299792458 * v) ((p.f0 + c * p.df) / 299792458 * w) := by
          unfold place axis wRow
          simp only [problem] at hu hv hw ⊢
          rw [hu, hv, hw]
          rfl
        show (place (problem WTower.rnd n p d) ((p.f0 + c * p.df) / 299792458 * u) ((p.f0 + c * p.df) / 299792458 * v)
            ((p.f0 + c * p.df) / 299792458 * w)).bind _ = (place (problem rne n p d) ((p.f0 + c * p.df) / 299792458 * u)
            ((p.f0 + c * p.df) / 299792458 * v) ((p.f0 + c * p.df) / 299792458 * w)).bind _
        rw [hp]
        rfl

/-- **C96, both devices.**  With the same data, and no coordinate half way between two sub-samples, the call in GPU memory
has the outcome of the call in CPU memory. -/
theorem C96_agree_partial (m m' : Args) (p : Par K) (d : Inputs K R) (a : Arr R) (n : Sizes) (h : Ready m p d a n)
    (h' : Ready m' p d a n) (hl : m.vis.location = .cpu) (hl' : m'.vis.location = .gpu) (ht : NoTie n p d)
    (hw : ∀ t b c, t < n.times → b < n.baselines → c < n.channels → Inside (problem rne n p d) t b c →
      0 ≤ rne ((1 + coordOf (problem rne n p d) t b c 2 / p.wstep) * n.wOv) + n.wOv - 1) (o : Option (Status × Arr R)) :
    Calls true m p d .success a o ↔ Calls true m' p d .success a o := by
  have e : nearest (K := K) m'.vis.location = rne := by unfold nearest; rw [hl']; rfl
  obtain ⟨r, r1, -, -⟩ := C96_call_partial m' p d a n h' (.inr hl') (by rw [e]; exact hw)
  rw [r1]
  obtain ⟨hm, hv⟩ := problem_made h rne
  obtain ⟨r', y, d'⟩ := launch_yields (problem rne n p d) hm h.planes a hv hw
  have hc : check m .success = .success := (check_iff m _).2 ⟨rfl, _, _, _, _, _, _, _, h.checked⟩
  have hc' : check m' .success = .success := (check_iff m' _).2 ⟨rfl, _, _, _, _, _, _, _, h'.checked⟩
  have e2 : r = r' := by
    have := (r1 (some (.success, r))).2 rfl
    unfold Calls at this
    rw [if_neg (by rw [hc']; simp), hl'] at this
    dsimp only at this
    rw [cfg_eq h'] at this
    by_cases hz : (true = false ∨ threads (problem rne n p d) = [])
    · rw [if_pos hz] at this
      cases this
    · rw [if_neg hz] at this
      obtain ⟨l, l1, l2⟩ := this
      rw [Launch.eq y l1] at l2
      simp only [Option.map_some, Option.some.injEq, Prod.mk.injEq, true_and] at l2
      exact l2
  unfold Calls
  rw [if_neg (by rw [hc]; simp), hl]
  dsimp only
  rw [cfg_eq h, degrid_same n p d a ht, d', e2]
  rfl

end

/-! ## Witnesses -/

/-- Descriptor of given data in a location. -/
def at' (l : MemLocation) (t : MemType) (shape : List Int) : Mem :=
  (createWrapper (some ⟨0, 0⟩) t l shape none .success).1

/-- One time, two baselines, one channel, four polarisations; grid of one plane of 4 x 4 pixels. -/
def exArgs (l : MemLocation) (kernel : List Int) : Args where
  grid := at' l .complexDouble [1, 1, 4, 4, 4]
  uvw := at' l .double [1, 2, 3]
  uvKernel := at' l .double kernel
  wKernel := at' l .double [1, 1]
  vis := at' l .complexDouble [1, 2, 1, 4]

def exSizes : Sizes := ⟨1, 2, 1, 4, 1, 4, 4, 2, 1, 1, 1⟩

def exPar : Par ℚ := ⟨1, 1, 299792458, 0, false⟩

/-- Both baselines at `(u, 0, 0)`; grid values 1, 2, 3, 4 for the four polarisations; kernel values 1 and 2. -/
def exInputs (u : ℚ) : Inputs ℚ ℚ where
  grid := ⟨64, fun i => (i % 4 : Nat) + 1⟩
  uvw := ⟨6, fun i => if i % 3 = 0 then u else 0⟩
  uvKernel := ⟨2, fun i => i + 1⟩
  wKernel := ⟨1, fun _ => 1⟩

def exVis : Arr ℚ := ⟨8, fun _ => 0⟩

theorem ex_ready (l : MemLocation) (hl : l = .cpu ∨ l = .gpu) (u : ℚ) :
    Ready (exArgs l [2, 1]) exPar (exInputs u) exVis exSizes := by
  rcases hl with rfl | rfl
  · exact ⟨⟨.inr rfl, ⟨by decide, by decide⟩, ⟨by decide, by decide⟩, ⟨by decide, by decide⟩, by decide, by decide, by decide,
      by decide, by decide⟩, ⟨by decide, by decide⟩, ⟨by decide, by decide⟩, by decide, ⟨by decide, by decide, rfl⟩,
      ⟨by decide, by decide, rfl⟩, ⟨by decide, by decide, rfl⟩, ⟨by decide, by decide, rfl⟩,
      ⟨by decide, by decide, rfl⟩, by decide, by decide, by decide⟩
  · exact ⟨⟨.inr rfl, ⟨by decide, by decide⟩, ⟨by decide, by decide⟩, ⟨by decide, by decide⟩, by decide, by decide, by decide,
      by decide, by decide⟩, ⟨by decide, by decide⟩, ⟨by decide, by decide⟩, by decide, ⟨by decide, by decide, rfl⟩,
      ⟨by decide, by decide, rfl⟩, ⟨by decide, by decide, rfl⟩, ⟨by decide, by decide, rfl⟩,
      ⟨by decide, by decide, rfl⟩, by decide, by decide, by decide⟩

theorem ex_w (l : MemLocation) (u : ℚ) : ∀ t b c, t < exSizes.times → b < exSizes.baselines → c < exSizes.channels →
    Inside (problem (nearest l) exSizes exPar (exInputs u)) t b c →
    0 ≤ nearest l ((1 + coordOf (problem (nearest l) exSizes exPar (exInputs u)) t b c 2 / exPar.wstep) * exSizes.wOv) +
      exSizes.wOv - 1 := by
  intro t b c ht hb hc _
  have ht : t = 0 := by simp only [exSizes] at ht; omega
  have hc : c = 0 := by simp only [exSizes] at hc; omega
  have hb : b = 0 ∨ b = 1 := by simp only [exSizes] at hb; omega
  subst ht hc
  have e : coordOf (problem (nearest l) exSizes exPar (exInputs u)) 0 b 0 2 = 0 := by
    rcases hb with rfl | rfl <;> simp [coordOf, problem, exInputs, exSizes]
  rw [e]
  cases l <;> decide +kernel

open Classical in
/-- **CPU and GPU differ at half a sub-sample.**  Coordinate `u` times the oversampling is one half: the CPU takes the next
pixel and the second row of the kernel, the GPU this pixel and the first. -/
theorem C96_tie_false : ∃ (m m' : Args) (p : Par ℚ) (d : Inputs ℚ ℚ) (a r r' : Arr ℚ), ∃ n : Sizes,
    Ready m p d a n ∧ Ready m' p d a n ∧ m.vis.location = .cpu ∧ m'.vis.location = .gpu ∧
    (∀ o, Calls true m p d .success a o ↔ o = some (.success, r)) ∧
    (∀ o, Calls true m' p d .success a o ↔ o = some (.success, r')) ∧ r.get 0 = 2 ∧ r'.get 0 = 1 := by
  obtain ⟨r, r1, -, r3⟩ := C96_call_partial (exArgs .cpu [2, 1]) exPar (exInputs (1 / 4)) exVis exSizes
    (ex_ready .cpu (.inl rfl) _) (.inl rfl) (ex_w _ _)
  obtain ⟨r', r1', -, r3'⟩ := C96_call_partial (exArgs .gpu [2, 1]) exPar (exInputs (1 / 4)) exVis exSizes
    (ex_ready .gpu (.inr rfl) _) (.inr rfl) (ex_w _ _)
  refine ⟨_, _, exPar, exInputs (1 / 4), exVis, r, r', exSizes, ex_ready .cpu (.inl rfl) _, ex_ready .gpu (.inr rfl) _, rfl, rfl,
    r1, r1', ?_, ?_⟩
  · have h := r3 0 0 0 0 (by decide) (by decide) (by decide) (by decide)
    have hin : Inside (problem (nearest MemLocation.cpu) exSizes exPar (exInputs (1 / 4))) 0 0 0 := by
      unfold Inside; decide +kernel
    have hv : interp (problem (nearest MemLocation.cpu) exSizes exPar (exInputs (1 / 4))) 0 0 0 0 = 2 := by decide +kernel
    have h : r.get 0 = if Inside (problem (nearest MemLocation.cpu) exSizes exPar (exInputs (1 / 4))) 0 0 0 then
      interp (problem (nearest MemLocation.cpu) exSizes exPar (exInputs (1 / 4))) 0 0 0 0 else 0 := h
    rw [h, if_pos hin, hv]
  · have h := r3' 0 0 0 0 (by decide) (by decide) (by decide) (by decide)
    have hin : Inside (problem (nearest MemLocation.gpu) exSizes exPar (exInputs (1 / 4))) 0 0 0 := by
      unfold Inside; decide +kernel
    have hv : interp (problem (nearest MemLocation.gpu) exSizes exPar (exInputs (1 / 4))) 0 0 0 0 = 1 := by decide +kernel
    have h : r'.get 0 = if Inside (problem (nearest MemLocation.gpu) exSizes exPar (exInputs (1 / 4))) 0 0 0 then
      interp (problem (nearest MemLocation.gpu) exSizes exPar (exInputs (1 / 4))) 0 0 0 0 else 0 := h
    rw [h, if_pos hin, hv]

/-- **The dimensions of the kernels are not checked.**  A kernel of one dimension counts as one of size 0: the call succeeds
and the visibilities become 0.  For a kernel without dimensions the oversampling is 0, and the call divides by it. -/
theorem C96_kernel_false :
    (∃ r : Arr ℚ, (∀ o, Calls true (exArgs .cpu [2]) exPar (exInputs 0) .success ⟨8, fun _ => 5⟩ o ↔ o = some (.success, r)) ∧
      r.get 0 = 0) ∧
    (∀ o, Calls true (exArgs .cpu []) exPar (exInputs 0) .success exVis o ↔ o = none) := by
  have c1 : check (exArgs .cpu [2]) .success = .success := by decide
  have c2 : check (exArgs .cpu []) .success = .success := by decide
  constructor
  · have e : (degrid (cfgOf WTower.rnd (exArgs .cpu [2]) exPar (exInputs 0)) ⟨8, fun _ => 5⟩).map (fun r => r.get 0) =
        some 0 := by decide +kernel
    rw [Option.map_eq_some_iff] at e
    obtain ⟨r, r1, r2⟩ := e
    refine ⟨r, fun o => ?_, r2⟩
    unfold Calls
    rw [if_neg (by rw [c1]; simp)]
    show o = _ ↔ _
    rw [r1]
    rfl
  · intro o
    unfold Calls
    rw [if_neg (by rw [c2]; simp)]
    have e : (degrid (cfgOf WTower.rnd (exArgs .cpu []) exPar (exInputs 0)) exVis).isNone = true := by decide +kernel
    rw [Option.isNone_iff_eq_none] at e
    show o = _ ↔ _
    rw [e]
    rfl

/-- The visibilities in Fortran order. -/
def exFortran : Args := { exArgs .cpu [2, 1] with
  vis := (createWrapper (some ⟨0, 0⟩) .complexDouble .cpu [1, 2, 1, 4] (some [16, 16, 32, 32]) .success).1 }

/-- **Visibilities that are not contiguous are accepted**: stored in Fortran order, polarisation 1 of the first baseline gets
the value of polarisation 2. -/
theorem C96_layout_false : ∃ r : Arr ℚ,
    (∀ o, Calls true exFortran exPar (exInputs 0) .success exVis o ↔ o = some (.success, r)) ∧
    strided exFortran.vis r [0, 0, 0, 1] = some 3 ∧
    interp (problem WTower.rnd exSizes exPar (exInputs 0)) 0 0 0 1 = 2 ∧
    interp (problem WTower.rnd exSizes exPar (exInputs 0)) 0 0 0 2 = 3 := by
  have c1 : check exFortran .success = .success := by decide
  have e : (degrid (cfgOf WTower.rnd exFortran exPar (exInputs 0)) exVis).map
      (fun r => strided exFortran.vis r [0, 0, 0, 1]) = some (some 3) := by decide +kernel
  rw [Option.map_eq_some_iff] at e
  obtain ⟨r, r1, r2⟩ := e
  refine ⟨r, fun o => ?_, r2, by decide +kernel, by decide +kernel⟩
  unfold Calls
  rw [if_neg (by rw [c1]; simp)]
  show o = _ ↔ _
  rw [r1]
  rfl

/-- A call that meets the hypotheses of C96 on either device, and of the agreement; it changes the visibilities. -/
example : Ready (exArgs .gpu [2, 1]) exPar (exInputs (1 / 3)) exVis exSizes ∧
    (∀ i : Int, (1 : ℚ) * (1 / 3) * 2 ≠ i + 1 / 2) ∧ NoTie exSizes exPar (exInputs (1 / 3)) ∧
    Inside (problem rne exSizes exPar (exInputs (1 / 3))) 0 0 0 ∧
    interp (problem rne exSizes exPar (exInputs (1 / 3))) 0 0 0 0 = 2 := by
  have nt : ∀ i : Int, (1 : ℚ) * (1 / 3) * 2 ≠ i + 1 / 2 := by
    intro i h
    have h2 : (6 * i : ℚ) = 1 := by linarith
    have h2 : 6 * i = 1 := by exact_mod_cast h2
    omega
  have nz : ∀ i : Int, (1 : ℚ) * 0 * 2 ≠ i + 1 / 2 := by
    intro i h
    have h2 : (2 * i : ℚ) = -1 := by linarith
    have h2 : 2 * i = -1 := by exact_mod_cast h2
    omega
  have nw : ∀ i : Int, ((1 : ℚ) + 0 / 1) * 1 ≠ i + 1 / 2 := by
    intro i h
    have h2 : (2 * i : ℚ) = 1 := by linarith
    have h2 : 2 * i = 1 := by exact_mod_cast h2
    omega
  refine ⟨ex_ready .gpu (.inr rfl) _, nt, ?_, by unfold Inside; decide +kernel, by decide +kernel⟩
  intro t b c ht hb hc i
  have ht : t = 0 := by simp only [exSizes] at ht; omega
  have hc : c = 0 := by simp only [exSizes] at hc; omega
  have hb : b = 0 ∨ b = 1 := by simp only [exSizes] at hb; omega
  subst ht hc
  have e0 : coordOf (problem rne exSizes exPar (exInputs (1 / 3))) 0 b 0 0 = 1 / 3 := by
    rcases hb with rfl | rfl <;> decide +kernel
  have e1 : coordOf (problem rne exSizes exPar (exInputs (1 / 3))) 0 b 0 1 = 0 := by
    rcases hb with rfl | rfl <;> decide +kernel
  have e2 : coordOf (problem rne exSizes exPar (exInputs (1 / 3))) 0 b 0 2 = 0 := by
    rcases hb with rfl | rfl <;> decide +kernel
  rw [e0, e1, e2]
  have := nt i
  have := nz i
  have := nw i
  refine ⟨?_, ?_, ?_⟩
  · simpa [exPar, exSizes] using nt i
  · simpa [exPar, exSizes] using nz i
  · simpa [exPar, exSizes] using nw i

end Sdp.Custom
