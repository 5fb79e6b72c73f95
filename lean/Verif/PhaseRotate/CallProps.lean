import Mathlib.Tactic.IntervalCases
import Verif.PhaseRotate.Call

/-!
# C78 — whole phase rotation calls, on CPU and GPU
-/

namespace Sdp.PhaseRotate
noncomputable section

/-! ## GPU threads -/

/-- Rotation of the triples in a list, in the order of the list. -/
theorem uvwBody_spec (m : Nat → ℝ) (src : Option (Arr ℝ)) (n : Nat) (out0 : Arr ℝ)
    (hs : ∀ a, src = some a → n * 3 ≤ a.size) (l : List Nat) :
    ∀ (out : Arr ℝ), n * 3 ≤ out.size → l.Nodup → (∀ k ∈ l, k < n) →
      (∀ k ∈ l, ∀ i, triple out k i = triple out0 k i) →
    ∃ r, loop (uvwBody m src) out l = some r ∧ r.size = out.size ∧
      (∀ k ∈ l, ∀ i, triple r k i = apply m (triple (src.getD out0) k) i) ∧
      (∀ k, k ∉ l → ∀ i, triple r k i = triple out k i) := by
  induction l with
  | nil => intro out _ _ _ _; exact ⟨out, rfl, rfl, by simp, fun _ _ _ => rfl⟩
  | cons k l ih =>
    intro out ho hn hk he
    rw [List.nodup_cons] at hn
    have hkn : k < n := hk k (by simp)
    have hget : ∀ i : Fin 3, (src.getD out).get (k * 3 + i) = triple (src.getD out0) k i := by
      intro i
      cases src with
      | none => exact he k (by simp) i
      | some a => rfl
    have hsz : k * 3 + 2 < (src.getD out).size := by
      cases src with
      | none => simp only [Option.getD_none]; omega
      | some a => have := hs a rfl; simp only [Option.getD_some]; omega
    have hrd : ∀ i : Fin 3, readSrc src out ((k : Int) * 3 + (i : Nat)) =
        some (triple (src.getD out0) k i) := by
      intro i
      unfold readSrc
      have := i.2
      rw [show (k : Int) * 3 + (i : Nat) = ((k * 3 + i : Nat) : Int) by push_cast; ring, Arr.read_nat,
        if_pos (by omega), hget]
    have h0 := hrd 0
    have h1 := hrd 1
    have h2 := hrd 2
    simp only [Fin.val_zero, Fin.val_one, Fin.val_two, Nat.cast_zero, Nat.cast_one, Nat.cast_ofNat] at h0 h1 h2
    set x := triple (src.getD out0) k with hx
    have hw : ∀ (a : Arr ℝ) (i : Nat) (y : ℝ), i ≤ 2 → a.size = out.size →
        a.write ((k : Int) * 3 + i) y = some (a.put (k * 3 + i) y) := by
      intro a i y hi ha
      rw [show (k : Int) * 3 + i = ((k * 3 + i : Nat) : Int) by push_cast; ring, Arr.write_nat,
        if_pos (by omega)]
    set o1 := out.put (k * 3 + 0) (m 0 * x 0 + m 1 * x 1 + m 2 * x 2) with ho1
    set o2 := o1.put (k * 3 + 1) (m 3 * x 0 + m 4 * x 1 + m 5 * x 2) with ho2
    set o3 := o2.put (k * 3 + 2) (m 6 * x 0 + m 7 * x 1 + m 8 * x 2) with ho3
    have hstep : uvwBody m src out k = some o3 := by
      unfold uvwBody
      simp only
      rw [h0, h1, h2]
      simp only [Option.bind_some]
      have e0 := hw out 0 (m 0 * x 0 + m 1 * x 1 + m 2 * x 2) (by omega) rfl
      push_cast at e0
      rw [e0]
      simp only [Option.bind_some]
      have e1 := hw o1 1 (m 3 * x 0 + m 4 * x 1 + m 5 * x 2) (by omega) rfl
      push_cast at e1
      rw [e1]
      simp only [Option.bind_some]
      have e2 := hw o2 2 (m 6 * x 0 + m 7 * x 1 + m 8 * x 2) (by omega) rfl
      push_cast at e2
      exact e2
    have hval : ∀ i, triple o3 k i = apply m x i := by
      intro i
      unfold triple
      fin_cases i <;> simp [o3, o2, o1, Arr.put_get, apply]
    have hother : ∀ k', k' ≠ k → ∀ i, triple o3 k' i = triple out k' i := by
      intro k' hk' i
      have := i.2
      unfold triple
      rw [ho3, Arr.put_get, if_neg (by omega), ho2, Arr.put_get, if_neg (by omega), ho1, Arr.put_get,
        if_neg (by omega)]
    obtain ⟨r, hr, hrs, hv, hf⟩ := ih o3 ho hn.2 (fun k' hk' => hk k' (by simp [hk'])) (fun k' hk' i => by
      rw [hother k' (fun e => hn.1 (e ▸ hk')) i]
      exact he k' (by simp [hk']) i)
    refine ⟨r, ?_, hrs, ?_, ?_⟩
    · simp only [loop, hstep, Option.bind_some]
      exact hr
    · intro k' hk' i
      rcases List.mem_cons.1 hk' with e | e
      · rw [e, hf k hn.1 i, hval]
      · exact hv k' e i
    · intro k' hk' i
      rw [List.mem_cons, not_or] at hk'
      rw [hf k' hk'.2 i, hother k' hk'.1 i]

theorem uvwThread_eq (num : Nat) (m : Nat → ℝ) (src : Option (Arr ℝ)) (out : Arr ℝ) (i : Nat) :
    uvwThread num m src out i = if decide (i < num) then uvwBody m src out i else some out := by
  unfold uvwThread
  by_cases h : i < num
  · rw [if_neg (by omega), if_pos (by simpa using h)]
    unfold uvwBody
    simp only [add_zero]
    rw [mul_comm (3 : Int) (i : Int)]
  · rw [if_pos (by omega), if_neg (by simpa using h)]

/-- The GPU rotates every triple once, whatever the order of its threads. -/
theorem C78_gpu_uvw (num : Nat) (m : Nat → ℝ) (src : Option (Arr ℝ)) (out : Arr ℝ)
    (ho : out.size = num * 3) (hs : ∀ a, src = some a → a.size = num * 3) (order : List Nat)
    (hp : order.Perm (uvwThreads num)) :
    ∃ r, loop (uvwThread num m src) out order = some r ∧ r.size = out.size ∧
      ∀ k < num, ∀ i, triple r k i = apply m (triple (src.getD out) k) i := by
  have h := launch1 (le_blocks num 256 (by decide)) hp
  obtain ⟨r, hr, hrs, hv, -⟩ := uvwBody_spec m src num out (fun a ha => (hs a ha).ge)
    (order.filter fun i : Nat => decide (i < num)) out ho.ge (h.nodup_iff.2 List.nodup_range)
    (fun k hk => List.mem_range.1 (h.mem_iff.1 hk)) (fun _ _ _ => rfl)
  refine ⟨r, ?_, hrs, fun k hk i => hv k (h.mem_iff.2 (List.mem_range.2 hk)) i⟩
  rw [← hr, ← loop_filter]
  exact loop_congr _ _ _ _ fun x _ s => uvwThread_eq num m src s x

theorem visThread_eq (D : Dims) (hp : D.pols ≤ 4) (f0 df : ℝ) (d : ℝ × ℝ × ℝ) (uvw : Arr ℝ)
    (hu : uvw.size = D.times * D.baselines * 3) (src : Option (Arr ℂ)) (out : Arr ℂ) (x : Nat × Nat × Nat) :
    visThread D f0 df d uvw src out x =
      if decide (x.1 < D.baselines ∧ x.2.1 < D.channels ∧ x.2.2 < D.times) then
        loop (visBody D f0 df d uvw src) out ((List.range D.pols).map fun p => (x.2.2, x.1, x.2.1, p))
      else some out := by
  unfold visThread
  by_cases hx : x.1 < D.baselines ∧ x.2.1 < D.channels ∧ x.2.2 < D.times
  · rw [if_neg (by omega), if_pos (by simpa using hx), loop_map]
    have hb := flat_lt hx.2.2 hx.1
    have e : ∀ i : Nat, (3 * ((D.baselines : Int) * x.2.2 + x.1)) + i =
        ((3 * (D.baselines * x.2.2 + x.1) + i : Nat) : Int) := by
      intro i; push_cast; ring
    have r : ∀ i : Nat, i ≤ 2 → uvw.read ((3 * ((D.baselines : Int) * x.2.2 + x.1)) + i) =
        some (uvw.get (3 * (D.baselines * x.2.2 + x.1) + i)) := by
      intro i hi
      rw [e, Arr.read_nat, hu, if_pos (by omega)]
    have r0 := r 0 (by omega)
    have r1 := r 1 (by omega)
    have r2 := r 2 (by omega)
    push_cast at r0 r1 r2
    have ei : index3 (D.baselines : Int) 3 x.2.2 x.1 0 = 3 * ((D.baselines : Int) * x.2.2 + x.1) := by
      unfold index3; ring
    rw [add_zero] at r0
    simp only [visBody, ei, r0, r1, r2, Option.bind_some, add_zero, phase]
    refine loop_congr _ _ _ _ fun p _ o => ?_
    congr 1; funext y
    congr 1
    apply Complex.ext
    · simp only [Complex.mul_re]; ring
    · simp only [Complex.mul_im]; ring
  · rw [if_pos (by omega), if_neg (by simpa using hx)]

theorem visThreads_perm (D : Dims) (order : List (Nat × Nat × Nat)) (ho : order.Perm (visThreads D)) :
    ((order.filter fun p : Nat × Nat × Nat =>
      decide (p.1 < D.baselines ∧ p.2.1 < D.channels ∧ p.2.2 < D.times)).flatMap fun x =>
        (List.range D.pols).map fun p => (x.2.2, x.1, x.2.1, p)).Perm
      (nest4 D.times D.baselines D.channels D.pols) := by
  have h := launch3 (le_blocks D.baselines 128 (by decide)) (le_blocks D.channels 2 (by decide))
    (le_blocks D.times 2 (by decide)) ho
  refine (h.flatMap_right _).trans ?_
  have h' : ((nest3 D.baselines D.channels D.times).map fun x => (x.2.2, x.1, x.2.1)).Perm
      (nest3 D.times D.baselines D.channels) := by
    rw [List.perm_ext_iff_of_nodup]
    · intro x
      rw [List.mem_map, mem_nest3]
      constructor
      · rintro ⟨y, hy, rfl⟩
        rw [mem_nest3] at hy
        exact ⟨hy.2.2, hy.1, hy.2.1⟩
      · rintro ⟨h1, h2, h3⟩
        exact ⟨(x.2.1, x.2.2, x.1), mem_nest3.2 ⟨h2, h3, h1⟩, rfl⟩
    · refine (nest3_nodup _ _ _).map ?_
      rintro ⟨a, b, c⟩ ⟨a', b', c'⟩ h
      simp only [Prod.mk.injEq] at h ⊢
      omega
    · exact nest3_nodup _ _ _
  have := h'.flatMap_right fun p => (List.range D.pols).map fun k => (p.1, p.2.1, p.2.2, k)
  rw [List.flatMap_map] at this
  exact this

/-- The GPU multiplies every visibility once by its phasor, whatever the order of its threads. -/
theorem C78_gpu_vis (D : Dims) (hp : D.pols ≤ 4) (f0 df : ℝ) (d : ℝ × ℝ × ℝ) (uvw : Arr ℝ)
    (src : Option (Arr ℂ)) (out : Arr ℂ) (hu : uvw.size = D.times * D.baselines * 3)
    (ho : out.size = D.times * D.baselines * D.channels * D.pols)
    (hs : ∀ a, src = some a → a.size = D.times * D.baselines * D.channels * D.pols)
    (order : List (Nat × Nat × Nat)) (hord : order.Perm (visThreads D)) :
    ∃ r, loop (visThread D f0 df d uvw src) out order = some r ∧ r.size = out.size ∧
      ∀ t b c p, Sample D t b c p → r.get (visPos D t b c p) =
        (src.getD out).get (visPos D t b c p) *
          Complex.exp (visPhase D f0 df d uvw t b c * Complex.I) := by
  obtain ⟨r, hr, h⟩ := rotateVis_perm D f0 df d uvw src out hu ho hs _ (visThreads_perm D order hord)
  refine ⟨r, ?_, h⟩
  rw [← hr, loop_flatMap, ← loop_filter]
  exact loop_congr _ _ _ _ fun x _ s => visThread_eq D hp f0 df d uvw hu src s x

/-! ## Checks -/

/-- The documented arguments of `sdp_phase_rotate_uvw` for `nt` times and `nb` baselines. -/
structure ArgsUvw (ui uo : Mem) (nt nb : Int) : Prop where
  inShape : HasShape ui [nt, nb, 3]
  outShape : HasShape uo [nt, nb, 3]
  types : ui.type = .double ∧ uo.type = .double ∨ ui.type = .float ∧ uo.type = .float
  data : ui.data ≠ none ∧ uo.data ≠ none
  location : uo.location = ui.location
  contiguous : uo.isCContiguous = true
  writeable : uo.isReadOnly = false

/-- The documented arguments of `sdp_phase_rotate_vis`. -/
structure ArgsVis (uvw vi vo : Mem) (nt nb nc np : Int) : Prop where
  pols : np = 1 ∨ np = 4
  coords : HasShape uvw [nt, nb, 3]
  inShape : HasShape vi [nt, nb, nc, np]
  outShape : HasShape vo [nt, nb, nc, np]
  types : uvw.type = .double ∧ vi.type = .complexDouble ∧ vo.type = .complexDouble ∨
    uvw.type = .float ∧ vi.type = .complexFloat ∧ vo.type = .complexFloat
  data : uvw.data ≠ none ∧ vi.data ≠ none ∧ vo.data ≠ none
  location : vi.location = uvw.location ∧ vo.location = uvw.location
  contiguous : uvw.isCContiguous = true ∧ vi.isCContiguous = true
  writeable : vo.isReadOnly = false

theorem checkUvw_iff (ui uo : Mem) (st : Status) (nt nb : Int) :
    (checkUvwCall ui uo st = (.success, nt, nb) ∧ uvwTypes ui uo = true) ↔
      st = .success ∧ ArgsUvw ui uo nt nb := by
  unfold checkUvwCall uvwTypes
  by_cases hst : st = .success
  swap
  · rw [if_pos hst]; simp [hst]
  rw [if_neg (by simpa using hst)]
  set w : DWant := { numChannels := false, numPols := false } with hw
  obtain ⟨hr1, hr2⟩ := C09_uvw_metadata w ui (checkWriteable uo st)
  simp only [decide_eq_true_iff, Prod.mk.injEq]
  rw [C09_check_uvw]
  constructor
  · rintro ⟨⟨h, e1, e2⟩, ht⟩
    obtain ⟨h0, hd, hrt, hsh, hloc, hty, hc⟩ := h
    obtain ⟨-, -, q1, q2, q3, q4⟩ := hr2 h0
    have q1 := q1 rfl
    have q2 := q2 rfl
    have q3 := q3 rfl
    have q4 := q4 rfl
    rw [q2] at hloc
    rw [q3] at e1 hsh
    rw [q4] at e2 hsh
    simp only [Option.getD_some] at e1 e2 hloc hsh
    obtain ⟨hwr, hdi, -, hnd, h3⟩ := hr1.1 h0
    rw [checkWriteable_iff] at hwr
    refine ⟨hst, ⟨⟨hnd, ?_⟩, ?_, ht, ⟨hdi, hd⟩, hloc, hc, hwr.2.2⟩⟩
    · intro k hk
      simp only [List.length_cons, List.length_nil] at hk
      interval_cases k
      · exact e1
      · exact e2
      · exact h3
    · rw [e1, e2] at hsh; exact hsh
  · rintro ⟨-, h⟩
    have h0 : (getUvwMetadata w ui (checkWriteable uo st)).2 = .success := by
      refine hr1.2 ⟨?_, h.data.1, ?_, h.inShape.1, ?_⟩
      · rw [checkWriteable_iff]; exact ⟨hst, h.data.2, h.writeable⟩
      · rcases h.types with t | t
        · exact Or.inr t.1
        · exact Or.inl t.1
      · simpa using h.inShape.2 2 (by simp)
    obtain ⟨-, -, q1, q2, q3, q4⟩ := hr2 h0
    have q1 := q1 rfl
    have q2 := q2 rfl
    have q3 := q3 rfl
    have q4 := q4 rfl
    have i0 : ui.shape.getD 0 0 = nt := by simpa using h.inShape.2 0 (by simp)
    have i1 : ui.shape.getD 1 0 = nb := by simpa using h.inShape.2 1 (by simp)
    rw [q1, q2, q3, q4, i0, i1]
    simp only [Option.getD_some]
    refine ⟨⟨⟨h0, h.data.2, ?_, h.outShape, h.location, Or.inr ?_, h.contiguous⟩, trivial, trivial⟩, h.types⟩
    · rcases h.types with t | t
      · exact Or.inr t.2
      · exact Or.inl t.2
    · rcases h.types with t | t
      · rw [t.1, t.2]
      · rw [t.1, t.2]

theorem checkVis_iff (uvw vi vo : Mem) (st : Status) (nt nb nc np : Int) :
    (checkVisCall uvw vi vo st = (.success, nt, nb, nc, np) ∧ visTypes uvw vi vo = true) ↔
      st = .success ∧ ArgsVis uvw vi vo nt nb nc np := by
  unfold checkVisCall visTypes
  by_cases hst : st = .success
  swap
  · rw [if_pos hst]; simp [hst]
  rw [if_neg (by simpa using hst)]
  obtain ⟨hr1, hr2⟩ := C09_vis_metadata {} vo (checkLocation vo uvw.location (checkWriteable vo st))
  simp only [decide_eq_true_iff, Prod.mk.injEq]
  rw [C09_check_uvw, C09_check_vis]
  constructor
  · rintro ⟨⟨h, e1, e2, e3, e4⟩, ht⟩
    obtain ⟨⟨h0, vd, vt, vs, vl, vty, vc⟩, hd, hrt, hsh, -, -, hc⟩ := h
    obtain ⟨q1, q2, q3, q4, q5, q6⟩ := hr2 h0
    have q1 := q1 rfl
    have q3 := q3 rfl
    have q4 := q4 rfl
    have q5 := q5 rfl
    have q6 := q6 rfl
    rw [e1, e2] at hsh
    rw [e1, e2, e3, e4] at vs
    rw [q3] at e1
    rw [q4] at e2
    rw [q5] at e3
    rw [q6] at e4
    simp only [Option.getD_some] at e1 e2 e3 e4
    obtain ⟨hwr, hdo, -, hnd, hp⟩ := hr1.1 h0
    rw [checkLocation_iff, checkWriteable_iff] at hwr
    refine ⟨hst, ⟨by have := hp rfl; rwa [e4] at this, hsh, vs, ⟨hnd, ?_⟩, ht, ⟨hd, vd, hdo⟩,
      ⟨vl, hwr.2⟩, ⟨hc, vc⟩, hwr.1.2.2⟩⟩
    intro k hk
    simp only [List.length_cons, List.length_nil] at hk
    interval_cases k
    · exact e1
    · exact e2
    · exact e3
    · exact e4
  · rintro ⟨-, h⟩
    have i0 : vo.shape.getD 0 0 = nt := by simpa using h.outShape.2 0 (by simp)
    have i1 : vo.shape.getD 1 0 = nb := by simpa using h.outShape.2 1 (by simp)
    have i2 : vo.shape.getD 2 0 = nc := by simpa using h.outShape.2 2 (by simp)
    have i3 : vo.shape.getD 3 0 = np := by simpa using h.outShape.2 3 (by simp)
    have hct : ComplexType vo.type ∧ ComplexType vi.type ∧ vi.type = vo.type ∧ RealType uvw.type := by
      rcases h.types with ⟨a, b, c⟩ | ⟨a, b, c⟩ <;> simp [ComplexType, RealType, a, b, c]
    have h0 : (getVisMetadata {} vo (checkLocation vo uvw.location (checkWriteable vo st))).2 = .success := by
      refine hr1.2 ⟨?_, h.data.2.2, hct.1, h.outShape.1, fun _ => by rw [i3]; exact h.pols⟩
      rw [checkLocation_iff, checkWriteable_iff]
      exact ⟨⟨hst, h.data.2.2, h.writeable⟩, h.location.2⟩
    obtain ⟨q1, q2, q3, q4, q5, q6⟩ := hr2 h0
    have q1 := q1 rfl
    have q3 := q3 rfl
    have q4 := q4 rfl
    have q5 := q5 rfl
    have q6 := q6 rfl
    rw [q1, q3, q4, q5, q6, i0, i1, i2, i3]
    simp only [Option.getD_some]
    exact ⟨⟨⟨⟨h0, h.data.2.1, hct.2.1, h.inShape, h.location.1, Or.inr hct.2.2.1, h.contiguous.2⟩,
      h.data.1, hct.2.2.2, h.coords, trivial, Or.inl trivial, h.contiguous.1⟩, trivial, trivial, trivial, trivial⟩, h.types⟩

/-! ## Calls -/

/-- **C78, `sdp_phase_rotate_uvw`.**  For every set of arguments, in place or not, on either device and in any order of GPU threads: the
call accesses nothing outside the arrays; it succeeds exactly for the documented arguments; then every
triple of the output is the input triple rotated about v and then about u, and otherwise the output is
unchanged.  Missing: triples here are three consecutive values in memory; those of the input are its own
coordinates only if it is contiguous, which is not checked (`C78_layout_false`). -/
theorem C78_uvw_partial (orig new : Coord) (ui uo : Mem) (src : Option (Arr ℝ)) (out : Arr ℝ)
    (hi : Holds ui (src.getD out)) (ho : Holds uo out) (hloc : ui.location ≠ .other) (st : Status)
    (cuda : Bool) (order : List Nat)
    (hord : order.Perm (uvwThreads ((ui.shapeDim 0) * (ui.shapeDim 1)).toNat)) :
    ∃ s a, callUvw orig new ui uo st cuda order src out = some (s, a) ∧
      (s = .success ↔ st = .success ∧ (ui.location = .cpu ∨ cuda = true) ∧ ∃ nt nb, ArgsUvw ui uo nt nb) ∧
      (s ≠ .success → a = out) ∧
      (s = .success → a.size = out.size ∧ ∀ nt nb : Nat, HasShape ui [nt, nb, 3] → ∀ k < nt * nb, ∀ i,
        triple a k i = rotU (new.dec - orig.dec) (rotV (orig.ra - new.ra) (triple (src.getD out) k)) i) := by
  unfold callUvw
  rcases hc : checkUvwCall ui uo st with ⟨s, nt, nb⟩
  have hiff := checkUvw_iff ui uo st
  have hshape : ∀ nt nb, ArgsUvw ui uo nt nb → ui.shapeDim 0 = nt ∧ ui.shapeDim 1 = nb := by
    intro nt nb h
    have l3 := h.inShape.1
    simp only [List.length_cons, List.length_nil] at l3
    have s0 := shapeDim_lt ui 0 (by omega)
    have s1 := shapeDim_lt ui 1 (by omega)
    rw [h.inShape.2 0 (by simp)] at s0
    rw [h.inShape.2 1 (by simp)] at s1
    exact ⟨s0, s1⟩
  by_cases hs : s = .success
  swap
  · simp only
    rw [if_pos hs]
    refine ⟨_, _, rfl, ⟨fun h => absurd h hs, fun h => ?_⟩, fun _ => rfl, fun h => absurd h hs⟩
    obtain ⟨h1, -, nt', nb', h2⟩ := h
    have := ((hiff nt' nb').2 ⟨h1, h2⟩).1
    rw [hc] at this
    exact absurd (Prod.ext_iff.1 this).1 hs
  subst hs
  simp only
  rw [if_neg (by simp)]
  unfold dispatch
  by_cases ht : uvwTypes ui uo = true
  · obtain ⟨h0, ha⟩ := (hiff nt nb).1 ⟨hc, ht⟩
    obtain ⟨a1, a2⟩ := hshape nt nb ha
    obtain ⟨d1, d2⟩ := hi.of_shape ha.inShape
    obtain ⟨-, d3⟩ := ho.of_shape ha.outShape
    rw [a1, a2] at hord
    have p0 := d1 nt (by simp)
    have p1 := d1 nb (by simp)
    lift nt to ℕ using p0
    lift nb to ℕ using p1
    simp only [List.prod_cons, List.prod_nil, mul_one] at d2 d3
    have e : ((nt : Int) * nb).toNat = nt * nb := by rw [← Nat.cast_mul, Int.toNat_natCast]
    rw [e] at hord ⊢
    have hos : out.size = nt * nb * 3 := by zify; rw [d3]; ring
    have his : ∀ x, src = some x → x.size = nt * nb * 3 := by
      intro x hx
      rw [hx] at d2
      simp only [Option.getD_some] at d2
      zify; rw [d2]; ring
    have hfin : ∀ r : Arr ℝ, (∀ k < nt * nb, ∀ i, triple r k i =
        rotU (new.dec - orig.dec) (rotV (orig.ra - new.ra) (triple (src.getD out) k)) i) →
        ∀ nt' nb' : Nat, HasShape ui [nt', nb', 3] → ∀ k < nt' * nb', ∀ i, triple r k i =
        rotU (new.dec - orig.dec) (rotV (orig.ra - new.ra) (triple (src.getD out) k)) i := by
      intro r hr nt' nb' h
      have e1 := (ha.inShape.2 0 (by simp)).symm.trans (h.2 0 (by simp))
      have e2 := (ha.inShape.2 1 (by simp)).symm.trans (h.2 1 (by simp))
      simp only [List.getD, List.getElem?_cons_zero, List.getElem?_cons_succ, Option.getD_some,
        Nat.cast_inj] at e1 e2
      rw [← e1, ← e2]
      exact hr
    have hmat : ∀ x i, apply (mat orig new) x i = rotU (new.dec - orig.dec) (rotV (orig.ra - new.ra) x) i := by
      intro x i
      have e : -(new.ra - orig.ra) = orig.ra - new.ra := by ring
      fin_cases i <;> simp [apply, mat, rotU, rotV, e] <;> ring
    rw [if_pos ht, if_pos ht]
    cases hl : ui.location with
    | other => exact absurd hl hloc
    | cpu =>
      obtain ⟨r, r1, r2, r3⟩ := C19_rotation orig new (nt * nb) src out hos his
      simp only [r1, Option.map_some]
      exact ⟨_, _, rfl, ⟨fun _ => ⟨h0, Or.inl trivial, _, _, ha⟩, fun _ => rfl⟩, fun h => absurd rfl h,
        fun _ => ⟨r2, hfin r r3⟩⟩
    | gpu =>
      simp only
      by_cases hcu : cuda = true
      · obtain ⟨r, r1, r2, r3⟩ := C78_gpu_uvw (nt * nb) (mat orig new) src out hos his order hord
        rw [if_pos hcu, r1]
        refine ⟨_, _, rfl, ⟨fun _ => ⟨h0, Or.inr hcu, _, _, ha⟩, fun _ => rfl⟩, fun h => absurd rfl h,
          fun _ => ⟨r2, hfin r fun k hk i => ?_⟩⟩
        rw [r3 k hk i, hmat]
      · rw [if_neg hcu]
        exact ⟨_, _, rfl, by simp [hcu], fun _ => rfl, fun h => by simp at h⟩
  · have hna : ¬ (st = .success ∧ ∃ nt nb, ArgsUvw ui uo nt nb) := by
      rintro ⟨h1, nt', nb', h2⟩
      exact ht ((hiff nt' nb').2 ⟨h1, h2⟩).2
    rw [if_neg ht, if_neg ht]
    cases hl : ui.location with
    | other => exact absurd hl hloc
    | cpu => exact ⟨_, _, rfl, ⟨fun h => by simp at h, fun h => absurd ⟨h.1, h.2.2⟩ hna⟩, fun _ => rfl,
        fun h => by simp at h⟩
    | gpu => exact ⟨_, _, rfl, ⟨fun h => by simp at h, fun h => absurd ⟨h.1, h.2.2⟩ hna⟩, fun _ => rfl,
        fun h => by simp at h⟩

/-- Extents of a visibility array. -/
def dimsOf (v : Mem) : Dims :=
  ⟨(v.shapeDim 0).toNat, (v.shapeDim 1).toNat, (v.shapeDim 2).toNat, (v.shapeDim 3).toNat⟩

/-- **C78, `sdp_phase_rotate_vis`.**  The same for visibilities (in memory order; that the output is
contiguous is not checked): every visibility is multiplied by the phasor of 2 pi times its frequency over c times the
product of its coordinates with the difference of the direction cosines of the two centres. -/
theorem C78_vis_partial (orig new : Coord) (f0 df : ℝ) (uvw vi vo : Mem) (u : Arr ℝ)
    (src : Option (Arr ℂ)) (out : Arr ℂ) (hu : Holds uvw u) (hi : Holds vi (src.getD out)) (ho : Holds vo out)
    (hloc : uvw.location ≠ .other) (st : Status) (cuda : Bool) (order : List (Nat × Nat × Nat))
    (hord : order.Perm (visThreads (dimsOf vo))) :
    ∃ s a, callVis orig new f0 df uvw vi vo st cuda order u src out = some (s, a) ∧
      (s = .success ↔ st = .success ∧ (uvw.location = .cpu ∨ cuda = true) ∧
        ∃ nt nb nc np, ArgsVis uvw vi vo nt nb nc np) ∧
      (s ≠ .success → a = out) ∧
      (s = .success → a.size = out.size ∧ ∀ t b c p, Sample (dimsOf vo) t b c p →
        a.get (visPos (dimsOf vo) t b c p) = (src.getD out).get (visPos (dimsOf vo) t b c p) *
          Complex.exp (2 * Real.pi * ((f0 + c * df) / 299792458) *
            dot (uvwOf (dimsOf vo) u t b)
              ![dot (direction orig) (east orig) - dot (direction new) (east orig),
                dot (direction orig) (north orig) - dot (direction new) (north orig),
                dot (direction orig) (direction orig) - dot (direction new) (direction orig)]
            * Complex.I)) := by
  unfold callVis
  rcases hc : checkVisCall uvw vi vo st with ⟨s, nt, nb, nc, np⟩
  have hiff := checkVis_iff uvw vi vo st
  by_cases hs : s = .success
  swap
  · simp only
    rw [if_pos hs]
    refine ⟨_, _, rfl, ⟨fun h => absurd h hs, fun h => ?_⟩, fun _ => rfl, fun h => absurd h hs⟩
    obtain ⟨h1, -, nt', nb', nc', np', h2⟩ := h
    have := ((hiff nt' nb' nc' np').2 ⟨h1, h2⟩).1
    rw [hc] at this
    exact absurd (Prod.ext_iff.1 this).1 hs
  subst hs
  simp only
  rw [if_neg (by simp)]
  unfold dispatch
  by_cases ht : visTypes uvw vi vo = true
  · obtain ⟨h0, ha⟩ := (hiff nt nb nc np).1 ⟨hc, ht⟩
    have hD : dimsOf vo = ⟨nt.toNat, nb.toNat, nc.toNat, np.toNat⟩ := by
      have l4 := ha.outShape.1
      simp only [List.length_cons, List.length_nil] at l4
      have s0 := shapeDim_lt vo 0 (by omega)
      have s1 := shapeDim_lt vo 1 (by omega)
      have s2 := shapeDim_lt vo 2 (by omega)
      have s3 := shapeDim_lt vo 3 (by omega)
      rw [ha.outShape.2 0 (by simp)] at s0
      rw [ha.outShape.2 1 (by simp)] at s1
      rw [ha.outShape.2 2 (by simp)] at s2
      rw [ha.outShape.2 3 (by simp)] at s3
      unfold dimsOf
      simp only [Nat.cast_zero, Nat.cast_one, Nat.cast_ofNat] at s0 s1 s2 s3
      rw [s0, s1, s2, s3]
      rfl
    rw [← hD]
    obtain ⟨-, d2⟩ := hi.of_shape ha.inShape
    obtain ⟨d1, d3⟩ := ho.of_shape ha.outShape
    obtain ⟨-, d4⟩ := hu.of_shape ha.coords
    simp only [List.prod_cons, List.prod_nil, mul_one] at d2 d3 d4
    have p0 := d1 nt (by simp)
    have p1 := d1 nb (by simp)
    have p2 := d1 nc (by simp)
    have p3 := d1 np (by simp)
    have hpol := ha.pols
    have hus : u.size = (dimsOf vo).times * (dimsOf vo).baselines * 3 := by
      rw [hD]; zify; rw [d4, Int.toNat_of_nonneg p0, Int.toNat_of_nonneg p1]; ring
    have hos : out.size = (dimsOf vo).times * (dimsOf vo).baselines * (dimsOf vo).channels * (dimsOf vo).pols := by
      rw [hD]; zify
      rw [d3, Int.toNat_of_nonneg p0, Int.toNat_of_nonneg p1, Int.toNat_of_nonneg p2,
        Int.toNat_of_nonneg p3]; ring
    have his : ∀ x, src = some x → x.size =
        (dimsOf vo).times * (dimsOf vo).baselines * (dimsOf vo).channels * (dimsOf vo).pols := by
      intro x hx
      rw [hx] at d2
      simp only [Option.getD_some] at d2
      rw [hD]; zify
      rw [d2, Int.toNat_of_nonneg p0, Int.toNat_of_nonneg p1, Int.toNat_of_nonneg p2,
        Int.toNat_of_nonneg p3]; ring
    have h4 : (dimsOf vo).pols ≤ 4 := by rw [hD]; simp only; omega
    have hph : ∀ t b c, ((visPhase (dimsOf vo) f0 df (delta orig new) u t b c : ℝ) : ℂ) =
        2 * Real.pi * ((f0 + c * df) / 299792458) *
            dot (uvwOf (dimsOf vo) u t b)
              ![dot (direction orig) (east orig) - dot (direction new) (east orig),
                dot (direction orig) (north orig) - dot (direction new) (north orig),
                dot (direction orig) (direction orig) - dot (direction new) (direction orig)] := by
      intro t b c
      unfold visPhase
      rw [C20_offsets]
      generalize dot (direction orig) (east orig) - dot (direction new) (east orig) = x
      generalize dot (direction orig) (north orig) - dot (direction new) (north orig) = y
      generalize dot (direction orig) (direction orig) - dot (direction new) (direction orig) = z
      simp [dot]
    rw [if_pos ht, if_pos ht]
    cases hl : uvw.location with
    | other => exact absurd hl hloc
    | cpu =>
      obtain ⟨r, r1, r2, r3⟩ := rotateVis_spec (dimsOf vo) f0 df (delta orig new) u src out hus hos his
      simp only [r1, Option.map_some]
      refine ⟨_, _, rfl, ⟨fun _ => ⟨h0, Or.inl trivial, _, _, _, _, ha⟩, fun _ => rfl⟩, fun h => absurd rfl h,
        fun _ => ⟨r2, fun t b c p hS => ?_⟩⟩
      rw [r3 t b c p hS, hph]
    | gpu =>
      simp only
      by_cases hcu : cuda = true
      · obtain ⟨r, r1, r2, r3⟩ := C78_gpu_vis (dimsOf vo) h4 f0 df (delta orig new) u src out hus hos his
          order hord
        rw [if_pos hcu, r1]
        refine ⟨_, _, rfl, ⟨fun _ => ⟨h0, Or.inr hcu, _, _, _, _, ha⟩, fun _ => rfl⟩, fun h => absurd rfl h,
          fun _ => ⟨r2, fun t b c p hS => ?_⟩⟩
        rw [r3 t b c p hS, hph]
      · rw [if_neg hcu]
        exact ⟨_, _, rfl, by simp [hcu], fun _ => rfl, fun h => by simp at h⟩
  · have hna : ¬ (st = .success ∧ ∃ nt nb nc np, ArgsVis uvw vi vo nt nb nc np) := by
      rintro ⟨h1, nt', nb', nc', np', h2⟩
      exact ht ((hiff nt' nb' nc' np').2 ⟨h1, h2⟩).2
    rw [if_neg ht, if_neg ht]
    cases hl : uvw.location with
    | other => exact absurd hl hloc
    | cpu => exact ⟨_, _, rfl, ⟨fun h => by simp at h, fun h => absurd ⟨h.1, h.2.2⟩ hna⟩, fun _ => rfl,
        fun h => by simp at h⟩
    | gpu => exact ⟨_, _, rfl, ⟨fun h => by simp at h, fun h => absurd ⟨h.1, h.2.2⟩ hna⟩, fun _ => rfl,
        fun h => by simp at h⟩

/-- Value of a strided array at an index, as its owner reads it (byte strides over the item size). -/
def strided {α : Type} (m : Mem) (a : Arr α) (ix : List Int) : Option α :=
  a.read (((m.stride.zip ix).map fun x => x.1 * x.2).sum / m.type.size)

/-- Wrapper of given data for a shape with strides. -/
def wrapStrided (t : MemType) (shape stride : List Int) : Mem :=
  (createWrapper (some ⟨0, 0⟩) t .cpu shape (some stride) .success).1

/-- **C78 is false for arrays that are not contiguous**: `sdp_phase_rotate_uvw` accepts two baselines
stored in Fortran order and, for equal centres, where it must copy its input, gives the first baseline a
value of the second. -/
theorem C78_layout_false : ∃ (ui uo : Mem) (inp out r : Arr ℝ),
    Holds ui inp ∧ Holds uo out ∧ uo = wrap .double [1, 2, 3] ∧ ui = wrapStrided .double [1, 2, 3] [8, 8, 16] ∧
    callUvw ⟨0, 0⟩ ⟨0, 0⟩ ui uo .success false [] (some inp) out = some (.success, r) ∧
    strided ui inp [0, 0, 1] = some 7 ∧ strided uo r [0, 0, 1] = some 5 := by
  set inp : Arr ℝ := ⟨6, fun i => if i = 1 then 5 else 7⟩ with hinp
  set out : Arr ℝ := ⟨6, fun _ => 0⟩ with hout
  obtain ⟨r, r1, r3⟩ := C19_identity ⟨0, 0⟩ 2 (some inp) out (by simp [hout]) (by simp [hinp])
  obtain ⟨r', r1', r2', -⟩ := C19_length ⟨0, 0⟩ ⟨0, 0⟩ 2 (some inp) out (by simp [hout]) (by simp [hinp])
  have hrs : r.size = 6 := by
    rw [r1] at r1'
    injection r1' with e
    rw [e, r2', hout]
  refine ⟨wrapStrided .double [1, 2, 3] [8, 8, 16], wrap .double [1, 2, 3], inp, out, r,
    ⟨by decide, by decide, by decide⟩, ⟨by decide, by decide, by decide⟩, rfl, rfl, ?_, ?_, ?_⟩
  · unfold callUvw
    have hc : checkUvwCall (wrapStrided .double [1, 2, 3] [8, 8, 16]) (wrap .double [1, 2, 3]) .success =
      (.success, 1, 2) := by decide
    have ht : uvwTypes (wrapStrided .double [1, 2, 3] [8, 8, 16]) (wrap .double [1, 2, 3]) = true := by decide
    rw [hc, ht]
    have hl : (wrapStrided .double [1, 2, 3] [8, 8, 16]).location = .cpu := rfl
    simp only [dispatch, hl]
    rw [show ((1 : Int) * 2).toNat = 2 from rfl, r1]
    simp
  · have e : (((wrapStrided .double [1, 2, 3] [8, 8, 16]).stride.zip [0, 0, 1]).map
        fun x : Int × Int => x.1 * x.2).sum / (wrapStrided .double [1, 2, 3] [8, 8, 16]).type.size =
        ((2 : Nat) : Int) := by decide
    unfold strided
    rw [e, Arr.read_nat, if_pos (by simp [hinp])]
    simp [hinp]
  · have e : (((wrap .double [1, 2, 3]).stride.zip [0, 0, 1]).map
        fun x : Int × Int => x.1 * x.2).sum / (wrap .double [1, 2, 3]).type.size = ((1 : Nat) : Int) := by decide
    unfold strided
    rw [e, Arr.read_nat, if_pos (by omega)]
    have := r3 0 (by omega) 1
    simp only [triple, Fin.val_one, zero_mul, zero_add, Option.getD_some] at this
    rw [this, hinp]
    simp

/-- The arguments of a call on 2 times, 3 baselines, 2 channels and 4 polarisations. -/
example : ArgsVis (wrap .double [2, 3, 3]) (wrap .complexDouble [2, 3, 2, 4]) (wrap .complexDouble [2, 3, 2, 4])
    2 3 2 4 ∧ ArgsUvw (wrap .float [2, 3, 3]) (wrap .float [2, 3, 3]) 2 3 ∧
    Holds (wrap .float [2, 3, 3]) (⟨18, fun _ => 0⟩ : Arr ℝ) :=
  ⟨⟨by decide, ⟨by decide, by decide⟩, ⟨by decide, by decide⟩, ⟨by decide, by decide⟩, by decide, by decide,
    by decide, by decide, by decide⟩, ⟨⟨by decide, by decide⟩, ⟨by decide, by decide⟩, by decide, by decide,
    by decide, by decide, by decide⟩, ⟨by decide, by decide, by decide⟩⟩

end
end Sdp.PhaseRotate
