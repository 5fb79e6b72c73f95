import Verif.GridUtil.Scale
import Verif.Mem.Props2
import Verif.GridUtil.SumDiffProps

/-!
# C82: accumulating products and dividing arrays
-/

namespace Sdp.GridUtil
open Sdp.Race

/-- An array of two dimensions: element `(i, j)` is value number `pos i j` of the `size` values behind it, as
its strides say. -/
structure Plane (m : Mem) (size n0 n1 : Nat) (pos : Nat → Nat → Nat) : Prop where
  dims : m.numDims = 2
  rows : m.shapeDim 0 = n0
  cols : m.shapeDim 1 = n1
  strides : ∀ i j, i < n0 → j < n1 →
    (pos i j : Int) = i * m.strideElementsDim 0 + j * m.strideElementsDim 1
  fits : ∀ i j, i < n0 → j < n1 → pos i j < size

/-- No two elements share a value. -/
def Distinct (n0 n1 : Nat) (pos : Nat → Nat → Nat) : Prop :=
  ∀ i j i' j', i < n0 → j < n1 → i' < n0 → j' < n1 → pos i j = pos i' j' → i = i' ∧ j = j'

theorem plane_addr {m : Mem} {size n0 n1 : Nat} {pos : Nat → Nat → Nat} (h : Plane m size n0 n1 pos)
    {i j : Nat} (hi : i < n0) (hj : j < n1) : addr (mkView m 2 .success) (i, j) = (pos i j : Nat) := by
  rw [h.strides i j hi hj]
  simp [addr, mkView, List.range_succ, dot]

theorem plane_rows {m : Mem} {size n0 n1 : Nat} {pos : Nat → Nat → Nat} (h : Plane m size n0 n1 pos) :
    rows (mkView m 2 .success) = n0 ∧ cols (mkView m 2 .success) = n1 := by
  have h0 := h.rows
  have h1 := h.cols
  simp [rows, cols, mkView, List.range_succ, h0, h1]

theorem view_ok {m : Mem} {t : MemType} {l : MemLocation} (h : m.numDims = 2) (ht : m.type = t)
    (hl : m.location = l) (hd : m.data ≠ none) (hr : m.isReadOnly = false) :
    checkAndView m t 2 l .success = (mkView m 2 .success, .success) := by
  have := (view_status m t 2 l .success).2 ⟨rfl, ht, by simpa using h, hl, hd, hr⟩
  have e : (checkAndView m t 2 l .success).1 = mkView m 2 (checkAndView m t 2 l .success).2 := rfl
  rw [this] at e
  exact Prod.ext e this

theorem viewConst_ok {m : Mem} {t : MemType} {l : MemLocation} (h : m.numDims = 2) (ht : m.type = t)
    (hl : m.location = l) : checkAndViewConst m t 2 l .success = (mkView m 2 .success, .success) := by
  have := (viewConst_status m t 2 l .success).2 ⟨rfl, ht, by simpa using h, hl⟩
  have e : (checkAndViewConst m t 2 l .success).1 = mkView m 2 (checkAndViewConst m t 2 l .success).2 := rfl
  rw [this] at e
  exact Prod.ext e this

/-- Either way of running a body over all elements. -/
theorem run_yields {α : Type} (gpu cuda : Bool) (hc : gpu = true → cuda = true) (mo : Mem) (out : Arr α) {n0 n1 : Nat}
    {pos : Nat → Nat → Nat} (h : Plane mo out.size n0 n1 pos) (hd : Distinct n0 n1 pos)
    (body : Nat × Nat → Prog α) (val : Nat → Nat → α)
    (hb : ∀ i j, i < n0 → j < n1 → (body (i, j)).Within (fun x : Int => x = (pos i j : Nat)) ∧
      (body (i, j)).exec out = some (out.put (pos i j) (val i j))) (run : Run α)
    (hrun : run = if gpu then gpuRun cuda mo .success (mkView mo 2 .success) body
      else cpuRun .success (mkView mo 2 .success) body) :
    run.status = .success ∧ ∃ r, Yields run.prog run.threads out r ∧ r.size = out.size ∧
      (∀ i j, i < n0 → j < n1 → r.get (pos i j) = val i j) ∧
      ∀ x, (∀ i j, i < n0 → j < n1 → pos i j ≠ x) → r.get x = out.get x := by
  obtain ⟨e0, e1⟩ := plane_rows h
  have key : ∀ (ts : List (Nat × Nat)) (prog : Nat × Nat → Prog α),
      (∀ p, p.1 < n0 ∧ p.2 < n1 → p ∈ ts ∧ prog p = body p) →
      (∀ p ∈ ts, ¬ (p.1 < n0 ∧ p.2 < n1) → prog p = .done) →
      ∃ r, Yields prog ts out r ∧ r.size = out.size ∧
      (∀ i j, i < n0 → j < n1 → r.get (pos i j) = val i j) ∧
      ∀ x, (∀ i j, i < n0 → j < n1 → pos i j ≠ x) → r.get x = out.get x := by
    intro ts prog h1 h2
    obtain ⟨r, r1, r2, r3, r4⟩ := yields_own prog ts (fun p => p.1 < n0 ∧ p.2 < n1) (fun p => pos p.1 p.2)
      (fun p => val p.1 p.2) out
      (fun p _ hp => by rw [(h1 p hp).2]; exact hb p.1 p.2 hp.1 hp.2) (fun p hp => h2 p hp)
      (fun p _ p' _ hg hg' e => Prod.ext (hd _ _ _ _ hg.1 hg.2 hg'.1 hg'.2 e).1
        (hd _ _ _ _ hg.1 hg.2 hg'.1 hg'.2 e).2)
    exact ⟨r, r1, r2, fun i j hi hj => r3 (i, j) (h1 (i, j) ⟨hi, hj⟩).1 ⟨hi, hj⟩,
      fun x hx => r4 x fun p _ hp => hx p.1 p.2 hp.1 hp.2⟩
  cases gpu with
  | false =>
    simp only [Bool.false_eq_true, if_false] at hrun
    subst hrun
    refine ⟨rfl, key _ _ ?_ ?_⟩
    · intro p hp
      refine ⟨?_, rfl⟩
      show p ∈ nest2 (rows (mkView mo 2 .success)) (cols (mkView mo 2 .success))
      rw [e0, e1]
      exact mem_nest2.2 hp
    · intro p hp hn
      change p ∈ nest2 (rows (mkView mo 2 .success)) (cols (mkView mo 2 .success)) at hp
      rw [e0, e1] at hp
      exact absurd (mem_nest2.1 hp) hn
  | true =>
    simp only [if_true, gpuRun, hc rfl] at hrun
    rw [if_neg (by simp), if_neg (by simp)] at hrun
    subst hrun
    refine ⟨rfl, key _ _ ?_ ?_⟩
    · intro p hp
      refine ⟨mem_nest2.2 ?_, ?_⟩
      · rw [h.rows, h.cols, Int.toNat_natCast, Int.toNat_natCast]
        have := le_blocks n0 16 (by omega)
        have := le_blocks n1 16 (by omega)
        omega
      · simp only
        rw [e0, e1, if_neg (by omega)]
    · intro p _ hn
      simp only
      rw [e0, e1, if_pos (by omega)]

theorem source_within (src : Option (Arr ℂ)) (i : Int) (k : ℂ → Prog ℂ) (S : Int → Prop)
    (hs : src = none → S i) (hk : ∀ x, (k x).Within S) : (source src i k).Within S := by
  cases src with
  | none => exact ⟨hs rfl, hk⟩
  | some a => exact within_need _ _ fun x _ => hk x

theorem source_exec (src : Option (Arr ℂ)) (i : Nat) (k : ℂ → Prog ℂ) (out : Arr ℂ)
    (hi : i < (src.getD out).size) : (source src (i : Int) k).exec out = (k ((src.getD out).get i)).exec out := by
  cases src with
  | none =>
    simp only [Option.getD_none] at hi ⊢
    simp only [source, Prog.exec]
    rw [Arr.read_nat, if_pos hi]
    rfl
  | some a =>
    simp only [Option.getD_some] at hi ⊢
    simp only [source]
    rw [exec_need, Arr.read_nat, if_pos hi]
    rfl

theorem update_exec (i : Nat) (f : ℂ → ℂ) (out : Arr ℂ) (hi : i < out.size) :
    (Prog.read (i : Int) fun y => .write (i : Int) (f y) .done).exec out = some (out.put i (f (out.get i))) := by
  simp only [Prog.exec]
  rw [Arr.read_nat, if_pos hi]
  simp only [Option.bind_some]
  rw [Arr.write_nat, if_pos hi]
  rfl

/-- The arrays of a call: output, first input (the output itself if `src = none`). -/
structure Arrays (cuda : Bool) (mo m1 : Mem) (src : Option (Arr ℂ)) (out : Arr ℂ) (n0 n1 : Nat)
    (pos pos1 : Nat → Nat → Nat) : Prop where
  loc : mo.location = .cpu ∨ mo.location = .gpu ∧ cuda = true
  loc1 : m1.location = mo.location
  data : mo.data ≠ none
  writeable : mo.isReadOnly = false
  plane : Plane mo out.size n0 n1 pos
  distinct : Distinct n0 n1 pos
  plane1 : Plane m1 (src.getD out).size n0 n1 pos1
  same : src = none → ∀ i j, pos1 i j = pos i j

section
variable {cuda : Bool} {mo m1 : Mem} {src : Option (Arr ℂ)} {out : Arr ℂ} {n0 n1 : Nat}
  {pos pos1 pos2 : Nat → Nat → Nat}

theorem accumBody_spec (h : Arrays cuda mo m1 src out n0 n1 pos pos1) (e : Int) (v2 : View) (in2 : Arr ℂ)
    (h2 : e ≠ 0 → ∀ i j, i < n0 → j < n1 → addr v2 (i, j) = (pos2 i j : Nat) ∧ pos2 i j < in2.size)
    (hz : e < 0 → ∀ i j, i < n0 → j < n1 → in2.get (pos2 i j) ≠ 0) (i j : Nat) (hi : i < n0) (hj : j < n1) :
    (accumBody e (mkView mo 2 .success) (mkView m1 2 .success) v2 src in2 (i, j)).Within
        (fun x : Int => x = (pos i j : Nat)) ∧
      (accumBody e (mkView mo 2 .success) (mkView m1 2 .success) v2 src in2 (i, j)).exec out =
        some (out.put (pos i j) (out.get (pos i j) +
          (src.getD out).get (pos1 i j) * if e = 0 then 1 else in2.get (pos2 i j) ^ e)) := by
  unfold accumBody
  rw [plane_addr h.plane hi hj, plane_addr h.plane1 hi hj]
  constructor
  · refine source_within _ _ _ _ (fun hs => by rw [h.same hs i j]) fun x => ?_
    by_cases he : e = 0
    · rw [if_pos he]; exact ⟨rfl, fun y => ⟨rfl, trivial⟩⟩
    · rw [if_neg he]
      exact within_need _ _ fun q _ => within_need _ _ fun f _ => ⟨rfl, fun y => ⟨rfl, trivial⟩⟩
  · rw [source_exec _ _ _ _ (h.plane1.fits i j hi hj)]
    by_cases he : e = 0
    · rw [if_pos he, if_pos he, mul_one,
        update_exec _ (fun y => y + (src.getD out).get (pos1 i j)) _ (h.plane.fits i j hi hj)]
    · obtain ⟨a1, a2⟩ := h2 he i j hi hj
      rw [if_neg he, if_neg he, a1, exec_need, Arr.read_nat, if_pos a2]
      simp only [Option.bind_some]
      rw [exec_need]
      have ef : (if e = 1 then some (in2.get (pos2 i j)) else powC (in2.get (pos2 i j)) e) =
          some (in2.get (pos2 i j) ^ e) := by
        by_cases h1 : e = 1
        · rw [if_pos h1, h1, zpow_one]
        · rw [if_neg h1]
          unfold powC
          rw [if_neg]
          rintro ⟨q0, e0⟩
          exact hz (by omega) i j hi hj q0
      rw [ef]
      simp only [Option.bind_some]
      rw [update_exec _ (fun y => y + (src.getD out).get (pos1 i j) * in2.get (pos2 i j) ^ e) _
        (h.plane.fits i j hi hj)]

/-- **C82, accumulating into a complex array.**  For two-dimensional arrays of one shape in one place, the
output complex, the second input complex double, every schedule on either device gives
`out += in1 * in2 ** exponent` (`out += in1` without second input), and nothing else changes. -/
theorem C82_accum (h : Arrays cuda mo m1 src out n0 n1 pos pos1) (m2 : Option Mem) (in2 : Arr ℂ) (e : Int)
    (ht : mo.type = .complexDouble ∨ mo.type = .complexFloat)
    (ht1 : m1.type = .complexDouble ∨ m1.type = .complexFloat ∨ m1.type = .double ∨ m1.type = .float)
    (h2 : ∀ m ∈ m2, m.type = .complexDouble ∧ m.location = mo.location ∧ Plane m in2.size n0 n1 pos2)
    (hz : e < 0 → ∀ i j, i < n0 → j < n1 → in2.get (pos2 i j) ≠ 0) :
    let run := accumCall cuda mo m1 m2 e .success src in2
    run.status = .success ∧ ∃ r, Yields run.prog run.threads out r ∧ r.size = out.size ∧
      (∀ i j, i < n0 → j < n1 → r.get (pos i j) = out.get (pos i j) +
        (src.getD out).get (pos1 i j) * if m2.isSome then in2.get (pos2 i j) ^ e else 1) ∧
      ∀ x, (∀ i j, i < n0 → j < n1 → pos i j ≠ x) → r.get x = out.get x := by
  intro run
  have hk : accumKind mo.type m1.type (m2.elim .complexDouble Mem.type) = some .scale := by
    unfold accumKind
    rw [if_pos]
    refine ⟨ht, ht1, ?_⟩
    cases m2 with
    | none => rfl
    | some m => exact (h2 m rfl).1
  have hval : ∀ i j, (if m2.isSome then in2.get (pos2 i j) ^ e else 1) =
      if (if m2.isNone then 0 else e) = 0 then (1 : ℂ) else in2.get (pos2 i j) ^ (if m2.isNone then 0 else e) := by
    intro i j
    cases m2 with
    | none => simp
    | some m =>
      simp only [Option.isSome_some, Option.isNone_some, if_true, Bool.false_eq_true, if_false]
      by_cases he : e = 0
      · rw [if_pos he, he, zpow_zero]
      · rw [if_neg he]
  simp only [hval]
  have hrun : run = accumCall cuda mo m1 m2 e .success src in2 := rfl
  unfold accumCall at hrun
  rw [if_neg (by simp), if_neg (by simp [h.loc1]), hk] at hrun
  have hz' : (if m2.isNone then 0 else e) < 0 → ∀ i j, i < n0 → j < n1 → in2.get (pos2 i j) ≠ 0 := by
    intro h'
    apply hz
    cases m2 with
    | none => simp at h'
    | some m => simpa using h'
  rcases h.loc with hl | ⟨hl, hcuda⟩
  · rw [hl] at hrun
    simp only at hrun
    unfold accumCpu at hrun
    rw [view_ok h.plane.dims rfl hl h.data h.writeable] at hrun
    simp only at hrun
    rw [viewConst_ok h.plane1.dims rfl (h.loc1.trans hl)] at hrun
    cases m2 with
    | none =>
      simp only at hrun
      exact run_yields false false (by simp) mo out h.plane h.distinct _ _
        (accumBody_spec h 0 _ in2 (fun h => absurd rfl h) (pos2 := pos2) (fun h => absurd h (by omega))) run hrun
    | some m =>
      simp only [Option.isNone_some, Bool.false_eq_true, if_false] at hrun hz' ⊢
      by_cases he : e = 0
      · rw [if_pos he] at hrun
        subst he
        exact run_yields false false (by simp) mo out h.plane h.distinct _ _
          (accumBody_spec h 0 _ in2 (fun h => absurd rfl h) (pos2 := pos2) hz') run hrun
      · obtain ⟨t2, l2, p2⟩ := h2 m rfl
        rw [if_neg he, viewConst_ok p2.dims t2 (l2.trans hl)] at hrun
        exact run_yields false false (by simp) mo out h.plane h.distinct _ _
          (accumBody_spec h e _ in2 (fun _ i j hi hj => ⟨plane_addr p2 hi hj, p2.fits i j hi hj⟩) hz') run hrun
  · rw [hl] at hrun
    simp only at hrun
    cases m2 with
    | none =>
      simp only [Option.elim_none] at hrun
      rw [view_ok h.plane.dims rfl hl h.data h.writeable] at hrun
      simp only at hrun
      rw [viewConst_ok h.plane1.dims rfl (h.loc1.trans hl)] at hrun
      exact run_yields true cuda (fun _ => hcuda) mo out h.plane h.distinct _ _
        (accumBody_spec h 0 _ in2 (fun h => absurd rfl h) (pos2 := pos2) (fun h => absurd h (by omega))) run hrun
    | some m =>
      obtain ⟨t2, l2, p2⟩ := h2 m rfl
      simp only [Option.elim_some] at hrun
      rw [viewConst_ok p2.dims t2 (l2.trans hl)] at hrun
      simp only at hrun
      rw [view_ok h.plane.dims rfl hl h.data h.writeable] at hrun
      simp only at hrun
      rw [viewConst_ok h.plane1.dims rfl (h.loc1.trans hl)] at hrun
      exact run_yields true cuda (fun _ => hcuda) mo out h.plane h.distinct _ _
        (accumBody_spec h _ _ in2 (fun _ i j hi hj => ⟨plane_addr p2 hi hj, p2.fits i j hi hj⟩) hz') run hrun

theorem realBody_spec (h : Arrays cuda mo m1 src out n0 n1 pos pos1) (i j : Nat) (hi : i < n0) (hj : j < n1) :
    (realBody (mkView mo 2 .success) (mkView m1 2 .success) src (i, j)).Within
        (fun x : Int => x = (pos i j : Nat)) ∧
      (realBody (mkView mo 2 .success) (mkView m1 2 .success) src (i, j)).exec out =
        some (out.put (pos i j) (out.get (pos i j) + (((src.getD out).get (pos1 i j)).re : ℂ))) := by
  unfold realBody
  rw [plane_addr h.plane hi hj, plane_addr h.plane1 hi hj]
  constructor
  · exact source_within _ _ _ _ (fun hs => by rw [h.same hs i j]) fun x => ⟨rfl, fun y => ⟨rfl, trivial⟩⟩
  · rw [source_exec _ _ _ _ (h.plane1.fits i j hi hj),
      update_exec _ (fun y => y + (((src.getD out).get (pos1 i j)).re : ℂ)) _ (h.plane.fits i j hi hj)]

/-- **C82, accumulating into a real array, without second input.**  Every schedule on either device adds the
real part. -/
theorem C82_real_partial (h : Arrays cuda mo m1 src out n0 n1 pos pos1) (in2 : Arr ℂ) (e : Int)
    (ht : mo.type = .double ∨ mo.type = .float) (ht1 : m1.type = .complexDouble ∨ m1.type = .complexFloat) :
    let run := accumCall cuda mo m1 none e .success src in2
    run.status = .success ∧ ∃ r, Yields run.prog run.threads out r ∧ r.size = out.size ∧
      (∀ i j, i < n0 → j < n1 → r.get (pos i j) = out.get (pos i j) + (((src.getD out).get (pos1 i j)).re : ℂ)) ∧
      ∀ x, (∀ i j, i < n0 → j < n1 → pos i j ≠ x) → r.get x = out.get x := by
  intro run
  have hk : accumKind mo.type m1.type .complexDouble = some .real := by
    unfold accumKind
    rw [if_neg, if_pos ⟨ht, ht1⟩]
    rintro ⟨h1, -⟩
    rcases ht with ht | ht <;> rw [ht] at h1 <;> simp at h1
  have hrun : run = accumCall cuda mo m1 none e .success src in2 := rfl
  unfold accumCall at hrun
  simp only [Option.elim_none] at hrun
  rw [if_neg (by simp), if_neg (by simp [h.loc1]), hk] at hrun
  rcases h.loc with hl | ⟨hl, hcuda⟩
  · rw [hl] at hrun
    simp only at hrun
    unfold realCpu at hrun
    rw [view_ok h.plane.dims rfl hl h.data h.writeable] at hrun
    simp only at hrun
    rw [viewConst_ok h.plane1.dims rfl (h.loc1.trans hl)] at hrun
    exact run_yields false false (by simp) mo out h.plane h.distinct _ _ (realBody_spec h) run hrun
  · rw [hl] at hrun
    simp only at hrun
    rw [view_ok h.plane.dims rfl hl h.data h.writeable] at hrun
    simp only at hrun
    rw [viewConst_ok h.plane1.dims rfl (h.loc1.trans hl)] at hrun
    exact run_yields true cuda (fun _ => hcuda) mo out h.plane h.distinct _ _ (realBody_spec h) run hrun

theorem invBody_spec (h : Arrays cuda mo m1 src out n0 n1 pos pos1) (e : Int) (v2 : View) (in2 : Arr ℂ)
    (h2 : ∀ i j, i < n0 → j < n1 → addr v2 (i, j) = (pos2 i j : Nat) ∧ pos2 i j < in2.size)
    (hz : ∀ i j, i < n0 → j < n1 → in2.get (pos2 i j) ≠ 0) (i j : Nat) (hi : i < n0) (hj : j < n1) :
    (invBody e (mkView mo 2 .success) (mkView m1 2 .success) v2 src in2 (i, j)).Within
        (fun x : Int => x = (pos i j : Nat)) ∧
      (invBody e (mkView mo 2 .success) (mkView m1 2 .success) v2 src in2 (i, j)).exec out =
        some (out.put (pos i j) ((src.getD out).get (pos1 i j) / in2.get (pos2 i j) ^ e)) := by
  unfold invBody
  rw [plane_addr h.plane hi hj, plane_addr h.plane1 hi hj]
  constructor
  · refine source_within _ _ _ _ (fun hs => by rw [h.same hs i j]) fun x => ?_
    exact within_need _ _ fun q _ => within_need _ _ fun y _ => ⟨rfl, trivial⟩
  · obtain ⟨a1, a2⟩ := h2 i j hi hj
    rw [source_exec _ _ _ _ (h.plane1.fits i j hi hj), a1, exec_need, Arr.read_nat, if_pos a2]
    simp only [Option.bind_some]
    rw [exec_need, if_neg (hz i j hi hj)]
    have ef : (if e = 1 then (src.getD out).get (pos1 i j) / in2.get (pos2 i j)
        else (src.getD out).get (pos1 i j) / in2.get (pos2 i j) ^ e) =
        (src.getD out).get (pos1 i j) / in2.get (pos2 i j) ^ e := by
      by_cases h1 : e = 1
      · rw [if_pos h1, h1, zpow_one]
      · rw [if_neg h1]
    rw [ef]
    simp only [Option.bind_some, Prog.exec]
    rw [Arr.write_nat, if_pos (h.plane.fits i j hi hj)]
    rfl

/-- **C82, dividing.**  For two-dimensional arrays of one shape in one place and of a supported combination of
types, with no zero in the second input, every schedule on either device, in place or not, gives
`out = in1 / in2 ** exponent`. -/
theorem C82_inv (h : Arrays cuda mo m1 src out n0 n1 pos pos1) (m2 : Mem) (in2 : Arr ℂ) (e : Int)
    (ht : mo.type = .complexDouble ∧ (m1.type = .double ∨ m1.type = .complexDouble) ∨
      mo.type = .complexFloat ∧ (m1.type = .float ∨ m1.type = .complexFloat))
    (ht2 : m2.type = .complexDouble) (hl2 : m2.location = mo.location) (p2 : Plane m2 in2.size n0 n1 pos2)
    (hz : ∀ i j, i < n0 → j < n1 → in2.get (pos2 i j) ≠ 0) :
    let run := invCall cuda mo m1 m2 e .success src in2
    run.status = .success ∧ ∃ r, Yields run.prog run.threads out r ∧ r.size = out.size ∧
      (∀ i j, i < n0 → j < n1 →
        r.get (pos i j) = (src.getD out).get (pos1 i j) / in2.get (pos2 i j) ^ e) ∧
      ∀ x, (∀ i j, i < n0 → j < n1 → pos i j ≠ x) → r.get x = out.get x := by
  intro run
  have hk : invTypes mo.type m1.type m2.type = true := by
    unfold invTypes
    rw [decide_eq_true_iff]
    exact ⟨ht2, ht⟩
  have hrun : run = invCall cuda mo m1 m2 e .success src in2 := rfl
  unfold invCall at hrun
  rw [if_neg (by simp), if_neg (by simp [h.loc1, hl2])] at hrun
  have hspec := invBody_spec h e (mkView m2 2 .success) in2
    (fun i j hi hj => ⟨plane_addr p2 hi hj, p2.fits i j hi hj⟩) hz
  rcases h.loc with hl | ⟨hl, hcuda⟩
  · rw [hl] at hrun
    simp only at hrun
    rw [if_pos hk, view_ok h.plane.dims rfl hl h.data h.writeable] at hrun
    simp only at hrun
    rw [viewConst_ok h.plane1.dims rfl (h.loc1.trans hl)] at hrun
    simp only at hrun
    rw [viewConst_ok p2.dims ht2 (hl2.trans hl)] at hrun
    exact run_yields false false (by simp) mo out h.plane h.distinct _ _ hspec run hrun
  · rw [hl] at hrun
    simp only at hrun
    rw [viewConst_ok p2.dims ht2 (hl2.trans hl)] at hrun
    simp only at hrun
    rw [if_pos hk, view_ok h.plane.dims rfl hl h.data h.writeable] at hrun
    simp only at hrun
    rw [viewConst_ok h.plane1.dims rfl (h.loc1.trans hl)] at hrun
    exact run_yields true cuda (fun _ => hcuda) mo out h.plane h.distinct _ _ hspec run hrun
end

/-! ## Refused calls -/

theorem yields_nothing {α : Type} (prog : Nat × Nat → Prog α) (out : Arr α) : Yields prog [] out out := by
  refine yields_each prog (fun _ _ => False) [] ?_ ?_ out out rfl ?_ fun _ _ => rfl <;> simp

theorem run_none {α : Type} (st : Status) (out : Arr α) :
    Yields (Run.none (α := α) st).prog (Run.none (α := α) st).threads out out :=
  yields_nothing _ _

theorem gpuRun_refused {α : Type} {cuda : Bool} {mo : Mem} {st : Status} {vo : View} {body : Nat × Nat → Prog α}
    (h : (gpuRun cuda mo st vo body).status ≠ .success) (out : Arr α) :
    Yields (gpuRun cuda mo st vo body).prog (gpuRun cuda mo st vo body).threads out out := by
  unfold gpuRun at h ⊢
  by_cases h1 : st ≠ .success
  · rw [if_pos h1]; exact run_none _ _
  · rw [if_neg h1] at h ⊢
    by_cases h2 : cuda = false
    · rw [if_pos h2]; exact run_none _ _
    · rw [if_neg h2] at h; exact absurd rfl h

theorem cpuRun_bad {α : Type} {mo : Mem} {st st' : Status} (h : st ≠ .success) (body : Nat × Nat → Prog α) (out : Arr α) :
    Yields (cpuRun st' (mkView mo 2 st) body).prog (cpuRun st' (mkView mo 2 st) body).threads out out := by
  have : (cpuRun st' (mkView mo 2 st) body).threads = [] := by
    simp [cpuRun, rows, mkView, List.range_succ, h, nest2]
  rw [this]
  exact yields_nothing _ _

/-- The output passes the tests made of it. -/
def OutOk (mo : Mem) : Prop := mo.numDims = 2 ∧ mo.data ≠ none ∧ mo.isReadOnly = false

theorem outOk_iff (mo : Mem) : (checkAndView mo mo.type 2 .cpu .success).2 = .success ↔
    mo.location = .cpu ∧ OutOk mo := by
  rw [view_status]
  unfold OutOk
  constructor
  · rintro ⟨-, -, h1, h2, h3, h4⟩; exact ⟨h2, by simpa using h1, h3, h4⟩
  · rintro ⟨h2, h1, h3, h4⟩; exact ⟨rfl, rfl, by simpa using h1, h2, h3, h4⟩

/-- **C82, refused calls.**  A call that returns an error has changed nothing, if the arrays are not in the
memory of the CPU, or the inputs have two dimensions and are in one place, or the output itself is at fault. -/
theorem C82_refused_partial (cuda : Bool) (mo m1 : Mem) (m2 : Option Mem) (e : Int) (st : Status)
    (src : Option (Arr ℂ)) (in2 out : Arr ℂ) (hf : (accumCall cuda mo m1 m2 e st src in2).status ≠ .success)
    (h : mo.location ≠ .cpu ∨ ¬ OutOk mo ∨
      m1.numDims = 2 ∧ ∀ m ∈ m2, m.numDims = 2 ∧ m.location = mo.location) :
    Yields (accumCall cuda mo m1 m2 e st src in2).prog (accumCall cuda mo m1 m2 e st src in2).threads out out := by
  unfold accumCall at hf ⊢
  by_cases h0 : st ≠ .success
  · rw [if_pos h0]; exact run_none _ _
  · rw [if_neg h0] at hf ⊢
    rw [not_not] at h0
    subst h0
    by_cases h1 : m1.location ≠ mo.location
    · rw [if_pos h1]; exact run_none _ _
    · rw [if_neg h1] at hf ⊢
      rw [not_not] at h1
      cases hl : mo.location with
      | other => rw [hl] at hf; exact absurd rfl hf
      | gpu =>
        rw [hl] at hf
        simp only at hf ⊢
        cases hk : accumKind mo.type m1.type (m2.elim .complexDouble Mem.type) with
        | none => exact run_none _ _
        | some k =>
          rw [hk] at hf
          cases k with
          | scale => exact gpuRun_refused hf out
          | real => exact gpuRun_refused hf out
      | cpu =>
        rw [hl] at hf
        simp only at hf ⊢
        have hout : ¬ OutOk mo ∨ m1.numDims = 2 ∧ ∀ m ∈ m2, m.numDims = 2 ∧ m.location = .cpu := by
          rcases h with h | h | h
          · exact absurd hl h
          · exact Or.inl h
          · exact Or.inr ⟨h.1, fun m hm => ⟨(h.2 m hm).1, (h.2 m hm).2.trans hl⟩⟩
        by_cases ho : OutOk mo
        · rcases hout with hn | ⟨d1, d2⟩
          · exact absurd ho hn
          · have ev := view_ok (t := mo.type) ho.1 rfl hl ho.2.1 ho.2.2
            have ew := viewConst_ok (t := m1.type) d1 rfl (h1.trans hl)
            cases hk : accumKind mo.type m1.type (m2.elim .complexDouble Mem.type) with
            | none => exact run_none _ _
            | some k =>
              rw [hk] at hf
              exfalso
              cases k with
              | real =>
                simp only [realCpu] at hf
                rw [ev] at hf
                simp only at hf
                rw [ew] at hf
                exact hf rfl
              | scale =>
                simp only [accumCpu] at hf
                rw [ev] at hf
                simp only at hf
                rw [ew] at hf
                cases m2 with
                | none => exact hf rfl
                | some m =>
                  simp only [Option.isNone_some, Bool.false_eq_true, if_false] at hf
                  by_cases he : e = 0
                  · rw [if_pos he] at hf; exact hf rfl
                  · have ht : m.type = .complexDouble := by
                      by_contra hne
                      simp only [Option.elim_some] at hk
                      unfold accumKind at hk
                      rw [if_neg (fun h => hne h.2.2)] at hk
                      by_cases hr : (mo.type = .double ∨ mo.type = .float) ∧
                          (m1.type = .complexDouble ∨ m1.type = .complexFloat)
                      · rw [if_pos hr] at hk; cases hk
                      · rw [if_neg hr] at hk; cases hk
                    obtain ⟨q1, q2⟩ := d2 m rfl
                    rw [if_neg he, viewConst_ok q1 ht q2] at hf
                    exact hf rfl
        · have hs : (checkAndView mo mo.type 2 .cpu .success).2 ≠ .success := fun h => ho ((outOk_iff mo).1 h).2
          have hv : (checkAndView mo mo.type 2 .cpu .success).1 =
            mkView mo 2 (checkAndView mo mo.type 2 .cpu .success).2 := rfl
          cases hk : accumKind mo.type m1.type (m2.elim .complexDouble Mem.type) with
          | none => exact run_none _ _
          | some k =>
            cases k with
            | real =>
              simp only [realCpu]
              rw [hv]
              exact cpuRun_bad hs _ _
            | scale =>
              simp only [accumCpu]
              rw [hv]
              cases m2 with
              | none => exact cpuRun_bad hs _ _
              | some m =>
                simp only [Option.isNone_some, Bool.false_eq_true, if_false]
                by_cases he : e = 0
                · rw [if_pos he]; exact cpuRun_bad hs _ _
                · rw [if_neg he]; exact cpuRun_bad hs _ _

/-- The same for the quotient. -/
theorem C82_inv_refused_partial (cuda : Bool) (mo m1 m2 : Mem) (e : Int) (st : Status)
    (src : Option (Arr ℂ)) (in2 out : Arr ℂ) (hf : (invCall cuda mo m1 m2 e st src in2).status ≠ .success)
    (h : mo.location ≠ .cpu ∨ ¬ OutOk mo ∨ m1.numDims = 2 ∧ m2.numDims = 2) :
    Yields (invCall cuda mo m1 m2 e st src in2).prog (invCall cuda mo m1 m2 e st src in2).threads out out := by
  unfold invCall at hf ⊢
  by_cases h0 : st ≠ .success
  · rw [if_pos h0]; exact run_none _ _
  · rw [if_neg h0] at hf ⊢
    rw [not_not] at h0
    subst h0
    by_cases h1 : m1.location ≠ mo.location ∨ m2.location ≠ mo.location
    · rw [if_pos h1]; exact run_none _ _
    · rw [if_neg h1] at hf ⊢
      rw [not_or, not_not, not_not] at h1
      cases hl : mo.location with
      | other => rw [hl] at hf; exact absurd rfl hf
      | gpu =>
        rw [hl] at hf
        simp only at hf ⊢
        by_cases hk : invTypes mo.type m1.type m2.type = true
        · rw [if_pos hk] at hf ⊢; exact gpuRun_refused hf out
        · rw [if_neg hk]; exact run_none _ _
      | cpu =>
        rw [hl] at hf
        simp only at hf ⊢
        by_cases hk : invTypes mo.type m1.type m2.type = true
        · rw [if_pos hk] at hf ⊢
          by_cases ho : OutOk mo
          · rcases h with h | h | ⟨d1, d2⟩
            · exact absurd hl h
            · exact absurd ho h
            · exfalso
              have ht : m2.type = .complexDouble := by
                unfold invTypes at hk
                rw [decide_eq_true_iff] at hk
                exact hk.1
              rw [view_ok (t := mo.type) ho.1 rfl hl ho.2.1 ho.2.2] at hf
              simp only at hf
              rw [viewConst_ok (t := m1.type) d1 rfl (h1.1.trans hl)] at hf
              simp only at hf
              rw [viewConst_ok d2 ht (h1.2.trans hl)] at hf
              exact hf rfl
          · have hs : (checkAndView mo mo.type 2 .cpu .success).2 ≠ .success := fun h =>
              ho ((outOk_iff mo).1 h).2
            exact cpuRun_bad hs _ _
        · rw [if_neg hk]; exact run_none _ _

/-! ## Violations -/

/-- Two by two complex values. -/
def quad : Mem := wrap .complexDouble [2, 2]

theorem quad_plane : Plane quad 4 2 2 fun i j => 2 * i + j := by
  refine ⟨by decide, by decide, by decide, ?_, ?_⟩
  · intro i j _ _
    rw [show quad.strideElementsDim 0 = 2 by decide, show quad.strideElementsDim 1 = 1 by decide]
    push_cast; ring
  · intro i j hi hj; omega

theorem quad_distinct : Distinct 2 2 fun i j => 2 * i + j := by
  intro i j i' j' _ _ _ _ h
  simp only at h
  omega

/-- **C82 fails**: the sum of a real output and a complex input ignores the second input and the exponent.
With `out = 0`, `in1 = 1`, `in2 = 2` and exponent 1 the result is 1. -/
theorem C82_real_false : ∃ (mo m1 m2 : Mem) (out in1 in2 : Arr ℂ),
    (∃ pos, Plane mo out.size 2 2 pos) ∧ (∃ pos, Plane m1 in1.size 2 2 pos) ∧ (∃ pos, Plane m2 in2.size 2 2 pos) ∧
    mo.type = .double ∧ m1.type = .complexDouble ∧ m2.type = .complexDouble ∧
    let run := accumCall false mo m1 (some m2) 1 .success (some in1) in2
    run.status = .success ∧ ∃ r, Yields run.prog run.threads out r ∧
      out.get 0 = 0 ∧ in1.get 0 = 1 ∧ in2.get 0 = 2 ∧ r.get 0 = 1 := by
  have hd : Plane (wrap .double [2, 2]) 4 2 2 fun i j => 2 * i + j := by
    refine ⟨by decide, by decide, by decide, ?_, ?_⟩
    · intro i j _ _
      rw [show (wrap .double [2, 2]).strideElementsDim 0 = 2 by decide,
        show (wrap .double [2, 2]).strideElementsDim 1 = 1 by decide]
      push_cast; ring
    · intro i j hi hj; omega
  refine ⟨wrap .double [2, 2], quad, quad, ⟨4, fun _ => 0⟩, ⟨4, fun _ => 1⟩, ⟨4, fun _ => 2⟩,
    ⟨_, hd⟩, ⟨_, quad_plane⟩, ⟨_, quad_plane⟩, by decide, by decide, by decide, ?_⟩
  have h := C82_real_partial (cuda := false) (mo := wrap .double [2, 2]) (m1 := quad)
    (src := some ⟨4, fun _ => 1⟩) (out := ⟨4, fun _ => 0⟩) ⟨Or.inl (by decide), by decide, by decide, by decide,
      hd, quad_distinct, quad_plane, by simp⟩ ⟨4, fun _ => 2⟩ 1 (Or.inl (by decide)) (Or.inl (by decide))
  have e : accumCall false (wrap .double [2, 2]) quad (some quad) 1 .success (some ⟨4, fun _ => 1⟩)
      ⟨4, fun _ => 2⟩ = accumCall false (wrap .double [2, 2]) quad none 1 .success (some ⟨4, fun _ => 1⟩)
      ⟨4, fun _ => 2⟩ := by
    have k1 : accumKind (wrap .double [2, 2]).type quad.type .complexDouble = some .real := by decide
    have k2 : quad.type = .complexDouble := by decide
    simp only [accumCall, Option.elim_none, Option.elim_some]
    rw [show quad.type = .complexDouble from k2] at k1 ⊢
    rw [k1]
    rfl
  simp only at h ⊢
  rw [e]
  obtain ⟨h1, r, r1, -, r3, -⟩ := h
  refine ⟨h1, r, r1, trivial, trivial, trivial, ?_⟩
  have := r3 0 0 (by omega) (by omega)
  simpa using this

/-- **C82 fails** on the CPU: an input found to have the wrong number of dimensions is reported, and added all
the same, its first value to every output. -/
theorem C82_error_false : ∃ (mo m1 : Mem) (out in1 : Arr ℂ),
    let run := accumCall false mo m1 none 0 .success (some in1) in1
    run.status = .invalidArgument ∧ ∃ r, Yields run.prog run.threads out r ∧ r.get 3 ≠ out.get 3 := by
  let m1 : Mem := wrap .complexDouble [4]
  let in1 : Arr ℂ := ⟨4, fun _ => 1⟩
  let out : Arr ℂ := ⟨4, fun _ => 0⟩
  refine ⟨quad, m1, out, in1, ?_⟩
  have hw : checkAndViewConst m1 m1.type 2 .cpu .success = (mkView m1 2 .invalidArgument, .invalidArgument) := by
    decide
  have hrun : accumCall false quad m1 none 0 .success (some in1) in1 =
      cpuRun .invalidArgument (mkView quad 2 .success)
        (accumBody 0 (mkView quad 2 .success) (mkView m1 2 .invalidArgument) (mkView m1 2 .invalidArgument)
          (some in1) in1) := by
    have k : accumKind quad.type m1.type .complexDouble = some .scale := by decide
    have l : quad.location = .cpu := by decide
    have l1 : m1.location = .cpu := by decide
    simp only [accumCall, Option.elim_none, k, l, l1]
    rw [if_neg (by simp), if_neg (by simp)]
    simp only [accumCpu]
    rw [view_ok (t := quad.type) (l := .cpu) (by decide) rfl l (by decide) (by decide)]
    simp only
    rw [hw]
  simp only
  rw [hrun]
  refine ⟨rfl, ?_⟩
  have hb : ∀ i j, i < 2 → j < 2 → (accumBody 0 (mkView quad 2 .success) (mkView m1 2 .invalidArgument)
      (mkView m1 2 .invalidArgument) (some in1) in1 (i, j)).Within (fun x : Int => x = ((2 * i + j : Nat) : Int)) ∧
      (accumBody 0 (mkView quad 2 .success) (mkView m1 2 .invalidArgument)
      (mkView m1 2 .invalidArgument) (some in1) in1 (i, j)).exec out =
        some (out.put (2 * i + j) 1) := by
    intro i j hi hj
    unfold accumBody
    rw [plane_addr quad_plane hi hj]
    have ha : addr (mkView m1 2 .invalidArgument) (i, j) = ((0 : Nat) : Int) := by
      simp [addr, mkView, List.range_succ, dot]
    rw [ha]
    constructor
    · refine source_within _ _ _ _ (by simp) fun x => ?_
      rw [if_pos rfl]; exact ⟨rfl, fun y => ⟨rfl, trivial⟩⟩
    · rw [source_exec _ _ _ _ (by simp [in1]), if_pos rfl,
        update_exec _ (fun y => y + (Option.getD (some in1) out).get 0) _ (by simp only [out]; omega)]
      simp [out, in1]
  obtain ⟨-, r, r1, -, r3, -⟩ := run_yields false false (by simp) quad out quad_plane quad_distinct _
    (fun _ _ => 1) hb _ (by rfl)
  refine ⟨r, r1, ?_⟩
  have : r.get 3 = 1 := r3 1 1 (by omega) (by omega)
  rw [this]
  simp [out]

/-- **C82 fails**: the shapes of the inputs are not compared with that of the output.  A first input of one
row is read beyond its end by the call that returns success. -/
theorem C82_shape_false : ∃ (mo m1 : Mem) (out in1 : Arr ℂ), (∃ pos, Plane mo out.size 2 2 pos) ∧
    (∃ pos, Plane m1 in1.size 1 2 pos) ∧
    let run := accumCall false mo m1 none 0 .success (some in1) in1
    run.status = .success ∧ ∃ t ∈ run.threads, (run.prog t).exec out = none := by
  let m1 : Mem := wrap .complexDouble [1, 2]
  let in1 : Arr ℂ := ⟨2, fun _ => 1⟩
  let out : Arr ℂ := ⟨4, fun _ => 0⟩
  have hp : Plane m1 2 1 2 fun i j => 2 * i + j := by
    refine ⟨by decide, by decide, by decide, ?_, ?_⟩
    · intro i j _ _
      rw [show m1.strideElementsDim 0 = 2 by decide, show m1.strideElementsDim 1 = 1 by decide]
      push_cast; ring
    · intro i j hi hj; omega
  refine ⟨quad, m1, out, in1, ⟨_, quad_plane⟩, ⟨_, hp⟩, ?_⟩
  have hrun : accumCall false quad m1 none 0 .success (some in1) in1 =
      cpuRun .success (mkView quad 2 .success)
        (accumBody 0 (mkView quad 2 .success) (mkView m1 2 .success) (mkView m1 2 .success)
          (some in1) in1) := by
    have k : accumKind quad.type m1.type .complexDouble = some .scale := by decide
    have l : quad.location = .cpu := by decide
    have l1 : m1.location = .cpu := by decide
    simp only [accumCall, Option.elim_none, k, l, l1]
    rw [if_neg (by simp), if_neg (by simp)]
    simp only [accumCpu]
    rw [view_ok (t := quad.type) (l := .cpu) (by decide) rfl l (by decide) (by decide)]
    simp only
    rw [viewConst_ok (t := m1.type) (by decide) rfl l1]
  simp only
  rw [hrun]
  refine ⟨rfl, (1, 0), by decide, ?_⟩
  simp only [cpuRun, accumBody, source]
  have ha : addr (mkView m1 2 .success) (1, 0) = ((2 : Nat) : Int) := by decide
  rw [exec_need, ha, Arr.read_nat, if_neg (by simp [in1])]
  rfl

/-- Hypotheses of the positive theorems are met: `out += in1 * in2 ** -2` on the GPU, in place. -/
example : Arrays true { quad with location := .gpu } { quad with location := .gpu } none ⟨4, fun _ => 1⟩ 2 2
    (fun i j => 2 * i + j) (fun i j => 2 * i + j) := by
  have h : Plane { quad with location := .gpu } 4 2 2 fun i j => 2 * i + j :=
    ⟨quad_plane.dims, quad_plane.rows, quad_plane.cols, quad_plane.strides, quad_plane.fits⟩
  exact ⟨Or.inr ⟨rfl, rfl⟩, rfl, by decide, by decide, h, quad_distinct, h, fun _ _ _ => rfl⟩

end Sdp.GridUtil

namespace Sdp.GridUtil
open Sdp.Race

theorem view_good {m : Mem} {t : MemType} {l : MemLocation} {st : Status}
    (h : (checkAndView m t 2 l st).2 = .success) :
    st = .success ∧ m.numDims = 2 ∧ m.data ≠ none ∧ m.isReadOnly = false := by
  obtain ⟨a, -, b, -, c, d⟩ := (view_status _ _ _ _ _).1 h
  exact ⟨a, by exact_mod_cast b, c, d⟩

theorem viewConst_good {m : Mem} {t : MemType} {l : MemLocation} {st : Status}
    (h : (checkAndViewConst m t 2 l st).2 = .success) :
    st = .success ∧ m.numDims = 2 ∧ m.location = l := by
  obtain ⟨a, -, b, c⟩ := (viewConst_status _ _ _ _ _).1 h
  exact ⟨a, by exact_mod_cast b, c⟩

theorem gpuRun_good {α : Type} {cuda : Bool} {mo : Mem} {st : Status} {vo : View} {body : Nat × Nat → Prog α}
    (h : (gpuRun cuda mo st vo body).status = .success) : st = .success := by
  unfold gpuRun at h
  by_cases h1 : st ≠ .success
  · rw [if_pos h1] at h; exact h
  · exact not_not.1 h1

/-- **C82, bad arrays are reported**: a call that returns success had a writeable output and inputs of two
dimensions in the same place (the second input, where it is used). -/
theorem C82_reported (cuda : Bool) (mo m1 m2 : Mem) (e : Int) (st : Status) (src : Option (Arr ℂ)) (in2 : Arr ℂ)
    (hl : mo.location = .cpu ∨ mo.location = .gpu) :
    ((accumCall cuda mo m1 (some m2) e st src in2).status = .success →
      st = .success ∧ (mo.numDims = 2 ∧ mo.data ≠ none ∧ mo.isReadOnly = false) ∧
      (m1.numDims = 2 ∧ m1.location = mo.location) ∧
      (e ≠ 0 → mo.type = .complexDouble ∨ mo.type = .complexFloat → m2.numDims = 2 ∧ m2.location = mo.location)) ∧
    ((invCall cuda mo m1 m2 e st src in2).status = .success →
      st = .success ∧ (mo.numDims = 2 ∧ mo.data ≠ none ∧ mo.isReadOnly = false) ∧
      (m1.numDims = 2 ∧ m1.location = mo.location) ∧ (m2.numDims = 2 ∧ m2.location = mo.location)) := by
  constructor
  · intro h
    unfold accumCall at h
    by_cases h0 : st ≠ .success
    · rw [if_pos h0] at h; exact absurd h h0
    rw [if_neg h0] at h
    by_cases h1 : m1.location ≠ mo.location
    · rw [if_pos h1] at h; cases h
    rw [if_neg h1] at h
    rw [not_not] at h0 h1
    simp only [Option.elim_some, Option.isNone_some, Bool.false_eq_true, if_false] at h
    rcases hl with hl | hl
    · rw [hl] at h
      simp only at h
      cases hk : accumKind mo.type m1.type m2.type with
      | none => rw [hk] at h; cases h
      | some k =>
        rw [hk] at h
        cases k with
        | real =>
          simp only at h
          unfold realCpu cpuRun at h
          simp only at h
          obtain ⟨a1, a2, a3⟩ := viewConst_good h
          obtain ⟨b1, b2, b3, b4⟩ := view_good a1
          refine ⟨h0, ⟨b2, b3, b4⟩, ⟨a2, h1⟩, fun _ ht => ?_⟩
          unfold accumKind at hk
          rcases ht with ht | ht <;> simp [ht] at hk
        | scale =>
          simp only at h
          unfold accumCpu at h
          simp only at h
          by_cases he : e = 0
          · rw [if_pos he] at h
            unfold cpuRun at h
            simp only at h
            obtain ⟨a1, a2, a3⟩ := viewConst_good h
            obtain ⟨b1, b2, b3, b4⟩ := view_good a1
            exact ⟨h0, ⟨b2, b3, b4⟩, ⟨a2, h1⟩, fun h => absurd he h⟩
          · rw [if_neg he] at h
            unfold cpuRun at h
            simp only at h
            obtain ⟨c1, c2, c3⟩ := viewConst_good h
            obtain ⟨a1, a2, a3⟩ := viewConst_good c1
            obtain ⟨b1, b2, b3, b4⟩ := view_good a1
            exact ⟨h0, ⟨b2, b3, b4⟩, ⟨a2, h1⟩, fun _ _ => ⟨c2, by rw [hl, c3]⟩⟩
    · rw [hl] at h
      simp only at h
      have key : (checkAndViewConst m1 m1.type 2 .gpu (checkAndView mo mo.type 2 .gpu
          (checkAndViewConst m2 .complexDouble 2 .gpu st).2).2).2 = .success := by
        cases hk : accumKind mo.type m1.type m2.type with
        | none => rw [hk] at h; cases h
        | some k =>
          rw [hk] at h
          cases k <;> exact gpuRun_good h
      obtain ⟨a1, a2, a3⟩ := viewConst_good key
      obtain ⟨b1, b2, b3, b4⟩ := view_good a1
      obtain ⟨c1, c2, c3⟩ := viewConst_good b1
      exact ⟨h0, ⟨b2, b3, b4⟩, ⟨a2, h1⟩, fun _ _ => ⟨c2, by rw [hl, c3]⟩⟩
  · intro h
    unfold invCall at h
    by_cases h0 : st ≠ .success
    · rw [if_pos h0] at h; exact absurd h h0
    rw [if_neg h0] at h
    by_cases h1 : m1.location ≠ mo.location ∨ m2.location ≠ mo.location
    · rw [if_pos h1] at h; cases h
    rw [if_neg h1] at h
    rw [not_or, not_not, not_not] at h1
    rw [not_not] at h0
    rcases hl with hl | hl
    · rw [hl] at h
      simp only at h
      by_cases ht : invTypes mo.type m1.type m2.type = true
      · rw [if_pos ht] at h
        unfold cpuRun at h
        simp only at h
        obtain ⟨c1, c2, c3⟩ := viewConst_good h
        obtain ⟨a1, a2, a3⟩ := viewConst_good c1
        obtain ⟨b1, b2, b3, b4⟩ := view_good a1
        exact ⟨h0, ⟨b2, b3, b4⟩, ⟨a2, h1.1⟩, ⟨c2, h1.2⟩⟩
      · rw [if_neg ht] at h; cases h
    · rw [hl] at h
      simp only at h
      by_cases ht : invTypes mo.type m1.type m2.type = true
      · rw [if_pos ht] at h
        obtain ⟨a1, a2, a3⟩ := viewConst_good (gpuRun_good h)
        obtain ⟨b1, b2, b3, b4⟩ := view_good a1
        obtain ⟨c1, c2, c3⟩ := viewConst_good b1
        exact ⟨h0, ⟨b2, b3, b4⟩, ⟨a2, h1.1⟩, ⟨c2, h1.2⟩⟩
      · rw [if_neg ht] at h; cases h

end Sdp.GridUtil
