import Verif.Wstack.ErrorsRegion
import Verif.Mem.Props2

/-! # C112: what becomes of an error in the w-stacking calls -/

namespace Sdp.Wstack.Err

/-- Everything called for the plane succeeds and the chunks have the visibilities of the plane. -/
def Plane.Good (p : Plane) : Prop := p.clamp = .success ∧ p.diff = .success ∧ (p.numVis ≠ 0 → (∀ r ∈ p.prep, r = .success) ∧
  (∀ r ∈ p.counts, r = .success) ∧ (∀ c ∈ p.chunks, c.Good) ∧ (∀ r ∈ p.post, r = .success) ∧ (p.chunks.map Chunk.vis).sum = p.numVis)

/-- The setup succeeds. -/
def Trace.Ready (t : Trace) : Prop := (∀ s ∈ t.before, s.result = .success) ∧ (∀ l ∈ t.threads, ∀ s ∈ l, s.result = .success) ∧
  (∀ s ∈ t.later, s.result = .success)

/-- Everything called succeeds. -/
def Trace.Good (t : Trace) : Prop := t.Ready ∧ t.clear = .success ∧ ∀ p ∈ t.planes, p.Good

theorem selected_ok (p : Plane) : after (after .success p.clamp) p.diff = .success ↔ p.clamp = .success ∧ p.diff = .success := by
  rw [after_ok, after_ok]
  simp

theorem plane_ok {workers : Nat} (hw : 0 < workers) {p : Plane} {o : Option Status} (h : PlaneRun workers p o) :
    o = some .success ↔ p.Good := by
  unfold PlaneRun at h
  simp only at h
  split at h
  · next h1 =>
    rw [h, Option.some.injEq, selected_ok]
    constructor
    · intro hs
      have : p.numVis = 0 := h1.resolve_left (by rw [not_not, selected_ok]; exact hs)
      exact ⟨hs.1, hs.2, fun hn => absurd this hn⟩
    · exact fun hg => ⟨hg.1, hg.2.1⟩
  · next h1 =>
    push Not at h1
    rw [selected_ok] at h1
    obtain ⟨counts, hc, st', count, hr, ho⟩ := h
    rw [(selected_ok p).2 h1.1] at hr
    obtain ⟨r1, r2, r3⟩ := C112_region hw hr
    have hmem : ∀ r, r ∈ counts ↔ r ∈ p.counts := fun r => hc.mem_iff
    constructor
    · intro hs
      rw [hs] at ho
      split at ho
      · cases ho
      · next hn =>
        have hs' : p.post.foldl after st' = .success := (Option.some.inj ho).symm
        rw [fold_ok] at hs'
        obtain ⟨a, b, c⟩ := r2 hs'.1
        rw [fold_ok] at a
        refine ⟨h1.1.1, h1.1.2, fun _ => ⟨fun r hr => a.2 r (by simp [hr]), fun r hr => a.2 r (by simp [hmem, hr]), b, hs'.2, ?_⟩⟩
        rw [not_not] at hn
        rw [← c, hn]
    · intro hg
      obtain ⟨a, b, c, d, e⟩ := hg.2.2 h1.2
      have hst : (p.prep ++ counts).foldl after .success = .success := by
        rw [fold_ok]
        refine ⟨rfl, fun r hr => ?_⟩
        rcases List.mem_append.1 hr with hr | hr
        · exact a r hr
        · exact b r ((hmem r).1 hr)
      have hs' := r3 hst c
      obtain ⟨-, -, hcount⟩ := r2 hs'
      rw [ho, if_neg (by rw [not_not, hcount, e]), hs']
      rw [(fold_ok _ _).2 ⟨rfl, d⟩]

theorem plane_exists (workers : Nat) (p : Plane) : ∃ o, PlaneRun workers p o := by
  unfold PlaneRun
  simp only
  split
  · exact ⟨_, rfl⟩
  · obtain ⟨st', count, h⟩ := region_exists p.chunks workers ((p.prep ++ p.counts).foldl after (after (after .success p.clamp) p.diff))
    exact ⟨_, p.counts, List.Perm.refl _, st', count, h, rfl⟩

theorem planes_exist (workers : Nat) (ps : List Plane) : ∀ st, ∃ o, Planes workers ps st o := by
  induction ps with
  | nil => exact fun st => ⟨_, .nil st⟩
  | cons p ps ih =>
    intro st
    by_cases h : st = .success
    · subst h
      obtain ⟨o, ho⟩ := plane_exists workers p
      cases o with
      | none => exact ⟨_, .exit ps ho⟩
      | some s =>
        obtain ⟨o', h'⟩ := ih s
        exact ⟨_, .next ho h'⟩
    · exact ⟨_, .quit p ps h⟩

theorem planes_bad {workers : Nat} {ps : List Plane} {st : Status} {o : Option Status} (h : Planes workers ps st o)
    (hs : st ≠ .success) : o = some st := by
  cases h with
  | nil => rfl
  | quit p ps h => rfl
  | exit ps h => exact absurd rfl hs
  | next h h' => exact absurd rfl hs

theorem planes_ok {workers : Nat} (hw : 0 < workers) {ps : List Plane} {st : Status} {o : Option Status}
    (h : Planes workers ps st o) : o = some .success ↔ st = .success ∧ ∀ p ∈ ps, p.Good := by
  induction h with
  | nil st => simp
  | quit p ps h => simp [h]
  | exit ps h =>
    have := plane_ok hw h
    simp only [reduceCtorEq, false_iff, true_and] at this ⊢
    intro hg
    exact this (hg _ (by simp))
  | next h hs ih =>
    have := plane_ok hw h
    rw [Option.some.injEq] at this
    rw [ih, this, List.forall_mem_cons]
    simp

theorem ready_ok {t : Trace} {mid : List Sub} (h : mid.Perm t.threads.flatten) :
    (t.before ++ mid ++ t.later).foldl Sub.run .success = .success ↔ t.Ready := by
  rw [subs_ok]
  unfold Trace.Ready
  constructor
  · rintro ⟨-, hs⟩
    refine ⟨fun s hs' => hs s (by simp [hs']), fun l hl s hs' => hs s ?_, fun s hs' => hs s (by simp [hs'])⟩
    have : s ∈ mid := h.mem_iff.2 (List.mem_flatten.2 ⟨l, hl, hs'⟩)
    simp [this]
  · rintro ⟨a, b, c⟩
    refine ⟨rfl, fun s hs => ?_⟩
    rcases List.mem_append.1 hs with hs | hs
    · rcases List.mem_append.1 hs with hs | hs
      · exact a s hs
      · obtain ⟨l, hl, hs'⟩ := List.mem_flatten.1 (h.mem_iff.1 hs)
        exact b l hl s hs'
    · exact c s hs

/-- **C112, calls end.** -/
theorem C112_ends (workers : Nat) (st : Status) (t : Trace) : ∃ o, Whole workers st t o := by
  unfold Whole
  split
  · exact ⟨_, rfl⟩
  · obtain ⟨r, hr⟩ := planes_exist workers t.planes
      (after ((t.before ++ t.threads.flatten ++ t.later).foldl Sub.run .success) t.clear)
    exact ⟨_, t.threads.flatten, List.Perm.refl _, r, hr, rfl⟩

/-- **C112, no error is lost.**  For every number of workers and every schedule: a call returns success exactly if its
checks, every function it called, on any thread, and the counts of all planes were in order; the output has then been
cleared. -/
theorem C112_no_loss {workers : Nat} (hw : 0 < workers) {st : Status} {t : Trace} {o : Outcome} (h : Whole workers st t o) :
    (o = .back .success true ↔ st = .success ∧ t.Good) ∧ o ≠ .back .success false := by
  unfold Whole at h
  split at h
  · next h0 => rw [h]; simp [h0]
  · next h0 =>
    rw [not_not] at h0
    obtain ⟨mid, hm, r, hr, ho⟩ := h
    have hready := ready_ok hm
    have hok := planes_ok hw hr
    rw [after_ok, hready] at hok
    constructor
    · constructor
      · intro hs
        rw [hs] at ho
        cases r with
        | none => cases ho
        | some s =>
          have : s = .success := by
            simp only [Outcome.back.injEq] at ho
            exact ho.1.symm
          rw [this] at hok
          obtain ⟨⟨a, b⟩, c⟩ := hok.1 rfl
          exact ⟨h0, a, b, c⟩
      · rintro ⟨-, a, b, c⟩
        have hd : after ((t.before ++ mid ++ t.later).foldl Sub.run .success) t.clear = .success :=
          (after_ok _ _).2 ⟨hready.2 a, b⟩
        rw [ho, hok.2 ⟨⟨a, b⟩, c⟩]
        show Outcome.back .success (decide _) = _
        rw [decide_eq_true hd]
    · intro hs
      rw [hs] at ho
      cases r with
      | none => cases ho
      | some s =>
        simp only [Outcome.back.injEq] at ho
        obtain ⟨h1, h2⟩ := ho
        rw [← h1] at hok
        have hd := (after_ok _ _).2 ⟨hready.2 (hok.1 rfl).1.1, (hok.1 rfl).1.2⟩
        rw [hd] at h2
        simp at h2

/-- **C112, the checks.**  A call passes them exactly if no error was set, image, coordinates and visibilities are in the same
memory, the latter two have two dimensions and a height is given; otherwise it returns an error and has not touched the
output. -/
theorem C112_entry (workers : Nat) (image uvw vis : Mem) (noHeight : Bool) (st : Status) (t : Trace) :
    (entry image uvw vis noHeight st = .success ↔ st = .success ∧ image.location = vis.location ∧ uvw.location = vis.location ∧
      vis.numDims = 2 ∧ uvw.numDims = 2 ∧ noHeight = false) ∧
    (entry image uvw vis noHeight st ≠ .success → ∀ o, Whole workers (entry image uvw vis noHeight st) t o →
      o = .back (entry image uvw vis noHeight st) false) ∧
    (st ≠ .success → entry image uvw vis noHeight st = st) := by
  refine ⟨?_, fun h o ho => ?_, fun h => ?_⟩
  · unfold entry
    by_cases h0 : st = .success
    swap
    · rw [if_pos h0]; simp [h0]
    rw [if_neg (by simp [h0])]
    by_cases h1 : image.location ≠ vis.location ∨ uvw.location ≠ vis.location
    · rw [if_pos h1]
      simp only [reduceCtorEq, false_iff]
      rintro ⟨-, a, b, -⟩
      exact h1.elim (fun h => h a) fun h => h b
    rw [if_neg h1]
    push Not at h1
    by_cases h2 : vis.numDims ≠ 2 ∨ uvw.numDims ≠ 2
    · rw [if_pos h2]
      simp only [reduceCtorEq, false_iff]
      rintro ⟨-, -, -, a, b, -⟩
      exact h2.elim (fun h => h a) fun h => h b
    rw [if_neg h2]
    push Not at h2
    cases noHeight <;> simp [h0, h1, h2]
  · unfold Whole at ho
    rwa [if_pos h] at ho
  · unfold entry
    rw [if_pos h]

/-- **C112, errors of the setup.**  If something fails before the first plane, on whatever thread, the call returns an error
and has not cleared the output. -/
theorem C112_setup {workers : Nat} {st : Status} {t : Trace} {o : Outcome} (h : Whole workers st t o)
    (hs : ¬ (st = .success ∧ t.Ready ∧ t.clear = .success)) : ∃ e, e ≠ Status.success ∧ o = .back e false := by
  unfold Whole at h
  split at h
  · next h0 => exact ⟨st, h0, h⟩
  · next h0 =>
    rw [not_not] at h0
    obtain ⟨mid, hm, r, hr, ho⟩ := h
    have hb : after ((t.before ++ mid ++ t.later).foldl Sub.run .success) t.clear ≠ .success := by
      rw [Ne, after_ok, ready_ok hm]
      exact fun hh => hs ⟨h0, hh⟩
    have := planes_bad hr hb
    subst this
    exact ⟨_, hb, by rw [ho]; show Outcome.back _ (decide _) = _; rw [decide_eq_false hb]⟩

/-- **C112, errors that are returned.**  A call returns unless, on a plane with visibilities, something fails between their
selection and the check of their number. -/
theorem C112_returns_partial {workers : Nat} (hw : 0 < workers) {st : Status} {t : Trace} {o : Outcome} (h : Whole workers st t o)
    (hp : ∀ p ∈ t.planes, p.clamp = .success → p.diff = .success → p.numVis ≠ 0 → (∀ r ∈ p.prep, r = .success) ∧
      (∀ r ∈ p.counts, r = .success) ∧ (∀ c ∈ p.chunks, c.Good) ∧ (p.chunks.map Chunk.vis).sum = p.numVis) :
    ∃ e cl, o = .back e cl := by
  have plane : ∀ p ∈ t.planes, ∀ r, PlaneRun workers p r → r ≠ none := by
    intro p hmem r hr
    unfold PlaneRun at hr
    simp only at hr
    split at hr
    · rw [hr]; simp
    · next h1 =>
      push Not at h1
      rw [selected_ok] at h1
      obtain ⟨counts, hc, st', count, hr, ho⟩ := hr
      obtain ⟨a, b, c, d⟩ := hp p hmem h1.1.1 h1.1.2 h1.2
      rw [(selected_ok p).2 h1.1] at hr
      have hst : (p.prep ++ counts).foldl after .success = .success := by
        rw [fold_ok]
        refine ⟨rfl, fun r hr => ?_⟩
        rcases List.mem_append.1 hr with hr | hr
        · exact a r hr
        · exact b r (hc.mem_iff.1 hr)
      obtain ⟨-, r2, r3⟩ := C112_region hw hr
      obtain ⟨-, -, e⟩ := r2 (r3 hst c)
      rw [ho, if_neg (by rw [not_not, e, d])]
      simp
  have planes : ∀ (ps : List Plane) (st : Status) (r : Option Status), (∀ p ∈ ps, p ∈ t.planes) → Planes workers ps st r → r ≠ none := by
    intro ps st r hmem hr
    induction hr with
    | nil st => simp
    | quit p ps h => simp
    | exit ps h => exact plane _ (hmem _ (by simp)) _ h
    | next h hs ih => exact ih fun p hp => hmem p (by simp [hp])
  unfold Whole at h
  split at h
  · exact ⟨_, _, h⟩
  · obtain ⟨mid, hm, r, hr, ho⟩ := h
    have := planes _ _ _ (fun _ h => h) hr
    cases r with
    | none => exact absurd rfl this
    | some s => exact ⟨_, _, ho⟩

/-! ## Errors that end the process -/

/-- A plane on which nothing is to be done. -/
def Plane.Quiet (p : Plane) : Prop := p.clamp = .success ∧ p.diff = .success ∧ p.numVis = 0

theorem quiet_run {workers : Nat} {p : Plane} (h : p.Quiet) {o : Option Status} (ho : PlaneRun workers p o) : o = some .success := by
  unfold PlaneRun at ho
  simp only at ho
  rw [if_pos (Or.inr h.2.2)] at ho
  rw [ho, (selected_ok p).2 ⟨h.1, h.2.1⟩]

theorem failed_run {workers : Nat} {p : Plane} (h1 : p.clamp = .success) (h2 : p.diff = .success) (hn : p.numVis ≠ 0)
    (hf : (∃ r ∈ p.prep, r ≠ .success) ∨ ∃ r ∈ p.counts, r ≠ .success) {o : Option Status} (ho : PlaneRun workers p o) : o = none := by
  unfold PlaneRun at ho
  simp only at ho
  rw [(selected_ok p).2 ⟨h1, h2⟩, if_neg (by simp [hn])] at ho
  obtain ⟨counts, hc, st', count, hr, ho⟩ := ho
  have hb : (p.prep ++ counts).foldl after .success ≠ .success := by
    rw [Ne, fold_ok]
    rintro ⟨-, hh⟩
    rcases hf with ⟨r, hr, hne⟩ | ⟨r, hr, hne⟩
    · exact hne (hh r (by simp [hr]))
    · exact hne (hh r (by simp [hc.mem_iff.2 hr]))
  obtain ⟨-, hz⟩ := bad_start hb hr
  rw [ho, if_pos (by rw [hz]; exact fun h => hn h.symm)]

/-- **C112 fails: errors on a plane end the process.**  If a function that prepares the grid of the first plane with
visibilities, or counts them, reports an error, the call does not return it: in every execution the workers do nothing, the
check of the number of visibilities fails, and `exit(1)` is called. -/
theorem C112_prepare_false {workers : Nat} {t : Trace} (hr : t.Ready) (hc : t.clear = .success) {quiet rest : List Plane} {p : Plane}
    (hp : t.planes = quiet ++ p :: rest) (hq : ∀ x ∈ quiet, x.Quiet) (h1 : p.clamp = .success) (h2 : p.diff = .success)
    (hn : p.numVis ≠ 0) (hf : (∃ r ∈ p.prep, r ≠ .success) ∨ ∃ r ∈ p.counts, r ≠ .success) {o : Outcome}
    (h : Whole workers .success t o) : o = .killed := by
  have planes : ∀ (ps : List Plane) (r : Option Status), (∀ x ∈ ps, x.Quiet) → Planes workers (ps ++ p :: rest) .success r → r = none := by
    intro ps
    induction ps with
    | nil =>
      intro r _ hr
      cases hr with
      | quit _ _ h => exact absurd rfl h
      | exit _ h => rfl
      | next h _ => cases failed_run h1 h2 hn hf h
    | cons x xs ih =>
      intro r hq hr
      cases hr with
      | quit _ _ h => exact absurd rfl h
      | exit _ h => rfl
      | next h h' =>
        have := quiet_run (hq x (by simp)) h
        rw [Option.some.inj this] at h'
        exact ih r (fun y hy => hq y (by simp [hy])) h'
  unfold Whole at h
  rw [if_neg (by simp)] at h
  obtain ⟨mid, hm, r, hr', ho⟩ := h
  rw [(after_ok _ _).2 ⟨(ready_ok hm).2 hr, hc⟩, hp] at hr'
  rw [ho, planes quiet r hq hr']

theorem view_dims {image : Mem} (hd : image.numDims ≠ 2) (l : MemLocation) (st : Status) :
    (checkAndViewConst image image.type 2 l st).2 ≠ .success := by
  intro hs
  rw [viewConst_status] at hs
  exact hd (by exact_mod_cast hs.2.2.1)

theorem accumCpu_dims {grid image : Mem} (hd : image.numDims ≠ 2) (e : Int) (st : Status) (src : Option (Arr ℂ)) (in2 : Arr ℂ) :
    (GridUtil.accumCpu grid image none e st src in2).status ≠ .success := view_dims hd _ _

theorem realCpu_dims {grid image : Mem} (hd : image.numDims ≠ 2) (st : Status) (src : Option (Arr ℂ)) :
    (GridUtil.realCpu grid image st src).status ≠ .success := view_dims hd _ _

theorem gpuRun_dims (cuda : Bool) (mo : Mem) {st : Status} (h : st ≠ .success) (v : View) (body : Nat × Nat → Race.Prog ℂ) :
    (GridUtil.gpuRun cuda mo st v body).status ≠ .success := by
  unfold GridUtil.gpuRun
  rw [if_pos h]
  exact h

theorem accum_dims (cuda : Bool) {grid image : Mem} (src : Option (Arr ℂ)) (in2 : Arr ℂ)
    (hl : grid.location = .cpu ∨ grid.location = .gpu) (hd : image.numDims ≠ 2) :
    (GridUtil.accumCall cuda grid image none 0 .success src in2).status ≠ .success := by
  unfold GridUtil.accumCall
  rw [if_neg (by simp)]
  by_cases h : image.location ≠ grid.location
  · rw [if_pos h]; simp [GridUtil.Run.none]
  rw [if_neg h]
  rcases hl with hl | hl <;> rw [hl] <;> simp only <;>
    generalize GridUtil.accumKind _ _ _ = k <;> rcases k with - | - | -
  · simp [GridUtil.Run.none]
  · exact accumCpu_dims hd _ _ _ _
  · exact realCpu_dims hd _ _
  · simp [GridUtil.Run.none]
  · exact gpuRun_dims _ _ (view_dims hd _ _) _ _
  · exact gpuRun_dims _ _ (view_dims hd _ _) _ _

theorem gridOf_location (image vis : Mem) : (gridOf image vis).location = vis.location := by
  unfold gridOf createWrapper
  simp only
  split
  · rfl
  · split
    · rfl
    · split <;> rfl

/-- Copying the image to the grid fails if the image does not have two dimensions. -/
theorem imageToGrid_dims (cuda : Bool) (image vis : Mem) (src : Option (Arr ℂ)) (hl : vis.location = .cpu ∨ vis.location = .gpu)
    (hd : image.numDims ≠ 2) : imageToGrid cuda image vis src ≠ .success :=
  accum_dims cuda src _ (by rwa [gridOf_location]) hd

/-- **C112 fails for the number of dimensions of the image**: degridding checks it only after it has begun, so a call with an
image of one or three dimensions that passes the checks ends the process. -/
theorem C112_image_dims_false {workers : Nat} {t : Trace} {image uvw vis : Mem} {noHeight cuda : Bool} {src : Option (Arr ℂ)}
    (he : entry image uvw vis noHeight .success = .success) (hl : vis.location = .cpu ∨ vis.location = .gpu)
    (hd : image.numDims ≠ 2) (hr : t.Ready) (hc : t.clear = .success) {quiet rest : List Plane} {p : Plane}
    (hp : t.planes = quiet ++ p :: rest) (hq : ∀ x ∈ quiet, x.Quiet) (h1 : p.clamp = .success) (h2 : p.diff = .success)
    (hn : p.numVis ≠ 0) (hi : imageToGrid cuda image vis src ∈ p.prep) {o : Outcome}
    (h : Whole workers (entry image uvw vis noHeight .success) t o) : o = .killed := by
  rw [he] at h
  exact C112_prepare_false hr hc hp hq h1 h2 hn (Or.inl ⟨_, hi, imageToGrid_dims cuda image vis src hl hd⟩) h

/-- Five visibilities of a type the kernel refuses. -/
def refused : Chunk := ⟨.success, .success, 5, [.dataType]⟩

/-- The states of a single worker with two such chunks. -/
inductive Lone : List Chunk → Phase → Status → Int → Prop
  | top : Lone [refused, refused] .top .success 0
  | pick : Lone [refused, refused] .pick .success 0
  | clamp : Lone [refused] (.clamp refused) .success 0
  | diff : Lone [refused] (.diff refused) .success 0
  | add : Lone [refused] (.add refused) .success 0
  | body : Lone [refused] (.body refused [.dataType]) .success 5
  | done : Lone [refused] (.body refused []) .dataType 5
  | again : Lone [refused] .top .dataType 5
  | out : Lone [refused] .out .dataType 5

theorem lone_move {pend : List Chunk} {p : Phase} {st : Status} {n : Int} (h : Lone pend p st n) :
    Lone (move pend st n p).1 (move pend st n p).2.1 (move pend st n p).2.2.1 (move pend st n p).2.2.2 := by
  cases h
  · exact .pick
  · exact .clamp
  · exact .diff
  · exact .add
  · exact .body
  · exact .done
  · exact .again
  · exact .out
  · exact .out

theorem lone_count {st' : Status} {count : Int} (h : Region [refused, refused] 1 .success st' count) : count = 5 := by
  obtain ⟨sched, hf, -, hcount⟩ := h
  have key : ∃ p, (sched.foldl Reg.step (Reg.start [refused, refused] 1 .success)).workers = [p] ∧
      Lone (sched.foldl Reg.step (Reg.start [refused, refused] 1 .success)).pending p
        (sched.foldl Reg.step (Reg.start [refused, refused] 1 .success)).status
        (sched.foldl Reg.step (Reg.start [refused, refused] 1 .success)).count := by
    refine sched_inv (fun s => ∃ p, s.workers = [p] ∧ Lone s.pending p s.status s.count) _ ⟨.top, rfl, .top⟩ ?_ sched
    rintro ⟨pend, ws, st, cnt⟩ l1 p l2 ⟨q, hq, hi⟩ hw
    simp only at hi hw hq
    rw [hq] at hw
    cases l1 with
    | cons a l => simp at hw
    | nil =>
      simp only [List.nil_append, List.cons.injEq] at hw
      obtain ⟨rfl, rfl⟩ := hw
      exact ⟨_, rfl, lone_move hi⟩
  obtain ⟨p, hp, hl⟩ := key
  have : p = .out := hf p (by rw [hp]; simp)
  subst this
  rw [← hcount]
  generalize sched.foldl Reg.step (Reg.start [refused, refused] 1 .success) = s at hl ⊢
  obtain ⟨a, b, c, d⟩ := s
  simp only at hl ⊢
  cases hl
  rfl

/-- One of two workers does a chunk before the other starts. -/
theorem race_one : Region [refused, refused] 2 .success .dataType 5 := by
  have h : [0, 0, 0, 0, 0, 0, 0, 0, 1].foldl Reg.step (Reg.start [refused, refused] 2 .success) =
      ⟨[refused], [.out, .out], .dataType, 5⟩ := rfl
  exact ⟨[0, 0, 0, 0, 0, 0, 0, 0, 1], by rw [h]; exact ⟨by intro p hp; simpa using hp, rfl, rfl⟩⟩

/-- Both workers count before either fails. -/
theorem race_both : Region [refused, refused] 2 .success .dataType 10 := by
  have h : [0, 0, 0, 0, 0, 1, 1, 1, 1, 1, 0, 1, 0, 0, 1, 1].foldl Reg.step (Reg.start [refused, refused] 2 .success) =
      ⟨[], [.out, .out], .dataType, 10⟩ := rfl
  exact ⟨[0, 0, 0, 0, 0, 1, 1, 1, 1, 1, 0, 1, 0, 0, 1, 1], by rw [h]; exact ⟨by intro p hp; simpa using hp, rfl, rfl⟩⟩

/-- **C112 fails: what becomes of an error depends on the schedule.**  Two chunks whose visibilities have a type the kernel
refuses: with one worker the second chunk is never counted and the process ends; with two workers that count before either
fails, the error is returned. -/
theorem C112_schedule_false : ∃ p : Plane, p.clamp = .success ∧ p.diff = .success ∧ (p.chunks.map Chunk.vis).sum = p.numVis ∧
    (∀ o, PlaneRun 1 p o → o = none) ∧ PlaneRun 2 p none ∧ PlaneRun 2 p (some .dataType) := by
  have run : ∀ w st' count, Region [refused, refused] w .success st' count →
      PlaneRun w ⟨.success, .success, 10, [], [], [refused, refused], []⟩ (if count ≠ 10 then none else some st') := by
    intro w st' count h
    unfold PlaneRun
    simp only
    rw [if_neg (by simp [after])]
    exact ⟨[], List.Perm.refl _, st', count, h, rfl⟩
  refine ⟨⟨.success, .success, 10, [], [], [refused, refused], []⟩, rfl, rfl, rfl, ?_, ?_, ?_⟩
  · intro o ho
    unfold PlaneRun at ho
    simp only at ho
    rw [if_neg (by simp [after])] at ho
    obtain ⟨counts, hc, st', count, hr, ho⟩ := ho
    have hn : counts = [] := List.perm_nil.1 hc
    subst hn
    have := lone_count hr
    rw [ho, if_pos (by rw [this]; decide)]
  · have := run 2 .dataType 5 race_one
    simpa using this
  · have := run 2 .dataType 10 race_both
    simpa using this

/-! ## Cases the theorems cover -/

/-- A run on two threads with a quiet plane, a plane of two chunks of which one is empty, and work after the region. -/
def exTrace : Trace :=
  ⟨[⟨true, .success⟩], [[⟨false, .success⟩, ⟨true, .success⟩], [⟨false, .success⟩]], [⟨true, .success⟩], .success,
    [⟨.success, .success, 0, [], [], [], []⟩,
     ⟨.success, .success, 7, [.success], [.success, .success], [⟨.success, .success, 0, [.runtime]⟩, ⟨.success, .success, 7, [.success]⟩], [.success]⟩]⟩

example : ∀ o, Whole 2 .success exTrace o → o = .back .success true := by
  intro o h
  refine ((C112_no_loss (by decide) h).1).2 ⟨rfl, ?_, rfl, ?_⟩
  · refine ⟨?_, ?_, ?_⟩ <;> simp [exTrace]
  · simp [exTrace, Plane.Good, Chunk.Good]

/-- An image of three dimensions in double precision, and visibilities that go with the rest. -/
def cubeImage : Mem := ⟨.double, .cpu, true, true, false, 3, 4, 1, [2, 2, 1], [16, 8, 8], some ⟨0, 0⟩⟩
def threeUvw : Mem := ⟨.double, .cpu, true, true, false, 2, 9, 1, [3, 3], [24, 8], some ⟨0, 0⟩⟩
def threeVis : Mem := ⟨.complexDouble, .cpu, true, true, false, 2, 3, 1, [3, 1], [16, 16], some ⟨0, 0⟩⟩
noncomputable def cubePlane (src : Option (Arr ℂ)) : Plane :=
  ⟨.success, .success, 3, [.success, imageToGrid false cubeImage threeVis src], [], [⟨.success, .success, 3, []⟩], []⟩

/-- A call with that image: the process ends. -/
example (src : Option (Arr ℂ)) : ∀ o, Whole 2 (entry cubeImage threeUvw threeVis false .success)
    ⟨[], [], [], .success, [cubePlane src]⟩ o → o = .killed := fun o h =>
  C112_image_dims_false (by decide) (Or.inl rfl) (by decide) ⟨by simp, by simp, by simp⟩ rfl (quiet := []) (rest := []) rfl
    (by simp) rfl rfl (show (3 : Int) ≠ 0 by decide) (show _ ∈ [_, _] from List.mem_cons_of_mem _ (List.mem_singleton.2 rfl)) h

end Sdp.Wstack.Err
