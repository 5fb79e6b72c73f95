import Mathlib.Data.List.Perm.Basic
import Mathlib.Data.List.Forall2
import Mathlib.Tactic.Linarith
import Verif.Wstack.Tasks

/-!
# C37: worker threads claim each chunk of rows exactly once
-/

namespace Sdp.Wstack

/-- Chunk number `k` of a task: what the `k`-th successful pick of that task returns. -/
def chunk (t : Task) (k : Nat) : Task :=
  {t with
    numChunks := t.numChunks - k
    rowStart := t.rowStart + k * t.rowsPerChunk
    rowEnd := min t.rowsTotal (t.rowStart + (k + 1) * t.rowsPerChunk)}

/-- A task list entry after `k` picks. -/
def advance (t : Task) (k : Nat) : Task :=
  {t with numChunks := t.numChunks - k, rowStart := t.rowStart + k * t.rowsPerChunk}

/-- All chunks of a task. -/
def chunksOf (t : Task) : List Task := (List.range t.numChunks.toNat).map (chunk t)

/-- Picking from an advanced list: either everything is exhausted, or exactly the next
chunk of some task is returned. -/
theorem pickTask_spec (ts : List (Task × Nat)) :
    ((∀ p ∈ ts, p.1.numChunks ≤ p.2) ∧
        pickTask (ts.map fun p => advance p.1 p.2) =
          (Task.blank, ts.map fun p => advance p.1 p.2)) ∨
      ∃ (l1 : List (Task × Nat)) (t : Task) (k : Nat) (l2 : List (Task × Nat)), ts = l1 ++ (t, k) :: l2 ∧ (k : Int) < t.numChunks ∧
        pickTask (ts.map fun p => advance p.1 p.2) =
          (chunk t k, (l1 ++ (t, k + 1) :: l2).map fun p => advance p.1 p.2) := by
  induction ts with
  | nil => left; exact ⟨by simp, rfl⟩
  | cons p ts ih =>
    obtain ⟨t, k⟩ := p
    by_cases h : (k : Int) < t.numChunks
    · right
      refine ⟨[], t, k, ts, rfl, h, ?_⟩
      rw [List.map_cons]
      unfold pickTask
      have hc : 0 < (advance t k).numChunks := by simp only [advance]; omega
      rw [if_pos hc]
      simp only [List.nil_append, List.map_cons]
      have e : t.rowStart + (k : Int) * t.rowsPerChunk + t.rowsPerChunk =
          t.rowStart + ((k : Int) + 1) * t.rowsPerChunk := by ring
      refine Prod.ext ?_ ?_
      · have hmin : ∀ a b : Int, (if a < b then a else b) = min a b := by
          intro a b; split <;> omega
        simp only [hmin]
        simp only [advance, chunk]
        rw [e]
      · simp only [advance]
        congr 1
        rw [e]
        push_cast
        congr 1
        omega
    · have hc : ¬ 0 < (advance t k).numChunks := by simp only [advance]; omega
      rcases ih with ⟨ha, hp⟩ | ⟨l1, t', k', l2, he, hk, hp⟩
      · left
        refine ⟨?_, ?_⟩
        · intro q hq
          rcases List.mem_cons.1 hq with rfl | hq
          · exact not_lt.1 h
          · exact ha q hq
        · rw [List.map_cons]
          unfold pickTask
          rw [if_neg hc]
          simp only
          rw [hp]
      · right
        refine ⟨(t, k) :: l1, t', k', l2, by rw [he]; rfl, hk, ?_⟩
        rw [List.map_cons]
        unfold pickTask
        rw [if_neg hc]
        simp only
        rw [hp]
        rfl

/-- Chunks claimed so far. -/
def claimed (ts : List (Task × Nat)) : List Task :=
  ts.flatMap fun p => (List.range p.2).map (chunk p.1)

/-- Tasks being worked on. -/
def busyTasks {β : Type} (ths : List (Thread β)) : List Task :=
  ths.filterMap fun th => match th.phase with | .busy t => some t | _ => none

theorem busyTasks_append {β : Type} (l1 l2 : List (Thread β)) :
    busyTasks (l1 ++ l2) = busyTasks l1 ++ busyTasks l2 := by
  unfold busyTasks; rw [List.filterMap_append]

theorem busyTasks_busy {β : Type} (t : Task) (b : β) (l : List (Thread β)) :
    busyTasks (⟨.busy t, b⟩ :: l) = t :: busyTasks l := by
  simp [busyTasks]

theorem busyTasks_ready {β : Type} (b : β) (l : List (Thread β)) :
    busyTasks (⟨.ready, b⟩ :: l) = busyTasks l := by
  simp [busyTasks]

theorem busyTasks_done {β : Type} (b : β) (l : List (Thread β)) :
    busyTasks (⟨.done, b⟩ :: l) = busyTasks l := by
  simp [busyTasks]

variable {β ε : Type} (work : β → Task → Option (β × Int × List ε))

/-- Invariant of the parallel region started on task list `ts0`. -/
structure Inv (ts0 : List Task) (nthreads : Nat) (s : Par β ε) : Prop where
  prog : ∃ ts : List (Task × Nat), ts.map Prod.fst = ts0 ∧
    s.tasks = ts.map (fun p => advance p.1 p.2) ∧
    (∀ p ∈ ts, p.2 ≤ p.1.numChunks.toNat) ∧
    (s.finished ++ busyTasks s.threads).Perm (claimed ts) ∧
    ((∃ th ∈ s.threads, th.phase = .done) → ∀ p ∈ ts, p.1.numChunks ≤ p.2)
  nth : s.threads.length = nthreads

theorem inv_start (ts0 : List Task) (bufs : List β) :
    Inv ts0 bufs.length (Par.start ts0 bufs : Par β ε) := by
  refine ⟨⟨ts0.map fun t => (t, 0), ?_, ?_, ?_, ?_, ?_⟩, by simp [Par.start]⟩
  · simp [Function.comp_def]
  · rw [List.map_map]
    simp only [Par.start, Function.comp_def]
    have : ∀ t : Task, advance t 0 = t := by intro t; simp [advance]
    simp [this]
  · intro p hp
    rw [List.mem_map] at hp
    obtain ⟨t, _, rfl⟩ := hp
    simp
  · have h1 : busyTasks (bufs.map fun b => (⟨.ready, b⟩ : Thread β)) = [] := by
      induction bufs with
      | nil => rfl
      | cons b bs ih => rw [List.map_cons, busyTasks_ready, ih]
    have h2 : claimed (ts0.map fun t => (t, 0)) = [] := by
      simp [claimed, List.flatMap_map]
    simp only [Par.start]
    rw [h1, h2]
    simp
  · rintro ⟨th, hth, hd⟩
    simp only [Par.start, List.mem_map] at hth
    obtain ⟨b, _, rfl⟩ := hth
    simp at hd

theorem inv_step {ts0 : List Task} {n : Nat} {s s' : Par β ε} (hi : Inv ts0 n s)
    (hs : Step work s s') : Inv ts0 n s' := by
  obtain ⟨⟨ts, h1, h2, h3, h4, h5⟩, hn⟩ := hi
  cases hs with
  | pick l1 l2 b t ts' hth hp hc =>
    have hn' : (l1 ++ (⟨.busy t, b⟩ : Thread β) :: l2).length = n := by
      rw [← hn, hth]; simp
    rcases pickTask_spec ts with ⟨_, he⟩ | ⟨a1, u, k, a2, he, hk, he'⟩
    · rw [h2, he, Prod.mk.injEq] at hp
      rw [← hp.1] at hc
      simp [Task.blank] at hc
    · rw [h2, he', Prod.mk.injEq] at hp
      obtain ⟨rfl, rfl⟩ := hp
      refine ⟨⟨a1 ++ (u, k + 1) :: a2, ?_, rfl, ?_, ?_, ?_⟩, hn'⟩
      · rw [← h1, he]; simp
      · intro p hp
        rcases List.mem_append.1 hp with hp | hp
        · exact h3 p (by rw [he]; simp [hp])
        · rcases List.mem_cons.1 hp with rfl | hp
          · simp only; omega
          · exact h3 p (by rw [he]; simp [hp])
      · have e1 : claimed (a1 ++ (u, k + 1) :: a2) =
            claimed a1 ++ ((List.range k).map (chunk u) ++ [chunk u k] ++ claimed a2) := by
          simp only [claimed, List.flatMap_append, List.flatMap_cons]
          rw [List.range_succ, List.map_append]
          simp
        have e2 : claimed ts =
            claimed a1 ++ ((List.range k).map (chunk u) ++ claimed a2) := by
          rw [he]
          simp only [claimed, List.flatMap_append, List.flatMap_cons]
        rw [e1, busyTasks_append, busyTasks_busy]
        rw [e2, hth, busyTasks_append, busyTasks_ready] at h4
        have h6 : (s.finished ++ (busyTasks l1 ++ chunk u k :: busyTasks l2)).Perm
            (chunk u k :: (s.finished ++ (busyTasks l1 ++ busyTasks l2))) := by
          rw [← List.append_assoc, ← List.append_assoc]
          exact List.perm_middle
        refine h6.trans ((h4.cons _).trans ?_)
        have h7 : claimed a1 ++ ((List.range k).map (chunk u) ++ [chunk u k] ++ claimed a2) =
            (claimed a1 ++ (List.range k).map (chunk u)) ++ chunk u k :: claimed a2 := by
          simp
        rw [h7]
        have h8 : claimed a1 ++ ((List.range k).map (chunk u) ++ claimed a2) =
            (claimed a1 ++ (List.range k).map (chunk u)) ++ claimed a2 := by simp
        rw [h8]
        exact List.perm_middle.symm
      · rintro ⟨th, hm, hd⟩
        have : ∃ th ∈ s.threads, th.phase = .done := by
          rw [hth]
          rcases List.mem_append.1 hm with hm | hm
          · exact ⟨th, by simp [hm], hd⟩
          · rcases List.mem_cons.1 hm with rfl | hm
            · simp at hd
            · exact ⟨th, by simp [hm], hd⟩
        have := h5 this (u, k) (by rw [he]; simp)
        simp only at this
        omega
  | stop l1 l2 b t ts' hth hp hc =>
    have hn' : (l1 ++ (⟨.done, b⟩ : Thread β) :: l2).length = n := by
      rw [← hn, hth]; simp
    rcases pickTask_spec ts with ⟨ha, he⟩ | ⟨a1, u, k, a2, he, hk, he'⟩
    · rw [h2, he, Prod.mk.injEq] at hp
      obtain ⟨rfl, rfl⟩ := hp
      refine ⟨⟨ts, h1, rfl, h3, ?_, fun _ => ha⟩, hn'⟩
      rw [hth, busyTasks_append, busyTasks_ready] at h4
      rw [busyTasks_append, busyTasks_done]
      exact h4
    · rw [h2, he', Prod.mk.injEq] at hp
      obtain ⟨rfl, rfl⟩ := hp
      exact absurd (by simp only [chunk]; omega) hc
  | work l1 l2 b b' t v ev hth hw =>
    have hn' : (l1 ++ (⟨.ready, b'⟩ : Thread β) :: l2).length = n := by
      rw [← hn, hth]; simp
    refine ⟨⟨ts, h1, h2, h3, ?_, ?_⟩, hn'⟩
    · rw [hth, busyTasks_append, busyTasks_busy] at h4
      rw [busyTasks_append, busyTasks_ready]
      refine List.Perm.trans ?_ h4
      rw [List.append_assoc]
      refine List.Perm.append_left _ ?_
      rw [List.singleton_append]
      exact List.perm_middle.symm
    · rintro ⟨th, hm, hd⟩
      apply h5
      rw [hth]
      rcases List.mem_append.1 hm with hm | hm
      · exact ⟨th, by simp [hm], hd⟩
      · rcases List.mem_cons.1 hm with rfl | hm
        · simp at hd
        · exact ⟨th, by simp [hm], hd⟩

theorem inv_run {ts0 : List Task} {n m : Nat} {s s' : Par β ε} (hi : Inv ts0 n s)
    (hr : Run work m s s') : Inv ts0 n s' := by
  induction hr with
  | refl => exact hi
  | step _ hs ih => exact inv_step work (ih hi) hs

/-- C37, main statement: under every interleaving of any number (at least one) of
worker threads, once all have left their loops the chunks worked on are exactly all
chunks of all tasks, each once. -/
theorem C37_all_chunks_once (ts0 : List Task) (bufs : List β) (hb : bufs ≠ []) (m : Nat)
    (s : Par β ε) (hr : Run work m (Par.start ts0 bufs) s) (hf : s.final) :
    s.finished.Perm (ts0.flatMap chunksOf) := by
  obtain ⟨⟨ts, h1, h2, h3, h4, h5⟩, hn⟩ := inv_run work (inv_start ts0 bufs) hr
  have hne : s.threads ≠ [] := by
    intro h
    rw [h] at hn
    exact hb (List.length_eq_zero_iff.1 hn.symm)
  obtain ⟨th, hth⟩ := List.exists_mem_of_ne_nil _ hne
  have hall := h5 ⟨th, hth, hf th hth⟩
  have hbusy : busyTasks s.threads = [] := by
    unfold busyTasks
    rw [List.filterMap_eq_nil_iff]
    intro a ha
    rw [hf a ha]
  rw [hbusy, List.append_nil] at h4
  have : claimed ts = ts0.flatMap chunksOf := by
    rw [← h1, List.flatMap_map]
    unfold claimed
    apply List.flatMap_congr
    intro p hp
    unfold chunksOf
    have h6 := h3 p hp
    have h7 := hall p hp
    have : p.1.numChunks.toNat = p.2 := by omega
    rw [this]
  rw [this] at h4
  exact h4

/-- C37, at every moment: chunks claimed so far (finished or in progress) are distinct
chunks of the tasks, no matter how far the threads are. -/
theorem C37_never_twice (ts0 : List Task) (bufs : List β) (m : Nat)
    (s : Par β ε) (hr : Run work m (Par.start ts0 bufs) s) :
    ∃ rest, (s.finished ++ busyTasks s.threads ++ rest).Perm (ts0.flatMap chunksOf) := by
  obtain ⟨⟨ts, h1, h2, h3, h4, h5⟩, hn⟩ := inv_run work (inv_start ts0 bufs) hr
  refine ⟨ts.flatMap fun p =>
    (List.range' p.2 (p.1.numChunks.toNat - p.2)).map (chunk p.1), ?_⟩
  refine (List.Perm.append_right _ h4).trans ?_
  rw [← h1, List.flatMap_map]
  clear h1 h2 h4 h5
  induction ts with
  | nil => simp [claimed]
  | cons p ts ih =>
    have ih := ih fun q hq => h3 q (by simp [hq])
    have hp := h3 p (by simp)
    unfold claimed at ih ⊢
    simp only [List.flatMap_cons]
    have e : chunksOf p.1 = (List.range p.2).map (chunk p.1) ++
        (List.range' p.2 (p.1.numChunks.toNat - p.2)).map (chunk p.1) := by
      unfold chunksOf
      rw [← List.map_append]
      congr 1
      rw [List.range_eq_range', List.range_eq_range']
      have := List.range'_append_1 (s := 0) (m := p.2) (n := p.1.numChunks.toNat - p.2)
      rw [Nat.zero_add] at this
      rw [this]
      congr 1
      omega
    rw [e]
    refine List.Perm.trans ?_ (List.Perm.append_left _ ih)
    generalize (List.range p.2).map (chunk p.1) = A
    generalize (List.range' p.2 (p.1.numChunks.toNat - p.2)).map (chunk p.1) = B
    generalize (List.flatMap _ ts) = C
    generalize (List.flatMap _ ts) = D
    rw [List.append_assoc, List.append_assoc]
    refine List.Perm.append_left _ ?_
    rw [← List.append_assoc, ← List.append_assoc]
    exact List.Perm.append_right _ List.perm_append_comm

/-! ## Rows of a task -/

/-- `n` visibilities per chunk at least 2000, so a task with visibilities has chunks. -/
theorem mkTask_chunks (iu iv numVis numRows vpc : Int) (h : 0 < numVis) :
    0 < (mkTask iu iv numVis numRows vpc).numChunks := by
  simp only [mkTask]
  have hp : 0 < (if vpc < 2000 then (2000 : Int) else vpc) := by split <;> omega
  generalize (if vpc < 2000 then (2000 : Int) else vpc) = per at *
  exact Int.ediv_pos_of_pos_of_dvd' hp (by omega)
where
  Int.ediv_pos_of_pos_of_dvd' {a b : Int} (hb : 0 < b) (h : b ≤ a) : 0 < a / b := by
    have : 1 ≤ a / b := by
      rw [Int.le_ediv_iff_mul_le hb]; omega
    omega

theorem mkTask_no_chunks (iu iv numRows vpc : Int) :
    (mkTask iu iv 0 numRows vpc).numChunks = 0 := by
  simp only [mkTask]
  have hp : 0 < (if vpc < 2000 then (2000 : Int) else vpc) := by split <;> omega
  generalize (if vpc < 2000 then (2000 : Int) else vpc) = per at *
  rw [Int.zero_add]
  exact Int.ediv_eq_zero_of_lt (by omega) (by omega)

/-- C37, rows: the chunks of a task with at least one visibility partition its rows:
every row is in exactly one chunk. -/
theorem C37_rows_partitioned (iu iv numVis vpc : Int) (numRows : Nat) (h : 0 < numVis)
    (r : Nat) (hr : r < numRows) :
    ((chunksOf (mkTask iu iv numVis numRows vpc)).countP
      fun c => decide (c.rowStart ≤ (r : Int) ∧ (r : Int) < c.rowEnd)) = 1 := by
  have hc := mkTask_chunks iu iv numVis numRows vpc h
  have hrpc : (mkTask iu iv numVis numRows vpc).rowsPerChunk =
      (numRows + (mkTask iu iv numVis numRows vpc).numChunks - 1) /
        (mkTask iu iv numVis numRows vpc).numChunks := by
    simp only [mkTask] at hc ⊢
    rw [if_pos hc]
  have htot : (mkTask iu iv numVis numRows vpc).rowsTotal = numRows := rfl
  have hst : (mkTask iu iv numVis numRows vpc).rowStart = 0 := rfl
  generalize mkTask iu iv numVis numRows vpc = t at *
  obtain ⟨nc, hnc⟩ := Int.eq_ofNat_of_zero_le hc.le
  have hnc0 : 0 < nc := by omega
  have hpos : 0 < t.rowsPerChunk := by
    rw [hrpc]
    exact Int.lt_of_lt_of_le (by omega : (0 : Int) < 1)
      ((Int.le_ediv_iff_mul_le hc).2 (by omega))
  obtain ⟨q, hq⟩ := Int.eq_ofNat_of_zero_le hpos.le
  have hq0 : 0 < q := by omega
  have hcover : numRows ≤ nc * q := by
    have h1 := Int.lt_ediv_add_one_mul_self (numRows + t.numChunks - 1 : Int) hc
    rw [← hrpc, hq, hnc] at h1
    have h2 : ((q : Int) + 1) * nc = nc * q + nc := by ring
    rw [h2] at h1
    have : (numRows : Int) ≤ ((nc * q : Nat) : Int) := by push_cast; omega
    exact_mod_cast this
  unfold chunksOf
  rw [List.countP_map, hnc, Int.toNat_natCast]
  have hpred : ∀ k ∈ List.range nc,
      (((fun c : Task => decide (c.rowStart ≤ (r : Int) ∧ (r : Int) < c.rowEnd)) ∘ chunk t) k = true ↔
        (k == r / q) = true) := by
    intro k _
    rw [Function.comp_apply, decide_eq_true_iff, beq_iff_eq]
    simp only [chunk]
    rw [hst, htot, hq, zero_add, zero_add, lt_min_iff]
    have e1 : (k : Int) * q ≤ r ↔ k ≤ r / q := by
      rw [Nat.le_div_iff_mul_le hq0]; exact_mod_cast Iff.rfl
    have e2 : (r : Int) < (k + 1) * q ↔ r / q < k + 1 := by
      rw [Nat.div_lt_iff_lt_mul hq0]; exact_mod_cast Iff.rfl
    rw [e1, e2]
    constructor
    · rintro ⟨h1, _, h2⟩; omega
    · intro h1; exact ⟨by omega, by exact_mod_cast hr, by omega⟩
  rw [List.countP_congr hpred]
  change List.count (r / q) (List.range nc) = 1
  apply List.count_eq_one_of_mem List.nodup_range
  rw [List.mem_range, Nat.div_lt_iff_lt_mul hq0]
  omega

/-- Chunks never reach outside the rows of the task (a trailing chunk may be empty). -/
theorem C37_chunk_in_rows (iu iv numVis vpc : Int) (numRows : Nat)
    (c : Task) (hc : c ∈ chunksOf (mkTask iu iv numVis numRows vpc)) :
    0 ≤ c.rowStart ∧ c.rowEnd ≤ numRows ∧ 0 ≤ c.rowEnd := by
  unfold chunksOf at hc
  rw [List.mem_map] at hc
  obtain ⟨k, hk, rfl⟩ := hc
  rw [List.mem_range] at hk
  have hpos : 0 ≤ (mkTask iu iv numVis numRows vpc).rowsPerChunk := by
    simp only [mkTask]
    have hp : 0 < (if vpc < 2000 then (2000 : Int) else vpc) := by split <;> omega
    generalize (if vpc < 2000 then (2000 : Int) else vpc) = per at *
    split
    · rename_i h1
      exact Int.ediv_nonneg (by omega) (by omega)
    · omega
  have htot : (mkTask iu iv numVis numRows vpc).rowsTotal = numRows := rfl
  have hst : (mkTask iu iv numVis numRows vpc).rowStart = 0 := rfl
  simp only [chunk]
  rw [hst, htot]
  have h1 : 0 ≤ (k : Int) * (mkTask iu iv numVis numRows vpc).rowsPerChunk :=
    Int.mul_nonneg (by omega) hpos
  have h2 : 0 ≤ ((k : Int) + 1) * (mkTask iu iv numVis numRows vpc).rowsPerChunk :=
    Int.mul_nonneg (by omega) hpos
  refine ⟨by omega, min_le_left _ _, le_min (by omega) (by omega)⟩

/-! ## Termination and progress -/

/-- Chunks not yet claimed. -/
def remaining (ts : List Task) : Nat := (ts.map fun t => t.numChunks.toNat).sum

/-- Work left to a thread. -/
def weight : Phase → Nat
  | .ready => 1
  | .busy _ => 2
  | .done => 0

def potential (s : Par β ε) : Nat :=
  3 * remaining s.tasks + (s.threads.map fun th => weight th.phase).sum

theorem pickTask_remaining (ts : List Task) :
    (0 < (pickTask ts).1.numChunks → remaining (pickTask ts).2 + 1 = remaining ts) ∧
    (¬ 0 < (pickTask ts).1.numChunks → remaining (pickTask ts).2 = remaining ts) := by
  induction ts with
  | nil => simp [pickTask, Task.blank]
  | cons t ts ih =>
    unfold pickTask
    by_cases h : 0 < t.numChunks
    · rw [if_pos h]
      simp only
      refine ⟨fun _ => ?_, fun h' => absurd h h'⟩
      simp only [remaining, List.map_cons, List.sum_cons]
      omega
    · rw [if_neg h]
      simp only
      unfold remaining at ih ⊢
      simp only [List.map_cons, List.sum_cons]
      exact ⟨fun h' => by have := ih.1 h'; omega, fun h' => by have := ih.2 h'; omega⟩

theorem potential_step {s s' : Par β ε} (hs : Step work s s') : potential s' < potential s := by
  unfold potential
  cases hs with
  | pick l1 l2 b t ts' hth hp hc =>
    have := pickTask_remaining s.tasks
    rw [hp] at this
    have := this.1 hc
    simp only at this
    rw [hth]
    simp [weight]
    omega
  | stop l1 l2 b t ts' hth hp hc =>
    have := pickTask_remaining s.tasks
    rw [hp] at this
    have := this.2 hc
    simp only at this
    rw [hth]
    simp [weight]
    omega
  | work l1 l2 b b' t v ev hth hw =>
    simp only
    rw [hth]
    simp [weight]

/-- C37, termination: every run, under every schedule, has at most
`3 * chunks + threads` steps. -/
theorem C37_terminates (ts0 : List Task) (bufs : List β) (m : Nat) (s : Par β ε)
    (hr : Run work m (Par.start ts0 bufs) s) : m ≤ 3 * remaining ts0 + bufs.length := by
  have h : m + potential s ≤ potential (Par.start ts0 bufs : Par β ε) := by
    generalize Par.start ts0 bufs = a at hr
    induction hr with
    | refl => simp
    | step _ hs ih => have := potential_step work hs; have := ih; omega
  have h0 : potential (Par.start ts0 bufs : Par β ε) = 3 * remaining ts0 + bufs.length := by
    have : ((bufs.map fun b => (⟨.ready, b⟩ : Thread β)).map fun th => weight th.phase).sum =
        bufs.length := by
      rw [List.map_map]
      have : ((fun th : Thread β => weight th.phase) ∘ fun b => (⟨.ready, b⟩ : Thread β)) =
          fun _ => 1 := rfl
      rw [this]
      simp
    simp only [potential, Par.start]
    rw [this]
  omega

/-- C37, no deadlock: while some worker has not left its loop, some worker can move
(provided the work on a claimed chunk itself does not crash). -/
theorem C37_progress (s : Par β ε) (h : ¬ s.final)
    (hw : ∀ th ∈ s.threads, ∀ t, th.phase = .busy t → ∃ r, work th.buf t = some r) :
    ∃ s', Step work s s' := by
  unfold Par.final at h
  simp only [not_forall] at h
  obtain ⟨th, hm, hd⟩ := h
  obtain ⟨l1, l2, hl⟩ := List.append_of_mem hm
  obtain ⟨ph, b⟩ := th
  cases ph with
  | done => exact absurd rfl hd
  | ready =>
    by_cases hc : 0 < (pickTask s.tasks).1.numChunks
    · exact ⟨_, Step.pick s l1 l2 b _ _ hl rfl hc⟩
    · exact ⟨_, Step.stop s l1 l2 b _ _ hl rfl hc⟩
  | busy t =>
    obtain ⟨⟨b', v, ev⟩, hr⟩ := hw _ hm t rfl
    exact ⟨_, Step.work s l1 l2 b b' t v ev hl hr⟩

/-- Non-vacuity: three chunks over two tasks, picked in list order. -/
example : (mkTask 1 2 5000 7 0).numChunks = 3 ∧ (mkTask 1 2 5000 7 0).rowsPerChunk = 3 ∧
    (chunksOf (mkTask 1 2 5000 7 0)).map (fun c => (c.rowStart, c.rowEnd)) =
      [(0, 3), (3, 6), (6, 7)] ∧
    (pickTask [mkTask 1 1 0 7 0, mkTask 1 2 5000 7 0]).1.rowEnd = 3 := by decide

/-- Non-vacuity of the run theorems: one task with one chunk, two workers; worker 1
picks and works, both stop. -/
example : ∃ (s : Par Unit Unit),
    Run (fun _ _ => some ((), 1, [()])) 4 (Par.start [mkTask 0 0 1 3 0] [(), ()]) s ∧
      s.final ∧ s.count = 1 ∧ s.finished.length = 1 := by
  refine ⟨_, Run.step (Run.step (Run.step (Run.step (Run.refl _)
    (Step.pick _ [⟨.ready, ()⟩] [] () _ _ rfl rfl (by decide)))
    (Step.work _ [⟨.ready, ()⟩] [] () () _ 1 [()] rfl rfl))
    (Step.stop _ [] [⟨.ready, ()⟩] () _ _ rfl rfl (by decide)))
    (Step.stop _ [⟨.done, ()⟩] [] () _ _ rfl rfl (by decide)), ?_, rfl, rfl⟩
  intro th hth
  simp at hth
  rw [hth]

end Sdp.Wstack
