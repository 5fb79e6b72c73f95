import Mathlib.Data.Int.Init
import Verif.Common.Loops

/-!
# Subgrid task list and worker threads: model

`/repo/src/ska-sdp-func/grid_data/sdp_grid_wstack_wtower.cpp` L24-60 (task record),
L140-165 (`pick_task`) and the parallel region L386-440 / L636-692 as a transition
system: any number of worker threads, any interleaving.
-/

namespace Sdp.Wstack

/-- `sdp_SubgridTask` (L24-34). -/
structure Task where
  iu : Int
  iv : Int
  numChunks : Int
  rowsPerChunk : Int
  rowsTotal : Int
  numVis : Int
  rowStart : Int
  rowEnd : Int
deriving DecidableEq, Repr

/-- Default constructor (L36-40). -/
def Task.blank : Task := ⟨0, 0, 0, 0, 0, 0, 0, 0⟩

/-- The other constructor (L42-60); `min_chunk_size` is 2000.  All quantities are
non-negative here, so C division is `/`. -/
def mkTask (iu iv numVis numRows visPerChunk : Int) : Task :=
  let per := if visPerChunk < 2000 then 2000 else visPerChunk
  let nc := (numVis + per - 1) / per
  ⟨iu, iv, nc, if 0 < nc then (numRows + nc - 1) / nc else numRows, numRows, numVis, 0, 0⟩

/-- `pick_task` (L140-165): the whole scan is under the mutex, so it is one atomic
step.  Result: the picked task and the updated list. -/
def pickTask : List Task → Task × List Task
  | [] => (Task.blank, [])
  | t :: ts =>
    if 0 < t.numChunks then
      let stop := t.rowStart + t.rowsPerChunk
      ({t with rowEnd := if t.rowsTotal < stop then t.rowsTotal else stop},
        {t with numChunks := t.numChunks - 1, rowStart := t.rowStart + t.rowsPerChunk} :: ts)
    else
      let r := pickTask ts
      (r.1, t :: r.2)

/-- Where a worker is in its loop (L390-439): about to pick, working on a task, or out
of the loop. -/
inductive Phase where
  | ready
  | busy (t : Task)
  | done
deriving DecidableEq

/-- A worker with its private buffers `start_ch_uv[tid]`, `end_ch_uv[tid]`. -/
structure Thread (β : Type) where
  phase : Phase
  buf : β

/-- State of the parallel region.  `count` is `vis_count_check`.  `finished` (tasks
worked on) and `handled` (visibilities passed to the kernel) are ghost logs. -/
structure Par (β ε : Type) where
  tasks : List Task
  threads : List (Thread β)
  count : Int
  finished : List Task
  handled : List ε

/-- One step of one worker.  `work buf t` is the body of the loop after picking task
`t` (L401-438): new private buffers, number of visibilities, visibilities handled. -/
inductive Step {β ε : Type} (work : β → Task → Option (β × Int × List ε)) :
    Par β ε → Par β ε → Prop
  | pick (s : Par β ε) (l1 l2 : List (Thread β)) (b : β) (t : Task) (ts : List Task)
      (hth : s.threads = l1 ++ ⟨.ready, b⟩ :: l2) (hp : pickTask s.tasks = (t, ts))
      (hc : 0 < t.numChunks) :
      Step work s {s with tasks := ts, threads := l1 ++ ⟨.busy t, b⟩ :: l2}
  | stop (s : Par β ε) (l1 l2 : List (Thread β)) (b : β) (t : Task) (ts : List Task)
      (hth : s.threads = l1 ++ ⟨.ready, b⟩ :: l2) (hp : pickTask s.tasks = (t, ts))
      (hc : ¬ 0 < t.numChunks) :
      Step work s {s with tasks := ts, threads := l1 ++ ⟨.done, b⟩ :: l2}
  | work (s : Par β ε) (l1 l2 : List (Thread β)) (b b' : β) (t : Task) (v : Int) (ev : List ε)
      (hth : s.threads = l1 ++ ⟨.busy t, b⟩ :: l2) (hw : work b t = some (b', v, ev)) :
      Step work s {
        tasks := s.tasks
        threads := l1 ++ ⟨.ready, b'⟩ :: l2
        count := s.count + v
        finished := s.finished ++ [t]
        handled := s.handled ++ ev }

/-- Runs of `n` steps. -/
inductive Run {β ε : Type} (work : β → Task → Option (β × Int × List ε)) :
    Nat → Par β ε → Par β ε → Prop
  | refl (s) : Run work 0 s s
  | step {n a b c} (h : Run work n a b) (hs : Step work b c) : Run work (n + 1) a c

/-- The state on entry (L386-391): one ready worker per buffer. -/
def Par.start {β ε : Type} (ts : List Task) (bufs : List β) : Par β ε :=
  ⟨ts, bufs.map fun b => ⟨.ready, b⟩, 0, [], []⟩

/-- All workers have left their loops. -/
def Par.final {β ε : Type} (s : Par β ε) : Prop := ∀ th ∈ s.threads, th.phase = .done

end Sdp.Wstack
