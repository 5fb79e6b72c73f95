import Mathlib.Algebra.BigOperators.Fin
import Mathlib.Algebra.BigOperators.Group.List.Basic

/-!
# The mutex of the library (C128)

`sdp_mutex_create`, `sdp_mutex_lock` and `sdp_mutex_unlock`, and threads that change a shared value between the last two.
Interleaving is between single loads and stores, with a sequentially consistent memory (what OpenMP's lock routines, which
imply a flush, give to such threads).  The allocation in `sdp_mutex_create` is taken to succeed.
-/

namespace Sdp.Mutex

/-- Whether the lock is set: sdp_mutex_create, utility/sdp_thread_support.cpp:21-28. -/
def create : Bool := false

/-- sdp_mutex_lock (utility/sdp_thread_support.cpp:41-46): `none` while the caller has to wait.  `omp` says whether the
library was compiled with OpenMP; without it the function does nothing. -/
def lock (omp : Bool) (m : Bool) : Option Bool :=
  if omp then (if m then none else some true) else some m

/-- sdp_mutex_unlock (utility/sdp_thread_support.cpp:49-54), called by the thread that has locked. -/
def unlock (omp : Bool) (m : Bool) : Bool :=
  if omp then false else m

/-- Where a thread is: before `sdp_mutex_lock`, before reading the shared value, before writing it, before
`sdp_mutex_unlock`.  Models the use in sdp_grid_wstack_wtower.cpp:140-165 (lock, read, write, unlock), of shared
data of any type `σ`. -/
inductive Pc (σ : Type)
  | outside
  | locked
  | loaded (v : σ)
  | stored

/-- A thread: where it is, and the changes it still has to make to the shared data (as sdp_grid_wstack_wtower.cpp:158-159
does to `num_chunks` and `row_start`). -/
structure Thread (σ δ : Type) where
  pc : Pc σ
  todo : List δ

/-- The shared data, the mutex and `n` threads (sdp_grid_wstack_wtower.cpp:386-398). -/
structure St (n : Nat) (σ δ : Type) where
  x : σ
  m : Bool
  thr : Fin n → Thread σ δ

variable {n : Nat} {σ δ : Type}

/-- Next step of thread `t`; `none` if it has ended or has to wait.  `ap` makes a change.  One pass: sdp_mutex_lock, read, write,
sdp_mutex_unlock (sdp_grid_wstack_wtower.cpp:143-163). -/
def step (ap : σ → δ → σ) (omp : Bool) (s : St n σ δ) (t : Fin n) : Option (St n σ δ) :=
  match s.thr t with
  | ⟨.outside, []⟩ => none
  | ⟨.outside, d :: ds⟩ => (lock omp s.m).map fun m => ⟨s.x, m, Function.update s.thr t ⟨.locked, d :: ds⟩⟩
  | ⟨.locked, l⟩ => some ⟨s.x, s.m, Function.update s.thr t ⟨.loaded s.x, l⟩⟩
  | ⟨.loaded _, []⟩ => none
  | ⟨.loaded v, d :: ds⟩ => some ⟨ap v d, s.m, Function.update s.thr t ⟨.stored, ds⟩⟩
  | ⟨.stored, l⟩ => some ⟨s.x, unlock omp s.m, Function.update s.thr t ⟨.outside, l⟩⟩

/-- Steps in the order `sched`; `none` if one of them cannot be done (sdp_grid_wstack_wtower.cpp:386-398, one of the ways
in which the threads may be interleaved). -/
def run (ap : σ → δ → σ) (omp : Bool) (s : St n σ δ) (sched : List (Fin n)) : Option (St n σ δ) :=
  sched.foldlM (step ap omp) s

/-- Before the first step: sdp_grid_wstack_wtower.cpp:386. -/
def start (x : σ) (prog : Fin n → List δ) : St n σ δ :=
  ⟨x, create, fun t => ⟨.outside, prog t⟩⟩

/-- All threads have ended (sdp_grid_wstack_wtower.cpp:441). -/
def St.Ended (s : St n σ δ) : Prop := ∀ t, (s.thr t).pc = .outside ∧ (s.thr t).todo = []

/-- Thread `t` is between lock and unlock (sdp_grid_wstack_wtower.cpp:144-162). -/
def St.Inside (s : St n σ δ) (t : Fin n) : Prop := (s.thr t).pc ≠ .outside

end Sdp.Mutex
