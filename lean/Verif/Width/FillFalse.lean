import Verif.Width.FillProps

/-
C121 is false of large arrays, and of random filling of arrays with gaps, of
integers and of protected arrays; cases that meet the hypotheses.
-/
namespace Sdp.Width

/-- C121 is false of filling a one-dimensional array of 2^31 numbers in main memory:
the call succeeds and changes nothing. -/
theorem C121_fill_large_false :
    setValueWidth ⟨false, .float, false, true, [(2147483648, 1)]⟩ = .done .float (some []) ∧
    Addressable [(2147483648, 1)] ∧ Fillable ⟨false, .float, false, true, [(2147483648, 1)]⟩ ∧
    IsElement [(2147483648, 1)] 0 := by
  refine ⟨rfl, ⟨?_, ?_⟩, ⟨rfl, by decide, by decide, by decide⟩, 0, 0, by omega, rfl, rfl⟩
  · intro d hd
    obtain rfl := List.mem_singleton.1 hd
    decide
  · rintro p ⟨i, q, hi, rfl, rfl⟩
    omega

/-- A thread's index is below 2^32. -/
theorem thread_mod (x : Nat) : threadIndex x = lit .u32 ((x % 4294967296 : Nat) : Int) := by
  unfold threadIndex Ty.wrap
  simp only [Ty.lo, Ty.hi]
  refine congrArg (lit .u32) ?_
  omega

/-- The accesses of a kernel over 2^32 + 1 elements. -/
theorem wide_trace : (List.range 4294967552).flatMap
      (fun (x : Nat) => [(("mem", ((x % 4294967296 : Nat) : Int)) : Acc)]) =
    ((List.range 4294967296).flatMap fun (i : Nat) => [("mem", (i : Int))]) ++
    ((List.range 256).flatMap fun (i : Nat) => [("mem", (i : Int))]) := by
  have key : ∀ N M : Nat, M ≤ N → (List.range (N + M)).flatMap
      (fun (x : Nat) => [(("mem", ((x % N : Nat) : Int)) : Acc)]) =
    ((List.range N).flatMap fun (i : Nat) => [("mem", (i : Int))]) ++
    ((List.range M).flatMap fun (i : Nat) => [("mem", (i : Int))]) := by
    intro N M hM
    rw [List.range_add, List.flatMap_append, List.flatMap_map]
    refine congr (congrArg _ ?_) ?_
    · refine flatMap_ext fun i hi => ?_
      rw [Nat.mod_eq_of_lt (List.mem_range.1 hi)]
    · refine flatMap_ext fun i hi => ?_
      rw [Nat.add_mod_left, Nat.mod_eq_of_lt (Nat.lt_of_lt_of_le (List.mem_range.1 hi) hM)]
  exact key 4294967296 256 (by omega)

theorem effect_append {α : Type} (f : α → α) (s t : List Acc) (mem : Int → α) :
    effect f (s ++ t) mem = effect f t (effect f s mem) := List.foldl_append

/-- What such a kernel does: the first 256 elements twice, the last one never. -/
theorem wide_effect {α : Type} (f : α → α) (mem : Int → α) (p : Int) :
    effect f ((List.range 4294967552).flatMap
      (fun (x : Nat) => [(("mem", ((x % 4294967296 : Nat) : Int)) : Acc)])) mem p =
    if 0 ≤ p ∧ p < 256 then f (f (mem p))
    else if 0 ≤ p ∧ p < 4294967296 then f (mem p) else mem p := by
  rw [wide_trace, effect_append]
  have key : ∀ N M : Nat, M ≤ N → effect f
      ((List.range M).flatMap fun (i : Nat) => [("mem", (i : Int))])
      (effect f ((List.range N).flatMap fun (i : Nat) => [("mem", (i : Int))]) mem) p =
      if 0 ≤ p ∧ p < (M : Int) then f (f (mem p))
      else if 0 ≤ p ∧ p < (N : Int) then f (mem p) else mem p := by
    intro N M hM
    rw [effect_range, effect_range]
    by_cases h : 0 ≤ p ∧ p < (M : Int)
    · rw [if_pos h, if_pos h, if_pos (by omega)]
    · rw [if_neg h, if_neg h]
  exact key 4294967296 256 (by omega)

theorem wide_launch (body : Num → Trace)
    (h : ∀ x : Nat, x < 4294967296 → body (lit .u32 x) = some [("mem", (x : Int))]) :
    launch1 4294967297 256 body = .ran (some ((List.range 4294967552).flatMap
      (fun (x : Nat) => [(("mem", ((x % 4294967296 : Nat) : Int)) : Acc)]))) := by
  unfold launch1
  have e : gridDim 4294967297 256 = 16777217 := by decide +kernel
  rw [e, if_neg (by omega)]
  refine congrArg Launched.ran (iters_some _ _ _ fun x hx => ?_)
  rw [thread_mod]
  exact h _ (Nat.mod_lt _ (by omega))

theorem wide_fill : fillGpu1 4294967297 1 = .ran (some ((List.range 4294967552).flatMap
      (fun (x : Nat) => [(("mem", ((x % 4294967296 : Nat) : Int)) : Acc)]))) := by
  unfold fillGpu1
  refine wide_launch _ fun x hx => ?_
  dsimp only
  rw [as64 .u32 x hx]
  exact (guard64 x 4294967297 hx (by omega) _ _ fun h => view1_lit .i64 1 x hx
    ⟨by decide, by decide⟩ ⟨by omega, by omega⟩).trans
    (by rw [if_pos (by omega), Int.one_mul])

theorem wide_scale : scaleGpu 4294967297 = .ran (some ((List.range 4294967552).flatMap
      (fun (x : Nat) => [(("mem", ((x % 4294967296 : Nat) : Int)) : Acc)]))) := by
  unfold scaleGpu
  refine wide_launch _ fun x hx => ?_
  dsimp only
  rw [as64 .u32 x hx]
  exact (guard64 x 4294967297 hx (by omega) _ _ fun h => touch_lit "mem" .i64 x).trans
    (by rw [if_pos (by omega)])

/-- C121 is false of filling 2^32 + 1 numbers on the GPU: the call succeeds and the last
number keeps its value. -/
theorem C121_fill_gpu_large_false :
    ∃ t, setValueWidth ⟨true, .float, false, true, [(4294967297, 1)]⟩ = .done .float (some t) ∧
      (∀ (α : Type) (v : α) (mem : Int → α),
        effect (fun _ => v) t mem 4294967296 = mem 4294967296) ∧
      IsElement [(4294967297, 1)] 4294967296 := by
  refine ⟨((List.range 4294967552).flatMap
    (fun (x : Nat) => [(("mem", ((x % 4294967296 : Nat) : Int)) : Acc)])), ?_, ?_, ?_⟩
  rotate_left
  · intro α v mem
    rw [wide_effect, if_neg (by omega), if_neg (by omega)]
  · exact ⟨4294967296, 0, by omega, rfl, rfl⟩
  · show (fillGpu1 4294967297 1).filled .float = _
    rw [wide_fill]
    rfl

/-- C121 is false of scaling 2^32 + 1 numbers on the GPU: the call succeeds, the first
number is multiplied twice and the last one is not. -/
theorem C121_scale_gpu_large_false :
    ∃ t, scaleRealWidth ⟨true, .float, false, true, [(4294967297, 1)]⟩ = .done .float (some t) ∧
      (∀ (α : Type) (f : α → α) (mem : Int → α),
        effect f t mem 0 = f (f (mem 0)) ∧ effect f t mem 4294967296 = mem 4294967296) := by
  refine ⟨((List.range 4294967552).flatMap
    (fun (x : Nat) => [(("mem", ((x % 4294967296 : Nat) : Int)) : Acc)])), ?_, ?_⟩
  rotate_left
  · intro α f mem
    rw [wide_effect, wide_effect, if_pos (by omega), if_neg (by omega), if_neg (by omega)]
    exact ⟨rfl, rfl⟩
  · show (scaleGpu 4294967297).filled .float = _
    rw [wide_scale]
    rfl

/-- C121 is false of arrays without elements on the GPU: filling and scaling fail
there, and succeed in main memory. -/
theorem C121_gpu_empty_false :
    setValueWidth ⟨true, .float, false, true, [(0, 1)]⟩ = .error ∧
    scaleRealWidth ⟨true, .float, false, true, [(0, 1)]⟩ = .error ∧
    setValueWidth ⟨false, .float, false, true, [(0, 1)]⟩ = .done .float (some []) ∧
    scaleRealWidth ⟨false, .float, false, true, [(0, 1)]⟩ = .done .float (some []) :=
  ⟨rfl, rfl, rfl, rfl⟩

/-- C121 is false of random filling of integers or characters: the call succeeds and
changes nothing. -/
theorem C121_random_integers_false (b : Target) (hg : b.gpu = false)
    (he : b.elem = .char ∨ b.elem = .int) : randomFill b = .done b.elem (some []) := by
  unfold randomFill
  rw [hg]
  rcases he with h | h <;> rw [h] <;> rfl

/-- C121 is false of random filling of an array with gaps: two numbers, two apart.
The call succeeds, the number between them is changed, the second one is not. -/
theorem C121_random_gaps_false :
    randomFill ⟨false, .float, false, false, [(2, 2)]⟩ =
      .done .float (some [("mem", 0), ("mem", 1)]) ∧
    IsElement [(2, 2)] 2 ∧ ¬ IsElement [(2, 2)] 1 := by
  refine ⟨rfl, ⟨1, 0, by omega, rfl, rfl⟩, ?_⟩
  rintro ⟨i, q, hi, rfl, h⟩
  omega

/-- C121 is false of random filling and scaling of a read-only array: it is
changed. -/
theorem C121_read_only_false :
    randomFill ⟨false, .float, true, true, [(1, 1)]⟩ = .done .float (some [("mem", 0)]) ∧
    scaleRealWidth ⟨false, .float, true, true, [(1, 1)]⟩ = .done .float (some [("mem", 0)]) :=
  ⟨rfl, rfl⟩

/-- Non-vacuity: a view of every second column of a 3 x 8 array, filled. -/
example : ∃ t, setValueWidth ⟨false, .double, false, false, [(3, 8), (4, 2)]⟩ =
    .done .double (some t) := by
  rcases C121_fill_cpu_partial ⟨false, .double, false, false, [(3, 8), (4, 2)]⟩ rfl
    (by decide) ⟨by decide, by
      rintro p ⟨i, _, hi, ⟨j, q, hj, rfl, rfl⟩, rfl⟩
      omega⟩ with h | ⟨_, t, h, _⟩
  · exact absurd ⟨rfl, by decide, by decide, by decide⟩ h.1
  · exact ⟨t, h⟩

/-- The same on the GPU. -/
example : ∃ t, setValueWidth ⟨true, .double, false, false, [(3, 8), (4, 2)]⟩ =
    .done .double (some t) := by
  rcases C121_fill_gpu_partial ⟨true, .double, false, false, [(3, 8), (4, 2)]⟩ rfl
    (by decide) ⟨by decide, by
      rintro p ⟨i, _, hi, ⟨j, q, hj, rfl, rfl⟩, rfl⟩
      omega⟩ with h | ⟨_, t, h, _⟩
  · exact absurd h (C121_fill_gpu_runs _ ⟨rfl, by decide, by decide, by decide⟩ (by decide)
      (by decide) (by decide) (by decide))
  · exact ⟨t, h⟩

/-- An array of three dimensions without gaps, scaled. -/
example : ∃ t, scaleRealWidth ⟨false, .complexFloat, false, true, [(2, 12), (3, 4), (4, 1)]⟩ =
    .done .complexFloat (some t) := by
  rcases C121_scale_cpu ⟨false, .complexFloat, false, true, [(2, 12), (3, 4), (4, 1)]⟩ rfl
    (fun _ => ⟨rfl, rfl, rfl, trivial⟩) (by decide) with h | ⟨_, t, h, _⟩
  · exact absurd ⟨rfl, by decide, by decide⟩ h.1
  · exact ⟨t, h⟩

/-- The same on the GPU. -/
example : ∃ t, scaleRealWidth ⟨true, .complexFloat, false, true, [(2, 12), (3, 4), (4, 1)]⟩ =
    .done .complexFloat (some t) := by
  rcases C121_scale_gpu_partial ⟨true, .complexFloat, false, true, [(2, 12), (3, 4), (4, 1)]⟩ rfl
    (fun _ => ⟨rfl, rfl, rfl, trivial⟩) (by decide) with h | ⟨_, t, h, _⟩
  · exact absurd h (C121_scale_gpu_runs _ ⟨rfl, by decide, by decide⟩ (by decide) (by decide))
  · exact ⟨t, h⟩

end Sdp.Width
