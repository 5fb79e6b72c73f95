import Verif.Python.Sky

/-!
# C106, sky coordinates: proofs
-/

namespace Verif.Python.Sky

variable {K : Type} [Zero K] [NatCast K]

theorem step_keeps (objs : List (Coord K)) (op : Op K) (x : Nat) (c : Coord K)
    (h : objs[x]? = some c) :
    (step objs op)[x]? = some { c with epoch := lastEpoch x c.epoch [op] } := by
  have hlt := (List.getElem?_eq_some_iff.1 h).1
  cases op with
  | make t c0 c1 c2 => simp only [step, lastEpoch]; rw [List.getElem?_append_left hlt, h]
  | copy y =>
    simp only [step, lastEpoch]
    cases objs[y]? with
    | none => exact h
    | some d => simp only; rw [List.getElem?_append_left hlt, h]
  | setEpoch y e =>
    simp only [step, lastEpoch]
    by_cases hxy : y = x
    · subst hxy
      rw [h]
      simp only [setEpoch, if_pos]
      rw [List.getElem?_set_self hlt]
    · rw [if_neg hxy]
      cases objs[y]? with
      | none => exact h
      | some d =>
        simp only [setEpoch]
        rw [List.getElem?_set_ne hxy, h]

theorem run_keeps (ops : List (Op K)) : ∀ (objs : List (Coord K)) (x : Nat) (c : Coord K),
    objs[x]? = some c →
    (run objs ops)[x]? = some { c with epoch := lastEpoch x c.epoch ops } := by
  induction ops with
  | nil => intro objs x c h; exact h
  | cons op ops ih =>
    intro objs x c h
    have := ih (step objs op) x _ (step_keeps objs op x c h)
    rw [show run objs (op :: ops) = run (step objs op) ops from rfl, this]
    cases op <;> rfl

/-- **C106, coordinates.** An object made with a type and three values, in any program: whatever
happens before and after, to this and to other objects, it gives back its three values for
dimensions 0, 1 and 2 and zero for every other dimension, negative ones included; its type up to
the first NUL; and as epoch the last one set on it, 2000 if none was. -/
theorem C106_coord (before after : List (Op K)) (t : List Char) (c0 c1 c2 : K) :
    let x := (run [] before).length
    let obj := (run [] (before ++ .make t c0 c1 c2 :: after))[x]?
    value obj 0 = c0 ∧ value obj 1 = c1 ∧ value obj 2 = c2 ∧
    (∀ dim : Int, dim < 0 ∨ 3 ≤ dim → value obj dim = 0) ∧
    type obj = some (t.takeWhile (fun c => c ≠ Char.ofNat 0)) ∧
    epoch obj = lastEpoch x ((2000 : Nat) : K) after := by
  intro x obj
  have hrun : run [] (before ++ .make t c0 c1 c2 :: after)
      = run (run [] before ++ [create t c0 c1 c2]) after := by
    simp [run, List.foldl_append, step]
  have hobj : obj = some { create t c0 c1 c2 with epoch := lastEpoch x ((2000 : Nat) : K) after } := by
    show (run [] (before ++ .make t c0 c1 c2 :: after))[x]? = _
    rw [hrun]
    exact run_keeps after _ x (create t c0 c1 c2) (by simp [x])
  rw [hobj]
  refine ⟨rfl, rfl, rfl, fun dim hd => ?_, rfl, rfl⟩
  simp only [value]
  rw [if_neg (by omega)]

/-- Two objects, an epoch set on each, one of them twice. -/
example : let objs := run (K := Int) [] [.make "icrs".toList 1 2 3, .make "azel".toList 4 5 6,
      .setEpoch 0 1950, .setEpoch 1 2015, .setEpoch 0 2020]
    objs.map (fun c => (value (some c) 1, epoch (some c))) = [(2, 2020), (5, 2015)] := by decide

theorem cString_idem (s : List Char) : cString (cString s) = cString s := by
  unfold cString
  generalize (fun c : Char => decide (c ≠ Char.ofNat 0)) = p
  induction s with
  | nil => rfl
  | cons c s ih =>
    cases h : p c with
    | true => simp only [List.takeWhile_cons, h, if_true, ih]
    | false => simp [List.takeWhile_cons, h]

/-- Every object of every program has a type without NUL. -/
theorem type_clean (ops : List (Op K)) : ∀ c ∈ run [] ops, cString c.type = c.type := by
  have key : ∀ (ops : List (Op K)) (objs : List (Coord K)),
      (∀ c ∈ objs, cString c.type = c.type) → ∀ c ∈ run objs ops, cString c.type = c.type := by
    intro ops
    induction ops with
    | nil => intro objs h; exact h
    | cons op ops ih =>
      intro objs h
      refine ih (step objs op) ?_
      cases op with
      | make t c0 c1 c2 =>
        intro c hc
        rcases List.mem_append.1 hc with hc | hc
        · exact h c hc
        · rw [List.mem_singleton.1 hc]; exact cString_idem t
      | copy y =>
        simp only [step]
        cases objs[y]? with
        | none => exact h
        | some d =>
          intro c hc
          rcases List.mem_append.1 hc with hc | hc
          · exact h c hc
          · rw [List.mem_singleton.1 hc]; exact cString_idem _
      | setEpoch y e =>
        simp only [step]
        cases hy : objs[y]? with
        | none => exact h
        | some d =>
          intro c hc
          simp only [setEpoch] at hc
          rcases List.mem_or_eq_of_mem_set hc with hc | hc
          · exact h c hc
          · rw [hc]; exact h d (List.mem_of_getElem? hy)
  exact key ops [] (by simp)

/-- **C106, copies.** `SkyCoord(other)` in any program: the copy has the type and the three values
of the original, and the two are independent afterwards: an epoch set on one does not show on the
other. Partial: the epoch of the original is not copied, see `C106_copy_false`. -/
theorem C106_copy_partial (before after : List (Op K)) (y : Nat) (c : Coord K)
    (hy : (run [] before)[y]? = some c) :
    let x := (run [] before).length
    let objs := run [] (before ++ .copy y :: after)
    type objs[x]? = type (some c) ∧ (∀ dim, value objs[x]? dim = value (some c) dim) ∧
    epoch objs[x]? = lastEpoch x ((2000 : Nat) : K) after ∧
    epoch objs[y]? = lastEpoch y c.epoch after := by
  intro x objs
  have h0 := type_clean before c (List.mem_of_getElem? hy)
  have hrun : objs = run (run [] before ++ [create c.type (value (some c) 0) (value (some c) 1)
        (value (some c) 2)]) after := by
    show run [] (before ++ .copy y :: after) = _
    unfold run
    rw [List.foldl_append, List.foldl_cons]
    congr 1
    show step (run [] before) (.copy y) = _
    simp only [step, hy]
    rfl
  have hx : objs[x]? = some { create c.type (value (some c) 0) (value (some c) 1)
      (value (some c) 2) with epoch := lastEpoch x ((2000 : Nat) : K) after } := by
    rw [hrun]
    exact run_keeps after _ x (create c.type _ _ _) (by simp [x])
  have hy' : objs[y]? = some { c with epoch := lastEpoch y c.epoch after } := by
    rw [hrun]
    exact run_keeps after _ y c (by
      rw [List.getElem?_append_left (List.getElem?_eq_some_iff.1 hy).1]; exact hy)
  rw [hx, hy']
  refine ⟨?_, fun dim => ?_, rfl, rfl⟩
  · simp only [type, create, h0]
  · simp only [value, create]
    by_cases h : 0 ≤ dim ∧ dim < 3
    · rw [if_pos h, if_pos h]
      have : dim = 0 ∨ dim = 1 ∨ dim = 2 := by omega
      rcases this with rfl | rfl | rfl <;> rfl
    · rw [if_neg h, if_neg h]

/-- **C106, the epoch of a copy, fails.** A program sets an epoch and copies the object: the copy
has epoch 2000. -/
theorem C106_copy_false : ∃ ops : List (Op Int), ∃ c c' : Coord Int,
    run [] ops = [c, c'] ∧ ops.getLast? matches some (.copy 0) ∧
    epoch (some c) = 1950 ∧ epoch (some c') = 2000 :=
  ⟨[.make "icrs".toList 1 2 3, .setEpoch 0 1950, .copy 0], ⟨"icrs".toList, 1950, [1, 2, 3]⟩,
    ⟨"icrs".toList, 2000, [1, 2, 3]⟩, by decide +kernel, rfl, rfl, rfl⟩

end Verif.Python.Sky
