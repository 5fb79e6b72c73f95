import Verif.Python.Call

/-!
# C104, error codes and keyword arguments: proofs
-/

namespace Verif.Python.Call

variable {S A R V : Type}

/-- **C104, error codes.** In any Python program, for any functions of the library, every call
starts with a clear error code whatever happened before; it raises exactly when the C function
left a code other than zero, with that code, and otherwise returns what the C function returned.
Stated over histories: the outcome of the call at any place of any program is the outcome of the
C function, run with code 0 in the state the earlier calls left. -/
theorem C104_status (s : S) (before after : List (CFunc S A R × A)) (f : CFunc S A R) (a : A) :
    (session s (before ++ (f, a) :: after)).2[before.length]? =
      some (if (f (session s before).1 a 0).2.2 = 0
        then .value (f (session s before).1 a 0).2.1
        else .cError (f (session s before).1 a 0).2.2) := by
  induction before generalizing s with
  | nil =>
    simp only [List.nil_append, session, checked]
    by_cases h : (f s a 0).2.2 = 0
    · simp [h]
    · simp [h]
  | cons c rest ih =>
    simp only [List.cons_append, session, List.length_cons, List.getElem?_cons_succ]
    exact ih (checked c.1 s c.2).1

/-- A failing call followed by a successful one: the second is not affected. -/
example : (session (S := Nat) (A := Nat) (R := Nat) 0
    [(fun s _ e => if e = 0 then (s, 0, 3) else (s, 0, e), 5),
     (fun s a e => if e = 0 then (s + a, s + a, 0) else (s, 0, e), 5)]).2
    = [.cError 3, .value 5] := by decide

/-- **C104, positional arguments.** A method of `Swiftly` called with positional arguments only:
with the right number of them the C function runs once, on the handle and the converted arguments
in the same order, and the method returns or raises as its error code says; with any other number
the C function does not run and Python raises `TypeError`. -/
theorem C104_positional (params : List String) (wrap : V → V) (f : CFunc S (V × List V) Unit)
    (handle : V) (s : S) (pos : List V) :
    method params wrap f handle s pos [] =
      if pos.length = params.length then
        ((f s (handle, pos.map wrap) 0).1,
          if (f s (handle, pos.map wrap) 0).2.2 = 0 then .value ()
          else .cError (f s (handle, pos.map wrap) 0).2.2)
      else (s, .typeError) := by
  have hb : ∀ l : List V, bindArgs ("self" :: params) (handle :: l) []
      = if l.length = params.length then some (handle :: l) else none := by
    intro l
    unfold bindArgs
    by_cases h : l.length = params.length
    · rw [if_pos h, if_pos (by simp [h])]
      simp [h]
    · rw [if_neg h]
      by_cases h' : l.length ≤ params.length
      · have hlt : l.length < params.length := by omega
        rw [if_pos (by simp [h'])]
        have hd : (("self" :: params).drop (handle :: l).length)
            = params[l.length] :: params.drop (l.length + 1) := by
          simp only [List.length_cons, List.drop_succ_cons]
          exact List.drop_eq_getElem_cons hlt
        rw [hd, List.mapM_cons]
        rfl
      · rw [if_neg (by simp; omega)]
  unfold method
  rw [hb pos]
  by_cases h : pos.length = params.length
  · rw [if_pos h, if_pos h]
    simp only [List.tail_cons]
    unfold checked
    by_cases hc : (f s (handle, pos.map wrap) 0).2.2 = 0
    · simp only [hc, ne_eq, not_true_eq_false, if_false, if_true]
      rw [hb (pos.map wrap), if_pos (by simpa using h)]
    · simp only [hc, ne_eq, not_false_eq_true, if_true, if_false]
  · rw [if_neg h, if_neg h]

/-- Binding gives a value for every parameter. -/
theorem bind_length {params : List String} {pos : List V} {kw : List (String × V)} {vals : List V}
    (h : bindArgs params pos kw = some vals) : vals.length = params.length := by
  unfold bindArgs at h
  split_ifs at h with hc
  simp only [Option.map_eq_some_iff] at h
  obtain ⟨l, hl, rfl⟩ := h
  have : ∀ (ps : List String) (l : List V),
      ps.mapM (fun p => (kw.find? (fun k => k.1 == p)).map Prod.snd) = some l →
      l.length = ps.length := by
    intro ps
    induction ps with
    | nil => intro l h; simp at h; simp [← h]
    | cons p ps ih =>
      intro l h
      rw [List.mapM_cons] at h
      cases hf : (kw.find? (fun k => k.1 == p)).map Prod.snd with
      | none => rw [hf] at h; simp at h
      | some v =>
        rw [hf] at h
        cases hm : ps.mapM (fun p => (kw.find? (fun k => k.1 == p)).map Prod.snd) with
        | none => rw [hm] at h; simp at h
        | some l' =>
          rw [hm] at h
          simp at h
          rw [← h]
          simp [ih l' hm]
  rw [List.length_append, this _ l hl, List.length_drop]
  omega

/-- **C104, keyword arguments, fails.** Every method of `Swiftly`: a call that Python accepts and
that names at least one argument by keyword never returns normally.  When the C function succeeds
its effect on the arrays has happened and the method raises `TypeError` all the same. -/
theorem C104_keywords_false (params : List String) (wrap : V → V)
    (f : CFunc S (V × List V) Unit) (handle : V) (s : S) (pos : List V) (kw : List (String × V))
    (vals : List V) (hkw : kw ≠ [])
    (hbind : bindArgs ("self" :: params) (handle :: pos) kw = some vals) :
    method params wrap f handle s pos kw =
      ((f s (handle, vals.tail.map wrap) 0).1,
        if (f s (handle, vals.tail.map wrap) 0).2.2 = 0 then .typeError
        else .cError (f s (handle, vals.tail.map wrap) 0).2.2) := by
  have hl := bind_length hbind
  have hnone : bindArgs ("self" :: params) (handle :: vals.tail.map wrap) kw = none := by
    unfold bindArgs
    rw [if_neg]
    rintro ⟨-, h2, -⟩
    have hd : ("self" :: params).drop (handle :: vals.tail.map wrap).length = [] := by
      apply List.drop_eq_nil_of_le
      simp only [List.length_cons, List.length_map, List.length_tail] at hl ⊢
      omega
    rw [hd] at h2
    cases kw with
    | nil => exact hkw rfl
    | cons k ks => simp at h2
  unfold method
  rw [hbind]
  simp only
  unfold checked
  by_cases hc : (f s (handle, vals.tail.map wrap) 0).2.2 = 0
  · simp only [hc, ne_eq, not_true_eq_false, if_false, if_true, hnone]
  · simp only [hc, ne_eq, not_false_eq_true, if_true, if_false]

/-- `swiftly.finish_subgrid_inplace(subgrid_inout=a, subgrid_offset=3)`: the subgrid is changed
(here: 7 becomes 10) and the call raises `TypeError`; without keywords it returns. -/
example :
    let f : CFunc Nat (Nat × List Nat) Unit := fun s a e => (s + a.2.getLastD 0, (), e)
    method ["subgrid_inout", "subgrid_offset"] id f 0 7 [] [("subgrid_inout", 1), ("subgrid_offset", 3)]
      = (10, .typeError) ∧
    method ["subgrid_inout", "subgrid_offset"] id f 0 7 [1] [("subgrid_offset", 3)]
      = (10, .typeError) ∧
    method ["subgrid_inout", "subgrid_offset"] id f 0 7 [1, 3] [] = (10, .value ()) := by decide

end Verif.Python.Call
