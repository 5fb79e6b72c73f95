import Verif.Common.Team

/-!
# Threads that share two arrays

The two arrays are laid out one after the other as one array of cells; an access outside either of them is a
fault, also if its cell would belong to the other.
-/

namespace Sdp.Race
variable {α : Type}

/-- Two arrays as one. -/
def both (x y : Arr α) : Arr α := ⟨x.size + y.size, fun i => if i < x.size then x.get i else y.get (i - x.size)⟩

/-- Read of the first of two arrays (of `n` elements). -/
def Prog.read1 (n : Nat) (i : Int) (k : α → Prog α) : Prog α :=
  if 0 ≤ i ∧ i < n then .read i k else .fault

/-- Read of the second of two arrays (of `n` and `m` elements). -/
def Prog.read2 (n m : Nat) (i : Int) (k : α → Prog α) : Prog α :=
  if 0 ≤ i ∧ i < m then .read (n + i) k else .fault

/-- Write to the first of two arrays. -/
def Prog.write1 (n : Nat) (i : Int) (v : α) (k : Prog α) : Prog α :=
  if 0 ≤ i ∧ i < n then .write i v k else .fault

/-- Write to the second of two arrays. -/
def Prog.write2 (n m : Nat) (i : Int) (v : α) (k : Prog α) : Prog α :=
  if 0 ≤ i ∧ i < m then .write (n + i) v k else .fault

theorem both_inj {x y x' y' : Arr α} (hx : x.size = x'.size) (h : both x y = both x' y') :
    (∀ i, i < x.size → x.get i = x'.get i) ∧ (∀ i, y.get i = y'.get i) ∧ y.size = y'.size := by
  unfold both at h
  injection h with h1 h2
  refine ⟨fun i hi => ?_, fun i => ?_, by omega⟩
  · have := congrFun h2 i
    simpa only [if_pos hi, if_pos (hx ▸ hi)] using this
  · have := congrFun h2 (x.size + i)
    simp only [if_neg (show ¬ x.size + i < x.size by omega), if_neg (show ¬ x.size + i < x'.size by omega)] at this
    rw [← hx, Nat.add_sub_cancel_left] at this
    exact this

theorem exec_read1 (x y : Arr α) (i : Int) (k : α → Prog α) :
    (Prog.read1 x.size i k).exec (both x y) = (x.read i).bind fun v => (k v).exec (both x y) := by
  unfold Prog.read1 Arr.read
  by_cases h : 0 ≤ i ∧ i < x.size
  · rw [if_pos h, if_pos h]
    simp only [Prog.exec]
    unfold Arr.read
    rw [if_pos (show 0 ≤ i ∧ i < ((both x y).size : Nat) from ⟨h.1, by unfold both; simp only; omega⟩)]
    unfold both
    simp only [Option.bind_some]
    rw [if_pos (show i.toNat < x.size by omega)]
  · rw [if_neg h, if_neg h]
    rfl

theorem exec_read2 (x y : Arr α) (i : Int) (k : α → Prog α) :
    (Prog.read2 x.size y.size i k).exec (both x y) = (y.read i).bind fun v => (k v).exec (both x y) := by
  unfold Prog.read2 Arr.read
  by_cases h : 0 ≤ i ∧ i < y.size
  · rw [if_pos h, if_pos h]
    simp only [Prog.exec]
    unfold Arr.read
    rw [if_pos (show 0 ≤ (x.size : Int) + i ∧ (x.size : Int) + i < ((both x y).size : Nat) from
      ⟨by omega, by unfold both; simp only; omega⟩)]
    unfold both
    simp only [Option.bind_some]
    rw [if_neg (show ¬ ((x.size : Int) + i).toNat < x.size by omega)]
    rw [show ((x.size : Int) + i).toNat - x.size = i.toNat by omega]
  · rw [if_neg h, if_neg h]
    rfl

theorem exec_write1 (x y : Arr α) (i : Int) (v : α) (k : Prog α) :
    (Prog.write1 x.size i v k).exec (both x y) = (x.write i v).bind fun x => k.exec (both x y) := by
  unfold Prog.write1 Arr.write
  by_cases h : 0 ≤ i ∧ i < x.size
  · rw [if_pos h, if_pos h]
    simp only [Prog.exec]
    unfold Arr.write
    rw [if_pos (show 0 ≤ i ∧ i < ((both x y).size : Nat) from ⟨h.1, by unfold both; simp only; omega⟩)]
    simp only [Option.bind_some]
    congr 1
    unfold both Arr.put
    simp only [Arr.mk.injEq, true_and]
    funext q
    by_cases e : q = i.toNat
    · subst e
      rw [if_pos rfl, if_pos (show i.toNat < x.size by omega), if_pos rfl]
    · rw [if_neg e, if_neg e]
  · rw [if_neg h, if_neg h]
    rfl

theorem exec_write2 (x y : Arr α) (i : Int) (v : α) (k : Prog α) :
    (Prog.write2 x.size y.size i v k).exec (both x y) = (y.write i v).bind fun y => k.exec (both x y) := by
  unfold Prog.write2 Arr.write
  by_cases h : 0 ≤ i ∧ i < y.size
  · rw [if_pos h, if_pos h]
    simp only [Prog.exec]
    unfold Arr.write
    rw [if_pos (show 0 ≤ (x.size : Int) + i ∧ (x.size : Int) + i < ((both x y).size : Nat) from
      ⟨by omega, by unfold both; simp only; omega⟩)]
    simp only [Option.bind_some]
    congr 1
    unfold both Arr.put
    simp only [Arr.mk.injEq, true_and]
    funext q
    by_cases e : q = ((x.size : Int) + i).toNat
    · rw [if_pos e, if_neg (show ¬ q < x.size by omega), if_pos (show q - x.size = i.toNat by omega)]
    · rw [if_neg e]
      by_cases hq : q < x.size
      · rw [if_pos hq, if_pos hq]
      · rw [if_neg hq, if_neg hq, if_neg (show ¬ q - x.size = i.toNat by omega)]
  · rw [if_neg h, if_neg h]
    rfl

/-- A program over two arrays of `n` and `m` elements does, when it is run alone, what `f` does to them,
unless `f` fails. -/
def Sim (n m : Nat) (p : Prog α) (f : Arr α × Arr α → Option (Arr α × Arr α)) : Prop :=
  ∀ s s', s.1.size = n → s.2.size = m → f s = some s' →
    s'.1.size = n ∧ s'.2.size = m ∧ p.exec (both s.1 s.2) = some (both s'.1 s'.2)

theorem sim_andThen {n m : Nat} {p q : Prog α} {f g : Arr α × Arr α → Option (Arr α × Arr α)}
    (hp : Sim n m p f) (hq : Sim n m q g) : Sim n m (p.andThen q) fun s => (f s).bind g := by
  intro s s'' h1 h2 h
  obtain ⟨s', e, h⟩ := Option.bind_eq_some_iff.1 h
  obtain ⟨z1, z2, z⟩ := hp s s' h1 h2 e
  obtain ⟨w1, w2, w⟩ := hq s' s'' z1 z2 h
  refine ⟨w1, w2, ?_⟩
  rw [exec_andThen, z]
  exact w

theorem sim_rows {β : Type} {n m : Nat} (l : List β) (p : β → Prog α)
    (f : Arr α × Arr α → β → Option (Arr α × Arr α)) (h : ∀ b ∈ l, Sim n m (p b) fun s => f s b) :
    Sim n m (Prog.seqAll (l.map p)) fun s => loop f s l := by
  induction l with
  | nil =>
    intro s s' h1 h2 e
    simp only [loop, Option.some.injEq] at e
    subst e
    exact ⟨h1, h2, rfl⟩
  | cons b l ih => exact sim_andThen (h b (by simp)) (ih fun b' hb => h b' (by simp [hb]))

theorem loop_snd {σ τ β : Type} (g : σ → τ → β → Option τ) (x : σ) (y : τ) (l : List β) :
    loop (fun (s : σ × τ) b => (g s.1 s.2 b).map fun t => (s.1, t)) (x, y) l =
      (loop (g x) y l).map fun t => (x, t) := by
  induction l generalizing y with
  | nil => rfl
  | cons b l ih =>
    simp only [loop]
    cases g x y b with
    | none => rfl
    | some t => simpa using ih t

/-- Cells of `[b, b + len)` of both arrays. -/
def Block (n b len : Nat) (x : Int) : Prop :=
  (x < n ∧ (b : Int) ≤ x ∧ x < b + len) ∨ ((n : Int) ≤ x ∧ (n : Int) + b ≤ x ∧ x < n + b + len)

theorem within_read1 {n b len : Nat} {i : Int} {k : α → Prog α} (h1 : (b : Int) ≤ i) (h2 : i < b + len)
    (h : ∀ v, (k v).Within (Block n b len)) : (Prog.read1 n i k).Within (Block n b len) := by
  unfold Prog.read1
  split
  · rename_i hi
    exact ⟨Or.inl ⟨hi.2, h1, h2⟩, h⟩
  · trivial

theorem within_read2 {n m b len : Nat} {i : Int} {k : α → Prog α} (h1 : (b : Int) ≤ i) (h2 : i < b + len)
    (h : ∀ v, (k v).Within (Block n b len)) : (Prog.read2 n m i k).Within (Block n b len) := by
  unfold Prog.read2
  split
  · rename_i hi
    exact ⟨Or.inr ⟨by omega, by omega, by omega⟩, h⟩
  · trivial

theorem within_write1 {n b len : Nat} {i : Int} {v : α} {k : Prog α} (h1 : (b : Int) ≤ i) (h2 : i < b + len)
    (h : k.Within (Block n b len)) : (Prog.write1 n i v k).Within (Block n b len) := by
  unfold Prog.write1
  split
  · rename_i hi
    exact ⟨Or.inl ⟨hi.2, h1, h2⟩, h⟩
  · trivial

theorem within_write2 {n m b len : Nat} {i : Int} {v : α} {k : Prog α} (h1 : (b : Int) ≤ i) (h2 : i < b + len)
    (h : k.Within (Block n b len)) : (Prog.write2 n m i v k).Within (Block n b len) := by
  unfold Prog.write2
  split
  · rename_i hi
    exact ⟨Or.inr ⟨by omega, by omega, by omega⟩, h⟩
  · trivial

/-- Blocks of the same length at multiples of it are disjoint. -/
theorem block_disjoint (n b len f f' : Nat) (h : f ≠ f') (x : Int) (hx : Block n (b + f * len) len x) :
    ¬ Block n (b + f' * len) len x := by
  have key : f * len + len ≤ f' * len ∨ f' * len + len ≤ f * len := by
    rcases Nat.lt_or_gt_of_ne h with h | h
    · left
      calc f * len + len = (f + 1) * len := by ring
        _ ≤ f' * len := Nat.mul_le_mul_right _ h
    · right
      calc f' * len + len = (f' + 1) * len := by ring
        _ ≤ f * len := Nat.mul_le_mul_right _ h
  generalize f * len = u at *
  generalize f' * len = v at *
  unfold Block at *
  omega

end Sdp.Race
