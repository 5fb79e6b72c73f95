import Verif.Hogbom.GpuBlock

set_option linter.unusedSectionVars false

/-!
# Lemmas on the launches of the GPU peak search
-/

namespace Sdp.Hogbom
open Sdp.Race
variable {F : Type} [Field F] [LinearOrder F]

/-- `v` is a largest of the first `n` values of `f`, and `j` a place where it is taken. -/
def IsPeak (f : Nat → F) (n : Nat) (v : F) (j : Int) : Prop :=
  ∃ k < n, j = (k : Int) ∧ v = f k ∧ ∀ i < n, f i ≤ v

/-- Values of block `b`. -/
def vAt (a : Arr F) (b t : Nat) : F := a.get (256 * b + t)

theorem input_first {res : Arr F} {b : Nat} (h : 256 * b + 256 ≤ res.size) :
    Input res none b (vAt res b) (fun t => ((256 * b + t : Nat) : Int)) :=
  ⟨h, fun _ _ => rfl, fun _ _ _ => rfl, fun a h => by cases h⟩

theorem input_later {val : Arr F} {idx : Arr Int} {b : Nat} (h : 256 * b + 256 ≤ val.size)
    (h' : 256 * b + 256 ≤ idx.size) :
    Input val (some idx) b (vAt val b) (fun t => idx.get (256 * b + t)) :=
  ⟨h, fun _ _ => rfl, (fun h => by cases h), fun a h => by cases h; exact ⟨h', fun _ _ => rfl⟩⟩

/-- Blocks that do not read what they write. -/
theorem blocks_first {last : Arr (Cell F) → Arr (Cell F) → Prop} {res : Arr F} {K : Nat → F → Int → Prop}
    {l : List Nat} {p p' : Peaks F} (h : Blocks last (some res) l p p') (hn : l.Nodup)
    (hK : ∀ b ∈ l, ∀ m : Arr (Cell F), m.size = 512 → ∀ v j, BlockRun last res none b m v j → K b v j) :
    p'.val.size = p.val.size ∧ p'.idx.size = p.idx.size ∧
      (∀ b ∈ l, K b (p'.val.get b) (p'.idx.get b)) ∧
      ∀ i, i ∉ l → p'.val.get i = p.val.get i ∧ p'.idx.get i = p.idx.get i := by
  induction h with
  | nil => exact ⟨rfl, rfl, by simp, fun _ _ => ⟨rfl, rfl⟩⟩
  | @cons b l p p' m v j pv pi hm hb hv hj _ ih =>
    have hnd := List.nodup_cons.1 hn
    obtain ⟨s1, s2, s3, s4⟩ := ih hnd.2 fun b' hb' => hK b' (by simp [hb'])
    obtain ⟨-, -, rfl⟩ := Arr.write_some hv
    obtain ⟨-, -, rfl⟩ := Arr.write_some hj
    simp only [Int.toNat_natCast] at s1 s2 s4
    refine ⟨s1, s2, fun b' hb' => ?_, fun i hi => ?_⟩
    · rcases List.mem_cons.1 hb' with e | e
      · subst e
        obtain ⟨e1, e2⟩ := s4 b' hnd.1
        rw [e1, e2, Arr.put_get, if_pos rfl, Arr.put_get, if_pos rfl]
        exact hK b' (by simp) m hm v j hb
      · exact s3 b' e
    · rw [List.mem_cons, not_or] at hi
      obtain ⟨e1, e2⟩ := s4 i hi.2
      rw [e1, e2, Arr.put_get, if_neg hi.1, Arr.put_get, if_neg hi.1]
      exact ⟨rfl, rfl⟩

theorem blocks_exists {last : Arr (Cell F) → Arr (Cell F) → Prop} {res : Arr F} (l : List Nat) (p : Peaks F)
    (h : ∀ b ∈ l, b < p.val.size ∧ b < p.idx.size ∧
      ∃ m : Arr (Cell F), m.size = 512 ∧ ∃ v j, BlockRun last res none b m v j) :
    ∃ p', Blocks last (some res) l p p' := by
  induction l generalizing p with
  | nil => exact ⟨p, .nil⟩
  | cons b l ih =>
    obtain ⟨h1, h2, m, hm, v, j, hb⟩ := h b (by simp)
    obtain ⟨p', hp'⟩ := ih ⟨p.val.put b v, p.idx.put b j⟩ fun b' hb' => h b' (by simp [hb'])
    exact ⟨p', .cons hm hb (by rw [Arr.write_nat, if_pos h1]) (by rw [Arr.write_nat, if_pos h2]) hp'⟩

/-- A launch with one block. -/
theorem launch_one {last : Arr (Cell F) → Arr (Cell F) → Prop} {res : Option (Arr F)} {p p' : Peaks F} :
    Launch last res 1 p p' ↔ ∃ (m : Arr (Cell F)) (v : F) (j : Int), m.size = 512 ∧
      BlockRun last (res.getD p.val) (if res.isSome then none else some p.idx) 0 m v j ∧
      0 < p.val.size ∧ 0 < p.idx.size ∧ p' = ⟨p.val.put 0 v, p.idx.put 0 j⟩ := by
  constructor
  · rintro ⟨order, ho, hb⟩
    have : order = [0] := List.perm_singleton.1 ho
    subst this
    cases hb with
    | @cons _ _ _ _ m v j pv pi hm hb hv hj hn =>
      cases hn
      obtain ⟨-, h1, rfl⟩ := Arr.write_some hv
      obtain ⟨-, h2, rfl⟩ := Arr.write_some hj
      exact ⟨m, v, j, hm, hb, by simpa using h1, by simpa using h2, rfl⟩
  · rintro ⟨m, v, j, hm, hb, h1, h2, rfl⟩
    refine ⟨[0], List.Perm.refl _, .cons hm hb ?_ ?_ .nil⟩
    · rw [Arr.write_nat, if_pos h1]
    · rw [Arr.write_nat, if_pos h2]

theorem zero512 : (⟨512, fun _ => .inl 0⟩ : Arr (Cell F)).size = 512 := rfl

/-- First launch in lockstep. -/
theorem first_lock {res : Arr F} {n : Nat} (hs : 256 * n ≤ res.size) {p : Peaks F} (h1 : p.val.size = n)
    (h2 : p.idx.size = n) :
    (∃ p', Launch WarpLock (some res) n p p') ∧ ∀ p', Launch WarpLock (some res) n p p' →
      p'.val.size = n ∧ p'.idx.size = n ∧ ∀ b < n, p'.val.get b = peakV (vAt res b) ∧
        p'.idx.get b = peakJ (vAt res b) (fun t => ((256 * b + t : Nat) : Int)) := by
  constructor
  · obtain ⟨p', hp'⟩ := blocks_exists (last := WarpLock) (res := res) (List.range n) p fun b hb => by
      rw [List.mem_range] at hb
      refine ⟨by omega, by omega, ⟨512, fun _ => .inl 0⟩, rfl, _, _,
        ((block_lock (input_first (by omega)) rfl).2.2 _ _).2 ⟨rfl, rfl⟩⟩
    exact ⟨p', _, List.Perm.refl _, hp'⟩
  · rintro p' ⟨order, ho, hb⟩
    obtain ⟨s1, s2, s3, -⟩ := blocks_first (K := fun b v j => v = peakV (vAt res b) ∧
        j = peakJ (vAt res b) (fun t => ((256 * b + t : Nat) : Int))) hb (ho.nodup_iff.2 List.nodup_range)
      fun b hb m hm v j hr => by
        rw [ho.mem_iff, List.mem_range] at hb
        exact ((block_lock (input_first (by omega)) hm).2.2 v j).1 hr
    exact ⟨by rw [s1, h1], by rw [s2, h2], fun b hb => s3 b (by rw [ho.mem_iff, List.mem_range]; exact hb)⟩

/-- Outcome of the peak search in lockstep, for one block and for 256. -/
def found (res : Arr F) (n : Nat) : F × Int :=
  if n = 1 then (peakV (vAt res 0), peakJ (vAt res 0) (fun t => ((256 * 0 + t : Nat) : Int))) else
    (peakV (fun b => peakV (vAt res b)),
      peakJ (fun b => peakV (vAt res b)) (fun b => peakJ (vAt res b) (fun t => ((256 * b + t : Nat) : Int))))

theorem takeV_congr {w s : Nat} {V V' : Nat → F} (hw : w + s ≤ 256) (h : ∀ t < 256, V t = V' t) :
    ∀ t < 256, takeV w s V t = takeV w s V' t := by
  intro t ht
  unfold takeV
  by_cases c : t < w
  · rw [h t ht, h (t + s) (by omega)]
  · rw [if_neg fun x => c x.1, if_neg fun x => c x.1, h t ht]

theorem takeJ_congr {w s : Nat} {V V' : Nat → F} {J J' : Nat → Int} (hw : w + s ≤ 256) (h : ∀ t < 256, V t = V' t)
    (hJ : ∀ t < 256, J t = J' t) : ∀ t < 256, takeJ w s V J t = takeJ w s V' J' t := by
  intro t ht
  unfold takeJ
  by_cases c : t < w
  · rw [h t ht, h (t + s) (by omega), hJ t ht, hJ (t + s) (by omega)]
  · rw [if_neg fun x => c x.1, if_neg fun x => c x.1, hJ t ht]

theorem peak_congr {V V' : Nat → F} {J J' : Nat → Int} (h : ∀ t < 256, V t = V' t) (hJ : ∀ t < 256, J t = J' t) :
    peakV V = peakV V' ∧ peakJ V J = peakJ V' J' := by
  have v1 := takeV_congr (w := 128) (s := 128) (by omega) h
  have v2 := takeV_congr (w := 64) (s := 64) (by omega) v1
  have v3 := takeV_congr (w := 32) (s := 32) (by omega) v2
  have v4 := takeV_congr (w := 16) (s := 16) (by omega) v3
  have v5 := takeV_congr (w := 16) (s := 8) (by omega) v4
  have v6 := takeV_congr (w := 16) (s := 4) (by omega) v5
  have v7 := takeV_congr (w := 16) (s := 2) (by omega) v6
  have v8 := takeV_congr (w := 16) (s := 1) (by omega) v7
  have j1 := takeJ_congr (w := 128) (s := 128) (by omega) h hJ
  have j2 := takeJ_congr (w := 64) (s := 64) (by omega) v1 j1
  have j3 := takeJ_congr (w := 32) (s := 32) (by omega) v2 j2
  have j4 := takeJ_congr (w := 16) (s := 16) (by omega) v3 j3
  have j5 := takeJ_congr (w := 16) (s := 8) (by omega) v4 j4
  have j6 := takeJ_congr (w := 16) (s := 4) (by omega) v5 j5
  have j7 := takeJ_congr (w := 16) (s := 2) (by omega) v6 j6
  have j8 := takeJ_congr (w := 16) (s := 1) (by omega) v7 j7
  exact ⟨v8 0 (by omega), j8 0 (by omega)⟩

/-- Outcome of one block, independent of how it is run. -/
theorem peak_spec (V : Nat → F) (J : Nat → Int) :
    (∃ u < 256, peakV V = V u ∧ peakJ V J = J u) ∧ ∀ u < 256, V u ≤ peakV V := by
  have h := block_lock (input := ⟨256, V⟩) (idx := some ⟨256, J⟩) (b := 0) (V := V) (J := J)
    ⟨by simp, fun t _ => by simp, (fun h => by cases h), fun a h => by cases h; exact ⟨by simp, fun t _ => by simp⟩⟩
    (zero512 (F := F))
  exact ⟨h.1, h.2.1⟩

theorem found_peak (res : Arr F) {n : Nat} (hn : n = 1 ∨ n = 256) :
    IsPeak res.get (256 * n) (found res n).1 (found res n).2 := by
  unfold found
  rcases hn with rfl | rfl
  · rw [if_pos rfl]
    simp only
    obtain ⟨⟨u, hu, e1, e2⟩, h2⟩ := peak_spec (vAt res 0) (fun t => ((256 * 0 + t : Nat) : Int))
    refine ⟨u, by omega, by rw [e2]; simp, by rw [e1]; simp [vAt], fun i hi => ?_⟩
    have := h2 i (by omega)
    simpa [vAt] using this
  · rw [if_neg (by omega)]
    simp only
    obtain ⟨⟨b, hb, e1, e2⟩, h2⟩ := peak_spec (fun b => peakV (vAt res b))
      (fun b => peakJ (vAt res b) (fun t => ((256 * b + t : Nat) : Int)))
    obtain ⟨⟨u, hu, e3, e4⟩, h4⟩ := peak_spec (vAt res b) (fun t => ((256 * b + t : Nat) : Int))
    refine ⟨256 * b + u, by omega, by rw [e2, e4], by rw [e1, e3]; rfl, fun i hi => ?_⟩
    obtain ⟨-, h5⟩ := peak_spec (vAt res (i / 256)) (fun t => ((256 * (i / 256) + t : Nat) : Int))
    have h6 := h5 (i % 256) (Nat.mod_lt _ (by omega))
    have h7 := h2 (i / 256) (by omega)
    refine le_trans ?_ h7
    have e : res.get i = vAt res (i / 256) (i % 256) := by unfold vAt; rw [Nat.div_add_mod]
    rw [e]
    exact h6

/-- **The peak search in lockstep** for one block and for 256. -/
theorem reduce_lock {res : Arr F} {n : Nat} (hn : n = 1 ∨ n = 256) (hs : 256 * n ≤ res.size) {p : Peaks F}
    (h1 : p.val.size = n) (h2 : p.idx.size = n) :
    (∃ p', Reduce WarpLock (some res) n p p') ∧ ∀ p', Reduce WarpLock (some res) n p p' →
      p'.val.size = n ∧ p'.idx.size = n ∧ p'.val.get 0 = (found res n).1 ∧ p'.idx.get 0 = (found res n).2 := by
  obtain ⟨⟨p1, hp1⟩, hall⟩ := first_lock hs h1 h2
  rcases hn with rfl | rfl
  · refine ⟨⟨p1, .final (by omega) hp1⟩, fun p' hp' => ?_⟩
    cases hp' with
    | final _ hl =>
      obtain ⟨s1, s2, s3⟩ := hall p' hl
      obtain ⟨e1, e2⟩ := s3 0 (by omega)
      exact ⟨s1, s2, e1, e2⟩
    | more hlt _ _ => omega
  · have key : ∀ p1, Launch WarpLock (some res) 256 p p1 → (∃ p', Reduce WarpLock none 1 p1 p') ∧
        ∀ p', Reduce WarpLock none 1 p1 p' → p'.val.size = 256 ∧ p'.idx.size = 256 ∧
          p'.val.get 0 = (found res 256).1 ∧ p'.idx.get 0 = (found res 256).2 := by
      intro p1 hp1
      obtain ⟨s1, s2, s3⟩ := hall p1 hp1
      have hin := input_later (val := p1.val) (idx := p1.idx) (b := 0) (by omega) (by omega)
      have hc := peak_congr (V := vAt p1.val 0) (V' := fun b => peakV (vAt res b))
        (J := fun t => p1.idx.get (256 * 0 + t))
        (J' := fun b => peakJ (vAt res b) (fun t => ((256 * b + t : Nat) : Int)))
        (fun t ht => by have := (s3 t ht).1; rw [← this]; unfold vAt; rw [Nat.mul_zero, Nat.zero_add])
        (fun t ht => by simpa using (s3 t ht).2)
      constructor
      · refine ⟨_, .final (le_refl _) (launch_one.2 ⟨⟨512, fun _ => .inl 0⟩, _, _, rfl,
          ((block_lock hin rfl).2.2 _ _).2 ⟨rfl, rfl⟩, by omega, by omega, rfl⟩)⟩
      · intro p' hp'
        cases hp' with
        | more hlt _ _ => omega
        | final _ hl =>
          obtain ⟨m, v, j, hm, hb, -, -, rfl⟩ := launch_one.1 hl
          obtain ⟨rfl, rfl⟩ := ((block_lock hin hm).2.2 v j).1 hb
          refine ⟨s1, s2, ?_, ?_⟩
          · simp only
            rw [Arr.put_get, if_pos rfl, hc.1]
            rfl
          · simp only
            rw [Arr.put_get, if_pos rfl, hc.2]
            rfl
    refine ⟨?_, fun p' hp' => ?_⟩
    · obtain ⟨p', hp'⟩ := (key p1 hp1).1
      exact ⟨p', .more (by omega) hp1 hp'⟩
    · cases hp' with
      | final hle _ => omega
      | more _ hl hr => exact (key _ hl).2 p' hr

/-! ## Any schedule -/

/-- All entries are values and indices of pixels. -/
def Pixels (res : Arr F) (N n : Nat) (p : Peaks F) : Prop :=
  p.val.size = n ∧ p.idx.size = n ∧
    ∀ b < n, (∃ k < N, p.val.get b = res.get k) ∧ ∃ k < N, p.idx.get b = ((k : Nat) : Int)

theorem blocks_later {res : Arr F} {N n : Nat} {l : List Nat} {p p' : Peaks F}
    (h : Blocks WarpAny none l p p') (hl : ∀ b ∈ l, 256 * b + 256 ≤ n) (hp : Pixels res N n p) :
    Pixels res N n p' := by
  generalize he : (none : Option (Arr F)) = r at h
  induction h with
  | nil => exact hp
  | @cons b l p p' m v j pv pi hm hb hv hj _ ih =>
    subst he
    simp only [Option.getD_none, Option.isSome_none] at hb
    obtain ⟨s1, s2, s3⟩ := hp
    have hb' := hl b (by simp)
    obtain ⟨⟨u, hu, e1⟩, u', hu', e2⟩ := block_any (input_later (by omega) (by omega)) hm hb
    obtain ⟨-, -, rfl⟩ := Arr.write_some hv
    obtain ⟨-, -, rfl⟩ := Arr.write_some hj
    refine ih (fun b hb => hl b (by simp [hb])) ⟨s1, s2, fun c hc => ?_⟩
    simp only [Int.toNat_natCast]
    rw [Arr.put_get, Arr.put_get]
    by_cases x : c = b
    · rw [if_pos x, if_pos x, e1, e2]
      exact ⟨(s3 _ (by omega)).1, (s3 _ (by omega)).2⟩
    · rw [if_neg x, if_neg x]
      exact s3 c hc

theorem blocks_le {c : Nat} : blocks c 256 ≤ c := by
  unfold blocks
  omega

theorem reduce_later {res : Arr F} {N n c : Nat} {p p' : Peaks F} (h : Reduce WarpAny none c p p')
    (hc : 256 * c ≤ n) (hp : Pixels res N n p) : Pixels res N n p' := by
  generalize he : (none : Option (Arr F)) = r at h
  induction h with
  | final _ hl =>
    subst he
    obtain ⟨order, ho, hb⟩ := hl
    exact blocks_later hb (fun b hb => by rw [ho.mem_iff, List.mem_range] at hb; omega) hp
  | @more _ c' _ _ _ _ hl _ ih =>
    subst he
    obtain ⟨order, ho, hb⟩ := hl
    refine ih (by have := blocks_le (c := c'); omega)
      (blocks_later hb (fun b hb => by rw [ho.mem_iff, List.mem_range] at hb; omega) hp) rfl

theorem first_any {res : Arr F} {n : Nat} (hs : 256 * n ≤ res.size) {p p' : Peaks F} (h1 : p.val.size = n)
    (h2 : p.idx.size = n) (h : Launch WarpAny (some res) n p p') : Pixels res (256 * n) n p' := by
  obtain ⟨order, ho, hb⟩ := h
  obtain ⟨s1, s2, s3, -⟩ := blocks_first (K := fun b v j => (∃ k < 256 * n, v = res.get k) ∧
      ∃ k < 256 * n, j = ((k : Nat) : Int)) hb (ho.nodup_iff.2 List.nodup_range) fun b hb m hm v j hr => by
    rw [ho.mem_iff, List.mem_range] at hb
    obtain ⟨⟨u, hu, e1⟩, u', hu', e2⟩ := block_any (input_first (by omega)) hm hr
    exact ⟨⟨256 * b + u, by omega, e1⟩, 256 * b + u', by omega, e2⟩
  exact ⟨by rw [s1, h1], by rw [s2, h2], fun b hb => s3 b (by rw [ho.mem_iff, List.mem_range]; exact hb)⟩

theorem reduce_any {res : Arr F} {n : Nat} (hn : n = 1 ∨ 256 ∣ n) (hs : 256 * n ≤ res.size) {p p' : Peaks F}
    (h1 : p.val.size = n) (h2 : p.idx.size = n) (h : Reduce WarpAny (some res) n p p') :
    Pixels res (256 * n) n p' := by
  cases h with
  | final _ hl => exact first_any hs h1 h2 hl
  | more hlt hl hr =>
    refine reduce_later hr ?_ (first_any hs h1 h2 hl)
    unfold blocks
    omega

end Sdp.Hogbom
