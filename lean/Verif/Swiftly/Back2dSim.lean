import Verif.Swiftly.Call2dAdd

/-! # C116: preparing a subgrid with any strides does what it does on contiguous rows -/

namespace Sdp.Swiftly
open Finset Sdp.Fft Sdp.GridUtil
noncomputable section

/-- Both computations succeed, with related results. -/
def Both {σ τ : Type} (R : σ → τ → Prop) (x : Option σ) (y : Option τ) : Prop := ∃ s t, x = some s ∧ y = some t ∧ R s t

theorem Both.bind {σ τ σ' τ' : Type} {R : σ → τ → Prop} {R' : σ' → τ' → Prop} {x : Option σ} {y : Option τ} {f : σ → Option σ'}
    {g : τ → Option τ'} (h : Both R x y) (hf : ∀ s t, R s t → Both R' (f s) (g t)) : Both R' (x.bind f) (y.bind g) := by
  obtain ⟨s, t, rfl, rfl, hr⟩ := h
  exact hf s t hr

theorem Both.map {σ τ σ' τ' : Type} {R : σ → τ → Prop} {R' : σ' → τ' → Prop} {x : Option σ} {y : Option τ} {f : σ → σ'}
    {g : τ → τ'} (h : Both R x y) (hf : ∀ s t, R s t → R' (f s) (g t)) : Both R' (x.map f) (y.map g) := by
  obtain ⟨s, t, rfl, rfl, hr⟩ := h
  exact ⟨f s, g t, rfl, rfl, hf s t hr⟩

theorem Both.loop {σ τ α : Type} {R : σ → τ → Prop} {f : σ → α → Option σ} {g : τ → α → Option τ} :
    ∀ (l : List α) (s : σ) (t : τ), R s t → (∀ x ∈ l, ∀ s t, R s t → Both R (f s x) (g t x)) →
      Both R (Sdp.loop f s l) (Sdp.loop g t l)
  | [], s, t, h, _ => ⟨s, t, rfl, rfl, h⟩
  | x :: l, s, t, h, hf => by
    unfold Sdp.loop
    exact (hf x (by simp) s t h).bind fun s t h => Both.loop l s t h fun y hy => hf y (by simp [hy])

/-- `b` holds the elements of `a` in contiguous rows, and `a` has not changed elsewhere. -/
structure Mirror (M : Nat) (pos : Nat → Nat → Nat) (a0 a b : Arr ℂ) : Prop where
  size : a.size = a0.size
  size' : b.size = M * M
  same : ∀ i j, i < M → j < M → a.get (pos i j) = b.get (M * i + j)
  rest : ∀ x, (∀ i j, i < M → j < M → pos i j ≠ x) → a.get x = a0.get x

section
variable {M : Nat} {pos : Nat → Nat → Nat} {a0 : Arr ℂ} {s : Int × Int} (hs : ∀ i j, i < M → j < M → ix s i j = (pos i j : Nat))
  (hf : ∀ i j, i < M → j < M → pos i j < a0.size) (hd : Distinct M M pos)
include hs hf hd

omit hd in
theorem Mirror.read {a b : Arr ℂ} (h : Mirror M pos a0 a b) {i j : Nat} (hi : i < M) (hj : j < M) :
    Both (fun x y => x = y) (a.read (ix s i j)) (b.read (ix ((M : Int), 1) i j)) := by
  have h1 := hf i j hi hj
  have h2 := flat_lt hi hj
  rw [hs i j hi hj, ix_nat, Arr.read_nat, Arr.read_nat, if_pos (by rw [h.size]; exact h1), if_pos (by rw [h.size']; exact h2)]
  exact ⟨_, _, rfl, rfl, h.same i j hi hj⟩

theorem Mirror.write {a b : Arr ℂ} (h : Mirror M pos a0 a b) {i j : Nat} (hi : i < M) (hj : j < M) (x : ℂ) :
    Both (Mirror M pos a0) (a.write (ix s i j) x) (b.write (ix ((M : Int), 1) i j) x) := by
  have h1 := hf i j hi hj
  have h2 := flat_lt hi hj
  rw [hs i j hi hj, ix_nat, Arr.write_nat, Arr.write_nat, if_pos (by rw [h.size]; exact h1), if_pos (by rw [h.size']; exact h2)]
  refine ⟨_, _, rfl, rfl, h.size, h.size', fun r q hr hq => ?_, fun y hy => ?_⟩
  · rw [Arr.put_get, Arr.put_get]
    by_cases e : pos r q = pos i j
    · obtain ⟨rfl, rfl⟩ := hd r q i j hr hq hi hj e
      rw [if_pos rfl, if_pos rfl]
    · rw [if_neg e, if_neg, h.same r q hr hq]
      intro e'
      obtain ⟨rfl, rfl⟩ := flat_inj hq hj e'
      exact e rfl
  · rw [Arr.put_get, if_neg (fun e => hy i j hi hj e.symm), h.rest y hy]

theorem fft2_mirror (inv : Bool) (scale : ℂ) {a b : Arr ℂ} (h : Mirror M pos a0 a b) :
    Both (Mirror M pos a0) (fft2 inv M scale s s a a) (fft2 inv M scale ((M : Int), 1) ((M : Int), 1) b b) := by
  unfold fft2
  rw [if_pos, if_pos]
  · refine Both.loop _ _ _ h fun p hp x y hxy => ?_
    have hp' := mem_nest2.1 hp
    have e : dft2 inv M M (fun i j => a.get (ix s i j).toNat) p.1 p.2 =
        dft2 inv M M (fun i j => b.get (ix ((M : Int), 1) i j).toNat) p.1 p.2 :=
      dft2_congr inv M M (fun i hi j hj => by
        rw [hs i j hi hj, ix_nat, Int.toNat_natCast, Int.toNat_natCast, h.same i j hi hj]) _ _
    rw [e]
    exact hxy.write hs hf hd hp'.1 hp'.2 _
  · intro i hi j hj
    have := flat_lt hi hj
    rw [ix_nat, h.size']
    omega
  · intro i hi j hj
    have := hf i j hi hj
    rw [hs i j hi hj, h.size]
    omega

theorem rampRow_mirror (step1 step02 step12 : ℂ) (i0 : Nat) (hi0 : i0 < M / 2) (p0 : ℂ) {a b : Arr ℂ} (h : Mirror M pos a0 a b) :
    Both (Mirror M pos a0) (rampRow M s step1 step02 step12 i0 p0 a) (rampRow M ((M : Int), 1) step1 step02 step12 i0 p0 b) := by
  unfold rampRow
  refine Both.map (R := fun (x y : ℂ × Arr ℂ) => x.1 = y.1 ∧ Mirror M pos a0 x.2 y.2) ?_ fun x y hxy => hxy.2
  refine Both.loop _ _ _ ⟨rfl, h⟩ fun i1 hi1 x y hxy => ?_
  have hi1' : i1 < M / 2 := List.mem_range.1 hi1
  obtain ⟨q, x⟩ := x
  obtain ⟨q', y⟩ := y
  obtain ⟨rfl, hm⟩ := hxy
  dsimp only at hm ⊢
  refine Both.map (R := Mirror M pos a0) ?_ fun x y hxy => ⟨rfl, hxy⟩
  refine (hm.read hs hf (by omega) (by omega)).bind fun t t' ht => ?_
  subst ht
  refine (hm.read hs hf (by omega) (by omega)).bind fun v v' hv => ?_
  subst hv
  refine (hm.write hs hf hd (by omega) (by omega) _).bind fun x y hm => ?_
  refine (hm.write hs hf hd (by omega) (by omega) _).bind fun x y hm => ?_
  refine (hm.read hs hf (by omega) (by omega)).bind fun t2 t2' ht => ?_
  subst ht
  refine (hm.read hs hf (by omega) (by omega)).bind fun v2 v2' hv => ?_
  subst hv
  refine (hm.write hs hf hd (by omega) (by omega) _).bind fun x y hm => ?_
  exact hm.write hs hf hd (by omega) (by omega) _

theorem prepareSubgrid2d_mirror (o0 o1 : Int) {a b : Arr ℂ} (h : Mirror M pos a0 a b) :
    Both (Mirror M pos a0) (prepareSubgrid2d M s o0 o1 a) (prepareSubgrid2d M ((M : Int), 1) o0 o1 b) := by
  unfold prepareSubgrid2d
  refine (fft2_mirror hs hf hd false 1 h).bind fun x y hxy => ?_
  unfold ramp2d
  refine Both.map (R := fun (x y : ℂ × Arr ℂ) => x.1 = y.1 ∧ Mirror M pos a0 x.2 y.2) ?_ fun x y hxy => hxy.2
  refine Both.loop _ _ _ ⟨rfl, hxy⟩ fun i0 hi0 x y hxy => ?_
  obtain ⟨q, x⟩ := x
  obtain ⟨q', y⟩ := y
  obtain ⟨rfl, hm⟩ := hxy
  dsimp only at hm ⊢
  exact (rampRow_mirror hs hf hd _ _ _ i0 (List.mem_range.1 hi0) q hm).map fun x y hxy => ⟨rfl, hxy⟩

end
end
end Sdp.Swiftly
