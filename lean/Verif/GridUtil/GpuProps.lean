import Verif.GridUtil.Gpu
import Verif.GridUtil.SubgridProps
import Verif.GridUtil.BoundsProps
import Verif.Direct.Props

/-!
# C81: the GPU helpers of the gridders do what the CPU functions do, under every schedule

`Race.Yields prog ts a r`: started on the contents `a`, no schedule of the threads `ts` leaves the array,
every schedule that runs them to the end produces `r`, and every fair schedule runs them to the end.
-/

set_option linter.unusedSectionVars false

namespace Sdp.GridUtil
open Sdp.Race

section
variable {R : Type} [CommSemiring R]

/-- **C81, adding a subgrid (no larger than the grid).**  Every schedule of the launch gives each grid
pixel the sum of the scaled subgrid pixels whose centre-aligned, shifted position it is: the result of the
CPU function (`C38_add`). -/
theorem C81_add_partial (gu gv su sv : Nat) (hu : 0 < gu) (hv : 0 < gv) (hsu : su ≤ gu) (hsv : sv ≤ gv)
    (offU offV : Int) (grid sub : Arr R) (hg : grid.size = gu * gv) (hs : sub.size = su * sv) (factor : R) :
    ∃ r, Yields (addProg gu gv su sv offU offV sub factor) (subThreads su sv) grid r ∧
      r.size = gu * gv ∧ ∀ p q, p < gu → q < gv →
        r.get (gv * p + q) = grid.get (gv * p + q) +
          ∑ i ∈ Finset.range su, ∑ j ∈ Finset.range sv,
            if pos gu su (-offU) i = p ∧ pos gv sv (-offV) j = q
              then sub.get (sv * i + j) * factor else 0 := by
  refine yields_launch2 (le_blocks su 16 (by omega)) (le_blocks sv 16 (by omega)) _
    (addPixel gu gv su sv offU offV sub factor)
    (fun p i => i = index2 gv (pos gu su (-offU) p.1 : Nat) (pos gv sv (-offV) p.2 : Nat)) ?_ ?_ ?_ ?_ grid
    (fun r => r.size = gu * gv ∧ ∀ p q, p < gu → q < gv →
        r.get (gv * p + q) = grid.get (gv * p + q) +
          ∑ i ∈ Finset.range su, ∑ j ∈ Finset.range sv,
            if pos gu su (-offU) i = p ∧ pos gv sv (-offV) j = q
              then sub.get (sv * i + j) * factor else 0)
    (fun order ho => C38_add gu gv su sv hu hv offU offV grid sub hg hs factor order ho)
  · intro p h
    unfold addProg
    rw [if_pos (by omega)]
  · intro p h1 h2 a
    unfold addProg addPixel Arr.addAt
    rw [if_neg (by omega)]
    simp only [exec_need, Prog.exec]
    congr 1; funext i1; congr 1; funext j1; congr 1; funext x; congr 1; funext y
    cases a.write (index2 gv i1 j1) (y + x * factor) <;> rfl
  · intro p h1 h2
    unfold addProg
    rw [if_neg (by omega), wrap_pos hu, wrap_pos hv]
    simp only [Prog.need]
    exact within_need _ _ fun x _ => ⟨rfl, fun y => ⟨rfl, trivial⟩⟩
  · intro p p' h1 h2 h3 h4 hne i hi hi'
    rw [hi] at hi'
    have e : ∀ x y : Nat, index2 gv (x : Int) (y : Int) = ((gv * x + y : Nat) : Int) := by
      intro x y; unfold index2; push_cast; ring
    rw [e, e] at hi'
    obtain ⟨e1, e2⟩ := flat_inj (pos_lt hv _ _ _) (pos_lt hv _ _ _) (by exact_mod_cast hi')
    exact hne (Prod.ext (C38_add_rows_partial gu su hsu _ _ _ h1 h3 e1)
      (C38_add_rows_partial gv sv hsv _ _ _ h2 h4 e2))

/-- **C81 fails when the subgrid is larger than the grid**: two threads update one pixel without
synchronisation.  Three rows of ones on a grid of two: the CPU adds 2 to the first pixel; a complete
schedule of the GPU threads adds only 1. -/
theorem C81_add_false :
    (subgridAdd 2 1 3 1 0 0 (⟨3, fun _ => 1⟩ : Arr Int) 1 (nest2 3 1) ⟨2, fun _ => 0⟩).map
      (fun r => (List.range 2).map r.get) = some [2, 1] ∧
    (run (⟨⟨2, fun _ => 0⟩, addProg 2 1 3 1 0 0 (⟨3, fun _ => 1⟩ : Arr Int) 1⟩ : St Int (Nat × Nat))
      [(0, 0), (2, 0), (0, 0), (2, 0), (1, 0), (1, 0)]).map
      (fun s => ((subThreads 3 1).all fun t => (s.prog t).isDone, (List.range 2).map s.mem.get)) =
      some (true, [1, 1]) := by
  decide +kernel

/-- **C81, cutting out.**  For all sizes every schedule of the launch gives the result of the CPU function
(`C38_cut`). -/
theorem C81_cut (gu gv su sv : Nat) (hu : 0 < gu) (hv : 0 < gv) (offU offV : Int)
    (grid sub : Arr R) (hg : grid.size = gu * gv) (hs : sub.size = su * sv) :
    ∃ r, Yields (cutProg gu gv su sv offU offV grid) (subThreads su sv) sub r ∧ r.size = su * sv ∧
      ∀ i j, i < su → j < sv →
        r.get (sv * i + j) = grid.get (gv * pos gu su offU i + pos gv sv offV j) := by
  refine yields_launch2 (le_blocks su 16 (by omega)) (le_blocks sv 16 (by omega)) _
    (cutPixel gu gv su sv offU offV grid) (fun p i => i = index2 sv p.1 p.2) ?_ ?_ ?_ ?_ sub
    (fun r => r.size = su * sv ∧ ∀ i j, i < su → j < sv →
        r.get (sv * i + j) = grid.get (gv * pos gu su offU i + pos gv sv offV j))
    (fun order ho => C38_cut gu gv su sv hu hv offU offV grid sub hg hs order ho)
  · intro p h
    unfold cutProg
    rw [if_pos (by omega)]
  · intro p h1 h2 a
    unfold cutProg cutPixel
    rw [if_neg (by omega)]
    simp only [exec_need, Prog.exec]
    congr 1; funext i1; congr 1; funext j1; congr 1; funext x
    cases a.write (index2 sv p.1 p.2) x <;> rfl
  · intro p h1 h2
    unfold cutProg
    rw [if_neg (by omega)]
    exact within_need _ _ fun _ _ => within_need _ _ fun _ _ => within_need _ _ fun x _ => ⟨rfl, trivial⟩
  · intro p p' h1 h2 h3 h4 hne i hi hi'
    rw [hi] at hi'
    have e : ∀ x y : Nat, index2 sv (x : Int) (y : Int) = ((sv * x + y : Nat) : Int) := by
      intro x y; unfold index2; push_cast; ring
    rw [e, e] at hi'
    obtain ⟨e1, e2⟩ := flat_inj h2 h4 (by exact_mod_cast hi')
    exact hne (Prod.ext e1 e2)
end

/-! ## Shifting planes -/

section
variable {M : Type}

theorem shiftGo_within (n nx j i c k : Nat) :
    (shiftGo (M := M) n nx j i c k).Within fun x => ∃ k : Nat, x = index3 n nx k j i := by
  induction c generalizing k with
  | zero => trivial
  | succ c ih => exact ⟨⟨k + 1, rfl⟩, fun v => ⟨⟨k, rfl⟩, ih (k + 1)⟩⟩

theorem shiftGo_exec (planes n : Nat) (j i : Nat) (hj : j < n) (hi : i < n) (c k : Nat) (hk : k + c < planes)
    (a : Arr M) (ha : a.size = planes * (n * n)) :
    ∃ r, (shiftGo n n j i c k).exec a = some r ∧ ∀ q, q < planes →
      r.get (n * n * q + (n * j + i)) = if k ≤ q ∧ q < k + c then a.get (n * n * (q + 1) + (n * j + i))
        else a.get (n * n * q + (n * j + i)) := by
  have hidx : ∀ q : Nat, index3 (n : Int) n q j i = ((n * n * q + (n * j + i) : Nat) : Int) := by
    intro q; unfold index3; push_cast; ring
  have hx := flat_lt hj hi
  have hlt : ∀ q, q < planes → n * n * q + (n * j + i) < planes * (n * n) := fun q hq => flat_lt hq hx
  induction c generalizing k a with
  | zero => exact ⟨a, rfl, fun q _ => by rw [if_neg (by omega)]⟩
  | succ c ih =>
    have e1 : a.read (index3 n n (k + 1 : Nat) j i) = some (a.get (n * n * (k + 1) + (n * j + i))) := by
      rw [hidx, Arr.read_nat, if_pos (by rw [ha]; exact hlt _ (by omega))]
    have e2 : ∀ v, a.write (index3 n n k j i) v = some (a.put (n * n * k + (n * j + i)) v) := by
      intro v
      rw [hidx, Arr.write_nat, if_pos (by rw [ha]; exact hlt _ (by omega))]
    obtain ⟨r, r1, r2⟩ := ih (k + 1) (by omega) (a.put (n * n * k + (n * j + i))
      (a.get (n * n * (k + 1) + (n * j + i)))) ha
    refine ⟨r, ?_, fun q hq => ?_⟩
    · simp only [shiftGo, Prog.exec]
      rw [e1]
      simp only [Option.bind_some]
      rw [e2]
      exact r1
    · have hne : ∀ q', q' ≠ k → n * n * q' + (n * j + i) ≠ n * n * k + (n * j + i) := by
        intro q' h e
        exact h (flat_inj hx hx e).1
      rw [r2 q hq]
      by_cases h1 : k + 1 ≤ q ∧ q < k + 1 + c
      · rw [if_pos h1, if_pos (by omega), Arr.put_get, if_neg (hne _ (by omega))]
      · rw [if_neg h1, Arr.put_get]
        by_cases h2 : q = k
        · subst h2
          rw [if_pos rfl, if_pos (by omega)]
        · rw [if_neg (hne q h2), if_neg (by omega)]

/-- **C81, shifting planes (square planes).**  Every schedule of the launch moves each plane into the one
before it and leaves the last: the result of the CPU function (`C48_shift_partial`). -/
theorem C81_shift_partial (planes n : Nat) (st : Arr M) (hs : st.size = planes * (n * n)) :
    ∃ r, Yields (shiftProg planes n n) (shiftThreads n n) st r ∧ r.size = st.size ∧
      ∀ c, c < planes → ∀ x, x < n * n →
        r.get (n * n * c + x) =
          if c + 1 < planes then st.get (n * n * (c + 1) + x) else st.get (n * n * c + x) := by
  let r : Arr M := ⟨st.size, fun i => if i + n * n < planes * (n * n) then st.get (i + n * n) else st.get i⟩
  have hr : ∀ c, c < planes → ∀ x, x < n * n → r.get (n * n * c + x) =
      if c + 1 < planes then st.get (n * n * (c + 1) + x) else st.get (n * n * c + x) := by
    intro c hc x hx
    have e : n * n * (c + 1) + x = n * n * c + x + n * n := by ring
    simp only [r]
    rw [e]
    by_cases h : c + 1 < planes
    · rw [if_pos h, if_pos (by rw [← e]; exact flat_lt h hx)]
    · rw [if_neg h, if_neg]
      have : planes = c + 1 := by omega
      subst this
      have : (c + 1) * (n * n) = n * n * c + n * n := by ring
      omega
  have hidx : ∀ q j i : Nat, index3 (n : Int) n q j i = ((n * n * q + (n * j + i) : Nat) : Int) := by
    intro q j i; unfold index3; push_cast; ring
  refine ⟨r, ?_, rfl, hr⟩
  refine yields_each _ (fun p x => (p.1 < n ∧ p.2 < n) ∧ ∃ k : Nat, k < planes ∧ x = index3 n n k p.2 p.1) _
    ?_ ?_ st r rfl ?_ ?_
  · intro p _
    unfold shiftProg
    by_cases h : p.1 ≥ n ∨ p.2 ≥ n
    · rw [if_pos h]; trivial
    · rw [if_neg h]
      have gen : ∀ c k, k + c < planes ∨ c = 0 → (shiftGo (M := M) n n p.2 p.1 c k).Within
          fun x => (p.1 < n ∧ p.2 < n) ∧ ∃ k : Nat, k < planes ∧ x = index3 n n k p.2 p.1 := by
        intro c
        induction c with
        | zero => intro k _; trivial
        | succ c ih =>
          intro k hk
          exact ⟨⟨by omega, k + 1, by omega, rfl⟩, fun v => ⟨⟨by omega, k, by omega, rfl⟩,
            ih (k + 1) (by omega)⟩⟩
      exact gen _ _ (by omega)
  · rintro p _ p' _ hne x ⟨⟨h1, h2⟩, k, _, e⟩ ⟨⟨h3, h4⟩, k', _, e'⟩
    rw [e, hidx, hidx] at e'
    have e' : n * n * k + (n * p.2 + p.1) = n * n * k' + (n * p'.2 + p'.1) := by exact_mod_cast e'
    obtain ⟨_, g2⟩ := flat_inj (flat_lt h2 h1) (flat_lt h4 h3) e'
    obtain ⟨g3, g4⟩ := flat_inj h1 h3 g2
    exact hne (Prod.ext g4 g3)
  · intro p _
    unfold shiftProg
    by_cases h : p.1 ≥ n ∨ p.2 ≥ n
    · rw [if_pos h]
      exact ⟨st, rfl, fun i hi => by omega⟩
    · rw [if_neg h]
      by_cases hp : planes = 0
      · subst hp
        exact ⟨st, rfl, fun i hi => by obtain ⟨_, k, hk, _⟩ := hi; omega⟩
      · obtain ⟨x, x1, x2⟩ := shiftGo_exec planes n p.2 p.1 (by omega) (by omega) (planes - 1) 0 (by omega)
          st hs
        refine ⟨x, x1, ?_⟩
        rintro i ⟨_, k, hk, e⟩
        rw [hidx] at e
        have e : i = n * n * k + (n * p.2 + p.1) := by exact_mod_cast e
        subst e
        rw [x2 k hk, hr k hk _ (flat_lt (by omega) (by omega))]
        by_cases hl : k + 1 < planes
        · rw [if_pos (by omega), if_pos hl]
        · rw [if_neg (by omega), if_neg hl]
  · intro i hi
    simp only [r]
    by_cases h : i + n * n < planes * (n * n)
    · exfalso
      have hn : 0 < n := by
        rcases Nat.eq_zero_or_pos n with h0 | h0
        · subst h0; simp at h
        · exact h0
      have hnn : 0 < n * n := Nat.mul_pos hn hn
      have d1 := Nat.div_add_mod i (n * n)
      have d2 := Nat.mod_lt i hnn
      have d3 := Nat.div_add_mod (i % (n * n)) n
      have d4 := Nat.mod_lt (i % (n * n)) hn
      have d5 : i % (n * n) / n < n := Nat.div_lt_of_lt_mul d2
      have d6 : i / (n * n) < planes := Nat.div_lt_of_lt_mul (by rw [Nat.mul_comm]; omega)
      refine hi (i % (n * n) % n, i % (n * n) / n) ?_ ⟨⟨d4, d5⟩, i / (n * n), d6, ?_⟩
      · rw [shiftThreads, mem_nest2]
        have := le_blocks n 32 (by omega)
        have := le_blocks n 8 (by omega)
        simp only
        omega
      · rw [hidx]
        congr 1
        simp only
        omega
    · rw [if_neg h]
end

/-! ## Bounding box -/

section
variable {K : Type} [Field K] [LinearOrder K] [IsStrictOrderedRing K]

theorem loop_comm {σ ι : Type} (f : σ → ι → Option σ) (g : σ → ι → σ) (xs : List ι)
    (hf : ∀ x ∈ xs, ∀ s, f s x = some (g s x)) (s : σ) : loop f s xs = some (xs.foldl g s) := by
  induction xs generalizing s with
  | nil => rfl
  | cons x xs ih =>
    simp only [loop, List.foldl_cons]
    rw [hf x (by simp)]
    exact ih (fun y hy => hf y (by simp [hy])) _

/-- What an operation does to its coordinate when all arrays are long enough. -/
def actF (c0 f0 df : K) (uvw : Arr K) (n : Nat) (startCh endCh : Arr Int) (x : Nat × Nat × Nat) (m : MinMax K) :
    MinMax K :=
  if x.1 ≥ n ∨ endCh.get x.1 ≤ startCh.get x.1 then m
  else
    let u := uvw.get (3 * x.1 + x.2.1)
    let first := f0 * u / c0 + startCh.get x.1 * (df * u / c0)
    let last := f0 * u / c0 + ((endCh.get x.1 - 1 : Int) : K) * (df * u / c0)
    if x.2.2 = 0 then ⟨min (((if 0 ≤ u then first else last : K) : WithTop K)) m.mn, m.mx⟩
    else ⟨m.mn, max (((if 0 ≤ u then last else first : K) : WithBot K)) m.mx⟩

theorem upd_id (j : Nat) (b : MinMax K × MinMax K × MinMax K) : upd j (fun m => m) b = b := by
  unfold upd
  split_ifs <;> rfl

theorem boundOp_eq (c0 f0 df : K) (uvw : Arr K) (n : Nat) (startCh endCh : Arr Int) (hu : 3 * n ≤ uvw.size)
    (hs : n ≤ startCh.size) (he : n ≤ endCh.size) (x : Nat × Nat × Nat) (hx : x.2.1 < 3)
    (b : MinMax K × MinMax K × MinMax K) :
    boundOp c0 f0 df uvw n startCh endCh b x = some (upd x.2.1 (actF c0 f0 df uvw n startCh endCh x) b) := by
  unfold boundOp
  by_cases h : x.1 ≥ n
  · have e : actF c0 f0 df uvw n startCh endCh x = fun m => m := by
      funext m; unfold actF; rw [if_pos (Or.inl h)]
    rw [if_pos h, e, upd_id]
  · have e1 : startCh.read x.1 = some (startCh.get x.1) := by rw [Arr.read_nat, if_pos (by omega)]
    have e2 : endCh.read x.1 = some (endCh.get x.1) := by rw [Arr.read_nat, if_pos (by omega)]
    have e3 : uvw.read ((3 * x.1 + x.2.1 : Nat) : Int) = some (uvw.get (3 * x.1 + x.2.1)) := by
      rw [Arr.read_nat, if_pos (by omega)]
    rw [if_neg h, e1, e2]
    simp only [Option.bind_some]
    by_cases h2 : endCh.get x.1 ≤ startCh.get x.1
    · have e : actF c0 f0 df uvw n startCh endCh x = fun m => m := by
        funext m; unfold actF; rw [if_pos (Or.inr h2)]
      rw [if_pos h2, e, upd_id]
    · have hn : ¬ (x.1 ≥ n ∨ endCh.get x.1 ≤ startCh.get x.1) := by tauto
      rw [if_neg h2, e3]
      simp only [Option.bind_some]
      congr 2
      funext m
      unfold actF
      rw [if_neg hn]

theorem actF_comm (c0 f0 df : K) (uvw : Arr K) (n : Nat) (startCh endCh : Arr Int) (x y : Nat × Nat × Nat)
    (m : MinMax K) :
    actF c0 f0 df uvw n startCh endCh x (actF c0 f0 df uvw n startCh endCh y m) =
      actF c0 f0 df uvw n startCh endCh y (actF c0 f0 df uvw n startCh endCh x m) := by
  unfold actF
  by_cases h1 : x.1 ≥ n ∨ endCh.get x.1 ≤ startCh.get x.1
  · simp only [if_pos h1]
  by_cases h2 : y.1 ≥ n ∨ endCh.get y.1 ≤ startCh.get y.1
  · simp only [if_pos h2]
  simp only [if_neg h1, if_neg h2]
  by_cases h3 : x.2.2 = 0 <;> by_cases h4 : y.2.2 = 0 <;> simp only [h3, h4, if_true, if_false]
  · rw [min_left_comm]
  · rw [max_left_comm]

theorem upd_comm (F : Nat × Nat × Nat → MinMax K → MinMax K) (h : ∀ x y m, F x (F y m) = F y (F x m))
    (b : MinMax K × MinMax K × MinMax K) (x y : Nat × Nat × Nat) :
    upd y.2.1 (F y) (upd x.2.1 (F x) b) = upd x.2.1 (F x) (upd y.2.1 (F y) b) := by
  unfold upd
  split_ifs <;> simp only [h y x]

theorem pair_eq (c0 f0 df : K) (uvw : Arr K) (n : Nat) (startCh endCh : Arr Int) (i j : Nat) (m : MinMax K)
    (hi : i < n) :
    actF c0 f0 df uvw n startCh endCh (i, j, 1) (actF c0 f0 df uvw n startCh endCh (i, j, 0) m) =
      if endCh.get i ≤ startCh.get i then m
      else boundStep c0 f0 df (uvw.get (3 * i + j)) (startCh.get i) (endCh.get i) m := by
  by_cases h : endCh.get i ≤ startCh.get i
  · unfold actF
    rw [if_pos h]
    have h' : (i, j, 1).1 ≥ n ∨ endCh.get (i, j, 1).1 ≤ startCh.get (i, j, 1).1 := Or.inr h
    have h'' : (i, j, 0).1 ≥ n ∨ endCh.get (i, j, 0).1 ≤ startCh.get (i, j, 0).1 := Or.inr h
    rw [if_pos h', if_pos h'']
  · rw [if_neg h]
    have hn : ¬ (i ≥ n ∨ endCh.get i ≤ startCh.get i) := by omega
    unfold actF boundStep
    simp only [if_neg hn, if_true, one_ne_zero, if_false]
    by_cases h0 : 0 ≤ uvw.get (3 * i + j) <;> simp only [h0, if_true, if_false]

theorem row_eq (c0 f0 df : K) (uvw : Arr K) (n : Nat) (startCh endCh : Arr Int) (hu : 3 * n ≤ uvw.size)
    (hs : n ≤ startCh.size) (he : n ≤ endCh.size) (i : Nat) (hi : i < n)
    (s : MinMax K × MinMax K × MinMax K) :
    boundRow c0 f0 df uvw startCh endCh s i = loop (boundOp c0 f0 df uvw n startCh endCh) s
      ((nest2 3 2).map fun x => (i, x.1, x.2)) := by
  have e0 : (nest2 3 2).map (fun x => (i, x.1, x.2)) =
      [(i, 0, 0), (i, 0, 1), (i, 1, 0), (i, 1, 1), (i, 2, 0), (i, 2, 1)] := rfl
  let A := actF c0 f0 df uvw n startCh endCh
  rw [e0, loop_comm (boundOp c0 f0 df uvw n startCh endCh) (fun b x => upd x.2.1 (A x) b) _ (by
    intro x hx s
    refine boundOp_eq c0 f0 df uvw n startCh endCh hu hs he x ?_ s
    simp only [List.mem_cons, List.not_mem_nil, or_false] at hx
    rcases hx with rfl | rfl | rfl | rfl | rfl | rfl <;> simp)]
  have e6 : [(i, 0, 0), (i, 0, 1), (i, 1, 0), (i, 1, 1), (i, 2, 0), (i, 2, 1)].foldl
      (fun b x => upd x.2.1 (A x) b) s =
      (A (i, 0, 1) (A (i, 0, 0) s.1), A (i, 1, 1) (A (i, 1, 0) s.2.1), A (i, 2, 1) (A (i, 2, 0) s.2.2)) := rfl
  rw [e6]
  simp only [A]
  rw [pair_eq _ _ _ _ _ _ _ _ _ _ hi, pair_eq _ _ _ _ _ _ _ _ _ _ hi, pair_eq _ _ _ _ _ _ _ _ _ _ hi]
  unfold boundRow
  have e1 : startCh.read i = some (startCh.get i) := by rw [Arr.read_nat, if_pos (by omega)]
  have e2 : endCh.read i = some (endCh.get i) := by rw [Arr.read_nat, if_pos (by omega)]
  have e3 : uvw.read (3 * i) = some (uvw.get (3 * i)) := by
    have := Arr.read_nat uvw (3 * i); push_cast at this; rw [this, if_pos (by omega)]
  have e4 : uvw.read (3 * i + 1) = some (uvw.get (3 * i + 1)) := by
    have := Arr.read_nat uvw (3 * i + 1); push_cast at this; rw [this, if_pos (by omega)]
  have e5 : uvw.read (3 * i + 2) = some (uvw.get (3 * i + 2)) := by
    have := Arr.read_nat uvw (3 * i + 2); push_cast at this; rw [this, if_pos (by omega)]
  rw [e1, e2]
  simp only [Option.bind_some]
  by_cases h : endCh.get i ≤ startCh.get i
  · simp only [if_pos h]
  · simp only [if_neg h]
    rw [e3, e4, e5]
    rfl

theorem nest3_rows (a b c : Nat) :
    nest3 a b c = (List.range a).flatMap fun i => (nest2 b c).map fun x => (i, x.1, x.2) := by
  unfold nest3 nest2
  simp only [List.flatMap_assoc, List.flatMap_map, List.map_flatMap, List.map_map]
  rfl

/-- **C81, bounding box.**  For every order of the atomic operations of the launch the GPU box is the CPU
box. -/
theorem C81_bounds (c0 f0 df : K) (uvw : Arr K) (n : Nat) (startCh endCh : Arr Int) (hu : 3 * n ≤ uvw.size)
    (hs : n ≤ startCh.size) (he : n ≤ endCh.size) (order : List (Nat × Nat × Nat))
    (ho : order.Perm (boundOps n)) :
    (uvwBounds c0 f0 df uvw n startCh endCh).isSome ∧
    uvwBoundsGpu c0 f0 df uvw n startCh endCh order = uvwBounds c0 f0 df uvw n startCh endCh := by
  let G := fun (b : MinMax K × MinMax K × MinMax K) (x : Nat × Nat × Nat) =>
    upd x.2.1 (actF c0 f0 df uvw n startCh endCh x) b
  have hcpu : uvwBounds c0 f0 df uvw n startCh endCh =
      some ((boundOps n).foldl G (MinMax.init, MinMax.init, MinMax.init)) := by
    rw [← loop_comm (boundOp c0 f0 df uvw n startCh endCh) G (boundOps n) (by
      intro x hx s
      exact boundOp_eq c0 f0 df uvw n startCh endCh hu hs he x (mem_nest3.1 hx).2.1 s)]
    unfold uvwBounds boundOps
    rw [nest3_rows, loop_flatMap]
    have hle := le_blocks n 256 (by omega)
    obtain ⟨k, hk⟩ : ∃ k, blocks n 256 * 256 = n + k := ⟨blocks n 256 * 256 - n, by omega⟩
    rw [hk, List.range_add, loop_append]
    have row : ∀ i ∈ List.range n, ∀ s : MinMax K × MinMax K × MinMax K,
        boundRow c0 f0 df uvw startCh endCh s i = loop (boundOp c0 f0 df uvw n startCh endCh) s
          ((nest2 3 2).map fun x => (i, x.1, x.2)) := by
      intro i hi s
      exact row_eq c0 f0 df uvw n startCh endCh hu hs he i (List.mem_range.1 hi) s
    have rest : ∀ s : MinMax K × MinMax K × MinMax K, loop (fun s (i : Nat) =>
        loop (boundOp c0 f0 df uvw n startCh endCh) s ((nest2 3 2).map fun x => (i, x.1, x.2))) s
        (List.map (fun x => n + x) (List.range k)) = some s := by
      intro s
      have hz : ∀ i ∈ List.map (fun x => n + x) (List.range k), ∀ s : MinMax K × MinMax K × MinMax K,
          loop (boundOp c0 f0 df uvw n startCh endCh) s ((nest2 3 2).map fun x => (i, x.1, x.2)) = some s := by
        intro i hi s
        obtain ⟨j, -, rfl⟩ := List.mem_map.1 hi
        have : ∀ x ∈ (nest2 3 2).map (fun x => (n + j, x.1, x.2)), ∀ s,
            boundOp c0 f0 df uvw n startCh endCh s x = some s := by
          intro x hx s
          obtain ⟨y, -, rfl⟩ := List.mem_map.1 hx
          unfold boundOp
          rw [if_pos (by simp)]
        rw [loop_comm _ (fun s _ => s) _ this, List.foldl_fixed]
      rw [loop_comm _ (fun s _ => s) _ hz, List.foldl_fixed]
    rw [← loop_congr _ _ _ _ row]
    cases loop (boundRow c0 f0 df uvw startCh endCh) (MinMax.init, MinMax.init, MinMax.init) (List.range n) with
    | none => rfl
    | some v => simp only [Option.bind_some]; rw [rest]
  rw [hcpu]
  refine ⟨rfl, ?_⟩
  unfold uvwBoundsGpu
  rw [loop_comm (boundOp c0 f0 df uvw n startCh endCh) G order (by
    intro x hx s
    exact boundOp_eq c0 f0 df uvw n startCh endCh hu hs he x (mem_nest3.1 (ho.mem_iff.1 hx)).2.1 s)]
  congr 1
  exact ho.foldl_eq' (fun x _ y _ b => upd_comm _ (actF_comm c0 f0 df uvw n startCh endCh) b x y) _

end

/-! ## Direct Fourier transform to an image -/

open Classical in
/-- **C81, direct transform.**  Every schedule of the launch adds to each pixel the tapered sum over the
visibilities of the rows with a non-empty channel range of visibility times conjugate response: the result
of the CPU function (`C46_idft`). -/
theorem C81_idft (o : Direct.Obs) (h : o.Ok) (n : Nat) (vis : Arr ℂ)
    (hv : vis.size = o.numUvw * o.numChan) (lmn : Arr ℝ) (hl : lmn.size = 3 * (n * n))
    (taper : Option (Arr ℝ)) (ht : Direct.TaperOk taper n n) (image : Arr ℂ) (hi : image.size = n * n) :
    ∃ r, Yields (idftProg o n vis lmn taper) (idftThreads n) image r ∧ r.size = n * n ∧
      ∀ a, a < n → ∀ b, b < n →
        r.get (n * a + b) = image.get (n * a + b) +
          (∑ i ∈ Finset.range o.numUvw, ∑ c ∈ Finset.range o.numChan,
            if o.Active i then vis.get (o.numChan * i + c) *
              star (Direct.response (Direct.dirOf lmn (n * a + b)) (o.at i c)) else 0) *
            (Direct.taperOf taper (a, b) : ℂ) := by
  refine yields_launch2 (le_blocks n 16 (by omega)) (le_blocks n 16 (by omega)) _
    (Direct.idftBody o n vis lmn taper) (fun p i => i = index2 n p.1 p.2) ?_ ?_ ?_ ?_ image
    (fun r => r.size = n * n ∧ ∀ a, a < n → ∀ b, b < n →
        r.get (n * a + b) = image.get (n * a + b) +
          (∑ i ∈ Finset.range o.numUvw, ∑ c ∈ Finset.range o.numChan,
            if o.Active i then vis.get (o.numChan * i + c) *
              star (Direct.response (Direct.dirOf lmn (n * a + b)) (o.at i c)) else 0) *
            (Direct.taperOf taper (a, b) : ℂ))
    (fun order ho => Direct.C46_idft o h n vis hv lmn hl taper ht image hi order ho)
  · intro p h
    unfold idftProg
    rw [if_pos (by omega)]
  · intro p h1 h2 a
    unfold idftProg Direct.idftBody Arr.addAt
    rw [if_neg (by omega)]
    simp only [exec_need, Prog.exec]
    congr 1; funext x; congr 1; funext t; congr 1; funext y
    cases a.write (index2 n p.1 p.2) (y + x * (t : ℂ)) <;> rfl
  · intro p h1 h2
    unfold idftProg
    rw [if_neg (by omega)]
    exact within_need _ _ fun _ _ => within_need _ _ fun _ _ => ⟨rfl, fun y => ⟨rfl, trivial⟩⟩
  · intro p p' h1 h2 h3 h4 hne i hi hi'
    rw [hi] at hi'
    have e : ∀ x y : Nat, index2 n (x : Int) (y : Int) = ((n * x + y : Nat) : Int) := by
      intro x y; unfold index2; push_cast; ring
    rw [e, e] at hi'
    obtain ⟨e1, e2⟩ := flat_inj h2 h4 (by exact_mod_cast hi')
    exact hne (Prod.ext e1 e2)

/-- Non-vacuity: complete schedules of small launches.  Adding a 2 x 2 subgrid to a 3 x 3 grid with all
reads before all writes, and shifting three planes of 2 x 2 with one thread running ahead. -/
example :
    (run (⟨⟨9, fun _ => 1⟩, addProg 3 3 2 2 1 0 (⟨4, fun k => (k : Int) + 1⟩ : Arr Int) 10⟩ : St Int (Nat × Nat))
      [(0, 0), (1, 1), (1, 0), (0, 1), (0, 1), (0, 0), (1, 0), (1, 1)]).map
      (fun s => ((subThreads 2 2).all fun t => (s.prog t).isDone, (List.range 9).map s.mem.get)) =
      some (true, [31, 41, 1, 1, 1, 1, 11, 21, 1]) ∧
    (run (⟨⟨12, fun k => k⟩, shiftProg 3 2 2⟩ : St Nat (Nat × Nat))
      [(1, 0), (1, 0), (1, 0), (0, 0), (0, 1), (1, 1), (1, 1), (1, 0), (0, 0), (0, 0), (0, 1), (0, 1), (0, 1),
        (1, 1), (1, 1), (0, 0)]).map
      (fun s => ((shiftThreads 2 2).all fun t => (s.prog t).isDone, (List.range 12).map s.mem.get)) =
      some (true, [4, 5, 6, 7, 8, 9, 10, 11, 8, 9, 10, 11]) := by
  decide +kernel

end Sdp.GridUtil
