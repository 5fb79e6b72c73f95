import Verif.Width.FillSpec
import Mathlib.Data.List.Nodup
import Mathlib.Algebra.Order.Field.Rat
import Mathlib.Algebra.Order.Field.Basic
import Mathlib.Algebra.Order.Field.Rat
import Mathlib.Algebra.Order.Field.Basic
import Verif.Width.IntFacts
import Verif.Width.GpuProps
import Verif.Width.False

/-
C121: filling and scaling reach every element, scaling reaches it once.
-/
namespace Sdp.Width

/-- A value of type `int64_t`. -/
def In64 (v : Int) : Prop := -9223372036854775808 ≤ v ∧ v ≤ 9223372036854775807

theorem op64 (f : Int → Int → Int) (a b : Int) (ha : In64 a) (hb : In64 b) (h : In64 (f a b)) :
    arith f (lit .i64 a) (lit .i64 b) = lit .i64 (f a b) := by
  unfold arith lit
  simp only [Option.bind_some, Ty.join]
  rw [wrap_range .i64 a ha.1 ha.2, wrap_range .i64 b hb.1 hb.2, fit_range .i64 _ h.1 h.2]
  rfl

theorem add64 (a b : Int) (ha : In64 a) (hb : In64 b) (h : In64 (a + b)) :
    lit .i64 a + lit .i64 b = lit .i64 (a + b) := op64 (· + ·) a b ha hb h

theorem mul64 (a b : Int) (ha : In64 a) (hb : In64 b) (h : In64 (a * b)) :
    lit .i64 a * lit .i64 b = lit .i64 (a * b) := op64 (· * ·) a b ha hb h

theorem in64_nat (i : Nat) (h : i < 4294967296) : In64 (i : Int) :=
  ⟨by omega, by omega⟩

theorem as64 (t : Ty) (i : Nat) (h : i < 4294967296) : as .i64 (lit t i) = lit .i64 i :=
  as_lit .i64 t i (by simp only [Ty.hi]; omega)

theorem view1_lit (t : Ty) (s0 : Int) (i : Nat) (hi : i < 4294967296) (hs : In64 s0)
    (h : In64 (s0 * i)) : view1 s0 (lit t i) = some [("mem", s0 * i)] := by
  unfold view1
  rw [as64 t i hi, mul64 _ _ hs (in64_nat i hi) h, touch_lit]

theorem view2_lit (t : Ty) (s0 s1 : Int) (i j : Nat) (hi : i < 4294967296)
    (hj : j < 4294967296) (hs0 : In64 s0) (hs1 : In64 s1) (h0 : In64 (s0 * i))
    (h1 : In64 (s1 * j)) (h : In64 (s0 * i + s1 * j)) :
    view2 s0 s1 (lit t i) (lit t j) = some [("mem", s0 * i + s1 * j)] := by
  unfold view2
  rw [as64 t i hi, as64 t j hj, mul64 _ _ hs0 (in64_nat i hi) h0,
    mul64 _ _ hs1 (in64_nat j hj) h1, add64 _ _ h0 h1 h, touch_lit]

theorem view3_lit (t : Ty) (s0 s1 s2 : Int) (i j k : Nat) (hi : i < 4294967296)
    (hj : j < 4294967296) (hk : k < 4294967296) (hs0 : In64 s0) (hs1 : In64 s1)
    (hs2 : In64 s2) (h0 : In64 (s0 * i)) (h1 : In64 (s1 * j)) (h2 : In64 (s2 * k))
    (h01 : In64 (s0 * i + s1 * j)) (h : In64 (s0 * i + s1 * j + s2 * k)) :
    view3 s0 s1 s2 (lit t i) (lit t j) (lit t k) =
      some [("mem", s0 * i + s1 * j + s2 * k)] := by
  unfold view3
  rw [as64 t i hi, as64 t j hj, as64 t k hk, mul64 _ _ hs0 (in64_nat i hi) h0,
    mul64 _ _ hs1 (in64_nat j hj) h1, mul64 _ _ hs2 (in64_nat k hk) h2,
    add64 _ _ h0 h1 h01, add64 _ _ h01 h2 h, touch_lit]

/-- Elements of arrays with one, two and three dimensions. -/
theorem element1 (n0 : Nat) (s0 : Int) (i : Nat) (hi : i < n0) :
    IsElement [(n0, s0)] (s0 * i) := ⟨i, 0, hi, rfl, by omega⟩

theorem element2 (n0 n1 : Nat) (s0 s1 : Int) (i j : Nat) (hi : i < n0) (hj : j < n1) :
    IsElement [(n0, s0), (n1, s1)] (s0 * i + s1 * j) :=
  ⟨i, s1 * j, hi, element1 n1 s1 j hj, rfl⟩

theorem element3 (n0 n1 n2 : Nat) (s0 s1 s2 : Int) (i j k : Nat) (hi : i < n0) (hj : j < n1)
    (hk : k < n2) :
    IsElement [(n0, s0), (n1, s1), (n2, s2)] (s0 * i + s1 * j + s2 * k) :=
  ⟨i, s1 * j + s2 * k, hi, element2 n1 n2 s1 s2 j k hj hk, by omega⟩

theorem view1_ok (t : Ty) (n0 : Nat) (s0 : Int) (i : Nat) (hn : n0 ≤ 4294967296) (hi : i < n0)
    (ha : Addressable [(n0, s0)]) : view1 s0 (lit t i) = some [("mem", s0 * i)] :=
  view1_lit t s0 i (by omega) (ha.1 (n0, s0) (by simp)) (ha.2 _ (element1 n0 s0 i hi))

theorem view2_ok (t : Ty) (n0 n1 : Nat) (s0 s1 : Int) (i j : Nat) (hn0 : n0 ≤ 4294967296)
    (hn1 : n1 ≤ 4294967296) (hi : i < n0) (hj : j < n1)
    (ha : Addressable [(n0, s0), (n1, s1)]) :
    view2 s0 s1 (lit t i) (lit t j) = some [("mem", s0 * i + s1 * j)] := by
  have e0 := ha.2 _ (element2 n0 n1 s0 s1 i 0 hi (by omega))
  have e1 := ha.2 _ (element2 n0 n1 s0 s1 0 j (by omega) hj)
  simp only [Int.natCast_zero, Int.mul_zero, Int.add_zero, Int.zero_add] at e0 e1
  exact view2_lit t s0 s1 i j (by omega) (by omega) (ha.1 (n0, s0) (by simp))
    (ha.1 (n1, s1) (by simp)) e0 e1 (ha.2 _ (element2 n0 n1 s0 s1 i j hi hj))

theorem view3_ok (t : Ty) (n0 n1 n2 : Nat) (s0 s1 s2 : Int) (i j k : Nat)
    (hn0 : n0 ≤ 4294967296) (hn1 : n1 ≤ 4294967296) (hn2 : n2 ≤ 4294967296) (hi : i < n0)
    (hj : j < n1) (hk : k < n2) (ha : Addressable [(n0, s0), (n1, s1), (n2, s2)]) :
    view3 s0 s1 s2 (lit t i) (lit t j) (lit t k) =
      some [("mem", s0 * i + s1 * j + s2 * k)] := by
  have e0 := ha.2 _ (element3 n0 n1 n2 s0 s1 s2 i 0 0 hi (by omega) (by omega))
  have e1 := ha.2 _ (element3 n0 n1 n2 s0 s1 s2 0 j 0 (by omega) hj (by omega))
  have e2 := ha.2 _ (element3 n0 n1 n2 s0 s1 s2 0 0 k (by omega) (by omega) hk)
  have e01 := ha.2 _ (element3 n0 n1 n2 s0 s1 s2 i j 0 hi hj (by omega))
  simp only [Int.natCast_zero, Int.mul_zero, Int.add_zero, Int.zero_add] at e0 e1 e2 e01
  exact view3_lit t s0 s1 s2 i j k (by omega) (by omega) (by omega) (ha.1 (n0, s0) (by simp))
    (ha.1 (n1, s1) (by simp)) (ha.1 (n2, s2) (by simp)) e0 e1 e2 e01
    (ha.2 _ (element3 n0 n1 n2 s0 s1 s2 i j k hi hj hk))

/-- What the memory holds after filling: the positions that were accessed have the
value. -/
theorem effect_fill {α : Type} (v : α) (t : List Acc) (mem : Int → α) (p : Int) [Decidable (∃ a ∈ t, a.2 = p)] :
    effect (fun _ => v) t mem p = if ∃ a ∈ t, a.2 = p then v else mem p := by
  have key : ∀ (t : List Acc) (mem : Int → α), ((∃ a ∈ t, a.2 = p) →
      effect (fun _ => v) t mem p = v) ∧
      ((¬ ∃ a ∈ t, a.2 = p) → effect (fun _ => v) t mem p = mem p) := by
    intro t
    induction t with
    | nil => intro mem; exact ⟨fun h => by simp at h, fun _ => rfl⟩
    | cons a t ih =>
      intro mem
      have e : effect (fun _ => v) (a :: t) mem p =
        effect (fun _ => v) t (fun p => if p = a.2 then v else mem p) p := rfl
      rw [e]
      obtain ⟨h1, h2⟩ := ih (fun p => if p = a.2 then v else mem p)
      by_cases ht : ∃ a ∈ t, a.2 = p
      · exact ⟨fun _ => h1 ht, fun h => absurd (ht.imp fun x hx => ⟨List.mem_cons_of_mem _ hx.1, hx.2⟩) h⟩
      · rw [h2 ht]
        by_cases hp : p = a.2
        · exact ⟨fun _ => if_pos hp, fun h => absurd ⟨a, by simp, hp.symm⟩ h⟩
        · refine ⟨fun h => ?_, fun _ => if_neg hp⟩
          obtain ⟨x, hx, hxp⟩ := h
          rcases List.mem_cons.1 hx with rfl | hx
          · exact absurd hxp.symm hp
          · exact absurd ⟨x, hx, hxp⟩ ht
  split
  · next h => exact (key t mem).1 h
  · next h => exact (key t mem).2 h

/-- Accessing the first `n` positions once each. -/
theorem effect_range {α : Type} (f : α → α) (a : String) (n : Nat) (mem : Int → α) (p : Int) :
    effect f ((List.range n).flatMap fun (i : Nat) => [(a, (i : Int))]) mem p =
      if 0 ≤ p ∧ p < n then f (mem p) else mem p := by
  induction n with
  | zero => rw [if_neg (by omega)]; rfl
  | succ n ih =>
    rw [List.range_succ, List.flatMap_append]
    unfold effect at ih ⊢
    rw [List.foldl_append]
    simp only [List.flatMap_cons, List.flatMap_nil, List.append_nil, List.foldl_cons,
      List.foldl_nil]
    by_cases h : p = (n : Int)
    · rw [if_pos h, ih, if_neg (by omega), if_pos (by omega)]
    · rw [if_neg h, ih]
      by_cases h' : 0 ≤ p ∧ p < (n : Int)
      · rw [if_pos h', if_pos (by omega)]
      · rw [if_neg h', if_neg (by omega)]

/-- A trace that accesses exactly the elements. -/
def Covers (dims : List (Nat × Int)) (t : List Acc) : Prop :=
  ∀ p, (∃ a ∈ t, a.2 = p) ↔ IsElement dims p

theorem covers1 (n0 : Nat) (s0 : Int) :
    Covers [(n0, s0)] (each n0 fun i => [("mem", s0 * i)]) := by
  intro p
  constructor
  · rintro ⟨a, ha, rfl⟩
    obtain ⟨i, hi, ha⟩ := List.mem_flatMap.1 ha
    obtain rfl := List.mem_singleton.1 ha
    exact element1 n0 s0 i (List.mem_range.1 hi)
  · rintro ⟨i, q, hi, rfl, rfl⟩
    exact ⟨("mem", s0 * i), List.mem_flatMap.2 ⟨i, List.mem_range.2 hi, by simp⟩,
      by show s0 * (i : Int) = _; omega⟩

theorem covers2 (n0 n1 : Nat) (s0 s1 : Int) :
    Covers [(n0, s0), (n1, s1)]
      (each n0 fun i => each n1 fun j => [("mem", s0 * i + s1 * j)]) := by
  intro p
  constructor
  · rintro ⟨a, ha, rfl⟩
    obtain ⟨i, hi, ha⟩ := List.mem_flatMap.1 ha
    obtain ⟨j, hj, ha⟩ := List.mem_flatMap.1 ha
    obtain rfl := List.mem_singleton.1 ha
    exact element2 n0 n1 s0 s1 i j (List.mem_range.1 hi) (List.mem_range.1 hj)
  · rintro ⟨i, _, hi, ⟨j, q, hj, rfl, rfl⟩, rfl⟩
    exact ⟨("mem", s0 * i + s1 * j), List.mem_flatMap.2 ⟨i, List.mem_range.2 hi,
      List.mem_flatMap.2 ⟨j, List.mem_range.2 hj, by simp⟩⟩,
      by show s0 * (i : Int) + s1 * (j : Int) = _; omega⟩

theorem covers3 (n0 n1 n2 : Nat) (s0 s1 s2 : Int) :
    Covers [(n0, s0), (n1, s1), (n2, s2)]
      (each n0 fun i => each n1 fun j => each n2 fun k =>
        [("mem", s0 * i + s1 * j + s2 * k)]) := by
  intro p
  constructor
  · rintro ⟨a, ha, rfl⟩
    obtain ⟨i, hi, ha⟩ := List.mem_flatMap.1 ha
    obtain ⟨j, hj, ha⟩ := List.mem_flatMap.1 ha
    obtain ⟨k, hk, ha⟩ := List.mem_flatMap.1 ha
    obtain rfl := List.mem_singleton.1 ha
    exact element3 n0 n1 n2 s0 s1 s2 i j k (List.mem_range.1 hi) (List.mem_range.1 hj)
      (List.mem_range.1 hk)
  · rintro ⟨i, _, hi, ⟨j, _, hj, ⟨k, q, hk, rfl, rfl⟩, rfl⟩, rfl⟩
    exact ⟨("mem", s0 * i + s1 * j + s2 * k), List.mem_flatMap.2 ⟨i, List.mem_range.2 hi,
      List.mem_flatMap.2 ⟨j, List.mem_range.2 hj,
        List.mem_flatMap.2 ⟨k, List.mem_range.2 hk, by simp⟩⟩⟩,
      by show s0 * (i : Int) + s1 * (j : Int) + s2 * (k : Int) = _; omega⟩

/-- The order of the loops does not matter for the positions. -/
theorem covers2' (n0 n1 : Nat) (s0 s1 : Int) :
    Covers [(n0, s0), (n1, s1)]
      (each 1 fun _ => each n1 fun j => each n0 fun i => [("mem", s0 * i + s1 * j)]) := by
  intro p
  rw [← covers2 n0 n1 s0 s1 p]
  simp only [each, List.mem_flatMap, List.mem_range, List.mem_singleton]
  constructor
  · rintro ⟨a, ⟨_, _, j, hj, i, hi, h⟩, e⟩
    exact ⟨a, ⟨i, hi, j, hj, h⟩, e⟩
  · rintro ⟨a, ⟨i, hi, j, hj, h⟩, e⟩
    exact ⟨a, ⟨0, Nat.one_pos, j, hj, i, hi, h⟩, e⟩

theorem covers3' (n0 n1 n2 : Nat) (s0 s1 s2 : Int) :
    Covers [(n0, s0), (n1, s1), (n2, s2)]
      (each n2 fun k => each n1 fun j => each n0 fun i =>
        [("mem", s0 * i + s1 * j + s2 * k)]) := by
  intro p
  rw [← covers3 n0 n1 n2 s0 s1 s2 p]
  simp only [each, List.mem_flatMap, List.mem_range, List.mem_singleton]
  constructor
  · rintro ⟨a, ⟨k, hk, j, hj, i, hi, h⟩, e⟩
    exact ⟨a, ⟨i, hi, j, hj, k, hk, h⟩, e⟩
  · rintro ⟨a, ⟨i, hi, j, hj, k, hk, h⟩, e⟩
    exact ⟨a, ⟨k, hk, j, hj, i, hi, h⟩, e⟩

theorem effect_covers {α : Type} {dims : List (Nat × Int)} {t : List Acc} (h : Covers dims t)
    (v : α) (mem : Int → α) (p : Int) [Decidable (IsElement dims p)] :
    effect (fun _ => v) t mem p = if IsElement dims p then v else mem p := by
  classical
  rw [effect_fill]
  by_cases hp : IsElement dims p
  · rw [if_pos hp, if_pos ((h p).2 hp)]
  · rw [if_neg hp, if_neg (fun h' => hp ((h p).1 h'))]

theorem fill1_lit (n0 : Nat) (s0 : Int) (h0 : n0 ≤ 2147483647) (ha : Addressable [(n0, s0)]) :
    fill1 n0 s0 = some (each n0 fun i => [("mem", s0 * i)]) := by
  unfold fill1 longDim
  rw [as_lit .i32 .i64 n0 (by simp only [Ty.hi]; omega)]
  exact loop_lit .i32 .i32 n0 _ _ (by simp only [Ty.hi]; omega) fun i hi =>
    view1_ok .i32 n0 s0 i (by omega) hi ha

theorem fill2_lit (n0 n1 : Nat) (s0 s1 : Int) (h0 : n0 ≤ 2147483647) (h1 : n1 ≤ 2147483647)
    (ha : Addressable [(n0, s0), (n1, s1)]) :
    fill2 n0 n1 s0 s1 =
      some (each n0 fun i => each n1 fun j => [("mem", s0 * i + s1 * j)]) := by
  unfold fill2 longDim
  rw [as_lit .i32 .i64 n0 (by simp only [Ty.hi]; omega),
    as_lit .i32 .i64 n1 (by simp only [Ty.hi]; omega)]
  exact loop_lit .i32 .i32 n0 _ _ (by simp only [Ty.hi]; omega) fun i hi =>
    loop_lit .i32 .i32 n1 _ _ (by simp only [Ty.hi]; omega) fun j hj =>
      view2_ok .i32 n0 n1 s0 s1 i j (by omega) (by omega) hi hj ha

theorem fill3_lit (n0 n1 n2 : Nat) (s0 s1 s2 : Int) (h0 : n0 ≤ 2147483647)
    (h1 : n1 ≤ 2147483647) (h2 : n2 ≤ 2147483647)
    (ha : Addressable [(n0, s0), (n1, s1), (n2, s2)]) :
    fill3 n0 n1 n2 s0 s1 s2 = some (each n0 fun i => each n1 fun j => each n2 fun k =>
      [("mem", s0 * i + s1 * j + s2 * k)]) := by
  unfold fill3 longDim
  rw [as_lit .i32 .i64 n0 (by simp only [Ty.hi]; omega),
    as_lit .i32 .i64 n1 (by simp only [Ty.hi]; omega),
    as_lit .i32 .i64 n2 (by simp only [Ty.hi]; omega)]
  exact loop_lit .i32 .i32 n0 _ _ (by simp only [Ty.hi]; omega) fun i hi =>
    loop_lit .i32 .i32 n1 _ _ (by simp only [Ty.hi]; omega) fun j hj =>
      loop_lit .i32 .i32 n2 _ _ (by simp only [Ty.hi]; omega) fun k hk =>
        view3_ok .i32 n0 n1 n2 s0 s1 s2 i j k (by omega) (by omega) (by omega) hi hj hk ha

/-- A launch over one dimension with an index below 2^32. -/
theorem launch1_lit (n T : Nat) (hT : 0 < T) (hn : n < 4294967296) (body : Num → Trace)
    (f : Nat → List Acc)
    (h : ∀ x, x < (n + T - 1) / T * T →
      body (threadIndex x) = some (if x < n then f x else [])) :
    launch1 n T body = .refused ∨ launch1 n T body = .ran (some (each n f)) := by
  unfold launch1
  rw [gridDim_eq n T hT hn]
  split
  · exact Or.inl rfl
  · refine Or.inr (congrArg Launched.ran ?_)
    rw [iters_some _ _ _ h, flatMap_guard f n _ (le_grid n T hT)]
    rfl

theorem grid_lt (n T : Nat) (hT : T = 256 ∨ T = 16 ∨ T = 8 ∨ T = 4 ∨ T = 1)
    (hn : n < 4294967296) :
    (n + T - 1) / T * T ≤ 4294967296 := by
  rcases hT with rfl | rfl | rfl | rfl | rfl <;> omega

/-- The bounds check of one dimension. -/
theorem guard64 (x n : Nat) (hx : x < 4294967296) (hn : n ≤ 9223372036854775807)
    (body : Trace) (f : List Acc) (h : x < n → body = some f) :
    whenLt (lit .i64 x) (longDim n) body = some (if x < n then f else []) := by
  unfold longDim
  rw [whenLt_lit .i64 .i64 x n _ (by simp only [Ty.join, Ty.hi]; omega)
    (by simp only [Ty.join, Ty.hi]; omega)]
  by_cases hh : x < n
  · rw [if_pos hh, if_pos hh, h hh]
  · rw [if_neg hh, if_neg hh]; rfl

theorem fillGpu1_lit (n0 : Nat) (s0 : Int) (h0 : n0 < 4294967296)
    (ha : Addressable [(n0, s0)]) :
    fillGpu1 n0 s0 = .refused ∨
      fillGpu1 n0 s0 = .ran (some (each n0 fun i => [("mem", s0 * i)])) := by
  unfold fillGpu1
  refine launch1_lit n0 256 (by omega) h0 _ _ fun x hx => ?_
  have gx := grid_lt n0 256 (by omega) h0
  dsimp only
  rw [thread_i64 x (by omega)]
  exact guard64 x n0 (by omega) (by omega) _ _ fun h => view1_ok .i64 n0 s0 x (by omega) h ha

theorem fillGpu2_lit (n0 n1 : Nat) (s0 s1 : Int) (h0 : n0 < 4294967296) (h1 : n1 < 4294967296)
    (ha : Addressable [(n0, s0), (n1, s1)]) :
    fillGpu2 n0 n1 s0 s1 = .refused ∨
      fillGpu2 n0 n1 s0 s1 = .ran (some (each 1 fun _ => each n1 fun j => each n0 fun i =>
        [("mem", s0 * i + s1 * j)])) := by
  unfold fillGpu2
  refine launch3_lit n0 n1 1 16 16 1 (by omega) (by omega) (by omega) h0 h1 (by omega) _
    (fun _ j i => [("mem", s0 * i + s1 * j)]) fun x y z hx hy hz => ?_
  have gx := grid_lt n0 16 (by omega) h0
  have gy := grid_lt n1 16 (by omega) h1
  have hz' : z < 1 := by omega
  dsimp only
  rw [thread_i64 x (by omega), thread_i64 y (by omega)]
  rw [guard64 x n0 (by omega) (by omega) _
    (if y < n1 then [("mem", s0 * x + s1 * y)] else []) (fun hxn =>
      guard64 y n1 (by omega) (by omega) _ _ fun hyn =>
        view2_ok .i64 n0 n1 s0 s1 x y (by omega) (by omega) hxn hyn ha)]
  simp only [if_pos hz']

theorem fillGpu3_lit (n0 n1 n2 : Nat) (s0 s1 s2 : Int) (h0 : n0 < 4294967296)
    (h1 : n1 < 4294967296) (h2 : n2 < 4294967296)
    (ha : Addressable [(n0, s0), (n1, s1), (n2, s2)]) :
    fillGpu3 n0 n1 n2 s0 s1 s2 = .refused ∨
      fillGpu3 n0 n1 n2 s0 s1 s2 = .ran (some (each n2 fun k => each n1 fun j => each n0 fun i =>
        [("mem", s0 * i + s1 * j + s2 * k)])) := by
  unfold fillGpu3
  refine launch3_lit n0 n1 n2 16 8 4 (by omega) (by omega) (by omega) h0 h1 h2 _
    (fun k j i => [("mem", s0 * i + s1 * j + s2 * k)]) fun x y z hx hy hz => ?_
  have gx := grid_lt n0 16 (by omega) h0
  have gy := grid_lt n1 8 (by omega) h1
  have gz := grid_lt n2 4 (by omega) h2
  dsimp only
  rw [thread_i64 x (by omega), thread_i64 y (by omega), thread_i64 z (by omega)]
  exact guard64 x n0 (by omega) (by omega) _ _ fun hxn =>
      guard64 y n1 (by omega) (by omega) _ _ fun hyn =>
        guard64 z n2 (by omega) (by omega) _ _ fun hzn =>
          view3_ok .i64 n0 n1 n2 s0 s1 s2 x y z (by omega) (by omega) (by omega) hxn hyn hzn ha

theorem fillType_eq (e : Elem) (h : e ≠ .char) : fillType e = some e := by
  cases e <;> first | rfl | exact absurd rfl h

open Classical in
/-- C121: filling an array in main memory whose dimensions are at most 2^31-1
gives every element the value and changes nothing else; it fails exactly if the
array is read-only, has characters as elements, or not one to three
dimensions. -/
theorem C121_fill_cpu_partial (b : Target) (hg : b.gpu = false)
    (hs : ∀ d ∈ b.dims, d.1 ≤ 2147483647) (ha : Addressable b.dims) :
    (¬ Fillable b ∧ setValueWidth b = .error) ∨
    (Fillable b ∧ ∃ t, setValueWidth b = .done b.elem (some t) ∧
      ∀ (α : Type) (v : α) (mem : Int → α) (p : Int),
        effect (fun _ => v) t mem p = if IsElement b.dims p then v else mem p) := by
  obtain ⟨gpu, e, ro, cc, dims⟩ := b
  simp only [Fillable, setValueWidth] at *
  subst hg
  by_cases he : e = .char
  · subst he
    left
    refine ⟨fun h => h.2.1 rfl, ?_⟩
    split <;> rfl
  by_cases hr : ro = true
  · subst hr
    left
    refine ⟨fun h => (by cases h.1), ?_⟩
    simp only [fillType_eq e he, if_true]
    split <;> rfl
  have hr' : ro = false := by cases ro <;> simp_all
  subst hr'
  simp only [fillType_eq e he, Bool.false_eq_true, if_false]
  match dims, hs, ha with
  | [], _, _ => exact Or.inl ⟨fun h => by have := h.2.2.1; simp at this, rfl⟩
  | [(n0, s0)], hs, ha =>
    refine Or.inr ⟨⟨trivial, he, by simp, by simp⟩, _,
      congrArg (Filled.done e) (fill1_lit n0 s0 (hs (n0, s0) (by simp)) ha), ?_⟩
    exact fun α v mem p => effect_covers (covers1 n0 s0) v mem p
  | [(n0, s0), (n1, s1)], hs, ha =>
    refine Or.inr ⟨⟨trivial, he, by simp, by simp⟩, _,
      congrArg (Filled.done e) (fill2_lit n0 n1 s0 s1 (hs (n0, s0) (by simp))
        (hs (n1, s1) (by simp)) ha), ?_⟩
    exact fun α v mem p => effect_covers (covers2 n0 n1 s0 s1) v mem p
  | [(n0, s0), (n1, s1), (n2, s2)], hs, ha =>
    refine Or.inr ⟨⟨trivial, he, by simp, by simp⟩, _,
      congrArg (Filled.done e) (fill3_lit n0 n1 n2 s0 s1 s2 (hs (n0, s0) (by simp))
        (hs (n1, s1) (by simp)) (hs (n2, s2) (by simp)) ha), ?_⟩
    exact fun α v mem p => effect_covers (covers3 n0 n1 n2 s0 s1 s2) v mem p
  | _ :: _ :: _ :: _ :: _, _, _ =>
    exact Or.inl ⟨fun h => by have := h.2.2.2; simp only [List.length_cons] at this; omega, rfl⟩

open Classical in
/-- C121: filling an array on the GPU whose dimensions are below 2^32 gives every
element the value and changes nothing else, or fails. -/
theorem C121_fill_gpu_partial (b : Target) (hg : b.gpu = true)
    (hs : ∀ d ∈ b.dims, d.1 < 4294967296) (ha : Addressable b.dims) :
    setValueWidth b = .error ∨
    (Fillable b ∧ ∃ t, setValueWidth b = .done b.elem (some t) ∧
      ∀ (α : Type) (v : α) (mem : Int → α) (p : Int),
        effect (fun _ => v) t mem p = if IsElement b.dims p then v else mem p) := by
  obtain ⟨gpu, e, ro, cc, dims⟩ := b
  simp only [Fillable, setValueWidth] at *
  subst hg
  by_cases he : e = .char
  · subst he
    left
    split <;> rfl
  by_cases hr : ro = true
  · subst hr
    left
    simp only [fillType_eq e he, if_true]
    split <;> rfl
  have hr' : ro = false := by cases ro <;> simp_all
  subst hr'
  simp only [fillType_eq e he, Bool.false_eq_true, if_false, if_true]
  match dims, hs, ha with
  | [], _, _ => exact Or.inl rfl
  | [(n0, s0)], hs, ha =>
    rcases fillGpu1_lit n0 s0 (hs (n0, s0) (by simp)) ha with h | h
    · exact Or.inl (congrArg (Launched.filled e) h)
    · refine Or.inr ⟨⟨trivial, he, by simp, by simp⟩, _, congrArg (Launched.filled e) h, ?_⟩
      exact fun α v mem p => effect_covers (covers1 n0 s0) v mem p
  | [(n0, s0), (n1, s1)], hs, ha =>
    rcases fillGpu2_lit n0 n1 s0 s1 (hs (n0, s0) (by simp)) (hs (n1, s1) (by simp)) ha with h | h
    · exact Or.inl (congrArg (Launched.filled e) h)
    · refine Or.inr ⟨⟨trivial, he, by simp, by simp⟩, _, congrArg (Launched.filled e) h, ?_⟩
      exact fun α v mem p => effect_covers (covers2' n0 n1 s0 s1) v mem p
  | [(n0, s0), (n1, s1), (n2, s2)], hs, ha =>
    rcases fillGpu3_lit n0 n1 n2 s0 s1 s2 (hs (n0, s0) (by simp)) (hs (n1, s1) (by simp))
      (hs (n2, s2) (by simp)) ha with h | h
    · exact Or.inl (congrArg (Launched.filled e) h)
    · refine Or.inr ⟨⟨trivial, he, by simp, by simp⟩, _, congrArg (Launched.filled e) h, ?_⟩
      exact fun α v mem p => effect_covers (covers3' n0 n1 n2 s0 s1 s2) v mem p
  | _ :: _ :: _ :: _ :: _, _, _ => exact Or.inl rfl

/-- A launch over one dimension of at most 2^31-1 blocks is not refused. -/
theorem launch1_runs (n T : Nat) (body : Num → Trace) (hT : 0 < T) (hn : 0 < n)
    (hn' : n < 4294967296) (h2 : n ≤ 2147483647 * T) : launch1 n T body ≠ .refused := by
  unfold launch1
  rw [gridDim_eq n T hT hn']
  have a1 : 0 < (n + T - 1) / T := Nat.div_pos (by omega) hT
  have a2 : (n + T - 1) / T ≤ 2147483647 := by
    refine Nat.lt_succ_iff.1 ((Nat.div_lt_iff_lt_mul hT).2 ?_)
    rw [Nat.succ_mul]
    omega
  rw [if_neg (by omega)]
  intro h
  cases h

theorem filled_ne (e : Elem) (l : Launched) (h : l ≠ .refused) : l.filled e ≠ .error := by
  cases l
  · exact absurd rfl h
  · intro h'; cases h'

/-- C121: a fillable array on the GPU without an empty dimension, of at most 2^31-1
rows, 524280 columns and 262140 layers, is filled rather than refused. -/
theorem C121_fill_gpu_runs (b : Target) (hf : Fillable b)
    (h0 : ∀ d ∈ b.dims, 0 < d.1) (h1 : ∀ d ∈ b.dims[0]?, d.1 ≤ 2147483647)
    (h2 : ∀ d ∈ b.dims[1]?, d.1 ≤ 524280) (h3 : ∀ d ∈ b.dims[2]?, d.1 ≤ 262140) :
    setValueWidth b ≠ .error := by
  obtain ⟨gpu, e, ro, cc, dims⟩ := b
  obtain ⟨hr, he, hl1, hl2⟩ := hf
  simp only [setValueWidth] at *
  subst hr
  simp only [fillType_eq e he, Bool.false_eq_true, if_false]
  match dims, h0, h1, h2, h3, hl1, hl2 with
  | [], _, _, _, _, hl, _ => simp at hl
  | [(n0, s0)], h0, h1, _, _, _, _ =>
    have a := h0 (n0, s0) (by simp)
    have b := h1 (n0, s0) (by simp)
    dsimp only at a b ⊢
    cases gpu
    · intro h; cases h
    · simp only [if_true]
      refine filled_ne _ _ ?_
      unfold fillGpu1
      exact launch1_runs _ _ _ (by omega) a (by omega) (by omega)
  | [(n0, s0), (n1, s1)], h0, h1, h2, _, _, _ =>
    have a := h0 (n0, s0) (by simp)
    have a' := h0 (n1, s1) (by simp)
    have b := h1 (n0, s0) (by simp)
    have c := h2 (n1, s1) (by simp)
    dsimp only at a a' b c ⊢
    cases gpu
    · intro h; cases h
    · simp only [if_true]
      refine filled_ne _ _ ?_
      unfold fillGpu2
      apply launch3_runs <;> omega
  | [(n0, s0), (n1, s1), (n2, s2)], h0, h1, h2, h3, _, _ =>
    have a := h0 (n0, s0) (by simp)
    have a' := h0 (n1, s1) (by simp)
    have a'' := h0 (n2, s2) (by simp)
    have b := h1 (n0, s0) (by simp)
    have c := h2 (n1, s1) (by simp)
    have d := h3 (n2, s2) (by simp)
    dsimp only at a a' a'' b c d ⊢
    cases gpu
    · intro h; cases h
    · simp only [if_true]
      refine filled_ne _ _ ?_
      unfold fillGpu3
      apply launch3_runs <;> omega
  | _ :: _ :: _ :: _ :: _, _, _, _, _, _, hl => simp only [List.length_cons] at hl; omega

/-- In an array without gaps the elements are the positions from 0 on. -/
theorem element_noGaps (dims : List (Nat × Int)) (h : NoGaps dims) (p : Int) :
    IsElement dims p ↔ 0 ≤ p ∧ p < count dims := by
  induction dims generalizing p with
  | nil => simp only [IsElement, count]; omega
  | cons d rest ih =>
    obtain ⟨n, s⟩ := d
    obtain ⟨hs, hr⟩ := h
    dsimp only at hs
    subst hs
    simp only [IsElement, count]
    constructor
    · rintro ⟨i, q, hi, hq, rfl⟩
      obtain ⟨q0, q1⟩ := (ih hr q).1 hq
      obtain ⟨q, rfl⟩ := Int.eq_ofNat_of_zero_le q0
      have := step_lt n (count rest) i q hi (by omega)
      rw [Nat.mul_comm i] at this
      rw [← Int.natCast_mul]
      omega
    · rintro ⟨p0, p1⟩
      obtain ⟨p, rfl⟩ := Int.eq_ofNat_of_zero_le p0
      have hp : p < n * count rest := by omega
      have hc : 0 < count rest := by
        rcases Nat.eq_zero_or_pos (count rest) with h0 | h0
        · rw [h0] at hp; omega
        · exact h0
      refine ⟨p / count rest, ((p % count rest : Nat) : Int),
        (Nat.div_lt_iff_lt_mul hc).2 hp, ?_, ?_⟩
      · exact (ih hr _).2 ⟨by omega, by have := Nat.mod_lt p hc; omega⟩
      · have := Nat.div_add_mod p (count rest)
        rw [← Int.natCast_mul]
        show (p : Int) = _
        omega

theorem elements_count (b : Target) : elements b = count b.dims := by
  have key : ∀ (l : List (Nat × Int)) (a : Nat),
      l.foldl (fun a d => a * d.1) a = a * count l := by
    intro l
    induction l with
    | nil => intro a; simp [count]
    | cons d l ih => intro a; rw [List.foldl_cons, ih, count, Nat.mul_assoc]
  unfold elements
  rw [key, Nat.one_mul]

theorem scaleType_some (e : Elem) : (e ≠ .char ∧ e ≠ .int ∧ scaleType e = some e) ∨
    ((e = .char ∨ e = .int) ∧ scaleType e = none) := by
  cases e <;> simp [scaleType]

theorem scaleCpu_lit (n : Nat) (h : n ≤ 9223372036854775807) :
    scaleCpu n = some ((List.range n).flatMap fun (i : Nat) => [("mem", (i : Int))]) := by
  unfold scaleCpu longDim
  exact loop_lit .i64 .i64 n _ _ (by simp only [Ty.hi]; omega) fun i _ => rfl

theorem scaleGpu_lit (n : Nat) (h : n < 4294967296) :
    scaleGpu n = .refused ∨
    scaleGpu n = .ran (some ((List.range n).flatMap fun (i : Nat) => [("mem", (i : Int))])) := by
  unfold scaleGpu
  refine launch1_lit n 256 (by omega) h _ _ fun x hx => ?_
  have gx := grid_lt n 256 (by omega) h
  dsimp only
  rw [thread_i64 x (by omega)]
  exact guard64 x n (by omega) (by omega) _ _ fun _ => rfl

open Classical in
theorem effect_scale {α : Type} (dims : List (Nat × Int)) (hd : NoGaps dims) (f : α → α)
    (mem : Int → α) (p : Int) :
    effect f ((List.range (count dims)).flatMap fun (i : Nat) => [("mem", (i : Int))]) mem p =
      if IsElement dims p then f (mem p) else mem p := by
  rw [effect_range]
  by_cases h : IsElement dims p
  · rw [if_pos h, if_pos ((element_noGaps dims hd p).1 h)]
  · rw [if_neg h, if_neg (fun h' => h ((element_noGaps dims hd p).2 h'))]

open Classical in
/-- C121: scaling an array in main memory, of any size an `int64_t` can count,
multiplies every element once and changes nothing else; it fails exactly if the
array has gaps or holds characters or integers. -/
theorem C121_scale_cpu (b : Target) (hg : b.gpu = false)
    (hd : b.contiguous = true → NoGaps b.dims) (hn : count b.dims ≤ 9223372036854775807) :
    (¬ Scalable b ∧ scaleRealWidth b = .error) ∨
    (Scalable b ∧ ∃ t, scaleRealWidth b = .done b.elem (some t) ∧
      ∀ (α : Type) (f : α → α) (mem : Int → α) (p : Int),
        effect f t mem p = if IsElement b.dims p then f (mem p) else mem p) := by
  unfold Scalable scaleRealWidth
  rw [hg, elements_count, scaleCpu_lit _ hn]
  cases hc : b.contiguous with
  | false => exact Or.inl ⟨fun h => (by cases h.1), rfl⟩
  | true =>
    rcases scaleType_some b.elem with ⟨h1, h2, h3⟩ | ⟨h1, h3⟩
    · rw [h3]
      exact Or.inr ⟨⟨rfl, h1, h2⟩, _, rfl, fun α f mem p => effect_scale b.dims (hd hc) f mem p⟩
    · rw [h3]
      exact Or.inl ⟨fun h => h1.elim h.2.1 h.2.2, rfl⟩

open Classical in
/-- C121: scaling an array on the GPU of fewer than 2^32 elements multiplies every
element once and changes nothing else, or fails. -/
theorem C121_scale_gpu_partial (b : Target) (hg : b.gpu = true)
    (hd : b.contiguous = true → NoGaps b.dims) (hn : count b.dims < 4294967296) :
    scaleRealWidth b = .error ∨
    (Scalable b ∧ ∃ t, scaleRealWidth b = .done b.elem (some t) ∧
      ∀ (α : Type) (f : α → α) (mem : Int → α) (p : Int),
        effect f t mem p = if IsElement b.dims p then f (mem p) else mem p) := by
  unfold Scalable scaleRealWidth
  rw [hg, elements_count]
  cases hc : b.contiguous with
  | false => exact Or.inl rfl
  | true =>
    rcases scaleType_some b.elem with ⟨h1, h2, h3⟩ | ⟨h1, h3⟩
    · rw [h3]
      rcases scaleGpu_lit (count b.dims) hn with h | h
      · exact Or.inl (congrArg (Launched.filled b.elem) h)
      · exact Or.inr ⟨⟨rfl, h1, h2⟩, _, congrArg (Launched.filled b.elem) h,
          fun α f mem p => effect_scale b.dims (hd hc) f mem p⟩
    · rw [h3]
      exact Or.inl rfl

/-- C121: and it does not fail if there is at least one element, on either side. -/
theorem C121_scale_gpu_runs (b : Target) (hs : Scalable b) (h0 : 0 < count b.dims)
    (hn : count b.dims < 4294967296) : scaleRealWidth b ≠ .error := by
  obtain ⟨hc, h1, h2⟩ := hs
  unfold scaleRealWidth
  rw [hc, elements_count]
  rcases scaleType_some b.elem with ⟨_, _, h3⟩ | ⟨h3, _⟩
  · rw [h3]
    dsimp only
    cases b.gpu
    · intro h; cases h
    · simp only [if_true, Bool.true_eq_false, if_false]
      refine filled_ne _ _ ?_
      unfold scaleGpu
      exact launch1_runs _ _ _ (by omega) h0 hn (by omega)
  · exact absurd h3 (fun h => h.elim h1 h2)

/-- C121: random filling of an array without gaps in main memory with `float` or
`double` elements, real or complex: each of its real numbers is set once. -/
theorem C121_random_partial (b : Target) (hg : b.gpu = false) (he : b.elem ≠ .char)
    (he' : b.elem ≠ .int) (hd : NoGaps b.dims)
    (hn : count b.dims * 2 ≤ 9223372036854775807) :
    ∃ t, randomFill b = .done (realType b.elem) (some t) ∧
      (∀ p, (∃ a ∈ t, a.2 = p) ↔
        ∃ q r, IsElement b.dims q ∧ r < reals b.elem ∧ p = q * reals b.elem + (r : Nat)) ∧
      t.Nodup := by
  have key : ∀ m : Nat, (m = 1 ∨ m = 2) →
      (∀ p, (∃ a ∈ (List.range (count b.dims * m)).flatMap fun (i : Nat) => [("mem", (i : Int))],
        a.2 = p) ↔ ∃ q r, IsElement b.dims q ∧ r < m ∧ p = q * m + (r : Nat)) ∧
      ((List.range (count b.dims * m)).flatMap fun (i : Nat) => [("mem", (i : Int))]).Nodup := by
    intro m hm
    constructor
    · intro p
      simp only [List.mem_flatMap, List.mem_range, List.mem_singleton]
      constructor
      · rintro ⟨a, ⟨i, hi, rfl⟩, rfl⟩
        refine ⟨((i / m : Nat) : Int), i % m, (element_noGaps _ hd _).2 ⟨?_, ?_⟩, ?_, ?_⟩
        · exact Int.natCast_nonneg _
        · rcases hm with rfl | rfl <;> omega
        · rcases hm with rfl | rfl <;> omega
        · rcases hm with rfl | rfl <;> omega
      · rintro ⟨q, r, hq, hr, rfl⟩
        obtain ⟨q0, q1⟩ := (element_noGaps _ hd _).1 hq
        obtain ⟨q, rfl⟩ := Int.eq_ofNat_of_zero_le q0
        refine ⟨_, ⟨q * m + r, ?_, rfl⟩, ?_⟩
        · rcases hm with rfl | rfl <;> omega
        · rcases hm with rfl | rfl <;> simp
    · have e : ((List.range (count b.dims * m)).flatMap fun (i : Nat) => [("mem", (i : Int))]) =
        (List.range (count b.dims * m)).map fun (i : Nat) => (("mem", (i : Int)) : Acc) := by
        induction List.range (count b.dims * m) with
        | nil => rfl
        | cons x l ih => rw [List.flatMap_cons, ih]; rfl
      rw [e]
      refine List.Nodup.map (fun i j h => ?_) List.nodup_range
      exact Int.ofNat.inj (Prod.mk.inj h).2
  have l1 : loop .i64 (longDim (count b.dims)) (fun i => touch "mem" i) =
      some ((List.range (count b.dims * 1)).flatMap fun (i : Nat) => [("mem", (i : Int))]) := by
    rw [Nat.mul_one]
    exact scaleCpu_lit _ (by omega)
  have l2 : loop .i64 (longDim (count b.dims) * num 2) (fun i => touch "mem" i) =
      some ((List.range (count b.dims * 2)).flatMap fun (i : Nat) => [("mem", (i : Int))]) := by
    have e : longDim (count b.dims) * num 2 = longDim (count b.dims * 2) := by
      unfold longDim num
      rw [show (2 : Int) = ((2 : Nat) : Int) from rfl,
        mul_lit .i64 .i32 (count b.dims) 2 (by simp only [Ty.join, Ty.hi]; omega)
        (by simp only [Ty.join, Ty.hi]; omega) (by simp only [Ty.join, Ty.hi]; omega)]
      rfl
    rw [e]
    exact scaleCpu_lit _ (by omega)
  unfold randomFill
  rw [hg, elements_count]
  simp only [Bool.false_eq_true, if_false]
  cases he2 : b.elem with
  | char => exact absurd he2 he
  | int => exact absurd he2 he'
  | float => exact ⟨_, congrArg (Filled.done .float) l1, (key 1 (Or.inl rfl))⟩
  | double => exact ⟨_, congrArg (Filled.done .double) l1, (key 1 (Or.inl rfl))⟩
  | complexFloat => exact ⟨_, congrArg (Filled.done .float) l2, (key 2 (Or.inr rfl))⟩
  | complexDouble => exact ⟨_, congrArg (Filled.done .double) l2, (key 2 (Or.inr rfl))⟩

/-- C121: random values are between 0 and 1, both included, if rounding keeps the order and
0 and 1 themselves (as rounding to `float` or `double` does). -/
theorem C121_random_range (rnd : Rat → Rat) (hm : ∀ x y, x ≤ y → rnd x ≤ rnd y) (h0 : rnd 0 = 0)
    (h1 : rnd 1 = 1) (max r : Nat) (hmax : 0 < max) (hr : r ≤ max) :
    0 ≤ randomValue rnd max r ∧ randomValue rnd max r ≤ 1 := by
  unfold randomValue
  have a : (0 : Rat) ≤ rnd r := h0 ▸ hm 0 r (by exact_mod_cast Nat.zero_le r)
  have b : (1 : Rat) ≤ rnd max := h1 ▸ hm 1 max (by exact_mod_cast hmax)
  have c : rnd r ≤ rnd max := hm r max (by exact_mod_cast hr)
  have d : (0 : Rat) < rnd max := lt_of_lt_of_le one_pos b
  exact ⟨h0 ▸ hm 0 _ (div_nonneg a d.le), h1 ▸ hm _ 1 ((div_le_one d).2 c)⟩

/-- Non-vacuity. -/
example : randomValue id 2147483647 5 ≤ 1 :=
  (C121_random_range id (fun _ _ h => h) rfl rfl _ _ (by decide) (by decide)).2

end Sdp.Width
