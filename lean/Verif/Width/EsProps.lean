import Verif.Width.IntFacts

/-
C117 for the kernels of the ES gridder.
-/
namespace Sdp.Width

theorem each_one (f : Nat → List Acc) : each 1 f = f 0 := by
  simp [each, List.range_succ]

theorem threads_lt (n T x : Nat) (h : x < (n + T - 1) / T * T) : x < n + T := by
  have := Nat.div_mul_le_self (n + T - 1) T
  omega

theorem root_le (N : Nat) (h : N * N ≤ 2147483647) : N ≤ 46340 := by
  by_contra hn
  have := Nat.mul_le_mul (show 46341 ≤ N by omega) (show 46341 ≤ N by omega)
  omega

theorem half_lit (N : Nat) (hN : N ≤ 46340) :
    as .i32 (lit .u32 (N : Int) / num 2) = lit .i32 ((N / 2 : Nat) : Int) := by
  have e : lit .u32 (N : Int) / num 2 = lit .u32 ((N / 2 : Nat) : Int) :=
    div_lit .u32 .i32 N 2 (by omega) (by simp only [Ty.join, Ty.hi]; omega) (by decide)
  rw [e, as_lit .i32 .u32 (N / 2) (by simp only [Ty.hi]; omega)]

theorem centre_lit (N : Nat) (hN : 0 < N) (h : N * N ≤ 2147483647) :
    centreIndex (lit .u32 (N : Int)) = lit .i32 ((N / 2 * N + N / 2 : Nat) : Int) := by
  have hr := root_le N h
  have := step_lt N N (N / 2) (N / 2) (by omega) (by omega)
  unfold centreIndex
  dsimp only
  rw [half_lit N hr, as_lit .i32 .u32 N (by simp only [Ty.hi]; omega),
    mul_lit .i32 .i32 (N / 2) N (by simp only [Ty.join, Ty.hi]; omega) (by simp only [Ty.join, Ty.hi]; omega)
      (by simp only [Ty.join, Ty.hi]; omega)]
  exact add_lit .i32 .i32 (N / 2 * N) (N / 2) (by simp only [Ty.join, Ty.hi]; omega)

/-- The four indices, if the smallest is not negative and the largest fits an
`int`. -/
theorem quad_lit (N i j : Nat) (c : Int) (hN0 : 0 < N) (hN : N ≤ 46340) (h0 : (j : Int) * N + i ≤ c)
    (h1 : c + (j : Int) * N + i ≤ 2147483647) :
    quad (lit .u32 (N : Int)) (lit .i32 c) (lit .i32 (i : Int)) (lit .i32 (j : Int)) =
      (lit .i32 (c + (j : Int) * N + i), lit .i32 (c + (j : Int) * N - i), lit .i32 (c - (j : Int) * N + i),
        lit .i32 (c - (j : Int) * N - i)) := by
  have hp : (0 : Int) ≤ (j : Int) * N := Int.mul_nonneg (by omega) (by omega)
  have hj : (j : Int) ≤ (j : Int) * N := by
    have := Nat.le_mul_of_pos_right j hN0
    rw [← Int.natCast_mul]
    omega
  unfold quad
  rw [as_lit .i32 .u32 N (by simp only [Ty.hi]; omega)]
  have hm : (lit .i32 (j : Int) * lit .i32 (N : Int)) = lit .i32 ((j : Int) * N) := by
    exact op32 (· * ·) j N ⟨by omega, by omega⟩ ⟨by omega, by omega⟩ ⟨by omega, by omega⟩
  rw [hm, add32 c _ ⟨by omega, by omega⟩ ⟨by omega, by omega⟩ ⟨by omega, by omega⟩,
    sub32 c _ ⟨by omega, by omega⟩ ⟨by omega, by omega⟩ ⟨by omega, by omega⟩,
    add32 _ _ ⟨by omega, by omega⟩ ⟨by omega, by omega⟩ ⟨by omega, by omega⟩,
    add32 _ _ ⟨by omega, by omega⟩ ⟨by omega, by omega⟩ ⟨by omega, by omega⟩,
    sub32 _ _ ⟨by omega, by omega⟩ ⟨by omega, by omega⟩ ⟨by omega, by omega⟩,
    sub32 _ _ ⟨by omega, by omega⟩ ⟨by omega, by omega⟩ ⟨by omega, by omega⟩]

theorem pixel_val (a : String) (N : Nat) (j i : Int) (hj : 0 ≤ ((N / 2 : Nat) : Int) + j)
    (hi : 0 ≤ ((N / 2 : Nat) : Int) + i) :
    pixel a [] N j i = (a, ((N / 2 * N + N / 2 : Nat) : Int) + j * N + i) := by
  unfold pixel el
  rw [List.nil_append, rowMajor2]
  push_cast
  rw [Int.toNat_of_nonneg (by exact_mod_cast hj), Int.toNat_of_nonneg (by exact_mod_cast hi)]
  congr 1
  ring

theorem pixel_val3 (a : String) (K k N : Nat) (j i : Int) (hj : 0 ≤ ((N / 2 : Nat) : Int) + j)
    (hi : 0 ≤ ((N / 2 : Nat) : Int) + i) :
    pixel a [(K, k)] N j i = (a, ((k * (N * N) + (N / 2 * N + N / 2) : Nat) : Int) + j * N + i) := by
  unfold pixel el
  rw [List.cons_append, List.nil_append, rowMajor3]
  push_cast
  rw [Int.toNat_of_nonneg (by exact_mod_cast hj), Int.toNat_of_nonneg (by exact_mod_cast hi)]
  congr 1
  ring

theorem guard2 (a b c d : Nat) (ha : a ≤ 2147483647) (hb : b ≤ 2147483647) (hc : c ≤ 2147483647)
    (hd : d ≤ 2147483647) (x : List Acc) :
    whenLt (lit .i32 (a : Int)) (lit .i32 (b : Int)) (whenLt (lit .i32 (c : Int)) (lit .i32 (d : Int)) (some x)) =
      some (if a < b ∧ c < d then x else []) := by
  rw [whenLt_lit .i32 .i32 a b _ (by simp only [Ty.join, Ty.hi]; omega) (by simp only [Ty.join, Ty.hi]; omega),
    whenLt_lit .i32 .i32 c d _ (by simp only [Ty.join, Ty.hi]; omega) (by simp only [Ty.join, Ty.hi]; omega)]
  by_cases h1 : a < b <;> by_cases h2 : c < d <;> simp [h1, h2, skip]

theorem guard1 (a b : Nat) (ha : a ≤ 2147483647) (hb : b ≤ 2147483647) (x : List Acc) :
    whenLt (lit .i32 (a : Int)) (lit .i32 (b : Int)) (some x) = some (if a < b then x else []) := by
  rw [whenLt_lit .i32 .i32 a b _ (by simp only [Ty.join, Ty.hi]; omega) (by simp only [Ty.join, Ty.hi]; omega),
    ite_some]

/-- The image's four indices fit an `int`. -/
theorem image_bounds (N i j : Nat) (h : N * N ≤ 2147483647) (hi : i ≤ N / 2) (hj : j ≤ N / 2) :
    (j : Int) * N + i ≤ ((N / 2 * N + N / 2 : Nat) : Int) ∧
    ((N / 2 * N + N / 2 : Nat) : Int) + (j : Int) * N + i ≤ 2147483647 := by
  have hr := root_le N h
  have h1 : j * N ≤ N / 2 * N := Nat.mul_le_mul_right _ hj
  have h2 : (N / 2 + N / 2) * N ≤ N * N := Nat.mul_le_mul_right _ (by omega)
  rw [Nat.add_mul] at h2
  have h3 : N * N ≤ 46340 * 46340 := Nat.mul_le_mul hr hr
  rw [← Int.natCast_mul]
  omega

theorem imageQuad_lit (N i j : Nat) (hN : 0 < N) (h : N * N ≤ 2147483647) (hi : i ≤ N / 2) (hj : j ≤ N / 2) :
    quad (lit .u32 (N : Int)) (centreIndex (lit .u32 (N : Int))) (lit .i32 (i : Int)) (lit .i32 (j : Int)) =
      (lit .i32 (((N / 2 * N + N / 2 : Nat) : Int) + (j : Int) * N + i),
        lit .i32 (((N / 2 * N + N / 2 : Nat) : Int) + (j : Int) * N - i),
        lit .i32 (((N / 2 * N + N / 2 : Nat) : Int) - (j : Int) * N + i),
        lit .i32 (((N / 2 * N + N / 2 : Nat) : Int) - (j : Int) * N - i)) := by
  rw [centre_lit N hN h]
  exact quad_lit N i j _ hN (root_le N h) (image_bounds N i j h hi hj).1 (image_bounds N i j h hi hj).2

theorem pixel_four (a : String) (N i j : Nat) (hi : i ≤ N / 2) (hj : j ≤ N / 2) :
    pixel a [] N j i = (a, ((N / 2 * N + N / 2 : Nat) : Int) + (j : Int) * N + i) ∧
    pixel a [] N j (-(i : Int)) = (a, ((N / 2 * N + N / 2 : Nat) : Int) + (j : Int) * N - i) ∧
    pixel a [] N (-(j : Int)) i = (a, ((N / 2 * N + N / 2 : Nat) : Int) - (j : Int) * N + i) ∧
    pixel a [] N (-(j : Int)) (-(i : Int)) = (a, ((N / 2 * N + N / 2 : Nat) : Int) - (j : Int) * N - i) := by
  refine ⟨?_, ?_, ?_, ?_⟩
  · exact pixel_val a N j i (by omega) (by omega)
  · rw [pixel_val a N j (-i) (by omega) (by omega), ← sub_eq_add_neg]
  · rw [pixel_val a N (-j) i (by omega) (by omega), Int.neg_mul, ← sub_eq_add_neg]
  · rw [pixel_val a N (-j) (-i) (by omega) (by omega), Int.neg_mul, ← sub_eq_add_neg, ← sub_eq_add_neg]

theorem pixel_four3 (a : String) (K k N i j : Nat) (hi : i ≤ N / 2) (hj : j ≤ N / 2) :
    pixel a [(K, k)] N j i = (a, ((k * (N * N) + (N / 2 * N + N / 2) : Nat) : Int) + (j : Int) * N + i) ∧
    pixel a [(K, k)] N j (-(i : Int)) = (a, ((k * (N * N) + (N / 2 * N + N / 2) : Nat) : Int) + (j : Int) * N - i) ∧
    pixel a [(K, k)] N (-(j : Int)) i = (a, ((k * (N * N) + (N / 2 * N + N / 2) : Nat) : Int) - (j : Int) * N + i) ∧
    pixel a [(K, k)] N (-(j : Int)) (-(i : Int)) =
      (a, ((k * (N * N) + (N / 2 * N + N / 2) : Nat) : Int) - (j : Int) * N - i) := by
  refine ⟨?_, ?_, ?_, ?_⟩
  · exact pixel_val3 a K k N j i (by omega) (by omega)
  · rw [pixel_val3 a K k N j (-i) (by omega) (by omega), ← sub_eq_add_neg]
  · rw [pixel_val3 a K k N (-j) i (by omega) (by omega), Int.neg_mul, ← sub_eq_add_neg]
  · rw [pixel_val3 a K k N (-j) (-i) (by omega) (by omega), Int.neg_mul, ← sub_eq_add_neg, ← sub_eq_add_neg]

/-- The pixels of the image in the quadrants. -/
theorem quadTouch_lit (a : String) (N i j : Nat) (hN : 0 < N) (h : N * N ≤ 2147483647) (hi : i ≤ N / 2)
    (hj : j ≤ N / 2) :
    quadTouch a (lit .i32 ((N / 2 : Nat) : Int)) (lit .i32 (i : Int)) (lit .i32 (j : Int))
      (quad (lit .u32 (N : Int)) (centreIndex (lit .u32 (N : Int))) (lit .i32 (i : Int)) (lit .i32 (j : Int))) =
      some (quadSpec a [] N (N / 2) i j) := by
  have hr := root_le N h
  obtain ⟨p1, p2, p3, p4⟩ := pixel_four a N i j hi hj
  rw [imageQuad_lit N i j hN h hi hj]
  unfold quadTouch quadSpec
  rw [p1, p2, p3, p4]
  simp only [touch_lit]
  rw [show num 0 = lit .i32 ((0 : Nat) : Int) from rfl,
    guard2 i _ j _ (by omega) (by omega) (by omega) (by omega), guard2 0 i j _ (by omega) (by omega) (by omega) (by omega),
    guard2 0 j i _ (by omega) (by omega) (by omega) (by omega), guard2 0 i 0 j (by omega) (by omega) (by omega) (by omega)]
  simp only [seq_some, List.append_assoc]

theorem plane_lit (G K k : Nat) (start : Int) (hG : 0 < G) (hk : k < K) (h : K * G * G ≤ 2147483647)
    (h0 : -2147483648 ≤ start) (h1 : start + K ≤ 2147483647) :
    planeCentre (lit .u32 (G : Int)) start k = lit .i32 ((k * (G * G) + (G / 2 * G + G / 2) : Nat) : Int) := by
  have hKG : K * (G * G) ≤ 2147483647 := by rw [← Nat.mul_assoc]; exact h
  have hGG : G * G ≤ K * (G * G) := Nat.le_mul_of_pos_left _ (by omega)
  have hg2 : G * G ≤ 2147483647 := by omega
  have hr := root_le G hg2
  have hs := step_lt G G (G / 2) (G / 2) (by omega) (by omega)
  have hs2 := step_lt K (G * G) k (G / 2 * G + G / 2) hk hs
  have hKK : K ≤ K * (G * G) := Nat.le_mul_of_pos_right _ (Nat.mul_pos hG hG)
  unfold planeCentre
  have e1 : lit .i32 (start + k) - lit .i32 start = lit .i32 (k : Int) := by
    rw [sub32 _ _ ⟨by omega, by omega⟩ ⟨by omega, by omega⟩ ⟨by omega, by omega⟩]
    exact congrArg (lit .i32) (by omega)
  have e2 : as .i32 (lit .u32 (G : Int) * lit .u32 (G : Int)) = lit .i32 ((G * G : Nat) : Int) := by
    rw [mul_lit .u32 .u32 G G (by simp only [Ty.join, Ty.hi]; omega) (by simp only [Ty.join, Ty.hi]; omega)
      (by simp only [Ty.join, Ty.hi]; omega)]
    exact as_lit .i32 _ (G * G) (by simp only [Ty.hi]; omega)
  rw [e1, e2, centre_lit G hG hg2,
    mul_lit .i32 .i32 k (G * G) (by simp only [Ty.join, Ty.hi]; omega) (by simp only [Ty.join, Ty.hi]; omega)
      (by simp only [Ty.join, Ty.hi]; omega)]
  exact add_lit .i32 .i32 (k * (G * G)) (G / 2 * G + G / 2) (by simp only [Ty.join, Ty.hi]; omega)

theorem planeQuad_lit (N G K k i j : Nat) (start : Int) (hNG : N < G) (hk : k < K) (h : K * G * G ≤ 2147483647)
    (h0 : -2147483648 ≤ start) (h1 : start + K ≤ 2147483647) (hi : i ≤ N / 2) (hj : j ≤ N / 2) :
    quad (lit .u32 (G : Int)) (planeCentre (lit .u32 (G : Int)) start k) (lit .i32 (i : Int)) (lit .i32 (j : Int)) =
      (lit .i32 (((k * (G * G) + (G / 2 * G + G / 2) : Nat) : Int) + (j : Int) * G + i),
        lit .i32 (((k * (G * G) + (G / 2 * G + G / 2) : Nat) : Int) + (j : Int) * G - i),
        lit .i32 (((k * (G * G) + (G / 2 * G + G / 2) : Nat) : Int) - (j : Int) * G + i),
        lit .i32 (((k * (G * G) + (G / 2 * G + G / 2) : Nat) : Int) - (j : Int) * G - i)) := by
  have hKG : K * (G * G) ≤ 2147483647 := by rw [← Nat.mul_assoc]; exact h
  have hGG : G * G ≤ K * (G * G) := Nat.le_mul_of_pos_left _ (by omega)
  have hr := root_le G (by omega)
  rw [plane_lit G K k start (by omega) hk h h0 h1]
  have hs := step_lt G G (G / 2 + j) (G / 2 + i) (by omega) (by omega)
  have hs2 := step_lt K (G * G) k _ hk hs
  have hjG : j * G ≤ G / 2 * G := Nat.mul_le_mul_right _ (by omega)
  rw [Nat.add_mul] at hs2
  refine quad_lit G i j _ (by omega) hr ?_ ?_
  · rw [← Int.natCast_mul]; omega
  · rw [← Int.natCast_mul]; omega

theorem each_seq (K : Nat) (body : Nat → Trace) (f : Nat → List Acc) (h : ∀ k, k < K → body k = some (f k)) :
    iters body K = some (each K f) := iters_some body f K h

/-- A launch over the quadrants of an image. -/
theorem quadrants_lit (N : Nat) (hN : 0 < N) (h : N * N ≤ 2147483647) (body : Num → Num → Num → Trace)
    (inner : Num → Num → Trace) (f : Nat → Nat → List Acc)
    (hbody : ∀ x y z, body x y z = whenLe (as .i32 x) (as .i32 (lit .u32 (N : Int) / num 2))
      (whenLe (as .i32 y) (as .i32 (lit .u32 (N : Int) / num 2)) (inner (as .i32 x) (as .i32 y))))
    (hf : ∀ i j, i ≤ N / 2 → j ≤ N / 2 → inner (lit .i32 (i : Int)) (lit .i32 (j : Int)) = some (f j i)) :
    launch3 (N / 2 + 1) (N / 2 + 1) 1 (pixelThreads N) (pixelThreads N) 1 body = .refused ∨
      launch3 (N / 2 + 1) (N / 2 + 1) 1 (pixelThreads N) (pixelThreads N) 1 body =
        .ran (some (each (N / 2 + 1) fun j => each (N / 2 + 1) fun i => f j i)) := by
  have hr := root_le N h
  have hT : 0 < pixelThreads N ∧ pixelThreads N ≤ 32 := by unfold pixelThreads; omega
  have := launch3_lit (N / 2 + 1) (N / 2 + 1) 1 (pixelThreads N) (pixelThreads N) 1 hT.1 hT.1 (by omega)
    (by omega) (by omega) (by omega) body (fun _ j i => f j i) (fun x y z hx hy hz => by
      have hx' := threads_lt _ _ _ hx
      have hy' := threads_lt _ _ _ hy
      have hz' : z < 1 := by omega
      rw [hbody, thread_i32 x (by omega), thread_i32 y (by omega), half_lit N hr,
        whenLe32 _ _ ⟨by omega, by omega⟩ ⟨by omega, by omega⟩, whenLe32 _ _ ⟨by omega, by omega⟩ ⟨by omega, by omega⟩]
      by_cases h1 : x ≤ N / 2
      · rw [if_pos (by omega), if_pos (show x < N / 2 + 1 by omega)]
        by_cases h2 : y ≤ N / 2
        · rw [if_pos (by omega), if_pos (show y < N / 2 + 1 by omega), if_pos hz']
          exact hf x y h1 h2
        · rw [if_neg (by omega), if_neg (show ¬ y < N / 2 + 1 by omega)]
          rfl
      · rw [if_neg (by omega), if_neg (show ¬ x < N / 2 + 1 by omega)]
        rfl)
  rw [each_one] at this
  exact this

/-- C117: summing the planes of the stack of the ES gridder into the image, while
the stack has at most 2^31-1 elements; refused with an error, or exactly the
documented pixels.  Missing: more, `C117_es_screen_large_false`. -/
theorem C117_es_screen_partial (N G K : Nat) (start : Int) (hN : 0 < N) (hNG : N < G) (hK : 0 < K)
    (h : FitsInt (K * G * G)) (h0 : -2147483648 ≤ start) (h1 : start + K ≤ 2147483647) :
    screenSum N G K start = .refused ∨ screenSum N G K start = .ran (some (screenSumSpec N G K)) := by
  unfold FitsInt at h
  have hKG : K * (G * G) ≤ 2147483647 := by rw [← Nat.mul_assoc]; exact h
  have hGG : G * G ≤ K * (G * G) := Nat.le_mul_of_pos_left _ (by omega)
  have hNN : N * N ≤ G * G := Nat.mul_le_mul (by omega) (by omega)
  unfold screenSum screenSumSpec
  refine quadrants_lit N hN (by omega) _ (fun i j =>
      (iters (fun k =>
        let q := quad (lit .u32 (G : Int)) (planeCentre (lit .u32 (G : Int)) start k) i j
        touch "stack" q.1 ;; touch "stack" q.2.2.1 ;; touch "stack" q.2.1 ;;
        touch "stack" q.2.2.2) K) ;;
      quadTouch "image" (as .i32 (lit .u32 (N : Int) / num 2)) i j
        (quad (lit .u32 (N : Int)) (centreIndex (lit .u32 (N : Int))) i j)) _ (fun x y z => rfl) fun i j hi hj => ?_
  rw [half_lit N (root_le N (by omega)), quadTouch_lit "image" N i j hN (by omega) hi hj,
    each_seq K _ (fun k => [pixel "stack" [(K, k)] G j i,
      pixel "stack" [(K, k)] G (-(j : Int)) i,
      pixel "stack" [(K, k)] G j (-(i : Int)),
      pixel "stack" [(K, k)] G (-(j : Int)) (-(i : Int))]) (fun k hk => ?_), seq_some]
  obtain ⟨p1, p2, p3, p4⟩ := pixel_four3 "stack" K k G i j (by omega) (by omega)
  rw [p1, p2, p3, p4, planeQuad_lit N G K k i j start hNG hk h h0 h1 hi hj]
  simp only [touch_lit, seq_some, List.cons_append, List.nil_append]

/-- C117: taking the planes out of the image when de-gridding.  Missing: more,
`C117_es_reverse_large_false`. -/
theorem C117_es_reverse_partial (N G K : Nat) (start : Int) (hN : 0 < N) (hNG : N < G) (hK : 0 < K)
    (h : FitsInt (K * G * G)) (h0 : -2147483648 ≤ start) (h1 : start + K ≤ 2147483647) :
    screenReverse N G K start = .refused ∨ screenReverse N G K start = .ran (some (screenReverseSpec N G K)) := by
  unfold FitsInt at h
  have hKG : K * (G * G) ≤ 2147483647 := by rw [← Nat.mul_assoc]; exact h
  have hGG : G * G ≤ K * (G * G) := Nat.le_mul_of_pos_left _ (by omega)
  have hNN : N * N ≤ G * G := Nat.mul_le_mul (by omega) (by omega)
  have hr := root_le N (by omega)
  unfold screenReverse screenReverseSpec
  refine quadrants_lit N hN (by omega) _ (fun i j =>
      let half := as .i32 (lit .u32 (N : Int) / num 2)
      let q := quad (lit .u32 (N : Int)) (centreIndex (lit .u32 (N : Int))) i j
      (whenLt j half (whenLt i half (touch "image" q.1))) ;;
      (whenLt j half (touch "image" q.2.1)) ;;
      (whenLt i half (touch "image" q.2.2.1)) ;;
      touch "image" q.2.2.2 ;;
      iters (fun k =>
        let g := quad (lit .u32 (G : Int)) (planeCentre (lit .u32 (G : Int)) start k) i j
        (whenLt i half (whenLt j half (touch "stack" g.1))) ;;
        (whenLt (num 0) j (whenLt i half (touch "stack" g.2.2.1))) ;;
        (whenLt (num 0) i (whenLt j half (touch "stack" g.2.1))) ;;
        (whenLt (num 0) i (whenLt (num 0) j (touch "stack" g.2.2.2)))) K) _ (fun x y z => rfl) fun i j hi hj => ?_
  dsimp only
  rw [half_lit N hr, imageQuad_lit N i j hN (by omega) hi hj]
  obtain ⟨p1, p2, p3, p4⟩ := pixel_four "image" N i j hi hj
  rw [p1, p2, p3, p4]
  simp only [touch_lit]
  rw [guard2 j _ i _ (by omega) (by omega) (by omega) (by omega), guard1 j _ (by omega) (by omega),
    guard1 i _ (by omega) (by omega),
    each_seq K _ (fun k =>
      (if i < N / 2 ∧ j < N / 2 then [pixel "stack" [(K, k)] G j i] else []) ++
      (if 0 < j ∧ i < N / 2 then [pixel "stack" [(K, k)] G (-(j : Int)) i] else []) ++
      (if 0 < i ∧ j < N / 2 then [pixel "stack" [(K, k)] G j (-(i : Int))] else []) ++
      (if 0 < i ∧ 0 < j then [pixel "stack" [(K, k)] G (-(j : Int)) (-(i : Int))] else [])) (fun k hk => ?_)]
  · simp only [seq_some, List.append_assoc]
  obtain ⟨p1, p2, p3, p4⟩ := pixel_four3 "stack" K k G i j (by omega) (by omega)
  rw [p1, p2, p3, p4, planeQuad_lit N G K k i j start hNG hk h h0 h1 hi hj]
  simp only [touch_lit]
  rw [show num 0 = lit .i32 ((0 : Nat) : Int) from rfl,
    guard2 i _ j _ (by omega) (by omega) (by omega) (by omega), guard2 0 j i _ (by omega) (by omega) (by omega) (by omega),
    guard2 0 i j _ (by omega) (by omega) (by omega) (by omega), guard2 0 i 0 j (by omega) (by omega) (by omega) (by omega)]
  simp only [seq_some, List.append_assoc]

/-- C117: correcting the image of the ES gridder, while it has at most 2^31-1
pixels.  Missing: more, `C117_es_correct_large_false`. -/
theorem C117_es_correct_partial (N : Nat) (hN : 0 < N) (h : FitsInt (N * N)) :
    convCorr N = .refused ∨ convCorr N = .ran (some (convCorrSpec N)) := by
  unfold FitsInt at h
  unfold convCorr convCorrSpec
  refine quadrants_lit N hN h _ (fun i j =>
      touch "kernel" i ;; touch "kernel" j ;;
      quadTouch "image" (as .i32 (lit .u32 (N : Int) / num 2)) i j
        (quad (lit .u32 (N : Int)) (centreIndex (lit .u32 (N : Int))) i j)) _ (fun x y z => rfl) fun i j hi hj => ?_
  rw [half_lit N (root_le N h), quadTouch_lit "image" N i j hN h hi hj]
  simp only [touch_lit, seq_some, el, rowMajor1, List.cons_append, List.nil_append]

/-- The cells under a kernel. -/
theorem esCells_lit (G K : Nat) (start : Int) (b : Box) (hb : BoxOk K G b) (hG : G * G ≤ 2147483647)
    (hK : K * (G * G) ≤ 9223372036854775807) (h0 : -2147483648 ≤ start) (h1 : start + K ≤ 2147483647)
    (h2 : K ≤ 2147483647) :
    esCells (lit .i32 (G : Int)) start b = some (cellsSpec K G b.u0 b.v0 b.nu b.nv b.k0 b.nk) := by
  obtain ⟨b1, b2, b3, b4, b5⟩ := hb
  have hr := root_le G hG
  unfold esCells cellsSpec
  have eh : (lit .i32 (G : Int) / num 2) = lit .i32 ((G / 2 : Nat) : Int) :=
    div_lit .i32 .i32 G 2 (by omega) (by simp only [Ty.join, Ty.hi]; omega) (by decide)
  have eg : as .u64 (lit .i32 (G : Int) * lit .i32 (G : Int)) = lit .u64 ((G * G : Nat) : Int) := by
    rw [mul_lit .i32 .i32 G G (by simp only [Ty.join, Ty.hi]; omega) (by simp only [Ty.join, Ty.hi]; omega)
      (by simp only [Ty.join, Ty.hi]; omega)]
    exact as_lit .u64 _ (G * G) (by simp only [Ty.hi]; omega)
  dsimp only
  rw [eh, eg]
  refine each_seq _ _ _ fun k hk => each_seq _ _ _ fun i hi => each_seq _ _ _ fun j hj => ?_
  have e1 : lit .i32 (start + (b.k0 + k : Nat)) - lit .i32 start = lit .i32 ((b.k0 + k : Nat) : Int) := by
    rw [sub32 _ _ ⟨by omega, by omega⟩ ⟨by omega, by omega⟩ ⟨by omega, by omega⟩]
    exact congrArg (lit .i32) (by omega)
  have coord : ∀ u : Int, 0 ≤ u + (G / 2 : Nat) → u + (G / 2 : Nat) < G →
      as .u64 (lit .i32 u + lit .i32 ((G / 2 : Nat) : Int)) = lit .u64 ((u + (G / 2 : Nat)).toNat : Int) := by
    intro u hu1 hu2
    rw [add32 _ _ ⟨by omega, by omega⟩ ⟨by omega, by omega⟩ ⟨by omega, by omega⟩]
    have : u + ((G / 2 : Nat) : Int) = ((u + (G / 2 : Nat)).toNat : Int) := by omega
    rw [this, Int.toNat_natCast]
    exact as_lit .u64 .i32 _ (by simp only [Ty.hi]; omega)
  rw [e1, coord (b.u0 + i) (by omega) (by omega), coord (b.v0 + j) (by omega) (by omega)]
  generalize hp : b.k0 + k = p
  generalize hx : (b.u0 + (i : Int) + ((G / 2 : Nat) : Int)).toNat = x
  generalize hy : (b.v0 + (j : Int) + ((G / 2 : Nat) : Int)).toNat = y
  have hxG : x < G := by omega
  have hyG : y < G := by omega
  have hs := step_lt G G x y hxG hyG
  have hs2 := step_lt K (G * G) p (x * G + y) (by omega) hs
  have hpp : p ≤ 2147483647 := by omega
  rw [mul_lit .i32 .u64 p (G * G) (by simp only [Ty.join, Ty.hi]; omega) (by simp only [Ty.join, Ty.hi]; omega)
      (by simp only [Ty.join, Ty.hi]; omega),
    mul_lit .u64 .i32 x G (by simp only [Ty.join, Ty.hi]; omega) (by simp only [Ty.join, Ty.hi]; omega)
      (by simp only [Ty.join, Ty.hi]; omega)]
  simp only [Ty.join]
  rw [add_lit .u64 .u64 (p * (G * G)) (x * G) (by simp only [Ty.join, Ty.hi]; omega)]
  simp only [Ty.join]
  rw [add_lit .u64 .u64 (p * (G * G) + x * G) y (by simp only [Ty.join, Ty.hi]; omega), touch_lit, el, rowMajor3]
  have : (p * G + x) * G + y = p * (G * G) + x * G + y := by ring
  rw [this]

/-- C117: the gridding kernels of the ES gridder: refused with an error, or
exactly the documented elements, while visibilities (with 255 more rows) and one
grid have at most 2^31-1 elements; the stack may have more.  Missing: more,
`C117_es_grid_large_false`, `C117_es_vis_large_false`. -/
theorem C117_es_grid_partial (R C G K : Nat) (start : Int) (box : Nat → Nat → Option Box)
    (hbox : ∀ r c b, r < R → c < C → box r c = some b → BoxOk K G b) (hR : FitsInt (R + 255))
    (hvis : FitsInt ((R + 255) * C + C)) (hG : FitsInt (G * G)) (hK : FitsLong (K * G * G))
    (h0 : -2147483648 ≤ start) (h1 : start + K ≤ 2147483647) (h2 : FitsInt K) :
    esGrid R C G start box = .refused ∨ esGrid R C G start box = .ran (some (esGridSpec R C G K box)) := by
  unfold FitsInt FitsLong at *
  unfold esGrid esGridSpec
  simp only [intDim_fits R (by unfold FitsInt; omega), intDim_fits C (by unfold FitsInt; omega)]
  have := launch3_lit C R 1 1 256 1 (by omega) (by omega) (by omega) (by omega) (by omega) (by omega)
    (fun x y _ =>
      (as .i32 x + lit .i32 (C : Int) * as .i32 y).bind fun vis =>
      whenLt (as .i32 x) (lit .i32 (C : Int)) (whenLt (as .i32 y) (lit .i32 (R : Int)) (
      touch "uvw" (as .i32 y) ;; touch "freq" (as .i32 x) ;;
      touch "vis" (some vis) ;; touch "weight" (some vis) ;;
      (as .i32 y).bind fun r => (as .i32 x).bind fun c =>
      match box r.val.toNat c.val.toNat with
      | none => skip
      | some b => esCells (lit .i32 G) start b)))
    (fun _ r c => [el "uvw" [(R, r)], el "freq" [(C, c)], el "vis" [(R, r), (C, c)],
      el "weight" [(R, r), (C, c)]] ++
    match box r c with
    | none => []
    | some b => cellsSpec K G b.u0 b.v0 b.nu b.nv b.k0 b.nk) (fun x y z hx hy hz => by
      have hx' := threads_lt _ _ _ hx
      have hy' := threads_lt _ _ _ hy
      have hx2 : x < C := by omega
      have hz2 : z < 1 := by omega
      have hyC : y * C ≤ (R + 255) * C := Nat.mul_le_mul_right _ (by omega)
      rw [thread_i32 x (by omega), thread_i32 y (by omega),
        mul_lit .i32 .i32 C y (by simp only [Ty.join, Ty.hi]; omega) (by simp only [Ty.join, Ty.hi]; omega)
          (by rw [Nat.mul_comm]; simp only [Ty.join, Ty.hi]; omega)]
      simp only [Ty.join]
      rw [add_lit .i32 .i32 x (C * y) (by rw [Nat.mul_comm]; simp only [Ty.join, Ty.hi]; omega)]
      simp only [Ty.join]
      have hb : ∀ (v : Int) (f : V → Trace), (lit .i32 v).bind f = f ⟨.i32, v⟩ := fun _ _ => rfl
      simp only [hb, Int.toNat_natCast]
      rw [whenLt_lit .i32 .i32 x C _ (by simp only [Ty.join, Ty.hi]; omega) (by simp only [Ty.join, Ty.hi]; omega),
        if_pos hx2, if_pos hx2,
        whenLt_lit .i32 .i32 y R _ (by simp only [Ty.join, Ty.hi]; omega) (by simp only [Ty.join, Ty.hi]; omega)]
      by_cases hy2 : y < R
      swap
      · rw [if_neg hy2, if_neg hy2]; rfl
      rw [if_pos hy2, if_pos hy2, if_pos hz2]
      have ev : x + C * y = y * C + x := by ring
      rw [show (some ⟨.i32, ((x + C * y : Nat) : Int)⟩ : Num) = lit .i32 ((y * C + x : Nat) : Int) by rw [ev]; rfl]
      simp only [touch_lit, el, rowMajor1, rowMajor2]
      rcases hq : box y x with _ | b
      · rfl
      · dsimp only
        rw [esCells_lit G K start b (hbox y x b hy2 hx2 hq) hG (by rw [← Nat.mul_assoc]; exact hK) h0 h1 h2]
        simp only [seq_some, List.cons_append, List.nil_append])
  rw [each_one] at this
  exact this

end Sdp.Width
