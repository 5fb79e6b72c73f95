import Verif.Width.VisProps

/-
C115 for code that calculates in `int64_t` (it holds for every array that can
exist), and for the flagger.
-/
namespace Sdp.Width

/-- Three consecutive numbers, in `int64_t`. -/
theorem three_i64 (a : String) (v w0 w1 w2 : Nat)
    (h : v + 2 ≤ 9223372036854775807) (h0 : v + 0 = w0)
    (h1 : v + 1 = w1) (h2 : v + 2 = w2) (rest : Trace) :
    (touch a (lit .i64 v + num 0) ;; touch a (lit .i64 v + num 1) ;;
      touch a (lit .i64 v + num 2) ;; rest) =
    (some [(a, (w0 : Int)), (a, (w1 : Int)), (a, (w2 : Int))] ;; rest) := by
  rw [show num 0 = num ((0 : Nat) : Int) from rfl,
    show num 1 = num ((1 : Nat) : Int) from rfl,
    show num 2 = num ((2 : Nat) : Int) from rfl,
    add_num .i64 v 0 w0 h0 (by simp only [Ty.join, Ty.hi]; omega) rfl,
    add_num .i64 v 1 w1 h1 (by simp only [Ty.join, Ty.hi]; omega) rfl,
    add_num .i64 v 2 w2 h2 (by simp only [Ty.join, Ty.hi]; omega) rfl]
  cases rest <;> rfl

/-- C115: sdp_phase_rotate_uvw on the CPU, for all sizes: an array whose number
of elements an `int64_t` can hold is rotated completely. -/
theorem C115_rotate_uvw_cpu (T B : Nat) (hT : FitsLong T) (hB : FitsLong B)
    (h : FitsLong (T * B * 3)) :
    rotateUvwCpu T B = some (rotateUvwSpec (T * B)) := by
  unfold FitsLong at *
  unfold rotateUvwCpu rotateUvwSpec each
  rw [show longDim T = lit .i64 T from rfl, show longDim B = lit .i64 B from rfl,
    mul_lit .i64 .i64 T B (by simp only [Ty.join, Ty.hi]; omega)
      (by simp only [Ty.join, Ty.hi]; omega)
      (by simp only [Ty.join, Ty.hi]; omega)]
  refine loop_lit .i64 _ (T * B) _ _ (by simp only [Ty.hi]; omega)
    fun i hi => ?_
  have hlt := rowMajor2_lt (n := T * B) (m := 3) hi (show 2 < 3 by omega)
  have hm : lit .i64 (i : Int) * num 3 =
      lit .i64 ((rowMajor [(T * B, i), (3, 0)] : Nat) : Int) := by
    rw [num3, mul_lit .i64 .i32 i 3 (by simp only [Ty.join, Ty.hi]; omega)
      (by decide) (by simp only [Ty.join, Ty.hi]; omega), rowMajor2]
    rfl
  simp only [rowMajor2] at hlt
  simp only [hm]
  rw [three_i64 "in" (rowMajor [(T * B, i), (3, 0)]) (rowMajor [(T * B, i), (3, 0)])
    (rowMajor [(T * B, i), (3, 1)]) (rowMajor [(T * B, i), (3, 2)])
    (by simp only [rowMajor2]; omega) (Nat.add_zero _) (by simp only [rowMajor2])
    (by simp only [rowMajor2])]
  rw [show num 0 = num ((0 : Nat) : Int) from rfl,
    show num 1 = num ((1 : Nat) : Int) from rfl,
    show num 2 = num ((2 : Nat) : Int) from rfl,
    add_num .i64 (rowMajor [(T * B, i), (3, 0)]) 0
      (rowMajor [(T * B, i), (3, 0)]) rfl
      (by simp only [Ty.join, Ty.hi, rowMajor2]; omega) rfl,
    add_num .i64 (rowMajor [(T * B, i), (3, 0)]) 1
      (rowMajor [(T * B, i), (3, 1)]) (by simp only [rowMajor2])
      (by simp only [Ty.join, Ty.hi, rowMajor2]; omega) rfl,
    add_num .i64 (rowMajor [(T * B, i), (3, 0)]) 2
      (rowMajor [(T * B, i), (3, 2)]) (by simp only [rowMajor2])
      (by simp only [Ty.join, Ty.hi, rowMajor2]; omega) rfl]
  rfl

/-- C115: sdp_phase_rotate_vis on the CPU, for all sizes. -/
theorem C115_rotate_vis_cpu (T B C P : Nat) (hT : FitsLong T) (hB : FitsLong B)
    (hC : FitsLong C) (hP : FitsLong P) (huvw : FitsLong (T * B * 3))
    (hvis : FitsLong (T * B * C * P)) :
    rotateVisCpu T B C P = some (rotateVisSpec T B C P) := by
  unfold FitsLong at *
  unfold rotateVisCpu rotateVisSpec each longDim
  refine loop_lit .i64 _ T _ _ (by simp only [Ty.hi]; omega) fun t ht => ?_
  refine loop_lit .i64 _ B _ _ (by simp only [Ty.hi]; omega) fun b hb => ?_
  have hlt := rowMajor3_lt (l := 3) ht hb (show 2 < 3 by omega)
  simp only [rowMajor3] at hlt
  have hu : INDEX_3D (lit .i64 T) (lit .i64 B) (num 3) (lit .i64 t) (lit .i64 b)
      (num 0) = lit .i64 ((rowMajor [(T, t), (B, b), (3, 0)] : Nat) : Int) := by
    rw [num3, num0]
    exact index3_lit (lit .i64 T) .i64 .i32 .i64 .i64 .i32 .i64 T B 3
      t b 0 ht hb (by omega) 9223372036854775807 huvw (by decide)
  simp only [hu]
  rw [three_i64 "uvw" (rowMajor [(T, t), (B, b), (3, 0)]) (rowMajor [(T, t), (B, b), (3, 0)])
    (rowMajor [(T, t), (B, b), (3, 1)]) (rowMajor [(T, t), (B, b), (3, 2)])
    (by simp only [rowMajor3]; omega) (Nat.add_zero _) (by simp only [rowMajor3])
    (by simp only [rowMajor3])]
  rw [loop_lit .i64 _ C _ (fun c => (List.range P).flatMap fun p =>
      [el "in" [(T, t), (B, b), (C, c), (P, p)],
        el "out" [(T, t), (B, b), (C, c), (P, p)]])
      (by simp only [Ty.hi]; omega) (fun c hc =>
    loop_lit .i64 _ P _ _ (by simp only [Ty.hi]; omega) (fun p hp => by
      rw [index4_lit (lit .i64 T) .i64 .i64 .i64 .i64 .i64 .i64 .i64 .i64
        T B C P t b c p ht hb hc hp 9223372036854775807 hvis (by decide)]
      rfl)), seq_some]
  rfl

/-- The cells that are on a grid of `G` by `G`. -/
def OnGrid (G : Nat) (cell : Nat → Nat → Nat → Option (Nat × Nat)) : Prop :=
  ∀ t b c u v, cell t b c = some (u, v) → u < G ∧ v < G

/-- C115: gridding of weights on the CPU, for all sizes. -/
theorem C115_weights_cpu (T B C P G : Nat)
    (cell : Nat → Nat → Nat → Option (Nat × Nat)) (hcell : OnGrid G cell)
    (hT : FitsLong T) (hB : FitsLong B)
    (hC : FitsLong C) (hP : FitsLong P) (huvw : FitsLong (T * B * 3))
    (hvis : FitsLong (T * B * C * P)) (hgrid : FitsLong (G * G * P)) :
    weightsCpu T B C P G cell = some (weightsSpec T B C P G cell) := by
  unfold FitsLong at *
  unfold weightsCpu weightsSpec each longDim
  refine loop_lit .i64 _ T _ _ (by simp only [Ty.hi]; omega) fun t ht => ?_
  refine loop_lit .i64 _ B _ _ (by simp only [Ty.hi]; omega) fun b hb => ?_
  have hlt := rowMajor3_lt (l := 3) ht hb (show 2 < 3 by omega)
  simp only [rowMajor3] at hlt
  have hu : INDEX_3D (lit .i64 T) (lit .i64 B) (num 3) (lit .i64 t) (lit .i64 b)
      (num 0) = lit .i64 ((rowMajor [(T, t), (B, b), (3, 0)] : Nat) : Int) := by
    rw [num3, num0]
    exact index3_lit (lit .i64 T) .i64 .i32 .i64 .i64 .i32 .i64 T B 3
      t b 0 ht hb (by omega) 9223372036854775807 huvw (by decide)
  simp only [hu]
  refine loop_lit .i64 _ C _ _ (by simp only [Ty.hi]; omega) fun c hc => ?_
  rw [show num 0 = num ((0 : Nat) : Int) from rfl,
    show num 1 = num ((1 : Nat) : Int) from rfl,
    add_num .i64 (rowMajor [(T, t), (B, b), (3, 0)]) 0
      (rowMajor [(T, t), (B, b), (3, 0)]) rfl
      (by simp only [Ty.join, Ty.hi, rowMajor3]; omega) rfl,
    add_num .i64 (rowMajor [(T, t), (B, b), (3, 0)]) 1
      (rowMajor [(T, t), (B, b), (3, 1)]) (by simp only [rowMajor3])
      (by simp only [Ty.join, Ty.hi, rowMajor3]; omega) rfl]
  simp only [show ∀ (x : Int) (f : V → Trace), (lit .i64 x).bind f = f ⟨.i64, x⟩
    from fun _ _ => rfl, Int.toNat_natCast]
  unfold weightsAt
  rcases hce : cell t b c with _ | ⟨u, v⟩
  · simp only [touch_lit, seq_some, skip, el, rowMajor1]
    rfl
  · obtain ⟨hgu, hgv⟩ := hcell t b c u v hce
    dsimp only
    rw [loop_lit .i64 _ P _ (fun p => [el "grid" [(G, u), (G, v), (P, p)],
      el "weight" [(T, t), (B, b), (C, c), (P, p)]])
      (by simp only [Ty.hi]; omega) (fun p hp => by
      have h3 := rowMajor3_lt (l := P) hgu hgv hp
      have h4 := rowMajor4_lt (o := P) ht hb hc hp
      simp only [rowMajor3] at h3
      simp only [rowMajor4] at h4
      rw [show num ((0 : Nat) : Int) = lit .i32 ((0 : Nat) : Int) from rfl,
        index3_lit (lit .i64 G) .i64 .i64 .i64 .i64 .i32 .i64 G G P u v 0
          hgu hgv (by omega) 9223372036854775807 hgrid (by decide),
        index4_lit (lit .i64 T) .i64 .i64 .i64 .i64 .i64 .i64 .i32 .i64
          T B C P t b c 0 ht hb hc (by omega) 9223372036854775807 hvis
          (by decide),
        add_lit .i64 .i64 _ p
          (by simp only [Ty.join, Ty.hi, rowMajor3]; omega),
        add_lit .i64 .i64 _ p
          (by simp only [Ty.join, Ty.hi, rowMajor4]; omega)]
      simp only [touch_lit, seq_some, el, rowMajor3, rowMajor4, Nat.add_zero]
      rfl)]
    simp only [touch_lit, seq_some, el, rowMajor1]
    rfl

/-- Non-vacuity: sizes far beyond 2^32. -/
example : rotateVisCpu 100000 100000 65536 4 =
    some (rotateVisSpec 100000 100000 65536 4) :=
  C115_rotate_vis_cpu _ _ _ _ (by unfold FitsLong; omega)
    (by unfold FitsLong; omega) (by unfold FitsLong; omega)
    (by unfold FitsLong; omega) (by unfold FitsLong; omega)
    (by unfold FitsLong; omega)

example : rotateUvwCpu 100000 100000 = some (rotateUvwSpec (100000 * 100000)) :=
  C115_rotate_uvw_cpu _ _ (by unfold FitsLong; omega)
    (by unfold FitsLong; omega) (by unfold FitsLong; omega)

example : weightsCpu 1 2 1 1 4 (fun _ b _ => if b = 1 then some (3, 2) else none)
    = some [("freq", 0), ("uvw", 0), ("uvw", 1), ("freq", 0), ("uvw", 3),
      ("uvw", 4), ("grid", 14), ("weight", 1)] := by decide +kernel

/-- C115: the flagger, while the visibilities have no more than 2^31-1
elements.  Missing: larger arrays, `C115_flagger_large_false`. -/
theorem C115_flagger_partial (T B C P S step : Nat) (hT : FitsInt T)
    (hB : FitsInt B) (hC : FitsInt C) (hP : FitsInt P) (hS : FitsInt S)
    (hstep : 0 < step) (hsamples : S * step ≤ C)
    (hvis : FitsInt (T * B * C * P)) :
    flaggerReads T B C P S step = some (flaggerSpec T B C P S step) := by
  unfold flaggerReads flaggerSpec
  simp only [intDim_fits _ hT, intDim_fits _ hB, intDim_fits _ hC,
    intDim_fits _ hP]
  unfold FitsInt at *
  unfold each
  refine loop_lit .i32 .i32 B _ _ (by simp only [Ty.hi]; omega) fun b hb => ?_
  refine loop_lit .i32 .i32 P _ _ (by simp only [Ty.hi]; omega) fun p hp => ?_
  refine loop_lit .i32 .i32 T _ _ (by simp only [Ty.hi]; omega) fun t ht => ?_
  by_cases hC0 : C = 0
  · subst hC0
    have hS0 : S = 0 := by
      rcases Nat.eq_zero_or_pos S with h | h
      · exact h
      · have := Nat.mul_pos h hstep; omega
    subst hS0
    have e1 : ∀ body, loop .i32 (lit .i32 ((0 : Nat) : Int)) body = some [] :=
      fun body => loop_lit .i32 .i32 0 body (fun _ => []) (by decide)
        (fun i hi => by omega)
    have e2 : ∀ body, loop .i32 (num ((0 : Nat) : Int)) body = some [] := e1
    rw [e2]
    simp only [e1, num0]
    rw [whenLt_lit .i32 .i32 0 t _ (by decide)
      (by simp only [Ty.join, Ty.hi]; omega)]
    split <;> rfl
  have hCpos : 0 < C := by omega
  -- the sizes of the blocks
  have hCP : C * P ≤ B * (C * P) := Nat.le_mul_of_pos_left _ (by omega)
  have hBCP : B * C * P ≤ T * B * C * P := by
    calc B * C * P ≤ T * (B * C * P) := Nat.le_mul_of_pos_left _ (by omega)
      _ = T * B * C * P := by ring
  have hBC : B * C ≤ B * C * P := Nat.le_mul_of_pos_right _ (by omega)
  have hassoc : B * (C * P) = B * C * P := by ring
  have etb : lit .i32 (B : Int) * lit .i32 (C : Int) * lit .i32 (P : Int) =
      lit .i32 ((B * C * P : Nat) : Int) := by
    rw [mul_lit .i32 .i32 B C (by simp only [Ty.join, Ty.hi]; omega)
      (by simp only [Ty.join, Ty.hi]; omega)
      (by simp only [Ty.join, Ty.hi]; omega)]
    exact mul_lit .i32 .i32 (B * C) P (by simp only [Ty.join, Ty.hi]; omega)
      (by simp only [Ty.join, Ty.hi]; omega)
      (by simp only [Ty.join, Ty.hi]; omega)
  have ebb : lit .i32 (C : Int) * lit .i32 (P : Int) =
      lit .i32 ((C * P : Nat) : Int) :=
    mul_lit .i32 .i32 C P (by simp only [Ty.join, Ty.hi]; omega)
      (by simp only [Ty.join, Ty.hi]; omega)
      (by simp only [Ty.join, Ty.hi]; omega)
  -- positions
  have hbpos : ∀ t', t' < T → t' * (B * C * P) + b * (C * P) + C * P ≤
      T * B * C * P := by
    intro t' ht'
    calc t' * (B * C * P) + b * (C * P) + C * P
        = t' * (B * C * P) + (b + 1) * (C * P) := by ring
      _ ≤ t' * (B * C * P) + B * (C * P) :=
        Nat.add_le_add_left (Nat.mul_le_mul_right _ hb) _
      _ = (t' + 1) * (B * C * P) := by ring
      _ ≤ T * (B * C * P) := Nat.mul_le_mul_right _ ht'
      _ = T * B * C * P := by ring
  have ebp : ∀ t', t' < T →
      lit .i32 (t' : Int) * lit .i32 ((B * C * P : Nat) : Int) +
        lit .i32 (b : Int) * lit .i32 ((C * P : Nat) : Int) =
      lit .i32 ((t' * (B * C * P) + b * (C * P) : Nat) : Int) := by
    intro t' ht'
    have := hbpos t' ht'
    rw [mul_lit .i32 .i32 t' (B * C * P) (by simp only [Ty.join, Ty.hi]; omega)
      (by simp only [Ty.join, Ty.hi]; omega)
      (by simp only [Ty.join, Ty.hi]; omega),
      mul_lit .i32 .i32 b (C * P) (by simp only [Ty.join, Ty.hi]; omega)
      (by simp only [Ty.join, Ty.hi]; omega)
      (by simp only [Ty.join, Ty.hi]; omega)]
    exact add_lit .i32 .i32 _ _ (by simp only [Ty.join, Ty.hi]; omega)
  have hin : ∀ c, c < C → c * P + p < C * P := fun c hc =>
    step_lt C P c p hc hp
  have epos : ∀ t' c, t' < T → c < C →
      lit .i32 ((t' * (B * C * P) + b * (C * P) : Nat) : Int) +
        lit .i32 (c : Int) * lit .i32 (P : Int) + lit .i32 (p : Int) =
      lit .i32 ((rowMajor [(T, t'), (B, b), (C, c), (P, p)] : Nat) : Int) := by
    intro t' c ht' hc
    have h1 := hbpos t' ht'
    have h2 := hin c hc
    rw [mul_lit .i32 .i32 c P (by simp only [Ty.join, Ty.hi]; omega)
      (by simp only [Ty.join, Ty.hi]; omega)
      (by simp only [Ty.join, Ty.hi]; omega)]
    simp only [Ty.join]
    rw [add_lit .i32 .i32 (t' * (B * C * P) + b * (C * P)) (c * P)
      (by simp only [Ty.join, Ty.hi]; omega)]
    simp only [Ty.join]
    rw [add_lit .i32 .i32 _ p (by simp only [Ty.join, Ty.hi]; omega), rowMajor4]
    simp only [Ty.join]
    exact congrArg (fun n : Nat => lit .i32 (n : Int)) (by ring)
  simp only [etb, ebb, ebp t ht]
  rw [show num (S : Int) = lit .i32 (S : Int) from rfl,
    loop_lit .i32 .i32 S _
      (fun s => [el "vis" [(T, t), (B, b), (C, s * step), (P, p)]])
      (by simp only [Ty.hi]; omega) (fun s hs => by
        have hlt : s * step < C := by
          have : s * step + step ≤ S * step := by
            calc s * step + step = (s + 1) * step := by ring
              _ ≤ S * step := Nat.mul_le_mul_right _ hs
          omega
        have hst : step ≤ S * step := Nat.le_mul_of_pos_left _ (by omega)
        have hss : s ≤ s * step := Nat.le_mul_of_pos_right _ hstep
        rw [show num (step : Int) = lit .i32 (step : Int) from rfl,
          mul_lit .i32 .i32 s step (by simp only [Ty.join, Ty.hi]; omega)
          (by simp only [Ty.join, Ty.hi]; omega)
          (by simp only [Ty.join, Ty.hi]; omega)]
        simp only [Ty.join]
        rw [epos t (s * step) ht hlt]
        rfl),
    loop_lit .i32 .i32 C _
      (fun c => [el "vis" [(T, t), (B, b), (C, c), (P, p)]])
      (by simp only [Ty.hi]; omega) (fun c hc => by
        rw [epos t c ht hc]; rfl)]
  rw [num0, whenLt_lit .i32 .i32 0 t _ (by decide)
    (by simp only [Ty.join, Ty.hi]; omega)]
  by_cases h0 : 0 < t
  · rw [if_pos h0, if_pos h0]
    have esub : lit .i32 (t : Int) - num 1 = lit .i32 ((t - 1 : Nat) : Int) := by
      rw [num1]
      exact sub_lit .i32 .i32 t 1 (by simp only [Ty.join, Ty.hi]; omega)
        (by omega)
    rw [loop_lit .i32 .i32 C _
      (fun c => [el "vis" [(T, t), (B, b), (C, c), (P, p)],
        el "vis" [(T, t - 1), (B, b), (C, c), (P, p)]])
      (by simp only [Ty.hi]; omega) (fun c hc => by
        rw [epos t c ht hc, esub, ebp (t - 1) (by omega),
          epos (t - 1) c (by omega) hc]; rfl)]
    simp only [seq_some, List.append_assoc]
  · rw [if_neg h0, if_neg h0]
    simp only [skip, seq_some, List.append_nil]

/-- Non-vacuity. -/
example : flaggerReads 100 500 1024 4 128 8 =
    some (flaggerSpec 100 500 1024 4 128 8) :=
  C115_flagger_partial _ _ _ _ _ _ (by unfold FitsInt; omega)
    (by unfold FitsInt; omega) (by unfold FitsInt; omega)
    (by unfold FitsInt; omega) (by unfold FitsInt; omega) (by omega) (by omega)
    (by unfold FitsInt; omega)

end Sdp.Width
