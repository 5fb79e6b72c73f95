import Verif.Width.Index

/-
C115 for the visibility functions on the CPU.
-/
namespace Sdp.Width

theorem num0 : num 0 = lit .i32 ((0 : Nat) : Int) := rfl
theorem num1 : num 1 = lit .i32 ((1 : Nat) : Int) := rfl
theorem num2 : num 2 = lit .i32 ((2 : Nat) : Int) := rfl
theorem num3 : num 3 = lit .i32 ((3 : Nat) : Int) := rfl

theorem add_num (t : Ty) (v k w : Nat) (h : v + k = w)
    (hw : (w : Int) ≤ (t.join .i32).hi) (ht : t.join .i32 = t) :
    lit t v + num k = lit t (w : Int) := by
  subst h
  show lit t v + lit .i32 (k : Nat) = _
  rw [add_lit t .i32 v k hw, ht]

/-- Three consecutive numbers of one element, stored in `unsigned int`. -/
theorem three_u32 (a : String) (v w1 w2 : Nat) (h : v < 2147483647)
    (h1 : v + 1 = w1) (h2 : v + 2 = w2) (rest : Trace) :
    (touch a (lit .u32 v) ;; touch a (lit .u32 v + num 1) ;;
      touch a (lit .u32 v + num 2) ;; rest) =
    (some [(a, (v : Int)), (a, (w1 : Int)), (a, (w2 : Int))] ;; rest) := by
  rw [show num 1 = num ((1 : Nat) : Int) from rfl,
    show num 2 = num ((2 : Nat) : Int) from rfl,
    add_num .u32 v 1 w1 h1 (by simp only [Ty.join, Ty.hi]; omega) rfl,
    add_num .u32 v 2 w2 h2 (by simp only [Ty.join, Ty.hi]; omega) rfl]
  cases rest <;> rfl

theorem componentsInt (K C P c : Nat) (hc : c < C) (hK : FitsInt K)
    (hP : FitsInt P) (hdir : FitsInt (K * 3)) (hflux : FitsInt (K * C * P)) :
    dftComponents (lit .i32 K) (lit .i32 C) (lit .i32 P) (lit .i32 c) =
      some (componentsSpec K C P c) := by
  unfold FitsInt at *
  unfold dftComponents componentsSpec each
  refine loop_lit .i32 .i32 K _ _ (by simp only [Ty.hi]; omega) fun k hk => ?_
  have hd : as .u32 (num 3 * lit .i32 (k : Int)) =
      lit .u32 ((rowMajor [(K, k), (3, 0)] : Nat) : Int) := by
    rw [num3, mul_lit .i32 .i32 3 k (by decide)
      (by simp only [Ty.join, Ty.hi]; omega)
      (by simp only [Ty.join, Ty.hi]; omega), rowMajor2]
    rw [as_u32 _ _ (K * 3) (by omega) (by omega)]
    congr 1
    omega
  simp only [hd]
  have hlt := rowMajor2_lt (n := K) (m := 3) hk (show 0 < 3 by omega)
  rw [three_u32 "dir" _ (rowMajor [(K, k), (3, 1)]) (rowMajor [(K, k), (3, 2)])
    (by simp only [rowMajor2] at hlt ⊢; omega) (by simp only [rowMajor2])
    (by simp only [rowMajor2])]
  have hl : (loop .i32 (lit .i32 P) fun p => touch "flux"
      (as .u32 (INDEX_3D (lit .i32 K) (lit .i32 C) (lit .i32 P) (lit .i32 k)
        (lit .i32 c) (num 0)) + p)) =
      some ((List.range P).flatMap fun p =>
        [el "flux" [(K, k), (C, c), (P, p)]]) := by
    refine loop_lit .i32 .i32 P _ _ (by simp only [Ty.hi]; omega)
      fun p hp => ?_
    have h3 := rowMajor3_lt (l := P) hk hc hp
    have h0 := rowMajor3_lt (l := P) hk hc (show 0 < P by omega)
    rw [num0, index3_lit (lit .i32 K) .i32 .i32 .i32 .i32 .i32 .i32 K C P k c 0
      hk hc (by omega) 2147483647 hflux (by decide),
      as_u32 _ _ (K * C * P) h0 (by omega),
      add_lit .u32 .i32 _ _ (by
        simp only [rowMajor3, Ty.join, Ty.hi] at h3 ⊢; omega), touch_lit]
    simp only [rowMajor3, el, Nat.add_zero]
  rw [hl, seq_some]
  rfl

theorem writeInt (T B C P t b c : Nat) (ht : t < T) (hb : b < B) (hc : c < C)
    (hP : FitsInt P) (hvis : FitsInt (T * B * C * P)) :
    dftWrite (lit .i32 T) (lit .i32 B) (lit .i32 C) (lit .i32 P) (lit .i32 t)
      (lit .i32 b) (lit .i32 c) = some (visSpec T B C P t b c) := by
  unfold FitsInt at *
  unfold dftWrite visSpec each
  refine loop_lit .i32 .i32 P _ _ (by simp only [Ty.hi]; omega) fun p hp => ?_
  rw [index4_lit (lit .i32 T) .i32 .i32 .i32 .i32 .i32 .i32 .i32 .i32 T B C P
    t b c p ht hb hc hp 2147483647 hvis (by decide),
    as_u32 _ _ _ (rowMajor4_lt ht hb hc hp) (by omega), touch_lit]
  rfl

/-- C115: sdp_dft_point_v00 on the CPU, while no array has more than 2^31-1
elements: it uses the documented elements, all of them and nothing else.
Missing: larger arrays, `C115_dft_v00_large_false`. -/
theorem C115_dft_v00_cpu_partial (T B C P K : Nat) (hT : FitsInt T)
    (hB : FitsInt B) (hC : FitsInt C) (hP : FitsInt P) (hK : FitsInt K)
    (huvw : FitsInt (T * B * C * 3)) (hdir : FitsInt (K * 3))
    (hflux : FitsInt (K * C * P)) (hvis : FitsInt (T * B * C * P)) :
    dftV00Cpu T B C P K = some (dftV00Spec T B C P K) := by
  unfold dftV00Cpu dftV00Spec
  simp only [intDim_fits _ hT, intDim_fits _ hB, intDim_fits _ hC,
    intDim_fits _ hP, intDim_fits _ hK]
  unfold each
  refine loop_lit .i32 .i32 T _ _ (by simp only [Ty.hi, FitsInt] at *; omega)
    fun t ht => ?_
  refine loop_lit .i32 .i32 C _ _ (by simp only [Ty.hi, FitsInt] at *; omega)
    fun c hc => ?_
  refine loop_lit .i32 .i32 B _ _ (by simp only [Ty.hi, FitsInt] at *; omega)
    fun b hb => ?_
  have hlt := rowMajor4_lt (o := 3) ht hb hc (show 2 < 3 by omega)
  rw [num3, num0,
    index4_lit (lit .i32 T) .i32 .i32 .i32 .i32 .i32 .i32 .i32 .i32 T B C 3
      t b c 0 ht hb hc (by omega) 2147483647 huvw (by decide),
    as_u32 _ _ _ (rowMajor4_lt ht hb hc (by omega))
      (by unfold FitsInt at huvw; omega)]
  rw [three_u32 "uvw" _ (rowMajor [(T, t), (B, b), (C, c), (3, 1)])
    (rowMajor [(T, t), (B, b), (C, c), (3, 2)])
    (by simp only [rowMajor4, FitsInt] at hlt huvw ⊢; omega)
    (by simp only [rowMajor4]) (by simp only [rowMajor4])]
  rw [componentsInt K C P c hc hK hP hdir hflux,
    writeInt T B C P t b c ht hb hc hP hvis, seq_some, seq_some]
  simp only [List.append_assoc]
  rfl

/-- C115: sdp_dft_point_v01 on the CPU, while no array has more than 2^31-1
elements.  Missing: larger arrays, as for v00. -/
theorem C115_dft_v01_cpu_partial (T B C P K : Nat) (hT : FitsInt T)
    (hB : FitsInt B) (hC : FitsInt C) (hP : FitsInt P) (hK : FitsInt K)
    (huvw : FitsInt (T * B * 3)) (hdir : FitsInt (K * 3))
    (hflux : FitsInt (K * C * P)) (hvis : FitsInt (T * B * C * P)) :
    dftV01Cpu T B C P K = some (dftV01Spec T B C P K) := by
  unfold dftV01Cpu dftV01Spec
  simp only [intDim_fits _ hT, intDim_fits _ hB, intDim_fits _ hC,
    intDim_fits _ hP, intDim_fits _ hK]
  unfold each
  refine loop_lit .i32 .i32 T _ _ (by simp only [Ty.hi, FitsInt] at *; omega)
    fun t ht => ?_
  refine loop_lit .i32 .i32 B _ _ (by simp only [Ty.hi, FitsInt] at *; omega)
    fun b hb => ?_
  have hlt := rowMajor3_lt (l := 3) ht hb (show 2 < 3 by omega)
  rw [num3, num0,
    index3_lit (lit .i32 T) .i32 .i32 .i32 .i32 .i32 .i32 T B 3
      t b 0 ht hb (by omega) 2147483647 huvw (by decide),
    as_u32 _ _ _ (rowMajor3_lt ht hb (by omega))
      (by unfold FitsInt at huvw; omega)]
  rw [three_u32 "uvw" _ (rowMajor [(T, t), (B, b), (3, 1)])
    (rowMajor [(T, t), (B, b), (3, 2)])
    (by simp only [rowMajor3, FitsInt] at hlt huvw ⊢; omega)
    (by simp only [rowMajor3]) (by simp only [rowMajor3])]
  rw [loop_lit .i32 .i32 C _
    (fun c => componentsSpec K C P c ++ visSpec T B C P t b c)
    (by simp only [Ty.hi, FitsInt] at *; omega) (fun c hc => by
      rw [componentsInt K C P c hc hK hP hdir hflux,
        writeInt T B C P t b c ht hb hc hP hvis, seq_some]), seq_some]
  rfl

/-- Non-vacuity: an SKA-like case: 100 times, 1000 baselines, 256 channels, 4
polarisations, 1000 components. -/
example : dftV00Cpu 100 1000 256 4 1000 = some (dftV00Spec 100 1000 256 4 1000) :=
  C115_dft_v00_cpu_partial _ _ _ _ _ (by unfold FitsInt; omega)
    (by unfold FitsInt; omega) (by unfold FitsInt; omega)
    (by unfold FitsInt; omega) (by unfold FitsInt; omega)
    (by unfold FitsInt; omega) (by unfold FitsInt; omega)
    (by unfold FitsInt; omega) (by unfold FitsInt; omega)

example : dftV01Cpu 100 1000 256 4 1000 = some (dftV01Spec 100 1000 256 4 1000) :=
  C115_dft_v01_cpu_partial _ _ _ _ _ (by unfold FitsInt; omega)
    (by unfold FitsInt; omega) (by unfold FitsInt; omega)
    (by unfold FitsInt; omega) (by unfold FitsInt; omega)
    (by unfold FitsInt; omega) (by unfold FitsInt; omega)
    (by unfold FitsInt; omega) (by unfold FitsInt; omega)

example : dftV00Cpu 1 2 1 1 1 = some
    [("uvw", 0), ("uvw", 1), ("uvw", 2), ("dir", 0), ("dir", 1), ("dir", 2),
      ("flux", 0), ("vis", 0), ("uvw", 3), ("uvw", 4), ("uvw", 5), ("dir", 0),
      ("dir", 1), ("dir", 2), ("flux", 0), ("vis", 1)] := by decide +kernel

end Sdp.Width
