import Verif.Width.LongProps

/-
C115 for the GPU kernels: either the launch is refused (and an error is set), or
the threads use exactly the documented elements.
-/
namespace Sdp.Width

theorem flatMap_empty (l : List Nat) : l.flatMap (fun _ => ([] : List Acc)) = [] :=
  by simp

theorem guard3 (f : Nat → Nat → Nat → List Acc) {nx ny nz X Y Z : Nat}
    (hx : nx ≤ X) (hy : ny ≤ Y) (hz : nz ≤ Z) :
    ((List.range Z).flatMap fun z => (List.range Y).flatMap fun y =>
      (List.range X).flatMap fun x =>
        if x < nx then if y < ny then if z < nz then f z y x else [] else []
        else []) =
    each nz fun z => each ny fun y => each nx fun x => f z y x := by
  unfold each
  rw [← flatMap_guard _ nz Z hz]
  refine flatMap_ext fun z _ => ?_
  by_cases h : z < nz
  · simp only [h, if_true]
    rw [← flatMap_guard _ ny Y hy]
    refine flatMap_ext fun y _ => ?_
    by_cases h' : y < ny
    · simp only [h', if_true]
      exact flatMap_guard _ nx X hx
    · simp only [h', if_false, ite_self]
      exact flatMap_empty _
  · simp only [h, if_false, ite_self, flatMap_empty]

theorem gridDim_eq (n T : Nat) (hT : 0 < T) (hn : n < 4294967296) :
    gridDim n T = (n + T - 1) / T := by
  unfold gridDim
  apply Nat.mod_eq_of_lt
  rcases Nat.eq_zero_or_pos n with h | h
  · subst h
    rw [Nat.div_eq_of_lt (by omega)]
    omega
  · rw [Nat.div_lt_iff_lt_mul hT]
    have : n * T + T ≤ 4294967296 * T := by
      calc n * T + T = (n + 1) * T := by ring
        _ ≤ 4294967296 * T := Nat.mul_le_mul_right _ hn
    have h2 : n ≤ n * T := Nat.le_mul_of_pos_right _ hT
    omega

theorem le_grid (n T : Nat) (hT : 0 < T) : n ≤ (n + T - 1) / T * T := by
  have h1 := Nat.div_add_mod (n + T - 1) T
  have h2 := Nat.mod_lt (n + T - 1) hT
  rw [Nat.mul_comm] at h1
  omega

theorem launch3_lit (nx ny nz Tx Ty Tz : Nat) (hTx : 0 < Tx) (hTy : 0 < Ty)
    (hTz : 0 < Tz) (hx : nx < 4294967296) (hy : ny < 4294967296)
    (hz : nz < 4294967296) (body : Num → Num → Num → Trace)
    (f : Nat → Nat → Nat → List Acc)
    (h : ∀ x y z, x < (nx + Tx - 1) / Tx * Tx → y < (ny + Ty - 1) / Ty * Ty →
      z < (nz + Tz - 1) / Tz * Tz →
      body (threadIndex x) (threadIndex y) (threadIndex z) =
        some (if x < nx then if y < ny then if z < nz then f z y x else []
          else [] else [])) :
    launch3 nx ny nz Tx Ty Tz body = .refused ∨
      launch3 nx ny nz Tx Ty Tz body = .ran
        (some (each nz fun z => each ny fun y => each nx fun x => f z y x)) := by
  unfold launch3
  rw [gridDim_eq nx Tx hTx hx, gridDim_eq ny Ty hTy hy, gridDim_eq nz Tz hTz hz]
  split
  · exact Or.inl rfl
  · right
    rw [← guard3 f (le_grid nx Tx hTx) (le_grid ny Ty hTy) (le_grid nz Tz hTz)]
    congr 1
    refine iters_some _ _ _ fun z hz' => iters_some _ _ _ fun y hy' =>
      iters_some _ _ _ fun x hx' => h x y z hx' hy' hz'

/-- With sizes the hardware accepts the launch is not refused. -/
theorem launch3_runs (nx ny nz Tx Ty Tz : Nat) (body : Num → Num → Num → Trace)
    (hTx : 0 < Tx) (hTy : 0 < Ty) (hTz : 0 < Tz) (hx : 0 < nx) (hy : 0 < ny)
    (hz : 0 < nz) (hx' : nx ≤ 2147483647) (hy' : ny ≤ 65535 * Ty)
    (hz' : nz ≤ 65535 * Tz) (hy2 : ny < 4294967296) (hz2 : nz < 4294967296) :
    launch3 nx ny nz Tx Ty Tz body ≠ .refused := by
  unfold launch3
  rw [gridDim_eq nx Tx hTx (by omega), gridDim_eq ny Ty hTy (by omega),
    gridDim_eq nz Tz hTz (by omega)]
  have p : ∀ n T : Nat, 0 < T → 0 < n → 0 < (n + T - 1) / T := by
    intro n T hT hn
    exact Nat.div_pos (by omega) hT
  have q : ∀ n T M : Nat, 0 < T → n ≤ M * T → (n + T - 1) / T ≤ M := by
    intro n T M hT hn
    refine Nat.lt_succ_iff.1 ((Nat.div_lt_iff_lt_mul hT).2 ?_)
    rw [Nat.succ_mul]
    omega
  have a1 := p nx Tx hTx hx
  have a2 := p ny Ty hTy hy
  have a3 := p nz Tz hTz hz
  have b1 := q nx Tx 2147483647 hTx (by
    calc nx ≤ 2147483647 := hx'
      _ ≤ 2147483647 * Tx := Nat.le_mul_of_pos_right _ hTx)
  have b2 := q ny Ty 65535 hTy hy'
  have b3 := q nz Tz 65535 hTz hz'
  rw [if_neg (by omega)]
  intro h
  cases h

theorem thread_u32 (g : Nat) (h : g < 4294967296) :
    threadIndex g = lit .u32 g := by
  unfold threadIndex
  rw [wrap_of_fits .u32 g (by simp only [Ty.hi]; omega)]

theorem thread_i32 (g : Nat) (h : g < 2147483648) :
    as .i32 (threadIndex g) = lit .i32 g := by
  rw [thread_u32 g (by omega)]
  exact as_lit .i32 .u32 g (by simp only [Ty.hi]; omega)

theorem thread_i64 (g : Nat) (h : g < 4294967296) :
    as .i64 (threadIndex g) = lit .i64 g := by
  rw [thread_u32 g h]
  exact as_lit .i64 .u32 g (by simp only [Ty.hi]; omega)

theorem ite_some (c : Prop) [Decidable c] (a : List Acc) :
    (if c then some a else skip) = some (if c then a else []) := by
  split <;> rfl

/-- The bounds check of the kernels with three dimensions, in `int`. -/
theorem guards_i32 (x y z nx ny nz : Nat) (hx : x ≤ 2147483647)
    (hy : y ≤ 2147483647) (hz : z ≤ 2147483647) (hnx : nx ≤ 2147483647)
    (hny : ny ≤ 2147483647) (hnz : nz ≤ 2147483647) (body : Trace)
    (f : List Acc) (h : x < nx → y < ny → z < nz → body = some f) :
    whenLt (lit .i32 x) (lit .i32 nx) (whenLt (lit .i32 y) (lit .i32 ny)
      (whenLt (lit .i32 z) (lit .i32 nz) body)) =
    some (if x < nx then if y < ny then if z < nz then f else [] else []
      else []) := by
  rw [whenLt_lit .i32 .i32 x nx _ (by simp only [Ty.join, Ty.hi]; omega)
      (by simp only [Ty.join, Ty.hi]; omega),
    whenLt_lit .i32 .i32 y ny _ (by simp only [Ty.join, Ty.hi]; omega)
      (by simp only [Ty.join, Ty.hi]; omega),
    whenLt_lit .i32 .i32 z nz _ (by simp only [Ty.join, Ty.hi]; omega)
      (by simp only [Ty.join, Ty.hi]; omega)]
  by_cases h1 : x < nx
  · by_cases h2 : y < ny
    · by_cases h3 : z < nz
      · simp only [h1, h2, h3, if_true, h h1 h2 h3]
      · simp only [h1, h2, h3, if_true, if_false, skip]
    · simp only [h1, h2, if_true, if_false, skip]
  · simp only [h1, if_false, skip]

/-- The same in `int64_t`. -/
theorem guards_i64 (x y z nx ny nz : Nat) (hx : x ≤ 9223372036854775807)
    (hy : y ≤ 9223372036854775807) (hz : z ≤ 9223372036854775807)
    (hnx : nx ≤ 9223372036854775807) (hny : ny ≤ 9223372036854775807)
    (hnz : nz ≤ 9223372036854775807) (body : Trace)
    (f : List Acc) (h : x < nx → y < ny → z < nz → body = some f) :
    whenLt (lit .i64 x) (lit .i64 nx) (whenLt (lit .i64 y) (lit .i64 ny)
      (whenLt (lit .i64 z) (lit .i64 nz) body)) =
    some (if x < nx then if y < ny then if z < nz then f else [] else []
      else []) := by
  rw [whenLt_lit .i64 .i64 x nx _ (by simp only [Ty.join, Ty.hi]; omega)
      (by simp only [Ty.join, Ty.hi]; omega),
    whenLt_lit .i64 .i64 y ny _ (by simp only [Ty.join, Ty.hi]; omega)
      (by simp only [Ty.join, Ty.hi]; omega),
    whenLt_lit .i64 .i64 z nz _ (by simp only [Ty.join, Ty.hi]; omega)
      (by simp only [Ty.join, Ty.hi]; omega)]
  by_cases h1 : x < nx
  · by_cases h2 : y < ny
    · by_cases h3 : z < nz
      · simp only [h1, h2, h3, if_true, h h1 h2 h3]
      · simp only [h1, h2, h3, if_true, if_false, skip]
    · simp only [h1, h2, if_true, if_false, skip]
  · simp only [h1, if_false, skip]

theorem componentsGpuInt (K C P c : Nat) (hc : c < C) (hK : FitsInt K)
    (hP : FitsInt P) (hflux : FitsInt (K * C * P)) :
    dftComponentsGpu (lit .i32 K) (lit .i32 C) (lit .i32 P) (lit .i32 c) =
      some (each K fun k => [el "dir" [(K, k)]] ++
        each P fun p => [el "flux" [(K, k), (C, c), (P, p)]]) := by
  unfold FitsInt at *
  unfold dftComponentsGpu each
  refine loop_lit .i32 .i32 K _ _ (by simp only [Ty.hi]; omega) fun k hk => ?_
  dsimp only
  rw [touch_lit, loop_lit .i32 .i32 P _
    (fun p => [el "flux" [(K, k), (C, c), (P, p)]])
    (by simp only [Ty.hi]; omega) (fun p hp => by
      have h3 := rowMajor3_lt (l := P) hk hc hp
      have h0 := rowMajor3_lt (l := P) hk hc (show 0 < P by omega)
      rw [num0, index3_lit (lit .i32 K) .i32 .i32 .i32 .i32 .i32 .i32 K C P k c
        0 hk hc (by omega) 2147483647 hflux (by decide),
        as_u32 _ _ (K * C * P) h0 (by omega),
        add_lit .u32 .i32 _ _ (by
          simp only [rowMajor3, Ty.join, Ty.hi] at h3 ⊢; omega), touch_lit]
      simp only [rowMajor3, el, Nat.add_zero]), seq_some]
  simp only [el, rowMajor1]

/-- C115: dft_point_v00 on the GPU, while no array has more than 2^31-1
elements: refused with an error, or exactly the documented elements.
Missing: larger arrays, `C115_dft_v00_gpu_large_false`. -/
theorem C115_dft_v00_gpu_partial (T B C P K : Nat) (hT : FitsInt T)
    (hB : FitsInt B) (hC : FitsInt C) (hP : FitsInt P) (hK : FitsInt K)
    (huvw : FitsInt (T * B * C)) (hflux : FitsInt (K * C * P))
    (hvis : FitsInt (T * B * C * P)) :
    dftV00Gpu T B C P K = .refused ∨
      dftV00Gpu T B C P K = .ran (some (dftV00GpuSpec T B C P K)) := by
  unfold dftV00Gpu dftV00GpuSpec
  simp only [intDim_fits _ hT, intDim_fits _ hB, intDim_fits _ hC,
    intDim_fits _ hP, intDim_fits _ hK]
  unfold FitsInt at hT hB hC
  refine launch3_lit B C T 128 2 2 (by omega) (by omega) (by omega) (by omega)
    (by omega) (by omega) _ _ fun x y z hx hy hz => ?_
  rw [thread_i32 x (by omega), thread_i32 y (by omega), thread_i32 z (by omega)]
  refine guards_i32 x y z B C T (by omega) (by omega) (by omega) hB hC hT _ _
    fun hb hc ht => ?_
  rw [index3_lit (lit .i32 T) .i32 .i32 .i32 .i32 .i32 .i32 T B C
      z x y ht hb hc 2147483647 huvw (by decide),
    as_u32 _ _ _ (rowMajor3_lt ht hb hc) (by unfold FitsInt at huvw; omega),
    touch_lit, componentsGpuInt K C P y hc hK hP hflux,
    writeInt T B C P z x y ht hb hc hP hvis, seq_some, seq_some]
  simp only [List.append_assoc]
  rfl

/-- C115: sdp_phase_rotate_vis on the GPU, while every dimension fits the
launch's `unsigned int` arithmetic (at most 2^32-256): refused with an error, or
exactly the documented elements.  The arrays may be of any size.  Missing: more
baselines, `C115_rotate_vis_gpu_large_false`. -/
theorem C115_rotate_vis_gpu_partial (T B C P : Nat) (hT : T ≤ 4294967040)
    (hB : B ≤ 4294967040) (hC : C ≤ 4294967040) (hP : FitsLong P)
    (huvw : FitsLong (T * B)) (hvis : FitsLong (T * B * C * P)) :
    rotateVisGpu T B C P = .refused ∨
      rotateVisGpu T B C P = .ran (some (rotateVisGpuSpec T B C P)) := by
  unfold rotateVisGpu rotateVisGpuSpec longDim
  unfold FitsLong at *
  refine launch3_lit B C T 128 2 2 (by omega) (by omega) (by omega) (by omega)
    (by omega) (by omega) _ _ fun x y z hx hy hz => ?_
  dsimp only
  rw [thread_i64 x (by omega), thread_i64 y (by omega), thread_i64 z (by omega)]
  refine guards_i64 x y z B C T (by omega) (by omega) (by omega) (by omega)
    (by omega) (by omega) _ _ fun hb hc ht => ?_
  rw [step_lit .i64 .i64 .i64 T B z x ht hb (by simp only [Ty.join, Ty.hi]; omega)
    (by simp only [Ty.join, Ty.hi]; omega), touch_lit,
    loop_lit .i64 .i64 P _
      (fun p => [el "in" [(T, z), (B, x), (C, y), (P, p)],
        el "out" [(T, z), (B, x), (C, y), (P, p)]])
      (by simp only [Ty.hi]; omega) (fun p hp => by
        rw [index4_lit (lit .i64 T) .i64 .i64 .i64 .i64 .i64 .i64 .i64 .i64
          T B C P z x y p ht hb hc hp 9223372036854775807 hvis (by decide)]
        rfl), seq_some]
  simp only [el, rowMajor2]
  rfl

/-- C115: sdp_phase_rotate_uvw on the GPU, up to 2^32-256 coordinates.  Missing:
more, `C115_rotate_uvw_gpu_large_false`. -/
theorem C115_rotate_uvw_gpu_partial (T B : Nat) (h : T * B ≤ 4294967040) :
    rotateUvwGpu T B = .refused ∨
      rotateUvwGpu T B = .ran (some (rotateUvwGpuSpec (T * B))) := by
  unfold rotateUvwGpu rotateUvwGpuSpec longDim launch1
  generalize T * B = n at *
  rw [gridDim_eq n 256 (by omega) (by omega)]
  split
  · exact Or.inl rfl
  · right
    unfold each
    rw [← flatMap_guard _ n _ (le_grid n 256 (by omega))]
    congr 1
    refine iters_some _ _ _ fun g hg => ?_
    dsimp only
    rw [thread_i64 g (by omega), whenLt_lit .i64 .i64 g n _
      (by simp only [Ty.join, Ty.hi]; omega)
      (by simp only [Ty.join, Ty.hi]; omega)]
    simp only [touch_lit, seq_some, ite_some, el, rowMajor1]
    rfl

/-- C115: gridding of weights on the GPU, while neither the arrays nor the grid
have more than 2^31-1 elements: refused with an error, or exactly the documented
elements.  Missing: larger ones, `C115_weights_gpu_large_false`. -/
theorem C115_weights_gpu_partial (T B C P G : Nat)
    (cell : Nat → Nat → Nat → Option (Nat × Nat)) (hcell : OnGrid G cell)
    (hT : FitsInt T) (hB : FitsInt B) (hC : FitsInt C) (hP : FitsInt P)
    (hG : FitsInt G) (huvw : FitsInt (T * B * 3))
    (hvis : FitsInt (T * B * C * P)) (hgrid : FitsInt (G * G * P)) :
    weightsGpu T B C P G cell = .refused ∨
      weightsGpu T B C P G cell =
        .ran (some (weightsGpuSpec T B C P G cell)) := by
  unfold weightsGpu weightsGpuSpec
  simp only [intDim_fits _ hT, intDim_fits _ hB, intDim_fits _ hC,
    intDim_fits _ hP, intDim_fits _ hG]
  unfold FitsInt at *
  refine launch3_lit B C T 128 2 2 (by omega) (by omega) (by omega) (by omega)
    (by omega) (by omega) _ _ fun x y z hx hy hz => ?_
  rw [thread_i32 x (by omega), thread_i32 y (by omega), thread_i32 z (by omega)]
  refine guards_i32 x y z B C T (by omega) (by omega) (by omega) hB hC hT _ _
    fun hb hc ht => ?_
  have hlt := rowMajor3_lt (l := 3) ht hb (show 2 < 3 by omega)
  simp only [rowMajor3] at hlt
  have hu : INDEX_3D (lit .i32 T) (lit .i32 B) (num 3) (lit .i32 z) (lit .i32 x)
      (num 0) = lit .i32 ((rowMajor [(T, z), (B, x), (3, 0)] : Nat) : Int) := by
    rw [num3, num0]
    exact index3_lit (lit .i32 T) .i32 .i32 .i32 .i32 .i32 .i32 T B 3
      z x 0 ht hb (by omega) 2147483647 huvw (by decide)
  simp only [hu]
  rw [show num 0 = num ((0 : Nat) : Int) from rfl,
    show num 1 = num ((1 : Nat) : Int) from rfl,
    add_num .i32 (rowMajor [(T, z), (B, x), (3, 0)]) 0
      (rowMajor [(T, z), (B, x), (3, 0)]) (Nat.add_zero _)
      (by simp only [Ty.join, Ty.hi, rowMajor3]; omega) rfl,
    add_num .i32 (rowMajor [(T, z), (B, x), (3, 0)]) 1
      (rowMajor [(T, z), (B, x), (3, 1)]) (by simp only [rowMajor3])
      (by simp only [Ty.join, Ty.hi, rowMajor3]; omega) rfl]
  simp only [show ∀ (x : Int) (f : V → Trace), (lit .i32 x).bind f = f ⟨.i32, x⟩
    from fun _ _ => rfl, Int.toNat_natCast]
  unfold weightsAt
  rcases hce : cell z x y with _ | ⟨u, v⟩
  · simp only [touch_lit, seq_some, skip, el, rowMajor1]
    rfl
  · obtain ⟨hgu, hgv⟩ := hcell z x y u v hce
    dsimp only
    rw [loop_lit .i32 _ P _ (fun p => [el "grid" [(G, u), (G, v), (P, p)],
      el "weight" [(T, z), (B, x), (C, y), (P, p)]])
      (by simp only [Ty.hi]; omega) (fun p hp => by
      have h3 := rowMajor3_lt (l := P) hgu hgv hp
      have h4 := rowMajor4_lt (o := P) ht hb hc hp
      simp only [rowMajor3] at h3
      simp only [rowMajor4] at h4
      rw [show num ((0 : Nat) : Int) = lit .i32 ((0 : Nat) : Int) from rfl,
        index3_lit (lit .i32 G) .i32 .i32 .i32 .i32 .i32 .i32 G G P u v 0
          hgu hgv (by omega) 2147483647 hgrid (by decide),
        index4_lit (lit .i32 T) .i32 .i32 .i32 .i32 .i32 .i32 .i32 .i32
          T B C P z x y 0 ht hb hc (by omega) 2147483647 hvis
          (by decide),
        add_lit .i32 .i32 _ p
          (by simp only [Ty.join, Ty.hi, rowMajor3]; omega),
        add_lit .i32 .i32 _ p
          (by simp only [Ty.join, Ty.hi, rowMajor4]; omega)]
      simp only [touch_lit, seq_some, el, rowMajor3, rowMajor4, Nat.add_zero]
      rfl)]
    simp only [touch_lit, seq_some, el, rowMajor1]
    rfl

/-- C115: a launch with at most 2^31-1 baselines and 131070 channels and times
(none of them 0) is not refused. -/
theorem C115_dft_v00_gpu_runs (T B C P K : Nat) (hT : 0 < T) (hB : 0 < B)
    (hC : 0 < C) (hB' : FitsInt B) (hC' : C ≤ 131070) (hT' : T ≤ 131070) :
    dftV00Gpu T B C P K ≠ .refused := by
  unfold FitsInt at hB'
  unfold dftV00Gpu
  apply launch3_runs <;> omega

/-- Non-vacuity. -/
example : dftV00Gpu 100 1000 256 4 1000 =
    .ran (some (dftV00GpuSpec 100 1000 256 4 1000)) :=
  (C115_dft_v00_gpu_partial 100 1000 256 4 1000 (by unfold FitsInt; omega)
    (by unfold FitsInt; omega) (by unfold FitsInt; omega)
    (by unfold FitsInt; omega) (by unfold FitsInt; omega)
    (by unfold FitsInt; omega) (by unfold FitsInt; omega)
    (by unfold FitsInt; omega)).resolve_left
    (C115_dft_v00_gpu_runs _ _ _ _ _ (by omega) (by omega) (by omega)
      (by unfold FitsInt; omega) (by omega) (by omega))

end Sdp.Width
