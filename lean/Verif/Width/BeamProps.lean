import Verif.Width.IntFacts

/-
C117 for the beam functions.
-/
namespace Sdp.Width

/-- Patterns of antenna `i` at point `o`. -/
theorem pattern_lit (P N D o i : Nat) (hP : P = 1 ∨ P = 4) (idx : Option (Nat → Nat))
    (data ex ey : Bool) (ho : o < N) (hN : FitsInt N)
    (hD : data = true → patternOf idx i < D ∧ FitsInt (D * N * P)) :
    (if data then polTouch P ex ey "data"
      (lit .i32 P * (beamOf idx (lit .i32 i) * lit .i32 N + lit .i32 o)) else skip) =
    some (patternSpec P N D o idx data ex ey i) := by
  unfold patternSpec
  cases data with
  | false => rfl
  | true =>
    obtain ⟨hb, hF⟩ := hD rfl
    unfold FitsInt at *
    simp only [if_true]
    have eb : beamOf idx (lit .i32 i) = lit .i32 (patternOf idx i) := by
      cases idx <;> rfl
    have h1 := step_lt D N (patternOf idx i) o hb ho
    have h2 : (patternOf idx i * N + o) * P + P ≤ D * N * P := by
      calc (patternOf idx i * N + o) * P + P = (patternOf idx i * N + o + 1) * P := by ring
        _ ≤ D * N * P := Nat.mul_le_mul_right _ h1
    have hPp : 0 < P := by omega
    have h3 : D * N ≤ D * N * P := Nat.le_mul_of_pos_right _ hPp
    have h4 : patternOf idx i * N ≤ patternOf idx i * N + o := Nat.le_add_right _ _
    have h5 : patternOf idx i ≤ patternOf idx i * N := Nat.le_mul_of_pos_right _ (by omega)
    have e1 : (lit .i32 ((patternOf idx i : Nat) : Int)) * lit .i32 ((N : Nat) : Int) =
        lit .i32 ((patternOf idx i * N : Nat) : Int) := by
      rw [mul_lit .i32 .i32 _ _ (by simp only [Ty.join, Ty.hi]; omega) (by simp only [Ty.join, Ty.hi]; omega)
        (by simp only [Ty.join, Ty.hi]; omega)]
      rfl
    have e2 : lit .i32 ((patternOf idx i * N : Nat) : Int) + lit .i32 ((o : Nat) : Int) =
        lit .i32 ((patternOf idx i * N + o : Nat) : Int) := by
      rw [add_lit .i32 .i32 _ _ (by simp only [Ty.join, Ty.hi]; omega)]
      rfl
    have h6 : patternOf idx i * N + o ≤ (patternOf idx i * N + o) * P := Nat.le_mul_of_pos_right _ hPp
    have e3 : lit .i32 ((P : Nat) : Int) * lit .i32 ((patternOf idx i * N + o : Nat) : Int) =
        lit .i32 (((patternOf idx i * N + o) * P : Nat) : Int) := by
      rw [Nat.mul_comm (patternOf idx i * N + o) P, mul_lit .i32 .i32 _ _ (by simp only [Ty.join, Ty.hi]; omega)
        (by simp only [Ty.join, Ty.hi]; omega) (by rw [Nat.mul_comm P]; simp only [Ty.join, Ty.hi]; omega)]
      rfl
    rw [eb, e1, e2, e3, polTouch_lit P hP ex ey "data" _ (by omega)]
    simp only [el, rowMajor3]

theorem output_lit (P N off o : Nat) (hP : P = 1 ∨ P = 4) (ex ey : Bool) (ho : o < N)
    (hF : FitsInt ((off + N) * P)) :
    polTouch P ex ey "output" (lit .i32 P * (lit .i32 o + lit .i32 off)) =
      some (outputSpec P N off o ex ey) := by
  unfold FitsInt at hF
  have hPp : 0 < P := by omega
  have h2 : (off + o) * P + P ≤ (off + N) * P := by
    calc (off + o) * P + P = (off + o + 1) * P := by ring
      _ ≤ (off + N) * P := Nat.mul_le_mul_right _ (by omega)
  have h6 : off + o ≤ (off + o) * P := Nat.le_mul_of_pos_right _ hPp
  have e2 : lit .i32 ((o : Nat) : Int) + lit .i32 ((off : Nat) : Int) = lit .i32 ((off + o : Nat) : Int) := by
    rw [Nat.add_comm off o, add_lit .i32 .i32 _ _ (by simp only [Ty.join, Ty.hi]; omega)]
    rfl
  have e3 : lit .i32 ((P : Nat) : Int) * lit .i32 ((off + o : Nat) : Int) =
      lit .i32 (((off + o) * P : Nat) : Int) := by
    rw [Nat.mul_comm (off + o) P, mul_lit .i32 .i32 _ _ (by simp only [Ty.join, Ty.hi]; omega)
      (by simp only [Ty.join, Ty.hi]; omega) (by rw [Nat.mul_comm P]; simp only [Ty.join, Ty.hi]; omega)]
    rfl
  rw [e2, e3, polTouch_lit P hP ex ey "output" _ (by omega)]
  simp only [outputSpec, el, rowMajor2]

theorem point_lit (N off o : Nat) (ho : o < N) (hF : FitsInt (off + N)) :
    (touch "x_out" (lit .i32 o + lit .i32 off) ;; touch "y_out" (lit .i32 o + lit .i32 off) ;;
      touch "z_out" (lit .i32 o + lit .i32 off)) = some (pointSpec N off o) := by
  unfold FitsInt at hF
  have e2 : lit .i32 ((o : Nat) : Int) + lit .i32 ((off : Nat) : Int) = lit .i32 ((off + o : Nat) : Int) := by
    rw [Nat.add_comm off o, add_lit .i32 .i32 _ _ (by simp only [Ty.join, Ty.hi]; omega)]
    rfl
  rw [e2]
  simp only [touch_lit, seq_some, pointSpec, el, rowMajor1]
  rfl

theorem seq_assoc (a b c : Trace) : ((a ;; b) ;; c) = (a ;; b ;; c) := by
  cases a <;> cases b <;> cases c <;> simp [seq]

/-- C117: sdp_station_beam_aperture_array on the CPU reads and writes exactly the
documented elements of its arrays, while the element patterns and the part of
the output that is used have at most 2^31-1 values.  Missing: more,
`C117_station_large_false`. -/
theorem C117_station_partial (P E N offPt offBeam D : Nat) (hP : P = 1 ∨ P = 4)
    (idx : Option (Nat → Nat)) (data ex ey : Bool) (hE : FitsInt E)
    (hpt : FitsInt (offPt + N)) (hout : FitsInt ((offBeam + N) * P))
    (hD : data = true → (∀ i < E, patternOf idx i < D) ∧ FitsInt (D * N * P)) :
    stationCpu P E N offPt offBeam idx data ex ey =
      some (stationSpec P E N offPt offBeam idx data ex ey D) := by
  have hN : FitsInt N := by unfold FitsInt at *; omega
  unfold stationCpu stationSpec
  simp only [intDim_fits E hE]
  unfold each
  refine loop_lit .i32 .i32 N _ _ (by unfold FitsInt at hN; simp only [Ty.hi]; omega) fun o ho => ?_
  rw [← seq_assoc (touch "y_out" _), ← seq_assoc (touch "x_out" _), point_lit N offPt o ho hpt,
    loop_lit .i32 .i32 E _ (fun i => [el "x_in" [(E, i)], el "y_in" [(E, i)], el "z_in" [(E, i)],
        el "weights" [(E, i)]] ++ patternSpec P N D o idx data ex ey i)
      (by unfold FitsInt at hE; simp only [Ty.hi]; omega) (fun i hi => by
        rw [pattern_lit P N D o i hP idx data ex ey ho hN fun h => ⟨(hD h).1 i hi, (hD h).2⟩]
        simp only [touch_lit, seq_some, el, rowMajor1]
        rfl),
    output_lit P N offBeam o hP ex ey ho hout]
  simp only [seq_some, List.append_assoc]

/-- C117: the same on the GPU; a launch is refused with an error, or exactly the
documented elements are used.  Missing: more, `C117_station_gpu_large_false`. -/
theorem C117_station_gpu_partial (P E N offPt offBeam D : Nat) (hP : P = 1 ∨ P = 4)
    (idx : Option (Nat → Nat)) (data ex ey : Bool) (hE : FitsInt E)
    (hpt : FitsInt (offPt + N)) (hout : FitsInt ((offBeam + N) * P)) (hN : N ≤ 2147483392)
    (hD : data = true → (∀ i < E, patternOf idx i < D) ∧ FitsInt (D * N * P)) :
    stationGpu P E N offPt offBeam idx data ex ey = .refused ∨
    stationGpu P E N offPt offBeam idx data ex ey =
      .ran (some (stationGpuSpec P E N offPt offBeam idx data ex ey D)) := by
  have hN' : FitsInt N := by unfold FitsInt at *; omega
  unfold stationGpu stationGpuSpec launch1
  rw [gridDim_eq N 256 (by omega) (by omega)]
  split
  · exact Or.inl rfl
  · right
    unfold each
    rw [← flatMap_guard _ N _ (le_grid N 256 (by omega))]
    refine congrArg Launched.ran (iters_some _ _ _ fun g hg => ?_)
    simp only [intDim_fits E hE]
    rw [thread_i32 g (by omega)]
    simp only [whenLt_lit .i32 .i32 g N _ (by simp only [Ty.join, Ty.hi]; omega)
      (by simp only [Ty.join, Ty.hi]; omega)]
    by_cases ho : g < N
    · simp only [if_pos ho]
      rw [point_lit N offPt g ho hpt,
        loop_lit .i32 .i32 E _ (fun i => patternSpec P N D g idx data ex ey i)
        (by unfold FitsInt at hE; simp only [Ty.hi]; omega) (fun i hi =>
          pattern_lit P N D g i hP idx data ex ey ho hN' fun h => ⟨(hD h).1 i hi, (hD h).2⟩),
        output_lit P N offBeam g hP ex ey ho hout]
      simp only [seq_some, List.append_assoc]
    · simp only [if_neg ho]
      rfl

/-- C117: dipole patterns, while the last value written has an index below
2^31.  Missing: more, `C117_dipole_large_false`. -/
theorem C117_dipole_partial (N stride off : Nat) (hs : 0 < stride) (h : FitsInt (N * stride + off)) :
    dipoleCpu N stride off = some (dipoleSpec N stride off) := by
  unfold FitsInt at h
  have hN : N ≤ N * stride := Nat.le_mul_of_pos_right _ hs
  unfold dipoleCpu dipoleSpec each
  refine loop_lit .i32 .i32 N _ _ (by simp only [Ty.hi]; omega) fun i hi => ?_
  have h1 : i * stride + stride ≤ N * stride := by
    calc i * stride + stride = (i + 1) * stride := by ring
      _ ≤ N * stride := Nat.mul_le_mul_right _ hi
  have e1 : lit .i32 ((i : Nat) : Int) * lit .i32 ((stride : Nat) : Int) = lit .i32 ((i * stride : Nat) : Int) := by
    rw [mul_lit .i32 .i32 _ _ (by simp only [Ty.join, Ty.hi]; omega) (by simp only [Ty.join, Ty.hi]; omega)
      (by simp only [Ty.join, Ty.hi]; omega)]
    rfl
  rw [e1, add_lit .i32 .i32 _ _ (by simp only [Ty.join, Ty.hi]; omega)]
  simp only [touch_lit, seq_some, el, rowMajor1]
  rfl

theorem harpOrder_lit (l m : Nat) (hm : m ≤ l) (hl : 1 ≤ l) (h : 4 * (l * l + 2 * l) ≤ 2147483647) :
    harpOrder (lit .i32 l) (lit .i32 m) = some (if m = 0 then coefficient l 0
      else coefficient l (-(m : Int)) ++ coefficient l m) := by
  have hll : l ≤ l * l := Nat.le_mul_of_pos_left _ hl
  have c0 : lit .i32 ((l : Nat) : Int) * lit .i32 ((l : Nat) : Int) = lit .i32 ((l * l : Nat) : Int) := by
    rw [mul_lit .i32 .i32 _ _ (by simp only [Ty.join, Ty.hi]; omega) (by simp only [Ty.join, Ty.hi]; omega)
      (by simp only [Ty.join, Ty.hi]; omega)]
    rfl
  have hq : ((l * l : Nat) : Int) = (l : Int) * l := by push_cast; rfl
  have h' : 4 * ((l : Int) * l + 2 * l) ≤ 2147483647 := by exact_mod_cast h
  have hll' : (l : Int) ≤ (l : Int) * l := by exact_mod_cast hll
  have hm' : (m : Int) ≤ l := by exact_mod_cast hm
  have hl' : (1 : Int) ≤ l := by exact_mod_cast hl
  have hc : (l : Int) * (l + 1) = l * l + l := by ring
  have i0 : lit .i32 ((l : Nat) : Int) * lit .i32 ((l : Nat) : Int) - num 1 + lit .i32 ((l : Nat) : Int) =
      lit .i32 ((l : Int) * (l + 1) - 1) := by
    rw [c0, num_lit, hq, hc]
    generalize (l : Int) * l = s at *
    rw [sub32 _ _ ⟨by omega, by omega⟩ ⟨by omega, by omega⟩ ⟨by omega, by omega⟩,
      add32 _ _ ⟨by omega, by omega⟩ ⟨by omega, by omega⟩ ⟨by omega, by omega⟩]
    exact congrArg (lit .i32) (by omega)
  unfold harpOrder
  simp only [i0]
  generalize hB : (l : Int) * (l + 1) - 1 = B at *
  have hBl : B = (l : Int) * l + l - 1 := by omega
  have four : ∀ (q k : Int), 0 ≤ q → 4 * q + 3 ≤ 2147483647 → 0 ≤ k → k ≤ 3 →
      touch "alpha" (num 4 * lit .i32 q + num k) = some [("alpha", 4 * q + k)] := by
    intro q k hq0 hq1 hk0 hk1
    rw [num_lit, num_lit, mul32 _ _ ⟨by omega, by omega⟩ ⟨by omega, by omega⟩ ⟨by omega, by omega⟩,
      add32 _ _ ⟨by omega, by omega⟩ ⟨by omega, by omega⟩ ⟨by omega, by omega⟩, touch_lit]
  simp only [show ∀ (x : Int) (f : V → Trace), (lit .i32 x).bind f = f ⟨.i32, x⟩ from fun _ _ => rfl]
  generalize (l : Int) * l = s at *
  have co : ∀ k : Int, coefficient l k = [("alpha", 4 * (B + k)), ("alpha", 4 * (B + k) + 1),
      ("alpha", 4 * (B + k) + 2), ("alpha", 4 * (B + k) + 3)] := by
    intro k
    unfold coefficient
    rw [show (l : Int) * (l + 1) + k - 1 = B + k by rw [← hB]; ring]
  by_cases hm0 : m = 0
  · subst hm0
    rw [if_pos (show ((0 : Nat) : Int) = 0 from rfl), if_pos rfl, co,
      four _ _ (by omega) (by omega) (by omega) (by omega), four _ _ (by omega) (by omega) (by omega) (by omega),
      four _ _ (by omega) (by omega) (by omega) (by omega), four _ _ (by omega) (by omega) (by omega) (by omega)]
    simp only [seq_some, add_zero]
    rfl
  · rw [if_neg (by omega), if_neg hm0,
      sub32 _ _ ⟨by omega, by omega⟩ ⟨by omega, by omega⟩ ⟨by omega, by omega⟩,
      add32 _ _ ⟨by omega, by omega⟩ ⟨by omega, by omega⟩ ⟨by omega, by omega⟩, co, co]
    simp only [four (B - m) _ (by omega) (by omega) (show (0 : Int) ≤ 0 by omega) (by omega),
      four (B - m) _ (by omega) (by omega) (show (0 : Int) ≤ 1 by omega) (by omega),
      four (B - m) _ (by omega) (by omega) (show (0 : Int) ≤ 2 by omega) (by omega),
      four (B - m) _ (by omega) (by omega) (show (0 : Int) ≤ 3 by omega) (by omega),
      four (B + m) _ (by omega) (by omega) (show (0 : Int) ≤ 0 by omega) (by omega),
      four (B + m) _ (by omega) (by omega) (show (0 : Int) ≤ 1 by omega) (by omega),
      four (B + m) _ (by omega) (by omega) (show (0 : Int) ≤ 2 by omega) (by omega),
      four (B + m) _ (by omega) (by omega) (show (0 : Int) ≤ 3 by omega) (by omega)]
    simp only [seq_some, add_zero, ← sub_eq_add_neg]
    rfl

/-- C117: spherical wave patterns, while the coefficients and the output have at
most 2^31-1 values.  Missing: more, `C117_harp_large_false`. -/
theorem C117_harp_partial (N lMax off : Nat) (hl : FitsInt (4 * (lMax * lMax + 2 * lMax)))
    (h : FitsInt ((off + N) * 4)) : harpCpu N lMax off = some (harpSpec N lMax off) := by
  unfold FitsInt at *
  unfold harpCpu harpSpec each
  refine loop_lit .i32 .i32 N _ _ (by simp only [Ty.hi]; omega) fun i hi => ?_
  have e1 : num 4 * (lit .i32 ((i : Nat) : Int) + lit .i32 ((off : Nat) : Int)) =
      lit .i32 (4 * ((off + i : Nat) : Int)) := by
    rw [add32 _ _ ⟨by omega, by omega⟩ ⟨by omega, by omega⟩ ⟨by omega, by omega⟩, num_lit,
      mul32 _ _ ⟨by omega, by omega⟩ ⟨by omega, by omega⟩ ⟨by omega, by omega⟩]
    push_cast
    exact congrArg (lit .i32) (by ring)
  have t : ∀ k : Int, 0 ≤ k → k ≤ 3 → touch "pattern" (lit .i32 (4 * ((off + i : Nat) : Int)) + num k) =
      some [("pattern", 4 * ((off + i : Nat) : Int) + k)] := by
    intro k h0 h1
    rw [num_lit, add32 _ _ ⟨by omega, by omega⟩ ⟨by omega, by omega⟩ ⟨by omega, by omega⟩, touch_lit]
  dsimp only
  rw [iters_some _ (fun k => (List.range (k + 2)).flatMap fun d =>
      if k + 1 - d = 0 then coefficient (k + 1) 0
      else coefficient (k + 1) (-((k + 1 - d : Nat) : Int)) ++ coefficient (k + 1) ((k + 1 - d : Nat) : Int)) lMax
      (fun k hk => iters_some _ _ _ fun d hd => harpOrder_lit (k + 1) (k + 1 - d) (by omega) (by omega) (by
        have : (k + 1) * (k + 1) ≤ lMax * lMax := Nat.mul_le_mul hk hk
        omega)), e1, t 0 (by omega) (by omega), t 1 (by omega) (by omega), t 2 (by omega) (by omega), t 3 (by omega) (by omega)]
  simp only [touch_lit, seq_some, el, rowMajor1, rowMajor2]
  push_cast
  simp only [mul_comm (4 : Int), List.append_assoc]
  rfl

end Sdp.Width
