import Verif.Omp.Batch
import Verif.Fft.Exec

/-!
# C125 for the built-in FFT
-/

namespace Sdp.Omp
open Race
noncomputable section

theorem sim_butterfly (n m b len r : Nat) (inverse : Bool) (s : Nat) :
    Sim n m (butterflyProg n m b len r inverse s) fun st =>
      (Fft.butterfly st.1 b len r inverse st.2 s).map fun t => (st.1, t) := by
  rintro ⟨x, y⟩ ⟨x', y'⟩ h1 h2 h
  dsimp only at h1 h2 h
  subst h1 h2
  obtain ⟨t, ht, h⟩ := Option.map_eq_some_iff.1 h
  cases h
  dsimp only
  unfold butterflyProg
  unfold Fft.butterfly at ht
  dsimp only at ht ⊢
  rw [exec_read1]
  obtain ⟨v2, e2, ht⟩ := Option.bind_eq_some_iff.1 ht
  rw [e2, Option.bind_some, exec_read1]
  obtain ⟨v1, e1, ht⟩ := Option.bind_eq_some_iff.1 ht
  rw [e1, Option.bind_some, exec_write2]
  obtain ⟨y1, e3, ht⟩ := Option.bind_eq_some_iff.1 ht
  have z1 : y1.size = y.size := by rw [(Arr.write_some e3).2.2]; rfl
  have z2 : y'.size = y.size := by rw [← z1, (Arr.write_some ht).2.2]; rfl
  rw [e3, Option.bind_some, ← z1, exec_write2, ht]
  exact ⟨rfl, z2.trans z1.symm, rfl⟩

theorem sim_copyBack (n m b len : Nat) :
    Sim n m (copyBack n m b len) fun st => (Fft.copyBlock st.1 b st.2 b len).map fun x => (x, st.2) := by
  rintro ⟨x, y⟩ ⟨x', y'⟩ h1 h2 h
  dsimp only at h1 h2 h
  subst h1 h2
  obtain ⟨t, ht, h⟩ := Option.map_eq_some_iff.1 h
  cases h
  unfold Fft.copyBlock at ht
  split at ht
  swap
  · cases ht
  rename_i hb
  injection ht with ht
  subst ht
  refine ⟨rfl, rfl, ?_⟩
  unfold copyBack
  have gen : ∀ k, k ≤ len → (Prog.seqAll ((List.range k).map fun (i : Nat) =>
      (Prog.read2 x.size y.size (b + i : Nat) fun v => .write1 x.size (b + i : Nat) v .done : Prog ℂ))).exec
        (both x y) =
      some (both ⟨x.size, fun i => if b ≤ i ∧ i < b + k then y.get (b + (i - b)) else x.get i⟩ y) := by
    intro k hk
    induction k with
    | zero =>
      simp only [List.range_zero, List.map_nil, Prog.seqAll, List.foldr_nil, Prog.exec]
      congr 2
      cases x
      simp only [Arr.mk.injEq, true_and]
      funext i
      rw [if_neg (by omega)]
    | succ k ih =>
      rw [exec_seqAll, List.range_succ, List.map_append, loop_append, ← exec_seqAll, ih (by omega)]
      simp only [Option.bind_some, List.map_cons, List.map_nil, loop]
      refine Eq.trans (congrArg (fun o => Option.bind o _) (exec_read2
        (⟨x.size, fun i => if b ≤ i ∧ i < b + k then y.get (b + (i - b)) else x.get i⟩ : Arr ℂ) y _ _)) ?_
      rw [Arr.read_nat, if_pos (by omega), Option.bind_some]
      refine Eq.trans (congrArg (fun o => Option.bind o _) (exec_write1
        (⟨x.size, fun i => if b ≤ i ∧ i < b + k then y.get (b + (i - b)) else x.get i⟩ : Arr ℂ) y _ _ _)) ?_
      rw [Arr.write_nat, if_pos (show b + k < x.size by omega)]
      simp only [Option.bind_some, Prog.exec]
      congr 2
      unfold Arr.put
      simp only [Arr.mk.injEq, true_and]
      funext i
      by_cases e : i = b + k
      · subst e
        rw [if_pos rfl, if_pos (by omega), Nat.add_sub_cancel_left]
      · rw [if_neg e]
        by_cases h : b ≤ i ∧ i < b + k
        · rw [if_pos h, if_pos (by omega)]
        · rw [if_neg h, if_neg (by omega)]
  exact gen len (le_refl _)

theorem sim_pow2 (n m b len bits : Nat) (inverse : Bool) :
    Sim n m (pow2Prog n m b len bits inverse) fun st =>
      (Fft.fftPow2 b len bits inverse ⟨st.1, st.2⟩).map fun r => (r.inp, r.tmp) := by
  have step : ∀ r ∈ List.range bits, Sim n m
      ((Prog.seqAll ((List.range (len >>> 1)).map (butterflyProg n m b len r inverse))).andThen
        (copyBack n m b len))
      (fun st => (Fft.stage b len inverse ⟨st.1, st.2⟩ r).map fun r => (r.inp, r.tmp)) := by
    intro r _
    have h := sim_andThen (sim_rows (List.range (len >>> 1)) (butterflyProg n m b len r inverse)
      (fun st s => (Fft.butterfly st.1 b len r inverse st.2 s).map fun t => (st.1, t))
      (fun s _ => sim_butterfly n m b len r inverse s)) (sim_copyBack n m b len)
    intro st st' h1 h2 e
    refine h st st' h1 h2 ?_
    rw [← e]
    obtain ⟨x, y⟩ := st
    dsimp only
    rw [loop_snd (fun x y s => Fft.butterfly x b len r inverse y s)]
    unfold Fft.stage
    dsimp only
    cases loop (fun tmp (s : Nat) => Fft.butterfly x b len r inverse tmp s) y (List.range (len >>> 1)) with
    | none => rfl
    | some t =>
      simp only [Option.map_some, Option.bind_some]
      cases Fft.copyBlock x b t b len <;> rfl
  have h := sim_rows (List.range bits) _ _ step
  intro st st' h1 h2 e
  refine h st st' h1 h2 ?_
  rw [← e]
  unfold Fft.fftPow2
  have gen : ∀ (l : List Nat) (st : Arr ℂ × Arr ℂ),
      loop (fun (st : Arr ℂ × Arr ℂ) (r : Nat) =>
        (Fft.stage b len inverse ⟨st.1, st.2⟩ r).map fun r => (r.inp, r.tmp)) st l =
      (loop (fun st (r : Nat) => Fft.stage b len inverse st r) ⟨st.1, st.2⟩ l).map fun r => (r.inp, r.tmp) := by
    intro l
    induction l with
    | nil => intro st; rfl
    | cons r l ih =>
      intro st
      simp only [loop]
      cases Fft.stage b len inverse ⟨st.1, st.2⟩ r with
      | none => rfl
      | some q => simpa using ih (q.inp, q.tmp)
  exact gen _ st

theorem exec_sum (x y : Arr ℂ) (b len : Nat) (inverse : Bool) (i : Nat) (l : List Nat) (sum : ℂ)
    (next : ℂ → Prog ℂ) :
    (sumProg x.size b len inverse i l sum next).exec (both x y) =
      (loop (fun (sum : ℂ) (s : Nat) =>
        (x.read (b + s : Nat)).bind fun v =>
          let w := Fft.twiddle len (i * s) inverse
          some (⟨sum.re + (w.re * v.re - w.im * v.im), sum.im + (w.re * v.im + w.im * v.re)⟩ : ℂ))
        sum l).bind fun v => (next v).exec (both x y) := by
  induction l generalizing sum with
  | nil => rfl
  | cons s l ih =>
    unfold sumProg
    rw [exec_read1]
    simp only [loop]
    cases x.read (b + s : Nat) with
    | none => rfl
    | some v => simpa using ih _

theorem sim_general (n m b len : Nat) (inverse : Bool) :
    Sim n m (generalProg n m b len inverse) fun st =>
      (Fft.dftGeneral b len inverse ⟨st.1, st.2⟩).map fun t => (st.1, t) := by
  have step : ∀ i ∈ List.range len, Sim n m
      (sumProg n b len inverse i (List.range len) 0 fun v => .write2 n m (b + i : Nat) v .done)
      (fun st => ((Fft.dftRow st.1 b len inverse i).bind fun v => st.2.write (b + i : Nat) v).map
        fun t => (st.1, t)) := by
    rintro i _ ⟨x, y⟩ ⟨x', y'⟩ h1 h2 h
    dsimp only at h1 h2 h
    subst h1 h2
    obtain ⟨t, ht, h⟩ := Option.map_eq_some_iff.1 h
    cases h
    dsimp only
    obtain ⟨v, hv, ht⟩ := Option.bind_eq_some_iff.1 ht
    rw [exec_sum]
    unfold Fft.dftRow at hv
    rw [hv, Option.bind_some, exec_write2, ht]
    exact ⟨rfl, by rw [(Arr.write_some ht).2.2]; rfl, rfl⟩
  have h := sim_rows (List.range len) _ _ step
  intro st st' h1 h2 e
  refine h st st' h1 h2 ?_
  rw [← e]
  obtain ⟨x, y⟩ := st
  exact loop_snd (fun x y (i : Nat) =>
    (Fft.dftRow x b len inverse i).bind fun v => y.write (b + i : Nat) v) x y (List.range len)

theorem sim_batch (n m b len : Nat) (inverse : Bool) (f : Nat) :
    Sim n m (batchProg n m b len inverse f) fun st =>
      (Fft.fft1 (b + f * len) len inverse ⟨st.1, st.2⟩).map fun r => (r.inp, r.tmp) := by
  unfold batchProg Fft.fft1
  dsimp only
  by_cases h : (Fft.bitCount len).1 = 1
  · simp only [if_pos h]
    exact sim_pow2 _ _ _ _ _ _
  · simp only [if_neg h]
    have h := sim_andThen (sim_general n m (b + f * len) len inverse) (sim_copyBack n m (b + f * len) len)
    intro st st' h1 h2 e
    refine h st st' h1 h2 ?_
    rw [← e]
    dsimp only
    cases Fft.dftGeneral (b + f * len) len inverse ⟨st.1, st.2⟩ with
    | none => rfl
    | some t =>
      simp only [Option.map_some, Option.bind_some]
      cases Fft.copyBlock st.1 (b + f * len) t (b + f * len) len <;> rfl

theorem within_copyBack (n m b len : Nat) : (copyBack n m b len).Within (Block n b len) := by
  refine within_rows _ _ fun i hi => ?_
  have := List.mem_range.1 hi
  exact within_read2 (by omega) (by omega) fun v => within_write1 (by omega) (by omega) trivial

theorem within_butterfly (n m b bits r : Nat) (hr : r < bits) (inverse : Bool) (s : Nat)
    (hs : s < 2 ^ bits >>> 1) :
    (butterflyProg n m b (2 ^ bits) r inverse s).Within (Block n b (2 ^ bits)) := by
  obtain ⟨q, rfl⟩ : ∃ q, bits = q + r + 1 := ⟨bits - r - 1, by omega⟩
  have e1 : 2 ^ (q + r + 1) >>> 1 = 2 ^ q * 2 ^ r := by
    rw [Nat.shiftRight_eq_div_pow, pow_succ, pow_one, Nat.mul_div_cancel _ (by decide), pow_add]
  have e2 : 2 ^ (q + r + 1) = 2 ^ q * 2 ^ r * 2 := by rw [pow_succ, pow_add]
  rw [e1] at hs
  have hp : 0 < 2 ^ r := Nat.two_pow_pos r
  have ek : s &&& (2 ^ r - 1) = s % 2 ^ r := Nat.and_two_pow_sub_one_eq_mod s r
  have ej : s >>> r = s / 2 ^ r := Nat.shiftRight_eq_div_pow s r
  have hd : s / 2 ^ r * 2 ^ r + s % 2 ^ r = s := Nat.div_add_mod' s (2 ^ r)
  have hm := Nat.mod_lt s hp
  have hj : s / 2 ^ r < 2 ^ q := Nat.div_lt_of_lt_mul (by rw [Nat.mul_comm]; exact hs)
  have hj' : (s / 2 ^ r + 1) * 2 ^ r ≤ 2 ^ q * 2 ^ r := Nat.mul_le_mul_right _ hj
  have es : 2 ^ r <<< 1 = 2 ^ r * 2 := by rw [Nat.shiftLeft_eq, pow_one]
  unfold butterflyProg
  dsimp only
  rw [ek, ej, e1, es, e2, hd]
  have ew : s / 2 ^ r * (2 ^ r * 2) = s / 2 ^ r * 2 ^ r * 2 := by ring
  rw [ew]
  rw [Nat.add_mul, Nat.one_mul] at hj'
  generalize s / 2 ^ r * 2 ^ r = u at *
  generalize s % 2 ^ r = k at *
  generalize 2 ^ q * 2 ^ r = half at *
  clear e1 e2 hj es ek ej
  generalize 2 ^ r = p at *
  refine within_read1 (by push_cast; omega) (by push_cast; omega) fun v2 => ?_
  refine within_read1 (by push_cast; omega) (by push_cast; omega) fun v1 => ?_
  refine within_write2 (by push_cast; omega) (by push_cast; omega) ?_
  exact within_write2 (by push_cast; omega) (by push_cast; omega) trivial

theorem within_sum (n b len : Nat) (inverse : Bool) (i : Nat) (l : List Nat) (hl : ∀ s ∈ l, s < len) (sum : ℂ)
    (next : ℂ → Prog ℂ) (hn : ∀ v, (next v).Within (Block n b len)) :
    (sumProg n b len inverse i l sum next).Within (Block n b len) := by
  induction l generalizing sum with
  | nil => exact hn _
  | cons s l ih =>
    have := hl s (by simp)
    unfold sumProg
    exact within_read1 (by omega) (by omega) fun v => ih (fun s' h => hl s' (by simp [h])) _

theorem within_batch (n m b len : Nat) (inverse : Bool) (f : Nat) :
    (batchProg n m b len inverse f).Within (Block n (b + f * len) len) := by
  unfold batchProg
  dsimp only
  by_cases h : (Fft.bitCount len).1 = 1
  · rw [if_pos h]
    have e := Fft.bitCount_spec len h
    generalize (Fft.bitCount len).2 - 1 = bits at *
    generalize b + f * len = b'
    subst e
    refine within_rows _ _ fun r hr => ?_
    refine within_andThen (within_rows _ _ fun s hs => ?_) (within_copyBack _ _ _ _)
    exact within_butterfly n m b' bits r (List.mem_range.1 hr) inverse s (List.mem_range.1 hs)
  · rw [if_neg h]
    refine within_andThen (within_rows _ _ fun i hi => ?_) (within_copyBack _ _ _ _)
    have hi := List.mem_range.1 hi
    refine within_sum _ _ _ _ _ _ (fun s hs => List.mem_range.1 hs) _ _ fun v => ?_
    exact within_write2 (by push_cast; omega) (by push_cast; omega) trivial

/-- **C125, the batch loop of the built-in FFT.**  Whatever the team and its schedule, the two buffers end as if
the transforms were done one after the other. -/
theorem C125_fft_serial (b len batch : Nat) (inverse : Bool) (inp tmp : Arr ℂ) (r : Fft.Bufs)
    (hr : Fft.fft1Batch b len (List.range batch) inverse ⟨inp, tmp⟩ = some r)
    (chunks : List (List Nat)) (hc : Team batch chunks) :
    TeamYields (batchProg inp.size tmp.size b len inverse) chunks (both inp tmp) (both r.inp r.tmp) := by
  refine team_yields _ (fun f => Block inp.size (b + f * len) len) batch
    (fun f _ => within_batch _ _ _ _ _ _)
    (fun f f' _ _ hne x => block_disjoint _ b len f f' hne x) _ _ ?_ chunks hc
  have h := sim_rows (List.range batch) (batchProg inp.size tmp.size b len inverse) _
    (fun f _ => sim_batch inp.size tmp.size b len inverse f)
  have gen : ∀ (l : List Nat) (st : Arr ℂ × Arr ℂ),
      loop (fun (st : Arr ℂ × Arr ℂ) (f : Nat) =>
        (Fft.fft1 (b + f * len) len inverse ⟨st.1, st.2⟩).map fun r => (r.inp, r.tmp)) st l =
      (loop (fun st (f : Nat) => Fft.fft1 (b + f * len) len inverse st) ⟨st.1, st.2⟩ l).map
        fun r => (r.inp, r.tmp) := by
    intro l
    induction l with
    | nil => intro st; rfl
    | cons f l ih =>
      intro st
      simp only [loop]
      cases Fft.fft1 (b + f * len) len inverse ⟨st.1, st.2⟩ with
      | none => rfl
      | some q => simpa using ih (q.inp, q.tmp)
  obtain ⟨-, -, e⟩ := h (inp, tmp) (r.inp, r.tmp) rfl rfl (by
    refine (gen _ _).trans ?_
    unfold Fft.fft1Batch at hr
    rw [hr]
    rfl)
  rw [exec_seqAll, loop_map] at e
  exact e

/-- **C125, the batch loop of the built-in FFT.**  If both buffers hold `batch` rows of `len` values from `b`
on, then every schedule of every team leaves in the first buffer the discrete Fourier transform of every row
and changes nothing else in it. -/
theorem C125_fft (b len batch : Nat) (inverse : Bool) (inp tmp : Arr ℂ)
    (hi : b + batch * len ≤ inp.size) (ht : b + batch * len ≤ tmp.size) :
    ∃ r t : Arr ℂ,
      (∀ chunks, Team batch chunks →
        TeamYields (batchProg inp.size tmp.size b len inverse) chunks (both inp tmp) (both r t)) ∧
      r.size = inp.size ∧ t.size = tmp.size ∧
      (∀ f, f < batch → ∀ k, k < len → r.get (b + (f * len + k)) =
        ∑ s ∈ Finset.range len,
          Complex.exp (2 * Real.pi * Complex.I * (((if inverse then 1 else -1) * (s * k) : Int) / len)) *
            inp.get (b + (f * len + s))) ∧
      ∀ i, i < b ∨ b + batch * len ≤ i → r.get i = inp.get i := by
  obtain ⟨st, e, f1, f2, v⟩ := Fft.fft1Batch_spec b len batch (List.range batch) (List.Perm.refl _) inverse
    ⟨inp, tmp⟩ (fun f s => inp.get (b + (f * len + s))) (fun _ _ _ _ => rfl) hi ht
  refine ⟨st.inp, st.tmp, fun chunks hc => C125_fft_serial b len batch inverse inp tmp st e chunks hc,
    f1.1, f2.1, fun f hf k hk => ?_, f1.2⟩
  rw [v f hf k hk]
  unfold Fft.dft Fft.root Fft.sgn
  rfl

end
end Sdp.Omp
