import Verif.Fft.BackendFacts

/-!
# C107: all FFT back ends compute the same transform
-/

namespace Sdp.Fft
open Complex MemSpec
noncomputable section

/-! ## Specification -/

/-- Discrete Fourier transform of `x` over all dimensions of sizes `ns`, at the frequency `ks`: one sum per
dimension. -/
def nested (sign : Int) : List Int → List Int → (List Int → ℂ) → ℂ
  | n :: ns, k :: ks, x =>
    ∑ s ∈ Finset.range n.toNat, wave sign n.toNat s k.toNat * nested sign ns ks fun t => x ((s : Int) :: t)
  | _, _, x => x []

/-- `r` is the unnormalised transform of `inp` along the last `nd` dimensions of row-major arrays of this shape:
`f` are the indices of the other dimensions. -/
def Dft (nd : Nat) (sign : Int) (shape : List Int) (inp r : Arr ℂ) : Prop :=
  ∀ f k, InRange f (shape.take (shape.length - nd)) → InRange k (shape.drop (shape.length - nd)) →
    r.get (flatIndex (f ++ k) shape).toNat =
      nested sign (shape.drop (shape.length - nd)) k fun s => inp.get (flatIndex (f ++ s) shape).toNat

/-- A descriptor of data, whose contiguity flag is right (C02). -/
structure Laid (m : Mem) (a : Arr ℂ) : Prop where
  desc : Desc m a
  row : m.isCContiguous = true → RowMajor m.type.size m.shape m.stride

/-! ## Bridges -/

theorem nested_eq (sign : Int) (ns k : List Int) (hk : InRange k ns) (x : List Int → ℂ) :
    ((box ns).map fun s => waves sign ns s k * x s).sum = nested sign ns k x := by
  induction ns generalizing k x with
  | nil => cases hk; simp [box, waves, nested]
  | cons n ns ih =>
    cases hk with
    | cons h1 h2 =>
      rename_i i k
      simp only [box, nested, List.map_flatMap, List.map_map]
      rw [WTower.sum_flat, list_sum_range]
      refine Finset.sum_congr rfl fun s hs => ?_
      rw [Finset.mem_range] at hs
      rw [← ih k h2, ← List.sum_map_mul_left]
      congr 1
      refine List.map_congr_left fun t _ => ?_
      simp only [Function.comp_def, waves]
      have : waveI sign n (s : Int) i = wave sign n.toNat s i.toNat := by
        unfold waveI wave
        have e1 : ((i.toNat : Nat) : Int) = i := Int.toNat_of_nonneg h1.1
        have e2 : ((n.toNat : Nat) : Int) = n := Int.toNat_of_nonneg (by omega)
        have e3 : ((n.toNat : Nat) : ℂ) = (n : ℂ) := by rw [← Int.cast_natCast, e2]
        rw [e1, e3]
      rw [this]
      ring

theorem dft_of_boxed {nd : Nat} {sign : Int} {shape : List Int} {inp r : Arr ℂ}
    (h : Boxed (shape.take (shape.length - nd)) (shape.drop (shape.length - nd)) sign inp r) :
    Dft nd sign shape inp r := by
  intro f k hf hk
  have := h f k hf hk
  rw [List.take_append_drop] at this
  rw [this, nested_eq _ _ _ hk]

/-- Two transforms of the same data are equal. -/
theorem dft_unique {nd : Nat} {sign : Int} {shape : List Int} {inp r r' : Arr ℂ} (hs : ∀ n ∈ shape, 0 ≤ n)
    (h : Dft nd sign shape inp r) (h' : Dft nd sign shape inp r') (i : Nat) (hi : (i : Int) < shape.prod) :
    r.get i = r'.get i := by
  obtain ⟨K, hK, e⟩ : ∃ K, InRange K shape ∧ flatIndex K shape = i := by
    clear h h'
    induction shape generalizing i with
    | nil =>
      simp only [List.prod_nil] at hi
      exact ⟨[], .nil, by simp only [flatIndex]; omega⟩
    | cons n ns ih =>
      rw [List.prod_cons] at hi
      have hp : 0 ≤ ns.prod := List.prod_nonneg fun x hx => hs x (List.mem_cons_of_mem _ hx)
      have hn := hs n (List.mem_cons_self ..)
      have hp' : 0 < ns.prod := by
        rcases hp.lt_or_eq with c | c
        · exact c
        · rw [← c] at hi; omega
      have hm := Int.emod_nonneg (i : Int) hp'.ne'
      obtain ⟨K, hK, e⟩ := ih (fun x hx => hs x (List.mem_cons_of_mem _ hx)) ((i : Int) % ns.prod).toNat
        (by rw [Int.toNat_of_nonneg hm]; exact Int.emod_lt_of_pos _ hp')
      refine ⟨((i : Int) / ns.prod) :: K, .cons ⟨Int.ediv_nonneg (by omega) hp, ?_⟩ hK, ?_⟩
      · exact Int.ediv_lt_of_lt_mul hp' hi
      · simp only [flatIndex]
        rw [e, Int.toNat_of_nonneg hm]
        have := Int.emod_add_mul_ediv (i : Int) ns.prod
        linarith
  have hl := inRange_length hK
  have h1 : InRange (K.take (shape.length - nd)) (shape.take (shape.length - nd)) := List.forall₂_take _ hK
  have h2 : InRange (K.drop (shape.length - nd)) (shape.drop (shape.length - nd)) := List.forall₂_drop _ hK
  have a := h _ _ h1 h2
  have a' := h' _ _ h1 h2
  rw [List.take_append_drop, e, Int.toNat_natCast] at a a'
  rw [a, a']

theorem shape_list (m : Mem) (h : m.shape.length = m.numDims) :
    ((List.range m.numDims).map fun (i : Nat) => m.shapeDim (i : Int)) = m.shape := by
  apply List.ext_getElem (by simp [h])
  intro i h1 h2
  rw [List.getElem_map, List.getElem_range, shapeDim_lt _ _ (by omega)]
  simp [List.getD, List.getElem?_eq_getElem h2]

theorem stride_list (m : Mem) (h : m.stride.length = m.numDims) :
    ((List.range m.numDims).map fun (i : Nat) => m.strideBytesDim (i : Int)) = m.stride := by
  apply List.ext_getElem (by simp [h])
  intro i h1 h2
  rw [List.getElem_map, List.getElem_range]
  unfold Mem.strideBytesDim
  rw [if_neg (by omega)]
  simp [List.getD, List.getElem?_eq_getElem h2]

theorem lengths_eq (m : Mem) (h : m.shape.length = m.numDims) (nd : Nat) (hn : nd ≤ m.numDims) :
    lengths m nd = m.shape.drop (m.shape.length - nd) := by
  unfold lengths
  apply List.ext_getElem
  · simp; omega
  · intro i h1 h2
    rw [List.length_drop] at h2
    rw [List.getElem_map, List.getElem_range, show (i : Int) + m.numDims - nd = ((i + m.numDims - nd : Nat) : Int) by omega,
      shapeDim_lt _ _ (by omega), List.getElem_drop]
    have : i + m.numDims - nd < m.shape.length := by omega
    simp only [List.getD, List.getElem?_eq_getElem this, Option.getD_some]
    congr 1; omega

theorem strideElements_eq (m : Mem) {a : Arr ℂ} (h : Laid m a) (hc : m.isCContiguous = true) (hs : 0 < m.type.size)
    (i : Nat) (hi : i < m.numDims) : m.strideElementsDim i = (m.shape.drop (i + 1)).prod := by
  have r := h.row hc
  have hl : i < m.stride.length := by rw [h.desc.stride]; exact hi
  unfold Mem.strideElementsDim Mem.strideBytesDim
  rw [if_pos hs, if_neg (by omega), Int.toNat_natCast]
  simp only [List.getD, List.getElem?_eq_getElem hl, Option.getD_some]
  rw [r.2 i hl, Int.mul_tdiv_cancel_left _ (by omega)]

/-- The library's own transforms, in the form used here. -/
theorem dft_of_transformed {nd : Nat} {sign : Int} {m : Mem} {inp r : Arr ℂ} (hd : m.shape.length = m.numDims)
    (hn : nd = 1 ∨ nd = 2) (hnd : nd = m.numDims ∨ nd + 1 = m.numDims) (h : Transformed nd sign m inp r) :
    Dft nd sign m.shape inp r := by
  intro f k hf hk
  obtain ⟨t1, t2⟩ := h
  unfold entries side at t1 t2
  rcases hn with rfl | rfl
  · have t := t1 rfl
    rcases hnd with e | e
    · rw [← e] at hd t
      obtain ⟨n, hs⟩ := List.length_eq_one_iff.1 hd
      rw [hs] at hf hk t ⊢
      simp only [List.length_singleton, Nat.sub_self, List.take_zero, List.drop_zero] at hf hk ⊢
      cases hf
      cases hk with
      | cons h1 h2 =>
        cases h2
        rename_i k
        have := t 0 (by simp) k.toNat (by simp; omega)
        simpa [nested, flatIndex] using this
    · rw [← e] at hd t
      obtain ⟨B, n, hs⟩ := List.length_eq_two.1 hd
      rw [hs] at hf hk t ⊢
      simp only [List.length_cons, List.length_nil, Nat.zero_add, Nat.add_sub_cancel, List.take_succ_cons, List.take_zero, List.drop_succ_cons, List.drop_zero] at hf hk ⊢
      cases hf with
      | cons g1 g2 =>
        cases g2
        cases hk with
        | cons h1 h2 =>
          cases h2
          rename_i f k
          have := t f.toNat (by simp; omega) k.toNat (by simp; omega)
          obtain ⟨F, rfl⟩ := Int.eq_ofNat_of_zero_le g1.1
          obtain ⟨k, rfl⟩ := Int.eq_ofNat_of_zero_le h1.1
          obtain ⟨n, rfl⟩ := Int.eq_ofNat_of_zero_le (show 0 ≤ n by omega)
          have c : ∀ s : Nat, ((F : Int) * n + s).toNat = F * n + s := fun s => by
            have : ((F : Int) * n + s) = ((F * n + s : Nat) : Int) := by push_cast; rfl
            rw [this, Int.toNat_natCast]
          simpa [nested, flatIndex, c] using this
  · have t := t2 rfl
    rcases hnd with e | e
    · rw [← e] at hd t
      obtain ⟨n1, n2, hs⟩ := List.length_eq_two.1 hd
      rw [hs] at hf hk t ⊢
      simp only [List.length_cons, List.length_nil, Nat.zero_add, Nat.sub_self, List.take_zero, List.drop_zero] at hf hk ⊢
      cases hf
      cases hk with
      | cons g1 g2 =>
        cases g2 with
        | cons h1 h2 =>
          cases h2
          rename_i k1 k2
          have := t 0 (by simp) k1.toNat (by simp; omega) k2.toNat (by simp; omega)
          obtain ⟨k1, rfl⟩ := Int.eq_ofNat_of_zero_le g1.1
          obtain ⟨k2, rfl⟩ := Int.eq_ofNat_of_zero_le h1.1
          obtain ⟨n1, rfl⟩ := Int.eq_ofNat_of_zero_le (show 0 ≤ n1 by omega)
          obtain ⟨n2, rfl⟩ := Int.eq_ofNat_of_zero_le (show 0 ≤ n2 by omega)
          have c : ∀ s t : Nat, ((s : Int) * n2 + t).toNat = s * n2 + t := fun s t => by
            have : ((s : Int) * n2 + t) = ((s * n2 + t : Nat) : Int) := by push_cast; rfl
            rw [this, Int.toNat_natCast]
          simp [nested, flatIndex, c] at this ⊢
          simpa only [Finset.mul_sum, mul_assoc] using this
    · rw [← e] at hd t
      obtain ⟨B, n1, n2, hs⟩ := List.length_eq_three.1 hd
      rw [hs] at hf hk t ⊢
      simp only [List.length_cons, List.length_nil, Nat.zero_add, Nat.reduceAdd, Nat.reduceSub, List.take_succ_cons, List.take_zero, List.drop_succ_cons, List.drop_zero] at hf hk ⊢
      cases hf with
      | cons b1 b2 =>
        cases b2
        cases hk with
        | cons g1 g2 =>
          cases g2 with
          | cons h1 h2 =>
            cases h2
            rename_i f k1 k2
            have := t f.toNat (by simp; omega) k1.toNat (by simp; omega) k2.toNat (by simp; omega)
            obtain ⟨F, rfl⟩ := Int.eq_ofNat_of_zero_le b1.1
            obtain ⟨k1, rfl⟩ := Int.eq_ofNat_of_zero_le g1.1
            obtain ⟨k2, rfl⟩ := Int.eq_ofNat_of_zero_le h1.1
            obtain ⟨n1, rfl⟩ := Int.eq_ofNat_of_zero_le (show 0 ≤ n1 by omega)
            obtain ⟨n2, rfl⟩ := Int.eq_ofNat_of_zero_le (show 0 ≤ n2 by omega)
            have c : ∀ s t : Nat, ((F : Int) * (n1 * n2) + (s * n2 + t)).toNat = n1 * n2 * F + (s * n2 + t) :=
              fun s t => by
                have : ((F : Int) * (n1 * n2) + (s * n2 + t)) = ((n1 * n2 * F + (s * n2 + t) : Nat) : Int) := by
                  push_cast; ring
                rw [this, Int.toNat_natCast]
            simp [nested, flatIndex, c] at this ⊢
            simpa only [Finset.mul_sum, mul_assoc] using this

/-! ## Plans -/

/-- What a plan contains. -/
theorem bCreate_plan {b : Build} {ok : Bool} {mi mo : Mem} {nd fwd : Int} {p : BPlan}
    (h : bCreate b ok mi mo nd fwd .success = (some p, .success)) :
    checkParams mi mo nd .success = .success ∧ p.base.inM = mi ∧ p.base.outM = mo ∧ p.base.dims = nd ∧
      p.base.batch = (if (mi.numDims : Int) ≠ nd then mi.shapeDim 0 else 1) ∧ p.base.fwd = fwd ∧
      ((mi.location = .gpu ∧ b.cuda = true ∧ sameFloat mi mo ∧
          p.lay = .cufft (lengths mi nd) (mi.strideElementsDim ((mi.numDims : Int) - 1)) (mi.strideElementsDim 0)
            (mo.strideElementsDim ((mi.numDims : Int) - 1)) (mo.strideElementsDim 0)) ∨
        (mi.location = .cpu ∧ b.host = .mkl ∧ sameFloat mi mo ∧
          p.lay = .mkl (if nd = 1 then [mi.shapeDim ((mi.numDims : Int) - 1)] else lengths mi nd)
            ((lengths mi nd).foldl (· * ·) 1)) ∨
        (mi.location = .cpu ∧ b.host = .pocket ∧ p.lay = createPocket mi mo nd) ∨
        (mi.location = .cpu ∧ b.host = .native ∧ fftCreate mi mo nd fwd .success = (some p.base, .success))) := by
  unfold bCreate at h
  simp only at h
  by_cases c : checkParams mi mo nd .success = .success
  swap
  · rw [if_pos c] at h; simp at h
  rw [if_neg (by simp [c])] at h
  refine ⟨c, ?_⟩
  cases hl : mi.location with
  | gpu =>
    rw [hl] at h
    simp only at h
    cases hb : b.cuda with
    | false => rw [hb] at h; simp at h
    | true =>
      rw [hb] at h
      unfold createCuda at h
      by_cases d : sameFloat mi mo
      · simp only [d, not_true_eq_false, if_false, if_true, Prod.mk.injEq, Option.some.injEq] at h
        obtain ⟨rfl, -⟩ := h
        exact ⟨rfl, rfl, rfl, rfl, rfl, .inl ⟨rfl, rfl, d, rfl⟩⟩
      · simp [d] at h
  | other => rw [hl] at h; simp at h
  | cpu =>
    rw [hl] at h
    simp only at h
    cases hb : b.host with
    | mkl =>
      rw [hb] at h
      unfold createMkl at h
      by_cases d : sameFloat mi mo
      · simp only [d, not_true_eq_false, if_false, Prod.mk.injEq, Option.some.injEq] at h
        obtain ⟨rfl, -⟩ := h
        exact ⟨rfl, rfl, rfl, rfl, rfl, .inr (.inl ⟨rfl, rfl, d, rfl⟩)⟩
      · simp [d] at h
    | pocket =>
      rw [hb] at h
      simp only [Prod.mk.injEq, Option.some.injEq, and_true] at h
      obtain rfl := h
      exact ⟨rfl, rfl, rfl, rfl, rfl, .inr (.inr (.inl ⟨rfl, rfl, rfl⟩))⟩
    | native =>
      rw [hb] at h
      simp only [Prod.mk.injEq, Option.some.injEq] at h
      obtain ⟨rfl, h2⟩ := h
      refine ⟨rfl, rfl, rfl, rfl, rfl, .inr (.inr (.inr ⟨rfl, rfl, ?_⟩))⟩
      unfold fftCreate
      simp only [c, ne_eq, not_true_eq_false, if_false, hl, h2]

theorem foldl_prod (l : List Int) : l.foldl (· * ·) 1 = l.prod := by
  rw [List.prod_eq_foldl]

/-- C107.  Whatever transforms the library was built with (its own, PocketFFT, MKL; cuFFT for arrays in device
memory): a plan for the last `nd` dimensions of arrays of one floating-point type, forward or inverse (0), used
with arrays like those it was made for, gives the unnormalised discrete Fourier transform of the input, every
value of it.  Missing from the full property: true values of `is_forward` other than 1 with the library's own
transforms, arrays of different precision and plans of no dimensions, for which it is false (`C107_direction_false`, `C107_mixed_false`, `C91_no_dims_false`). -/
theorem C107_transform_partial {b : Build} {mi mo : Mem} {nd : Nat} {fwd : Int} {p : BPlan} (hnd : 1 ≤ nd)
    (hfwd : b.host = .native → mi.location = .cpu → fwd = 0 ∨ fwd = 1)
    (h : bCreate b true mi mo nd fwd .success = (some p, .success)) {x y : Arr ℂ} (hx : Laid mi x) (hy : Laid mo y) (ht : mi.type = mo.type)
    (hf : mi.type = .complexFloat ∨ mi.type = .complexDouble) (u : Use) (hu : Laid u.mi u.inp)
    (hv : Laid u.mo u.out) (hfit : u.Fits mi mo) (ho : u.Ordered nd) (hsame : u.same = true → u.out = u.inp)
    (tmp : Arr ℂ) (hz : tmp.size = x.size) :
    ∃ r t, bExec b true (some p) u.mi u.mo u.st u.o1 u.o2 u.same u.inp u.out tmp = some (.success, r, t) ∧
      r.size = u.out.size ∧ Dft nd (if fwd = 0 then 1 else -1) u.mi.shape u.inp r := by
  obtain ⟨hc, e1, e2, e3, e4, e5, hcase⟩ := bCreate_plan h
  have hcp := (checkParams_iff mi mo nd .success).1 hc
  obtain ⟨c1, c2, c3, c4⟩ := (exec_checks hc hx.desc hy.desc u hu.desc hv.desc).1 hfit
  have hfit' := hfit
  obtain ⟨-, li, lo, -, -, -, cci, cco⟩ := hfit
  have hd := hcp.2.2.2.2.2.2.2.2.2
  have hd' : nd = mi.numDims ∨ nd + 1 = mi.numDims := by omega
  have n1 : u.mi.numDims = mi.numDims := by rw [← hu.desc.holds.dims, ← li.2.2.1, hx.desc.holds.dims]
  have n3 : mo.numDims = mi.numDims := hcp.2.2.2.1.symm
  have sh : u.mi.shape = mi.shape := li.2.2.1.symm
  have s2 : mo.shape = mi.shape := by
    apply List.ext_getElem
    · rw [hy.desc.holds.dims, hx.desc.holds.dims, n3]
    · intro i h1 h2
      have := hcp.2.2.2.2.2.2.2.2.1 i (by rw [← hx.desc.holds.dims]; exact h2)
      rw [shapeDim_lt _ _ (by rw [← hx.desc.holds.dims]; exact h2),
        shapeDim_lt _ _ (by rw [← hy.desc.holds.dims]; exact h1)] at this
      simpa [List.getD, List.getElem?_eq_getElem h1, List.getElem?_eq_getElem h2] using this.symm
  have z1 : (u.inp.size : Int) = mi.shape.prod := by rw [hu.desc.holds.size, sh]
  have z2 : (u.out.size : Int) = mi.shape.prod := by rw [hv.desc.holds.size, ← lo.2.2.1, s2]
  have cmi : mi.isCContiguous = true := ((queryCC_iff mi).1 hcp.2.2.2.2.1).2
  have cmo : mo.isCContiguous = true := ((queryCC_iff mo).1 hcp.2.2.2.2.2.1).2
  have es : 0 < mi.type.size := by rcases hf with hf | hf <;> rw [hf] <;> decide
  have es' : 0 < mo.type.size := by rw [← ht]; exact es
  have sf : sameFloat u.mi u.mo := by
    unfold sameFloat
    rw [← li.1, ← lo.1, ← ht]
    rcases hf with hf | hf
    · exact .inl ⟨hf, hf⟩
    · exact .inr ⟨hf, hf⟩
  have hsign : libSign fwd = if fwd = 0 then 1 else -1 := by
    unfold libSign
    by_cases c : fwd = 0
    · rw [if_neg (not_not.2 c), if_pos c]
    · rw [if_pos c, if_neg c]
  have hlen := hx.desc.holds.dims
  set pre := mi.shape.take (mi.shape.length - nd) with hpre
  set ns := mi.shape.drop (mi.shape.length - nd) with hns
  have split : pre ++ ns = mi.shape := List.take_append_drop _ _
  have nslen : ns.length = nd := by rw [hns, List.length_drop]; omega
  have prelen : pre.length = mi.numDims - nd := by rw [hpre, List.length_take]; omega
  have hcount : (pre = [] ∧ p.base.batch = 1) ∨ pre = [p.base.batch] := by
    rw [e4]
    rcases hd' with d | d
    · rw [if_neg (by omega)]
      exact .inl ⟨List.length_eq_zero_iff.1 (by omega), rfl⟩
    · rw [if_pos (by omega)]
      right
      obtain ⟨B, hB⟩ := List.length_eq_one_iff.1 (show pre.length = 1 by omega)
      rw [hB]
      have := shapeDim_lt mi 0 (by omega)
      rw [Nat.cast_zero] at this
      rw [this, ← split, hB]
      rfl
  have stat : bExec b true (some p) u.mi u.mo u.st u.o1 u.o2 u.same u.inp u.out tmp =
      match u.mi.location with
        | .gpu =>
          if b.cuda then (libExec p true u.mi u.mo u.inp u.out).map fun r => (r.1, r.2, tmp)
          else some (.runtime, u.out, tmp)
        | .other => some (.success, u.out, tmp)
        | .cpu =>
          match b.host with
          | .native => fftExec (some p.base) u.mi u.mo u.st u.o1 u.o2 u.same u.inp u.out tmp
          | _ => (libExec p true u.mi u.mo u.inp u.out).map fun r => (r.1, r.2, tmp) := by
    have c2' := c2
    rw [c1] at c2'
    unfold bExec
    simp only [c1]
    rw [if_neg (by simp), e3, c2', if_neg (by simp), e1, e2, c3, c4, if_neg (by simp)]
    cases u.mi.location <;> cases b.host <;> rfl
  rw [stat, ← li.2.1]
  have finish : ∀ q : Option (Arr ℂ), (∃ r, q = some r ∧ r.size = u.out.size ∧
      Boxed pre ns (libSign fwd) u.inp r) → ∃ r t, (q.map fun r => (Status.success, r)).map
        (fun r => (r.1, r.2, tmp)) = some (.success, r, t) ∧ r.size = u.out.size ∧
        Dft nd (if fwd = 0 then 1 else -1) u.mi.shape u.inp r := by
    rintro q ⟨r, rfl, g1, g2⟩
    refine ⟨r, tmp, rfl, g1, ?_⟩
    rw [sh, ← hsign]
    exact dft_of_boxed g2
  rcases hcase with ⟨l, hb, -, lay⟩ | ⟨l, hb, -, lay⟩ | ⟨l, hb, lay⟩ | ⟨l, hb, nat⟩
  · rw [l]
    simp only [hb, if_true]
    unfold libExec
    rw [lay]
    simp only [sf, if_true, e5]
    apply finish
    unfold cufftExec
    rw [lengths_eq mi hlen nd (by omega), ← hns]
    have k1 : ∀ (m : Mem) (a : Arr ℂ), Laid m a → m.isCContiguous = true → 0 < m.type.size → m.shape = mi.shape →
        m.numDims = mi.numDims → ∀ t k, 0 ≤ t → t < p.base.batch → InRange k ns →
        t * m.strideElementsDim 0 + embedPos ns k * m.strideElementsDim ((mi.numDims : Int) - 1) =
          t * ns.prod + flatIndex k ns := by
      intro m a hl' hcc hsz hsh hdm t k t0 t1 hk
      have q1 : m.strideElementsDim ((mi.numDims : Int) - 1) = 1 := by
        have := strideElements_eq m hl' hcc hsz (mi.numDims - 1) (by omega)
        rw [show ((mi.numDims - 1 : Nat) : Int) = (mi.numDims : Int) - 1 by omega] at this
        rw [this, List.drop_of_length_le (by rw [hsh]; omega)]
        rfl
      rw [q1, embedPos_eq ns k (inRange_length hk), mul_one]
      rcases hd' with d | d
      · have : t = 0 := by
          rw [e4, if_neg (by omega)] at t1
          omega
        rw [this]
        ring
      · have := strideElements_eq m hl' hcc hsz 0 (by omega)
        rw [Nat.cast_zero] at this
        rw [this, hsh, hns]
        congr 4
        omega
    refine batched_ok pre ns p.base.batch hcount (libSign fwd) _ _ ?_ ?_ u.inp u.out (by rw [z1, split])
      (by rw [z2, split])
    · intro t k t0 t1 hk
      exact k1 mi x hx cmi es rfl rfl t k t0 t1 hk
    · intro t k t0 t1 hk
      exact k1 mo y hy cmo es' s2 n3 t k t0 t1 hk
  · rw [l, hb]
    simp only
    unfold libExec
    rw [lay]
    simp only [if_true, e5]
    apply finish
    have hl1 : (if (nd : Int) = 1 then [mi.shapeDim ((mi.numDims : Int) - 1)] else lengths mi nd) = ns := by
      rw [lengths_eq mi hlen nd (by omega), ← hns]
      by_cases d : (nd : Int) = 1
      · rw [if_pos d]
        obtain ⟨n, hn⟩ := List.length_eq_one_iff.1 (show ns.length = 1 by omega)
        rw [hn, show (mi.numDims : Int) - 1 = ((mi.numDims - 1 : Nat) : Int) by omega, shapeDim_lt _ _ (by omega),
          ← split, hn]
        have : mi.numDims - 1 = pre.length + 0 := by omega
        rw [this, getD_right]
        rfl
      · rw [if_neg d]
    rw [hl1, lengths_eq mi hlen nd (by omega), ← hns, foldl_prod]
    unfold mklCompute
    exact batched_ok pre ns p.base.batch hcount (libSign fwd) _ _ (fun t k _ _ _ => by simp only [rowPos_eq])
      (fun t k _ _ _ => by simp only [rowPos_eq]) u.inp u.out (by rw [z1, split]) (by rw [z2, split])
  · rw [l, hb]
    simp only
    unfold libExec
    rw [lay]
    unfold createPocket
    simp only [sf, if_true, e5]
    apply finish
    have r1 : RowMajor u.mi.type.size (pre ++ ns) mi.stride := by
      rw [split, ← li.1]
      exact hx.row cmi
    have r2 : RowMajor u.mi.type.size (pre ++ ns) mo.stride := by
      rw [split, ← li.1, ht, ← s2]
      exact hy.row cmo
    have ax : ((List.range ((nd : Int)).toNat).map fun (i : Nat) => ((mi.numDims : Int) - nd + i).toNat) =
        (List.range ns.length).map fun i => pre.length + i := by
      rw [nslen, Int.toNat_natCast]
      refine List.map_congr_left fun i _ => ?_
      rw [prelen]
      omega
    have m2 : ((List.range mi.numDims).map fun (i : Nat) => mo.strideBytesDim (i : Int)) = mo.stride := by
      rw [← n3]
      exact stride_list mo hy.desc.stride
    rw [shape_list mi hlen, stride_list mi hx.desc.stride, m2, ax, ← split]
    exact pocket_ok _ (by rw [← li.1]; exact es) pre ns _ _ _ _ _ r1 r2 (by rw [z1, split]) (by rw [z2, split])
  · rw [l, hb]
    simp only
    have le2 : nd ≤ 2 := by
      have hs : mi.strideElementsDim ((mi.numDims : Int) - 1) = 1 := by
        have := strideElements_eq mi hx cmi es (mi.numDims - 1) (by omega)
        rw [show ((mi.numDims - 1 : Nat) : Int) = (mi.numDims : Int) - 1 by omega] at this
        rw [this, List.drop_of_length_le (by omega)]
        rfl
      have := ((C91_create mi mo nd fwd .success hs).1 (by rw [nat])).2.2.2.2.2.2.2.2.2.2.2.2
      omega
    obtain ⟨r, t, g1, g2, -, g4⟩ := exec_fit (nd := nd) (by omega) nat hx.desc hy.desc ht hf u hu.desc hv.desc hfit' ho hsame
      tmp hz
    refine ⟨r, t, g1, g2, ?_⟩
    have : (if fwd = 0 then (1 : Int) else -1) = if fwd = 1 then -1 else 1 := by
      rcases hfwd hb l with rfl | rfl <;> rfl
    rw [this]
    exact dft_of_transformed hu.desc.holds.dims (by omega) (by rw [n1]; exact hd') g4

/-- C107.  Two builds of the library, or host and device: plans for the same transform of arrays of the same shape
(their types may differ) give the same values for the same data. -/
theorem C107_agree {b b' : Build} {mi mo mi' mo' : Mem} {nd : Nat} {fwd : Int} {p p' : BPlan} (hnd : 1 ≤ nd)
    (hfwd : fwd = 0 ∨ fwd = 1) (h : bCreate b true mi mo nd fwd .success = (some p, .success))
    (h' : bCreate b' true mi' mo' nd fwd .success = (some p', .success)) {x y x' y' : Arr ℂ}
    (hx : Laid mi x) (hy : Laid mo y) (hx' : Laid mi' x') (hy' : Laid mo' y') (ht : mi.type = mo.type)
    (ht' : mi'.type = mo'.type) (hf : mi.type = .complexFloat ∨ mi.type = .complexDouble)
    (hf' : mi'.type = .complexFloat ∨ mi'.type = .complexDouble) (u v : Use) (hshape : u.mi.shape = v.mi.shape)
    (hdata : u.inp = v.inp)
    (hu : Laid u.mi u.inp ∧ Laid u.mo u.out ∧ u.Fits mi mo ∧ u.Ordered nd ∧ (u.same = true → u.out = u.inp))
    (hv : Laid v.mi v.inp ∧ Laid v.mo v.out ∧ v.Fits mi' mo' ∧ v.Ordered nd ∧ (v.same = true → v.out = v.inp))
    (tmp tmp' : Arr ℂ) (hz : tmp.size = x.size) (hz' : tmp'.size = x'.size) :
    ∃ r t r' t', bExec b true (some p) u.mi u.mo u.st u.o1 u.o2 u.same u.inp u.out tmp = some (.success, r, t) ∧
      bExec b' true (some p') v.mi v.mo v.st v.o1 v.o2 v.same v.inp v.out tmp' = some (.success, r', t') ∧
      ∀ i < u.inp.size, r.get i = r'.get i := by
  obtain ⟨r, t, g1, -, g3⟩ := C107_transform_partial hnd (fun _ _ => hfwd) h hx hy ht hf u hu.1 hu.2.1 hu.2.2.1 hu.2.2.2.1
    hu.2.2.2.2 tmp hz
  obtain ⟨r', t', g1', -, g3'⟩ := C107_transform_partial hnd (fun _ _ => hfwd) h' hx' hy' ht' hf' v hv.1 hv.2.1 hv.2.2.1
    hv.2.2.2.1 hv.2.2.2.2 tmp' hz'
  refine ⟨r, t, r', t', g1, g1', fun i hi => ?_⟩
  rw [← hshape, ← hdata] at g3'
  refine dft_unique hu.1.desc.holds.nonneg g3 g3' i ?_
  rw [← hu.1.desc.holds.size]
  exact_mod_cast hi

/-- C107.  In every build, a use of a plan with other arrays than those it was made for, or after an error, is
refused and leaves the output as it was. -/
theorem C107_refused {b : Build} {ok ok' : Bool} {mi mo : Mem} {nd : Int} {fwd : Int} {p : BPlan}
    (h : bCreate b ok mi mo nd fwd .success = (some p, .success)) {x y : Arr ℂ} (hx : Desc mi x) (hy : Desc mo y)
    (u : Use) (hu : Desc u.mi u.inp) (hv : Desc u.mo u.out) (hfit : ¬ u.Fits mi mo) (tmp : Arr ℂ) :
    ∃ s, s ≠ .success ∧ (u.st ≠ .success → s = u.st) ∧
      bExec b ok' (some p) u.mi u.mo u.st u.o1 u.o2 u.same u.inp u.out tmp = some (s, u.out, tmp) := by
  obtain ⟨hc, e1, e2, e3, -⟩ := bCreate_plan h
  rw [exec_checks hc hx hy u hu hv] at hfit
  unfold bExec
  simp only
  rw [e1, e2, e3]
  by_cases c1 : u.st = .success
  swap
  · exact ⟨u.st, c1, fun _ => rfl, by rw [if_pos c1]⟩
  rw [if_neg (by simp [c1])]
  by_cases c2 : checkParams u.mi u.mo nd u.st = .success
  swap
  · exact ⟨_, c2, fun h => absurd c1 h, by rw [if_pos c2]⟩
  rw [if_neg (by simp [c2])]
  refine ⟨.runtime, by simp, fun h => absurd c1 h, ?_⟩
  rw [if_pos]
  by_contra c
  rw [not_or, not_not, not_not] at c
  exact hfit ⟨c1, c2, c.1, c.2⟩

/-- C107.  For arrays of one floating-point type in host memory and one or two dimensions, every build accepts the
same requests, with the same error if it refuses.  Missing from the full property: more dimensions and arrays of
different precision, for which it is false (`C107_dims_false`, `C107_mixed_false`). -/
theorem C107_create_partial (b b' : Build) (mi mo : Mem) (nd fwd : Int) (st : Status) {x : Arr ℂ} (hx : Laid mi x)
    (hl : mi.location = .cpu) (hn : 1 ≤ nd ∧ nd ≤ 2) (hs : sameFloat mi mo) :
    (bCreate b true mi mo nd fwd st).2 = (bCreate b' true mi mo nd fwd st).2 ∧
      ((bCreate b true mi mo nd fwd st).1.isSome ↔ (bCreate b true mi mo nd fwd st).2 = .success) := by
  have key : ∀ b : Build, (bCreate b true mi mo nd fwd st).2 = checkParams mi mo nd st ∧
      ((bCreate b true mi mo nd fwd st).1.isSome ↔ (bCreate b true mi mo nd fwd st).2 = .success) := by
    intro b
    unfold bCreate
    simp only
    by_cases c : checkParams mi mo nd st = .success
    swap
    · rw [if_pos c]
      simp [c]
    rw [if_neg (by simp [c]), hl, c]
    simp only
    cases hb : b.host with
    | pocket => simp
    | mkl => simp [createMkl, hs]
    | native =>
      have hcp := (checkParams_iff mi mo nd st).1 c
      have cmi : mi.isCContiguous = true := ((queryCC_iff mi).1 hcp.2.2.2.2.1).2
      have hd := hcp.2.2.2.2.2.2.2.2.2
      have es : 0 < mi.type.size := by rcases hs with hf | hf <;> rw [hf.1] <;> decide
      have q : mi.strideElementsDim ((mi.numDims : Int) - 1) = 1 := by
        have := strideElements_eq mi hx cmi es (mi.numDims - 1) (by omega)
        rw [show ((mi.numDims - 1 : Nat) : Int) = (mi.numDims : Int) - 1 by omega] at this
        rw [this, List.drop_of_length_le (by rw [hx.desc.holds.dims]; omega)]
        rfl
      have : (createNative mi nd).2 = .success := by
        unfold createNative
        simp only [q]
        rw [if_neg]
        rintro (g | ⟨g, -⟩)
        · omega
        · rw [if_pos (by omega)] at g
          exact g rfl
      simp [this]
  exact ⟨(key b).1.trans (key b').1.symm, (key b).2⟩

end
end Sdp.Fft
