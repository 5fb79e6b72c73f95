import Verif.Fft.Call
import Verif.Mem.Props3

/-!
# C91: FFT plans as calls
-/

namespace Sdp.Fft
open Complex
noncomputable section

/-! ## Specification -/

/-- Size of axis `k`. -/
def side (m : Mem) (k : Nat) : Nat := (m.shape.getD k 0).toNat

/-- Number of transforms done on an array when `nd` of its dimensions are transformed: the size of the first
axis if there is one more. -/
def entries (m : Mem) (nd : Nat) : Nat := if m.numDims = nd then 1 else side m 0

/-- `exp(± 2 pi i s k / n)`. -/
def wave (sign : Int) (n s k : Nat) : ℂ := cexp (2 * Real.pi * I * ((sign * (s * k) : Int) / n))

/-- `r` is the unnormalised discrete Fourier transform of `inp` along the last `nd` dimensions of an array
like `m`. -/
def Transformed (nd : Nat) (sign : Int) (m : Mem) (inp r : Arr ℂ) : Prop :=
  (nd = 1 → ∀ f < entries m 1, ∀ k < side m (m.numDims - 1), r.get (f * side m (m.numDims - 1) + k) =
    ∑ s ∈ Finset.range (side m (m.numDims - 1)), wave sign (side m (m.numDims - 1)) s k *
      inp.get (f * side m (m.numDims - 1) + s)) ∧
  (nd = 2 → ∀ f < entries m 2, ∀ k1 < side m (m.numDims - 2), ∀ k2 < side m (m.numDims - 1),
    r.get (side m (m.numDims - 2) * side m (m.numDims - 1) * f + (k1 * side m (m.numDims - 1) + k2)) =
    ∑ s1 ∈ Finset.range (side m (m.numDims - 2)), ∑ s2 ∈ Finset.range (side m (m.numDims - 1)),
      wave sign (side m (m.numDims - 2)) s1 k1 * wave sign (side m (m.numDims - 1)) s2 k2 *
        inp.get (side m (m.numDims - 2) * side m (m.numDims - 1) * f + (s1 * side m (m.numDims - 1) + s2)))

/-- A descriptor of data. -/
structure Desc (m : Mem) (a : Arr ℂ) : Prop where
  holds : Holds m a
  stride : m.stride.length = m.numDims

/-- Same type, place, shape and strides. -/
def Like (a b : Mem) : Prop :=
  a.type = b.type ∧ a.location = b.location ∧ a.shape = b.shape ∧ a.stride = b.stride

/-- One use of a plan. -/
structure Use where
  mi : Mem
  mo : Mem
  st : Status
  same : Bool
  inp : Arr ℂ
  out : Arr ℂ
  o1 : List Nat
  o2 : List Nat

/-- What a plan for arrays like `mi`, `mo` must do: transform if the arrays are like those and usable. -/
def Use.Fits (u : Use) (mi mo : Mem) : Prop :=
  u.st = .success ∧ Like mi u.mi ∧ Like mo u.mo ∧ u.mi.data ≠ none ∧ u.mo.data ≠ none ∧
    u.mo.isReadOnly = false ∧ u.mi.isCContiguous = true ∧ u.mo.isCContiguous = true

/-- The loops of a use run in some order. -/
def Use.Ordered (u : Use) (nd : Nat) : Prop :=
  (nd = 1 → u.o1.Perm (List.range (entries u.mi 1))) ∧
  (nd = 2 → u.o1.Perm (List.range (side u.mi (u.mi.numDims - 1))) ∧
    u.o2.Perm (List.range (side u.mi (u.mi.numDims - 2))))

/-- Uses of one plan one after the other, sharing its work array. -/
def useAll (p : Option Plan) : Arr ℂ → List Use → Option (List (Status × Arr ℂ))
  | _, [] => some []
  | tmp, u :: us =>
    (fftExec p u.mi u.mo u.st u.o1 u.o2 u.same u.inp u.out tmp).bind fun r =>
      (useAll p r.2.2 us).map fun rs => (r.1, r.2.1) :: rs

/-! ## Checks -/

theorem checkParams_iff (mi mo : Mem) (nd : Int) (st : Status) :
    checkParams mi mo nd st = .success ↔ st = .success ∧ mo.queryReadOnly = false ∧
      mi.location = mo.location ∧ mi.numDims = mo.numDims ∧ mi.queryCContiguous = true ∧
      mo.queryCContiguous = true ∧ mi.queryComplex = true ∧ mo.queryComplex = true ∧
      (∀ i < mi.numDims, mi.shapeDim (i : Nat) = mo.shapeDim (i : Nat)) ∧
      (nd = mi.numDims ∨ nd = (mi.numDims : Int) - 1) := by
  unfold checkParams
  simp only
  generalize mo.queryReadOnly = ro
  generalize mi.queryCContiguous = c1
  generalize mo.queryCContiguous = c2
  generalize mi.queryComplex = x1
  generalize mo.queryComplex = x2
  by_cases a : st = .success
  swap
  · rw [if_pos a]; simp [a]
  rw [if_neg (by simp [a])]
  cases ro
  swap
  · simp
  by_cases b : mi.location = mo.location
  swap
  · rw [if_neg (by simp), if_pos b]; simp [b]
  by_cases c : mi.numDims = mo.numDims
  swap
  · rw [if_neg (by simp), if_neg (by simp [b]), if_pos c]; simp [c]
  rw [if_neg (by simp), if_neg (by simp [b]), if_neg (by simp [c])]
  cases c1
  · simp
  cases c2
  · simp
  rw [if_neg (by simp)]
  have bad : ∀ q : Prop, [Decidable q] → ((if q then Status.runtime else Status.dataType) = .success) = False := by
    intro q _
    split_ifs <;> simp
  cases x1
  · rw [if_neg (by simp), bad]; simp
  cases x2
  · rw [if_neg (by simp), bad]; simp
  rw [if_pos (by simp)]
  by_cases e : ∀ i < mi.numDims, mi.shapeDim (i : Nat) = mo.shapeDim (i : Nat)
  · have e' : ¬ ∃ i ∈ List.range mi.numDims, mi.shapeDim (i : Nat) ≠ mo.shapeDim (i : Nat) := by
      rintro ⟨i, hi, h⟩
      exact h (e i (List.mem_range.1 hi))
    rw [if_neg e']
    by_cases g : nd = mi.numDims ∨ nd = (mi.numDims : Int) - 1
    · rw [if_neg fun h => g.elim h.1 h.2]
      exact ⟨fun _ => ⟨a, rfl, b, c, rfl, rfl, rfl, rfl, e, g⟩, fun _ => rfl⟩
    · rw [if_pos (not_or.1 g)]
      constructor
      · intro h; cases h
      · rintro ⟨-, -, -, -, -, -, -, -, -, h⟩; exact absurd h g
  · have e' : ∃ i ∈ List.range mi.numDims, mi.shapeDim (i : Nat) ≠ mo.shapeDim (i : Nat) := by
      push Not at e
      obtain ⟨i, hi, h⟩ := e
      exact ⟨i, List.mem_range.2 hi, h⟩
    rw [if_pos e']
    constructor
    · intro h; cases h
    · rintro ⟨-, -, -, -, -, -, -, -, h, -⟩; exact absurd h e

theorem queryReadOnly_iff (m : Mem) : m.queryReadOnly = false ↔ m.data ≠ none ∧ m.isReadOnly = false := by
  unfold Mem.queryReadOnly
  cases m.data <;> simp

theorem queryCC_iff (m : Mem) : m.queryCContiguous = true ↔ m.data ≠ none ∧ m.isCContiguous = true := by
  unfold Mem.queryCContiguous
  cases m.data <;> simp

theorem queryComplex_iff (m : Mem) : m.queryComplex = true ↔ m.data ≠ none ∧
    (m.type = .complexBit ∨ m.type = .complexFloat ∨ m.type = .complexDouble) := by
  unfold Mem.queryComplex
  cases m.data <;> simp

/-- C91: a plan is created exactly for a writable output array and an input array in host memory, both
C-contiguous, complex and of the same shape, if all or all but one of the dimensions are transformed and these
are at most two. -/
theorem C91_create (mi mo : Mem) (nd fwd : Int) (st : Status)
    (hs : mi.strideElementsDim ((mi.numDims : Int) - 1) = 1) :
    (fftCreate mi mo nd fwd st).2 = .success ↔ st = .success ∧ mo.data ≠ none ∧ mo.isReadOnly = false ∧
      mi.location = .cpu ∧ mo.location = .cpu ∧ mi.numDims = mo.numDims ∧
      (mi.data ≠ none ∧ mi.isCContiguous = true) ∧ mo.isCContiguous = true ∧
      (mi.type = .complexBit ∨ mi.type = .complexFloat ∨ mi.type = .complexDouble) ∧
      (mo.type = .complexBit ∨ mo.type = .complexFloat ∨ mo.type = .complexDouble) ∧
      (∀ i < mi.numDims, mi.shapeDim (i : Nat) = mo.shapeDim (i : Nat)) ∧
      (nd = mi.numDims ∨ nd = (mi.numDims : Int) - 1) ∧ nd ≤ 2 := by
  have key := checkParams_iff mi mo nd st
  rw [queryReadOnly_iff, queryCC_iff, queryCC_iff, queryComplex_iff, queryComplex_iff] at key
  have nat : (createNative mi nd).2 = .success ↔ nd ≤ 2 := by
    unfold createNative
    simp only [hs]
    by_cases c : nd > 2
    · rw [if_pos (.inl c)]
      constructor
      · intro h; cases h
      · intro h; omega
    · rw [if_neg]
      · exact ⟨fun _ => by omega, fun _ => rfl⟩
      · rintro (h | ⟨h1, h2, -⟩)
        · exact c h
        · by_cases d : nd = 1 ∨ nd = 2
          · rw [if_pos d] at h1; exact h1 rfl
          · rw [not_or] at d
            rw [if_neg d.1, if_neg d.2, if_neg d.1, if_neg d.2] at h2
            exact h2 rfl
  unfold fftCreate
  simp only
  by_cases c : checkParams mi mo nd st = .success
  · rw [if_neg (by simp [c])]
    have k := key.1 c
    cases hl : mi.location with
    | cpu =>
      simp only [nat]
      rw [hl] at k
      constructor
      · intro h
        exact ⟨k.1, k.2.1.1, k.2.1.2, trivial, k.2.2.1.symm, k.2.2.2.1, k.2.2.2.2.1, k.2.2.2.2.2.1.2,
          k.2.2.2.2.2.2.1.2, k.2.2.2.2.2.2.2.1.2, k.2.2.2.2.2.2.2.2.1, k.2.2.2.2.2.2.2.2.2, h⟩
      · rintro ⟨-, -, -, -, -, -, -, -, -, -, -, -, h⟩
        exact h
    | gpu => simp
    | other => simp
  · rw [if_pos (by simp [c])]
    simp only
    constructor
    · intro h; exact absurd h c
    · rintro ⟨a1, a2, a3, a4, a5, a6, a7, a8, a9, a10, a11, a12, -⟩
      exact absurd (key.2 ⟨a1, ⟨a2, a3⟩, by rw [a4, a5], a6, a7, ⟨a2, a8⟩, ⟨a7.1, a9⟩, ⟨a2, a10⟩, a11, a12⟩) c

/-- What a plan contains. -/
theorem create_plan {mi mo : Mem} {nd fwd : Int} {p : Plan}
    (h : fftCreate mi mo nd fwd .success = (some p, .success)) :
    checkParams mi mo nd .success = .success ∧ mi.location = .cpu ∧ p.inM = mi ∧ p.outM = mo ∧ p.dims = nd ∧
      p.nx = (createNative mi nd).1.1 ∧ p.ny = (createNative mi nd).1.2 ∧
      p.batch = (if (mi.numDims : Int) ≠ nd then mi.shapeDim 0 else 1) ∧ p.fwd = fwd := by
  unfold fftCreate at h
  simp only at h
  by_cases c : checkParams mi mo nd .success = .success
  · rw [if_neg (by simp [c])] at h
    cases hl : mi.location with
    | cpu =>
      rw [hl] at h
      simp only [Prod.mk.injEq, Option.some.injEq] at h
      obtain ⟨rfl, -⟩ := h
      exact ⟨c, rfl, rfl, rfl, rfl, rfl, rfl, rfl, rfl⟩
    | gpu => rw [hl] at h; simp at h
    | other => rw [hl] at h; simp at h
  · rw [if_pos (by simp [c])] at h
    simp at h

theorem matching_like {a b : Mem} {x y : Arr ℂ} (ha : Desc a x) (hb : Desc b y) :
    isMatching a b true = true ↔ Like a b := by
  rw [C56_matching_exact a b true ha.holds.dims ha.stride hb.holds.dims hb.stride]
  unfold Like
  simp

/-- When the arrays fit the plan, the checks of the execution succeed, and only then. -/
theorem exec_checks {mi mo : Mem} {nd : Int} (hc : checkParams mi mo nd .success = .success)
    {x y : Arr ℂ} (hx : Desc mi x) (hy : Desc mo y) (u : Use) (hu : Desc u.mi u.inp) (hv : Desc u.mo u.out) :
    u.Fits mi mo ↔ u.st = .success ∧ checkParams u.mi u.mo nd u.st = .success ∧
      isMatching mi u.mi true = true ∧ isMatching mo u.mo true = true := by
  rw [checkParams_iff, queryReadOnly_iff, queryCC_iff, queryCC_iff, queryComplex_iff, queryComplex_iff] at hc ⊢
  rw [matching_like hx hu, matching_like hy hv]
  unfold Use.Fits
  constructor
  · rintro ⟨h1, h2, h3, h4, h5, h6, h7, h8⟩
    refine ⟨h1, ⟨h1, ⟨h5, h6⟩, ?_, ?_, ⟨h4, h7⟩, ⟨h5, h8⟩, ⟨h4, ?_⟩, ⟨h5, ?_⟩, ?_, ?_⟩, h2, h3⟩
    · rw [← h2.2.1, ← h3.2.1]; exact hc.2.2.1
    · rw [← hu.holds.dims, ← hv.holds.dims, ← h2.2.2.1, ← h3.2.2.1, hx.holds.dims, hy.holds.dims]
      exact hc.2.2.2.1
    · rw [← h2.1]; exact hc.2.2.2.2.2.2.1.2
    · rw [← h3.1]; exact hc.2.2.2.2.2.2.2.1.2
    · intro i hi
      have e1 : mi.numDims = u.mi.numDims := by rw [← hu.holds.dims, ← h2.2.2.1, hx.holds.dims]
      have e2 : mo.numDims = u.mo.numDims := by rw [← hv.holds.dims, ← h3.2.2.1, hy.holds.dims]
      have e3 := hc.2.2.2.1
      rw [shapeDim_lt _ _ hi, shapeDim_lt _ _ (by omega), ← h2.2.2.1, ← h3.2.2.1]
      have := hc.2.2.2.2.2.2.2.2.1 i (by omega)
      rwa [shapeDim_lt _ _ (by omega), shapeDim_lt _ _ (by omega)] at this
    · have e1 : mi.numDims = u.mi.numDims := by rw [← hu.holds.dims, ← h2.2.2.1, hx.holds.dims]
      rw [← e1]; exact hc.2.2.2.2.2.2.2.2.2
  · rintro ⟨h1, h, h2, h3⟩
    exact ⟨h1, h2, h3, h.2.2.2.2.1.1, h.2.1.1, h.2.1.2, h.2.2.2.2.1.2, h.2.2.2.2.2.1.2⟩

/-- Sizes of data of one or two transformed dimensions. -/
theorem data_size {m : Mem} {a : Arr ℂ} (h : Desc m a) (nd : Nat) (hnd : nd = 1 ∨ nd = 2)
    (hd : (nd : Int) = m.numDims ∨ (nd : Int) = (m.numDims : Int) - 1) :
    (nd = 1 → a.size = side m (m.numDims - 1) * entries m 1) ∧
      (nd = 2 → a.size = side m (m.numDims - 2) * side m (m.numDims - 1) * entries m 2) := by
  have hz := h.holds.size
  have hl := h.holds.dims
  have hp := h.holds.nonneg
  unfold side entries side
  obtain ⟨t, l, b1, b2, b3, n, e, rc, sh, sr, dt⟩ := m
  simp only at *
  rcases hnd with rfl | rfl
  · refine ⟨fun _ => ?_, fun h => by omega⟩
    rcases hd with d | d
    · obtain rfl : n = 1 := by omega
      obtain ⟨x, rfl⟩ := List.length_eq_one_iff.1 hl
      simp at hz hp ⊢
      omega
    · obtain rfl : n = 2 := by omega
      obtain ⟨x, y, rfl⟩ := List.length_eq_two.1 hl
      simp at hz hp ⊢
      zify
      rw [hz, Int.toNat_of_nonneg hp.1, Int.toNat_of_nonneg hp.2, mul_comm]
  · refine ⟨fun h => by omega, fun _ => ?_⟩
    rcases hd with d | d
    · obtain rfl : n = 2 := by omega
      obtain ⟨x, y, rfl⟩ := List.length_eq_two.1 hl
      simp at hz hp ⊢
      zify
      rw [hz, Int.toNat_of_nonneg hp.1, Int.toNat_of_nonneg hp.2]
    · obtain rfl : n = 3 := by omega
      obtain ⟨x, y, z, rfl⟩ := List.length_eq_three.1 hl
      simp at hz hp ⊢
      zify
      rw [hz, Int.toNat_of_nonneg hp.1, Int.toNat_of_nonneg hp.2.1, Int.toNat_of_nonneg hp.2.2]
      ring

/-- The numbers in a plan. -/
theorem plan_sizes {mi mo : Mem} {nd : Nat} {fwd : Int} {p : Plan} (hnd : nd = 1 ∨ nd = 2)
    (h : fftCreate mi mo nd fwd .success = (some p, .success)) :
    (nd = 1 → p.nx.toNat = side mi (mi.numDims - 1)) ∧
      (nd = 2 → p.nx.toNat = side mi (mi.numDims - 2) ∧ p.ny.toNat = side mi (mi.numDims - 1)) ∧
      p.batch.toNat = entries mi nd := by
  obtain ⟨hc, hl, -, -, -, hx, hy, hb, -⟩ := create_plan h
  have hd := ((checkParams_iff mi mo nd .success).1 hc).2.2.2.2.2.2.2.2.2
  have sd : ∀ k : Nat, k < mi.numDims → (mi.shapeDim (k : Int)).toNat = side mi k := fun k hk => by
    rw [shapeDim_lt _ _ hk]; rfl
  rw [hx, hy, hb]
  unfold createNative
  simp only
  refine ⟨?_, ?_, ?_⟩
  · rintro rfl
    rw [if_pos (by rfl), ← sd _ (by omega)]
    congr 2; omega
  · rintro rfl
    rw [if_neg (by norm_num), if_pos (by rfl), if_neg (by norm_num), if_pos (by rfl), ← sd _ (by omega),
      ← sd _ (by omega)]
    constructor
    · congr 2; omega
    · congr 2; omega
  · unfold entries
    by_cases c : mi.numDims = nd
    · rw [if_pos c, if_neg (by simp [c])]; rfl
    · rw [if_neg c, if_pos (by exact_mod_cast c)]
      have := sd 0 (by omega)
      simpa using this

theorem exec1_spec (nx batch : Nat) (order : List Nat) (ho : order.Perm (List.range batch))
    (isForward : Int) (inplace : Bool) (inp out tmp : Arr ℂ)
    (hi : inp.size = nx * batch) (hos : out.size = nx * batch) (ht : tmp.size = nx * batch)
    (hin : inplace = true → out = inp) :
    ∃ st, exec1 nx batch order isForward inplace inp out tmp = some st ∧
      st.inp.size = nx * batch ∧ st.tmp.size = nx * batch ∧
      ∀ f < batch, ∀ k < nx, st.inp.get (f * nx + k) = ∑ s ∈ Finset.range nx,
        wave (if isForward = 1 then -1 else 1) nx s k * inp.get (f * nx + s) := by
  obtain ⟨st, e, z, v⟩ := C27_fft_1d nx batch order ho isForward inplace inp out tmp
    (fun f i => inp.get (f * nx + i)) hi hos ht (fun _ _ _ _ => rfl) hin
  refine ⟨st, e, z, ?_, v⟩
  have key : ∀ o : Arr ℂ, o.size = nx * batch →
      fft1Batch 0 nx order (!(isForward = 1)) ⟨o, tmp⟩ = some st → st.tmp.size = nx * batch := by
    intro o hsz e'
    have hc : nx * batch = batch * nx := Nat.mul_comm _ _
    obtain ⟨st', e'', f1, f2, -⟩ := fft1Batch_spec 0 nx batch order ho (!(isForward = 1)) ⟨o, tmp⟩
      (fun f i => o.get (0 + (f * nx + i))) (fun _ _ _ _ => rfl) (by simp only; omega) (by simp only; omega)
    rw [e'] at e''
    cases e''
    rw [f2.1]; exact ht
  unfold exec1 at e
  cases hb : inplace
  · rw [hb, if_neg (by simp)] at e
    obtain ⟨o, e1, f1, -⟩ := copyBlock_spec out inp 0 0 (nx * batch) inp.get (by omega)
      ⟨by omega, fun i _ => by rw [Nat.zero_add]⟩
    rw [e1] at e
    exact key o (by rw [f1.1, hos]) e
  · rw [hb, if_pos rfl] at e
    exact key out hos e

/-- A use that fits is a transform, and keeps the size of the work array. -/
theorem exec_fit {mi mo : Mem} {nd : Nat} {fwd : Int} {p : Plan} (hnd : nd = 1 ∨ nd = 2)
    (h : fftCreate mi mo nd fwd .success = (some p, .success)) {x y : Arr ℂ} (hx : Desc mi x) (hy : Desc mo y)
    (ht : mi.type = mo.type) (hf : mi.type = .complexFloat ∨ mi.type = .complexDouble)
    (u : Use) (hu : Desc u.mi u.inp) (hv : Desc u.mo u.out) (hfit : u.Fits mi mo) (ho : u.Ordered nd)
    (hsame : u.same = true → u.out = u.inp) (tmp : Arr ℂ) (hz : tmp.size = x.size) :
    ∃ r t, fftExec (some p) u.mi u.mo u.st u.o1 u.o2 u.same u.inp u.out tmp = some (.success, r, t) ∧
      r.size = u.out.size ∧ t.size = x.size ∧
      Transformed nd (if fwd = 1 then -1 else 1) u.mi u.inp r := by
  obtain ⟨hc, hl, e1, e2, e3, -, -, -, e4⟩ := create_plan h
  obtain ⟨p1, p2, p3⟩ := plan_sizes hnd h
  have hd := ((checkParams_iff mi mo nd .success).1 hc).2.2.2.2.2.2.2.2.2
  obtain ⟨c1, c2, c3, c4⟩ := (exec_checks hc hx hy u hu hv).1 hfit
  obtain ⟨-, li, lo, -⟩ := hfit
  have n1 : u.mi.numDims = mi.numDims := by rw [← hu.holds.dims, ← li.2.2.1, hx.holds.dims]
  have n2 : u.mo.numDims = mi.numDims := by
    rw [← hv.holds.dims, ← lo.2.2.1, hy.holds.dims, ← ((checkParams_iff mi mo nd .success).1 hc).2.2.2.1]
  have n3 : mo.numDims = mi.numDims := ((checkParams_iff mi mo nd .success).1 hc).2.2.2.1.symm
  have s1 : ∀ k, side u.mi k = side mi k := fun k => by unfold side; rw [li.2.2.1]
  have s2 : u.mo.shape = mi.shape := by
    rw [← lo.2.2.1]
    apply List.ext_getElem
    · rw [hy.holds.dims, hx.holds.dims, n3]
    · intro i h1 h2
      have := ((checkParams_iff mi mo nd .success).1 hc).2.2.2.2.2.2.2.2.1 i (by rw [← hx.holds.dims]; exact h2)
      rw [shapeDim_lt _ _ (by rw [← hx.holds.dims]; exact h2), shapeDim_lt _ _ (by rw [← hy.holds.dims]; exact h1)]
        at this
      simpa [List.getD, List.getElem?_eq_getElem h1, List.getElem?_eq_getElem h2] using this.symm
  have z1 : u.inp.size = x.size := by
    have := hu.holds.size
    rw [← li.2.2.1, ← hx.holds.size] at this
    exact_mod_cast this
  have z2 : u.out.size = x.size := by
    have := hv.holds.size
    rw [s2, ← hx.holds.size] at this
    exact_mod_cast this
  have sf : sameFloat u.mi u.mo := by
    unfold sameFloat
    rw [← li.1, ← lo.1, ← ht]
    rcases hf with hf | hf
    · exact .inl ⟨hf, hf⟩
    · exact .inr ⟨hf, hf⟩
  have en : entries u.mi nd = entries mi nd := by unfold entries; rw [n1, s1]
  have ds := data_size hx nd hnd hd
  unfold fftExec
  simp only [c1]
  rw [if_neg (by simp)]
  rw [c1] at c2
  rw [e3, c2, if_neg (by simp), e1, e2, c3, c4, if_neg (by simp)]
  have ul : u.mi.location = .cpu := by rw [← li.2.1]; exact hl
  rw [ul]
  simp only
  rcases hnd with rfl | rfl
  · obtain ⟨st, g1, g2, g3, g4⟩ := exec1_spec p.nx.toNat p.batch.toNat u.o1
      (by rw [p3, ← en]; exact ho.1 rfl) p.fwd u.same u.inp u.out tmp (by rw [z1, ds.1 rfl, p1 rfl, p3])
      (by rw [z2, ds.1 rfl, p1 rfl, p3]) (by rw [hz, ds.1 rfl, p1 rfl, p3]) hsame
    rw [if_pos ⟨by rfl, sf⟩, g1]
    refine ⟨st.inp, st.tmp, rfl, by rw [g2, z2, ds.1 rfl, p1 rfl, p3], by rw [g3, ds.1 rfl, p1 rfl, p3], ?_⟩
    refine ⟨fun _ f hf k hk => ?_, fun h => by omega⟩
    rw [en] at hf
    rw [n1, s1] at hk ⊢
    rw [← p1 rfl] at hk ⊢
    rw [g4 f (by rw [p3]; exact hf) k hk, e4]
  · obtain ⟨o1, o2⟩ := ho.2 rfl
    rw [n1, s1] at o1 o2
    obtain ⟨st, g1, g2, g4⟩ := C27_fft_2d p.nx.toNat p.ny.toNat p.batch.toNat u.o1 u.o2
      (by rw [(p2 rfl).2]; exact o1) (by rw [(p2 rfl).1]; exact o2) p.fwd u.same u.inp u.out tmp
      (fun f i j => u.inp.get (p.nx.toNat * p.ny.toNat * f + (i * p.ny.toNat + j)))
      (by rw [z1, ds.2 rfl, (p2 rfl).1, (p2 rfl).2, p3])
      (by rw [z2, ds.2 rfl, (p2 rfl).1, (p2 rfl).2, p3]) (by rw [hz, ds.2 rfl, (p2 rfl).1, (p2 rfl).2, p3])
      (fun _ _ _ _ _ _ => rfl) hsame
    obtain ⟨st', g1', -, g3', -⟩ := exec2_spec p.nx.toNat p.ny.toNat p.batch.toNat u.o1 u.o2
      (by rw [(p2 rfl).2]; exact o1) (by rw [(p2 rfl).1]; exact o2) p.fwd u.same u.inp u.out tmp
      (fun f i j => u.inp.get (p.nx.toNat * p.ny.toNat * f + (i * p.ny.toNat + j)))
      (by rw [z1, ds.2 rfl, (p2 rfl).1, (p2 rfl).2, p3])
      (by rw [z2, ds.2 rfl, (p2 rfl).1, (p2 rfl).2, p3]) (by rw [hz, ds.2 rfl, (p2 rfl).1, (p2 rfl).2, p3])
      (fun _ _ _ _ _ _ => rfl) hsame
    rw [g1] at g1'
    cases g1'
    rw [if_neg (by rintro ⟨h, -⟩; norm_num at h), if_pos ⟨by rfl, sf⟩, g1]
    refine ⟨st.inp, st.tmp, rfl, by rw [g2, z2, ds.2 rfl, (p2 rfl).1, (p2 rfl).2, p3],
      by rw [g3', ds.2 rfl, (p2 rfl).1, (p2 rfl).2, p3], ?_⟩
    refine ⟨fun h => by omega, fun _ f hf k1 hk1 k2 hk2 => ?_⟩
    rw [en] at hf
    rw [n1, s1] at hk1 hk2
    rw [n1, s1, s1]
    rw [← (p2 rfl).1] at hk1
    rw [← (p2 rfl).2] at hk2
    rw [← (p2 rfl).1, ← (p2 rfl).2, g4 f (by rw [p3]; exact hf) k1 hk1 k2 hk2, e4]
    rfl

/-- A use that does not fit is refused. -/
theorem exec_unfit {mi mo : Mem} {nd : Int} {fwd : Int} {p : Plan}
    (h : fftCreate mi mo nd fwd .success = (some p, .success)) {x y : Arr ℂ} (hx : Desc mi x) (hy : Desc mo y)
    (u : Use) (hu : Desc u.mi u.inp) (hv : Desc u.mo u.out) (hfit : ¬ u.Fits mi mo) (tmp : Arr ℂ) :
    ∃ s, s ≠ .success ∧ (u.st ≠ .success → s = u.st) ∧
      fftExec (some p) u.mi u.mo u.st u.o1 u.o2 u.same u.inp u.out tmp = some (s, u.out, tmp) := by
  obtain ⟨hc, hl, e1, e2, e3, -, -, -, e4⟩ := create_plan h
  rw [exec_checks hc hx hy u hu hv] at hfit
  unfold fftExec
  simp only
  rw [e1, e2, e3]
  by_cases c1 : u.st = .success
  swap
  · exact ⟨u.st, c1, fun _ => rfl, by rw [if_pos c1]⟩
  rw [if_neg (by simp [c1])]
  by_cases c2 : checkParams u.mi u.mo nd u.st = .success
  swap
  · exact ⟨_, c2, fun h => absurd c1 h, by rw [if_pos c2]⟩
  rw [if_neg (by simp [c2])]
  refine ⟨.runtime, by simp, fun h => absurd c1 h, ?_⟩
  rw [if_pos]
  by_contra c
  rw [not_or, not_not, not_not] at c
  exact hfit ⟨c1, c2, c.1, c.2⟩

/-- Specification: how a use must end. -/
def Answer (nd : Nat) (fwd : Int) (mi mo : Mem) (u : Use) (r : Status × Arr ℂ) : Prop :=
  (u.Fits mi mo → r.1 = .success ∧ r.2.size = u.out.size ∧
    Transformed nd (if fwd = 0 then 1 else -1) u.mi u.inp r.2) ∧
  (¬ u.Fits mi mo → r.1 ≠ .success ∧ r.2 = u.out)

/-- C91.  A plan for `nd` = 1 or 2 dimensions of arrays of one type, forward (1) or inverse (0): whatever uses
it has been put to before, in place or not, successful or not, and whatever the loop orders, each use with
arrays like those of the plan gives the unnormalised transform of *its* input along the last `nd` dimensions, and
each other use is refused and leaves the output as it was.  Missing from the full property: plans of arrays of
different precision, of no dimensions, other true values of `is_forward`, and uses without a plan, for which it is
false (`C91_mixed_false`, `C91_no_dims_false`, `C91_direction_false`, `C91_null_false`). -/
theorem C91_plan_partial {mi mo : Mem} {nd : Nat} {fwd : Int} {p : Plan} (hnd : nd = 1 ∨ nd = 2)
    (hfwd : fwd = 0 ∨ fwd = 1)
    (h : fftCreate mi mo nd fwd .success = (some p, .success)) {x y : Arr ℂ} (hx : Desc mi x) (hy : Desc mo y)
    (ht : mi.type = mo.type) (hf : mi.type = .complexFloat ∨ mi.type = .complexDouble) (uses : List Use)
    (hu : ∀ u ∈ uses, Desc u.mi u.inp ∧ Desc u.mo u.out ∧ u.Ordered nd ∧ (u.same = true → u.out = u.inp))
    (tmp : Arr ℂ) (hz : tmp.size = x.size) :
    ∃ rs, useAll (some p) tmp uses = some rs ∧ List.Forall₂ (Answer nd fwd mi mo) uses rs := by
  induction uses generalizing tmp with
  | nil => exact ⟨[], rfl, .nil⟩
  | cons u us ih =>
    obtain ⟨hu1, hu2, hu3, hu4⟩ := hu u (by simp)
    have hu' := fun v hv => hu v (List.mem_cons_of_mem _ hv)
    by_cases c : u.Fits mi mo
    · obtain ⟨r, t, e, z, zt, tr⟩ := exec_fit hnd h hx hy ht hf u hu1 hu2 c hu3 hu4 tmp hz
      obtain ⟨rs, e', f⟩ := ih hu' t zt
      refine ⟨(.success, r) :: rs, ?_, .cons ⟨fun _ => ⟨rfl, z, ?_⟩, fun h => absurd c h⟩ f⟩
      · unfold useAll
        rw [e]
        simp only [Option.bind_some, e', Option.map_some]
      · have : (if fwd = 0 then (1 : Int) else -1) = if fwd = 1 then -1 else 1 := by
          rcases hfwd with rfl | rfl <;> rfl
        rw [this]
        exact tr
    · obtain ⟨s, hs, -, e⟩ := exec_unfit h hx hy u hu1 hu2 c tmp
      obtain ⟨rs, e', f⟩ := ih hu' tmp hz
      refine ⟨(s, u.out) :: rs, ?_, .cons ⟨fun h => absurd h c, fun _ => ⟨hs, rfl⟩⟩ f⟩
      unfold useAll
      rw [e]
      simp only [Option.bind_some, e', Option.map_some]

end
end Sdp.Fft
