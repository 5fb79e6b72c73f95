import Verif.Hogbom.GpuReduce
import Verif.Hogbom.Props

set_option linter.unusedSectionVars false

/-!
# C88: Hogbom CLEAN on the GPU
-/

namespace Sdp.Hogbom
open Sdp.Race
variable {F : Type} [Field F] [LinearOrder F]

/-! ## Specification -/

/-- One minor cycle at a pixel `k` of largest residual, above the threshold (any such pixel, where several
are equally large). -/
def PeakMinor (psf : Nat → F) (D : Nat) (gain thr : F) (r c r' c' : Nat → F) : Prop :=
  ∃ k < D * D, (∀ j < D * D, r j ≤ r k) ∧ thr < r k ∧
    (∀ p < D * D, c' p = c p + if p = k then gain * r k else 0) ∧
    ∀ i < D, ∀ j < D,
      r' (D * i + j) = r (D * i + j) - gain * r k * psfAt psf D (k / D) (k % D) i j

/-- A chain of `k` such cycles. -/
inductive PeakMinors (psf : Nat → F) (D : Nat) (gain thr : F) :
    Nat → (Nat → F) → (Nat → F) → (Nat → F) → (Nat → F) → Prop
  | nil {r c r' c'} : (∀ p < D * D, r' p = r p) → (∀ p < D * D, c' p = c p) →
      PeakMinors psf D gain thr 0 r c r' c'
  | cons {k r c r' c' r'' c''} : PeakMinor psf D gain thr r c r' c' →
      PeakMinors psf D gain thr k r' c' r'' c'' → PeakMinors psf D gain thr (k + 1) r c r'' c''

/-- After a launch of the peak search with `n` blocks there is one with `c`. -/
inductive Later : Nat → Nat → Prop
  | next {n} : 1 < n → Later n (blocks n 256)
  | trans {n c} : 1 < n → Later (blocks n 256) c → Later n c

/-! ## Bounds -/

theorem load_ok (input : Arr F) (idx : Option (Arr Int)) (b t : Nat) (ht : t < 256)
    (hi : ∀ a, idx = some a → a.size = input.size) (m : Arr (Cell F)) (hm : m.size = 512) :
    (load input idx b t).exec m ≠ none ↔ 256 * b + t < input.size := by
  unfold load
  rw [exec_need, Arr.read_nat]
  by_cases c : 256 * b + t < input.size
  · rw [if_pos c]
    simp only [Option.bind_some, setVal, Prog.exec]
    rw [Arr.write_nat, if_pos (by omega)]
    simp only [Option.bind_some]
    constructor
    · intro _; exact c
    · intro _
      cases idx with
      | none =>
        simp only [setIdx, Prog.exec]
        rw [Arr.write_nat, if_pos (by simp only [Arr.put]; omega)]
        simp
      | some a =>
        simp only
        rw [exec_need, Arr.read_nat, if_pos (by rw [hi a rfl]; exact c)]
        simp only [Option.bind_some, setIdx, Prog.exec]
        rw [Arr.write_nat, if_pos (by simp only [Arr.put]; omega)]
        simp
  · rw [if_neg c]
    simp [c]

/-- **C88** (bounds).  The peak search of an image of side `D` reads only elements of the image and of its own
arrays exactly if `D` is 16 or a multiple of 256: there is no check of the index.  For every other side some
thread reads past the end.  (`m` is the shared memory.) -/
theorem C88_bounds (D : Nat) (hD : 0 < D) (res val : Arr F) (idx : Arr Int) (hr : res.size = D * D)
    (hv : val.size = blocks (D * D) 256) (hi : idx.size = blocks (D * D) 256)
    (m : Arr (Cell F)) (hm : m.size = 512) :
    ((∀ b < blocks (D * D) 256, ∀ t < 256, (load res none b t).exec m ≠ none) ∧
      ∀ c, Later (blocks (D * D) 256) c → ∀ b < c, ∀ t < 256, (load val (some idx) b t).exec m ≠ none) ↔
    D = 16 ∨ 256 ∣ D := by
  have l1 : (∀ b < blocks (D * D) 256, ∀ t < 256, (load res none b t).exec m ≠ none) ↔
      ∀ b < blocks (D * D) 256, ∀ t < 256, 256 * b + t < D * D := by
    refine forall₂_congr fun b _ => forall₂_congr fun t ht => ?_
    rw [load_ok res none b t ht (by simp) m hm, hr]
  have l2 : (∀ c, Later (blocks (D * D) 256) c → ∀ b < c, ∀ t < 256, (load val (some idx) b t).exec m ≠ none) ↔
      ∀ c, Later (blocks (D * D) 256) c → ∀ b < c, ∀ t < 256, 256 * b + t < blocks (D * D) 256 := by
    refine forall₂_congr fun c _ => forall₂_congr fun b _ => forall₂_congr fun t ht => ?_
    rw [load_ok val (some idx) b t ht (by intro a h; cases h; rw [hi, hv]) m hm, hv]
  rw [l1, l2]
  have hpos : 0 < D * D := Nat.mul_pos hD hD
  have full : ∀ n, 0 < n → ∀ N, (∀ b < blocks n 256, ∀ t < 256, 256 * b + t < N) ↔ 256 * blocks n 256 ≤ N := by
    intro n hn N
    constructor
    · intro h
      have hb : 0 < blocks n 256 := by unfold blocks; omega
      have := h (blocks n 256 - 1) (by omega) 255 (by omega)
      omega
    · intro h b hb t ht
      have : b + 1 ≤ blocks n 256 := hb
      omega
  rw [full _ hpos]
  have ge : ∀ n, n ≤ 256 * blocks n 256 := fun n => by have := le_blocks n 256 (by omega); omega
  constructor
  · rintro ⟨h1, h2⟩
    have e1 : D * D = 256 * blocks (D * D) 256 := le_antisymm (ge _) h1
    have d1 : 16 ∣ D := by
      rw [← Nat.pow_dvd_pow_iff (n := 2) (by omega)]
      exact ⟨blocks (D * D) 256, by rw [pow_two, e1, ← e1]; norm_num; exact e1⟩
    obtain ⟨m, rfl⟩ := d1
    have e2 : blocks (16 * m * (16 * m)) 256 = m * m := by
      have : 16 * m * (16 * m) = 256 * (m * m) := by ring
      rw [this] at e1 ⊢
      omega
    rw [e2] at h2
    by_cases hm : m = 1
    · left; omega
    · right
      have hm2 : 1 < m * m := by
        have : 2 ≤ m := by omega
        nlinarith
      have h3 := (full (m * m) (by omega) (m * m)).1 (h2 _ (.next hm2))
      have e3 : m * m = 256 * blocks (m * m) 256 := le_antisymm (ge _) h3
      have d2 : 16 ∣ m := by
        rw [← Nat.pow_dvd_pow_iff (n := 2) (by omega)]
        exact ⟨blocks (m * m) 256, by rw [pow_two]; norm_num; exact e3⟩
      omega
  · rintro (rfl | ⟨k, rfl⟩)
    · refine ⟨by decide, fun c hc => ?_⟩
      have hb : blocks (16 * 16) 256 = 1 := by decide
      rw [hb] at hc
      cases hc with
      | next h => omega
      | trans h _ => omega
    · have e1 : blocks (256 * k * (256 * k)) 256 = 256 * (k * k) := by
        have : 256 * k * (256 * k) = 256 * (256 * (k * k)) := by ring
        rw [this]
        unfold blocks
        omega
      rw [e1]
      have e0 : 256 * k * (256 * k) = 256 * (256 * (k * k)) := by ring
      refine ⟨by omega, fun c hc b hb t ht => ?_⟩
      have key : ∀ n c, Later n c → blocks n 256 ≤ k * k → c ≤ k * k := by
        intro n c h
        induction h with
        | next _ => exact id
        | @trans n c _ _ ih => intro h; exact ih (le_trans (blocks_le) h)
      have := key _ _ hc (by unfold blocks; omega)
      have : b + 1 ≤ k * k := by omega
      omega

/-! ## Parts of a cycle -/

theorem le_threads (n : Nat) : n ≤ threads n := le_blocks n 256 (by omega)

theorem yields_nothing {α : Type} (prog : Nat → Prog α) (n : Nat) (a : Arr α) (h : ∀ t < n, prog t = .done) :
    Yields prog (List.range n) a a := by
  refine yields_each prog (fun _ _ => False) _ (fun t ht => ?_) (fun _ _ _ _ _ _ h => h.elim) a a rfl
    (fun t ht => ?_) (fun _ _ => rfl)
  · rw [h t (List.mem_range.1 ht)]; trivial
  · rw [h t (List.mem_range.1 ht)]; exact ⟨a, rfl, fun _ h => h.elim⟩

theorem psf_index (D k i : Nat) (hD : 0 < D) (hk : k < D * D) :
    (((i / D : Nat) : Int) + ((D : Int) - (k : Int).tdiv D)) * ((2 * D : Nat) : Int) +
      (((i % D : Nat) : Int) + ((D : Int) - (k : Int).tmod D)) =
    ((2 * D * (D + i / D - k / D) + (D + i % D - k % D) : Nat) : Int) := by
  have h1 : k / D < D := Nat.div_lt_of_lt_mul hk
  have h2 : k % D < D := Nat.mod_lt _ hD
  rw [Int.tdiv_eq_ediv_of_nonneg (by omega), Int.tmod_eq_emod_of_nonneg (by omega), ← Int.natCast_ediv,
    ← Int.natCast_emod]
  generalize i / D = x at *
  generalize i % D = y at *
  generalize k / D = u at *
  generalize k % D = w at *
  have e1 : ((D + x - u : Nat) : Int) = (D : Int) + x - u := by omega
  have e2 : ((D + y - w : Nat) : Int) = (D : Int) + y - w := by omega
  rw [Nat.cast_add, Nat.cast_mul, Nat.cast_mul, e1, e2]
  push_cast
  ring

theorem psf_range (D k i : Nat) (hD : 0 < D) (hi : i < D * D) :
    2 * D * (D + i / D - k / D) + (D + i % D - k % D) < (2 * D) * (2 * D) := by
  have h1 : i / D < D := Nat.div_lt_of_lt_mul hi
  have h2 : i % D < D := Nat.mod_lt _ hD
  generalize i / D = x at *
  generalize i % D = y at *
  generalize k / D = u
  generalize k % D = w
  have a : D + x - u ≤ 2 * D - 1 := by omega
  have b : D + y - w < 2 * D := by omega
  calc 2 * D * (D + x - u) + (D + y - w) < 2 * D * (2 * D - 1) + 2 * D := by
        have := Nat.mul_le_mul_left (2 * D) a
        omega
    _ = 2 * D * (2 * D) := by
        rw [← Nat.mul_succ]
        congr 1
        omega

theorem subtract_yields (psf : Arr F) (D : Nat) (hD : 0 < D) (hpsf : psf.size = (2 * D) * (2 * D)) (gain thr : F)
    (p : Peaks F) (hv : 0 < p.val.size) (hi : 0 < p.idx.size) (k : Nat) (hk : k < D * D)
    (hp : p.idx.get 0 = (k : Int)) (res : Arr F) (hr : res.size = D * D) :
    ∃ r, Yields (subtractAt psf D (2 * D) gain thr p) (List.range (threads (D * D))) res r ∧ r.size = D * D ∧
      (thr < p.val.get 0 → ∀ i < D, ∀ j < D, r.get (D * i + j) =
        res.get (D * i + j) - gain * p.val.get 0 * psfAt psf.get D (k / D) (k % D) i j) ∧
      (¬ thr < p.val.get 0 → r = res) := by
  have rv : p.val.read 0 = some (p.val.get 0) := by
    have := Arr.read_nat p.val 0
    rw [if_pos hv] at this
    exact this
  have ri : p.idx.read 0 = some (k : Int) := by
    have := Arr.read_nat p.idx 0
    rw [if_pos hi, hp] at this
    exact this
  by_cases c : thr < p.val.get 0
  · obtain ⟨r, h1, h2, h3, -⟩ := yields_modify (subtractAt psf D (2 * D) gain thr p)
      (List.range (threads (D * D))) (fun i => i < D * D) id
      (fun i x => x - gain * p.val.get 0 * psfAt psf.get D (k / D) (k % D) (i / D) (i % D))
      (fun i _ hi => by
        unfold subtractAt
        rw [rv]
        simp only [Prog.need]
        rw [if_pos c, ri]
        simp only
        rw [if_pos hi, psf_index D k i hD hk, Arr.read_nat, if_pos (by
          rw [hpsf]
          exact psf_range D k i hD hi)]
        rfl)
      (fun i _ hi => by
        unfold subtractAt
        rw [rv]
        simp only [Prog.need]
        rw [if_pos c, ri]
        simp only
        rw [if_neg hi])
      res (fun i _ hi => by rw [hr]; exact hi) (fun i _ j _ _ _ e => e)
    refine ⟨r, h1, by rw [h2, hr], fun _ i hi j hj => ?_, fun h => absurd c h⟩
    have hlt := flat_lt hi hj
    have := h3 (D * i + j) (List.mem_range.2 (lt_of_lt_of_le hlt (le_threads _))) hlt
    simp only [id] at this
    rw [this, Nat.mul_add_div hD, Nat.div_eq_of_lt hj, Nat.mul_add_mod, Nat.mod_eq_of_lt hj, Nat.add_zero]
  · refine ⟨res, yields_nothing _ _ _ (fun t _ => ?_), hr, fun h => absurd h c, fun _ => rfl⟩
    unfold subtractAt
    rw [rv]
    simp only [Prog.need]
    rw [if_neg c]

theorem addComp_eq (gain thr : F) (p : Peaks F) (hv : 0 < p.val.size) (hi : 0 < p.idx.size) (k : Nat)
    (hp : p.idx.get 0 = (k : Int)) (model : Arr F) (hk : k < model.size) (flag : Bool) :
    addComp gain thr p model flag = some (if thr < p.val.get 0 ∧ flag = false then
      (model.put k (model.get k + gain * p.val.get 0), flag) else (model, true)) := by
  have rv : p.val.read 0 = some (p.val.get 0) := by
    have := Arr.read_nat p.val 0
    rw [if_pos hv] at this
    exact this
  have ri : p.idx.read 0 = some (k : Int) := by
    have := Arr.read_nat p.idx 0
    rw [if_pos hi, hp] at this
    exact this
  unfold addComp
  rw [rv]
  simp only [Option.bind_some]
  by_cases c : thr < p.val.get 0 ∧ flag = false
  · rw [if_pos c, if_pos c, ri]
    simp only [Option.bind_some]
    rw [Arr.addAt_nat _ _ _ hk]
    rfl
  · rw [if_neg c, if_neg c]

theorem copy_yields (src dst : Arr F) (n : Nat) (hs : n ≤ src.size) (hd : n ≤ dst.size) :
    ∃ r, Yields (copyAt src n) (List.range (threads n)) dst r ∧ r.size = dst.size ∧
      ∀ i < n, r.get i = src.get i := by
  obtain ⟨r, h1, h2, h3, -⟩ := yields_store (copyAt src n) (List.range (threads n)) (fun i => i < n) id
    (fun i => src.get i)
    (fun i _ hi => by
      unfold copyAt
      rw [if_pos hi, Arr.read_nat, if_pos (by omega)]
      rfl)
    (fun i _ hi => by unfold copyAt; rw [if_neg hi]) dst (fun i _ hi => by simp only [id]; omega)
    (fun i _ j _ _ _ e => e)
  exact ⟨r, h1, h2, fun i hi => h3 i (List.mem_range.2 (lt_of_lt_of_le hi (le_threads n))) hi⟩

theorem addRes_yields (res dst : Arr F) (n : Nat) (hs : n ≤ res.size) (hd : n ≤ dst.size) :
    ∃ r, Yields (addResAt res n) (List.range (threads n)) dst r ∧ r.size = dst.size ∧
      ∀ i < n, r.get i = dst.get i + res.get i := by
  obtain ⟨r, h1, h2, h3, -⟩ := yields_modify (addResAt res n) (List.range (threads n)) (fun i => i < n) id
    (fun i x => x + res.get i)
    (fun i _ hi => by
      unfold addResAt
      rw [if_pos hi, Arr.read_nat, if_pos (by omega)]
      rfl)
    (fun i _ hi => by unfold addResAt; rw [if_neg hi]) dst (fun i _ hi => by simp only [id]; omega)
    (fun i _ j _ _ _ e => e)
  exact ⟨r, h1, h2, fun i hi => h3 i (List.mem_range.2 (lt_of_lt_of_le hi (le_threads n))) hi⟩

/-! ## The loop in lockstep -/

/-- Sides for which the peak search is right. -/
theorem side_blocks {D : Nat} (h : D = 16 ∨ D = 256) :
    (blocks (D * D) 256 = 1 ∨ blocks (D * D) 256 = 256) ∧ 256 * blocks (D * D) 256 = D * D ∧ 0 < D := by
  rcases h with rfl | rfl <;> decide

theorem reduce_peak {D : Nat} (hD : D = 16 ∨ D = 256) {res : Arr F} (hr : res.size = D * D) {p : Peaks F}
    (h : Reduce WarpLock (some res) (blocks (D * D) 256) (cleared (blocks (D * D) 256)) p) :
    0 < p.val.size ∧ 0 < p.idx.size ∧ ∃ k < D * D, p.idx.get 0 = (k : Int) ∧ p.val.get 0 = res.get k ∧
      ∀ i < D * D, res.get i ≤ res.get k := by
  obtain ⟨hb, he, -⟩ := side_blocks hD
  obtain ⟨s1, s2, s3, s4⟩ := (reduce_lock hb (by omega) (p := cleared (blocks (D * D) 256)) rfl rfl).2 p h
  obtain ⟨k, hk, e1, e2, e3⟩ := found_peak res hb
  refine ⟨by omega, by omega, k, by omega, by rw [s4, e1], by rw [s3, e2], fun i hi => ?_⟩
  have := e3 i (by omega)
  rwa [e2] at this

/-- What one pass of the loop does. -/
theorem cycle_lock {D : Nat} (hD : D = 16 ∨ D = 256) {psf : Arr F} (hpsf : psf.size = (2 * D) * (2 * D))
    {gain thr : F} {s : GSt F} (hr : s.res.size = D * D) (hm : s.model.size = D * D)
    (hf : s.flag = true → ∀ i < D * D, s.res.get i ≤ thr) {p : Peaks F}
    (h : Reduce WarpLock (some s.res) (blocks (D * D) 256) (cleared (blocks (D * D) 256)) p) :
    ∃ mf res', addComp gain thr p s.model s.flag = some mf ∧
      Yields (subtractAt psf D (2 * D) gain thr p) (List.range (threads (D * D))) s.res res' ∧
      res'.size = D * D ∧ mf.1.size = D * D ∧
      ((PeakMinor psf.get D gain thr s.res.get s.model.get res'.get mf.1.get ∧ mf.2 = false ∧ s.flag = false) ∨
        (res' = s.res ∧ mf.1 = s.model ∧ mf.2 = true ∧ ∀ i < D * D, s.res.get i ≤ thr)) := by
  obtain ⟨h1, h2, k, hk, e1, e2, e3⟩ := reduce_peak hD hr h
  obtain ⟨-, -, hpos⟩ := side_blocks hD
  obtain ⟨res', y, z, hgt, hle⟩ := subtract_yields psf D hpos hpsf gain thr p h1 h2 k hk e1 s.res hr
  refine ⟨_, res', addComp_eq gain thr p h1 h2 k e1 s.model (by omega) s.flag, y, z, ?_, ?_⟩
  · by_cases c : thr < p.val.get 0 ∧ s.flag = false
    · rw [if_pos c]; exact hm
    · rw [if_neg c]; exact hm
  · rw [e2] at hgt hle ⊢
    by_cases c : thr < s.res.get k
    · have hff : s.flag = false := by
        cases hs : s.flag with
        | false => rfl
        | true => exact absurd (hf hs k hk) (not_le.2 c)
      left
      rw [if_pos ⟨c, hff⟩]
      refine ⟨⟨k, hk, e3, c, fun p hp => ?_, hgt c⟩, hff, hff⟩
      simp only [Arr.put_get]
      by_cases x : p = k
      · rw [if_pos x, if_pos x, x]
      · rw [if_neg x, if_neg x, add_zero]
    · right
      rw [if_neg fun x => c x.1]
      exact ⟨hle c, rfl, rfl, fun i hi => le_trans (e3 i hi) (not_lt.1 c)⟩

theorem peakMinors_congr {psf : Nat → F} {D : Nat} {gain thr : F} {k : Nat} {r c r' c' : Nat → F}
    (h : PeakMinors psf D gain thr k r c r' c') (q d : Nat → F) (hq : ∀ p < D * D, q p = r p)
    (hd : ∀ p < D * D, d p = c p) : PeakMinors psf D gain thr k q d r' c' := by
  cases h with
  | nil hr hc => exact .nil (fun p hp => by rw [hr p hp, hq p hp]) fun p hp => by rw [hc p hp, hd p hp]
  | cons hm ht =>
    obtain ⟨k, hk, hmax, hthr, hc, hr⟩ := hm
    refine .cons ⟨k, hk, fun j hj => ?_, by rw [hq k hk]; exact hthr, fun p hp => ?_, fun i hi j hj => ?_⟩ ht
    · rw [hq j hj, hq k hk]; exact hmax j hj
    · rw [hq k hk, hd p hp]; exact hc p hp
    · rw [hq k hk, hq _ (flat_lt hi hj)]; exact hr i hi j hj

theorem grun_spec {D : Nat} (hD : D = 16 ∨ D = 256) {psf : Arr F} (hpsf : psf.size = (2 * D) * (2 * D))
    {gain thr : F} {limit c : Nat} {s s' : GSt F} (h : GRun WarpLock psf D (2 * D) gain thr limit c s s')
    (hr : s.res.size = D * D) (hm : s.model.size = D * D) (hf : s.flag = true → ∀ i < D * D, s.res.get i ≤ thr) :
    ∃ k, k ≤ limit - c ∧ s'.res.size = D * D ∧ s'.model.size = D * D ∧
      PeakMinors psf.get D gain thr k s.res.get s.model.get s'.res.get s'.model.get ∧
      (k < limit - c → ∀ i < D * D, s'.res.get i ≤ thr) := by
  induction h with
  | limit hl => exact ⟨0, by omega, hr, hm, .nil (fun _ _ => rfl) (fun _ _ => rfl), fun h => by omega⟩
  | stop _ _ _ _ hfl => exact ⟨0, by omega, hr, hm, .nil (fun _ _ => rfl) (fun _ _ => rfl), fun _ => hf hfl⟩
  | @cycle c s p mf res' s' hlt hred _ hadd hfin _ ih =>
    obtain ⟨mf1, res1, a1, a2, a3, a4, a5⟩ := cycle_lock hD hpsf hr hm hf hred (gain := gain) (thr := thr)
    rw [hadd] at a1
    cases a1
    obtain rfl := hfin.eq a2
    rcases a5 with ⟨b1, b2, b3⟩ | ⟨b1, b2, b3, b4⟩
    · obtain ⟨k, i1, i2, i3, i4, i5⟩ := ih a3 a4 (fun h => by simp only [b2] at h; exact absurd h (by simp))
      exact ⟨k + 1, by omega, i2, i3, .cons b1 i4, fun h => i5 (by omega)⟩
    · obtain ⟨k, i1, i2, i3, i4, i5⟩ := ih a3 a4 (fun _ => by simp only [b1]; exact b4)
      simp only [b1, b2] at i4
      cases i4 with
      | nil hr' hc' =>
        exact ⟨0, by omega, i2, i3, .nil hr' hc', fun _ i hi => by rw [hr' i hi]; exact b4 i hi⟩
      | cons hmin _ =>
        obtain ⟨k, hk, -, hthr, -⟩ := hmin
        exact absurd (b4 k hk) (not_le.2 hthr)

theorem grun_exists {D : Nat} (hD : D = 16 ∨ D = 256) {psf : Arr F} (hpsf : psf.size = (2 * D) * (2 * D))
    {gain thr : F} {limit : Nat} (n : Nat) : ∀ (c : Nat) (s : GSt F), limit - c = n → s.res.size = D * D →
    s.model.size = D * D → (s.flag = true → ∀ i < D * D, s.res.get i ≤ thr) →
    ∃ s', GRun WarpLock psf D (2 * D) gain thr limit c s s' := by
  obtain ⟨hb, he, hpos⟩ := side_blocks hD
  induction n with
  | zero => intro c s h _ _ _; exact ⟨s, .limit (by omega)⟩
  | succ n ih =>
    intro c s h hr hm hf
    obtain ⟨p, hp⟩ := (reduce_lock hb (by omega : 256 * blocks (D * D) 256 ≤ s.res.size)
      (p := cleared (blocks (D * D) 256)) rfl rfl).1
    by_cases hs : 0 < c ∧ c % 100 = 0 ∧ s.flag = true
    · exact ⟨s, .stop (by omega) hp hs.1 hs.2.1 hs.2.2⟩
    · obtain ⟨mf, res', a1, a2, a3, a4, a5⟩ := cycle_lock hD hpsf hr hm hf hp (gain := gain) (thr := thr)
      obtain ⟨s', hs'⟩ := ih (c + 1) ⟨res', mf.1, mf.2⟩ (by omega) a3 a4 (by
        rcases a5 with ⟨b1, b2, b3⟩ | ⟨b1, b2, b3, b4⟩
        · intro h; simp only [b2] at h; exact absurd h (by simp)
        · intro _; simp only [b1]; exact b4)
      refine ⟨s', .cycle (by omega) hp hs a1 (Finishes.of_yields ?_ a2) hs'⟩
      have := le_threads (D * D)
      have := Nat.mul_pos hpos hpos
      omega

theorem grun_det {D : Nat} (hD : D = 16 ∨ D = 256) {psf : Arr F} (hpsf : psf.size = (2 * D) * (2 * D))
    {gain thr : F} {limit c : Nat} {s s1 s2 : GSt F} (h1 : GRun WarpLock psf D (2 * D) gain thr limit c s s1)
    (h2 : GRun WarpLock psf D (2 * D) gain thr limit c s s2)
    (hr : s.res.size = D * D) (hm : s.model.size = D * D) (hf : s.flag = true → ∀ i < D * D, s.res.get i ≤ thr) :
    s1 = s2 := by
  obtain ⟨hb, he, hpos⟩ := side_blocks hD
  induction h1 generalizing s2 with
  | limit hl =>
    cases h2 with
    | limit _ => rfl
    | stop h _ _ _ _ => omega
    | cycle h _ _ _ _ _ => omega
  | stop hlt _ h0 h100 hfl =>
    cases h2 with
    | limit _ => rfl
    | stop _ _ _ _ _ => rfl
    | cycle _ _ hn _ _ _ => exact absurd ⟨h0, h100, hfl⟩ hn
  | @cycle c s p mf res' s' hlt hred hn hadd hfin _ ih =>
    cases h2 with
    | limit _ => omega
    | stop _ _ h0 h100 hfl => exact absurd ⟨h0, h100, hfl⟩ hn
    | @cycle _ _ p' mf' res'' _ _ hred' _ hadd' hfin' hrest' =>
      have hz : (cleared (blocks (D * D) 256) : Peaks F).val.size = blocks (D * D) 256 := rfl
      obtain ⟨s1, s2, s3, s4⟩ := (reduce_lock hb (by omega : 256 * blocks (D * D) 256 ≤ s.res.size)
        (p := cleared (blocks (D * D) 256)) rfl rfl).2 p hred
      obtain ⟨t1, t2, t3, t4⟩ := (reduce_lock hb (by omega : 256 * blocks (D * D) 256 ≤ s.res.size)
        (p := cleared (blocks (D * D) 256)) rfl rfl).2 p' hred'
      have rd : ∀ {β : Type} (a : Arr β), a.size = blocks (D * D) 256 → a.read 0 = some (a.get 0) := by
        intro β a ha
        have := Arr.read_nat a 0
        rw [if_pos (by omega)] at this
        exact this
      have ev : p.val.read 0 = p'.val.read 0 := by rw [rd _ s1, rd _ t1, s3, t3]
      have ei : p.idx.read 0 = p'.idx.read 0 := by rw [rd _ s2, rd _ t2, s4, t4]
      have ea : addComp gain thr p s.model s.flag = addComp gain thr p' s.model s.flag := by
        unfold addComp; rw [ev, ei]
      have es : subtractAt psf D (2 * D) gain thr p = subtractAt psf D (2 * D) gain thr p' := by
        funext i; unfold subtractAt; rw [ev, ei]
      obtain ⟨mf1, res1, a1, a2, a3, a4, a5⟩ := cycle_lock hD hpsf hr hm hf hred (gain := gain) (thr := thr)
      rw [← ea, a1] at hadd'
      rw [a1] at hadd
      cases hadd
      cases hadd'
      rw [← es] at hfin'
      obtain rfl := hfin.eq a2
      obtain rfl := hfin'.eq a2
      refine ih hrest' a3 a4 ?_
      rcases a5 with ⟨b1, b2, b3⟩ | ⟨b1, b2, b3, b4⟩
      · intro h; simp only [b2] at h; exact absurd h (by simp)
      · intro _; simp only [b1]; exact b4

/-! ## Theorems -/

/-- What the caller passes: a square dirty image of side `D`, a PSF of side `2D`, outputs of the image's
shape, and a convolution that accepts images of that shape. -/
structure GoodGpu (conv : Arr F → Option (Arr F)) (dirty psf : Arr F) (D : Nat) (o : Out F) : Prop where
  dirty_size : dirty.size = D * D
  psf_size : psf.size = (2 * D) * (2 * D)
  model_size : o.model.size = D * D
  res_size : o.res.size = D * D
  sky_size : o.sky.size = D * D
  conv_ok : ∀ c : Arr F, c.size = D * D → ∃ r, conv c = some r ∧ r.size = D * D

/-- **C88** (clean; sides 16 and 256, warps in lockstep).  Whatever the schedule of the threads between two
barriers and the order of the blocks, the call takes at most `limit` minor cycles, each at a pixel of largest
residual above the threshold; if it takes fewer, no pixel is left above the threshold.  The sky model is the
model restored with the clean beam, plus the residual.  Missing: other sides (`C88_bounds`,
`C88_order_false`), warps not in lockstep (`C88_lockstep_false`); the model is added to what the array held
(`C88_model_false`). -/
theorem C88_clean_partial {conv : Arr F → Option (Arr F)} {dirty psf : Arr F} {D : Nat} {o : Out F}
    (hD : D = 16 ∨ D = 256) (g : GoodGpu conv dirty psf D o) (gain thr : F) (limit : Nat) :
    (∃ o', CleanGpu WarpLock conv dirty psf D (2 * D) gain thr limit o o') ∧
    ∀ o', CleanGpu WarpLock conv dirty psf D (2 * D) gain thr limit o o' →
      ∃ (k : Nat) (comps cc : Arr F), k ≤ limit ∧
        PeakMinors psf.get D gain thr k dirty.get o.model.get o'.res.get o'.model.get ∧
        (k < limit → ∀ i < D * D, o'.res.get i ≤ thr) ∧
        comps.size = D * D ∧ (∀ i < D * D, comps.get i = o'.model.get i) ∧ conv comps = some cc ∧
        ∀ i < D * D, o'.sky.get i = cc.get i + o'.res.get i := by
  obtain ⟨hb, he, hpos⟩ := side_blocks hD
  obtain ⟨gd, gp, gm, gr, gs, gc⟩ := g
  have hth : 0 < threads (D * D) := by
    have := le_threads (D * D)
    have := Nat.mul_pos hpos hpos
    omega
  obtain ⟨res0, c1, c2, c3⟩ := copyN_spec dirty o.res (D * D) (by omega) (by omega)
  have r0 : (⟨res0, o.model, false⟩ : GSt F).res.size = D * D := by simp only; omega
  constructor
  · obtain ⟨s, hs⟩ := grun_exists hD gp (gain := gain) (thr := thr) (limit := limit) _ 0
      ⟨res0, o.model, false⟩ rfl r0 gm (fun h => by cases h)
    obtain ⟨k, i1, i2, i3, i4, i5⟩ := grun_spec hD gp hs r0 gm (fun h => by cases h)
    obtain ⟨comps, d1, d2, d3⟩ := copy_yields s.model (⟨D * D, fun _ => 0⟩ : Arr F) (D * D) (by omega) (by simp)
    obtain ⟨cc, e1, e2⟩ := gc comps d2
    obtain ⟨sky1, f1, f2, f3⟩ := copy_yields cc o.sky (D * D) (by omega) (by omega)
    obtain ⟨sky2, g1, g2, g3⟩ := addRes_yields s.res sky1 (D * D) (by omega) (by omega)
    exact ⟨_, res0, comps, cc, sky1, sky2, s, c1, hs, Finishes.of_yields hth d1, e1, Finishes.of_yields hth f1,
      Finishes.of_yields hth g1, rfl⟩
  · rintro o' ⟨res0', comps, cc, sky1, sky2, s, h1, h2, h3, h4, h5, h6, rfl⟩
    rw [c1] at h1
    cases h1
    obtain ⟨k, i1, i2, i3, i4, i5⟩ := grun_spec hD gp h2 r0 gm (fun h => by cases h)
    obtain ⟨comps', d1, d2, d3⟩ := copy_yields s.model (⟨D * D, fun _ => 0⟩ : Arr F) (D * D) (by omega) (by simp)
    obtain rfl := h3.eq d1
    obtain ⟨cc', e1, e2⟩ := gc comps d2
    rw [h4] at e1
    cases e1
    obtain ⟨sky1', f1, f2, f3⟩ := copy_yields cc o.sky (D * D) (by omega) (by omega)
    obtain rfl := h5.eq f1
    obtain ⟨sky2', g1, g2, g3⟩ := addRes_yields s.res sky1 (D * D) (by omega) (by omega)
    obtain rfl := h6.eq g1
    refine ⟨k, comps, cc, by omega, peakMinors_congr i4 _ _ (fun p hp => ?_) (fun _ _ => rfl), fun h => i5 (by omega),
      d2, d3, h4, fun i hi => ?_⟩
    · simp only; rw [c3 p hp]
    · simp only; rw [g3 i hi, f3 i hi]

theorem peakMinors_flux {psf : Nat → F} {D : Nat} {gain thr : F} {k : Nat} {r c r' c' : Nat → F}
    (h : PeakMinors psf D gain thr k r c r' c') : ∀ i < D, ∀ j < D,
    r' (D * i + j) + modelAt psf c' D i j = r (D * i + j) + modelAt psf c D i j := by
  induction h with
  | nil hr hc =>
    intro i hi j hj
    rw [hr _ (flat_lt hi hj)]
    congr 1
    unfold modelAt
    refine Finset.sum_congr rfl fun x hx => Finset.sum_congr rfl fun y hy => ?_
    rw [hc _ (flat_lt (Finset.mem_range.1 hx) (Finset.mem_range.1 hy))]
  | cons hm _ ih =>
    intro i hi j hj
    rw [ih i hi j hj]
    obtain ⟨k, hk, -, -, hc, hr⟩ := hm
    rw [hr i hi j hj, modelAt_add psf _ D i j k _ hk _ hc]
    ring

/-- **C88** (flux; same conditions).  Residual plus model convolved with the PSF stays what it was: the dirty
image plus whatever the model array held before, convolved with the PSF. -/
theorem C88_flux_partial {conv : Arr F → Option (Arr F)} {dirty psf : Arr F} {D : Nat} {o : Out F}
    (hD : D = 16 ∨ D = 256) (g : GoodGpu conv dirty psf D o) (gain thr : F) (limit : Nat) {o' : Out F}
    (h : CleanGpu WarpLock conv dirty psf D (2 * D) gain thr limit o o') : ∀ i < D, ∀ j < D,
    o'.res.get (D * i + j) + modelAt psf.get o'.model.get D i j =
      dirty.get (D * i + j) + modelAt psf.get o.model.get D i j := by
  obtain ⟨k, -, -, -, hch, -⟩ := (C88_clean_partial hD g gain thr limit).2 o' h
  exact peakMinors_flux hch

/-- **C88** (reproducible; same conditions).  Two runs on the same data leave the same outputs, however
their threads and blocks were scheduled. -/
theorem C88_reproducible_partial {conv : Arr F → Option (Arr F)} {dirty psf : Arr F} {D : Nat} {o o1 o2 : Out F}
    (hD : D = 16 ∨ D = 256) (g : GoodGpu conv dirty psf D o) (gain thr : F) (limit : Nat)
    (h1 : CleanGpu WarpLock conv dirty psf D (2 * D) gain thr limit o o1)
    (h2 : CleanGpu WarpLock conv dirty psf D (2 * D) gain thr limit o o2) : o1 = o2 := by
  obtain ⟨hb, he, hpos⟩ := side_blocks hD
  obtain ⟨gd, gp, gm, gr, gs, gc⟩ := g
  obtain ⟨res0, comps, cc, sky1, sky2, s, a1, a2, a3, a4, a5, a6, rfl⟩ := h1
  obtain ⟨res0', comps', cc', sky1', sky2', s', b1, b2, b3, b4, b5, b6, rfl⟩ := h2
  rw [a1] at b1
  cases b1
  obtain ⟨res0', c1, c2, c3⟩ := copyN_spec dirty o.res (D * D) (by omega) (by omega)
  rw [a1] at c1
  cases c1
  have r0 : (⟨res0, o.model, false⟩ : GSt F).res.size = D * D := by simp only; omega
  obtain rfl := grun_det hD gp a2 b2 r0 gm (fun h => by cases h)
  obtain ⟨k, i1, i2, i3, i4, i5⟩ := grun_spec hD gp a2 r0 gm (fun h => by cases h)
  obtain ⟨x1, d1, d2, -⟩ := copy_yields s.model (⟨D * D, fun _ => 0⟩ : Arr F) (D * D) (by omega) (by simp)
  obtain rfl := a3.eq d1
  obtain rfl := b3.eq d1
  rw [a4] at b4
  cases b4
  obtain ⟨cc', e1, e2⟩ := gc comps' d2
  rw [a4] at e1
  cases e1
  obtain ⟨x2, f1, f2, -⟩ := copy_yields cc o.sky (D * D) (by omega) (by omega)
  obtain rfl := a5.eq f1
  obtain rfl := b5.eq f1
  obtain ⟨x3, g1, g2, -⟩ := addRes_yields s.res sky1' (D * D) (by omega) (by omega)
  obtain rfl := a6.eq g1
  obtain rfl := b6.eq g1
  rfl

/-- **C88** (any schedule).  For a side of 16 or a multiple of 256 and without lockstep, whatever the
schedule, the value found is that of some pixel, never more than the largest, and the index is that of some
pixel (not necessarily the same one, nor the largest): the loop never leaves an image. -/
theorem C88_any_schedule_partial {D : Nat} (hpos : 0 < D) (hD : D = 16 ∨ 256 ∣ D) {res : Arr F}
    (hr : res.size = D * D) {p : Peaks F}
    (h : Reduce WarpAny (some res) (blocks (D * D) 256) (cleared (blocks (D * D) 256)) p) :
    (∃ k < D * D, p.val.get 0 = res.get k) ∧ ∃ k < D * D, p.idx.get 0 = ((k : Nat) : Int) := by
  have hb : (blocks (D * D) 256 = 1 ∨ 256 ∣ blocks (D * D) 256) ∧ 256 * blocks (D * D) 256 = D * D := by
    rcases hD with rfl | ⟨k, rfl⟩
    · decide
    · have e0 : 256 * k * (256 * k) = 256 * (256 * (k * k)) := by ring
      rw [e0]
      unfold blocks
      omega
  have hn : 0 < blocks (D * D) 256 := by
    have := Nat.mul_pos hpos hpos
    omega
  obtain ⟨-, -, s3⟩ := reduce_any hb.1 (by omega) (p := cleared (blocks (D * D) 256)) rfl rfl h
  rw [hb.2] at s3
  exact s3 0 hn

end Sdp.Hogbom
