import Mathlib.Algebra.Order.Ring.Defs
import Mathlib.Tactic.Linarith
import Mathlib.Algebra.Order.Ring.Rat
import Verif.Hogbom.Model

/-!
# C21, C22, C23: Hogbom CLEAN
-/

namespace Sdp.Hogbom
variable {F : Type} [Field F] [LinearOrder F]

/-! ## Specification -/

/-- `k` is the first index of a maximal value among the first `n`. -/
def FirstMax (f : Nat → F) (n k : Nat) : Prop :=
  k < n ∧ (∀ j < n, f j ≤ f k) ∧ ∀ j < k, f j < f k

/-- PSF (side `2D`) value at image pixel `(i, j)` when it is centred, at PSF pixel `(D, D)`,
on image pixel `(x, y)`. -/
def psfAt (psf : Nat → F) (D x y i j : Nat) : F :=
  psf (2 * D * (D + i - x) + (D + j - y))

/-- One minor cycle: the component image gains `gain * peak` at the peak pixel `k`, and the
PSF centred there, times the same amount, leaves the residual. -/
def Minor (psf : Nat → F) (D : Nat) (gain thr : F) (r c r' c' : Nat → F) : Prop :=
  ∃ k, FirstMax r (D * D) k ∧ thr ≤ r k ∧
    (∀ p < D * D, c' p = c p + if p = k then gain * r k else 0) ∧
    ∀ i < D, ∀ j < D,
      r' (D * i + j) = r (D * i + j) - gain * r k * psfAt psf D (k / D) (k % D) i j

/-- Value at `(i, j)` of the component image convolved with the PSF. -/
def modelAt (psf comps : Nat → F) (D i j : Nat) : F :=
  ∑ x ∈ Finset.range D, ∑ y ∈ Finset.range D, comps (D * x + y) * psfAt psf D x y i j

/-! ## Lemmas -/

omit [Field F] in
theorem findMax_spec (res : Arr F) (n : Nat) (hn : 0 < n) (hs : n ≤ res.size) :
    ∃ k, findMax res n = some (res.get k, k) ∧ FirstMax res.get n k := by
  unfold findMax
  have h0 : res.read 0 = some (res.get 0) := by
    have := Arr.read_nat res 0
    rw [if_pos (by omega)] at this; exact this
  rw [h0]
  simp only [Option.bind_some]
  obtain ⟨s, hl, k, hk, hs1, hmax, hfst⟩ := loop_inv
    (fun (hi : F × Nat) (i : Nat) =>
      (res.read i).bind fun v => if v > hi.1 then some (v, i) else some hi)
    (fun done s => ∃ k, k < n ∧ s = (res.get k, k) ∧ (∀ j < done.length, res.get j ≤ res.get k) ∧
      ∀ j < k, res.get j < res.get k)
    (List.range n) (res.get 0, 0)
    ⟨0, hn, rfl, by simp, by simp⟩ (by
      rintro done x rest s he ⟨k, hk, rfl, hmax, hfst⟩
      have hx : x = done.length := by
        have h1 : (List.range n)[done.length]? = some x := by rw [he]; simp
        rw [List.getElem?_range] at h1
        · simpa using h1.symm
        · have := congrArg List.length he
          simp at this; omega
      have hlt : x < n := by
        have : x ∈ List.range n := by rw [he]; simp
        simpa using this
      rw [Arr.read_nat, if_pos (by omega)]
      simp only [Option.bind_some]
      by_cases hgt : res.get x > res.get k
      · rw [if_pos hgt]
        refine ⟨_, rfl, x, hlt, rfl, ?_, ?_⟩
        · intro j hj
          rw [List.length_append] at hj
          simp only [List.length_singleton] at hj
          by_cases hjx : j = x
          · rw [hjx]
          · exact le_trans (hmax j (by omega)) hgt.le
        · intro j hj
          exact lt_of_le_of_lt (hmax j (by omega)) hgt
      · rw [if_neg hgt]
        refine ⟨_, rfl, k, hk, rfl, ?_, hfst⟩
        intro j hj
        rw [List.length_append] at hj
        simp only [List.length_singleton] at hj
        by_cases hjx : j = x
        · rw [hjx]; exact not_lt.1 hgt
        · exact hmax j (by omega))
  exact ⟨k, by rw [hl, hs1], hk, by simpa using hmax, hfst⟩

omit [LinearOrder F] in
theorem subtract_spec (psf : Arr F) (D : Nat) (a : F) (mx my : Nat) (res : Arr F)
    (hp : psf.size = (2 * D) * (2 * D)) (hr : D * D ≤ res.size) (hx : mx < D) (hy : my < D) :
    ∃ r, subtract psf D (2 * D : Nat) a mx my res = some r ∧ r.size = res.size ∧
      (∀ i < D, ∀ j < D, r.get (D * i + j) =
        res.get (D * i + j) - a * psfAt psf.get D mx my i j) ∧
      ∀ p, D * D ≤ p → r.get p = res.get p := by
  have hix : ∀ p : Nat × Nat, index2 D p.1 p.2 = ((D * p.1 + p.2 : Nat) : Int) := by
    intro p; simp [index2]
  obtain ⟨r, hl, hs, hv, hf⟩ := Arr.modify_spec (nest2 D D)
    (fun p => index2 D p.1 p.2) (fun p v => v - a * psfAt psf.get D mx my p.1 p.2)
    (by
      have : (nest2 D D).map (fun p => index2 D p.1 p.2) =
          (List.range (D * D)).map (fun n : Nat => (n : Int)) := by
        rw [← nest2_flat D D, List.map_map]
        apply List.map_congr_left
        intro p _; exact hix p
      rw [this]
      exact List.Nodup.map (fun a b h => by simpa using h) List.nodup_range)
    res (by
      intro p hp
      rw [mem_nest2] at hp
      have := flat_lt hp.1 hp.2
      rw [hix]; omega)
  refine ⟨r, ?_, hs, ?_, ?_⟩
  · rw [← hl]
    unfold subtract
    apply loop_congr
    intro p hpm s
    rw [mem_nest2] at hpm
    have e : index2 (2 * D : Nat) ((D : Int) - mx + p.1) ((D : Int) - my + p.2) =
        ((2 * D * (D + p.1 - mx) + (D + p.2 - my) : Nat) : Int) := by
      have h1 : (D : Int) - mx + p.1 = ((D + p.1 - mx : Nat) : Int) := by omega
      have h2 : (D : Int) - my + p.2 = ((D + p.2 - my : Nat) : Int) := by omega
      rw [h1, h2]; simp [index2]
    rw [e, Arr.read_nat, if_pos (by
      rw [hp]; exact flat_lt (by omega) (by omega))]
    simp only [Option.bind_some]
    rfl
  · intro i hi j hj
    have := hv (i, j) (mem_nest2.2 ⟨hi, hj⟩)
    simp only [hix, Int.toNat_natCast] at this
    exact this
  · intro p hp
    apply hf
    intro q hq
    rw [mem_nest2] at hq
    have := flat_lt hq.1 hq.2
    rw [hix]; omega

variable [IsStrictOrderedRing F]

omit [IsStrictOrderedRing F] in
theorem cycle_spec (psf : Arr F) (D : Nat) (gain thr : F) (s : St F) (hD : 0 < D)
    (hp : psf.size = (2 * D) * (2 * D)) (hr : D * D ≤ s.res.size) (hc : s.comps.size = D * D) :
    (cycle psf D (2 * D) gain thr s = some (.inl s) ∧ ∀ p < D * D, s.res.get p < thr) ∨
    (∃ s', cycle psf D (2 * D) gain thr s = some (.inr s') ∧ s'.res.size = s.res.size ∧
      s'.comps.size = D * D ∧
      Minor psf.get D gain thr s.res.get s.comps.get s'.res.get s'.comps.get) := by
  obtain ⟨k, hk, hfm⟩ := findMax_spec s.res (D * D) (Nat.mul_pos hD hD) hr
  have hkD := hfm.1
  unfold cycle
  rw [hk]
  simp only [Option.bind_some]
  rw [Arr.read_nat, if_pos (by omega)]
  simp only [Option.bind_some]
  by_cases ht : s.res.get k < thr
  · left
    rw [if_pos ht]
    exact ⟨rfl, fun p hp => lt_of_le_of_lt (hfm.2.1 p hp) ht⟩
  · right
    rw [if_neg ht, Arr.addAt_nat _ _ _ (by omega)]
    simp only [Option.bind_some]
    obtain ⟨r, h1, h2, h3, h4⟩ := subtract_spec psf D (gain * s.res.get k) (k / D) (k % D) s.res
      hp hr (Nat.div_lt_of_lt_mul hkD) (Nat.mod_lt _ hD)
    rw [h1]
    refine ⟨_, rfl, h2, hc, k, hfm, not_lt.1 ht, ?_, h3⟩
    intro p _
    rw [Arr.put_get]
    by_cases hpk : p = k
    · simp [hpk]
    · simp [hpk]

/-- A chain of `k` minor cycles. -/
inductive Minors (psf : Nat → F) (D : Nat) (gain thr : F) :
    Nat → (Nat → F) → (Nat → F) → (Nat → F) → (Nat → F) → Prop
  | nil {r c r' c'} : (∀ p < D * D, r' p = r p) → (∀ p < D * D, c' p = c p) →
      Minors psf D gain thr 0 r c r' c'
  | cons {k r c r' c' r'' c''} : Minor psf D gain thr r c r' c' →
      Minors psf D gain thr k r' c' r'' c'' → Minors psf D gain thr (k + 1) r c r'' c''

omit [IsStrictOrderedRing F] in
theorem run_spec (psf : Arr F) (D : Nat) (gain thr : F) (hD : 0 < D)
    (hp : psf.size = (2 * D) * (2 * D)) (n : Nat) : ∀ (s : St F),
    D * D ≤ s.res.size → s.comps.size = D * D →
    ∃ s' k, run psf D (2 * D) gain thr n s = some s' ∧ k ≤ n ∧ s'.res.size = s.res.size ∧
      s'.comps.size = D * D ∧
      Minors psf.get D gain thr k s.res.get s.comps.get s'.res.get s'.comps.get ∧
      (k < n → ∀ p < D * D, s'.res.get p < thr) := by
  induction n with
  | zero => intro s hr hc; exact ⟨s, 0, rfl, le_refl _, rfl, hc, .nil (fun _ _ => rfl) (fun _ _ => rfl), by omega⟩
  | succ n ih =>
    intro s hr hc
    rcases cycle_spec psf D gain thr s hD hp hr hc with ⟨h1, h2⟩ | ⟨s1, h1, h2, h3, h4⟩
    · refine ⟨s, 0, ?_, by omega, rfl, hc, .nil (fun _ _ => rfl) (fun _ _ => rfl), fun _ => h2⟩
      simp only [run, h1, Option.bind_some]
    · obtain ⟨s', k, g1, g2, g3, g4, g5, g6⟩ := ih s1 (by omega) h3
      refine ⟨s', k + 1, ?_, by omega, by omega, g4, .cons h4 g5, fun h => g6 (by omega)⟩
      simp only [run, h1, Option.bind_some]; exact g1

omit [LinearOrder F] [IsStrictOrderedRing F] in
theorem copyN_spec (src dst : Arr F) (n : Nat) (hs : n ≤ src.size) (hd : n ≤ dst.size) :
    ∃ r, copyN src n dst = some r ∧ r.size = dst.size ∧ ∀ p < n, r.get p = src.get p := by
  obtain ⟨r, hl, h2, hv, _⟩ := Arr.store_spec (List.range n) (fun i : Nat => (i : Int)) src.get
    (List.Nodup.map (fun a b h => by simpa using h) List.nodup_range) dst (by
      intro x hx; simp at hx; omega)
  refine ⟨r, ?_, h2, fun p hp => ?_⟩
  · rw [← hl]
    unfold copyN
    apply loop_congr
    intro x hx s
    rw [Arr.read_nat, if_pos (by simp at hx; omega)]; rfl
  · simpa using hv p (by simpa using hp)

omit [LinearOrder F] [IsStrictOrderedRing F] in
theorem addResidual_spec (res sky : Arr F) (n : Nat) (hs : n ≤ res.size) (hd : n ≤ sky.size) :
    ∃ r, addResidual res n sky = some r ∧ r.size = sky.size ∧
      ∀ p < n, r.get p = sky.get p + res.get p := by
  obtain ⟨r, hl, h2, hv, _⟩ := Arr.modify_spec (List.range n) (fun i : Nat => (i : Int))
    (fun i x => x + res.get i)
    (List.Nodup.map (fun a b h => by simpa using h) List.nodup_range) sky (by
      intro x hx; simp at hx; omega)
  refine ⟨r, ?_, h2, fun p hp => ?_⟩
  · rw [← hl]
    unfold addResidual
    apply loop_congr
    intro x hx s
    rw [Arr.read_nat res, if_pos (by simp at hx; omega)]; rfl
  · simpa using hv p (by simpa using hp)

omit [LinearOrder F] [IsStrictOrderedRing F] in
theorem modelAt_add (psf c : Nat → F) (D i j k : Nat) (v : F) (hk : k < D * D) :
    ∀ c', (∀ p < D * D, c' p = c p + if p = k then v else 0) →
      modelAt psf c' D i j = modelAt psf c D i j + v * psfAt psf D (k / D) (k % D) i j := by
  intro c' hc'
  have hD : 0 < D := by rcases Nat.eq_zero_or_pos D with h | h; · subst h; omega
                        · exact h
  have key : ∀ x ∈ Finset.range D, ∀ y ∈ Finset.range D,
      c' (D * x + y) * psfAt psf D x y i j = c (D * x + y) * psfAt psf D x y i j +
        if x = k / D then (if y = k % D then v * psfAt psf D (k / D) (k % D) i j else 0) else 0 := by
    intro x hx y hy
    rw [Finset.mem_range] at hx hy
    rw [hc' _ (flat_lt hx hy), add_mul]
    congr 1
    by_cases h : D * x + y = k
    · have e1 : x = k / D := by
        rw [← h, Nat.mul_add_div hD, Nat.div_eq_of_lt hy, add_zero]
      have e2 : y = k % D := by rw [← h, Nat.mul_add_mod, Nat.mod_eq_of_lt hy]
      rw [if_pos h, if_pos e1, if_pos e2, e1, e2]
    · rw [if_neg h, zero_mul]
      by_cases e1 : x = k / D
      · rw [if_pos e1, if_neg]
        intro e2
        apply h; rw [e1, e2]; exact Nat.div_add_mod k D
      · rw [if_neg e1]
  unfold modelAt
  rw [Finset.sum_congr rfl fun x hx => Finset.sum_congr rfl fun y hy => key x hx y hy]
  simp only [Finset.sum_add_distrib]
  congr 1
  have hx : k / D ∈ Finset.range D := Finset.mem_range.2 (Nat.div_lt_of_lt_mul hk)
  have hy : k % D ∈ Finset.range D := Finset.mem_range.2 (Nat.mod_lt _ hD)
  rw [Finset.sum_eq_single_of_mem _ hx, Finset.sum_eq_single_of_mem _ hy]
  · simp
  · intro b _ hb; simp [hb]
  · intro b _ hb; simp [hb]

omit [IsStrictOrderedRing F] in
theorem minors_flux {psf : Nat → F} {D : Nat} {gain thr : F} {k : Nat} {r c r' c' : Nat → F}
    (h : Minors psf D gain thr k r c r' c') : ∀ i < D, ∀ j < D,
    r' (D * i + j) + modelAt psf c' D i j = r (D * i + j) + modelAt psf c D i j := by
  induction h with
  | nil hr hc =>
    intro i hi j hj
    rw [hr _ (flat_lt hi hj)]
    congr 1
    unfold modelAt
    refine Finset.sum_congr rfl fun x hx => Finset.sum_congr rfl fun y hy => ?_
    rw [hc _ (flat_lt (Finset.mem_range.1 hx) (Finset.mem_range.1 hy))]
  | cons hm _ ih =>
    intro i hi j hj
    rw [ih i hi j hj]
    obtain ⟨k, hk, _, hc, hr⟩ := hm
    rw [hr i hi j hj, modelAt_add psf _ D i j k _ hk.1 _ hc]
    ring

omit [IsStrictOrderedRing F] in
theorem minors_congr_left {psf : Nat → F} {D : Nat} {gain thr : F} {k : Nat}
    {r c r' c' : Nat → F} (h : Minors psf D gain thr k r c r' c')
    (q : Nat → F) (hq : ∀ p < D * D, q p = r p) :
    Minors psf D gain thr k q c r' c' := by
  cases h with
  | nil hr hc => exact .nil (fun p hp => by rw [hr p hp, hq p hp]) hc
  | cons hm ht =>
    obtain ⟨k, hk, hthr, hc, hr⟩ := hm
    refine .cons ⟨k, ⟨hk.1, ?_, ?_⟩, by rw [hq k hk.1]; exact hthr, ?_, ?_⟩ ht
    · intro j hj; rw [hq j hj, hq k hk.1]; exact hk.2.1 j hj
    · intro j hj
      have := hk.1
      rw [hq j (by omega), hq k hk.1]; exact hk.2.2 j hj
    · intro p hp; rw [hq k hk.1]; exact hc p hp
    · intro i hi j hj; rw [hq k hk.1, hq _ (flat_lt hi hj)]; exact hr i hi j hj

/-! ## The wrapper -/

/-- Arguments the wrapper's checks are meant to let through: a square, non-empty dirty image
of side `D`, a square PSF of side `2D`, outputs of the image's shape. -/
structure Good (conv : Arr F → Option (Arr F)) (dirty psf model res sky : Img F) : Prop where
  pos : 0 < dirty.d0
  square : dirty.d1 = dirty.d0
  dirty_buf : dirty.buf.size = dirty.d0 * dirty.d1
  psf0 : psf.d0 = 2 * dirty.d0
  psf1 : psf.d1 = 2 * dirty.d0
  psf_buf : psf.buf.size = psf.d0 * psf.d1
  model0 : model.d0 = dirty.d0
  model_buf : model.buf.size = dirty.d0 * dirty.d0
  res0 : res.d0 = dirty.d0
  res_buf : res.buf.size = dirty.d0 * dirty.d0
  sky0 : sky.d0 = dirty.d0
  sky_buf : sky.buf.size = dirty.d0 * dirty.d0
  conv_ok : ∀ c : Arr F, c.size = dirty.d0 * dirty.d0 →
    ∃ r, conv c = some r ∧ r.size = dirty.d0 * dirty.d0

omit [IsStrictOrderedRing F] in
theorem clean_spec {conv : Arr F → Option (Arr F)} {dirty psf model res sky : Img F}
    (h : Good conv dirty psf model res sky) (gain thr : F) (limit : Int)
    (hg : 0 < gain) (hl : 1 ≤ limit) :
    ∃ (o : Out F) (k : Nat) (comps cc : Arr F), clean conv dirty psf gain thr limit model res sky = .ok o ∧
      (k : Int) ≤ limit ∧ comps.size = dirty.d0 * dirty.d0 ∧ conv comps = some cc ∧
      Minors psf.buf.get dirty.d0 gain thr k dirty.buf.get (fun _ => 0) o.res.get comps.get ∧
      ((k : Int) < limit → ∀ p < dirty.d0 * dirty.d0, o.res.get p < thr) ∧
      (∀ p < dirty.d0 * dirty.d0, o.model.get p = comps.get p) ∧
      (∀ p < dirty.d0 * dirty.d0, o.sky.get p = cc.get p + o.res.get p) := by
  obtain ⟨hpos, hsq, hdb, hp0, hp1, hpb, hm0, hmb, hr0, hrb, hs0, hsb, hconv⟩ := h
  generalize hD : dirty.d0 = D at *
  unfold clean
  rw [hm0, hr0, hs0, hsq, hp0, hp1, hD, if_neg (by simp), if_neg (by simp), if_neg (by simp),
    if_neg (by simp), if_neg (by simp), if_neg (by omega), if_neg (by omega), if_neg (not_le.2 hg)]
  rw [hp0, hp1] at hpb
  obtain ⟨r0, e1, z1, v1⟩ := copyN_spec dirty.buf res.buf (D * D) (by rw [hdb, hsq])
    (by omega)
  rw [e1]
  simp only [Option.bind_some]
  obtain ⟨s', k, e2, hk, z2, z3, hch, hend⟩ := run_spec psf.buf D gain thr hpos hpb limit.toNat
    ⟨r0, ⟨D * D, fun _ => 0⟩⟩ (by simp only; omega) rfl
  obtain ⟨cc, e3, z4⟩ := hconv s'.comps z3
  simp only at z2
  obtain ⟨sky1, e4, z5, v5⟩ := copyN_spec cc sky.buf (D * D) (by omega) (by omega)
  obtain ⟨sky2, e5, z6, v6⟩ := addResidual_spec s'.res sky1 (D * D) (by omega) (by omega)
  obtain ⟨m2, e7, z7, v7⟩ := copyN_spec s'.comps model.buf (D * D) (by omega) (by omega)
  have e : cleanCpu conv psf.buf D (2 * D) gain thr limit.toNat ⟨model.buf, r0, sky.buf⟩ =
      some ⟨m2, s'.res, sky2⟩ := by
    unfold cleanCpu
    simp only [e2, e3, e4, e5, e7, Option.bind_some, Option.map_some]
  rw [e]
  refine ⟨_, k, s'.comps, cc, rfl, by omega, z3, e3, ?_, ?_, v7, ?_⟩
  · exact minors_congr_left hch _ fun p hp => (v1 p hp).symm
  · intro h; exact hend (by omega)
  · intro p hp
    simp only
    rw [v6 p hp, v5 p hp]

/-! ## Theorems -/

omit [IsStrictOrderedRing F] in
/-- C21.  For every dirty image, PSF, gain, threshold and cycle limit: the returned model,
convolved with the PSF, plus the returned residual, is the dirty image at every pixel; the
sky model is the model restored with the clean beam plus the residual. -/
theorem C21_hogbom_flux {conv : Arr F → Option (Arr F)} {dirty psf model res sky : Img F}
    (h : Good conv dirty psf model res sky) (gain thr : F) (limit : Int)
    (hg : 0 < gain) (hl : 1 ≤ limit) :
    ∃ (o : Out F) (comps cc : Arr F), clean conv dirty psf gain thr limit model res sky = .ok o ∧
      (∀ i < dirty.d0, ∀ j < dirty.d0,
        o.res.get (dirty.d0 * i + j) + modelAt psf.buf.get o.model.get dirty.d0 i j =
          dirty.buf.get (dirty.d0 * i + j)) ∧
      comps.size = dirty.d0 * dirty.d0 ∧
      (∀ p < dirty.d0 * dirty.d0, o.model.get p = comps.get p) ∧ conv comps = some cc ∧
      (∀ p < dirty.d0 * dirty.d0, o.sky.get p = cc.get p + o.res.get p) := by
  obtain ⟨o, k, comps, cc, h1, h2, h3, h4, h5, h6, h7, h8⟩ := clean_spec h gain thr limit hg hl
  refine ⟨o, comps, cc, h1, ?_, h3, h7, h4, h8⟩
  intro i hi j hj
  have := minors_flux h5 i hi j hj
  have e : modelAt psf.buf.get o.model.get dirty.d0 i j =
      modelAt psf.buf.get comps.get dirty.d0 i j := by
    unfold modelAt
    refine Finset.sum_congr rfl fun x hx => Finset.sum_congr rfl fun y hy => ?_
    rw [h7 _ (flat_lt (Finset.mem_range.1 hx) (Finset.mem_range.1 hy))]
  rw [e, this]
  simp [modelAt]

omit [IsStrictOrderedRing F] in
/-- C21, at every iteration: along the chain of minor cycles the sum of residual and
convolved components never changes. -/
theorem C21_every_iteration {psf : Nat → F} {D : Nat} {gain thr : F} {k : Nat}
    {r c r' c' : Nat → F} (h : Minors psf D gain thr k r c r' c') :
    ∀ i < D, ∀ j < D,
      r' (D * i + j) + modelAt psf c' D i j = r (D * i + j) + modelAt psf c D i j :=
  minors_flux h

omit [IsStrictOrderedRing F] in
/-- C22 (partial).  With outputs of the image's full shape and a non-empty image the call
never leaves an array.  Missing: the wrapper only checks the first dimension of the outputs
and accepts an empty image, see `C22_short_output_false` and `C22_empty_image_false`. -/
theorem C22_hogbom_in_bounds_partial {conv : Arr F → Option (Arr F)}
    {dirty psf model res sky : Img F}
    (h : Good conv dirty psf model res sky) (gain thr : F) (limit : Int) :
    clean conv dirty psf gain thr limit model res sky ≠ .ub := by
  by_cases hg : gain ≤ 0
  · unfold clean; split_ifs <;> simp
  · by_cases hl : limit < 1
    · unfold clean; split_ifs <;> simp
    · obtain ⟨o, _, _, _, h1, _⟩ := clean_spec h gain thr limit (not_le.1 hg) (by omega)
      rw [h1]; simp

omit [IsStrictOrderedRing F] in
/-- C23.  At most `limit` minor cycles take place, each at the first pixel of maximal
residual, which is at least the threshold (`Minor`); if fewer than `limit` took place, the
whole residual is below the threshold. -/
theorem C23_hogbom_stops {conv : Arr F → Option (Arr F)} {dirty psf model res sky : Img F}
    (h : Good conv dirty psf model res sky) (gain thr : F) (limit : Int)
    (hg : 0 < gain) (hl : 1 ≤ limit) :
    ∃ (o : Out F) (k : Nat) (comps : Arr F),
      clean conv dirty psf gain thr limit model res sky = .ok o ∧ (k : Int) ≤ limit ∧
      Minors psf.buf.get dirty.d0 gain thr k dirty.buf.get (fun _ => 0) o.res.get comps.get ∧
      (∀ p < dirty.d0 * dirty.d0, o.model.get p = comps.get p) ∧
      ((k : Int) < limit → ∀ p < dirty.d0 * dirty.d0, o.res.get p < thr) := by
  obtain ⟨o, k, comps, cc, h1, h2, h3, h4, h5, h6, h7, h8⟩ := clean_spec h gain thr limit hg hl
  exact ⟨o, k, comps, h1, h2, h5, h7, h6⟩

omit [IsStrictOrderedRing F] in
/-- C23: the chain is determined by the input, so the result does not depend on anything
else: two chains of the same length from the same images end in the same images. -/
theorem C23_minors_det {psf : Nat → F} {D : Nat} {gain thr : F} {k : Nat}
    {r c r₁ c₁ r₂ c₂ : Nat → F} (h₁ : Minors psf D gain thr k r c r₁ c₁)
    (h₂ : Minors psf D gain thr k r c r₂ c₂) :
    ∀ p < D * D, r₁ p = r₂ p ∧ c₁ p = c₂ p := by
  have gen : ∀ {k r c r₁ c₁}, Minors psf D gain thr k r c r₁ c₁ → ∀ {q d r₂ c₂},
      Minors psf D gain thr k q d r₂ c₂ → (∀ p < D * D, r p = q p) →
      (∀ p < D * D, c p = d p) → ∀ p < D * D, r₁ p = r₂ p ∧ c₁ p = c₂ p := by
    intro k r c r₁ c₁ h
    clear h₁ h₂
    induction h with
    | nil hr hc =>
      intro q d r₂ c₂ h' hq hd p hp
      cases h' with
      | nil hr' hc' =>
        exact ⟨by rw [hr p hp, hr' p hp, hq p hp], by rw [hc p hp, hc' p hp, hd p hp]⟩
    | cons hm _ ih =>
      intro q d r₂ c₂ h' hq hd p hp
      cases h' with
      | cons hm' ht' =>
        obtain ⟨a, ha, _, hc, hr⟩ := hm
        obtain ⟨b, hb, _, hc', hr'⟩ := hm'
        have hab : a = b := by
          rcases lt_trichotomy a b with hlt | he | hlt
          · have h1 := hb.2.2 a hlt
            have h2 := ha.2.1 b hb.1
            rw [hq a ha.1, hq b hb.1] at h2
            exact absurd h2 (not_le.2 h1)
          · exact he
          · have h1 := ha.2.2 b hlt
            have h2 := hb.2.1 a ha.1
            rw [hq a ha.1, hq b hb.1] at h1
            exact absurd h2 (not_le.2 h1)
        subst hab
        refine ih ht' ?_ ?_ p hp
        · intro p hp
          have hD : 0 < D := by
            rcases Nat.eq_zero_or_pos D with h0 | h0
            · subst h0; omega
            · exact h0
          have e := Nat.div_add_mod p D
          have := hr (p / D) (Nat.div_lt_of_lt_mul hp) (p % D) (Nat.mod_lt _ hD)
          have h' := hr' (p / D) (Nat.div_lt_of_lt_mul hp) (p % D) (Nat.mod_lt _ hD)
          rw [e] at this h'
          rw [this, h', hq p hp, hq _ ha.1]
        · intro p hp
          rw [hc p hp, hc' p hp, hd p hp, hq _ ha.1]
  exact gen h₁ h₂ (fun _ _ => rfl) (fun _ _ => rfl)

/-! ## Witnesses -/

/-- Identity in place of the clean-beam convolution. -/
def idConv : Arr ℚ → Option (Arr ℚ) := some

/-- A 2x2 dirty image with one source. -/
def exDirty : Img ℚ := ⟨2, 2, ⟨4, fun i => if i = 2 then 8 else 0⟩⟩
/-- Unit-peak PSF of side 4 with a side lobe next to the peak (PSF pixel (2, 3)). -/
def exPsf : Img ℚ := ⟨4, 4, ⟨16, fun i => if i = 10 then 1 else if i = 11 then 1 / 2 else 0⟩⟩
/-- Output buffers of the right shape. -/
def exOut : Img ℚ := ⟨2, 2, ⟨4, fun _ => 0⟩⟩

/-- The hypotheses are met. -/
theorem exGood : Good idConv exDirty exPsf exOut exOut exOut :=
  ⟨by decide, rfl, rfl, rfl, rfl, rfl, rfl, rfl, rfl, rfl, rfl, rfl, fun c hc => ⟨c, rfl, hc⟩⟩

/-- Two cycles with gain 1/2 on the example: the loop really subtracts. -/
example : (match clean idConv exDirty exPsf (1 / 2) 1 2 exOut exOut exOut with
    | .ok o => (List.range 4).map o.res.get | _ => []) = [0, 0, 2, -3] := by decide +kernel

example : (match clean idConv exDirty exPsf (1 / 2) 1 2 exOut exOut exOut with
    | .ok o => (List.range 4).map o.model.get | _ => []) = [0, 0, 6, 0] := by decide +kernel

/-- Is the outcome undefined behaviour? -/
def Res.isUb {F : Type} : Res F → Bool
  | .ub => true
  | _ => false

theorem isUb_iff {F : Type} (r : Res F) : r.isUb = true ↔ r = .ub := by
  cases r <;> simp [Res.isUb]

/-- C22 is false as stated: a model array of shape (2, 1) passes the wrapper's checks and is
written out of bounds. -/
theorem C22_short_output_false :
    clean idConv exDirty exPsf (1 / 2) 1 2 ⟨2, 1, ⟨2, fun _ => 0⟩⟩ exOut exOut = .ub := by
  rw [← isUb_iff]; decide +kernel

/-- C22 is false as stated: an empty image passes the checks and element 0 of an empty
buffer is read. -/
theorem C22_empty_image_false :
    clean idConv ⟨0, 0, ⟨0, fun _ => 0⟩⟩ ⟨0, 0, ⟨0, fun _ => 0⟩⟩ (1 / 2) 1 2
      ⟨0, 0, ⟨0, fun _ => 0⟩⟩ ⟨0, 0, ⟨0, fun _ => 0⟩⟩ ⟨0, 0, ⟨0, fun _ => 0⟩⟩ = .ub := by
  rw [← isUb_iff]; decide +kernel

end Sdp.Hogbom
