import Verif.Hogbom.CallFalse
import Verif.MsClean.Call
import Verif.MsClean.CallSpec
import Verif.MsClean.Props

/-!
# C98: whole calls of the multi-scale CLEAN
-/

namespace Sdp.MsClean
open Sdp.FftConv Sdp.Hogbom
noncomputable section

/-! ## The scale kernels -/

theorem kernValue_eq (scale : Int) (h : scale ≠ 0) (n x y : Nat) :
    kernValue scale n x y = blob scale ((x : Int) - (n / 2 : Nat)) ((y : Int) - (n / 2 : Nat)) := by
  unfold kernValue blob
  rw [if_neg h]
  simp only
  generalize (x : Int) - (n / 2 : Nat) = u
  generalize (y : Int) - (n / 2 : Nat) = v
  generalize (3 / 16 * (scale : ℝ)) = g
  have e1 : (-(((u * u + v * v : Int)) : ℝ)) / (2 * g * g) = -((u : ℝ) ^ 2 + (v : ℝ) ^ 2) / (2 * g ^ 2) := by
    push_cast; congr 1 <;> ring
  rw [e1, div_eq_mul_inv, one_div, mul_comm]
  congr 2
  ring

/-- The kernels of one scale. -/
theorem kernOf_spec (scale : Int) (S s n : Nat) (hs : s < S) (hn : 1 ≤ n) (kern : Arr ℝ)
    (hk : kern.size = S * (n * n)) (h0 : ∀ x < n, ∀ y < n, kern.get (at3 n s x y) = 0) :
    ∃ r, kernOf scale s n kern = some r ∧ r.size = kern.size ∧
      (∀ x < n, ∀ y < n, r.get (at3 n s x y) = blob scale ((x : Int) - (n / 2 : Nat)) ((y : Int) - (n / 2 : Nat))) ∧
      ∀ s' x y, s' ≠ s → x < n → y < n → r.get (at3 n s' x y) = kern.get (at3 n s' x y) := by
  have hh : n / 2 < n := Nat.div_lt_self (by omega) (by omega)
  unfold kernOf
  by_cases c : scale = 0
  · have ei : index3 (n : Int) n s ((n : Int) / 2) ((n : Int) / 2) = ((at3 n s (n / 2) (n / 2) : Nat) : Int) := by
      rw [← index3_at3]; norm_cast
    rw [if_pos c, ei, Arr.write_nat, if_pos (by rw [hk]; exact at3_lt hs hh hh)]
    refine ⟨_, rfl, rfl, fun x hx y hy => ?_, fun s' x y hne hx hy => ?_⟩
    · simp only [Arr.put_get, blob, if_pos c]
      by_cases e : at3 n s x y = at3 n s (n / 2) (n / 2)
      · obtain ⟨-, rfl, rfl⟩ := at3_inj hx hy hh hh e
        simp
      · rw [if_neg e, h0 x hx y hy, if_neg]
        rintro ⟨a, b⟩
        exact e (by rw [show x = n / 2 by omega, show y = n / 2 by omega])
    · simp only [Arr.put_get]
      rw [if_neg]
      intro e
      exact hne (at3_inj hx hy hh hh e).1
  · rw [if_neg c]
    obtain ⟨r, h1, h2, h3, h4⟩ := Arr.store_spec (nest2 n n) (fun p : Nat × Nat => index3 n n s p.1 p.2)
      (fun p => kernValue scale n p.1 p.2) (by
        refine List.Nodup.map_on ?_ (nest2_nodup n n)
        rintro ⟨i, j⟩ h ⟨i', j'⟩ h' e
        have h := mem_nest2.1 h
        have h' := mem_nest2.1 h'
        rw [index3_at3, index3_at3] at e
        have := at3_inj h.1 h.2 h'.1 h'.2 (by exact_mod_cast e)
        exact Prod.ext this.2.1 this.2.2) kern (by
        intro p hp
        have hp := mem_nest2.1 hp
        have := at3_lt hs hp.1 hp.2
        rw [index3_at3]
        omega)
    refine ⟨r, h1, h2, fun x hx y hy => ?_, fun s' x y hne hx hy => ?_⟩
    · have := h3 (x, y) (mem_nest2.2 ⟨hx, hy⟩)
      simp only [index3_at3, Int.toNat_natCast] at this
      rw [this, kernValue_eq _ c]
    · refine h4 _ ?_
      intro p hp e
      have hp := mem_nest2.1 hp
      rw [index3_at3] at e
      exact hne (at3_inj hp.1 hp.2 hx hy (by omega)).1.symm

theorem createKern_spec (scales : Arr Int) (S n : Nat) (hS : S ≤ scales.size) (hn : 1 ≤ n) :
    ∃ kern, createKern scales S n ⟨S * (n * n), fun _ => 0⟩ = some kern ∧ kern.size = S * (n * n) ∧
      ∀ s < S, ∀ x < n, ∀ y < n, kern.get (at3 n s x y) =
        blob (scales.get s) ((x : Int) - (n / 2 : Nat)) ((y : Int) - (n / 2 : Nat)) := by
  have key : ∀ m ≤ S, ∃ kern, loop (fun kern (s : Nat) => (scales.read (s : Int)).bind fun v => kernOf v s n kern)
      (⟨S * (n * n), fun _ => 0⟩ : Arr ℝ) (List.range m) = some kern ∧ kern.size = S * (n * n) ∧
      ∀ s < S, ∀ x < n, ∀ y < n, kern.get (at3 n s x y) = if s < m then
        blob (scales.get s) ((x : Int) - (n / 2 : Nat)) ((y : Int) - (n / 2 : Nat)) else 0 := by
    intro m
    induction m with
    | zero => exact fun _ => ⟨_, rfl, rfl, fun s _ x _ y _ => by simp⟩
    | succ m ih =>
      intro hm
      obtain ⟨k, k1, k2, k3⟩ := ih (by omega)
      obtain ⟨r, r1, r2, r3, r4⟩ := kernOf_spec (scales.get m) S m n (by omega) hn k k2
        (fun x hx y hy => by rw [k3 m (by omega) x hx y hy, if_neg (by omega)])
      refine ⟨r, ?_, by rw [r2, k2], fun s hs x hx y hy => ?_⟩
      · rw [List.range_succ, loop_append, k1]
        simp only [Option.bind_some, loop, Arr.read_nat, if_pos (show m < scales.size by omega), r1]
      · by_cases c : s = m
        · subst c
          rw [r3 x hx y hy, if_pos (by omega)]
        · rw [r4 s x y c hx hy, k3 s hs x hx y hy]
          by_cases c2 : s < m
          · rw [if_pos c2, if_pos (by omega)]
          · rw [if_neg c2, if_neg (by omega)]
  obtain ⟨k, k1, k2, k3⟩ := key S le_rfl
  exact ⟨k, k1, k2, fun s hs x hx y hy => by rw [k3 s hs x hx y hy, if_pos hs]⟩

/-! ## The convolutions -/

/-- Convolution of real images, as `smear`. -/
theorem smear_of_conv {D n : Nat} {k : Int → Int → ℝ} {a b : Arr ℝ} {r : Arr ℂ}
    (hb : ∀ x < n, ∀ y < n, b.get (n * x + y) = k ((x : Int) - (n / 2 : Nat)) ((y : Int) - (n / 2 : Nat)))
    (h : IsConv D n (complexOf a) (complexOf b) (zeros D) r) : ∀ i < D, ∀ j < D, (realOf r).get (D * i + j) =
      smear D n k (((n / 2 : Nat) : Int) - ((n - 1) / 2 : Nat)) (fun s t => a.get (D * s + t)) i j := by
  intro i hi j hj
  have e := h.2.1 i hi j hj
  unfold realOf
  simp only
  rw [Nat.mul_comm D i, e]
  unfold linConv smear
  rw [Complex.re_sum]
  refine Finset.sum_congr rfl fun s _ => ?_
  rw [Complex.re_sum]
  refine Finset.sum_congr rfl fun t _ => ?_
  unfold complexOf at0 cutTo
  simp only
  rw [Nat.mul_comm s D, Complex.re_ofReal_mul]
  congr 1
  by_cases c : -((n / 2 : Nat) : Int) ≤ (i : Int) - s - (((n / 2 : Nat) : Int) - ((n - 1) / 2 : Nat)) ∧
      (i : Int) - s - (((n / 2 : Nat) : Int) - ((n - 1) / 2 : Nat)) < n - ((n / 2 : Nat) : Int) ∧
      -((n / 2 : Nat) : Int) ≤ (j : Int) - t - (((n / 2 : Nat) : Int) - ((n - 1) / 2 : Nat)) ∧
      (j : Int) - t - (((n / 2 : Nat) : Int) - ((n - 1) / 2 : Nat)) < n - ((n / 2 : Nat) : Int)
  · rw [if_pos c, if_pos (by omega)]
    obtain ⟨x, hx⟩ : ∃ x : Nat, (i : Int) + ((n - 1) / 2 : Nat) - s = x := ⟨_, (Int.toNat_of_nonneg (by omega)).symm⟩
    obtain ⟨y, hy⟩ : ∃ y : Nat, (j : Int) + ((n - 1) / 2 : Nat) - t = y := ⟨_, (Int.toNat_of_nonneg (by omega)).symm⟩
    rw [hx, hy, Int.toNat_natCast, Int.toNat_natCast, Nat.mul_comm x n, Complex.ofReal_re, hb x (by omega) y (by omega)]
    congr 1 <;> omega
  · rw [if_neg c, if_neg (by omega), Complex.zero_re]

theorem smear_congr {D n : Nat} {k : Int → Int → ℝ} {d : Int} {m m' : Nat → Nat → ℝ}
    (h : ∀ s < D, ∀ t < D, m s t = m' s t) (i j : Nat) : smear D n k d m i j = smear D n k d m' i j := by
  unfold smear
  refine Finset.sum_congr rfl fun s hs => Finset.sum_congr rfl fun t ht => ?_
  rw [h s (Finset.mem_range.1 hs) t (Finset.mem_range.1 ht)]

/-- The convolutions of the call. -/
theorem conv_spec {d : Dims} {conv : Arr ℝ → Arr ℝ → Option (Arr ℝ)} (hc : RealConv d conv) (hD : 1 ≤ d.D)
    (he : d.D % 2 = 0) (hP : d.P = 2 * d.D) {n1 : Nat} (hn : n1 = d.D ∨ n1 = d.P) (a b : Arr ℝ)
    (ha : a.size = n1 * n1) (hb : b.size = d.P * d.P) :
    ∃ r, conv a b = some r ∧ r.size = n1 * n1 ∧ ∀ k : Int → Int → ℝ,
      (∀ x < d.P, ∀ y < d.P, b.get (d.P * x + y) = k ((x : Int) - (d.P / 2 : Nat)) ((y : Int) - (d.P / 2 : Nat))) →
      ∀ i < n1, ∀ j < n1, r.get (n1 * i + j) = smear n1 d.P k 1 (fun s t => a.get (n1 * s + t)) i j := by
  have hn1 : (if a.size = d.D * d.D then d.D else d.P) = n1 := by
    rcases hn with rfl | rfl
    · rw [if_pos ha]
    · rw [if_neg]
      rw [ha, hP]
      intro h
      have := Nat.mul_self_inj.1 h
      omega
  obtain ⟨o1, o2, p1, p2, e⟩ := hc a b
  simp only [hn1] at p1 p2 e
  obtain ⟨r, r1, r2, r3, r4⟩ := C25_fft_convolution_partial o1 o2 n1 d.P p1 p2 (by omega) (by omega) (by omega)
    (by omega) (complexOf a) (complexOf b) (zeros n1) ha hb (by simp [zeros])
  have hz : IsConv n1 d.P (complexOf a) (complexOf b) (zeros n1) r := by
    refine ⟨r2, fun i hi j hj => ?_, r4⟩
    rw [r3 i hi j hj]
    have e : ((d.P / 2 : Nat) : Int) - 1 = (((d.P - 1) / 2 : Nat) : Int) := by omega
    rw [e]
  refine ⟨realOf r, by rw [e, r1]; rfl, r2, fun k hk i hi j hj => ?_⟩
  rw [smear_of_conv hk hz i hi j hj]
  have e : ((d.P / 2 : Nat) : Int) - ((d.P - 1) / 2 : Nat) = 1 := by omega
  rw [e]

/-! ## The loop -/

/-- The residuals before each component. -/
theorem chain_steps {S D : Nat} {kern spsf cpl : Nat → ℝ} {gain thr : ℝ} {r c r' c' : Nat → ℝ}
    {l : List (Comp ℝ)} (h : Chain S D kern spsf cpl gain thr r c l r' c') (k : Nat) (hk : k < l.length) :
    ∃ q : Nat → ℝ, (∀ s < S, ∀ i < D, ∀ j < D,
        q (at3 D s i j) = r (at3 D s i j) - taken spsf S D gain (l.take k) s i j) ∧
      Chosen S D cpl q l[k] ∧ thr ≤ q (at3 D l[k].s l[k].x l[k].y) := by
  induction h generalizing k with
  | nil => simp at hk
  | @cons r c a r1 c1 l r2 c2 h1 h2 h3 h4 h5 ih =>
    cases k with
    | zero => exact ⟨r, fun s _ i _ j _ => by simp [taken], h1, h2⟩
    | succ k =>
      obtain ⟨q, q1, q2, q3⟩ := ih k (by simpa using hk)
      refine ⟨q, fun s hs i hi j hj => ?_, q2, q3⟩
      rw [q1 s hs i hi j hj, h3 s hs i hi j hj]
      simp only [taken, List.take_succ_cons, List.map_cons, List.sum_cons]
      ring

/-- A component of the model, as one of the specification. -/
def piece (c : Comp ℝ) : Piece := ⟨c.s, c.x, c.y, c.amp⟩

theorem best_of_chosen {S D : Nat} {cpl w : Nat → ℝ} {q : Nat → ℝ} {r : Nat → Nat → Nat → ℝ} {c : Comp ℝ}
    (hw : ∀ s < S, cpl (S * s + s) = w s) (hp : ∀ s < S, 0 < w s)
    (hr : ∀ s < S, ∀ i < D, ∀ j < D, q (at3 D s i j) = r s i j) (h : Chosen S D cpl q c) :
    Best S D w r (piece c) := by
  obtain ⟨h1, h2, h3, h4, h5, h6⟩ := h
  refine ⟨h1, h2, h3, h4, fun h => ?_, fun s hs i hi j hj => ?_⟩
  · have := h5 h
    rw [hr _ h1 _ h2 _ h3, hw _ h1] at this
    exact this
  · have := h6 s hs (by rw [hw s hs]; exact hp s hs) i hi j hj
    rw [hr s hs i hi j hj, hw s hs] at this
    exact this

/-- What the outputs are after a multi-scale CLEAN of at most `limit` components, if every image that is
convolved with a kernel is moved by `d` pixels along both axes. -/
structure MsCleaned (S D limit : Nat) (d : Int) (scales : Nat → Int) (det : Arr ℝ) (gain thr : ℝ)
    (dirty psf : Nat → Nat → ℝ) (out : Out ℝ) : Prop where
  run : ∃ (l : List Piece) (w : Nat → ℝ), l.length ≤ limit ∧
    -- the weight of a scale is the peak of the PSF at that scale, twice
    (∀ s < S, Peak (2 * D) (psfAt D d (scales s) (scales s) psf) (w s)) ∧
    -- each component is the best one at its time, and not below the threshold
    (∀ k, ∀ h : k < l.length, Best S D w (left D d scales gain dirty psf (l.take k)) l[k] ∧
      thr ≤ left D d scales gain dirty psf (l.take k) l[k].s l[k].x l[k].y) ∧
    -- the run ends at the limit, or when the best component is below the threshold
    (l.length < limit → ∃ c, Best S D w (left D d scales gain dirty psf l) c ∧
      left D d scales gain dirty psf l c.s c.x c.y < thr) ∧
    -- the model is made of the components, the residual is what they leave at the first scale
    (∀ i < D, ∀ j < D, out.model.get (D * i + j) =
      (l.map fun c => gain * c.amp * blob (scales c.s) ((i : Int) - c.x) ((j : Int) - c.y)).sum) ∧
    ∀ i < D, ∀ j < D, out.res.get (D * i + j) = left D d scales gain dirty psf l 0 i j
  sky : ∀ i < D, ∀ j < D, out.sky.get (D * i + j) = out.res.get (D * i + j) +
    restored D (2 * D) (det.get 0) (det.get 1) (det.get 2) d out.model.get i j

theorem at3_flat (n b i j : Nat) : at3 n b i j = n * n * b + (n * i + j) := by
  unfold at3; rw [Nat.mul_add, ← Nat.mul_assoc, Nat.add_assoc]

theorem peak_of_max {n : Nat} {f : Nat → ℝ} {g : Nat → Nat → ℝ} {v : ℝ}
    (h : MaxPos f (n * n) v) (hg : ∀ i < n, ∀ j < n, f (n * i + j) = g i j) : Peak n g v := by
  obtain ⟨h1, h2, h3⟩ := h
  refine ⟨h1, fun i hi j hj => by rw [← hg i hi j hj]; exact h2 _ (flat_lt hi hj), h3.imp id ?_⟩
  rintro ⟨q, hq, rfl⟩
  have hn : 0 < n := Nat.pos_of_ne_zero (by rintro rfl; simp at hq)
  refine ⟨q / n, Nat.div_lt_of_lt_mul hq, q % n, Nat.mod_lt _ hn, ?_⟩
  rw [← hg _ (Nat.div_lt_of_lt_mul hq) _ (Nat.mod_lt _ hn), Nat.div_add_mod]

/-- The loop with the real convolution, kernels and beam. -/
theorem run_cleaned {d : Dims} {conv : Arr ℝ → Arr ℝ → Option (Arr ℝ)} (hc : RealConv d conv)
    (he : d.D % 2 = 0) (psf dirty kern cbeam : Arr ℝ) (o : Out ℝ) (g : Good d psf dirty kern cbeam o)
    (scales : Nat → Int) (det : Arr ℝ)
    (hk : ∀ s < d.S, ∀ x < d.P, ∀ y < d.P, kern.get (at3 d.P s x y) =
      blob (scales s) ((x : Int) - (d.P / 2 : Nat)) ((y : Int) - (d.P / 2 : Nat)))
    (hb : ∀ x < d.P, ∀ y < d.P, cbeam.get (d.P * x + y) = gauss (det.get 0) (det.get 1) (det.get 2)
      (((x : Int) - (d.P / 2 : Nat) : Int) : ℝ) (((y : Int) - (d.P / 2 : Nat) : Int) : ℝ))
    (hpos : ∀ s < d.S, ∃ i < d.P, ∃ j < d.P,
      0 < psfAt d.D 1 (scales s) (scales s) (fun i j => psf.get (d.P * i + j)) i j)
    (gain thr : ℝ) (limit : Nat) :
    (∃ out, clean conv d psf dirty kern cbeam gain thr limit o = some out ∧
      MsCleaned d.S d.D limit 1 scales det gain thr (fun i j => dirty.get (d.D * i + j))
        (fun i j => psf.get (d.P * i + j)) out) ∧
    ∀ su cpl, setup conv d psf dirty kern = some su → coupling d su.1 = some cpl →
      ∀ s < d.S, cpl.get (d.S * s + s) ≠ 0 := by
  have hD := g.pos
  have hP := g.psfdim
  have hh : d.P / 2 = d.D := by omega
  have hblk : ∀ s < d.S, ∀ x < d.P, ∀ y < d.P, (block kern (d.P * d.P) s).get (d.P * x + y) =
      blob (scales s) ((x : Int) - (d.P / 2 : Nat)) ((y : Int) - (d.P / 2 : Nat)) := by
    intro s hs x hx y hy
    rw [← hk s hs x hx y hy, at3_flat]
    rfl
  obtain ⟨cv, hcv⟩ : ∃ cv : Arr ℝ → Arr ℝ → Arr ℝ, ∀ a b r, conv a b = some r → cv a b = r :=
    ⟨fun a b => (conv a b).getD ⟨0, fun _ => 0⟩, fun a b r h => by simp only [h, Option.getD_some]⟩
  have ok : ConvOk d conv cv := by
    intro a b ha hb'
    rcases ha with ha | ha
    · obtain ⟨r, r1, r2, -⟩ := conv_spec hc hD he hP (.inl rfl) a b ha hb'
      rw [hcv a b r r1, ha]
      exact ⟨r1, r2⟩
    · obtain ⟨r, r1, r2, -⟩ := conv_spec hc hD he hP (.inr rfl) a b ha hb'
      rw [hcv a b r r1, ha]
      exact ⟨r1, r2⟩
  have val : ∀ {n1 : Nat}, n1 = d.D ∨ n1 = d.P → ∀ a b : Arr ℝ, a.size = n1 * n1 → b.size = d.P * d.P →
      (cv a b).size = n1 * n1 ∧ ∀ k : Int → Int → ℝ, (∀ x < d.P, ∀ y < d.P, b.get (d.P * x + y) =
        k ((x : Int) - (d.P / 2 : Nat)) ((y : Int) - (d.P / 2 : Nat))) →
      ∀ i < n1, ∀ j < n1, (cv a b).get (n1 * i + j) = smear n1 d.P k 1 (fun s t => a.get (n1 * s + t)) i j := by
    intro n1 hn a b ha hb'
    obtain ⟨r, r1, r2, r3⟩ := conv_spec hc hD he hP hn a b ha hb'
    rw [hcv a b r r1]
    exact ⟨r2, r3⟩
  have hps : ∀ s < d.S, ∀ p < d.S, ∀ i < d.P, ∀ j < d.P,
      (cv (cv psf (block kern (d.P * d.P) s)) (block kern (d.P * d.P) p)).get (d.P * i + j) =
        psfAt d.D 1 (scales s) (scales p) (fun i j => psf.get (d.P * i + j)) i j := by
    intro s hs p hp i hi j hj
    have v1 := val (.inr rfl) psf (block kern (d.P * d.P) s) g.psf rfl
    have v2 := val (.inr rfl) (cv psf (block kern (d.P * d.P) s)) (block kern (d.P * d.P) p) v1.1 rfl
    rw [v2.2 _ (hblk p hp) i hi j hj]
    unfold psfAt
    rw [← hP]
    exact smear_congr (fun a ha b hb => v1.2 _ (hblk s hs) a ha b hb) i j
  have hdt : ∀ s < d.S, ∀ i < d.D, ∀ j < d.D, (cv dirty (block kern (d.P * d.P) s)).get (d.D * i + j) =
      dirtyAt d.D 1 (scales s) (fun i j => dirty.get (d.D * i + j)) i j := by
    intro s hs i hi j hj
    rw [(val (.inl rfl) dirty (block kern (d.P * d.P) s) g.dirty rfl).2 _ (hblk s hs) i hi j hj]
    unfold dirtyAt
    rw [← hP]
  obtain ⟨out, spsf, cpl, r, c, l, r0, e, hl, a1, a2, a3, a4, a5, a6, a7, a8, a9, a10, a11⟩ :=
    C24_ms_clean_partial d ok psf dirty kern cbeam gain thr limit o g
  have hspsf : ∀ s < d.S, ∀ p < d.S, ∀ i < d.P, ∀ j < d.P, spsf.get (at3 d.P (d.S * s + p) i j) =
      psfAt d.D 1 (scales s) (scales p) (fun i j => psf.get (d.P * i + j)) i j := by
    intro s hs p hp i hi j hj
    rw [at3_flat, a1 s hs p hp _ (flat_lt hi hj), hps s hs p hp i hi j hj]
  have hr0 : ∀ s < d.S, ∀ i < d.D, ∀ j < d.D, r0 (at3 d.D s i j) =
      dirtyAt d.D 1 (scales s) (fun i j => dirty.get (d.D * i + j)) i j := by
    intro s hs i hi j hj
    rw [at3_flat, a2 s hs _ (flat_lt hi hj), hdt s hs i hi j hj]
  have hpk : ∀ s < d.S, Peak (2 * d.D) (psfAt d.D 1 (scales s) (scales s) (fun i j => psf.get (d.P * i + j)))
      (cpl.get (d.S * s + s)) := by
    intro s hs
    rw [← hP]
    refine peak_of_max (a3 s hs s hs) fun i hi j hj => ?_
    rw [← hspsf s hs s hs i hi j hj, at3_flat]
  have hw : ∀ s < d.S, 0 < cpl.get (d.S * s + s) := by
    intro s hs
    obtain ⟨i, hi, j, hj, h⟩ := hpos s hs
    exact lt_of_lt_of_le h ((hpk s hs).2.1 i (by omega) j (by omega))
  have hrange : ∀ q ∈ l, q.s < d.S ∧ q.x < d.D ∧ q.y < d.D := by
    intro q hq
    obtain ⟨k, hk', rfl⟩ := List.mem_iff_getElem.1 hq
    obtain ⟨_, -, h, -⟩ := chain_steps a4 k hk'
    exact ⟨h.1, h.2.1, h.2.2.1⟩
  have htaken : ∀ l' : List (Comp ℝ), (∀ q ∈ l', q.s < d.S ∧ q.x < d.D ∧ q.y < d.D) →
      ∀ s < d.S, ∀ i < d.D, ∀ j < d.D, r0 (at3 d.D s i j) - taken spsf.get d.S d.D gain l' s i j =
        left d.D 1 scales gain (fun i j => dirty.get (d.D * i + j)) (fun i j => psf.get (d.P * i + j))
          (l'.map piece) s i j := by
    intro l' hl' s hs i hi j hj
    unfold left taken
    rw [hr0 s hs i hi j hj, List.map_map]
    congr 2
    refine List.map_congr_left fun q hq => ?_
    obtain ⟨q1, q2, q3⟩ := hl' q hq
    simp only [Function.comp, piece, shifted]
    rw [← hP, hspsf s hs q.s q1 _ (by omega) _ (by omega)]
  refine ⟨⟨out, e, ⟨l.map piece, fun s => cpl.get (d.S * s + s), by simpa using hl, hpk, ?_, ?_, ?_, ?_⟩, ?_⟩, ?_⟩
  · intro k hk'
    have hk2 : k < l.length := by simpa using hk'
    obtain ⟨q, q1, q2, q3⟩ := chain_steps a4 k hk2
    have hq : ∀ s < d.S, ∀ i < d.D, ∀ j < d.D, q (at3 d.D s i j) = left d.D 1 scales gain
        (fun i j => dirty.get (d.D * i + j)) (fun i j => psf.get (d.P * i + j)) ((l.map piece).take k) s i j := by
      intro s hs i hi j hj
      rw [q1 s hs i hi j hj, htaken _ (fun q hq => hrange q (List.mem_of_mem_take hq)) s hs i hi j hj,
        List.map_take]
    have hb := best_of_chosen (w := fun s => cpl.get (d.S * s + s)) (fun _ _ => rfl) hw hq q2
    rw [hq _ q2.1 _ q2.2.1 _ q2.2.2.1] at q3
    rw [List.getElem_map]
    exact ⟨hb, q3⟩
  · intro hlt
    obtain ⟨k, k1, k2⟩ := a6 (by simpa using hlt)
    have hq : ∀ s < d.S, ∀ i < d.D, ∀ j < d.D, r.get (at3 d.D s i j) = left d.D 1 scales gain
        (fun i j => dirty.get (d.D * i + j)) (fun i j => psf.get (d.P * i + j)) (l.map piece) s i j := by
      intro s hs i hi j hj
      rw [a5 s hs i hi j hj, htaken _ hrange s hs i hi j hj]
    refine ⟨piece k, best_of_chosen (w := fun s => cpl.get (d.S * s + s)) (fun _ _ => rfl) hw hq k1, ?_⟩
    rw [hq _ k1.1 _ k1.2.1 _ k1.2.2.1] at k2
    exact k2
  · intro i hi j hj
    rw [a9 i hi j hj, List.map_map]
    unfold placed
    congr 1
    refine List.map_congr_left fun q hq => ?_
    obtain ⟨q1, q2, q3⟩ := hrange q hq
    simp only [Function.comp, piece, shifted]
    rw [← hP, hk q.s q1 _ (by omega) _ (by omega), hh]
    congr 2 <;> omega
  · intro i hi j hj
    have e0 : at3 d.D 0 i j = d.D * i + j := by rw [at3_flat, Nat.mul_zero, Nat.zero_add]
    rw [a10 _ (flat_lt hi hj), ← e0, a5 0 g.scales i hi j hj, htaken _ hrange 0 g.scales i hi j hj]
  · intro i hi j hj
    have v := (val (.inl rfl) c cbeam a7 g.cbeam).2 (fun u v => gauss (det.get 0) (det.get 1) (det.get 2) u v) hb i hi j hj
    rw [a11 _ (flat_lt hi hj), v, add_comm, ← hP]
    congr 1
    exact smear_congr (fun s hs t ht => (a8 _ (flat_lt hs ht)).symm) i j
  · intro su cp h1 h2 s hs
    obtain ⟨spsf', res', f1, f2, f3, f4, f5⟩ := setup_spec d ok psf dirty kern g.psf g.dirty g.kern
    rw [f1] at h1
    cases h1
    obtain ⟨cpl', g1, g2, g3⟩ := coupling_spec d spsf' f2
    simp only at h2
    rw [g1] at h2
    rw [← Option.some.inj h2]
    have hp : Peak d.P (psfAt d.D 1 (scales s) (scales s) (fun i j => psf.get (d.P * i + j)))
        (cpl'.get (d.S * s + s)) := by
      refine peak_of_max (g3 s hs s hs) fun i hi j hj => ?_
      rw [f4 s hs s hs _ (flat_lt hi hj), hps s hs s hs i hi j hj]
    obtain ⟨i, hi, j, hj, h⟩ := hpos s hs
    exact (lt_of_lt_of_le h (hp.2.1 i hi j hj)).ne'

theorem restored_smear (D n : Nat) (sx sy deg : ℝ) (d : Int) (m : Nat → ℝ) (i j : Nat) :
    restored D n sx sy deg d m i j =
      smear D n (fun u v => gauss sx sy deg u v) d (fun s t => m (D * s + t)) i j := rfl

/-! ## Whole calls -/

/-- What the caller passes: a square dirty image of side `D` and a PSF of side `2D`, outputs of the image's
shape, all of one real type and in memory `loc`; four beam parameters (standard deviations that are not 0) and
`S` scales, on the host; a writable sky model; sizes that fit the index types. -/
structure MsArgs (loc : MemLocation) (dm pm bm lm mm rm sm : Mem) (S D : Nat) (dirty psf det : Arr ℝ)
    (scales : Arr Int) (o : Out ℝ) : Prop where
  pos : 1 ≤ D
  some : 1 ≤ S
  fits : 2 * D ≤ 32767 ∧ S * S * ((2 * D) * (2 * D)) ≤ 2 ^ 32
  dshape : HasShape dm [D, D]
  pshape : HasShape pm [2 * D, 2 * D]
  bshape : HasShape bm [4]
  lshape : HasShape lm [S]
  mshape : HasShape mm [D, D]
  rshape : HasShape rm [D, D]
  sshape : HasShape sm [D, D]
  ddata : Holds dm dirty
  pdata : Holds pm psf
  bdata : Holds bm det
  ldata : Holds lm scales
  mdata : Holds mm o.model
  rdata : Holds rm o.res
  sdata : Holds sm o.sky
  dloc : dm.location = loc
  ploc : pm.location = loc
  bloc : bm.location = .cpu
  lloc : lm.location = .cpu
  mloc : mm.location = loc
  rloc : rm.location = loc
  sloc : sm.location = loc
  dtype : dm.type = .double ∨ dm.type = .float
  ptype : pm.type = dm.type
  stype : sm.type = dm.type
  ltype : lm.type = .int
  writable : sm.data ≠ none ∧ sm.isReadOnly = false
  widths : det.get 0 ≠ 0 ∧ det.get 1 ≠ 0

theorem shapeDim_one {m : Mem} {a : Int} (h : HasShape m [a]) : m.shapeDim 0 = a := by
  have s0 := shapeDim_lt m 0 (by rw [h.1]; simp)
  have e0 := h.2 0 (by simp)
  simp only [Nat.cast_zero] at s0
  rw [s0]
  exact e0

section
variable {loc : MemLocation} {dm pm bm lm mm rm sm : Mem} {S D : Nat} {dirty psf det : Arr ℝ} {scales : Arr Int}
  {o : Out ℝ}

theorem MsArgs.check (h : MsArgs loc dm pm bm lm mm rm sm S D dirty psf det scales o) :
    checkMs dm pm bm lm mm rm sm .success = .success := by
  have d1 := shapeDim_of h.dshape
  have d3 := shapeDim_of h.mshape
  have d4 := shapeDim_of h.rshape
  have d5 := shapeDim_of h.sshape
  have d6 := shapeDim_one h.bshape
  unfold checkMs
  rw [if_neg (by simp), if_neg (by rw [not_or]; exact ⟨h.writable.1, by rw [h.writable.2]; simp⟩),
    if_neg (by rw [h.dloc, h.sloc]; simp), if_neg (by rw [h.ptype]; simp), if_neg (by rw [h.ltype]; simp),
    if_neg (by rw [h.stype]; simp), if_neg (by rw [d3.1, d1.1]; simp), if_neg (by rw [d4.1, d1.1]; simp),
    if_neg (by rw [d5.1, d1.1]; simp), if_neg (by rw [d6]; simp)]

/-- A call on the CPU, once its arguments pass the checks. -/
theorem MsArgs.cpu (h : MsArgs .cpu dm pm bm lm mm rm sm S D dirty psf det scales o) (gain thr : ℝ) (limit : Int)
    (cuda : Bool) (r : Option (Status × Out ℝ)) :
    MsCall cuda dm pm bm lm mm rm sm .success dirty psf det scales gain thr limit o r ↔
      ∃ r', MsRun dirty psf det scales ⟨S, D, 2 * D⟩ gain thr limit.toNat o r' ∧
        r = r'.map fun x => (.success, x) := by
  have d1 := (shapeDim_of h.dshape).1
  have d2 := (shapeDim_of h.pshape).1
  have d3 := shapeDim_one h.lshape
  have hP : ((2 * D : Int)).toNat = 2 * D := by omega
  unfold MsCall
  simp only [h.check, d1, d2, d3, Int.toNat_natCast, hP, h.dloc, onHost, h.ploc, h.bloc, h.lloc, h.mloc, h.rloc,
    if_true]
  rw [if_neg (by simp), if_neg (by simp), if_pos h.dtype]

end

/-- **C98** (CPU, image of even side).  Every call with a positive value in each doubly scaled PSF succeeds,
whatever the order of the loops of the transforms.  At most `limit` components are taken, each the largest
residual over all pixels and scales once divided by the weight of the scale; the residuals are the dirty image at
each scale minus the PSF at the two scales for each component, the model is made of Gaussians of the scales, and
the sky model is the first residual plus the restored model - but *every convolution moves the image by one pixel
along both axes* (`C98_shift_false`, `C98_diverges_false`), and the beam is cut to the size of the PSF, not to the
size asked for (`C98_size_false`).  Missing: that, odd sides (`C98_odd_image_false`), and GPU memory
(`C98_gpu_false`). -/
theorem C98_call_partial (cuda : Bool) (dm pm bm lm mm rm sm : Mem) (S D : Nat) (dirty psf det : Arr ℝ)
    (scales : Arr Int) (o : Out ℝ) (gain thr : ℝ) (limit : Int)
    (h : MsArgs .cpu dm pm bm lm mm rm sm S D dirty psf det scales o) (hD : D % 2 = 0)
    (hpos : ∀ s < S, ∃ i < 2 * D, ∃ j < 2 * D,
      0 < psfAt D 1 (scales.get s) (scales.get s) (fun i j => psf.get (2 * D * i + j)) i j) :
    (∃ r, MsCall cuda dm pm bm lm mm rm sm .success dirty psf det scales gain thr limit o r) ∧
    ∀ r, MsCall cuda dm pm bm lm mm rm sm .success dirty psf det scales gain thr limit o r →
      ∃ out, r = some (.success, out) ∧ MsCleaned S D limit.toNat 1 scales.get det gain thr
        (fun i j => dirty.get (D * i + j)) (fun i j => psf.get (2 * D * i + j)) out := by
  have hp := h.pos
  obtain ⟨res0, c1, c2, c3⟩ := copyN_spec dirty o.res (D * D) (square_size h.ddata h.dshape).ge
    (square_size h.rdata h.rshape).ge
  have hdet : det.size = 4 := by
    have := (h.bdata.of_shape h.bshape).2
    simp at this
    exact_mod_cast this
  have hsc : scales.size = S := by
    have := (h.ldata.of_shape h.lshape).2
    simp at this
    exact_mod_cast this
  have hpsf : psf.size = (2 * D) * (2 * D) :=
    square_size (n := 2 * D) h.pdata (by push_cast; exact h.pshape)
  obtain ⟨beam, b1, b2, b3⟩ := createBeam_spec det hdet (2 * D) h.widths.1 h.widths.2
  obtain ⟨kern, k1, k2, k3⟩ := createKern_spec scales S (2 * D) hsc.ge (by omega)
  have g : Good ⟨S, D, 2 * D⟩ psf ⟨D * D, res0.get⟩ kern (realOf beam) ⟨o.model, res0, o.sky⟩ :=
    ⟨h.some, h.pos, rfl, hpsf, rfl, k2, b2, square_size h.mdata h.mshape,
      by rw [← square_size h.rdata h.rshape]; exact c2, square_size h.sdata h.sshape⟩
  have main : ∀ conv, RealConv ⟨S, D, 2 * D⟩ conv → _ := fun conv hc =>
    run_cleaned hc hD psf ⟨D * D, res0.get⟩ kern (realOf beam) ⟨o.model, res0, o.sky⟩ g scales.get det k3
      (fun x hx y hy => by
        show (beam.get (2 * D * x + y)).re = _
        rw [b3 x hx y hy, Complex.ofReal_re]) hpos gain thr limit.toNat
  have hrun : ∀ r', MsRun dirty psf det scales ⟨S, D, 2 * D⟩ gain thr limit.toNat o r' ↔
      ∃ conv, RealConv ⟨S, D, 2 * D⟩ conv ∧ r' = clean conv ⟨S, D, 2 * D⟩ psf ⟨D * D, res0.get⟩ kern (realOf beam)
        gain thr limit.toNat ⟨o.model, res0, o.sky⟩ := by
    intro r'
    have f1 := h.fits.1
    have f2 := h.fits.2
    unfold MsRun
    simp only [c1, b1, k1, Option.bind_some]
    rw [if_neg (by omega)]
    refine exists_congr fun conv => and_congr_right fun hc => ⟨fun hx => hx.elim id ?_, .inl⟩
    rintro ⟨kern', su, cpl, e1, e2, e3, s, hs, e4⟩
    cases e1
    exact absurd e4 ((main conv hc).2 su cpl e2 e3 s hs)
  constructor
  · refine ⟨_, (h.cpu gain thr limit cuda _).2 ⟨_, (hrun _).2 ⟨fun a b => (convolve
      (List.range (padDim (if a.size = D * D then D else 2 * D) (2 * D)))
      (List.range (padDim (if a.size = D * D then D else 2 * D) (2 * D))) (complexOf a) (complexOf b)
      (if a.size = D * D then D else 2 * D) (2 * D) (zeros (if a.size = D * D then D else 2 * D))).map realOf, ?_, rfl⟩,
      rfl⟩⟩
    intro a b
    exact ⟨_, _, List.Perm.refl _, List.Perm.refl _, rfl⟩
  · intro r hr
    obtain ⟨r', hr', rfl⟩ := (h.cpu gain thr limit cuda r).1 hr
    obtain ⟨conv, hc, rfl⟩ := (hrun r').1 hr'
    obtain ⟨⟨out, e, m⟩, -⟩ := main conv hc
    refine ⟨out, by rw [e]; rfl, ?_⟩
    have e : ∀ l s i j, i < D → j < D → left D 1 scales.get gain (fun i j => res0.get (D * i + j))
        (fun i j => psf.get (2 * D * i + j)) l s i j = left D 1 scales.get gain (fun i j => dirty.get (D * i + j))
        (fun i j => psf.get (2 * D * i + j)) l s i j := by
      intro l s i j hi hj
      unfold left dirtyAt
      rw [smear_congr (fun s hs t ht => c3 _ (flat_lt hs ht))]
    have hbest : ∀ w l c, Best S D w (left D 1 scales.get gain (fun i j => res0.get (D * i + j))
        (fun i j => psf.get (2 * D * i + j)) l) c → Best S D w (left D 1 scales.get gain
        (fun i j => dirty.get (D * i + j)) (fun i j => psf.get (2 * D * i + j)) l) c := by
      rintro w l c ⟨h1, h2, h3, h4, h5, h6⟩
      rw [e l _ _ _ h2 h3] at h5
      exact ⟨h1, h2, h3, h4, h5, fun s hs i hi j hj => by rw [← e l _ _ _ hi hj]; exact h6 s hs i hi j hj⟩
    obtain ⟨⟨l, w, m1, m2, m3, m4, m5, m6⟩, m7⟩ := m
    refine ⟨⟨l, w, m1, m2, fun k hk => ?_, fun hl => ?_, m5, fun i hi j hj => ?_⟩, m7⟩
    · have := m3 k hk
      rw [e _ _ _ _ this.1.2.1 this.1.2.2.1] at this
      exact ⟨hbest _ _ _ this.1, this.2⟩
    · obtain ⟨c, q1, q2⟩ := m4 hl
      rw [e _ _ _ _ q1.2.1 q1.2.2.1] at q2
      exact ⟨c, hbest _ _ _ q1, q2⟩
    · rw [← e _ _ _ _ hi hj]
      exact m6 i hi j hj

end
end Sdp.MsClean
