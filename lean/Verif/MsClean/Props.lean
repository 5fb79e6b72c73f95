import Mathlib.Tactic.Linarith
import Mathlib.Algebra.Order.Ring.Rat
import Mathlib.Algebra.Order.Field.Basic
import Verif.Hogbom.Props
import Verif.MsClean.Model

/-!
# C24: multi-scale CLEAN
-/

namespace Sdp.MsClean
variable {F : Type} [Field F] [LinearOrder F]

/-! ## Specification -/

/-- A placed component: scale, position, amplitude. -/
structure Comp (F : Type) where
  s : Nat
  x : Nat
  y : Nat
  amp : F

/-- Pixel `(i, j)` of image `b` in a list of images of side `n`. -/
def at3 (n b i j : Nat) : Nat := n * (n * b + i) + j

/-- Pixel `(i, j)` seen from a kernel of side `2D` whose centre, pixel `(D, D)`, is placed at
`(x, y)`; `b` selects the kernel in a list. -/
def shifted (ker : Nat → F) (D b x y i j : Nat) : F := ker (at3 (2 * D) b (D + i - x) (D + j - y))

/-- What the components `l` take away from the residual of scale `s` at `(i, j)`. -/
def taken (spsf : Nat → F) (S D : Nat) (gain : F) (l : List (Comp F)) (s i j : Nat) : F :=
  (l.map fun c => gain * c.amp * shifted spsf D (S * s + c.s) c.x c.y i j).sum

/-- The component image made of the scale kernels of `l`. -/
def placed (kern : Nat → F) (D : Nat) (gain : F) (l : List (Comp F)) (i j : Nat) : F :=
  (l.map fun c => gain * c.amp * shifted kern D c.s c.x c.y i j).sum

/-- `c` is the component chosen from the residuals `r`: its amplitude is the largest biased
peak over all scales (or 0 if nothing is positive). -/
def Chosen (S D : Nat) (cpl r : Nat → F) (c : Comp F) : Prop :=
  c.s < S ∧ c.x < D ∧ c.y < D ∧ 0 ≤ c.amp ∧
    (0 < c.amp → c.amp = r (at3 D c.s c.x c.y) / cpl (S * c.s + c.s)) ∧
    (∀ s < S, 0 < cpl (S * s + s) → ∀ i < D, ∀ j < D,
      r (at3 D s i j) / cpl (S * s + s) ≤ c.amp)

/-! ## Lemmas -/

omit [Field F] in
theorem scan_spec {α : Type} (rd : α → Option F) (f : α → F) (l : List α)
    (h : ∀ x ∈ l, rd x = some (f x)) : ∀ (v0 : F) (b0 : α),
    ∃ v b, loop (fun (st : F × α) (q : α) =>
        (rd q).bind fun v => if v > st.1 then some (v, q) else some st) (v0, b0) l = some (v, b) ∧
      v0 ≤ v ∧ (∀ x ∈ l, f x ≤ v) ∧ ((v = v0 ∧ b = b0) ∨ (b ∈ l ∧ v = f b ∧ v0 < v)) := by
  induction l with
  | nil => intro v0 b0; exact ⟨v0, b0, rfl, le_refl _, by simp, .inl ⟨rfl, rfl⟩⟩
  | cons x l ih =>
    intro v0 b0
    simp only [loop, h x (by simp), Option.bind_some]
    by_cases hx : f x > v0
    · rw [if_pos hx]
      obtain ⟨v, b, e, h1, h2, h3⟩ := ih (fun y hy => h y (by simp [hy])) (f x) x
      refine ⟨v, b, by simpa using e, le_trans hx.le h1, ?_, ?_⟩
      · intro y hy
        rcases List.mem_cons.1 hy with rfl | hy
        · exact h1
        · exact h2 y hy
      · right
        rcases h3 with ⟨rfl, rfl⟩ | ⟨h3, h4, h5⟩
        · exact ⟨by simp, rfl, hx⟩
        · exact ⟨by simp [h3], h4, lt_trans hx h5⟩
    · rw [if_neg hx]
      obtain ⟨v, b, e, h1, h2, h3⟩ := ih (fun y hy => h y (by simp [hy])) v0 b0
      refine ⟨v, b, by simpa using e, h1, ?_, ?_⟩
      · intro y hy
        rcases List.mem_cons.1 hy with rfl | hy
        · exact le_trans (not_lt.1 hx) h1
        · exact h2 y hy
      · rcases h3 with h3 | ⟨h3, h4⟩
        · exact .inl h3
        · exact .inr ⟨by simp [h3], h4⟩

theorem at3_lt {S D s i j : Nat} (hs : s < S) (hi : i < D) (hj : j < D) :
    at3 D s i j < S * (D * D) := by
  rw [← Nat.mul_assoc]; exact flat_lt (flat_lt hs hi) hj

theorem index3_at3 (D s i j : Nat) : index3 D D s i j = ((at3 D s i j : Nat) : Int) := by
  simp [index3, at3]

theorem at3_inj {D s i j s' i' j' : Nat} (hi : i < D) (hj : j < D) (hi' : i' < D) (hj' : j' < D)
    (h : at3 D s i j = at3 D s' i' j') : s = s' ∧ i = i' ∧ j = j' := by
  obtain ⟨h1, h2⟩ := flat_inj hj hj' h
  obtain ⟨h3, h4⟩ := flat_inj hi hi' h1
  exact ⟨h3, h4, h2⟩

theorem peak1_spec (d : Dims) (res : Arr F) (s : Nat) (hs : s < d.S) (hD : 0 < d.D)
    (hr : res.size = d.S * (d.D * d.D)) :
    ∃ v x y, peak1 d res s = some (v, (x, y)) ∧ x < d.D ∧ y < d.D ∧ 0 ≤ v ∧
      (∀ i < d.D, ∀ j < d.D, res.get (at3 d.D s i j) ≤ v) ∧
      (0 < v → v = res.get (at3 d.D s x y)) := by
  unfold peak1
  obtain ⟨v, ⟨x, y⟩, e, h1, h2, h3⟩ := scan_spec
    (fun q : Nat × Nat => res.read (index3 d.D d.D s q.1 q.2))
    (fun q => res.get (at3 d.D s q.1 q.2)) (nest2 d.D d.D) (by
      intro q hq
      rw [mem_nest2] at hq
      rw [index3_at3, Arr.read_nat, if_pos]
      rw [hr]; exact at3_lt hs hq.1 hq.2) 0 (0, 0)
  refine ⟨v, x, y, e, ?_, ?_, h1, ?_, ?_⟩
  · rcases h3 with ⟨_, h3⟩ | ⟨h3, _⟩
    · simp only [Prod.mk.injEq] at h3; omega
    · exact (mem_nest2.1 h3).1
  · rcases h3 with ⟨_, h3⟩ | ⟨h3, _⟩
    · simp only [Prod.mk.injEq] at h3; omega
    · exact (mem_nest2.1 h3).2
  · intro i hi j hj
    exact h2 (i, j) (mem_nest2.2 ⟨hi, hj⟩)
  · intro hv
    rcases h3 with ⟨h3, _⟩ | ⟨_, h3, _⟩
    · rw [h3] at hv; exact absurd hv (lt_irrefl _)
    · exact h3

variable [IsStrictOrderedRing F]

theorem peakAll_spec (d : Dims) (cpl res : Arr F) (hS : 0 < d.S) (hD : 0 < d.D)
    (hr : res.size = d.S * (d.D * d.D)) (hc : cpl.size = d.S * d.S) :
    ∃ c : Comp F, peakAll d cpl res = some (c.amp, (c.s, (c.x, c.y))) ∧
      Chosen d.S d.D cpl.get res.get c := by
  choose! v x y hv using fun s (hs : s < d.S) => peak1_spec d res s hs hD hr
  unfold peakAll
  rw [(hv 0 hS).1]
  simp only [Option.bind_some]
  obtain ⟨st, e, c, rfl, h1, h2, h3, h4, h5, h6⟩ := loop_inv
    (fun (st : F × (Nat × (Nat × Nat))) (i : Nat) =>
      (peak1 d res i).bind fun p =>
      (cpl.read (index2 d.S i i)).bind fun c =>
        if p.1 / c > st.1 then some (p.1 / c, (i, p.2)) else some st)
    (fun done st => ∃ c : Comp F, st = (c.amp, (c.s, (c.x, c.y))) ∧
      c.s < d.S ∧ c.x < d.D ∧ c.y < d.D ∧ 0 ≤ c.amp ∧
      (0 < c.amp → c.amp = res.get (at3 d.D c.s c.x c.y) / cpl.get (d.S * c.s + c.s)) ∧
      (∀ s ∈ done, 0 < cpl.get (d.S * s + s) → ∀ i < d.D, ∀ j < d.D,
        res.get (at3 d.D s i j) / cpl.get (d.S * s + s) ≤ c.amp))
    (List.range d.S) (0, (0, (x 0, y 0)))
    ⟨⟨0, x 0, y 0, 0⟩, rfl, hS, (hv 0 hS).2.1, (hv 0 hS).2.2.1, le_refl _,
      fun h => absurd h (lt_irrefl _), by simp⟩ (by
      rintro done s rest st he ⟨c, rfl, h1, h2, h3, h4, h5, h6⟩
      have hs : s < d.S := by
        have : s ∈ List.range d.S := by rw [he]; simp
        simpa using this
      obtain ⟨g1, g2, g3, g4, g5, g6⟩ := hv s hs
      have e2 : index2 d.S s s = ((d.S * s + s : Nat) : Int) := by simp [index2]
      rw [g1]
      simp only [Option.bind_some]
      rw [e2, Arr.read_nat, if_pos (by rw [hc]; exact flat_lt hs hs)]
      simp only [Option.bind_some]
      set q := cpl.get (d.S * s + s) with hq
      have step : 0 < q → ∀ i < d.D, ∀ j < d.D, res.get (at3 d.D s i j) / q ≤ v s / q :=
        fun hq i hi j hj => div_le_div_of_nonneg_right (g5 i hi j hj) hq.le
      by_cases hgt : v s / q > c.amp
      · rw [if_pos hgt]
        have hpos : 0 < v s / q := lt_of_le_of_lt h4 hgt
        have hv0 : 0 < v s := lt_of_le_of_ne g4 (fun h => by rw [← h] at hpos; simp at hpos)
        refine ⟨_, rfl, ⟨s, x s, y s, v s / q⟩, rfl, hs, g2, g3, hpos.le, ?_, ?_⟩
        · intro _
          simp only
          rw [g6 hv0]
        · intro t ht hct i hi j hj
          rcases List.mem_append.1 ht with ht | ht
          · exact le_trans (h6 t ht hct i hi j hj) hgt.le
          · rw [List.mem_singleton] at ht
            subst ht
            exact step hct i hi j hj
      · rw [if_neg hgt]
        refine ⟨_, rfl, c, rfl, h1, h2, h3, h4, h5, ?_⟩
        intro t ht hct i hi j hj
        rcases List.mem_append.1 ht with ht | ht
        · exact h6 t ht hct i hi j hj
        · rw [List.mem_singleton] at ht
          subst ht
          exact le_trans (step hct i hi j hj) (not_lt.1 hgt))
  exact ⟨c, e, h1, h2, h3, h4, h5, fun s hs => h6 s (by simpa using hs)⟩

omit [LinearOrder F] [IsStrictOrderedRing F] in
theorem addKern_spec (d : Dims) (kern : Arr F) (a : F) (s x y : Nat) (comps : Arr F)
    (hP : d.P = 2 * d.D) (hk : kern.size = d.S * (d.P * d.P)) (hs : s < d.S) (hx : x < d.D)
    (hy : y < d.D) (hc : comps.size = d.D * d.D) :
    ∃ r, addKern d kern a s x y comps = some r ∧ r.size = comps.size ∧
      ∀ i < d.D, ∀ j < d.D, r.get (d.D * i + j) =
        comps.get (d.D * i + j) + a * shifted kern.get d.D s x y i j := by
  have hix : ∀ q : Nat × Nat, index2 d.D q.1 q.2 = ((d.D * q.1 + q.2 : Nat) : Int) := by
    intro q; simp [index2]
  obtain ⟨r, hl, hsz, hv, _⟩ := Arr.modify_spec (nest2 d.D d.D)
    (fun q => index2 d.D q.1 q.2) (fun q v => v + a * shifted kern.get d.D s x y q.1 q.2)
    (by
      have : (nest2 d.D d.D).map (fun p => index2 d.D p.1 p.2) =
          (List.range (d.D * d.D)).map (fun n : Nat => (n : Int)) := by
        rw [← nest2_flat d.D d.D, List.map_map]
        apply List.map_congr_left
        intro p _; exact hix p
      rw [this]
      exact List.Nodup.map (fun a b h => by simpa using h) List.nodup_range)
    comps (by
      intro p hp
      rw [mem_nest2] at hp
      have := flat_lt hp.1 hp.2
      rw [hix]; omega)
  refine ⟨r, ?_, hsz, ?_⟩
  · rw [← hl]
    unfold addKern
    apply loop_congr
    intro q hq st
    rw [mem_nest2] at hq
    have e : index3 d.P d.P s ((d.D : Int) - x + q.1) ((d.D : Int) - y + q.2) =
        ((at3 (2 * d.D) s (d.D + q.1 - x) (d.D + q.2 - y) : Nat) : Int) := by
      have h1 : (d.D : Int) - x + q.1 = ((d.D + q.1 - x : Nat) : Int) := by omega
      have h2 : (d.D : Int) - y + q.2 = ((d.D + q.2 - y : Nat) : Int) := by omega
      rw [h1, h2, hP, index3_at3]
    rw [e, Arr.read_nat, if_pos (by
      rw [hk, hP]; exact at3_lt hs (by omega) (by omega))]
    rfl
  · intro i hi j hj
    have := hv (i, j) (mem_nest2.2 ⟨hi, hj⟩)
    simp only [hix, Int.toNat_natCast] at this
    exact this

omit [LinearOrder F] [IsStrictOrderedRing F] in
theorem subPsf_spec (d : Dims) (spsf : Arr F) (a : F) (p x y : Nat) (res : Arr F)
    (hP : d.P = 2 * d.D) (hk : spsf.size = d.S * d.S * (d.P * d.P)) (hp : p < d.S) (hx : x < d.D)
    (hy : y < d.D) (hr : res.size = d.S * (d.D * d.D)) :
    ∃ r, subPsf d spsf a p x y res = some r ∧ r.size = res.size ∧
      ∀ s < d.S, ∀ i < d.D, ∀ j < d.D, r.get (at3 d.D s i j) =
        res.get (at3 d.D s i j) - a * shifted spsf.get d.D (d.S * s + p) x y i j := by
  obtain ⟨r, hl, hsz, hv, _⟩ := Arr.modify_spec (nest3 d.S d.D d.D)
    (fun q => index3 d.D d.D q.1 q.2.1 q.2.2)
    (fun q v => v + -(a * shifted spsf.get d.D (d.S * q.1 + p) x y q.2.1 q.2.2))
    (by
      have : (nest3 d.S d.D d.D).map (fun q => index3 d.D d.D q.1 q.2.1 q.2.2) =
          (List.range (d.S * d.D * d.D)).map (fun n : Nat => (n : Int)) := by
        rw [← nest3_flat, List.map_map]
        apply List.map_congr_left
        intro q _; simp [index3]
      rw [this]
      exact List.Nodup.map (fun a b h => by simpa using h) List.nodup_range)
    res (by
      intro q hq
      rw [mem_nest3] at hq
      have := at3_lt hq.1 hq.2.1 hq.2.2
      rw [index3_at3]; omega)
  refine ⟨r, ?_, hsz, ?_⟩
  · rw [← hl]
    unfold subPsf
    apply loop_congr
    intro q hq st
    rw [mem_nest3] at hq
    have e : index4 d.S d.P d.P q.1 p ((d.D : Int) - x + q.2.1) ((d.D : Int) - y + q.2.2) =
        ((at3 (2 * d.D) (d.S * q.1 + p) (d.D + q.2.1 - x) (d.D + q.2.2 - y) : Nat) : Int) := by
      have h1 : (d.D : Int) - x + q.2.1 = ((d.D + q.2.1 - x : Nat) : Int) := by omega
      have h2 : (d.D : Int) - y + q.2.2 = ((d.D + q.2.2 - y : Nat) : Int) := by omega
      rw [h1, h2, hP]; simp [index4, at3]
    rw [e, Arr.read_nat, if_pos (by
      rw [hk, hP]; exact at3_lt (flat_lt hq.1 hp) (by omega) (by omega))]
    rfl
  · intro s hs i hi j hj
    have := hv (s, i, j) (mem_nest3.2 ⟨hs, hi, hj⟩)
    simp only [index3_at3, Int.toNat_natCast] at this
    rw [this, sub_eq_add_neg]

/-- The chain of minor cycles with their components. -/
inductive Chain (S D : Nat) (kern spsf cpl : Nat → F) (gain thr : F) :
    (Nat → F) → (Nat → F) → List (Comp F) → (Nat → F) → (Nat → F) → Prop
  | nil (r c) : Chain S D kern spsf cpl gain thr r c [] r c
  | cons {r c k r' c' l r'' c''} : Chosen S D cpl r k → thr ≤ r (at3 D k.s k.x k.y) →
      (∀ s < S, ∀ i < D, ∀ j < D, r' (at3 D s i j) =
        r (at3 D s i j) - gain * k.amp * shifted spsf D (S * s + k.s) k.x k.y i j) →
      (∀ i < D, ∀ j < D, c' (D * i + j) =
        c (D * i + j) + gain * k.amp * shifted kern D k.s k.x k.y i j) →
      Chain S D kern spsf cpl gain thr r' c' l r'' c'' →
      Chain S D kern spsf cpl gain thr r c (k :: l) r'' c''

theorem run_spec (d : Dims) (kern spsf cpl : Arr F) (gain thr : F) (hS : 0 < d.S) (hD : 0 < d.D)
    (hP : d.P = 2 * d.D) (hk : kern.size = d.S * (d.P * d.P))
    (hsp : spsf.size = d.S * d.S * (d.P * d.P)) (hcp : cpl.size = d.S * d.S) (n : Nat) :
    ∀ st : St F, st.res.size = d.S * (d.D * d.D) → st.comps.size = d.D * d.D →
    ∃ st' l, run d kern spsf cpl gain thr n st = some st' ∧ l.length ≤ n ∧
      st'.res.size = d.S * (d.D * d.D) ∧ st'.comps.size = d.D * d.D ∧
      Chain d.S d.D kern.get spsf.get cpl.get gain thr st.res.get st.comps.get l
        st'.res.get st'.comps.get ∧
      (l.length < n → ∃ c, Chosen d.S d.D cpl.get st'.res.get c ∧
        st'.res.get (at3 d.D c.s c.x c.y) < thr) := by
  induction n with
  | zero => intro st h1 h2; exact ⟨st, [], rfl, by simp, h1, h2, .nil _ _, by simp⟩
  | succ n ih =>
    intro st h1 h2
    obtain ⟨c, e, hc⟩ := peakAll_spec d cpl st.res hS hD h1 hcp
    have hlt := at3_lt hc.1 hc.2.1 hc.2.2.1
    have hread : st.res.read (index3 d.D d.D c.s c.x c.y) =
        some (st.res.get (at3 d.D c.s c.x c.y)) := by
      rw [index3_at3, Arr.read_nat, if_pos (by omega)]
    by_cases ht : st.res.get (at3 d.D c.s c.x c.y) < thr
    · refine ⟨st, [], ?_, by simp, h1, h2, .nil _ _, fun _ => ⟨c, hc, ht⟩⟩
      simp only [run, cycle, e, hread, Option.bind_some, if_pos ht]
    · obtain ⟨cm, e1, z1, v1⟩ := addKern_spec d kern (gain * c.amp) c.s c.x c.y st.comps hP hk
        hc.1 hc.2.1 hc.2.2.1 h2
      obtain ⟨rs, e2, z2, v2⟩ := subPsf_spec d spsf (gain * c.amp) c.s c.x c.y st.res hP hsp
        hc.1 hc.2.1 hc.2.2.1 h1
      obtain ⟨st', l, g1, g2, g3, g4, g5, g6⟩ := ih ⟨rs, cm⟩ (by rw [z2, h1]) (by rw [z1, h2])
      refine ⟨st', c :: l, ?_, by simpa using g2, g3, g4,
        .cons hc (not_lt.1 ht) v2 v1 g5, fun h => g6 (by simpa using h)⟩
      simp only [run, cycle, e, hread, Option.bind_some, if_neg ht, e1, e2, Option.map_some]
      exact g1

omit [IsStrictOrderedRing F] in
theorem chain_sum {S D : Nat} {kern spsf cpl : Nat → F} {gain thr : F} {r c r' c' : Nat → F}
    {l : List (Comp F)} (h : Chain S D kern spsf cpl gain thr r c l r' c') :
    (∀ s < S, ∀ i < D, ∀ j < D,
      r' (at3 D s i j) = r (at3 D s i j) - taken spsf S D gain l s i j) ∧
    (∀ i < D, ∀ j < D, c' (D * i + j) = c (D * i + j) + placed kern D gain l i j) := by
  induction h with
  | nil => simp [taken, placed]
  | cons _ _ hr hc _ ih =>
    refine ⟨fun s hs i hi j hj => ?_, fun i hi j hj => ?_⟩
    · rw [ih.1 s hs i hi j hj, hr s hs i hi j hj]; simp only [taken, List.map_cons, List.sum_cons]; ring
    · rw [ih.2 i hi j hj, hc i hi j hj]; simp only [placed, List.map_cons, List.sum_cons]; ring

/-! ## Setup -/

/-- The image `b` of a list of images with `n` pixels each. -/
def block (a : Arr F) (n b : Nat) : Arr F := ⟨n, fun i => a.get (n * b + i)⟩

/-- The convolution parameter works on the sizes used, and keeps the size of its first
argument. -/
def ConvOk (d : Dims) (conv : Arr F → Arr F → Option (Arr F)) (cv : Arr F → Arr F → Arr F) : Prop :=
  ∀ a b, (a.size = d.D * d.D ∨ a.size = d.P * d.P) → b.size = d.P * d.P →
    conv a b = some (cv a b) ∧ (cv a b).size = a.size

theorem block_le {B n b : Nat} (h : b < B) : n * b + n ≤ B * n := by
  calc n * b + n = (b + 1) * n := by ring
    _ ≤ B * n := Nat.mul_le_mul_right _ h

omit [LinearOrder F] [IsStrictOrderedRing F] in
theorem getBlock_spec (a : Arr F) {B b n : Nat} (hs : a.size = B * n) (hb : b < B) :
    getBlock a b n = some (block a n b) := by
  unfold getBlock
  rw [if_pos (by rw [hs]; exact block_le hb)]; rfl

omit [LinearOrder F] [IsStrictOrderedRing F] in
theorem setBlock_spec (a x : Arr F) {B b n : Nat} (hs : a.size = B * n) (hb : b < B)
    (hx : n ≤ x.size) :
    ∃ r, setBlock a b n x = some r ∧ r.size = a.size ∧ (∀ i < n, r.get (n * b + i) = x.get i) ∧
      ∀ b', b' ≠ b → ∀ i < n, r.get (n * b' + i) = a.get (n * b' + i) := by
  unfold setBlock
  rw [if_pos ⟨by rw [hs]; exact block_le hb, hx⟩]
  refine ⟨_, rfl, rfl, fun i hi => ?_, fun b' hb' i hi => ?_⟩
  · simp only
    rw [if_pos (by omega)]; congr 1; omega
  · simp only
    rw [if_neg]
    rintro ⟨h1, h2⟩
    apply hb'
    obtain ⟨k, hk⟩ : ∃ k, n * b' + i = n * b + k ∧ k < n := ⟨n * b' + i - n * b, by omega, by omega⟩
    exact (flat_inj hi hk.2 hk.1).1

omit [LinearOrder F] [IsStrictOrderedRing F] in
theorem scalePsf_spec (d : Dims) {conv : Arr F → Arr F → Option (Arr F)}
    {cv : Arr F → Arr F → Arr F} (hcv : ConvOk d conv cv) (psf kern k1 spsf : Arr F) (s : Nat)
    (hs : s < d.S) (hpsf : psf.size = d.P * d.P) (hk : kern.size = d.S * (d.P * d.P))
    (hk1 : k1.size = d.P * d.P) (hsp : spsf.size = d.S * d.S * (d.P * d.P)) :
    ∃ r, scalePsf conv d psf kern k1 s spsf = some r ∧ r.size = spsf.size ∧
      (∀ p < d.S, ∀ i < d.P * d.P, r.get (d.P * d.P * (d.S * s + p) + i) =
        (cv (cv psf k1) (block kern (d.P * d.P) p)).get i) ∧
      (∀ s' < d.S, s' ≠ s → ∀ p < d.S, ∀ i < d.P * d.P,
        r.get (d.P * d.P * (d.S * s' + p) + i) = spsf.get (d.P * d.P * (d.S * s' + p) + i)) := by
  obtain ⟨r, e, h1, h2, h3⟩ := loop_inv
    (fun spsf (p : Nat) =>
      (getBlock kern p (d.P * d.P)).bind fun k2 =>
      (conv psf k1).bind fun pre =>
      (conv pre k2).bind fun sp =>
        setBlock spsf (d.S * s + p) (d.P * d.P) sp)
    (fun done r => r.size = spsf.size ∧
      (∀ p ∈ done, ∀ i < d.P * d.P, r.get (d.P * d.P * (d.S * s + p) + i) =
        (cv (cv psf k1) (block kern (d.P * d.P) p)).get i) ∧
      (∀ s' < d.S, s' ≠ s → ∀ p < d.S, ∀ i < d.P * d.P,
        r.get (d.P * d.P * (d.S * s' + p) + i) = spsf.get (d.P * d.P * (d.S * s' + p) + i)))
    (List.range d.S) spsf ⟨rfl, by simp, by simp⟩ (by
      rintro done p rest r he ⟨h1, h2, h3⟩
      have hp : p < d.S := by
        have : p ∈ List.range d.S := by rw [he]; simp
        simpa using this
      have hdone : ∀ q ∈ done, q < d.S := by
        intro q hq
        have : q ∈ List.range d.S := by rw [he]; simp [hq]
        simpa using this
      obtain ⟨c1, z1⟩ := hcv psf k1 (.inr hpsf) hk1
      obtain ⟨c2, z2⟩ := hcv (cv psf k1) (block kern (d.P * d.P) p) (.inr (by omega)) rfl
      rw [getBlock_spec kern hk hp]
      simp only [Option.bind_some, c1, c2]
      obtain ⟨r', g1, g2, g3, g4⟩ := setBlock_spec r (B := d.S * d.S) (b := d.S * s + p)
        (n := d.P * d.P) (x := cv (cv psf k1) (block kern (d.P * d.P) p)) (by rw [h1, hsp])
        (flat_lt hs hp) (by omega)
      refine ⟨r', g1, by rw [g2, h1], ?_, ?_⟩
      · intro q hq i hi
        by_cases hqp : q = p
        · subst hqp; exact g3 i hi
        · rcases List.mem_append.1 hq with hq | hq
          · rw [g4 _ (fun hh => hqp (flat_inj (hdone q hq) hp hh).2) i hi]
            exact h2 q hq i hi
          · rw [List.mem_singleton] at hq; exact absurd hq hqp
      · intro s' hs' hne q hq i hi
        rw [g4 _ (fun hh => hne (flat_inj hq hp hh).1) i hi]
        exact h3 s' hs' hne q hq i hi)
  exact ⟨r, e, h1, fun p hp => h2 p (by simpa using hp), h3⟩

omit [LinearOrder F] [IsStrictOrderedRing F] in
theorem setup_spec (d : Dims) {conv : Arr F → Arr F → Option (Arr F)}
    {cv : Arr F → Arr F → Arr F} (hcv : ConvOk d conv cv) (psf dirty kern : Arr F)
    (hpsf : psf.size = d.P * d.P) (hd : dirty.size = d.D * d.D)
    (hk : kern.size = d.S * (d.P * d.P)) :
    ∃ spsf res, setup conv d psf dirty kern = some (spsf, res) ∧
      spsf.size = d.S * d.S * (d.P * d.P) ∧ res.size = d.S * (d.D * d.D) ∧
      (∀ s < d.S, ∀ p < d.S, ∀ i < d.P * d.P, spsf.get (d.P * d.P * (d.S * s + p) + i) =
        (cv (cv psf (block kern (d.P * d.P) s)) (block kern (d.P * d.P) p)).get i) ∧
      (∀ s < d.S, ∀ i < d.D * d.D, res.get (d.D * d.D * s + i) =
        (cv dirty (block kern (d.P * d.P) s)).get i) := by
  obtain ⟨⟨spsf, res⟩, e, h1, h2, h3, h4⟩ := loop_inv
    (fun (st : Arr F × Arr F) (s : Nat) =>
      (getBlock kern s (d.P * d.P)).bind fun k1 =>
      (scalePsf conv d psf kern k1 s st.1).bind fun spsf =>
      (conv dirty k1).bind fun r =>
      (setBlock st.2 s (d.D * d.D) r).map fun res => (spsf, res))
    (fun done st => st.1.size = d.S * d.S * (d.P * d.P) ∧ st.2.size = d.S * (d.D * d.D) ∧
      (∀ s ∈ done, ∀ p < d.S, ∀ i < d.P * d.P, st.1.get (d.P * d.P * (d.S * s + p) + i) =
        (cv (cv psf (block kern (d.P * d.P) s)) (block kern (d.P * d.P) p)).get i) ∧
      (∀ s ∈ done, ∀ i < d.D * d.D, st.2.get (d.D * d.D * s + i) =
        (cv dirty (block kern (d.P * d.P) s)).get i))
    (List.range d.S) (⟨d.S * d.S * (d.P * d.P), fun _ => 0⟩, ⟨d.S * (d.D * d.D), fun _ => 0⟩)
    ⟨rfl, rfl, by simp, by simp⟩ (by
      rintro done s rest ⟨sp, rs⟩ he ⟨h1, h2, h3, h4⟩
      have hs : s < d.S := by
        have : s ∈ List.range d.S := by rw [he]; simp
        simpa using this
      have hdone : ∀ q ∈ done, q < d.S := by
        intro q hq
        have : q ∈ List.range d.S := by rw [he]; simp [hq]
        simpa using this
      have hk1 : (block kern (d.P * d.P) s).size = d.P * d.P := rfl
      obtain ⟨sp', f1, f2, f3, f4⟩ := scalePsf_spec d hcv psf kern _ sp s hs hpsf hk hk1 h1
      obtain ⟨c1, z1⟩ := hcv dirty _ (.inl hd) hk1
      obtain ⟨rs', g1, g2, g3, g4⟩ := setBlock_spec rs (cv dirty (block kern (d.P * d.P) s)) h2 hs
        (by omega)
      rw [getBlock_spec kern hk hs]
      simp only [Option.bind_some, f1, c1, g1, Option.map_some]
      refine ⟨_, rfl, by simp only; rw [f2]; exact h1, by simp only; rw [g2]; exact h2, ?_, ?_⟩
      · intro q hq p hp i hi
        simp only
        by_cases hqs : q = s
        · subst hqs; exact f3 p hp i hi
        · rcases List.mem_append.1 hq with hq | hq
          · rw [f4 q (hdone q hq) hqs p hp i hi]; exact h3 q hq p hp i hi
          · rw [List.mem_singleton] at hq; exact absurd hq hqs
      · intro q hq i hi
        simp only
        by_cases hqs : q = s
        · subst hqs; exact g3 i hi
        · rcases List.mem_append.1 hq with hq | hq
          · rw [g4 q hqs i hi]; exact h4 q hq i hi
          · rw [List.mem_singleton] at hq; exact absurd hq hqs)
  exact ⟨spsf, res, e, h1, h2, fun s hs => h3 s (by simpa using hs),
    fun s hs => h4 s (by simpa using hs)⟩

omit [Field F] in
theorem maxscan_spec {α : Type} (rd : α → Option F) (f : α → F) (l : List α)
    (h : ∀ x ∈ l, rd x = some (f x)) : ∀ (v0 : F),
    ∃ v, loop (fun (m : F) (q : α) =>
        (rd q).bind fun v => if v > m then some v else some m) v0 l = some v ∧
      v0 ≤ v ∧ (∀ x ∈ l, f x ≤ v) ∧ (v = v0 ∨ ∃ x ∈ l, v = f x) := by
  induction l with
  | nil => intro v0; exact ⟨v0, rfl, le_refl _, by simp, .inl rfl⟩
  | cons x l ih =>
    intro v0
    simp only [loop, h x (by simp), Option.bind_some]
    by_cases hx : f x > v0
    · rw [if_pos hx]
      obtain ⟨v, e, h1, h2, h3⟩ := ih (fun y hy => h y (by simp [hy])) (f x)
      refine ⟨v, by simpa using e, le_trans hx.le h1, ?_, ?_⟩
      · intro y hy
        rcases List.mem_cons.1 hy with rfl | hy
        · exact h1
        · exact h2 y hy
      · right
        rcases h3 with rfl | ⟨y, h3, h4⟩
        · exact ⟨x, by simp, rfl⟩
        · exact ⟨y, by simp [h3], h4⟩
    · rw [if_neg hx]
      obtain ⟨v, e, h1, h2, h3⟩ := ih (fun y hy => h y (by simp [hy])) v0
      refine ⟨v, by simpa using e, h1, ?_, ?_⟩
      · intro y hy
        rcases List.mem_cons.1 hy with rfl | hy
        · exact le_trans (not_lt.1 hx) h1
        · exact h2 y hy
      · rcases h3 with h3 | ⟨y, h3, h4⟩
        · exact .inl h3
        · exact .inr ⟨y, by simp [h3], h4⟩

/-- `v` is the largest of 0 and the values of `f` below `n`. -/
def MaxPos (f : Nat → F) (n : Nat) (v : F) : Prop :=
  0 ≤ v ∧ (∀ i < n, f i ≤ v) ∧ (v = 0 ∨ ∃ i < n, v = f i)

omit [IsStrictOrderedRing F] in
theorem coupling1_spec (d : Dims) (spsf : Arr F) (hsp : spsf.size = d.S * d.S * (d.P * d.P))
    (s p : Nat) (hs : s < d.S) (hp : p < d.S) :
    ∃ v, coupling1 d spsf s p = some v ∧
      MaxPos (fun i => spsf.get (d.P * d.P * (d.S * s + p) + i)) (d.P * d.P) v := by
  unfold coupling1
  have hflat : ∀ q : Nat × Nat, at3 d.P (d.S * s + p) q.1 q.2 =
      d.P * d.P * (d.S * s + p) + (d.P * q.1 + q.2) := by
    intro q; unfold at3; ring
  obtain ⟨v, e, h1, h2, h3⟩ := maxscan_spec
    (fun q : Nat × Nat => spsf.read (index4 d.S d.P d.P s p q.1 q.2))
    (fun q => spsf.get (d.P * d.P * (d.S * s + p) + (d.P * q.1 + q.2))) (nest2 d.P d.P) (by
      intro q hq
      rw [mem_nest2] at hq
      have e : index4 d.S d.P d.P s p q.1 q.2 = ((at3 d.P (d.S * s + p) q.1 q.2 : Nat) : Int) := by
        simp [index4, at3]
      rw [e, Arr.read_nat, if_pos, hflat]
      rw [hsp]; exact at3_lt (flat_lt hs hp) hq.1 hq.2) 0
  refine ⟨v, e, h1, ?_, ?_⟩
  · intro i hi
    have hP : 0 < d.P := by rcases Nat.eq_zero_or_pos d.P with h | h
                            · rw [h] at hi; omega
                            · exact h
    have := h2 (i / d.P, i % d.P) (mem_nest2.2 ⟨Nat.div_lt_of_lt_mul hi, Nat.mod_lt _ hP⟩)
    simp only [Nat.div_add_mod] at this
    exact this
  · rcases h3 with h3 | ⟨q, hq, h3⟩
    · exact .inl h3
    · rw [mem_nest2] at hq
      exact .inr ⟨_, flat_lt hq.1 hq.2, h3⟩

omit [IsStrictOrderedRing F] in
theorem coupling_spec (d : Dims) (spsf : Arr F) (hsp : spsf.size = d.S * d.S * (d.P * d.P)) :
    ∃ c, coupling d spsf = some c ∧ c.size = d.S * d.S ∧ ∀ s < d.S, ∀ p < d.S,
      MaxPos (fun i => spsf.get (d.P * d.P * (d.S * s + p) + i)) (d.P * d.P)
        (c.get (d.S * s + p)) := by
  choose! v hv using fun (q : Nat × Nat) (hq : q.1 < d.S ∧ q.2 < d.S) =>
    coupling1_spec d spsf hsp q.1 q.2 hq.1 hq.2
  have hix : ∀ q : Nat × Nat, index2 d.S q.1 q.2 = ((d.S * q.1 + q.2 : Nat) : Int) := by
    intro q; simp [index2]
  obtain ⟨r, hl, hsz, hst, _⟩ := Arr.store_spec (nest2 d.S d.S)
    (fun q => index2 d.S q.1 q.2) v
    (by
      have : (nest2 d.S d.S).map (fun p => index2 d.S p.1 p.2) =
          (List.range (d.S * d.S)).map (fun n : Nat => (n : Int)) := by
        rw [← nest2_flat d.S d.S, List.map_map]
        apply List.map_congr_left
        intro p _; exact hix p
      rw [this]
      exact List.Nodup.map (fun a b h => by simpa using h) List.nodup_range)
    ⟨d.S * d.S, fun _ => 0⟩ (by
      intro p hp
      rw [mem_nest2] at hp
      have := flat_lt hp.1 hp.2
      rw [hix]; simp only; omega)
  refine ⟨r, ?_, hsz, ?_⟩
  · rw [← hl]
    unfold coupling
    apply loop_congr
    intro q hq st
    rw [(hv q (mem_nest2.1 hq)).1]; rfl
  · intro s hs p hp
    have := hst (s, p) (mem_nest2.2 ⟨hs, hp⟩)
    have e := hix (s, p)
    simp only at e this
    rw [e, Int.toNat_natCast] at this
    rw [this]
    exact (hv (s, p) ⟨hs, hp⟩).2

/-! ## Theorem -/

/-- Argument sizes: at least one scale, a non-empty image of side `D`, PSF, kernels and clean
beam of side `2D`, outputs of the size of the image. -/
structure Good (d : Dims) (psf dirty kern cbeam : Arr F) (o : Hogbom.Out F) : Prop where
  scales : 0 < d.S
  pos : 0 < d.D
  psfdim : d.P = 2 * d.D
  psf : psf.size = d.P * d.P
  dirty : dirty.size = d.D * d.D
  kern : kern.size = d.S * (d.P * d.P)
  cbeam : cbeam.size = d.P * d.P
  model : o.model.size = d.D * d.D
  res : o.res.size = d.D * d.D
  sky : o.sky.size = d.D * d.D

/-- C24 (partial).  For every image, PSF, scale kernels, gain, threshold and limit, the call
stays inside its arrays and there are at most `limit` components such that, with
`spsf (s, p)` the PSF convolved with kernels `s` and `p` and `cpl` the coupling matrix:
each component is the best biased peak at its time and not below the threshold (`Chain`);
every scale residual is the dirty image convolved with the scale's kernel minus the scaled
PSFs of the components; the model is the sum of their kernels; the returned residual is the
one of scale 0; the sky model is the restored model plus that residual; and when fewer than
`limit` components were placed, the best biased peak has a residual below the threshold.
Missing: the entry point does not check that the PSF side is twice the image side, that there
is a scale, or the shape of the outputs beyond the first dimension (`C24_psf_side_false`,
`C24_no_scale_false`). -/
theorem C24_ms_clean_partial (d : Dims) {conv : Arr F → Arr F → Option (Arr F)}
    {cv : Arr F → Arr F → Arr F} (hcv : ConvOk d conv cv) (psf dirty kern cbeam : Arr F)
    (gain thr : F) (limit : Nat) (o : Hogbom.Out F) (h : Good d psf dirty kern cbeam o) :
    ∃ (o' : Hogbom.Out F) (spsf cpl r c : Arr F) (l : List (Comp F)) (r0 : Nat → F),
      clean conv d psf dirty kern cbeam gain thr limit o = some o' ∧ l.length ≤ limit ∧
      -- scaled PSFs, initial residuals, coupling matrix
      (∀ s < d.S, ∀ p < d.S, ∀ i < d.P * d.P, spsf.get (d.P * d.P * (d.S * s + p) + i) =
        (cv (cv psf (block kern (d.P * d.P) s)) (block kern (d.P * d.P) p)).get i) ∧
      (∀ s < d.S, ∀ i < d.D * d.D, r0 (d.D * d.D * s + i) =
        (cv dirty (block kern (d.P * d.P) s)).get i) ∧
      (∀ s < d.S, ∀ p < d.S,
        MaxPos (fun i => spsf.get (d.P * d.P * (d.S * s + p) + i)) (d.P * d.P)
          (cpl.get (d.S * s + p))) ∧
      -- the run
      Chain d.S d.D kern.get spsf.get cpl.get gain thr r0 (fun _ => 0) l r.get c.get ∧
      (∀ s < d.S, ∀ i < d.D, ∀ j < d.D,
        r.get (at3 d.D s i j) = r0 (at3 d.D s i j) - taken spsf.get d.S d.D gain l s i j) ∧
      (l.length < limit → ∃ k, Chosen d.S d.D cpl.get r.get k ∧
        r.get (at3 d.D k.s k.x k.y) < thr) ∧
      -- outputs
      c.size = d.D * d.D ∧ (∀ p < d.D * d.D, o'.model.get p = c.get p) ∧
      (∀ i < d.D, ∀ j < d.D, o'.model.get (d.D * i + j) = placed kern.get d.D gain l i j) ∧
      (∀ p < d.D * d.D, o'.res.get p = r.get p) ∧
      (∀ p < d.D * d.D, o'.sky.get p = (cv c cbeam).get p + o'.res.get p) := by
  obtain ⟨spsf, res, e1, z1, z2, h1, h2⟩ := setup_spec d hcv psf dirty kern h.psf h.dirty h.kern
  obtain ⟨cpl, e2, z3, h3⟩ := coupling_spec d spsf z1
  obtain ⟨st, l, e3, hl, z4, z5, hch, hstop⟩ := run_spec d kern spsf cpl gain thr h.scales h.pos
    h.psfdim h.kern z1 z3 limit ⟨res, ⟨d.D * d.D, fun _ => 0⟩⟩ z2 rfl
  obtain ⟨e4, z6⟩ := hcv st.comps cbeam (.inl z5) h.cbeam
  have hle : d.D * d.D ≤ st.res.size := by
    rw [z4]; exact Nat.le_mul_of_pos_left _ h.scales
  obtain ⟨sky1, e5, z7, v7⟩ := Hogbom.copyN_spec (cv st.comps cbeam) o.sky (d.D * d.D)
    (by omega) (by rw [h.sky])
  obtain ⟨m, e6, z8, v8⟩ := Hogbom.copyN_spec st.comps o.model (d.D * d.D)
    (by omega) (by rw [h.model])
  obtain ⟨sky2, e7, z9, v9⟩ := Hogbom.addResidual_spec st.res sky1 (d.D * d.D) hle
    (by rw [z7, h.sky])
  obtain ⟨rs, e8, z10, v10⟩ := Hogbom.copyN_spec st.res o.res (d.D * d.D) hle (by rw [h.res])
  have hsum := chain_sum hch
  refine ⟨⟨m, rs, sky2⟩, spsf, cpl, st.res, st.comps, l, res.get, ?_, hl, h1, h2, h3, hch, ?_,
    hstop, z5, v8, ?_, v10, ?_⟩
  · simp only [clean, e1, e2, e3, e4, e5, e6, e7, e8, Option.bind_some, Option.map_some]
  · exact hsum.1
  · intro i hi j hj
    have := hsum.2 i hi j hj
    simp only at this ⊢
    rw [v8 _ (flat_lt hi hj), this, zero_add]
  · intro p hp
    simp only
    rw [v9 p hp, v7 p hp, v10 p hp]

/-- C24: a stopped run is below the threshold at the chosen scale only; when every coupling is
positive and the chosen amplitude is 0, no scale has a positive residual. -/
theorem C24_stop_zero {S D : Nat} {cpl r : Nat → F} {k : Comp F} (h : Chosen S D cpl r k)
    (hc : ∀ s < S, 0 < cpl (S * s + s)) (h0 : k.amp = 0) :
    ∀ s < S, ∀ i < D, ∀ j < D, r (at3 D s i j) ≤ 0 := by
  intro s hs i hi j hj
  have := h.2.2.2.2.2 s hs (hc s hs) i hi j hj
  rw [h0] at this
  by_contra hn
  exact absurd this (not_le.2 (div_pos (not_le.1 hn) (hc s hs)))

/-! ## Witnesses -/

/-- A stand-in convolution: returns its first argument. -/
def fstConv : Arr ℚ → Arr ℚ → Option (Arr ℚ) := fun a _ => some a

def exDims : Dims := ⟨2, 2, 4⟩
def exPsf : Arr ℚ := ⟨16, fun i => if i = 10 then 1 else if i = 11 then 1 / 2 else 0⟩
def exDirty : Arr ℚ := ⟨4, fun i => if i = 2 then 8 else 0⟩
def exKern : Arr ℚ := ⟨32, fun i => if i = 10 ∨ i = 26 then 1 else 0⟩
def exOut : Hogbom.Out ℚ := ⟨⟨4, fun _ => 0⟩, ⟨4, fun _ => 0⟩, ⟨4, fun _ => 0⟩⟩

/-- The hypotheses are met. -/
theorem exGood : Good exDims exPsf exDirty exKern exPsf exOut :=
  ⟨by decide, by decide, rfl, rfl, rfl, rfl, rfl, rfl, rfl, rfl⟩

theorem exConv (d : Dims) : ConvOk d fstConv fun a _ => a := fun _ _ _ _ => ⟨rfl, rfl⟩

example : ((clean fstConv exDims exPsf exDirty exKern exPsf (1 / 2) 1 2 exOut).map fun o =>
    ((List.range 4).map o.model.get, (List.range 4).map o.res.get)) =
    some ([0, 0, 6, 0], [0, 0, 2, -3]) := by decide +kernel

/-- The PSF side is not checked against the image side: with a PSF of the image's side the
kernel window leaves the kernel. -/
theorem C24_psf_side_false :
    (clean fstConv ⟨1, 2, 2⟩ ⟨4, fun _ => 1⟩ exDirty ⟨4, fun _ => 1⟩ ⟨4, fun _ => 1⟩ (1 / 2) 1 2
      exOut).isNone = true := by decide +kernel

/-- An empty scale list is accepted and element 0 of an empty buffer is read. -/
theorem C24_no_scale_false :
    (clean fstConv ⟨0, 2, 4⟩ exPsf exDirty ⟨0, fun _ => 1⟩ exPsf (1 / 2) 1 2
      exOut).isNone = true := by decide +kernel

/-- The threshold is compared with the residual of the scale whose biased peak is largest,
not with the largest residual: here scale 1 has residual 4 above the threshold 3, but the
biased peak is larger on scale 0 (residual 2), so the loop stops. -/
theorem C24_threshold_other_scale_false :
    ∃ (cpl res : Arr ℚ) (st : St ℚ), st = ⟨res, ⟨1, fun _ => 0⟩⟩ ∧
      cycle ⟨2, 1, 2⟩ ⟨8, fun _ => 1⟩ ⟨16, fun _ => 1⟩ cpl 1 3 st = some (.inl st) ∧
      res.get 1 = 4 := by
  refine ⟨⟨4, fun i => if i = 0 then 1 else 4⟩, ⟨2, fun i => if i = 0 then 2 else 4⟩, _, rfl, ?_, ?_⟩
  · simp [cycle, peakAll, peak1, index3, index2, Arr.read, nest2, loop, List.range_succ]
    norm_num
  · rfl

end Sdp.MsClean
