import Mathlib.Algebra.BigOperators.Ring.Finset
import Mathlib.Algebra.BigOperators.Field
import Mathlib.Tactic.FieldSimp
import Mathlib.Tactic.Ring
import Mathlib.Algebra.Order.Field.Rat
import Verif.Common.Loops

/-!
# C74: correction kernel of the ES gridder

`sdp_generate_gauss_legendre_conv_kernel`,
`/repo/src/ska-sdp-func/grid_data/sdp_gridder_uvw_es_fft_utils.cpp` L125-172.  Exact arithmetic in a
field; the roots and weights (L139-142), the exponential of the semicircle (L143) and the cosine
(with the factor pi, L166) are arbitrary functions.  Sizes are not negative.
-/

set_option linter.unusedSectionVars false

namespace Sdp.Legendre

open Finset

variable {K : Type} [Field K]

/-- The three quadrature tables. -/
structure Quad (K : Type) where
  kernel : Arr K
  nodes : Arr K
  weights : Arr K

/-- `p` (L133): `int(1.5 * support + 2.0)`. -/
def numNodes (support : Nat) : Nat := (3 * support + 4) / 2

/-- The quadrature loop (L136-147), `i` from 1 to `n / 2 = p`. -/
def fillQuad (root : Nat → Nat → K × K) (semi : K → K) (p : Nat) (q : Quad K) : Option (Quad K) :=
  loop (fun (q : Quad K) (i : Nat) =>
    let r := root i (2 * p)
    (q.nodes.write ((i : Int) - 1) r.1).bind fun nodes =>
    (q.weights.write ((i : Int) - 1) r.2).bind fun weights =>
    (q.kernel.write ((i : Int) - 1) (semi r.1)).map fun kernel => ⟨kernel, nodes, weights⟩)
    q (List.range' 1 p)

/-- `correction` (L162-167) or, with a constant cosine, `conv_corr_norm_factor` (L149-153). -/
def quadSum (q : Quad K) (p : Nat) (f : K → K) : Option K :=
  loop (fun (acc : K) (i : Nat) =>
    (q.kernel.read (i : Int)).bind fun k =>
    (q.weights.read (i : Int)).bind fun w =>
    (q.nodes.read (i : Int)).map fun x => acc + k * w * f x) 0 (List.range p)

/-- The whole function (L125-172). -/
def convKernel (root : Nat → Nat → K × K) (semi cosPi : K → K) (image grid support : Nat) (q : Quad K)
    (corr : Arr K) : Option (Quad K × Arr K) :=
  let p := numNodes support
  (fillQuad root semi p q).bind fun q =>
  (quadSum q p fun _ => 1).bind fun norm =>
  let norm := norm * support
  (loop (fun (corr : Arr K) (l : Nat) =>
    let l1 := (l : K) * (1 / grid)
    (quadSum q p fun x => cosPi (l1 * support * x)).bind fun c =>
      corr.write (l : Int) (c * support / norm)) corr (List.range (image / 2 + 1))).map fun corr => (q, corr)

theorem fill_spec (root : Nat → Nat → K × K) (semi : K → K) (p N : Nat) (hp : p ≤ N) (q : Quad K)
    (h1 : q.kernel.size = N) (h2 : q.nodes.size = N) (h3 : q.weights.size = N) :
    ∃ r, fillQuad root semi p q = some r ∧ r.kernel.size = N ∧ r.nodes.size = N ∧ r.weights.size = N ∧
      ∀ i, i < p → r.nodes.get i = (root (i + 1) (2 * p)).1 ∧ r.weights.get i = (root (i + 1) (2 * p)).2 ∧
        r.kernel.get i = semi (root (i + 1) (2 * p)).1 := by
  unfold fillQuad
  suffices h : ∀ m, m ≤ p → ∃ r, loop (fun (q : Quad K) (i : Nat) =>
      let r := root i (2 * p)
      (q.nodes.write ((i : Int) - 1) r.1).bind fun nodes =>
      (q.weights.write ((i : Int) - 1) r.2).bind fun weights =>
      (q.kernel.write ((i : Int) - 1) (semi r.1)).map fun kernel => ⟨kernel, nodes, weights⟩)
      q (List.range' 1 m) = some r ∧ r.kernel.size = N ∧ r.nodes.size = N ∧ r.weights.size = N ∧
      ∀ i, i < m → r.nodes.get i = (root (i + 1) (2 * p)).1 ∧ r.weights.get i = (root (i + 1) (2 * p)).2 ∧
        r.kernel.get i = semi (root (i + 1) (2 * p)).1 from h p le_rfl
  intro m
  induction m with
  | zero => exact fun _ => ⟨q, rfl, h1, h2, h3, fun i hi => by omega⟩
  | succ m ih =>
    intro hm
    obtain ⟨r, r1, r2, r3, r4, r5⟩ := ih (by omega)
    rw [List.range'_concat, loop_append, r1, Option.bind_some]
    simp only [loop, one_mul]
    rw [show (((1 + m : Nat) : Int) - 1) = ((m : Nat) : Int) by push_cast; ring]
    rw [Arr.write_nat, if_pos (by omega), Option.bind_some, Arr.write_nat, if_pos (by omega),
      Option.bind_some, Arr.write_nat, if_pos (by omega), Option.map_some, Option.bind_some]
    refine ⟨_, rfl, r2, r3, r4, ?_⟩
    intro i hi
    rw [show 1 + m = m + 1 by omega]
    by_cases e : i = m
    · subst e
      simp [Arr.put_get]
    · simp only [Arr.put_get, if_neg e]
      exact r5 i (by omega)

theorem quadSum_spec (q : Quad K) (p : Nat) (f : K → K) (h1 : p ≤ q.kernel.size) (h2 : p ≤ q.nodes.size)
    (h3 : p ≤ q.weights.size) : quadSum q p f =
      some (∑ i ∈ range p, q.kernel.get i * q.weights.get i * f (q.nodes.get i)) := by
  unfold quadSum
  suffices h : ∀ m, m ≤ p → loop (fun (acc : K) (i : Nat) =>
      (q.kernel.read (i : Int)).bind fun k =>
      (q.weights.read (i : Int)).bind fun w =>
      (q.nodes.read (i : Int)).map fun x => acc + k * w * f x) 0 (List.range m) =
      some (∑ i ∈ range m, q.kernel.get i * q.weights.get i * f (q.nodes.get i)) from h p le_rfl
  intro m
  induction m with
  | zero => intro _; simp [loop]
  | succ m ih =>
    intro hm
    rw [List.range_succ, loop_append, ih (by omega), Option.bind_some, sum_range_succ]
    simp only [loop]
    rw [Arr.read_nat, if_pos (by omega), Option.bind_some, Arr.read_nat, if_pos (by omega),
      Option.bind_some, Arr.read_nat, if_pos (by omega), Option.map_some, Option.bind_some]

/-- **C74, correction kernel.**  With tables of at least `p` entries and half an image plus one
pixel of output, the function has no fault, and output `l` is the quotient of the quadratures, over
the `p` positive nodes, of the kernel times the cosine and of the kernel alone; output 0 is 1. -/
theorem C74_kernel (root : Nat → Nat → K × K) (semi cosPi : K → K) (image grid support N : Nat)
    (q : Quad K) (corr : Arr K) (hN : numNodes support ≤ N) (h1 : q.kernel.size = N)
    (h2 : q.nodes.size = N) (h3 : q.weights.size = N) (hc : image / 2 + 1 ≤ corr.size)
    (hs : (support : K) ≠ 0) :
    ∃ q' corr', convKernel root semi cosPi image grid support q corr = some (q', corr') ∧
      corr'.size = corr.size ∧
      (∀ l, l ≤ image / 2 → corr'.get l =
        (∑ i ∈ range (numNodes support), semi (root (i + 1) (2 * numNodes support)).1 *
          (root (i + 1) (2 * numNodes support)).2 *
          cosPi ((l : K) / grid * support * (root (i + 1) (2 * numNodes support)).1)) /
        ∑ i ∈ range (numNodes support), semi (root (i + 1) (2 * numNodes support)).1 *
          (root (i + 1) (2 * numNodes support)).2) ∧
      (∀ l, image / 2 < l → corr'.get l = corr.get l) ∧
      (cosPi 0 = 1 → (∑ i ∈ range (numNodes support), semi (root (i + 1) (2 * numNodes support)).1 *
          (root (i + 1) (2 * numNodes support)).2) ≠ 0 → corr'.get 0 = 1) := by
  obtain ⟨r, r1, r2, r3, r4, r5⟩ := fill_spec root semi (numNodes support) N hN q h1 h2 h3
  unfold convKernel
  simp only
  rw [r1, Option.bind_some, quadSum_spec r _ _ (by omega) (by omega) (by omega), Option.bind_some]
  have hq : ∀ f : K → K, quadSum r (numNodes support) f =
      some (∑ i ∈ range (numNodes support), semi (root (i + 1) (2 * numNodes support)).1 *
        (root (i + 1) (2 * numNodes support)).2 * f (root (i + 1) (2 * numNodes support)).1) := by
    intro f
    rw [quadSum_spec r _ _ (by omega) (by omega) (by omega)]
    congr 1
    apply sum_congr rfl
    intro i hi
    obtain ⟨e1, e2, e3⟩ := r5 i (mem_range.1 hi)
    rw [e1, e2, e3]
  have hnorm : (∑ i ∈ range (numNodes support), r.kernel.get i * r.weights.get i * 1) =
      ∑ i ∈ range (numNodes support), semi (root (i + 1) (2 * numNodes support)).1 *
        (root (i + 1) (2 * numNodes support)).2 := by
    apply sum_congr rfl
    intro i hi
    obtain ⟨e1, e2, e3⟩ := r5 i (mem_range.1 hi)
    rw [e2, e3, mul_one]
  simp only [hq, Option.bind_some, hnorm]
  generalize hTd : (∑ i ∈ range (numNodes support), semi (root (i + 1) (2 * numNodes support)).1 *
    (root (i + 1) (2 * numNodes support)).2) = T
  obtain ⟨c, c1, c2, c3⟩ := loop_inv (fun (corr : Arr K) (l : Nat) => corr.write (l : Int)
      ((∑ i ∈ range (numNodes support), semi (root (i + 1) (2 * numNodes support)).1 *
        (root (i + 1) (2 * numNodes support)).2 *
        cosPi ((l : K) * (1 / grid) * support * (root (i + 1) (2 * numNodes support)).1)) * support /
        (T * support)))
    (fun done c => c.size = corr.size ∧ ∀ l, c.get l = if l ∈ done then
      ((∑ i ∈ range (numNodes support), semi (root (i + 1) (2 * numNodes support)).1 *
        (root (i + 1) (2 * numNodes support)).2 *
        cosPi ((l : K) * (1 / grid) * support * (root (i + 1) (2 * numNodes support)).1)) * support /
        (T * support)) else corr.get l)
    (List.range (image / 2 + 1)) corr ⟨rfl, fun l => by simp⟩ (by
      intro done l rest c hsplit hP
      have hl : l < image / 2 + 1 := by
        rw [← List.mem_range, hsplit]; simp
      rw [Arr.write_nat, if_pos (by rw [hP.1]; omega)]
      refine ⟨_, rfl, hP.1, fun k => ?_⟩
      rw [Arr.put_get, hP.2]
      by_cases e : k = l
      · subst e; simp
      · simp [e])
  rw [c1, Option.map_some]
  have hval : ∀ l, l ≤ image / 2 → c.get l =
        (∑ i ∈ range (numNodes support), semi (root (i + 1) (2 * numNodes support)).1 *
          (root (i + 1) (2 * numNodes support)).2 *
          cosPi ((l : K) / grid * support * (root (i + 1) (2 * numNodes support)).1)) / T := by
    intro l hl
    rw [c3, if_pos (List.mem_range.2 (by omega)), mul_div_mul_right _ _ hs]
    simp only [mul_one_div]
  refine ⟨r, c, rfl, c2, hval, fun l hl => ?_, fun h0 hT => ?_⟩
  · rw [c3, if_neg (by rw [List.mem_range]; omega)]
  · rw [hval 0 (Nat.zero_le _), Nat.cast_zero, zero_div]
    simp only [zero_mul, h0, mul_one]
    rw [hTd, div_self hT]

/-- **C74**: supports up to 16 fit the tables of 32 entries. -/
theorem C74_fits (support : Nat) (h : support ≤ 16) : numNodes support ≤ 32 := by
  unfold numNodes; omega

/-- Non-vacuity: support 2, so 5 nodes, with made-up roots. -/
example : (convKernel (fun i _ => ((i : ℚ), 1)) (fun x => x) (fun x => 1 - x) 3 4 2
      ⟨⟨32, fun _ => 0⟩, ⟨32, fun _ => 0⟩, ⟨32, fun _ => 0⟩⟩ ⟨2, fun _ => 0⟩).map
      (fun r => [r.2.get 0, r.2.get 1]) = some [1, -5 / 6] := by decide +kernel

end Sdp.Legendre
