import Mathlib.Algebra.BigOperators.Ring.Finset
import Mathlib.Algebra.BigOperators.Intervals
import Mathlib.Algebra.Order.Field.Rat
import Mathlib.Tactic.Ring
import Mathlib.Tactic.Linarith
import Verif.EsFft.Image
import Verif.WTower.Plane

/-!
# C73: the image kernels of the ES gridder
-/

set_option linter.unusedSectionVars false

namespace Sdp.EsFft
open Finset

variable {K : Type} [Field K]

/-! ## Pixels and threads -/

theorem mem_quads {h : Nat} {ij : Nat × Nat} {d : Int × Int} (hi : ij.1 ≤ h) (hj : ij.2 ≤ h) :
    d ∈ quads h ij ↔ d.1.natAbs = ij.2 ∧ d.2.natAbs = ij.1 ∧
      -(h : Int) ≤ d.1 ∧ d.1 < h ∧ -(h : Int) ≤ d.2 ∧ d.2 < h := by
  obtain ⟨i, j⟩ := ij
  obtain ⟨y, x⟩ := d
  simp only at hi hj
  unfold quads
  simp only [List.mem_append]
  constructor
  · rintro (((h1 | h1) | h1) | h1) <;>
    · split at h1
      · simp only [List.mem_singleton, Prod.mk.injEq] at h1
        omega
      · simp at h1
  · rintro ⟨h1, h2, h3, h4, h5, h6⟩
    rcases lt_or_ge y 0 with hy | hy <;> rcases lt_or_ge x 0 with hx | hx
    · refine Or.inr ?_
      rw [if_pos (by omega)]
      simp only [List.mem_singleton, Prod.mk.injEq]
      omega
    · refine Or.inl (Or.inr ?_)
      rw [if_pos (by omega)]
      simp only [List.mem_singleton, Prod.mk.injEq]
      omega
    · refine Or.inl (Or.inl (Or.inr ?_))
      rw [if_pos (by omega)]
      simp only [List.mem_singleton, Prod.mk.injEq]
      omega
    · refine Or.inl (Or.inl (Or.inl ?_))
      rw [if_pos (by omega)]
      simp only [List.mem_singleton, Prod.mk.injEq]
      omega

theorem nodup_quads (h : Nat) (ij : Nat × Nat) : (quads h ij).Nodup := by
  obtain ⟨i, j⟩ := ij
  unfold quads
  simp only
  split_ifs <;> simp <;> omega

/-- All pixels, in the order in which the threads visit them. -/
def visits (h : Nat) (order : List (Nat × Nat)) : List (Int × Int) := order.flatMap (quads h)

theorem mem_visits {h : Nat} {order : List (Nat × Nat)} (ho : order.Perm (nest2 (h + 1) (h + 1)))
    {d : Int × Int} :
    d ∈ visits h order ↔ -(h : Int) ≤ d.1 ∧ d.1 < h ∧ -(h : Int) ≤ d.2 ∧ d.2 < h := by
  unfold visits
  rw [List.mem_flatMap]
  constructor
  · rintro ⟨ij, h1, h2⟩
    have := mem_nest2.1 (ho.mem_iff.1 h1)
    exact ((mem_quads (by omega) (by omega)).1 h2).2.2
  · intro hd
    refine ⟨(d.2.natAbs, d.1.natAbs), ho.mem_iff.2 (mem_nest2.2 ⟨by simp only; omega, by simp only; omega⟩), ?_⟩
    rw [mem_quads (by simp only; omega) (by simp only; omega)]
    exact ⟨rfl, rfl, hd⟩

theorem nodup_visits {h : Nat} {order : List (Nat × Nat)} (ho : order.Perm (nest2 (h + 1) (h + 1))) :
    (visits h order).Nodup := by
  unfold visits
  rw [List.nodup_flatMap]
  refine ⟨fun ij _ => nodup_quads h ij, ?_⟩
  have hn : order.Nodup := ho.nodup_iff.2 (nest2_nodup _ _)
  refine List.Pairwise.imp_of_mem ?_ hn
  intro a b ha hb hne d hd1 hd2
  have ha := mem_nest2.1 (ho.mem_iff.1 ha)
  have hb := mem_nest2.1 (ho.mem_iff.1 hb)
  have h1 := (mem_quads (by omega) (by omega)).1 hd1
  have h2 := (mem_quads (by omega) (by omega)).1 hd2
  apply hne
  exact Prod.ext (by omega) (by omega)

/-- Offset of pixel `(row, col)` from the centre. -/
def offset (size row col : Nat) : Int × Int := ((row : Int) - (size / 2 : Nat), (col : Int) - (size / 2 : Nat))

theorem centred_offset (size row col : Nat) :
    centred size (offset size row col) = ((size * row + col : Nat) : Int) := by
  unfold centred offset
  simp only
  generalize size / 2 = h
  push_cast
  ring

theorem offset_surj (size : Nat) (d : Int × Int) (h1 : -((size / 2 : Nat) : Int) ≤ d.1)
    (h2 : d.1 < ((size / 2 : Nat) : Int)) (h3 : -((size / 2 : Nat) : Int) ≤ d.2)
    (h4 : d.2 < ((size / 2 : Nat) : Int)) :
    ∃ row col, row < 2 * (size / 2) ∧ col < 2 * (size / 2) ∧ d = offset size row col := by
  refine ⟨(d.1 + (size / 2 : Nat)).toNat, (d.2 + (size / 2 : Nat)).toNat, by omega, by omega, ?_⟩
  unfold offset
  exact Prod.ext (by simp only; omega) (by simp only; omega)

theorem centred_inj {size : Nat} {order : List (Nat × Nat)}
    (ho : order.Perm (nest2 (size / 2 + 1) (size / 2 + 1))) :
    ((visits (size / 2) order).map (centred size)).Nodup := by
  refine List.Nodup.map_on ?_ (nodup_visits ho)
  intro d hd e he h
  obtain ⟨d1, d2, d3, d4⟩ := (mem_visits ho).1 hd
  obtain ⟨e1, e2, e3, e4⟩ := (mem_visits ho).1 he
  obtain ⟨r, c, hr, hc, rfl⟩ := offset_surj size d d1 d2 d3 d4
  obtain ⟨r', c', hr', hc', rfl⟩ := offset_surj size e e1 e2 e3 e4
  rw [centred_offset, centred_offset] at h
  have h : size * r + c = size * r' + c' := by exact_mod_cast h
  obtain ⟨rfl, rfl⟩ := flat_inj (by omega) (by omega) h
  rfl

/-- What a loop over the threads that modifies each pixel of a thread does: every pixel of the
even part is modified once, the others not at all. -/
theorem modify_pixels (size : Nat) (order : List (Nat × Nat))
    (ho : order.Perm (nest2 (size / 2 + 1) (size / 2 + 1))) (img : Arr K) (hs : img.size = size * size)
    (f : Int × Int → K → K) (body : Arr K → Nat × Nat → Option (Arr K))
    (hb : ∀ ij, ij.1 ≤ size / 2 → ij.2 ≤ size / 2 → ∀ g : Arr K, body g ij =
      loop (fun (g : Arr K) (d : Int × Int) => (g.read (centred size d)).bind fun y =>
        g.write (centred size d) (f d y)) g (quads (size / 2) ij)) :
    ∃ r, loop body img order = some r ∧ r.size = img.size ∧
      (∀ row col, row < 2 * (size / 2) → col < 2 * (size / 2) →
        r.get (size * row + col) = f (offset size row col) (img.get (size * row + col))) ∧
      (∀ row col, row < size → col < size → ¬ (row < 2 * (size / 2) ∧ col < 2 * (size / 2)) →
        r.get (size * row + col) = img.get (size * row + col)) := by
  have e1 : loop body img order = loop (fun (g : Arr K) (d : Int × Int) =>
      (g.read (centred size d)).bind fun y => g.write (centred size d) (f d y)) img
        (visits (size / 2) order) := by
    unfold visits
    rw [loop_flatMap]
    apply loop_congr
    intro ij hij g
    have := mem_nest2.1 (ho.mem_iff.1 hij)
    exact hb ij (by omega) (by omega) g
  have hrange : ∀ d ∈ visits (size / 2) order, 0 ≤ centred size d ∧ centred size d < img.size := by
    intro d hd
    obtain ⟨d1, d2, d3, d4⟩ := (mem_visits ho).1 hd
    obtain ⟨r, c, hr, hc, rfl⟩ := offset_surj size d d1 d2 d3 d4
    rw [centred_offset, hs]
    have := flat_lt (show r < size by omega) (show c < size by omega)
    omega
  obtain ⟨r, r1, r2, r3, r4⟩ := Arr.modify_spec (visits (size / 2) order) (centred size) f
    (centred_inj ho) img hrange
  refine ⟨r, e1.trans r1, r2, fun row col hr hc => ?_, fun row col hr hc hout => ?_⟩
  · have := r3 (offset size row col) ((mem_visits ho).2 (by unfold offset; simp only; omega))
    rw [centred_offset, Int.toNat_natCast] at this
    exact this
  · apply r4
    intro d hd e
    obtain ⟨d1, d2, d3, d4⟩ := (mem_visits ho).1 hd
    obtain ⟨r', c', hr', hc', rfl⟩ := offset_surj size d d1 d2 d3 d4
    rw [centred_offset] at e
    have e : size * r' + c' = size * row + col := by exact_mod_cast e
    obtain ⟨rfl, rfl⟩ := flat_inj (by omega) hc e
    exact hout ⟨hr', hc'⟩

/-! ## Screen and sum -/

/-- Cell of a `grid x grid` plane at offset `d` from its centre. -/
def gridCell (grid : Nat) (d : Int × Int) : Nat :=
  grid * ((grid / 2 : Nat) + d.1).toNat + ((grid / 2 : Nat) + d.2).toNat

theorem centred_cell (grid : Nat) (d : Int × Int) (h1 : 0 ≤ (grid / 2 : Nat) + d.1)
    (h2 : 0 ≤ (grid / 2 : Nat) + d.2) : centred grid d = (gridCell grid d : Int) := by
  unfold centred gridCell
  generalize grid / 2 = h at *
  obtain ⟨y, hy⟩ := Int.eq_ofNat_of_zero_le h1
  obtain ⟨x, hx⟩ := Int.eq_ofNat_of_zero_le h2
  have ey : d.1 = y - h := by omega
  have ex : d.2 = x - h := by omega
  rw [hy, hx, ey, ex]
  push_cast
  simp only [Int.ofNat_eq_natCast, Int.toNat_natCast]
  ring

theorem cell_lt (grid p numW : Nat) (d : Int × Int) (hp : p < numW)
    (h1 : 0 ≤ (grid / 2 : Nat) + d.1) (h2 : (grid / 2 : Nat) + d.1 < grid)
    (h3 : 0 ≤ (grid / 2 : Nat) + d.2) (h4 : (grid / 2 : Nat) + d.2 < grid) :
    grid * grid * p + gridCell grid d < numW * (grid * grid) := by
  unfold gridCell
  exact flat_lt hp (flat_lt (by omega) (by omega))

theorem pixelSum_ok (image grid numW : Nat) (stack : Arr (K × K)) (shift : Nat → Nat → Nat → K × K)
    (hg : 2 * (image / 2) + 2 ≤ grid) (hs : stack.size = numW * (grid * grid)) (ij : Nat × Nat)
    (d : Int × Int) (h1 : -((image / 2 : Nat) : Int) ≤ d.1) (h2 : d.1 ≤ ((image / 2 : Nat) : Int))
    (h3 : -((image / 2 : Nat) : Int) ≤ d.2) (h4 : d.2 ≤ ((image / 2 : Nat) : Int)) :
    pixelSum grid numW stack shift ij d = some (∑ p ∈ range numW,
      reMul (stack.get (grid * grid * p + gridCell grid d)) (shift p ij.1 ij.2)) := by
  unfold pixelSum
  rw [WTower.loop_sum (List.range numW) _ (fun p : Nat =>
    reMul (stack.get (grid * grid * p + gridCell grid d)) (shift p ij.1 ij.2))]
  · rw [list_sum_range, zero_add]
  · intro p hp acc
    rw [List.mem_range] at hp
    have hc := centred_cell grid d (by omega) (by omega)
    have hl := cell_lt grid p numW d hp (by omega) (by omega) (by omega) (by omega)
    have e : (p : Int) * ((grid : Int) * grid) + centred grid d =
        ((grid * grid * p + gridCell grid d : Nat) : Int) := by
      rw [hc]; push_cast; ring
    rw [e, WTower.read_lt _ _ (by rw [hs]; exact hl)]
    rfl

/-- `-1` to the power of the coordinates. -/
def sgn (d : Int × Int) : K := if Even (d.1 + d.2) then 1 else -1

theorem sgn_eq (d : Int × Int) (i j : Nat) (h1 : d.1.natAbs = j) (h2 : d.2.natAbs = i) (v : K) :
    (if (i + j) % 2 ≠ 0 then -v else v) = sgn d * v := by
  unfold sgn
  have : (i + j) % 2 = 0 ↔ Even (d.1 + d.2) := by
    rw [Int.even_iff]; omega
  by_cases h : Even (d.1 + d.2)
  · rw [if_neg (not_not.2 (this.2 h)), if_pos h, one_mul]
  · rw [if_pos (by intro hh; exact h (this.1 hh)), if_neg h]; ring

/-- **C73, screen and sum.**  For every image size and a grid at least 2 larger than its even
part, and for every order of the threads: each pixel with row and column below the even part of the
size is increased, once, by the sum over the planes of the real part of layer times screen, times
the sign of the pixel; the last row and column of an odd image are not changed. -/
theorem C73_sum (image grid numW : Nat) (stack : Arr (K × K)) (shift : Nat → Nat → Nat → K × K)
    (hg : 2 * (image / 2) + 2 ≤ grid) (hs : stack.size = numW * (grid * grid)) (img : Arr K)
    (hi : img.size = image * image) (order : List (Nat × Nat))
    (ho : order.Perm (nest2 (image / 2 + 1) (image / 2 + 1))) :
    ∃ r, loop (sumThread image grid numW stack shift) img order = some r ∧ r.size = img.size ∧
      (∀ row col, row < 2 * (image / 2) → col < 2 * (image / 2) →
        r.get (image * row + col) = img.get (image * row + col) + sgn (offset image row col) *
          ∑ p ∈ range numW, reMul (stack.get (grid * grid * p + gridCell grid (offset image row col)))
            (shift p (offset image row col).2.natAbs (offset image row col).1.natAbs)) ∧
      (∀ row col, row < image → col < image → ¬ (row < 2 * (image / 2) ∧ col < 2 * (image / 2)) →
        r.get (image * row + col) = img.get (image * row + col)) := by
  let add : Int × Int → K := fun d => sgn d * ∑ p ∈ range numW,
    reMul (stack.get (grid * grid * p + gridCell grid d)) (shift p d.2.natAbs d.1.natAbs)
  refine modify_pixels image order ho img hi (fun d y => y + add d) _ ?_
  intro ij h1 h2 g
  unfold sumThread
  rw [if_pos ⟨h1, h2⟩]
  rw [pixelSum_ok image grid numW stack shift hg hs ij _ (by simp only; omega) (by simp only; omega)
      (by simp only; omega) (by simp only; omega), Option.bind_some,
    pixelSum_ok image grid numW stack shift hg hs ij _ (by simp only; omega) (by simp only; omega)
      (by simp only; omega) (by simp only; omega), Option.bind_some,
    pixelSum_ok image grid numW stack shift hg hs ij _ (by simp only; omega) (by simp only; omega)
      (by simp only; omega) (by simp only; omega), Option.bind_some,
    pixelSum_ok image grid numW stack shift hg hs ij _ (by simp only; omega) (by simp only; omega)
      (by simp only; omega) (by simp only; omega), Option.bind_some]
  apply loop_congr
  intro d hd g
  obtain ⟨a1, a2, a3, a4, a5, a6⟩ := (mem_quads h1 h2).1 hd
  rw [pixelSum_ok image grid numW stack shift hg hs ij d (by omega) (by omega) (by omega) (by omega),
    Option.bind_some]
  unfold Arr.addAt
  rw [sgn_eq d ij.1 ij.2 a1 a2]
  simp only [add]
  rw [a1, a2]

/-- **C73, scaling.**  Whatever the order of the threads, each pixel of the even part of the image is
divided, once, by the correction at its distance from the centre; the rest is not changed. -/
theorem C73_scale (image : Nat) (kern : Arr K) (hk : kern.size = image / 2 + 1) (nConv : Nat → Nat → K)
    (img : Arr K) (hi : img.size = image * image) (order : List (Nat × Nat))
    (ho : order.Perm (nest2 (image / 2 + 1) (image / 2 + 1))) :
    ∃ r, loop (scaleThread image kern nConv) img order = some r ∧ r.size = img.size ∧
      (∀ row col, row < 2 * (image / 2) → col < 2 * (image / 2) →
        r.get (image * row + col) = img.get (image * row + col) /
          (kern.get (offset image row col).2.natAbs * kern.get (offset image row col).1.natAbs *
            nConv (offset image row col).2.natAbs (offset image row col).1.natAbs)) ∧
      (∀ row col, row < image → col < image → ¬ (row < 2 * (image / 2) ∧ col < 2 * (image / 2)) →
        r.get (image * row + col) = img.get (image * row + col)) := by
  refine modify_pixels image order ho img hi (fun d y => y / (kern.get d.2.natAbs *
    kern.get d.1.natAbs * nConv d.2.natAbs d.1.natAbs)) _ ?_
  intro ij h1 h2 g
  unfold scaleThread
  rw [if_pos ⟨h1, h2⟩, WTower.read_lt _ _ (by omega), Option.bind_some, WTower.read_lt _ _ (by omega),
    Option.bind_some]
  apply loop_congr
  intro d hd g
  obtain ⟨a1, a2, _⟩ := (mem_quads h1 h2).1 hd
  rw [a1, a2]
  simp only [mul_one_div]

/-! ## Screen back to the stack -/

theorem pixelOf_ok (image : Nat) (img : Arr K) (hi : img.size = image * image) (ij : Nat × Nat)
    (d : Int × Int) (h1 : -((image / 2 : Nat) : Int) ≤ d.1) (h2 : d.1 < (image : Int) - (image / 2 : Nat))
    (h3 : -((image / 2 : Nat) : Int) ≤ d.2) (h4 : d.2 < (image : Int) - (image / 2 : Nat))
    (h5 : d.1.natAbs = ij.2) (h6 : d.2.natAbs = ij.1) :
    pixelOf image img ij d = some (sgn d * img.get (gridCell image d)) := by
  unfold pixelOf
  have hl : gridCell image d < image * image := by
    unfold gridCell
    exact flat_lt (by omega) (by omega)
  rw [centred_cell image d (by omega) (by omega), WTower.read_lt _ _ (by rw [hi]; exact hl)]
  simp only [Option.map_some]
  rw [sgn_eq d ij.1 ij.2 h5 h6]

/-- **C73, screen back to the stack.**  Whatever the order of the threads, each layer gets at each
pixel of the even part of the image the pixel times the screen, times the sign; all other cells
are unchanged. -/
theorem C73_reverse (image grid numW : Nat) (h0 : 0 < image) (img : Arr K) (hi : img.size = image * image)
    (shift : Nat → Nat → Nat → K × K) (hg : 2 * (image / 2) + 2 ≤ grid) (stack : Arr (K × K))
    (hs : stack.size = numW * (grid * grid)) (order : List (Nat × Nat))
    (ho : order.Perm (nest2 (image / 2 + 1) (image / 2 + 1))) :
    ∃ r, loop (reverseThread image grid numW img shift) stack order = some r ∧ r.size = stack.size ∧
      (∀ p row col, p < numW → row < 2 * (image / 2) → col < 2 * (image / 2) →
        r.get (grid * grid * p + gridCell grid (offset image row col)) =
          (sgn (offset image row col) * img.get (image * row + col)) •
            shift p (offset image row col).2.natAbs (offset image row col).1.natAbs) ∧
      (∀ k, (∀ p row col, p < numW → row < 2 * (image / 2) → col < 2 * (image / 2) →
        k ≠ grid * grid * p + gridCell grid (offset image row col)) → r.get k = stack.get k) := by
  -- all writes, in order
  let idx : Nat × (Int × Int) → Int := fun x => ((grid * grid * x.1 + gridCell grid x.2 : Nat) : Int)
  let val : Nat × (Int × Int) → K × K := fun x =>
    (sgn x.2 * img.get (gridCell image x.2)) • shift x.1 x.2.2.natAbs x.2.1.natAbs
  let acts : Nat × Nat → List (Nat × (Int × Int)) := fun ij =>
    (List.range numW).flatMap fun p : Nat => (quads (image / 2) ij).map fun d => (p, d)
  have hbody : ∀ ij ∈ order, ∀ s : Arr (K × K), reverseThread image grid numW img shift s ij =
      loop (fun (s : Arr (K × K)) (x : Nat × (Int × Int)) => s.write (idx x) (val x)) s (acts ij) := by
    intro ij hij s
    have hm := mem_nest2.1 (ho.mem_iff.1 hij)
    have h1 : ij.1 ≤ image / 2 := by omega
    have h2 : ij.2 ≤ image / 2 := by omega
    unfold reverseThread
    rw [if_pos ⟨h1, h2⟩]
    have r1 : ∃ v, (if ij.2 < image / 2 then pixelOf image img ij (ij.2, -ij.1) else some 0) = some v := by
      split
      · exact ⟨_, pixelOf_ok image img hi ij _ (by simp only; omega) (by simp only; omega)
          (by simp only; omega) (by simp only; omega) (by simp only; omega) (by simp only; omega)⟩
      · exact ⟨_, rfl⟩
    have r2 : ∃ v, (if ij.1 < image / 2 then pixelOf image img ij (-ij.2, ij.1) else some 0) = some v := by
      split
      · exact ⟨_, pixelOf_ok image img hi ij _ (by simp only; omega) (by simp only; omega)
          (by simp only; omega) (by simp only; omega) (by simp only; omega) (by simp only; omega)⟩
      · exact ⟨_, rfl⟩
    obtain ⟨v1, r1⟩ := r1
    obtain ⟨v2, r2⟩ := r2
    rw [r1, Option.bind_some, r2, Option.bind_some, pixelOf_ok image img hi ij _ (by simp only; omega)
      (by simp only; omega) (by simp only; omega) (by simp only; omega) (by simp only; omega)
      (by simp only; omega), Option.bind_some]
    simp only [acts]
    rw [loop_flatMap]
    apply loop_congr
    intro p _ s
    rw [loop_map]
    apply loop_congr
    intro d hd s
    obtain ⟨a1, a2, a3, a4, a5, a6⟩ := (mem_quads h1 h2).1 hd
    rw [pixelOf_ok image img hi ij d a3 (by omega) a5 (by omega) a1 a2, Option.bind_some]
    simp only [idx, val]
    rw [a1, a2, centred_cell grid d (by omega) (by omega)]
    congr 1
    push_cast
    ring
  have e1 : loop (reverseThread image grid numW img shift) stack order =
      loop (fun (s : Arr (K × K)) (x : Nat × (Int × Int)) => s.write (idx x) (val x)) stack
        (order.flatMap acts) := by
    rw [loop_flatMap]
    exact loop_congr _ _ _ _ hbody
  have hmem : ∀ x, x ∈ order.flatMap acts ↔ x.1 < numW ∧ x.2 ∈ visits (image / 2) order := by
    rintro ⟨p, d⟩
    simp only [acts, visits, List.mem_flatMap, List.mem_map, List.mem_range, Prod.mk.injEq]
    constructor
    · rintro ⟨ij, h1, p', h2, d', h3, rfl, rfl⟩; exact ⟨h2, ij, h1, h3⟩
    · rintro ⟨h2, ij, h1, h3⟩; exact ⟨ij, h1, p, h2, d, h3, rfl, rfl⟩
  have hcells : ∀ x ∈ order.flatMap acts, ∃ row col, x.1 < numW ∧ row < 2 * (image / 2) ∧
      col < 2 * (image / 2) ∧ x.2 = offset image row col := by
    intro x hx
    obtain ⟨h1, h2⟩ := (hmem x).1 hx
    obtain ⟨d1, d2, d3, d4⟩ := (mem_visits ho).1 h2
    obtain ⟨r, c, hr, hc, e⟩ := offset_surj image x.2 d1 d2 d3 d4
    exact ⟨r, c, h1, hr, hc, e⟩
  have inj : ∀ p p' row col row' col', row < 2 * (image / 2) → col < 2 * (image / 2) →
      row' < 2 * (image / 2) → col' < 2 * (image / 2) →
      grid * grid * p + gridCell grid (offset image row col) =
        grid * grid * p' + gridCell grid (offset image row' col') → p = p' ∧ row = row' ∧ col = col' := by
    intro p p' row col row' col' h1 h2 h3 h4 h
    have b : ∀ r c, r < 2 * (image / 2) → c < 2 * (image / 2) →
        gridCell grid (offset image r c) < grid * grid := by
      intro r c hr hc
      unfold gridCell offset
      exact flat_lt (by simp only; omega) (by simp only; omega)
    obtain ⟨e1, e2⟩ := flat_inj (b _ _ h1 h2) (b _ _ h3 h4) h
    unfold gridCell offset at e2
    obtain ⟨e3, e4⟩ := flat_inj (by simp only; omega) (by simp only; omega) e2
    simp only at e3 e4
    refine ⟨e1, by omega, by omega⟩
  have hnodup : ((order.flatMap acts).map idx).Nodup := by
    have hn0 : order.Nodup := ho.nodup_iff.2 (nest2_nodup _ _)
    have hn : (order.flatMap acts).Nodup := by
      rw [List.nodup_flatMap]
      refine ⟨fun ij _ => ?_, ?_⟩
      · simp only [acts]
        rw [List.nodup_flatMap]
        refine ⟨fun p _ => List.Nodup.map (fun a b h => by simpa using h) (nodup_quads _ _), ?_⟩
        refine List.Pairwise.imp_of_mem ?_ List.nodup_range
        intro a b _ _ hne x hx1 hx2
        obtain ⟨_, _, rfl⟩ := List.mem_map.1 hx1
        obtain ⟨_, _, e⟩ := List.mem_map.1 hx2
        exact hne (Prod.mk.inj e).1.symm
      · refine List.Pairwise.imp_of_mem ?_ hn0
        intro a b ha hb hne x hx1 hx2
        have ha := mem_nest2.1 (ho.mem_iff.1 ha)
        have hb := mem_nest2.1 (ho.mem_iff.1 hb)
        simp only [acts, List.mem_flatMap, List.mem_map] at hx1 hx2
        obtain ⟨_, _, d, hd, rfl⟩ := hx1
        obtain ⟨_, _, d', hd', e⟩ := hx2
        have e := (Prod.mk.inj e).2
        subst e
        have h1 := (mem_quads (by omega) (by omega)).1 hd
        have h2 := (mem_quads (by omega) (by omega)).1 hd'
        exact hne (Prod.ext (by omega) (by omega))
    refine List.Nodup.map_on ?_ hn
    intro x hx y hy h
    obtain ⟨r, c, _, hr, hc, ex⟩ := hcells x hx
    obtain ⟨r', c', _, hr', hc', ey⟩ := hcells y hy
    obtain ⟨p, d⟩ := x
    obtain ⟨p', d'⟩ := y
    simp only at ex ey
    subst ex ey
    simp only [idx] at h
    obtain ⟨rfl, rfl, rfl⟩ := inj _ _ _ _ _ _ hr hc hr' hc' (by exact_mod_cast h)
    rfl
  have hrange : ∀ x ∈ order.flatMap acts, 0 ≤ idx x ∧ idx x < stack.size := by
    intro x hx
    obtain ⟨r, c, h1, hr, hc, e⟩ := hcells x hx
    simp only [idx]
    rw [hs, e]
    have := cell_lt grid x.1 numW (offset image r c) h1 (by unfold offset; simp only; omega)
      (by unfold offset; simp only; omega) (by unfold offset; simp only; omega)
      (by unfold offset; simp only; omega)
    omega
  obtain ⟨r, r1, r2, r3, r4⟩ := Arr.store_spec (order.flatMap acts) idx val hnodup stack hrange
  refine ⟨r, e1.trans r1, r2, fun p row col hp hr hc => ?_, fun k hk => ?_⟩
  · have := r3 (p, offset image row col) ((hmem _).2 ⟨hp, (mem_visits ho).2 (by unfold offset; simp only; omega)⟩)
    simp only [idx, val, Int.toNat_natCast] at this
    rw [this]
    congr 2
    have e := centred_offset image row col
    rw [centred_cell image _ (by unfold offset; simp only; omega) (by unfold offset; simp only; omega)] at e
    congr 1
    exact_mod_cast e
  · apply r4
    intro x hx e
    obtain ⟨row, col, h1, hr, hc, ex⟩ := hcells x hx
    simp only [idx] at e
    rw [ex] at e
    exact hk x.1 row col h1 hr hc (by exact_mod_cast e.symm)

/-! ## Launches, odd images, adjointness -/

/-- **C73, launches.**  For every image that is not empty the launch has a thread for each pixel of
a quadrant, whatever order the threads run in, and the others do nothing. -/
theorem C73_launch (image : Nat) (h : 0 < image) :
    ∃ t, imageLaunch image = some t ∧ ∀ order : List (Nat × Nat), order.Perm (nest2 t t) →
      ∃ o, o.Perm (nest2 (image / 2 + 1) (image / 2 + 1)) ∧
        (∀ (grid numW : Nat) (stack : Arr (K × K)) (shift : Nat → Nat → Nat → K × K) (img : Arr K),
          loop (sumThread image grid numW stack shift) img order =
            loop (sumThread image grid numW stack shift) img o) ∧
        (∀ (grid numW : Nat) (img : Arr K) (shift : Nat → Nat → Nat → K × K) (stack : Arr (K × K)),
          loop (reverseThread image grid numW img shift) stack order =
            loop (reverseThread image grid numW img shift) stack o) ∧
        (∀ (kern : Arr K) (nConv : Nat → Nat → K) (img : Arr K),
          loop (scaleThread image kern nConv) img order =
            loop (scaleThread image kern nConv) img o) := by
  have ht : 0 < imageThreads image := by unfold imageThreads; omega
  unfold imageLaunch
  rw [if_neg (by omega)]
  refine ⟨_, rfl, fun order ho => ?_⟩
  have hle := le_blocks (image / 2 + 1) (imageThreads image) ht
  refine ⟨_, launch2 hle hle ho, ?_, ?_, ?_⟩
  · intro grid numW stack shift img
    rw [← loop_filter]
    apply loop_congr
    intro ij _ s
    by_cases hij : ij.1 < image / 2 + 1 ∧ ij.2 < image / 2 + 1
    · rw [if_pos (by simpa using hij)]
    · rw [if_neg (by simpa using hij)]
      unfold sumThread
      rw [if_neg (by omega)]
  · intro grid numW img shift stack
    rw [← loop_filter]
    apply loop_congr
    intro ij _ s
    by_cases hij : ij.1 < image / 2 + 1 ∧ ij.2 < image / 2 + 1
    · rw [if_pos (by simpa using hij)]
    · rw [if_neg (by simpa using hij)]
      unfold reverseThread
      rw [if_neg (by omega)]
  · intro kern nConv img
    rw [← loop_filter]
    apply loop_congr
    intro ij _ s
    by_cases hij : ij.1 < image / 2 + 1 ∧ ij.2 < image / 2 + 1
    · rw [if_pos (by simpa using hij)]
    · rw [if_neg (by simpa using hij)]
      unfold scaleThread
      rw [if_neg (by omega)]

/-- **C73 fails for empty images**: the number of threads is 0 and the number of blocks a division
by zero. -/
theorem C73_empty_false : imageLaunch 0 = none := by decide

/-- **C73 fails for odd images.**  Whatever the layers, the last row and the last column of an image
of odd size are neither summed nor scaled. -/
theorem C73_odd_false (image grid numW : Nat) (hodd : image % 2 = 1) (stack : Arr (K × K))
    (shift : Nat → Nat → Nat → K × K) (hg : image + 1 ≤ grid) (hs : stack.size = numW * (grid * grid))
    (img : Arr K) (hi : img.size = image * image) (kern : Arr K) (hk : kern.size = image / 2 + 1)
    (nConv : Nat → Nat → K) (order : List (Nat × Nat))
    (ho : order.Perm (nest2 (image / 2 + 1) (image / 2 + 1))) :
    ∃ r r', loop (sumThread image grid numW stack shift) img order = some r ∧
      loop (scaleThread image kern nConv) r order = some r' ∧
      ∀ x, x < image → r'.get (image * x + (image - 1)) = img.get (image * x + (image - 1)) ∧
        r'.get (image * (image - 1) + x) = img.get (image * (image - 1) + x) := by
  obtain ⟨r, r1, r2, _, r4⟩ := C73_sum image grid numW stack shift (by omega) hs img hi order ho
  obtain ⟨r', s1, s2, _, s4⟩ := C73_scale image kern hk nConv r (r2.trans hi) order ho
  refine ⟨r, r', r1, s1, fun x hx => ⟨?_, ?_⟩⟩
  · rw [s4 x (image - 1) hx (by omega) (by omega), r4 x (image - 1) hx (by omega) (by omega)]
  · rw [s4 (image - 1) x (by omega) hx (by omega), r4 (image - 1) x (by omega) hx (by omega)]

/-- **C73, adjointness.**  If the screens of the two directions are conjugate (they differ in the sign
of the phase), summing the screened layers into an image is the adjoint of spreading an image to the
layers: for every image and stack the inner products agree. -/
theorem C73_adjoint (image grid numW : Nat) (stack : Arr (K × K)) (shift back : Nat → Nat → Nat → K × K)
    (hconj : ∀ p i j, back p i j = ((shift p i j).1, -(shift p i j).2)) (img : Arr K) :
    (∑ row ∈ range (2 * (image / 2)), ∑ col ∈ range (2 * (image / 2)), img.get (image * row + col) *
      (sgn (offset image row col) * ∑ p ∈ range numW,
        reMul (stack.get (grid * grid * p + gridCell grid (offset image row col)))
          (shift p (offset image row col).2.natAbs (offset image row col).1.natAbs))) =
    ∑ p ∈ range numW, ∑ row ∈ range (2 * (image / 2)), ∑ col ∈ range (2 * (image / 2)),
      (let b := (sgn (offset image row col) * img.get (image * row + col)) •
          back p (offset image row col).2.natAbs (offset image row col).1.natAbs
       let z := stack.get (grid * grid * p + gridCell grid (offset image row col))
       z.1 * b.1 + z.2 * b.2) := by
  symm
  rw [sum_comm]
  apply sum_congr rfl
  intro row _
  rw [sum_comm]
  apply sum_congr rfl
  intro col _
  rw [mul_sum, mul_sum]
  apply sum_congr rfl
  intro p _
  simp only [hconj, reMul, Prod.smul_fst, Prod.smul_snd, smul_eq_mul]
  ring

/-- Non-vacuity: an odd image of 3 pixels a side; only 2 x 2 pixels are summed. -/
example : (loop (sumThread 3 6 1 ⟨36, fun k => ((k : ℚ), 1)⟩ (fun _ _ _ => (1, 0))) ⟨9, fun _ => 0⟩
      (nest2 2 2)).map (fun r => (List.range 9).map r.get) = some [14, -15, 0, -20, 21, 0, 0, 0, 0] := by
  decide +kernel

end Sdp.EsFft
