import Verif.Fft.Backend
import Verif.Fft.CallProps
import Verif.Mem.Lemmas
import Verif.EsFft.KernelProps

/-!
# Facts about multi-indices and the library transforms
-/

namespace Sdp.Fft
open Complex MemSpec
noncomputable section

/-! ## Multi-indices -/

theorem mem_box {k ns : List Int} : k ∈ box ns ↔ InRange k ns := by
  induction ns generalizing k with
  | nil =>
    simp only [box, List.mem_singleton, InRange]
    constructor
    · rintro rfl; exact .nil
    · intro h; cases h; rfl
  | cons n ns ih =>
    simp only [box, List.mem_flatMap, List.mem_range, List.mem_map]
    constructor
    · rintro ⟨i, hi, k', hk', rfl⟩
      exact .cons ⟨by omega, by omega⟩ (ih.1 hk')
    · intro h
      cases h with
      | cons h1 h2 =>
        rename_i i k'
        exact ⟨i.toNat, by omega, k', ih.2 h2, by rw [Int.toNat_of_nonneg h1.1]⟩

theorem box_append (pre ns : List Int) :
    box (pre ++ ns) = (box pre).flatMap fun f => (box ns).map fun k => f ++ k := by
  induction pre with
  | nil => simp [box]
  | cons n pre ih =>
    simp only [List.cons_append, box, ih, List.flatMap_assoc, List.map_flatMap, List.flatMap_map, List.map_map]
    rfl

theorem box_nodup (ns : List Int) : (box ns).Nodup := by
  induction ns with
  | nil => simp [box]
  | cons n ns ih =>
    simp only [box]
    rw [List.nodup_flatMap]
    refine ⟨fun i _ => ih.map fun a b h => (List.cons.inj h).2, ?_⟩
    refine List.nodup_range.imp ?_
    intro a b hab
    simp only [Function.onFun, List.disjoint_left, List.mem_map]
    rintro _ ⟨x, -, rfl⟩ ⟨y, -, h⟩
    exact hab (by have := (List.cons.inj h).1; omega)

theorem inRange_length {k ns : List Int} (h : InRange k ns) : k.length = ns.length := List.Forall₂.length_eq h

theorem inRange_append {f k pre ns : List Int} (h1 : InRange f pre) (h2 : InRange k ns) :
    InRange (f ++ k) (pre ++ ns) := List.rel_append h1 h2

theorem getD_left (a b : List Int) (j : Nat) (h : j < a.length) : (a ++ b).getD j 0 = a.getD j 0 := by
  simp only [List.getD_eq_getElem?_getD, List.getElem?_append_left h]

theorem getD_right (a b : List Int) (j : Nat) : (a ++ b).getD (a.length + j) 0 = b.getD j 0 := by
  rw [List.getD_eq_getElem?_getD, List.getElem?_append_right (by omega), List.getD_eq_getElem?_getD]
  congr 2; omega

theorem flatMap_pick {α β : Type} [DecidableEq α] (l : List α) (hn : l.Nodup) (f : α) (hf : f ∈ l) (A : List β) :
    (l.flatMap fun x => if x = f then A else []) = A := by
  induction l with
  | nil => simp at hf
  | cons x l ih =>
    rw [List.nodup_cons] at hn
    rw [List.flatMap_cons]
    by_cases c : x = f
    · subst c
      rw [if_pos rfl]
      have : (l.flatMap fun y => if y = x then A else []) = [] := by
        rw [List.flatMap_eq_nil_iff]
        intro y hy
        rw [if_neg]
        rintro rfl
        exact hn.1 hy
      rw [this, List.append_nil]
    · rw [if_neg c, List.nil_append]
      exact ih hn.2 ((List.mem_cons.1 hf).resolve_left fun h => c h.symm)

theorem rowPos_eq (ns k : List Int) : rowPos ns k = flatIndex k ns := by
  induction ns generalizing k with
  | nil => cases k <;> rfl
  | cons n ns ih =>
    cases k with
    | nil => rfl
    | cons i k =>
      simp only [rowPos, flatIndex, ih]
      rfl

theorem embedPos_aux (ns k : List Int) (h : k.length = ns.length) (a : Int) :
    (ns.zip k).foldl (fun a p => a * p.1 + p.2) a = a * ns.prod + flatIndex k ns := by
  induction ns generalizing k a with
  | nil => cases k <;> simp [flatIndex]
  | cons n ns ih =>
    cases k with
    | nil => simp at h
    | cons i k =>
      simp only [List.zip_cons_cons, List.foldl_cons, flatIndex, List.prod_cons]
      rw [ih k (by simpa using h)]
      ring

theorem embedPos_eq (ns k : List Int) (h : k.length = ns.length) : embedPos ns k = flatIndex k ns := by
  unfold embedPos
  rw [embedPos_aux ns k h]
  simp

theorem element_mul (e x : Int) (he : 0 < e) : element e (e * x) = x := by
  unfold element
  rw [if_pos (Dvd.intro x rfl), Int.mul_ediv_cancel_left _ (by omega)]

/-- The product over the axes is the product over the dimensions. -/
theorem axes_waves (sign : Int) (ns s k : List Int) (hs : s.length = ns.length) (hk : k.length = ns.length) :
    ((List.range ns.length).map fun j => waveI sign (ns.getD j 0) (s.getD j 0) (k.getD j 0)).prod =
      waves sign ns s k := by
  induction ns generalizing s k with
  | nil => cases s <;> cases k <;> simp [waves]
  | cons n ns ih =>
    cases s with
    | nil => simp at hs
    | cons a s =>
      cases k with
      | nil => simp at hk
      | cons b k =>
        simp only [List.length_cons, List.range_succ_eq_map, List.map_cons, List.prod_cons, List.map_map, waves]
        rw [← ih s k (by simpa using hs) (by simpa using hk)]
        simp [Function.comp_def]

/-- The sources of an output of PocketFFT. -/
theorem pocket_sources (pre ns f k : List Int) (hf : InRange f pre) (hk : k.length = ns.length) (axes : List Nat)
    (ha : ∀ j, j ∈ axes ↔ pre.length ≤ j ∧ j < pre.length + ns.length) :
    ((box (pre ++ ns)).filter fun s => (List.range (pre ++ ns).length).all fun j =>
      j ∈ axes || s.getD j 0 == (f ++ k).getD j 0) = (box ns).map fun s => f ++ s := by
  rw [box_append, List.filter_flatMap]
  rw [← flatMap_pick (box pre) (box_nodup pre) f (mem_box.2 hf) ((box ns).map fun s => f ++ s)]
  refine List.flatMap_congr fun f' hf' => ?_
  have hl' := inRange_length (mem_box.1 hf')
  have hl := inRange_length hf
  by_cases c : f' = f
  · subst c
    rw [if_pos rfl, List.filter_eq_self]
    intro x hx
    rw [List.mem_map] at hx
    obtain ⟨s, hs, rfl⟩ := hx
    rw [List.all_eq_true]
    intro j hj
    rw [List.mem_range, List.length_append] at hj
    by_cases d : j < pre.length
    · have : (f' ++ s).getD j 0 = (f' ++ k).getD j 0 := by
        rw [getD_left _ _ _ (by omega), getD_left _ _ _ (by omega)]
      rw [this]; simp
    · have : j ∈ axes := (ha j).2 ⟨by omega, hj⟩
      simp [this]
  · rw [if_neg c, List.filter_eq_nil_iff]
    intro x hx
    rw [List.mem_map] at hx
    obtain ⟨s, hs, rfl⟩ := hx
    rw [List.all_eq_true]
    intro h
    apply c
    apply List.ext_getElem (by omega)
    intro j h1 h2
    have h3 := h j (List.mem_range.2 (by rw [List.length_append]; omega))
    have h4 : j ∉ axes := fun hj => by have := ((ha j).1 hj).1; omega
    simp only [h4, decide_false, Bool.false_or, beq_iff_eq] at h3
    rw [getD_left _ _ _ (by omega), getD_left _ _ _ (by omega)] at h3
    simpa [List.getD, List.getElem?_eq_getElem h1, List.getElem?_eq_getElem h2] using h3

/-! ## Library transforms -/

theorem transforms_spec {κ : Type} (ks : List κ) (src : κ → List κ) (w : κ → κ → ℂ) (ain aout : κ → Int)
    (inp out : Arr ℂ) (hin : ∀ k ∈ ks, ∀ s ∈ src k, 0 ≤ ain s ∧ ain s < inp.size)
    (hout : ∀ k ∈ ks, 0 ≤ aout k ∧ aout k < out.size) (hn : (ks.map aout).Nodup) :
    ∃ r, transforms ks src w ain aout inp out = some r ∧ r.size = out.size ∧
      ∀ k ∈ ks, r.get (aout k).toNat = ((src k).map fun s => w s k * inp.get (ain s).toNat).sum := by
  obtain ⟨r, e, z, v, -⟩ := Arr.store_spec ks aout
    (fun k => ((src k).map fun s => w s k * inp.get (ain s).toNat).sum) hn out hout
  refine ⟨r, ?_, z, v⟩
  unfold transforms
  rw [← e]
  apply loop_congr
  intro k hk a
  have : ((src k).mapM fun s => (inp.read (ain s)).map (w s k * ·)) =
      some ((src k).map fun s => w s k * inp.get (ain s).toNat) := by
    refine EsFft.mapM_some _ _ _ fun s hs => ?_
    obtain ⟨h1, h2⟩ := hin k hk s hs
    unfold Arr.read
    rw [if_pos ⟨h1, h2⟩]
    rfl
  rw [this]
  rfl

/-- What a library transform of the last dimensions `ns` must have put into `r`. -/
def Boxed (pre ns : List Int) (sign : Int) (inp r : Arr ℂ) : Prop :=
  ∀ f k, InRange f pre → InRange k ns → r.get (flatIndex (f ++ k) (pre ++ ns)).toNat =
    ((box ns).map fun s => waves sign ns s k * inp.get (flatIndex (f ++ s) (pre ++ ns)).toNat).sum

theorem pocket_ok (e : Int) (he : 0 < e) (pre ns sin sout : List Int) (sign : Int) (inp out : Arr ℂ)
    (h1 : RowMajor e (pre ++ ns) sin) (h2 : RowMajor e (pre ++ ns) sout) (z1 : (inp.size : Int) = (pre ++ ns).prod)
    (z2 : (out.size : Int) = (pre ++ ns).prod) :
    ∃ r, pocketC2c e (pre ++ ns) sin sout ((List.range ns.length).map fun i => pre.length + i) sign inp out = some r ∧
      r.size = out.size ∧ Boxed pre ns sign inp r := by
  have a1 : ∀ k, InRange k (pre ++ ns) → element e (dot k sin) = flatIndex k (pre ++ ns) := fun k hk => by
    have := byteAddr_rowMajor e _ sin k h1 (inRange_length hk)
    unfold byteAddr at this
    unfold dot
    rw [this, element_mul _ _ he]
  have a2 : ∀ k, InRange k (pre ++ ns) → element e (dot k sout) = flatIndex k (pre ++ ns) := fun k hk => by
    have := byteAddr_rowMajor e _ sout k h2 (inRange_length hk)
    unfold byteAddr at this
    unfold dot
    rw [this, element_mul _ _ he]
  obtain ⟨r, e1, e2, e3⟩ := transforms_spec (box (pre ++ ns))
    (fun k => (box (pre ++ ns)).filter fun s => (List.range (pre ++ ns).length).all fun j =>
      j ∈ (List.range ns.length).map (fun i => pre.length + i) || s.getD j 0 == k.getD j 0)
    (fun s k => (((List.range ns.length).map fun i => pre.length + i).map fun j =>
      waveI sign ((pre ++ ns).getD j 0) (s.getD j 0) (k.getD j 0)).prod)
    (fun s => element e (dot s sin)) (fun k => element e (dot k sout)) inp out
    (by
      intro k _ s hs
      have hs' := mem_box.1 (List.mem_filter.1 hs).1
      simp only [a1 s hs', z1]
      exact flatIndex_bounds hs')
    (by
      intro k hk
      have hk' := mem_box.1 hk
      simp only [a2 k hk', z2]
      exact flatIndex_bounds hk')
    (by
      refine (List.nodup_map_iff_inj_on (box_nodup _)).2 fun x hx y hy h => ?_
      simp only [a2 x (mem_box.1 hx), a2 y (mem_box.1 hy)] at h
      exact flatIndex_inj (mem_box.1 hx) (mem_box.1 hy) h)
  refine ⟨r, e1, e2, fun f k hf hk => ?_⟩
  have hfk := inRange_append hf hk
  have := e3 (f ++ k) (mem_box.2 hfk)
  simp only [a2 _ hfk] at this
  rw [this, pocket_sources pre ns f k hf (inRange_length hk)]
  · rw [List.map_map]
    congr 1
    refine List.map_congr_left fun s hs => ?_
    have hs' := mem_box.1 hs
    simp only [Function.comp_def, List.map_map, a1 _ (inRange_append hf hs')]
    congr 1
    rw [← axes_waves sign ns s k (inRange_length hs') (inRange_length hk)]
    congr 1
    refine List.map_congr_left fun j _ => ?_
    rw [getD_right]
    rw [← inRange_length hf, getD_right, getD_right]
  · intro j
    rw [List.mem_map]
    constructor
    · rintro ⟨i, hi, rfl⟩
      have := List.mem_range.1 hi
      exact ⟨by omega, by omega⟩
    · rintro ⟨h3, h4⟩
      exact ⟨j - pre.length, List.mem_range.2 (by omega), by omega⟩

theorem batched_ok (pre ns : List Int) (count : Int) (hc : (pre = [] ∧ count = 1) ∨ pre = [count]) (sign : Int)
    (ain aout : Int × List Int → Int)
    (h1 : ∀ t k, 0 ≤ t → t < count → InRange k ns → ain (t, k) = t * ns.prod + flatIndex k ns)
    (h2 : ∀ t k, 0 ≤ t → t < count → InRange k ns → aout (t, k) = t * ns.prod + flatIndex k ns)
    (inp out : Arr ℂ) (z1 : (inp.size : Int) = (pre ++ ns).prod) (z2 : (out.size : Int) = (pre ++ ns).prod) :
    ∃ r, transforms ((List.range count.toNat).flatMap fun (t : Nat) => (box ns).map fun k => ((t : Int), k))
        (fun p => (box ns).map fun s => (p.1, s)) (fun s k => waves sign ns s.2 k.2) ain aout inp out = some r ∧
      r.size = out.size ∧ Boxed pre ns sign inp r := by
  have tot : (pre ++ ns).prod = count * ns.prod := by
    rcases hc with ⟨rfl, rfl⟩ | rfl <;> simp
  have memk : ∀ p : Int × List Int, p ∈ ((List.range count.toNat).flatMap fun (t : Nat) =>
      (box ns).map fun k => ((t : Int), k)) ↔ 0 ≤ p.1 ∧ p.1 < count ∧ InRange p.2 ns := by
    intro p
    simp only [List.mem_flatMap, List.mem_map, List.mem_range]
    constructor
    · rintro ⟨t, ht, k, hk, rfl⟩
      exact ⟨by simp, by simp only; omega, mem_box.1 hk⟩
    · rintro ⟨g1, g2, g3⟩
      exact ⟨p.1.toNat, by omega, p.2, mem_box.2 g3, by rw [Int.toNat_of_nonneg g1]⟩
  have bound : ∀ t k, 0 ≤ t → t < count → InRange k ns → 0 ≤ t * ns.prod + flatIndex k ns ∧
      t * ns.prod + flatIndex k ns < count * ns.prod := by
    intro t k g1 g2 g3
    obtain ⟨b1, b2⟩ := flatIndex_bounds g3
    have b3 : 0 ≤ ns.prod := by omega
    exact ⟨by positivity, by nlinarith⟩
  have inj : ∀ t k t' k', 0 ≤ t → 0 ≤ t' → InRange k ns → InRange k' ns →
      t * ns.prod + flatIndex k ns = t' * ns.prod + flatIndex k' ns → t = t' ∧ k = k' := by
    intro t k t' k' g1 g1' g2 g2' h
    obtain ⟨b1, b2⟩ := flatIndex_bounds g2
    obtain ⟨b1', b2'⟩ := flatIndex_bounds g2'
    have ht : t = t' := by
      have e1 : (t * ns.prod + flatIndex k ns) / ns.prod = t := by
        rw [add_comm, Int.add_mul_ediv_right _ _ (by omega), Int.ediv_eq_zero_of_lt b1 b2, zero_add]
      have e2 : (t' * ns.prod + flatIndex k' ns) / ns.prod = t' := by
        rw [add_comm, Int.add_mul_ediv_right _ _ (by omega), Int.ediv_eq_zero_of_lt b1' b2', zero_add]
      rw [← e1, ← e2, h]
    subst ht
    exact ⟨rfl, flatIndex_inj g2 g2' (by omega)⟩
  obtain ⟨r, e1, e2, e3⟩ := transforms_spec
    ((List.range count.toNat).flatMap fun (t : Nat) => (box ns).map fun k => ((t : Int), k))
    (fun p => (box ns).map fun s => (p.1, s)) (fun s k => waves sign ns s.2 k.2) ain aout inp out
    (by
      intro p hp s hs
      obtain ⟨g1, g2, -⟩ := (memk p).1 hp
      rw [List.mem_map] at hs
      obtain ⟨s', hs', rfl⟩ := hs
      rw [h1 _ _ g1 g2 (mem_box.1 hs'), z1, tot]
      exact bound _ _ g1 g2 (mem_box.1 hs'))
    (by
      intro p hp
      obtain ⟨g1, g2, g3⟩ := (memk p).1 hp
      rw [show p = (p.1, p.2) from rfl, h2 _ _ g1 g2 g3, z2, tot]
      exact bound _ _ g1 g2 g3)
    (by
      refine (List.nodup_map_iff_inj_on ?_).2 fun x hx y hy h => ?_
      · rw [List.nodup_flatMap]
        refine ⟨fun t _ => (box_nodup ns).map fun a b h => (Prod.mk.inj h).2, List.nodup_range.imp ?_⟩
        intro a b hab
        simp only [Function.onFun, List.disjoint_left, List.mem_map]
        rintro _ ⟨x, -, rfl⟩ ⟨y, -, h⟩
        exact hab (by have := (Prod.mk.inj h).1; omega)
      · obtain ⟨g1, g2, g3⟩ := (memk x).1 hx
        obtain ⟨g1', g2', g3'⟩ := (memk y).1 hy
        rw [show x = (x.1, x.2) from rfl, show y = (y.1, y.2) from rfl, h2 _ _ g1 g2 g3, h2 _ _ g1' g2' g3'] at h
        obtain ⟨q1, q2⟩ := inj _ _ _ _ g1 g1' g3 g3' h
        exact Prod.ext q1 q2)
  refine ⟨r, e1, e2, fun f k hf hk => ?_⟩
  obtain ⟨t, g1, g2, g3⟩ : ∃ t, 0 ≤ t ∧ t < count ∧
      ∀ k, flatIndex (f ++ k) (pre ++ ns) = t * ns.prod + flatIndex k ns := by
    rcases hc with ⟨rfl, rfl⟩ | rfl
    · cases hf
      exact ⟨0, le_refl _, by omega, fun k => by simp⟩
    · cases hf with
      | cons g g' =>
        cases g'
        rename_i t
        exact ⟨t, g.1, g.2, fun k => rfl⟩
  have := e3 (t, k) ((memk _).2 ⟨g1, g2, hk⟩)
  rw [h2 _ _ g1 g2 hk] at this
  rw [g3, this, List.map_map]
  congr 1
  refine List.map_congr_left fun s hs => ?_
  simp only [Function.comp_def]
  rw [h1 _ _ g1 g2 (mem_box.1 hs), g3]

end
end Sdp.Fft
