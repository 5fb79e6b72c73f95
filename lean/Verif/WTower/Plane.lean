import Verif.Clamp.Rows
import Verif.WTower.Spec
import Verif.WTower.Kernel

/-!
# C40: (de)gridding one w-plane
-/

set_option linter.unusedSectionVars false

namespace Sdp.WTower
open Sdp.Clamp Finset

variable {K : Type} [Field K] [LinearOrder K] [IsStrictOrderedRing K] [FloorRing K]
variable {R : Type} [CommRing R]

theorem read_lt {α : Type} (a : Arr α) (i : Nat) (h : i < a.size) :
    a.read (i : Int) = some (a.get i) := by
  rw [Arr.read_nat, if_pos h]

theorem lin_eq (ob : Obs K) (x sh : K) (c : Int) :
    start0 ob x sh + (c : K) * step0 ob x = invLambda ob c * x - sh := by
  unfold start0 step0 invLambda
  ring

theorem boundsOk_iff (pl : Plan K R) (u0 du : K) (s e : Int) :
    boundsOk pl u0 du s e = true ↔
      EdgeOk pl (u0 + (s : K) * du) (u0 + ((e - 1 : Int) : K) * du) := by
  unfold boundsOk EdgeOk
  rw [Bool.not_eq_true', Bool.or_eq_false_iff, decide_eq_false_iff_not, decide_eq_false_iff_not]
  omega

/-- The selected channels are exactly the used ones. -/
theorem rowSel_ok (pl : Plan K R) (ob : Obs K) (p : Int) (m : Nat) (ho : ob.Made m) (i : Nat)
    (hi : i < m) :
    ∃ r, rowSel pl ob p i = some r ∧ ∀ c, (r.1 ≤ c ∧ c < r.2) ↔ Used pl ob p i c := by
  have h1 := ho.uvw; have h2 := ho.s; have h3 := ho.e
  unfold rowSel
  rw [read_lt _ _ (by omega), read_lt _ _ (by omega)]
  simp only [Option.bind_some]
  by_cases hse : ob.endChs.get i ≤ ob.startChs.get i
  · rw [if_pos hse]
    refine ⟨_, rfl, fun c => ⟨fun h => by simp only at h; omega, fun h => ?_⟩⟩
    obtain ⟨⟨a, b, _⟩, _⟩ := h
    omega
  · rw [if_neg hse, read_lt _ _ (by omega), read_lt _ _ (by omega), read_lt _ _ (by omega)]
    simp only [Option.bind_some]
    obtain ⟨s', e', hc, hsel, hne⟩ := C34_inline ob.c0 (ob.uvw.get (3 * i + 2)) ob.f0 ob.df
      (((p + ob.offW - 1 : Int) : K) * pl.wStep) (((p + ob.offW : Int) : K) * pl.wStep)
      (ob.startChs.get i) (ob.endChs.get i)
    have hon : ∀ c, (s' ≤ c ∧ c < e') ↔ OnPlane pl ob p i c := by
      intro c
      rw [hsel c]
      unfold OnPlane
      push_cast
      rfl
    rw [hc]
    simp only [Option.bind_some]
    by_cases hemp : e' ≤ s'
    · rw [if_pos hemp]
      refine ⟨_, rfl, fun c => ⟨fun h => by simp only at h; omega, fun h => ?_⟩⟩
      have := (hon c).2 h.1
      omega
    · rw [if_neg hemp]
      refine ⟨_, rfl, fun c => ?_⟩
      have key : (boundsOk pl (start0 ob (ob.uvw.get (3 * i)) (ob.offU / pl.theta))
            (step0 ob (ob.uvw.get (3 * i))) s' e' &&
          boundsOk pl (start0 ob (ob.uvw.get (3 * i + 1)) (ob.offV / pl.theta))
            (step0 ob (ob.uvw.get (3 * i + 1))) s' e') = true ↔
          EdgeOk pl (uAt pl ob i s') (uAt pl ob i (e' - 1)) ∧
            EdgeOk pl (vAt pl ob i s') (vAt pl ob i (e' - 1)) := by
        rw [Bool.and_eq_true, boundsOk_iff, boundsOk_iff, lin_eq, lin_eq, lin_eq, lin_eq]
        rfl
      have os : OnPlane pl ob p i s' := (hon s').1 (by omega)
      have oe : OnPlane pl ob p i (e' - 1) := (hon _).1 (by omega)
      by_cases hb : (boundsOk pl (start0 ob (ob.uvw.get (3 * i)) (ob.offU / pl.theta))
            (step0 ob (ob.uvw.get (3 * i))) s' e' &&
          boundsOk pl (start0 ob (ob.uvw.get (3 * i + 1)) (ob.offV / pl.theta))
            (step0 ob (ob.uvw.get (3 * i + 1))) s' e') = true
      · rw [if_pos hb]
        have hk := key.1 hb
        refine ⟨fun h => ⟨(hon c).1 h, s', e' - 1, os, oe, fun d hd => ?_, hk.1, hk.2⟩,
          fun h => (hon c).2 h.1⟩
        have := (hon d).2 hd
        omega
      · rw [if_neg hb]
        refine ⟨fun h => by simp only at h; omega, fun h => ?_⟩
        exfalso
        apply hb
        rw [key]
        obtain ⟨_, a, b, ha, hb', hall, k1, k2⟩ := h
        have ea : a = s' := by
          have x1 := (hall s' os).1
          have x2 := ((hon a).2 ha).1
          omega
        have eb : b = e' - 1 := by
          have x1 := (hall _ oe).2
          have x2 := ((hon b).2 hb').2
          omega
        rw [ea, eb] at k1 k2
        exact ⟨k1, k2⟩

theorem posOv_eq (pl : Plan K R) (u : K) : posOv pl u = pos pl u := by
  unfold posOv pos halfOv
  rw [show u * (pl.theta * (pl.ov : K)) = pl.theta * pl.ov * u by ring]

/-- The cell of a fitting visibility: inside all tables, with the specified weights. -/
theorem cell_ok (pl : Plan K R) (hm : pl.Made) (ob : Obs K) (p : Int) (m : Nat)
    (ho : ob.Made m) (i : Nat) (hi : i < m) (c : Int) (hf : Fits pl ob p i c) :
    ∃ q cl, coords pl ob p i c = some q ∧ cell pl q = some cl ∧ cl.Ok pl ∧
      ∀ k x y, weight pl cl k x y = wt pl ob p i c k x y := by
  have h1 := ho.uvw; have h2 := ho.s; have h3 := ho.e
  have hov := hm.ov; have hwov := hm.wOv
  obtain ⟨⟨u1, u2⟩, ⟨v1, v2⟩, w1⟩ := hf
  refine ⟨(uAt pl ob i c, vAt pl ob i c, wAt pl ob p i c),
    { iu0 := pos pl (uAt pl ob i c) / pl.ov
      iv0 := pos pl (vAt pl ob i c) / pl.ov
      uOff := pl.support * (pos pl (uAt pl ob i c) % pl.ov)
      vOff := pl.support * (pos pl (vAt pl ob i c) % pl.ov)
      wOff := pl.wSupport * (rnd (wAt pl ob p i c / pl.wStep * pl.wOv) % pl.wOv) },
    ?_, ?_, ?_, ?_⟩
  · unfold coords
    rw [read_lt _ _ (by omega), read_lt _ _ (by omega), read_lt _ _ (by omega)]
    simp only [Option.bind_some]
    rw [lin_eq, lin_eq, lin_eq]
    unfold uAt vAt wAt
    push_cast
    rfl
  · unfold cell
    rw [if_neg (by omega)]
    simp only
    rw [posOv_eq, posOv_eq, Int.tdiv_eq_ediv_of_nonneg u1, Int.tdiv_eq_ediv_of_nonneg v1,
      Int.tmod_eq_emod_of_nonneg u1, Int.tmod_eq_emod_of_nonneg v1]
    rw [show wAt pl ob p i c * (1 / pl.wStep * (pl.wOv : K)) =
      wAt pl ob p i c / pl.wStep * pl.wOv by ring, Int.tmod_eq_emod_of_nonneg w1]
    rw [Int.mul_comm (pos pl (uAt pl ob i c) % pl.ov), Int.mul_comm (pos pl (vAt pl ob i c) % pl.ov),
      Int.mul_comm (_ % (pl.wOv : Int))]
  · have hov' : (0 : Int) < pl.ov := by omega
    have hwov' : (0 : Int) < pl.wOv := by omega
    have lo : ∀ P : Int, 0 ≤ P → P < ((pl.n : Int) - pl.support + 1) * pl.ov →
        0 ≤ P / pl.ov ∧ P / pl.ov + pl.support ≤ pl.n := by
      intro P a b
      refine ⟨Int.ediv_nonneg a hov'.le, ?_⟩
      have := Int.ediv_lt_of_lt_mul hov' b
      omega
    have row : ∀ (P : Int) (s o : Nat), (0 : Int) < o → 0 ≤ (s : Int) * (P % o) ∧
        (s : Int) * (P % o) + s ≤ (((o + 1) * s : Nat) : Int) := by
      intro P s o ho
      have a := Int.emod_nonneg P ho.ne'
      have b := Int.emod_lt_of_pos P ho
      refine ⟨Int.mul_nonneg (by omega) a, ?_⟩
      push_cast
      nlinarith
    have hu := lo _ u1 u2
    have hv := lo _ v1 v2
    have ru := row (pos pl (uAt pl ob i c)) pl.support pl.ov hov'
    have rv := row (pos pl (vAt pl ob i c)) pl.support pl.ov hov'
    have rw' := row (rnd (wAt pl ob p i c / pl.wStep * pl.wOv)) pl.wSupport pl.wOv hwov'
    refine ⟨hu.1, hu.2, hv.1, hv.2, ru.1, ?_, rv.1, ?_, rw'.1, ?_⟩
    · rw [hm.uv]; exact ru.2
    · rw [hm.uv]; exact rv.2
    · rw [hm.w]; exact rw'.2
  · intro k x y
    rfl

/-- Channels of row `i` the code loops over. -/
def chans (pl : Plan K R) (ob : Obs K) (p : Int) (i : Nat) : List Int :=
  ((rowSel pl ob p i).map fun r => rowsOf r.1 r.2).getD []

theorem mem_chans (pl : Plan K R) (ob : Obs K) (p : Int) (m : Nat) (ho : ob.Made m) (i : Nat)
    (hi : i < m) (c : Int) : c ∈ chans pl ob p i ↔ Used pl ob p i c := by
  obtain ⟨r, h1, h2⟩ := rowSel_ok pl ob p m ho i hi
  unfold chans
  rw [h1]
  simp only [Option.map_some, Option.getD_some]
  rw [mem_rowsOf, h2]

theorem chans_nodup (pl : Plan K R) (ob : Obs K) (p : Int) (i : Nat) :
    (chans pl ob p i).Nodup := by
  unfold chans
  cases rowSel pl ob p i with
  | none => simp
  | some r => simpa using rowsOf_nodup r.1 r.2

theorem used_range (pl : Plan K R) (ob : Obs K) (p : Int) (m : Nat) (ho : ob.Made m) (i : Nat)
    (hi : i < m) (c : Int) (h : Used pl ob p i c) : 0 ≤ c ∧ c < ob.numChan := by
  obtain ⟨⟨c1, c2, _⟩, _⟩ := h
  have a := ho.lo i hi (by omega)
  have b := ho.hi i hi (by omega)
  omega

theorem visIdx_ok (ob : Obs K) (i : Nat) (c : Int) (h : 0 ≤ c ∧ c < ob.numChan) :
    visIdx ob i c = some ((ob.numChan * i + c.toNat : Nat) : Int) := by
  unfold visIdx
  rw [if_pos h]
  unfold index2
  congr 1
  push_cast
  omega

/-- All visibilities of a plane, in the order in which they are handled. -/
def events (pl : Plan K R) (ob : Obs K) (p : Int) (order : List Nat) : List (Nat × Int) :=
  order.flatMap fun i => (chans pl ob p i).map fun c => (i, c)

theorem mem_events (pl : Plan K R) (ob : Obs K) (p : Int) (m : Nat) (ho : ob.Made m)
    (order : List Nat) (hord : ∀ i ∈ order, i < m) (z : Nat × Int) :
    z ∈ events pl ob p order ↔ z.1 ∈ order ∧ Used pl ob p z.1 z.2 := by
  unfold events
  rw [List.mem_flatMap]
  constructor
  · rintro ⟨i, hi, hz⟩
    obtain ⟨c, hc, rfl⟩ := List.mem_map.1 hz
    exact ⟨hi, (mem_chans pl ob p m ho i (hord i hi) c).1 hc⟩
  · rintro ⟨hi, hu⟩
    exact ⟨z.1, hi, List.mem_map.2 ⟨z.2, (mem_chans pl ob p m ho z.1 (hord _ hi) z.2).2 hu, rfl⟩⟩

theorem events_nodup (pl : Plan K R) (ob : Obs K) (p : Int) (order : List Nat)
    (hn : order.Nodup) : (events pl ob p order).Nodup := by
  unfold events
  rw [List.nodup_flatMap]
  refine ⟨fun i _ => (chans_nodup pl ob p i).map fun a b h => by simpa using h, ?_⟩
  refine hn.imp ?_
  intro a b hab
  rw [Function.onFun, List.disjoint_left]
  rintro z hz hz'
  obtain ⟨c, _, rfl⟩ := List.mem_map.1 hz
  obtain ⟨d, _, h⟩ := List.mem_map.1 hz'
  simp only [Prod.mk.injEq] at h
  exact hab h.1.symm

theorem sum_single {α M : Type} [AddCommMonoid M] (l : List α) (f : α → M) (z : α)
    (hn : l.Nodup) (hz : z ∈ l) (ho : ∀ a ∈ l, a ≠ z → f a = 0) : (l.map f).sum = f z := by
  induction l with
  | nil => simp at hz
  | cons b l ih =>
    rw [List.map_cons, List.sum_cons]
    obtain ⟨n1, n2⟩ := List.nodup_cons.1 hn
    rcases List.mem_cons.1 hz with rfl | hz
    · have : (l.map f).sum = 0 := by
        apply List.sum_eq_zero
        intro w hw
        obtain ⟨a, ha, rfl⟩ := List.mem_map.1 hw
        exact ho a (by simp [ha]) (fun hh => n1 (hh ▸ ha))
      rw [this, add_zero]
    · rw [ho b (by simp) (fun hh => n1 (hh ▸ hz)), zero_add]
      exact ih n2 hz (fun a ha => ho a (by simp [ha]))

/-- **C40, degridding.**  If the footprints of all visibilities used on the plane are inside
the tower, degridding adds to each visibility the weighted sum of tower pixels; rows outside
the range and visibilities not on the plane keep their values.  `order` is any order of the
rows (the row loop is parallel). -/
theorem C40_degrid (pl : Plan K R) (hm : pl.Made) (ob : Obs K) (p : Int) (m : Nat)
    (ho : ob.Made m) (T : Arr R) (hT : T.size = pl.wSupport * (pl.n * pl.n)) (order : List Nat)
    (hord : ∀ i ∈ order, i < m) (hnd : order.Nodup)
    (hfit : ∀ i ∈ order, ∀ c, Used pl ob p i c → Fits pl ob p i c) (vis : Arr R)
    (hv : vis.size = m * ob.numChan) :
    ∃ r, degridPlane pl ob p T order vis = some r ∧ r.size = vis.size ∧
      (∀ i ∈ order, ∀ c, c < ob.numChan → visAt ob r i c =
        visAt ob vis i c + degridSum pl ob p (tower pl T) i c) ∧
      (∀ i, i < m → i ∉ order → ∀ c, c < ob.numChan → visAt ob r i c = visAt ob vis i c) := by
  -- one visibility
  have one : ∀ z ∈ events pl ob p order, ∀ vis : Arr R,
      degridOne pl ob p T z.1 vis z.2 = vis.addAt ((ob.numChan * z.1 + z.2.toNat : Nat) : Int)
        (∑ k ∈ range pl.wSupport, ∑ x ∈ range pl.n, ∑ y ∈ range pl.n,
          wt pl ob p z.1 z.2 k x y * tower pl T k x y) := by
    intro z hz vis
    obtain ⟨hi, hu⟩ := (mem_events pl ob p m ho order hord z).1 hz
    obtain ⟨q, cl, h1, h2, h3, h4⟩ := cell_ok pl hm ob p m ho z.1 (hord _ hi) z.2 (hfit _ hi _ hu)
    unfold degridOne
    rw [h1]
    simp only [Option.bind_some]
    rw [h2]
    simp only [Option.bind_some]
    rw [degridVis_ok pl cl h3 T hT]
    simp only [Option.bind_some]
    rw [visIdx_ok _ _ _ (used_range pl ob p m ho z.1 (hord _ hi) z.2 hu)]
    simp only [Option.bind_some]
    congr 1
    refine sum_congr rfl fun k _ => sum_congr rfl fun x _ => sum_congr rfl fun y _ => ?_
    rw [h4]
    unfold tower
    rw [show pl.n * (pl.n * k + x) + y = (k * pl.n + x) * pl.n + y by ring]
  -- the whole plane
  have flat : degridPlane pl ob p T order vis =
      loop (fun vis z => degridOne pl ob p T z.1 vis z.2) vis (events pl ob p order) := by
    unfold degridPlane events
    rw [loop_flatMap]
    apply loop_congr
    intro i hi vis
    rw [loop_map]
    unfold degridRow chans
    obtain ⟨r, h1, _⟩ := rowSel_ok pl ob p m ho i (hord i hi)
    rw [h1]
    rfl
  rw [flat, loop_congr _ _ _ _ one]
  obtain ⟨r, h1, h2, h3⟩ := Arr.accum_spec (events pl ob p order)
    (fun z => ((ob.numChan * z.1 + z.2.toNat : Nat) : Int))
    (fun z => ∑ k ∈ range pl.wSupport, ∑ x ∈ range pl.n, ∑ y ∈ range pl.n,
          wt pl ob p z.1 z.2 k x y * tower pl T k x y) vis (by
      intro z hz
      obtain ⟨hi, hu⟩ := (mem_events pl ob p m ho order hord z).1 hz
      have := used_range pl ob p m ho z.1 (hord _ hi) z.2 hu
      have := flat_lt (hord _ hi) (j := z.2.toNat) (b := ob.numChan) (by omega)
      rw [hv]
      omega)
  have hit : ∀ (i c : Nat), c < ob.numChan → ∀ z ∈ events pl ob p order,
      (((ob.numChan * z.1 + z.2.toNat : Nat) : Int) = ((i * ob.numChan + c : Nat) : Int)) →
      z = (i, (c : Int)) := by
    intro i c hc z hz he
    obtain ⟨hi, hu⟩ := (mem_events pl ob p m ho order hord z).1 hz
    have hr := used_range pl ob p m ho z.1 (hord _ hi) z.2 hu
    have he' : ob.numChan * z.1 + z.2.toNat = ob.numChan * i + c := by
      rw [Nat.mul_comm ob.numChan i]
      exact_mod_cast he
    obtain ⟨e1, e2⟩ := flat_inj (by omega) hc he'
    exact Prod.ext e1 (by simp only; omega)
  refine ⟨r, h1, h2, fun i hi c hc => ?_, fun i hi hni c hc => ?_⟩
  · unfold visAt
    rw [h3]
    congr 1
    unfold degridSum
    by_cases hu : Used pl ob p i c
    · rw [if_pos hu]
      have hz : (i, (c : Int)) ∈ events pl ob p order :=
        (mem_events pl ob p m ho order hord _).2 ⟨hi, hu⟩
      rw [sum_single _ _ _ (events_nodup pl ob p order hnd) hz]
      · rw [if_pos]
        simp [Nat.mul_comm]
      · intro z hz' hne
        rw [if_neg]
        intro he
        exact hne (hit i c hc z hz' he)
    · rw [if_neg hu]
      apply List.sum_eq_zero
      intro w hw
      obtain ⟨z, hz, rfl⟩ := List.mem_map.1 hw
      rw [if_neg]
      intro he
      have := hit i c hc z hz he
      subst this
      exact hu ((mem_events pl ob p m ho order hord _).1 hz).2
  · unfold visAt
    rw [h3]
    rw [List.sum_eq_zero, add_zero]
    intro w hw
    obtain ⟨z, hz, rfl⟩ := List.mem_map.1 hw
    rw [if_neg]
    intro he
    have := hit i c hc z hz he
    subst this
    exact hni ((mem_events pl ob p m ho order hord _).1 hz).1

theorem sum_flat {α M : Type} [AddCommMonoid M] (l : List α) (f : α → List M) :
    (l.flatMap f).sum = (l.map fun x => (f x).sum).sum := by
  induction l with
  | nil => rfl
  | cons x l ih => simp [ih]

/-- **C40, gridding.**  Under the same condition gridding adds to each tower pixel the
weighted sum of the visibilities used on the plane. -/
theorem C40_grid (pl : Plan K R) (hm : pl.Made) (ob : Obs K) (p : Int) (m : Nat)
    (ho : ob.Made m) (T : Arr R) (hT : T.size = pl.wSupport * (pl.n * pl.n)) (order : List Nat)
    (hord : ∀ i ∈ order, i < m)
    (hfit : ∀ i ∈ order, ∀ c, Used pl ob p i c → Fits pl ob p i c) (vis : Arr R)
    (hv : vis.size = m * ob.numChan) :
    ∃ r, gridPlane pl ob p vis order T = some r ∧ r.size = T.size ∧
      ∀ k, k < pl.wSupport → ∀ x, x < pl.n → ∀ y, y < pl.n →
        tower pl r k x y = tower pl T k x y + gridSum pl ob p order (visAt ob vis) k x y := by
  have flat : gridPlane pl ob p vis order T =
      loop (fun T z => gridOne pl ob p vis z.1 T z.2) T (events pl ob p order) := by
    unfold gridPlane events
    rw [loop_flatMap]
    apply loop_congr
    intro i hi vis
    rw [loop_map]
    unfold gridRow chans
    obtain ⟨r, h1, _⟩ := rowSel_ok pl ob p m ho i (hord i hi)
    rw [h1]
    rfl
  rw [flat]
  obtain ⟨r, h1, h2, h3⟩ := loop_inv (fun T z => gridOne pl ob p vis z.1 T z.2)
    (fun done U => U.size = T.size ∧ ∀ k, k < pl.wSupport → ∀ x, x < pl.n → ∀ y, y < pl.n →
      U.get (pl.n * (pl.n * k + x) + y) = T.get (pl.n * (pl.n * k + x) + y) +
        (done.map fun z : Nat × Int => wt pl ob p z.1 z.2 k x y *
          vis.get (ob.numChan * z.1 + z.2.toNat)).sum)
    (events pl ob p order) T ⟨rfl, fun k _ x _ y _ => by simp⟩ (by
      intro done z rest U he hP
      have hz : z ∈ events pl ob p order := by rw [he]; simp
      obtain ⟨hi, hu⟩ := (mem_events pl ob p m ho order hord z).1 hz
      obtain ⟨q, cl, c1, c2, c3, c4⟩ :=
        cell_ok pl hm ob p m ho z.1 (hord _ hi) z.2 (hfit _ hi _ hu)
      have hr := used_range pl ob p m ho z.1 (hord _ hi) z.2 hu
      have hlt := flat_lt (hord _ hi) (j := z.2.toNat) (b := ob.numChan) (by omega)
      unfold gridOne
      rw [c1]
      simp only [Option.bind_some]
      rw [c2]
      simp only [Option.bind_some]
      rw [visIdx_ok _ _ _ hr]
      simp only [Option.bind_some]
      rw [read_lt _ _ (by rw [hv]; exact hlt)]
      simp only [Option.bind_some]
      obtain ⟨V, d1, d2, d3⟩ := gridLoop_ok pl cl c3 (vis.get (ob.numChan * z.1 + z.2.toNat)) U
        (by rw [hP.1, hT])
      refine ⟨V, d1, by rw [d2, hP.1], fun k hk x hx y hy => ?_⟩
      rw [d3 k hk x hx y hy, hP.2 k hk x hx y hy, c4, List.map_append, List.sum_append]
      simp [add_assoc])
  refine ⟨r, h1, h2, fun k hk x hx y hy => ?_⟩
  unfold tower
  rw [show (k * pl.n + x) * pl.n + y = pl.n * (pl.n * k + x) + y by ring, h3 k hk x hx y hy]
  congr 1
  unfold gridSum events
  rw [List.map_flatMap, sum_flat]
  classical
  congr 1
  apply List.map_congr_left
  intro i hi
  rw [List.map_map, ← sum_filter]
  rw [← List.sum_toFinset _ (chans_nodup pl ob p i)]
  symm
  refine sum_bij (fun (c : Nat) _ => (c : Int)) ?_ ?_ ?_ ?_
  · intro c hc
    rw [mem_filter] at hc
    rw [List.mem_toFinset, mem_chans pl ob p m ho i (hord i hi)]
    exact hc.2
  · intro a _ b _ h
    exact_mod_cast h
  · intro c hc
    rw [List.mem_toFinset, mem_chans pl ob p m ho i (hord i hi)] at hc
    have hr := used_range pl ob p m ho i (hord i hi) c hc
    refine ⟨c.toNat, ?_, by omega⟩
    rw [mem_filter, mem_range]
    refine ⟨by omega, ?_⟩
    rw [Int.toNat_of_nonneg hr.1]
    exact hc
  · intro c _
    simp only [Function.comp_apply, Int.toNat_natCast]
    unfold visAt
    rw [Nat.mul_comm i]

end Sdp.WTower
