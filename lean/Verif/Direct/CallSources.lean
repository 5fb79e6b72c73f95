import Verif.Direct.CallProps

/-!
# C111: images to sources, as calls
-/

namespace Sdp.Direct
open Sdp.Race Sdp.GridUtil

/-! ## Specification -/

/-- The pixels that are not zero, in row-major order. -/
noncomputable def bright (im : Arr ℂ) (P : Places) (n0 n1 : Nat) : List (Nat × Nat) :=
  open Classical in (nest2 n0 n1).filter fun p => decide (im.get (P.image p.1 p.2) ≠ 0)

/-- Direction of pixel `p` of an image of `n0` by `n1` pixels. -/
noncomputable def skyDir (g : Geo) (n0 n1 : Nat) (p : Nat × Nat) : ℝ × ℝ × ℝ :=
  (skyCoord g.theta n0 p.1, skyCoord g.theta n1 p.2,
    lmToN g.hu g.hv (skyCoord g.theta n0 p.1) (skyCoord g.theta n1 p.2))

/-! ## Counting -/

theorem host_at {α : Type} (d : Data α) (hc : d.mem.location = .cpu) {i : Int} {p : Nat} (hi : i = (p : Nat))
    (hp : p < d.buf.size) : d.host i = some (d.buf.get p) := by
  unfold Data.host
  rw [if_pos hc, read_at d.buf hi hp]

/-- **C111, counting.**  For a square image with any strides the count is the number of pixels that are not zero. -/
theorem C111_count_partial {im : Data ℂ} {P : Places} {n : Nat} (ht : isImage im.mem.type) (hc : im.mem.location = .cpu)
    (hp : Plane im.mem im.buf.size n n P.image) : countCall im .success = some ((bright im.buf P n n).length, .success) := by
  classical
  unfold countCall
  rw [if_neg (by simp), if_pos ht, viewConst_ok hp.dims rfl hc]
  simp only
  rw [if_neg (by simp), hp.rows, Int.toNat_natCast]
  obtain ⟨s, h1, h2⟩ := loop_inv (fun acc (p : Nat × Nat) => (im.host (addr (mkView im.mem 2 .success) p)).bind fun x =>
      some (if x ≠ 0 then acc + 1 else acc))
    (fun done (s : Nat) => s = (done.filter fun p => decide (im.buf.get (P.image p.1 p.2) ≠ 0)).length) (nest2 n n) 0 rfl
    (by
      intro done x rest st he hst
      have hx : x ∈ nest2 n n := by rw [he]; simp
      obtain ⟨x0, x1⟩ := mem_nest2.1 hx
      rw [host_at im hc (plane_addr hp (i := x.1) (j := x.2) x0 x1) (hp.fits _ _ x0 x1)]
      refine ⟨_, rfl, ?_⟩
      by_cases hz : im.buf.get (P.image x.1 x.2) ≠ 0
      · rw [if_pos hz, List.filter_append, List.filter_cons_of_pos (by simpa using hz), hst]
        simp
      · rw [if_neg hz, List.filter_append, List.filter_cons_of_neg (by simpa using hz), hst]
        simp)
  rw [h1, h2]
  unfold bright
  simp only [Option.map_some]

/-! ## Coordinates -/

theorem putLmn_ok (g : Geo) (n0 n1 : Nat) {m : Mem} {K : Nat} {P : Places} (lmn : Arr ℝ)
    (hp : Plane m lmn.size K 3 P.lmn) (hd : Distinct K 3 P.lmn) {k : Nat} (hk : k < K) (p : Nat × Nat) :
    ∃ r, putLmn g n0 n1 (mkView m 2 .success) lmn k p = some r ∧ r.size = lmn.size ∧ dirAt r P k = skyDir g n0 n1 p ∧
      ∀ x, (∀ j, j < 3 → P.lmn k j ≠ x) → r.get x = lmn.get x := by
  unfold putLmn
  simp only
  rw [plane_addr hp hk (by omega), plane_addr hp hk (by omega), plane_addr hp hk (by omega)]
  have f0 := hp.fits k 0 hk (by omega)
  have f1 := hp.fits k 1 hk (by omega)
  have f2 := hp.fits k 2 hk (by omega)
  rw [Arr.write_nat, if_pos f0]
  simp only [Option.bind_some]
  rw [Arr.write_nat, if_pos (by rw [Arr.put_size]; exact f1)]
  simp only [Option.bind_some]
  rw [Arr.write_nat, if_pos (by rw [Arr.put_size, Arr.put_size]; exact f2)]
  have d01 : P.lmn k 0 ≠ P.lmn k 1 := fun e => by
    have := (hd k 0 k 1 hk (by omega) hk (by omega) e).2
    omega
  have d02 : P.lmn k 0 ≠ P.lmn k 2 := fun e => by
    have := (hd k 0 k 2 hk (by omega) hk (by omega) e).2
    omega
  have d12 : P.lmn k 1 ≠ P.lmn k 2 := fun e => by
    have := (hd k 1 k 2 hk (by omega) hk (by omega) e).2
    omega
  refine ⟨_, rfl, rfl, ?_, ?_⟩
  · unfold dirAt skyDir
    simp only [Arr.put_get, pixCoord_eq, if_neg d01, if_neg d02, if_neg d12, if_true]
  · intro x hx
    rw [Arr.put_get, Arr.put_get, Arr.put_get, if_neg (fun e => hx 2 (by omega) e.symm),
      if_neg (fun e => hx 1 (by omega) e.symm), if_neg (fun e => hx 0 (by omega) e.symm)]

/-- **C111, coordinates of all pixels.**  Without fluxes, row `n1 a + b` of the coordinates becomes the direction of pixel
`(a, b)`; the image itself is not touched, nothing else changes. -/
theorem C111_lmn {g : Geo} {im : Data ℂ} {lmn : Data ℝ} {taper : Option (Data ℝ)} {P : Places} {n0 n1 K n : Nat}
    (ht : flmnTypes im.mem.type .double lmn.mem.type) (h0 : im.mem.shapeDim 0 = n0) (h1 : im.mem.shapeDim 1 = n1)
    (hw : WindowOk taper .cpu P n) (hl : Open lmn.mem .cpu lmn.mem.type lmn.buf.size K 3 P.lmn) (hk : n0 * n1 ≤ K) :
    ∃ d, flmnCall g im taper none lmn .success = some (.success, ⟨0, fun _ => 0⟩, d) ∧ d.size = lmn.buf.size ∧
      (∀ a b, a < n0 → b < n1 → dirAt d P (n1 * a + b) = skyDir g n0 n1 (a, b)) ∧
      ∀ x, (∀ s j, s < n0 * n1 → j < 3 → P.lmn s j ≠ x) → d.get x = lmn.buf.get x := by
  unfold flmnCall
  simp only [Option.elim_none]
  rw [if_neg (by simp)]
  simp only [ht, if_true]
  rw [view_ok hl.plane.dims hl.type hl.loc hl.data hl.writeable]
  simp only
  rw [taperView_ok hw]
  simp only
  rw [if_neg (by simp), h0, h1, Int.toNat_natCast, Int.toNat_natCast]
  obtain ⟨r, r1, r2, r3, r4⟩ := loop_inv
    (fun a (p : Nat × Nat) => putLmn g n0 n1 (mkView lmn.mem 2 .success) a (n1 * p.1 + p.2) p)
    (fun done s => s.size = lmn.buf.size ∧ (∀ p ∈ done, dirAt s P (n1 * p.1 + p.2) = skyDir g n0 n1 p) ∧
      ∀ x, (∀ s j, s < n0 * n1 → j < 3 → P.lmn s j ≠ x) → s.get x = lmn.buf.get x)
    (nest2 n0 n1) lmn.buf ⟨rfl, by simp, fun _ _ => rfl⟩
    (by
      intro done x rest st he ⟨i1, i2, i3⟩
      have hx : x ∈ nest2 n0 n1 := by rw [he]; simp
      obtain ⟨x0, x1⟩ := mem_nest2.1 hx
      have hlt := flat_lt x0 x1
      obtain ⟨r, w1, w2, w3, w4⟩ := putLmn_ok g n0 n1 st (by rw [i1]; exact hl.plane) hl.distinct
        (show n1 * x.1 + x.2 < K by omega) x
      refine ⟨r, w1, w2.trans i1, fun p hp => ?_, fun y hy => ?_⟩
      · rcases List.mem_append.1 hp with hpd | hpd
        · have hpx : p ≠ x := by
            have hnd := nest2_nodup n0 n1
            rw [he] at hnd
            intro hh
            subst hh
            exact (List.nodup_append.1 hnd).2.2 _ hpd _ (by simp) rfl
          obtain ⟨p0, p1⟩ := mem_nest2.1 (show p ∈ nest2 n0 n1 by rw [he]; simp [hpd])
          have hlp := flat_lt p0 p1
          have hne : n1 * p.1 + p.2 ≠ n1 * x.1 + x.2 := by
            intro hh
            have := flat_inj p1 x1 hh
            exact hpx (Prod.ext this.1 this.2)
          rw [← i2 p hpd]
          have key : ∀ j, j < 3 → r.get (P.lmn (n1 * p.1 + p.2) j) = st.get (P.lmn (n1 * p.1 + p.2) j) := by
            intro j hj
            apply w4
            intro j' hj' e
            exact hne (hl.distinct _ _ _ _ (by omega) hj' (by omega) hj e).1.symm
          unfold dirAt
          rw [key 0 (by omega), key 1 (by omega), key 2 (by omega)]
        · have : p = x := by simpa using hpd
          subst this
          exact w3
      · rw [w4 y fun j hj => hy _ _ hlt hj, i3 y hy])
  rw [r1]
  exact ⟨r, rfl, r2, fun a b ha hb => r3 (a, b) (mem_nest2.2 ⟨ha, hb⟩), r4⟩

/-- **C111, sources of an image.**  Given room for the pixels that are not zero, source `k` becomes the real part of the
`k`-th of them times the window, with its direction; the rest of both arrays is unchanged. -/
theorem C111_flmn_partial {g : Geo} {im : Data ℂ} {fx lmn : Data ℝ} {taper : Option (Data ℝ)} {P : Places} {n0 n1 K n : Nat}
    (ht : flmnTypes im.mem.type fx.mem.type lmn.mem.type) (hi : Plane im.mem im.buf.size n0 n1 P.image)
    (hic : im.mem.location = .cpu) (hw : WindowOk taper .cpu P n) (hn : n0 ≤ n ∧ n1 ≤ n)
    (hl : Open lmn.mem .cpu lmn.mem.type lmn.buf.size K 3 P.lmn) (hf : FluxOk fx P K) (hfd : fx.mem.data ≠ none)
    (hfw : fx.mem.isReadOnly = false) (hfi : ∀ s s', s < K → s' < K → P.flux s = P.flux s' → s = s')
    (hk : (bright im.buf P n0 n1).length ≤ K) :
    ∃ f d, flmnCall g im taper (some fx) lmn .success = some (.success, f, d) ∧ f.size = fx.buf.size ∧
      d.size = lmn.buf.size ∧
      (∀ k p, (bright im.buf P n0 n1)[k]? = some p → f.get (P.flux k) =
          (im.buf.get (P.image p.1 p.2)).re * taperAtPixel taper P p.1 p.2 ∧ dirAt d P k = skyDir g n0 n1 p) ∧
      (∀ x, (∀ s, s < (bright im.buf P n0 n1).length → P.flux s ≠ x) → f.get x = fx.buf.get x) ∧
      ∀ x, (∀ s j, s < (bright im.buf P n0 n1).length → j < 3 → P.lmn s j ≠ x) → d.get x = lmn.buf.get x := by
  classical
  unfold flmnCall
  simp only [Option.elim_some]
  rw [if_neg (by simp)]
  simp only [ht, if_true]
  rw [view_ok hl.plane.dims hl.type hl.loc hl.data hl.writeable]
  simp only
  rw [taperView_ok hw]
  simp only
  rw [if_neg (by simp), hi.rows, hi.cols, Int.toNat_natCast, Int.toNat_natCast, viewConst_ok hi.dims rfl hic]
  simp only
  rw [view1_ok hf.line.dims hf.type hf.loc hfd hfw]
  simp only
  let L : List (Nat × Nat) → List (Nat × Nat) := fun done => done.filter fun p => decide (im.buf.get (P.image p.1 p.2) ≠ 0)
  obtain ⟨r, r1, r2, r3, r4, r5, r6, r7⟩ := loop_inv
    (flmnAt g n0 n1 (mkView im.mem 2 .success) (mkView fx.mem 1 .success) (mkView lmn.mem 2 .success) im fx
      (taper.map fun t => (mkView t.mem 1 .success, t.buf)))
    (fun done s => s.1 = (L done).length ∧ s.2.1.size = fx.buf.size ∧ s.2.2.size = lmn.buf.size ∧
      (∀ k p, (L done)[k]? = some p → s.2.1.get (P.flux k) =
          (im.buf.get (P.image p.1 p.2)).re * taperAtPixel taper P p.1 p.2 ∧ dirAt s.2.2 P k = skyDir g n0 n1 p) ∧
      (∀ x, (∀ s, s < (bright im.buf P n0 n1).length → P.flux s ≠ x) → s.2.1.get x = fx.buf.get x) ∧
      ∀ x, (∀ s j, s < (bright im.buf P n0 n1).length → j < 3 → P.lmn s j ≠ x) → s.2.2.get x = lmn.buf.get x)
    (nest2 n0 n1) (0, fx.buf, lmn.buf) ⟨rfl, rfl, rfl, by simp [L], fun _ _ => rfl, fun _ _ => rfl⟩
    (by
      intro done x rest st he ⟨i1, i2, i3, i4, i5, i6⟩
      have hx : x ∈ nest2 n0 n1 := by rw [he]; simp
      obtain ⟨x0, x1⟩ := mem_nest2.1 hx
      unfold flmnAt
      rw [host_at im hic (plane_addr hi (i := x.1) (j := x.2) x0 x1) (hi.fits _ _ x0 x1)]
      simp only [Option.bind_some]
      by_cases hz : im.buf.get (P.image x.1 x.2) ≠ 0
      · have hLx : L (done ++ [x]) = L done ++ [x] := by
          show List.filter _ _ = _
          rw [List.filter_append, List.filter_cons_of_pos (by simpa using hz)]
          rfl
        have hlen : st.1 + 1 ≤ (bright im.buf P n0 n1).length := by
          rw [i1]
          unfold bright
          rw [he, List.filter_append, List.filter_cons_of_pos (by simpa using hz)]
          simp only [List.length_append, List.length_cons]
          show (List.filter _ _).length + 1 ≤ _
          omega
        rw [if_pos hz, taperAt_ok hw (a := x.1) (b := x.2) (by omega) (by omega)]
        simp only [Option.bind_some]
        have hst : st.1 < K := by omega
        unfold Data.store
        rw [if_pos hf.loc, line_addr hf.line hst, Arr.write_nat, if_pos (by rw [i2]; exact hf.line.fits _ hst)]
        simp only [Option.bind_some]
        obtain ⟨r, w1, w2, w3, w4⟩ := putLmn_ok g n0 n1 st.2.2 (by rw [i3]; exact hl.plane) hl.distinct hst x
        rw [w1]
        refine ⟨_, rfl, ?_, i2, w2.trans i3, ?_, ?_, ?_⟩
        · rw [hLx]
          simp only [List.length_append, List.length_cons, List.length_nil]
          omega
        · intro k p hkp
          rw [hLx] at hkp
          by_cases hlt : k < (L done).length
          · rw [List.getElem?_append_left hlt] at hkp
            obtain ⟨a1, a2⟩ := i4 k p hkp
            have hne : k ≠ st.1 := by omega
            refine ⟨?_, ?_⟩
            · rw [Arr.put_get, if_neg (fun e => hne (hfi _ _ (by omega) hst e)), a1]
            · rw [← a2]
              have key : ∀ j, j < 3 → r.get (P.lmn k j) = st.2.2.get (P.lmn k j) := by
                intro j hj
                apply w4
                intro j' hj' e
                exact hne (hl.distinct _ _ _ _ hst hj' (by omega) hj e).1.symm
              unfold dirAt
              rw [key 0 (by omega), key 1 (by omega), key 2 (by omega)]
          · rw [List.getElem?_append_right (by omega)] at hkp
            have hk0 : k - (L done).length = 0 := by
              by_contra hne
              rw [List.getElem?_eq_none (by simp; omega)] at hkp
              simp at hkp
            rw [hk0] at hkp
            have hpx : p = x := by simpa using hkp.symm
            subst hpx
            have hke : k = st.1 := by omega
            subst hke
            exact ⟨by rw [Arr.put_get, if_pos rfl], w3⟩
        · intro y hy
          rw [Arr.put_get, if_neg (fun e => hy st.1 (by omega) e.symm), i5 y hy]
        · intro y hy
          rw [w4 y fun j hj => hy st.1 j (by omega) hj, i6 y hy]
      · rw [if_neg hz]
        have hLx : L (done ++ [x]) = L done := by
          show List.filter _ _ = _
          rw [List.filter_append, List.filter_cons_of_neg (by simpa using hz)]
          simp [L]
        refine ⟨st, rfl, ?_⟩
        rw [hLx]
        exact ⟨i1, i2, i3, i4, i5, i6⟩)
  rw [r1]
  have hL : L (nest2 n0 n1) = bright im.buf P n0 n1 := by
    unfold bright
    rfl
  rw [hL] at r5
  exact ⟨_, _, rfl, r3, r4, r5, r6, r7⟩

end Sdp.Direct
