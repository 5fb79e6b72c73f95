import Verif.Direct.Props

/-!
# C46: the direct gridder as a whole
-/

namespace Sdp.Direct

/-- Direction of pixel `(a, b)` of an `n × n` image. -/
noncomputable def pixDir (g : Geo) (n : Nat) (p : Nat × Nat) : ℝ × ℝ × ℝ :=
  (skyCoord g.theta n p.1, skyCoord g.theta n p.2,
    lmToN g.hu g.hv (skyCoord g.theta n p.1) (skyCoord g.theta n p.2))

theorem imageToLmn_ok (g : Geo) (n : Nat) (lmn : Arr ℝ) (hl : lmn.size = 3 * (n * n)) :
    ∃ r, imageToLmn g n n lmn = some r ∧ r.size = 3 * (n * n) ∧
      ∀ p ∈ nest2 n n, dirOf r (n * p.1 + p.2) = pixDir g n p := by
  unfold imageToLmn
  obtain ⟨r, h1, h2⟩ := loop_inv
    (fun lmn (p : Nat × Nat) => writeLmn g n n lmn (n * p.1 + p.2) p)
    (fun done s => s.size = 3 * (n * n) ∧ ∀ p ∈ done, dirOf s (n * p.1 + p.2) = pixDir g n p)
    (nest2 n n) lmn ⟨hl, by simp⟩
    (by
      intro done x rest st he ⟨i1, i2⟩
      have hx : x ∈ nest2 n n := by rw [he]; simp
      obtain ⟨x0, x1⟩ := mem_nest2.1 hx
      have hlt := flat_lt x0 x1
      obtain ⟨r, w1, w2, w3, w4, w5, w6⟩ := writeLmn_ok g n n st (n * x.1 + x.2) x (by omega)
      refine ⟨r, w1, w2.trans i1, fun p hp => ?_⟩
      rcases List.mem_append.1 hp with hpd | hpd
      · have hpx : p ≠ x := by
          have hnd := nest2_nodup n n
          rw [he] at hnd
          intro hh
          subst hh
          exact (List.nodup_append.1 hnd).2.2 _ hpd _ (by simp) rfl
        have hpm : p ∈ nest2 n n := by rw [he]; simp [hpd]
        obtain ⟨p0, p1⟩ := mem_nest2.1 hpm
        have hne : n * p.1 + p.2 ≠ n * x.1 + x.2 := by
          intro hh
          have := flat_inj p1 x1 hh
          exact hpx (Prod.ext this.1 this.2)
        rw [← i2 p hpd]
        unfold dirOf
        rw [w6 _ (by omega), w6 _ (by omega), w6 _ (by omega)]
      · have : p = x := by simpa using hpd
        subst this
        unfold dirOf pixDir
        rw [w3, w4, w5])
  exact ⟨r, h1, h2.1, h2.2⟩

theorem nest2_sum (n m : Nat) (f : Nat × Nat → ℂ) :
    ((nest2 n m).map f).sum = ∑ a ∈ Finset.range n, ∑ b ∈ Finset.range m, f (a, b) := by
  unfold nest2
  rw [List.map_flatMap, List.flatMap_def, List.sum_flatten, List.map_map, list_sum_range]
  apply Finset.sum_congr rfl
  intro i _
  simp only [Function.comp_apply, List.map_map]
  rw [list_sum_range]
  rfl

open Classical in
/-- C46, the direct degridder: every visibility of a row with a non-empty channel range
receives the sum over all pixels of the tapered real part of the pixel times its
response. -/
theorem C46_direct_degrid (o : Obs) (h : o.Ok) (g : Geo) (n : Nat) (image : Arr ℂ)
    (hi : image.size = n * n) (taper : Arr ℝ) (ht : n ≤ taper.size) (vis : Arr ℂ)
    (hv : vis.size = o.numUvw * o.numChan) (order : List (Nat × Nat))
    (ho : order.Perm (nest2 o.numUvw o.numChan)) :
    ∃ r, directDegrid o g n n image taper order vis = some r ∧ r.size = vis.size ∧
      ∀ i, i < o.numUvw → ∀ c, c < o.numChan →
        r.get (o.numChan * i + c) = vis.get (o.numChan * i + c) +
          if o.Active i then ∑ a ∈ Finset.range n, ∑ b ∈ Finset.range n,
            ((image.get (n * a + b)).re * (taper.get a * taper.get b) : ℝ) *
              response (pixDir g n (a, b)) (o.at i c) else 0 := by
  have htk : TaperOk (some taper) n n := by
    intro t he
    cases he
    exact ⟨ht, ht⟩
  obtain ⟨f, d, s1, s2, s3, s4⟩ := C45_sources Complex.re g n n image hi (some taper) htk
    ⟨(nonzero n n image).length, fun _ => 0⟩ ⟨3 * (nonzero n n image).length, fun _ => 0⟩ rfl rfl
  obtain ⟨r, r1, r2, r3⟩ := C46_dft o h f d (by omega) vis hv order ho
  refine ⟨r, ?_, r2, fun i hi' c hc => ?_⟩
  · unfold directDegrid
    rw [C45_count_partial n image hi]
    simp only [Option.bind_some]
    rw [s1]
    exact r1
  · rw [r3 i hi' c hc]
    congr 1
    split
    · have e0 := nest2_sum n n (fun p => (((image.get (n * p.1 + p.2)).re *
        (taper.get p.1 * taper.get p.2) : ℝ) : ℂ) * response (pixDir g n p) (o.at i c))
      rw [← list_sum_range]
      refine Eq.trans ?_ e0
      have e : (List.range f.size).map (fun s => (f.get s : ℂ) * response (dirOf d s) (o.at i c)) =
          ((List.range (nonzero n n image).length).map (entry f d)).map
            (fun e => (e.1 : ℂ) * response e.2 (o.at i c)) := by
        rw [s2, List.map_map]
        rfl
      rw [e, s4, List.map_map]
      unfold nonzero
      rw [sum_filter_map]
      congr 1
      apply List.map_congr_left
      intro p _
      by_cases hz : image.get (n * p.1 + p.2) ≠ 0
      · rw [if_pos (by simpa using hz)]
        simp only [Function.comp_apply, sourceOf, taperOf]
        rfl
      · rw [if_neg (by simpa using hz)]
        have hz0 : image.get (n * p.1 + p.2) = 0 := by simpa using hz
        obtain ⟨a, b⟩ := p
        simp only at hz0 ⊢
        rw [hz0]
        simp
    · rfl

open Classical in
/-- C46, the direct gridder: every pixel receives its tapered sum of visibilities times
conjugate responses. -/
theorem C46_direct_grid (o : Obs) (h : o.Ok) (g : Geo) (n : Nat) (vis : Arr ℂ)
    (hv : vis.size = o.numUvw * o.numChan) (taper : Arr ℝ) (ht : n ≤ taper.size)
    (image : Arr ℂ) (hi : image.size = n * n) (order : List (Nat × Nat))
    (ho : order.Perm (nest2 n n)) :
    ∃ r, directGrid o g n taper vis order image = some r ∧ r.size = n * n ∧
      ∀ a, a < n → ∀ b, b < n →
        r.get (n * a + b) = image.get (n * a + b) +
          (∑ i ∈ Finset.range o.numUvw, ∑ c ∈ Finset.range o.numChan,
            if o.Active i then vis.get (o.numChan * i + c) *
              star (response (pixDir g n (a, b)) (o.at i c)) else 0) *
            ((taper.get a * taper.get b : ℝ) : ℂ) := by
  have htk : TaperOk (some taper) n n := by
    intro t he
    cases he
    exact ⟨ht, ht⟩
  obtain ⟨d, d1, d2, d3⟩ := imageToLmn_ok g n ⟨3 * (n * n), fun _ => 0⟩ rfl
  obtain ⟨r, r1, r2, r3⟩ := C46_idft o h n vis hv d d2 (some taper) htk image hi order ho
  refine ⟨r, ?_, r2, fun a ha b hb => ?_⟩
  · unfold directGrid
    rw [d1]
    exact r1
  · rw [r3 a ha b hb, d3 (a, b) (mem_nest2.2 ⟨ha, hb⟩)]
    rfl

/-- C46, adjointness of the whole direct gridder: for real images,
`<degrid R, V> = <R, grid V>`. -/
theorem C46_direct_adjoint_partial (o : Obs) (h : o.Ok) (g : Geo) (n : Nat) (image : Arr ℂ)
    (hi : image.size = n * n) (hreal : ∀ k, k < n * n → (image.get k).im = 0)
    (taper : Arr ℝ) (ht : n ≤ taper.size) (vis zv zi : Arr ℂ)
    (hv : vis.size = o.numUvw * o.numChan) (hzv : zv.size = o.numUvw * o.numChan)
    (hzi : zi.size = n * n) (zv0 : ∀ k, zv.get k = 0) (zi0 : ∀ k, zi.get k = 0)
    (o1 o2 : List (Nat × Nat)) (h1 : o1.Perm (nest2 o.numUvw o.numChan))
    (h2 : o2.Perm (nest2 n n)) (D G : Arr ℂ)
    (hD : directDegrid o g n n image taper o1 zv = some D)
    (hG : directGrid o g n taper vis o2 zi = some G) :
    ∑ i ∈ Finset.range o.numUvw, ∑ c ∈ Finset.range o.numChan,
        D.get (o.numChan * i + c) * star (vis.get (o.numChan * i + c)) =
      ∑ a ∈ Finset.range n, ∑ b ∈ Finset.range n,
        image.get (n * a + b) * star (G.get (n * a + b)) := by
  classical
  obtain ⟨D', e1, -, c1⟩ := C46_direct_degrid o h g n image hi taper ht zv hzv o1 h1
  obtain ⟨G', e2, -, c2⟩ := C46_direct_grid o h g n vis hv taper ht zi hzi o2 h2
  rw [hD] at e1
  rw [hG] at e2
  cases e1
  cases e2
  have L : ∑ i ∈ Finset.range o.numUvw, ∑ c ∈ Finset.range o.numChan,
        D.get (o.numChan * i + c) * star (vis.get (o.numChan * i + c)) =
      ∑ i ∈ Finset.range o.numUvw, ∑ c ∈ Finset.range o.numChan,
        ∑ a ∈ Finset.range n, ∑ b ∈ Finset.range n,
        if o.Active i then ((image.get (n * a + b)).re * (taper.get a * taper.get b) : ℝ) *
              response (pixDir g n (a, b)) (o.at i c) *
          star (vis.get (o.numChan * i + c)) else 0 := by
    apply Finset.sum_congr rfl
    intro i hi
    apply Finset.sum_congr rfl
    intro c hc
    rw [c1 i (Finset.mem_range.1 hi) c (Finset.mem_range.1 hc), zv0, zero_add]
    by_cases ha : o.Active i
    · simp only [if_pos ha]
      rw [Finset.sum_mul]
      apply Finset.sum_congr rfl
      intro a _
      rw [Finset.sum_mul]
    · simp [ha]
  have R : ∑ a ∈ Finset.range n, ∑ b ∈ Finset.range n,
        image.get (n * a + b) * star (G.get (n * a + b)) =
      ∑ a ∈ Finset.range n, ∑ b ∈ Finset.range n,
        ∑ i ∈ Finset.range o.numUvw, ∑ c ∈ Finset.range o.numChan,
        if o.Active i then ((image.get (n * a + b)).re * (taper.get a * taper.get b) : ℝ) *
              response (pixDir g n (a, b)) (o.at i c) *
          star (vis.get (o.numChan * i + c)) else 0 := by
    apply Finset.sum_congr rfl
    intro a ha
    apply Finset.sum_congr rfl
    intro b hb
    rw [Finset.mem_range] at ha hb
    rw [c2 a ha b hb, zi0, zero_add]
    have him : image.get (n * a + b) = (((image.get (n * a + b)).re : ℝ) : ℂ) := by
      apply Complex.ext
      · simp
      · simpa using hreal _ (flat_lt ha hb)
    have hst : star ((taper.get a * taper.get b : ℝ) : ℂ) = ((taper.get a * taper.get b : ℝ) : ℂ) := by
      rw [Complex.star_def, Complex.conj_ofReal]
    rw [star_mul', hst, star_sum, Finset.sum_mul, Finset.mul_sum]
    apply Finset.sum_congr rfl
    intro i _
    rw [star_sum, Finset.sum_mul, Finset.mul_sum]
    apply Finset.sum_congr rfl
    intro c _
    by_cases hA : o.Active i
    · simp only [if_pos hA, star_mul', star_star]
      rw [him]
      push_cast
      simp only [Complex.ofReal_re]
      ring
    · simp [hA]
  rw [L, R]
  calc _ = ∑ i ∈ Finset.range o.numUvw, ∑ a ∈ Finset.range n, ∑ c ∈ Finset.range o.numChan,
        ∑ b ∈ Finset.range n,
        (if o.Active i then ((image.get (n * a + b)).re * (taper.get a * taper.get b) : ℝ) *
              response (pixDir g n (a, b)) (o.at i c) *
          star (vis.get (o.numChan * i + c)) else 0) := by
        apply Finset.sum_congr rfl
        intro i _
        exact Finset.sum_comm
    _ = ∑ a ∈ Finset.range n, ∑ i ∈ Finset.range o.numUvw, ∑ c ∈ Finset.range o.numChan,
        ∑ b ∈ Finset.range n,
        (if o.Active i then ((image.get (n * a + b)).re * (taper.get a * taper.get b) : ℝ) *
              response (pixDir g n (a, b)) (o.at i c) *
          star (vis.get (o.numChan * i + c)) else 0) := Finset.sum_comm
    _ = _ := by
        apply Finset.sum_congr rfl
        intro a _
        rw [Finset.sum_comm' (s := Finset.range n) (t := fun _ => Finset.range o.numUvw)
          (t' := Finset.range o.numUvw) (s' := fun _ => Finset.range n) (by simp [and_comm])]
        apply Finset.sum_congr rfl
        intro i _
        exact Finset.sum_comm

/-- One visibility, one channel. -/
noncomputable def oneVis : Obs where
  numUvw := 1
  numChan := 1
  uvw := ⟨3, fun _ => 0⟩
  f0 := 299792458
  df := 0
  chs := none
  offU := 0
  offV := 0
  offW := 0
  theta := 1
  wStep := 1

theorem oneVis_ok : oneVis.Ok := ⟨rfl, fun s e h => by simp [oneVis] at h⟩

theorem oneVis_response (g : Geo) (p : Nat × Nat) (i c : Nat) :
    response (pixDir g 1 p) (oneVis.at i c) = 1 := by
  have : oneVis.at i c = (0, 0, 0) := by
    unfold Obs.at Obs.centre oneVis
    simp [show ¬ (1 : ℝ) ≤ 0 by norm_num]
  rw [this]
  simp [response, dot]

/-- The direct degridder ignores the imaginary part of the image, so it is not the
adjoint of the gridder on complex images: the one-pixel image `i` degrids to nothing,
while `<i, grid 1> = i`. -/
theorem C46_complex_image_false (g : Geo) :
    ∃ D G : Arr ℂ,
      directDegrid oneVis g 1 1 ⟨1, fun _ => Complex.I⟩ ⟨1, fun _ => 1⟩ [(0, 0)]
        ⟨1, fun _ => 0⟩ = some D ∧
      directGrid oneVis g 1 ⟨1, fun _ => 1⟩ ⟨1, fun _ => 1⟩ [(0, 0)] ⟨1, fun _ => 0⟩ = some G ∧
      D.get 0 * star (1 : ℂ) = 0 ∧ Complex.I * star (G.get 0) = Complex.I := by
  classical
  have hp : [((0 : Nat), (0 : Nat))].Perm (nest2 1 1) := by decide
  obtain ⟨D, d1, -, d3⟩ := C46_direct_degrid oneVis oneVis_ok g 1 ⟨1, fun _ => Complex.I⟩ rfl
    ⟨1, fun _ => 1⟩ (le_refl _) ⟨1, fun _ => 0⟩ rfl [(0, 0)] hp
  obtain ⟨G, g1, -, g3⟩ := C46_direct_grid oneVis oneVis_ok g 1 ⟨1, fun _ => 1⟩ rfl
    ⟨1, fun _ => 1⟩ (le_refl _) ⟨1, fun _ => 0⟩ rfl [(0, 0)] hp
  have hA : ∀ i, oneVis.Active i := fun _ => trivial
  refine ⟨D, G, d1, g1, ?_, ?_⟩
  · have := d3 0 (by decide) 0 (by decide)
    simp [hA] at this
    have e : oneVis.numChan * 0 + 0 = 0 := rfl
    rw [this]
    simp
  · have := g3 0 (by decide) 0 (by decide)
    simp only [hA, if_true, oneVis_response] at this
    have e1 : oneVis.numUvw = 1 := rfl
    have e2 : oneVis.numChan = 1 := rfl
    rw [e1, e2] at this
    simp at this
    rw [this]
    simp

/-! ## C63: requested channel ranges -/

/-- C63: the rows and channels that change.  In a row with a non-empty channel range
every channel is computed, whatever the range. -/
theorem C63_full_ranges_partial (o : Obs) (h : o.Ok) (s e : Arr Int) (hc : o.chs = some (s, e))
    (hfull : ∀ i, i < o.numUvw → e.get i ≤ s.get i ∨ (s.get i ≤ 0 ∧ (o.numChan : Int) ≤ e.get i))
    (flux lmn : Arr ℝ) (hl : 3 * flux.size ≤ lmn.size)
    (vis : Arr ℂ) (hv : vis.size = o.numUvw * o.numChan) (order : List (Nat × Nat))
    (ho : order.Perm (nest2 o.numUvw o.numChan)) :
    ∃ r, dft o flux lmn order vis = some r ∧
      ∀ i, i < o.numUvw → ∀ c, c < o.numChan → ¬ (s.get i ≤ c ∧ (c : Int) < e.get i) →
        r.get (o.numChan * i + c) = vis.get (o.numChan * i + c) := by
  classical
  obtain ⟨r, h1, -, h3⟩ := C46_dft o h flux lmn hl vis hv order ho
  refine ⟨r, h1, fun i hi c hc' hn => ?_⟩
  rw [h3 i hi c hc', if_neg, add_zero]
  unfold Obs.Active
  rw [hc]
  simp only
  rcases hfull i hi with hh | hh
  · omega
  · omega

/-- Two channels, range `[1, 2)` requested. -/
noncomputable def partRange : Obs :=
  { oneVis with numChan := 2, chs := some (⟨1, fun _ => 1⟩, ⟨1, fun _ => 2⟩) }

/-- C63 fails in general: channel 0 is outside the requested range `[1, 2)`, and is
changed all the same. -/
theorem C63_range_false :
    ∃ r, dft partRange ⟨1, fun _ => 1⟩ ⟨3, fun _ => 0⟩ (nest2 1 2) ⟨2, fun _ => 0⟩ = some r ∧
      r.get 0 = 1 := by
  classical
  have hok : partRange.Ok := by
    refine ⟨rfl, fun s e h => ?_⟩
    simp only [partRange, Option.some.injEq, Prod.mk.injEq] at h
    obtain ⟨rfl, rfl⟩ := h
    exact ⟨le_refl _, le_refl _⟩
  obtain ⟨r, h1, -, h3⟩ := C46_dft partRange hok ⟨1, fun _ => 1⟩ ⟨3, fun _ => 0⟩ (le_refl _)
    ⟨2, fun _ => 0⟩ rfl (nest2 1 2) (List.Perm.refl _)
  refine ⟨r, h1, ?_⟩
  have := h3 0 (by decide) 0 (by decide)
  have hA : partRange.Active 0 := by
    unfold Obs.Active partRange
    simp
  have hr : ∀ q, response (dirOf ⟨3, fun _ => 0⟩ 0) q = 1 := by
    intro q
    simp [response, dot, dirOf]
  simp [hA, hr] at this
  exact this

end Sdp.Direct
