import Verif.GridCorrect.Call
import Verif.GridCorrect.Props
import Verif.GridUtil.ScaleProps
import Verif.Pswf.Props

/-!
# C94: grid correction as calls, on either device and under every interleaving
-/

namespace Sdp.GridCorrect
noncomputable section
open Sdp.Race Sdp.GridUtil Sdp.Direct

/-- A facet the calls accept: writeable, two-dimensional, pixels apart from each other, on the CPU or on a device. -/
structure Facet (cuda : Bool) (m : Mem) (size nl nm : Nat) (pos : Nat → Nat → Nat) : Prop where
  loc : m.location = .cpu ∨ m.location = .gpu ∧ cuda = true ∧ 0 < nl ∧ 0 < nm
  data : m.data ≠ none
  writeable : m.isReadOnly = false
  plane : Plane m size nl nm pos
  distinct : Distinct nl nm pos

section
variable {cuda : Bool} {m : Mem} {a : Arr ℂ} {nl nm : Nat} {pos : Nat → Nat → Nat}

theorem blocks_pos {n : Nat} (h : 0 < n) : blocks n 16 ≠ 0 := by
  have := le_blocks n 16 (by omega)
  intro e
  rw [e] at this
  omega

theorem launch_eq (h : Facet cuda m a.size nl nm pos) (hl : m.location = .gpu) (body : Nat × Nat → Prog ℂ) :
    launch cuda m .success (mkView m 2 .success) body = gpuRun cuda m .success (mkView m 2 .success) body := by
  unfold launch
  rw [if_neg]
  rintro ⟨-, h'⟩
  rcases h.loc with h0 | ⟨-, -, h1, h2⟩
  · rw [hl] at h0; cases h0
  · rw [h.plane.rows, h.plane.cols, Int.toNat_natCast, Int.toNat_natCast] at h'
    rcases h' with h' | h'
    · exact blocks_pos h1 h'
    · exact blocks_pos h2 h'

theorem facet_view (h : Facet cuda m a.size nl nm pos) {l : MemLocation} (hl : m.location = l) :
    checkAndView m m.type 2 l .success = (mkView m 2 .success, .success) :=
  view_ok h.plane.dims rfl hl h.data h.writeable

theorem fac_eq (h : Facet cuda m a.size nl nm pos) (g : Place) : g.fac (mkView m 2 .success) =
    ⟨g.imageSize.toNat, g.theta, g.wStep, g.hu, g.hv, nl, nm, g.offL, g.offM⟩ := by
  unfold Place.fac
  rw [(plane_rows h.plane).1, (plane_rows h.plane).2]

/-- Either way of running, given the effect on one pixel. -/
theorem facet_run (h : Facet cuda m a.size nl nm pos) (body : Nat × Nat → Prog ℂ) (val : Nat → Nat → ℂ)
    (hb : ∀ i j, i < nl → j < nm → (body (i, j)).Within (fun x : Int => x = (pos i j : Nat)) ∧
      (body (i, j)).exec a = some (a.put (pos i j) (val i j))) (run : Run ℂ)
    (hc : m.location = .cpu → run = cpuRun .success (mkView m 2 .success) body)
    (hg : m.location = .gpu → run = launch cuda m .success (mkView m 2 .success) body) :
    run.status = .success ∧ ∃ r, Yields run.prog run.threads a r ∧ r.size = a.size ∧
      (∀ i j, i < nl → j < nm → r.get (pos i j) = val i j) ∧
      ∀ x, (∀ i j, i < nl → j < nm → pos i j ≠ x) → r.get x = a.get x := by
  rcases h.loc with hl | ⟨hl, hcu, -⟩
  · exact run_yields false cuda (by simp) m a h.plane h.distinct body val hb run (by simpa using hc hl)
  · exact run_yields true cuda (fun _ => hcu) m a h.plane h.distinct body val hb run
      (by simpa [launch_eq h hl] using hg hl)

theorem wBody_spec (h : Facet cuda m a.size nl nm pos) (f : Fac) (w : Int) (inverse : Bool) (i j : Nat) (hi : i < nl)
    (hj : j < nm) : (wBody f w inverse (mkView m 2 .success) (i, j)).Within (fun x : Int => x = (pos i j : Nat)) ∧
    (wBody f w inverse (mkView m 2 .success) (i, j)).exec a =
      some (a.put (pos i j) (a.get (pos i j) * wFactor f w inverse (i, j))) := by
  unfold wBody
  rw [plane_addr h.plane hi hj]
  exact ⟨⟨rfl, fun x => ⟨rfl, trivial⟩⟩, update_exec _ (fun y => y * wFactor f w inverse (i, j)) _ (h.plane.fits i j hi hj)⟩

/-- **C94, w-correction.**  On either device and for every interleaving, every pixel is multiplied by the phase screen
of its direction, and nothing else changes. -/
theorem C94_w_stack (h : Facet cuda m a.size nl nm pos) (ht : m.type = .complexDouble ∨ m.type = .complexFloat)
    (g : Place) (size : Nat) (hs : g.imageSize = size) (w : Int) (hw : w ≠ 0) (inverse : Bool) :
    let run := wStackCall cuda g m w inverse .success
    run.status = .success ∧ ∃ r, Yields run.prog run.threads a r ∧ r.size = a.size ∧
      (∀ i j, i < nl → j < nm → r.get (pos i j) = a.get (pos i j) *
        screen ((if inverse then 1 else -1) * (w * g.wStep))
          (lmToN g.hu g.hv (direction size g.theta nl g.offL i) (direction size g.theta nm g.offM j))) ∧
      ∀ x, (∀ i j, i < nl → j < nm → pos i j ≠ x) → r.get x = a.get x := by
  intro run
  have hf := fac_eq h g
  rw [hs, Int.toNat_natCast] at hf
  obtain ⟨h1, r, h2, h3, h4, h5⟩ := facet_run h
    (wBody ⟨size, g.theta, g.wStep, g.hu, g.hv, nl, nm, g.offL, g.offM⟩ w inverse (mkView m 2 .success))
    (fun i j => a.get (pos i j) * wFactor ⟨size, g.theta, g.wStep, g.hu, g.hv, nl, nm, g.offL, g.offM⟩ w inverse (i, j))
    (fun i j hi hj => wBody_spec h _ w inverse i j hi hj) run
    (fun hl => by
      show wStackCall cuda g m w inverse .success = _
      unfold wStackCall
      rw [if_neg (by simp [hw])]
      simp only [hl]
      rw [if_pos ht, facet_view h hl]
      simp only [ne_eq, not_true_eq_false, if_false]
      rw [hf])
    (fun hl => by
      show wStackCall cuda g m w inverse .success = _
      unfold wStackCall
      rw [if_neg (by simp [hw])]
      simp only [hl]
      rw [if_pos ht, facet_view h hl]
      simp only
      rw [hf])
  refine ⟨h1, r, h2, h3, fun i j hi hj => ?_, h5⟩
  rw [h4 i j hi hj, wFactor_eq, n_eq]

/-- The window made by the plan at `x`. -/
def value (p : Pswf.Params) (x : ℝ) : ℝ := (Pswf.evaluate p x).getD 0

/-- Value `k` of `size` window values; the first would be zero. -/
def sample (p : Pswf.Params) (size k : Nat) : ℝ :=
  if k = 0 then 1 / 10 ^ 15 else value p (2 * ((k : ℝ) - (size / 2 : Nat)) / size)

/-- A plan made by `sdp_pswf_create(0, c)`. -/
structure Made (p : Pswf.Params) : Prop where
  order : p.m = 0
  coeff : p.coeff.size = 200
  small : p.c < 364

theorem nValue_eq {pn : Pswf.Params} (hp : Made pn) (f : Fac) (p : Nat × Nat) :
    nValue f pn p = some (nWindow f ⟨pn.c, value pn⟩ p) := by
  unfold nValue nWindow
  by_cases hc : 0 < pn.c
  · rw [if_pos hc, if_pos hc]
    simp only
    by_cases hn : |f.n p * 2 * f.wStep| < 1
    · rw [if_pos hn, if_pos hn]
      obtain ⟨v, hv, -⟩ := Pswf.aswfa_spec pn hp.coeff hp.small |f.n p * 2 * f.wStep|
      rw [hp.order] at hv
      unfold value Pswf.evaluate
      rw [abs_abs, if_pos hn, hp.order, hv]
      rfl
    · rw [if_neg hn, if_neg hn]
  · rw [if_neg hc, if_neg hc]

theorem asArr_list (l : List ℝ) (i : Nat) (h : i < l.length) :
    (asArr (some (some l))).read (i : Int) = some (l.getD i 0) := by
  rw [Arr.read_nat]
  show (if i < l.length then _ else _) = _
  rw [if_pos h]
  rfl

/-- The array of the window values. -/
theorem values_ok {lm : Pswf.Params} (hp : Made lm) {size : Nat} (h2 : 2 ∣ size) (h0 : 0 < size) :
    ∃ s, Pswf.generateCached lm true size true (Pswf.fresh lm) .success = some (s, .success) ∧ s.valuesGpu = none ∧
      ∃ l, s.values = some (some l) ∧ ∀ k, k < size → (asArr (some (some l))).read (k : Int) = some (sample lm size k) := by
  obtain ⟨r, h1, -, h3, h4, -⟩ := Pswf.C84_samples_partial lm hp.coeff hp.small size h2 h0 1 id ⟨size, fun _ => 0⟩
    ⟨fun i _ => by simp, fun i hi => hi, fun i j _ _ e => e⟩ true
  refine ⟨{ Pswf.fresh lm with values := some (some ((List.range size).map r.get)), valuesGpu := none }, ?_, ?_,
    (List.range size).map r.get, ?_, ?_⟩
  · unfold Pswf.generateCached
    rw [if_neg (by simp), if_neg (by omega), if_pos rfl, h1]
    rfl
  · rfl
  · rfl
  · intro k hk
    rw [asArr_list _ _ (by simpa using hk)]
    have : ((List.range size).map r.get).getD k 0 = r.get k := by simp [hk]
    rw [this]
    unfold sample
    by_cases e : k = 0
    · subst e
      rw [if_pos rfl, ← h4 rfl]
      rfl
    · rw [if_neg e]
      have := h3 k hk (.inl (by omega))
      unfold value
      rw [← this]
      rfl

theorem coeff_ok {pn : Pswf.Params} (hp : Made pn) : (Pswf.queryCoeff true true (Pswf.fresh pn) .success).2 =
    (some ((List.range 200).map pn.coeff.get), .success) := by
  simp [Pswf.queryCoeff, Pswf.fresh, Pswf.copyGpu, hp.coeff]

theorem aswfaLoop_congr (c d : Arr ℝ) (h : ∀ i : Nat, c.read i = d.read i) (x1 : ℝ) : ∀ (fuel k : Nat) (x1p su1 : ℝ),
    Pswf.aswfaLoop c x1 k x1p su1 fuel = Pswf.aswfaLoop d x1 k x1p su1 fuel
  | 0, _, _, _ => rfl
  | fuel + 1, k, x1p, su1 => by
    unfold Pswf.aswfaLoop
    rw [h k]
    congr 1
    funext v
    simp only
    rw [aswfaLoop_congr c d h x1 fuel]

theorem aswfa_congr (m : Nat) (c : ℝ) (a b : Arr ℝ) (h : ∀ i : Nat, a.read i = b.read i) (x : ℝ) :
    Pswf.aswfa m c a x = Pswf.aswfa m c b x := by
  unfold Pswf.aswfa
  simp only
  have h0 := h 0
  rw [Nat.cast_zero] at h0
  rw [h0]
  congr 1
  funext v
  rw [aswfaLoop_congr a b h]

theorem copied {pn : Pswf.Params} (hp : Made pn) (i : Nat) :
    (asArr (some (some ((List.range 200).map pn.coeff.get)))).read (i : Int) = pn.coeff.read i := by
  rw [Arr.read_nat, Arr.read_nat, hp.coeff]
  show (if i < ((List.range 200).map pn.coeff.get).length then _ else _) = _
  rw [List.length_map, List.length_range]
  by_cases hi : i < 200
  · rw [if_pos hi, if_pos hi]
    show some (((List.range 200).map pn.coeff.get).getD i 0) = _
    congr 1
    simp [hi]
  · rw [if_neg hi, if_neg hi]

theorem nValue_copy {pn : Pswf.Params} (hp : Made pn) (f : Fac) (p : Nat × Nat) :
    nValue f { pn with coeff := asArr (some (some ((List.range 200).map pn.coeff.get))) } p = nValue f pn p := by
  unfold nValue
  simp only
  rw [aswfa_congr _ _ _ _ (copied hp)]

/-- What the correction divides pixel `(i, j)` by, `(i', j')` being the pixel of the whole image. -/
def divisor (lm pn : Pswf.Params) (g : Place) (size nl nm i j i' j' : Nat) : ℝ :=
  sample lm size i' * sample lm size j' *
    windowAt ⟨pn.c, value pn⟩ g.wStep
      (lmToN g.hu g.hv (direction size g.theta nl g.offL i) (direction size g.theta nm g.offM j))

theorem pswfBody_spec (h : Facet cuda m a.size nl nm pos) {lm pn pn' : Pswf.Params} (hn : Made pn) (g : Place) (size : Nat)
    (hpn : ∀ f p, nValue f pn' p = nValue f pn p) (vals : Arr ℝ)
    (hv : ∀ k, k < size → vals.read (k : Int) = some (sample lm size k)) (i j i' j' : Nat) (hi : i < nl) (hj : j < nm)
    (ei : (i' : Int) = inImage size nl g.offL i) (ej : (j' : Int) = inImage size nm g.offM j) (li : i' < size)
    (lj : j' < size) (hz : divisor lm pn g size nl nm i j i' j' ≠ 0) :
    let body := pswfBody ⟨size, g.theta, g.wStep, g.hu, g.hv, nl, nm, g.offL, g.offM⟩ vals pn' (mkView m 2 .success) (i, j)
    body.Within (fun x : Int => x = (pos i j : Nat)) ∧
      body.exec a = some (a.put (pos i j) (a.get (pos i j) / (divisor lm pn g size nl nm i j i' j' : ℝ))) := by
  intro body
  have e : body = .read ((pos i j : Nat) : Int) fun x =>
      .write ((pos i j : Nat) : Int) (x * ((1 / divisor lm pn g size nl nm i j i' j' : ℝ) : ℂ)) .done := by
    show pswfBody _ _ _ _ _ = _
    unfold pswfBody
    rw [plane_addr h.plane hi hj]
    have r1 : vals.read (pixPos nl g.offL i + ((size / 2 : Nat) : Int)) = some (sample lm size i') := by
      rw [← hv i' li, ei]; rfl
    have r2 : vals.read (pixPos nm g.offM j + ((size / 2 : Nat) : Int)) = some (sample lm size j') := by
      rw [← hv j' lj, ej]; rfl
    simp only
    rw [r1, r2, hpn, nValue_eq hn, nWindow_eq]
    simp only [Prog.need]
    unfold divisor at hz
    rw [if_neg hz]
    rfl
  rw [e]
  refine ⟨⟨rfl, fun x => ⟨rfl, trivial⟩⟩, ?_⟩
  rw [update_exec _ (fun y => y * ((1 / divisor lm pn g size nl nm i j i' j' : ℝ) : ℂ)) _ (h.plane.fits i j hi hj)]
  congr 2
  push_cast
  rw [mul_one_div]

/-- **C94, window correction.**  For an even image size and a facet inside the image, on either device and for every
interleaving, every pixel is divided by the window at its place, and nothing else changes. -/
theorem C94_pswf_partial (h : Facet cuda m a.size nl nm pos)
    (ht : m.type = .double ∨ m.type = .complexDouble ∨ m.type = .float ∨ m.type = .complexFloat)
    {lm pn : Pswf.Params} (hp : Made lm) (hn : Made pn) (g : Place) (size : Nat) (hs : g.imageSize = size)
    (h2 : 2 ∣ size) (h0 : 0 < size) (hl : Inside size nl g.offL) (hm : Inside size nm g.offM)
    (hz : ∀ i j i' j' : Nat, i < nl → j < nm → (i' : Int) = inImage size nl g.offL i →
      (j' : Int) = inImage size nm g.offM j → divisor lm pn g size nl nm i j i' j' ≠ 0) :
    ∃ run, pswfCall cuda true lm pn g m .success = some run ∧ run.status = .success ∧
      ∃ r, Yields run.prog run.threads a r ∧ r.size = a.size ∧
      (∀ i j i' j' : Nat, i < nl → j < nm → (i' : Int) = inImage size nl g.offL i →
        (j' : Int) = inImage size nm g.offM j →
        r.get (pos i j) = a.get (pos i j) / (divisor lm pn g size nl nm i j i' j' : ℝ)) ∧
      ∀ x, (∀ i j, i < nl → j < nm → pos i j ≠ x) → r.get x = a.get x := by
  obtain ⟨s, s1, s2, l, s3, s4⟩ := values_ok hp h2 h0
  have hf := fac_eq h g
  rw [hs, Int.toNat_natCast] at hf
  have htt : facetType m.type = true := by unfold facetType; exact decide_eq_true ht
  have body : ∀ pn' : Pswf.Params, (∀ f p, nValue f pn' p = nValue f pn p) → ∀ i j, i < nl → j < nm →
      (pswfBody ⟨size, g.theta, g.wStep, g.hu, g.hv, nl, nm, g.offL, g.offM⟩ (asArr (some (some l))) pn'
        (mkView m 2 .success) (i, j)).Within (fun x : Int => x = (pos i j : Nat)) ∧
      (pswfBody ⟨size, g.theta, g.wStep, g.hu, g.hv, nl, nm, g.offL, g.offM⟩ (asArr (some (some l))) pn'
        (mkView m 2 .success) (i, j)).exec a = some (a.put (pos i j) (a.get (pos i j) /
          (divisor lm pn g size nl nm i j (inImage size nl g.offL i).toNat (inImage size nm g.offM j).toNat : ℝ))) := by
    intro pn' hpn' i j hi hj
    have a1 := hl i hi
    have a2 := hm j hj
    have b1 : (((inImage size nl g.offL i).toNat : Nat) : Int) = inImage size nl g.offL i := Int.toNat_of_nonneg a1.1
    have b2 : (((inImage size nm g.offM j).toNat : Nat) : Int) = inImage size nm g.offM j := Int.toNat_of_nonneg a2.1
    exact pswfBody_spec h hn g size hpn' _ s4 i j _ _ hi hj b1 b2 (by omega) (by omega) (hz i j _ _ hi hj b1 b2)
  have fin : ∀ (pn' : Pswf.Params) (hpn' : ∀ f p, nValue f pn' p = nValue f pn p) (run : Run ℂ)
      (_ : m.location = .cpu → run = cpuRun .success (mkView m 2 .success)
        (pswfBody ⟨size, g.theta, g.wStep, g.hu, g.hv, nl, nm, g.offL, g.offM⟩ (asArr (some (some l))) pn'
          (mkView m 2 .success)))
      (_ : m.location = .gpu → run = launch cuda m .success (mkView m 2 .success)
        (pswfBody ⟨size, g.theta, g.wStep, g.hu, g.hv, nl, nm, g.offL, g.offM⟩ (asArr (some (some l))) pn'
          (mkView m 2 .success))), run.status = .success ∧
      ∃ r, Yields run.prog run.threads a r ∧ r.size = a.size ∧
      (∀ i j i' j' : Nat, i < nl → j < nm → (i' : Int) = inImage size nl g.offL i →
        (j' : Int) = inImage size nm g.offM j →
        r.get (pos i j) = a.get (pos i j) / (divisor lm pn g size nl nm i j i' j' : ℝ)) ∧
      ∀ x, (∀ i j, i < nl → j < nm → pos i j ≠ x) → r.get x = a.get x := by
    intro pn' hpn' run hc hg
    obtain ⟨h1, r, q2, q3, q4, q5⟩ := facet_run h _ _ (body pn' hpn') run hc hg
    refine ⟨h1, r, q2, q3, fun i j i' j' hi hj e1 e2 => ?_, q5⟩
    rw [q4 i j hi hj, ← e1, ← e2, Int.toNat_natCast, Int.toNat_natCast]
  have start : pswfCall cuda true lm pn g m .success = match m.location with
      | .cpu => some (cpuRun .success (mkView m 2 .success)
        (pswfBody ⟨size, g.theta, g.wStep, g.hu, g.hv, nl, nm, g.offL, g.offM⟩ (asArr (some (some l))) pn
          (mkView m 2 .success)))
      | .gpu => some (launch cuda m .success (mkView m 2 .success)
        (pswfBody ⟨size, g.theta, g.wStep, g.hu, g.hv, nl, nm, g.offL, g.offM⟩ (asArr (some (some l)))
          { pn with coeff := asArr (some (some ((List.range 200).map pn.coeff.get))) } (mkView m 2 .success)))
      | .other => some (Run.none .success) := by
    unfold pswfCall
    rw [if_neg (by simp), hs, Int.toNat_natCast, s1, Option.bind_some]
    rcases h.loc with hloc | ⟨hloc, hcu, -⟩
    · simp only [hloc]
      rw [if_pos htt, if_neg (by simp), facet_view h hloc]
      simp only [Pswf.queryValues, Bool.false_eq_true, if_false, Option.bind_some, s3, ne_eq, not_true_eq_false]
      rw [hf]
    · subst hcu
      simp only [hloc]
      simp only [Pswf.queryValues, if_true, s2, s3, Pswf.copyGpu, ne_eq, not_true_eq_false, if_false, Option.bind_some]
      rw [if_pos htt]
      have c := coeff_ok hn
      have c1 := congrArg Prod.fst c
      have c2 := congrArg Prod.snd c
      simp only at c1 c2
      rw [c1, c2, facet_view h hloc]
      simp only
      rw [hf]
  rw [start]
  rcases h.loc with hloc | ⟨hloc, -⟩
  · simp only [hloc]
    exact ⟨_, rfl, fin pn (fun _ _ => rfl) _ (fun _ => rfl) (fun e => by rw [hloc] at e; cases e)⟩
  · simp only [hloc]
    exact ⟨_, rfl, fin _ (fun f p => nValue_copy hn f p) _ (fun e => by rw [hloc] at e; cases e) (fun _ => rfl)⟩

end
end
end Sdp.GridCorrect
