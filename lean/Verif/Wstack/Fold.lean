import Verif.Wstack.ImageOk

/-!
# C89: from kernel calls to w-planes to the whole call
-/

namespace Sdp.Wstack

open Sdp.Clamp Sdp.GridUtil Sdp.Fft Sdp.WTower Sdp.GridCorrect Finset

noncomputable section

/-- Each visibility of w-plane `k` is in one of the calls `es`, no other visibility is. -/
def Share (su : Setup) (k : Int) (es : List Event) : Prop :=
  open Classical in
  ∀ i < su.numRows, ∀ c < su.numChan, (es.map fun e => if InCall e i c then 1 else 0).sum =
    if inBox su.cfg su.cfg.dW i 2 k c then 1 else 0

/-- What an action does: on plane `k` it adds `f k t` to the output value with index `pos t`. -/
structure Adds {ι : Type} (su : Setup)
    (act : ImgSched → Int → List (TaskSched × Event) → Arr ℂ → Option (Arr ℂ)) (N : Nat)
    (P : ι → Prop) (pos : ι → Nat) (f : Int → ι → ℂ) : Prop where
  zero : ∀ k : Int, (∀ i < su.numRows, ∀ c : Nat, c < su.numChan →
    ¬ inBox su.cfg su.cfg.dW i 2 k c) → ∀ t, P t → f k t = 0
  step : ∀ (k : Int) (sc : ImgSched) (es : List (TaskSched × Event)) (d : Arr ℂ), sc.Ok su →
    (∀ x ∈ es, x.1.Ok su x.2) → (∀ x ∈ es, GoodCall su.cfg k x.2) → Share su k (es.map Prod.snd) →
    d.size = N → ∃ d', act sc k es d = some d' ∧ d'.size = N ∧
      ∀ t, P t → d'.get (pos t) = d.get (pos t) + f k t

/-- What survives a w-plane. -/
structure Carry.Ok (su : Setup) (N : Nat) (st : Carry) : Prop where
  out : Sized su.cfg st.out
  bufs : st.bufs.length = su.threads
  valid : ∀ b ∈ st.bufs, Valid su.cfg b
  data : st.data.size = N

theorem Carry.Ok.ne {su : Setup} {N : Nat} {st : Carry} (h : su.Ok) (hs : st.Ok su N) :
    st.bufs ≠ [] := by
  intro e
  have := hs.bufs
  rw [e] at this
  have := h.threads
  simp at *
  omega

variable {ι : Type} {su : Setup}
  {act : ImgSched → Int → List (TaskSched × Event) → Arr ℂ → Option (Arr ℂ)}
  {N : Nat} {P : ι → Prop} {pos : ι → Nat} {f : Int → ι → ℂ}

/-- Every outcome of a w-plane is the normal one. -/
theorem plane_ok (h : su.Ok) (ha : Adds su act N P pos f) (iw iu iv : Int × Int)
    (hidx : indices su.cfg = some (iw, iu, iv)) (k : Int) (st : Carry) (hs : st.Ok su N)
    (o : Out Carry)
    (hp : Plane su act (ImgSched.Ok su) (fun e ts => TaskSched.Ok su e ts) iu iv k st o) :
    ∃ st' : Carry, o = .done st' ∧ st'.Ok su N ∧
      ∀ t, P t → st'.data.get (pos t) = st.data.get (pos t) + f k t := by
  have ok := h.cfgOk
  obtain ⟨w0, hw1, hw2, hw3⟩ := selectW_valid su.cfg h.uvw k st.out hs.out
  have hsum := sumDiff_all w0 su.cfg.numRows hw2.1.1 hw2.1.2 fun r hr => (hw3 r hr).1
  cases hp with
  | noSelect hh =>
    rw [hw1] at hh
    simp only [Option.bind_some] at hh
    rw [hsum] at hh
    cases hh
  | skip w hw hv =>
    rw [hw1] at hw
    cases hw
    refine ⟨_, rfl, ⟨hw2.1, hs.bufs, hs.valid, hs.data⟩, fun t ht => ?_⟩
    rw [ha.zero k _ t ht, add_zero]
    intro i hi c hc hb
    rw [hsum] at hv
    have hl : (visOf w0 0 su.cfg.numRows).length = 0 := by
      have := Option.some.inj hv
      omega
    have hmem : ((i : Int), (c : Int)) ∈ visOf w0 0 su.cfg.numRows := by
      rw [mem_visOf]
      refine ⟨⟨by simp, ?_⟩, ?_⟩
      · have : su.cfg.numRows = su.numRows := rfl
        simp only
        omega
      · simp only [Int.toNat_natCast]
        exact ((hw3 i hi).2 c).2 ⟨by omega, by
          have : su.cfg.numChan = su.numChan := rfl
          omega, hb⟩
    rw [List.length_eq_zero_iff.1 hl] at hmem
    simp at hmem
  | noCount w numVis order hw hv hne ho hth hc =>
    rw [hw1] at hw
    cases hw
    obtain ⟨_, _, e, _⟩ := countAll_spec su.cfg h.uvw w0 hw2 iu iv order ho st.bufs hs.valid hth
    rw [e] at hc
    cases hc
  | stuck w numVis order bufs tasks m s hw hv hne ho hth hc hr hf hstuck =>
    obtain ⟨_, g2, _⟩ := plane_calls su.cfg ok iw iu iv hidx k st.out w hs.out hw order ho st.bufs bufs
      (hs.ne h) hs.valid hth tasks hc m s hr
    obtain ⟨s', hs'⟩ := g2 hf
    exact absurd hs' (hstuck s')
  | run w numVis order bufs tasks m s sc es hw hv hne ho hth hc hr hf hsc hes hok =>
    obtain ⟨⟨g1, g2, g3⟩, _, g5⟩ := plane_calls su.cfg ok iw iu iv hidx k st.out w hs.out hw order ho
      st.bufs bufs (hs.ne h) hs.valid hth tasks hc m s hr
    obtain ⟨g6, g7⟩ := g5 hf
    have hcount : s.count = numVis := by
      rw [hv] at g6
      exact (Option.some.inj g6).symm
    rw [if_neg (by simp [hcount])]
    obtain ⟨d, a1, a2, a3⟩ := ha.step k sc es st.data hsc hok
      (fun x hx => g3 x.2 (by rw [← hes]; exact List.mem_map_of_mem hx))
      (by rw [hes]; exact g7) hs.data
    rw [a1]
    refine ⟨_, rfl, ⟨?_, ?_, ?_, a2⟩, a3⟩
    · rw [hw1] at hw
      cases hw
      exact hw2.1
    · simp only [List.length_map]
      rw [g1]
      exact hs.bufs
    · intro b hb
      simp only [List.mem_map] at hb
      obtain ⟨th, hth', rfl⟩ := hb
      exact g2 th hth'

theorem planes_ok (h : su.Ok) (ha : Adds su act N P pos f) (iw iu iv : Int × Int)
    (hidx : indices su.cfg = some (iw, iu, iv)) (l : List Int) (st : Carry) (o : Out Carry)
    (hp : Planes su act (ImgSched.Ok su) (fun e ts => TaskSched.Ok su e ts) iu iv l st o) :
    st.Ok su N → ∃ st' : Carry, o = .done st' ∧ st'.Ok su N ∧
      ∀ t, P t → st'.data.get (pos t) = st.data.get (pos t) + (l.map fun k => f k t).sum := by
  induction hp with
  | nil st => exact fun hs => ⟨st, rfl, hs, fun t _ => by simp⟩
  | cons k l st st1 o h1 _ ih =>
    intro hs
    obtain ⟨st2, e, hs2, v⟩ := plane_ok h ha iw iu iv hidx k st hs _ h1
    cases e
    obtain ⟨st3, e3, hs3, v3⟩ := ih hs2
    refine ⟨st3, e3, hs3, fun t ht => ?_⟩
    rw [v3 t ht, v t ht, List.map_cons, List.sum_cons, add_assoc]
  | abort k l st h1 =>
    intro hs
    obtain ⟨_, e, _⟩ := plane_ok h ha iw iu iv hidx k st hs _ h1
    cases e
  | fault k l st h1 =>
    intro hs
    obtain ⟨_, e, _⟩ := plane_ok h ha iw iu iv hidx k st hs _ h1
    cases e

theorem fresh_valid (su : Setup) : Valid su.cfg (freshRanges su) :=
  ⟨⟨rfl, rfl⟩, fun r _ hlt => by unfold freshRanges at hlt; simp at hlt⟩

theorem start_ok (su : Setup) (N : Nat) :
    Carry.Ok su N ⟨freshRanges su, List.replicate su.threads (freshRanges su), ⟨N, fun _ => 0⟩⟩ where
  out := ⟨rfl, rfl⟩
  bufs := List.length_replicate
  valid := fun b hb => by rw [List.eq_of_mem_replicate hb]; exact fresh_valid su
  data := rfl

/-- Every outcome of a whole call is the normal one; the result is the sum over the w-planes. -/
theorem whole_ok (h : su.Ok) (ha : Adds su act N P pos f) (o : Out Carry)
    (hw : Whole su act (ImgSched.Ok su) (fun e ts => TaskSched.Ok su e ts) N o) :
    ∃ (iw iu iv : Int × Int) (st : Carry), indices su.cfg = some (iw, iu, iv) ∧ o = .done st ∧
      st.data.size = N ∧
      ∀ t, P t → st.data.get (pos t) = ((rowsOf iw.1 (iw.2 + 1)).map fun k => f k t).sum := by
  cases hw with
  | noBounds hh =>
    obtain ⟨iw, iu, iv, e, _⟩ := indices_spec su.cfg h.cfgOk
    rw [e] at hh
    cases hh
  | run iw iu iv o' hh hr =>
    obtain ⟨st, e, hs, v⟩ := planes_ok h ha iw iu iv hh _ _ _ hr (start_ok su N)
    refine ⟨iw, iu, iv, st, hh, e, hs.data, fun t ht => ?_⟩
    rw [v t ht]
    simp

/-! ## Runs exist -/

/-- The loops in index order, zeroed buffers. -/
def ImgSched.plain (su : Setup) : ImgSched where
  px := nest2 su.size su.size
  c1 := nest2 su.size su.size
  c2 := nest2 su.size su.size
  o1 := List.range su.size
  o2 := List.range su.size
  ph := nest2 su.size su.size
  tmp := ⟨su.size * su.size, fun _ => 0⟩

def TaskSched.plain (su : Setup) (e : Event) : TaskSched where
  px := nest2 su.pl.n su.pl.n
  o1 := List.range su.pl.n
  o2 := List.range su.pl.n
  ph := nest2 su.pl.n su.pl.n
  s0 := fun _ => ⟨List.range su.pl.n, List.range su.pl.n, nest2 su.pl.n su.pl.n,
    rowList su.numRows e.1.rowStart e.1.rowEnd⟩
  s1 := fun _ => ⟨List.range su.pl.n, List.range su.pl.n, nest2 su.pl.n su.pl.n,
    rowList su.numRows e.1.rowStart e.1.rowEnd⟩
  sub := ⟨su.pl.n * su.pl.n, fun _ => 0⟩
  tmp := ⟨su.pl.n * su.pl.n, fun _ => 0⟩
  tower := ⟨su.pl.wSupport * (su.pl.n * su.pl.n), fun _ => 0⟩
  wImg := ⟨su.pl.n * su.pl.n, fun _ => 0⟩
  wTmp := ⟨su.pl.n * su.pl.n, fun _ => 0⟩

theorem ImgSched.plain_ok (su : Setup) : (ImgSched.plain su).Ok su :=
  ⟨.refl _, .refl _, .refl _, .refl _, .refl _, .refl _, rfl⟩

theorem TaskSched.plain_ok (su : Setup) (e : Event) : (TaskSched.plain su e).Ok su e :=
  ⟨.refl _, .refl _, .refl _, .refl _, fun _ => ⟨.refl _, .refl _, .refl _, .refl _⟩,
    fun _ => ⟨.refl _, .refl _, .refl _, .refl _⟩, rfl, rfl, rfl, rfl, rfl⟩

theorem plane_exists (h : su.Ok) (iw iu iv : Int × Int)
    (hidx : indices su.cfg = some (iw, iu, iv)) (k : Int) (st : Carry) (hs : st.Ok su N) :
    ∃ o, Plane su act (ImgSched.Ok su) (fun e ts => TaskSched.Ok su e ts) iu iv k st o := by
  have ok := h.cfgOk
  obtain ⟨w, hw1, hw2, hw3⟩ := selectW_valid su.cfg h.uvw k st.out hs.out
  have hsum := sumDiff_all w su.cfg.numRows hw2.1.1 hw2.1.2 fun r hr => (hw3 r hr).1
  by_cases hv : ((visOf w 0 su.cfg.numRows).length : Int) = 0
  · rw [hv] at hsum
    exact ⟨_, Plane.skip w hw1 hsum⟩
  have hth : ∀ x ∈ (boxes iu iv).map fun p => ((0 : Nat), p), x.1 < st.bufs.length := by
    intro x hx
    rw [List.mem_map] at hx
    obtain ⟨p, _, rfl⟩ := hx
    rw [hs.bufs]
    exact h.threads
  have hord : (((boxes iu iv).map fun p => ((0 : Nat), p)).map Prod.snd).Perm (boxes iu iv) := by
    rw [List.map_map]
    have : (Prod.snd ∘ fun p : Int × Int => ((0 : Nat), p)) = id := rfl
    rw [this, List.map_id]
  obtain ⟨bufs, v, hc, _⟩ := countAll_spec su.cfg h.uvw w hw2 iu iv _ hord st.bufs hs.valid hth
  have ext : ∀ (n m : Nat) (s : Par Ranges Event), potential s = n →
      Run (workKernel su.cfg w) m (Par.start ((boxes iu iv).map fun p =>
        mkTask p.1 p.2 ((v p : Nat) : Int) su.cfg.numRows su.cfg.vpc) bufs) s →
      ∃ m' s', Run (workKernel su.cfg w) m' (Par.start ((boxes iu iv).map fun p =>
        mkTask p.1 p.2 ((v p : Nat) : Int) su.cfg.numRows su.cfg.vpc) bufs) s' ∧ s'.final := by
    intro n
    induction n using Nat.strong_induction_on with
    | _ n ih =>
      intro m s hp hr
      by_cases hf : s.final
      · exact ⟨m, s, hr, hf⟩
      · obtain ⟨s', hs'⟩ := (plane_calls su.cfg ok iw iu iv hidx k st.out w hs.out hw1 _ hord st.bufs bufs
          (hs.ne h) hs.valid hth _ hc m s hr).2.1 hf
        have := potential_step _ hs'
        exact ih (potential s') (by omega) (m + 1) s' rfl (Run.step hr hs')
  obtain ⟨m', s', hr', hf'⟩ := ext _ 0 _ rfl (Run.refl _)
  exact ⟨_, Plane.run w _ _ bufs _ m' s' (ImgSched.plain su)
    (s'.handled.map fun e => (TaskSched.plain su e, e)) hw1 hsum hv hord hth hc hr' hf'
    (ImgSched.plain_ok su) (by rw [List.map_map]; exact List.map_id _) (by
      intro x hx
      rw [List.mem_map] at hx
      obtain ⟨e, _, rfl⟩ := hx
      exact TaskSched.plain_ok su e)⟩

theorem planes_exist (h : su.Ok) (ha : Adds su act N P pos f) (iw iu iv : Int × Int)
    (hidx : indices su.cfg = some (iw, iu, iv)) (l : List Int) :
    ∀ st : Carry, st.Ok su N →
      ∃ o, Planes su act (ImgSched.Ok su) (fun e ts => TaskSched.Ok su e ts) iu iv l st o := by
  induction l with
  | nil => exact fun st _ => ⟨_, Planes.nil st⟩
  | cons k l ih =>
    intro st hs
    obtain ⟨o, ho⟩ := plane_exists (act := act) h iw iu iv hidx k st hs
    obtain ⟨st', rfl, hs', _⟩ := plane_ok h ha iw iu iv hidx k st hs o ho
    obtain ⟨o', ho'⟩ := ih st' hs'
    exact ⟨o', Planes.cons k l st st' o' ho ho'⟩

theorem whole_exists (h : su.Ok) (ha : Adds su act N P pos f) :
    ∃ o, Whole su act (ImgSched.Ok su) (fun e ts => TaskSched.Ok su e ts) N o := by
  obtain ⟨iw, iu, iv, e, _⟩ := indices_spec su.cfg h.cfgOk
  obtain ⟨o, ho⟩ := planes_exist h ha iw iu iv e (rowsOf iw.1 (iw.2 + 1)) _ (start_ok su N)
  exact ⟨o, Whole.run iw iu iv o e ho⟩

/-! ## The two actions -/

open Classical in
theorem share_sum (su : Setup) (i c : Nat) (es : List Event) (x : ℂ) :
    (es.map fun e => if InCall e i c then x else 0).sum =
      ((es.map fun e => if InCall e i c then 1 else 0).sum : Nat) * x := by
  induction es with
  | nil => simp
  | cons e es ih =>
    rw [List.map_cons, List.sum_cons, ih, List.map_cons, List.sum_cons]
    push_cast
    by_cases hh : InCall e i c
    · simp only [if_pos hh]; push_cast; ring
    · simp only [if_neg hh]; push_cast; ring

open Classical in
/-- All calls of a w-plane when degridding. -/
theorem degrid_calls (h : su.Ok) (k : Int) (spot : Nat → Nat → Spot)
    (hsp : ∀ i < su.numRows, ∀ c < su.numChan, Placed su i c (spot i c)) (grid : Arr ℂ)
    (hg : grid.size = su.size * su.size) (es : List (TaskSched × Event))
    (hok : ∀ x ∈ es, x.1.Ok su x.2) (hgood : ∀ x ∈ es, GoodCall su.cfg k x.2) (vis : Arr ℂ)
    (hv : vis.size = su.numRows * su.numChan) :
    ∃ r, loop (degridTask su k grid) vis es = some r ∧ r.size = su.numRows * su.numChan ∧
      ∀ i < su.numRows, ∀ c < su.numChan, r.get (i * su.numChan + c) =
        vis.get (i * su.numChan + c) + ((es.map Prod.snd).map fun e => if InCall e i c then
          su.degridSub (spot i c) i c (su.subOf (spot i c).a (spot i c).b (im su.size grid))
          else 0).sum := by
  induction es generalizing vis with
  | nil => exact ⟨vis, rfl, hv, fun i _ c _ => by simp⟩
  | cons x es ih =>
    obtain ⟨r, e1, e2, e3⟩ := degridTask_ok h k x.2 (hgood x (by simp)) x.1 (hok x (by simp)) grid vis hg hv
      spot hsp
    obtain ⟨r', f1, f2, f3⟩ := ih (fun y hy => hok y (by simp [hy])) (fun y hy => hgood y (by simp [hy])) r
      (by rw [e2, hv])
    refine ⟨r', ?_, f2, fun i hi c hc => ?_⟩
    · unfold loop
      rw [show degridTask su k grid vis x = some r from e1]
      exact f1
    · rw [f3 i hi c hc, e3 i hi c hc]
      simp only [List.map_cons, List.sum_cons]
      ring

theorem subOf_congr (h : su.Ok) (a b : Int) (s t : Nat → Nat → ℂ)
    (hh : ∀ X < su.size, ∀ Y < su.size, s X Y = t X Y) (x y : Nat) :
    su.subOf a b s x y = su.subOf a b t x y := by
  unfold Setup.subOf
  congr 1
  apply centred_congr
  intro x _ y _
  exact hh _ (pos_lt h.size _ _ _) _ (pos_lt h.size _ _ _)

theorem degrid_adds (h : su.Ok) (img : Arr ℂ) (hi : img.size = su.size * su.size)
    (spot : Nat → Nat → Spot)
    (hsp : ∀ i < su.numRows, ∀ c < su.numChan, Placed su i c (spot i c)) :
    Adds su (degridAct su img) (su.numRows * su.numChan)
      (fun t : Nat × Nat => t.1 < su.numRows ∧ t.2 < su.numChan)
      (fun t => t.1 * su.numChan + t.2)
      (fun k t => if k = (spot t.1 t.2).k then
        su.degridAt (spot t.1 t.2) t.1 t.2 (im su.size img) else 0) where
  zero := by
    intro k hk t ht
    rw [if_neg]
    intro e
    exact hk t.1 ht.1 t.2 ht.2 (((hsp t.1 ht.1 t.2 ht.2).k k).2 e)
  step := by
    classical
    intro k sc es d hsc hok hgood hsh hd
    obtain ⟨g, e1, e2, e3⟩ := planeImage_ok h sc hsc k img hi
    obtain ⟨r, f1, f2, f3⟩ := degrid_calls h k spot hsp g e2 es hok hgood d hd
    refine ⟨r, ?_, f2, fun t ht => ?_⟩
    · unfold degridAct
      rw [e1]
      exact f1
    · rw [f3 t.1 ht.1 t.2 ht.2]
      congr 1
      rw [share_sum su]
      have hs := hsh t.1 ht.1 t.2 ht.2
      rw [show (((es.map Prod.snd).map fun e => if InCall e t.1 t.2 then 1 else 0).sum : Nat) =
        if inBox su.cfg su.cfg.dW t.1 2 k t.2 then 1 else 0 from by convert hs]
      have hq := (hsp t.1 ht.1 t.2 ht.2).k k
      by_cases hk : k = (spot t.1 t.2).k
      · rw [if_pos (hq.2 hk), if_pos hk]
        push_cast
        rw [one_mul]
        unfold Setup.degridAt
        apply degridSub_congr
        intro x _ y _
        rw [← hk]
        exact subOf_congr h _ _ _ _ e3 x y
      · rw [if_neg (fun e => hk (hq.1 e)), if_neg hk]
        simp

/-- All calls of a w-plane when gridding. -/
theorem grid_calls (h : su.Ok) (k : Int) (spot : Nat → Nat → Spot)
    (hsp : ∀ i < su.numRows, ∀ c < su.numChan, Placed su i c (spot i c)) (vis : Arr ℂ)
    (hv : vis.size = su.numRows * su.numChan) (es : List (TaskSched × Event))
    (hok : ∀ x ∈ es, x.1.Ok su x.2) (hgood : ∀ x ∈ es, GoodCall su.cfg k x.2) (grid : Arr ℂ)
    (hg : grid.size = su.size * su.size) :
    ∃ r, loop (gridTask su k vis) grid es = some r ∧ r.size = su.size * su.size ∧
      ∀ X < su.size, ∀ Y < su.size, im su.size r X Y = im su.size grid X Y +
        ((es.map Prod.snd).map fun e => ∑ t ∈ visIn su e, vis.get (t.1 * su.numChan + t.2) *
          su.gridGrid (spot t.1 t.2) t.1 t.2 X Y).sum := by
  induction es generalizing grid with
  | nil => exact ⟨grid, rfl, hg, fun i _ c _ => by simp⟩
  | cons x es ih =>
    obtain ⟨r, e1, e2, e3⟩ := gridTask_ok h k x.2 (hgood x (by simp)) x.1 (hok x (by simp)) grid vis hg hv
      spot hsp
    obtain ⟨r', f1, f2, f3⟩ := ih (fun y hy => hok y (by simp [hy])) (fun y hy => hgood y (by simp [hy])) r
      e2
    refine ⟨r', ?_, f2, fun X hX Y hY => ?_⟩
    · unfold loop
      rw [show gridTask su k vis grid x = some r from e1]
      exact f1
    · rw [f3 X hX Y hY, e3 X hX Y hY]
      simp only [List.map_cons, List.sum_cons]
      ring

open Classical in
theorem share_visIn (su : Setup) (es : List Event) (F : Nat × Nat → ℂ) :
    (es.map fun e => ∑ t ∈ visIn su e, F t).sum =
      ∑ t ∈ range su.numRows ×ˢ range su.numChan,
        (es.map fun e => if InCall e t.1 t.2 then F t else 0).sum := by
  induction es with
  | nil => simp
  | cons e es ih =>
    simp only [List.map_cons, List.sum_cons, Finset.sum_add_distrib]
    rw [ih]
    congr 1
    unfold visIn
    rw [Finset.sum_filter]

theorem grid_adds (h : su.Ok) (vis : Arr ℂ) (hv : vis.size = su.numRows * su.numChan)
    (spot : Nat → Nat → Spot)
    (hsp : ∀ i < su.numRows, ∀ c < su.numChan, Placed su i c (spot i c)) :
    Adds su (gridAct su vis) (su.size * su.size)
      (fun t : Nat × Nat => t.1 < su.size ∧ t.2 < su.size)
      (fun t => t.1 * su.size + t.2)
      (fun k z => ∑ t ∈ range su.numRows ×ˢ range su.numChan,
        if k = (spot t.1 t.2).k then vis.get (t.1 * su.numChan + t.2) *
          su.gridAt (spot t.1 t.2) t.1 t.2 z.1 z.2 else 0) where
  zero := by
    intro k hk z _
    apply sum_eq_zero
    intro t ht
    rw [Finset.mem_product, mem_range, mem_range] at ht
    rw [if_neg]
    intro e
    exact hk t.1 ht.1 t.2 ht.2 (((hsp t.1 ht.1 t.2 ht.2).k k).2 e)
  step := by
    classical
    intro k sc es d hsc hok hgood hsh hd
    obtain ⟨g, f1, f2, f3⟩ := grid_calls h k spot hsp vis hv es hok hgood
      ⟨su.size * su.size, fun _ => 0⟩ rfl
    obtain ⟨r, e1, e2, e3⟩ := planeAdd_ok h sc hsc k g d f2 hd
    refine ⟨r, ?_, e2, fun z hz => ?_⟩
    · unfold gridAct
      rw [f1]
      exact e1
    · have := e3 z.1 hz.1 z.2 hz.2
      unfold im at this
      rw [this]
      congr 1
      have hgrid : ∀ X, X < su.size → ∀ Y, Y < su.size → im su.size g X Y =
          ∑ t ∈ range su.numRows ×ˢ range su.numChan,
            (if k = (spot t.1 t.2).k then vis.get (t.1 * su.numChan + t.2) else 0) *
              su.gridGrid (spot t.1 t.2) t.1 t.2 X Y := by
        intro X hX Y hY
        rw [f3 X hX Y hY, share_visIn]
        have : im su.size ⟨su.size * su.size, fun _ => 0⟩ X Y = 0 := rfl
        rw [this, zero_add]
        refine sum_congr rfl fun t ht => ?_
        rw [Finset.mem_product, mem_range, mem_range] at ht
        rw [share_sum su]
        have hs := hsh t.1 ht.1 t.2 ht.2
        rw [show (((es.map Prod.snd).map fun e => if InCall e t.1 t.2 then 1 else 0).sum : Nat) =
          if inBox su.cfg su.cfg.dW t.1 2 k t.2 then 1 else 0 from by convert hs]
        have hq := (hsp t.1 ht.1 t.2 ht.2).k k
        by_cases hk : k = (spot t.1 t.2).k
        · rw [if_pos (hq.2 hk), if_pos hk]
          push_cast
          ring
        · rw [if_neg (fun e => hk (hq.1 e)), if_neg hk]
          push_cast
          ring
      have hc : centred true su.size su.size (fun x y => g.get (x * su.size + y)) z.1 z.2 =
          ∑ t ∈ range su.numRows ×ˢ range su.numChan,
            (if k = (spot t.1 t.2).k then vis.get (t.1 * su.numChan + t.2) else 0) *
              centred true su.size su.size (su.gridGrid (spot t.1 t.2) t.1 t.2) z.1 z.2 := by
        rw [← centred_lin]
        exact centred_congr _ _ _ _ (fun X hX Y hY => hgrid X hX Y hY) _ _
      rw [hc, sum_mul, sum_mul]
      refine sum_congr rfl fun t _ => ?_
      by_cases hk : k = (spot t.1 t.2).k
      · rw [if_pos hk, if_pos hk]
        unfold Setup.gridAt
        rw [← hk]
        ring
      · rw [if_neg hk, if_neg hk]
        ring

end
end Sdp.Wstack
