import Verif.Plans.Owned

/-! # C113: calls in which nothing fails -/

namespace Sdp.Plans
variable {P V : Type}

/-- No error so far, and none in the next `n` attempts. -/
def Good (n : Nat) (e : Env) : Prop := e.st = .success ∧ ∀ s ∈ e.tape.take n, s = .success

/-- The array is there and holds the table. -/
def Obj.Holds (m : Obj V) (v : V) : Prop := m.buf ≠ none ∧ m.val = some v

/-- The arrays of a handle are there and hold the tables of its parameters. -/
def Handle.Sound (T : Tables P V) : Handle P V → Prop
  | .pswf h => h.coeff.Holds (T.coeff h.par) ∧ (∀ m, h.coeffGpu = some m → m.Holds (T.coeff h.par)) ∧
      (∀ m, h.pswf = some m → m.Holds (T.values h.par h.size)) ∧
      (∀ m, h.pswfGpu = some m → m.Holds (T.values h.par h.size)) ∧ (h.size ≠ 0 → h.pswf ≠ none)
  | .tower h => h.uv.Holds (T.uv h.par) ∧ h.w.Holds (T.w h.par) ∧ h.pattern.Holds (T.pattern h.par) ∧
      (h.patternGpu = none ∧ h.uvGpu = none ∧ h.wGpu = none ∨ ∃ u w q, h.uvGpu = some u ∧ h.wGpu = some w ∧ h.patternGpu = some q ∧
        u.Holds (T.uv h.par) ∧ w.Holds (T.w h.par) ∧ q.Holds (T.pattern h.par))
  | .direct h => h.window.Holds (T.window h.par)
  | .swiftly h => h.fb.Holds (T.inverse h.par) ∧ h.fn.Holds (T.window h.par)
  | .fft _ => True
  | .es h => ∃ a b c d, h.kernel = some a ∧ h.nodes = some b ∧ h.weights = some c ∧ h.corr = some d ∧
      a.Holds (T.quad h.par) ∧ b.Holds (T.quad h.par) ∧ c.Holds (T.quad h.par) ∧ d.Holds (T.quad h.par)

theorem access_good {m : Obj V} {e : Env} {r : Multiset Nat} (h : e.live = m.owned + r) (hb : m.buf ≠ none) :
    access m e = some m.val := by
  rw [access_ok h]
  cases hm : m.buf with
  | none => exact absurd hm hb
  | some b => rfl

theorem attempt_good {n : Nat} {e : Env} (h : Good (n + 1) e) : e.attempt.1 = .success ∧ Good n e.attempt.2 := by
  obtain ⟨h1, h2⟩ := h
  unfold Env.attempt Good
  cases ht : e.tape with
  | nil => exact ⟨rfl, h1, by simp⟩
  | cons a l =>
    rw [ht, List.take_succ_cons] at h2
    exact ⟨h2 a (by simp), h1, fun s hs => h2 s (List.mem_cons_of_mem _ hs)⟩

theorem try_good {n : Nat} {e : Env} (h : Good (n + 1) e) : Good n e.try := by
  obtain ⟨h1, h2⟩ := attempt_good h
  unfold Env.try
  rw [if_neg (by rw [h1]; simp)]
  exact h2

theorem alloc_good {n : Nat} {e : Env} (h : Good n e) : Good n e.alloc.2 := h

theorem create_good {n : Nat} {e : Env} (h : Good (n + 1) e) :
    Good n (create e : Obj V × Env).2 ∧ (create e : Obj V × Env).1.buf ≠ none := by
  obtain ⟨h1, h2⟩ := attempt_good (alloc_good h)
  unfold create
  simp only
  rw [if_neg (by rw [(alloc_good h).1]; simp), if_neg (by rw [h1]; simp)]
  exact ⟨alloc_good h2, by simp⟩

theorem copyOf_good {n : Nat} {e : Env} {src : Obj V} {v : V} (h : Good (n + 2) e) (hs : src.Holds v) :
    Good n (copyOf src e).2 ∧ (copyOf src e).1.Holds v := by
  obtain ⟨h1, h2⟩ := create_good (V := V) h
  obtain ⟨a1, a2⟩ := attempt_good h1
  unfold copyOf
  simp only
  rw [if_neg (by rintro (h | h | h); exacts [h h1.1, h2 h, hs.1 h]), if_neg (by rw [a1]; simp)]
  exact ⟨a2, h2, hs.2⟩

theorem fill_good {n : Nat} {e : Env} {m : Obj V} {v : V} (h : Good (n + 1) e) (hm : m.buf ≠ none) :
    Good n (fill v m e).2 ∧ (fill v m e).1.Holds v := by
  obtain ⟨a1, a2⟩ := attempt_good h
  unfold fill
  rw [if_neg (by rw [h.1]; simp)]
  simp only
  rw [if_neg (by rw [a1]; simp)]
  exact ⟨a2, hm, rfl⟩

variable (T : Tables P V)

theorem pswfCreate_good {n : Nat} {p : P} {e : Env} (h : ∀ s ∈ e.tape.take (n + 1), s = .success) : ∃ r, pswfCreate T p e = some r ∧
    (Handle.pswf r.1).Sound T ∧ ∀ s ∈ r.2.tape.take n, s = .success := by
  have h' : Good (n + 1) (e.alloc.2.fail .success) := ⟨rfl, h⟩
  obtain ⟨h1, h2⟩ := create_good (V := V) h'
  unfold pswfCreate
  simp only
  rw [access_good (create_live _) h2, Option.bind_some]
  exact ⟨_, rfl, ⟨⟨h2, rfl⟩, (fun m hm => by cases hm), (fun m hm => by cases hm), (fun m hm => by cases hm),
    fun h => absurd rfl h⟩, h1.2⟩

theorem generatePswf_good {n : Nat} {p : P} {v : V} {m : Obj V} {e : Env} (h : Good (n + 2) e) (hm : m.buf ≠ none) :
    ∃ r, generatePswf T p v m e = some r ∧ Good n r.2 ∧ r.1.Holds v := by
  obtain ⟨r, hr, -, ht⟩ := pswfCreate_good T (n := n + 1) (p := p) h.2
  obtain ⟨hl, -, hst⟩ := pswfCreate_live T hr
  obtain ⟨f1, f2⟩ := fill_good (m := m) (v := v) (show Good (n + 1) r.2 from ⟨by rw [hst, h.1], ht⟩) hm
  unfold generatePswf
  rw [if_neg (by rw [h.1]; simp), hr, Option.bind_some]
  simp only
  rw [pswfFree_ok (r := e.live) (by rw [(fill_live _ _ _).1, hl]), Option.bind_some]
  exact ⟨_, rfl, f1, f2⟩

theorem makeKernel_good {n : Nat} {even : Bool} {p : P} {v : V} {m : Obj V} {e : Env} (h : Good (n + 4) e) (hm : m.buf ≠ none) :
    ∃ r, makeKernel T even p v m e = some r ∧ Good n r.2 ∧ r.1.Holds v := by
  obtain ⟨c1, c2⟩ := create_good (V := V) h
  obtain ⟨t, ht, t1, t2⟩ := generatePswf_good T (p := p) (v := v) c1 c2
  obtain ⟨l1, l2⟩ := generatePswf_live T ht
  have hl : t.2.live = t.1.owned + e.live := by rw [l1, l2, create_live]
  obtain ⟨f1, f2⟩ := fill_good (m := m) (v := v) t1 hm
  unfold makeKernel
  rw [if_neg (by rw [h.1]; simp)]
  simp only
  rw [ht, Option.bind_some, access_good hl t2.1]
  have : (if even = true then Option.map (fun _ : Option V => ()) (some t.1.val) else some ()) = some () := by cases even <;> rfl
  rw [this, Option.bind_some, memFree_ok (r := e.live) (by rw [(fill_live _ _ _).1, hl]), Option.bind_some]
  exact ⟨_, rfl, f1, f2⟩

/-- What a creation returned is sound. -/
def Fine (h : Option (Handle P V)) : Prop := ∀ x, h = some x → x.Sound T

theorem towerCreate_good {p : P} {e : Env} (h : Good 12 e) : ∃ r, towerCreate T p e = some r ∧ Fine T (r.1.map .tower) := by
  unfold towerCreate
  split
  · exact ⟨_, rfl, fun x hx => by cases hx⟩
  · obtain ⟨c1, c2⟩ := create_good (V := V) (alloc_good h)
    obtain ⟨u, hu, u1, u2⟩ := makeKernel_good T (even := (T.even p).1) (p := p) (v := T.uv p) c1 c2
    obtain ⟨d1, d2⟩ := create_good (V := V) u1
    obtain ⟨w, hw, w1, w2⟩ := makeKernel_good T (even := (T.even p).2) (p := p) (v := T.w p) d1 d2
    obtain ⟨q1, q2⟩ := create_good (V := V) w1
    obtain ⟨-, f2⟩ := fill_good (v := T.pattern p) q1 q2
    simp only
    rw [hu, Option.bind_some, hw, Option.bind_some]
    refine ⟨_, rfl, fun x hx => ?_⟩
    rw [← Option.some.inj hx]
    exact ⟨u2, w2, f2, Or.inl ⟨rfl, rfl, rfl⟩⟩

theorem directCreate_good {p : P} {e : Env} (h : Good 3 e) : ∃ r, directCreate T p e = some r ∧ (Handle.direct r.1).Sound T := by
  obtain ⟨c1, c2⟩ := create_good (V := V) (alloc_good h)
  obtain ⟨u, hu, u1, u2⟩ := generatePswf_good T (p := p) (v := T.window p) c1 c2
  obtain ⟨l1, l2⟩ := generatePswf_live T hu
  unfold directCreate
  simp only
  rw [hu, Option.bind_some, access_good (r := e.alloc.2.live) (by rw [l1, l2, create_live]) u2.1, Option.bind_some]
  exact ⟨_, rfl, u2⟩

theorem swiftlyCreate_good {good : Bool} {p : P} {e : Env} (h : Good 4 e) :
    ∃ r, swiftlyCreate T good p e = some r ∧ Fine T (r.1.map .swiftly) ∧ (good = true → r.2.st = .success) := by
  unfold swiftlyCreate
  rw [if_neg (by rw [h.1]; simp)]
  split
  · next hg => exact ⟨_, rfl, (fun x hx => by cases hx), fun hh => by rw [hg] at hh; cases hh⟩
  · obtain ⟨c1, c2⟩ := create_good (V := V) h
    obtain ⟨b, hb, b1, b2⟩ := generatePswf_good T (p := p) (v := T.inverse p) c1 c2
    obtain ⟨l1, l2⟩ := generatePswf_live T hb
    obtain ⟨n1, n2⟩ := create_good (V := V) b1
    have hn := create_live (V := V) b.2
    simp only
    rw [if_neg (by rw [c1.1]; simp), hb, Option.bind_some, if_neg (by rw [b1.1]; simp), if_neg (by rw [n1.1]; simp),
      access_good (r := (create b.2 : Obj V × Env).1.owned + e.live) (by rw [hn, l1, l2, create_live]; ac_rfl) b2.1, Option.bind_some,
      access_good hn n2, Option.bind_some]
    refine ⟨_, rfl, fun x hx => ?_, fun _ => n1.1⟩
    rw [← Option.some.inj hx]
    exact ⟨b2, n2, rfl⟩

theorem esTables_good {n : Nat} {h : EsPlan P V} {e : Env} (hg : Good (n + 12) e) : ∃ r, esTables T h e = some r ∧ Good n r.2 ∧
    (Handle.es r.1).Sound T := by
  unfold esTables
  simp only
  have la := create_live (V := V) e
  obtain ⟨a1, a2⟩ := create_good (V := V) hg
  generalize (create e : Obj V × Env) = ca at *
  have lb := create_live (V := V) ca.2
  obtain ⟨b1, b2⟩ := create_good (V := V) a1
  generalize (create ca.2 : Obj V × Env) = cb at *
  have lc := create_live (V := V) cb.2
  obtain ⟨c1, c2⟩ := create_good (V := V) b1
  generalize (create cb.2 : Obj V × Env) = cc at *
  have ld := create_live (V := V) cc.2
  obtain ⟨d1, d2⟩ := create_good (V := V) c1
  generalize (create cc.2 : Obj V × Env) = cd at *
  have lk := copyOf_live ({ ca.1 with val := some (T.quad h.par) } : Obj V) cd.2
  obtain ⟨k1, k2⟩ := copyOf_good d1 (show Obj.Holds { ca.1 with val := some (T.quad h.par) } (T.quad h.par) from ⟨a2, rfl⟩)
  generalize copyOf ({ ca.1 with val := some (T.quad h.par) } : Obj V) cd.2 = ck at *
  have ln := copyOf_live ({ cb.1 with val := some (T.quad h.par) } : Obj V) ck.2
  obtain ⟨n1, n2⟩ := copyOf_good k1 (show Obj.Holds { cb.1 with val := some (T.quad h.par) } (T.quad h.par) from ⟨b2, rfl⟩)
  generalize copyOf ({ cb.1 with val := some (T.quad h.par) } : Obj V) ck.2 = cn at *
  have lw := copyOf_live ({ cc.1 with val := some (T.quad h.par) } : Obj V) cn.2
  obtain ⟨w1, w2⟩ := copyOf_good n1 (show Obj.Holds { cc.1 with val := some (T.quad h.par) } (T.quad h.par) from ⟨c2, rfl⟩)
  generalize copyOf ({ cc.1 with val := some (T.quad h.par) } : Obj V) cn.2 = cw at *
  have lq := copyOf_live ({ cd.1 with val := some (T.quad h.par) } : Obj V) cw.2
  obtain ⟨q1, q2⟩ := copyOf_good w1 (show Obj.Holds { cd.1 with val := some (T.quad h.par) } (T.quad h.par) from ⟨d2, rfl⟩)
  generalize copyOf ({ cd.1 with val := some (T.quad h.par) } : Obj V) cw.2 = cq at *
  rw [access_good (m := ca.1) (r := cb.1.owned + (cc.1.owned + (cd.1.owned + e.live))) (by rw [ld, lc, lb, la]; ac_rfl) a2,
    Option.bind_some,
    access_good (m := cb.1) (r := ca.1.owned + (cc.1.owned + (cd.1.owned + e.live))) (by rw [ld, lc, lb, la]; ac_rfl) b2,
    Option.bind_some,
    access_good (m := cc.1) (r := ca.1.owned + (cb.1.owned + (cd.1.owned + e.live))) (by rw [ld, lc, lb, la]; ac_rfl) c2,
    Option.bind_some,
    access_good (m := cd.1) (r := ca.1.owned + (cb.1.owned + (cc.1.owned + e.live))) (by rw [ld, lc, lb, la]; ac_rfl) d2,
    Option.bind_some,
    memFree_ok (m := ca.1) (r := cb.1.owned + (cc.1.owned + (cd.1.owned + (ck.1.owned + cn.1.owned + cw.1.owned + cq.1.owned + e.live))))
      (by rw [lq, lw, ln, lk, ld, lc, lb, la]; ac_rfl),
    Option.bind_some, memFree_ok rfl, Option.bind_some, memFree_ok rfl, Option.bind_some, memFree_ok rfl, Option.bind_some]
  exact ⟨_, rfl, q1, _, _, _, _, rfl, rfl, rfl, rfl, k2, n2, w2, q2⟩

theorem esGuard_good {h : EsPlan P V} {e : Env} {rest : Env → Option (Option (EsPlan P V) × Env)} {n : Nat} (hg : Good n e) :
    esGuard h e rest = rest e := by
  unfold esGuard
  rw [if_neg (by rw [hg.1]; simp)]

theorem esCreate_good {p : P} {e : Env} (h : Good 17 e) : ∃ r, esCreate T p e = some r ∧ Fine T (r.1.map .es) := by
  have t0 := try_good h
  have t1 := try_good (alloc_good t0)
  have t2 := try_good t1
  obtain ⟨t, ht, g1, a, b, c, d, h1, h2, h3, h4, h5⟩ := esTables_good T (n := 2)
    (h := (⟨p, e.try.alloc.1, none, none, none, none, none⟩ : EsPlan P V)) t2
  obtain ⟨c1, c2⟩ := create_good (V := V) g1
  have t3 := try_good c1
  unfold esCreate
  rw [if_neg (by rw [h.1]; simp)]
  simp only
  rw [if_neg (by rw [t0.1]; simp), esGuard_good t1, esGuard_good t2, ht, Option.bind_some, esGuard_good c1, esGuard_good t3]
  refine ⟨_, rfl, fun x hx => ?_⟩
  rw [← Option.some.inj hx]
  exact ⟨a, b, c, d, h1, h2, h3, h4, h5⟩

end Sdp.Plans
