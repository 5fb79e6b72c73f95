import Verif.Plans.Props

/-! # C113: failures are reported -/

namespace Sdp.Plans
variable {P V : Type}

/-- The same environment when nothing fails from now on. -/
def Env.still (e : Env) : Env := { e with tape := [] }

theorem still_release {b : Nat} {e e' : Env} (h : e.release b = some e') :
    e'.st = e.st ∧ e.still.release b = some e'.still := by
  unfold Env.release at h ⊢
  split at h
  · next hb =>
    rw [← Option.some.inj h]
    exact ⟨rfl, by rw [if_pos (show b ∈ e.still.live from hb)]; rfl⟩
  · cases h

theorem still_memFree {m : Obj V} {e e' : Env} (h : memFree m e = some e') :
    e'.st = e.st ∧ memFree m e.still = some e'.still := by
  unfold memFree at h ⊢
  cases hb : m.buf with
  | none =>
    rw [hb] at h
    simp only [Option.bind_some] at h ⊢
    exact still_release h
  | some b =>
    rw [hb] at h
    simp only [Option.bind_eq_some_iff] at h ⊢
    obtain ⟨a, h1, h2⟩ := h
    obtain ⟨s1, t1⟩ := still_release h1
    obtain ⟨s2, t2⟩ := still_release h2
    exact ⟨s2.trans s1, _, t1, t2⟩

theorem still_memFree? {m : Option (Obj V)} {e e' : Env} (h : memFree? m e = some e') :
    e'.st = e.st ∧ memFree? m e.still = some e'.still := by
  cases m with
  | none =>
    unfold memFree? at h ⊢
    rw [← Option.some.inj h]
    exact ⟨rfl, rfl⟩
  | some m => exact still_memFree h

theorem still_create {e : Env} (h : (create e : Obj V × Env).2.st = .success) :
    e.st = .success ∧ (create e.still : Obj V × Env) = ((create e).1, (create e : Obj V × Env).2.still) := by
  unfold create at h ⊢
  simp only at h ⊢
  split at h
  · next hs => exact absurd h hs
  · next hs =>
    split at h
    · next hr => exact absurd h hr
    · next hr =>
      refine ⟨not_not.1 hs, ?_⟩
      rw [if_neg (show ¬ (e.still.alloc.2.st ≠ Status.success) from hs), if_neg (by simp [Env.attempt, Env.alloc, Env.still]),
        if_neg hs, if_neg hr]
      rfl

theorem still_copyOf {src : Obj V} {e : Env} (h : (copyOf src e).2.st = .success) :
    e.st = .success ∧ copyOf src e.still = ((copyOf src e).1, (copyOf src e).2.still) := by
  have key : (create e : Obj V × Env).2.st = .success := by
    unfold copyOf at h
    simp only at h
    split at h
    · exact h
    · next hc => exact not_not.1 fun hn => hc (Or.inl hn)
  obtain ⟨h1, h2⟩ := still_create key
  refine ⟨h1, ?_⟩
  unfold copyOf at h ⊢
  simp only [h2] at h ⊢
  split at h
  · next hc =>
    rw [if_pos hc, if_pos (by simpa [Env.still] using hc)]
  · next hc =>
    split at h
    · next hr => exact absurd h hr
    · next hr =>
      rw [if_neg hc, if_neg (by simpa [Env.still] using hc), if_neg hr, if_neg (by simp [Env.attempt, Env.still])]
      rfl

theorem still_fill {v : V} {m : Obj V} {e : Env} (h : (fill v m e).2.st = .success) :
    e.st = .success ∧ fill v m e.still = ((fill v m e).1, (fill v m e).2.still) := by
  unfold fill at h ⊢
  split at h
  · next hs => exact absurd h hs
  · next hs =>
    simp only at h
    split at h
    · next hr => exact absurd h hr
    · next hr =>
      refine ⟨not_not.1 hs, ?_⟩
      rw [if_neg (show ¬ (e.still.st ≠ Status.success) from hs)]
      simp only
      rw [if_neg (by simp [Env.attempt, Env.still]), if_neg hs, if_neg hr]
      rfl

theorem still_try {e : Env} (h : e.try.st = .success) : e.st = .success ∧ e.still.try = e.try.still := by
  unfold Env.try at h ⊢
  split at h
  · next hr => exact absurd h hr
  · next hr =>
    refine ⟨h, ?_⟩
    rw [if_neg hr, if_neg (by simp [Env.attempt, Env.still])]
    rfl

theorem still_access (m : Obj V) (e : Env) : access m e.still = access m e := rfl

section
variable (T : Tables P V)

/-- A function with a result and an environment reports its failures. -/
def Reports {R : Type} (f : Env → Option (R × Env)) : Prop :=
  ∀ e r, f e = some r → r.2.st = .success → e.st = .success ∧ f e.still = some (r.1, r.2.still)

theorem still_pswfCreate {p : P} {e : Env} {r : PswfPlan P V × Env} (h : pswfCreate T p e = some r) :
    r.2.st = e.st ∧ pswfCreate T p e.still = some (r.1, r.2.still) := by
  unfold pswfCreate at h ⊢
  simp only [Option.bind_eq_some_iff] at h ⊢
  obtain ⟨v, h1, h2⟩ := h
  have hs : (create (e.alloc.2.fail .success) : Obj V × Env).2.st = .success := by
    unfold create at h1 ⊢
    simp only at h1 ⊢
    split at h1
    · cases h1
    · split at h1
      · cases h1
      · next hs hr => rw [if_neg hs, if_neg hr]; rfl
  obtain ⟨-, k⟩ := still_create hs
  rw [← Option.some.inj h2]
  refine ⟨rfl, v, ?_, ?_⟩
  · rw [show (e.still.alloc.2.fail Status.success) = (e.alloc.2.fail .success).still from rfl, k]
    exact h1
  · rw [show (e.still.alloc.2.fail Status.success) = (e.alloc.2.fail .success).still from rfl, k]
    rfl

theorem still_pswfFree {h : PswfPlan P V} {e e' : Env} (hf : pswfFree h e = some e') :
    e'.st = e.st ∧ pswfFree h e.still = some e'.still := by
  unfold pswfFree at hf ⊢
  simp only [Option.bind_eq_some_iff] at hf ⊢
  obtain ⟨a, h1, b, h2, c, h3, d, h4, h5⟩ := hf
  obtain ⟨s1, t1⟩ := still_memFree? h1
  obtain ⟨s2, t2⟩ := still_memFree? h2
  obtain ⟨s3, t3⟩ := still_memFree h3
  obtain ⟨s4, t4⟩ := still_memFree? h4
  obtain ⟨s5, t5⟩ := still_release h5
  exact ⟨by rw [s5, s4, s3, s2, s1], _, t1, _, t2, _, t3, _, t4, t5⟩

theorem reports_generatePswf (p : P) (v : V) (m : Obj V) : Reports (generatePswf T p v m) := by
  intro e r h hs
  unfold generatePswf at h ⊢
  split at h
  · next he => rw [← Option.some.inj h] at hs; exact absurd hs he
  · next he =>
    simp only [Option.bind_eq_some_iff] at h
    obtain ⟨c, h1, e', h2, h3⟩ := h
    obtain ⟨-, t1⟩ := still_pswfCreate T h1
    obtain ⟨s2, t2⟩ := still_pswfFree h2
    rw [← Option.some.inj h3] at hs
    obtain ⟨s3, t3⟩ := still_fill (e := c.2) (s2.symm.trans hs)
    refine ⟨not_not.1 he, ?_⟩
    rw [if_neg (show ¬ (e.still.st ≠ Status.success) from he)]
    simp only [Option.bind_eq_some_iff]
    refine ⟨_, t1, ?_⟩
    rw [t3]
    exact ⟨_, t2, by rw [← Option.some.inj h3]⟩

theorem reports_makeKernel (even : Bool) (p : P) (v : V) (m : Obj V) : Reports (makeKernel T even p v m) := by
  intro e r h hs
  unfold makeKernel at h ⊢
  split at h
  · next he => rw [← Option.some.inj h] at hs; exact absurd hs he
  · next he =>
    simp only [Option.bind_eq_some_iff] at h
    obtain ⟨c, h1, u, h2, e', h3, h4⟩ := h
    rw [← Option.some.inj h4] at hs
    obtain ⟨s3, t3⟩ := still_memFree h3
    obtain ⟨s2, t2⟩ := still_fill (s3.symm.trans hs)
    obtain ⟨s1, t1⟩ := reports_generatePswf T p v _ _ _ h1 s2
    obtain ⟨-, t0⟩ := still_create s1
    refine ⟨not_not.1 he, ?_⟩
    rw [if_neg (show ¬ (e.still.st ≠ Status.success) from he)]
    simp only [Option.bind_eq_some_iff]
    rw [t0]
    refine ⟨_, t1, u, h2, ?_⟩
    rw [t2]
    exact ⟨_, t3, by rw [← Option.some.inj h4]⟩

theorem reports_towerCreate (p : P) : Reports (towerCreate T p) := by
  intro e r h hs
  unfold towerCreate at h ⊢
  split at h
  · rw [← Option.some.inj h] at hs; cases hs
  · next he =>
    simp only [Option.bind_eq_some_iff] at h
    obtain ⟨u, h1, w, h2, h3⟩ := h
    rw [← Option.some.inj h3] at hs
    obtain ⟨s3, t3⟩ := still_fill hs
    obtain ⟨s2, t2⟩ := still_create s3
    obtain ⟨s1, t1⟩ := reports_makeKernel T _ p _ _ _ _ h2 s2
    obtain ⟨s0, t0⟩ := still_create s1
    obtain ⟨sb, tb⟩ := reports_makeKernel T _ p _ _ _ _ h1 s0
    obtain ⟨sa, ta⟩ := still_create sb
    refine ⟨sa, ?_⟩
    rw [if_neg he]
    simp only [Option.bind_eq_some_iff]
    rw [show e.still.alloc.2 = e.alloc.2.still from rfl, ta]
    refine ⟨_, tb, ?_⟩
    rw [t0]
    refine ⟨_, t1, ?_⟩
    rw [t2, t3, ← Option.some.inj h3]
    rfl

theorem reports_directCreate (p : P) : Reports (directCreate T p) := by
  intro e r h hs
  unfold directCreate at h ⊢
  simp only [Option.bind_eq_some_iff] at h ⊢
  obtain ⟨c, h1, v, h2, h3⟩ := h
  rw [← Option.some.inj h3] at hs
  obtain ⟨s1, t1⟩ := reports_generatePswf T p _ _ _ _ h1 hs
  obtain ⟨s0, t0⟩ := still_create s1
  refine ⟨s0, ?_⟩
  rw [show e.still.alloc.2 = e.alloc.2.still from rfl, t0]
  exact ⟨_, t1, v, h2, by rw [← Option.some.inj h3]; rfl⟩

theorem reports_swiftlyCreate (good : Bool) (p : P) : Reports (swiftlyCreate T good p) := by
  intro e r h hs
  unfold swiftlyCreate at h ⊢
  split at h
  · next he => rw [← Option.some.inj h] at hs; exact absurd hs he
  next he =>
  split at h
  · rw [← Option.some.inj h] at hs; cases hs
  next hg =>
  simp only at h
  split at h
  · next hb => rw [← Option.some.inj h] at hs; exact absurd hs hb
  next hb =>
  obtain ⟨s0, t0⟩ := still_create (not_not.1 hb)
  simp only [Option.bind_eq_some_iff] at h
  obtain ⟨b, h1, h2⟩ := h
  split at h2
  · next hq =>
    simp only [Option.bind_eq_some_iff] at h2
    obtain ⟨e', h3, h4⟩ := h2
    rw [← Option.some.inj h4] at hs
    exact absurd ((still_memFree h3).1.symm.trans hs) hq
  next hq =>
  obtain ⟨s1, t1⟩ := reports_generatePswf T p _ _ _ _ h1 (not_not.1 hq)
  split at h2
  · next hn =>
    simp only [Option.bind_eq_some_iff] at h2
    obtain ⟨e', h3, h4⟩ := h2
    rw [← Option.some.inj h4] at hs
    exact absurd ((still_memFree h3).1.symm.trans hs) hn
  next hn =>
  obtain ⟨s2, t2⟩ := still_create (not_not.1 hn)
  simp only [Option.bind_eq_some_iff] at h2
  obtain ⟨v, h3, v', h4, h5⟩ := h2
  refine ⟨not_not.1 he, ?_⟩
  rw [if_neg (show ¬ (e.still.st ≠ Status.success) from he), if_neg hg]
  simp only [t0]
  rw [if_neg (show ¬ ((create e : Obj V × Env).2.still.st ≠ Status.success) from hb)]
  simp only [Option.bind_eq_some_iff]
  refine ⟨_, t1, ?_⟩
  rw [if_neg (show ¬ (b.2.still.st ≠ Status.success) from hq)]
  simp only [t2]
  rw [if_neg (show ¬ ((create b.2 : Obj V × Env).2.still.st ≠ Status.success) from hn)]
  simp only [Option.bind_eq_some_iff]
  exact ⟨v, h3, v', h4, by rw [← Option.some.inj h5]; rfl⟩

theorem reports_fftCreate (p : P) : Reports (fun e => some (fftCreate p e : Option (FftPlan P V) × Env)) := by
  intro e r h hs
  rw [← Option.some.inj h] at hs ⊢
  clear h
  unfold fftCreate at hs ⊢
  split at hs
  · next he => exact absurd hs he
  next he =>
  simp only at hs
  split at hs
  · next hr => exact absurd hs hr
  next hr =>
  split at hs
  · next hk => exact absurd hs hk
  next hk =>
  obtain ⟨s1, t1⟩ := still_create hs
  refine ⟨not_not.1 he, ?_⟩
  simp only
  rw [if_neg (show ¬ (e.still.st ≠ Status.success) from he), if_neg (by simp [Env.attempt, Env.still]), if_neg he, if_neg hr, if_neg hk,
    if_neg (by simp [Env.attempt, Env.still, aliasOf, Env.alloc])]
  congr 1
  have := t1
  simp only [aliasOf, Env.alloc, Env.attempt, Env.still] at this ⊢
  simp only [List.tail_nil]
  rw [this]

theorem still_esFree {h : EsPlan P V} {e e' : Env} (hf : esFree h e = some e') :
    e'.st = e.st ∧ esFree h e.still = some e'.still := by
  unfold esFree at hf ⊢
  simp only [Option.bind_eq_some_iff] at hf ⊢
  obtain ⟨a, h1, b, h2, c, h3, d, h4, g, h5, h6⟩ := hf
  obtain ⟨s1, t1⟩ := still_memFree? h1
  obtain ⟨s2, t2⟩ := still_memFree? h2
  obtain ⟨s3, t3⟩ := still_memFree? h3
  obtain ⟨s4, t4⟩ := still_memFree? h4
  obtain ⟨s5, t5⟩ := still_memFree? h5
  obtain ⟨s6, t6⟩ := still_release h6
  exact ⟨by rw [s6, s5, s4, s3, s2, s1], _, t1, _, t2, _, t3, _, t4, _, t5, t6⟩

theorem reports_esTables (h : EsPlan P V) : Reports (esTables T h) := by
  intro e r hf hs
  unfold esTables at hf ⊢
  simp only [Option.bind_eq_some_iff] at hf ⊢
  obtain ⟨v1, a1, v2, a2, v3, a3, v4, a4, f1, b1, f2, b2, f3, b3, f4, b4, hf⟩ := hf
  rw [← Option.some.inj hf] at hs
  obtain ⟨s4, t4⟩ := still_memFree b4
  obtain ⟨s3, t3⟩ := still_memFree b3
  obtain ⟨s2, t2⟩ := still_memFree b2
  obtain ⟨s1, t1⟩ := still_memFree b1
  obtain ⟨u4, w4⟩ := still_copyOf (show _ = Status.success by rw [← s1, ← s2, ← s3, ← s4]; exact hs)
  obtain ⟨u3, w3⟩ := still_copyOf u4
  obtain ⟨u2, w2⟩ := still_copyOf u3
  obtain ⟨u1, w1⟩ := still_copyOf u2
  obtain ⟨x4, y4⟩ := still_create u1
  obtain ⟨x3, y3⟩ := still_create x4
  obtain ⟨x2, y2⟩ := still_create x3
  obtain ⟨x1, y1⟩ := still_create x2
  refine ⟨x1, ?_⟩
  rw [y1, y2, y3, y4, w1, w2, w3, w4]
  exact ⟨v1, a1, v2, a2, v3, a3, v4, a4, _, t1, _, t2, _, t3, _, t4, by rw [← Option.some.inj hf]⟩

theorem reports_esGuard (h : EsPlan P V) {rest : Env → Option (Option (EsPlan P V) × Env)} (hr : Reports rest) :
    Reports (fun e => esGuard h e rest) := by
  intro e r hf hs
  simp only at hf ⊢
  unfold esGuard at hf ⊢
  split at hf
  · next he =>
    simp only [Option.bind_eq_some_iff] at hf
    obtain ⟨e', h1, h2⟩ := hf
    rw [← Option.some.inj h2] at hs
    exact absurd ((still_esFree h1).1.symm.trans hs) he
  · next he =>
    obtain ⟨s1, t1⟩ := hr e r hf hs
    refine ⟨s1, ?_⟩
    rw [if_neg (show ¬ (e.still.st ≠ Status.success) from he)]
    exact t1

theorem reports_after {R : Type} {f : Env → Option (R × Env)} (hf : Reports f) : Reports (fun e => f e.try) := by
  intro e r h hs
  obtain ⟨s1, t1⟩ := hf _ _ h hs
  obtain ⟨s0, t0⟩ := still_try s1
  refine ⟨s0, ?_⟩
  simp only
  rw [t0]
  exact t1

theorem reports_esCreate (p : P) : Reports (esCreate T p) := by
  intro e r h hs
  unfold esCreate at h ⊢
  split at h
  · next he => rw [← Option.some.inj h] at hs; exact absurd hs he
  next he =>
  simp only at h
  split at h
  · next hc => rw [← Option.some.inj h] at hs; exact absurd hs hc
  next hc =>
  obtain ⟨s0, t0⟩ := still_try (not_not.1 hc)
  refine ⟨s0, ?_⟩
  rw [if_neg (show ¬ (e.still.st ≠ Status.success) from he)]
  simp only [t0]
  rw [if_neg (show ¬ (e.try.still.st ≠ Status.success) from hc)]
  rw [show e.try.still.alloc.1 = e.try.alloc.1 from rfl, show e.try.still.alloc.2 = e.try.alloc.2.still from rfl]
  generalize e.try.alloc.1 = blk at h ⊢
  generalize e.try.alloc.2 = e2 at h ⊢
  have inner : Reports (fun e => (esTables T ⟨p, blk, none, none, none, none, none⟩ e).bind fun t =>
      let g : Obj V × Env := create t.2
      let h := { t.1 with stack := some g.1 }
      esGuard h g.2 fun e => esGuard h e.try fun e => some (some h, e)) := by
    intro e r h hs
    simp only [Option.bind_eq_some_iff] at h ⊢
    obtain ⟨t, h1, h2⟩ := h
    have k := reports_esGuard { t.1 with stack := some (create t.2 : Obj V × Env).1 } (rest := fun e =>
      esGuard { t.1 with stack := some (create t.2 : Obj V × Env).1 } e.try fun e =>
        some (some { t.1 with stack := some (create t.2 : Obj V × Env).1 }, e))
      (reports_after (reports_esGuard _ fun e r h hs => by
        rw [← Option.some.inj h] at hs ⊢; exact ⟨hs, rfl⟩))
    obtain ⟨s1, t1⟩ := k _ _ h2 hs
    obtain ⟨s2, t2⟩ := still_create s1
    obtain ⟨s3, t3⟩ := reports_esTables T _ _ _ h1 s2
    refine ⟨s3, _, t3, ?_⟩
    simp only [t2]
    exact t1
  have outer := reports_after (reports_esGuard ⟨p, blk, none, none, none, none, none⟩ (reports_after
    (reports_esGuard ⟨p, blk, none, none, none, none, none⟩ inner)))
  exact (outer e2 r h hs).2

/-! ## Use of handles -/

theorem still_towerCopies {h : TowerPlan P V} {e : Env} (hs : (towerCopies h e).2.st = .success) :
    e.st = .success ∧ towerCopies h e.still = ((towerCopies h e).1, (towerCopies h e).2.still) := by
  unfold towerCopies at hs ⊢
  split at hs
  · exact ⟨hs, rfl⟩
  · simp only at hs ⊢
    obtain ⟨s3, t3⟩ := still_copyOf hs
    obtain ⟨s2, t2⟩ := still_copyOf s3
    obtain ⟨s1, t1⟩ := still_copyOf s2
    refine ⟨s1, ?_⟩
    rw [t1, t2, t3]

/-- The same for a function with a list of tables. -/
def Reads {R L : Type} (f : Env → Option (R × Env × L)) : Prop :=
  ∀ e r, f e = some r → r.2.1.st = .success → e.st = .success ∧ f e.still = some (r.1, r.2.1.still, r.2.2)

theorem reads_towerUse (gpu grid : Bool) (planes : Int) (h : TowerPlan P V) : Reads (towerUse gpu grid planes h) := by
  intro e r hf hs
  unfold towerUse at hf ⊢
  split at hf
  · next he => rw [← Option.some.inj hf] at hs; exact absurd hs he
  next he =>
  refine ⟨not_not.1 he, ?_⟩
  rw [if_neg (show ¬ (e.still.st ≠ Status.success) from he)]
  have key : ∀ c c' : TowerPlan P V × Env, (c.2.st = .success → c' = (c.1, c.2.still)) → ∀ g : TowerPlan P V → TowerPlan P V,
      (if c.2.st ≠ .success then some (g c.1, c.2, [])
        else
          let r := c.2.attempt
          if r.1 ≠ .success then some (g c.1, r.2.fail r.1, [])
          else (towerArrays gpu (g c.1)).bind fun a => (access3 a r.2).bind fun l => some (g c.1, r.2, l)) = some r →
      (if c'.2.st ≠ .success then some (g c'.1, c'.2, [])
        else
          let r := c'.2.attempt
          if r.1 ≠ .success then some (g c'.1, r.2.fail r.1, [])
          else (towerArrays gpu (g c'.1)).bind fun a => (access3 a r.2).bind fun l => some (g c'.1, r.2, l)) =
        some (r.1, r.2.1.still, r.2.2) := by
    intro c c' hc g hf
    split at hf
    · next hn => rw [← Option.some.inj hf] at hs; exact absurd hs hn
    next hn =>
    simp only at hf
    split at hf
    · next hr => rw [← Option.some.inj hf] at hs; exact absurd hs hr
    next hr =>
    rw [hc (not_not.1 hn)]
    simp only
    rw [if_neg (show ¬ (c.2.still.st ≠ Status.success) from hn), if_neg (by simp [Env.attempt, Env.still])]
    simp only [Option.bind_eq_some_iff] at hf ⊢
    obtain ⟨a, h1, l, h2, h3⟩ := hf
    exact ⟨a, h1, l, h2, by rw [← Option.some.inj h3]; rfl⟩
  simp only at hf ⊢
  refine key (if gpu then towerCopies h e else (h, e)) _ ?_ (fun t => { t with planes :=
    if grid then (t.planes.1, t.planes.2 + planes) else (t.planes.1 + planes, t.planes.2) }) hf
  intro hc
  cases gpu with
  | false => rfl
  | true =>
    simp only [if_true] at hc ⊢
    exact (still_towerCopies hc).2

theorem reads_directUse (h : DirectPlan P V) : Reads (directUse h) := by
  intro e r hf hs
  unfold directUse at hf ⊢
  split at hf
  · next he => rw [← Option.some.inj hf] at hs; exact absurd hs he
  next he =>
  simp only at hf
  split at hf
  · next hr => rw [← Option.some.inj hf] at hs; exact absurd hs hr
  next hr =>
  refine ⟨not_not.1 he, ?_⟩
  rw [if_neg (show ¬ (e.still.st ≠ Status.success) from he)]
  simp only
  rw [if_neg (by simp [Env.attempt, Env.still])]
  simp only [Option.bind_eq_some_iff] at hf ⊢
  obtain ⟨v, h1, h2⟩ := hf
  exact ⟨v, h1, by rw [← Option.some.inj h2]; rfl⟩

theorem reads_swiftlyUse (h : SwiftlyPlan P V) : Reads (swiftlyUse h) := by
  intro e r hf hs
  unfold swiftlyUse at hf ⊢
  split at hf
  · next he => rw [← Option.some.inj hf] at hs; exact absurd hs he
  next he =>
  simp only at hf
  split at hf
  · next hr => rw [← Option.some.inj hf] at hs; exact absurd hs hr
  next hr =>
  refine ⟨not_not.1 he, ?_⟩
  rw [if_neg (show ¬ (e.still.st ≠ Status.success) from he)]
  simp only
  rw [if_neg (by simp [Env.attempt, Env.still])]
  simp only [Option.bind_eq_some_iff] at hf ⊢
  obtain ⟨v, h1, w, h3, h2⟩ := hf
  exact ⟨v, h1, w, h3, by rw [← Option.some.inj h2]; rfl⟩

theorem reads_esUse (h : EsPlan P V) : Reads (esUse h) := by
  intro e r hf hs
  unfold esUse at hf ⊢
  split at hf
  · next he => rw [← Option.some.inj hf] at hs; exact absurd hs he
  next he =>
  simp only at hf
  split at hf
  · next hr => rw [← Option.some.inj hf] at hs; exact absurd hs hr
  next hr =>
  refine ⟨not_not.1 he, ?_⟩
  rw [if_neg (show ¬ (e.still.st ≠ Status.success) from he)]
  simp only
  rw [if_neg (by simp [Env.attempt, Env.still])]
  simp only [Option.bind_eq_some_iff] at hf ⊢
  obtain ⟨a, h1, b, h2, c, h3, d, h4, l, h5, v, h6, h7⟩ := hf
  exact ⟨a, h1, b, h2, c, h3, d, h4, l, h5, v, h6, by rw [← Option.some.inj h7]; rfl⟩

theorem reads_useHandle (gpu grid : Bool) (planes : Int) (h : Handle P V) : Reads (useHandle gpu grid planes h) := by
  intro e r hf hs
  unfold useHandle at hf ⊢
  cases h with
  | tower h =>
    simp only [Option.map_eq_some_iff] at hf ⊢
    obtain ⟨a, h1, h2⟩ := hf
    rw [← h2] at hs ⊢
    obtain ⟨s, t⟩ := reads_towerUse gpu grid planes h _ _ h1 hs
    exact ⟨s, _, t, rfl⟩
  | direct h =>
    simp only [Option.map_eq_some_iff] at hf ⊢
    obtain ⟨a, h1, h2⟩ := hf
    rw [← h2] at hs ⊢
    obtain ⟨s, t⟩ := reads_directUse h _ _ h1 hs
    exact ⟨s, _, t, rfl⟩
  | swiftly h =>
    simp only [Option.map_eq_some_iff] at hf ⊢
    obtain ⟨a, h1, h2⟩ := hf
    rw [← h2] at hs ⊢
    obtain ⟨s, t⟩ := reads_swiftlyUse h _ _ h1 hs
    exact ⟨s, _, t, rfl⟩
  | es h =>
    simp only [Option.map_eq_some_iff] at hf ⊢
    obtain ⟨a, h1, h2⟩ := hf
    rw [← h2] at hs ⊢
    obtain ⟨s, t⟩ := reads_esUse h _ _ h1 hs
    exact ⟨s, _, t, rfl⟩
  | pswf h =>
    simp only at hf ⊢
    rw [← Option.some.inj hf] at hs ⊢
    exact ⟨hs, rfl⟩
  | fft h =>
    simp only at hf ⊢
    rw [← Option.some.inj hf] at hs ⊢
    exact ⟨hs, rfl⟩

theorem reports_makeHandle (k : Kind) (good : Bool) (p : P) {e : Env} {r : Option (Handle P V) × Env}
    (hf : makeHandle T k good p e = some r) (hs : r.2.st = .success) :
    makeHandle T k good p e.still = some (r.1, r.2.still) := by
  unfold makeHandle at hf ⊢
  cases k with
  | pswf =>
    simp only [Option.map_eq_some_iff] at hf ⊢
    obtain ⟨a, h1, h2⟩ := hf
    rw [← h2]
    exact ⟨_, (still_pswfCreate T h1).2, rfl⟩
  | tower =>
    simp only [Option.map_eq_some_iff] at hf ⊢
    obtain ⟨a, h1, h2⟩ := hf
    rw [← h2] at hs ⊢
    exact ⟨_, (reports_towerCreate T p _ _ h1 hs).2, rfl⟩
  | direct =>
    simp only [Option.map_eq_some_iff] at hf ⊢
    obtain ⟨a, h1, h2⟩ := hf
    rw [← h2] at hs ⊢
    exact ⟨_, (reports_directCreate T p _ _ h1 hs).2, rfl⟩
  | swiftly =>
    simp only [Option.map_eq_some_iff] at hf ⊢
    obtain ⟨a, h1, h2⟩ := hf
    rw [← h2] at hs ⊢
    exact ⟨_, (reports_swiftlyCreate T good p _ _ h1 hs).2, rfl⟩
  | fft =>
    simp only at hf ⊢
    rw [← Option.some.inj hf] at hs ⊢
    have := (reports_fftCreate (V := V) p _ _ rfl hs).2
    rw [Option.some.inj this]
  | es =>
    simp only [Option.map_eq_some_iff] at hf ⊢
    obtain ⟨a, h1, h2⟩ := hf
    rw [← h2] at hs ⊢
    exact ⟨_, (reports_esCreate T p _ _ h1 hs).2, rfl⟩

theorem still_lookAt (m : Option (Obj V)) (e : Env) : lookAt m e.still = lookAt m e := rfl

theorem still_freeHandle {h : Handle P V} {e e' : Env} (hf : freeHandle h e = some e') :
    freeHandle h e.still = some e'.still := by
  unfold freeHandle at hf ⊢
  cases h with
  | pswf h => exact (still_pswfFree hf).2
  | es h => exact (still_esFree hf).2
  | tower h =>
    simp only [towerFree, Option.bind_eq_some_iff] at hf ⊢
    obtain ⟨a, h1, b, h2, c, h3, d, h4, g, h5, f, h6, h7⟩ := hf
    exact ⟨_, (still_memFree h1).2, _, (still_memFree? h2).2, _, (still_memFree h3).2, _, (still_memFree? h4).2, _,
      (still_memFree h5).2, _, (still_memFree? h6).2, (still_release h7).2⟩
  | direct h =>
    simp only [directFree, Option.bind_eq_some_iff] at hf ⊢
    obtain ⟨a, h1, h2⟩ := hf
    exact ⟨_, (still_memFree h1).2, (still_release h2).2⟩
  | swiftly h =>
    simp only [swiftlyFree, Option.bind_eq_some_iff] at hf ⊢
    obtain ⟨a, h1, h2⟩ := hf
    exact ⟨_, (still_memFree h1).2, (still_memFree h2).2⟩
  | fft h =>
    simp only [fftFree, Option.bind_eq_some_iff] at hf ⊢
    obtain ⟨a, h1, b, h2, c, h3, h4⟩ := hf
    exact ⟨_, (still_memFree h1).2, _, (still_memFree h2).2, _, (still_memFree? h3).2, (still_release h4).2⟩

/-- Failures are reported: a call on any state that returns with success has left exactly what it leaves if nothing fails — the
same handles, the same memory, the same tables read. -/
theorem C113_reported (s s' : State P V) (op : Op P) (st : Status) (tape : List Status) (l : List (Option V))
    (h : step T s op st tape = some (s', .success, l)) : step T s op st [] = some (s', .success, l) := by
  unfold step at h ⊢
  simp only at h ⊢
  have still : (⟨st, tape, s.live, s.next⟩ : Env).still = ⟨st, [], s.live, s.next⟩ := rfl
  generalize (⟨st, tape, s.live, s.next⟩ : Env) = e at h still
  rw [← still]
  clear still
  cases op with
  | make k good p =>
    simp only [Option.bind_eq_some_iff, Option.some.injEq, Prod.mk.injEq] at h ⊢
    obtain ⟨r, h1, h2, h3, h4⟩ := h
    exact ⟨_, reports_makeHandle T k good p h1 h3, h2, h3, h4⟩
  | use i gpu grid planes =>
    simp only at h ⊢
    split at h
    · next x hx =>
      simp only [Option.bind_eq_some_iff, Option.some.injEq, Prod.mk.injEq] at h ⊢
      obtain ⟨r, h1, h2, h3, h4⟩ := h
      exact ⟨_, (reads_useHandle gpu grid planes x _ _ h1 h3).2, h2, h3, h4⟩
    · simp only [Option.some.injEq, Prod.mk.injEq] at h ⊢
      exact h
  | coeff i gpu =>
    simp only at h ⊢
    split at h
    · next x hx =>
      simp only [Option.bind_eq_some_iff, Option.some.injEq, Prod.mk.injEq] at h ⊢
      obtain ⟨r, h1, h2, h3, h4⟩ := h
      have key : pswfCoeff gpu x e.still = ((pswfCoeff gpu x e).1, (pswfCoeff gpu x e).2.1.still, (pswfCoeff gpu x e).2.2) := by
        unfold pswfCoeff at h3 ⊢
        cases gpu with
        | false => rfl
        | true =>
          simp only [if_true] at h3 ⊢
          cases hn : x.coeffGpu with
          | none =>
            simp only [hn] at h3 ⊢
            rw [(still_copyOf h3).2]
          | some g => rfl
      rw [key]
      exact ⟨_, h1, h2, h3, h4⟩
    · simp only [Option.some.injEq, Prod.mk.injEq] at h ⊢
      exact h
  | values i gpu =>
    simp only at h ⊢
    split at h
    · next x hx =>
      simp only [Option.bind_eq_some_iff, Option.some.injEq, Prod.mk.injEq] at h ⊢
      obtain ⟨r, h0, r', h1, h2, h3, h4⟩ := h
      have key : pswfValues gpu x e.still = some (r.1, r.2.1.still, r.2.2) := by
        unfold pswfValues at h0 ⊢
        split at h0
        · next hg =>
          rw [if_pos hg]
          split at h0
          · next hn =>
            simp only [Option.bind_eq_some_iff] at h0
            obtain ⟨m, k1, k2⟩ := h0
            rw [← Option.some.inj k2] at h3 ⊢
            simp only [Option.bind_eq_some_iff]
            exact ⟨m, k1, by rw [(still_copyOf h3).2]⟩
          · next hn => rw [← Option.some.inj h0]
        · next hg => rw [if_neg hg, ← Option.some.inj h0]
      exact ⟨_, key, _, h1, h2, h3, h4⟩
    · simp only [Option.some.injEq, Prod.mk.injEq] at h ⊢
      exact h
  | generate i n =>
    simp only at h ⊢
    split at h
    · next x hx =>
      simp only [Option.bind_eq_some_iff, Option.some.injEq, Prod.mk.injEq] at h ⊢
      obtain ⟨r, h0, h2, h3, h4⟩ := h
      have key : pswfGenerate T n x e.still = some (r.1, r.2.still) := by
        unfold pswfGenerate at h0 ⊢
        split at h0
        · next he => rw [← Option.some.inj h0] at h3; exact absurd h3 he
        next he =>
        split at h0
        · rw [← Option.some.inj h0] at h3; cases h3
        next hn =>
        simp only [Option.bind_eq_some_iff] at h0
        obtain ⟨a, k1, b, k2, k3⟩ := h0
        rw [if_neg (show ¬ (e.still.st ≠ Status.success) from he), if_neg hn]
        simp only [Option.bind_eq_some_iff]
        rw [← Option.some.inj k3] at h3 ⊢
        obtain ⟨s1, t1⟩ := still_fill h3
        refine ⟨_, (still_memFree? k1).2, _, (still_memFree? k2).2, ?_⟩
        rw [(still_create s1).2, t1]
      exact ⟨_, key, h2, h3, h4⟩
    · simp only [Option.some.injEq, Prod.mk.injEq] at h ⊢
      exact h
  | free i =>
    simp only at h ⊢
    split at h
    · next x hx =>
      simp only [Option.bind_eq_some_iff, Option.some.injEq, Prod.mk.injEq] at h ⊢
      obtain ⟨r, h1, h2, h3, h4⟩ := h
      exact ⟨_, still_freeHandle h1, h2, h3, h4⟩
    · simp only [Option.some.injEq, Prod.mk.injEq] at h ⊢
      exact h
  | freeNull k =>
    simp only [Option.bind_eq_some_iff, Option.some.injEq, Prod.mk.injEq] at h ⊢
    obtain ⟨r, h1, h2, h3, h4⟩ := h
    refine ⟨r.still, ?_, h2, h3, h4⟩
    unfold freeNothing at h1 ⊢
    split at h1
    · cases h1
    · next hk => rw [if_neg hk, ← Option.some.inj h1]

/-- A call that succeeds although a failure is to come later: making a Fourier transform plan with three things that can fail. -/
example (p : P) : ∃ s' l, step T (start 0 0) (.make .fft true p) .success [.success, .success, .success, .runtime] =
    some (s', .success, l) := ⟨_, _, rfl⟩

end
end Sdp.Plans
