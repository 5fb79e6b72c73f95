import Verif.Plans.Model
import Mathlib.Algebra.Order.Group.Multiset
import Mathlib.Tactic.Common

/-! # C113: what a handle holds, and that calls keep account of it -/

namespace Sdp.Plans
variable {P V : Type}

/-- The blocks of an array. -/
def Obj.owned (m : Obj V) : Multiset Nat := (match m.buf with | none => 0 | some b => {b}) + {m.desc}

/-- The same for a pointer that may be null. -/
def held : Option (Obj V) → Multiset Nat
  | none => 0
  | some m => m.owned

/-- The blocks of a handle. -/
def Handle.owned : Handle P V → Multiset Nat
  | .pswf h => {h.block} + (h.coeff.owned + held h.coeffGpu + (held h.pswf + held h.pswfGpu))
  | .tower h => {h.block} + (h.uv.owned + h.w.owned + h.pattern.owned + (held h.uvGpu + held h.wGpu + held h.patternGpu))
  | .direct h => {h.block} + h.window.owned
  | .swiftly h => {h.block} + (h.fb.owned + h.fn.owned)
  | .fft h => {h.block} + (h.input.owned + h.output.owned + held h.temp)
  | .es h => {h.block} + (held h.stack + held h.kernel + held h.nodes + held h.weights + held h.corr)

theorem release_ok {b : Nat} {e : Env} {r : Multiset Nat} (h : e.live = {b} + r) :
    e.release b = some { e with live := r } := by
  unfold Env.release
  rw [if_pos (by rw [h]; simp)]
  congr 2
  rw [h, Multiset.singleton_add, Multiset.erase_cons_head]

theorem memFree_ok {m : Obj V} {e : Env} {r : Multiset Nat} (h : e.live = m.owned + r) :
    memFree m e = some { e with live := r } := by
  unfold memFree
  unfold Obj.owned at h
  cases hb : m.buf with
  | none =>
    rw [hb] at h
    simp only [zero_add] at h
    simp only [Option.bind_some]
    rw [release_ok h]
  | some b =>
    rw [hb] at h
    simp only at h ⊢
    rw [release_ok (r := {m.desc} + r) (by rw [h]; ac_rfl), Option.bind_some, release_ok (r := r) rfl]

theorem memFree?_ok {m : Option (Obj V)} {e : Env} {r : Multiset Nat} (h : e.live = held m + r) :
    memFree? m e = some { e with live := r } := by
  cases m with
  | none =>
    unfold held at h
    simp only [zero_add] at h
    unfold memFree?
    rw [← h]
  | some m => exact memFree_ok h

theorem access_ok {m : Obj V} {e : Env} {r : Multiset Nat} (h : e.live = m.owned + r) :
    access m e = m.buf.map fun _ => m.val := by
  unfold access
  unfold Obj.owned at h
  cases hb : m.buf with
  | none => rfl
  | some b =>
    rw [hb] at h
    simp only [Option.map_some]
    rw [if_pos (by rw [h]; simp)]

theorem create_live (e : Env) : (create e : Obj V × Env).2.live = (create e : Obj V × Env).1.owned + e.live := by
  unfold create
  simp only
  split
  · simp [Env.alloc, Obj.owned]
  · split
    · simp [Env.alloc, Env.attempt, Env.fail, Obj.owned]
    · simp only [Env.alloc, Env.attempt, Obj.owned]
      ac_rfl

theorem copyOf_live (src : Obj V) (e : Env) : (copyOf src e).2.live = (copyOf src e).1.owned + e.live := by
  have h := create_live (V := V) e
  unfold copyOf
  simp only
  split
  · exact h
  · split
    · simp only [Env.fail, Env.attempt]; exact h
    · simp only [Env.attempt]; exact h

theorem aliasOf_live (e : Env) : (aliasOf e : Obj V × Env).2.live = (aliasOf e : Obj V × Env).1.owned + e.live := by
  simp [aliasOf, Env.alloc, Obj.owned]

theorem fill_live (v : V) (m : Obj V) (e : Env) : (fill v m e).2.live = e.live ∧ (fill v m e).1.owned = m.owned := by
  unfold fill
  split
  · exact ⟨rfl, rfl⟩
  · simp only
    split
    · exact ⟨rfl, rfl⟩
    · exact ⟨rfl, rfl⟩

theorem try_live (e : Env) : e.try.live = e.live := by
  unfold Env.try
  split <;> rfl

/-! ## Prolate spheroidal functions -/

theorem pswfFree_ok {h : PswfPlan P V} {e : Env} {r : Multiset Nat} (hl : e.live = (Handle.pswf h).owned + r) :
    pswfFree h e = some { e with live := r } := by
  unfold pswfFree
  simp only [Handle.owned] at hl
  rw [memFree?_ok (r := {h.block} + h.coeff.owned + held h.coeffGpu + held h.pswfGpu + r) (by rw [hl]; ac_rfl), Option.bind_some,
    memFree?_ok (r := {h.block} + h.coeff.owned + held h.coeffGpu + r) (by simp only; ac_rfl), Option.bind_some,
    memFree_ok (r := {h.block} + held h.coeffGpu + r) (by simp only; ac_rfl), Option.bind_some,
    memFree?_ok (r := {h.block} + r) (by simp only; ac_rfl), Option.bind_some, release_ok (r := r) rfl]

variable (T : Tables P V)

theorem pswfCreate_live {p : P} {e : Env} {r : PswfPlan P V × Env} (h : pswfCreate T p e = some r) :
    r.2.live = (Handle.pswf r.1).owned + e.live ∧ r.1.par = p ∧ r.2.st = e.st := by
  unfold pswfCreate at h
  simp only [Option.bind_eq_some_iff] at h
  obtain ⟨_, -, h⟩ := h
  rw [← Option.some.inj h]
  have hc := create_live (V := V) (e.alloc.2.fail .success)
  refine ⟨?_, rfl, rfl⟩
  simp only [Handle.owned, held, Obj.owned, Env.fail] at hc ⊢
  rw [hc]
  simp only [Env.alloc, add_zero, zero_add]
  ac_rfl

theorem pswfCoeff_live (gpu : Bool) (h : PswfPlan P V) (e : Env) {r : Multiset Nat} (hl : e.live = (Handle.pswf h).owned + r) :
    (pswfCoeff gpu h e).2.1.live = (Handle.pswf (pswfCoeff gpu h e).1).owned + r ∧ (pswfCoeff gpu h e).1.par = h.par := by
  unfold pswfCoeff
  cases gpu
  · exact ⟨hl, rfl⟩
  · simp only [if_true]
    split
    · next hg =>
      refine ⟨?_, rfl⟩
      simp only [copyOf_live, hl, Handle.owned, held, hg, add_zero]
      ac_rfl
    · exact ⟨hl, rfl⟩

theorem pswfValues_live {gpu : Bool} {h : PswfPlan P V} {e : Env} {r : Multiset Nat} (hl : e.live = (Handle.pswf h).owned + r)
    {s : PswfPlan P V × Env × Option (Obj V)} (hs : pswfValues gpu h e = some s) :
    s.2.1.live = (Handle.pswf s.1).owned + r ∧ s.1.par = h.par := by
  unfold pswfValues at hs
  cases gpu
  · simp only [Bool.false_eq_true, if_false] at hs
    rw [← Option.some.inj hs]
    exact ⟨hl, rfl⟩
  · simp only [if_true] at hs
    split at hs
    · next hg =>
      simp only [Option.bind_eq_some_iff] at hs
      obtain ⟨m, -, hs⟩ := hs
      rw [← Option.some.inj hs]
      refine ⟨?_, rfl⟩
      simp only [copyOf_live, hl, Handle.owned, held, hg, add_zero]
      ac_rfl
    · rw [← Option.some.inj hs]
      exact ⟨hl, rfl⟩

theorem pswfGenerate_live {n : Nat} {h : PswfPlan P V} {e : Env} {r : Multiset Nat} (hl : e.live = (Handle.pswf h).owned + r)
    {s : PswfPlan P V × Env} (hs : pswfGenerate T n h e = some s) :
    s.2.live = (Handle.pswf s.1).owned + r ∧ s.1.par = h.par := by
  unfold pswfGenerate at hs
  split at hs
  · rw [← Option.some.inj hs]; exact ⟨hl, rfl⟩
  split at hs
  · rw [← Option.some.inj hs]; exact ⟨hl, rfl⟩
  simp only [Handle.owned] at hl
  rw [memFree?_ok (r := {h.block} + (h.coeff.owned + held h.coeffGpu) + held h.pswfGpu + r) (by rw [hl]; ac_rfl), Option.bind_some,
    memFree?_ok (r := {h.block} + (h.coeff.owned + held h.coeffGpu) + r) (by simp only; ac_rfl), Option.bind_some] at hs
  rw [← Option.some.inj hs]
  refine ⟨?_, rfl⟩
  simp only [Handle.owned, held, (fill_live _ _ _).1, (fill_live _ _ _).2, create_live, add_zero]
  ac_rfl

theorem generatePswf_live {p : P} {v : V} {m : Obj V} {e : Env} {r : Obj V × Env} (h : generatePswf T p v m e = some r) :
    r.2.live = e.live ∧ r.1.owned = m.owned := by
  unfold generatePswf at h
  split at h
  · rw [← Option.some.inj h]; exact ⟨rfl, rfl⟩
  simp only [Option.bind_eq_some_iff] at h
  obtain ⟨c, hc, e', hf, h⟩ := h
  obtain ⟨hl, -, -⟩ := pswfCreate_live T hc
  rw [pswfFree_ok (r := e.live) (by rw [(fill_live _ _ _).1, hl])] at hf
  rw [← Option.some.inj h, ← Option.some.inj hf]
  exact ⟨rfl, (fill_live _ _ _).2⟩

/-! ## W-towers -/

theorem makeKernel_live {even : Bool} {p : P} {v : V} {m : Obj V} {e : Env} {r : Obj V × Env}
    (h : makeKernel T even p v m e = some r) : r.2.live = e.live ∧ r.1.owned = m.owned := by
  unfold makeKernel at h
  split at h
  · rw [← Option.some.inj h]; exact ⟨rfl, rfl⟩
  simp only [Option.bind_eq_some_iff] at h
  obtain ⟨t, ht, _, -, e', hf, h⟩ := h
  obtain ⟨h1, h2⟩ := generatePswf_live T ht
  rw [memFree_ok (r := e.live) (by rw [(fill_live _ _ _).1, h1, create_live, h2])] at hf
  rw [← Option.some.inj h, ← Option.some.inj hf]
  exact ⟨rfl, (fill_live _ _ _).2⟩

/-- The blocks of what a creation returns. -/
def made : Option (Handle P V) → Multiset Nat
  | none => 0
  | some h => h.owned

theorem towerCreate_live {p : P} {e : Env} {r : Option (TowerPlan P V) × Env} (h : towerCreate T p e = some r) :
    r.2.live = made (r.1.map .tower) + e.live ∧ ∀ x, r.1 = some x → x.par = p := by
  unfold towerCreate at h
  split at h
  · rw [← Option.some.inj h]
    exact ⟨by simp [made, Env.fail], fun _ h => by cases h⟩
  simp only [Option.bind_eq_some_iff] at h
  obtain ⟨u, hu, w, hw, h⟩ := h
  obtain ⟨u1, u2⟩ := makeKernel_live T hu
  obtain ⟨w1, w2⟩ := makeKernel_live T hw
  rw [← Option.some.inj h]
  refine ⟨?_, fun x hx => by rw [← Option.some.inj hx]⟩
  simp only [Option.map_some, made, Handle.owned, held, (fill_live _ _ _).1, (fill_live _ _ _).2, create_live, w1, u1, u2, w2,
    add_zero]
  simp only [Env.alloc]
  ac_rfl

theorem towerCopies_live (h : TowerPlan P V) (e : Env) {r : Multiset Nat} (hl : e.live = (Handle.tower h).owned + r)
    (hg : h.patternGpu = none → h.uvGpu = none ∧ h.wGpu = none) :
    (towerCopies h e).2.live = (Handle.tower (towerCopies h e).1).owned + r ∧ (towerCopies h e).1.par = h.par ∧
    (towerCopies h e).1.patternGpu ≠ none := by
  unfold towerCopies
  split
  · next g hq => exact ⟨hl, rfl, by rw [hq]; simp⟩
  · next hq =>
    refine ⟨?_, rfl, by simp⟩
    simp only [copyOf_live, hl, Handle.owned, held, hq, (hg hq).1, (hg hq).2, add_zero]
    ac_rfl

theorem towerUse_live {gpu grid : Bool} {planes : Int} {h : TowerPlan P V} {e : Env} {r : Multiset Nat}
    (hl : e.live = (Handle.tower h).owned + r) (hg : h.patternGpu = none → h.uvGpu = none ∧ h.wGpu = none)
    {s : TowerPlan P V × Env × List (Option V)} (hs : towerUse gpu grid planes h e = some s) :
    s.2.1.live = (Handle.tower s.1).owned + r ∧ s.1.par = h.par ∧ (s.1.patternGpu = none → s.1.uvGpu = none ∧ s.1.wGpu = none) := by
  unfold towerUse at hs
  split at hs
  · rw [← Option.some.inj hs]; exact ⟨hl, rfl, hg⟩
  have key : (if gpu = true then towerCopies h e else (h, e)).2.live =
      (Handle.tower (if gpu = true then towerCopies h e else (h, e)).1).owned + r ∧
      (if gpu = true then towerCopies h e else (h, e)).1.par = h.par ∧
      ((if gpu = true then towerCopies h e else (h, e)).1.patternGpu = none →
        (if gpu = true then towerCopies h e else (h, e)).1.uvGpu = none ∧
        (if gpu = true then towerCopies h e else (h, e)).1.wGpu = none) := by
    cases gpu
    · exact ⟨hl, rfl, hg⟩
    · obtain ⟨a, b, c⟩ := towerCopies_live h e hl hg
      exact ⟨a, b, fun hn => absurd hn c⟩
  generalize (if gpu = true then towerCopies h e else (h, e)) = c at key hs
  obtain ⟨k1, k2, k3⟩ := key
  simp only at hs
  split at hs
  · rw [← Option.some.inj hs]; exact ⟨k1, k2, k3⟩
  split at hs
  · rw [← Option.some.inj hs]; exact ⟨k1, k2, k3⟩
  simp only [Option.bind_eq_some_iff] at hs
  obtain ⟨_, -, _, -, hs⟩ := hs
  rw [← Option.some.inj hs]; exact ⟨k1, k2, k3⟩

theorem towerFree_ok {h : TowerPlan P V} {e : Env} {r : Multiset Nat} (hl : e.live = (Handle.tower h).owned + r) :
    towerFree h e = some { e with live := r } := by
  unfold towerFree
  simp only [Handle.owned] at hl
  rw [memFree_ok (r := held h.uvGpu + (h.w.owned + (held h.wGpu + (h.pattern.owned + (held h.patternGpu + ({h.block} + r))))))
      (by rw [hl]; ac_rfl), Option.bind_some,
    memFree?_ok rfl, Option.bind_some, memFree_ok rfl, Option.bind_some, memFree?_ok rfl, Option.bind_some,
    memFree_ok rfl, Option.bind_some, memFree?_ok rfl, Option.bind_some, release_ok rfl]

/-! ## The others -/

theorem directCreate_live {p : P} {e : Env} {r : DirectPlan P V × Env} (h : directCreate T p e = some r) :
    r.2.live = (Handle.direct r.1).owned + e.live ∧ r.1.par = p := by
  unfold directCreate at h
  simp only [Option.bind_eq_some_iff] at h
  obtain ⟨c, hc, _, -, h⟩ := h
  obtain ⟨c1, c2⟩ := generatePswf_live T hc
  rw [← Option.some.inj h]
  refine ⟨?_, rfl⟩
  simp only [Handle.owned, c1, c2, create_live]
  simp only [Env.alloc]
  ac_rfl

theorem directFree_ok {h : DirectPlan P V} {e : Env} {r : Multiset Nat} (hl : e.live = (Handle.direct h).owned + r) :
    directFree h e = some { e with live := r } := by
  unfold directFree
  simp only [Handle.owned] at hl
  rw [memFree_ok (r := {h.block} + r) (by rw [hl]; ac_rfl), Option.bind_some, release_ok rfl]

theorem create_failed (e : Env) (h : (create e : Obj V × Env).2.st ≠ .success) :
    (create e : Obj V × Env).1.owned.card = 1 := by
  unfold create at h ⊢
  simp only at h ⊢
  split
  · simp [Obj.owned]
  · next h0 =>
    rw [if_neg h0] at h
    split
    · simp [Obj.owned]
    · next h1 =>
      rw [if_neg h1] at h
      exact absurd (by simpa [Env.alloc, Env.attempt] using h0) h

/-- Creation may lose a block when it fails. -/
theorem swiftlyCreate_live {good : Bool} {p : P} {e : Env} {r : Option (SwiftlyPlan P V) × Env}
    (h : swiftlyCreate T good p e = some r) :
    ∃ lost, r.2.live = made (r.1.map .swiftly) + (e.live + lost) ∧ lost.card ≤ 1 ∧ (r.1 ≠ none → lost = 0) ∧
    ∀ x, r.1 = some x → x.par = p := by
  unfold swiftlyCreate at h
  split at h
  · rw [← Option.some.inj h]
    exact ⟨0, by simp [made], by simp, fun _ => rfl, fun _ h => by cases h⟩
  split at h
  · rw [← Option.some.inj h]
    exact ⟨0, by simp [made, Env.fail], by simp, fun _ => rfl, fun _ h => by cases h⟩
  simp only at h
  have b0 := create_live (V := V) e
  split at h
  · next hb =>
    rw [← Option.some.inj h]
    refine ⟨(create e : Obj V × Env).1.owned, ?_, Nat.le_of_eq (create_failed e hb), fun hs => absurd rfl hs, fun _ h => by cases h⟩
    simp only [Option.map_none, made, b0, zero_add]
    ac_rfl
  simp only [Option.bind_eq_some_iff] at h
  obtain ⟨b, hb, h⟩ := h
  obtain ⟨b1, b2⟩ := generatePswf_live T hb
  split at h
  · next hst =>
    rw [memFree_ok (r := e.live) (by rw [b1, b0, b2]), Option.bind_some] at h
    rw [← Option.some.inj h]
    exact ⟨0, by simp [made], by simp, fun _ => rfl, fun _ h => by cases h⟩
  have n0 := create_live (V := V) b.2
  split at h
  · next hst =>
    rw [memFree_ok (r := (create b.2 : Obj V × Env).1.owned + e.live) (by rw [n0, b1, b0, b2]; ac_rfl), Option.bind_some] at h
    rw [← Option.some.inj h]
    refine ⟨(create b.2 : Obj V × Env).1.owned, ?_, Nat.le_of_eq (create_failed b.2 hst), fun hs => absurd rfl hs,
      fun _ h => by cases h⟩
    simp only [Option.map_none, made, zero_add]
    ac_rfl
  simp only [Option.bind_eq_some_iff] at h
  obtain ⟨_, -, _, -, h⟩ := h
  rw [← Option.some.inj h]
  refine ⟨0, ?_, by simp, fun _ => rfl, fun x hx => by rw [← Option.some.inj hx]⟩
  have hv : ∀ (m : Obj V) (v : Option V), Obj.owned { m with val := v } = m.owned := fun _ _ => rfl
  simp only [Option.map_some, made, Handle.owned, hv]
  simp only [Env.alloc, n0, b1, b2, b0, add_zero]
  ac_rfl

theorem swiftlyFree_ok {h : SwiftlyPlan P V} {e : Env} {r : Multiset Nat} (hl : e.live = (Handle.swiftly h).owned + r) :
    swiftlyFree h e = some { e with live := {h.block} + r } := by
  unfold swiftlyFree
  simp only [Handle.owned] at hl
  rw [memFree_ok (r := h.fn.owned + ({h.block} + r)) (by rw [hl]; ac_rfl), Option.bind_some, memFree_ok rfl]

theorem fftCreate_live (p : P) (e : Env) : (fftCreate p e : Option (FftPlan P V) × Env).2.live =
    made ((fftCreate p e : Option (FftPlan P V) × Env).1.map .fft) + e.live ∧
    ∀ x, (fftCreate p e : Option (FftPlan P V) × Env).1 = some x → x.par = p := by
  unfold fftCreate
  split
  · exact ⟨by simp [made], fun _ h => by cases h⟩
  simp only
  split
  · exact ⟨by simp [made, Env.fail, Env.attempt], fun _ h => by cases h⟩
  split
  · refine ⟨?_, fun x hx => by rw [← Option.some.inj hx]⟩
    simp only [Option.map_some, made, Handle.owned, held, add_zero]
    simp only [Env.fail, Env.attempt, aliasOf_live]
    simp only [Env.alloc]
    ac_rfl
  · refine ⟨?_, fun x hx => by rw [← Option.some.inj hx]⟩
    simp only [Option.map_some, made, Handle.owned, held, create_live]
    simp only [Env.attempt, aliasOf_live]
    simp only [Env.alloc]
    ac_rfl

theorem fftFree_ok {h : FftPlan P V} {e : Env} {r : Multiset Nat} (hl : e.live = (Handle.fft h).owned + r) :
    fftFree h e = some { e with live := r } := by
  unfold fftFree
  simp only [Handle.owned] at hl
  rw [memFree_ok (r := h.output.owned + (held h.temp + ({h.block} + r))) (by rw [hl]; ac_rfl), Option.bind_some,
    memFree_ok rfl, Option.bind_some, memFree?_ok rfl, Option.bind_some, release_ok rfl]

theorem esFree_ok {h : EsPlan P V} {e : Env} {r : Multiset Nat} (hl : e.live = (Handle.es h).owned + r) :
    esFree h e = some { e with live := r } := by
  unfold esFree
  simp only [Handle.owned] at hl
  rw [memFree?_ok (r := held h.kernel + (held h.nodes + (held h.weights + (held h.corr + ({h.block} + r))))) (by rw [hl]; ac_rfl),
    Option.bind_some, memFree?_ok rfl, Option.bind_some, memFree?_ok rfl, Option.bind_some, memFree?_ok rfl, Option.bind_some,
    memFree?_ok rfl, Option.bind_some, release_ok rfl]

theorem esTables_live {h : EsPlan P V} {e : Env} {r : EsPlan P V × Env} {s : Multiset Nat} (hk : h.kernel = none)
    (hn : h.nodes = none) (hw : h.weights = none) (hc : h.corr = none) (hs : h.stack = none) (hl : e.live = (Handle.es h).owned + s)
    (hr : esTables T h e = some r) : r.2.live = (Handle.es r.1).owned + s ∧ r.1.par = h.par ∧ r.1.stack = none := by
  unfold esTables at hr
  simp only [Option.bind_eq_some_iff] at hr
  obtain ⟨_, -, _, -, _, -, _, -, e1, h1, e2, h2, e3, h3, e4, h4, hr⟩ := hr
  have a := create_live (V := V) e
  generalize (create e : Obj V × Env) = ca at *
  have b := create_live (V := V) ca.2
  generalize (create ca.2 : Obj V × Env) = cb at *
  have c := create_live (V := V) cb.2
  generalize (create cb.2 : Obj V × Env) = cc at *
  have d := create_live (V := V) cc.2
  generalize (create cc.2 : Obj V × Env) = cd at *
  have k := copyOf_live ({ ca.1 with val := some (T.quad h.par) } : Obj V) cd.2
  generalize copyOf ({ ca.1 with val := some (T.quad h.par) } : Obj V) cd.2 = ck at *
  have n := copyOf_live ({ cb.1 with val := some (T.quad h.par) } : Obj V) ck.2
  generalize copyOf ({ cb.1 with val := some (T.quad h.par) } : Obj V) ck.2 = cn at *
  have w := copyOf_live ({ cc.1 with val := some (T.quad h.par) } : Obj V) cn.2
  generalize copyOf ({ cc.1 with val := some (T.quad h.par) } : Obj V) cn.2 = cw at *
  have q := copyOf_live ({ cd.1 with val := some (T.quad h.par) } : Obj V) cw.2
  generalize copyOf ({ cd.1 with val := some (T.quad h.par) } : Obj V) cw.2 = cq at *
  simp only [Handle.owned, hk, hn, hw, hc, hs, held, add_zero] at hl
  rw [memFree_ok (r := cb.1.owned + (cc.1.owned + (cd.1.owned + ({h.block} + (ck.1.owned + cn.1.owned + cw.1.owned + cq.1.owned) + s))))
    (by rw [q, w, n, k, d, c, b, a, hl]; ac_rfl)] at h1
  rw [← Option.some.inj h1, memFree_ok rfl] at h2
  rw [← Option.some.inj h2, memFree_ok rfl] at h3
  rw [← Option.some.inj h3, memFree_ok rfl] at h4
  rw [← Option.some.inj hr, ← Option.some.inj h4]
  refine ⟨?_, rfl, hs⟩
  simp only [Handle.owned, held, hs, zero_add]

theorem esGuard_live {h : EsPlan P V} {e : Env} {rest : Env → Option (Option (EsPlan P V) × Env)} {r : Option (EsPlan P V) × Env}
    {s : Multiset Nat} (hl : e.live = (Handle.es h).owned + s) (hr : esGuard h e rest = some r) :
    r.1 = none ∧ r.2.live = s ∨ rest e = some r := by
  unfold esGuard at hr
  split at hr
  · rw [esFree_ok hl, Option.bind_some] at hr
    rw [← Option.some.inj hr]
    exact Or.inl ⟨rfl, rfl⟩
  · exact Or.inr hr

theorem esCreate_live {p : P} {e : Env} {r : Option (EsPlan P V) × Env} (h : esCreate T p e = some r) :
    r.2.live = made (r.1.map .es) + e.live ∧ ∀ x, r.1 = some x → x.par = p := by
  have gone : r.1 = none ∧ r.2.live = e.live → r.2.live = made (r.1.map .es) + e.live ∧ ∀ x, r.1 = some x → x.par = p := by
    rintro ⟨h1, h2⟩
    rw [h1]
    exact ⟨by simp [made, h2], fun _ h => by cases h⟩
  unfold esCreate at h
  split at h
  · rw [← Option.some.inj h]
    exact ⟨by simp [made], fun _ h => by cases h⟩
  simp only at h
  split at h
  · rw [← Option.some.inj h]
    exact ⟨by simp [made, try_live], fun _ h => by cases h⟩
  have hl : e.try.alloc.2.try.live = (Handle.es (⟨p, e.try.alloc.1, none, none, none, none, none⟩ : EsPlan P V)).owned + e.live := by
    rw [try_live]
    simp [Env.alloc, Handle.owned, held, try_live]
  rcases esGuard_live hl h with h | h
  · exact gone h
  rcases esGuard_live (by rw [try_live]; exact hl) h with h | h
  · exact gone h
  simp only [Option.bind_eq_some_iff] at h
  obtain ⟨t, ht, h⟩ := h
  obtain ⟨t1, t2, t3⟩ := esTables_live T rfl rfl rfl rfl rfl (by rw [try_live]; exact hl) ht
  have hg : (create t.2 : Obj V × Env).2.live =
      (Handle.es { t.1 with stack := some (create t.2 : Obj V × Env).1 }).owned + e.live := by
    rw [create_live, t1]
    simp only [Handle.owned, held, t3, zero_add]
    ac_rfl
  rcases esGuard_live hg h with h | h
  · exact gone h
  rcases esGuard_live (by rw [try_live]; exact hg) h with h | h
  · exact gone h
  rw [← Option.some.inj h]
  refine ⟨?_, fun x hx => by rw [← Option.some.inj hx]; exact t2⟩
  simp only [Option.map_some, made]
  rw [try_live]
  exact hg

end Sdp.Plans
