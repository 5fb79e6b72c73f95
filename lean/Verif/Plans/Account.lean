import Verif.Plans.Spec
import Mathlib.Algebra.BigOperators.Group.List.Basic
import Mathlib.Algebra.Group.Prod

/-! # C113: account of the memory over histories -/

namespace Sdp.Plans
variable {P V : Type}

/-- Copies on the GPU are made together. -/
def Valid : Handle P V → Prop
  | .tower h => h.patternGpu = none → h.uvGpu = none ∧ h.wGpu = none
  | _ => True

/-- One for a SwiFTly plan. -/
def spot : Option (Handle P V) → Nat
  | some (.swiftly _) => 1
  | _ => 0

theorem split_at {M : Type} [AddCommMonoid M] (f : Option (Handle P V) → M) (l : List (Option (Handle P V))) (i : Nat)
    (x : Option (Handle P V)) (h : l[i]? = some x) :
    ∃ rest, (l.map f).sum = f x + rest ∧ ∀ y, ((l.set i y).map f).sum = f y + rest := by
  induction l generalizing i with
  | nil => simp at h
  | cons a l ih =>
    cases i with
    | zero =>
      simp only [List.getElem?_cons_zero, Option.some.injEq] at h
      exact ⟨(l.map f).sum, by simp [h], fun y => by simp⟩
    | succ i =>
      simp only [List.getElem?_cons_succ] at h
      obtain ⟨rest, h1, h2⟩ := ih i h
      refine ⟨f a + rest, ?_, fun y => ?_⟩
      · simp only [List.map_cons, List.sum_cons, h1]; exact add_left_comm _ _ _
      · simp only [List.set_cons_succ, List.map_cons, List.sum_cons, h2]; exact add_left_comm _ _ _

variable (T : Tables P V)

theorem makeHandle_acc {k : Kind} {good : Bool} {p : P} {e : Env} {r : Option (Handle P V) × Env}
    (h : makeHandle T k good p e = some r) :
    ∃ lost, r.2.live = made r.1 + (e.live + lost) ∧ lost.card + spot r.1 ≤ (if k = .swiftly then 1 else 0) ∧
      ∀ x, r.1 = some x → x.par = p ∧ x.kind = k ∧ x.samples = 0 ∧ x.planes = (0, 0) ∧ Valid x := by
  unfold makeHandle at h
  cases k with
  | pswf =>
    simp only [Option.map_eq_some_iff] at h
    obtain ⟨a, ha, h⟩ := h
    rw [← h]
    obtain ⟨h1, h2, -⟩ := pswfCreate_live T ha
    refine ⟨0, by simpa [made] using h1, by simp [spot], fun x hx => ?_⟩
    rw [← Option.some.inj hx]
    unfold pswfCreate at ha
    simp only [Option.bind_eq_some_iff] at ha
    obtain ⟨_, -, ha⟩ := ha
    exact ⟨h2, rfl, by rw [← Option.some.inj ha]; rfl, rfl, trivial⟩
  | tower =>
    simp only [Option.map_eq_some_iff] at h
    obtain ⟨a, ha, h⟩ := h
    rw [← h]
    obtain ⟨h1, h2⟩ := towerCreate_live T ha
    refine ⟨0, by simpa using h1, ?_, fun x hx => ?_⟩
    · cases a.1 <;> simp [spot]
    · simp only [Option.map_eq_some_iff] at hx
      obtain ⟨y, hy, rfl⟩ := hx
      suffices hz : y.planes = (0, 0) ∧ Valid (Handle.tower y) from ⟨h2 y hy, rfl, rfl, hz.1, hz.2⟩
      unfold towerCreate at ha
      split at ha
      · rw [← Option.some.inj ha] at hy; cases hy
      · simp only [Option.bind_eq_some_iff] at ha
        obtain ⟨_, -, _, -, ha⟩ := ha
        rw [← Option.some.inj ha] at hy
        rw [← Option.some.inj hy]
        exact ⟨rfl, fun _ => ⟨rfl, rfl⟩⟩
  | direct =>
    simp only [Option.map_eq_some_iff] at h
    obtain ⟨a, ha, h⟩ := h
    rw [← h]
    obtain ⟨h1, h2⟩ := directCreate_live T ha
    refine ⟨0, by simpa [made] using h1, by simp [spot], fun x hx => ?_⟩
    rw [← Option.some.inj hx]
    exact ⟨h2, rfl, rfl, rfl, trivial⟩
  | swiftly =>
    simp only [Option.map_eq_some_iff] at h
    obtain ⟨a, ha, h⟩ := h
    rw [← h]
    obtain ⟨lost, h1, h2, h3, h4⟩ := swiftlyCreate_live T ha
    refine ⟨lost, h1, ?_, fun x hx => ?_⟩
    · simp only [if_true]
      cases ha' : a.1 with
      | none => simpa [spot] using h2
      | some y => rw [h3 (by rw [ha']; simp)]; simp [spot]
    · simp only [Option.map_eq_some_iff] at hx
      obtain ⟨y, hy, rfl⟩ := hx
      exact ⟨h4 y hy, rfl, rfl, rfl, trivial⟩
  | fft =>
    simp only at h
    rw [← Option.some.inj h]
    obtain ⟨h1, h2⟩ := fftCreate_live (V := V) p e
    refine ⟨0, by simpa using h1, ?_, fun x hx => ?_⟩
    · cases (fftCreate p e : Option (FftPlan P V) × Env).1 <;> simp [spot]
    · simp only [Option.map_eq_some_iff] at hx
      obtain ⟨y, hy, rfl⟩ := hx
      exact ⟨h2 y hy, rfl, rfl, rfl, trivial⟩
  | es =>
    simp only [Option.map_eq_some_iff] at h
    obtain ⟨a, ha, h⟩ := h
    rw [← h]
    obtain ⟨h1, h2⟩ := esCreate_live T ha
    refine ⟨0, by simpa using h1, ?_, fun x hx => ?_⟩
    · cases a.1 <;> simp [spot]
    · simp only [Option.map_eq_some_iff] at hx
      obtain ⟨y, hy, rfl⟩ := hx
      exact ⟨h2 y hy, rfl, rfl, rfl, trivial⟩

theorem directUse_keep {h : DirectPlan P V} {e : Env} {s : DirectPlan P V × Env × List (Option V)} (hs : directUse h e = some s) :
    s.1 = h ∧ s.2.1.live = e.live := by
  unfold directUse at hs
  split at hs
  · rw [← Option.some.inj hs]; exact ⟨rfl, rfl⟩
  simp only at hs
  split at hs
  · rw [← Option.some.inj hs]; exact ⟨rfl, rfl⟩
  simp only [Option.bind_eq_some_iff] at hs
  obtain ⟨_, -, hs⟩ := hs
  rw [← Option.some.inj hs]; exact ⟨rfl, rfl⟩

theorem swiftlyUse_keep {h : SwiftlyPlan P V} {e : Env} {s : SwiftlyPlan P V × Env × List (Option V)}
    (hs : swiftlyUse h e = some s) : s.1 = h ∧ s.2.1.live = e.live := by
  unfold swiftlyUse at hs
  split at hs
  · rw [← Option.some.inj hs]; exact ⟨rfl, rfl⟩
  simp only at hs
  split at hs
  · rw [← Option.some.inj hs]; exact ⟨rfl, rfl⟩
  simp only [Option.bind_eq_some_iff] at hs
  obtain ⟨_, -, _, -, hs⟩ := hs
  rw [← Option.some.inj hs]; exact ⟨rfl, rfl⟩

theorem esUse_keep {h : EsPlan P V} {e : Env} {s : EsPlan P V × Env × List (Option V)} (hs : esUse h e = some s) :
    s.1 = h ∧ s.2.1.live = e.live := by
  unfold esUse at hs
  split at hs
  · rw [← Option.some.inj hs]; exact ⟨rfl, rfl⟩
  simp only at hs
  split at hs
  · rw [← Option.some.inj hs]; exact ⟨rfl, rfl⟩
  simp only [Option.bind_eq_some_iff] at hs
  obtain ⟨_, -, _, -, _, -, _, -, _, -, _, -, hs⟩ := hs
  rw [← Option.some.inj hs]; exact ⟨rfl, rfl⟩

/-- What calls that are neither creation nor release leave of a handle. -/
structure Same (h h' : Handle P V) : Prop where
  par : h'.par = h.par
  kind : h'.kind = h.kind
  valid : Valid h'

theorem spot_same {h h' : Handle P V} (s : h'.kind = h.kind) : spot (some h') = spot (some h) := by
  cases h <;> cases h' <;> simp_all [Handle.kind, spot]

theorem towerCopies_planes (h : TowerPlan P V) (e : Env) : (towerCopies h e).1.planes = h.planes := by
  unfold towerCopies
  split <;> rfl

theorem towerUse_planes {gpu grid : Bool} {planes : Int} {h : TowerPlan P V} {e : Env} {s : TowerPlan P V × Env × List (Option V)}
    (hs : towerUse gpu grid planes h e = some s) :
    s.1.planes = h.planes + if e.st = .success then (if grid then (0, planes) else (planes, 0)) else (0, 0) := by
  unfold towerUse at hs
  split at hs
  · next h0 =>
    rw [← Option.some.inj hs, if_neg h0]
    simp
  next h0 =>
  rw [if_pos (not_not.1 h0)]
  have key : (if gpu = true then towerCopies h e else (h, e)).1.planes = h.planes := by
    cases gpu
    · rfl
    · exact towerCopies_planes h e
  generalize (if gpu = true then towerCopies h e else (h, e)) = c at key hs
  have sum : (if grid = true then (c.1.planes.1, c.1.planes.2 + planes) else (c.1.planes.1 + planes, c.1.planes.2)) =
      h.planes + if grid = true then (0, planes) else (planes, 0) := by
    rw [key]
    cases grid <;> simp [Prod.ext_iff]
  simp only at hs
  split at hs
  · rw [← Option.some.inj hs]; exact sum
  split at hs
  · rw [← Option.some.inj hs]; exact sum
  simp only [Option.bind_eq_some_iff] at hs
  obtain ⟨_, -, _, -, hs⟩ := hs
  rw [← Option.some.inj hs]; exact sum

theorem useHandle_planes {gpu grid : Bool} {planes : Int} {h : Handle P V} {e : Env} {s : Handle P V × Env × List (Option V)}
    (hs : useHandle gpu grid planes h e = some s) (hk : h.kind = .tower) :
    s.1.planes = h.planes + if e.st = .success then (if grid then (0, planes) else (planes, 0)) else (0, 0) := by
  cases h with
  | tower h =>
    simp only [useHandle, Option.map_eq_some_iff] at hs
    obtain ⟨a, ha, hs⟩ := hs
    rw [← hs]
    exact towerUse_planes ha
  | _ => cases hk

theorem useHandle_acc {gpu grid : Bool} {planes : Int} {h : Handle P V} {e : Env} {r : Multiset Nat} (hl : e.live = h.owned + r)
    (hv : Valid h) {s : Handle P V × Env × List (Option V)} (hs : useHandle gpu grid planes h e = some s) :
    s.2.1.live = s.1.owned + r ∧ Same h s.1 ∧ s.1.samples = h.samples := by
  cases h with
  | pswf h =>
    rw [← Option.some.inj hs]
    exact ⟨hl, ⟨rfl, rfl, hv⟩, rfl⟩
  | fft h =>
    rw [← Option.some.inj hs]
    exact ⟨hl, ⟨rfl, rfl, hv⟩, rfl⟩
  | tower h =>
    simp only [useHandle, Option.map_eq_some_iff] at hs
    obtain ⟨a, ha, hs⟩ := hs
    rw [← hs]
    obtain ⟨h1, h2, h3⟩ := towerUse_live hl hv ha
    exact ⟨h1, ⟨h2, rfl, h3⟩, rfl⟩
  | direct h =>
    simp only [useHandle, Option.map_eq_some_iff] at hs
    obtain ⟨a, ha, hs⟩ := hs
    rw [← hs]
    obtain ⟨h1, h2⟩ := directUse_keep ha
    exact ⟨by rw [h1, h2, hl], ⟨by rw [h1], rfl, trivial⟩, rfl⟩
  | swiftly h =>
    simp only [useHandle, Option.map_eq_some_iff] at hs
    obtain ⟨a, ha, hs⟩ := hs
    rw [← hs]
    obtain ⟨h1, h2⟩ := swiftlyUse_keep ha
    exact ⟨by rw [h1, h2, hl], ⟨by rw [h1], rfl, trivial⟩, rfl⟩
  | es h =>
    simp only [useHandle, Option.map_eq_some_iff] at hs
    obtain ⟨a, ha, hs⟩ := hs
    rw [← hs]
    obtain ⟨h1, h2⟩ := esUse_keep ha
    exact ⟨by rw [h1, h2, hl], ⟨by rw [h1], rfl, trivial⟩, rfl⟩

theorem freeHandle_acc {h : Handle P V} {e : Env} {r : Multiset Nat} (hl : e.live = h.owned + r) :
    ∃ lost, freeHandle h e = some { e with live := r + lost } ∧ lost.card = spot (some h) := by
  cases h with
  | pswf h => exact ⟨0, by simp [freeHandle, pswfFree_ok hl], rfl⟩
  | tower h => exact ⟨0, by simp [freeHandle, towerFree_ok hl], rfl⟩
  | direct h => exact ⟨0, by simp [freeHandle, directFree_ok hl], rfl⟩
  | swiftly h => exact ⟨{h.block}, by simp only [freeHandle, swiftlyFree_ok hl]; rw [add_comm], rfl⟩
  | fft h => exact ⟨0, by simp [freeHandle, fftFree_ok hl], rfl⟩
  | es h => exact ⟨0, by simp [freeHandle, esFree_ok hl], rfl⟩

theorem coeff_size (gpu : Bool) (h : PswfPlan P V) (e : Env) : (pswfCoeff gpu h e).1.size = h.size := by
  unfold pswfCoeff
  cases gpu
  · rfl
  · simp only [if_true]
    split <;> rfl

theorem values_size {gpu : Bool} {h : PswfPlan P V} {e : Env} {s : PswfPlan P V × Env × Option (Obj V)}
    (hs : pswfValues gpu h e = some s) : s.1.size = h.size := by
  unfold pswfValues at hs
  cases gpu
  · simp only [Bool.false_eq_true, if_false] at hs
    rw [← Option.some.inj hs]
  · simp only [if_true] at hs
    split at hs
    · simp only [Option.bind_eq_some_iff] at hs
      obtain ⟨m, -, hs⟩ := hs
      rw [← Option.some.inj hs]
    · rw [← Option.some.inj hs]

/-- The account. -/
structure Inv (base : Multiset Nat) (used : Nat) (s : State P V) : Prop where
  acc : ∃ lost, s.live = base + total s.handles + lost ∧ lost.card + (s.handles.map spot).sum ≤ used
  valid : ∀ h, some h ∈ s.handles → Valid h

/-- A handle of the table may be changed by a call other than creation and release. -/
theorem Inv.change {base : Multiset Nat} {used : Nat} {s : State P V} (hi : Inv base used s) {i : Nat} {h h' : Handle P V}
    (hh : s.handles[i]? = some (some h)) {n : Nat} {live : Multiset Nat}
    (hk : ∀ r, s.live = h.owned + r → live = h'.owned + r) (same : Same h h') :
    Inv base used ⟨s.handles.set i (some h'), live, n⟩ := by
  obtain ⟨lost, h1, h2⟩ := hi.acc
  obtain ⟨rest, t1, t2⟩ := split_at made s.handles i _ hh
  obtain ⟨rest', u1, u2⟩ := split_at spot s.handles i _ hh
  have hl : s.live = h.owned + (base + rest + lost) := by
    rw [h1]
    show base + (s.handles.map made).sum + lost = _
    rw [t1]
    simp only [made]
    ac_rfl
  constructor
  · refine ⟨lost, ?_, ?_⟩
    · show live = base + ((s.handles.set i (some h')).map made).sum + lost
      rw [hk _ hl, t2]
      simp only [made]
      ac_rfl
    · show lost.card + ((s.handles.set i (some h')).map spot).sum ≤ used
      rw [u2, spot_same same.kind, ← u1]
      exact h2
  · intro x hx
    rcases List.mem_or_eq_of_mem_set hx with hx | hx
    · exact hi.valid x hx
    · rw [Option.some.inj hx]; exact same.valid

theorem Inv.at {base : Multiset Nat} {used : Nat} {s : State P V} (hi : Inv base used s) {i : Nat} {h : Handle P V}
    (hh : s.handles[i]? = some (some h)) : ∃ r, s.live = h.owned + r := by
  obtain ⟨lost, h1, -⟩ := hi.acc
  obtain ⟨rest, t1, -⟩ := split_at made s.handles i _ hh
  refine ⟨base + rest + lost, ?_⟩
  rw [h1]
  show base + (s.handles.map made).sum + lost = _
  rw [t1]
  simp only [made]
  ac_rfl

theorem Inv.valid_at {base : Multiset Nat} {used : Nat} {s : State P V} (hi : Inv base used s) {i : Nat} {h : Handle P V}
    (hh : s.handles[i]? = some (some h)) : Valid h := hi.valid h (List.mem_of_getElem? hh)

/-- How a call changes one handle of the table. -/
def Next (op : Op P) (st : Status) (i : Nat) (h : Option (Handle P V)) (h' : Option (Handle P V)) : Prop :=
  match h with
  | none => h' = none
  | some h => h' = none ∧ op = .free i ∨
      ∃ x, h' = some x ∧ x.par = h.par ∧ x.kind = h.kind ∧ ((∀ n, op ≠ .generate i n) → x.samples = h.samples) ∧
        (h.kind = .tower → x.planes = h.planes + counted op st i)

theorem Next.refl (op : Op P) (st : Status) (i : Nat) (h : Option (Handle P V)) (hc : counted op st i = (0, 0)) :
    Next op st i h h := by
  cases h with
  | none => rfl
  | some h => exact Or.inr ⟨h, rfl, rfl, rfl, fun _ => rfl, fun _ => by rw [hc]; simp⟩

/-- How a call changes the table. -/
def Nexts (s s' : State P V) (op : Op P) (st : Status) : Prop :=
  (∀ j x, s.handles[j]? = some x → ∃ x', s'.handles[j]? = some x' ∧ Next op st j x x') ∧
  match op with
  | .make k _ p => s'.handles.length = s.handles.length + 1 ∧
      ∀ x, s'.handles[s.handles.length]? = some (some x) → x.par = p ∧ x.kind = k ∧ x.samples = 0 ∧ x.planes = (0, 0)
  | _ => s'.handles.length = s.handles.length

theorem nexts_refl (s : State P V) (op : Op P) (st : Status) (ho : ∀ k g p, op ≠ .make k g p) (l : Multiset Nat) (n : Nat)
    (hc : ∀ j x, s.handles[j]? = some (some x) → x.kind = .tower → counted op st j = (0, 0)) :
    Nexts s ⟨s.handles, l, n⟩ op st := by
  refine ⟨fun j x hj => ⟨x, hj, ?_⟩, ?_⟩
  · cases x with
    | none => rfl
    | some x => exact Or.inr ⟨x, rfl, rfl, rfl, fun _ => rfl, fun hk => by rw [hc j x hj hk]; simp⟩
  cases op <;> first | rfl | exact absurd rfl (ho _ _ _)

theorem nexts_set (s : State P V) (op : Op P) (st : Status) (ho : ∀ k g p, op ≠ .make k g p) (l : Multiset Nat) (n i : Nat)
    (x y : Option (Handle P V)) (hx : s.handles[i]? = some x) (hn : Next op st i x y)
    (hc : ∀ j, i ≠ j → counted op st j = (0, 0)) : Nexts s ⟨s.handles.set i y, l, n⟩ op st := by
  have hi : i < s.handles.length := (List.getElem?_eq_some_iff.1 hx).1
  refine ⟨fun j z hj => ?_, ?_⟩
  · by_cases hji : i = j
    · subst hji
      rw [hx] at hj
      rw [← Option.some.inj hj]
      exact ⟨y, by simp [hi], hn⟩
    · exact ⟨z, by rw [List.getElem?_set_ne hji]; exact hj, Next.refl _ _ _ _ (hc j hji)⟩
  · cases op <;> first | exact List.length_set | exact absurd rfl (ho _ _ _)

theorem step_inv {base : Multiset Nat} {used : Nat} {s : State P V} (hi : Inv base used s) {op : Op P} {st : Status}
    {tape : List Status} {r : State P V × Status × List (Option V)} (h : step T s op st tape = some r) :
    Inv base (used + swiftlies [(op, st, tape)]) r.1 ∧ Nexts s r.1 op st := by
  have more : ∀ n, ∀ {s : State P V}, Inv base used s → Inv base (used + n) s := fun n s hi => by
    obtain ⟨lost, h1, h2⟩ := hi.acc
    exact ⟨⟨lost, h1, by omega⟩, hi.valid⟩
  have nop : ∀ (op : Op P) (e : Env), e.live = s.live → (∀ k g p, op ≠ .make k g p) →
      (∀ j x, s.handles[j]? = some (some x) → x.kind = .tower → counted op st j = (0, 0)) →
      Inv base (used + swiftlies [(op, st, tape)]) ⟨s.handles, e.live, e.next⟩ ∧ Nexts s ⟨s.handles, e.live, e.next⟩ op st :=
    fun op e he ho hc => ⟨more _ ⟨by obtain ⟨lost, h1, h2⟩ := hi.acc; exact ⟨lost, by rw [he]; exact h1, h2⟩, hi.valid⟩,
      nexts_refl _ _ _ ho _ _ hc⟩
  unfold step at h
  cases op with
  | make k good p =>
    simp only [Option.bind_eq_some_iff] at h
    obtain ⟨a, ha, h⟩ := h
    rw [← Option.some.inj h]
    obtain ⟨lost, l1, l2, l3⟩ := makeHandle_acc T ha
    obtain ⟨lost', h1, h2⟩ := hi.acc
    have hsw : swiftlies [(Op.make k good p, st, tape)] = if k = .swiftly then 1 else 0 := by cases k <;> rfl
    refine ⟨⟨⟨lost' + lost, ?_, ?_⟩, ?_⟩, ?_, ?_, ?_⟩
    · show a.2.live = base + ((s.handles ++ [a.1]).map made).sum + (lost' + lost)
      rw [l1]
      show made a.1 + (s.live + lost) = _
      rw [h1]
      simp only [total, List.map_append, List.sum_append, List.map_cons, List.map_nil, List.sum_cons, List.sum_nil, add_zero]
      ac_rfl
    · show (lost' + lost).card + ((s.handles ++ [a.1]).map spot).sum ≤ _
      rw [hsw]
      simp only [List.map_append, List.sum_append, List.map_cons, List.map_nil, List.sum_cons, List.sum_nil, add_zero,
        Multiset.card_add]
      omega
    · intro x hx
      rcases List.mem_append.1 hx with hx | hx
      · exact hi.valid x hx
      · exact (l3 x (by simpa using (List.mem_singleton.1 hx).symm)).2.2.2.2
    · intro j x hj
      refine ⟨x, ?_, Next.refl _ _ _ _ rfl⟩
      rw [List.getElem?_append_left (List.getElem?_eq_some_iff.1 hj).1]
      exact hj
    · simp
    · intro x hx
      simp only [List.getElem?_append_right (Nat.le_refl _), Nat.sub_self, List.getElem?_cons_zero, Option.some.injEq] at hx
      obtain ⟨a, b, c, d, -⟩ := l3 x hx
      exact ⟨a, b, c, d⟩
  | use i gpu grid planes =>
    simp only at h
    split at h
    · next hh hx =>
      simp only [Option.bind_eq_some_iff] at h
      obtain ⟨a, ha, h⟩ := h
      rw [← Option.some.inj h]
      obtain ⟨r0, hr0⟩ := hi.at hx
      obtain ⟨-, b1, b2⟩ := useHandle_acc (e := ⟨st, tape, s.live, s.next⟩) hr0 (hi.valid_at hx) ha
      exact ⟨more _ (hi.change hx (fun r hr => (useHandle_acc (e := ⟨st, tape, s.live, s.next⟩) hr (hi.valid_at hx) ha).1) b1),
        nexts_set _ _ _ (by simp) _ _ _ _ _ hx (Or.inr ⟨_, rfl, b1.par, b1.kind, fun _ => b2, fun hk => by
            rw [useHandle_planes ha hk]; simp [counted]⟩) (fun j hj => by simp [counted, hj])⟩
    · next hn =>
      rw [← Option.some.inj h]
      exact nop _ ⟨st, tape, s.live, s.next⟩ rfl (by simp) (fun j x hj hk => by
        have : i ≠ j := by rintro rfl; exact hn x hj
        simp [counted, this])
  | coeff i gpu =>
    simp only at h
    split at h
    · next hh hx =>
      simp only [Option.bind_eq_some_iff] at h
      obtain ⟨a, ha, h⟩ := h
      rw [← Option.some.inj h]
      obtain ⟨r0, hr0⟩ := hi.at hx
      have b1 := (pswfCoeff_live gpu hh ⟨st, tape, s.live, s.next⟩ hr0).2
      exact ⟨more _ (hi.change hx (fun r hr => (pswfCoeff_live gpu hh ⟨st, tape, s.live, s.next⟩ hr).1) ⟨b1, rfl, trivial⟩),
        nexts_set _ _ _ (by simp) _ _ _ _ _ hx (Or.inr ⟨_, rfl, b1, rfl, fun _ => coeff_size _ _ _, fun hk => by cases hk⟩) (fun j _ => rfl)⟩
    · rw [← Option.some.inj h]
      exact nop _ ⟨st, tape, s.live, s.next⟩ rfl (by simp) (fun _ _ _ _ => rfl)
  | values i gpu =>
    simp only at h
    split at h
    · next hh hx =>
      simp only [Option.bind_eq_some_iff] at h
      obtain ⟨a, ha, _, -, h⟩ := h
      rw [← Option.some.inj h]
      obtain ⟨r0, hr0⟩ := hi.at hx
      have b1 := (pswfValues_live (e := ⟨st, tape, s.live, s.next⟩) hr0 ha).2
      exact ⟨more _ (hi.change hx (fun r hr => (pswfValues_live (e := ⟨st, tape, s.live, s.next⟩) hr ha).1) ⟨b1, rfl, trivial⟩),
        nexts_set _ _ _ (by simp) _ _ _ _ _ hx (Or.inr ⟨_, rfl, b1, rfl, fun _ => values_size ha, fun hk => by cases hk⟩) (fun j _ => rfl)⟩
    · rw [← Option.some.inj h]
      exact nop _ ⟨st, tape, s.live, s.next⟩ rfl (by simp) (fun _ _ _ _ => rfl)
  | generate i n =>
    simp only at h
    split at h
    · next hh hx =>
      simp only [Option.bind_eq_some_iff] at h
      obtain ⟨a, ha, h⟩ := h
      rw [← Option.some.inj h]
      obtain ⟨r0, hr0⟩ := hi.at hx
      have b1 := (pswfGenerate_live T (e := ⟨st, tape, s.live, s.next⟩) hr0 ha).2
      exact ⟨more _ (hi.change hx (fun r hr => (pswfGenerate_live T (e := ⟨st, tape, s.live, s.next⟩) hr ha).1) ⟨b1, rfl, trivial⟩),
        nexts_set _ _ _ (by simp) _ _ _ _ _ hx (Or.inr ⟨_, rfl, b1, rfl, fun hn => absurd rfl (hn n), fun hk => by cases hk⟩) (fun j _ => rfl)⟩
    · rw [← Option.some.inj h]
      exact nop _ ⟨st, tape, s.live, s.next⟩ rfl (by simp) (fun _ _ _ _ => rfl)
  | free i =>
    simp only at h
    split at h
    · next hh hx =>
      simp only [Option.bind_eq_some_iff] at h
      obtain ⟨a, ha, h⟩ := h
      rw [← Option.some.inj h]
      obtain ⟨lost, h1, h2⟩ := hi.acc
      obtain ⟨rest, t1, t2⟩ := split_at made s.handles i _ hx
      obtain ⟨rest', u1, u2⟩ := split_at spot s.handles i _ hx
      have hl : s.live = hh.owned + (base + rest + lost) := by
        rw [h1]
        show base + (s.handles.map made).sum + lost = _
        rw [t1]
        simp only [made]
        ac_rfl
      obtain ⟨lost', f1, f2⟩ := freeHandle_acc (e := ⟨st, tape, s.live, s.next⟩) hl
      rw [f1] at ha
      rw [← Option.some.inj ha]
      refine ⟨⟨⟨lost + lost', ?_, ?_⟩, ?_⟩, nexts_set _ _ _ (by simp) _ _ _ _ _ hx (Or.inl ⟨rfl, rfl⟩)
        (fun j _ => rfl)⟩
      · show base + rest + lost + lost' = base + ((s.handles.set i none).map made).sum + (lost + lost')
        rw [t2]
        simp only [made, zero_add]
        ac_rfl
      · show (lost + lost').card + ((s.handles.set i none).map spot).sum ≤ _
        rw [u2, Multiset.card_add, f2]
        rw [u1] at h2
        have : spot (none : Option (Handle P V)) = 0 := rfl
        omega
      · intro x hx'
        rcases List.mem_or_eq_of_mem_set hx' with hx' | hx'
        · exact hi.valid x hx'
        · cases hx'
    · rw [← Option.some.inj h]
      exact nop _ ⟨st, tape, s.live, s.next⟩ rfl (by simp) (fun _ _ _ _ => rfl)
  | freeNull k =>
    simp only [Option.bind_eq_some_iff] at h
    obtain ⟨a, ha, h⟩ := h
    unfold freeNothing at ha
    split at ha
    · cases ha
    · rw [← Option.some.inj h, ← Option.some.inj ha]
      exact nop _ ⟨st, tape, s.live, s.next⟩ rfl (by simp) (fun _ _ _ _ => rfl)

theorem swiftlies_cons (c : Op P × Status × List Status) (cs : History P) : swiftlies (c :: cs) = swiftlies [c] + swiftlies cs := by
  obtain ⟨op, st⟩ := c
  cases op with
  | make k g p => cases k <;> simp [swiftlies, Nat.add_comm]
  | _ => simp [swiftlies]

theorem run_inv {base : Multiset Nat} {used : Nat} {s s' : State P V} (hi : Inv base used s) {cs : History P}
    (h : run T s cs = some s') : Inv base (used + swiftlies cs) s' := by
  induction cs generalizing s used with
  | nil =>
    simp only [run] at h
    rw [← Option.some.inj h]
    exact hi
  | cons c cs ih =>
    simp only [run, Option.bind_eq_some_iff] at h
    obtain ⟨r, hr, h⟩ := h
    rw [swiftlies_cons, ← Nat.add_assoc]
    exact ih (step_inv T hi hr).1 h

theorem inv_start (base : Multiset Nat) (n : Nat) : Inv base 0 (start base n : State P V) :=
  ⟨⟨0, by simp [start, total], by simp [start]⟩, fun h hh => by simp [start] at hh⟩

end Sdp.Plans
