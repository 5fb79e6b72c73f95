import Mathlib.Tactic.IntervalCases
import Verif.Common.Desc
import Verif.Custom.Call
import Verif.Custom.Props
import Verif.FftConv.CallProps

/-!
# C96: calls of the degridding with custom kernels, on CPU and GPU
-/

set_option linter.unusedSectionVars false

namespace Sdp.Custom
open Finset Sdp.Race

variable {K : Type} [Field K] [LinearOrder K] [IsStrictOrderedRing K] [FloorRing K]
variable {R : Type} [CommRing R] [StarRing R]

/-! ## Rounding -/

/-- **C96, rounding on the GPU.**  The result is a nearest integer, and the even one if there are two. -/
theorem C96_nearest (x : K) :
    |((rne x : Int) : K) - x| ≤ 1 / 2 ∧ ∀ n : Int, |(n : K) - x| ≤ 1 / 2 → n ≠ rne x → Even (rne x) := by
  have h1 := Int.floor_le x
  have h2 := Int.lt_floor_add_one x
  unfold rne
  generalize ⌊x⌋ = f at *
  have near : ∀ n : Int, |(n : K) - x| ≤ 1 / 2 → (n : K) ≤ x + 1 / 2 ∧ x - 1 / 2 ≤ n := by
    intro n hn
    have := abs_le.1 hn
    exact ⟨by linarith [this.2], by linarith [this.1]⟩
  by_cases ha : x - f < 1 / 2
  · rw [if_pos ha]
    refine ⟨by rw [abs_le]; constructor <;> linarith, fun n hn hne => ?_⟩
    obtain ⟨n1, n2⟩ := near n hn
    exfalso
    rcases lt_or_gt_of_ne hne with h | h
    · have : (n : K) + 1 ≤ f := by exact_mod_cast (show n + 1 ≤ f by omega)
      linarith
    · have : (f : K) + 1 ≤ n := by exact_mod_cast (show f + 1 ≤ n by omega)
      linarith
  · rw [if_neg ha]
    by_cases hb : 1 / 2 < x - f
    · rw [if_pos hb]
      refine ⟨by rw [abs_le]; push_cast; constructor <;> linarith, fun n hn hne => ?_⟩
      obtain ⟨n1, n2⟩ := near n hn
      exfalso
      rcases lt_or_gt_of_ne hne with h | h
      · have : (n : K) ≤ f := by exact_mod_cast (show n ≤ f by omega)
        linarith
      · have : (f : K) + 2 ≤ n := by exact_mod_cast (show f + 2 ≤ n by omega)
        linarith
    · rw [if_neg hb]
      have e : x = f + 1 / 2 := by linarith
      by_cases hc : f % 2 = 0
      · rw [if_pos hc]
        exact ⟨by rw [abs_le]; constructor <;> linarith, fun _ _ _ => Int.even_iff.2 hc⟩
      · rw [if_neg hc]
        exact ⟨by rw [abs_le]; push_cast; constructor <;> linarith, fun _ _ _ => Int.even_iff.2 (by omega)⟩

/-- Away from halves CPU and GPU round to the same integer. -/
theorem C96_same_rounding (x : K) (h : ∀ n : Int, x ≠ n + 1 / 2) : rne x = WTower.rnd x := by
  have h1 := (C96_nearest x).1
  have h2 := WTower.rnd_close x
  have lt : ∀ m : Int, |(m : K) - x| ≤ 1 / 2 → |(m : K) - x| < 1 / 2 := by
    intro m hm
    rcases hm.lt_or_eq with h' | h'
    · exact h'
    · exfalso
      rcases abs_cases ((m : K) - x) with ⟨e, -⟩ | ⟨e, -⟩
      · apply h (m - 1); push_cast; linarith
      · apply h m; linarith
  have g1 := abs_lt.1 (lt _ h1)
  have g2 := abs_lt.1 (lt _ h2)
  have a1 : ((rne x : Int) : K) < (WTower.rnd x : Int) + 1 := by linarith [g1.2, g2.1]
  have a2 : ((WTower.rnd x : Int) : K) < (rne x : Int) + 1 := by linarith [g1.1, g2.2]
  have b1 : rne x < WTower.rnd x + 1 := by exact_mod_cast a1
  have b2 : WTower.rnd x < rne x + 1 := by exact_mod_cast a2
  omega

/-! ## Threads -/

theorem within_wider {α : Type} {S T : Int → Prop} (h : ∀ x, S x → T x) : ∀ (q : Prog α), q.Within S → q.Within T
  | .done, _ => trivial
  | .fault, _ => trivial
  | .read _ k, hq => ⟨h _ hq.1, fun v => within_wider h (k v) (hq.2 v)⟩
  | .write _ _ k, hq => ⟨h _ hq.1, within_wider h k hq.2⟩

/-- The visibilities of a thread. -/
def cellsOf (g : Cfg K R) (x : Nat × Nat × Nat) (i : Int) : Prop :=
  ∃ p < g.numPols, i = index4 g.numBaselines g.numChannels g.numPols x.2.2 x.1 x.2.1 p

theorem polProg_exec (g : Cfg K R) (q : Pos) (t b c : Nat) (l : List Nat) (a : Arr R) :
    (polProg g q t b c l).exec a = loop (fun vis (p : Nat) => (visZ g q c p).bind fun x =>
      vis.write (index4 g.numBaselines g.numChannels g.numPols t b c p) x) a l := by
  induction l generalizing a with
  | nil => rfl
  | cons p l ih =>
    unfold polProg
    rw [exec_need]
    simp only [loop]
    cases visZ g q c p with
    | none => rfl
    | some v =>
      simp only [Option.bind_some, Prog.exec]
      cases a.write (index4 g.numBaselines g.numChannels g.numPols t b c p) v with
      | none => rfl
      | some a' => exact ih a'

theorem polProg_within (g : Cfg K R) (q : Pos) (x : Nat × Nat × Nat) (l : List Nat) (hl : ∀ p ∈ l, p < g.numPols) :
    (polProg g q x.2.2 x.1 x.2.1 l).Within (cellsOf g x) := by
  induction l with
  | nil => trivial
  | cons p l ih =>
    unfold polProg
    apply within_need
    intro v _
    exact ⟨⟨p, hl p (by simp), rfl⟩, ih fun p' h => hl p' (by simp [h])⟩

theorem thread_exec (g : Cfg K R) (x : Nat × Nat × Nat) (a : Arr R)
    (hx : x.1 < g.numBaselines ∧ x.2.1 < g.numChannels ∧ x.2.2 < g.numTimes) :
    (thread g x).exec a = body g a (x.2.2, x.1, x.2.1) := by
  unfold thread body
  rw [if_neg (by omega)]
  have e : (3 * index2 g.numBaselines x.2.2 x.1 : Int) = index3 g.numBaselines 3 x.2.2 x.1 0 := by
    unfold index2 index3; push_cast; ring
  simp only [e]
  rw [exec_need]
  congr 1; funext u
  rw [exec_need]
  congr 1; funext v
  rw [exec_need]
  congr 1; funext w
  rw [exec_need]
  congr 1; funext q
  by_cases hq : inside g q = true
  · rw [if_pos hq, if_pos hq, polProg_exec]
  · rw [if_neg hq, if_neg hq]; rfl

theorem thread_within (g : Cfg K R) (x : Nat × Nat × Nat) : (thread g x).Within (cellsOf g x) := by
  unfold thread
  by_cases hx : x.1 ≥ g.numBaselines ∨ x.2.1 ≥ g.numChannels ∨ x.2.2 ≥ g.numTimes
  · rw [if_pos hx]; trivial
  · rw [if_neg hx]
    dsimp only
    apply within_need; intro u _
    apply within_need; intro v _
    apply within_need; intro w _
    apply within_need; intro q _
    by_cases hq : inside g q = true
    · rw [if_pos hq]
      exact polProg_within g q x _ fun p hp => List.mem_range.1 hp
    · rw [if_neg hq]; trivial

/-- Position of a visibility as a number. -/
theorem index4_nat (n c q t b k p : Nat) :
    index4 n c q t b k p = ((((t * n + b) * c + k) * q + p : Nat) : Int) := by
  unfold index4; push_cast; ring

open Classical in
/-- **The GPU kernel.**  Every schedule of the threads gives what C44 states for the loops. -/
theorem launch_yields (g : Cfg K R) (hm : g.Made) (hz : g.wSize ≤ g.zSize) (vis : Arr R)
    (hv : vis.size = g.numTimes * (g.numBaselines * (g.numChannels * g.numPols)))
    (hw : ∀ t b c, t < g.numTimes → b < g.numBaselines → c < g.numChannels → Inside g t b c →
      0 ≤ g.round ((1 + coordOf g t b c 2 / g.wstep) * g.wOv) + g.wOv - 1) :
    ∃ r, Yields (thread g) (threads g) vis r ∧ degrid g vis = some r := by
  obtain ⟨r, r1, r2, r3⟩ := C44_degrid_partial g hm hz vis hv hw
  refine ⟨r, ?_, r1⟩
  let S : Nat × Nat × Nat → Int → Prop := fun x i =>
    (x.1 < g.numBaselines ∧ x.2.1 < g.numChannels ∧ x.2.2 < g.numTimes) ∧ cellsOf g x i
  have hin : ∀ {t b c p : Nat}, t < g.numTimes → b < g.numBaselines → c < g.numChannels → p < g.numPols →
      ((t * g.numBaselines + b) * g.numChannels + c) * g.numPols + p < vis.size := by
    intro t b c p ht hb hc hp
    rw [hv]
    have a3 := flat_lt (flat_lt (flat_lt ht hb) hc) hp
    calc _ = g.numPols * (g.numChannels * (g.numBaselines * t + b) + c) + p := by ring
      _ < _ := a3
      _ = _ := by ring
  have inj : ∀ {t b c p t' b' c' p' : Nat}, b < g.numBaselines → c < g.numChannels → p < g.numPols →
      b' < g.numBaselines → c' < g.numChannels → p' < g.numPols →
      ((t * g.numBaselines + b) * g.numChannels + c) * g.numPols + p =
        ((t' * g.numBaselines + b') * g.numChannels + c') * g.numPols + p' →
      t = t' ∧ b = b' ∧ c = c' ∧ p = p' := by
    intro t b c p t' b' c' p' h2 h3 h4 h2' h3' h4' h
    obtain ⟨k1, rfl⟩ := flat_inj (b := g.numPols)
      (i := (t * g.numBaselines + b) * g.numChannels + c)
      (i' := (t' * g.numBaselines + b') * g.numChannels + c') h4 h4' (by linarith)
    obtain ⟨k2, rfl⟩ := flat_inj (b := g.numChannels) (i := t * g.numBaselines + b)
      (i' := t' * g.numBaselines + b') h3 h3' (by linarith)
    obtain ⟨rfl, rfl⟩ := flat_inj (b := g.numBaselines) (i := t) (i' := t') h2 h2' (by linarith)
    exact ⟨rfl, rfl, rfl, rfl⟩
  refine yields_each _ S _ ?_ ?_ vis r r2 ?_ ?_
  · intro x _
    by_cases hx : x.1 < g.numBaselines ∧ x.2.1 < g.numChannels ∧ x.2.2 < g.numTimes
    · exact within_wider (T := S x) (fun i hi => ⟨hx, hi⟩) _ (thread_within g x)
    · unfold thread
      rw [if_pos (by omega)]
      trivial
  · rintro ⟨b, c, t⟩ - ⟨b', c', t'⟩ - hne i ⟨hx, p, hp, e⟩ ⟨hx', p', hp', e'⟩
    rw [e, index4_nat, index4_nat] at e'
    obtain ⟨rfl, rfl, rfl, -⟩ := inj hx.1 hx.2.1 hp hx'.1 hx'.2.1 hp' (Int.ofNat_inj.1 e')
    exact hne rfl
  · rintro ⟨b, c, t⟩ -
    by_cases hx : b < g.numBaselines ∧ c < g.numChannels ∧ t < g.numTimes
    · rw [thread_exec g (b, c, t) vis hx]
      rw [body_ok g hm hz t b c hx.2.2 hx.1 hx.2.1 (hw t b c hx.2.2 hx.1 hx.2.1)]
      by_cases hi : Inside g t b c
      · rw [if_pos hi]
        obtain ⟨y, y1, y2, y3, y4⟩ := Arr.store_spec (List.range g.numPols)
          (fun p : Nat => index4 g.numBaselines g.numChannels g.numPols t b c p)
          (fun p : Nat => if g.conjugate then star (interp g t b c p) else interp g t b c p)
          (by
            apply List.Nodup.map_on
            · intro p hp p' hp' h
              simp only [index4_nat] at h
              exact (inj hx.1 hx.2.1 (List.mem_range.1 hp) hx.1 hx.2.1 (List.mem_range.1 hp') (Int.ofNat_inj.1 h)).2.2.2
            · exact List.nodup_range) vis
          (by
            intro p hp
            rw [index4_nat]
            exact ⟨Int.natCast_nonneg _, by exact_mod_cast hin hx.2.2 hx.1 hx.2.1 (List.mem_range.1 hp)⟩)
        refine ⟨y, y1, ?_⟩
        rintro i ⟨-, p, hp, e⟩
        rw [index4_nat] at e
        have e := Int.ofNat_inj.1 e
        have h3 := y3 p (List.mem_range.2 hp)
        rw [index4_nat, Int.toNat_natCast] at h3
        have h4 := r3 t b c p hx.2.2 hx.1 hx.2.1 hp
        rw [if_pos hi] at h4
        unfold visAt at h4
        simp only at e
        rw [e, h3, h4]
      · rw [if_neg hi]
        refine ⟨vis, rfl, ?_⟩
        rintro i ⟨-, p, hp, e⟩
        rw [index4_nat] at e
        have e := Int.ofNat_inj.1 e
        have h4 := r3 t b c p hx.2.2 hx.1 hx.2.1 hp
        rw [if_neg hi] at h4
        unfold visAt at h4
        simp only at e
        rw [e, h4]
    · unfold thread
      rw [if_pos (by simp only; omega)]
      exact ⟨vis, rfl, fun i hi => absurd hi.1 hx⟩
  · intro i hi
    unfold degrid at r1
    have key : ∀ (l : List (Nat × Nat × Nat)) (s s' : Arr R), (∀ q ∈ l, q ∈ nest3 g.numTimes g.numBaselines g.numChannels) →
        loop (body g) s l = some s' → s'.get i = s.get i := by
      intro l
      induction l with
      | nil => intro s s' _ h; simp only [loop, Option.some.injEq] at h; rw [h]
      | cons q l ih =>
        intro s s' hl h
        obtain ⟨t, b, c⟩ := q
        obtain ⟨h1, h2, h3⟩ := mem_nest3.1 (hl (t, b, c) List.mem_cons_self)
        simp only at h1 h2 h3
        simp only [loop] at h
        rw [← thread_exec g (b, c, t) s ⟨h2, h3, h1⟩] at h
        cases hb : (thread g (b, c, t)).exec s with
        | none => rw [hb] at h; cases h
        | some s1 =>
          rw [hb] at h
          rw [ih s1 s' (fun q hq => hl q (by simp [hq])) h]
          refine (exec_frame (thread_within g (b, c, t)) hb).2 i ?_
          intro hc
          refine hi (b, c, t) ?_ ⟨⟨h2, h3, h1⟩, hc⟩
          unfold threads
          exact mem_nest3.2 ⟨by have := le_blocks g.numBaselines 128 (by decide); simp only; omega,
            by have := le_blocks g.numChannels 2 (by decide); simp only; omega,
            by have := le_blocks g.numTimes 2 (by decide); simp only; omega⟩
    exact key _ _ _ (fun _ h => h) r1

/-! ## The checks -/

/-- What is checked of the arguments: shapes, types, locations. -/
structure Checked (m : Args) (nt nb nc np nz ny nx : Int) : Prop where
  pols : np = 1 ∨ np = 4
  vis : HasShape m.vis [nt, nb, nc, np]
  uvw : HasShape m.uvw [nt, nb, 3]
  grid : HasShape m.grid [nc, nz, ny, nx, np]
  types : m.vis.type = .complexDouble ∧ m.grid.type = .complexDouble ∧ m.uvw.type = .double ∧
    m.uvKernel.type = .double ∧ m.wKernel.type = .double
  location : m.grid.location = m.vis.location ∧ m.uvw.location = m.vis.location ∧
    m.uvKernel.location = m.vis.location ∧ m.wKernel.location = m.vis.location
  data : m.vis.data ≠ none ∧ m.uvw.data ≠ none
  contiguous : m.uvw.isCContiguous = true
  writeable : m.vis.isReadOnly = false

theorem shape_dims {m : Mem} {l : List Int} (h : HasShape m l) (i : Nat) (hi : i < l.length) :
    m.shapeDim i = l.getD i 0 := by
  rw [shapeDim_lt m i (by rw [h.1]; exact hi), h.2 i hi]

theorem check_iff (m : Args) (st : Status) :
    check m st = .success ↔ st = .success ∧ ∃ nt nb nc np nz ny nx, Checked m nt nb nc np nz ny nx := by
  unfold check
  by_cases hst : st = .success
  swap
  · rw [if_pos hst]; simp [hst]
  rw [if_neg (by simpa using hst)]
  obtain ⟨hr1, hr2⟩ := C09_vis_metadata {} m.vis st
  dsimp only
  generalize hs : checkShape m.grid _ _ = s
  constructor
  · intro h
    by_cases h1 : s ≠ .success
    · rw [if_pos h1] at h; exact absurd h h1
    rw [if_neg h1] at h
    have h1 := not_not.1 h1
    by_cases h2 : m.grid.location ≠ (getVisMetadata {} m.vis st).1.location.getD .cpu ∨
        m.uvKernel.location ≠ (getVisMetadata {} m.vis st).1.location.getD .cpu ∨
        m.wKernel.location ≠ (getVisMetadata {} m.vis st).1.location.getD .cpu
    · rw [if_pos h2] at h; cases h
    rw [if_neg h2] at h
    generalize ht : (getVisMetadata {} m.vis st).1.type.getD .void = ty at h
    by_cases h3 : ty ≠ .complexDouble ∨ m.grid.type ≠ .complexDouble ∨ m.uvw.type ≠ .double ∨
      m.uvKernel.type ≠ .double ∨ m.wKernel.type ≠ .double
    · rw [if_pos h3] at h; cases h
    push Not at h2 h3
    rw [h1, checkShape_iff, C09_check_uvw, checkWriteable_iff] at hs
    obtain ⟨⟨⟨h0, w1, w2⟩, ud, -, us, ul, -, uc⟩, gs⟩ := hs
    obtain ⟨-, vd, vt, vn, vp⟩ := hr1.1 h0
    obtain ⟨q1, q2, q3, q4, q5, q6⟩ := hr2 h0
    have q1 := q1 rfl
    have q2 := q2 rfl
    have q3 := q3 rfl
    have q4 := q4 rfl
    have q5 := q5 rfl
    have q6 := q6 rfl
    rw [q1] at ht
    rw [q2] at h2 ul
    rw [q3, q4] at us
    rw [q5, q6] at gs
    simp only [Option.getD_some] at ht h2 ul us gs
    refine ⟨hst, m.vis.shape.getD 0 0, m.vis.shape.getD 1 0, m.vis.shape.getD 2 0, m.vis.shape.getD 3 0, _, _, _,
      ⟨vp rfl, ⟨vn, ?_⟩, us, gs, ⟨ht.trans h3.1, h3.2⟩, ⟨h2.1, ul, h2.2⟩, ⟨vd, ud⟩, uc, w2⟩⟩
    intro k hk
    simp only [List.length_cons, List.length_nil] at hk
    interval_cases k <;> rfl
  · rintro ⟨-, nt, nb, nc, np, nz, ny, nx, c⟩
    have i0 : m.vis.shape.getD 0 0 = nt := by simpa using c.vis.2 0 (by simp)
    have i1 : m.vis.shape.getD 1 0 = nb := by simpa using c.vis.2 1 (by simp)
    have i2 : m.vis.shape.getD 2 0 = nc := by simpa using c.vis.2 2 (by simp)
    have i3 : m.vis.shape.getD 3 0 = np := by simpa using c.vis.2 3 (by simp)
    have h0 : (getVisMetadata {} m.vis st).2 = .success :=
      hr1.2 ⟨hst, c.data.1, by rw [c.types.1]; simp [ComplexType], c.vis.1, fun _ => by rw [i3]; exact c.pols⟩
    obtain ⟨q1, q2, q3, q4, q5, q6⟩ := hr2 h0
    have q1 := q1 rfl
    have q2 := q2 rfl
    have q3 := q3 rfl
    have q4 := q4 rfl
    have q5 := q5 rfl
    have q6 := q6 rfl
    have g1 : m.grid.shapeDim 1 = nz := shape_dims c.grid 1 (by simp)
    have g2 : m.grid.shapeDim 2 = ny := shape_dims c.grid 2 (by simp)
    have g3 : m.grid.shapeDim 3 = nx := shape_dims c.grid 3 (by simp)
    rw [q2, q3, q4, q5, q6, i0, i1, i2, i3, g1, g2, g3] at hs
    have e : s = .success := by
      rw [← hs, checkShape_iff, C09_check_uvw, checkWriteable_iff]
      exact ⟨⟨⟨h0, c.data.1, c.writeable⟩, c.data.2, by rw [c.types.2.2.1]; simp [RealType], c.uvw, c.location.2.1, .inl rfl,
        c.contiguous⟩, c.grid⟩
    rw [if_neg (by rw [e]; simp), q1, q2]
    simp only [Option.getD_some]
    rw [if_neg (by push Not; exact ⟨c.location.1, c.location.2.2⟩), if_neg (by push Not; exact c.types)]

/-- **C96, refused calls.**  Every outcome of a call that reports an error leaves the visibilities alone, and one that
does not report an error has had its arguments checked.  Without a GPU a call on GPU memory reports an error. -/
theorem C96_checked (cuda : Bool) (m : Args) (p : Par K) (x : Inputs K R) (st : Status) (a : Arr R)
    (o : Option (Status × Arr R)) (h : Calls cuda m p x st a o) :
    (∀ s r, o = some (s, r) → s ≠ .success → r = a) ∧
    (st = .success → (∃ nt nb nc np nz ny nx, Checked m nt nb nc np nz ny nx) ∨ ∃ s, s ≠ .success ∧ o = some (s, a)) ∧
    (st ≠ .success → o = some (st, a)) ∧
    (cuda = false → m.vis.location = .gpu → ∃ s, s ≠ .success ∧ o = some (s, a)) := by
  have hc := check_iff m st
  unfold Calls at h
  by_cases h1 : check m st ≠ .success
  · rw [if_pos h1] at h
    refine ⟨fun s r e _ => ?_, fun _ => .inr ⟨_, h1, h⟩, fun hst => ?_, fun _ _ => ⟨_, h1, h⟩⟩
    · rw [h, Option.some.injEq, Prod.mk.injEq] at e
      exact e.2.symm
    · rw [h]
      unfold check
      rw [if_pos hst]
  · rw [if_neg h1] at h
    obtain ⟨g1, g2⟩ := hc.1 (not_not.1 h1)
    refine ⟨fun s r e hs => ?_, fun _ => .inl g2, fun hst => absurd g1 hst, fun hcu hl => ?_⟩
    rotate_left
    · rw [hl] at h
      dsimp only at h
      rw [if_pos (.inl hcu)] at h
      exact ⟨.runtime, by simp, h⟩
    cases hl : m.vis.location with
    | other =>
      rw [hl] at h
      dsimp only at h
      rw [h, Option.some.injEq, Prod.mk.injEq] at e
      exact e.2.symm
    | cpu =>
      rw [hl] at h
      dsimp only at h
      rw [h, Option.map_eq_some_iff] at e
      obtain ⟨y, -, e⟩ := e
      rw [Prod.mk.injEq] at e
      exact absurd e.1.symm hs
    | gpu =>
      rw [hl] at h
      dsimp only at h
      by_cases h2 : cuda = false ∨ threads (cfgOf rne m p x) = []
      · rw [if_pos h2] at h
        rw [h, Option.some.injEq, Prod.mk.injEq] at e
        exact e.2.symm
      · rw [if_neg h2] at h
        obtain ⟨l, -, h⟩ := h
        rw [h, Option.map_eq_some_iff] at e
        obtain ⟨y, -, e⟩ := e
        rw [Prod.mk.injEq] at e
        exact absurd e.1.symm hs

/-! ## Whole calls -/

/-- Sizes of a call. -/
structure Sizes where
  times : Nat
  baselines : Nat
  channels : Nat
  pols : Nat
  z : Nat
  y : Nat
  x : Nat
  uvOv : Nat
  uv : Nat
  wOv : Nat
  w : Nat

/-- Arguments of the documented shapes with their data; at least one visibility, kernels of two dimensions, enough planes, a
step. -/
structure Ready (m : Args) (p : Par K) (d : Inputs K R) (a : Arr R) (n : Sizes) : Prop where
  checked : Checked m n.times n.baselines n.channels n.pols n.z n.y n.x
  uvShape : HasShape m.uvKernel [n.uvOv, n.uv]
  wShape : HasShape m.wKernel [n.wOv, n.w]
  some : 0 < n.times ∧ 0 < n.baselines ∧ 0 < n.channels
  grid : Holds m.grid d.grid
  uvw : Holds m.uvw d.uvw
  uv : Holds m.uvKernel d.uvKernel
  w : Holds m.wKernel d.wKernel
  vis : Holds m.vis a
  ov : 0 < n.uvOv ∧ 0 < n.wOv
  planes : n.w ≤ n.z
  step : p.wstep ≠ 0

/-- The problem of C44 for given sizes, arguments and arrays. -/
def problem (ρ : K → Int) (n : Sizes) (p : Par K) (d : Inputs K R) : Cfg K R where
  uvSize := n.uv
  uvOv := n.uvOv
  wSize := n.w
  wOv := n.wOv
  xSize := n.x
  ySize := n.y
  zSize := n.z
  numTimes := n.times
  numBaselines := n.baselines
  numChannels := n.channels
  numPols := n.pols
  theta := p.theta
  wstep := p.wstep
  f0 := p.f0
  df := p.df
  c0 := 299792458
  conjugate := p.conjugate
  round := ρ
  grid := d.grid
  uvw := d.uvw
  uvKernel := d.uvKernel
  wKernel := d.wKernel

/-- Nearest integer: halves away from zero on the CPU, to the even integer on the GPU. -/
def nearest (l : MemLocation) : K → Int := if l = .gpu then rne else WTower.rnd

theorem cfg_eq {m : Args} {p : Par K} {d : Inputs K R} {a : Arr R} {n : Sizes} (h : Ready m p d a n) (ρ : K → Int) :
    cfgOf ρ m p d = problem ρ n p d := by
  have u0 : m.uvKernel.shapeDim 0 = n.uvOv := shape_dims h.uvShape 0 (by simp)
  have u1 : m.uvKernel.shapeDim 1 = n.uv := shape_dims h.uvShape 1 (by simp)
  have w0 : m.wKernel.shapeDim 0 = n.wOv := shape_dims h.wShape 0 (by simp)
  have w1 : m.wKernel.shapeDim 1 = n.w := shape_dims h.wShape 1 (by simp)
  have g1 : m.grid.shapeDim 1 = n.z := shape_dims h.checked.grid 1 (by simp)
  have g2 : m.grid.shapeDim 2 = n.y := shape_dims h.checked.grid 2 (by simp)
  have g3 : m.grid.shapeDim 3 = n.x := shape_dims h.checked.grid 3 (by simp)
  have v0 : m.vis.shapeDim 0 = n.times := shape_dims h.checked.vis 0 (by simp)
  have v1 : m.vis.shapeDim 1 = n.baselines := shape_dims h.checked.vis 1 (by simp)
  have v2 : m.vis.shapeDim 2 = n.channels := shape_dims h.checked.vis 2 (by simp)
  have v3 : m.vis.shapeDim 3 = n.pols := shape_dims h.checked.vis 3 (by simp)
  unfold cfgOf problem
  rw [u0, u1, w0, w1, g1, g2, g3, v0, v1, v2, v3]
  rfl

theorem problem_made {m : Args} {p : Par K} {d : Inputs K R} {a : Arr R} {n : Sizes} (h : Ready m p d a n) (ρ : K → Int) :
    (problem ρ n p d).Made ∧ a.size = n.times * (n.baselines * (n.channels * n.pols)) := by
  have s1 := (h.grid.of_shape h.checked.grid).2
  have s2 := (h.uvw.of_shape h.checked.uvw).2
  have s3 := (h.uv.of_shape h.uvShape).2
  have s4 := (h.w.of_shape h.wShape).2
  have s5 := (h.vis.of_shape h.checked.vis).2
  simp only [List.prod_cons, List.prod_nil, mul_one] at s1 s2 s3 s4 s5
  refine ⟨⟨h.ov.1, h.ov.2, h.step, ?_, ?_, ?_, ?_⟩, ?_⟩
  · show d.grid.size = n.channels * (n.z * (n.y * (n.x * n.pols)))
    exact_mod_cast s1
  · show d.uvw.size = n.times * n.baselines * 3
    rw [mul_assoc]
    exact_mod_cast s2
  · show d.uvKernel.size = n.uvOv * n.uv
    exact_mod_cast s3
  · show d.wKernel.size = n.wOv * n.w
    exact_mod_cast s4
  · exact_mod_cast s5

open Classical in
/-- **C96 (partial).**  On CPU and GPU, for every schedule of the threads, a call with arguments of the documented shapes has
one outcome: success; each visibility whose footprint is inside the grid is the separable interpolation of the grid around it,
conjugated on request, and all others keep their value.  Required, and not checked by the code: kernels of two dimensions,
as many planes in the grid as the w kernel has, a w step, and w not below about -2 steps; arrays contiguous. -/
theorem C96_call_partial (m : Args) (p : Par K) (d : Inputs K R) (a : Arr R) (n : Sizes) (h : Ready m p d a n)
    (hl : m.vis.location = .cpu ∨ m.vis.location = .gpu)
    (hw : ∀ t b c, t < n.times → b < n.baselines → c < n.channels →
      Inside (problem (nearest m.vis.location) n p d) t b c →
      0 ≤ nearest m.vis.location ((1 + coordOf (problem (nearest m.vis.location) n p d) t b c 2 / p.wstep) * n.wOv) + n.wOv - 1) :
    ∃ r, (∀ o, Calls true m p d .success a o ↔ o = some (.success, r)) ∧ r.size = a.size ∧
      ∀ t b c q, t < n.times → b < n.baselines → c < n.channels → q < n.pols →
        visAt (problem (nearest m.vis.location) n p d) r t b c q =
          if Inside (problem (nearest m.vis.location) n p d) t b c then
            (if p.conjugate then star (interp (problem (nearest m.vis.location) n p d) t b c q)
              else interp (problem (nearest m.vis.location) n p d) t b c q)
          else visAt (problem (nearest m.vis.location) n p d) a t b c q := by
  have hc : check m .success = .success := (check_iff m _).2 ⟨rfl, _, _, _, _, _, _, _, h.checked⟩
  obtain ⟨hm, hv⟩ := problem_made h (nearest m.vis.location)
  obtain ⟨r, r1, r2, r3⟩ := C44_degrid_partial (problem (nearest m.vis.location) n p d) hm h.planes a hv hw
  refine ⟨r, ?_, r2, r3⟩
  intro o
  unfold Calls
  rw [if_neg (by rw [hc]; simp)]
  rcases hl with hl | hl
  · have e : nearest (K := K) m.vis.location = WTower.rnd := by unfold nearest; rw [hl]; rfl
    rw [e] at r1
    rw [hl]
    dsimp only
    rw [cfg_eq h, r1]
    rfl
  · have e : nearest (K := K) m.vis.location = rne := by unfold nearest; rw [hl]; rfl
    rw [e] at r1 hm hw
    obtain ⟨r', y, d'⟩ := launch_yields (problem rne n p d) hm h.planes a hv hw
    rw [r1] at d'
    obtain rfl := Option.some.inj d'
    rw [hl]
    dsimp only
    rw [cfg_eq h]
    have ne : threads (problem rne n p d) ≠ [] := by
      apply List.ne_nil_of_mem (a := ((0, 0, 0) : Nat × Nat × Nat))
      unfold threads
      obtain ⟨h1, h2, h3⟩ := h.some
      exact mem_nest3.2 ⟨by
          have := le_blocks n.baselines 128 (by decide)
          show 0 < blocks n.baselines 128 * 128
          omega, by
          have := le_blocks n.channels 2 (by decide)
          show 0 < blocks n.channels 2 * 2
          omega, by
          have := le_blocks n.times 2 (by decide)
          show 0 < blocks n.times 2 * 2
          omega⟩
    rw [if_neg (by push Not; exact ⟨by simp, ne⟩)]
    constructor
    · rintro ⟨l, l1, l2⟩
      rw [l2, Launch.eq y l1]
      rfl
    · intro ho
      obtain ⟨l, l1⟩ := Launch.exists (thread (problem rne n p d)) (threads (problem rne n p d)) (nest3_nodup _ _ _) a
      refine ⟨l, l1, ?_⟩
      rw [ho, Launch.eq y l1]
      rfl

end Sdp.Custom
