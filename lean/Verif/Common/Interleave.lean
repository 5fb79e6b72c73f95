import Mathlib.Tactic.Linarith
import Verif.Common.Outcome

/-!
# Launches with one outcome, and positions of visibilities
-/

namespace Sdp.Race
variable {α ι : Type} [DecidableEq ι]

/-- A launch whose result does not depend on the schedule has exactly that outcome. -/
theorem Launch.iff {prog : ι → Prog α} {ts : List ι} (hn : ts.Nodup) {a r : Arr α} (hy : Yields prog ts a r)
    (o : Option (Arr α)) : Launch prog ts a o ↔ o = some r := by
  constructor
  · exact fun h => h.eq hy
  · rintro rfl
    obtain ⟨o, h⟩ := Launch.exists prog ts hn a
    rw [h.eq hy] at h
    exact h

theorem Prog.Within.wider {S T : Int → Prop} (h : ∀ x, S x → T x) : ∀ {q : Prog α}, q.Within S → q.Within T
  | .done, _ => trivial
  | .fault, _ => trivial
  | .read _ k, hq => ⟨h _ hq.1, fun v => Prog.Within.wider h (q := k v) (hq.2 v)⟩
  | .write _ _ k, hq => ⟨h _ hq.1, Prog.Within.wider h (q := k) hq.2⟩

end Sdp.Race

namespace Sdp

/-- Different visibilities have different positions. -/
theorem index4_inj {nb nc np t b c p t' b' c' p' : Nat} (h2 : b < nb) (h3 : c < nc) (h4 : p < np) (h2' : b' < nb)
    (h3' : c' < nc) (h4' : p' < np) (h : index4 nb nc np t b c p = index4 nb nc np t' b' c' p') :
    t = t' ∧ b = b' ∧ c = c' ∧ p = p' := by
  have e : ∀ t b c p : Nat, index4 nb nc np t b c p = ((((t * nb + b) * nc + c) * np + p : Nat) : Int) := by
    intro t b c p; unfold index4; push_cast; ring
  rw [e, e] at h
  have h := Int.ofNat_inj.1 h
  obtain ⟨k1, rfl⟩ := flat_inj (b := np) (i := (t * nb + b) * nc + c) (i' := (t' * nb + b') * nc + c') h4 h4' (by linarith)
  obtain ⟨k2, rfl⟩ := flat_inj (b := nc) (i := t * nb + b) (i' := t' * nb + b') h3 h3' (by linarith)
  obtain ⟨rfl, rfl⟩ := flat_inj (b := nb) (i := t) (i' := t') h2 h2' (by linarith)
  exact ⟨rfl, rfl, rfl, rfl⟩

end Sdp
