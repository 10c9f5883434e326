/- Invariant of the marker stage. -/
import Verif.Model.Markers
import Verif.Model.ForceEnd
import Verif.Spec.Words

set_option autoImplicit false

namespace Model
open Spec

namespace Markers

/-- Taken and given words of one cycle. -/
def taken (s : Markers) (i : MarkIn) : List (Nat × Bool) :=
  if i.valid && !(s.out i).oBusy then [(i.data, i.endd)] else []

def given (s : Markers) (i : MarkIn) : List (Nat × Bool) :=
  if (s.out i).valid && !i.busy then [((s.out i).data, (s.out i).endd)] else []

/-- Words without their end flags. -/
def plain (l : List (Nat × Bool)) : List (Nat × Bool) := l.map fun w => (w.1, false)

/-- No word of `l` is end-flagged. -/
def NoEnd (l : List (Nat × Bool)) : Prop := ∀ x ∈ l, x.2 = false

/-- `l` is end-flagged exactly on its last word. -/
def Whole (l : List (Nat × Bool)) : Prop := ∃ g w, l = g ++ [(w, true)] ∧ NoEnd g

/-- What has been sent, by state. -/
def Inv (s : Markers) (sent got : List (Nat × Bool)) (forced : Prop) : Prop :=
  match s.fsm with
  | .idle => sent = [] ∧ got = []
  | .startMarker => got = [] ∧ s.counter ≤ 8 ∧ s.endCond = false ∧ sent = List.replicate (8 - s.counter) (0xFFFF, false)
  | .frame => s.counter = 8 ∧ sent = List.replicate 8 (0xFFFF, false) ++ plain got ∧
      ((s.endCond = false ∧ NoEnd got) ∨ (s.endCond = true ∧ Whole got))
  | .endMarker => 1 ≤ s.counter ∧ s.counter ≤ 8 ∧ Whole got ∧
      sent = List.replicate 8 (0xFFFF, false) ++ plain got ++ List.replicate (8 - s.counter) (0xFFFF, false)
  | .forceMarker => forced ∧ 1 ≤ s.counter ∧ s.counter ≤ 8 ∧ NoEnd got ∧
      sent = List.replicate 8 (0xFFFF, false) ++ plain got ++ List.replicate (8 - s.counter) (0xFFFE, false)
  | .doneNormal => Whole got ∧ ∃ n,
      sent = List.replicate 8 (0xFFFF, false) ++ plain got ++ List.replicate 7 (0xFFFF, false) ++
        List.replicate (n + 1) (0xFFFF, true)
  | .doneForce => forced ∧ NoEnd got ∧ ∃ n,
      sent = List.replicate 8 (0xFFFF, false) ++ plain got ++ List.replicate 7 (0xFFFE, false) ++
        List.replicate (n + 1) (0xFFFE, true)

theorem inv_init (forced : Prop) : init.Inv [] [] forced := ⟨rfl, rfl⟩

theorem inv_mono {s : Markers} {sent got : List (Nat × Bool)} {p q : Prop} (hpq : p → q)
    (h : s.Inv sent got p) : s.Inv sent got q := by
  unfold Inv at *
  split <;> simp_all

theorem step_ok {s : Markers} {sent got : List (Nat × Bool)} {forced : Prop} (h : s.Inv sent got forced)
    (i : MarkIn) (hp : got = [] → i.valid = true → i.endd = false) :
    (s.step i).Inv (sent ++ s.given i) (got ++ s.taken i) (forced ∨ i.force = true) := by
  obtain ⟨f, c, e⟩ := s
  obtain ⟨d, v, en, fo, b⟩ := i
  cases f
  case idle =>
    obtain ⟨rfl, rfl⟩ := h
    cases v
    · simp [step, Inv, given, taken, out]
    · have := hp rfl rfl
      simp only at this
      simp [step, Inv, given, taken, out, this]
  case startMarker =>
    obtain ⟨rfl, hc, rfl, rfl⟩ := h
    simp only at hc
    have hp : v = true → en = false := hp rfl
    have he : (!b && v && en) = false := by
      cases v <;> simp_all
    cases b
    · simp only [step, Bool.not_false, if_true, given, taken, out, he]
      by_cases h0 : c = 0
      · subst h0
        exact ⟨rfl, by simp [plain], Or.inl ⟨he, by simp [NoEnd]⟩⟩
      · rw [if_neg h0]
        simp only [Bool.true_and, decide_eq_true_eq, if_neg h0, Inv, dec]
        have h1 : (c + 15) % 16 = c - 1 := by omega
        rw [h1]
        simp only [Bool.not_true, Bool.and_false, Bool.false_eq_true, if_false, if_true, List.append_nil,
          Bool.and_self]
        refine ⟨trivial, by omega, he, ?_⟩
        rw [show 8 - (c - 1) = (8 - c) + 1 by omega, List.replicate_succ']
    · simp only [step, Inv, given, taken, out, he]
      simp [hc]
  case frame =>
    obtain ⟨rfl, rfl, h⟩ := h
    rcases h with ⟨rfl, hg⟩ | ⟨rfl, hg⟩
    · cases fo
      · cases hv : (!b && v) with
        | true =>
          simp only [Bool.and_eq_true, Bool.not_eq_true'] at hv
          obtain ⟨rfl, rfl⟩ := hv
          simp only [step, Inv, given, taken, out, plain, Bool.false_eq_true, if_false, Bool.not_false, Bool.and_self,
            if_true, List.map_append, List.map_cons, List.map_nil, List.append_assoc, Bool.true_and, true_and]
          cases en
          · left; refine ⟨rfl, ?_⟩; intro x hx
            simp only [List.mem_append, List.mem_singleton] at hx
            rcases hx with hx | rfl
            · exact hg x hx
            · rfl
          · right; exact ⟨rfl, got, d, rfl, hg⟩
        | false =>
          have h1 : (v && !b) = false := by cases v <;> cases b <;> simp_all
          simp only [step, Inv, given, taken, out, plain, Bool.false_eq_true, if_false, hv, Bool.false_and, h1,
            List.append_nil, true_and]
          exact Or.inl hg
      · simp [step, Inv, given, taken, out, hg]
    · simp [step, Inv, given, taken, out, hg]
  case endMarker =>
    obtain ⟨h1, h2, h3, rfl⟩ := h
    simp only at h1 h2
    cases b
    · by_cases hc : c = 1
      · subst hc
        simp only [step, Inv, given, taken, out, Bool.not_false, if_true, decide_true, Bool.and_self, Bool.not_true,
          Bool.and_false, Bool.false_eq_true, if_false, List.append_nil]
        exact ⟨h3, 0, rfl⟩
      · simp only [step, Inv, given, taken, out, Bool.not_false, if_true, hc, decide_false, Bool.and_self, Bool.not_true,
          Bool.and_false, Bool.false_eq_true, if_false, List.append_nil, dec]
        have h5 : (c + 15) % 16 = c - 1 := by omega
        rw [h5]
        refine ⟨by omega, by omega, h3, ?_⟩
        rw [show 8 - (c - 1) = (8 - c) + 1 by omega, List.replicate_succ' (n := 8 - c)]
        simp only [List.append_assoc]
    · simp [step, Inv, given, taken, out, h1, h2, h3]
  case forceMarker =>
    obtain ⟨h0, h1, h2, h3, rfl⟩ := h
    simp only at h1 h2
    cases b
    · by_cases hc : c = 1
      · subst hc
        simp only [step, Inv, given, taken, out, Bool.not_false, if_true, decide_true, Bool.and_self, Bool.not_true,
          Bool.and_false, Bool.false_eq_true, if_false, List.append_nil]
        exact ⟨Or.inl h0, h3, 0, rfl⟩
      · simp only [step, Inv, given, taken, out, Bool.not_false, if_true, hc, decide_false, Bool.and_self, Bool.not_true,
          Bool.and_false, Bool.false_eq_true, if_false, List.append_nil, dec]
        have h5 : (c + 15) % 16 = c - 1 := by omega
        rw [h5]
        refine ⟨Or.inl h0, by omega, by omega, h3, ?_⟩
        rw [show 8 - (c - 1) = (8 - c) + 1 by omega, List.replicate_succ' (n := 8 - c)]
        simp only [List.append_assoc]
    · simp only [step, Inv, given, taken, out]
      simp [h0, h1, h2, h3]
  case doneNormal =>
    obtain ⟨h1, n, rfl⟩ := h
    cases b
    · simp only [step, Inv, given, taken, out, Bool.not_false, Bool.and_self, if_true, Bool.not_true,
        Bool.and_false, Bool.false_eq_true, if_false, List.append_nil]
      refine ⟨h1, n + 1, ?_⟩
      rw [List.replicate_succ' (n := n + 1)]; simp
    · simp only [step, Inv, given, taken, out]
      simp [h1]
  case doneForce =>
    obtain ⟨h0, h1, n, rfl⟩ := h
    cases b
    · simp only [step, Inv, given, taken, out, Bool.not_false, Bool.and_self, if_true, Bool.not_true,
        Bool.and_false, Bool.false_eq_true, if_false, List.append_nil]
      refine ⟨Or.inl h0, h1, n + 1, ?_⟩
      rw [List.replicate_succ' (n := n + 1)]; simp
    · simp only [step, Inv, given, taken, out]
      simp [h0, h1]

end Markers
end Model
