/-
Property theorems C25-C27: frame markers and forced end.
-/
import Verif.Proof.Markers

set_option autoImplicit false

namespace Props
open Spec Model

/-! ### C25 markers -/

def runMark : Markers → List MarkIn → Markers
  | s, [] => s
  | s, i :: r => runMark (s.step i) r

/-- Words taken: `valid_in` and not `o_busy`. -/
def markTaken : Markers → List MarkIn → List (Nat × Bool)
  | _, [] => []
  | s, i :: r => (if i.valid && !(s.out i).oBusy then [(i.data, i.endd)] else []) ++ markTaken (s.step i) r

/-- Words given: `valid_out` and not `i_busy`. -/
def markGiven : Markers → List MarkIn → List (Nat × Bool)
  | _, [] => []
  | s, i :: r => (if (s.out i).valid && !i.busy then [((s.out i).data, (s.out i).endd)] else []) ++
      markGiven (s.step i) r

/-- The producer offers no end-flagged word before a first word was taken (a frame has at least
two words). -/
def TwoWords (s : Markers) (ins : List MarkIn) : Prop :=
  ∀ pre i post, ins = pre ++ i :: post → markTaken s pre = [] → i.valid = true → i.endd = false

theorem markTaken_append (a b : List MarkIn) :
    ∀ s, markTaken s (a ++ b) = markTaken s a ++ markTaken (runMark s a) b := by
  induction a with
  | nil => intro s; rfl
  | cons i a ih => intro s; simp [markTaken, runMark, ih]

theorem mark_run (ins : List MarkIn) : ∀ {s : Markers} {sent got : List (Nat × Bool)} {forced : Prop},
    s.Inv sent got forced →
    (∀ pre i post, ins = pre ++ i :: post → got ++ markTaken s pre = [] → i.valid = true → i.endd = false) →
    (runMark s ins).Inv (sent ++ markGiven s ins) (got ++ markTaken s ins)
      (forced ∨ ∃ i ∈ ins, i.force = true) := by
  induction ins with
  | nil => intro s sent got forced h _; simpa [markGiven, markTaken, runMark] using h
  | cons i r ih =>
    intro s sent got forced h hp
    have h1 := Markers.step_ok h i (fun hg => hp [] i r rfl (by simp [markTaken, hg]))
    have h2 := ih h1 (by
      intro pre j post he hg
      apply hp (i :: pre) j post (by rw [he]; rfl)
      simpa [markTaken, Markers.taken, List.append_assoc] using hg)
    simp only [markGiven, markTaken, runMark, ← List.append_assoc]
    refine Markers.inv_mono ?_ h2
    rintro ((h | h) | ⟨j, hj, h⟩)
    · exact Or.inl h
    · exact Or.inr ⟨i, by simp, h⟩
    · exact Or.inr ⟨j, by simp [hj], h⟩

/-- The marked frame around the data words `ws`, with `k` words of the trailing marker `m`. -/
def marked (m : Nat) (ws : List (Nat × Bool)) (k : Nat) : List (Nat × Bool) :=
  List.replicate 8 (0xFFFF, false) ++ ws.map (fun w => (w.1, false)) ++
    List.replicate (min k 7) (m, false) ++ List.replicate (k - 7) (m, true)

theorem noEnd_replicate {k m : Nat} : ∀ x ∈ List.replicate k (m, false), x.2 = false := by
  intro x hx; rw [List.eq_of_mem_replicate hx]

/-- C25: at every moment of every schedule in which the end flag is not on the very first word,
the words given are one of: at most eight FFFF; eight FFFF and all the words taken; the same
followed by some of the trailing marker, which is FFFF after an end-flagged word was taken, and
FFFE if no end-flagged word was taken but the forced end was raised.  The eighth word of the trailing
marker is the first end-flagged word, and only it is given from then on. -/
theorem C25_markers (ins : List MarkIn) (h : TwoWords .init ins) :
    (markTaken .init ins = [] ∧ ∃ k, k ≤ 8 ∧ markGiven .init ins = List.replicate k (0xFFFF, false)) ∨
    markGiven .init ins = marked 0 (markTaken .init ins) 0 ∨
    (∃ k g w, markGiven .init ins = marked 0xFFFF (markTaken .init ins) k ∧
      markTaken .init ins = g ++ [(w, true)] ∧ ∀ x ∈ g, x.2 = false) ∨
    (∃ k, markGiven .init ins = marked 0xFFFE (markTaken .init ins) k ∧ (∃ i ∈ ins, i.force = true) ∧
      ∀ x ∈ markTaken .init ins, x.2 = false) := by
  have h1 := mark_run ins (Markers.inv_init False) (by simpa [TwoWords] using h)
  simp only [List.nil_append, false_or] at h1
  generalize markGiven .init ins = sent at *
  generalize markTaken .init ins = got at *
  unfold Markers.Inv at h1
  have hm : ∀ m k, k ≤ 7 → List.replicate 8 (0xFFFF, false) ++ Markers.plain got ++ List.replicate k (m, false) =
      marked m got k := by
    intro m k hk
    rw [marked, Nat.min_eq_left hk, show k - 7 = 0 by omega]; simp [Markers.plain]
  have hm' : ∀ m n, List.replicate 8 (0xFFFF, false) ++ Markers.plain got ++ List.replicate 7 (m, false) ++
      List.replicate (n + 1) (m, true) = marked m got (n + 8) := by
    intro m n
    rw [marked, Nat.min_eq_right (by omega), show n + 8 - 7 = n + 1 by omega]; rfl
  split at h1
  · left; exact ⟨h1.2, 0, by omega, h1.1⟩
  · left; exact ⟨h1.1, 8 - (runMark .init ins).counter, by omega, h1.2.2.2⟩
  · right; left
    rw [h1.2.1, ← hm 0 0 (by omega)]; simp
  · obtain ⟨h2, h3, ⟨g, w, h4, h5⟩, h6⟩ := h1
    right; right; left
    exact ⟨_, g, w, h6.trans (hm _ _ (by omega)), h4, h5⟩
  · obtain ⟨h0, h2, h3, h4, h6⟩ := h1
    right; right; right
    exact ⟨_, h6.trans (hm _ _ (by omega)), h0, h4⟩
  · obtain ⟨⟨g, w, h4, h5⟩, n, h6⟩ := h1
    right; right; left
    exact ⟨_, g, w, h6.trans (hm' _ _), h4, h5⟩
  · obtain ⟨h0, h4, n, h6⟩ := h1
    right; right; right
    exact ⟨_, h6.trans (hm' _ _), h0, h4⟩

theorem upToEnd_marked (m : Nat) (ws : List (Nat × Bool)) (k : Nat) (hk : 8 ≤ k) :
    upToEnd (marked m ws k) = marked m ws 8 := by
  obtain ⟨n, rfl⟩ : ∃ n, k = n + 8 := ⟨k - 8, by omega⟩
  have hpos : ∀ x ∈ List.replicate 8 (0xFFFF, false) ++ ws.map (fun w => (w.1, false)) ++
      List.replicate 7 (m, false), (!x.2) = true := by
    intro x hx
    simp only [List.mem_append, List.mem_map] at hx
    rcases hx with (hx | ⟨w, _, rfl⟩) | hx
    · rw [List.eq_of_mem_replicate hx]; rfl
    · rfl
    · rw [List.eq_of_mem_replicate hx]; rfl
  unfold upToEnd beforeEnd marked
  rw [Nat.min_eq_right (by omega), Nat.min_eq_right (by omega), show n + 8 - 7 = n + 1 by omega,
    List.takeWhile_append_of_pos hpos, List.dropWhile_append_of_pos hpos]
  simp [List.replicate_succ]

theorem mem_marked_true {m : Nat} {ws : List (Nat × Bool)} {k w : Nat} (h : (w, true) ∈ marked m ws k) : 8 ≤ k := by
  apply Nat.le_of_not_lt
  intro hk
  rw [marked, show k - 7 = 0 by omega] at h
  simp at h

/-- C25 at the end: when an end-flagged word is given and the forced end was never raised, the
words given up to the first end-flagged one are eight FFFF, the words taken, eight FFFF, and the
words taken are a whole frame: end-flagged exactly on the last one. -/
theorem C25_whole_frame (ins : List MarkIn) (h : TwoWords .init ins) (hf : ∀ i ∈ ins, i.force = false)
    (w : Nat) (hw : (w, true) ∈ markGiven .init ins) :
    upToEnd (markGiven .init ins) = List.replicate 8 (0xFFFF, false) ++
      (markTaken .init ins).map (fun w => (w.1, false)) ++ List.replicate 7 (0xFFFF, false) ++ [(0xFFFF, true)] ∧
    ∃ g w, markTaken .init ins = g ++ [(w, true)] ∧ ∀ x ∈ g, x.2 = false := by
  rcases C25_markers ins h with ⟨_, k, _, h1⟩ | h1 | ⟨k, g, w', h1, h2⟩ | ⟨k, _, ⟨i, hi, h2⟩, _⟩
  · rw [h1] at hw; simp at hw
  · rw [h1] at hw; exact absurd (mem_marked_true hw) (by omega)
  · refine ⟨?_, g, w', h2⟩
    rw [h1] at hw ⊢
    rw [upToEnd_marked _ _ _ (mem_marked_true hw)]; rfl
  · rw [hf i hi] at h2; cases h2

/-- Non-vacuity: a two-word frame with stalls. -/
def markIns : List MarkIn :=
  [⟨0x1234, true, false, false, false⟩] ++ List.replicate 5 ⟨0x1234, true, false, false, false⟩ ++
  List.replicate 2 ⟨0x1234, true, false, false, true⟩ ++ List.replicate 5 ⟨0x1234, true, false, false, false⟩ ++
  List.replicate 10 ⟨0xFF00, true, true, false, false⟩

example : TwoWords .init markIns := by
  intro pre i post he ht hv
  have : ∀ n, n < 23 → markTaken .init (markIns.take n) = [] →
      ((markIns.drop n).headD ⟨0, false, false, false, false⟩).endd = false := by decide
  have hl : pre.length < 23 := by
    have := congrArg List.length he
    simp [markIns] at this; omega
  have h1 := this pre.length hl (by rw [he]; simpa using ht)
  rw [he] at h1
  simpa using h1

example : markGiven .init markIns = List.replicate 8 (0xFFFF, false) ++
    [(0x1234, false), (0xFF00, false)] ++ List.replicate 7 (0xFFFF, false) ++ [(0xFFFF, true)] := by decide

/-- C25, the hypothesis is needed: an end flag on the first and only word makes the stage drop it. -/
theorem C25_single_word_lost : ∃ ins : List MarkIn, (∀ i ∈ ins, i.data = 0x1234 ∧ i.valid = true ∧ i.endd = true ∧
      i.force = false ∧ i.busy = false) ∧
    markTaken .init ins = [] ∧ (0xFFFF, true) ∈ markGiven .init ins ∧ (0x1234, false) ∉ markGiven .init ins := by
  refine ⟨List.replicate 30 ⟨0x1234, true, true, false, false⟩, ?_, ?_⟩
  · intro i hi
    rw [List.eq_of_mem_replicate hi]; decide
  · decide

/-! ### C26 -/

/-- C26: after eight start markers the stage presents a valid FFFF word to a busy consumer and
withdraws it when the consumer becomes ready: `valid_out` depends on `i_busy`, and a word
presented (and not taken) is not presented in the next cycle. -/
theorem C26_valid_depends_on_busy : ∃ (ins : List MarkIn) (i j : MarkIn),
    TwoWords .init (ins ++ [i, j]) ∧ i = { j with busy := true } ∧ j.busy = false ∧
    let s := runMark .init ins
    (s.out i).valid = true ∧ (s.out j).valid = false ∧ ((s.step i).out j).valid = false := by
  refine ⟨List.replicate 9 ⟨0x1234, true, false, false, false⟩, ⟨0x1234, true, false, false, true⟩,
    ⟨0x1234, true, false, false, false⟩, ?_, rfl, rfl, by decide⟩
  intro pre i post he _ _
  have hm : i ∈ List.replicate 9 (⟨0x1234, true, false, false, false⟩ : MarkIn) ++
      [⟨0x1234, true, false, false, true⟩, ⟨0x1234, true, false, false, false⟩] := by rw [he]; simp
  simp only [List.mem_append, List.mem_replicate, List.mem_cons, List.not_mem_nil, or_false] at hm
  rcases hm with ⟨_, rfl⟩ | rfl | rfl <;> rfl

/-- C26: the same for the end flag: on the eighth trailing marker `end_out` follows the
consumer's ready signal. -/
theorem C26_end_depends_on_busy (s : Markers) (h : s.fsm = .endMarker) (hc : s.counter = 1) (i : MarkIn) :
    (s.out i).valid = true ∧ (s.out i).endd = !i.busy := by
  simp [Markers.out, h, hc]

/-! ### C27 -/

def runForce (allowed : Nat) : ForceEnd → List Bool → ForceEnd
  | s, [] => s
  | s, v :: r => runForce allowed (s.step allowed v) r

theorem force_fin (allowed : Nat) (l : List Bool) : ∀ s : ForceEnd, s.fsm = .fin → s.fend = false →
    (runForce allowed s l).fend = decide (0 < l.length) := by
  have h2 : ∀ (l : List Bool) (s : ForceEnd), s.fsm = .fin → s.fend = true → (runForce allowed s l).fend = true := by
    intro l
    induction l with
    | nil => intro s _ h; exact h
    | cons v l ih =>
      intro s h1 h2
      exact ih _ (by simp [ForceEnd.step, h1]) (by simp [ForceEnd.step, h1])
  intro s h1 hf
  cases l with
  | nil => exact hf
  | cons v l =>
    simp only [runForce]
    rw [h2 l _ (by simp [ForceEnd.step, h1]) (by simp [ForceEnd.step, h1])]
    simp

theorem force_counting (allowed : Nat) (ha : allowed < 2 ^ 24) (l : List Bool) : ∀ s : ForceEnd,
    s.fsm = .counting → s.fend = false → s.counter ≤ allowed →
    (runForce allowed s l).fend = decide (allowed - s.counter + 1 < l.length) := by
  induction l with
  | nil => intro s _ h _; simpa [runForce] using h
  | cons v l ih =>
    intro s h1 h2 h3
    simp only [runForce, List.length_cons]
    by_cases hc : s.counter = allowed
    · rw [force_fin allowed l _ (by simp [ForceEnd.step, h1, hc]) (by simp [ForceEnd.step, h1, h2])]
      congr 1
      apply propext
      omega
    · have hn : (s.step allowed v).counter = s.counter + 1 := by
        simp only [ForceEnd.step, h1]
        exact Nat.mod_eq_of_lt (by omega)
      rw [ih _ (by simp [ForceEnd.step, h1, hc]) (by simp [ForceEnd.step, h1, h2]) (by rw [hn]; omega), hn]
      congr 1
      apply propext
      omega

/-- C27: with the first valid input in cycle `n`, `force_end` is high in cycle `t` exactly when
`t ≥ n + allowed_cycles + 3`, whatever follows the first valid input. -/
theorem C27_fires_exactly (allowed : Nat) (ha : allowed < 2 ^ 24) (n : Nat) (rest : List Bool) (t : Nat)
    (ht : t ≤ n + 1 + rest.length) :
    (runForce allowed .init ((List.replicate n false ++ true :: rest).take t)).fend =
      decide (n + allowed + 3 ≤ t) := by
  have hidle : ∀ n l, runForce allowed .init (List.replicate n false ++ l) = runForce allowed .init l := by
    intro n l
    induction n with
    | zero => rfl
    | succ n ih => rw [List.replicate_succ, List.cons_append]; exact ih
  rw [List.take_append]
  by_cases h : t ≤ n
  · rw [List.length_replicate, show t - n = 0 by omega, List.take_zero, List.take_replicate, hidle]
    simp [runForce, ForceEnd.init]; omega
  · obtain ⟨k, rfl⟩ : ∃ k, t = n + 1 + k := ⟨t - n - 1, by omega⟩
    rw [List.take_of_length_le (by simp; omega), List.length_replicate, show n + 1 + k - n = k + 1 by omega,
      List.take_succ_cons, hidle]
    simp only [runForce]
    rw [force_counting allowed ha _ _ (by simp [ForceEnd.step, ForceEnd.init]) (by simp [ForceEnd.step, ForceEnd.init])
      (by simp [ForceEnd.step, ForceEnd.init])]
    congr 1
    apply propext
    simp only [ForceEnd.step, ForceEnd.init, List.length_take, if_true]
    omega

/-- C27: without a valid input it is never raised. -/
theorem C27_never_without_input (allowed n : Nat) : (runForce allowed .init (List.replicate n false)).fend = false := by
  have : ∀ n, runForce allowed .init (List.replicate n false) = .init := by
    intro n
    induction n with
    | zero => rfl
    | succ n ih => rw [List.replicate_succ]; exact ih
  rw [this]; rfl

/-- C27: once raised it stays (until reset). -/
theorem C27_stays (allowed : Nat) (s : ForceEnd) (v : Bool) (h : s.fend = true) :
    (s.step allowed v).fend = true := by
  simp only [ForceEnd.step]
  split
  · split <;> simp [h]
  · simp [h]
  · rfl

example : (runForce 4 .init ([false, true, false, false, true, false, false, false])).fend = true := by decide
example : (runForce 4 .init ([false, true, false, false, true, false, false])).fend = false := by decide

end Props
