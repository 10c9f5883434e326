/- Byte stuffing and the two stuffing stages. -/
import Verif.Spec.Bytes
import Verif.Model.Fix0xFF2

set_option autoImplicit false

namespace Spec

theorem unstuff_stuff_append (l rest : List Nat) :
    unstuff (stuff l ++ rest) = l ++ unstuff rest := by
  induction l with
  | nil => rfl
  | cons b l ih =>
    unfold stuff
    split
    · rename_i hb
      subst hb
      simp only [List.cons_append, unstuff, if_true, ih]
    · rename_i hb
      simp only [List.cons_append]
      cases hs : stuff l ++ rest with
      | nil =>
        rw [hs] at ih
        simp only [unstuff] at ih ⊢
        rw [← ih]
      | cons z t =>
        rw [hs] at ih
        simp only [unstuff, if_neg hb, ih]

theorem unstuff_stuff (l : List Nat) : unstuff (stuff l) = l := by
  have := unstuff_stuff_append l []
  simpa [unstuff] using this

theorem stuff_append (a b : List Nat) : stuff (a ++ b) = stuff a ++ stuff b := by
  induction a with
  | nil => rfl
  | cons x a ih =>
    simp only [List.cons_append, stuff, ih]
    split <;> rfl

theorem markerFree_stuff (l : List Nat) : MarkerFree (stuff l) := by
  induction l with
  | nil => trivial
  | cons b l ih =>
    unfold stuff
    split
    · exact ⟨fun _ => ⟨_, rfl⟩, by simp, ih⟩
    · rename_i hb
      exact ⟨fun h => absurd h hb, ih⟩

end Spec

namespace Model
open Spec

/-- Bytes of a packet. -/
def Packet.bytes (p : Packet) : List Nat := bytesOf p.ctr p.data

theorem slice_8_16 (n : Nat) : slice n 8 16 = n / 256 % 256 := rfl

/-- The packet of a 16-bit word holds its stuffed bytes. -/
theorem fixLogic_bytes (n : Nat) :
    bytesOf (fixLogic n).2 (fixLogic n).1 = stuff (bytesOf 2 n) := by
  have e0 : slice n 0 16 = n % 65536 := by simp [slice]
  have e1 : slice n 0 8 = n % 256 := by simp [slice]
  have e2 : slice n 8 16 = n / 256 % 256 := rfl
  unfold fixLogic
  rw [e0, e1, e2]
  simp only [bytesOf, stuff, Nat.pow_zero, Nat.pow_one, Nat.div_one]
  by_cases h1 : n % 65536 = 65535
  · have h2 : n / 256 % 256 = 255 := by omega
    have h3 : n % 256 = 255 := by omega
    simp [h1, h2, h3, bytesOf]
  · by_cases h2 : n % 256 = 255
    · have h3 : ¬ n / 256 % 256 = 255 := by omega
      simp only [h1, h2, h3, if_true, if_false, bytesOf, Nat.pow_one, Nat.div_one, Nat.pow_zero]
      refine List.cons_eq_cons.2 ⟨by omega, List.cons_eq_cons.2 ⟨by omega, List.cons_eq_cons.2 ⟨by omega, rfl⟩⟩⟩
    · by_cases h3 : n / 256 % 256 = 255
      · simp only [h1, h2, h3, if_true, if_false, bytesOf, Nat.pow_one, Nat.div_one, Nat.pow_zero]
        refine List.cons_eq_cons.2 ⟨by omega, List.cons_eq_cons.2 ⟨by omega, List.cons_eq_cons.2 ⟨by omega, rfl⟩⟩⟩
      · simp only [h1, h2, h3, if_false, bytesOf, Nat.pow_one, Nat.div_one, Nat.pow_zero]

theorem fixLogic_ctr (n : Nat) : 2 ≤ (fixLogic n).2 ∧ (fixLogic n).2 ≤ 4 := by
  unfold fixLogic
  split
  · simp
  · split
    · simp
    · split <;> simp

namespace Fix1

/-- The packets inside, oldest first. -/
def queue (s : Fix1) : List Packet :=
  (if s.valid then [s.out] else []) ++ if s.regValid then [⟨s.regData, s.regCtr, s.regEnd⟩] else []

/-- Handshake invariant. -/
structure Inv (s : Fix1) : Prop where
  busy : s.oBusy = s.regValid
  reg : s.regValid = true → s.valid = true

theorem inv_init : Inv init := ⟨rfl, by simp [init]⟩

/-- One edge: a FIFO of at most two packets. -/
theorem step_ok {s : Fix1} (h : s.Inv) (din : Nat) (v e b : Bool) :
    (s.step din v e b).Inv ∧
    (if s.valid && !b then [s.out] else []) ++ (s.step din v e b).queue =
      s.queue ++ if v && !s.oBusy then [⟨(fixLogic din).1, (fixLogic din).2, e⟩] else [] := by
  obtain ⟨d, c, va, en, ob, rd, rc, re, rv⟩ := s
  obtain ⟨h1, h2⟩ := h
  simp only at h1 h2
  subst h1
  cases ob <;> cases va <;> cases v <;> cases b <;> simp at h2 <;>
    simp [step, main, queue, out] <;> constructor <;> simp

/-- A presented packet that is not taken is presented again. -/
theorem stable {s : Fix1} (h : s.Inv) (hv : s.valid = true) (din : Nat) (v e : Bool) :
    (s.step din v e true).valid = true ∧ (s.step din v e true).out = s.out := by
  obtain ⟨d, c, va, en, ob, rd, rc, re, rv⟩ := s
  simp only at hv
  subst hv
  cases ob <;> cases v <;> simp [step, main, out]

end Fix1

namespace Fix2

/-- What absorbing a packet into a buffer of `count` bytes gives: the word put out, the new
buffer and its count. -/
def absorb (count buffer : Nat) (p : Packet) : Nat × Nat × Nat :=
  if count = 0 then
    if p.ctr = 2 then (slice p.data 0 16, buffer, 0)
    else if p.ctr = 3 then (slice p.data 8 24, slice p.data 0 8, 1)
    else (slice p.data 16 32, slice p.data 0 16, 2)
  else
    if p.ctr = 2 then (slice p.data 8 16 + 2 ^ 8 * slice buffer 0 8, slice p.data 0 8, 1)
    else if p.ctr = 3 then (slice p.data 16 24 + 2 ^ 8 * slice buffer 0 8, slice p.data 0 16, 2)
    else (slice p.data 24 32 + 2 ^ 8 * slice buffer 0 8, slice p.data 0 24, 3)

theorem absorb_bytes {count buffer : Nat} {p : Packet} (hc : count ≤ 1) (h2 : 2 ≤ p.ctr) (h4 : p.ctr ≤ 4) :
    bytesOf 2 (absorb count buffer p).1 ++ bytesOf (absorb count buffer p).2.2 (absorb count buffer p).2.1 =
      bytesOf count buffer ++ p.bytes := by
  obtain ⟨d, c, e⟩ := p
  simp only at h2 h4
  have hc' : c = 2 ∨ c = 3 ∨ c = 4 := by omega
  have hk : count = 0 ∨ count = 1 := by omega
  rcases hk with rfl | rfl <;> rcases hc' with rfl | rfl | rfl <;>
    simp [absorb, Packet.bytes, bytesOf, slice] <;> omega

theorem absorb_count {count buffer : Nat} {p : Packet} (hc : count ≤ 1) :
    (absorb count buffer p).2.2 ≤ 3 := by
  unfold absorb; split <;> split <;> (try split) <;> simp

theorem absorb_zero {count buffer : Nat} {p : Packet} (h2 : 2 ≤ p.ctr) (h4 : p.ctr ≤ 4) (hc : count ≤ 1) :
    (absorb count buffer p).2.2 = 0 ↔ count = 0 ∧ p.ctr = 2 := by
  have hk : count = 0 ∨ count = 1 := by omega
  have hc' : p.ctr = 2 ∨ p.ctr = 3 ∨ p.ctr = 4 := by omega
  rcases hk with rfl | rfl <;> rcases hc' with h | h | h <;> simp [absorb, h]

theorem normalLogic_false (s r : Fix2) (p : Packet) (t : Bool) : normalLogic s r p false t = r := rfl

/-- Bytes of packets. -/
def packetBytes (l : List Packet) : List Nat := l.flatMap Packet.bytes

theorem packetBytes_append (a b : List Packet) : packetBytes (a ++ b) = packetBytes a ++ packetBytes b := by
  simp [packetBytes]

theorem wordBytes_append (a b : List (Nat × Bool)) : wordBytes (a ++ b) = wordBytes a ++ wordBytes b := by
  simp [wordBytes]

/-- The words inside, oldest first. -/
def queue (s : Fix2) : List (Nat × Bool) :=
  match s.fsm with
  | .fin => [(s.data, s.endd)]
  | _ => (if s.valid then [(s.data, s.endd)] else []) ++ if s.regValid then [(s.regData, s.regEnd)] else []

/-- Before the end-flagged packet is received. -/
structure Run (s : Fix2) (sent : List (Nat × Bool)) (got : List Packet) : Prop where
  fsm : (s.fsm = .normal ∧ s.oBusy = s.regValid ∧ s.count ≤ 1) ∨
    (s.fsm = .clean ∧ s.oBusy = true ∧ s.valid = true ∧ 2 ≤ s.count ∧ s.count ≤ 3)
  endReg : s.endReg = false
  reg : s.regValid = true → s.valid = true
  endd : s.endd = false
  regEnd : s.regEnd = false
  sentOk : ∀ w ∈ sent, w.2 = false
  gotOk : ∀ p ∈ got, p.endd = false
  stream : wordBytes (sent ++ s.queue) ++ bytesOf s.count s.buffer = packetBytes got

/-- The packets of the frame: nothing before the last one is end-flagged. -/
def Frame (g : List Packet) : Prop := ∃ l x, g = l ++ [x] ∧ x.endd = true ∧ ∀ p ∈ l, p.endd = false

/-- The end-flagged packet is in, its bytes are not all out. -/
structure Ending (s : Fix2) (sent : List (Nat × Bool)) (g : List Packet) : Prop where
  fsm : s.fsm = .clean
  busy : s.oBusy = true
  endReg : s.endReg = true
  valid : s.valid = true
  count : 1 ≤ s.count ∧ s.count ≤ 3
  endd : s.endd = false
  regEnd : s.regEnd = false
  sentOk : ∀ w ∈ sent, w.2 = false
  stream : wordBytes (sent ++ s.queue) ++ bytesOf s.count s.buffer = packetBytes g

/-- The end-flagged word is among the words inside. -/
structure Final (s : Fix2) (sent : List (Nat × Bool)) (g : List Packet) : Prop where
  fsm : s.fsm = .preEnd ∨ s.fsm = .fin
  valid : s.valid = true
  reg : s.fsm = .preEnd → s.regValid = true → s.regEnd = true ∧ s.endd = false
  words : ∃ pre n d k, sent ++ s.queue = pre ++ List.replicate (n + 1) (d, true) ∧
    (s.queue).getLast? = some (d, true) ∧ (∀ w ∈ pre, w.2 = false) ∧ k ≤ 1 ∧
    wordBytes pre ++ bytesOf 2 d = packetBytes g ++ List.replicate k 0

/-- Invariant of the second stuffing stage. -/
def Inv (s : Fix2) (sent : List (Nat × Bool)) (got : List Packet) : Prop :=
  Run s sent got ∨ ∃ g extra, got = g ++ extra ∧ Frame g ∧ (Ending s sent g ∨ Final s sent g)

theorem inv_init : Inv init [] [] :=
  Or.inl ⟨Or.inl ⟨rfl, rfl, by simp [init]⟩, rfl, by simp [init], rfl, rfl, by simp, by simp,
    by simp [init, queue, wordBytes, bytesOf, packetBytes]⟩

/-- Words transferred in a cycle. -/
def transfer (s : Fix2) (b : Bool) : List (Nat × Bool) := if s.valid && !b then [(s.data, s.endd)] else []

theorem final_step {s : Fix2} {sent : List (Nat × Bool)} {g : List Packet} (h : Final s sent g)
    (p : Packet) (v b : Bool) : Final (s.step p v b) (sent ++ s.transfer b) g := by
  obtain ⟨f, da, va, en, ob, bu, co, rd, re, rv, er⟩ := s
  obtain ⟨hf, hv, hr, pre, n, d, k, h1, h2, h3, h4, h5⟩ := h
  simp only at hf hv hr
  subst hv
  rcases hf with rfl | rfl
  · -- PRE_END
    cases rv with
    | true =>
      obtain ⟨rfl, rfl⟩ := hr rfl rfl
      cases b with
      | true =>
        refine ⟨Or.inl rfl, rfl, fun _ _ => ⟨rfl, rfl⟩, pre, n, d, k, ?_, ?_, h3, h4, h5⟩
        · simpa [step, stepPreEnd, transfer] using h1
        · simpa [step, stepPreEnd] using h2
      | false =>
        refine ⟨Or.inr rfl, rfl, by simp [step, stepPreEnd], pre, n, d, k, ?_, ?_, h3, h4, h5⟩
        · simpa [step, stepPreEnd, transfer, queue] using h1
        · simpa [step, stepPreEnd, queue] using h2
    | false =>
      simp only [queue, if_true, Bool.false_eq_true, if_false, List.append_nil, List.getLast?_singleton,
        Option.some.injEq, Prod.mk.injEq] at h2
      obtain ⟨rfl, rfl⟩ := h2
      cases b with
      | true =>
        refine ⟨Or.inl rfl, rfl, by simp [step, stepPreEnd], pre, n, da, k, ?_, ?_, h3, h4, h5⟩
        · simpa [step, stepPreEnd, transfer] using h1
        · simp [step, stepPreEnd, queue]
      | false =>
        refine ⟨Or.inr rfl, rfl, by simp [step, stepPreEnd], pre, n + 1, da, k, ?_, ?_, h3, h4, h5⟩
        · simp only [queue, if_true, Bool.false_eq_true, if_false, List.append_nil] at h1
          simp [step, stepPreEnd, transfer, queue]
          rw [List.replicate_succ', ← List.append_assoc, ← h1]; simp
        · simp [step, stepPreEnd, queue]
  · -- END
    simp only [queue, List.getLast?_singleton, Option.some.injEq, Prod.mk.injEq] at h2
    obtain ⟨rfl, rfl⟩ := h2
    simp only [queue] at h1
    cases b with
    | true =>
      exact ⟨Or.inr rfl, rfl, by simp [step], pre, n, da, k, by simpa [step, transfer, queue] using h1,
        by simp [step, queue], h3, h4, h5⟩
    | false =>
      refine ⟨Or.inr rfl, rfl, by simp [step], pre, n + 1, da, k, ?_, by simp [step, queue], h3, h4, h5⟩
      simp [step, transfer, queue]
      rw [List.replicate_succ', ← List.append_assoc, ← h1]; simp

theorem ending_step {s : Fix2} {sent : List (Nat × Bool)} {g : List Packet} (h : Ending s sent g)
    (p : Packet) (v b : Bool) : Ending (s.step p v b) (sent ++ s.transfer b) g ∨
      Final (s.step p v b) (sent ++ s.transfer b) g := by
  obtain ⟨f, da, va, en, ob, bu, co, rd, re, rv, er⟩ := s
  obtain ⟨h1, h2, h3, h4, h5, h6, h7, h8, h9⟩ := h
  simp only at h1 h2 h3 h4 h5 h6 h7
  subst h1 h2 h3 h4 h6 h7
  cases b with
  | true =>
    exact Or.inl ⟨rfl, rfl, rfl, rfl, h5, rfl, rfl, by simpa [transfer] using h8,
      by simpa [step, stepClean, transfer] using h9⟩
  | false =>
    cases rv with
    | true =>
      left
      refine ⟨rfl, rfl, rfl, rfl, h5, rfl, rfl, ?_, ?_⟩
      · intro w hw
        simp only [transfer, Bool.not_false, Bool.and_self, if_true, List.mem_append, List.mem_singleton] at hw
        rcases hw with hw | hw
        · exact h8 w hw
        · rw [hw]
      · simpa [step, stepClean, transfer, queue] using h9
    | false =>
      simp only [queue, if_true, Bool.false_eq_true, if_false, List.append_nil] at h9
      have hs : ∀ w ∈ sent ++ [(da, false)], w.2 = false := by
        intro w hw
        simp only [List.mem_append, List.mem_singleton] at hw
        rcases hw with hw | hw
        · exact h8 w hw
        · rw [hw]
      have hk : co = 1 ∨ co = 2 ∨ co = 3 := by omega
      rcases hk with rfl | rfl | rfl
      · right
        refine ⟨Or.inr (by simp [step, stepClean, cleanLogic]), by simp [step, stepClean], by simp [step, stepClean, cleanLogic],
          sent ++ [(da, false)], 0, 2 ^ 8 * slice bu 0 8, 1, ?_, ?_, hs, Nat.le_refl _, ?_⟩
        · simp [step, stepClean, cleanLogic, transfer, queue]
        · simp [step, stepClean, cleanLogic, queue]
        · rw [← h9]
          simp [bytesOf, slice, wordBytes]
      · right
        refine ⟨Or.inr (by simp [step, stepClean, cleanLogic]), by simp [step, stepClean], by simp [step, stepClean, cleanLogic],
          sent ++ [(da, false)], 0, slice bu 0 16, 0, ?_, ?_, hs, Nat.zero_le _, ?_⟩
        · simp [step, stepClean, cleanLogic, transfer, queue]
        · simp [step, stepClean, cleanLogic, queue]
        · rw [← h9]
          simp [bytesOf, slice, wordBytes]
          omega
      · left
        refine ⟨by simp [step, stepClean, cleanLogic], by simp [step, stepClean, cleanLogic],
          by simp [step, stepClean, cleanLogic], by simp [step, stepClean], by simp [step, stepClean, cleanLogic],
          by simp [step, stepClean, cleanLogic], by simp [step, stepClean, cleanLogic], ?_, ?_⟩
        · simpa [transfer] using hs
        · rw [← h9]
          simp [step, stepClean, cleanLogic, transfer, queue, bytesOf, slice, wordBytes]
          omega

/-- CLEAN without a pending end. -/
theorem run_clean {s : Fix2} {sent : List (Nat × Bool)} {got : List Packet} (h : Run s sent got)
    (hf : s.fsm = .clean) (p : Packet) (v b : Bool) : Run (s.step p v b) (sent ++ s.transfer b) got := by
  obtain ⟨f, da, va, en, ob, bu, co, rd, re, rv, er⟩ := s
  obtain ⟨h1, h2, h3, h4, h5, h6, h7, h8⟩ := h
  simp only at hf h1 h2 h3 h4 h5
  subst hf h2 h4 h5
  simp only [reduceCtorEq, false_and, true_and, false_or] at h1
  obtain ⟨rfl, rfl, h2, h3'⟩ := h1
  have hs : ∀ w ∈ sent ++ [(da, false)], w.2 = false := by
    intro w hw
    simp only [List.mem_append, List.mem_singleton] at hw
    rcases hw with hw | hw
    · exact h6 w hw
    · rw [hw]
  cases b with
  | true =>
    exact ⟨Or.inr ⟨rfl, rfl, rfl, h2, h3'⟩, rfl, fun _ => rfl, rfl, rfl, by simpa [transfer] using h6, h7,
      by simpa [step, stepClean, transfer] using h8⟩
  | false =>
    cases rv with
    | true =>
      refine ⟨Or.inr ⟨rfl, rfl, rfl, h2, h3'⟩, rfl, fun _ => rfl, rfl, rfl, by simpa [transfer] using hs, h7, ?_⟩
      simpa [step, stepClean, transfer, queue] using h8
    | false =>
      have hk : co = 2 ∨ co = 3 := by omega
      simp only [queue, if_true, Bool.false_eq_true, if_false, List.append_nil] at h8
      rcases hk with rfl | rfl
      · refine ⟨Or.inl ⟨?_, ?_, ?_⟩, ?_, ?_, ?_, ?_, by simpa [transfer] using hs, h7, ?_⟩
        all_goals try simp [step, stepClean, cleanLogic]
        rw [← h8]
        simp [transfer, queue, bytesOf, slice, wordBytes]
        omega
      · refine ⟨Or.inl ⟨?_, ?_, ?_⟩, ?_, ?_, ?_, ?_, by simpa [transfer] using hs, h7, ?_⟩
        all_goals try simp [step, stepClean, cleanLogic]
        rw [← h8]
        simp [transfer, queue, bytesOf, slice, wordBytes]
        omega

theorem reassoc {a : List (Nat × Bool)} {x : Nat × Bool} {A B D E : List Nat}
    (h : wordBytes a ++ A = B) (h2 : bytesOf 2 x.1 ++ E = A ++ D) :
    wordBytes (a ++ [x]) ++ E = B ++ D := by
  rw [wordBytes_append, ← h, List.append_assoc, List.append_assoc, ← h2]
  simp [wordBytes]

/-- Accepting a packet in NORMAL. -/
theorem stepNormal_accept {da bu co rd : Nat} {va : Bool} {p : Packet} (b : Bool) (h1 : co ≤ 1)
    (h2 : 2 ≤ p.ctr) (h4 : p.ctr ≤ 4) {aw ab ac : Nat} (ha : absorb co bu p = (aw, ab, ac)) :
    step ⟨.normal, da, va, false, false, bu, co, rd, false, false, false⟩ p true b =
      { fsm := if p.endd && decide (ac = 0) then .preEnd
               else if decide (2 ≤ ac) || p.endd then .clean else .normal
        data := if b && va then da else aw
        valid := true
        endd := p.endd && decide (ac = 0) && !(b && va)
        oBusy := (decide (2 ≤ ac) || p.endd && decide (ac ≠ 0)) || (b && va)
        buffer := ab
        count := ac
        regData := aw
        regEnd := p.endd && decide (ac = 0)
        regValid := b && va
        endReg := p.endd && decide (ac ≠ 0) } := by
  obtain ⟨d, c, e⟩ := p
  simp only at h2 h4
  have hk : co = 0 ∨ co = 1 := by omega
  have hc' : c = 2 ∨ c = 3 ∨ c = 4 := by omega
  rcases hk with rfl | rfl <;> rcases hc' with rfl | rfl | rfl <;> simp [absorb] at ha <;>
    obtain ⟨rfl, rfl, rfl⟩ := ha <;> cases va <;> cases b <;> cases e <;>
    simp [step, stepNormal, normalLogic]

/-- NORMAL. -/
theorem run_normal {s : Fix2} {sent : List (Nat × Bool)} {got : List Packet} (h : Run s sent got)
    (hf : s.fsm = .normal) {p : Packet} {v : Bool} (b : Bool)
    (hp : v = true → 2 ≤ p.ctr ∧ p.ctr ≤ 4) :
    Inv (s.step p v b) (sent ++ s.transfer b) (got ++ if v && !s.oBusy then [p] else []) := by
  obtain ⟨f, da, va, en, ob, bu, co, rd, re, rv, er⟩ := s
  obtain ⟨h1, h2, h3, h4, h5, h6, h7, h8⟩ := h
  simp only at hf h1 h2 h3 h4 h5
  subst hf h2 h4 h5
  simp only [reduceCtorEq, false_and, true_and, or_false] at h1
  obtain ⟨rfl, h1⟩ := h1
  have hs : ∀ b, ∀ w ∈ sent ++ transfer ⟨.normal, da, va, false, ob, bu, co, rd, false, ob, false⟩ b, w.2 = false := by
    intro b w hw
    unfold transfer at hw
    split at hw
    · simp only [List.mem_append, List.mem_singleton] at hw
      rcases hw with hw | hw
      · exact h6 w hw
      · rw [hw]
    · simp only [List.append_nil] at hw
      exact h6 w hw
  cases v with
  | false =>
    left
    have hgot : got ++ (if false && !ob then [p] else []) = got := by simp
    rw [hgot]
    cases ob <;> cases va <;> cases b <;> simp at h3 <;>
      refine ⟨Or.inl ⟨?_, ?_, ?_⟩, ?_, ?_, ?_, ?_, hs _, h7, ?_⟩ <;>
      simp [step, stepNormal, normalLogic_false, h1] <;>
      simpa [transfer, queue] using h8
  | true =>
    obtain ⟨hp2, hp4⟩ := hp rfl
    cases ob with
    | true =>
      left
      have := h3 rfl
      subst this
      have hgot : got ++ (if true && !true then [p] else []) = got := by simp
      rw [hgot]
      cases b <;> refine ⟨Or.inl ⟨?_, ?_, ?_⟩, ?_, ?_, ?_, ?_, hs _, h7, ?_⟩ <;>
        simp [step, stepNormal, h1] <;>
        simpa [transfer, queue] using h8
    | false =>
      have hbytes := absorb_bytes (buffer := bu) h1 hp2 hp4
      have hcnt := absorb_count (buffer := bu) (p := p) h1
      have hgot : got ++ (if true && !false then [p] else []) = got ++ [p] := by simp
      rw [hgot]
      generalize ha : absorb co bu p = a at hbytes hcnt
      obtain ⟨aw, ab, ac⟩ := a
      simp only at hbytes hcnt
      have hpb : packetBytes (got ++ [p]) = packetBytes got ++ p.bytes := by simp [packetBytes]
      have key : ∀ fl, wordBytes ((sent ++ (if va then [(da, false)] else [])) ++ [(aw, fl)]) ++ bytesOf ac ab =
          packetBytes (got ++ [p]) := by
        intro fl
        rw [hpb]
        apply reassoc (A := bytesOf co bu) _ hbytes
        simpa [queue] using h8
      cases hpe : p.endd with
      | false =>
        left
        have h7' : ∀ q ∈ got ++ [p], q.endd = false := by
          intro q hq
          simp only [List.mem_append, List.mem_singleton] at hq
          rcases hq with hq | hq
          · exact h7 q hq
          · rw [hq, hpe]
        have key := key false
        by_cases hac : 2 ≤ ac
        · cases va <;> cases b <;>
            refine ⟨Or.inr ⟨?_, ?_, ?_, ?_, ?_⟩, ?_, ?_, ?_, ?_, hs _, h7', ?_⟩ <;>
            simp [stepNormal_accept _ h1 hp2 hp4 ha, hpe, hac, hcnt] <;>
            simpa [transfer, queue] using key
        · cases va <;> cases b <;>
            refine ⟨Or.inl ⟨?_, ?_, ?_⟩, ?_, ?_, ?_, ?_, hs _, h7', ?_⟩ <;>
            simp [stepNormal_accept _ h1 hp2 hp4 ha, hpe, hac] <;>
            first | omega | simpa [transfer, queue] using key
      | true =>
        right
        refine ⟨got ++ [p], [], by simp, ⟨got, p, rfl, hpe, h7⟩, ?_⟩
        by_cases hac : ac = 0
        · subst hac
          right
          have key := key true
          simp only [bytesOf, List.append_nil] at key
          have hk : wordBytes (sent ++ (if va then [(da, false)] else [])) ++ bytesOf 2 aw =
              packetBytes (got ++ [p]) ++ List.replicate 0 0 := by
            rw [← key, wordBytes_append]; simp [wordBytes]
          have hpre : ∀ w ∈ sent ++ (if va then [(da, false)] else []), w.2 = false := by
            intro w hw
            simp only [List.mem_append] at hw
            rcases hw with hw | hw
            · exact h6 w hw
            · split at hw
              · simp only [List.mem_singleton] at hw; rw [hw]
              · simp at hw
          cases va <;> cases b <;>
            refine ⟨Or.inl ?_, ?_, ?_, _, 0, aw, 0, ?_, ?_, hpre, Nat.zero_le _, hk⟩ <;>
            simp [stepNormal_accept _ h1 hp2 hp4 ha, hpe, transfer, queue]
        · left
          have key := key false
          cases va <;> cases b <;>
            refine ⟨?_, ?_, ?_, ?_, ⟨?_, ?_⟩, ?_, ?_, hs _, ?_⟩ <;>
            simp [stepNormal_accept _ h1 hp2 hp4 ha, hpe, hac, hcnt] <;>
            first | omega | simpa [transfer, queue] using key

/-- One edge of the second stuffing stage. -/
theorem step_ok {s : Fix2} {sent : List (Nat × Bool)} {got : List Packet} (h : Inv s sent got)
    {p : Packet} {v : Bool} (b : Bool) (hp : v = true → 2 ≤ p.ctr ∧ p.ctr ≤ 4) :
    Inv (s.step p v b) (sent ++ s.transfer b) (got ++ if v && !s.oBusy then [p] else []) := by
  rcases h with h | ⟨g, extra, h1, h2, h⟩
  · rcases h.fsm with hf | hf
    · exact run_normal h hf.1 b hp
    · left
      have := run_clean h hf.1 p v b
      rw [hf.2.1]
      simpa using this
  · right
    refine ⟨g, extra ++ if v && !s.oBusy then [p] else [], by rw [h1]; simp, h2, ?_⟩
    rcases h with h | h
    · exact ending_step h p v b
    · exact Or.inr (final_step h p v b)

/-- `normal_logic` towards the spare register leaves the outputs alone. -/
theorem normalLogic_toReg (s r : Fix2) (p : Packet) (v : Bool) :
    (normalLogic s r p v true).valid = r.valid ∧ (normalLogic s r p v true).data = r.data ∧
    (normalLogic s r p v true).endd = r.endd := by
  unfold normalLogic
  cases v with
  | false => simp
  | true =>
    simp only [if_true]
    repeat' split
    all_goals simp

/-- A presented word that is not taken is presented again. -/
theorem stable (s : Fix2) (hv : s.valid = true) (p : Packet) (v : Bool) :
    (s.step p v true).valid = true ∧ (s.step p v true).data = s.data ∧ (s.step p v true).endd = s.endd := by
  unfold step
  split
  · unfold stepNormal
    simp only [Bool.not_true, Bool.false_eq_true, if_false, hv]
    have h1 := fun r => (normalLogic_toReg s r p v).1
    have h2 := fun r => (normalLogic_toReg s r p v).2.1
    have h3 := fun r => (normalLogic_toReg s r p v).2.2
    cases ho : s.oBusy <;> cases v <;> simp [hv, h1, h2, h3]
  · simp [stepClean, hv]
  · simp [stepPreEnd, hv]
  · simp [hv]

end Fix2
end Model
