/-
Property theorems C22-C24: FF stuffing.
-/
import Verif.Proof.Stuff
import Verif.Proof.Core

set_option autoImplicit false

namespace Props
open Spec Model

/-! ### C22 first stage -/

/-- One cycle of input of the first stage. -/
structure Fix1In where
  word : Nat
  valid : Bool
  endd : Bool
  busy : Bool

def runFix1 : Fix1 → List Fix1In → Fix1
  | s, [] => s
  | s, i :: r => runFix1 (s.step i.word i.valid i.endd i.busy) r

/-- Words taken: valid and not `o_busy`. -/
def fix1Taken : Fix1 → List Fix1In → List (Nat × Bool)
  | _, [] => []
  | s, i :: r => (if i.valid && !s.oBusy then [(i.word, i.endd)] else []) ++
      fix1Taken (s.step i.word i.valid i.endd i.busy) r

/-- Packets transferred: `valid_out` and not `i_busy`. -/
def fix1Given : Fix1 → List Fix1In → List Packet
  | _, [] => []
  | s, i :: r => (if s.valid && !i.busy then [s.out] else []) ++
      fix1Given (s.step i.word i.valid i.endd i.busy) r

theorem fix1_run (ins : List Fix1In) : ∀ {s : Fix1}, s.Inv →
    (runFix1 s ins).Inv ∧
    fix1Given s ins ++ (runFix1 s ins).queue = s.queue ++
      (fix1Taken s ins).map fun w => ⟨(fixLogic w.1).1, (fixLogic w.1).2, w.2⟩ := by
  induction ins with
  | nil => intro s h; simpa [fix1Given, fix1Taken, runFix1] using h
  | cons i r ih =>
    intro s h
    obtain ⟨h1, h2⟩ := Fix1.step_ok h i.word i.valid i.endd i.busy
    obtain ⟨h3, h4⟩ := ih h1
    refine ⟨h3, ?_⟩
    simp only [fix1Given, fix1Taken, runFix1, List.map_append, List.append_assoc]
    rw [h4, ← List.append_assoc, h2, List.append_assoc]
    congr 2
    split <;> rfl

/-- C22: for every schedule, the packets transferred, followed by at most two still inside, are
one for one and in order the words taken: the packet of a word holds its two bytes (high byte
first) with a zero byte after each FF, and carries the word's end flag. -/
theorem C22_stuffs_every_word (ins : List Fix1In) :
    ∃ inside : List Packet, inside.length ≤ 2 ∧
      (fix1Given .init ins ++ inside).map (fun p => (bytesOf p.ctr p.data, p.endd)) =
        (fix1Taken .init ins).map fun w => (stuff (bytesOf 2 w.1), w.2) := by
  obtain ⟨_, h⟩ := fix1_run ins Fix1.inv_init
  refine ⟨(runFix1 .init ins).queue, ?_, ?_⟩
  · unfold Fix1.queue
    split <;> split <;> simp
  · rw [h]
    simp [Fix1.queue, Fix1.init, fixLogic_bytes]

/-- C22: the byte stream given so far is a prefix of the stuffed byte stream taken. -/
theorem C22_byte_stream (ins : List Fix1In) :
    (fix1Given .init ins).flatMap (fun p => bytesOf p.ctr p.data) <+:
      stuff (wordBytes (fix1Taken .init ins)) := by
  obtain ⟨_, h⟩ := fix1_run ins Fix1.inv_init
  have h2 : stuff (wordBytes (fix1Taken .init ins)) =
      (fix1Given .init ins ++ (runFix1 .init ins).queue).flatMap (fun p => bytesOf p.ctr p.data) := by
    rw [h]
    have hq : Fix1.init.queue = [] := rfl
    rw [hq]
    generalize fix1Taken .init ins = l
    induction l with
    | nil => rfl
    | cons w l ih =>
      simp only [wordBytes, List.flatMap_cons, List.map_cons, List.nil_append, stuff_append, fixLogic_bytes] at *
      rw [ih]
  rw [h2, List.flatMap_append]
  exact List.prefix_append _ _

/-- C20 for the first stuffing stage: a packet that is not taken is presented again. -/
theorem C20_fix1_stable (ins : List Fix1In) (w : Nat) (v e : Bool) :
    let s := runFix1 .init ins
    s.valid = true → (s.step w v e true).valid = true ∧ (s.step w v e true).out = s.out := by
  intro s hv
  exact Fix1.stable (fix1_run ins Fix1.inv_init).1 hv w v e

example : (fix1Given .init [⟨0x12FF, true, false, false⟩, ⟨0xFFFF, true, true, true⟩, ⟨0, false, false, true⟩,
    ⟨0, false, false, false⟩, ⟨0, false, false, false⟩]) = [⟨0x12FF00, 3, false⟩, ⟨0xFF00FF00, 4, true⟩] := by decide

/-! ### C23 second stage -/

/-- One cycle of input of the second stage. -/
structure Fix2In where
  packet : Packet
  valid : Bool
  busy : Bool

def runFix2 : Fix2 → List Fix2In → Fix2
  | s, [] => s
  | s, i :: r => runFix2 (s.step i.packet i.valid i.busy) r

def fix2Taken : Fix2 → List Fix2In → List Packet
  | _, [] => []
  | s, i :: r => (if i.valid && !s.oBusy then [i.packet] else []) ++
      fix2Taken (s.step i.packet i.valid i.busy) r

def fix2Given : Fix2 → List Fix2In → List (Nat × Bool)
  | _, [] => []
  | s, i :: r => (if s.valid && !i.busy then [(s.data, s.endd)] else []) ++
      fix2Given (s.step i.packet i.valid i.busy) r

/-- The packets of the frame: up to and including the first end-flagged one. -/
def framePackets (l : List Packet) : List Packet :=
  l.takeWhile (fun p => !p.endd) ++ (l.dropWhile fun p => !p.endd).take 1

/-- Bytes of packets, in order. -/
def bytesOfPackets (l : List Packet) : List Nat := l.flatMap fun p => bytesOf p.ctr p.data

theorem framePackets_frame {g extra : List Packet} (h : Fix2.Frame g) : framePackets (g ++ extra) = g := by
  obtain ⟨l, x, rfl, hx, hl⟩ := h
  unfold framePackets
  rw [List.append_assoc, List.takeWhile_append_of_pos (by intro a ha; simp [hl a ha]),
    List.dropWhile_append_of_pos (by intro a ha; simp [hl a ha])]
  simp [hx]

theorem framePackets_none {l : List Packet} (h : ∀ p ∈ l, p.endd = false) : framePackets l = l := by
  unfold framePackets
  have h1 := List.takeWhile_append_of_pos (l₁ := l) (l₂ := []) (p := fun p : Packet => !p.endd)
    (by intro a ha; simp [h a ha])
  have h2 := List.dropWhile_append_of_pos (l₁ := l) (l₂ := []) (p := fun p : Packet => !p.endd)
    (by intro a ha; simp [h a ha])
  simp only [List.append_nil] at h1 h2
  rw [h1, h2]; simp

theorem fix2_run (ins : List Fix2In) (hin : ∀ i ∈ ins, i.valid = true → 2 ≤ i.packet.ctr ∧ i.packet.ctr ≤ 4) :
    ∀ {s : Fix2} {sent : List (Nat × Bool)} {got : List Packet}, s.Inv sent got →
    (runFix2 s ins).Inv (sent ++ fix2Given s ins) (got ++ fix2Taken s ins) := by
  induction ins with
  | nil => intro s sent got h; simpa [runFix2, fix2Given, fix2Taken] using h
  | cons i r ih =>
    intro s sent got h
    have h1 := Fix2.step_ok h (p := i.packet) (v := i.valid) i.busy (hin i (by simp))
    have h2 := ih (fun j hj => hin j (by simp [hj])) h1
    simpa only [runFix2, fix2Given, fix2Taken, Fix2.transfer, List.append_assoc] using h2

/-- Stream facts from the invariant. -/
theorem fix2_facts {s : Fix2} {sent : List (Nat × Bool)} {got : List Packet} (h : s.Inv sent got) :
    wordBytes (beforeEnd sent) <+: bytesOfPackets (framePackets got) ∧
    (∀ w, (w, true) ∈ sent → (∃ p ∈ got, p.endd = true) ∧ ∃ k, k ≤ 1 ∧
      wordBytes (upToEnd sent) = bytesOfPackets (framePackets got) ++ List.replicate k 0 ∧
      ∃ n, sent = upToEnd sent ++ List.replicate n (w, true)) := by
  have hpb : ∀ l, bytesOfPackets l = Fix2.packetBytes l := fun l => rfl
  rcases h with h | ⟨g, extra, rfl, hg, h | h⟩
  · refine ⟨?_, ?_⟩
    · rw [Int3.beforeEnd_none h.sentOk, framePackets_none h.gotOk, hpb, ← h.stream, Fix2.wordBytes_append,
        List.append_assoc]
      exact List.prefix_append _ _
    · intro w hw; have := h.sentOk _ hw; simp at this
  · refine ⟨?_, ?_⟩
    · rw [Int3.beforeEnd_none h.sentOk, framePackets_frame hg, hpb, ← h.stream, Fix2.wordBytes_append,
        List.append_assoc]
      exact List.prefix_append _ _
    · intro w hw; have := h.sentOk _ hw; simp at this
  · obtain ⟨pre, n, d, k, h1, h2, h3, h4, h5⟩ := h.words
    rw [framePackets_frame hg, hpb]
    -- the queue's end flags
    have hq : ∃ q0 m, s.queue = q0 ++ List.replicate (m + 1) (d, true) ∧ (∀ w ∈ q0, w.2 = false) := by
      rcases h.fsm with hf | hf
      · cases hr : s.regValid with
        | true =>
          have h6 := h.reg hf hr
          simp only [Fix2.queue, hf, h.valid, hr, if_true, h6.1, h6.2, List.singleton_append,
            List.getLast?_cons_cons, List.getLast?_singleton, Option.some.injEq, Prod.mk.injEq] at h2
          refine ⟨[(s.data, false)], 0, ?_, by simp⟩
          simp [Fix2.queue, hf, h.valid, hr, h6.1, h6.2, h2]
        | false =>
          simp only [Fix2.queue, hf, h.valid, hr, if_true, Bool.false_eq_true, if_false, List.append_nil,
            List.getLast?_singleton, Option.some.injEq] at h2
          refine ⟨[], 0, ?_, by simp⟩
          simp [Fix2.queue, hf, h.valid, hr, h2]
      · simp only [Fix2.queue, hf, List.getLast?_singleton, Option.some.injEq] at h2
        refine ⟨[], 0, ?_, by simp⟩
        simp [Fix2.queue, hf, h2]
    obtain ⟨q0, m, hq1, hq2⟩ := hq
    -- either no end flag was sent, or sent = pre ++ replicate
    have hsent : (∀ w ∈ sent, w.2 = false) ∨ ∃ n', sent = pre ++ List.replicate (n' + 1) (d, true) := by
      rw [List.append_eq_append_iff] at h1
      rcases h1 with ⟨c, e1, e2⟩ | ⟨c, e1, e2⟩
      · left
        intro w hw
        exact h3 w (by rw [e1]; simp [hw])
      · have hc : ∀ w ∈ c, w = (d, true) := fun w hw =>
          List.eq_of_mem_replicate (e2 ▸ List.mem_append_left _ hw)
        have hc' := List.eq_replicate_of_mem hc
        cases hl : c.length with
        | zero =>
          left
          rw [List.length_eq_zero_iff.1 hl] at e1
          simp only [List.append_nil] at e1
          rw [e1]; exact h3
        | succ l =>
          right
          exact ⟨l, by rw [e1, hc', hl]⟩
    have hend : ∃ p ∈ g ++ extra, p.endd = true := by
      obtain ⟨l, x, rfl, hx, _⟩ := hg
      exact ⟨x, by simp, hx⟩
    have hpre_le : wordBytes pre <+: Fix2.packetBytes g := by
      have hl := congrArg List.length h5
      simp only [List.length_append, List.length_replicate] at hl
      have hb2 : (bytesOf 2 d).length = 2 := rfl
      have := congrArg (List.take (wordBytes pre).length) h5
      rw [List.take_left' rfl, List.take_append_of_le_length (by omega)] at this
      rw [this]
      exact List.take_prefix _ _
    rcases hsent with hs | ⟨n', hs⟩
    · refine ⟨?_, ?_⟩
      · rw [Int3.beforeEnd_none hs]
        have : sent <+: pre := by
          rw [List.append_eq_append_iff] at h1
          rcases h1 with ⟨c, e1, e2⟩ | ⟨c, e1, e2⟩
          · exact ⟨c, e1.symm⟩
          · have hc : c = [] := by
              cases c with
              | nil => rfl
              | cons w c =>
                exfalso
                have hw : w = (d, true) := List.eq_of_mem_replicate (n := n + 1) (e2 ▸ by simp)
                have := hs w (by rw [e1]; simp)
                rw [hw] at this; simp at this
            rw [e1, hc]; simp
        obtain ⟨t, ht⟩ := this
        refine List.IsPrefix.trans ?_ hpre_le
        rw [← ht, Fix2.wordBytes_append]
        exact List.prefix_append _ _
      · intro w hw; have := hs _ hw; simp at this
    · obtain ⟨u1, u2⟩ := Int3.upToEnd_pre (d := d) (n := n' + 1) h3
      refine ⟨by rw [hs, u1]; exact hpre_le, ?_⟩
      intro w hw
      refine ⟨hend, k, h4, ?_, n', ?_⟩
      · rw [hs, u2 (by omega), Fix2.wordBytes_append, ← h5]; simp [wordBytes]
      · have hwd : w = d := by
          rw [hs] at hw
          rcases List.mem_append.1 hw with hw | hw
          · have := h3 _ hw; simp at this
          · simpa using List.eq_of_mem_replicate hw
        rw [hs, u2 (by omega), hwd, List.append_assoc]
        simp [List.replicate_succ]

/-- C23, before the end: for every schedule and every sequence of packets of two to four bytes,
the bytes of the words given before the first end-flagged one are a prefix of the bytes of the
frame's packets taken. -/
theorem C23_repack_prefix (ins : List Fix2In)
    (hin : ∀ i ∈ ins, i.valid = true → 2 ≤ i.packet.ctr ∧ i.packet.ctr ≤ 4) :
    wordBytes (beforeEnd (fix2Given .init ins)) <+:
      bytesOfPackets (framePackets (fix2Taken .init ins)) := by
  have h := fix2_run ins hin Fix2.inv_init
  simp only [List.nil_append] at h
  exact (fix2_facts h).1

/-- C23, at the end: if an end-flagged word is given, an end-flagged packet was taken, the words
up to the first end-flagged one are exactly the bytes of the packets up to it plus at most one
zero byte, and afterwards the stage only repeats the last word. -/
theorem C23_repack_end (ins : List Fix2In)
    (hin : ∀ i ∈ ins, i.valid = true → 2 ≤ i.packet.ctr ∧ i.packet.ctr ≤ 4) (w : Nat)
    (hw : (w, true) ∈ fix2Given .init ins) :
    (∃ p ∈ fix2Taken .init ins, p.endd = true) ∧
    (∃ k, k ≤ 1 ∧ wordBytes (upToEnd (fix2Given .init ins)) =
      bytesOfPackets (framePackets (fix2Taken .init ins)) ++ List.replicate k 0) ∧
    ∃ n, fix2Given .init ins = upToEnd (fix2Given .init ins) ++ List.replicate n (w, true) := by
  have h := fix2_run ins hin Fix2.inv_init
  simp only [List.nil_append] at h
  obtain ⟨h1, k, h2, h3, h4⟩ := (fix2_facts h).2 w hw
  exact ⟨h1, ⟨k, h2, h3⟩, h4⟩

/-- C20 for the second stuffing stage. -/
theorem C20_fix2_stable (s : Fix2) (hv : s.valid = true) (p : Packet) (v : Bool) :
    (s.step p v true).valid = true ∧ (s.step p v true).data = s.data ∧ (s.step p v true).endd = s.endd :=
  Fix2.stable s hv p v

/-- Non-vacuity: packets of 3, 4 and 2 bytes, with a stall. -/
example : fix2Given .init ([⟨⟨0xAAFF00, 3, false⟩, true, false⟩, ⟨⟨0xFF00FF00, 4, false⟩, true, true⟩,
    ⟨⟨0x1122, 2, true⟩, true, false⟩, ⟨⟨0x1122, 2, true⟩, true, false⟩, ⟨⟨0x1122, 2, true⟩, true, false⟩,
    ⟨⟨0x1122, 2, true⟩, true, false⟩, ⟨⟨0x1122, 2, true⟩, false, false⟩, ⟨⟨0, 2, true⟩, false, false⟩])
    = [(0xAAFF, false), (0x00FF, false), (0x00FF, false), (0x0011, false), (0x2200, true), (0x2200, true)] := by decide

/-! ### C24 stuffing is invertible -/

/-- C24: dropping the byte after every FF of a stuffed stream restores the original bytes. -/
theorem C24_unstuff_stuff (l : List Nat) : unstuff (stuff l) = l := unstuff_stuff l

/-- C24: it does so as well in front of padding or further data. -/
theorem C24_unstuff_stuff_append (l rest : List Nat) : unstuff (stuff l ++ rest) = l ++ unstuff rest :=
  unstuff_stuff_append l rest

/-- C24: in a stuffed stream every FF is followed by 00. -/
theorem C24_no_marker (l pre post : List Nat) (h : stuff l = pre ++ 255 :: post) :
    ∃ t, post = 0 :: t := by
  have hm := markerFree_stuff l
  rw [h] at hm
  clear h
  induction pre with
  | nil => exact hm.1 rfl
  | cons b pre ih => exact ih hm.2

example : stuff [1, 255, 255, 0] = [1, 255, 0, 255, 0, 0] := by decide

end Props
