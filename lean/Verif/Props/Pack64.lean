/- Property theorems C35: the 16-to-64-bit packer. -/
import Verif.Model.B16B64

set_option autoImplicit false

namespace Props
open Model

/-- Inputs of the packer in one cycle. -/
structure Pack64In where
  data : Nat
  valid : Bool
  endd : Bool
  busy : Bool

def _root_.Model.Pack64.cyc (s : Pack64) (i : Pack64In) : Pack64 := s.step i.data i.valid i.endd i.busy

def pack64Run : Pack64 → List Pack64In → Pack64
  | s, [] => s
  | s, i :: r => pack64Run (s.cyc i) r

/-- 16-bit words transferred to the packer: `valid_in` and not `o_busy`. -/
def pack64Taken : Pack64 → List Pack64In → List Nat
  | _, [] => []
  | s, i :: r => (if i.valid && !s.oBusy then [i.data] else []) ++ pack64Taken (s.cyc i) r

/-- 64-bit words transferred by the packer: `valid_out` and not `i_busy`. -/
def pack64Given : Pack64 → List Pack64In → List Nat
  | _, [] => []
  | s, i :: r => (if s.valid && !i.busy then [s.data] else []) ++ pack64Given (s.cyc i) r

/-- Specification: every four 16-bit words make one 64-bit word, the first in the highest bits; an
incomplete group makes none. -/
def groups4 : List Nat → List Nat
  | a :: b :: c :: d :: r => (a * 2 ^ 48 + b * 2 ^ 32 + c * 2 ^ 16 + d) :: groups4 r
  | _ => []

/-- Complete 64-bit words inside, in output order. -/
def pack64Queue (s : Pack64) : List Nat :=
  if s.chs then (if s.valid2 then [s.buffer2] else []) ++ (if s.valid1 then [s.buffer1] else [])
  else (if s.valid1 then [s.buffer1] else []) ++ (if s.valid2 then [s.buffer2] else [])

/-- The buffer `b` holds the incomplete group `p` in FSM state `f`. -/
def PartOk (f : PackFsm) (b : Nat) (p : List Nat) : Prop :=
  match f with
  | .idle => p = []
  | .fill1 => p = []
  | .fill2 => ∃ w1, p = [w1] ∧ b / 2 ^ 48 = w1
  | .fill3 => ∃ w1 w2, p = [w1, w2] ∧ b / 2 ^ 32 = w1 * 2 ^ 16 + w2
  | .fill4 => ∃ w1 w2 w3, p = [w1, w2, w3] ∧ b / 2 ^ 16 = w1 * 2 ^ 32 + w2 * 2 ^ 16 + w3

/-- Invariant after the first cycle. -/
structure Pack64Inv (s : Pack64) (p : List Nat) : Prop where
  b1 : s.buffer1 < 2 ^ 64
  b2 : s.buffer2 < 2 ^ 64
  part : PartOk s.fsm (if s.second then s.buffer2 else s.buffer1) p
  busy : s.oBusy = decide (s.fsm = .idle)
  out : s.valid = true → if s.chs then s.valid2 = true ∧ s.data = s.buffer2 else s.valid1 = true ∧ s.data = s.buffer1
  fst : s.second = false → (s.valid1 = false ∧ s.chs = s.valid2) ∨
    (s.fsm = .idle ∧ s.valid1 = true ∧ s.valid2 = true ∧ s.chs = false)
  snd : s.second = true → (s.valid2 = false ∧ s.chs = !s.valid1) ∨
    (s.fsm = .idle ∧ s.valid1 = true ∧ s.valid2 = true ∧ s.chs = true)

theorem setSlice_lt {b d : Nat} (hb : b < 2 ^ 64) (hd : d < 2 ^ 16) :
    setSlice b 48 64 d < 2 ^ 64 ∧ setSlice b 32 48 d < 2 ^ 64 ∧ setSlice b 16 32 d < 2 ^ 64 ∧ setSlice b 0 16 d < 2 ^ 64 := by
  simp only [setSlice]
  omega

theorem setSlice_div {b d : Nat} (hb : b < 2 ^ 64) (hd : d < 2 ^ 16) :
    setSlice b 48 64 d / 2 ^ 48 = d ∧ setSlice b 32 48 d / 2 ^ 32 = b / 2 ^ 48 * 2 ^ 16 + d ∧
    setSlice b 16 32 d / 2 ^ 16 = b / 2 ^ 32 * 2 ^ 16 + d ∧ setSlice b 0 16 d = b / 2 ^ 16 * 2 ^ 16 + d := by
  simp only [setSlice]
  omega

/-- The four-word groups completed in one cycle, and the incomplete rest. -/
theorem part_step {f : PackFsm} {b d : Nat} {p : List Nat} (hb : b < 2 ^ 64) (hd : d < 2 ^ 16) (hf : f ≠ .idle)
    (h : PartOk f b p) :
    (f = .fill1 → PartOk .fill2 (setSlice b 48 64 d) (p ++ [d])) ∧
    (f = .fill2 → PartOk .fill3 (setSlice b 32 48 d) (p ++ [d])) ∧
    (f = .fill3 → PartOk .fill4 (setSlice b 16 32 d) (p ++ [d])) ∧
    (f = .fill4 → groups4 (p ++ [d]) = [setSlice b 0 16 d] ∧ (p ++ [d]).length = 4) := by
  obtain ⟨e1, e2, e3, e4⟩ := setSlice_div hb hd
  refine ⟨?_, ?_, ?_, ?_⟩ <;> rintro rfl <;> simp only [PartOk] at h ⊢
  · subst h; exact ⟨d, rfl, e1⟩
  · obtain ⟨w1, rfl, h⟩ := h
    exact ⟨w1, d, rfl, by rw [e2, h]⟩
  · obtain ⟨w1, w2, rfl, h⟩ := h
    exact ⟨w1, w2, d, rfl, by rw [e3, h]; omega⟩
  · obtain ⟨w1, w2, w3, rfl, h⟩ := h
    refine ⟨?_, rfl⟩
    simp only [List.cons_append, List.nil_append, groups4]
    rw [e4, h, List.cons.injEq]
    exact ⟨by omega, rfl⟩

/-- The two buffers exchanged. -/
def packSwap (s : Pack64) : Pack64 :=
  { s with buffer1 := s.buffer2, valid1 := s.valid2, buffer2 := s.buffer1, valid2 := s.valid1, chs := !s.chs,
           second := !s.second }

theorem packSwap_swap (s : Pack64) : packSwap (packSwap s) = s := by
  simp [packSwap]

theorem packSwap_cyc (s : Pack64) (i : Pack64In) : (packSwap s).cyc i = packSwap (s.cyc i) := by
  obtain ⟨b1, v1, b2, v2, chs, re, cnt, eo, data, valid, ob, fsm, second⟩ := s
  obtain ⟨d, vi, ei, bz⟩ := i
  cases second <;> cases fsm <;> cases vi <;> cases valid <;> cases bz <;> cases chs <;> cases v1 <;> cases v2 <;>
    rfl

theorem packSwap_queue (s : Pack64) : pack64Queue (packSwap s) = pack64Queue s := by
  obtain ⟨b1, v1, b2, v2, chs, re, cnt, eo, data, valid, ob, fsm, second⟩ := s
  cases chs <;> simp [pack64Queue, packSwap]

theorem packSwap_inv {s : Pack64} {p : List Nat} (h : Pack64Inv s p) : Pack64Inv (packSwap s) p := by
  obtain ⟨b1, v1, b2, v2, chs, re, cnt, eo, data, valid, ob, fsm, second⟩ := s
  obtain ⟨h1, h2, h3, h4, h5, h6, h7⟩ := h
  dsimp only at *
  refine ⟨h2, h1, ?_, h4, ?_, ?_, ?_⟩
  · dsimp only [packSwap]; cases second <;> exact h3
  · dsimp only [packSwap]; cases chs <;> exact h5
  · dsimp only [packSwap]; intro h
    have : second = true := by simpa using h
    rcases h7 this with ⟨a, b⟩ | ⟨a, b, c, e⟩
    · exact Or.inl ⟨a, by simp [b]⟩
    · exact Or.inr ⟨a, c, b, by simp [e]⟩
  · dsimp only [packSwap]; intro h
    have : second = false := by simpa using h
    rcases h6 this with ⟨a, b⟩ | ⟨a, b, c, e⟩
    · exact Or.inl ⟨a, by simp [b]⟩
    · exact Or.inr ⟨a, c, b, by simp [e]⟩

/-- What one cycle conserves. -/
def Pack64Step (s : Pack64) (p : List Nat) (i : Pack64In) : Prop :=
  ∃ p' g, Pack64Inv (s.cyc i) p' ∧ p ++ (if i.valid && !s.oBusy then [i.data] else []) = g ++ p' ∧
    (g = [] ∨ g.length = 4) ∧
    (if s.valid && !i.busy then [s.data] else []) ++ pack64Queue (s.cyc i) = pack64Queue s ++ groups4 g

/-- The contents of buffer 1 after a cycle in which it is being filled. -/
theorem pack64_step1 {s : Pack64} {p : List Nat} (h : Pack64Inv s p) (hsec : s.second = false) (i : Pack64In)
    (hd : i.data < 2 ^ 16) : Pack64Step s p i := by
  obtain ⟨b1, v1, b2, v2, chs, re, cnt, eo, data, valid, ob, fsm, second⟩ := s
  obtain ⟨d, vi, ei, bz⟩ := i
  obtain ⟨h1, h2, h3, h4, h5, h6, h7⟩ := h
  dsimp only at *
  subst hsec
  have h6 := h6 rfl
  clear h7
  simp only [Bool.false_eq_true, if_false] at h3
  have l1 := setSlice_lt h1 hd
  have hps := fun hf => part_step (f := fsm) h1 hd hf h3
  replace h4 : ob = decide (fsm = .idle) := h4
  subst h4
  by_cases hacc : vi = true ∧ fsm ≠ .idle
  · obtain ⟨rfl, hf⟩ := hacc
    have hps := hps hf
    rcases h6 with ⟨rfl, rfl⟩ | ⟨h, _⟩
    rotate_left
    · exact absurd h hf
    cases fsm
    case idle => exact absurd rfl hf
    case fill4 =>
      obtain ⟨g1, g2⟩ := hps.2.2.2 rfl
      refine ⟨[], p ++ [d], ?_, by simp, Or.inr g2, ?_⟩
      · simp only [Pack64.cyc, Pack64.step, Pack64.stepFsm1, Pack64.stepOut, Pack64.stepEnd, Bool.false_eq_true, if_false]
        cases chs <;> cases valid <;> cases bz <;>
          exact ⟨l1.2.2.2, h2, rfl, rfl, by simp_all, by revert h5; simp, by revert h5; simp⟩
      · rw [g1]
        simp only [Pack64.cyc, Pack64.step, Pack64.stepFsm1, Pack64.stepOut, Pack64.stepEnd, Bool.false_eq_true, if_false]
        cases chs <;> cases valid <;> cases bz <;> simp_all [pack64Queue]
    case fill1 =>
      refine ⟨p ++ [d], [], ?_, by simp, Or.inl rfl, ?_⟩
      · simp only [Pack64.cyc, Pack64.step, Pack64.stepFsm1, Pack64.stepOut, Pack64.stepEnd, Bool.false_eq_true, if_false]
        cases chs <;> cases valid <;> cases bz <;>
          exact ⟨l1.1, h2, hps.1 rfl, rfl, by simp_all, by revert h5; simp, by revert h5; simp⟩
      · simp only [Pack64.cyc, Pack64.step, Pack64.stepFsm1, Pack64.stepOut, Pack64.stepEnd, Bool.false_eq_true, if_false]
        cases chs <;> cases valid <;> cases bz <;> simp_all [pack64Queue, groups4]
    case fill2 =>
      refine ⟨p ++ [d], [], ?_, by simp, Or.inl rfl, ?_⟩
      · simp only [Pack64.cyc, Pack64.step, Pack64.stepFsm1, Pack64.stepOut, Pack64.stepEnd, Bool.false_eq_true, if_false]
        cases chs <;> cases valid <;> cases bz <;>
          exact ⟨l1.2.1, h2, hps.2.1 rfl, rfl, by simp_all, by revert h5; simp, by revert h5; simp⟩
      · simp only [Pack64.cyc, Pack64.step, Pack64.stepFsm1, Pack64.stepOut, Pack64.stepEnd, Bool.false_eq_true, if_false]
        cases chs <;> cases valid <;> cases bz <;> simp_all [pack64Queue, groups4]
    case fill3 =>
      refine ⟨p ++ [d], [], ?_, by simp, Or.inl rfl, ?_⟩
      · simp only [Pack64.cyc, Pack64.step, Pack64.stepFsm1, Pack64.stepOut, Pack64.stepEnd, Bool.false_eq_true, if_false]
        cases chs <;> cases valid <;> cases bz <;>
          exact ⟨l1.2.2.1, h2, hps.2.2.1 rfl, rfl, by simp_all, by revert h5; simp, by revert h5; simp⟩
      · simp only [Pack64.cyc, Pack64.step, Pack64.stepFsm1, Pack64.stepOut, Pack64.stepEnd, Bool.false_eq_true, if_false]
        cases chs <;> cases valid <;> cases bz <;> simp_all [pack64Queue, groups4]
  · have hnone : (if vi && !decide (fsm = .idle) then [d] else ([] : List Nat)) = [] := by
      by_cases hf : fsm = .idle
      · simp [hf]
      · have : vi = false := by cases vi <;> simp_all
        simp [this]
    refine ⟨p, [], ?_, by simp only [hnone]; simp, Or.inl rfl, ?_⟩
    · clear hps l1 hnone
      by_cases hf : fsm = .idle
      · subst hf
        simp only [Pack64.cyc, Pack64.step, Pack64.stepFsm1, Pack64.stepOut, Pack64.stepEnd, Bool.false_eq_true, if_false]
        rcases h6 with ⟨rfl, rfl⟩ | ⟨_, rfl, rfl, rfl⟩
        · cases chs <;> cases valid <;> cases bz <;>
            exact ⟨h1, h2, h3, rfl, by simp_all, by revert h5; simp, by revert h5; simp⟩
        · cases valid <;> cases bz <;>
            exact ⟨h1, h2, h3, rfl, by simp_all, by revert h5; simp, by revert h5; simp⟩
      · have : vi = false := by cases vi <;> simp_all
        subst this
        rcases h6 with ⟨rfl, rfl⟩ | ⟨h, _⟩
        rotate_left
        · exact absurd h hf
        cases fsm
        case idle => exact absurd rfl hf
        all_goals
          simp only [Pack64.cyc, Pack64.step, Pack64.stepFsm1, Pack64.stepOut, Pack64.stepEnd, Bool.false_eq_true, if_false]
          cases chs <;> cases valid <;> cases bz <;>
            exact ⟨h1, h2, h3, rfl, by simp_all, by revert h5; simp, by revert h5; simp⟩
    · clear hps l1 hnone h1 h2 h3 hd
      by_cases hf : fsm = .idle
      · subst hf
        simp only [Pack64.cyc, Pack64.step, Pack64.stepFsm1, Pack64.stepOut, Pack64.stepEnd, Bool.false_eq_true, if_false]
        rcases h6 with ⟨rfl, rfl⟩ | ⟨_, rfl, rfl, rfl⟩
        · cases chs <;> cases valid <;> cases bz <;> simp_all [pack64Queue, groups4]
        · cases valid <;> cases bz <;> simp_all [pack64Queue, groups4]
      · have : vi = false := by cases vi <;> simp_all
        subst this
        rcases h6 with ⟨rfl, rfl⟩ | ⟨h, _⟩
        rotate_left
        · exact absurd h hf
        cases fsm
        case idle => exact absurd rfl hf
        all_goals
          simp only [Pack64.cyc, Pack64.step, Pack64.stepFsm1, Pack64.stepOut, Pack64.stepEnd, Bool.false_eq_true, if_false]
          cases chs <;> cases valid <;> cases bz <;> simp_all [pack64Queue, groups4]

/-- One cycle: with `p` the incomplete group, there is a new incomplete group `p'` and a completed group
`g` (or none) such that everything is conserved. -/
theorem pack64_step {s : Pack64} {p : List Nat} (h : Pack64Inv s p) (i : Pack64In) (hd : i.data < 2 ^ 16) :
    Pack64Step s p i := by
  cases hs : s.second with
  | false => exact pack64_step1 h hs i hd
  | true =>
    obtain ⟨p', g, a, b, c, e⟩ := pack64_step1 (packSwap_inv h) (by simp [packSwap, hs]) i hd
    rw [packSwap_cyc] at a e
    refine ⟨p', g, ?_, b, c, ?_⟩
    · have := packSwap_inv a
      rwa [packSwap_swap] at this
    · rwa [packSwap_queue, packSwap_queue] at e

theorem groups4_append {g : List Nat} (h : g = [] ∨ g.length = 4) (l : List Nat) :
    groups4 (g ++ l) = groups4 g ++ groups4 l := by
  rcases h with rfl | h
  · simp [groups4]
  · match g, h with
    | [a, b, c, d], _ => simp [groups4]

theorem part_short {s : Pack64} {p : List Nat} (h : Pack64Inv s p) : p.length < 4 := by
  have := h.part
  unfold PartOk at this
  split at this
  · subst this; decide
  · subst this; decide
  · obtain ⟨_, rfl, _⟩ := this; simp
  · obtain ⟨_, _, rfl, _⟩ := this; simp
  · obtain ⟨_, _, _, rfl, _⟩ := this; simp

theorem groups4_short {p : List Nat} (h : p.length < 4) : groups4 p = [] := by
  match p, h with
  | [], _ => rfl
  | [_], _ => rfl
  | [_, _], _ => rfl
  | [_, _, _], _ => rfl

theorem pack64_run (ins : List Pack64In) (hd : ∀ i ∈ ins, i.data < 2 ^ 16) : ∀ {s : Pack64} {p : List Nat}, Pack64Inv s p →
    ∃ p', Pack64Inv (pack64Run s ins) p' ∧
      pack64Given s ins ++ pack64Queue (pack64Run s ins) = pack64Queue s ++ groups4 (p ++ pack64Taken s ins) := by
  induction ins with
  | nil =>
    intro s p h
    exact ⟨p, h, by simp [pack64Given, pack64Run, pack64Taken, groups4_short (part_short h)]⟩
  | cons i r ih =>
    intro s p h
    obtain ⟨p1, g, a, b, c, e⟩ := pack64_step h i (hd i (List.mem_cons_self ..))
    obtain ⟨p2, a2, e2⟩ := ih (fun j hj => hd j (List.mem_cons_of_mem _ hj)) a
    refine ⟨p2, a2, ?_⟩
    simp only [pack64Given, pack64Run, pack64Taken]
    rw [List.append_assoc, e2, ← List.append_assoc, e, ← List.append_assoc p, b, List.append_assoc g,
      groups4_append c, List.append_assoc]

/-- The first cycle from reset. -/
theorem pack64_first (i : Pack64In) : Pack64Inv (Pack64.init.cyc i) [] ∧ pack64Queue (Pack64.init.cyc i) = [] := by
  have : Pack64.init.cyc i = { Pack64.init with fsm := .fill1, regEnd := i.valid && i.endd } := by
    obtain ⟨d, vi, ei, bz⟩ := i
    cases vi <;> cases ei <;> cases bz <;> rfl
  rw [this]
  exact ⟨⟨by simp [Pack64.init], by simp [Pack64.init], rfl, rfl, by simp [Pack64.init], by simp [Pack64.init],
    by simp [Pack64.init]⟩, rfl⟩

/-- C35, safety: from reset, not counting the first cycle, the 64-bit words given are at every moment a
prefix of the big-endian groups of four accepted 16-bit words, and at most two complete words are held back. -/
theorem C35_in_order (i0 : Pack64In) (ins : List Pack64In) (hd : ∀ i ∈ ins, i.data < 2 ^ 16) :
    pack64Given .init (i0 :: ins) <+: groups4 (pack64Taken (Pack64.init.cyc i0) ins) ∧
    (groups4 (pack64Taken (Pack64.init.cyc i0) ins)).length ≤ (pack64Given .init (i0 :: ins)).length + 2 := by
  obtain ⟨h1, h2⟩ := pack64_first i0
  obtain ⟨p, hi, h⟩ := pack64_run ins hd h1
  rw [h2, List.nil_append, List.nil_append] at h
  have e : pack64Given .init (i0 :: ins) = pack64Given (Pack64.init.cyc i0) ins := rfl
  rw [e]
  refine ⟨⟨_, h⟩, ?_⟩
  rw [← h, List.length_append]
  have : (pack64Queue (pack64Run (Pack64.init.cyc i0) ins)).length ≤ 2 := by
    unfold pack64Queue
    repeat' split
    all_goals simp
  omega

/-- C35, the exception: a word offered in the very first cycle after reset is accepted (`o_busy` is 0)
and lost: the data registers go on as if it had not been offered. -/
theorem C35_first_cycle_word_lost (d : Nat) (e b : Bool) :
    Pack64.init.oBusy = false ∧
    ∀ d', Pack64.init.cyc ⟨d, true, e, b⟩ = Pack64.init.cyc ⟨d', true, e, b⟩ := by
  cases b <;> cases e <;> exact ⟨rfl, fun _ => rfl⟩

theorem pack64_reach (i0 : Pack64In) (ins : List Pack64In) (hd : ∀ i ∈ ins, i.data < 2 ^ 16) :
    ∃ p, Pack64Inv (pack64Run .init (i0 :: ins)) p ∧
      pack64Given .init (i0 :: ins) ++ pack64Queue (pack64Run .init (i0 :: ins)) =
        groups4 (pack64Taken (Pack64.init.cyc i0) ins) := by
  obtain ⟨h1, h2⟩ := pack64_first i0
  obtain ⟨p, hi, h⟩ := pack64_run ins hd h1
  rw [h2, List.nil_append, List.nil_append] at h
  exact ⟨p, hi, h⟩

theorem pack64_valid_next {s : Pack64} {i : Pack64In} (hq : pack64Queue s ≠ [])
    (hv : (s.valid && !i.busy) = false) : (s.cyc i).valid = true := by
  have e : (s.cyc i).valid = ((s.valid1 || s.valid2) && !(s.valid && !i.busy)) := by
    simp only [Pack64.cyc, Pack64.step, Pack64.stepFsm1, Pack64.stepFsm2, Pack64.stepOut]
    repeat' split
    all_goals rfl
  rw [e, hv]
  unfold pack64Queue at hq
  cases h1 : s.valid1 <;> cases h2 : s.valid2 <;> simp_all

/-- C35, progress: whenever a complete group of four accepted words has not been given yet, the second of
any two cycles with a ready consumer (with any number of other cycles before it) has given one more word. -/
theorem C35_progress (i0 : Pack64In) (past ins : List Pack64In) (i : Pack64In)
    (hd : ∀ j ∈ past ++ ins, j.data < 2 ^ 16)
    (hp : (pack64Given .init (i0 :: past)).length < (groups4 (pack64Taken (Pack64.init.cyc i0) past)).length)
    (hl : ins ≠ []) (hb : i.busy = false) :
    pack64Given (pack64Run .init (i0 :: past)) (ins ++ [i]) ≠ [] := by
  obtain ⟨p, hi, h⟩ := pack64_reach i0 past (fun j hj => hd j (List.mem_append_left _ hj))
  have hne : pack64Queue (pack64Run .init (i0 :: past)) ≠ [] := by
    intro h0
    rw [h0, List.append_nil] at h
    rw [h] at hp
    exact Nat.lt_irrefl _ hp
  have hd' : ∀ j ∈ ins, j.data < 2 ^ 16 := fun j hj => hd j (List.mem_append_right _ hj)
  generalize pack64Run .init (i0 :: past) = s at *
  clear h hp hd
  induction ins generalizing s p with
  | nil => exact absurd rfl hl
  | cons j r ih =>
    simp only [List.cons_append, pack64Given]
    cases hg : s.valid && !j.busy with
    | true => simp
    | false =>
      simp only [Bool.false_eq_true, if_false, List.nil_append]
      have hv := pack64_valid_next hne hg
      obtain ⟨p', g, a, _, _, e⟩ := pack64_step hi j (hd' j (List.mem_cons_self ..))
      by_cases hr : r = []
      · subst hr
        simp [pack64Given, hv, hb]
      · refine ih hr _ (fun k hk => hd' k (List.mem_cons_of_mem _ hk)) _ a ?_
        rw [hg] at e
        simp only [Bool.false_eq_true, if_false, List.nil_append] at e
        rw [e]
        intro h0
        exact hne (List.append_eq_nil_iff.1 h0).1

/-- C35, stability: a word shown to a busy consumer stays shown unchanged. -/
theorem C35_stable (i0 : Pack64In) (past : List Pack64In) (hd : ∀ j ∈ past, j.data < 2 ^ 16) (i : Pack64In)
    (hv : (pack64Run .init (i0 :: past)).valid = true) (hb : i.busy = true) :
    (pack64Run .init (i0 :: past ++ [i])).valid = true ∧
    (pack64Run .init (i0 :: past ++ [i])).data = (pack64Run .init (i0 :: past)).data := by
  have hrun : ∀ (l : List Pack64In) (s : Pack64), pack64Run s (l ++ [i]) = (pack64Run s l).cyc i := by
    intro l
    induction l with
    | nil => intro s; rfl
    | cons j r ih => intro s; exact ih _
  rw [hrun]
  obtain ⟨p, hi, _⟩ := pack64_reach i0 past hd
  generalize pack64Run .init (i0 :: past) = s at *
  have ho := hi.out hv
  have hq : pack64Queue s ≠ [] := by
    unfold pack64Queue
    cases hc : s.chs <;> simp [hc] at ho <;> simp [ho.1]
  refine ⟨pack64_valid_next hq (by simp [hb]), ?_⟩
  have e : (s.cyc i).data = if s.chs then s.buffer2 else s.buffer1 := by
    simp only [Pack64.cyc, Pack64.step, Pack64.stepFsm1, Pack64.stepFsm2, Pack64.stepOut]
    repeat' split
    all_goals first | rfl | simp_all
  rw [e]
  cases hc : s.chs <;> simp [hc] at ho <;> simp [ho.2]

/-- C35, acceptance: the packer does not stay busy: after three further cycles with a ready consumer it is
ready for a 16-bit word. -/
theorem C35_accepts (i0 : Pack64In) (past : List Pack64In) (hd : ∀ j ∈ past, j.data < 2 ^ 16) (a b c : Pack64In)
    (hs : (pack64Run .init (i0 :: past)).oBusy = true)
    (ha : a.busy = false) (hb : b.busy = false) (hc : c.busy = false) :
    (pack64Run (pack64Run .init (i0 :: past)) [a, b, c]).oBusy = false := by
  obtain ⟨p, hi, _⟩ := pack64_reach i0 past hd
  generalize pack64Run .init (i0 :: past) = s at *
  have h4 := hi.busy
  have hf : s.fsm = .idle := by rw [hs] at h4; simpa using h4.symm
  have hfst := hi.fst
  have hsnd := hi.snd
  have hout := hi.out
  clear hi h4
  obtain ⟨b1, v1, b2, v2, chs, re, cnt, eo, data, valid, ob, fsm, second⟩ := s
  obtain ⟨ad, av, ae, ab⟩ := a
  obtain ⟨bd, bv, be, bb⟩ := b
  obtain ⟨cd, cv, ce, cb⟩ := c
  dsimp only at *
  subst ha hb hc hs hf
  have key : (second = false → (v1 = false ∧ chs = v2) ∨ (v1 = true ∧ v2 = true ∧ chs = false)) ∧
      (second = true → (v2 = false ∧ chs = !v1) ∨ (v1 = true ∧ v2 = true ∧ chs = true)) := by
    constructor
    · intro h; rcases hfst h with h | ⟨_, h⟩
      · exact Or.inl h
      · exact Or.inr h
    · intro h; rcases hsnd h with h | ⟨_, h⟩
      · exact Or.inl h
      · exact Or.inr h
  have hv : valid = true → if chs then v2 = true else v1 = true := by
    intro h; have := hout h; cases chs <;> simp at this ⊢ <;> exact this.1
  clear hfst hsnd hout
  revert key hv
  cases second <;> cases v1 <;> cases v2 <;> cases chs <;> cases valid <;> simp <;>
    cases av <;> cases bv <;> cases cv <;> rfl

/-- Counting invariant of the end flag. -/
theorem pack64_end_inv (ins : List Pack64In) : ∀ (s : Pack64) (n : Nat), s.counter ≤ n → s.endOut = false → n + (pack64Given s ins).length < 7 →
    (pack64Run s ins).endOut = false := by
  induction ins with
  | nil => intro s n _ h _; exact h
  | cons i r ih =>
    intro s n hc he hn
    simp only [pack64Given, List.length_append] at hn
    have e1 : (s.cyc i).endOut = (s.stepEnd i.valid i.endd i.busy).endOut := by
      simp only [Pack64.cyc, Pack64.step, Pack64.stepFsm1, Pack64.stepFsm2, Pack64.stepOut]
      repeat' split
      all_goals rfl
    have e2 : (s.cyc i).counter = (s.stepEnd i.valid i.endd i.busy).counter := by
      simp only [Pack64.cyc, Pack64.step, Pack64.stepFsm1, Pack64.stepFsm2, Pack64.stepOut]
      repeat' split
      all_goals rfl
    simp only [pack64Run]
    refine ih _ (n + (if s.valid && !i.busy then [s.data] else []).length) ?_ ?_ (by omega)
    · rw [e2]
      simp only [Pack64.stepEnd]
      cases hv : s.valid && !i.busy
      · have : (s.regEnd && s.valid && !i.busy) = false := by
          rw [Bool.and_assoc, hv, Bool.and_false]
        simp [this, hc]
      · rw [Bool.and_assoc, hv, Bool.and_true]
        simp only [if_true, List.length_singleton]
        split
        · exact Nat.le_trans (Nat.mod_le _ _) (by omega)
        · omega
    · rw [e1]
      simp only [Pack64.stepEnd, he]
      have : s.counter ≠ 7 := by omega
      simp [this]

/-- C35, the end flag comes late: it is not raised before seven 64-bit words have been given, so a frame
of fewer than 28 16-bit words is never reported as ended. -/
theorem C35_end_needs_seven_words (ins : List Pack64In) (h : (pack64Given .init ins).length < 7) :
    (pack64Run .init ins).endOut = false :=
  pack64_end_inv ins .init 0 (Nat.le_refl _) rfl (by omega)

/-- Eight words through the packer, the consumer stalling. -/
example : let ins : List Pack64In := [⟨9, true, false, false⟩, ⟨1, true, false, false⟩, ⟨2, true, false, true⟩,
      ⟨3, true, false, true⟩, ⟨4, true, false, true⟩, ⟨5, true, false, true⟩, ⟨6, true, false, true⟩,
      ⟨7, true, false, true⟩, ⟨8, true, true, true⟩, ⟨10, true, true, true⟩, ⟨0, false, false, false⟩,
      ⟨0, false, false, false⟩, ⟨0, false, false, false⟩, ⟨0, false, false, false⟩]
    pack64Given .init ins = [0x0001000200030004, 0x0005000600070008] ∧
    pack64Taken (Pack64.init.cyc ⟨9, true, false, false⟩) ins.tail = [1, 2, 3, 4, 5, 6, 7, 8] := by decide

end Props
