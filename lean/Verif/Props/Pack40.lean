/- Property theorems C36: the 16-to-40-bit packer. -/
import Verif.Model.B16B40

set_option autoImplicit false

namespace Props
open Model

/-- Inputs of the packer in one cycle. -/
structure Pack40In where
  data : Nat
  valid : Bool
  busy : Bool
deriving DecidableEq

/-- A cycle without core reset. -/
def _root_.Model.Pack40.cyc (s : Pack40) (i : Pack40In) : Pack40 := s.step i.data i.valid i.busy false

def pack40Run : Pack40 → List Pack40In → Pack40
  | s, [] => s
  | s, i :: r => pack40Run (s.cyc i) r

/-- Bytes of the 16-bit words transferred to the packer (`valid_in` and not `o_busy`), first the upper. -/
def pack40Taken : Pack40 → List Pack40In → List Nat
  | _, [] => []
  | s, i :: r => (if i.valid && !s.oBusy then [i.data / 2 ^ 8, i.data % 2 ^ 8] else []) ++ pack40Taken (s.cyc i) r

/-- The packer stalls on a third word of five: buffer 2 is still occupied when the word that straddles the
two buffers arrives. -/
def straddleStall (s : Pack40) : Bool := decide (s.fsm = .fill13) && s.valid2

/-- The same bytes, the lower byte of a word accepted in a stall reduced to its lowest bit. -/
def pack40Kept : Pack40 → List Pack40In → List Nat
  | _, [] => []
  | s, i :: r => (if i.valid && !s.oBusy then
      [i.data / 2 ^ 8, if straddleStall s then i.data % 2 else i.data % 2 ^ 8] else []) ++ pack40Kept (s.cyc i) r

/-- 40-bit words transferred by the packer: `valid_out` and not `i_busy`. -/
def pack40Given : Pack40 → List Pack40In → List Nat
  | _, [] => []
  | s, i :: r => (if s.valid && !i.busy then [s.data] else []) ++ pack40Given (s.cyc i) r

/-- Specification: every five bytes make one 40-bit word, the first in the highest bits. -/
def groups5 : List Nat → List Nat
  | a :: b :: c :: d :: e :: r => (a * 2 ^ 32 + b * 2 ^ 24 + c * 2 ^ 16 + d * 2 ^ 8 + e) :: groups5 r
  | _ => []

/-- Complete 40-bit words inside, in output order. -/
def pack40Queue (s : Pack40) : List Nat :=
  if s.chs then (if s.valid2 then [s.buffer2] else []) ++ (if s.valid1 then [s.buffer1] else [])
  else (if s.valid1 then [s.buffer1] else []) ++ (if s.valid2 then [s.buffer2] else [])

/-- The incomplete group `p` as held in the FSM state. -/
def Part40 (f : Pack40Fsm) (b1 b2 t : Nat) (p : List Nat) : Prop :=
  match f with
  | .idle1 => p = []
  | .fill11 => p = []
  | .fill12 => ∃ w1 w2, p = [w1, w2] ∧ b1 / 2 ^ 24 = w1 * 2 ^ 8 + w2
  | .fill13 => ∃ w1 w2 w3 w4, p = [w1, w2, w3, w4] ∧ b1 / 2 ^ 8 = w1 * 2 ^ 24 + w2 * 2 ^ 16 + w3 * 2 ^ 8 + w4
  | .idle2 => p = [t]
  | .fill21 => ∃ w1, p = [w1] ∧ b2 / 2 ^ 32 = w1
  | .fill22 => ∃ w1 w2 w3, p = [w1, w2, w3] ∧ b2 / 2 ^ 16 = w1 * 2 ^ 16 + w2 * 2 ^ 8 + w3

/-- The FSM is in a state of buffer 2. -/
def isSecond : Pack40Fsm → Bool
  | .idle2 => true
  | .fill21 => true
  | .fill22 => true
  | _ => false

/-- The FSM waits for a buffer. -/
def isIdle : Pack40Fsm → Bool
  | .idle1 => true
  | .idle2 => true
  | _ => false

/-- Invariant after the first cycle. -/
structure Pack40Inv (s : Pack40) (p : List Nat) : Prop where
  b1 : s.buffer1 < 2 ^ 40
  b2 : s.buffer2 < 2 ^ 40
  t : s.temp8 < 2
  part : Part40 s.fsm s.buffer1 s.buffer2 s.temp8 p
  busy : s.oBusy = isIdle s.fsm
  out : s.valid = true → if s.chs then s.valid2 = true else s.valid1 = true
  fst : isSecond s.fsm = false → (s.valid1 = false ∧ s.chs = s.valid2) ∨
    (s.fsm = .idle1 ∧ s.valid1 = true ∧ s.valid2 = true ∧ s.chs = false)
  snd : isSecond s.fsm = true → (s.valid2 = false ∧ s.chs = !s.valid1) ∨
    (s.fsm = .idle2 ∧ s.valid1 = true ∧ s.valid2 = true ∧ s.chs = true)

theorem setSlice40_lt {b d : Nat} (hb : b < 2 ^ 40) (hd : d < 2 ^ 16) :
    setSlice b 24 40 d < 2 ^ 40 ∧ setSlice b 8 24 d < 2 ^ 40 ∧ setSlice b 0 8 (d / 2 ^ 8) < 2 ^ 40 ∧
    setSlice b 32 40 d < 2 ^ 40 ∧ setSlice b 16 32 d < 2 ^ 40 ∧ setSlice b 0 16 d < 2 ^ 40 := by
  simp only [setSlice]
  omega

theorem setSlice40_div {b d : Nat} (hb : b < 2 ^ 40) (hd : d < 2 ^ 16) :
    setSlice b 24 40 d / 2 ^ 24 = d ∧ setSlice b 8 24 d / 2 ^ 8 = b / 2 ^ 24 * 2 ^ 16 + d ∧
    setSlice b 0 8 (d / 2 ^ 8) = b / 2 ^ 8 * 2 ^ 8 + d / 2 ^ 8 ∧
    setSlice b 32 40 d / 2 ^ 32 = d % 2 ^ 8 ∧ setSlice b 16 32 d / 2 ^ 16 = b / 2 ^ 32 * 2 ^ 16 + d ∧
    setSlice b 0 16 d = b / 2 ^ 16 * 2 ^ 16 + d := by
  simp only [setSlice]
  omega

/-- What one cycle conserves. -/
def Pack40Step (s : Pack40) (p : List Nat) (i : Pack40In) : Prop :=
  ∃ p' g, Pack40Inv (s.cyc i) p' ∧
    p ++ (if i.valid && !s.oBusy then
      [i.data / 2 ^ 8, if straddleStall s then i.data % 2 else i.data % 2 ^ 8] else []) = g ++ p' ∧
    (g = [] ∨ g.length = 5) ∧
    (if s.valid && !i.busy then [s.data] else []) ++ pack40Queue (s.cyc i) = pack40Queue s ++ groups5 g

theorem pack40_step {s : Pack40} {p : List Nat} (h : Pack40Inv s p) (i : Pack40In)
    (hd : i.data < 2 ^ 16) : Pack40Step s p i := by
  obtain ⟨b1, v1, b2, v2, chs, t, valid, ob, fsm⟩ := s
  obtain ⟨d, vi, bz⟩ := i
  obtain ⟨h1, h2, ht, h3, h4, h5, h6, h7⟩ := h
  dsimp only at *
  have l1 := setSlice40_lt h1 hd
  have l2 := setSlice40_lt h2 hd
  have e1 := setSlice40_div h1 hd
  have e2 := setSlice40_div h2 hd
  have l3 := setSlice40_lt h2 (show t < 2 ^ 16 by omega)
  have e3 := setSlice40_div h2 (show t < 2 ^ 16 by omega)
  subst h4
  cases fsm with
  | idle1 =>
    have h6 := h6 rfl
    clear h7 l1 l2 e1 e2 l3 e3
    refine ⟨p, [], ?_, by simp [isIdle], Or.inl rfl, ?_⟩
    · simp only [Pack40.cyc, Pack40.step, Pack40.stepFsm, Pack40.stepOut, Bool.false_eq_true, if_false]
      rcases h6 with ⟨rfl, rfl⟩ | ⟨_, rfl, rfl, rfl⟩
      · cases chs <;> cases valid <;> cases bz <;>
          exact ⟨h1, h2, ht, h3, rfl, by simp_all, by revert h5; simp [isSecond], by simp [isSecond]⟩
      · cases valid <;> cases bz <;>
          exact ⟨h1, h2, ht, h3, rfl, by simp_all, by revert h5; simp [isSecond], by simp [isSecond]⟩
    · simp only [Pack40.cyc, Pack40.step, Pack40.stepFsm, Pack40.stepOut, Bool.false_eq_true, if_false]
      clear h1 h2 h3 hd
      rcases h6 with ⟨rfl, rfl⟩ | ⟨_, rfl, rfl, rfl⟩
      · cases chs <;> cases valid <;> cases bz <;> simp_all [pack40Queue, groups5, Pack40.data]
      · cases valid <;> cases bz <;> simp_all [pack40Queue, groups5, Pack40.data]
  | fill11 =>
    rcases h6 rfl with ⟨rfl, rfl⟩ | ⟨h, _⟩
    · clear h6 h7 l2 e2 l3 e3
      cases vi
      · refine ⟨p, [], ?_, by simp [isIdle], Or.inl rfl, ?_⟩
        · simp only [Pack40.cyc, Pack40.step, Pack40.stepFsm, Pack40.stepOut, Bool.false_eq_true, if_false]
          cases chs <;> cases valid <;> cases bz <;>
            exact ⟨h1, h2, ht, h3, rfl, by simp_all, by revert h5; simp [isSecond], by simp [isSecond]⟩
        · simp only [Pack40.cyc, Pack40.step, Pack40.stepFsm, Pack40.stepOut, Bool.false_eq_true, if_false]
          clear h1 h2 h3 hd l1 e1
          cases chs <;> cases valid <;> cases bz <;> simp_all [pack40Queue, groups5, Pack40.data]
      · refine ⟨[d / 2 ^ 8, d % 2 ^ 8], [], ?_, ?_, Or.inl rfl, ?_⟩
        · have hp : Part40 .fill12 (setSlice b1 24 40 d) b2 t [d / 2 ^ 8, d % 2 ^ 8] := ⟨_, _, rfl, by omega⟩
          simp only [Pack40.cyc, Pack40.step, Pack40.stepFsm, Pack40.stepOut, Bool.false_eq_true, if_false, if_true]
          cases chs <;> cases valid <;> cases bz <;>
            exact ⟨l1.1, h2, ht, hp, rfl, by simp_all, by revert h5; simp [isSecond], by simp [isSecond]⟩
        · simp only [Part40] at h3; subst h3
          simp [isIdle, straddleStall]
        · simp only [Pack40.cyc, Pack40.step, Pack40.stepFsm, Pack40.stepOut, Bool.false_eq_true, if_false]
          clear h1 h2 h3 hd l1 e1
          cases chs <;> cases valid <;> cases bz <;> simp_all [pack40Queue, groups5, Pack40.data]
    · cases h
  | fill12 =>
    rcases h6 rfl with ⟨rfl, rfl⟩ | ⟨h, _⟩
    · clear h6 h7 l2 e2 l3 e3
      cases vi
      · refine ⟨p, [], ?_, by simp [isIdle], Or.inl rfl, ?_⟩
        · simp only [Pack40.cyc, Pack40.step, Pack40.stepFsm, Pack40.stepOut, Bool.false_eq_true, if_false]
          cases chs <;> cases valid <;> cases bz <;>
            exact ⟨h1, h2, ht, h3, rfl, by simp_all, by revert h5; simp [isSecond], by simp [isSecond]⟩
        · simp only [Pack40.cyc, Pack40.step, Pack40.stepFsm, Pack40.stepOut, Bool.false_eq_true, if_false]
          clear h1 h2 h3 hd l1 e1
          cases chs <;> cases valid <;> cases bz <;> simp_all [pack40Queue, groups5, Pack40.data]
      · obtain ⟨w1, w2, rfl, hw⟩ := h3
        refine ⟨[w1, w2, d / 2 ^ 8, d % 2 ^ 8], [], ?_, ?_, Or.inl rfl, ?_⟩
        · have hp : Part40 .fill13 (setSlice b1 8 24 d) b2 t [w1, w2, d / 2 ^ 8, d % 2 ^ 8] := by
            refine ⟨_, _, _, _, rfl, ?_⟩
            rw [e1.2.1, hw]; omega
          simp only [Pack40.cyc, Pack40.step, Pack40.stepFsm, Pack40.stepOut, Bool.false_eq_true, if_false, if_true]
          cases chs <;> cases valid <;> cases bz <;>
            exact ⟨l1.2.1, h2, ht, hp, rfl, by simp_all, by revert h5; simp [isSecond], by simp [isSecond]⟩
        · simp [isIdle, straddleStall]
        · simp only [Pack40.cyc, Pack40.step, Pack40.stepFsm, Pack40.stepOut, Bool.false_eq_true, if_false]
          clear h1 h2 hw hd l1 e1
          cases chs <;> cases valid <;> cases bz <;> simp_all [pack40Queue, groups5, Pack40.data]
    · cases h
  | fill13 =>
    rcases h6 rfl with ⟨rfl, rfl⟩ | ⟨h, _⟩
    · clear h6 h7 l3 e3
      cases vi
      · refine ⟨p, [], ?_, by simp [isIdle], Or.inl rfl, ?_⟩
        · simp only [Pack40.cyc, Pack40.step, Pack40.stepFsm, Pack40.stepOut, Bool.false_eq_true, if_false]
          cases chs <;> cases valid <;> cases bz <;>
            exact ⟨h1, h2, ht, h3, rfl, by simp_all, by revert h5; simp [isSecond], by simp [isSecond]⟩
        · simp only [Pack40.cyc, Pack40.step, Pack40.stepFsm, Pack40.stepOut, Bool.false_eq_true, if_false]
          clear h1 h2 h3 hd l1 e1 l2 e2
          cases chs <;> cases valid <;> cases bz <;> simp_all [pack40Queue, groups5, Pack40.data]
      · obtain ⟨w1, w2, w3, w4, rfl, hw⟩ := h3
        have hg : groups5 [w1, w2, w3, w4, d / 2 ^ 8] = [setSlice b1 0 8 (d / 2 ^ 8)] := by
          simp only [groups5]
          rw [e1.2.2.1, hw, List.cons.injEq]
          exact ⟨by omega, rfl⟩
        cases chs
        · refine ⟨[d % 2 ^ 8], [w1, w2, w3, w4, d / 2 ^ 8], ?_, by simp [isIdle, straddleStall], Or.inr rfl, ?_⟩
          · have hp : Part40 .fill21 (setSlice b1 0 8 (d / 2 ^ 8)) (setSlice b2 32 40 d) t [d % 2 ^ 8] :=
              ⟨_, rfl, e2.2.2.2.1⟩
            simp only [Pack40.cyc, Pack40.step, Pack40.stepFsm, Pack40.stepOut, Bool.false_eq_true, if_false, if_true]
            cases valid <;> cases bz <;>
              exact ⟨l1.2.2.1, l2.2.2.2.1, ht, hp, rfl, by simp_all, by simp [isSecond], by revert h5; simp [isSecond]⟩
          · rw [hg]
            simp only [Pack40.cyc, Pack40.step, Pack40.stepFsm, Pack40.stepOut, Bool.false_eq_true, if_false]
            clear h1 h2 hw hd l1 e1 l2 e2 hg
            cases valid <;> cases bz <;> simp_all [pack40Queue, Pack40.data]
        · refine ⟨[d % 2], [w1, w2, w3, w4, d / 2 ^ 8], ?_, by simp [isIdle, straddleStall], Or.inr rfl, ?_⟩
          · have hp : Part40 .idle2 (setSlice b1 0 8 (d / 2 ^ 8)) b2 (d % 2) [d % 2] := rfl
            simp only [Pack40.cyc, Pack40.step, Pack40.stepFsm, Pack40.stepOut, Bool.false_eq_true, if_false, if_true]
            cases valid <;> cases bz <;>
              exact ⟨l1.2.2.1, h2, Nat.mod_lt _ (by decide), hp, rfl, by simp_all, by simp [isSecond],
                by revert h5; simp [isSecond]⟩
          · rw [hg]
            simp only [Pack40.cyc, Pack40.step, Pack40.stepFsm, Pack40.stepOut, Bool.false_eq_true, if_false]
            clear h1 h2 hw hd l1 e1 l2 e2 hg
            cases valid <;> cases bz <;> simp_all [pack40Queue, Pack40.data]
    · cases h
  | idle2 =>
    have h7 := h7 rfl
    refine ⟨p, [], ?_, by simp [isIdle], Or.inl rfl, ?_⟩
    · have hp : Part40 .fill21 b1 (setSlice b2 32 40 t) t p := ⟨t, h3, by rw [e3.2.2.2.1]; omega⟩
      simp only [Pack40.cyc, Pack40.step, Pack40.stepFsm, Pack40.stepOut, Bool.false_eq_true, if_false]
      rcases h7 with ⟨rfl, rfl⟩ | ⟨_, rfl, rfl, rfl⟩
      · cases v1 <;> cases valid <;> cases bz <;>
          exact ⟨h1, l3.2.2.2.1, ht, hp, rfl, by simp_all, by simp [isSecond], by revert h5; simp [isSecond]⟩
      · cases valid <;> cases bz <;>
          exact ⟨h1, h2, ht, h3, rfl, by simp_all, by simp [isSecond], by revert h5; simp [isSecond]⟩
    · simp only [Pack40.cyc, Pack40.step, Pack40.stepFsm, Pack40.stepOut, Bool.false_eq_true, if_false]
      clear h1 h2 h3 hd l1 e1 l2 e2 l3 e3
      rcases h7 with ⟨rfl, rfl⟩ | ⟨_, rfl, rfl, rfl⟩
      · cases v1 <;> cases valid <;> cases bz <;> simp_all [pack40Queue, groups5, Pack40.data]
      · cases valid <;> cases bz <;> simp_all [pack40Queue, groups5, Pack40.data]
  | fill21 =>
    rcases h7 rfl with ⟨rfl, rfl⟩ | ⟨h, _⟩
    · clear h6 h7 l1 e1 l3 e3
      cases vi
      · refine ⟨p, [], ?_, by simp [isIdle], Or.inl rfl, ?_⟩
        · simp only [Pack40.cyc, Pack40.step, Pack40.stepFsm, Pack40.stepOut, Bool.false_eq_true, if_false]
          cases v1 <;> cases valid <;> cases bz <;>
            exact ⟨h1, h2, ht, h3, rfl, by simp_all, by simp [isSecond], by revert h5; simp [isSecond]⟩
        · simp only [Pack40.cyc, Pack40.step, Pack40.stepFsm, Pack40.stepOut, Bool.false_eq_true, if_false]
          clear h1 h2 h3 hd l2 e2
          cases v1 <;> cases valid <;> cases bz <;> simp_all [pack40Queue, groups5, Pack40.data]
      · obtain ⟨w1, rfl, hw⟩ := h3
        refine ⟨[w1, d / 2 ^ 8, d % 2 ^ 8], [], ?_, by simp [isIdle, straddleStall], Or.inl rfl, ?_⟩
        · have hp : Part40 .fill22 b1 (setSlice b2 16 32 d) t [w1, d / 2 ^ 8, d % 2 ^ 8] := by
            refine ⟨_, _, _, rfl, ?_⟩
            rw [e2.2.2.2.2.1, hw]; omega
          simp only [Pack40.cyc, Pack40.step, Pack40.stepFsm, Pack40.stepOut, Bool.false_eq_true, if_false, if_true]
          cases v1 <;> cases valid <;> cases bz <;>
            exact ⟨h1, l2.2.2.2.2.1, ht, hp, rfl, by simp_all, by simp [isSecond], by revert h5; simp [isSecond]⟩
        · simp only [Pack40.cyc, Pack40.step, Pack40.stepFsm, Pack40.stepOut, Bool.false_eq_true, if_false]
          clear h1 h2 hw hd l2 e2
          cases v1 <;> cases valid <;> cases bz <;> simp_all [pack40Queue, groups5, Pack40.data]
    · cases h
  | fill22 =>
    rcases h7 rfl with ⟨rfl, rfl⟩ | ⟨h, _⟩
    · clear h6 h7 l1 e1 l3 e3
      cases vi
      · refine ⟨p, [], ?_, by simp [isIdle], Or.inl rfl, ?_⟩
        · simp only [Pack40.cyc, Pack40.step, Pack40.stepFsm, Pack40.stepOut, Bool.false_eq_true, if_false]
          cases v1 <;> cases valid <;> cases bz <;>
            exact ⟨h1, h2, ht, h3, rfl, by simp_all, by simp [isSecond], by revert h5; simp [isSecond]⟩
        · simp only [Pack40.cyc, Pack40.step, Pack40.stepFsm, Pack40.stepOut, Bool.false_eq_true, if_false]
          clear h1 h2 h3 hd l2 e2
          cases v1 <;> cases valid <;> cases bz <;> simp_all [pack40Queue, groups5, Pack40.data]
      · obtain ⟨w1, w2, w3, rfl, hw⟩ := h3
        have hg : groups5 [w1, w2, w3, d / 2 ^ 8, d % 2 ^ 8] = [setSlice b2 0 16 d] := by
          simp only [groups5]
          rw [e2.2.2.2.2.2, hw, List.cons.injEq]
          exact ⟨by omega, rfl⟩
        refine ⟨[], [w1, w2, w3, d / 2 ^ 8, d % 2 ^ 8], ?_, by simp [isIdle, straddleStall], Or.inr rfl, ?_⟩
        · simp only [Pack40.cyc, Pack40.step, Pack40.stepFsm, Pack40.stepOut, Bool.false_eq_true, if_false, if_true]
          cases v1 <;> cases valid <;> cases bz <;>
            exact ⟨h1, l2.2.2.2.2.2, ht, rfl, rfl, by simp_all, by revert h5; simp [isSecond], by simp [isSecond]⟩
        · rw [hg]
          simp only [Pack40.cyc, Pack40.step, Pack40.stepFsm, Pack40.stepOut, Bool.false_eq_true, if_false]
          clear h1 h2 hw hd l2 e2 hg
          cases v1 <;> cases valid <;> cases bz <;> simp_all [pack40Queue, Pack40.data]
    · cases h

theorem groups5_append {g : List Nat} (h : g = [] ∨ g.length = 5) (l : List Nat) :
    groups5 (g ++ l) = groups5 g ++ groups5 l := by
  rcases h with rfl | h
  · simp [groups5]
  · match g, h with
    | [a, b, c, d, e], _ => simp [groups5]

theorem groups5_short {p : List Nat} (h : p.length < 5) : groups5 p = [] := by
  match p, h with
  | [], _ => rfl
  | [_], _ => rfl
  | [_, _], _ => rfl
  | [_, _, _], _ => rfl
  | [_, _, _, _], _ => rfl

theorem part40_short {s : Pack40} {p : List Nat} (h : Pack40Inv s p) : p.length < 5 := by
  have := h.part
  unfold Part40 at this
  split at this
  · subst this; decide
  · subst this; decide
  · obtain ⟨_, _, rfl, _⟩ := this; simp
  · obtain ⟨_, _, _, _, rfl, _⟩ := this; simp
  · subst this; simp
  · obtain ⟨_, rfl, _⟩ := this; simp
  · obtain ⟨_, _, _, rfl, _⟩ := this; simp

theorem pack40_run (ins : List Pack40In) (hd : ∀ i ∈ ins, i.data < 2 ^ 16) : ∀ {s : Pack40} {p : List Nat}, Pack40Inv s p →
    ∃ p', Pack40Inv (pack40Run s ins) p' ∧
      pack40Given s ins ++ pack40Queue (pack40Run s ins) = pack40Queue s ++ groups5 (p ++ pack40Kept s ins) := by
  induction ins with
  | nil =>
    intro s p h
    exact ⟨p, h, by simp [pack40Given, pack40Run, pack40Kept, groups5_short (part40_short h)]⟩
  | cons i r ih =>
    intro s p h
    obtain ⟨p1, g, a, b, c, e⟩ := pack40_step h i (hd i (List.mem_cons_self ..))
    obtain ⟨p2, a2, e2⟩ := ih (fun j hj => hd j (List.mem_cons_of_mem _ hj)) a
    refine ⟨p2, a2, ?_⟩
    simp only [pack40Given, pack40Run, pack40Kept]
    rw [List.append_assoc, e2, ← List.append_assoc, e, ← List.append_assoc p, b, List.append_assoc g,
      groups5_append c, List.append_assoc]

/-- The first cycle from reset. -/
theorem pack40_first (i : Pack40In) : Pack40.init.cyc i = { Pack40.init with fsm := .fill11 } ∧
    Pack40Inv (Pack40.init.cyc i) [] ∧ pack40Queue (Pack40.init.cyc i) = [] := by
  have : Pack40.init.cyc i = { Pack40.init with fsm := .fill11 } := by
    obtain ⟨d, vi, bz⟩ := i
    cases vi <;> cases bz <;> rfl
  refine ⟨this, ?_⟩
  rw [this]
  exact ⟨⟨by simp [Pack40.init], by simp [Pack40.init], by simp [Pack40.init], rfl, rfl, by simp [Pack40.init],
    by simp [Pack40.init], by simp [isSecond]⟩, rfl⟩

/-- C36, exact loss: from reset, not counting the first cycle, the 40-bit words given are at every moment a
prefix of the five-byte groups of the accepted bytes, in which the lower byte of each third word of five that
was accepted while the second buffer was still occupied is replaced by its lowest bit. -/
theorem C36_exact_loss (i0 : Pack40In) (ins : List Pack40In) (hd : ∀ i ∈ ins, i.data < 2 ^ 16) :
    pack40Given .init (i0 :: ins) <+: groups5 (pack40Kept (Pack40.init.cyc i0) ins) ∧
    (groups5 (pack40Kept (Pack40.init.cyc i0) ins)).length ≤ (pack40Given .init (i0 :: ins)).length + 2 := by
  obtain ⟨_, h1, h2⟩ := pack40_first i0
  obtain ⟨p, hi, h⟩ := pack40_run ins hd h1
  rw [h2, List.nil_append, List.nil_append] at h
  have e : pack40Given .init (i0 :: ins) = pack40Given (Pack40.init.cyc i0) ins := rfl
  rw [e]
  refine ⟨⟨_, h⟩, ?_⟩
  rw [← h, List.length_append]
  have : (pack40Queue (pack40Run (Pack40.init.cyc i0) ins)).length ≤ 2 := by
    unfold pack40Queue
    repeat' split
    all_goals simp
  omega

/-- With a consumer that is always ready, a buffer is empty again before it is needed. -/
def Pack40Ready (s : Pack40) : Prop :=
  (s.fsm = .idle1 ∧ s.valid1 = false ∧ s.valid2 = true ∧ s.chs = true ∧ s.valid = false) ∨
  (s.fsm = .fill11 ∧ s.valid1 = false ∧ (s.valid2 = false → s.valid = false ∧ s.chs = false) ∧ (s.valid2 = true → s.chs = true)) ∨
  (s.fsm = .fill12 ∧ s.valid1 = false ∧ (s.valid2 = false → s.valid = false ∧ s.chs = false) ∧ (s.valid2 = true → s.chs = true ∧ s.valid = true)) ∨
  (s.fsm = .fill13 ∧ s.valid1 = false ∧ s.valid2 = false ∧ s.valid = false ∧ s.chs = false) ∨
  (s.fsm = .fill21 ∧ s.valid2 = false ∧ (s.valid1 = false → s.valid = false ∧ s.chs = true) ∧ (s.valid1 = true → s.chs = false)) ∨
  (s.fsm = .fill22 ∧ s.valid2 = false ∧ (s.valid1 = false → s.valid = false ∧ s.chs = true) ∧ (s.valid1 = true → s.chs = false ∧ s.valid = true))

theorem pack40_ready_step {s : Pack40} (h : Pack40Ready s) (i : Pack40In) (hb : i.busy = false) :
    Pack40Ready (s.cyc i) := by
  obtain ⟨b1, v1, b2, v2, chs, t, valid, ob, fsm⟩ := s
  obtain ⟨d, vi, bz⟩ := i
  dsimp only at hb
  subst hb
  unfold Pack40Ready at *
  cases fsm <;> cases v1 <;> cases v2 <;> cases chs <;> cases valid <;> simp at h <;> cases vi <;>
    simp [Pack40.cyc, Pack40.step, Pack40.stepFsm, Pack40.stepOut]

theorem pack40_ready_kept (ins : List Pack40In) (hb : ∀ i ∈ ins, i.busy = false) : ∀ {s : Pack40}, Pack40Ready s →
    pack40Kept s ins = pack40Taken s ins := by
  induction ins with
  | nil => intros; rfl
  | cons i r ih =>
    intro s h
    simp only [pack40Kept, pack40Taken]
    rw [ih (fun j hj => hb j (List.mem_cons_of_mem _ hj)) (pack40_ready_step h i (hb i (List.mem_cons_self ..)))]
    have : straddleStall s = false := by
      unfold straddleStall
      unfold Pack40Ready at h
      by_cases hf : s.fsm = .fill13
      · simp only [hf] at h ⊢
        simp at h
        simp [h.2.1]
      · simp [hf]
    rw [this]
    simp

/-- C36, the good case: with a consumer that is ready in every cycle nothing is lost: the 40-bit words given
are a prefix of the five-byte groups of the accepted bytes. -/
theorem C36_lossless_when_always_ready (i0 : Pack40In) (ins : List Pack40In) (hd : ∀ i ∈ ins, i.data < 2 ^ 16)
    (hb : ∀ i ∈ ins, i.busy = false) :
    pack40Given .init (i0 :: ins) <+: groups5 (pack40Taken (Pack40.init.cyc i0) ins) ∧
    (groups5 (pack40Taken (Pack40.init.cyc i0) ins)).length ≤ (pack40Given .init (i0 :: ins)).length + 2 := by
  have h := C36_exact_loss i0 ins hd
  rwa [pack40_ready_kept ins hb (by rw [(pack40_first i0).1]; exact Or.inr (Or.inl ⟨rfl, rfl, by simp [Pack40.init], by simp [Pack40.init]⟩))] at h

/-- C36, the loss: there are two input histories, with the same handshakes, in which different bytes are accepted
and after which the packer is in the same state having given the same words, so no continuation can tell them apart. -/
theorem C36_loses_bits : ∃ a b : List Pack40In,
    a.map (fun i => (i.valid, i.busy)) = b.map (fun i => (i.valid, i.busy)) ∧
    (∀ i ∈ a ++ b, i.data < 2 ^ 16) ∧
    pack40Taken .init a ≠ pack40Taken .init b ∧
    (∀ rest, pack40Given .init (a ++ rest) = pack40Given .init (b ++ rest)) := by
  let f : Nat → List Pack40In := fun x => ⟨0, false, true⟩ :: ⟨1, true, true⟩ :: ⟨2, true, true⟩ :: ⟨3, true, true⟩ ::
    ⟨4, true, true⟩ :: ⟨5, true, true⟩ :: ⟨0, false, false⟩ :: ⟨0, false, true⟩ :: ⟨6, true, true⟩ :: ⟨7, true, true⟩ ::
    ⟨x, true, true⟩ :: []
  refine ⟨f 0x1234, f 0x1250, by decide, by decide, by decide, ?_⟩
  have happ : ∀ (l : List Pack40In) (s : Pack40) (rest : List Pack40In),
      pack40Given s (l ++ rest) = pack40Given s l ++ pack40Given (pack40Run s l) rest := by
    intro l
    induction l with
    | nil => intros; rfl
    | cons i r ih => intro s rest; simp only [List.cons_append, pack40Given, pack40Run, ih, List.append_assoc]
  intro rest
  rw [happ, happ]
  have h1 : pack40Run .init (f 0x1234) = pack40Run .init (f 0x1250) := by decide
  have h2 : pack40Given .init (f 0x1234) = pack40Given .init (f 0x1250) := by decide
  rw [h1, h2]

/-- C36, frame boundaries: the automatic reset of the core at the end of a frame resets only the packer's state
machine. There is a history `a`, always with a ready consumer, after which, everything complete having been given,
such a reset cycle makes the words given afterwards not even a prefix of the five-byte groups of the bytes accepted
afterwards: a stale word is given first. -/
theorem C36_frame_reset_gives_stale_word : ∃ a b : List Pack40In,
    (∀ i ∈ a ++ b, i.data < 2 ^ 16 ∧ i.busy = false) ∧
    (groups5 (pack40Taken .init a)).length = (pack40Given .init a).length ∧
    (let s := (pack40Run .init a).step 0 false false true
     s.valid = false ∧ ¬ pack40Given s b <+: groups5 (pack40Taken (s.cyc ⟨0, false, false⟩) (b.drop 1)) ∧
       b.head? = some ⟨0, false, false⟩) := by
  refine ⟨[⟨0, false, false⟩, ⟨0x0102, true, false⟩, ⟨0x0304, true, false⟩, ⟨0x0506, true, false⟩, ⟨0, false, false⟩,
      ⟨0, false, false⟩],
    [⟨0, false, false⟩, ⟨0x1111, true, false⟩, ⟨0x2222, true, false⟩, ⟨0x3333, true, false⟩, ⟨0, false, false⟩, ⟨0, false, false⟩],
    ?_, ?_, ?_⟩ <;> decide

/-- Five words through the packer. -/
example : pack40Given .init [⟨0, false, false⟩, ⟨0x0102, true, false⟩, ⟨0x0304, true, false⟩, ⟨0x0506, true, false⟩,
    ⟨0x0708, true, false⟩, ⟨0x090a, true, false⟩, ⟨0, false, false⟩, ⟨0, false, false⟩, ⟨0, false, false⟩] =
    [0x0102030405, 0x060708090a] := by decide

end Props
