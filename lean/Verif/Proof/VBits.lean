/- The bit packer preserves the marked bit stream. -/
import Verif.Model.VBits
import Verif.Proof.Converter
import Verif.Spec.Words

set_option autoImplicit false

namespace Model
open Spec

/-- In a marked stream the end mark can only be the last element. -/
def WellMarked (r : List (Option Bool)) : Prop := ∀ a b, r = a ++ none :: b → b = []

theorem WellMarked.prefix {a b : List (Option Bool)} (h : WellMarked (a ++ b)) : WellMarked a := by
  intro x y hxy
  have := h x (y ++ b) (by rw [hxy]; simp)
  simp at this; exact this.1

theorem Code.flat_ne_nil {w : Nat} {c : Code} (h : c.Ok w) : c.flat ≠ [] := by
  have := h.pos
  intro hh
  have hl := congrArg List.length hh
  simp [Code.flat] at hl
  omega

namespace VBits

/-- The word on the output registers (not yet transferred). -/
def cur (s : VBits) : List (Nat × Bool) := if s.valid then [(s.data, s.endd)] else []

/-- Tokens in the input handler, in order, as a marked stream. -/
def pendIn (s : VBits) : List (Option Bool) :=
  match s.ifsm with
  | .input => (if s.validBf then s.bf.flat else []) ++ (if s.validReg then s.reg.flat else [])
  | .cleanBuffer => s.reg.flat ++ (if s.validReg then s.bf.flat else [])
  | .registerForBurst => []
  | .burst => if s.validReg then s.reg.flat else []

/-- Invariant of the input handler. -/
structure InInv (conv : Nat) (s : VBits) : Prop where
  latch : s.latch = match s.ifsm with | .burst => true | .registerForBurst => true | _ => false
  input : s.ifsm = .input → (s.validBf = true → s.bf.Ok conv) ∧ (s.validReg = true → s.reg.Ok conv)
  clean : s.ifsm = .cleanBuffer → s.reg.Ok conv ∧ s.reg.ctr ≤ s.free ∧ (s.validReg = true → s.bf.Ok conv)
  rfb : s.ifsm = .registerForBurst → s.validReg = false
  burst : s.ifsm = .burst → (s.validReg = true → s.reg.Ok conv)

/-- Invariant of the output handler while the frame is not finished. -/
structure OutInv (s : VBits) : Prop where
  done : s.ofsm ≠ .done
  valid : s.valid = match s.ofsm with | .burst => true | _ => false
  endd : s.endd = false

/-- Invariant before the last word is on the output. -/
structure Live (out conv buf : Nat) (s : VBits) (sent : List (Nat × Bool))
    (recv : List (Option Bool)) : Prop where
  inp : InInv conv s
  outp : OutInv s
  count : if s.start then s.free + s.consum = buf else s = init
  sentEnd : ∀ w ∈ sent, w.2 = false
  pos : s.endIn = true → 0 < s.consum
  stream : (wordBits out (sent ++ cur s) ++ toBits s.consum s.buffer).map some ++
    (if s.endIn then [none] else []) ++ pendIn s = recv

/-- Invariant once the last word is on the output. -/
structure Done (out : Nat) (s : VBits) (sent : List (Nat × Bool))
    (recv : List (Option Bool)) : Prop where
  fsm : s.ofsm = .done
  valid : s.valid = true
  endd : s.endd = true
  stream : ∃ pre n k bits, sent = pre ++ List.replicate n (s.data, true) ∧ (∀ w ∈ pre, w.2 = false) ∧
    k < out ∧ recv = bits.map some ++ [none] ∧
    wordBits out pre ++ toBits out s.data = bits ++ List.replicate k false

/-- Invariant of the packer. -/
def Inv (out conv buf : Nat) (s : VBits) (sent : List (Nat × Bool)) (recv : List (Option Bool)) : Prop :=
  Live out conv buf s sent recv ∨ Done out s sent recv

theorem inv_init {out conv buf : Nat} : Inv out conv buf init [] [] := by
  left
  refine ⟨⟨rfl, by simp [init], by simp [init], by simp [init], by simp [init]⟩,
    ⟨by simp [init], rfl, rfl⟩, by simp [init], by simp, by simp [init], ?_⟩
  simp [cur, init, wordBits, pendIn, toBits]

theorem trunc_eq {w n : Nat} {x : Int} (h : x = (n : Int)) (hn : n < 2 ^ w) : trunc w x = n := by
  subst h
  unfold trunc
  have : ((n : Int) % 2 ^ w) = ((n % 2 ^ w : Nat) : Int) := by simp
  rw [this, Nat.mod_eq_of_lt hn]; simp

/-- The input handler's edge: its invariant, the token inserted in the buffer and what it received. -/
theorem inStep_ok {conv : Nat} {s : VBits} (h : InInv conv s) {inp : Code} {v : Bool}
    (hin : v = true → inp.Ok conv) :
    (if s.incBuff then s.reg.flat else []) ++ pendIn (s.inStep inp v) =
      pendIn s ++ (if s.latch && v then inp.flat else []) ∧
    (s.incBuff = true → s.reg.Ok conv ∧ s.reg.ctr ≤ s.free) ∧
    (s.inStep inp v).endIn = (if s.incBuff then s.reg.endd else s.endIn) ∧
    (∀ f, s.free ≤ f → InInv conv { s.inStep inp v with free := f }) := by
  have hl := h.latch
  unfold inStep
  cases hf : s.ifsm with
  | input =>
    rw [hf] at hl; simp only at hl
    obtain ⟨h1, h2⟩ := h.input hf
    simp only [incBuff, hf]
    cases hb : s.validBf with
    | true =>
      simp only [if_true]
      by_cases hle : s.bf.ctr ≤ s.free
      · rw [if_pos hle]
        refine ⟨by simp [pendIn, hf, hl, hb], by simp, by simp, ?_⟩
        intro f hf'
        exact ⟨hl, by simp, fun _ => ⟨h1 hb, by simp; omega, h2⟩, by simp, by simp⟩
      · rw [if_neg hle]
        refine ⟨by simp [hl], by simp, by simp, ?_⟩
        intro f hf'
        exact ⟨by simp [hl, hf], fun _ => ⟨h1, h2⟩, by simp [hf], by simp [hf], by simp [hf]⟩
    | false =>
      simp only [Bool.false_eq_true, if_false]
      cases hr : s.validReg with
      | true =>
        simp only [if_true]
        refine ⟨by simp [pendIn, hf, hl, hb, hr], by simp, by simp, ?_⟩
        intro f _
        exact ⟨rfl, by simp, by simp, by simp, fun _ _ => h2 hr⟩
      | false =>
        simp only [Bool.false_eq_true, if_false]
        refine ⟨by simp [pendIn, hf, hl, hb, hr], by simp, by simp, ?_⟩
        intro f _
        exact ⟨rfl, by simp, by simp, fun _ => rfl, by simp⟩
  | cleanBuffer =>
    rw [hf] at hl; simp only at hl
    obtain ⟨h1, h2, h3⟩ := h.clean hf
    simp only [incBuff, hf]
    cases hr : s.validReg with
    | true =>
      simp only [if_true]
      refine ⟨by simp [pendIn, hf, hl, hr], fun _ => ⟨h1, h2⟩, trivial, ?_⟩
      intro f _
      exact ⟨rfl, by simp, by simp, by simp, fun _ _ => h3 hr⟩
    | false =>
      simp only [Bool.false_eq_true, if_false, if_true]
      refine ⟨by simp [pendIn, hf, hl, hr], fun _ => ⟨h1, h2⟩, trivial, ?_⟩
      intro f _
      exact ⟨rfl, by simp, by simp, fun _ => rfl, by simp⟩
  | registerForBurst =>
    rw [hf] at hl; simp only at hl
    simp only [incBuff, hf]
    refine ⟨by simp [pendIn, hf, hl], by simp, by simp, ?_⟩
    intro f _
    exact ⟨by simp [hl], by simp, by simp, by simp, fun _ => hin⟩
  | burst =>
    rw [hf] at hl; simp only at hl
    have h1 := h.burst hf
    simp only [incBuff, hf]
    cases hr : s.validReg with
    | true =>
      simp only [if_true, Bool.true_and, decide_eq_true_eq]
      by_cases hle : s.reg.ctr ≤ s.free
      · simp only [if_pos hle]
        refine ⟨by simp [pendIn, hf, hl, hr], fun _ => ⟨h1 hr, hle⟩, trivial, ?_⟩
        intro f _
        exact ⟨by simp [hf], by simp [hf], by simp [hf], by simp [hf], fun _ => hin⟩
      · simp only [if_neg hle]
        refine ⟨by simp [pendIn, hf, hl, hr], fun hh => absurd hh hle, by simp, ?_⟩
        intro f _
        exact ⟨rfl, fun _ => ⟨fun _ => h1 hr, hin⟩, by simp, by simp, by simp⟩
    | false =>
      simp only [Bool.false_eq_true, if_false, Bool.false_and]
      refine ⟨by simp [pendIn, hf, hl, hr], by simp, trivial, ?_⟩
      intro f _
      exact ⟨by simp [hl, hf], by simp [hf], by simp [hf], by simp [hf], fun _ => hin⟩

/-- What is transferred in a cycle. -/
def transfer (s : VBits) (busy : Bool) : List (Nat × Bool) :=
  if s.valid && !busy then [(s.data, s.endd)] else []

/-- The last word, when `do_output` runs with `end_in` and at most one word of bits left. -/
theorem last_word {out buf : Nat} {s : VBits} (hpos : 0 < s.consum)
    (hle : s.consum ≤ out) (hb : out ≤ buf) :
    ∃ k, k < out ∧ toBits out (if s.consum ≥ out then
        (s.buffer >>> trunc (bitsFor (buf - out)) ((s.consum : Int) - out)) % 2 ^ out
      else (s.buffer <<< trunc (bitsFor (out - 1)) ((out : Int) - s.consum)) % 2 ^ out)
      = toBits s.consum s.buffer ++ List.replicate k false := by
  by_cases he : s.consum ≥ out
  · rw [if_pos he]
    have e : s.consum = out := by omega
    rw [trunc_eq (n := 0) (by omega) (Nat.two_pow_pos _)]
    exact ⟨0, by omega, by simp [toBits_mod, e]⟩
  · rw [if_neg he]
    rw [trunc_eq (n := out - s.consum) (by omega)
      (Nat.lt_of_le_of_lt (by omega) (Code.lt_two_pow_bitsFor (out - 1)))]
    refine ⟨out - s.consum, by omega, ?_⟩
    rw [toBits_mod (Nat.le_refl _)]
    have := toBits_or_shift (a := s.consum) (b := out - s.consum) (x := s.buffer) (y := 0)
      (Nat.two_pow_pos _)
    rw [Nat.or_zero, Nat.add_sub_cancel' (by omega)] at this
    rw [this, toBits_zero]

/-- A full word: the oldest `out` bits. -/
theorem full_word {out buf : Nat} {s : VBits} (hge : out ≤ s.consum) (hb : s.consum ≤ buf) :
    toBits out ((s.buffer >>> trunc (bitsFor (buf - out)) ((s.consum : Int) - out)) % 2 ^ out)
      ++ toBits (s.consum - out) s.buffer = toBits s.consum s.buffer := by
  rw [trunc_eq (n := s.consum - out) (by omega)
      (Nat.lt_of_le_of_lt (by omega) (Code.lt_two_pow_bitsFor (buf - out))),
    toBits_mod (Nat.le_refl _), ← toBits_add, Nat.add_sub_cancel' hge]

theorem step_init {out buf : Nat} (ho : 0 < out) (inp : Code) (v busy : Bool) :
    init.step out buf inp v busy =
      { init with start := true, free := buf, latch := true, ifsm := .registerForBurst } := by
  have : init.doOutput out busy = false := by simp [doOutput, init]; omega
  simp only [step, outStep, this]
  simp [init, incBuff, inStep]

theorem wordBits_append (out : Nat) (a b : List (Nat × Bool)) :
    wordBits out (a ++ b) = wordBits out a ++ wordBits out b := by simp [wordBits]

/-- With the end mark inside there is no token left. -/
theorem live_end {out conv buf : Nat} {s : VBits} {sent : List (Nat × Bool)} {recv : List (Option Bool)}
    (h : Live out conv buf s sent recv) {x : List (Option Bool)} (hw : WellMarked (recv ++ x))
    (he : s.endIn = true) : pendIn s = [] ∧ x = [] := by
  have hs := h.stream
  rw [he] at hs
  simp only [if_true] at hs
  have := hw ((wordBits out (sent ++ cur s) ++ toBits s.consum s.buffer).map some) (pendIn s ++ x) (by
    rw [← hs]
    simp only [List.append_assoc, List.singleton_append]
    rfl)
  simpa using this

theorem live_end_inc {out conv buf : Nat} {s : VBits} {sent : List (Nat × Bool)} {recv : List (Option Bool)}
    (h : Live out conv buf s sent recv) (hp : pendIn s = []) : s.incBuff = false := by
  unfold incBuff
  unfold pendIn at hp
  cases hf : s.ifsm with
  | input => rfl
  | registerForBurst => rfl
  | cleanBuffer =>
    rw [hf] at hp
    simp only at hp
    exact absurd (List.append_eq_nil_iff.1 hp).1 (Code.flat_ne_nil (h.inp.clean hf).1)
  | burst =>
    rw [hf] at hp
    simp only at hp ⊢
    cases hr : s.validReg with
    | false => rfl
    | true =>
      rw [hr] at hp
      exact absurd hp (Code.flat_ne_nil (h.inp.burst hf hr))

/-- Output side of one edge, before the end. -/
theorem out_ok {out conv buf : Nat} (ho : 0 < out) (hb : conv + out ≤ buf) {s : VBits}
    {sent : List (Nat × Bool)} {recv : List (Option Bool)} (h : Live out conv buf s sent recv)
    (hst : s.start = true) (busy : Bool) (hnd : s.doOutput out busy = true → ¬ (s.consum ≤ out ∧ s.endIn = true)) :
    let o := s.outStep out buf busy
    let left := if s.doOutput out busy then s.consum - out else s.consum
    (s.doOutput out busy = true → out ≤ s.consum) ∧
    o.1 ≠ .done ∧ o.2.2.1 = (match o.1 with | .burst => true | _ => false) ∧ o.2.2.2 = false ∧
    wordBits out (sent ++ transfer s busy ++ (if o.2.2.1 then [(o.2.1, o.2.2.2)] else [])) ++
      toBits left s.buffer = wordBits out (sent ++ cur s) ++ toBits s.consum s.buffer := by
  intro o left
  have hc : s.free + s.consum = buf := by have := h.count; rwa [if_pos hst] at this
  have hge : s.doOutput out busy = true → out ≤ s.consum := by
    intro hd
    have := hnd hd
    unfold doOutput at hd
    cases hf : s.ofsm with
    | output => rw [hf] at hd; simp at hd; by_cases h1 : out ≤ s.consum
                · exact h1
                · exfalso; apply this; rcases hd with hd | hd
                  · exact absurd hd h1
                  · exact hd
    | burst => rw [hf] at hd; simp at hd; exact hd.2
    | done => rw [hf] at hd; simp at hd
  refine ⟨hge, ?_⟩
  have hval := h.outp.valid
  have hend := h.outp.endd
  cases hd : s.doOutput out busy with
  | true =>
    have hge' := hge hd
    have hfw := full_word hge' (show s.consum ≤ buf by omega)
    simp only [o, left, outStep, hd, if_true, if_neg (hnd hd), if_pos hge', hend]
    refine ⟨by simp, trivial, trivial, ?_⟩
    have htr : transfer s busy = cur s := by
      unfold transfer cur
      cases hf : s.ofsm with
      | output => rw [hf] at hval; simp at hval; simp [hval]
      | burst =>
        rw [hf] at hval; simp at hval
        unfold doOutput at hd
        rw [hf] at hd
        simp at hd
        simp [hval, hd.1]
      | done => exact absurd hf h.outp.done
    rw [htr, wordBits_append, List.append_assoc]
    congr 1
    simp only [wordBits, List.flatMap_cons, List.flatMap_nil, List.append_nil]
    exact hfw
  | false =>
    simp only [o, left, outStep, hd, Bool.false_eq_true, if_false]
    cases hf : s.ofsm with
    | output =>
      rw [hf] at hval; simp at hval
      simp [hval, hend, transfer, cur]
    | burst =>
      rw [hf] at hval; simp at hval
      cases busy with
      | true => simp [hval, hend, transfer, cur]
      | false => simp [hval, hend, transfer, cur]
    | done => exact absurd hf h.outp.done

/-- One edge of the packer preserves the invariant. -/
theorem step_ok {out conv buf : Nat} (ho : 0 < out) (hb : conv + out ≤ buf) {s : VBits}
    {sent : List (Nat × Bool)} {recv : List (Option Bool)} (h : Inv out conv buf s sent recv)
    {inp : Code} {v busy : Bool} (hin : v = true → inp.Ok conv)
    (hw : WellMarked (recv ++ if s.latch && v then inp.flat else [])) :
    Inv out conv buf (s.step out buf inp v busy) (sent ++ transfer s busy)
      (recv ++ if s.latch && v then inp.flat else []) := by
  rcases h with h | h
  · cases hst : s.start with
    | false =>
      have hc := h.count
      rw [hst] at hc
      simp only [Bool.false_eq_true, if_false] at hc
      subst hc
      rw [step_init ho]
      left
      have hs := h.stream
      refine ⟨⟨rfl, by simp, by simp, fun _ => rfl, by simp⟩, ⟨by simp [init], rfl, rfl⟩, ?_, ?_,
        by simp [init], ?_⟩
      · simp [init]
      · simpa [transfer, init] using h.sentEnd
      · simp [transfer, init, cur, pendIn, toBits] at hs ⊢
        exact hs
    | true =>
      have hc : s.free + s.consum = buf := by have := h.count; rwa [if_pos hst] at this
      obtain ⟨i1, i2, i3, i4⟩ := inStep_ok (s := s) h.inp (inp := inp) (v := v) hin
      have hstream := h.stream
      by_cases hfin : s.doOutput out busy = true ∧ (s.consum ≤ out ∧ s.endIn = true)
      · -- last word goes out
        obtain ⟨hd, hle, he⟩ := hfin
        obtain ⟨hp, hx⟩ := live_end h hw he
        rw [hx] at hw ⊢
        obtain ⟨k, hk, hlw⟩ := last_word (buf := buf) (h.pos he) hle (by omega)
        right
        refine ⟨?_, ?_, ?_, sent ++ transfer s busy, 0, k,
          wordBits out (sent ++ cur s) ++ toBits s.consum s.buffer, by simp, ?_, hk, ?_, ?_⟩
        · simp [step, outStep, hd, hle, he]
        · simp [step, outStep, hd, hle, he]
        · simp [step, outStep, hd, hle, he]
        · intro w hw'
          rcases List.mem_append.1 hw' with hw' | hw'
          · exact h.sentEnd w hw'
          · unfold transfer at hw'
            split at hw'
            · simp at hw'; rw [hw']; exact h.outp.endd
            · simp at hw'
        · rw [← hstream, hp, he]; simp
        · have htr : transfer s busy = cur s := by
            have hval := h.outp.valid
            unfold transfer cur
            cases hf : s.ofsm with
            | output => rw [hf] at hval; simp at hval; simp [hval]
            | burst =>
              rw [hf] at hval; simp at hval
              unfold doOutput at hd
              rw [hf] at hd
              simp at hd
              simp [hval, hd.1]
            | done => exact absurd hf h.outp.done
          rw [htr, List.append_assoc]
          congr 1
          simp only [step, outStep, hd, if_true, hle, he, and_self]
          exact hlw
      · -- an ordinary cycle
        obtain ⟨o1, o2, o3, o4, o5⟩ := out_ok ho hb h hst busy (fun hd hh => hfin ⟨hd, hh⟩)
        left
        have hincEnd : s.endIn = true → s.incBuff = false := fun he =>
          live_end_inc h (live_end h hw he).1
        -- counters
        let left := if s.doOutput out busy then s.consum - out else s.consum
        have hleft : left ≤ s.consum := by simp only [left]; split <;> omega
        have hcons : (s.step out buf inp v busy).consum =
            left + if s.incBuff then s.reg.ctr else 0 := by
          simp only [step]
          have hlt := Code.lt_two_pow_bitsFor buf
          cases hd : s.doOutput out busy <;> cases hi : s.incBuff
          · simp [left, hd]
          · obtain ⟨a, b⟩ := i2 hi
            simp only [Bool.true_or, if_true, Bool.false_eq_true, if_false, left, hd]
            exact trunc_eq (by omega) (by omega)
          · have := o1 hd
            simp only [Bool.or_true, if_true, Bool.false_eq_true, if_false, left, hd]
            exact trunc_eq (by omega) (by omega)
          · obtain ⟨a, b⟩ := i2 hi
            have := o1 hd
            simp only [Bool.true_or, if_true, left, hd]
            exact trunc_eq (by omega) (by omega)
        have hfree : (s.step out buf inp v busy).free + (s.step out buf inp v busy).consum = buf := by
          rw [hcons]
          have hlt := Code.lt_two_pow_bitsFor buf
          simp only [step]
          cases hd : s.doOutput out busy <;> cases hi : s.incBuff
          · simp [left, hd, hst]; omega
          · obtain ⟨a, b⟩ := i2 hi
            simp only [Bool.true_or, if_true, Bool.false_eq_true, if_false, left, hd]
            rw [trunc_eq (n := s.free - s.reg.ctr) (by omega) (by omega)]; omega
          · have := o1 hd
            simp only [Bool.or_true, if_true, Bool.false_eq_true, if_false, left, hd]
            rw [trunc_eq (n := s.free + out) (by omega) (by omega)]; omega
          · obtain ⟨a, b⟩ := i2 hi
            have := o1 hd
            simp only [Bool.true_or, if_true, left, hd]
            rw [trunc_eq (n := s.free + out - s.reg.ctr) (by omega) (by omega)]; omega
        have hfle : s.incBuff = false → s.free ≤ (s.step out buf inp v busy).free := by
          intro hi
          have e := hfree
          rw [hcons, hi] at e
          simp at e; omega
        have hbufb : toBits (s.step out buf inp v busy).consum (s.step out buf inp v busy).buffer =
            toBits left s.buffer ++ if s.incBuff then toBits s.reg.ctr s.reg.enc else [] := by
          have hle : (s.step out buf inp v busy).consum ≤ buf := by omega
          rw [hcons] at hle ⊢
          simp only [step]
          cases hi : s.incBuff
          · simp
          · obtain ⟨a, b⟩ := i2 hi
            rw [hi] at hle
            simp only [if_true] at hle ⊢
            rw [toBits_mod hle, toBits_or_shift a.enc]
        have hpend : pendIn (s.step out buf inp v busy) = pendIn (s.inStep inp v) := rfl
        have hcur : cur (s.step out buf inp v busy) = if (s.outStep out buf busy).2.2.1 then
            [((s.outStep out buf busy).2.1, (s.outStep out buf busy).2.2.2)] else [] := rfl
        have hend : (s.step out buf inp v busy).endIn = (if s.incBuff then s.reg.endd else s.endIn) := i3
        refine ⟨?_, ⟨o2, o3, o4⟩, ?_, ?_, ?_, ?_⟩
        · -- input invariant
          cases hi : s.incBuff with
          | false =>
            have := i4 _ (hfle hi)
            exact ⟨this.latch, this.input, this.clean, this.rfb, this.burst⟩
          | true =>
            -- after an insertion the handler is not in cleanBuffer
            have := i4 _ (Nat.le_refl _)
            refine ⟨this.latch, this.input, ?_, this.rfb, this.burst⟩
            intro hcl
            exfalso
            change (s.inStep inp v).ifsm = .cleanBuffer at hcl
            revert hcl hi
            unfold incBuff inStep
            cases hf : s.ifsm <;> simp only <;> intro h1 h2
            · simp at h1
            · revert h2; cases s.validReg <;> simp
            · simp at h1
            · cases hr : s.validReg
              · simp [hr] at h1
              · simp [hr] at h1
                simp [hr, h1, hf] at h2
        · have : (s.step out buf inp v busy).start = true := rfl
          rw [this]; simpa using hfree
        · intro w hw'
          rcases List.mem_append.1 hw' with hw' | hw'
          · exact h.sentEnd w hw'
          · unfold transfer at hw'
            split at hw'
            · simp at hw'; rw [hw']; exact h.outp.endd
            · simp at hw'
        · rw [hend, hcons]
          cases hi : s.incBuff with
          | true => intro _; have := (i2 hi).1.pos; simp; omega
          | false =>
            simp only [Bool.false_eq_true, if_false, Nat.add_zero]
            intro he
            have hp := h.pos he
            simp only [left]
            split
            · rename_i hd
              by_cases hle : s.consum ≤ out
              · exact absurd ⟨hd, hle, he⟩ hfin
              · omega
            · exact hp
        · rw [hbufb, hcur, hpend, hend]
          rw [← hstream]
          rw [← List.append_assoc (wordBits _ _), o5]
          rw [List.map_append, List.append_assoc, List.append_assoc, List.append_assoc, List.append_assoc, ← i1]
          cases hi : s.incBuff with
          | true =>
            have he : s.endIn = false := by
              cases he : s.endIn with
              | false => rfl
              | true => rw [hincEnd he] at hi; cases hi
            simp only [if_true, he, Bool.false_eq_true, if_false, List.nil_append]
            simp [Code.flat]
          | false => simp
  · -- done
    obtain ⟨pre, n, k, bits, h1, h2, h3, h4, h5⟩ := h.stream
    have hx : (if s.latch && v then inp.flat else []) = [] := by
      rw [h4] at hw
      have := hw (bits.map some) (if s.latch && v then inp.flat else []) (by simp)
      exact this
    rw [hx]
    right
    have hd : s.doOutput out busy = false := by simp [doOutput, h.fsm]
    have hdata : (s.step out buf inp v busy).data = s.data := by simp [step, outStep, hd, h.fsm]
    refine ⟨by simp [step, outStep, hd, h.fsm], by simp [step, outStep, hd, h.fsm, h.valid],
      by simp [step, outStep, hd, h.fsm, h.endd], pre, n + (if busy then 0 else 1), k, bits, ?_, h2, h3,
      by simpa using h4, by rw [hdata]; exact h5⟩
    rw [hdata, h1]
    cases busy
    · simp [transfer, h.valid, h.endd, List.replicate_succ']
    · simp [transfer]

end VBits
end Model
