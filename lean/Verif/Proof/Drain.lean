/- A bound on the time the core needs to give out the rest of a complete frame: a weighted count of what is inside. -/
import Verif.Proof.Live

set_option autoImplicit false

namespace Model
open Spec

namespace Drain

variable {c : CoreCfg} {C : Nat} {T : Table}

/-- Output words a piece can add to the packer's buffer. -/
def wg (c : CoreCfg) : Nat := c.conv / c.out + 1
/-- Most pieces a code word is cut into. -/
def wS (c : CoreCfg) : Nat := c.total / c.conv + 1
/-- Weight of a piece before the converter's output registers. -/
def wp (c : CoreCfg) : Nat := wg c + 4
/-- Weight of a code word in the converter. -/
def wr (c : CoreCfg) : Nat := wS c * wp c

/-- Weight of the converter. -/
def convW (c : CoreCfg) (s : Converter) : Nat :=
  s.todo * wp c + s.validReg.toNat * wr c + s.valid.toNat * (wg c + 3)

/-- Pieces in the packer's input handler. -/
def pieces (s : VBits) : Nat :=
  match s.ifsm with
  | .input => s.validBf.toNat + s.validReg.toNat
  | .cleanBuffer => 1 + s.validReg.toNat
  | .registerForBurst => 0
  | .burst => s.validReg.toNat

/-- Weight of the packer. -/
def vW (c : CoreCfg) (s : VBits) : Nat := pieces s * (wg c + 1) + s.consum / c.out

/-- Weight of everything behind the encoding pipeline. -/
def phi (c : CoreCfg) (s : Int3) : Nat :=
  s.int2.pfifo.level * (wr c + 1) + convW c s.int2.conv + s.int2.cfifo.level * (wg c + 2) + vW c s.vbits

theorem conv_weight {s : Converter} (hi : s.Inv c.total c.conv) (inp : Code) (v cf : Bool) :
    convW c (s.step c.total c.conv inp v cf) + s.valid.toNat * (wg c + 3) + (s.step c.total c.conv inp v cf).valid.toNat ≤
      convW c s + (s.latch && v).toNat * wr c := by
  have hl := hi.latch
  have hp := hi.prep
  have hr1 : wg c + 4 ≤ wr c := by
    unfold wr wS wp
    rw [Nat.add_mul]; omega
  have hpick : ∀ i, Converter.pick c.total c.conv s.reg.ctr = some i → (i + 1) * wp c + wp c ≤ wr c := by
    intro i h
    have hm := List.mem_of_find?_eq_some h
    simp only [List.mem_range, Converter.steps] at hm
    have : (i + 1 + 1) * wp c ≤ wS c * wp c := Nat.mul_le_mul_right _ (by unfold wS; omega)
    rw [Nat.add_mul] at this
    unfold wr; omega
  obtain ⟨fsm, latch, reg, vr, el, en, out, va⟩ := s
  simp only at hl hp hpick
  subst hl
  cases fsm with
  | idle =>
    simp only [Converter.step, Converter.tryBurst]
    cases vr <;> cases v <;> cases cf <;> cases va <;> simp [convW, Converter.todo]
  | burstPrepare =>
    have := hp rfl
    subst this
    cases v <;> cases va <;> simp [Converter.step, Converter.regData, convW, Converter.todo] <;> omega
  | burst =>
    cases vr with
    | false => cases v <;> cases va <;> simp [Converter.step, Converter.regData, convW, Converter.todo] <;> omega
    | true =>
      by_cases hle : reg.ctr ≤ c.conv
      · cases v <;> cases va <;> cases cf <;> simp [Converter.step, Converter.regData, convW, Converter.todo, hle] <;> omega
      · cases hpk : Converter.pick c.total c.conv reg.ctr with
        | none => cases v <;> cases va <;> simp [Converter.step, Converter.regData, convW, Converter.todo, hle, hpk] <;> omega
        | some i =>
          have := hpick i hpk
          unfold wp at this
          cases v <;> cases va <;> simp [Converter.step, Converter.regData, convW, Converter.todo, hle, hpk, wp] <;> omega
  | steps i =>
    cases i with
    | zero =>
      simp only [Converter.step, Converter.tryBurst]
      cases vr <;> cases v <;> cases cf <;> cases va <;> simp [convW, Converter.todo, wp] <;> omega
    | succ i =>
      have : (i + 1 + 1) * wp c = (i + 1) * wp c + wp c := by rw [Nat.add_mul (i + 1)]; omega
      cases vr <;> cases va <;> simp [Converter.step, convW, Converter.todo, this] <;> simp [wp] <;> omega

theorem cfifo_weight {s : Int2} {depth : Nat} (hi : s.cfifo.Inv depth) (we : Bool) (din : Nat) (re : Bool) :
    (s.cfifo.step depth we din re).level + (re && s.cfifo.readable).toNat ≤ s.cfifo.level + we.toNat := by
  rw [← Fifo.contents_length depth, Fifo.contents_step hi, ← Fifo.contents_length depth (s.cfifo)]
  rw [List.length_append, List.length_drop]
  cases hr : s.cfifo.readable with
  | false => cases we <;> cases s.cfifo.writable depth <;> cases re <;> simp
  | true =>
    rw [Fifo.contents_readable hr]
    cases we <;> cases s.cfifo.writable depth <;> cases re <;> simp

theorem pieces_step {conv : Nat} {s : VBits} (h : s.InInv conv) (inp : Code) (v : Bool) :
    pieces (s.inStep inp v) + s.incBuff.toNat = pieces s + (s.latch && v).toNat := by
  have hl := h.latch
  have hr := h.rfb
  obtain ⟨of, d, va, en, fsm, latch, b, co, fr, st, ei, reg, vr, bf, vb⟩ := s
  simp only at hl hr
  subst hl
  cases fsm with
  | input =>
    by_cases hle : bf.ctr ≤ fr
    · cases vb <;> cases vr <;> simp [VBits.inStep, pieces, VBits.incBuff, hle]
    · cases vb <;> cases vr <;> simp [VBits.inStep, pieces, VBits.incBuff, hle]
  | cleanBuffer => cases vr <;> simp [VBits.inStep, pieces, VBits.incBuff]
  | registerForBurst =>
    have := hr rfl
    subst this
    cases v <;> simp [VBits.inStep, pieces, VBits.incBuff]
  | burst =>
    by_cases hle : reg.ctr ≤ fr
    · cases vr <;> cases v <;> simp [VBits.inStep, pieces, VBits.incBuff, hle]
    · cases vr <;> cases v <;> simp [VBits.inStep, pieces, VBits.incBuff, hle]

/-- The bits in the packer's buffer, as long as the last word is not out. -/
theorem consum_any {out conv buf : Nat} {s : VBits} {sent : List (Nat × Bool)} {recv : List (Option Bool)}
    (h : s.Live out conv buf sent recv) (hst : s.start = true) (inp : Code) (v busy : Bool)
    (hd : (s.step out buf inp v busy).ofsm ≠ .done) :
    (s.step out buf inp v busy).consum + (if s.doOutput out busy then out else 0) =
      s.consum + (if s.incBuff then s.reg.ctr else 0) ∧ (s.doOutput out busy = true → out ≤ s.consum) := by
  have hcnt := h.count
  rw [hst] at hcnt
  simp only [if_true] at hcnt
  have hinc : s.incBuff = true → s.reg.ctr ≤ s.free :=
    fun hi => ((VBits.inStep_ok h.inp (inp := Code.zero) (v := false) (by simp)).2.1 hi).2
  have hge : s.doOutput out busy = true → out ≤ s.consum := by
    intro hdo
    have hd' : ¬ (s.consum ≤ out ∧ s.endIn = true) := by
      intro hh
      apply hd
      simp [VBits.step, VBits.outStep, hdo, hh]
    unfold VBits.doOutput at hdo
    cases hf : s.ofsm <;> rw [hf] at hdo <;> simp at hdo
    · rcases hdo with hdo | hdo
      · exact hdo
      · exact absurd hdo hd'
    · exact hdo.2
  refine ⟨?_, hge⟩
  have hlt := Code.lt_two_pow_bitsFor buf
  cases hi : s.incBuff <;> cases hdo : s.doOutput out busy
  · simp [VBits.step, hi, hdo]
  · have := hge hdo
    simp only [VBits.step, hi, hdo, Bool.or_true, if_true]
    rw [VBits.trunc_eq (n := s.consum - out)]
    · simp; omega
    · simp; omega
    · omega
  · have := hinc hi
    simp only [VBits.step, hi, hdo, Bool.true_or, if_true]
    rw [VBits.trunc_eq (n := s.consum + s.reg.ctr)]
    · simp
    · simp
    · omega
  · have := hinc hi
    have := hge hdo
    simp only [VBits.step, hi, hdo, Bool.true_or, if_true]
    rw [VBits.trunc_eq (n := s.consum - out + s.reg.ctr)]
    · omega
    · omega
    · omega

theorem packer_weight (hok : CoreOk c C T) {s : VBits} {sent : List (Nat × Bool)} {recv : List (Option Bool)}
    (h : s.Live c.out c.conv c.buf sent recv) (hst : s.start = true) (inp : Code) (v busy : Bool)
    (hd : (s.step c.out c.buf inp v busy).ofsm ≠ .done) :
    vW c (s.step c.out c.buf inp v busy) + s.incBuff.toNat + (s.doOutput c.out busy).toNat ≤
      vW c s + (s.latch && v).toNat * (wg c + 1) := by
  obtain ⟨h1, h2⟩ := consum_any h hst inp v busy hd
  have hp := pieces_step h.inp inp v
  have hp' : pieces (s.step c.out c.buf inp v busy) = pieces (s.inStep inp v) := rfl
  have hctr : s.incBuff = true → s.reg.ctr ≤ c.conv :=
    fun hi => ((VBits.inStep_ok h.inp (inp := Code.zero) (v := false) (by simp)).2.1 hi).1.ctr
  have ho := hok.out
  generalize hn : (s.step c.out c.buf inp v busy).consum = n at h1
  have hdiv : n / c.out + (s.doOutput c.out busy).toNat ≤ s.consum / c.out + s.incBuff.toNat * wg c := by
    have e1 : n / c.out + (s.doOutput c.out busy).toNat = (n + (if s.doOutput c.out busy then c.out else 0)) / c.out := by
      cases s.doOutput c.out busy
      · simp
      · simp only [if_true, Bool.toNat_true]; rw [Nat.add_div_right _ ho]
    rw [e1, h1]
    cases hi : s.incBuff with
    | false => simp
    | true =>
      simp only [if_true, Bool.toNat_true, Nat.one_mul]
      have hc := hctr hi
      have : (s.consum + s.reg.ctr) / c.out ≤ (s.consum + c.conv) / c.out := Nat.div_le_div_right (by omega)
      refine Nat.le_trans this ?_
      unfold wg
      have a1 := Nat.div_add_mod s.consum c.out
      have a2 := Nat.div_add_mod c.conv c.out
      have a3 := Nat.mod_lt s.consum ho
      have a4 := Nat.mod_lt c.conv ho
      rw [Nat.le_iff_lt_add_one, Nat.div_lt_iff_lt_mul ho, Nat.add_mul, Nat.add_mul, Nat.add_mul, Nat.mul_comm (s.consum / c.out),
        Nat.mul_comm (c.conv / c.out)]
      omega
  unfold vW
  rw [hp', hn]
  generalize pieces (s.inStep inp v) = p' at *
  generalize pieces s = p at *
  clear hp' h1 hn
  cases hi : s.incBuff <;> cases hl : (s.latch && v) <;> rw [hi] at hp hdiv <;> rw [hl] at hp <;>
    simp only [Bool.toNat_false, Bool.toNat_true, Nat.add_zero, Nat.zero_mul, Nat.one_mul] at hp hdiv ⊢
  · rw [hp]; omega
  · rw [hp, Nat.add_mul]; omega
  · rw [← hp, Nat.add_mul]; omega
  · have : p' = p := by omega
    rw [this]; omega

/-- A complete frame is in the core and its last word is not out. -/
def Full (c : CoreCfg) (C : Nat) (T : Table) (s : Int3) (its : List Item) : Prop :=
  s.vbits.start = true ∧ ∃ hist recv sent, Int2.Inv c C T hist (C * c.int1.H) its s.int2 recv ∧
    VBits.Live c.out c.conv c.buf s.vbits sent recv

theorem full_closed {s : Int3} {its : List Item} (h : Full c C T s its) : s.nready = true := by
  obtain ⟨_, hist, recv, sent, h1, _⟩ := h
  simp [Int3.nready, Int2.nready, h1.endN]

theorem full_J {s : Int3} {its : List Item} (h : Full c C T s its) : Live.J c C T s its := by
  obtain ⟨_, hist, recv, sent, h1, h2⟩ := h
  exact ⟨hist, _, recv, sent, h1, h2⟩

theorem full_step (hok : CoreOk c C T) {s : Int3} {its : List Item} (h : Full c C T s its) (i : CoreIn)
    (hwf : Live.WfAt c i) (hd : (s.step c i.pixels i.valid i.busy).vbits.ofsm ≠ .done) :
    Full c C T (s.step c i.pixels i.valid i.busy) ((none :: its).dropLast) := by
  have hn := full_closed h
  obtain ⟨hst, hist, recv, sent, h1, h2⟩ := h
  have hs := Int2.step_ok hok h1 s.vbits.latch hwf
  have hin : s.int2.valid = true → (s.int2.out c).Ok c.conv := by
    intro hr
    apply h1.cok
    rw [Fifo.contents_readable hr]; simp
  have hw : WellMarked (recv ++ if s.vbits.latch && s.int2.valid then (s.int2.out c).flat else []) := by
    have := hs.stream
    apply WellMarked.prefix (b := Int2.pend c (s.int2.step c i.pixels i.valid s.vbits.latch)
      ((Int2.newItem c C T hist (C * c.int1.H) i.pixels (i.valid && !s.int2.nready) :: its).dropLast))
    show WellMarked (recv ++ (if s.vbits.latch && s.int2.cfifo.readable then (s.int2.out c).flat else []) ++ _)
    rw [this]
    exact wellMarked_marked _ _ _ _ _
  have hv := VBits.step_ok hok.out hok.buf (Or.inl h2) (busy := i.busy) hin hw
  have hn' : (i.valid && !s.int2.nready) = false := by
    have : s.int2.nready = true := hn
    rw [this]; simp
  rw [hn'] at hs
  simp only [Int2.newItem, Bool.false_eq_true, if_false, Bool.toNat_false, Nat.add_zero] at hs
  exact ⟨rfl, _, _, _, hs, Live.live_of_inv hv hd⟩

/-- What happens in a cycle: every event moves something forward. -/
def events (c : CoreCfg) (s : Int3) (i : CoreIn) : Nat :=
  (s.int2.conv.latch && s.int2.pfifo.readable).toNat + s.int2.conv.valid.toNat +
    (s.step c i.pixels i.valid i.busy).int2.conv.valid.toNat + (s.vbits.latch && s.int2.cfifo.readable).toNat +
    s.vbits.incBuff.toNat + (s.vbits.doOutput c.out i.busy).toNat

theorem phi_step (hok : CoreOk c C T) {s : Int3} (h : Full c C T s (Live.noItems c)) (i : CoreIn)
    (hd : (s.step c i.pixels i.valid i.busy).vbits.ofsm ≠ .done) :
    phi c (s.step c i.pixels i.valid i.busy) + events c s i ≤ phi c s := by
  have hj := full_J h
  have h1 := Live.pfifo_step hok hj i
  obtain ⟨hst, hist, recv, sent, hi, hl⟩ := h
  have h2 := conv_weight (c := c) hi.conv (.unpack c.total s.int2.pfifo.dout) s.int2.pfifo.readable s.int2.cFull
  have h3 := cfifo_weight (s := s.int2) hi.cinv s.int2.conv.valid (Code.pack c.conv s.int2.conv.out) s.vbits.latch
  have h4 := packer_weight hok hl hst (s.int2.out c) s.int2.valid i.busy hd
  unfold phi events
  have e2 : (s.step c i.pixels i.valid i.busy).int2.conv =
    s.int2.conv.step c.total c.conv (.unpack c.total s.int2.pfifo.dout) s.int2.pfifo.readable s.int2.cFull := rfl
  have e3 : (s.step c i.pixels i.valid i.busy).int2.cfifo =
    s.int2.cfifo.step c.cdepth s.int2.conv.valid (Code.pack c.conv s.int2.conv.out) s.vbits.latch := rfl
  have e4 : (s.step c i.pixels i.valid i.busy).vbits = s.vbits.step c.out c.buf (s.int2.out c) s.int2.valid i.busy := rfl
  rw [e2, e3, e4]
  have e5 : s.int2.valid = s.int2.cfifo.readable := rfl
  rw [e5] at h4 ⊢
  generalize (s.step c i.pixels i.valid i.busy).int2.pfifo.level = p' at *
  generalize convW c (s.int2.conv.step c.total c.conv (.unpack c.total s.int2.pfifo.dout) s.int2.pfifo.readable s.int2.cFull) = q' at *
  generalize (s.int2.conv.step c.total c.conv (.unpack c.total s.int2.pfifo.dout) s.int2.pfifo.readable s.int2.cFull).valid = v' at *
  generalize (s.int2.cfifo.step c.cdepth s.int2.conv.valid (Code.pack c.conv s.int2.conv.out) s.vbits.latch).level = r' at *
  generalize vW c (s.vbits.step c.out c.buf (s.int2.out c) s.int2.cfifo.readable i.busy) = w' at *
  generalize convW c s.int2.conv = q at *
  generalize vW c s.vbits = w at *
  generalize s.int2.cfifo.level = r at *
  rw [← h1, Nat.add_mul]
  have h3' := Nat.mul_le_mul_right (wg c + 2) h3
  rw [Nat.add_mul, Nat.add_mul] at h3'
  generalize p' * (wr c + 1) = a at *
  generalize r' * (wg c + 2) = b at *
  generalize r * (wg c + 2) = d at *
  generalize (s.int2.conv.latch && s.int2.pfifo.readable) = x1 at *
  generalize (s.vbits.latch && s.int2.cfifo.readable) = x2 at *
  generalize s.int2.conv.valid = x3 at *
  cases x1 <;> cases x2 <;> cases x3 <;>
    simp only [Bool.toNat_false, Bool.toNat_true, Nat.zero_mul, Nat.one_mul, Nat.add_zero, Nat.zero_add] at * <;> omega

/-- Cycles the packer's output handler can wait. -/
def ofR (s : VBits) : Nat := match s.ofsm with | .burst => 1 | _ => 0
/-- Cycles the packer's input handler can wait. -/
def ifR (s : VBits) : Nat :=
  match s.ifsm with | .input => 2 | .cleanBuffer => 1 | .registerForBurst => 1 | .burst => 0
/-- Cycles a FIFO can wait before it shows its first word. -/
def fifoR (s : Fifo) : Nat := if s.readable = false ∧ 0 < s.level then 1 else 0
/-- Cycles the converter can wait. -/
def cvR (s : Converter) : Nat := match s.fsm with | .idle => 2 | .burstPrepare => 1 | _ => 0
/-- The registered almost-full flag of the converter FIFO is out of date. -/
def fullR (c : CoreCfg) (s : Int2) : Nat := if s.cFull = true ∧ s.cfifo.level < c.cdepth - c.csteps then 1 else 0

/-- Cycles in which nothing moves. -/
def rank (c : CoreCfg) (s : Int3) : Nat :=
  ofR s.vbits + ifR s.vbits + fifoR s.int2.cfifo + fullR c s.int2 + cvR s.int2.conv + fifoR s.int2.pfifo

theorem rank_le (c : CoreCfg) (s : Int3) : rank c s ≤ 8 := by
  have h1 : ofR s.vbits ≤ 1 := by unfold ofR; split <;> omega
  have h2 : ifR s.vbits ≤ 2 := by unfold ifR; split <;> omega
  have h3 : ∀ f, fifoR f ≤ 1 := by intro f; unfold fifoR; split <;> omega
  have h4 : fullR c s.int2 ≤ 1 := by unfold fullR; split <;> omega
  have h5 : cvR s.int2.conv ≤ 2 := by unfold cvR; split <;> omega
  have := h3 s.int2.cfifo
  have := h3 s.int2.pfifo
  unfold rank
  omega

theorem fifo_quiet {depth : Nat} {s : Fifo} (hi : s.Inv depth) (din : Nat) (re : Bool) (h : (re && s.readable) = false) :
    (s.step depth false din re).level = s.level ∧ fifoR (s.step depth false din re) = 0 ∧
      (fifoR s = 0 → s.readable = false → s.level = 0) := by
  have hl := Live.fifo_level hi din re
  rw [h] at hl
  simp only [Bool.toNat_false, Nat.add_zero] at hl
  refine ⟨hl, ?_, ?_⟩
  · unfold fifoR
    rw [if_neg]
    rw [hl]
    rintro ⟨h1, h2⟩
    rw [Fifo.readable_step] at h1
    cases hr : s.readable with
    | true =>
      rw [hr] at h
      have : re = false := by simpa using h
      subst this
      simp [hr] at h1
    | false =>
      rw [hr] at h1
      simp [SyncFifo.readable] at h1
      simp [Fifo.level, hr, h1] at h2
  · intro h0 hr
    unfold fifoR at h0
    split at h0
    · omega
    · rename_i hn
      apply Classical.byContradiction
      intro hh
      exact hn ⟨hr, by omega⟩

theorem events_zero {s : Int3} {i : CoreIn} (h : events c s i = 0) :
    (s.int2.conv.latch && s.int2.pfifo.readable) = false ∧ s.int2.conv.valid = false ∧
    (s.step c i.pixels i.valid i.busy).int2.conv.valid = false ∧ (s.vbits.latch && s.int2.cfifo.readable) = false ∧
    s.vbits.incBuff = false ∧ s.vbits.doOutput c.out i.busy = false := by
  unfold events at h
  have key : ∀ b : Bool, b.toNat = 0 → b = false := by intro b; cases b <;> simp
  refine ⟨key _ (by omega), key _ (by omega), key _ (by omega), key _ (by omega), key _ (by omega), key _ (by omega)⟩

/-- The output handler in a cycle without output. -/
theorem out_quiet {out conv buf : Nat} {s : VBits} {sent : List (Nat × Bool)} {recv : List (Option Bool)}
    (h : s.Live out conv buf sent recv) (hdo : s.doOutput out false = false) (inp : Code) (v : Bool) :
    ofR (s.step out buf inp v false) = 0 ∧ s.consum < out ∧ (ofR s = 0 → s.endIn = false) := by
  have hnd := h.outp.done
  have e : (s.step out buf inp v false).ofsm = (s.outStep out buf false).1 := rfl
  unfold ofR
  rw [e]
  unfold VBits.outStep
  rw [hdo]
  unfold VBits.doOutput at hdo
  cases hf : s.ofsm with
  | output =>
    rw [hf] at hdo
    simp only [ge_iff_le, Bool.or_eq_false_iff, decide_eq_false_iff_not, Bool.and_eq_false_iff] at hdo
    refine ⟨rfl, by omega, fun _ => ?_⟩
    rcases hdo.2 with h3 | h3
    · omega
    · exact h3
  | burst =>
    rw [hf] at hdo
    simp at hdo
    exact ⟨rfl, hdo, fun hh => by simp at hh⟩
  | done => exact absurd hf hnd

/-- The input handler in a cycle in which nothing enters the buffer and there is room. -/
theorem in_quiet {conv : Nat} {s : VBits} (h : s.InInv conv) (hf : conv ≤ s.free) (hi : s.incBuff = false) (inp : Code) (v : Bool) :
    (ifR (s.inStep inp v) < ifR s) ∨ (s.ifsm = .burst ∧ s.validReg = false ∧ ifR (s.inStep inp v) = ifR s) := by
  have h1 := h.input
  have h2 := h.burst
  obtain ⟨of, d, va, en, fsm, latch, b, co, fr, st, ei, reg, vr, bf, vb⟩ := s
  simp only at h1 h2 hf
  cases fsm with
  | input =>
    left
    cases vb with
    | true =>
      have := ((h1 rfl).1 rfl).ctr
      have hle : bf.ctr ≤ fr := by omega
      simp [VBits.inStep, ifR, hle]
    | false => cases vr <;> simp [VBits.inStep, ifR]
  | cleanBuffer => simp [VBits.incBuff] at hi
  | registerForBurst => left; simp [VBits.inStep, ifR]
  | burst =>
    right
    cases vr with
    | true =>
      have := (h2 rfl rfl).ctr
      simp [VBits.incBuff] at hi
      omega
    | false => simp [VBits.inStep, ifR]

/-- The converter in a cycle in which it puts nothing out. -/
theorem conv_idle {total conv : Nat} {s : Converter} (hi : s.Inv total conv) (inp : Code) (v cf : Bool)
    (hv : (s.step total conv inp v cf).valid = false) :
    cvR (s.step total conv inp v cf) < cvR s ∨
    (cvR (s.step total conv inp v cf) = cvR s ∧
      ((s.fsm = .burst ∧ s.latch = true ∧ s.validReg = false) ∨ (s.fsm = .idle ∧ (cf = false → s.validReg = false ∧ v = false)))) := by
  have hl := hi.latch
  obtain ⟨fsm, latch, reg, vr, el, en, out, va⟩ := s
  simp only at hl
  subst hl
  cases fsm with
  | idle => cases vr <;> cases v <;> cases cf <;> simp [Converter.step, Converter.tryBurst, cvR]
  | burstPrepare => left; simp [Converter.step, Converter.regData, cvR]
  | burst =>
    right
    cases vr with
    | false => simp [Converter.step, Converter.regData, cvR]
    | true =>
      exfalso
      by_cases hle : reg.ctr ≤ conv
      · cases cf <;> simp [Converter.step, Converter.regData, hle] at hv
      · simp only [Converter.step, if_neg hle] at hv
        cases hpk : Converter.pick total conv reg.ctr <;> rw [hpk] at hv <;> simp [Converter.regData] at hv
  | steps i =>
    exfalso
    cases i with
    | zero =>
      cases vr <;> cases v <;> cases cf <;> simp [Converter.step, Converter.tryBurst] at hv
    | succ i => simp [Converter.step] at hv

/-- What the encoding pipeline shows. -/
abbrev _root_.Model.Int3.int1o (s : Int3) (c : CoreCfg) : Merger := s.int2.int1.out c.int1

/-- In a cycle with a ready receiver in which nothing moves, the waiting time gets shorter. -/
theorem rank_step (hok : CoreOk c C T) {s : Int3} (h : Full c C T s (Live.noItems c)) (i : CoreIn) (hb : i.busy = false)
    (h0 : events c s i = 0) : rank c (s.step c i.pixels i.valid i.busy) < rank c s := by
  obtain ⟨e1, e2, e3, e4, e5, e6⟩ := events_zero h0
  have hno := Live.no_output hok (full_J h)
  obtain ⟨hst, hist, recv, sent, h1, h2⟩ := h
  rw [hb] at e6
  obtain ⟨o1, o2, o3⟩ := out_quiet h2 e6 (s.int2.out c) s.int2.valid
  have hcnt := h2.count
  rw [hst] at hcnt
  simp only [if_true] at hcnt
  have hbuf := hok.buf
  have hin := in_quiet h2.inp (by omega) e5 (s.int2.out c) s.int2.valid
  have hcv := conv_idle h1.conv (.unpack c.total s.int2.pfifo.dout) s.int2.pfifo.readable s.int2.cFull e3
  obtain ⟨c1, c2, c3⟩ := fifo_quiet h1.cinv (Code.pack c.conv s.int2.conv.out) s.vbits.latch e4
  obtain ⟨p1, p2, p3⟩ := fifo_quiet h1.pinv (Code.pack c.total ⟨(s.int1o c).enc, (s.int1o c).ctr, (s.int1o c).endd⟩) s.int2.conv.latch e1
  have q1 : (s.step c i.pixels i.valid i.busy).int2.pfifo = s.int2.pfifo.step c.depth false
      (Code.pack c.total ⟨(s.int1o c).enc, (s.int1o c).ctr, (s.int1o c).endd⟩) s.int2.conv.latch := by
    rw [← hno]; rfl
  have q2 : (s.step c i.pixels i.valid i.busy).int2.cfifo = s.int2.cfifo.step c.cdepth false
      (Code.pack c.conv s.int2.conv.out) s.vbits.latch := by
    rw [← e2]; rfl
  have q3 : (s.step c i.pixels i.valid i.busy).int2.conv =
    s.int2.conv.step c.total c.conv (.unpack c.total s.int2.pfifo.dout) s.int2.pfifo.readable s.int2.cFull := rfl
  have q4 : ofR (s.step c i.pixels i.valid i.busy).vbits = 0 := by rw [hb]; exact o1
  have q5 : ifR (s.step c i.pixels i.valid i.busy).vbits = ifR (s.vbits.inStep (s.int2.out c) s.int2.valid) := rfl
  have q6 : fullR c (s.step c i.pixels i.valid i.busy).int2 = 0 := by
    unfold fullR
    rw [q2, c1, if_neg]
    rintro ⟨h3, h4⟩
    have : (s.step c i.pixels i.valid i.busy).int2.cFull = decide (s.int2.cfifo.level ≥ c.cdepth - c.csteps) := rfl
    rw [this] at h3
    simp at h3
    omega
  unfold rank
  rw [q4, q5, q6, q1, q2, q3, c2, p2]
  apply Classical.byContradiction
  intro hge
  have hin' : s.vbits.ifsm = .burst ∧ s.vbits.validReg = false := by
    rcases hin with hin | hin
    · rcases hcv with hcv | hcv
      · omega
      · omega
    · exact ⟨hin.1, hin.2.1⟩
  have hle : ifR (s.vbits.inStep (s.int2.out c) s.int2.valid) ≤ ifR s.vbits := by
    rcases hin with hin | hin
    · omega
    · omega
  have hcv' := hcv.resolve_left (by omega)
  have z1 : ofR s.vbits = 0 := by omega
  have z2 : fifoR s.int2.cfifo = 0 := by omega
  have z3 : fullR c s.int2 = 0 := by omega
  have z4 : fifoR s.int2.pfifo = 0 := by omega
  have hlat := h2.inp.latch
  rw [hin'.1] at hlat
  simp only at hlat
  have hcr : s.int2.cfifo.readable = false := by rw [hlat] at e4; simpa using e4
  have hcl := c3 z2 hcr
  have hcd := hok.cdepth
  have hcf : s.int2.cFull = false := by
    cases hf : s.int2.cFull with
    | false => rfl
    | true =>
      unfold fullR at z3
      rw [if_pos ⟨hf, by omega⟩] at z3
      omega
  have hcw : s.int2.conv.validReg = false ∧ s.int2.pfifo.readable = false ∧ (s.int2.conv.fsm = .burst ∨ s.int2.conv.fsm = .idle) := by
    rcases hcv'.2 with hh | hh
    · refine ⟨hh.2.2, ?_, Or.inl hh.1⟩
      rw [hh.2.1] at e1; simpa using e1
    · obtain ⟨a, b⟩ := hh.2 hcf
      exact ⟨a, b, Or.inr hh.1⟩
  have hpl := p3 z4 hcw.2.1
  have hst := h1.stream
  have hpend : Int2.pend c s.int2 (Live.noItems c) = [] := by
    have f1 : itsFlat (Live.noItems c) = [] := by
      unfold itsFlat
      rw [List.flatMap_eq_nil_iff]
      intro x hx
      rw [List.reverse_replicate] at hx
      rw [List.eq_of_mem_replicate hx]; rfl
    have f2 : s.int2.conv.rest c.conv = [] := by
      unfold Converter.rest Converter.remaining
      rcases hcw.2.2 with h | h <;> simp [h, hcw.1]
    have f3 : s.int2.conv.outFlat = [] := by simp [Converter.outFlat, e2]
    simp [Int2.pend, f1, f2, f3, Live.fifo_contents hpl, Live.fifo_contents hcl, Code.flats]
  rw [hpend] at hst
  have hvs := h2.stream
  have hpi : s.vbits.pendIn = [] := by simp [VBits.pendIn, hin'.1, hin'.2]
  rw [o3 z1, hpi] at hvs
  simp only [Bool.false_eq_true, if_false, List.append_nil] at hvs
  rw [List.append_nil, ← hvs] at hst
  have : (none : Option Bool) ∈ marked T c.int1.bd c.int1.W hist (decide (C * c.int1.H = C * c.int1.H)) := by
    simp [marked]
  rw [← hst] at this
  simp at this

/-- The measure. -/
def measure (c : CoreCfg) (s : Int3) : Nat := 9 * phi c s + rank c s

theorem measure_step (hok : CoreOk c C T) {s : Int3} (h : Full c C T s (Live.noItems c)) (i : CoreIn)
    (hd : (s.step c i.pixels i.valid i.busy).vbits.ofsm ≠ .done) :
    measure c (s.step c i.pixels i.valid i.busy) + (!i.busy).toNat ≤ measure c s + 8 * i.busy.toNat := by
  have h1 := phi_step hok h i hd
  have h2 := rank_le c (s.step c i.pixels i.valid i.busy)
  unfold measure
  cases hb : i.busy with
  | true => rw [hb] at h1 h2; simp only [Bool.not_true, Bool.toNat_false, Bool.toNat_true]; omega
  | false =>
    by_cases h0 : events c s i = 0
    · have h3 := rank_step hok h i hb h0
      rw [hb] at h1 h2 h3
      simp only [Bool.not_false, Bool.toNat_false, Bool.toNat_true]; omega
    · rw [hb] at h1 h2
      simp only [Bool.not_false, Bool.toNat_false, Bool.toNat_true]
      omega

/-- Bound of the weight. -/
def phiMax (c : CoreCfg) : Nat :=
  c.depth * ((c.total / c.conv + 1) * (c.conv / c.out + 5) + 1) + (c.cdepth + 1) * (c.conv / c.out + 5) + c.buf / c.out

theorem phi_le (hok : CoreOk c C T) {s : Int3} {its : List Item} (h : Full c C T s its) : phi c s ≤ phiMax c := by
  obtain ⟨hst, hist, recv, sent, h1, h2⟩ := h
  have hd := hok.depth
  have hcd := hok.cdepth
  have hp := h1.pcount
  have hc := h1.ccount
  have hcnt := h2.count
  rw [hst] at hcnt
  simp only [if_true] at hcnt
  have ht : s.int2.conv.todo ≤ c.total / c.conv := by
    have hs := h1.conv.steps
    unfold Converter.todo
    split
    · rename_i i hf
      rw [Nat.le_div_iff_mul_le hok.conv1]
      have := hs i hf
      omega
    · exact Nat.zero_le _
  have hpc : pieces s.vbits ≤ 2 := by
    unfold pieces
    cases s.vbits.validBf <;> cases s.vbits.validReg <;> split <;> simp
  have hdiv : s.vbits.consum / c.out ≤ c.buf / c.out := Nat.div_le_div_right (by omega)
  have a1 : s.int2.pfifo.level * (wr c + 1) ≤ (c.depth - 2) * (wr c + 1) := Nat.mul_le_mul_right _ (by omega)
  have a2 : s.int2.conv.todo * wp c ≤ (c.total / c.conv) * wp c := Nat.mul_le_mul_right _ ht
  have a3 : s.int2.cfifo.level * (wg c + 2) ≤ (c.cdepth - 1) * wp c :=
    Nat.mul_le_mul (by omega) (by unfold wp; omega)
  have a4 : pieces s.vbits * (wg c + 1) ≤ 2 * (wg c + 1) := Nat.mul_le_mul_right _ hpc
  have a5 : s.int2.conv.validReg.toNat * wr c ≤ wr c := by cases s.int2.conv.validReg <;> simp
  have a6 : s.int2.conv.valid.toNat * (wg c + 3) ≤ wg c + 3 := by cases s.int2.conv.valid <;> simp
  have b1 : wp c = c.conv / c.out + 5 := by unfold wp wg; omega
  have b2 : wr c = (c.total / c.conv + 1) * (c.conv / c.out + 5) := by unfold wr wS; rw [b1]
  have b3 : wr c = c.total / c.conv * wp c + wp c := by unfold wr wS; rw [Nat.add_mul]; omega
  have b4 : (c.depth - 2) * (wr c + 1) + 2 * (wr c + 1) = c.depth * (wr c + 1) := by
    rw [← Nat.add_mul]; congr 1; omega
  have b5 : (c.cdepth - 1) * wp c + 2 * wp c = (c.cdepth + 1) * wp c := by
    rw [← Nat.add_mul]; congr 1; omega
  have b6 : wp c = wg c + 4 := rfl
  unfold phi convW vW phiMax
  rw [← b1] at b2 ⊢
  rw [← b2]
  omega

theorem measure_le (hok : CoreOk c C T) {s : Int3} {its : List Item} (h : Full c C T s its) : measure c s ≤ 9 * phiMax c + 8 := by
  have h1 := phi_le hok h
  have h2 := rank_le c s
  unfold measure
  omega

theorem done_step {s : Int3} (i : CoreIn) (hn : s.vbits.ofsm ≠ .done) (hd : (s.step c i.pixels i.valid i.busy).vbits.ofsm = .done) :
    (s.step c i.pixels i.valid i.busy).vbits.valid = true ∧ (s.step c i.pixels i.valid i.busy).vbits.endd = true := by
  simp only [Int3.step, VBits.step, VBits.outStep] at hd ⊢
  by_cases hdo : s.vbits.doOutput c.out i.busy = true
  · simp only [hdo, if_true] at hd ⊢
    by_cases he : s.vbits.consum ≤ c.out ∧ s.vbits.endIn = true
    · rw [if_pos he]; exact ⟨rfl, rfl⟩
    · rw [if_neg he] at hd; cases hd
  · rw [if_neg hdo] at hd
    cases hf : s.vbits.ofsm with
    | output => rw [hf] at hd; cases hd
    | burst => rw [hf] at hd; simp only at hd; split at hd <;> cases hd
    | done => exact absurd hf hn

theorem done_stays {s : Int3} (i : CoreIn) (hn : s.vbits.ofsm = .done) :
    (s.step c i.pixels i.valid i.busy).vbits.ofsm = .done ∧
    (s.step c i.pixels i.valid i.busy).vbits.valid = s.vbits.valid ∧ (s.step c i.pixels i.valid i.busy).vbits.endd = s.vbits.endd := by
  simp [Int3.step, VBits.step, VBits.outStep, VBits.doOutput, hn]

theorem window_shift (its : List Item) (n : Nat) :
    (none :: (List.replicate n (none : Item) ++ its).take its.length).dropLast =
      (List.replicate (n + 1) none ++ its).take its.length := by
  rw [List.dropLast_eq_take, List.length_cons, List.length_take, List.length_append, List.length_replicate,
    Nat.min_eq_left (by omega), List.replicate_succ, List.cons_append]
  cases its with
  | nil => simp
  | cons a l =>
    simp only [List.length_cons, Nat.add_sub_cancel, List.take_succ_cons, List.take_take]
    congr 2
    omega

/-- From a complete frame on: the end-flagged word has been delivered, or is being offered, or the measure has gone down. -/
theorem drain_run (hok : CoreOk c C T) {s : Int3} {its : List Item} (h : Full c C T s its)
    (hlen : its.length = 5 + levels c.int1.ps) (tail : List CoreIn) :
    Int3.Wf c tail →
    (∃ w, (w, true) ∈ Int3.delivered c s tail) ∨
    ((Int3.run c s tail).vbits.ofsm = .done ∧ (Int3.run c s tail).vbits.valid = true ∧ (Int3.run c s tail).vbits.endd = true ∧
      tail.length ≤ 9 * phiMax c + 8 + its.length + 9 * tail.countP (·.busy) + 1) ∨
    (Full c C T (Int3.run c s tail) ((List.replicate tail.length none ++ its).take its.length) ∧
      (its.length ≤ tail.length → tail.length + measure c (Int3.run c s tail) ≤
        9 * phiMax c + 8 + its.length + 9 * tail.countP (·.busy))) := by
  induction tail using snoc_induction with
  | h0 =>
    intro _
    right; right
    refine ⟨by simpa [Int3.run] using h, ?_⟩
    intro hl
    have := measure_le hok h
    simp only [Int3.run, List.length_nil]
    omega
  | h1 tail i ih =>
    intro hwf
    have hw1 : Int3.Wf c tail := fun j hj => hwf j (by simp [hj])
    have hwi : Live.WfAt c i := hwf i (by simp)
    have hcp : (tail ++ [i]).countP (·.busy) = tail.countP (·.busy) + i.busy.toNat := by
      rw [List.countP_append, List.countP_singleton]
      cases i.busy <;> rfl
    have hrun : Int3.run c s (tail ++ [i]) = (Int3.run c s tail).step c i.pixels i.valid i.busy := by
      rw [run_append]; rfl
    rw [hcp, hrun, List.length_append, List.length_singleton]
    rcases ih hw1 with ih | ih | ih
    · left
      obtain ⟨w, hw⟩ := ih
      exact ⟨w, by rw [delivered_append]; exact List.mem_append_left _ hw⟩
    · obtain ⟨a1, a2, a3, a4⟩ := ih
      obtain ⟨d1, d2, d3⟩ := done_stays (c := c) i a1
      cases hb : i.busy with
      | true =>
        right; left
        rw [hb] at d1 d2 d3
        refine ⟨d1, by rw [d2, a2], by rw [d3, a3], ?_⟩
        simp only [Bool.toNat_true]
        omega
      | false =>
        left
        refine ⟨(Int3.run c s tail).vbits.data, ?_⟩
        rw [delivered_append]
        apply List.mem_append_right
        simp [Int3.delivered, Int3.valid, Int3.data, Int3.endd, a2, a3, hb]
    · obtain ⟨hf, hm⟩ := ih
      have hnd : (Int3.run c s tail).vbits.ofsm ≠ .done := by
        obtain ⟨_, _, _, _, _, h2⟩ := hf
        exact h2.outp.done
      by_cases hd : ((Int3.run c s tail).step c i.pixels i.valid i.busy).vbits.ofsm = .done
      · right; left
        obtain ⟨b1, b2⟩ := done_step i hnd hd
        refine ⟨hd, b1, b2, ?_⟩
        by_cases hl : its.length ≤ tail.length
        · have := hm hl; omega
        · omega
      · right; right
        have hf' := full_step hok hf i hwi hd
        rw [window_shift] at hf'
        refine ⟨hf', fun hl => ?_⟩
        by_cases hl' : its.length ≤ tail.length
        · have hno : (List.replicate tail.length none ++ its).take its.length = Live.noItems c := by
            rw [List.take_append_of_le_length (by simp; omega), List.take_replicate, Nat.min_eq_left hl', hlen]
          rw [hno] at hf
          have h1 := measure_step hok hf i hd
          have h2 := hm hl'
          cases hb : i.busy <;> rw [hb] at h1 <;> simp at h1 ⊢ <;> omega
        · have := measure_le hok hf'
          omega

end Drain
end Model
