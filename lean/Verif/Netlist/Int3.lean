/- The netlist modules of the bit packer and of the whole encoder core against the model of migen_src. -/
import Verif.Netlist.Int2
import Verif.Model.Integration3

set_option autoImplicit false

namespace Netlist.Beta
open Netlist Model

/-! ### vbits_to_cbits -/

/-- FSM encoding of the netlist. -/
def outFsm : Nat → OutFsm
  | 0 => .output
  | 1 => .burst
  | _ => .done

/-- FSM encoding of the netlist. -/
def inFsm : Nat → InFsm
  | 0 => .input
  | 1 => .cleanBuffer
  | 2 => .burst
  | _ => .registerForBurst

/-- The registers of the netlist as registers of the model. -/
def absVBits (s : vbits_to_cbits.S) : VBits :=
  { ofsm := outFsm s.u_output_handler.fsm_state, data := s.u_output_handler.data_out, valid := s.u_output_handler.valid_out
    endd := s.u_output_handler.end_out, ifsm := inFsm s.u_input_handler.fsm_state, latch := s.u_input_handler.latch_input
    buffer := s.u_input_handler.buffer, consum := s.u_input_handler.buff_consum, free := s.u_input_handler.buff_free
    start := s.u_input_handler.start, endIn := s.u_input_handler.end_out
    reg := { enc := s.u_input_handler.enc_in_reg, ctr := s.u_input_handler.enc_in_ctr_reg, endd := s.u_input_handler.in_end_reg }
    validReg := s.u_input_handler.valid_in_reg
    bf := { enc := s.u_input_handler.enc_in_buff, ctr := s.u_input_handler.enc_in_ctr_buff, endd := s.u_input_handler.in_end_buff }
    validBf := s.u_input_handler.valid_in_buff }

/-- Register ranges. -/
def WfVBits (s : vbits_to_cbits.S) : Prop :=
  s.u_output_handler.fsm_state ≤ 2 ∧ s.u_input_handler.fsm_state ≤ 3 ∧ s.u_input_handler.enc_in_ctr_reg < 32 ∧
  s.u_input_handler.enc_in_ctr_buff < 32 ∧ s.u_input_handler.buff_free < 128 ∧ s.u_input_handler.buff_consum < 128

theorem vbits_rst (s : vbits_to_cbits.S) (c : Nat) (e v b : Bool) (x : Nat) :
    absVBits (vbits_to_cbits.step s c e v b true x) = VBits.init := by
  simp [netlist, absVBits, VBits.init, inFsm, outFsm, Code.zero]

theorem vbits_wf (s : vbits_to_cbits.S) (c : Nat) (e v b rst : Bool) (x : Nat) (h : WfVBits s) (hc : c < 32) :
    WfVBits (vbits_to_cbits.step s c e v b rst x) := by
  obtain ⟨h1, h2, h3, h4, h5, h6⟩ := h
  refine ⟨?_, ?_, ?_, ?_, ?_, ?_⟩ <;> simp only [netlist, slc] <;>
      (repeat' first | apply ite_le | apply ite_lt) <;> omega

theorem vbits_inc (s : vbits_to_cbits.S) (h : WfVBits s) : input_handler.inc_buff s.u_input_handler = (absVBits s).incBuff := by
  obtain ⟨h1, h2, h3, h4, h5, h6⟩ := h
  have hst : s.u_input_handler.fsm_state = 0 ∨ s.u_input_handler.fsm_state = 1 ∨ s.u_input_handler.fsm_state = 2 ∨
    s.u_input_handler.fsm_state = 3 := by omega
  cases hv : s.u_input_handler.valid_in_reg <;>
  rcases hst with hst | hst | hst | hst <;> simp [netlist, absVBits, VBits.incBuff, inFsm, hst, hv]

theorem vbits_dec (s : vbits_to_cbits.S) (b : Bool) (h : WfVBits s) :
    vbits_to_cbits.input_handler_dec_buff s b = (absVBits s).doOutput 16 b := by
  obtain ⟨h1, h2, h3, h4, h5, h6⟩ := h
  have hst : s.u_output_handler.fsm_state = 0 ∨ s.u_output_handler.fsm_state = 1 ∨ s.u_output_handler.fsm_state = 2 := by omega
  cases b <;> cases hv : s.u_input_handler.end_out <;> by_cases a1 : 16 ≤ s.u_input_handler.buff_consum <;>
  by_cases a2 : s.u_input_handler.buff_consum ≤ 16 <;>
  rcases hst with hst | hst | hst <;> simp [netlist, absVBits, VBits.doOutput, outFsm, hst, hv, a1, a2]

theorem vbits_out (s : vbits_to_cbits.S) (b : Bool) (h : WfVBits s) :
    let o := output_handler.step s.u_output_handler s.u_input_handler.end_out s.u_input_handler.buffer b false s.u_input_handler.buff_consum
    (outFsm o.fsm_state, o.data_out, o.valid_out, o.end_out) = (absVBits s).outStep 16 77 b := by
  obtain ⟨h1, h2, h3, h4, h5, h6⟩ := h
  obtain ⟨i, ⟨vo, eo, d, st⟩⟩ := s
  dsimp only at h1 h2 h3 h4 h5 h6
  have b1 : bitsFor (77 - 16) = 6 := by decide
  have b2 : bitsFor (16 - 1) = 4 := by decide
  have e1 : slc ((2 ^ 8 + i.buff_consum - 16) % 2 ^ 8) 0 6 = VBits.trunc 6 ((i.buff_consum : Int) - 16) := by
    simp only [slc, VBits.trunc]; omega
  have e2 : slc ((2 ^ 8 + 16 - i.buff_consum) % 2 ^ 8) 0 4 = VBits.trunc 4 ((16 : Int) - i.buff_consum) := by
    simp only [slc, VBits.trunc]; omega
  have e3 : ∀ k, slc (i.buffer / 2 ^ k) 0 16 = (i.buffer >>> k) % 2 ^ 16 := by
    intro k; simp [slc, Nat.shiftRight_eq_div_pow]
  have e4 : ∀ k, slc (i.buffer * 2 ^ k % 2 ^ 92) 0 16 = (i.buffer <<< k) % 2 ^ 16 := by
    intro k; rw [slc_zero, Nat.mod_mod_of_dvd _ (Nat.pow_dvd_pow 2 (by omega)), Nat.shiftLeft_eq]
  have hst : st = 0 ∨ st = 1 ∨ st = 2 := by omega
  simp only [VBits.outStep, VBits.doOutput, absVBits, b1, b2]
  simp only [netlist, e1, e2, e3, e4]
  generalize VBits.trunc 6 ((i.buff_consum : Int) - 16) = k1
  generalize VBits.trunc 4 ((16 : Int) - i.buff_consum) = k2
  cases b <;> cases hv : i.end_out <;> by_cases a1 : 16 ≤ i.buff_consum <;>
  by_cases a2 : i.buff_consum ≤ 16 <;>
  rcases hst with rfl | rfl | rfl <;> first | omega | simp [outFsm, a1, a2]

theorem vbits_ext {a b : VBits} (h1 : a.ofsm = b.ofsm) (h2 : a.data = b.data) (h3 : a.valid = b.valid) (h4 : a.endd = b.endd)
    (h5 : a.ifsm = b.ifsm) (h6 : a.latch = b.latch) (h7 : a.buffer = b.buffer) (h8 : a.consum = b.consum) (h9 : a.free = b.free)
    (h10 : a.start = b.start) (h11 : a.endIn = b.endIn) (h12 : a.reg = b.reg) (h13 : a.validReg = b.validReg) (h14 : a.bf = b.bf)
    (h15 : a.validBf = b.validBf) : a = b := by
  cases a; cases b; simp_all

/-- The part of the input handler driven by its FSM. -/
theorem vbits_in (s : vbits_to_cbits.S) (c : Nat) (e v b : Bool) (x : Nat) (h : WfVBits s) :
    let t := absVBits (vbits_to_cbits.step s c e v b false x)
    let m := (absVBits s).inStep ⟨x, c, e⟩ v
    t.ifsm = m.ifsm ∧ t.latch = m.latch ∧ t.endIn = m.endIn ∧ t.reg = m.reg ∧ t.validReg = m.validReg ∧ t.bf = m.bf ∧
      t.validBf = m.validBf := by
  obtain ⟨h1, h2, h3, h4, h5, h6⟩ := h
  obtain ⟨⟨bc, vr, eo, bu, vb, li, st, er, cr, xr, eb, cb, xb, sta, fr, vl⟩, o⟩ := s
  dsimp only at h1 h2 h3 h4 h5 h6
  have hst : st = 0 ∨ st = 1 ∨ st = 2 ∨ st = 3 := by omega
  rcases hst with rfl | rfl | rfl | rfl
  · cases vb
    · cases vr <;> simp [netlist, absVBits, VBits.inStep, inFsm]
    · by_cases q : cb ≤ fr <;> simp [netlist, absVBits, VBits.inStep, inFsm, q]
  · cases vr <;> simp [netlist, absVBits, VBits.inStep, inFsm]
  · cases vr
    · simp [netlist, absVBits, VBits.inStep, inFsm]
    · by_cases q : cr ≤ fr <;> simp [netlist, absVBits, VBits.inStep, inFsm, q]
  · simp [netlist, absVBits, VBits.inStep, inFsm]

theorem vbits_step (s : vbits_to_cbits.S) (c : Nat) (e v b : Bool) (x : Nat) (h : WfVBits s) :
    absVBits (vbits_to_cbits.step s c e v b false x) = (absVBits s).step 16 77 ⟨x, c, e⟩ v b := by
  have hi := vbits_in s c e v b x h
  have ho := vbits_out s b h
  have hinc := vbits_inc s h
  have hdec := vbits_dec s b h
  have hb : bitsFor 77 = 7 := by decide
  obtain ⟨i1, i2, i3, i4, i5, i6, i7⟩ := hi
  obtain ⟨w1, w2, w3, w4, w5, w6⟩ := h
  apply vbits_ext
  · exact congrArg (·.1) ho
  · exact congrArg (·.2.1) ho
  · exact congrArg (·.2.2.1) ho
  · exact congrArg (·.2.2.2) ho
  · exact i1
  · exact i2
  · show input_handler.next_buffer s.u_input_handler false = if (absVBits s).incBuff = true then _ else s.u_input_handler.buffer
    rw [← hinc]
    have e1 : slc (s.u_input_handler.buffer * 2 ^ s.u_input_handler.enc_in_ctr_reg % 2 ^ 108 ||| s.u_input_handler.enc_in_reg) 0 77 =
        (((absVBits s).buffer <<< (absVBits s).reg.ctr) ||| (absVBits s).reg.enc) % 2 ^ 77 := by
      rw [slc_zero, or_mod_pow, Nat.mod_mod_of_dvd _ (Nat.pow_dvd_pow 2 (by omega)), ← or_mod_pow, Nat.shiftLeft_eq]; rfl
    rw [← e1]
    have hst : s.u_input_handler.fsm_state = 0 ∨ s.u_input_handler.fsm_state = 1 ∨ s.u_input_handler.fsm_state = 2 ∨
      s.u_input_handler.fsm_state = 3 := by omega
    cases hv : s.u_input_handler.valid_in_reg <;>
    by_cases q : s.u_input_handler.enc_in_ctr_reg ≤ s.u_input_handler.buff_free <;>
    rcases hst with hst | hst | hst | hst <;> simp [netlist, hst, hv, q]
  · show (if (input_handler.inc_buff s.u_input_handler || vbits_to_cbits.input_handler_dec_buff s b) = true then
        input_handler.new_buff_consum s.u_input_handler (vbits_to_cbits.input_handler_dec_buff s b) else s.u_input_handler.buff_consum) = _
    simp only [VBits.step, input_handler.new_buff_consum, input_handler.next_new_buff_consum, input_handler.w54, hinc, hdec]
    cases (absVBits s).incBuff <;> cases (absVBits s).doOutput 16 b
    · rfl
    all_goals
      simp only [Bool.or_true, Bool.true_or, Bool.and_true, Bool.and_false, Bool.or_false, Bool.and_self, Bool.or_self, if_true,
        Bool.false_eq_true, if_false, hb,
        input_handler.w56, input_handler.w59, input_handler.w57, input_handler.w61, input_handler.w62, input_handler.w64,
        input_handler.w65, slc, VBits.trunc]
      simp only [absVBits]
      omega
  · show (if (input_handler.inc_buff s.u_input_handler || vbits_to_cbits.input_handler_dec_buff s b) = true then
        input_handler.new_buff_free s.u_input_handler (vbits_to_cbits.input_handler_dec_buff s b) else
        if (s.u_input_handler.start == false) = true then 77 else s.u_input_handler.buff_free) = _
    simp only [VBits.step, input_handler.new_buff_free, input_handler.next_new_buff_free, input_handler.w41, hinc, hdec]
    cases (absVBits s).incBuff <;> cases (absVBits s).doOutput 16 b
    · show (if (s.u_input_handler.start == false) = true then 77 else s.u_input_handler.buff_free) =
        if (!s.u_input_handler.start) = true then 77 else s.u_input_handler.buff_free
      cases s.u_input_handler.start <;> rfl
    all_goals
      simp only [Bool.or_true, Bool.true_or, Bool.and_true, Bool.and_false, Bool.or_false, Bool.and_self, Bool.or_self, if_true,
        Bool.false_eq_true, if_false, hb,
        input_handler.w43, input_handler.w46, input_handler.w44, input_handler.w48, input_handler.w49, input_handler.w51,
        input_handler.w52, slc, VBits.trunc]
      simp only [absVBits]
      omega
  · show (if (s.u_input_handler.start == false) = true then true else s.u_input_handler.start) = true
    cases s.u_input_handler.start <;> rfl
  · exact i3
  · exact i4
  · exact i5
  · exact i6
  · exact i7

/-! ### integration_3 -/

/-- The registers of the netlist as registers of the model. -/
def absInt3 (s : integration_3.S) : Int3 := { int2 := absInt2 s.u_integration_2, vbits := absVBits s.u_vbits_to_cbits }

/-- Register ranges. -/
def WfInt3 (s : integration_3.S) : Prop :=
  WfInt2 s.u_integration_2 ∧ WfVBits s.u_vbits_to_cbits ∧ s.u_vbits_to_cbits.u_output_handler.data_out < 2 ^ 16

/-- The frame size the netlist works with. -/
def cfgOf3 (s : integration_3.S) : CoreCfg := cfgOf s.u_integration_2

theorem unpack_30 (n : Nat) : Code.mk (slc (slc n 0 30) 0 30) (slc (slc n 30 5) 0 5) (n.testBit 35) = Code.unpack 30 n := by
  have hb : bitsFor 30 = 5 := by decide
  simp [Code.unpack, hb, slc]

theorem int3_step (s : integration_3.S) (x x' : Nat) (v b full : Bool) (h : WfInt3 s) :
    absInt3 (integration_3.step s x' v b false full x) = (absInt3 s).step (cfgOf3 s) [x, x'] v b := by
  have a := int2_step s.u_integration_2 x x' s.u_vbits_to_cbits.u_input_handler.latch_input full v h.1
  have c := vbits_step s.u_vbits_to_cbits (integration_3.vbits_to_cbits_enc_in_ctr s) (integration_3.vbits_to_cbits_in_end s)
    (integration_3.vbits_to_cbits_valid_in s) b (integration_3.vbits_to_cbits_enc_in s) h.2.1
  show Int3.mk _ _ = Int3.mk _ _
  congr 1
  refine c.trans ?_
  show (absVBits s.u_vbits_to_cbits).step 16 77 _ s.u_integration_2.u_converter_fifo.u_fifo.readable b =
    (absVBits s.u_vbits_to_cbits).step 16 77 (Code.unpack 30 s.u_integration_2.u_converter_fifo.u_fifo.u_unbuffered.r_0_)
      s.u_integration_2.u_converter_fifo.u_fifo.readable b
  rw [← unpack_30]
  rfl

theorem int3_rst (s : integration_3.S) (x x' : Nat) (v b full : Bool) (h : WfInt3 s) :
    absInt3 (integration_3.step s x' v b true full x) =
      Int3.reset (cfgOf3 s) ((absInt3 s).step (cfgOf3 s) [x, x'] v b).int2.kept := by
  have a := int2_rst s.u_integration_2 x x' s.u_vbits_to_cbits.u_input_handler.latch_input full v h.1
  have c := vbits_rst s.u_vbits_to_cbits (integration_3.vbits_to_cbits_enc_in_ctr s) (integration_3.vbits_to_cbits_in_end s)
    (integration_3.vbits_to_cbits_valid_in s) b (integration_3.vbits_to_cbits_enc_in s)
  show Int3.mk _ _ = Int3.mk _ _
  congr 1

theorem int3_wf (s : integration_3.S) (x x' : Nat) (v b rst full : Bool) (h : WfInt3 s) (hx : x < 4096) (hx' : x' < 4096) :
    WfInt3 (integration_3.step s x' v b rst full x) := by
  refine ⟨int2_wf _ _ _ _ _ _ _ h.1 hx hx', vbits_wf _ _ _ _ _ _ _ h.2.1 (slc_lt _ _ _), ?_⟩
  have := h.2.2
  show output_handler.next_data_out _ _ _ _ _ _ < 2 ^ 16
  simp only [netlist]
  repeat' first | exact slc_lt .. | assumption | decide | apply ite_lt

theorem int3_init (s : integration_3.S) (h : integration_3.Init s) : WfInt3 s ∧
    absInt3 s = Int3.reset (coreCfg 0 0) (absInt3 s).int2.kept ∧ (absInt3 s).int2.kept.Ok (coreCfg 0 0) ∧
    s.u_integration_2.u_integration_1.u_register_file = ⟨0, 0, 0⟩ ∧
    absForceEnd s.u_integration_2.u_integration_1.u_force_end = ForceEnd.init := by
  obtain ⟨h1, ⟨a1, a2, a3, a4, a5, a6, a7, a8, a9, a10, a11, a12, a13, a14, a15, a16⟩, b1, b2, b3, b4⟩ := h
  obtain ⟨i1, i2, i3, i4, i5⟩ := int2_init _ h1
  refine ⟨⟨i1, ⟨?_, ?_, ?_, ?_, ?_, ?_⟩, ?_⟩, ?_, i3, i4, i5⟩
  · simp [*]
  · simp [*]
  · simp [*]
  · simp [*]
  · simp [*]
  · simp [*]
  · simp [*]
  · show Int3.mk _ _ = Int3.mk _ _
    congr 1
    simp [absVBits, VBits.init, inFsm, outFsm, Code.zero, *]

end Netlist.Beta
