/- The bit packer and the whole core of the netlist of integration_3_axi_stream.v against the model of migen_src. -/
import Verif.Netlist.I3Int2
import Verif.Netlist.Int3

set_option autoImplicit false

namespace Netlist.I3Axis
open Netlist Model

/-! ### vbits_to_cbits -/

/-- The registers of the netlist as registers of the model. -/
def absVBits (s : vbits_to_cbits.S) : VBits :=
  { ofsm := Beta.outFsm s.u_output_handler.fsm_state, data := s.u_output_handler.data_out, valid := s.u_output_handler.valid_out
    endd := s.u_output_handler.end_out, ifsm := Beta.inFsm s.u_input_handler.fsm_state, latch := s.u_input_handler.latch_input
    buffer := s.u_input_handler.buffer, consum := s.u_input_handler.buff_consum, free := s.u_input_handler.buff_free
    start := s.u_input_handler.start, endIn := s.u_input_handler.end_out
    reg := { enc := s.u_input_handler.enc_in_reg, ctr := s.u_input_handler.enc_in_ctr_reg, endd := s.u_input_handler.in_end_reg }
    validReg := s.u_input_handler.valid_in_reg
    bf := { enc := s.u_input_handler.enc_in_buff, ctr := s.u_input_handler.enc_in_ctr_buff, endd := s.u_input_handler.in_end_buff }
    validBf := s.u_input_handler.valid_in_buff }

/-- Register ranges. -/
def WfVBits (s : vbits_to_cbits.S) : Prop :=
  s.u_output_handler.fsm_state ≤ 2 ∧ s.u_input_handler.fsm_state ≤ 3 ∧ s.u_input_handler.enc_in_ctr_reg < 64 ∧
  s.u_input_handler.enc_in_ctr_buff < 64 ∧ s.u_input_handler.buff_free < 256 ∧ s.u_input_handler.buff_consum < 256

theorem vbits_rst (s : vbits_to_cbits.S) (c : Nat) (e v b : Bool) (x : Nat) :
    absVBits (vbits_to_cbits.step s c e v b true x) = VBits.init := by
  simp [netlist, absVBits, VBits.init, Beta.inFsm, Beta.outFsm, Code.zero]

theorem vbits_wf (s : vbits_to_cbits.S) (c : Nat) (e v b rst : Bool) (x : Nat) (h : WfVBits s) (hc : c < 64) :
    WfVBits (vbits_to_cbits.step s c e v b rst x) := by
  obtain ⟨h1, h2, h3, h4, h5, h6⟩ := h
  refine ⟨?_, ?_, ?_, ?_, ?_, ?_⟩ <;> simp only [netlist, slc] <;>
      (repeat' first | apply Beta.ite_le | apply Beta.ite_lt) <;> omega

theorem vbits_inc (s : vbits_to_cbits.S) (h : WfVBits s) : input_handler.inc_buff s.u_input_handler = (absVBits s).incBuff := by
  obtain ⟨h1, h2, h3, h4, h5, h6⟩ := h
  have hst : s.u_input_handler.fsm_state = 0 ∨ s.u_input_handler.fsm_state = 1 ∨ s.u_input_handler.fsm_state = 2 ∨
    s.u_input_handler.fsm_state = 3 := by omega
  cases hv : s.u_input_handler.valid_in_reg <;>
  rcases hst with hst | hst | hst | hst <;> simp [netlist, absVBits, VBits.incBuff, Beta.inFsm, hst, hv]

theorem vbits_dec (s : vbits_to_cbits.S) (b : Bool) (h : WfVBits s) :
    vbits_to_cbits.input_handler_dec_buff s b = (absVBits s).doOutput 32 b := by
  obtain ⟨h1, h2, h3, h4, h5, h6⟩ := h
  have hst : s.u_output_handler.fsm_state = 0 ∨ s.u_output_handler.fsm_state = 1 ∨ s.u_output_handler.fsm_state = 2 := by omega
  cases b <;> cases hv : s.u_input_handler.end_out <;> by_cases a1 : 32 ≤ s.u_input_handler.buff_consum <;>
  by_cases a2 : s.u_input_handler.buff_consum ≤ 32 <;>
  rcases hst with hst | hst | hst <;> simp [netlist, absVBits, VBits.doOutput, Beta.outFsm, hst, hv, a1, a2]

theorem vbits_out (s : vbits_to_cbits.S) (b : Bool) (h : WfVBits s) :
    let o := output_handler.step s.u_output_handler s.u_input_handler.end_out s.u_input_handler.buffer b false s.u_input_handler.buff_consum
    (Beta.outFsm o.fsm_state, o.data_out, o.valid_out, o.end_out) = (absVBits s).outStep 32 144 b := by
  obtain ⟨h1, h2, h3, h4, h5, h6⟩ := h
  obtain ⟨i, ⟨vo, eo, d, st⟩⟩ := s
  dsimp only at h1 h2 h3 h4 h5 h6
  have b1 : bitsFor (144 - 32) = 7 := by decide
  have b2 : bitsFor (32 - 1) = 5 := by decide
  have e1 : slc ((2 ^ 9 + i.buff_consum - 32) % 2 ^ 9) 0 7 = VBits.trunc 7 ((i.buff_consum : Int) - 32) := by
    simp only [slc, VBits.trunc]; omega
  have e2 : slc ((2 ^ 9 + 32 - i.buff_consum) % 2 ^ 9) 0 5 = VBits.trunc 5 ((32 : Int) - i.buff_consum) := by
    simp only [slc, VBits.trunc]; omega
  have e3 : ∀ k, slc (i.buffer / 2 ^ k) 0 32 = (i.buffer >>> k) % 2 ^ 32 := by
    intro k; simp [slc, Nat.shiftRight_eq_div_pow]
  have e4 : ∀ k, slc (i.buffer * 2 ^ k % 2 ^ 175) 0 32 = (i.buffer <<< k) % 2 ^ 32 := by
    intro k; rw [Beta.slc_zero, Nat.mod_mod_of_dvd _ (Nat.pow_dvd_pow 2 (by omega)), Nat.shiftLeft_eq]
  have hst : st = 0 ∨ st = 1 ∨ st = 2 := by omega
  simp only [VBits.outStep, VBits.doOutput, absVBits, b1, b2]
  simp only [netlist, e1, e2, e3, e4]
  generalize VBits.trunc 7 ((i.buff_consum : Int) - 32) = k1
  generalize VBits.trunc 5 ((32 : Int) - i.buff_consum) = k2
  cases b <;> cases hv : i.end_out <;> by_cases a1 : 32 ≤ i.buff_consum <;>
  by_cases a2 : i.buff_consum ≤ 32 <;>
  rcases hst with rfl | rfl | rfl <;> first | omega | simp [Beta.outFsm, a1, a2]

/-- The part of the input handler driven by its FSM. -/
theorem vbits_in (s : vbits_to_cbits.S) (c : Nat) (e v b : Bool) (x : Nat) (h : WfVBits s) :
    let t := absVBits (vbits_to_cbits.step s c e v b false x)
    let m := (absVBits s).inStep ⟨x, c, e⟩ v
    t.ifsm = m.ifsm ∧ t.latch = m.latch ∧ t.endIn = m.endIn ∧ t.reg = m.reg ∧ t.validReg = m.validReg ∧ t.bf = m.bf ∧
      t.validBf = m.validBf := by
  obtain ⟨h1, h2, h3, h4, h5, h6⟩ := h
  obtain ⟨⟨li, st, er, cr, xr, eb, cb, xb, sta, fr, vl, bc, vr, eo, bu, vb⟩, o⟩ := s
  dsimp only at h1 h2 h3 h4 h5 h6
  have hst : st = 0 ∨ st = 1 ∨ st = 2 ∨ st = 3 := by omega
  rcases hst with rfl | rfl | rfl | rfl
  · cases vb
    · cases vr <;> simp [netlist, absVBits, VBits.inStep, Beta.inFsm]
    · by_cases q : cb ≤ fr <;> simp [netlist, absVBits, VBits.inStep, Beta.inFsm, q]
  · cases vr <;> simp [netlist, absVBits, VBits.inStep, Beta.inFsm]
  · cases vr
    · simp [netlist, absVBits, VBits.inStep, Beta.inFsm]
    · by_cases q : cr ≤ fr <;> simp [netlist, absVBits, VBits.inStep, Beta.inFsm, q]
  · simp [netlist, absVBits, VBits.inStep, Beta.inFsm]

theorem vbits_step (s : vbits_to_cbits.S) (c : Nat) (e v b : Bool) (x : Nat) (h : WfVBits s) :
    absVBits (vbits_to_cbits.step s c e v b false x) = (absVBits s).step 32 144 ⟨x, c, e⟩ v b := by
  have hi := vbits_in s c e v b x h
  have ho := vbits_out s b h
  have hinc := vbits_inc s h
  have hdec := vbits_dec s b h
  have hb : bitsFor 144 = 8 := by decide
  obtain ⟨i1, i2, i3, i4, i5, i6, i7⟩ := hi
  obtain ⟨w1, w2, w3, w4, w5, w6⟩ := h
  apply Beta.vbits_ext
  · exact congrArg (·.1) ho
  · exact congrArg (·.2.1) ho
  · exact congrArg (·.2.2.1) ho
  · exact congrArg (·.2.2.2) ho
  · exact i1
  · exact i2
  · show input_handler.next_buffer s.u_input_handler false = if (absVBits s).incBuff = true then _ else s.u_input_handler.buffer
    rw [← hinc]
    have e1 : slc (s.u_input_handler.buffer * 2 ^ s.u_input_handler.enc_in_ctr_reg % 2 ^ 207 ||| s.u_input_handler.enc_in_reg) 0 144 =
        (((absVBits s).buffer <<< (absVBits s).reg.ctr) ||| (absVBits s).reg.enc) % 2 ^ 144 := by
      rw [Beta.slc_zero, Beta.or_mod_pow, Nat.mod_mod_of_dvd _ (Nat.pow_dvd_pow 2 (by omega)), ← Beta.or_mod_pow, Nat.shiftLeft_eq]; rfl
    rw [← e1]
    have hst : s.u_input_handler.fsm_state = 0 ∨ s.u_input_handler.fsm_state = 1 ∨ s.u_input_handler.fsm_state = 2 ∨
      s.u_input_handler.fsm_state = 3 := by omega
    cases hv : s.u_input_handler.valid_in_reg <;>
    by_cases q : s.u_input_handler.enc_in_ctr_reg ≤ s.u_input_handler.buff_free <;>
    rcases hst with hst | hst | hst | hst <;> simp [netlist, hst, hv, q]
  · show (if (input_handler.inc_buff s.u_input_handler || vbits_to_cbits.input_handler_dec_buff s b) = true then
        input_handler.new_buff_consum s.u_input_handler (vbits_to_cbits.input_handler_dec_buff s b) else s.u_input_handler.buff_consum) = _
    simp only [VBits.step, input_handler.new_buff_consum, input_handler.next_new_buff_consum, input_handler.w54, hinc, hdec]
    cases (absVBits s).incBuff <;> cases (absVBits s).doOutput 32 b
    · rfl
    all_goals
      simp only [Bool.or_true, Bool.true_or, Bool.and_true, Bool.and_false, Bool.or_false, Bool.and_self, Bool.or_self, if_true,
        Bool.false_eq_true, if_false, hb,
        input_handler.w56, input_handler.w59, input_handler.w57, input_handler.w61, input_handler.w62, input_handler.w64,
        input_handler.w65, slc, VBits.trunc]
      simp only [absVBits]
      omega
  · show (if (input_handler.inc_buff s.u_input_handler || vbits_to_cbits.input_handler_dec_buff s b) = true then
        input_handler.new_buff_free s.u_input_handler (vbits_to_cbits.input_handler_dec_buff s b) else
        if (s.u_input_handler.start == false) = true then 144 else s.u_input_handler.buff_free) = _
    simp only [VBits.step, input_handler.new_buff_free, input_handler.next_new_buff_free, input_handler.w41, hinc, hdec]
    cases (absVBits s).incBuff <;> cases (absVBits s).doOutput 32 b
    · show (if (s.u_input_handler.start == false) = true then 144 else s.u_input_handler.buff_free) =
        if (!s.u_input_handler.start) = true then 144 else s.u_input_handler.buff_free
      cases s.u_input_handler.start <;> rfl
    all_goals
      simp only [Bool.or_true, Bool.true_or, Bool.and_true, Bool.and_false, Bool.or_false, Bool.and_self, Bool.or_self, if_true,
        Bool.false_eq_true, if_false, hb,
        input_handler.w43, input_handler.w46, input_handler.w44, input_handler.w48, input_handler.w49, input_handler.w51,
        input_handler.w52, slc, VBits.trunc]
      simp only [absVBits]
      omega
  · show (if (s.u_input_handler.start == false) = true then true else s.u_input_handler.start) = true
    cases s.u_input_handler.start <;> rfl
  · exact i3
  · exact i4
  · exact i5
  · exact i6
  · exact i7

/-! ### integration_3 -/

/-- The registers of the netlist as registers of the model. -/
def absInt3 (s : top_module.S) : Int3 := { int2 := absInt2 s.u_integration_2, vbits := absVBits s.u_vbits_to_cbits }

/-- Register ranges. -/
def WfInt3 (s : top_module.S) : Prop :=
  WfInt2 s.u_integration_2 ∧ WfVBits s.u_vbits_to_cbits ∧ s.u_vbits_to_cbits.u_output_handler.data_out < 2 ^ 32

/-- The frame size the netlist works with. -/
def cfgOf3 (s : top_module.S) : CoreCfg := cfgOf s.u_integration_2

theorem unpack_48 (n : Nat) : Code.mk (slc (slc n 0 48) 0 48) (slc (slc n 48 6) 0 6) (n.testBit 54) = Code.unpack 48 n := by
  have hb : bitsFor 48 = 6 := by decide
  simp [Code.unpack, hb, slc]

theorem int3_step (s : top_module.S) (x0 x1 x2 x3 : Nat) (v b full : Bool) (h : WfInt3 s) :
    absInt3 (top_module.step s x1 x2 x3 v b false full x0) = (absInt3 s).step (cfgOf3 s) [x0, x1, x2, x3] v b := by
  have a := int2_step s.u_integration_2 x0 x1 x2 x3 s.u_vbits_to_cbits.u_input_handler.latch_input full v h.1
  have c := vbits_step s.u_vbits_to_cbits (top_module.vbits_to_cbits_enc_in_ctr s) (top_module.vbits_to_cbits_in_end s)
    (top_module.vbits_to_cbits_valid_in s) b (top_module.vbits_to_cbits_enc_in s) h.2.1
  show Int3.mk _ _ = Int3.mk _ _
  congr 1
  refine c.trans ?_
  show (absVBits s.u_vbits_to_cbits).step 32 144 _ s.u_integration_2.u_converter_fifo.u_fifo.readable b =
    (absVBits s.u_vbits_to_cbits).step 32 144 (Code.unpack 48 s.u_integration_2.u_converter_fifo.u_fifo.u_unbuffered.r_0_)
      s.u_integration_2.u_converter_fifo.u_fifo.readable b
  rw [← unpack_48]
  rfl

theorem int3_rst (s : top_module.S) (x0 x1 x2 x3 : Nat) (v b full : Bool) (h : WfInt3 s) :
    absInt3 (top_module.step s x1 x2 x3 v b true full x0) =
      Int3.reset (cfgOf3 s) ((absInt3 s).step (cfgOf3 s) [x0, x1, x2, x3] v b).int2.kept := by
  have a := int2_rst s.u_integration_2 x0 x1 x2 x3 s.u_vbits_to_cbits.u_input_handler.latch_input full v h.1
  have c := vbits_rst s.u_vbits_to_cbits (top_module.vbits_to_cbits_enc_in_ctr s) (top_module.vbits_to_cbits_in_end s)
    (top_module.vbits_to_cbits_valid_in s) b (top_module.vbits_to_cbits_enc_in s)
  show Int3.mk _ _ = Int3.mk _ _
  congr 1

theorem int3_wf (s : top_module.S) (x0 x1 x2 x3 : Nat) (v b rst full : Bool) (h : WfInt3 s) (h0 : x0 < 4096) (h1 : x1 < 4096)
    (h2 : x2 < 4096) (h3 : x3 < 4096) :
    WfInt3 (top_module.step s x1 x2 x3 v b rst full x0) := by
  refine ⟨int2_wf _ _ _ _ _ _ _ _ _ h.1 h0 h1 h2 h3, vbits_wf _ _ _ _ _ _ _ h.2.1 (Beta.slc_lt _ _ _), ?_⟩
  have := h.2.2
  show output_handler.next_data_out _ _ _ _ _ _ < 2 ^ 32
  simp only [netlist]
  repeat' first | exact Beta.slc_lt .. | assumption | decide | apply Beta.ite_lt

theorem int3_init (s : top_module.S) (h : top_module.Init s) : WfInt3 s ∧
    absInt3 s = Int3.reset (coreCfg 0 0) (absInt3 s).int2.kept ∧ (absInt3 s).int2.kept.Ok (coreCfg 0 0) ∧
    s.u_integration_2.u_integration_1.u_register_file = ⟨0, 0, 0⟩ := by
  obtain ⟨h1, ⟨a1, a2, a3, a4, a5, a6, a7, a8, a9, a10, a11, a12, a13, a14, a15, a16⟩, b1, b2, b3, b4⟩ := h
  obtain ⟨i1, i2, i3, i4⟩ := int2_init _ h1
  refine ⟨⟨i1, ⟨?_, ?_, ?_, ?_, ?_, ?_⟩, ?_⟩, ?_, i3, i4⟩
  · simp [*]
  · simp [*]
  · simp [*]
  · simp [*]
  · simp [*]
  · simp [*]
  · simp [*]
  · show Int3.mk _ _ = Int3.mk _ _
    congr 1
    simp [absVBits, VBits.init, Beta.inFsm, Beta.outFsm, Code.zero, *]

end Netlist.I3Axis
