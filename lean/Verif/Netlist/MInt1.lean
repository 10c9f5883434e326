/- The modules of the pixel pipeline of the netlist of the micro core against the model of migen_src. -/
import Verif.Netlist.MLite
import Verif.Netlist.Int2
import Verif.Model.Config

set_option autoImplicit false

namespace Netlist.MicroAxis
open Netlist Model

/-! ### difference -/

/-- The registers of the netlist as registers of the model. -/
def absDifference (s : difference.S) : Difference :=
  { vals := [s.val_out], mns := [s.val_out_1], valid := s.valid_out, endd := s.end_out }

theorem difference_rst (s : difference.S) (x p : Nat) (e v : Bool) :
    absDifference (difference.step s x p e true v) = Difference.init 1 := by
  simp [netlist, absDifference, Difference.init]

theorem difference_step (s : difference.S) (x p : Nat) (e v : Bool) (hx : x < 4096) (hp : p < 4096) :
    absDifference (difference.step s x p e false v) = (absDifference s).step 12 [x] [p] v e := by
  have h1 := Beta.diffVal_eq x p hx hp
  have h3 := Beta.diffMns_eq x p hx hp
  cases v <;>
    simp only [netlist, absDifference, Difference.step, Beta.slc_zero, h1, h3] <;> simp

/-! ### normalize -/

/-- The registers of the netlist as registers of the model. -/
def absNormalize (s : normalize.S) : Normalize :=
  { vals := [s.u_w6.val_out], ssss := [s.u_w6.ssss], valid := s.u_w6.valid_o, endd := s.u_w6.end_out }

theorem normalize_rst (s : normalize.S) (v e : Bool) (m x : Nat) :
    absNormalize (normalize.step s v e m true x) = Normalize.init 1 := by
  simp [netlist, absNormalize, Normalize.init]

theorem normalize_step (s : normalize.S) (v e : Bool) (m x : Nat) :
    absNormalize (normalize.step s v e m false x) = (absNormalize s).step 12 [x] [m] v e := by
  cases v
  · simp [netlist, absNormalize, Normalize.step]
  · have h1 := Beta.single_norm_val s.u_w6 x m
    have h2 := Beta.single_norm_ssss s.u_w6 x m
    simp only [absNormalize, Normalize.step, List.zipWith_cons_cons, List.zipWith_nil_left, if_true, ← h1, ← h2]
    rfl

theorem normalize_wf (n : normalize.S) (v e rst : Bool) (m x : Nat) (h : n.u_w6.ssss ≤ 12) :
    (normalize.step n v e m rst x).u_w6.ssss ≤ 12 := by
  cases rst
  · cases v
    · exact h
    · rw [show (normalize.step n true e m false x).u_w6.ssss = Beta.anonymous.next_ssss n.u_w6 x m false true from rfl,
        Beta.single_norm_ssss]; exact Beta.normSsss_le _ _
  · exact Nat.zero_le _

/-! ### encode -/

/-- The registers of the netlist as registers of the model; the netlist registers the read address. -/
def absEncode (s : encode.S) : Encode :=
  { ssssLate := [s.u_w9.ssss_late], valLate := [s.u_w9.val_in_late], rpData := [s.mem.getD s.r_0_ 0]
    validLate := s.u_w9.valid_late, endLate := s.u_w9.end_late
    encOut := [s.u_w9.enc_out], encCtr := [s.u_w9.enc_ctr]
    valid := s.u_w9.valid_out, endd := s.u_w9.end_out }

/-- The table memory after the clock edge. -/
def nextMem (s : encode.S) (we : Bool) (wa wd : Nat) : List Nat := if we then s.mem.set wa wd else s.mem

theorem encode_step (s : encode.S) (e v : Bool) (ss ra : Nat) (we : Bool) (wa wd x : Nat) (h1 : ss < 16) :
    absEncode (encode.step s e v ss false ra we wa wd x) = (absEncode s).step 12 (nextMem s we wa wd) [x] [ss] v e := by
  have e1 : ss % 2 ^ 4 = ss := by omega
  cases hv : s.u_w9.valid_late <;> cases we <;>
    simp [netlist, absEncode, Encode.step, Encode.encVal, Encode.encLen, singleCtr, hv, Beta.slc_testBit, e1, nextMem]

theorem encode_rst (s : encode.S) (e v : Bool) (ss ra : Nat) (we : Bool) (wa wd x : Nat) (h1 : ss < 16) :
    absEncode (encode.step s e v ss true ra we wa wd x) =
      Encode.reset 1 ((absEncode s).step 12 (nextMem s we wa wd) [x] [ss] v e).rpData := by
  have e1 : ss % 2 ^ 4 = ss := by omega
  cases we <;> simp [netlist, absEncode, Encode.step, Encode.reset, Beta.slc_zero, e1, nextMem]

theorem encode_mem (s : encode.S) (e v : Bool) (ss : Nat) (rst : Bool) (ra : Nat) (we : Bool) (wa wd x : Nat) :
    (encode.step s e v ss rst ra we wa wd x).mem = nextMem s we wa wd ∧ (encode.step s e v ss rst ra we wa wd x).r_1_ = ra := by
  exact ⟨rfl, rfl⟩

/-! ### signals -/

/-- The registers of the netlist as registers of the model. -/
def absSignals (s : signals.S) : Signals :=
  { fsm := Beta.sigFsm s.fsm_state, widthTemp := s.width_temp, heightTemp := s.height_temp
    endOfFrame := s.end_of_frame, newRow := s.new_row }

/-- Register ranges. -/
def WfSignals (s : signals.S) : Prop := s.fsm_state ≤ 2 ∧ s.width_temp < 2 ^ 16 ∧ s.height_temp < 2 ^ 16

theorem signals_rst (s : signals.S) (W H : Nat) (v : Bool) : absSignals (signals.step s W H true v) = Signals.init := by
  simp [netlist, absSignals, Signals.init, Beta.sigFsm]

theorem signals_wf (s : signals.S) (W H : Nat) (rst v : Bool) (h : WfSignals s) (hW : W < 2 ^ 16) :
    WfSignals (signals.step s W H rst v) := by
  obtain ⟨h1, h2, h3⟩ := h
  cases rst <;> simp only [netlist, WfSignals, Beta.slc_zero, Bool.false_eq_true, if_false, if_true]
  · refine ⟨?_, ?_, ?_⟩ <;> (repeat' first | apply Beta.ite_le | apply Beta.ite_lt) <;> omega
  · decide

theorem signals_step (s : signals.S) (W H : Nat) (v : Bool) (h : WfSignals s) (hW : W < 2 ^ 16) (hH : H < 2 ^ 16) :
    absSignals (signals.step s W H false v) = (absSignals s).step 1 W H v := by
  obtain ⟨h1, h2, h3⟩ := h
  have e1 := Beta.sub16_eq W 1 hW (by omega)
  have e2 := Beta.sub16_eq H 1 hH (by omega)
  have e3 := Beta.sub16_eq s.width_temp 1 h2 (by omega)
  have e4 := Beta.sub16_eq s.height_temp 1 h3 (by omega)
  have e5 : W % 65536 = W := by omega
  obtain ⟨eof, st, nr, ht, wt⟩ := s
  dsimp only at h1 h2 h3 e3 e4
  have hst : st = 0 ∨ st = 1 ∨ st = 2 := by omega
  rcases hst with rfl | rfl | rfl <;> cases v <;>
    simp only [netlist, absSignals, Signals.step, Beta.sigFsm, Beta.slc_zero, e1, e2, e3, e4, e5] <;>
    by_cases hw : wt = 1 <;> by_cases hw4 : wt = 2 <;> by_cases hh : ht = 0 <;> simp [hw, hw4, hh]

/-! ### predictor -/

/-- The registers of the netlist as registers of the model. -/
def absPredictor (s : predictor.S) : Pix12 :=
  { buffs := [[s.buff], [s.buff_21], [s.buff_22], [s.buff_23]]
    lbuffs := [[s.lbuff], [s.lbuff_27], [s.lbuff_28], [s.lbuff_29]]
    buffCtr := s.buff_ctr, lbuffCtr := s.lbuff_ctr, newRowReg := s.new_row_reg
    pixelsOut := [s.pixel_out], predicsOut := [s.predic_out]
    valid := s.valid_out, endd := s.end_out, debugCounter := s.debug_counter }

/-- Register ranges: pixels have 12 bits, counters two. -/
def WfPredictor (s : predictor.S) : Prop :=
  s.buff < 4096 ∧ s.buff_21 < 4096 ∧ s.buff_22 < 4096 ∧ s.buff_23 < 4096 ∧
  s.lbuff < 4096 ∧ s.lbuff_27 < 4096 ∧ s.lbuff_28 < 4096 ∧ s.lbuff_29 < 4096 ∧
  s.pixel_out < 4096 ∧ s.predic_out < 4096 ∧ s.buff_ctr < 4 ∧ s.lbuff_ctr < 4

theorem predictor_rst (s : predictor.S) (nr : Bool) (x : Nat) (e v : Bool) :
    absPredictor (predictor.step s nr x e true v) = Pix12.init 12 1 := by
  simp [netlist, absPredictor, Pix12.init, Pix12.gb, List.replicate]

theorem predictor_wf (s : predictor.S) (nr : Bool) (x : Nat) (e rst v : Bool) (h : WfPredictor s) (hx : x < 4096) :
    WfPredictor (predictor.step s nr x e rst v) := by
  unfold WfPredictor at *
  simp only [netlist, Beta.slc_zero]
  refine ⟨?_, ?_, ?_, ?_, ?_, ?_, ?_, ?_, ?_, ?_, ?_, ?_⟩ <;> (repeat' apply Beta.ite_lt) <;> omega

theorem predictor_step (s : predictor.S) (nr : Bool) (x : Nat) (e v : Bool) (h : WfPredictor s) :
    absPredictor (predictor.step s nr x e false v) = (absPredictor s).step 1 [x] nr v e := by
  have he : (s.debug_counter + 1) % 2 ^ 33 % 2 ^ 32 = (s.debug_counter + 1) % 2 ^ 32 := by omega
  obtain ⟨-, -, -, -, -, -, -, -, -, -, h1, h2⟩ := h
  obtain ⟨s1, s2, s3, s4, s5, s6, s7, lc, s10, s11, s12, s13, bc, s15, s16, nrr⟩ := s
  dsimp only at he h1 h2
  simp only [netlist, Beta.slc_zero, absPredictor, he, Pix12.step, Pix12.gb]
  have hb : bc = 0 ∨ bc = 1 ∨ bc = 2 ∨ bc = 3 := by omega
  have hl : lc = 0 ∨ lc = 1 ∨ lc = 2 ∨ lc = 3 := by omega
  rcases hb with rfl | rfl | rfl | rfl <;> rcases hl with rfl | rfl | rfl | rfl <;> cases nrr <;> cases nr <;> cases v <;> simp

/-! ### integration_1 -/

/-- The registers of the pipeline of the netlist as registers of the model. -/
def absInt1 (s : integration_1.S) : Int1 :=
  { signals := absSignals s.u_signals, predictor := .pix12 (absPredictor s.u_predictor)
    difference := absDifference s.u_difference, normalize := absNormalize s.u_normalize
    encode := absEncode s.u_encode, merge := [] }

/-- Ranges of the registers of the pipeline. -/
def WfInt1 (s : integration_1.S) : Prop :=
  WfSignals s.u_signals ∧ WfPredictor s.u_predictor ∧ Beta.WfForceEnd s.u_force_end ∧ s.u_normalize.u_w6.ssss ≤ 12 ∧
  s.u_encode.u_w9.enc_ctr < 2 ^ 5 ∧ s.u_encode.u_w9.enc_out < 2 ^ 28

/-- The table memory after this clock edge: what the table window of the slave writes. -/
def memOf (s : integration_1.S) : List Nat :=
  nextMem s.u_encode s.u_core_axi_lite.wp_en (slc s.u_core_axi_lite.wp_addr 0 4) s.u_core_axi_lite.wp_data

/-- The configuration the pipeline of the netlist works with. -/
def int1Cfg (s : integration_1.S) : Int1Cfg :=
  { bd := 12, ps := 1, W := slc s.u_core_axi_lite.height_width 16 16, H := slc s.u_core_axi_lite.height_width 0 16, mem := memOf s }

/-- One clock edge of the pipeline of the netlist. -/
def int1Step (s : integration_1.S) (x : Nat) (rst : Bool) (i : LiteIn) (full v : Bool) : integration_1.S :=
  integration_1.step s x rst i.arvalid i.awvalid i.araddr i.rready i.awaddr i.wvalid i.wdata i.wstrb i.bready full v

theorem int1_step (s : integration_1.S) (x : Nat) (i : LiteIn) (full v : Bool) (h : WfInt1 s) :
    absInt1 (int1Step s x false i full v) = (absInt1 s).step (int1Cfg s) [x] v := by
  obtain ⟨h1, h2, h3, h4, -⟩ := h
  have a1 := signals_step s.u_signals (slc s.u_core_axi_lite.height_width 16 16) (slc s.u_core_axi_lite.height_width 0 16) v h1
    (Beta.slc_lt ..) (Beta.slc_lt ..)
  have a2 := predictor_step s.u_predictor s.u_signals.new_row x s.u_signals.end_of_frame v h2
  obtain ⟨-, -, -, -, -, -, -, -, p1, p2, -⟩ := h2
  have a3 := difference_step s.u_difference s.u_predictor.pixel_out s.u_predictor.predic_out s.u_predictor.end_out
    s.u_predictor.valid_out p1 p2
  have a4 := normalize_step s.u_normalize s.u_difference.valid_out s.u_difference.end_out s.u_difference.val_out_1
    s.u_difference.val_out
  have a5 := encode_step s.u_encode s.u_normalize.u_w6.end_out s.u_normalize.u_w6.valid_o s.u_normalize.u_w6.ssss
    (slc s.u_core_axi_lite.rp_addr 0 4) s.u_core_axi_lite.wp_en (slc s.u_core_axi_lite.wp_addr 0 4) s.u_core_axi_lite.wp_data
    s.u_normalize.u_w6.val_out (by omega)
  simp only [absInt1, Int1.step]
  congr 1
  · exact congrArg Predictor.pix12 a2

theorem int1_rst (s : integration_1.S) (x : Nat) (i : LiteIn) (full v : Bool) (h : WfInt1 s) :
    absInt1 (int1Step s x true i full v) =
      Int1.reset (int1Cfg s) ((absInt1 s).step (int1Cfg s) [x] v).encode.rpData := by
  obtain ⟨h1, h2, h3, h4, -⟩ := h
  have a5 := encode_rst s.u_encode s.u_normalize.u_w6.end_out s.u_normalize.u_w6.valid_o s.u_normalize.u_w6.ssss
    (slc s.u_core_axi_lite.rp_addr 0 4) s.u_core_axi_lite.wp_en (slc s.u_core_axi_lite.wp_addr 0 4) s.u_core_axi_lite.wp_data
    s.u_normalize.u_w6.val_out (by omega)
  simp only [absInt1, Int1.reset, Int1.step]
  congr 1
  · exact congrArg Predictor.pix12 (predictor_rst ..)

theorem int1_wf (s : integration_1.S) (x : Nat) (rst : Bool) (i : LiteIn) (full v : Bool) (h : WfInt1 s) (hx : x < 4096) :
    WfInt1 (int1Step s x rst i full v) := by
  obtain ⟨h1, h2, h3, h4, h5, h6⟩ := h
  have n := normalize_wf s.u_normalize s.u_difference.valid_out s.u_difference.end_out rst s.u_difference.val_out_1
    s.u_difference.val_out h4
  refine ⟨signals_wf _ _ _ _ _ h1 (Beta.slc_lt ..), predictor_wf _ _ _ _ _ _ h2 hx, Beta.force_end_wf _ _ _ _ h3, n, ?_, ?_⟩
  · show anonymous_2.next_enc_ctr _ _ _ < _
    simp only [netlist]
    repeat' apply Beta.ite_lt
    all_goals first | decide | exact h5 | exact Beta.slc_lt .. | exact Nat.mod_lt _ (by decide)
  · show anonymous_2.next_enc_out _ _ _ < _
    simp only [netlist]
    repeat' apply Beta.ite_lt
    all_goals first | decide | exact h6 | exact Beta.slc_lt .. | exact Nat.mod_lt _ (by decide)

theorem int1_init (s : integration_1.S) (h : integration_1.Init s) : WfInt1 s ∧
    absInt1 s = Int1.reset (int1Cfg s) (absInt1 s).encode.rpData ∧ core_axi_lite.Init s.u_core_axi_lite ∧
    Beta.absForceEnd s.u_force_end = ForceEnd.init ∧ s.u_encode.mem = initHuffTable 12 := by
  obtain ⟨h0, h1, h2, h3, h5, h6, h8⟩ := h
  refine ⟨?_, ?_, h0, ?_, ?_⟩
  · obtain ⟨-, e1⟩ := h2
    obtain ⟨p1, p2, p3, p4, p5, p6, p7, p8, p9, p10, p11, p12, p13, p14, p15, p16⟩ := h6
    obtain ⟨s1, s2, s3, s4, s5⟩ := h8
    obtain ⟨f1, f2, f3⟩ := h3
    simp only [anonymous_2.Init, normalize.Init, Beta.anonymous.Init] at e1 h5
    simp_all [WfInt1, WfSignals, WfPredictor, Beta.WfForceEnd]
  · obtain ⟨-, e1⟩ := h2
    simp only [anonymous_2.Init, normalize.Init, Beta.anonymous.Init, predictor.Init, signals.Init, difference.Init] at e1 h5 h1 h6 h8
    simp [absInt1, Int1.reset, int1Cfg, absSignals, absPredictor, absDifference, absNormalize, absEncode, Signals.init, Predictor.init,
      Pix12.init, Difference.init, Normalize.init, Encode.reset, Pix12.gb, Beta.sigFsm, levels, Merge.initLevels, e1, h5, h1, h6, h8]
  · obtain ⟨f1, f2, f3⟩ := h3
    simp [Beta.absForceEnd, ForceEnd.init, Beta.fendFsm, f1, f2, f3]
  · rw [h2.1]; decide

end Netlist.MicroAxis
