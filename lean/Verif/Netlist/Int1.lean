/- The netlist modules of the pixel pipeline against the model of migen_src. -/
import Verif.Netlist.Beta
import Verif.Model.Integration1
import Verif.Model.ForceEnd

set_option autoImplicit false

namespace Netlist.Beta
open Netlist Model

theorem slc_zero (x w : Nat) : slc x 0 w = x % 2 ^ w := by simp [slc]

theorem slc_testBit (x l w : Nat) : slc x l w = (x >>> l) % 2 ^ w := by simp [slc, Nat.shiftRight_eq_div_pow]

/-! ### difference -/

/-- The registers of the netlist as registers of the model. -/
def absDifference (s : difference.S) : Difference :=
  { vals := [s.val_out, s.val_out_3], mns := [s.val_out_4, s.val_out_5], valid := s.valid_out, endd := s.end_out }

theorem difference_rst (s : difference.S) (x p x' p' : Nat) (e v : Bool) :
    absDifference (difference.step s x p x' p' e true v) = Difference.init 2 := by
  simp [netlist, absDifference, Difference.init]

theorem diffVal_eq (x p : Nat) (hx : x < 4096) (hp : p < 4096) :
    (2 ^ 13 + x - p) % 2 ^ 13 = Difference.diffVal 12 x p := by
  simp only [Difference.diffVal]; omega

theorem diffMns_eq (x p : Nat) (_hx : x < 4096) (_hp : p < 4096) :
    (2 ^ 14 + Difference.diffVal 12 x p - 1) % 2 ^ 14 % 2 ^ 13 = Difference.diffMns 12 x p := by
  simp only [Difference.diffMns, Difference.diffVal]; omega

theorem difference_step (s : difference.S) (x p x' p' : Nat) (e v : Bool) (hx : x < 4096) (hp : p < 4096)
    (hx' : x' < 4096) (hp' : p' < 4096) :
    absDifference (difference.step s x p x' p' e false v) =
      (absDifference s).step 12 [x, x'] [p, p'] v e := by
  have h1 := diffVal_eq x p hx hp
  have h2 := diffVal_eq x' p' hx' hp'
  have h3 := diffMns_eq x p hx hp
  have h4 := diffMns_eq x' p' hx' hp'
  cases v <;>
    simp only [netlist, absDifference, Difference.step, slc_zero, h1, h2, h3, h4] <;> simp

/-! ### normalize -/

/-- The registers of the netlist as registers of the model. -/
def absNormalize (s : normalize.S) : Normalize :=
  { vals := [s.u_w10.val_out, s.u_w17.val_out], ssss := [s.u_w10.ssss, s.u_w17.ssss]
    valid := s.u_w10.valid_o, endd := s.u_w10.end_out }

theorem normalize_rst (s : normalize.S) (v e : Bool) (m x' m' x : Nat) :
    absNormalize (normalize.step s v e m x' m' true x) = Normalize.init 2 := by
  simp [netlist, absNormalize, Normalize.init]

theorem negTree_12 (m : Nat) : Normalize.negTree 12 m 0 11 =
    if Normalize.negTest 12 m 5 then
      if Normalize.negTest 12 m 2 then
        if Normalize.negTest 12 m 1 then (if Normalize.negTest 12 m 0 then 0 else 1) else 2
      else if Normalize.negTest 12 m 4 then (if Normalize.negTest 12 m 3 then 3 else 4) else 5
    else if Normalize.negTest 12 m 8 then
      if Normalize.negTest 12 m 7 then (if Normalize.negTest 12 m 6 then 6 else 7) else 8
    else if Normalize.negTest 12 m 10 then (if Normalize.negTest 12 m 9 then 9 else 10) else 11 := by
  rw [Normalize.negTree]; simp only [Nat.reduceLeDiff, Nat.reduceAdd, Nat.reduceDiv, dite_false, Nat.reduceEqDiff, if_false]
  rw [Normalize.negTree, Normalize.negTree.eq_1 12 m 6 11]
  simp only [Nat.reduceLeDiff, Nat.reduceAdd, Nat.reduceDiv, dite_false, Nat.reduceEqDiff, if_false]
  rw [Normalize.negTree, Normalize.negTree.eq_1 12 m 3 5, Normalize.negTree.eq_1 12 m 6 8, Normalize.negTree.eq_1 12 m 9 11]
  simp only [Nat.reduceLeDiff, Nat.reduceAdd, Nat.reduceDiv, dite_false, Nat.reduceEqDiff, if_false]
  rw [Normalize.negTree, Normalize.negTree.eq_1 12 m 2 2, Normalize.negTree.eq_1 12 m 3 4, Normalize.negTree.eq_1 12 m 5 5,
    Normalize.negTree.eq_1 12 m 6 7, Normalize.negTree.eq_1 12 m 8 8, Normalize.negTree.eq_1 12 m 9 10, Normalize.negTree.eq_1 12 m 11 11]
  simp

theorem negTest_slc (m i : Nat) : Normalize.negTest 12 m i = (slc m (1 + i) (12 - i) == 2 ^ (12 - i) - 1) := by
  simp only [Normalize.negTest, slc, Nat.shiftRight_eq_div_pow]

theorem ite_add_one (c : Prop) [Decidable c] (a b : Nat) : (if c then a else b) + 1 = if c then a + 1 else b + 1 := by
  split <;> rfl

theorem ite_le (c : Prop) [Decidable c] (a b n : Nat) (h1 : a ≤ n) (h2 : b ≤ n) : (if c then a else b) ≤ n := by
  split <;> assumption

theorem ite_lt (c : Prop) [Decidable c] (a b n : Nat) (h1 : a < n) (h2 : b < n) : (if c then a else b) < n := by
  split <;> assumption

theorem ite_mod (c : Prop) [Decidable c] (a b n : Nat) : (if c then a else b) % n = if c then a % n else b % n := by
  split <;> rfl

/-- What a `SingleNormalizer` of the netlist computes. -/
theorem single_norm_val (s : anonymous.S) (x m : Nat) :
    anonymous.next_val_out s x m false true = Normalize.normVal 12 x m := by
  simp only [netlist, Normalize.normVal, Nat.reduceSub, negTree_12, negTest_slc, slc_zero]
  by_cases hb : x.testBit 12 = true
  · simp only [hb, Nat.reduceAdd, Nat.reduceSub, Nat.reducePow, beq_true, if_true, Bool.false_eq_true, if_false]
    repeat' split
    all_goals first | omega | (exfalso; simp_all; done)
  · simp [hb]

/-- What a `SingleNormalizer` of the netlist computes. -/
theorem single_norm_ssss (s : anonymous.S) (x m : Nat) :
    anonymous.next_ssss s x m false true = Normalize.normSsss 12 x m := by
  simp only [netlist, Normalize.normSsss, Nat.reduceSub, negTree_12, negTest_slc]
  by_cases hb : x.testBit 12 = true
  · simp only [hb, beq_true, if_true, Bool.false_eq_true, if_false, ite_add_one, ite_mod, Nat.reduceAdd, Nat.reduceSub, Nat.reducePow, Nat.reduceMod]
    rfl
  · simp only [hb, Normalize.posTree, Bool.false_eq_true, if_false, if_true, beq_true, ite_mod, Nat.reduceAdd, Nat.reduceMod,
      Nat.reducePow]

theorem single_norm' (s : anonymous_1.S) (x m : Nat) :
    anonymous_1.next_val_out s x m false true = Normalize.normVal 12 x m ∧
    anonymous_1.next_ssss s x m false true = Normalize.normSsss 12 x m :=
  ⟨single_norm_val ⟨s.end_out, s.valid_o, s.ssss, s.val_out⟩ x m,
   single_norm_ssss ⟨s.end_out, s.valid_o, s.ssss, s.val_out⟩ x m⟩

theorem normalize_step (s : normalize.S) (v e : Bool) (m x' m' x : Nat) :
    absNormalize (normalize.step s v e m x' m' false x) = (absNormalize s).step 12 [x, x'] [m, m'] v e := by
  cases v
  · simp [netlist, absNormalize, Normalize.step]
  · have h1 := single_norm_val s.u_w10 x m
    have h2 := single_norm_ssss s.u_w10 x m
    have h3 := (single_norm' s.u_w17 x' m').1
    have h4 := (single_norm' s.u_w17 x' m').2
    simp only [absNormalize, Normalize.step, List.zipWith_cons_cons, List.zipWith_nil_left, if_true, ← h1, ← h2, ← h3, ← h4]
    rfl

theorem normSsss_le (x m : Nat) : Normalize.normSsss 12 x m ≤ 12 := by
  rw [← single_norm_ssss ⟨false, false, 0, 0⟩ x m]
  simp only [netlist, Bool.false_eq_true, if_false, if_true]
  repeat' apply ite_le
  all_goals decide

/-! ### encode -/

/-- The registers of the netlist as registers of the model; the netlist registers the read addresses. -/
def absEncode (s : encode.S) : Encode :=
  { ssssLate := [s.u_w13.ssss_late, s.u_w22.ssss_late], valLate := [s.u_w13.val_in_late, s.u_w22.val_in_late]
    rpData := [s.mem.getD s.r_1_ 0, s.mem.getD s.r_0_ 0]
    validLate := s.u_w13.valid_late, endLate := s.u_w13.end_late
    encOut := [s.u_w13.enc_out, s.u_w22.enc_out], encCtr := [s.u_w13.enc_ctr, s.u_w22.enc_ctr]
    valid := s.u_w13.valid_out, endd := s.u_w13.end_out }

/-- Both encoders of the netlist have the same valid bits. -/
def WfEncode (s : encode.S) : Prop := s.u_w22.valid_late = s.u_w13.valid_late

theorem encode_step (s : encode.S) (e v : Bool) (ss x' ss' x : Nat) (h : WfEncode s) (h1 : ss < 16) (h2 : ss' < 16) :
    absEncode (encode.step s e v ss x' ss' false x) = (absEncode s).step 12 s.mem [x, x'] [ss, ss'] v e := by
  have e1 : ss % 2 ^ 4 = ss := by omega
  have e2 : ss' % 2 ^ 4 = ss' := by omega
  unfold WfEncode at h
  cases hv : s.u_w13.valid_late <;> rw [hv] at h <;>
    simp [netlist, absEncode, Encode.step, Encode.encVal, Encode.encLen, singleCtr, h, hv, slc_testBit, e1, e2]

theorem encode_rst (s : encode.S) (e v : Bool) (ss x' ss' x : Nat) (h1 : ss < 16) (h2 : ss' < 16) :
    absEncode (encode.step s e v ss x' ss' true x) =
      Encode.reset 2 ((absEncode s).step 12 s.mem [x, x'] [ss, ss'] v e).rpData := by
  have e1 : ss % 2 ^ 4 = ss := by omega
  have e2 : ss' % 2 ^ 4 = ss' := by omega
  simp [netlist, absEncode, Encode.step, Encode.reset, slc_zero, e1, e2]

theorem encode_wf (s : encode.S) (e v rst : Bool) (ss x' ss' x : Nat) :
    WfEncode (encode.step s e v ss x' ss' rst x) ∧ (encode.step s e v ss x' ss' rst x).mem = s.mem := by
  cases rst <;> simp [netlist, WfEncode]

/-! ### merge -/

/-- The registers of the netlist as registers of the model. -/
def absMerge (s : merge.S) : Merger :=
  { enc := s.u_w9.enc_out, ctr := s.u_w9.enc_out_ctr, valid := s.u_w9.valid_out, endd := s.u_w9.end_out }

theorem merge_rst (s : merge.S) (c : Nat) (v e : Bool) (x' c' x : Nat) :
    absMerge (merge.step s c v e x' c' true x) = Merger.init := by
  simp [netlist, absMerge, Merger.init]

theorem or_mod_pow (a b n : Nat) : (a ||| b) % 2 ^ n = a % 2 ^ n ||| b % 2 ^ n := by
  apply Nat.eq_of_testBit_eq; intro i
  simp only [Nat.testBit_or, Nat.testBit_mod_two_pow]
  cases decide (i < n) <;> simp

theorem merge_step (s : merge.S) (c : Nat) (v e : Bool) (x' c' x : Nat) :
    absMerge (merge.step s c v e x' c' false x) = (absMerge s).step (singleCtr 12) ⟨x, c, v, e⟩ ⟨x', c', v, e⟩ := by
  have hb : bitsFor (singleCtr 12 * 2) = 6 := by decide
  have h56 : singleCtr 12 * 2 = 56 := by decide
  cases v
  · simp [netlist, absMerge, Merger.step]
  · simp only [netlist, absMerge, Merger.step, if_true, Bool.false_eq_true, if_false, slc_zero, hb]
    congr 1
    rw [or_mod_pow, h56, or_mod_pow, Nat.shiftLeft_eq, Nat.mod_mod_of_dvd _ (Nat.pow_dvd_pow 2 (by omega))]

/-! ### signals -/

/-- FSM encoding of the netlist. -/
def sigFsm : Nat → SigFsm
  | 0 => .idle
  | 1 => .loop
  | _ => .done

/-- The registers of the netlist as registers of the model. -/
def absSignals (s : signals.S) : Signals :=
  { fsm := sigFsm s.fsm_state, widthTemp := s.width_temp, heightTemp := s.height_temp
    endOfFrame := s.end_of_frame, newRow := s.new_row }

/-- Register ranges. -/
def WfSignals (s : signals.S) : Prop := s.fsm_state ≤ 2 ∧ s.width_temp < 2 ^ 16 ∧ s.height_temp < 2 ^ 16

theorem signals_rst (s : signals.S) (W H : Nat) (v : Bool) : absSignals (signals.step s W H true v) = Signals.init := by
  simp [netlist, absSignals, Signals.init, sigFsm]

theorem sub16_eq (a b : Nat) (ha : a < 2 ^ 16) (hb : b < 2 ^ 16) : (2 ^ 17 + a - b) % 2 ^ 17 % 2 ^ 16 = Signals.sub16 a b := by
  simp only [Signals.sub16]; omega

theorem signals_wf (s : signals.S) (W H : Nat) (rst v : Bool) (h : WfSignals s) (hW : W < 2 ^ 16) :
    WfSignals (signals.step s W H rst v) := by
  obtain ⟨h1, h2, h3⟩ := h
  cases rst <;> simp only [netlist, WfSignals, slc_zero, Bool.false_eq_true, if_false, if_true]
  · refine ⟨?_, ?_, ?_⟩ <;> (repeat' first | apply ite_le | apply ite_lt) <;> omega
  · decide

theorem signals_step (s : signals.S) (W H : Nat) (v : Bool) (h : WfSignals s) (hW : W < 2 ^ 16) (hH : H < 2 ^ 16) :
    absSignals (signals.step s W H false v) = (absSignals s).step 2 W H v := by
  obtain ⟨h1, h2, h3⟩ := h
  have e1 := sub16_eq W 2 hW (by omega)
  have e2 := sub16_eq H 1 hH (by omega)
  have e3 := sub16_eq s.width_temp 2 h2 (by omega)
  have e4 := sub16_eq s.height_temp 1 h3 (by omega)
  have e5 : W % 65536 = W := by omega
  obtain ⟨eof, st, nr, ht, wt⟩ := s
  dsimp only at h1 h2 h3 e3 e4
  have hst : st = 0 ∨ st = 1 ∨ st = 2 := by omega
  rcases hst with rfl | rfl | rfl <;> cases v <;>
    simp only [netlist, absSignals, Signals.step, sigFsm, slc_zero, e1, e2, e3, e4, e5] <;>
    by_cases hw : wt = 2 <;> by_cases hw4 : wt = 4 <;> by_cases hh : ht = 0 <;> simp [hw, hw4, hh]

/-! ### force_end -/

/-- FSM encoding of the netlist. -/
def fendFsm : Nat → FendFsm
  | 0 => .idle
  | 1 => .counting
  | _ => .fin

/-- The registers of the netlist as registers of the model. -/
def absForceEnd (s : force_end.S) : ForceEnd := { fsm := fendFsm s.fsm_state, counter := s.counter, fend := s.fend }

/-- Register ranges. -/
def WfForceEnd (s : force_end.S) : Prop := s.fsm_state ≤ 2

theorem force_end_rst (s : force_end.S) (a : Nat) (v : Bool) : absForceEnd (force_end.step s a true v) = ForceEnd.init := by
  simp [netlist, absForceEnd, ForceEnd.init, fendFsm]

theorem force_end_wf (s : force_end.S) (a : Nat) (rst v : Bool) (h : WfForceEnd s) : WfForceEnd (force_end.step s a rst v) := by
  unfold WfForceEnd at *
  simp only [netlist]
  repeat' apply ite_le
  all_goals omega

theorem force_end_step (s : force_end.S) (a : Nat) (v : Bool) (h : WfForceEnd s) :
    absForceEnd (force_end.step s a false v) = (absForceEnd s).step a v := by
  obtain ⟨f, c, st⟩ := s
  have hst : st = 0 ∨ st = 1 ∨ st = 2 := by simp only [WfForceEnd] at h; omega
  have e : (c + 1) % 2 ^ 26 % 2 ^ 25 = (c + 1) % 2 ^ 25 := by omega
  rcases hst with rfl | rfl | rfl <;> cases v <;>
    simp only [netlist, absForceEnd, ForceEnd.step, fendFsm, slc_zero, e] <;>
    by_cases hw : c = a <;> simp [hw]

/-! ### predictor -/

/-- The registers of the netlist as registers of the model. -/
def absPredictor (s : predictor.S) : Pix12 :=
  { buffs := [[s.buff, s.buff_24], [s.buff_25, s.buff_26]]
    lbuffs := [[s.lbuff, s.lbuff_30], [s.lbuff_31, s.lbuff_32]]
    buffCtr := s.buff_ctr.toNat, lbuffCtr := s.lbuff_ctr.toNat, newRowReg := s.new_row_reg
    pixelsOut := [s.pixel_out, s.pixel_out_2], predicsOut := [s.predic_out, s.predic_out_3]
    valid := s.valid_out, endd := s.end_out, debugCounter := s.debug_counter }

/-- Register ranges: pixels have 12 bits. -/
def WfPredictor (s : predictor.S) : Prop :=
  s.buff < 4096 ∧ s.buff_24 < 4096 ∧ s.buff_25 < 4096 ∧ s.buff_26 < 4096 ∧
  s.lbuff < 4096 ∧ s.lbuff_30 < 4096 ∧ s.lbuff_31 < 4096 ∧ s.lbuff_32 < 4096 ∧
  s.pixel_out < 4096 ∧ s.pixel_out_2 < 4096 ∧ s.predic_out < 4096 ∧ s.predic_out_3 < 4096

theorem predictor_rst (s : predictor.S) (nr : Bool) (x x' : Nat) (e v : Bool) :
    absPredictor (predictor.step s nr x x' e true v) = Pix12.init 12 2 := by
  simp [netlist, absPredictor, Pix12.init, Pix12.gb, List.replicate]

theorem predictor_wf (s : predictor.S) (nr : Bool) (x x' : Nat) (e rst v : Bool) (h : WfPredictor s) (hx : x < 4096)
    (hx' : x' < 4096) : WfPredictor (predictor.step s nr x x' e rst v) := by
  unfold WfPredictor at *
  simp only [netlist]
  refine ⟨?_, ?_, ?_, ?_, ?_, ?_, ?_, ?_, ?_, ?_, ?_, ?_⟩ <;> (repeat' apply ite_lt) <;> omega

theorem predictor_step (s : predictor.S) (nr : Bool) (x x' : Nat) (e v : Bool) :
    absPredictor (predictor.step s nr x x' e false v) = (absPredictor s).step 2 [x, x'] nr v e := by
  have he : (s.debug_counter + 1) % 2 ^ 33 % 2 ^ 32 = (s.debug_counter + 1) % 2 ^ 32 := by omega
  obtain ⟨s1, s2, s3, s4, s5, s6, s7, s8, lc, s10, s11, s12, s13, bc, s15, s16, s17, nrr⟩ := s
  dsimp only at he
  simp only [netlist, slc_zero, absPredictor, he, Pix12.step, Pix12.gb]
  cases bc <;> cases lc <;> cases nrr <;> cases nr <;> cases v <;> simp

/-! ### integration_1 -/

/-- The registers of the pipeline of the netlist as registers of the model. -/
def absInt1 (s : integration_1.S) : Int1 :=
  { signals := absSignals s.u_signals, predictor := .pix12 (absPredictor s.u_predictor)
    difference := absDifference s.u_difference, normalize := absNormalize s.u_normalize
    encode := absEncode s.u_encode, merge := [[absMerge s.u_merge]] }

/-- Ranges of the registers of the pipeline; the content of the table memory. -/
def WfInt1 (s : integration_1.S) : Prop :=
  WfSignals s.u_signals ∧ WfPredictor s.u_predictor ∧ WfEncode s.u_encode ∧ WfForceEnd s.u_force_end ∧
  s.u_normalize.u_w10.ssss ≤ 12 ∧ s.u_normalize.u_w17.ssss ≤ 12 ∧ s.u_encode.mem = initHuffTable 12 ∧
  s.u_register_file.width_reg < 2 ^ 16 ∧ s.u_register_file.height_reg < 2 ^ 16

/-- The configuration the pipeline of the netlist works with. -/
def int1Cfg (s : integration_1.S) : Int1Cfg :=
  { bd := 12, ps := 2, W := s.u_register_file.width_reg, H := s.u_register_file.height_reg, mem := initHuffTable 12 }

theorem int1_step (s : integration_1.S) (x x' : Nat) (full v : Bool) (h : WfInt1 s) :
    absInt1 (integration_1.step s x x' false full v) = (absInt1 s).step (int1Cfg s) [x, x'] v := by
  obtain ⟨h1, h2, h3, h4, h5, h6, h7, h8, h9⟩ := h
  have a1 := signals_step s.u_signals s.u_register_file.width_reg s.u_register_file.height_reg v h1 h8 h9
  have a2 := predictor_step s.u_predictor s.u_signals.new_row x x' s.u_signals.end_of_frame v
  obtain ⟨-, -, -, -, -, -, -, -, p1, p2, p3, p4⟩ := h2
  have a3 := difference_step s.u_difference s.u_predictor.pixel_out s.u_predictor.predic_out s.u_predictor.pixel_out_2
    s.u_predictor.predic_out_3 s.u_predictor.end_out s.u_predictor.valid_out p1 p3 p2 p4
  have a4 := normalize_step s.u_normalize s.u_difference.valid_out s.u_difference.end_out s.u_difference.val_out_4
    s.u_difference.val_out_3 s.u_difference.val_out_5 s.u_difference.val_out
  have a5 := encode_step s.u_encode s.u_normalize.u_w10.end_out s.u_normalize.u_w10.valid_o s.u_normalize.u_w10.ssss
    s.u_normalize.u_w17.val_out s.u_normalize.u_w17.ssss s.u_normalize.u_w10.val_out h3 (by omega) (by omega)
  have a6 := merge_step s.u_merge s.u_encode.u_w13.enc_ctr s.u_encode.u_w13.valid_out s.u_encode.u_w13.end_out
    s.u_encode.u_w22.enc_out s.u_encode.u_w22.enc_ctr s.u_encode.u_w13.enc_out
  rw [h7] at a5
  simp only [absInt1, Int1.step]
  congr 1
  · exact congrArg Predictor.pix12 a2
  · exact congrArg (fun m => [[m]]) a6

theorem int1_rst (s : integration_1.S) (x x' : Nat) (full v : Bool) (h : WfInt1 s) :
    absInt1 (integration_1.step s x x' true full v) =
      Int1.reset (int1Cfg s) ((absInt1 s).step (int1Cfg s) [x, x'] v).encode.rpData := by
  obtain ⟨h1, h2, h3, h4, h5, h6, h7, h8, h9⟩ := h
  have a5 := encode_rst s.u_encode s.u_normalize.u_w10.end_out s.u_normalize.u_w10.valid_o s.u_normalize.u_w10.ssss
    s.u_normalize.u_w17.val_out s.u_normalize.u_w17.ssss s.u_normalize.u_w10.val_out (by omega) (by omega)
  rw [h7] at a5
  simp only [absInt1, Int1.reset, Int1.step]
  congr 1
  · exact congrArg Predictor.pix12 (predictor_rst ..)

theorem int1_wf (s : integration_1.S) (x x' : Nat) (rst full v : Bool) (h : WfInt1 s) (hx : x < 4096) (hx' : x' < 4096) :
    WfInt1 (integration_1.step s x x' rst full v) := by
  obtain ⟨h1, h2, h3, h4, h5, h6, h7, h8, h9⟩ := h
  have e := encode_wf s.u_encode s.u_normalize.u_w10.end_out s.u_normalize.u_w10.valid_o rst s.u_normalize.u_w10.ssss
    s.u_normalize.u_w17.val_out s.u_normalize.u_w17.ssss s.u_normalize.u_w10.val_out
  have hn : ∀ (n : normalize.S) (v e rst : Bool) (m x' m' x : Nat), n.u_w10.ssss ≤ 12 → n.u_w17.ssss ≤ 12 →
      (normalize.step n v e m x' m' rst x).u_w10.ssss ≤ 12 ∧ (normalize.step n v e m x' m' rst x).u_w17.ssss ≤ 12 := by
    intro n v e rst m x' m' x k1 k2
    cases rst
    · cases v
      · exact ⟨k1, k2⟩
      · refine ⟨?_, ?_⟩
        · rw [show (normalize.step n true e m x' m' false x).u_w10.ssss = anonymous.next_ssss n.u_w10 x m false true from rfl,
            single_norm_ssss]; exact normSsss_le _ _
        · rw [show (normalize.step n true e m x' m' false x).u_w17.ssss = anonymous_1.next_ssss n.u_w17 x' m' false true from rfl,
            (single_norm' _ _ _).2]; exact normSsss_le _ _
    · exact ⟨Nat.zero_le _, Nat.zero_le _⟩
  have n := hn s.u_normalize s.u_difference.valid_out s.u_difference.end_out rst s.u_difference.val_out_4
    s.u_difference.val_out_3 s.u_difference.val_out_5 s.u_difference.val_out h5 h6
  refine ⟨signals_wf _ _ _ _ _ h1 h8, predictor_wf _ _ _ _ _ _ _ h2 hx hx', e.1, force_end_wf _ _ _ _ h4, n.1, n.2,
    e.2.trans h7, ?_, ?_⟩ <;> cases full <;> simp [integration_1.step, register_file.step, netlist]

theorem int1_init (s : integration_1.S) (h : integration_1.Init s) : WfInt1 s ∧
    absInt1 s = Int1.reset (int1Cfg s) (absInt1 s).encode.rpData ∧ s.u_register_file = ⟨0, 0, 0⟩ ∧
    absForceEnd s.u_force_end = ForceEnd.init := by
  obtain ⟨h1, h2, h3, h4, h5, h6, h7, h8⟩ := h
  obtain ⟨d, en, f, m, n, p, r, sg⟩ := s
  obtain ⟨d1, d2, d3, d4, d5, d6⟩ := d
  obtain ⟨e1, e2, e3, ⟨ea1, ea2, ea3, ea4, ea5, ea6, ea7, ea8⟩, ⟨eb1, eb2, eb3, eb4, eb5, eb6, eb7, eb8⟩⟩ := en
  obtain ⟨f1, f2, f3⟩ := f
  obtain ⟨⟨m1, m2, m3, m4⟩⟩ := m
  obtain ⟨⟨n1, n2, n3, n4⟩, ⟨n5, n6, n7, n8⟩⟩ := n
  obtain ⟨r1, r2, r3⟩ := r
  obtain ⟨s1, s2, s3, s4, s5⟩ := sg
  obtain ⟨p1, p2, p3, p4, p5, p6, p7, p8, p9, p10, p11, p12, p13, p14, p15, p16, p17, p18⟩ := p
  obtain ⟨rfl, rfl, rfl, rfl, rfl, rfl⟩ := h1
  obtain ⟨rfl, ⟨rfl, rfl, rfl, rfl, rfl, rfl, rfl, rfl⟩, ⟨rfl, rfl, rfl, rfl, rfl, rfl, rfl, rfl⟩⟩ := h2
  obtain ⟨rfl, rfl, rfl⟩ := h3
  obtain ⟨rfl, rfl, rfl, rfl⟩ := h4
  obtain ⟨⟨rfl, rfl, rfl, rfl⟩, ⟨rfl, rfl, rfl, rfl⟩⟩ := h5
  obtain ⟨rfl, rfl, rfl, rfl, rfl, rfl, rfl, rfl, rfl, rfl, rfl, rfl, rfl, rfl, rfl, rfl, rfl, rfl⟩ := h6
  obtain ⟨rfl, rfl, rfl⟩ := h7
  obtain ⟨rfl, rfl, rfl, rfl, rfl⟩ := h8
  refine ⟨⟨?_, ?_, rfl, ?_, ?_, ?_, ?_, ?_, ?_⟩, ?_, rfl, rfl⟩
  case refine_9 => simp only [absInt1, Int1.reset, int1Cfg]; rw [show levels 2 = 1 by decide]; rfl
  all_goals first | decide | (dsimp only; decide) | (simp [WfSignals, WfPredictor, WfForceEnd]; done)

/-- The table memory of the netlist is the one the generator computes. -/
theorem table_eq (s : encode.S) (h : encode.Init s) : s.mem = initHuffTable 12 := by
  rw [h.1]; decide

end Netlist.Beta
