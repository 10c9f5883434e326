/- The modules of the pixel pipeline of the netlist of integration_3_axi_stream.v against the model of migen_src. -/
import Verif.Netlist.I3Axis
import Verif.Netlist.Int2
import Verif.Model.Config

set_option autoImplicit false

namespace Netlist.I3Axis
open Netlist Model

/-! ### difference -/

/-- The registers of the netlist as registers of the model. -/
def absDifference (s : difference.S) : Difference :=
  { vals := [s.val_out, s.val_out_7, s.val_out_8, s.val_out_9], mns := [s.val_out_10, s.val_out_11, s.val_out_12, s.val_out_13]
    valid := s.valid_out, endd := s.end_out }

theorem difference_rst (s : difference.S) (x0 p0 x1 p1 x2 p2 x3 p3 : Nat) (e v : Bool) :
    absDifference (difference.step s x0 p0 x1 p1 x2 p2 x3 p3 e true v) = Difference.init 4 := by
  simp [netlist, absDifference, Difference.init]

theorem difference_step (s : difference.S) (x0 p0 x1 p1 x2 p2 x3 p3 : Nat) (e v : Bool) (hx0 : x0 < 4096) (hp0 : p0 < 4096)
    (hx1 : x1 < 4096) (hp1 : p1 < 4096) (hx2 : x2 < 4096) (hp2 : p2 < 4096) (hx3 : x3 < 4096) (hp3 : p3 < 4096) :
    absDifference (difference.step s x0 p0 x1 p1 x2 p2 x3 p3 e false v) =
      (absDifference s).step 12 [x0, x1, x2, x3] [p0, p1, p2, p3] v e := by
  have h0 := Beta.diffVal_eq x0 p0 hx0 hp0
  have h1 := Beta.diffVal_eq x1 p1 hx1 hp1
  have h2 := Beta.diffVal_eq x2 p2 hx2 hp2
  have h3 := Beta.diffVal_eq x3 p3 hx3 hp3
  have m0 := Beta.diffMns_eq x0 p0 hx0 hp0
  have m1 := Beta.diffMns_eq x1 p1 hx1 hp1
  have m2 := Beta.diffMns_eq x2 p2 hx2 hp2
  have m3 := Beta.diffMns_eq x3 p3 hx3 hp3
  cases v <;>
    simp only [netlist, absDifference, Difference.step, Beta.slc_zero, h0, h1, h2, h3, m0, m1, m2, m3] <;> simp

/-! ### normalize -/

/-- The registers of the netlist as registers of the model. -/
def absNormalize (s : normalize.S) : Normalize :=
  { vals := [s.u_w18.val_out, s.u_w25.val_out, s.u_w32.val_out, s.u_w39.val_out]
    ssss := [s.u_w18.ssss, s.u_w25.ssss, s.u_w32.ssss, s.u_w39.ssss], valid := s.u_w18.valid_o, endd := s.u_w18.end_out }

theorem normalize_rst (s : normalize.S) (v e : Bool) (m0 x1 m1 x2 m2 x3 m3 x0 : Nat) :
    absNormalize (normalize.step s v e m0 x1 m1 x2 m2 x3 m3 true x0) = Normalize.init 4 := by
  simp [netlist, absNormalize, Normalize.init]

theorem normalize_step (s : normalize.S) (v e : Bool) (m0 x1 m1 x2 m2 x3 m3 x0 : Nat) :
    absNormalize (normalize.step s v e m0 x1 m1 x2 m2 x3 m3 false x0) =
      (absNormalize s).step 12 [x0, x1, x2, x3] [m0, m1, m2, m3] v e := by
  cases v
  · simp [netlist, absNormalize, Normalize.step]
  · have a0 := Beta.single_norm_val s.u_w18 x0 m0
    have b0 := Beta.single_norm_ssss s.u_w18 x0 m0
    have a1 := (Beta.single_norm' s.u_w25 x1 m1).1
    have b1 := (Beta.single_norm' s.u_w25 x1 m1).2
    have a2 := (Beta.single_norm' s.u_w32 x2 m2).1
    have b2 := (Beta.single_norm' s.u_w32 x2 m2).2
    have a3 := (Beta.single_norm' s.u_w39 x3 m3).1
    have b3 := (Beta.single_norm' s.u_w39 x3 m3).2
    simp only [absNormalize, Normalize.step, List.zipWith_cons_cons, List.zipWith_nil_left, if_true, ← a0, ← b0, ← a1, ← b1, ← a2,
      ← b2, ← a3, ← b3]
    rfl

/-- The classes the normalizers give are at most 12. -/
def WfNormalize (n : normalize.S) : Prop := n.u_w18.ssss ≤ 12 ∧ n.u_w25.ssss ≤ 12 ∧ n.u_w32.ssss ≤ 12 ∧ n.u_w39.ssss ≤ 12

theorem normalize_wf (n : normalize.S) (v e rst : Bool) (m0 x1 m1 x2 m2 x3 m3 x0 : Nat) (h : WfNormalize n) :
    WfNormalize (normalize.step n v e m0 x1 m1 x2 m2 x3 m3 rst x0) := by
  cases rst
  · cases v
    · exact h
    · refine ⟨?_, ?_, ?_, ?_⟩
      · rw [show (normalize.step n true e m0 x1 m1 x2 m2 x3 m3 false x0).u_w18.ssss =
          Beta.anonymous.next_ssss n.u_w18 x0 m0 false true from rfl, Beta.single_norm_ssss]; exact Beta.normSsss_le _ _
      · rw [show (normalize.step n true e m0 x1 m1 x2 m2 x3 m3 false x0).u_w25.ssss =
          Beta.anonymous_1.next_ssss n.u_w25 x1 m1 false true from rfl, (Beta.single_norm' _ _ _).2]; exact Beta.normSsss_le _ _
      · rw [show (normalize.step n true e m0 x1 m1 x2 m2 x3 m3 false x0).u_w32.ssss =
          Beta.anonymous_1.next_ssss n.u_w32 x2 m2 false true from rfl, (Beta.single_norm' _ _ _).2]; exact Beta.normSsss_le _ _
      · rw [show (normalize.step n true e m0 x1 m1 x2 m2 x3 m3 false x0).u_w39.ssss =
          Beta.anonymous_1.next_ssss n.u_w39 x3 m3 false true from rfl, (Beta.single_norm' _ _ _).2]; exact Beta.normSsss_le _ _
  · exact ⟨Nat.zero_le _, Nat.zero_le _, Nat.zero_le _, Nat.zero_le _⟩

/-! ### encode -/

/-- The registers of the netlist as registers of the model; the netlist registers the read addresses. -/
def absEncode (s : encode.S) : Encode :=
  { ssssLate := [s.u_w21.ssss_late, s.u_w30.ssss_late, s.u_w39.ssss_late, s.u_w48.ssss_late]
    valLate := [s.u_w21.val_in_late, s.u_w30.val_in_late, s.u_w39.val_in_late, s.u_w48.val_in_late]
    rpData := [s.mem.getD s.r_0_ 0, s.mem.getD s.r_1_ 0, s.mem.getD s.r_2_ 0, s.mem.getD s.r_3_ 0]
    validLate := s.u_w21.valid_late, endLate := s.u_w21.end_late
    encOut := [s.u_w21.enc_out, s.u_w30.enc_out, s.u_w39.enc_out, s.u_w48.enc_out]
    encCtr := [s.u_w21.enc_ctr, s.u_w30.enc_ctr, s.u_w39.enc_ctr, s.u_w48.enc_ctr]
    valid := s.u_w21.valid_out, endd := s.u_w21.end_out }

/-- The encoders of the netlist have the same valid bits. -/
def WfEncode (s : encode.S) : Prop :=
  s.u_w30.valid_late = s.u_w21.valid_late ∧ s.u_w39.valid_late = s.u_w21.valid_late ∧ s.u_w48.valid_late = s.u_w21.valid_late

theorem encode_step (s : encode.S) (e v : Bool) (c0 x1 c1 x2 c2 x3 c3 x0 : Nat) (h : WfEncode s) (h0 : c0 < 16) (h1 : c1 < 16)
    (h2 : c2 < 16) (h3 : c3 < 16) :
    absEncode (encode.step s e v c0 x1 c1 x2 c2 x3 c3 false x0) =
      (absEncode s).step 12 s.mem [x0, x1, x2, x3] [c0, c1, c2, c3] v e := by
  have e0 : c0 % 2 ^ 4 = c0 := by omega
  have e1 : c1 % 2 ^ 4 = c1 := by omega
  have e2 : c2 % 2 ^ 4 = c2 := by omega
  have e3 : c3 % 2 ^ 4 = c3 := by omega
  obtain ⟨w1, w2, w3⟩ := h
  cases hv : s.u_w21.valid_late <;> rw [hv] at w1 w2 w3 <;>
    simp [netlist, absEncode, Encode.step, Encode.encVal, Encode.encLen, singleCtr, w1, w2, w3, hv, Beta.slc_testBit, e0, e1, e2, e3]

theorem encode_rst (s : encode.S) (e v : Bool) (c0 x1 c1 x2 c2 x3 c3 x0 : Nat) (h0 : c0 < 16) (h1 : c1 < 16)
    (h2 : c2 < 16) (h3 : c3 < 16) :
    absEncode (encode.step s e v c0 x1 c1 x2 c2 x3 c3 true x0) =
      Encode.reset 4 ((absEncode s).step 12 s.mem [x0, x1, x2, x3] [c0, c1, c2, c3] v e).rpData := by
  have e0 : c0 % 2 ^ 4 = c0 := by omega
  have e1 : c1 % 2 ^ 4 = c1 := by omega
  have e2 : c2 % 2 ^ 4 = c2 := by omega
  have e3 : c3 % 2 ^ 4 = c3 := by omega
  simp [netlist, absEncode, Encode.step, Encode.reset, Beta.slc_zero, e0, e1, e2, e3]

theorem encode_wf (s : encode.S) (e v rst : Bool) (c0 x1 c1 x2 c2 x3 c3 x0 : Nat) :
    WfEncode (encode.step s e v c0 x1 c1 x2 c2 x3 c3 rst x0) ∧ (encode.step s e v c0 x1 c1 x2 c2 x3 c3 rst x0).mem = s.mem := by
  cases rst <;> simp [netlist, WfEncode]

/-! ### merge -/

/-- The registers of the netlist as registers of the model: two mergers, then one. -/
def absMerge (s : merge.S) : List (List Merger) :=
  [[{ enc := s.u_w13.enc_out, ctr := s.u_w13.enc_out_ctr, valid := s.u_w13.valid_out, endd := s.u_w13.end_out },
    { enc := s.u_w22.enc_out, ctr := s.u_w22.enc_out_ctr, valid := s.u_w22.valid_out, endd := s.u_w22.end_out }],
   [{ enc := s.u_w33.enc_out, ctr := s.u_w33.enc_out_ctr, valid := s.u_w33.valid_out, endd := s.u_w33.end_out }]]

theorem merge_rst (s : merge.S) (c0 : Nat) (v e : Bool) (x1 c1 x2 c2 x3 c3 x0 : Nat) :
    absMerge (merge.step s c0 v e x1 c1 x2 c2 x3 c3 true x0) = Merge.initLevels 2 := by
  simp [netlist, absMerge, Merge.initLevels, Merger.init, List.replicate]

theorem merger_4 (u : Beta.anonymous_4.S) (c0 c1 x0 x1 : Nat) (e v : Bool) :
    let t := Beta.anonymous_4.step u c0 c1 x0 x1 e false v
    Merger.mk t.enc_out t.enc_out_ctr t.valid_out t.end_out =
      Merger.step 28 ⟨u.enc_out, u.enc_out_ctr, u.valid_out, u.end_out⟩ ⟨x0, c0, v, e⟩ ⟨x1, c1, v, e⟩ := by
  have hb : bitsFor (28 * 2) = 6 := by decide
  cases v
  · simp [netlist, Merger.step]
  · simp only [netlist, Merger.step, if_true, Bool.false_eq_true, if_false, Beta.slc_zero, hb]
    congr 1
    rw [Beta.or_mod_pow, Beta.or_mod_pow, Nat.shiftLeft_eq, Nat.mod_mod_of_dvd _ (Nat.pow_dvd_pow 2 (by omega))]

theorem merger_9 (u : anonymous_9.S) (c0 c1 x0 x1 : Nat) (e v : Bool) :
    let t := anonymous_9.step u c0 c1 x0 x1 e false v
    Merger.mk t.enc_out t.enc_out_ctr t.valid_out t.end_out =
      Merger.step 28 ⟨u.enc_out, u.enc_out_ctr, u.valid_out, u.end_out⟩ ⟨x0, c0, v, e⟩ ⟨x1, c1, v, e⟩ := by
  have hb : bitsFor (28 * 2) = 6 := by decide
  cases v
  · simp [netlist, Merger.step]
  · simp only [netlist, Merger.step, if_true, Bool.false_eq_true, if_false, Beta.slc_zero, hb]
    congr 1
    rw [Beta.or_mod_pow, Beta.or_mod_pow, Nat.shiftLeft_eq, Nat.mod_mod_of_dvd _ (Nat.pow_dvd_pow 2 (by omega))]

theorem merger_10 (u : anonymous_10.S) (c0 c1 x0 x1 : Nat) (e v : Bool) (b : Merger) (h0 : b.ctr = c1) (h1 : b.enc = x1) :
    let t := anonymous_10.step u c0 c1 x0 x1 e false v
    Merger.mk t.enc_out t.enc_out_ctr t.valid_out t.end_out =
      Merger.step 56 ⟨u.enc_out, u.enc_out_ctr, u.valid_out, u.end_out⟩ ⟨x0, c0, v, e⟩ b := by
  have hb : bitsFor (56 * 2) = 7 := by decide
  subst h0 h1
  cases v
  · simp [netlist, Merger.step]
  · simp only [netlist, Merger.step, if_true, Bool.false_eq_true, if_false, Beta.slc_zero, hb]
    congr 1
    rw [Beta.or_mod_pow, Beta.or_mod_pow, Nat.shiftLeft_eq, Nat.mod_mod_of_dvd _ (Nat.pow_dvd_pow 2 (by omega))]

theorem merge_step (s : merge.S) (c0 : Nat) (v e : Bool) (x1 c1 x2 c2 x3 c3 x0 : Nat) :
    absMerge (merge.step s c0 v e x1 c1 x2 c2 x3 c3 false x0) =
      Merge.levelsStep (singleCtr 12) (absMerge s) [⟨x0, c0, v, e⟩, ⟨x1, c1, v, e⟩, ⟨x2, c2, v, e⟩, ⟨x3, c3, v, e⟩] := by
  have hs : singleCtr 12 = 28 := by decide
  rw [hs]
  have a := merger_4 s.u_w13 c0 c1 x0 x1 e v
  have b := merger_9 s.u_w22 c2 c3 x2 x3 e v
  have c := merger_10 s.u_w33 s.u_w13.enc_out_ctr s.u_w22.enc_out_ctr s.u_w13.enc_out s.u_w22.enc_out s.u_w13.end_out
    s.u_w13.valid_out ⟨s.u_w22.enc_out, s.u_w22.enc_out_ctr, s.u_w22.valid_out, s.u_w22.end_out⟩ rfl rfl
  show [[_, _], [_]] = [[Merger.step 28 _ _ _, Merger.step 28 _ _ _], [Merger.step 56 _ _ _]]
  rw [← a, ← b, ← c]
  rfl

/-! ### signals -/

/-- The registers of the netlist as registers of the model. -/
def absSignals (s : signals.S) : Signals :=
  { fsm := Beta.sigFsm s.fsm_state, widthTemp := s.width_temp, heightTemp := s.height_temp
    endOfFrame := s.end_of_frame, newRow := s.new_row }

/-- Register ranges. -/
def WfSignals (s : signals.S) : Prop := s.fsm_state ≤ 2 ∧ s.width_temp < 2 ^ 16 ∧ s.height_temp < 2 ^ 16

theorem signals_rst (s : signals.S) (W H : Nat) (v : Bool) : absSignals (signals.step s W H true v) = Signals.init := by
  simp [netlist, absSignals, Signals.init, Beta.sigFsm]

theorem signals_wf (s : signals.S) (W H : Nat) (rst v : Bool) (h : WfSignals s) (hW : W < 2 ^ 16) :
    WfSignals (signals.step s W H rst v) := by
  obtain ⟨h1, h2, h3⟩ := h
  cases rst <;> simp only [netlist, WfSignals, Beta.slc_zero, Bool.false_eq_true, if_false, if_true]
  · refine ⟨?_, ?_, ?_⟩ <;> (repeat' first | apply Beta.ite_le | apply Beta.ite_lt) <;> omega
  · decide

theorem signals_step (s : signals.S) (W H : Nat) (v : Bool) (h : WfSignals s) (hW : W < 2 ^ 16) (hH : H < 2 ^ 16) :
    absSignals (signals.step s W H false v) = (absSignals s).step 4 W H v := by
  obtain ⟨h1, h2, h3⟩ := h
  have e1 := Beta.sub16_eq W 4 hW (by omega)
  have e2 := Beta.sub16_eq H 1 hH (by omega)
  have e3 := Beta.sub16_eq s.width_temp 4 h2 (by omega)
  have e4 := Beta.sub16_eq s.height_temp 1 h3 (by omega)
  have e5 : W % 65536 = W := by omega
  obtain ⟨eof, st, nr, ht, wt⟩ := s
  dsimp only at h1 h2 h3 e3 e4
  have hst : st = 0 ∨ st = 1 ∨ st = 2 := by omega
  rcases hst with rfl | rfl | rfl <;> cases v <;>
    simp only [netlist, absSignals, Signals.step, Beta.sigFsm, Beta.slc_zero, e1, e2, e3, e4, e5] <;>
    by_cases hw : wt = 4 <;> by_cases hw4 : wt = 8 <;> by_cases hh : ht = 0 <;> simp [hw, hw4, hh]

/-! ### predictor -/

/-- The registers of the netlist as registers of the model. -/
def absPredictor (s : predictor.S) : Px4 :=
  { buffs := [s.buff, s.buff_11, s.buff_13, s.buff_15], lbuffs := [s.lbuff, s.lbuff_10, s.lbuff_12, s.lbuff_14]
    pixelsOut := [s.pixel_out, s.pixel_out_4, s.pixel_out_5, s.pixel_out_6]
    predicsOut := [s.predic_out, s.predic_out_7, s.predic_out_8, s.predic_out_9]
    valid := s.valid_out, endd := s.end_out }

/-- Register ranges: pixels have 12 bits. -/
def WfPredictor (s : predictor.S) : Prop :=
  s.buff < 4096 ∧ s.buff_11 < 4096 ∧ s.buff_13 < 4096 ∧ s.buff_15 < 4096 ∧
  s.lbuff < 4096 ∧ s.lbuff_10 < 4096 ∧ s.lbuff_12 < 4096 ∧ s.lbuff_14 < 4096 ∧
  s.pixel_out < 4096 ∧ s.pixel_out_4 < 4096 ∧ s.pixel_out_5 < 4096 ∧ s.pixel_out_6 < 4096 ∧
  s.predic_out < 4096 ∧ s.predic_out_7 < 4096 ∧ s.predic_out_8 < 4096 ∧ s.predic_out_9 < 4096

theorem predictor_rst (s : predictor.S) (x0 x1 x2 x3 : Nat) (nr e v : Bool) :
    absPredictor (predictor.step s x0 x1 x2 x3 nr e true v) = Px4.init 12 := by
  simp [netlist, absPredictor, Px4.init, List.replicate]

theorem predictor_wf (s : predictor.S) (x0 x1 x2 x3 : Nat) (nr e rst v : Bool) (h : WfPredictor s) (h0 : x0 < 4096) (h1 : x1 < 4096)
    (h2 : x2 < 4096) (h3 : x3 < 4096) : WfPredictor (predictor.step s x0 x1 x2 x3 nr e rst v) := by
  unfold WfPredictor at *
  simp only [netlist]
  refine ⟨?_, ?_, ?_, ?_, ?_, ?_, ?_, ?_, ?_, ?_, ?_, ?_, ?_, ?_, ?_, ?_⟩ <;> (repeat' apply Beta.ite_lt) <;> omega

theorem predictor_step (s : predictor.S) (x0 x1 x2 x3 : Nat) (nr e v : Bool) :
    absPredictor (predictor.step s x0 x1 x2 x3 nr e false v) = (absPredictor s).step [x0, x1, x2, x3] nr v e := by
  cases nr <;> cases v <;> simp [netlist, absPredictor, Px4.step]

/-! ### integration_1 -/

/-- The registers of the pipeline of the netlist as registers of the model. -/
def absInt1 (s : integration_1.S) : Int1 :=
  { signals := absSignals s.u_signals, predictor := .px4 (absPredictor s.u_predictor)
    difference := absDifference s.u_difference, normalize := absNormalize s.u_normalize
    encode := absEncode s.u_encode, merge := absMerge s.u_merge }

/-- Ranges of the registers of the pipeline; the content of the table memory. -/
def WfInt1 (s : integration_1.S) : Prop :=
  WfSignals s.u_signals ∧ WfPredictor s.u_predictor ∧ WfEncode s.u_encode ∧ WfNormalize s.u_normalize ∧
  s.u_encode.mem = initHuffTable 12 ∧ s.u_register_file.width_reg < 2 ^ 16 ∧ s.u_register_file.height_reg < 2 ^ 16

/-- The configuration the pipeline of the netlist works with. -/
def int1Cfg (s : integration_1.S) : Int1Cfg :=
  { bd := 12, ps := 4, W := s.u_register_file.width_reg, H := s.u_register_file.height_reg, mem := initHuffTable 12 }

theorem int1_step (s : integration_1.S) (x0 x1 x2 x3 : Nat) (full v : Bool) (h : WfInt1 s) :
    absInt1 (integration_1.step s x0 x1 x2 x3 false full v) = (absInt1 s).step (int1Cfg s) [x0, x1, x2, x3] v := by
  obtain ⟨h1, h2, h3, h4, h5, h6, h7⟩ := h
  have a1 := signals_step s.u_signals s.u_register_file.width_reg s.u_register_file.height_reg v h1 h6 h7
  have a2 := predictor_step s.u_predictor x0 x1 x2 x3 s.u_signals.new_row s.u_signals.end_of_frame v
  obtain ⟨-, -, -, -, -, -, -, -, p0, p1, p2, p3, q0, q1, q2, q3⟩ := h2
  have a3 := difference_step s.u_difference s.u_predictor.pixel_out s.u_predictor.predic_out s.u_predictor.pixel_out_4
    s.u_predictor.predic_out_7 s.u_predictor.pixel_out_5 s.u_predictor.predic_out_8 s.u_predictor.pixel_out_6
    s.u_predictor.predic_out_9 s.u_predictor.end_out s.u_predictor.valid_out p0 q0 p1 q1 p2 q2 p3 q3
  have a4 := normalize_step s.u_normalize s.u_difference.valid_out s.u_difference.end_out s.u_difference.val_out_10
    s.u_difference.val_out_7 s.u_difference.val_out_11 s.u_difference.val_out_8 s.u_difference.val_out_12
    s.u_difference.val_out_9 s.u_difference.val_out_13 s.u_difference.val_out
  obtain ⟨n0, n1, n2, n3⟩ := h4
  have a5 := encode_step s.u_encode s.u_normalize.u_w18.end_out s.u_normalize.u_w18.valid_o s.u_normalize.u_w18.ssss
    s.u_normalize.u_w25.val_out s.u_normalize.u_w25.ssss s.u_normalize.u_w32.val_out s.u_normalize.u_w32.ssss
    s.u_normalize.u_w39.val_out s.u_normalize.u_w39.ssss s.u_normalize.u_w18.val_out h3 (by omega) (by omega) (by omega) (by omega)
  have a6 := merge_step s.u_merge s.u_encode.u_w21.enc_ctr s.u_encode.u_w21.valid_out s.u_encode.u_w21.end_out
    s.u_encode.u_w30.enc_out s.u_encode.u_w30.enc_ctr s.u_encode.u_w39.enc_out s.u_encode.u_w39.enc_ctr
    s.u_encode.u_w48.enc_out s.u_encode.u_w48.enc_ctr s.u_encode.u_w21.enc_out
  rw [h5] at a5
  simp only [absInt1, Int1.step]
  congr 1
  · exact congrArg Predictor.px4 a2

theorem int1_rst (s : integration_1.S) (x0 x1 x2 x3 : Nat) (full v : Bool) (h : WfInt1 s) :
    absInt1 (integration_1.step s x0 x1 x2 x3 true full v) =
      Int1.reset (int1Cfg s) ((absInt1 s).step (int1Cfg s) [x0, x1, x2, x3] v).encode.rpData := by
  obtain ⟨h1, h2, h3, ⟨n0, n1, n2, n3⟩, h5, h6, h7⟩ := h
  have a5 := encode_rst s.u_encode s.u_normalize.u_w18.end_out s.u_normalize.u_w18.valid_o s.u_normalize.u_w18.ssss
    s.u_normalize.u_w25.val_out s.u_normalize.u_w25.ssss s.u_normalize.u_w32.val_out s.u_normalize.u_w32.ssss
    s.u_normalize.u_w39.val_out s.u_normalize.u_w39.ssss s.u_normalize.u_w18.val_out (by omega) (by omega) (by omega) (by omega)
  rw [h5] at a5
  simp only [absInt1, Int1.reset, Int1.step]
  congr 1
  · rw [show levels (int1Cfg s).ps = 2 from (by decide : levels 4 = 2)]; exact merge_rst ..

theorem int1_wf (s : integration_1.S) (x0 x1 x2 x3 : Nat) (rst full v : Bool) (h : WfInt1 s) (h0 : x0 < 4096) (h1 : x1 < 4096)
    (h2 : x2 < 4096) (h3 : x3 < 4096) : WfInt1 (integration_1.step s x0 x1 x2 x3 rst full v) := by
  obtain ⟨k1, k2, k3, k4, k5, k6, k7⟩ := h
  have e := encode_wf s.u_encode s.u_normalize.u_w18.end_out s.u_normalize.u_w18.valid_o rst s.u_normalize.u_w18.ssss
    s.u_normalize.u_w25.val_out s.u_normalize.u_w25.ssss s.u_normalize.u_w32.val_out s.u_normalize.u_w32.ssss
    s.u_normalize.u_w39.val_out s.u_normalize.u_w39.ssss s.u_normalize.u_w18.val_out
  refine ⟨signals_wf _ _ _ _ _ k1 k6, predictor_wf _ _ _ _ _ _ _ _ _ k2 h0 h1 h2 h3, e.1, normalize_wf _ _ _ _ _ _ _ _ _ _ _ _ k4,
    e.2.trans k5, ?_, ?_⟩ <;> cases full <;> simp [integration_1.step, register_file.step, netlist]

theorem int1_init (s : integration_1.S) (h : integration_1.Init s) : WfInt1 s ∧
    absInt1 s = Int1.reset (int1Cfg s) (absInt1 s).encode.rpData ∧ s.u_register_file = ⟨0, 0, 0⟩ := by
  obtain ⟨h1, h2, -, h4, h5, h6, ⟨r1, r2, r3⟩, h8⟩ := h
  have hrf : s.u_register_file = ⟨0, 0, 0⟩ := by
    obtain ⟨d, en, f, m, n, p, ⟨ra, rb, rc⟩, sg⟩ := s
    subst r1 r2 r3; rfl
  obtain ⟨h2, e1, e2, e3, e4⟩ := h2
  have hm : s.u_encode.mem = initHuffTable 12 := by rw [h2]; decide
  simp only [Beta.anonymous_2.Init, Beta.anonymous_3.Init, normalize.Init, Beta.anonymous.Init, Beta.anonymous_1.Init, Beta.anonymous_4.Init,
    anonymous_9.Init, anonymous_10.Init, predictor.Init, signals.Init, difference.Init, merge.Init] at e1 e2 e3 e4 h5 h1 h6 h8 h4
  have hl : levels 4 = 2 := by decide
  refine ⟨⟨?_, ?_, ?_, ?_, hm, ?_, ?_⟩, ?_, hrf⟩
  · simp [WfSignals, h8]
  · simp [WfPredictor, h6]
  · simp [WfEncode, e1, e2, e3, e4]
  · simp [WfNormalize, h5]
  · simp [r3]
  · simp [r2]
  · simp [absInt1, Int1.reset, int1Cfg, absSignals, absPredictor, absDifference, absNormalize, absEncode, absMerge, Signals.init, Predictor.init,
      Px4.init, Difference.init, Normalize.init, Encode.reset, Beta.sigFsm, hl, Merge.initLevels, Merger.init, e1, e2, e3, e4, h5, h1, h6, h8, h4,
      List.replicate]

end Netlist.I3Axis
