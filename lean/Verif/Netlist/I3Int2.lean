/- The FIFOs and the converter of the netlist of integration_3_axi_stream.v against the model of migen_src. -/
import Verif.Netlist.I3Int1

set_option autoImplicit false

namespace Netlist.I3Axis
open Netlist Model

/-! ### FifoP -/

/-- The registers of the netlist as registers of the model. -/
def absSyncP (s : unbuffered.S) : SyncFifo :=
  { storage := s.storage, produce := s.produce, consume := s.consume, level := s.level, dout := s.r_0_ }

/-- Register ranges and memory size. -/
def WfSyncP (s : unbuffered.S) : Prop := s.level ≤ 127 ∧ s.consume < 127 ∧ s.produce < 127 ∧ s.storage.length = 127

theorem unbuffered_step (s : unbuffered.S) (we re : Bool) (d : Nat) (h : WfSyncP s) :
    absSyncP (unbuffered.step s we false re false d) = (absSyncP s).step 127 we d re := by
  obtain ⟨lv, cs, pr, r, st⟩ := s
  obtain ⟨h1, h2, h3, h4⟩ := h
  dsimp only at h1 h2 h3 h4
  by_cases a1 : lv = 0 <;> by_cases a2 : lv = 127 <;> by_cases a3 : cs = 126 <;> by_cases a4 : pr = 126 <;>
    cases we <;> cases re <;>
    simp [netlist, absSyncP, SyncFifo.step, SyncFifo.writable, SyncFifo.readable, Beta.slc_zero, a1, a2, a3, a4] <;> omega

theorem unbuffered_rst (s : unbuffered.S) (we re : Bool) (d : Nat) :
    absSyncP (unbuffered.step s we false re true d) =
      .reset ((absSyncP s).step 127 we d re).storage ((absSyncP s).step 127 we d re).dout := by
  simp [netlist, absSyncP, SyncFifo.step, SyncFifo.reset, SyncFifo.writable, Bool.and_comm]

theorem unbuffered_wf (s : unbuffered.S) (we re rst : Bool) (d : Nat) (h : WfSyncP s) : WfSyncP (unbuffered.step s we false re rst d) := by
  obtain ⟨lv, cs, pr, r, st⟩ := s
  obtain ⟨h1, h2, h3, h4⟩ := h
  dsimp only at h1 h2 h3 h4
  refine ⟨?_, ?_, ?_, ?_⟩
  · by_cases a1 : lv = 0 <;> by_cases a2 : lv = 127 <;> cases rst <;> cases we <;> cases re <;>
      simp [netlist, Beta.slc_zero, a1, a2] <;> omega
  · by_cases a1 : lv = 0 <;> by_cases a3 : cs = 126 <;> cases rst <;> cases re <;>
      simp [netlist, Beta.slc_zero, a1, a3] <;> omega
  · by_cases a1 : lv = 127 <;> by_cases a3 : pr = 126 <;> cases rst <;> cases we <;>
      simp [netlist, Beta.slc_zero, a1, a3] <;> omega
  · cases we <;> by_cases a1 : lv = 127 <;> simp [netlist, a1, h4]

/-- The registers of the netlist as registers of the model. -/
def absFifoP (s : fifo.S) : Fifo := { inner := absSyncP s.u_unbuffered, readable := s.readable }

theorem fifo_step (s : fifo.S) (we re : Bool) (d : Nat) (h : WfSyncP s.u_unbuffered) :
    absFifoP (fifo.step s we re false d) = (absFifoP s).step 128 we d re := by
  have a := unbuffered_step s.u_unbuffered we (fifo.unbuffered_re s re) d h
  simp only [absFifoP, Fifo.step]
  congr 1

theorem fifo_rst (s : fifo.S) (we re : Bool) (d : Nat) :
    absFifoP (fifo.step s we re true d) =
      .reset ((absFifoP s).step 128 we d re).inner.storage ((absFifoP s).step 128 we d re).inner.dout := by
  have a := unbuffered_rst s.u_unbuffered we (fifo.unbuffered_re s re) d
  simp only [absFifoP, Fifo.reset]
  congr 1

theorem fifo_level (s : fifo.S) (h : WfSyncP s.u_unbuffered) : fifo.level s = (absFifoP s).level := by
  have h1 := h.1
  simp only [netlist, Fifo.level, absFifoP, absSyncP]
  have : s.readable.toNat ≤ 1 := by cases s.readable <;> decide
  omega

/-! ### FifoC -/

/-- The registers of the netlist as registers of the model. -/
def absSyncC (s : unbuffered_12.S) : SyncFifo :=
  { storage := s.storage, produce := s.produce, consume := s.consume, level := s.level, dout := s.r_0_ }

/-- Register ranges and memory size. -/
def WfSyncC (s : unbuffered_12.S) : Prop := s.level ≤ 255 ∧ s.consume < 255 ∧ s.produce < 255 ∧ s.storage.length = 255

theorem unbuffered_12_step (s : unbuffered_12.S) (we re : Bool) (d : Nat) (h : WfSyncC s) :
    absSyncC (unbuffered_12.step s we false re false d) = (absSyncC s).step 255 we d re := by
  obtain ⟨lv, cs, pr, r, st⟩ := s
  obtain ⟨h1, h2, h3, h4⟩ := h
  dsimp only at h1 h2 h3 h4
  by_cases a1 : lv = 0 <;> by_cases a2 : lv = 255 <;> by_cases a3 : cs = 254 <;> by_cases a4 : pr = 254 <;>
    cases we <;> cases re <;>
    simp [netlist, absSyncC, SyncFifo.step, SyncFifo.writable, SyncFifo.readable, Beta.slc_zero, a1, a2, a3, a4] <;> omega

theorem unbuffered_12_rst (s : unbuffered_12.S) (we re : Bool) (d : Nat) :
    absSyncC (unbuffered_12.step s we false re true d) =
      .reset ((absSyncC s).step 255 we d re).storage ((absSyncC s).step 255 we d re).dout := by
  simp [netlist, absSyncC, SyncFifo.step, SyncFifo.reset, SyncFifo.writable, Bool.and_comm]

theorem unbuffered_12_wf (s : unbuffered_12.S) (we re rst : Bool) (d : Nat) (h : WfSyncC s) : WfSyncC (unbuffered_12.step s we false re rst d) := by
  obtain ⟨lv, cs, pr, r, st⟩ := s
  obtain ⟨h1, h2, h3, h4⟩ := h
  dsimp only at h1 h2 h3 h4
  refine ⟨?_, ?_, ?_, ?_⟩
  · by_cases a1 : lv = 0 <;> by_cases a2 : lv = 255 <;> cases rst <;> cases we <;> cases re <;>
      simp [netlist, Beta.slc_zero, a1, a2] <;> omega
  · by_cases a1 : lv = 0 <;> by_cases a3 : cs = 254 <;> cases rst <;> cases re <;>
      simp [netlist, Beta.slc_zero, a1, a3] <;> omega
  · by_cases a1 : lv = 255 <;> by_cases a3 : pr = 254 <;> cases rst <;> cases we <;>
      simp [netlist, Beta.slc_zero, a1, a3] <;> omega
  · cases we <;> by_cases a1 : lv = 255 <;> simp [netlist, a1, h4]

/-- The registers of the netlist as registers of the model. -/
def absFifoC (s : fifo_11.S) : Fifo := { inner := absSyncC s.u_unbuffered, readable := s.readable }

theorem fifo_11_step (s : fifo_11.S) (we re : Bool) (d : Nat) (h : WfSyncC s.u_unbuffered) :
    absFifoC (fifo_11.step s we re false d) = (absFifoC s).step 256 we d re := by
  have a := unbuffered_12_step s.u_unbuffered we (fifo_11.unbuffered_re s re) d h
  simp only [absFifoC, Fifo.step]
  congr 1

theorem fifo_11_rst (s : fifo_11.S) (we re : Bool) (d : Nat) :
    absFifoC (fifo_11.step s we re true d) =
      .reset ((absFifoC s).step 256 we d re).inner.storage ((absFifoC s).step 256 we d re).inner.dout := by
  have a := unbuffered_12_rst s.u_unbuffered we (fifo_11.unbuffered_re s re) d
  simp only [absFifoC, Fifo.reset]
  congr 1

theorem fifo_11_level (s : fifo_11.S) (h : WfSyncC s.u_unbuffered) : fifo_11.level s = (absFifoC s).level := by
  have h1 := h.1
  simp only [netlist, Fifo.level, absFifoC, absSyncC]
  have : s.readable.toNat ≤ 1 := by cases s.readable <;> decide
  omega

/-! ### converter -/

/-- FSM encoding of the netlist. -/
def convFsm : Nat → ConvFsm
  | 0 => .idle
  | 1 => .burst
  | 2 => .burstPrepare
  | 3 => .steps 0
  | _ => .steps 1

/-- The registers of the netlist as registers of the model. -/
def absConverter (s : converter.S) : Converter :=
  { fsm := convFsm s.fsm_state, latch := s.latch_output
    reg := { enc := s.enc_out_reg, ctr := s.enc_out_ctr_reg, endd := s.out_end_reg }, validReg := s.valid_out_reg
    encLatch := s.enc_out_latch, endLatch := s.out_end_latch
    out := { enc := s.enc_in, ctr := s.enc_in_ctr, endd := s.in_end }, valid := s.valid_in }

/-- Register ranges. -/
def WfConverter (s : converter.S) : Prop :=
  s.fsm_state ≤ 4 ∧ s.enc_out_latch < 2 ^ 96 ∧ s.enc_in < 2 ^ 48 ∧ s.enc_in_ctr < 2 ^ 6 ∧ s.enc_out_ctr_reg < 2 ^ 7

theorem converter_rst (s : converter.S) (v : Bool) (x c : Nat) (e f : Bool) :
    absConverter (converter.step s v x c e true f) = Converter.init := by
  simp [netlist, absConverter, Converter.init, convFsm, Code.zero]

theorem converter_wf (s : converter.S) (v : Bool) (x c : Nat) (e rst f : Bool) (h : WfConverter s) (hc : c < 2 ^ 7) :
    WfConverter (converter.step s v x c e rst f) := by
  obtain ⟨h1, h2, h3, h4, h5⟩ := h
  cases rst
  · refine ⟨?_, ?_, ?_, ?_, ?_⟩ <;> simp only [netlist, slc, Bool.false_eq_true, if_false] <;>
      (repeat' first | apply Beta.ite_le | apply Beta.ite_lt) <;> omega
  · simp [WfConverter, netlist]

theorem pick_112 (n : Nat) : Converter.pick 112 48 n = if n ≤ 96 then some 0 else if n ≤ 112 then some 1 else none := by
  have h : List.range (Converter.steps 112 48) = [0, 1] := by decide
  have h0 : Converter.sliceEnd 112 48 0 = 96 := by decide
  have h1 : Converter.sliceEnd 112 48 1 = 112 := by decide
  simp only [Converter.pick, h, List.find?_cons, h0, h1, List.find?_nil]
  by_cases hn : n ≤ 96 <;> by_cases hn' : n ≤ 112 <;> simp [hn, hn']

theorem converter_step (s : converter.S) (v : Bool) (x c : Nat) (e f : Bool) (h : WfConverter s) :
    absConverter (converter.step s v x c e false f) = (absConverter s).step 112 48 ⟨x, c, e⟩ v f := by
  obtain ⟨h1, h2, h3, h4, h5⟩ := h
  obtain ⟨oel, enl, ine, eic, ei, vor, oer, ocr, oreg, st, lo, vi⟩ := s
  dsimp only at h1 h2 h3 h4 h5
  have hst : st = 0 ∨ st = 1 ∨ st = 2 ∨ st = 3 ∨ st = 4 := by omega
  have hs : Converter.steps 112 48 * 48 = 96 := by decide
  have hse : Converter.sliceEnd 112 48 0 = 96 := by decide
  have hse' : Converter.sliceEnd 112 48 1 = 112 := by decide
  have hb : bitsFor 48 = 6 := by decide
  rcases hst with rfl | rfl | rfl | rfl | rfl
  · cases vor <;> cases v <;> cases f <;> simp [netlist, absConverter, Converter.step, convFsm, Converter.tryBurst]
  · simp only [absConverter, Converter.step, convFsm, pick_112, Converter.regData, hs, hse, hb]
    cases vor
    · cases f <;> simp [netlist, convFsm]
    · by_cases a : ocr ≤ 48
      · have e2 : ocr % 2 ^ 6 = ocr := by omega
        cases f <;> simp [netlist, convFsm, a, Beta.slc_zero, e2]
      · by_cases b : ocr ≤ 96
        · have e3 : (2 ^ 8 + ocr - 48) % 2 ^ 8 % 2 ^ 6 = (ocr - 48) % 2 ^ 6 := by omega
          cases f <;> simp [netlist, convFsm, a, b, Beta.slc_zero, Beta.slc_testBit, e3, hse]
        · by_cases d : ocr ≤ 112
          · have e3 : (2 ^ 8 + ocr - 96) % 2 ^ 8 % 2 ^ 6 = (ocr - 96) % 2 ^ 6 := by omega
            cases f <;> simp [netlist, convFsm, a, b, d, Beta.slc_zero, Beta.slc_testBit, e3, hse']
          · cases f <;> simp [netlist, convFsm, a, b, d, Beta.slc_zero]
  · cases vor <;> cases v <;> cases f <;> simp [netlist, absConverter, Converter.step, convFsm, Converter.regData]
  · cases vor <;> cases v <;> cases f <;> simp [netlist, absConverter, Converter.step, convFsm, Converter.tryBurst, Beta.slc_testBit]
  · cases vor <;> cases v <;> cases f <;> simp [netlist, absConverter, Converter.step, convFsm, Converter.tryBurst, Beta.slc_testBit]

/-! ### integration_2 -/

/-- The configuration of the netlist's core. -/
def coreCfg (W H : Nat) : CoreCfg :=
  { int1 := { bd := 12, ps := 4, W := W, H := H, mem := initHuffTable 12 }
    depth := 128, conv := 48, cdepth := 256, out := 32, buf := 144 }

/-- The registers of the netlist as registers of the model. -/
def absInt2 (s : integration_2.S) : Int2 :=
  { int1 := absInt1 s.u_integration_1, pfifo := absFifoP s.u_lj92_pipeline_fifo.u_fifo
    pFull := s.u_lj92_pipeline_fifo.close_full, conv := absConverter s.u_converter
    cfifo := absFifoC s.u_converter_fifo.u_fifo, cFull := s.u_converter_fifo.close_full
    nreadyEndReg := s.nready_end_reg, nreadyEnd := s.nready_end, nreadyReset := s.nready_reset
    nreadyCtr := s.nready_reset_counter }

/-- Register ranges. -/
def WfInt2 (s : integration_2.S) : Prop :=
  WfInt1 s.u_integration_1 ∧ WfSyncP s.u_lj92_pipeline_fifo.u_fifo.u_unbuffered ∧ WfConverter s.u_converter ∧
  WfSyncC s.u_converter_fifo.u_fifo.u_unbuffered ∧ s.u_integration_1.u_merge.u_w33.enc_out < 2 ^ 112 ∧
  s.u_integration_1.u_merge.u_w33.enc_out_ctr < 2 ^ 7

/-- The frame size the netlist works with. -/
def cfgOf (s : integration_2.S) : CoreCfg :=
  coreCfg s.u_integration_1.u_register_file.width_reg s.u_integration_1.u_register_file.height_reg

theorem pack_112 (x c : Nat) (e : Bool) (hx : x < 2 ^ 112) (hc : c < 2 ^ 7) :
    e.toNat * 2 ^ 119 + c * 2 ^ 112 + x = Code.pack 112 ⟨x, c, e⟩ := by
  have hb : bitsFor 112 = 7 := by decide
  simp only [Code.pack, hb]
  omega

theorem pack_48 (x c : Nat) (e : Bool) (hx : x < 2 ^ 48) (hc : c < 2 ^ 6) :
    e.toNat * 2 ^ 54 + c * 2 ^ 48 + x = Code.pack 48 ⟨x, c, e⟩ := by
  have hb : bitsFor 48 = 6 := by decide
  simp only [Code.pack, hb]
  omega

theorem total_eq (W H : Nat) : (coreCfg W H).total = 112 := rfl
theorem csteps_eq (W H : Nat) : (coreCfg W H).csteps = 6 := by simp [CoreCfg.csteps, coreCfg, CoreCfg.total, singleCtr]

theorem int2_ext {a b : Int2} (h1 : a.int1 = b.int1) (h2 : a.pfifo = b.pfifo) (h3 : a.pFull = b.pFull) (h4 : a.conv = b.conv)
    (h5 : a.cfifo = b.cfifo) (h6 : a.cFull = b.cFull) (h7 : a.nreadyEndReg = b.nreadyEndReg) (h8 : a.nreadyEnd = b.nreadyEnd)
    (h9 : a.nreadyReset = b.nreadyReset) (h10 : a.nreadyCtr = b.nreadyCtr) : a = b := by
  cases a; cases b; simp_all

theorem unpack_112 (n : Nat) : Code.mk (slc n 0 112) (slc n 112 7) (n.testBit 119) = Code.unpack 112 n := by
  have hb : bitsFor 112 = 7 := by decide
  simp [Code.unpack, hb, slc]

theorem int2_nready (s : integration_2.S) : integration_2.nready s = (absInt2 s).nready := by
  obtain ⟨a, b, c, d, u1, u2, u3, ⟨f, u4⟩⟩ := s
  cases a <;> cases d <;> cases f <;> rfl

theorem int2_step (s : integration_2.S) (x0 x1 x2 x3 : Nat) (l full v : Bool) (h : WfInt2 s) :
    absInt2 (integration_2.step s x0 x1 x2 x3 l false full v) = (absInt2 s).step (cfgOf s) [x0, x1, x2, x3] v l := by
  obtain ⟨h1, h2, h3, h4, h5, h6⟩ := h
  have hw : integration_2.w52 s v = (v && !(absInt2 s).nready) := by
    rw [← int2_nready]; simp only [integration_2.w52, integration_2.w48, integration_2.w50]
    show (v == true && integration_2.nready s == false) = _
    cases v <;> cases integration_2.nready s <;> rfl
  have hw27 : integration_2.w31 s v = (s.u_integration_1.u_signals.end_of_frame && v && !(absInt2 s).nready) := by
    rw [← int2_nready]
    show (s.u_integration_1.u_signals.end_of_frame == true && v == true && integration_2.nready s == false) = _
    cases v <;> cases integration_2.nready s <;> cases s.u_integration_1.u_signals.end_of_frame <;> rfl
  have hl : (decide (fifo.level s.u_lj92_pipeline_fifo.u_fifo ≥ 118)) = decide ((absInt2 s).pfifo.level ≥ 128 - 10) := by
    rw [fifo_level _ h2]; rfl
  have hl2 : (decide (fifo_11.level s.u_converter_fifo.u_fifo ≥ 250)) = decide ((absInt2 s).cfifo.level ≥ 256 - 6) := by
    rw [fifo_11_level _ h4]; rfl
  have hn := int2_nready s
  have a1 := int1_step s.u_integration_1 x0 x1 x2 x3 full (v && !(absInt2 s).nready) h1
  have a2 := fifo_step s.u_lj92_pipeline_fifo.u_fifo s.u_integration_1.u_merge.u_w33.valid_out s.u_converter.latch_output
    (s.u_integration_1.u_merge.u_w33.end_out.toNat * 2 ^ 119 + s.u_integration_1.u_merge.u_w33.enc_out_ctr * 2 ^ 112 +
      s.u_integration_1.u_merge.u_w33.enc_out) h2
  have a3 := fifo_11_step s.u_converter_fifo.u_fifo s.u_converter.valid_in l
    (s.u_converter.in_end.toNat * 2 ^ 54 + s.u_converter.enc_in_ctr * 2 ^ 48 + s.u_converter.enc_in) h4
  have a4 := converter_step s.u_converter s.u_lj92_pipeline_fifo.u_fifo.readable
    (slc s.u_lj92_pipeline_fifo.u_fifo.u_unbuffered.r_0_ 0 112) (slc s.u_lj92_pipeline_fifo.u_fifo.u_unbuffered.r_0_ 112 7)
    (s.u_lj92_pipeline_fifo.u_fifo.u_unbuffered.r_0_.testBit 119) s.u_converter_fifo.close_full h3
  rw [unpack_112] at a4
  rw [← hw] at a1
  apply int2_ext
  · rw [show ((absInt2 s).step (cfgOf s) [x0, x1, x2, x3] v l).int1 =
      (absInt1 s.u_integration_1).step (int1Cfg s.u_integration_1) [x0, x1, x2, x3] (v && !(absInt2 s).nready) from rfl, ← hw]
    exact a1
  · refine a2.trans ?_
    rw [pack_112 _ _ _ h5 h6]; rfl
  · exact hl
  · exact a4
  · refine a3.trans ?_
    rw [pack_48 _ _ _ h3.2.2.1 h3.2.2.2.1]; rfl
  · refine hl2.trans ?_
    simp only [Int2.step, cfgOf, csteps_eq]; rfl
  · show (if integration_2.w31 s v = true then true else s.nready_end_reg) = if s.u_integration_1.u_signals.end_of_frame && v &&
      !(absInt2 s).nready then true else s.nready_end_reg
    rw [hw27]
  · show ((integration_2.nready_end_wire s v == true) || (s.nready_end_reg == true)) =
      (s.u_integration_1.u_signals.end_of_frame && v && !(absInt2 s).nready || s.nready_end_reg)
    rw [show integration_2.nready_end_wire s v = if integration_2.w31 s v = true then true else false from rfl, hw27]
    cases (s.u_integration_1.u_signals.end_of_frame && v && !(absInt2 s).nready) <;> cases s.nready_end_reg <;> rfl
  · show (if (s.nready_reset_counter == 7) = true then true else s.nready_reset) =
      if s.nready_reset_counter = 7 then true else s.nready_reset
    simp
  · show slc ((s.nready_reset_counter + 1) % 2 ^ 4) 0 3 = (s.nready_reset_counter + 1) % 8
    simp only [slc]; omega

theorem int2_rst (s : integration_2.S) (x0 x1 x2 x3 : Nat) (l full v : Bool) (h : WfInt2 s) :
    absInt2 (integration_2.step s x0 x1 x2 x3 l true full v) =
      Int2.reset (cfgOf s) ((absInt2 s).step (cfgOf s) [x0, x1, x2, x3] v l).kept := by
  obtain ⟨h1, h2, h3, h4, h5, h6⟩ := h
  have a1 := int1_rst s.u_integration_1 x0 x1 x2 x3 full (integration_2.w52 s v) h1
  have a2 := fifo_rst s.u_lj92_pipeline_fifo.u_fifo s.u_integration_1.u_merge.u_w33.valid_out s.u_converter.latch_output
    (s.u_integration_1.u_merge.u_w33.end_out.toNat * 2 ^ 119 + s.u_integration_1.u_merge.u_w33.enc_out_ctr * 2 ^ 112 +
      s.u_integration_1.u_merge.u_w33.enc_out)
  have a3 := fifo_11_rst s.u_converter_fifo.u_fifo s.u_converter.valid_in l
    (s.u_converter.in_end.toNat * 2 ^ 54 + s.u_converter.enc_in_ctr * 2 ^ 48 + s.u_converter.enc_in)
  apply int2_ext
  · exact a1
  · refine a2.trans ?_
    rw [pack_112 _ _ _ h5 h6]; rfl
  · rfl
  · exact converter_rst ..
  · refine a3.trans ?_
    rw [pack_48 _ _ _ h3.2.2.1 h3.2.2.2.1]; rfl
  · rfl
  · rfl
  · rfl
  · rfl
  · rfl

theorem int2_wf (s : integration_2.S) (x0 x1 x2 x3 : Nat) (l rst full v : Bool) (h : WfInt2 s) (h0 : x0 < 4096) (k1 : x1 < 4096)
    (k2 : x2 < 4096) (k3 : x3 < 4096) :
    WfInt2 (integration_2.step s x0 x1 x2 x3 l rst full v) := by
  obtain ⟨h1, h2, h3, h4, h5, h6⟩ := h
  refine ⟨int1_wf _ _ _ _ _ _ _ _ h1 h0 k1 k2 k3, unbuffered_wf _ _ _ _ _ h2, converter_wf _ _ _ _ _ _ _ h3 (Beta.slc_lt _ _ _),
    unbuffered_12_wf _ _ _ _ _ h4, ?_, ?_⟩
  · show anonymous_10.next_enc_out _ _ _ _ _ _ < _
    have := Beta.slc_lt
    simp only [netlist]
    repeat' apply Beta.ite_lt
    · decide
    · exact Beta.slc_lt ..
    · exact h5
  · show anonymous_10.next_enc_out_ctr _ _ _ _ _ < _
    simp only [netlist]
    repeat' apply Beta.ite_lt
    · decide
    · exact Nat.mod_lt _ (by decide)
    · exact h6

theorem int2_init (s : integration_2.S) (h : integration_2.Init s) : WfInt2 s ∧
    absInt2 s = Int2.reset (coreCfg 0 0) (absInt2 s).kept ∧ (absInt2 s).kept.Ok (coreCfg 0 0) ∧
    s.u_integration_1.u_register_file = ⟨0, 0, 0⟩ := by
  obtain ⟨h1, h2, h3, h4, h5, ⟨h6, h7, ⟨h8, h9, h10, h11⟩⟩, h12, ⟨h13, h14, ⟨h15, h16, h17, h18⟩⟩⟩ := h
  obtain ⟨i1, i2, i3⟩ := int1_init _ h12
  obtain ⟨c1, c2, c3, c4, c5, c6, c7, c8, c9, c10, c11, c12⟩ := h5
  have m1 : s.u_integration_1.u_merge.u_w33.enc_out = 0 := h12.2.2.2.1.2.2.2.2.1
  have m2 : s.u_integration_1.u_merge.u_w33.enc_out_ctr = 0 := h12.2.2.2.1.2.2.2.2.2
  have l1 : s.u_lj92_pipeline_fifo.u_fifo.u_unbuffered.storage.length = 127 := by rw [h18]; exact List.length_replicate
  have l2 : s.u_converter_fifo.u_fifo.u_unbuffered.storage.length = 255 := by rw [h11]; exact List.length_replicate
  refine ⟨⟨i1, ⟨?_, ?_, ?_, ?_⟩, ⟨?_, ?_, ?_, ?_, ?_⟩, ⟨?_, ?_, ?_, ?_⟩, ?_, ?_⟩, ?_, ⟨?_, ?_, ?_⟩, i3⟩
  rotate_left 15
  ·
    apply int2_ext
    · refine i2.trans ?_
      simp only [int1Cfg, i3]; rfl
    · simp [absInt2, absFifoP, absSyncP, Int2.reset, Int2.kept, Fifo.reset, SyncFifo.reset, h14, h15, h16, h17]
    · exact h13
    · simp [absInt2, absConverter, Int2.reset, Converter.init, Code.zero, convFsm, c1, c2, c3, c4, c5, c6, c7, c8, c9, c10, c11, c12]
    · simp [absInt2, absFifoC, absSyncC, Int2.reset, Int2.kept, Fifo.reset, SyncFifo.reset, h7, h8, h9, h10]
    · exact h6
    · exact h3
    · exact h4
    · exact h1
    · exact h2
  all_goals first
    | exact l1
    | exact l2
    | (simp [h8, h9, h10, h15, h16, h17, c2, c4, c5, c8, c10, m1, m2]; done)
    | (simp [Int2.kept, absInt2, coreCfg, absInt1, absEncode]; done)


end Netlist.I3Axis
