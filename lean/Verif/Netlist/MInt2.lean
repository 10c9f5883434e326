/- The netlist modules of the FIFOs and the converter (micro core) against the model of migen_src. -/
import Verif.Netlist.MInt1
import Verif.Model.Integration2

set_option autoImplicit false

namespace Netlist.MicroAxis
open Netlist Model

/-! ### FifoP -/

/-- The registers of the netlist as registers of the model. -/
def absSyncP (s : unbuffered.S) : SyncFifo :=
  { storage := s.storage, produce := s.produce, consume := s.consume, level := s.level, dout := s.r_0_ }

/-- Register ranges and memory size. -/
def WfSyncP (s : unbuffered.S) : Prop := s.level ≤ 511 ∧ s.consume < 511 ∧ s.produce < 511 ∧ s.storage.length = 511

theorem unbuffered_step (s : unbuffered.S) (we re : Bool) (d : Nat) (h : WfSyncP s) :
    absSyncP (unbuffered.step s we false re false d) = (absSyncP s).step 511 we d re := by
  obtain ⟨lv, cs, pr, r, st⟩ := s
  obtain ⟨h1, h2, h3, h4⟩ := h
  dsimp only at h1 h2 h3 h4
  by_cases a1 : lv = 0 <;> by_cases a2 : lv = 511 <;> by_cases a3 : cs = 510 <;> by_cases a4 : pr = 510 <;>
    cases we <;> cases re <;>
    simp [netlist, absSyncP, SyncFifo.step, SyncFifo.writable, SyncFifo.readable, Beta.slc_zero, a1, a2, a3, a4] <;> omega

theorem unbuffered_rst (s : unbuffered.S) (we re : Bool) (d : Nat) :
    absSyncP (unbuffered.step s we false re true d) =
      .reset ((absSyncP s).step 511 we d re).storage ((absSyncP s).step 511 we d re).dout := by
  simp [netlist, absSyncP, SyncFifo.step, SyncFifo.reset, SyncFifo.writable, Bool.and_comm]

theorem unbuffered_wf (s : unbuffered.S) (we re rst : Bool) (d : Nat) (h : WfSyncP s) : WfSyncP (unbuffered.step s we false re rst d) := by
  obtain ⟨lv, cs, pr, r, st⟩ := s
  obtain ⟨h1, h2, h3, h4⟩ := h
  dsimp only at h1 h2 h3 h4
  refine ⟨?_, ?_, ?_, ?_⟩
  · by_cases a1 : lv = 0 <;> by_cases a2 : lv = 511 <;> cases rst <;> cases we <;> cases re <;>
      simp [netlist, Beta.slc_zero, a1, a2] <;> omega
  · by_cases a1 : lv = 0 <;> by_cases a3 : cs = 510 <;> cases rst <;> cases re <;>
      simp [netlist, Beta.slc_zero, a1, a3] <;> omega
  · by_cases a1 : lv = 511 <;> by_cases a3 : pr = 510 <;> cases rst <;> cases we <;>
      simp [netlist, Beta.slc_zero, a1, a3] <;> omega
  · cases we <;> by_cases a1 : lv = 511 <;> simp [netlist, a1, h4]

/-- The registers of the netlist as registers of the model. -/
def absFifoP (s : fifo.S) : Fifo := { inner := absSyncP s.u_unbuffered, readable := s.readable }

theorem fifo_step (s : fifo.S) (we re : Bool) (d : Nat) (h : WfSyncP s.u_unbuffered) :
    absFifoP (fifo.step s we re false d) = (absFifoP s).step 512 we d re := by
  have a := unbuffered_step s.u_unbuffered we (fifo.unbuffered_re s re) d h
  simp only [absFifoP, Fifo.step]
  congr 1

theorem fifo_rst (s : fifo.S) (we re : Bool) (d : Nat) :
    absFifoP (fifo.step s we re true d) =
      .reset ((absFifoP s).step 512 we d re).inner.storage ((absFifoP s).step 512 we d re).inner.dout := by
  have a := unbuffered_rst s.u_unbuffered we (fifo.unbuffered_re s re) d
  simp only [absFifoP, Fifo.reset]
  congr 1

theorem fifo_level (s : fifo.S) (h : WfSyncP s.u_unbuffered) : fifo.level s = (absFifoP s).level := by
  have h1 := h.1
  simp only [netlist, Fifo.level, absFifoP, absSyncP]
  have : s.readable.toNat ≤ 1 := by cases s.readable <;> decide
  omega

/-! ### FifoC -/

/-- The registers of the netlist as registers of the model. -/
def absSyncC (s : unbuffered_3.S) : SyncFifo :=
  { storage := s.storage, produce := s.produce, consume := s.consume, level := s.level, dout := s.r_0_ }

/-- Register ranges and memory size. -/
def WfSyncC (s : unbuffered_3.S) : Prop := s.level ≤ 1023 ∧ s.consume < 1023 ∧ s.produce < 1023 ∧ s.storage.length = 1023

theorem unbuffered_3_step (s : unbuffered_3.S) (we re : Bool) (d : Nat) (h : WfSyncC s) :
    absSyncC (unbuffered_3.step s we false re false d) = (absSyncC s).step 1023 we d re := by
  obtain ⟨lv, cs, pr, r, st⟩ := s
  obtain ⟨h1, h2, h3, h4⟩ := h
  dsimp only at h1 h2 h3 h4
  by_cases a1 : lv = 0 <;> by_cases a2 : lv = 1023 <;> by_cases a3 : cs = 1022 <;> by_cases a4 : pr = 1022 <;>
    cases we <;> cases re <;>
    simp [netlist, absSyncC, SyncFifo.step, SyncFifo.writable, SyncFifo.readable, Beta.slc_zero, a1, a2, a3, a4] <;> omega

theorem unbuffered_3_rst (s : unbuffered_3.S) (we re : Bool) (d : Nat) :
    absSyncC (unbuffered_3.step s we false re true d) =
      .reset ((absSyncC s).step 1023 we d re).storage ((absSyncC s).step 1023 we d re).dout := by
  simp [netlist, absSyncC, SyncFifo.step, SyncFifo.reset, SyncFifo.writable, Bool.and_comm]

theorem unbuffered_3_wf (s : unbuffered_3.S) (we re rst : Bool) (d : Nat) (h : WfSyncC s) : WfSyncC (unbuffered_3.step s we false re rst d) := by
  obtain ⟨lv, cs, pr, r, st⟩ := s
  obtain ⟨h1, h2, h3, h4⟩ := h
  dsimp only at h1 h2 h3 h4
  refine ⟨?_, ?_, ?_, ?_⟩
  · by_cases a1 : lv = 0 <;> by_cases a2 : lv = 1023 <;> cases rst <;> cases we <;> cases re <;>
      simp [netlist, Beta.slc_zero, a1, a2] <;> omega
  · by_cases a1 : lv = 0 <;> by_cases a3 : cs = 1022 <;> cases rst <;> cases re <;>
      simp [netlist, Beta.slc_zero, a1, a3] <;> omega
  · by_cases a1 : lv = 1023 <;> by_cases a3 : pr = 1022 <;> cases rst <;> cases we <;>
      simp [netlist, Beta.slc_zero, a1, a3] <;> omega
  · cases we <;> by_cases a1 : lv = 1023 <;> simp [netlist, a1, h4]

/-- The registers of the netlist as registers of the model. -/
def absFifoC (s : fifo_2.S) : Fifo := { inner := absSyncC s.u_unbuffered, readable := s.readable }

theorem fifo_2_step (s : fifo_2.S) (we re : Bool) (d : Nat) (h : WfSyncC s.u_unbuffered) :
    absFifoC (fifo_2.step s we re false d) = (absFifoC s).step 1024 we d re := by
  have a := unbuffered_3_step s.u_unbuffered we (fifo_2.unbuffered_re s re) d h
  simp only [absFifoC, Fifo.step]
  congr 1

theorem fifo_2_rst (s : fifo_2.S) (we re : Bool) (d : Nat) :
    absFifoC (fifo_2.step s we re true d) =
      .reset ((absFifoC s).step 1024 we d re).inner.storage ((absFifoC s).step 1024 we d re).inner.dout := by
  have a := unbuffered_3_rst s.u_unbuffered we (fifo_2.unbuffered_re s re) d
  simp only [absFifoC, Fifo.reset]
  congr 1

theorem fifo_2_level (s : fifo_2.S) (h : WfSyncC s.u_unbuffered) : fifo_2.level s = (absFifoC s).level := by
  have h1 := h.1
  simp only [netlist, Fifo.level, absFifoC, absSyncC]
  have : s.readable.toNat ≤ 1 := by cases s.readable <;> decide
  omega

/-! ### converter -/


/-- The registers of the netlist as registers of the model. -/
def absConverter (s : converter.S) : Converter :=
  { fsm := Beta.convFsm s.fsm_state, latch := s.latch_output
    reg := { enc := s.enc_out_reg, ctr := s.enc_out_ctr_reg, endd := s.out_end_reg }, validReg := s.valid_out_reg
    encLatch := s.enc_out_latch, endLatch := s.out_end_latch
    out := { enc := s.enc_in, ctr := s.enc_in_ctr, endd := s.in_end }, valid := s.valid_in }

/-- Register ranges. -/
def WfConverter (s : converter.S) : Prop :=
  s.fsm_state ≤ 3 ∧ s.enc_out_latch < 2 ^ 15 ∧ s.enc_in < 2 ^ 15 ∧ s.enc_in_ctr < 2 ^ 4 ∧ s.enc_out_ctr_reg < 2 ^ 5

theorem converter_rst (s : converter.S) (v : Bool) (x c : Nat) (e f : Bool) :
    absConverter (converter.step s v x c e true f) = Converter.init := by
  simp [netlist, absConverter, Converter.init, Beta.convFsm, Code.zero]

theorem converter_wf (s : converter.S) (v : Bool) (x c : Nat) (e rst f : Bool) (h : WfConverter s) (hc : c < 2 ^ 5) :
    WfConverter (converter.step s v x c e rst f) := by
  obtain ⟨h1, h2, h3, h4, h5⟩ := h
  cases rst
  · refine ⟨?_, ?_, ?_, ?_, ?_⟩ <;> simp only [netlist, slc, Bool.false_eq_true, if_false] <;>
      (repeat' first | apply Beta.ite_le | apply Beta.ite_lt) <;> omega
  · simp [WfConverter, netlist]

theorem pick_28 (n : Nat) : Converter.pick 28 15 n = if n ≤ 28 then some 0 else none := by
  have h : List.range (Converter.steps 28 15) = [0] := by decide
  have h' : Converter.sliceEnd 28 15 0 = 28 := by decide
  simp only [Converter.pick, h, List.find?_cons, h', List.find?_nil]
  by_cases hn : n ≤ 28 <;> simp [hn]

theorem converter_step (s : converter.S) (v : Bool) (x c : Nat) (e f : Bool) (h : WfConverter s) :
    absConverter (converter.step s v x c e false f) = (absConverter s).step 28 15 ⟨x, c, e⟩ v f := by
  obtain ⟨h1, h2, h3, h4, h5⟩ := h
  obtain ⟨oel, enl, ine, eic, ei, vor, oer, ocr, oreg, st, lo, vi⟩ := s
  dsimp only at h1 h2 h3 h4 h5
  have hst : st = 0 ∨ st = 1 ∨ st = 2 ∨ st = 3 := by omega
  have hs : Converter.steps 28 15 * 15 = 15 := by decide
  have hse : Converter.sliceEnd 28 15 0 = 28 := by decide
  have hb : bitsFor 15 = 4 := by decide
  have e1 : enl % 2 ^ 15 = enl := Nat.mod_eq_of_lt h2
  rcases hst with rfl | rfl | rfl | rfl
  · cases vor <;> cases v <;> cases f <;> simp [netlist, absConverter, Converter.step, Beta.convFsm, Converter.tryBurst]
  · simp only [absConverter, Converter.step, Beta.convFsm, pick_28, Converter.regData, hs, hse, hb]
    cases vor
    · cases f <;> simp [netlist, Beta.convFsm]
    · by_cases a : ocr ≤ 15
      · have e2 : ocr % 2 ^ 4 = ocr := by omega
        cases f <;> simp [netlist, Beta.convFsm, a, Beta.slc_zero, e2]
      · by_cases b : ocr ≤ 28
        · have e3 : (64 + ocr - 15) % 16 = (ocr - 15) % 16 := by omega
          cases f <;> simp [netlist, Beta.convFsm, a, b, Beta.slc_zero, Beta.slc_testBit, e3, hse]
        · cases f <;> simp [netlist, Beta.convFsm, a, b, Beta.slc_zero]
  · cases vor <;> cases v <;> cases f <;> simp [netlist, absConverter, Converter.step, Beta.convFsm, Converter.regData]
  · cases vor <;> cases v <;> cases f <;> simp [netlist, absConverter, Converter.step, Beta.convFsm, Converter.tryBurst, e1]

/-! ### integration_2 -/

/-- The configuration of the netlist's core. -/
def coreCfg (W H : Nat) (mem : List Nat) : CoreCfg :=
  { int1 := { bd := 12, ps := 1, W := W, H := H, mem := mem }
    depth := 512, conv := 15, cdepth := 1024, out := 16, buf := 41 }

/-- The registers of the netlist as registers of the model. -/
def absInt2 (s : integration_2.S) : Int2 :=
  { int1 := absInt1 s.u_integration_1, pfifo := absFifoP s.u_lj92_pipeline_fifo.u_fifo
    pFull := s.u_lj92_pipeline_fifo.close_full, conv := absConverter s.u_converter
    cfifo := absFifoC s.u_converter_fifo.u_fifo, cFull := s.u_converter_fifo.close_full
    nreadyEndReg := s.nready_end_reg, nreadyEnd := s.nready_end, nreadyReset := s.nready_reset
    nreadyCtr := s.nready_reset_counter }

/-- Register ranges. -/
def WfInt2 (s : integration_2.S) : Prop :=
  WfInt1 s.u_integration_1 ∧ WfSyncP s.u_lj92_pipeline_fifo.u_fifo.u_unbuffered ∧ WfConverter s.u_converter ∧
  WfSyncC s.u_converter_fifo.u_fifo.u_unbuffered

/-- The frame size and the table the netlist works with. -/
def cfgOf (s : integration_2.S) : CoreCfg :=
  coreCfg (slc s.u_integration_1.u_core_axi_lite.height_width 16 16) (slc s.u_integration_1.u_core_axi_lite.height_width 0 16)
    (memOf s.u_integration_1)

/-- One clock edge of the netlist module. -/
def int2Step (s : integration_2.S) (x : Nat) (i : LiteIn) (l rst full v : Bool) : integration_2.S :=
  integration_2.step s x l rst i.arvalid i.awvalid i.araddr i.rready i.awaddr i.wvalid i.wdata i.wstrb i.bready full v

theorem pack_28 (x c : Nat) (e : Bool) (hx : x < 2 ^ 28) (hc : c < 2 ^ 5) :
    e.toNat * 2 ^ 33 + c * 2 ^ 28 + x = Code.pack 28 ⟨x, c, e⟩ := by
  have hb : bitsFor 28 = 5 := by decide
  simp only [Code.pack, hb]
  omega

theorem pack_15 (x c : Nat) (e : Bool) (hx : x < 2 ^ 15) (hc : c < 2 ^ 4) :
    e.toNat * 2 ^ 19 + c * 2 ^ 15 + x = Code.pack 15 ⟨x, c, e⟩ := by
  have hb : bitsFor 15 = 4 := by decide
  simp only [Code.pack, hb]
  omega

theorem total_eq (W H : Nat) (m : List Nat) : (coreCfg W H m).total = 28 := rfl
theorem csteps_eq (W H : Nat) (m : List Nat) : (coreCfg W H m).csteps = 5 := by simp [CoreCfg.csteps, coreCfg, CoreCfg.total, singleCtr]

theorem unpack_28 (n : Nat) : Code.mk (slc n 0 28) (slc n 28 5) (n.testBit 33) = Code.unpack 28 n := by
  have hb : bitsFor 28 = 5 := by decide
  simp [Code.unpack, hb, slc]

theorem int2_nready (s : integration_2.S) : integration_2.nready s = (absInt2 s).nready := by
  obtain ⟨a, b, c, d, u1, u2, u3, ⟨f, u4⟩⟩ := s
  cases a <;> cases d <;> cases f <;> rfl

theorem int2_step (s : integration_2.S) (x : Nat) (i : LiteIn) (l full v : Bool) (h : WfInt2 s) :
    absInt2 (int2Step s x i l false full v) = (absInt2 s).step (cfgOf s) [x] v l := by
  obtain ⟨h1, h2, h3, h4⟩ := h
  have hw : integration_2.w46 s v = (v && !(absInt2 s).nready) := by
    rw [← int2_nready]; simp only [integration_2.w46, integration_2.w42, integration_2.w44]
    show (v == true && integration_2.nready s == false) = _
    cases v <;> cases integration_2.nready s <;> rfl
  have hw25 : integration_2.w25 s v = (s.u_integration_1.u_signals.end_of_frame && v && !(absInt2 s).nready) := by
    rw [← int2_nready]
    show (s.u_integration_1.u_signals.end_of_frame == true && v == true && integration_2.nready s == false) = _
    cases v <;> cases integration_2.nready s <;> cases s.u_integration_1.u_signals.end_of_frame <;> rfl
  have hl : (decide (fifo.level s.u_lj92_pipeline_fifo.u_fifo ≥ 502)) = decide ((absInt2 s).pfifo.level ≥ 512 - 10) := by
    rw [fifo_level _ h2]; rfl
  have hl2 : (decide (fifo_2.level s.u_converter_fifo.u_fifo ≥ 1019)) = decide ((absInt2 s).cfifo.level ≥ 1024 - 5) := by
    rw [fifo_2_level _ h4]; rfl
  have hn := int2_nready s
  have a1 := int1_step s.u_integration_1 x i full (v && !(absInt2 s).nready) h1
  have a2 := fifo_step s.u_lj92_pipeline_fifo.u_fifo s.u_integration_1.u_encode.u_w9.valid_out s.u_converter.latch_output
    (s.u_integration_1.u_encode.u_w9.end_out.toNat * 2 ^ 33 + s.u_integration_1.u_encode.u_w9.enc_ctr * 2 ^ 28 +
      s.u_integration_1.u_encode.u_w9.enc_out) h2
  have a3 := fifo_2_step s.u_converter_fifo.u_fifo s.u_converter.valid_in l
    (s.u_converter.in_end.toNat * 2 ^ 19 + s.u_converter.enc_in_ctr * 2 ^ 15 + s.u_converter.enc_in) h4
  have a4 := converter_step s.u_converter s.u_lj92_pipeline_fifo.u_fifo.readable
    (slc s.u_lj92_pipeline_fifo.u_fifo.u_unbuffered.r_0_ 0 28) (slc s.u_lj92_pipeline_fifo.u_fifo.u_unbuffered.r_0_ 28 5)
    (s.u_lj92_pipeline_fifo.u_fifo.u_unbuffered.r_0_.testBit 33) s.u_converter_fifo.close_full h3
  rw [unpack_28] at a4
  rw [← hw] at a1
  apply Beta.int2_ext
  · rw [show ((absInt2 s).step (cfgOf s) [x] v l).int1 =
      (absInt1 s.u_integration_1).step (int1Cfg s.u_integration_1) [x] (v && !(absInt2 s).nready) from rfl, ← hw]
    exact a1
  · refine a2.trans ?_
    rw [pack_28 _ _ _ h1.2.2.2.2.2 h1.2.2.2.2.1]; rfl
  · exact hl
  · exact a4
  · refine a3.trans ?_
    rw [pack_15 _ _ _ h3.2.2.1 h3.2.2.2.1]; rfl
  · refine hl2.trans ?_
    simp only [Int2.step, cfgOf, csteps_eq]; rfl
  · show (if integration_2.w25 s v = true then true else s.nready_end_reg) = if s.u_integration_1.u_signals.end_of_frame && v &&
      !(absInt2 s).nready then true else s.nready_end_reg
    rw [hw25]
  · show ((integration_2.nready_end_wire s v == true) || (s.nready_end_reg == true)) =
      (s.u_integration_1.u_signals.end_of_frame && v && !(absInt2 s).nready || s.nready_end_reg)
    rw [show integration_2.nready_end_wire s v = if integration_2.w25 s v = true then true else false from rfl, hw25]
    cases (s.u_integration_1.u_signals.end_of_frame && v && !(absInt2 s).nready) <;> cases s.nready_end_reg <;> rfl
  · show (if (s.nready_reset_counter == 7) = true then true else s.nready_reset) =
      if s.nready_reset_counter = 7 then true else s.nready_reset
    simp
  · show slc ((s.nready_reset_counter + 1) % 2 ^ 4) 0 3 = (s.nready_reset_counter + 1) % 8
    simp only [slc]; omega

theorem int2_rst (s : integration_2.S) (x : Nat) (i : LiteIn) (l full v : Bool) (h : WfInt2 s) :
    absInt2 (int2Step s x i l true full v) =
      Int2.reset (cfgOf s) ((absInt2 s).step (cfgOf s) [x] v l).kept := by
  obtain ⟨h1, h2, h3, h4⟩ := h
  have a1 := int1_rst s.u_integration_1 x i full (integration_2.w46 s v) h1
  have a2 := fifo_rst s.u_lj92_pipeline_fifo.u_fifo s.u_integration_1.u_encode.u_w9.valid_out s.u_converter.latch_output
    (s.u_integration_1.u_encode.u_w9.end_out.toNat * 2 ^ 33 + s.u_integration_1.u_encode.u_w9.enc_ctr * 2 ^ 28 +
      s.u_integration_1.u_encode.u_w9.enc_out)
  have a3 := fifo_2_rst s.u_converter_fifo.u_fifo s.u_converter.valid_in l
    (s.u_converter.in_end.toNat * 2 ^ 19 + s.u_converter.enc_in_ctr * 2 ^ 15 + s.u_converter.enc_in)
  apply Beta.int2_ext
  · exact a1
  · refine a2.trans ?_
    rw [pack_28 _ _ _ h1.2.2.2.2.2 h1.2.2.2.2.1]; rfl
  · rfl
  · exact converter_rst ..
  · refine a3.trans ?_
    rw [pack_15 _ _ _ h3.2.2.1 h3.2.2.2.1]; rfl
  · rfl
  · rfl
  · rfl
  · rfl
  · rfl

theorem int2_wf (s : integration_2.S) (x : Nat) (i : LiteIn) (l rst full v : Bool) (h : WfInt2 s) (hx : x < 4096) :
    WfInt2 (int2Step s x i l rst full v) := by
  obtain ⟨h1, h2, h3, h4⟩ := h
  refine ⟨int1_wf _ _ _ _ _ _ h1 hx, unbuffered_wf _ _ _ _ _ h2, converter_wf _ _ _ _ _ _ _ h3 (Beta.slc_lt _ _ _),
    unbuffered_3_wf _ _ _ _ _ h4⟩

theorem int2_init (s : integration_2.S) (h : integration_2.Init s) : WfInt2 s ∧
    absInt2 s = Int2.reset (coreCfg 0 0 []) (absInt2 s).kept ∧ (absInt2 s).kept.Ok (coreCfg 0 0 []) ∧
    core_axi_lite.Init s.u_integration_1.u_core_axi_lite ∧ Beta.absForceEnd s.u_integration_1.u_force_end = ForceEnd.init ∧
    s.u_integration_1.u_encode.mem = initHuffTable 12 := by
  obtain ⟨h1, h2, h3, h4, h5, ⟨h6, h7, ⟨h8, h9, h10, h11⟩⟩, h12, ⟨h13, h14, ⟨h15, h16, h17, h18⟩⟩⟩ := h
  obtain ⟨i1, i2, i3, i4, i5⟩ := int1_init _ h12
  obtain ⟨c1, c2, c3, c4, c5, c6, c7, c8, c9, c10, c11, c12⟩ := h5
  have l1 : s.u_lj92_pipeline_fifo.u_fifo.u_unbuffered.storage.length = 511 := by rw [h18]; exact List.length_replicate
  have l2 : s.u_converter_fifo.u_fifo.u_unbuffered.storage.length = 1023 := by rw [h11]; exact List.length_replicate
  refine ⟨⟨i1, ⟨?_, ?_, ?_, ?_⟩, ⟨?_, ?_, ?_, ?_, ?_⟩, ⟨?_, ?_, ?_, ?_⟩⟩, ?_, ⟨?_, ?_, ?_⟩, i3, i4, i5⟩
  rotate_left 13
  ·
    apply Beta.int2_ext
    · refine i2.trans ?_
      rfl
    · simp [absInt2, absFifoP, absSyncP, Int2.reset, Int2.kept, Fifo.reset, SyncFifo.reset, h14, h15, h16, h17]
    · exact h13
    · simp [absInt2, absConverter, Int2.reset, Converter.init, Code.zero, Beta.convFsm, c1, c2, c3, c4, c5, c6, c7, c8, c9, c10, c11, c12]
    · simp [absInt2, absFifoC, absSyncC, Int2.reset, Int2.kept, Fifo.reset, SyncFifo.reset, h7, h8, h9, h10]
    · exact h6
    · exact h3
    · exact h4
    · exact h1
    · exact h2
  all_goals first
    | exact l1
    | exact l2
    | (simp [h8, h9, h10, h15, h16, h17, c2, c4, c5, c8, c10]; done)
    | (simp [Int2.kept, absInt2, coreCfg, absInt1, absEncode]; done)


end Netlist.MicroAxis
