/- The shipped Verilog netlist of the whole design with memory reader and writer (verilog_src/beta_integration_fullaxi.v): C78. -/
import Verif.Netlist.FullParts2
import Verif.Props.NetLvds
import Verif.Props.FullAxiErr

set_option autoImplicit false

namespace Props
open Spec Model Netlist

/-! ### Ports -/

/-- A clock edge. `i` are the values of the input ports the design uses and `rst` is `full_rst`. The two ports `replace`
and `replace$1`, left over in the netlist from undriven FIFO inputs, are tied to 0; `aclk`s reach nothing. -/
def fxStep (s : BetaFull.top.S) (rst : Bool) (i : FullIn) : BetaFull.top.S :=
  BetaFull.top.step s rst i.arready i.rvalid i.rlast i.rresp i.rdata false i.awready i.wready i.bvalid i.bresp false
    i.lite.arvalid i.lite.awvalid i.lite.araddr i.lite.rready i.lite.awaddr i.lite.wvalid i.lite.wdata i.lite.wstrb i.lite.bready
    false false

/-- Width of the only input port whose unused high bits could matter. -/
def FullIn.Ok (i : FullIn) : Prop := i.rdata < 2 ^ 64

/-- The output ports. -/
structure FullPorts where
  arvalid : Bool
  araddr : Nat
  rready : Bool
  awvalid : Bool
  awaddr : Nat
  wvalid : Bool
  wdata : Nat
  wlast : Bool
  bready : Bool
  lite : LiteOut
  /-- burst type, identifier, length, protection and size of the read and of the write bursts, `wid`, `wstrb` -/
  fixed : List Nat
deriving DecidableEq, Repr

def fxPorts (s : BetaFull.top.S) : FullPorts :=
  { arvalid := BetaFull.top.m_axi_ro__arvalid s, araddr := BetaFull.top.m_axi_ro__araddr s, rready := BetaFull.top.m_axi_ro__rready s
    awvalid := BetaFull.top.m_axi_wo__awvalid s, awaddr := BetaFull.top.m_axi_wo__awaddr s, wvalid := BetaFull.top.m_axi_wo__wvalid s
    wdata := BetaFull.top.m_axi_wo__wdata s, wlast := BetaFull.top.m_axi_wo__wlast s, bready := BetaFull.top.m_axi_wo__bready s
    lite := ⟨BetaFull.top.s_axi_ro___arready s, BetaFull.top.s_axi_ro___rvalid s, BetaFull.top.s_axi_ro___rdata s, BetaFull.top.s_axi_ro___rresp s,
      BetaFull.top.s_axi_wo___awready s, BetaFull.top.s_axi_wo___wready s, BetaFull.top.s_axi_wo___bvalid s, BetaFull.top.s_axi_wo___bresp s⟩
    fixed := [BetaFull.top.m_axi_ro__arburst s, BetaFull.top.m_axi_ro__arid s, BetaFull.top.m_axi_ro__arlen s, BetaFull.top.m_axi_ro__arprot s,
      BetaFull.top.m_axi_ro__arsize s, BetaFull.top.m_axi_wo__awburst s, BetaFull.top.m_axi_wo__awid s, BetaFull.top.m_axi_wo__awlen s,
      BetaFull.top.m_axi_wo__awprot s, BetaFull.top.m_axi_wo__awsize s, BetaFull.top.m_axi_wo__wid s, BetaFull.top.m_axi_wo__wstrb s] }

/-- The ports of the model. Bursts are incrementing (1), 16 beats (15) of 8 bytes (3). -/
def mdPorts (t : FullAxi) : FullPorts :=
  { arvalid := t.rd.arvalid, araddr := t.agr.addr, rready := t.rd.rready, awvalid := t.wr.awvalid, awaddr := t.agw.addr,
    wvalid := t.wr.wvalid, wdata := HpFifo.data t.wfifo, wlast := t.wr.wlast, bready := t.wr.bready, lite := t.dma.out
    fixed := [1, 0, 15, 0, 3, 1, 0, 15, 0, 3, 0, 255] }

/-! ### Simulation -/

/-- The core in this netlist as the core of beta_integration.v. -/
def fxCore (s : BetaFull.top_1.S) : Beta.top.S :=
  ⟨s.u_auto_reset, s.u_fix_0xff, s.u_fix_0xff2, s.u_integration_3, s.u_markers⟩

/-- What the core of the netlist sees. -/
def fxNet (s : BetaFull.top.S) (rst : Bool) : NetIn :=
  ⟨rst, s.u_b16_b64.o_busy, BetaFull.top.top_pixel_in1 s, BetaFull.top.top_pixel_in2 s, BetaFull.top.top_valid_in s⟩

theorem fxNet_ok (s : BetaFull.top.S) (rst : Bool) : (fxNet s rst).Ok := ⟨Nat.mod_lt _ (by decide), Nat.mod_lt _ (by decide)⟩

theorem fx_step_core (s : BetaFull.top.S) (rst : Bool) (i : FullIn) :
    fxCore (fxStep s rst i).u_top = netStep (fxCore s.u_top) (fxNet s rst) := rfl

/-- The registers of the netlist are those of the model, and within their widths. -/
structure FullSim (s : BetaFull.top.S) (t : FullAxi) : Prop where
  rd : BetaFull.absRd s.u_axihp_reader = t.rd
  wr : BetaFull.absWr s.u_axihp_writer = t.wr
  rf : BetaFull.absF8 s.u_reader_fifo.u_fifo t.rfifo.dout = t.rfifo
  wf : BetaFull.absF9 s.u_writer_fifo.u_fifo t.wfifo.dout = t.wfifo
  rfInv : t.rfifo.Inv 32
  wfInv : t.wfifo.Inv 32
  unp : BetaFull.absUnp s.u_b64_b32 t.unpack.f64.dout t.unpack.f32.dout = t.unpack
  unpWf : BetaFull.WfUnp s.u_b64_b32 t.unpack.f64.dout t.unpack.f32.dout
  core : Behaves (fxCore s.u_top) t.cam
  reset : s.u_top.u_auto_reset.reset_out = t.cam.resetOut
  fix : Fix16 t.cam.fix2
  pack : BetaFull.absPack64 s.u_b16_b64 = t.pack
  packFsm : s.u_b16_b64.fsm_state < 10
  p64 : P64 t.pack
  agr : BetaFull.absAgr s.u_address_gen_read = t.agr
  agw : BetaFull.absAgw s.u_address_gen_write = t.agw
  cntR : s.counter_read = t.cntR
  cntW : s.counter_write = t.cntW
  dma : BetaFull.absDma s.u_dma_axi_lite = t.dma
  dmaFsm : s.u_dma_axi_lite.fsm_state < 6
  addrs : t.dma.readAddr < 2 ^ 32 ∧ t.dma.writeAddr < 2 ^ 32
  act : t.rd.active < 16 ∧ t.wr.active < 16 ∧ t.wr.unconf < 16 ∧ t.wr.counter < 16

section
variable {s : BetaFull.top.S} {t : FullAxi}

theorem fx_rst (s : BetaFull.top.S) (r : Bool) : BetaFull.top.rst s r = (s.u_top.u_auto_reset.reset_out || r) := Beta.top_rst (fxCore s.u_top) r

theorem eq_true_b (b : Bool) : (b == true) = b := by cases b <;> rfl

theorem fx_ports (h : FullSim s t) : fxPorts s = mdPorts t := by
  obtain ⟨h1, h2, h3, h4, _, _, _, _, _, _, _, _, _, _, h5, h6, _, _, h7, _, _, _⟩ := h
  unfold fxPorts mdPorts
  rw [FullPorts.mk.injEq]
  refine ⟨?_, ?_, ?_, ?_, ?_, ?_, ?_, ?_, ?_, ?_, rfl⟩
  · rw [← h1]; rfl
  · rw [← h5]; rfl
  · rw [← h1]; rfl
  · rw [← h2]; rfl
  · rw [← h6]; rfl
  · rw [← h2]; rfl
  · rw [← h4]
    show slc (s.u_writer_fifo.u_fifo.storage.getD _ 0) 1 64 = _
    rfl
  · rw [← h2]; rfl
  · rw [← h2]; rfl
  · rw [← h7]; rfl

theorem fx_readEnd (h : FullSim s t) (i : FullIn) : BetaFull.top.read_end s i.arready = t.readEnd i := by
  have e1 : BetaFull.top.axihp_reader_addr_enable s i.arready = t.rd.addrEn i.arready := by
    rw [← h.rd]
    simp [netlist, HpReader.addrEn, BetaFull.absRd]
  have e2 : s.u_address_gen_read.address_valid = t.agr.valid := by rw [← h.agr]; rfl
  show (if ((s.u_address_gen_read.address_valid == true) && (BetaFull.top.axihp_reader_addr_enable s i.arready == true)) = true then
    (if (s.counter_read == 196608) = true then true else false) else false) = (t.agr.valid && t.rd.addrEn i.arready && t.cntR == 196608)
  rw [e1, e2, h.cntR, eq_true_b, eq_true_b]
  cases t.agr.valid && t.rd.addrEn i.arready <;> cases t.cntR == 196608 <;> rfl

theorem fx_addrR (h : FullSim s t) (i : FullIn) : BetaFull.top.axihp_reader_addr_enable s i.arready = t.rd.addrEn i.arready := by
  rw [← h.rd]
  simp [netlist, HpReader.addrEn, BetaFull.absRd]

theorem fx_addrW (h : FullSim s t) (i : FullIn) : BetaFull.top.axihp_writer_addr_enable s i.awready = t.wr.addrEn i.awready := by
  rw [← h.wr]
  simp [netlist, HpWriter.addrEn, BetaFull.absWr]

theorem fx_dataR (h : FullSim s t) (v : Bool) : BetaFull.top.axihp_reader_data_enable s v = t.rd.dataEn v := by
  rw [← h.rd]
  simp [netlist, HpReader.dataEn, BetaFull.absRd]

theorem fx_dataW (h : FullSim s t) (v : Bool) : BetaFull.top.axihp_writer_data_enable s v = t.wr.dataEn v := by
  rw [← h.wr]
  simp [netlist, HpWriter.dataEn, BetaFull.absWr]

theorem fx_writeEnd (h : FullSim s t) (i : FullIn) : BetaFull.top.write_end s i.awready = t.writeEnd i := by
  have e2 : s.u_address_gen_write.address_valid = t.agw.valid := by rw [← h.agw]; rfl
  show (if ((s.u_address_gen_write.address_valid == true) && (BetaFull.top.axihp_writer_addr_enable s i.awready == true)) = true then
    (if (s.counter_write == 131072) = true then true else false) else false) = (t.agw.valid && t.wr.addrEn i.awready && t.cntW == 131072)
  rw [fx_addrW h, e2, h.cntW, eq_true_b, eq_true_b]
  cases t.agw.valid && t.wr.addrEn i.awready <;> cases t.cntW == 131072 <;> rfl

theorem fx_enable (h : FullSim s t) : BetaFull.top.axihp_reader_enable s = t.enable := by
  unfold FullAxi.enable
  rw [← h.dma]; rfl

theorem fx_core (h : FullSim s t) : BetaFull.top.top_nready s = t.cam.nready ∧ BetaFull.top.top_data_out s = t.camOut.data ∧
    BetaFull.top.top_valid_out s = t.camOut.valid ∧ BetaFull.top.top_end_out s = t.camOut.endd := by
  have hb : s.u_b16_b64.o_busy = t.pack.oBusy := by rw [← h.pack]; rfl
  have ho := behaves_out h.core t.pack.oBusy
  refine ⟨congrArg NetOut.nready ho, ?_, ?_, ?_⟩
  · show BetaFull.top_1.data_out _ s.u_b16_b64.o_busy = _
    rw [hb]; exact congrArg NetOut.data ho
  · show BetaFull.top_1.valid_out _ s.u_b16_b64.o_busy = _
    rw [hb]; exact congrArg NetOut.valid ho
  · show BetaFull.top_1.end_out _ s.u_b16_b64.o_busy = _
    rw [hb]; exact congrArg NetOut.endd ho

theorem fx_rd (h : FullSim s t) (i : FullIn) (r : Bool) : BetaFull.absRd (fxStep s r i).u_axihp_reader =
    if t.cam.resetOut || r then .init else t.rd.step (t.rdIn i) := by
  show BetaFull.absRd (BetaFull.axihp_reader.step _ (BetaFull.top.axihp_reader_enable s)
    ((s.u_address_gen_read.address_valid == false) || (BetaFull.top.read_end s i.arready == true)) (BetaFull.top.axihp_reader_addr_in s) i.rvalid
    (decide (s.u_reader_fifo.u_fifo.level ≤ 12) == false) i.rlast i.rresp i.rdata false (BetaFull.top.rst s r) i.arready) = _
  rw [fx_rst, h.reset]
  have e2 : s.u_address_gen_read.address_valid = t.agr.valid := by rw [← h.agr]; rfl
  have e3 : s.u_reader_fifo.u_fifo.level = t.rfifo.level := by rw [← h.rf]; rfl
  cases hr : t.cam.resetOut || r
  · have := BetaFull.rd_step s.u_axihp_reader (BetaFull.top.axihp_reader_enable s)
      ((s.u_address_gen_read.address_valid == false) || (BetaFull.top.read_end s i.arready == true)) (BetaFull.top.axihp_reader_addr_in s) i.rvalid
      (decide (s.u_reader_fifo.u_fifo.level ≤ 12) == false) i.rlast i.rresp i.rdata false i.arready (by have := h.act.1; rw [← h.rd] at this; exact this)
    rw [this, h.rd, fx_enable h, fx_readEnd h, e2, e3, eq_true_b, not_eq_false, not_eq_false]
    rfl
  · rw [BetaFull.rd_rst]; rfl

theorem fx_wr (h : FullSim s t) (i : FullIn) (r : Bool) : BetaFull.absWr (fxStep s r i).u_axihp_writer =
    if t.cam.resetOut || r then .init else t.wr.step (t.wrIn i) := by
  show BetaFull.absWr (BetaFull.axihp_writer.step _ (BetaFull.top.axihp_reader_enable s)
    ((s.u_address_gen_write.address_valid == false) || (BetaFull.top.write_end s i.awready == true)) (BetaFull.top.axihp_writer_addr_in s) i.wready
    (decide (s.u_writer_fifo.u_fifo.level ≥ 16) == false) (BetaFull.top.axihp_writer_data_in s) i.bvalid i.bresp 255 false (BetaFull.top.rst s r) i.awready) = _
  rw [fx_rst, h.reset]
  have e2 : s.u_address_gen_write.address_valid = t.agw.valid := by rw [← h.agw]; rfl
  have e3 : s.u_writer_fifo.u_fifo.level = t.wfifo.level := by rw [← h.wf]; rfl
  obtain ⟨_, a1, a2, a3⟩ := h.act
  rw [← h.wr] at a1 a2 a3
  cases hr : t.cam.resetOut || r
  · rw [BetaFull.wr_step _ _ _ _ _ _ _ _ _ _ _ _ a1 a2 a3]
    rw [h.wr, fx_enable h, fx_writeEnd h, e2, e3, eq_true_b, not_eq_false, not_eq_false]
    rfl
  · rw [BetaFull.wr_rst]; rfl

theorem fx_ag (h : FullSim s t) (i : FullIn) (r : Bool) :
    BetaFull.absAgr (fxStep s r i).u_address_gen_read =
      (if t.cam.resetOut || r then .init else t.agr.step 0x80 ⟨t.dma.readAddr, t.rd.addrEn i.arready⟩) ∧
    BetaFull.absAgw (fxStep s r i).u_address_gen_write =
      (if t.cam.resetOut || r then .init else t.agw.step 0x80 ⟨t.dma.writeAddr, t.wr.addrEn i.awready⟩) := by
  obtain ⟨a1, a2⟩ := h.addrs
  have e1 : s.u_dma_axi_lite.read_addr = t.dma.readAddr := by rw [← h.dma]; rfl
  have e2 : s.u_dma_axi_lite.write_addr = t.dma.writeAddr := by rw [← h.dma]; rfl
  constructor
  · show BetaFull.absAgr (BetaFull.address_gen_read.step _ (BetaFull.top.axihp_reader_addr_enable s i.arready) (BetaFull.top.rst s r)
      s.u_dma_axi_lite.read_addr) = _
    rw [fx_rst, h.reset, fx_addrR h, e1]
    cases hr : t.cam.resetOut || r
    · rw [BetaFull.agr_step _ _ _ a1, h.agr]; rfl
    · rw [BetaFull.agr_rst]; rfl
  · show BetaFull.absAgw (BetaFull.address_gen_write.step _ (BetaFull.top.axihp_writer_addr_enable s i.awready) (BetaFull.top.rst s r)
      s.u_dma_axi_lite.write_addr) = _
    rw [fx_rst, h.reset, fx_addrW h, e2]
    cases hr : t.cam.resetOut || r
    · rw [BetaFull.agw_step _ _ _ a2, h.agw]; rfl
    · rw [BetaFull.agw_rst]; rfl

theorem fx_pack (h : FullSim s t) (i : FullIn) (r : Bool) : BetaFull.absPack64 (fxStep s r i).u_b16_b64 =
    (if t.cam.resetOut || r then .init else t.pack.step t.camOut.data t.camOut.valid t.camOut.endd (!t.wfifo.writable 32)) ∧
    (fxStep s r i).u_b16_b64.fsm_state < 10 := by
  show BetaFull.absPack64 (BetaFull.b16_b64.step _ (BetaFull.top.top_end_out s) ((s.u_writer_fifo.u_fifo.level != 32) == false)
    (BetaFull.top.top_data_out s) (BetaFull.top.rst s r) (BetaFull.top.top_valid_out s)) = _ ∧
    (BetaFull.b16_b64.step _ (BetaFull.top.top_end_out s) ((s.u_writer_fifo.u_fifo.level != 32) == false)
    (BetaFull.top.top_data_out s) (BetaFull.top.rst s r) (BetaFull.top.top_valid_out s)).fsm_state < 10
  obtain ⟨_, e1, e2, e3⟩ := fx_core h
  have e4 : s.u_writer_fifo.u_fifo.level = t.wfifo.level := by rw [← h.wf]; rfl
  rw [fx_rst, h.reset, e1, e2, e3, e4, not_eq_false]
  cases hr : t.cam.resetOut || r
  · have := BetaFull.pack64_step s.u_b16_b64 t.camOut.endd (!(t.wfifo.level != 32)) t.camOut.data t.camOut.valid h.packFsm
    rw [h.pack] at this
    exact this
  · refine ⟨BetaFull.pack64_rst _ _ _ _ _, ?_⟩
    simp [netlist]

theorem fx_unp (h : FullSim s t) (i : FullIn) (r : Bool) :
    let T := if t.cam.resetOut || r then (t.unpack.step (HpFifo.data t.rfifo) t.rfifo.readable t.cam.nready).cleared
      else t.unpack.step (HpFifo.data t.rfifo) t.rfifo.readable t.cam.nready
    BetaFull.absUnp (fxStep s r i).u_b64_b32 T.f64.dout T.f32.dout = T ∧
    BetaFull.WfUnp (fxStep s r i).u_b64_b32 T.f64.dout T.f32.dout := by
  intro T
  show BetaFull.absUnp (BetaFull.b64_b32.step _ (slc (s.u_reader_fifo.u_fifo.storage.getD s.u_reader_fifo.u_fifo.consume 0) 1 64)
    (BetaFull.top.top_nready s) (BetaFull.top.rst s r) (s.u_reader_fifo.u_fifo.level != 0)) _ _ = _ ∧
    BetaFull.WfUnp (BetaFull.b64_b32.step _ (slc (s.u_reader_fifo.u_fifo.storage.getD s.u_reader_fifo.u_fifo.consume 0) 1 64)
    (BetaFull.top.top_nready s) (BetaFull.top.rst s r) (s.u_reader_fifo.u_fifo.level != 0)) _ _
  have e1 : slc (s.u_reader_fifo.u_fifo.storage.getD s.u_reader_fifo.u_fifo.consume 0) 1 64 = HpFifo.data t.rfifo := by rw [← h.rf]; rfl
  have e2 : (s.u_reader_fifo.u_fifo.level != 0) = t.rfifo.readable := by rw [← h.rf]; rfl
  rw [fx_rst, h.reset, e1, e2, (fx_core h).1]
  revert T
  cases hr : t.cam.resetOut || r
  · intro T
    have k := BetaFull.unp_step s.u_b64_b32 t.unpack.f64.dout t.unpack.f32.dout (HpFifo.data t.rfifo) t.cam.nready t.rfifo.readable h.unpWf
    rw [h.unp] at k
    have k' := k
    have d1 := congrArg (fun u => u.f64.dout) k
    have d2 := congrArg (fun u => u.f32.dout) k
    dsimp only [BetaFull.absUnp, BetaFull.absF64, BetaFull.absF32] at d1 d2
    rw [d1, d2] at k
    refine ⟨k, ?_⟩
    refine BetaFull.unp_wf _ _ _ _ _ _ h.unpWf _ _ ?_
    rw [h.unp]
    exact k
  · intro T
    have k := BetaFull.unp_rst s.u_b64_b32 t.unpack.f64.dout t.unpack.f32.dout (HpFifo.data t.rfifo) t.cam.nready t.rfifo.readable h.unpWf
    have w := BetaFull.unp_wf_rst s.u_b64_b32 t.unpack.f64.dout t.unpack.f32.dout (HpFifo.data t.rfifo) t.cam.nready t.rfifo.readable h.unpWf
    rw [h.unp] at k
    refine ⟨?_, ⟨w.f64.1, w.f64.2, w.f64.3, w.f64.4, w.f64.5⟩, ⟨w.f32.1, w.f32.2, w.f32.3, w.f32.4, w.f32.5⟩, w.r64, w.r32, w.fsm⟩
    exact congrArg (fun u : Unpack => { u with f64 := { u.f64 with dout := T.f64.dout }, f32 := { u.f32 with dout := T.f32.dout } }) k

theorem word_eq (d : Nat) (e : Bool) (h : d < 2 ^ 64) : d * 2 ^ 1 + e.toNat = HpFifo.word d e := by
  unfold HpFifo.word
  rw [Nat.mod_eq_of_lt h]
  omega

theorem fx_rf (h : FullSim s t) (i : FullIn) (hi : FullIn.Ok i) (r : Bool) :
    let T := HpFifo.step t.rfifo (t.rd.dataEn i.rvalid) i.rdata false (!t.unpack.oBusy)
    BetaFull.absF8 (fxStep s r i).u_reader_fifo.u_fifo T.dout = if t.cam.resetOut || r then .reset T.storage T.dout else T := by
  intro T
  show BetaFull.absF8 (BetaFull.fifo_8.step _ (BetaFull.top.axihp_reader_data_enable s i.rvalid) false (s.u_b64_b32.o_busy == false)
    (BetaFull.top.rst s r) (i.rdata * 2 ^ 1 + Bool.toNat false)) _ = _
  have e1 : s.u_b64_b32.o_busy = t.unpack.oBusy := by rw [← h.unp]; rfl
  rw [fx_rst, h.reset, fx_dataR h, e1, word_eq _ _ hi, not_eq_false]
  have hv : (BetaFull.absF8 s.u_reader_fifo.u_fifo t.rfifo.dout).Inv 32 := by rw [h.rf]; exact h.rfInv
  cases hr : t.cam.resetOut || r
  · have k := BetaFull.f8_step s.u_reader_fifo.u_fifo t.rfifo.dout (t.rd.dataEn i.rvalid) (!t.unpack.oBusy) (HpFifo.word i.rdata false) hv
    rw [h.rf] at k
    have d := congrArg SyncFifo.dout k
    dsimp only [BetaFull.absF8] at d
    rw [d] at k
    exact k
  · have k := BetaFull.f8_rst s.u_reader_fifo.u_fifo t.rfifo.dout (t.rd.dataEn i.rvalid) (!t.unpack.oBusy) (HpFifo.word i.rdata false)
    rw [h.rf] at k
    exact congrArg (fun u : SyncFifo => { u with dout := T.dout }) k

theorem fx_wf (h : FullSim s t) (i : FullIn) (r : Bool) :
    let T := HpFifo.step t.wfifo t.pack.valid t.pack.data t.pack.endOut (t.wr.dataEn i.wready)
    BetaFull.absF9 (fxStep s r i).u_writer_fifo.u_fifo T.dout = if t.cam.resetOut || r then .reset T.storage T.dout else T := by
  intro T
  show BetaFull.absF9 (BetaFull.fifo_9.step _ s.u_b16_b64.valid_out false (BetaFull.top.axihp_writer_data_enable s i.wready)
    (BetaFull.top.rst s r) (s.u_b16_b64.data_out * 2 ^ 1 + Bool.toNat s.u_b16_b64.end_out)) _ = _
  have e1 : s.u_b16_b64.valid_out = t.pack.valid := by rw [← h.pack]; rfl
  have e2 : s.u_b16_b64.data_out = t.pack.data := by rw [← h.pack]; rfl
  have e3 : s.u_b16_b64.end_out = t.pack.endOut := by rw [← h.pack]; rfl
  rw [fx_rst, h.reset, fx_dataW h, e1, e2, e3, word_eq _ _ h.p64.2.2]
  have hv : (BetaFull.absF9 s.u_writer_fifo.u_fifo t.wfifo.dout).Inv 32 := by rw [h.wf]; exact h.wfInv
  cases hr : t.cam.resetOut || r
  · have k := BetaFull.f9_step s.u_writer_fifo.u_fifo t.wfifo.dout t.pack.valid (t.wr.dataEn i.wready) (HpFifo.word t.pack.data t.pack.endOut) hv
    rw [h.wf] at k
    have d := congrArg SyncFifo.dout k
    dsimp only [BetaFull.absF9] at d
    rw [d] at k
    exact k
  · have k := BetaFull.f9_rst s.u_writer_fifo.u_fifo t.wfifo.dout t.pack.valid (t.wr.dataEn i.wready) (HpFifo.word t.pack.data t.pack.endOut)
    rw [h.wf] at k
    exact congrArg (fun u : SyncFifo => { u with dout := T.dout }) k

theorem inc32 (c : Nat) : slc ((c + 1) % 2 ^ 33) 0 32 = (c + 1) % 2 ^ 32 := by simp only [slc]; omega

theorem fx_cnt (h : FullSim s t) (i : FullIn) (r : Bool) :
    (fxStep s r i).counter_read = (if t.cam.resetOut || r then 0
      else if t.agr.valid && t.rd.addrEn i.arready && t.cntR != 196608 then (t.cntR + 1) % 2 ^ 32 else t.cntR) ∧
    (fxStep s r i).counter_write = (if t.cam.resetOut || r then 0
      else if t.agw.valid && t.wr.addrEn i.awready && t.cntW != 131072 then (t.cntW + 1) % 2 ^ 32 else t.cntW) := by
  have e1 : s.u_address_gen_read.address_valid = t.agr.valid := by rw [← h.agr]; rfl
  have e2 : s.u_address_gen_write.address_valid = t.agw.valid := by rw [← h.agw]; rfl
  constructor
  · show (if BetaFull.top.rst s r = true then 0 else
      if ((s.u_address_gen_read.address_valid == true) && (BetaFull.top.axihp_reader_addr_enable s i.arready == true)) = true then
        (if (s.counter_read == 196608) = true then s.counter_read else slc ((s.counter_read + 1) % 2 ^ 33) 0 32) else s.counter_read) = _
    rw [fx_rst, h.reset, e1, fx_addrR h, h.cntR, inc32, eq_true_b, eq_true_b, bne]
    generalize (t.cntR == 196608) = w
    cases t.cam.resetOut || r <;> cases t.agr.valid && t.rd.addrEn i.arready <;> cases w <;> rfl
  · show (if BetaFull.top.rst s r = true then 0 else
      if ((s.u_address_gen_write.address_valid == true) && (BetaFull.top.axihp_writer_addr_enable s i.awready == true)) = true then
        (if (s.counter_write == 131072) = true then s.counter_write else slc ((s.counter_write + 1) % 2 ^ 33) 0 32) else s.counter_write) = _
    rw [fx_rst, h.reset, e2, fx_addrW h, h.cntW, inc32, eq_true_b, eq_true_b, bne]
    generalize (t.cntW == 131072) = w
    cases t.cam.resetOut || r <;> cases t.agw.valid && t.wr.addrEn i.awready <;> cases w <;> rfl

theorem fx_status (h : FullSim s t) (i : FullIn) :
    BetaFull.top.w40 s i.arready i.rvalid i.rresp i.awready i.wready i.bvalid i.bresp = t.status i := by
  have e1 : s.u_b16_b64.valid_out = t.pack.valid := by rw [← h.pack]; rfl
  have e3 : s.u_b16_b64.end_out = t.pack.endOut := by rw [← h.pack]; rfl
  have a1 : BetaFull.top.axihp_writer_writer_unconf s = t.wr.unconf := by rw [← h.wr]; rfl
  have a2 : BetaFull.top.axihp_writer_writer_active s = t.wr.active := by rw [← h.wr]; rfl
  have a3 : BetaFull.top.axihp_reader_reader_active s = t.rd.active := by rw [← h.rd]; rfl
  have a4 : BetaFull.top.axihp_reader_reader_error s i.rvalid i.rresp = (t.rd.dataEn i.rvalid && i.rresp != 0) := by
    rw [← h.rd]
    simp [netlist, HpReader.dataEn, BetaFull.absRd]
  have a5 : BetaFull.top.axihp_writer_writer_error s i.bvalid i.bresp = (t.wr.respEn i.bvalid && i.bresp != 0) := by
    rw [← h.wr]
    simp [netlist, HpWriter.respEn, BetaFull.absWr]
  have a6 : BetaFull.top.axihp_writer_inactive s = (t.wr.active == 0 && t.wr.unconf == 0) := by
    rw [← h.wr]
    simp [netlist, BetaFull.absWr]
  have a7 : BetaFull.top.axihp_reader_inactive s = (t.rd.active == 0) := by
    rw [← h.rd]
    simp [netlist, BetaFull.absRd]
  have a8 : BetaFull.top.writer_fifo_valid_out s = t.wfifo.readable := by rw [← h.wf]; rfl
  have a9 : BetaFull.top.writer_fifo_end_out s = HpFifo.endd t.wfifo := by
    rw [← h.wf]
    show (s.u_writer_fifo.u_fifo.storage.getD s.u_writer_fifo.u_fifo.consume 0).testBit 0 =
      (s.u_writer_fifo.u_fifo.storage.getD s.u_writer_fifo.u_fifo.consume 0 % 2 == 1)
    rw [Nat.testBit_zero]
    rfl
  unfold BetaFull.top.w40 BetaFull.top.b16_b64_valid_out BetaFull.top.b16_b64_end_out
  rw [a1, a2, a3, a4, a5, a6, a7, a8, a9, e1, e3, fx_readEnd h, fx_writeEnd h, fx_dataW h]
  unfold FullAxi.status
  omega

theorem putBytes_lt {old : Nat} (new strb : Nat) (h : old < 2 ^ 32) : CoreLite.putBytes 4 old new strb < 2 ^ 32 := by
  have q : ∀ k x v, k ≤ 24 → x < 2 ^ 32 → setSlice x k (k + 8) v < 2 ^ 32 := by
    intro k x v hk hx
    unfold setSlice
    rw [Nat.add_sub_cancel_left]
    have e0 : x % 2 ^ k < 2 ^ k := Nat.mod_lt _ (Nat.two_pow_pos _)
    have e1 : v % 2 ^ 8 ≤ 255 := Nat.le_of_lt_succ (Nat.mod_lt _ (by decide))
    have e2 : 2 ^ k * (v % 2 ^ 8) ≤ 2 ^ k * 255 := Nat.mul_le_mul_left _ e1
    have e3 : x / 2 ^ (k + 8) < 2 ^ (24 - k) := by
      rw [Nat.div_lt_iff_lt_mul (Nat.two_pow_pos _), ← Nat.pow_add, show 24 - k + (k + 8) = 32 by omega]
      exact hx
    have e4 : 2 ^ (k + 8) * (x / 2 ^ (k + 8)) ≤ 2 ^ (k + 8) * (2 ^ (24 - k) - 1) := Nat.mul_le_mul_left _ (by omega)
    have e5 : 2 ^ (k + 8) * (2 ^ (24 - k) - 1) = 2 ^ 32 - 2 ^ (k + 8) := by
      rw [Nat.mul_sub, ← Nat.pow_add, show k + 8 + (24 - k) = 32 by omega, Nat.mul_one]
    have e6 : 2 ^ (k + 8) = 2 ^ k * 256 := Nat.pow_add 2 k 8
    have e7 : 2 ^ (k + 8) ≤ 2 ^ 32 := Nat.pow_le_pow_right (by decide) (by omega)
    omega
  have q' : ∀ k x, k ≤ 24 → x < 2 ^ 32 → (if strb.testBit (k / 8) = true then setSlice x k (k + 8) (new / 2 ^ k) else x) < 2 ^ 32 := by
    intro k x hk hx
    split
    · exact q k x _ hk hx
    · exact hx
  exact q' 24 _ (by decide) (q' 16 _ (by decide) (q' 8 _ (by decide) (q' 0 _ (by decide) h)))

theorem dma_addrs {d : DmaLite} (h : d.readAddr < 2 ^ 32 ∧ d.writeAddr < 2 ^ 32) (i : LiteIn) (f : Nat → Nat) :
    (d.step i f).readAddr < 2 ^ 32 ∧ (d.step i f).writeAddr < 2 ^ 32 := by
  obtain ⟨h1, h2⟩ := h
  have p1 := putBytes_lt i.wdata i.wstrb h1
  have p2 := putBytes_lt i.wdata i.wstrb h2
  obtain ⟨fsm, addr, x1, x2, x3, x4, x5, x6, x7, x8, x9, x10, x11⟩ := d
  cases fsm <;> simp only [DmaLite.step, DmaLite.readData, DmaLite.writeData] <;> (repeat' split) <;> constructor <;> assumption

theorem fx_dma (h : FullSim s t) (i : FullIn) (r : Bool) :
    BetaFull.absDma (fxStep s r i).u_dma_axi_lite = (if t.cam.resetOut || r then .init else t.dma.step i.lite (t.regs i)) ∧
    (fxStep s r i).u_dma_axi_lite.fsm_state < 6 := by
  refine ⟨?_, BetaFull.dma_fsm _ _ _ _ _ _ _ h.dmaFsm⟩
  have b0 := fx_status h i
  have b1 : BetaFull.top.dma_axi_lite_in2 s = t.agr.addr := by rw [← h.agr]; rfl
  have b2 : BetaFull.top.dma_axi_lite_in3 s = t.agw.addr := by rw [← h.agw]; rfl
  have b3 : BetaFull.top.dma_axi_lite_in4 s = t.cntR := h.cntR
  have b4 : BetaFull.top.dma_axi_lite_in5 s = t.cntW := h.cntW
  have b5 : BetaFull.top.dma_axi_lite_in6 s = t.camOut.data := (fx_core h).2.1
  have b6 : BetaFull.top.dma_axi_lite_in7 s = t.pack.data % 2 ^ 32 := by
    rw [← h.pack]
    show slc s.u_b16_b64.data_out 0 32 = s.u_b16_b64.data_out % 2 ^ 32
    simp only [slc, Nat.pow_zero, Nat.div_one]
  have b7 : BetaFull.top.dma_axi_lite_in8 s = t.pack.data / 2 ^ 32 := by
    have p := h.p64.2.2
    rw [← h.pack] at p ⊢
    show slc s.u_b16_b64.data_out 32 32 = s.u_b16_b64.data_out / 2 ^ 32
    have p : s.u_b16_b64.data_out < 2 ^ 64 := p
    simp only [slc]
    omega
  have b8 : BetaFull.top.dma_axi_lite_in9 s = t.unpack.data := by rw [← h.unp]; rfl
  show BetaFull.absDma (BetaFull.dma_axi_lite.step s.u_dma_axi_lite i.lite.awvalid i.lite.araddr
    (BetaFull.top.w40 s i.arready i.rvalid i.rresp i.awready i.wready i.bvalid i.bresp) (BetaFull.top.dma_axi_lite_in2 s)
    (BetaFull.top.dma_axi_lite_in3 s) (BetaFull.top.dma_axi_lite_in4 s) (BetaFull.top.dma_axi_lite_in5 s) (BetaFull.top.dma_axi_lite_in6 s)
    (BetaFull.top.dma_axi_lite_in7 s) (BetaFull.top.dma_axi_lite_in8 s) (BetaFull.top.dma_axi_lite_in9 s) i.lite.rready i.lite.awaddr
    i.lite.wvalid i.lite.wdata i.lite.wstrb i.lite.bready (BetaFull.top.rst s r) i.lite.arvalid) = _
  rw [b0, b1, b2, b3, b4, b5, b6, b7, b8, fx_rst, h.reset]
  cases hr : t.cam.resetOut || r
  · have k := BetaFull.dma_step s.u_dma_axi_lite i.lite (t.regs i) h.dmaFsm
    rw [h.dma] at k
    exact k
  · exact BetaFull.dma_rst s.u_dma_axi_lite i.lite (t.regs i)

theorem fx_cam (h : FullSim s t) (i : FullIn) :
    Behaves (fxCore (fxStep s false i).u_top) (t.cam.betaStep betaCore 6666000 t.camIn) ∧
    (fxStep s false i).u_top.u_auto_reset.reset_out = (t.cam.betaStep betaCore 6666000 t.camIn).resetOut := by
  have hb : s.u_b16_b64.o_busy = t.pack.oBusy := by rw [← h.pack]; rfl
  have hd : BetaFull.b64_b32.data_out s.u_b64_b32 = t.unpack.data := by rw [← h.unp]; rfl
  have hv : BetaFull.top.top_valid_in s = t.unpack.valid := by
    rw [← h.unp]
    show (BetaFull.b64_b32.valid_out s.u_b64_b32 == true) = _
    rw [eq_true_b]; rfl
  have hc : (fxNet s false).cam = t.camIn := by
    unfold FullAxi.camIn
    rw [← hb, ← hv, ← hd]
    rfl
  constructor
  · rw [fx_step_core, ← hc]
    exact behaves_step h.core _ (fxNet_ok s false) rfl
  · rw [beta_reset_step]
    have k := net_reset_step (fxCore s.u_top) (fxNet s false) rfl
    have ho := behaves_out h.core t.pack.oBusy
    show (netStep (fxCore s.u_top) (fxNet s false)).u_auto_reset.reset_out = _
    rw [k]
    show (if s.u_top.u_auto_reset.reset_out = true then false else
      if ((netOut (fxCore s.u_top) s.u_b16_b64.o_busy).valid && !s.u_b16_b64.o_busy &&
        (netOut (fxCore s.u_top) s.u_b16_b64.o_busy).endd) = true then true
        else s.u_top.u_auto_reset.reset_out) = _
    rw [hb, ho, h.reset]
    rfl

/-- The netlist follows the model. -/
theorem full_step (h : FullSim s t) (i : FullIn) (hi : FullIn.Ok i) : FullSim (fxStep s false i) (t.step betaCore 6666000 i) := by
  have k1 := fx_rd h i false
  have k2 := fx_wr h i false
  have k3 := fx_rf h i hi false
  have k4 := fx_wf h i false
  have k5 := fx_unp h i false
  obtain ⟨k6, k7⟩ := fx_cam h i
  obtain ⟨k8, k9⟩ := fx_pack h i false
  obtain ⟨k10, k11⟩ := fx_ag h i false
  obtain ⟨k12, k13⟩ := fx_cnt h i false
  obtain ⟨k14, k15⟩ := fx_dma h i false
  have k16 := cam16_step (c := betaCore) (a := 6666000) h.fix t.camIn
  have v1 := SyncFifo.inv_step h.rfInv (t.rd.dataEn i.rvalid) (HpFifo.word i.rdata false) (!t.unpack.oBusy)
  have v2 := SyncFifo.inv_step h.wfInv t.pack.valid (HpFifo.word t.pack.data t.pack.endOut) (t.wr.dataEn i.wready)
  rw [Bool.or_false] at k1 k2 k3 k4 k5 k8 k10 k11 k12 k13 k14
  unfold FullAxi.step
  cases hr : t.cam.resetOut
  · simp only [hr, Bool.false_eq_true, if_false] at *
    exact ⟨k1, k2, k3, k4, v1, v2, k5.1, k5.2, k6, k7, k16, k8, k9, p64_step h.p64 (cam16_out h.fix _) _ _ _, k10, k11, k12, k13, k14, k15,
      dma_addrs h.addrs _ _, rd_range h.act.1 _, wr_range h.act.2 _⟩
  · simp only [hr, if_true] at *
    exact ⟨k1, k2, k3, k4, SyncFifo.inv_reset _ _ (by decide) v1.len, SyncFifo.inv_reset _ _ (by decide) v2.len, k5.1, k5.2, k6, k7, k16, k8, k9,
      (show P64 .init from ⟨by decide, by decide, by decide⟩), k10, k11, k12, k13, k14, k15,
      (show DmaLite.init.readAddr < 2 ^ 32 ∧ DmaLite.init.writeAddr < 2 ^ 32 from ⟨by decide, by decide⟩),
      (show HpReader.init.active < 16 ∧ HpWriter.init.active < 16 ∧ HpWriter.init.unconf < 16 ∧ HpWriter.init.counter < 16 from by decide)⟩

end
/-! ### Runs -/

def fxRun : BetaFull.top.S → List (Bool × FullIn) → BetaFull.top.S
  | s, [] => s
  | s, x :: r => fxRun (fxStep s x.1 x.2) r

/-- A run without external reset. -/
def fxGo : BetaFull.top.S → List FullIn → BetaFull.top.S
  | s, [] => s
  | s, i :: r => fxGo (fxStep s false i) r

/-- The states from which the design starts a frame: power-up, and the state after any cycle in which the external reset or the
core's own reset was active, whatever happened before. -/
def FxStart (s : BetaFull.top.S) : Prop :=
  ∃ s0 pre, BetaFull.top.Init s0 ∧ (∀ x ∈ pre, FullIn.Ok x.2) ∧ s = fxRun s0 pre ∧
    (pre = [] ∨ ∃ p b, pre = p ++ [b] ∧ (b.1 = true ∨ (fxRun s0 p).u_top.u_auto_reset.reset_out = true))

theorem fxRun_append (x y : List (Bool × FullIn)) : ∀ s, fxRun s (x ++ y) = fxRun (fxRun s x) y := by
  induction x with
  | nil => intro s; rfl
  | cons i x ih => intro s; exact ih _

def fxNets : BetaFull.top.S → List (Bool × FullIn) → List NetIn
  | _, [] => []
  | s, x :: r => fxNet s x.1 :: fxNets (fxStep s x.1 x.2) r

theorem fx_run_core (l : List (Bool × FullIn)) : ∀ s, fxCore (fxRun s l).u_top = netRun (fxCore s.u_top) (fxNets s l) := by
  induction l with
  | nil => intro s; rfl
  | cons i r ih => intro s; rw [fxRun, ih, fx_step_core]; rfl

theorem fxNets_ok (l : List (Bool × FullIn)) : ∀ s, ∀ i ∈ fxNets s l, i.Ok := by
  induction l with
  | nil => intro s i hi; cases hi
  | cons i r ih =>
    intro s j hj
    rcases List.mem_cons.1 hj with rfl | hj
    · exact fxNet_ok s i.1
    · exact ih _ j hj

theorem fxNets_append (l m : List (Bool × FullIn)) : ∀ s, fxNets s (l ++ m) = fxNets s l ++ fxNets (fxRun s l) m := by
  induction l with
  | nil => intro s; rfl
  | cons i r ih => intro s; simp [fxNets, fxRun, ih]

/-- The model after an external reset. -/
def restarted (t : FullAxi) (i : FullIn) : FullAxi := { FullAxi.clear (t.run1 betaCore 6666000 i) with cam := .init betaCore }

theorem full_restart {s : BetaFull.top.S} {t : FullAxi} (h : FullSim s t) (i : FullIn) (hi : FullIn.Ok i)
    (hc : Behaves (fxCore (fxStep s true i).u_top) (Cam.init betaCore)) : FullSim (fxStep s true i) (restarted t i) := by
  have k1 := fx_rd h i true
  have k2 := fx_wr h i true
  have k3 := fx_rf h i hi true
  have k4 := fx_wf h i true
  have k5 := fx_unp h i true
  obtain ⟨k8, k9⟩ := fx_pack h i true
  obtain ⟨k10, k11⟩ := fx_ag h i true
  obtain ⟨k12, k13⟩ := fx_cnt h i true
  obtain ⟨k14, k15⟩ := fx_dma h i true
  have v1 := SyncFifo.inv_step h.rfInv (t.rd.dataEn i.rvalid) (HpFifo.word i.rdata false) (!t.unpack.oBusy)
  have v2 := SyncFifo.inv_step h.wfInv t.pack.valid (HpFifo.word t.pack.data t.pack.endOut) (t.wr.dataEn i.wready)
  rw [Bool.or_true] at k1 k2 k3 k4 k5 k8 k10 k11 k12 k13 k14
  have hr : (fxStep s true i).u_top.u_auto_reset.reset_out = false := by
    show (if Beta.top.integration_3_rst (fxCore s.u_top) true = true then false else _) = false
    rw [Beta.top_rst, Bool.or_true]; rfl
  exact ⟨k1, k2, k3, k4, SyncFifo.inv_reset _ _ (by decide) v1.len, SyncFifo.inv_reset _ _ (by decide) v2.len, k5.1, k5.2, hc, hr,
    (show Fix16 Fix2.init from ⟨by decide, by decide⟩), k8, k9,
    (show P64 .init from ⟨by decide, by decide, by decide⟩), k10, k11, k12, k13, k14, k15,
    (show DmaLite.init.readAddr < 2 ^ 32 ∧ DmaLite.init.writeAddr < 2 ^ 32 from ⟨by decide, by decide⟩),
    (show HpReader.init.active < 16 ∧ HpWriter.init.active < 16 ∧ HpWriter.init.unconf < 16 ∧ HpWriter.init.counter < 16 from by decide)⟩

theorem lens_of_sim {s : BetaFull.top.S} {t : FullAxi} (h : FullSim s t) : Lens t := by
  refine ⟨h.rfInv.len, h.wfInv.len, ?_, ?_⟩
  · have := h.unpWf.f64.len
    rw [← h.unp]; exact this
  · have := h.unpWf.f32.len
    rw [← h.unp]; exact this

theorem restarted_after {s : BetaFull.top.S} {t : FullAxi} {i : FullIn} (h : FullSim s (restarted t i)) : FullAfterReset betaCore (restarted t i) :=
  ⟨init_afterReset betaCore, lens_of_sim h, rfl⟩

/-- Power-up of the netlist is power-up of the model. -/
theorem full_init {s : BetaFull.top.S} (h : BetaFull.top.Init s) : FullSim s (.init betaCore) := by
  obtain ⟨w, r, ⟨gr1, gr2, gr3⟩, ⟨gw1, gw2, gw3⟩, ⟨r1, r2, r3⟩, ⟨w1, w2, w3, w4, w5, w6, w7⟩,
    ⟨p1, p2, p3, p4, p5, p6, p7, p8, p9, p10, p11, p12⟩,
    ⟨u1, u2, u3, u4, u5, u6, u7, u8, u9, u10, u11, u12, ⟨a1, a2, a3, a4⟩, ⟨b1, b2, b3, b4⟩⟩,
    ⟨d1, d2, d3, d4, d5, d6, d7, d8, d9, d10, d11, d12, d13⟩, ⟨e1, e2, e3, e4⟩, hc, ⟨f1, f2, f3, f4⟩⟩ := h
  have hi : Beta.top.Init (fxCore s.u_top) := hc
  have q1 : BetaFull.absF64 s.u_b64_b32.u_fifo64 0 = SyncFifo.init 2 := by
    simp [BetaFull.absF64, SyncFifo.init, SyncFifo.reset, b1, b2, b3, b4]
  have q2 : BetaFull.absF32 s.u_b64_b32.u_fifo32 0 = SyncFifo.init 4 := by
    simp [BetaFull.absF32, SyncFifo.init, SyncFifo.reset, a1, a2, a3, a4]
  refine ⟨?_, ?_, ?_, ?_, ?_, ?_, ?_, ?_, ?_, ?_, ?_, ?_, ?_, ?_, ?_, ?_, ?_, ?_, ?_, ?_, ?_, ?_⟩
  · simp [BetaFull.absRd, FullAxi.init, HpReader.init, r1, r2, r3]
  · simp [BetaFull.absWr, FullAxi.init, HpWriter.init, w1, w2, w3, w4, w5, w6, w7]
  · simp [BetaFull.absF8, FullAxi.init, HpFifo.init, SyncFifo.init, SyncFifo.reset, e1, e2, e3, e4]
  · simp [BetaFull.absF9, FullAxi.init, HpFifo.init, SyncFifo.init, SyncFifo.reset, f1, f2, f3, f4]
  · exact SyncFifo.inv_reset _ _ (by decide) (by simp)
  · exact SyncFifo.inv_reset _ _ (by decide) (by simp)
  · show BetaFull.absUnp s.u_b64_b32 0 0 = Unpack.init
    unfold BetaFull.absUnp
    rw [q1, q2]
    simp [Unpack.init, BetaFull.fillFsm, u1, u2, u3, u4, u5, u6, u7, u8, u9, u10]
  · refine ⟨?_, ?_, u11, u12, ?_⟩
    · show (BetaFull.absF64 s.u_b64_b32.u_fifo64 0).Inv 2
      rw [q1]; exact SyncFifo.inv_reset _ _ (by decide) (by simp)
    · show (BetaFull.absF32 s.u_b64_b32.u_fifo32 0).Inv 4
      rw [q2]; exact SyncFifo.inv_reset _ _ (by decide) (by simp)
    · rw [u8]; decide
  · exact behaves_start hi [] (fun i h => by cases h) (Or.inl rfl)
  · exact hc.1
  · exact ⟨by decide, by decide⟩
  · simp [BetaFull.absPack64, FullAxi.init, Pack64.init, BetaFull.packFsm64, p1, p2, p3, p4, p5, p6, p7, p8, p9, p10, p11, p12]
  · rw [p3]; decide
  · exact ⟨by decide, by decide, by decide⟩
  · simp [BetaFull.absAgr, FullAxi.init, AddrGen.init, gr1, gr2, gr3]
  · simp [BetaFull.absAgw, FullAxi.init, AddrGen.init, gw1, gw2, gw3]
  · exact r
  · exact w
  · simp [BetaFull.absDma, FullAxi.init, DmaLite.init, BetaFull.dmaFsm, d1, d2, d3, d4, d5, d6, d7, d8, d9, d10, d11, d12, d13]
  · rw [d10]; decide
  · exact ⟨by decide, by decide⟩
  · exact (show HpReader.init.active < 16 ∧ HpWriter.init.active < 16 ∧ HpWriter.init.unconf < 16 ∧ HpWriter.init.counter < 16 from by decide)

/-- The state after every internal reset of a run from a reset state is a reset state. -/
theorem afterReset_again {t : FullAxi} (hs : FullAfterReset betaCore t) (ins : List FullIn) (r : FullIn)
    (hr : (fullRun betaCore 6666000 t ins).cam.resetOut = true) :
    FullAfterReset betaCore ((fullRun betaCore 6666000 t ins).step betaCore 6666000 r) := by
  have hl : ∀ (ins : List FullIn) (s : FullAxi), Lens s → Lens (fullRun betaCore 6666000 s ins) := by
    intro ins
    induction ins with
    | nil => intro s h; exact h
    | cons i r ih => intro s h; exact ih _ (lens_step h i)
  have hreach : CamReach betaCore defaultTable (fullRun betaCore 6666000 t ins).cam := by
    rw [cam_run]
    obtain ⟨m, hm, e⟩ := hs.cam
    refine reach_run beta_setup 6666000 _ ?_ (cIn_wf rfl rfl _ _)
    rw [e]; exact ⟨_, _, _, _, _, _, Cam.inv_reset beta_setup.core hm⟩
  refine ⟨?_, lens_step (hl _ _ hs.lens) r, ?_⟩
  · rw [step_cam]
    exact (reach_step beta_setup 6666000 hreach _ (cIn_wf (a := 6666000) rfl rfl [r] _ _ (List.mem_singleton.2 rfl))).2 hr
  · unfold FullAxi.step
    rw [if_pos hr]
    rfl

theorem fullRun_snoc (t : FullAxi) (l : List FullIn) (i : FullIn) :
    fullRun betaCore 6666000 t (l ++ [i]) = (fullRun betaCore 6666000 t l).step betaCore 6666000 i := by
  rw [fullRun_append]; rfl

theorem full_reach {s0 : BetaFull.top.S} (h0 : BetaFull.top.Init s0) (pre : List (Bool × FullIn)) (hp : ∀ x ∈ pre, FullIn.Ok x.2) :
    ∃ t0 ins, FullAfterReset betaCore t0 ∧ FullSim (fxRun s0 pre) (fullRun betaCore 6666000 t0 ins) := by
  have hi : Beta.top.Init (fxCore s0.u_top) := h0.2.2.2.2.2.2.2.2.2.2.1
  induction pre using snoc_induction with
  | h0 => exact ⟨.init betaCore, [], ⟨init_afterReset betaCore, lens_of_sim (full_init h0), rfl⟩, full_init h0⟩
  | h1 p b ih =>
    obtain ⟨t0, ins, k1, k2⟩ := ih (fun x hx => hp x (List.mem_append_left _ hx))
    have hb : FullIn.Ok b.2 := hp b (List.mem_append_right _ (List.mem_singleton.2 rfl))
    obtain ⟨br, bi⟩ := b
    rw [fxRun_append]
    cases br
    · refine ⟨t0, ins ++ [bi], k1, ?_⟩
      rw [fullRun_snoc]
      exact full_step k2 bi hb
    · have hc : Behaves (fxCore (fxStep (fxRun s0 p) true bi).u_top) (Cam.init betaCore) := by
        have : fxCore (fxStep (fxRun s0 p) true bi).u_top = netRun (fxCore s0.u_top) (fxNets s0 p ++ [fxNet (fxRun s0 p) true]) := by
          have := fx_run_core (p ++ [(true, bi)]) s0
          rw [fxRun_append, fxNets_append] at this
          exact this
        rw [this]
        refine behaves_start hi _ ?_ (Or.inr ⟨_, _, rfl, rfl⟩)
        intro j hj
        rcases List.mem_append.1 hj with hj | hj
        · exact fxNets_ok p s0 j hj
        · rw [List.mem_singleton.1 hj]; exact fxNet_ok _ _
      have := full_restart k2 bi hb hc
      exact ⟨_, [], restarted_after this, this⟩

/-- Every start state of the netlist is a reset state of the model. -/
theorem fxStart_sim {s : BetaFull.top.S} (h : FxStart s) : ∃ t, FullAfterReset betaCore t ∧ FullSim s t := by
  obtain ⟨s0, pre, h0, hp, rfl, h⟩ := h
  rcases h with rfl | ⟨p, ⟨br, bi⟩, rfl, hb⟩
  · exact ⟨.init betaCore, ⟨init_afterReset betaCore, lens_of_sim (full_init h0), rfl⟩, full_init h0⟩
  · obtain ⟨t0, ins, k1, k2⟩ := full_reach h0 p (fun x hx => hp x (List.mem_append_left _ hx))
    have hb' : FullIn.Ok bi := hp (br, bi) (List.mem_append_right _ (List.mem_singleton.2 rfl))
    rw [fxRun_append]
    show ∃ t, FullAfterReset betaCore t ∧ FullSim (fxStep (fxRun s0 p) br bi) t
    have hi : Beta.top.Init (fxCore s0.u_top) := h0.2.2.2.2.2.2.2.2.2.2.1
    cases br
    · rcases hb with hb | hb
      · cases hb
      · rw [k2.reset] at hb
        exact ⟨_, afterReset_again k1 ins bi hb, full_step k2 bi hb'⟩
    · have hc : Behaves (fxCore (fxStep (fxRun s0 p) true bi).u_top) (Cam.init betaCore) := by
        have : fxCore (fxStep (fxRun s0 p) true bi).u_top = netRun (fxCore s0.u_top) (fxNets s0 p ++ [fxNet (fxRun s0 p) true]) := by
          have := fx_run_core (p ++ [(true, bi)]) s0
          rw [fxRun_append, fxNets_append] at this
          exact this
        rw [this]
        refine behaves_start hi _ ?_ (Or.inr ⟨_, _, rfl, rfl⟩)
        intro j hj
        rcases List.mem_append.1 hj with hj | hj
        · exact fxNets_ok p s0 j hj
        · rw [List.mem_singleton.1 hj]; exact fxNet_ok _ _
      have := full_restart k2 bi hb' hc
      exact ⟨_, restarted_after this, this⟩

/-! ### What the ports show -/

/-- The output ports, cycle by cycle. -/
def fxOuts : BetaFull.top.S → List FullIn → List FullPorts
  | _, [] => []
  | s, i :: r => fxPorts s :: fxOuts (fxStep s false i) r

/-- Data beats transferred on the read port, read bursts, write bursts, data beats transferred on the write port. -/
def fxReadBeats : BetaFull.top.S → List FullIn → List Nat
  | _, [] => []
  | s, i :: r => (if (fxPorts s).rready && i.rvalid then [i.rdata] else []) ++ fxReadBeats (fxStep s false i) r

def fxReadBursts : BetaFull.top.S → List FullIn → List Nat
  | _, [] => []
  | s, i :: r => (if (fxPorts s).arvalid && i.arready then [(fxPorts s).araddr] else []) ++ fxReadBursts (fxStep s false i) r

def fxWriteBursts : BetaFull.top.S → List FullIn → List Nat
  | _, [] => []
  | s, i :: r => (if (fxPorts s).awvalid && i.awready then [(fxPorts s).awaddr] else []) ++ fxWriteBursts (fxStep s false i) r

def fxMemBeats : BetaFull.top.S → List FullIn → List Nat
  | _, [] => []
  | s, i :: r => (if (fxPorts s).wvalid && i.wready then [(fxPorts s).wdata] else []) ++ fxMemBeats (fxStep s false i) r

/-- 16-bit words on the wires between the core and the packer, with the core's `end_out`: `valid_out` and not `busy_in`. -/
def fxWords : BetaFull.top.S → List FullIn → List (Nat × Bool)
  | _, [] => []
  | s, i :: r => (if BetaFull.top.top_valid_out s && !BetaFull.top.top_busy_in s then
      [(BetaFull.top.top_data_out s, BetaFull.top.top_end_out s)] else []) ++ fxWords (fxStep s false i) r

/-- Transfers on the register bus. -/
def fxBus : BetaFull.top.S → List FullIn → List BusEv
  | _, [] => []
  | s, i :: r => liteEvents (fxPorts s).lite i.lite ++ fxBus (fxStep s false i) r

/-- The AXI read slave, as in `ReadSlave`: with `n` beats owed data may be valid, `rlast` marks the last beat of each burst of
16, each accepted address adds 16 beats. -/
def FxReadSlave : Nat → BetaFull.top.S → List FullIn → Prop
  | _, _, [] => True
  | n, s, i :: r => (i.rvalid = true → 0 < n) ∧ i.rlast = (i.rvalid && n % 16 == 1) ∧
      FxReadSlave (n + (if (fxPorts s).arvalid && i.arready then 16 else 0) - (if (fxPorts s).rready && i.rvalid then 1 else 0))
        (fxStep s false i) r

/-- The write slave accepts a beat in the first cycle in which it is offered with `wlast`. -/
def FxWriteSlave : BetaFull.top.S → List FullIn → Prop
  | _, [] => True
  | s, i :: r => ((fxPorts s).wvalid = true → (fxPorts s).wlast = true → i.wready = true) ∧ FxWriteSlave (fxStep s false i) r

/-- The register bus master behaves in every pair of consecutive cycles. -/
def FxBusMaster : BetaFull.top.S → List FullIn → Prop
  | s, i :: j :: r => MasterNext (fxPorts s).lite i.lite j.lite ∧ FxBusMaster (fxStep s false i) (j :: r)
  | _, _ => True

/-- The core's own reset is never active. -/
def FxNoReset : BetaFull.top.S → List FullIn → Prop
  | _, [] => True
  | s, i :: r => s.u_top.u_auto_reset.reset_out = false ∧ FxNoReset (fxStep s false i) r

theorem fx_run (ins : List FullIn) : ∀ {s : BetaFull.top.S} {t : FullAxi}, FullSim s t → (∀ i ∈ ins, FullIn.Ok i) →
    FullSim (fxGo s ins) (fullRun betaCore 6666000 t ins) ∧
    fxOuts s ins = observe betaCore 6666000 (fun t _ => mdPorts t) t ins ∧
    fxReadBeats s ins = readBeats betaCore 6666000 t ins ∧ fxReadBursts s ins = readBursts betaCore 6666000 t ins ∧
    fxWriteBursts s ins = writeBursts betaCore 6666000 t ins ∧ fxMemBeats s ins = memBeats betaCore 6666000 t ins ∧
    fxWords s ins = coreWords betaCore 6666000 t ins ∧ fxBus s ins = busEvents betaCore 6666000 t ins ∧
    (∀ n, FxReadSlave n s ins ↔ ReadSlave betaCore 6666000 n t ins) ∧
    (FxWriteSlave s ins ↔ WriteSlave betaCore 6666000 t ins) ∧
    (FxNoReset s ins ↔ NoReset betaCore 6666000 t ins) := by
  induction ins with
  | nil =>
    intro s t h _
    exact ⟨h, rfl, rfl, rfl, rfl, rfl, rfl, rfl, fun _ => Iff.rfl, Iff.rfl, Iff.rfl⟩
  | cons i r ih =>
    intro s t h hi
    obtain ⟨e0, e1, e2, e3, e4, e5, e6, e7, e8, e9, e10⟩ := ih (full_step h i (hi i (List.mem_cons_self ..))) (fun j hj => hi j (List.mem_cons_of_mem _ hj))
    have hp := fx_ports h
    obtain ⟨_, c1, c2, c3⟩ := fx_core h
    have c4 : BetaFull.top.top_busy_in s = t.pack.oBusy := by rw [← h.pack]; rfl
    refine ⟨e0, ?_, ?_, ?_, ?_, ?_, ?_, ?_, ?_, ?_, ?_⟩
    · simp only [fxOuts, observe, e1, hp]
    · simp only [fxReadBeats, readBeats, e2, hp]; rfl
    · simp only [fxReadBursts, readBursts, e3, hp]; rfl
    · simp only [fxWriteBursts, writeBursts, e4, hp]; rfl
    · simp only [fxMemBeats, memBeats, e5, hp]; rfl
    · simp only [fxWords, coreWords, e6, c1, c2, c3, c4]
    · simp only [fxBus, busEvents, e7, hp]; rfl
    · intro n
      simp only [FxReadSlave, ReadSlave, e8, hp]; rfl
    · simp only [FxWriteSlave, WriteSlave, e9, hp]; rfl
    · simp only [FxNoReset, NoReset, e10, h.reset]

theorem fx_master (ins : List FullIn) : ∀ {s : BetaFull.top.S} {t : FullAxi}, FullSim s t → (∀ i ∈ ins, FullIn.Ok i) →
    (FxBusMaster s ins ↔ BusMaster betaCore 6666000 t ins) := by
  induction ins with
  | nil => intro s t h _; exact Iff.rfl
  | cons i r ih =>
    intro s t h hi
    have k := ih (full_step h i (hi i (List.mem_cons_self ..))) (fun j hj => hi j (List.mem_cons_of_mem _ hj))
    cases r with
    | nil => exact Iff.rfl
    | cons j r => simp only [FxBusMaster, BusMaster, k, fx_ports h]; rfl

/-! ### The theorems -/

/-- C78: from power-up, as long as the external reset is not active, all output ports of the shipped netlist have, in every cycle
and for all inputs, the values the model of the source has from power-up. -/
theorem C78_netlist_is_source (s : BetaFull.top.S) (hs : BetaFull.top.Init s) (ins : List FullIn) (hi : ∀ i ∈ ins, FullIn.Ok i) :
    fxOuts s ins = observe betaCore 6666000 (fun t _ => mdPorts t) (.init betaCore) ins :=
  (fx_run ins (full_init hs) hi).2.1

/-- C78: the same from every state after a cycle with external or internal reset; the model starts in a reset state (cleared
registers, some contents of the FIFO memories, which the status registers can show). -/
theorem C78_netlist_is_source_after_reset (s : BetaFull.top.S) (hs : FxStart s) :
    ∃ t, FullAfterReset betaCore t ∧ ∀ ins : List FullIn, (∀ i ∈ ins, FullIn.Ok i) →
      fxOuts s ins = observe betaCore 6666000 (fun t _ => mdPorts t) t ins := by
  obtain ⟨t, k1, k2⟩ := fxStart_sim hs
  exact ⟨t, k1, fun ins hi => (fx_run ins k2 hi).2.1⟩

/-- C78 (of C54): the shipped netlist compresses the frame it reads from memory. -/
theorem C78_frame_from_memory (s : BetaFull.top.S) (hs : FxStart s) (ins : List FullIn) (i : FullIn)
    (hi : ∀ j ∈ ins ++ [i], FullIn.Ok j) (hsl : FxReadSlave 0 s (ins ++ [i])) (hno : ∀ x ∈ fxWords s ins, x.2 = false)
    (hw : (0xFFFF, true) ∈ fxWords s (ins ++ [i])) :
    let words := fxWords s (ins ++ [i])
    let pixels := (fxReadBeats s (ins ++ [i])).flatMap beatPixels
    4096 * 3072 ≤ pixels.length ∧
    ∃ pad, decode defaultTable 13 12 4096 (4096 * 3072) []
      (byteBits (unstuff (wordBytes ((words.drop 8).take (words.length - 16))))) = some (pixels.take (4096 * 3072), pad) := by
  intro words pixels
  obtain ⟨t, k1, k2⟩ := fxStart_sim hs
  obtain ⟨_, _, e2, _, _, _, e6, _, e8, _, _⟩ := fx_run (ins ++ [i]) k2 hi
  have e6' := (fx_run ins k2 (fun j hj => hi j (List.mem_append_left _ hj))).2.2.2.2.2.2.1
  have := C54_frame_from_memory (a := 6666000) beta_setup rfl rfl k1 ins i ((e8 0).1 hsl) hi (e6' ▸ hno) (e6 ▸ hw)
  rw [← e6, ← e2] at this
  exact this

/-- C78 (of C54): what the shipped netlist has written to memory when a frame ends is the frame's words in order, four to a beat,
except possibly one additional beat after the first burst. -/
theorem C78_memory_prefix (s : BetaFull.top.S) (hs : FxStart s) (ins : List FullIn) (i r : FullIn)
    (hi : ∀ j ∈ ins ++ [i] ++ [r], FullIn.Ok j) (hsl : FxWriteSlave s (ins ++ [i] ++ [r])) (hno : ∀ x ∈ fxWords s ins, x.2 = false) :
    let mem := fxMemBeats s (ins ++ [i] ++ [r])
    let words := groups4 ((fxWords s ins).map Prod.fst)
    mem <+: words ∨ (16 < mem.length ∧ mem.eraseIdx 16 <+: words) := by
  intro mem words
  obtain ⟨t, k1, k2⟩ := fxStart_sim hs
  obtain ⟨_, _, _, _, _, e5, _, _, _, e9, _⟩ := fx_run _ k2 hi
  have e6' := (fx_run ins k2 (fun j hj => hi j (List.mem_append_left _ (List.mem_append_left _ hj)))).2.2.2.2.2.2.1
  have := C54_memory_prefix (a := 6666000) k1 ins i r (e9.1 hsl) (e6' ▸ hno)
  rw [← e6', ← e5] at this
  exact this

/-- C78 (of C54): after a reset the shipped netlist requests no burst and writes nothing until the register bus has written. -/
theorem C78_stopped_after_reset (s : BetaFull.top.S) (hs : FxStart s) (ins : List FullIn) (hi : ∀ j ∈ ins, FullIn.Ok j)
    (ha : ∀ i ∈ ins, i.lite.awvalid = false) :
    fxReadBursts s ins = [] ∧ fxWriteBursts s ins = [] ∧ fxMemBeats s ins = [] := by
  obtain ⟨t, k1, k2⟩ := fxStart_sim hs
  obtain ⟨_, _, _, e3, e4, e5, _⟩ := fx_run _ k2 hi
  rw [e3, e4, e5]
  exact C54_stopped_after_reset k1 ins ha

/-- C78 (of C54): the burst addresses of a frame in the shipped netlist count up by 128 from the address the register held one
cycle before the first burst. -/
theorem C78_addresses (s : BetaFull.top.S) (hs : FxStart s) (pre rest : List FullIn) (x l : FullIn)
    (hi : ∀ j ∈ pre ++ [x] ++ l :: rest, FullIn.Ok j) (hnr : FxNoReset s (pre ++ [x] ++ l :: rest)) :
    (fxReadBursts s (pre ++ [x]) = [] → ((fxPorts (fxGo s (pre ++ [x]))).arvalid && l.arready) = true →
      let bursts := fxReadBursts s (pre ++ [x] ++ l :: rest)
      bursts = (List.range bursts.length).map fun k => ((fxGo s pre).u_dma_axi_lite.read_addr + k * 128) % 2 ^ 32) ∧
    (fxWriteBursts s (pre ++ [x]) = [] → ((fxPorts (fxGo s (pre ++ [x]))).awvalid && l.awready) = true →
      let bursts := fxWriteBursts s (pre ++ [x] ++ l :: rest)
      bursts = (List.range bursts.length).map fun k => ((fxGo s pre).u_dma_axi_lite.write_addr + k * 128) % 2 ^ 32) := by
  obtain ⟨t, k1, k2⟩ := fxStart_sim hs
  have h1 : ∀ j ∈ pre ++ [x], FullIn.Ok j := fun j hj => hi j (List.mem_append_left _ hj)
  have h0 : ∀ j ∈ pre, FullIn.Ok j := fun j hj => h1 j (List.mem_append_left _ hj)
  obtain ⟨_, _, _, a3, a4, _, _, _, _, _, a10⟩ := fx_run _ k2 hi
  obtain ⟨b0, _, _, b3, b4, _⟩ := fx_run _ k2 h1
  have c0 := (fx_run _ k2 h0).1
  have d1 : (fxGo s pre).u_dma_axi_lite.read_addr = (fullRun betaCore 6666000 t pre).dma.readAddr := by rw [← c0.dma]; rfl
  have d2 : (fxGo s pre).u_dma_axi_lite.write_addr = (fullRun betaCore 6666000 t pre).dma.writeAddr := by rw [← c0.dma]; rfl
  have := C54_addresses (a := 6666000) k1 pre rest x l (a10.1 hnr)
  rw [fx_ports b0, a3, a4, b3, b4, d1, d2]
  exact this

/-- C78 (of C54): status words 4 to 7 as read over the register bus of the shipped netlist: next read address, next write address,
number of read bursts (up to 196608) and of write bursts (up to 131072) of the frame so far. -/
theorem C78_status_registers (s : BetaFull.top.S) (hs : FxStart s) (ins : List FullIn) (x j : FullIn)
    (hi : ∀ y ∈ ins ++ [x] ++ [j], FullIn.Ok y)
    (hnr : FxNoReset s (ins ++ [x] ++ [j])) (hm : FxBusMaster s (ins ++ [x] ++ [j])) {pre : List BusEv} {addr k d code : Nat}
    (hk : 3 ≤ k ∧ k < 12) (ha : DmaWord addr k) (hev : fxBus s (ins ++ [x]) = pre ++ [.ar addr])
    (hr : liteEvents (fxPorts (fxGo s (ins ++ [x]))).lite j.lite = [.r d code]) :
    code = 0 ∧
    (k = 6 → d = min (fxReadBursts s ins).length 196608) ∧
    (k = 7 → d = min (fxWriteBursts s ins).length 131072) ∧
    (k = 4 → ∀ b, (fxReadBursts s ins).getLast? = some b → d = (b + 128) % 2 ^ 32) ∧
    (k = 5 → ∀ b, (fxWriteBursts s ins).getLast? = some b → d = (b + 128) % 2 ^ 32) := by
  obtain ⟨t, k1, k2⟩ := fxStart_sim hs
  have h1 : ∀ y ∈ ins ++ [x], FullIn.Ok y := fun j hj => hi j (List.mem_append_left _ hj)
  have h0 : ∀ y ∈ ins, FullIn.Ok y := fun j hj => h1 j (List.mem_append_left _ hj)
  have a10 := (fx_run _ k2 hi).2.2.2.2.2.2.2.2.2.2
  obtain ⟨b0, _, _, _, _, _, _, b7, _⟩ := fx_run _ k2 h1
  obtain ⟨_, _, _, c3, c4, _⟩ := fx_run _ k2 h0
  rw [fx_ports b0] at hr
  rw [b7] at hev
  have := C54_status_registers (a := 6666000) k1 ins x j (a10.1 hnr) ((fx_master _ k2 hi).1 hm) hk ha hev hr
  rw [c3, c4]
  exact this

/-- Cycles in which the write port shows `wlast`; write responses taken. -/
def fxWlastCycles : BetaFull.top.S → List FullIn → Nat
  | _, [] => 0
  | s, i :: r => (if (fxPorts s).wlast then 1 else 0) + fxWlastCycles (fxStep s false i) r

def fxResponses : BetaFull.top.S → List FullIn → Nat
  | _, [] => 0
  | s, i :: r => (if (fxPorts s).bready && i.bvalid then 1 else 0) + fxResponses (fxStep s false i) r

theorem fx_counts (ins : List FullIn) : ∀ {s : BetaFull.top.S} {t : FullAxi}, FullSim s t → (∀ i ∈ ins, FullIn.Ok i) →
    fxWlastCycles s ins = wlastCycles betaCore 6666000 t ins ∧ fxResponses s ins = responses betaCore 6666000 t ins := by
  induction ins with
  | nil => intro s t h _; exact ⟨rfl, rfl⟩
  | cons i r ih =>
    intro s t h hi
    obtain ⟨k1, k2⟩ := ih (full_step h i (hi i (List.mem_cons_self ..))) (fun j hj => hi j (List.mem_cons_of_mem _ hj))
    simp only [fxWlastCycles, wlastCycles, fxResponses, responses, k1, k2, fx_ports h]
    exact ⟨rfl, rfl⟩

/-- C78 (of C54): the status word (word 3) as read over the register bus of the shipped netlist: of the sampled cycle a write
response with an error code (bit 9), a read beat with an error code (bit 10), a beat written (bit 4); the numbers, modulo 16, of
write bursts without last beat, read bursts without last beat and unacknowledged write bursts; bits 7 and 8 that there are none. -/
theorem C78_status_word (s : BetaFull.top.S) (hs : FxStart s) (ins : List FullIn) (x j : FullIn)
    (hi : ∀ y ∈ ins ++ [x] ++ [j], FullIn.Ok y)
    (hnr : FxNoReset s (ins ++ [x] ++ [j])) (hm : FxBusMaster s (ins ++ [x] ++ [j])) {pre : List BusEv} {addr d code : Nat}
    (ha : DmaWord addr 3) (hev : fxBus s (ins ++ [x]) = pre ++ [.ar addr])
    (hr : liteEvents (fxPorts (fxGo s (ins ++ [x]))).lite j.lite = [.r d code]) :
    let p := fxPorts (fxGo s ins)
    code = 0 ∧ d < 2 ^ 23 ∧
    d.testBit 9 = (p.bready && x.bvalid && x.bresp != 0) ∧
    d.testBit 10 = (p.rready && x.rvalid && x.rresp != 0) ∧
    d.testBit 4 = (p.wvalid && x.wready) ∧
    (d / 2 ^ 11 % 16 + fxWlastCycles s ins) % 16 = (fxWriteBursts s ins).length % 16 ∧
    (d / 2 ^ 15 % 16 + rlastCycles ins) % 16 = (fxReadBursts s ins).length % 16 ∧
    (d / 2 ^ 19 % 16 + fxResponses s ins) % 16 = (fxWriteBursts s ins).length % 16 ∧
    (d.testBit 7 = true ↔ d / 2 ^ 15 % 16 = 0) ∧
    (d.testBit 8 = true ↔ d / 2 ^ 11 % 16 = 0 ∧ d / 2 ^ 19 % 16 = 0) := by
  intro p
  obtain ⟨t, k1, k2⟩ := fxStart_sim hs
  have h1 : ∀ y ∈ ins ++ [x], FullIn.Ok y := fun j hj => hi j (List.mem_append_left _ hj)
  have h0 : ∀ y ∈ ins, FullIn.Ok y := fun j hj => h1 j (List.mem_append_left _ hj)
  have a10 := (fx_run _ k2 hi).2.2.2.2.2.2.2.2.2.2
  obtain ⟨b0, _, _, _, _, _, _, b7, _⟩ := fx_run _ k2 h1
  obtain ⟨c0, _, _, c3, c4, _⟩ := fx_run _ k2 h0
  obtain ⟨n1, n2⟩ := fx_counts _ k2 h0
  rw [fx_ports b0] at hr
  rw [b7] at hev
  have := C54_status_word (a := 6666000) k1 ins x j (a10.1 hnr) ((fx_master _ k2 hi).1 hm) ha hev hr
  rw [c3, c4, n1, n2, show p = _ from fx_ports c0]
  exact this

/-- C78 (limit of the code, of C54): the shipped netlist ignores error responses of the memory. -/
theorem C78_errors_ignored_limit (s : BetaFull.top.S) (hs : FxStart s) (ins ins' : List FullIn) (hi : ∀ i ∈ ins, FullIn.Ok i)
    (h : ins'.map noCodes = ins.map noCodes) :
    fxReadBursts s ins' = fxReadBursts s ins ∧ fxWriteBursts s ins' = fxWriteBursts s ins ∧
    fxReadBeats s ins' = fxReadBeats s ins ∧ fxMemBeats s ins' = fxMemBeats s ins ∧ fxWords s ins' = fxWords s ins := by
  obtain ⟨t, k1, k2⟩ := fxStart_sim hs
  have hi' : ∀ i ∈ ins', FullIn.Ok i := by
    intro i hm
    have hm' := List.mem_map_of_mem (f := noCodes) hm
    rw [h] at hm'
    obtain ⟨j, hj, e⟩ := List.mem_map.1 hm'
    have := hi j hj
    have e : j.rdata = i.rdata := by
      have := congrArg FullIn.rdata e
      exact this
    show i.rdata < 2 ^ 64
    rw [← e]; exact this
  obtain ⟨_, _, a2, a3, a4, a5, a6, _⟩ := fx_run ins k2 hi
  obtain ⟨_, _, b2, b3, b4, b5, b6, _⟩ := fx_run ins' k2 hi'
  rw [a2, a3, a4, a5, a6, b2, b3, b4, b5, b6]
  exact C54_errors_ignored_limit t ins ins' h

example : FxStart BetaFull.top.powerUp :=
  ⟨_, [], BetaFull.top.powerUp_init, by simp, rfl, Or.inl rfl⟩

/-- A start over the register bus, with a memory that answers at once. -/
def fxIns : List FullIn := memSystem betaCore 6666000 midPixel 0 0 (.init betaCore) (dmaStart ++ List.replicate 12 liteIdle)

-- The hypotheses above are met by that run of the netlist: the slave behaves, no reset, six bursts from the address written.
set_option maxRecDepth 100000 in
example : (∀ j ∈ fxIns, FullIn.Ok j) ∧ FxReadSlave 0 BetaFull.top.powerUp fxIns ∧ FxWriteSlave BetaFull.top.powerUp fxIns ∧
    FxNoReset BetaFull.top.powerUp fxIns ∧ fxReadBursts BetaFull.top.powerUp fxIns = (List.range 6).map (fun k => 0x1000 + 128 * k) ∧
    (fxReadBeats BetaFull.top.powerUp fxIns).length = 10 := by
  have hi : ∀ j ∈ fxIns, FullIn.Ok j := by
    have : ∀ j ∈ fxIns, j.rdata < 2 ^ 64 := by decide +kernel
    exact this
  obtain ⟨_, _, e2, e3, _, _, _, _, e8, e9, e10⟩ := fx_run fxIns (full_init BetaFull.top.powerUp_init) hi
  refine ⟨hi, (e8 0).2 (by decide +kernel), e9.2 ?_, e10.2 (by decide +kernel), ?_, ?_⟩
  · have : ∀ (l : List FullIn) (t : FullAxi), (∀ i ∈ l, i.wready = true) → WriteSlave betaCore 6666000 t l := by
      intro l
      induction l with
      | nil => intro _ _; trivial
      | cons i r ih => intro t h; exact ⟨fun _ _ => h i (List.mem_cons_self ..), ih _ (fun j hj => h j (List.mem_cons_of_mem _ hj))⟩
    exact this _ _ (by decide +kernel)
  · rw [e3]; decide +kernel
  · rw [e2]; decide +kernel

end Props
