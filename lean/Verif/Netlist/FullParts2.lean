/- The unpacker and the DMA registers of the netlist verilog_src/beta_integration_fullaxi.v, against their models. -/
import Verif.Netlist.FullParts

set_option autoImplicit false

namespace Netlist.BetaFull
open Netlist Model

/-! ### Unpacker -/

def fillFsm : Nat → FillFsm
  | 0 => .idle | 1 => .fill | _ => .handleReg

def absUnp (s : b64_b32.S) (d64 d32 : Nat) : Unpack :=
  { f64 := absF64 s.u_fifo64 d64, f32 := absF32 s.u_fifo32 d32, we64 := s.fifo64_we, din64 := s.fifo64_din, re64 := s.fifo64_re,
    we32 := s.fifo32_we, din32 := s.fifo32_din, oBusy := s.o_busy, reg := s.reg, fsm := fillFsm s.fsm_state, buff := s.buff,
    part2 := s.fsm_state_1 }

structure WfUnp (s : b64_b32.S) (d64 d32 : Nat) : Prop where
  f64 : (absF64 s.u_fifo64 d64).Inv 2
  f32 : (absF32 s.u_fifo32 d32).Inv 4
  r64 : s.fifo64_replace = false
  r32 : s.fifo32_replace = false
  fsm : s.fsm_state < 3

theorem unp_step (s : b64_b32.S) (d64 d32 d : Nat) (b v : Bool) (h : WfUnp s d64 d32) :
    absUnp (b64_b32.step s d b false v) (if s.fifo64_re then s.u_fifo64.storage.getD s.u_fifo64.consume.toNat 0 else d64)
      (if !b then s.u_fifo32.storage.getD s.u_fifo32.consume 0 else d32) = (absUnp s d64 d32).step d v b := by
  obtain ⟨h1, h2, h3, h4, h5⟩ := h
  have e1 := f64_step s.u_fifo64 d64 s.fifo64_we s.fifo64_re s.fifo64_din h1
  have e2 := f32_step s.u_fifo32 d32 s.fifo32_we (!b) s.fifo32_din h2
  obtain ⟨f1, re64, we32, bu, din32, rg, din64, st, ob, we64, rep64, rep32, ⟨l32, c32, p32, st32⟩, ⟨l64, c64, p64, st64⟩⟩ := s
  have h3 : rep64 = false := h3
  have h4 : rep32 = false := h4
  subst h3 h4
  have h5 : st < 3 := h5
  have h5 : st = 0 ∨ st = 1 ∨ st = 2 := by omega
  unfold absUnp Unpack.step
  rw [Unpack.mk.injEq]
  refine ⟨e1, ?_, ?_⟩
  · have : (b == false) = !b := by cases b <;> rfl
    rw [← this] at e2
    rw [← this]
    exact e2
  · clear e1 e2 h1 h2
    by_cases hl : l64 = 2 <;> by_cases hr : l64 = 0 <;> by_cases hl' : l32 = 4 <;> rcases h5 with rfl | rfl | rfl <;> cases f1 <;> cases v <;>
      simp [netlist, fillFsm, Unpack.stepIn, Unpack.stepOut, SyncFifo.writable, SyncFifo.readable, SyncFifo.front, absF64, absF32,
        slc, slice, hl, hl', hr] <;> simp_all

theorem unp_rst (s : b64_b32.S) (d64 d32 d : Nat) (b v : Bool) (h : WfUnp s d64 d32) :
    absUnp (b64_b32.step s d b true v) d64 d32 =
      { ((absUnp s d64 d32).step d v b).cleared with
        f64 := .reset ((absUnp s d64 d32).step d v b).f64.storage d64, f32 := .reset ((absUnp s d64 d32).step d v b).f32.storage d32 } := by
  obtain ⟨h1, h2, h3, h4, h5⟩ := h
  have e1 := f64_rst s.u_fifo64 d64 s.fifo64_we s.fifo64_re s.fifo64_din
  have e2 := f32_rst s.u_fifo32 d32 s.fifo32_we (!b) s.fifo32_din
  have k := unp_step s d64 d32 d b v ⟨h1, h2, h3, h4, h5⟩
  have k1 : ((absUnp s d64 d32).step d v b).din64 = (b64_b32.step s d b false v).fifo64_din := by rw [← k]; rfl
  have k2 : ((absUnp s d64 d32).step d v b).din32 = (b64_b32.step s d b false v).fifo32_din := by rw [← k]; rfl
  unfold Unpack.cleared
  rw [k1, k2]
  unfold absUnp
  rw [Unpack.mk.injEq]
  refine ⟨?_, ?_, ?_⟩
  · show absF64 (fifo64.step s.u_fifo64 s.fifo64_we s.fifo64_replace s.fifo64_re true s.fifo64_din) d64 = _
    rw [h3]; exact e1
  · show absF32 (fifo32.step s.u_fifo32 s.fifo32_we s.fifo32_replace (b == false) true s.fifo32_din) d32 = _
    rw [h4, show (b == false) = !b by cases b <;> rfl]; exact e2
  · simp [netlist, fillFsm, Unpack.init]

theorem unp_wf (s : b64_b32.S) (d64 d32 d : Nat) (b v : Bool) (h : WfUnp s d64 d32) :
    (∀ x y, absUnp (b64_b32.step s d b false v) x y = (absUnp s d64 d32).step d v b → WfUnp (b64_b32.step s d b false v) x y) := by
  intro x y e
  refine ⟨?_, ?_, rfl, rfl, ?_⟩
  · have : absF64 (b64_b32.step s d b false v).u_fifo64 x = _ := congrArg Unpack.f64 e
    rw [this]; exact SyncFifo.inv_step h.f64 _ _ _
  · have : absF32 (b64_b32.step s d b false v).u_fifo32 y = _ := congrArg Unpack.f32 e
    rw [this]; exact SyncFifo.inv_step h.f32 _ _ _
  · have h5 : s.fsm_state = 0 ∨ s.fsm_state = 1 ∨ s.fsm_state = 2 := by have := h.fsm; omega
    show b64_b32.next_fsm_state s false v < 3
    unfold b64_b32.next_fsm_state
    generalize b64_b32.fifo64_writable s = w
    rcases h5 with h | h | h <;> cases v <;> cases w <;> simp [h]

theorem unp_wf_rst (s : b64_b32.S) (d64 d32 d : Nat) (b v : Bool) (h : WfUnp s d64 d32) : WfUnp (b64_b32.step s d b true v) d64 d32 := by
  have e := unp_rst s d64 d32 d b v h
  refine ⟨?_, ?_, rfl, rfl, by simp [netlist]⟩
  · have : absF64 (b64_b32.step s d b true v).u_fifo64 d64 = _ := congrArg Unpack.f64 e
    rw [this]; exact SyncFifo.inv_reset _ _ (by decide) (SyncFifo.inv_step h.f64 _ _ _).len
  · have : absF32 (b64_b32.step s d b true v).u_fifo32 d32 = _ := congrArg Unpack.f32 e
    rw [this]; exact SyncFifo.inv_reset _ _ (by decide) (SyncFifo.inv_step h.f32 _ _ _).len

/-! ### DMA registers -/

def dmaFsm : Nat → DmaFsm
  | 0 => .idle | 1 => .rdAddr | 2 => .wrAddr | 3 => .rdData | 4 => .wrData | _ => .wrResp

def absDma (s : dma_axi_lite.S) : DmaLite :=
  { fsm := dmaFsm s.fsm_state, addr := s.addr_v, arready := s.arready_v, rvalid := s.rvalid_v, awready := s.awready_v,
    wready := s.wready_v, bvalid := s.bvalid_v, rdata := s.rdata_v, rresp := s.rresp_v, bresp := s.bresp_v,
    readAddr := s.read_addr, writeAddr := s.write_addr, start := s.start }

theorem put_byte (x l d : Nat) : put x l 8 (slc d l 8) = setSlice x l (l + 8) (d / 2 ^ l) := by
  rw [put_setSlice]
  unfold setSlice slc
  rw [Nat.add_sub_cancel_left, Nat.mod_mod]

theorem putBytes_net (x d m : Nat) : CoreLite.putBytes 4 x d m =
    (let e1 := if m.testBit 0 = true then put x 0 8 (slc d 0 8) else x
     let e2 := if m.testBit 1 = true then put e1 8 8 (slc d 8 8) else e1
     let e3 := if m.testBit 2 = true then put e2 16 8 (slc d 16 8) else e2
     if m.testBit 3 = true then put e3 24 8 (slc d 24 8) else e3) := by
  simp only [CoreLite.putBytes, put_byte]

theorem idx16 (a : Nat) : a % 16 = 0 ∨ a % 16 = 1 ∨ a % 16 = 2 ∨ a % 16 = 3 ∨ a % 16 = 4 ∨ a % 16 = 5 ∨ a % 16 = 6 ∨ a % 16 = 7 ∨
    a % 16 = 8 ∨ a % 16 = 9 ∨ a % 16 = 10 ∨ a % 16 = 11 ∨ a % 16 = 12 ∨ a % 16 = 13 ∨ a % 16 = 14 ∨ a % 16 = 15 := by omega

theorem slc4 (a : Nat) : slc a 0 4 = a % 16 := by simp [slc]

set_option maxHeartbeats 4000000 in
theorem dma_step (s : dma_axi_lite.S) (i : LiteIn) (ins : Nat → Nat) (h : s.fsm_state < 6) :
    absDma (dma_axi_lite.step s i.awvalid i.araddr (ins 0) (ins 1) (ins 2) (ins 3) (ins 4) (ins 5) (ins 6) (ins 7) (ins 8) i.rready
      i.awaddr i.wvalid i.wdata i.wstrb i.bready false i.arvalid) = (absDma s).step i ins := by
  obtain ⟨wa, ra, br, wr, awr, rr, rd, arr, ad, st, bv, rv, sta⟩ := s
  have h : st < 6 := h
  have h6 : st = 0 ∨ st = 1 ∨ st = 2 ∨ st = 3 ∨ st = 4 ∨ st = 5 := by omega
  obtain ⟨iav, iaa, irr, iaw, iawa, iwv, iwd, iws, ibr⟩ := i
  rcases h6 with rfl | rfl | rfl | rfl | rfl | rfl
  · cases iav <;> cases iaw <;> simp [absDma, dmaFsm, DmaLite.step, netlist]
  · simp [absDma, dmaFsm, DmaLite.step, netlist]
  · simp [absDma, dmaFsm, DmaLite.step, netlist]
  · by_cases en : ad.testBit 10 = true
    · rcases idx16 ad with h | h | h | h | h | h | h | h | h | h | h | h | h | h | h | h <;> cases irr <;>
        simp [absDma, dmaFsm, DmaLite.step, DmaLite.readData, DmaLite.enable, DmaLite.index, netlist, en, slc4, h]
    · cases irr <;> simp [absDma, dmaFsm, DmaLite.step, DmaLite.readData, DmaLite.enable, netlist, en]
  · cases iwv
    · simp [absDma, dmaFsm, DmaLite.step, netlist]
    · by_cases en : ad.testBit 10 = true
      · generalize b0 : iws.testBit 0 = s0
        generalize b1 : iws.testBit 1 = s1
        generalize b2 : iws.testBit 2 = s2
        generalize b3 : iws.testBit 3 = s3
        rcases idx16 ad with h | h | h | h | h | h | h | h | h | h | h | h | h | h | h | h <;> cases s0 <;> cases s1 <;> cases s2 <;> cases s3 <;>
          simp [absDma, dmaFsm, DmaLite.step, DmaLite.writeData, DmaLite.enable, DmaLite.index, netlist, en, slc4, h, putBytes_net, b0, b1, b2, b3]
      · simp [absDma, dmaFsm, DmaLite.step, DmaLite.writeData, DmaLite.enable, netlist, en]
  · cases ibr <;> simp [absDma, dmaFsm, DmaLite.step, netlist]

theorem dma_rst (s : dma_axi_lite.S) (i : LiteIn) (ins : Nat → Nat) :
    absDma (dma_axi_lite.step s i.awvalid i.araddr (ins 0) (ins 1) (ins 2) (ins 3) (ins 4) (ins 5) (ins 6) (ins 7) (ins 8) i.rready
      i.awaddr i.wvalid i.wdata i.wstrb i.bready true i.arvalid) = .init := by
  simp [absDma, dmaFsm, netlist, DmaLite.init]

theorem dma_fsm (s : dma_axi_lite.S) (aw rr wv br r ar : Bool) (h : s.fsm_state < 6) :
    dma_axi_lite.next_fsm_state s aw rr wv br r ar < 6 := by
  unfold dma_axi_lite.next_fsm_state
  dsimp only
  repeat' split
  all_goals omega

end Netlist.BetaFull
