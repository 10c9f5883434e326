/- The parts of the netlist verilog_src/beta_integration_fullaxi.v around the core, against their models. -/
import Verif.Netlist.BetaFull
import Verif.Model.FullAxi
import Verif.Proof.Fifo

set_option autoImplicit false

namespace Netlist.BetaFull
open Netlist Model

/-! ### FIFOs. The FIFOs of the netlist have no read register; the model's field `dout` is carried along as `d`. -/

def absF32 (s : fifo32.S) (d : Nat) : SyncFifo := ⟨s.storage, s.produce, s.consume, s.level, d⟩
def absF64 (s : fifo64.S) (d : Nat) : SyncFifo := ⟨s.storage, s.produce.toNat, s.consume.toNat, s.level, d⟩
def absF8 (s : fifo_8.S) (d : Nat) : SyncFifo := ⟨s.storage, s.produce, s.consume, s.level, d⟩
def absF9 (s : fifo_9.S) (d : Nat) : SyncFifo := ⟨s.storage, s.produce, s.consume, s.level, d⟩

theorem f32_step (s : fifo32.S) (d : Nat) (we re : Bool) (din : Nat) (h : (absF32 s d).Inv 4) :
    absF32 (fifo32.step s we false re false din) (if re then s.storage.getD s.consume 0 else d) =
      (absF32 s d).step 4 we din re := by
  obtain ⟨l, c, p, st⟩ := s
  obtain ⟨_, _, h3, h4, h5⟩ := h
  have h3 : l ≤ 4 := h3
  have h4 : c < 4 := h4
  have hp : p < 4 := by
    have h5 : p = (c + l) % 4 := h5
    omega
  have hl : l = 0 ∨ l = 1 ∨ l = 2 ∨ l = 3 ∨ l = 4 := by omega
  have hp : p = 0 ∨ p = 1 ∨ p = 2 ∨ p = 3 := by omega
  have hc : c = 0 ∨ c = 1 ∨ c = 2 ∨ c = 3 := by omega
  clear h5 h3 h4
  rcases hl with rfl | rfl | rfl | rfl | rfl <;> rcases hp with rfl | rfl | rfl | rfl <;> rcases hc with rfl | rfl | rfl | rfl <;>
    cases we <;> cases re <;> simp [absF32, netlist, SyncFifo.step, SyncFifo.writable, SyncFifo.readable, slc]

theorem f32_rst (s : fifo32.S) (d : Nat) (we re : Bool) (din : Nat) :
    absF32 (fifo32.step s we false re true din) d =
      .reset ((absF32 s d).step 4 we din re).storage d := by
  obtain ⟨l, c, p, st⟩ := s
  by_cases hl : l = 4 <;> cases we <;> simp [absF32, netlist, SyncFifo.step, SyncFifo.writable, SyncFifo.reset, hl]

theorem f64_step (s : fifo64.S) (d : Nat) (we re : Bool) (din : Nat) (h : (absF64 s d).Inv 2) :
    absF64 (fifo64.step s we false re false din) (if re then s.storage.getD s.consume.toNat 0 else d) =
      (absF64 s d).step 2 we din re := by
  obtain ⟨l, c, p, st⟩ := s
  obtain ⟨_, _, h3, _, _⟩ := h
  have h3 : l ≤ 2 := h3
  have hl : l = 0 ∨ l = 1 ∨ l = 2 := by omega
  clear h3
  rcases hl with rfl | rfl | rfl <;> cases p <;> cases c <;>
    cases we <;> cases re <;> simp [absF64, netlist, SyncFifo.step, SyncFifo.writable, SyncFifo.readable, slc]

theorem f64_rst (s : fifo64.S) (d : Nat) (we re : Bool) (din : Nat) :
    absF64 (fifo64.step s we false re true din) d =
      .reset ((absF64 s d).step 2 we din re).storage d := by
  obtain ⟨l, c, p, st⟩ := s
  by_cases hl : l = 2 <;> cases we <;> simp [absF64, netlist, SyncFifo.step, SyncFifo.writable, SyncFifo.reset, hl]

theorem f8_step (s : fifo_8.S) (d : Nat) (we re : Bool) (din : Nat) (h : (absF8 s d).Inv 32) :
    absF8 (fifo_8.step s we false re false din) (if re then s.storage.getD s.consume 0 else d) =
      (absF8 s d).step 32 we din re := by
  obtain ⟨l, c, p, st⟩ := s
  obtain ⟨_, _, h3, h4, h5⟩ := h
  have h3 : l ≤ 32 := h3
  have h4 : c < 32 := h4
  have hp : p < 32 := by
    have h5 : p = (c + l) % 32 := h5
    omega
  clear h5
  have e1 : slc ((p + 1) % 64) 0 5 = if p = 31 then 0 else p + 1 := by simp only [slc]; split <;> omega
  have e2 : slc ((c + 1) % 64) 0 5 = if c = 31 then 0 else c + 1 := by simp only [slc]; split <;> omega
  have e3 : l ≠ 32 → slc ((l + 1) % 128) 0 6 = l + 1 := by intro _; simp only [slc]; omega
  have e4 : l ≠ 0 → slc ((127 + l) % 128) 0 6 = l - 1 := by intro _; simp only [slc]; omega
  by_cases h0 : l = 0
  · subst h0
    by_cases q : p = 31 <;> simp only [q, if_true, if_false] at e1 <;> cases we <;> cases re <;>
      simp [absF8, netlist, SyncFifo.step, SyncFifo.writable, SyncFifo.readable, e1, q, show slc 1 0 6 = 1 from rfl] <;> simp_all
  · by_cases h32 : l = 32
    · subst h32
      by_cases q : c = 31 <;> simp only [q, if_true, if_false] at e2 <;> cases we <;> cases re <;>
        simp [absF8, netlist, SyncFifo.step, SyncFifo.writable, SyncFifo.readable, e2, q, show slc 31 0 6 = 31 from rfl] <;> simp_all
    · have e3 := e3 h32
      have e4 := e4 h0
      by_cases q : p = 31 <;> simp only [q, if_true, if_false] at e1 <;> by_cases q' : c = 31 <;> simp only [q', if_true, if_false] at e2 <;>
        cases we <;> cases re <;>
        simp [absF8, netlist, SyncFifo.step, SyncFifo.writable, SyncFifo.readable, h0, h32, e1, e2, e3, e4, q, q'] <;> simp_all

theorem f8_rst (s : fifo_8.S) (d : Nat) (we re : Bool) (din : Nat) :
    absF8 (fifo_8.step s we false re true din) d =
      .reset ((absF8 s d).step 32 we din re).storage d := by
  obtain ⟨l, c, p, st⟩ := s
  by_cases hl : l = 32 <;> cases we <;> simp [absF8, netlist, SyncFifo.step, SyncFifo.writable, SyncFifo.reset, hl]

theorem f9_step (s : fifo_9.S) (d : Nat) (we re : Bool) (din : Nat) (h : (absF9 s d).Inv 32) :
    absF9 (fifo_9.step s we false re false din) (if re then s.storage.getD s.consume 0 else d) =
      (absF9 s d).step 32 we din re :=
  f8_step ⟨s.level, s.consume, s.produce, s.storage⟩ d we re din h

theorem f9_rst (s : fifo_9.S) (d : Nat) (we re : Bool) (din : Nat) :
    absF9 (fifo_9.step s we false re true din) d =
      .reset ((absF9 s d).step 32 we din re).storage d :=
  f8_rst ⟨s.level, s.consume, s.produce, s.storage⟩ d we re din

/-! ### Reader, writer, address generators -/

def absRd (s : axihp_reader.S) : HpReader := ⟨s.active, s.arvalid, s.rready⟩

theorem dec15 (a : Nat) (h : a < 16) : slc ((2 ^ 5 + a - 1) % 2 ^ 5) 0 4 = (a + 15) % 16 := by
  simp only [slc]; omega

theorem inc16 (a : Nat) : slc ((a + 1) % 2 ^ 5) 0 4 = (a + 1) % 16 := by
  simp only [slc]; omega

theorem rd_step (s : axihp_reader.S) (en ae : Bool) (ad : Nat) (rv df rl : Bool) (rr rd : Nat) (ck ar : Bool) (h : s.active < 16) :
    absRd (axihp_reader.step s en ae ad rv df rl rr rd ck false ar) = (absRd s).step ⟨en, ae, ar, rv, rl, rd, df⟩ := by
  obtain ⟨a, r, v⟩ := s
  have e1 := dec15 a h
  have e2 := inc16 a
  unfold absRd HpReader.step HpReader.addrEn
  by_cases h0 : a = 0 <;> cases r <;> cases v <;> cases ar <;> cases rl <;> simp [netlist] <;> simp_all

theorem rd_rst (s : axihp_reader.S) (en ae : Bool) (ad : Nat) (rv df rl : Bool) (rr rd : Nat) (ck ar : Bool) :
    absRd (axihp_reader.step s en ae ad rv df rl rr rd ck true ar) = .init := by
  simp [absRd, netlist, HpReader.init]

def absWr (s : axihp_writer.S) : HpWriter := ⟨s.active, s.unconf, s.awvalid, s.wvalid, s.wlast, s.bready, s.counter⟩

theorem inc15 (c : Nat) (h : c < 16) : (if c = 15 then 0 else slc ((c + 1) % 2 ^ 5) 0 4) = if c = 15 then 0 else c + 1 := by
  simp only [slc]; split <;> omega

theorem wr_step (s : axihp_writer.S) (en ae : Bool) (ad : Nat) (wr de : Bool) (di : Nat) (bv : Bool) (br ws : Nat) (ck aw : Bool)
    (h : s.active < 16) (hu : s.unconf < 16) (hc : s.counter < 16) :
    absWr (axihp_writer.step s en ae ad wr de di bv br ws ck false aw) = (absWr s).step ⟨en, ae, aw, wr, bv, de⟩ := by
  obtain ⟨u, a, b, w, l, c, v⟩ := s
  have e1 := dec15 a h
  have e2 := inc16 a
  have e3 := dec15 u hu
  have e4 := inc16 u
  have e5 := inc15 c hc
  unfold absWr HpWriter.step HpWriter.addrEn HpWriter.dataEn HpWriter.respEn
  rw [HpWriter.mk.injEq]
  refine ⟨?_, ?_, ?_, ?_, ?_, ?_, ?_⟩
  · cases l <;> cases v <;> cases aw <;> simp [netlist] <;> simp_all
  · cases b <;> cases bv <;> cases v <;> cases aw <;> simp [netlist] <;> simp_all
  · cases v <;> cases aw <;> simp [netlist]
  · by_cases h0 : a = 0 <;> cases w <;> cases l <;> simp [netlist, h0]
  · by_cases h2 : c = 15 <;> cases w <;> cases wr <;> simp [netlist, h2]
  · by_cases h1 : u = 0 <;> cases b <;> simp [netlist, h1]
  · by_cases h2 : c = 15 <;> cases w <;> cases wr <;> simp [netlist, h2] <;> simp_all

theorem wr_rst (s : axihp_writer.S) (en ae : Bool) (ad : Nat) (wr de : Bool) (di : Nat) (bv : Bool) (br ws : Nat) (ck aw : Bool) :
    absWr (axihp_writer.step s en ae ad wr de di bv br ws ck true aw) = .init := by
  simp [absWr, netlist, HpWriter.init]

def absAgr (s : address_gen_read.S) : AddrGen := ⟨s.address_o, s.address_valid, s.fsm_state⟩
def absAgw (s : address_gen_write.S) : AddrGen := ⟨s.address_o, s.address_valid, s.fsm_state⟩

theorem agr_step (s : address_gen_read.S) (l : Bool) (st : Nat) (h : st < 2 ^ 32) :
    absAgr (address_gen_read.step s l false st) = (absAgr s).step 0x80 ⟨st, l⟩ := by
  obtain ⟨f, v, a⟩ := s
  have e : slc ((a + 128) % 2 ^ 33) 0 32 = (a + 128) % 2 ^ 32 := by simp only [slc]; omega
  unfold absAgr AddrGen.step
  cases f <;> cases l <;> simp [netlist] <;> first | exact e | omega

theorem agr_rst (s : address_gen_read.S) (l : Bool) (st : Nat) : absAgr (address_gen_read.step s l true st) = .init := by
  simp [absAgr, netlist, AddrGen.init]

theorem agw_step (s : address_gen_write.S) (l : Bool) (st : Nat) (h : st < 2 ^ 32) :
    absAgw (address_gen_write.step s l false st) = (absAgw s).step 0x80 ⟨st, l⟩ :=
  agr_step ⟨s.fsm_state, s.address_valid, s.address_o⟩ l st h

theorem agw_rst (s : address_gen_write.S) (l : Bool) (st : Nat) : absAgw (address_gen_write.step s l true st) = .init := by
  simp [absAgw, netlist, AddrGen.init]

/-! ### Packer -/

def packFsm64 : Nat → PackFsm × Bool
  | 0 => (.idle, false) | 1 => (.fill1, false) | 2 => (.fill2, false) | 3 => (.fill3, false) | 4 => (.fill4, false)
  | 5 => (.fill1, true) | 6 => (.idle, true) | 7 => (.fill2, true) | 8 => (.fill3, true) | _ => (.fill4, true)

def absPack64 (s : b16_b64.S) : Pack64 :=
  { buffer1 := s.buffer1, valid1 := s.buffer1_valid, buffer2 := s.buffer2, valid2 := s.buffer2_valid, chs := s.buff_chs,
    regEnd := s.reg_end, counter := s.counter, endOut := s.end_out, data := s.data_out, valid := s.valid_out, oBusy := s.o_busy,
    fsm := (packFsm64 s.fsm_state).1, second := (packFsm64 s.fsm_state).2 }

theorem put_setSlice (x l w v : Nat) : put x l w v = setSlice x l (l + w) v := by
  unfold put setSlice
  rw [Nat.add_sub_cancel_left, Nat.mul_comm (x / 2 ^ (l + w)), Nat.mul_comm (v % 2 ^ w)]
  omega

theorem inc8 (c : Nat) : slc ((c + 1) % 2 ^ 4) 0 3 = (c + 1) % 8 := by
  simp only [slc]; omega

set_option maxHeartbeats 8000000 in
theorem pack64_step (s : b16_b64.S) (e b : Bool) (d : Nat) (v : Bool) (h : s.fsm_state < 10) :
    absPack64 (b16_b64.step s e b d false v) = (absPack64 s).step d v e b ∧
    (b16_b64.step s e b d false v).fsm_state < 10 := by
  obtain ⟨b2, b1, st, ob, v2, v1, ch, vo, da, eo, ct, re⟩ := s
  have h : st < 10 := h
  have e8 := inc8 ct
  simp only [show (2 : Nat) ^ 4 = 16 from rfl] at e8
  have h10 : st = 0 ∨ st = 1 ∨ st = 2 ∨ st = 3 ∨ st = 4 ∨ st = 5 ∨ st = 6 ∨ st = 7 ∨ st = 8 ∨ st = 9 := by omega
  clear h
  rcases h10 with rfl | rfl | rfl | rfl | rfl | rfl | rfl | rfl | rfl | rfl <;> cases v <;> cases b <;> cases v1 <;> cases v2 <;>
    cases ch <;> cases vo <;> cases re <;>
    simp [absPack64, packFsm64, Pack64.step, Pack64.stepFsm1, Pack64.stepFsm2, Pack64.stepOut, Pack64.stepEnd, netlist, put_setSlice, e8]

theorem pack64_rst (s : b16_b64.S) (e b : Bool) (d : Nat) (v : Bool) :
    absPack64 (b16_b64.step s e b d true v) = .init := by
  simp [absPack64, packFsm64, netlist, Pack64.init]

end Netlist.BetaFull
