/- The stand-alone netlists verilog_src/axihp_reader.v, axihp_writer.v and axihp_fifo.v against their models. -/
import Verif.Netlist.Alone.AxihpFifo
import Verif.Netlist.Alone.AxihpReader
import Verif.Netlist.Alone.AxihpWriter
import Verif.Model.AxiHp
import Verif.Proof.Fifo

set_option autoImplicit false

namespace Netlist
open Model

/-- axihp_fifo.v has no read register; the model's field `dout` is carried along as `d`. -/
def absHpFifo (s : HpFifoV.top.S) (d : Nat) : SyncFifo :=
  ⟨s.u_fifo.storage, s.u_fifo.produce, s.u_fifo.consume, s.u_fifo.level, d⟩

theorem hpFifo_step (s : HpFifoV.top.S) (d : Nat) (we re en : Bool) (din : Nat) (hd : din < 2 ^ 64) (h : (absHpFifo s d).Inv 32) :
    absHpFifo (HpFifoV.top.step s en din re false false we) (if re then s.u_fifo.storage.getD s.u_fifo.consume 0 else d) =
      HpFifo.step (absHpFifo s d) we din en re := by
  obtain ⟨⟨l, c, p, st⟩⟩ := s
  obtain ⟨_, _, h3, h4, h5⟩ := h
  have h3 : l ≤ 32 := h3
  have h4 : c < 32 := h4
  have hp : p < 32 := by
    have h5 : p = (c + l) % 32 := h5
    omega
  clear h5
  have e0 : HpFifo.word din en = din * 2 + en.toNat := by
    unfold HpFifo.word; rw [Nat.mod_eq_of_lt hd]; omega
  unfold HpFifo.step
  rw [e0]
  have e1 : slc ((p + 1) % 64) 0 5 = if p = 31 then 0 else p + 1 := by simp only [slc]; split <;> omega
  have e2 : slc ((c + 1) % 64) 0 5 = if c = 31 then 0 else c + 1 := by simp only [slc]; split <;> omega
  have e3 : l ≠ 32 → slc ((l + 1) % 128) 0 6 = l + 1 := by intro _; simp only [slc]; omega
  have e4 : l ≠ 0 → slc ((127 + l) % 128) 0 6 = l - 1 := by intro _; simp only [slc]; omega
  by_cases h0 : l = 0
  · subst h0
    by_cases q : p = 31 <;> simp only [q, if_true, if_false] at e1 <;> cases we <;> cases re <;>
      simp [absHpFifo, netlist, SyncFifo.step, SyncFifo.writable, SyncFifo.readable, e1, q, show slc 1 0 6 = 1 from rfl] <;> simp_all
  · by_cases h32 : l = 32
    · subst h32
      by_cases q : c = 31 <;> simp only [q, if_true, if_false] at e2 <;> cases we <;> cases re <;>
        simp [absHpFifo, netlist, SyncFifo.step, SyncFifo.writable, SyncFifo.readable, e2, q, show slc 31 0 6 = 31 from rfl] <;> simp_all
    · have e3 := e3 h32
      have e4 := e4 h0
      by_cases q : p = 31 <;> simp only [q, if_true, if_false] at e1 <;> by_cases q' : c = 31 <;> simp only [q', if_true, if_false] at e2 <;>
        cases we <;> cases re <;>
        simp [absHpFifo, netlist, SyncFifo.step, SyncFifo.writable, SyncFifo.readable, h0, h32, e1, e2, e3, e4, q, q'] <;> simp_all

theorem hpFifo_writable (s : HpFifoV.top.S) (d : Nat) : HpFifoV.top.writable s = (absHpFifo s d).writable 32 := rfl

theorem hpFifo_readable (s : HpFifoV.top.S) (d : Nat) : HpFifoV.top.readable s = (absHpFifo s d).readable := rfl

theorem hpFifo_writable16 (s : HpFifoV.top.S) (d : Nat) : HpFifoV.top.writable16 s = HpFifo.writable16 (absHpFifo s d) := rfl

theorem hpFifo_readable16 (s : HpFifoV.top.S) (d : Nat) : HpFifoV.top.readable16 s = HpFifo.readable16 (absHpFifo s d) := rfl

theorem hpFifo_data (s : HpFifoV.top.S) (d : Nat) : HpFifoV.top.data_out s = HpFifo.data (absHpFifo s d) := rfl

def absHpReader (s : HpReaderV.top.S) : HpReader := ⟨s.active, s.arvalid, s.rready⟩

theorem dec5 (a : Nat) (h : a < 16) : slc ((2 ^ 5 + a - 1) % 2 ^ 5) 0 4 = (a + 15) % 16 := by
  simp only [slc]; omega

theorem inc5 (a : Nat) : slc ((a + 1) % 2 ^ 5) 0 4 = (a + 1) % 16 := by
  simp only [slc]; omega

theorem hpReader_step (s : HpReaderV.top.S) (en ae : Bool) (ad : Nat) (rv df rl : Bool) (rr rd : Nat) (ck ar : Bool) (h : s.active < 16) :
    absHpReader (HpReaderV.top.step s en ae ad rv df rl rr rd ck false ar) = (absHpReader s).step ⟨en, ae, ar, rv, rl, rd, df⟩ := by
  obtain ⟨a, r, v⟩ := s
  have e1 := dec5 a h
  have e2 := inc5 a
  unfold absHpReader HpReader.step HpReader.addrEn
  by_cases h0 : a = 0 <;> cases r <;> cases v <;> cases ar <;> cases rl <;> simp [netlist] <;> simp_all

def absHpWriter (s : HpWriterV.top.S) : HpWriter := ⟨s.active, s.unconf, s.awvalid, s.wvalid, s.wlast, s.bready, s.counter⟩

theorem inc5' (c : Nat) (h : c < 16) : (if c = 15 then 0 else slc ((c + 1) % 2 ^ 5) 0 4) = if c = 15 then 0 else c + 1 := by
  simp only [slc]; split <;> omega

theorem hpWriter_step (s : HpWriterV.top.S) (en ae : Bool) (ad : Nat) (wr de : Bool) (di : Nat) (bv : Bool) (br ws : Nat) (ck aw : Bool)
    (h : s.active < 16) (hu : s.unconf < 16) (hc : s.counter < 16) :
    absHpWriter (HpWriterV.top.step s en ae ad wr de di bv br ws ck false aw) = (absHpWriter s).step ⟨en, ae, aw, wr, bv, de⟩ := by
  obtain ⟨u, a, b, w, l, c, v⟩ := s
  have e1 := dec5 a h
  have e2 := inc5 a
  have e3 := dec5 u hu
  have e4 := inc5 u
  have e5 := inc5' c hc
  unfold absHpWriter HpWriter.step HpWriter.addrEn HpWriter.dataEn HpWriter.respEn
  rw [HpWriter.mk.injEq]
  refine ⟨?_, ?_, ?_, ?_, ?_, ?_, ?_⟩
  · cases l <;> cases v <;> cases aw <;> simp [netlist] <;> simp_all
  · cases b <;> cases bv <;> cases v <;> cases aw <;> simp [netlist] <;> simp_all
  · cases v <;> cases aw <;> simp [netlist]
  · by_cases h0 : a = 0 <;> cases w <;> cases l <;> simp [netlist, h0]
  · by_cases h2 : c = 15 <;> cases w <;> cases wr <;> simp [netlist, h2]
  · by_cases h1 : u = 0 <;> cases b <;> simp [netlist, h1]
  · by_cases h2 : c = 15 <;> cases w <;> cases wr <;> simp [netlist, h2] <;> simp_all

theorem hpReader_dataEn (s : HpReaderV.top.S) (rv : Bool) : HpReaderV.top.data_enable s rv = (absHpReader s).dataEn rv := by
  simp [netlist, absHpReader, HpReader.dataEn]

theorem hpWriter_dataEn (s : HpWriterV.top.S) (wr : Bool) : HpWriterV.top.data_enable s wr = (absHpWriter s).dataEn wr := by
  simp [netlist, absHpWriter, HpWriter.dataEn]

end Netlist
