/- The stand-alone netlists of the converter and of the two FIFOs (16-bit pixels, two per cycle) against the model of
migen_src. -/
import Verif.Netlist.Alone.Converter
import Verif.Netlist.Alone.ConverterFifo
import Verif.Netlist.Alone.PipelineFifo
import Verif.Netlist.Alone.RegisterFile
import Verif.Netlist.Int2

set_option autoImplicit false

/-! ### converter.v -/

namespace Netlist.ConvV
open Netlist Model Netlist.Beta

/-- The registers of the netlist as registers of the model. -/
def abs (s : top.S) : Converter :=
  { fsm := convFsm s.fsm_state, latch := s.latch_output
    reg := { enc := s.enc_out_reg, ctr := s.enc_out_ctr_reg, endd := s.out_end_reg }, validReg := s.valid_out_reg
    encLatch := s.enc_out_latch, endLatch := s.out_end_latch
    out := { enc := s.enc_in, ctr := s.enc_in_ctr, endd := s.in_end }, valid := s.valid_in }

/-- Register ranges. -/
def Wf (s : top.S) : Prop := s.fsm_state ≤ 3 ∧ s.enc_out_latch < 2 ^ 36 ∧ s.enc_out_ctr_reg < 2 ^ 6

theorem rst (s : top.S) (v : Bool) (x c : Nat) (e f : Bool) : abs (top.step s v x c e true f) = Converter.init := by
  simp [netlist, abs, Converter.init, convFsm, Code.zero]

theorem wf (s : top.S) (v : Bool) (x c : Nat) (e r f : Bool) (h : Wf s) (hc : c < 2 ^ 6) :
    Wf (top.step s v x c e r f) := by
  obtain ⟨h1, h2, h3⟩ := h
  cases r
  · refine ⟨?_, ?_, ?_⟩ <;> simp only [netlist, slc, Bool.false_eq_true, if_false] <;>
      (repeat' first | apply ite_le | apply ite_lt) <;> omega
  · simp [Wf, netlist]

theorem pick_62 (n : Nat) : Converter.pick 62 36 n = if n ≤ 62 then some 0 else none := by
  have h : List.range (Converter.steps 62 36) = [0] := by decide
  have h' : Converter.sliceEnd 62 36 0 = 62 := by decide
  simp only [Converter.pick, h, List.find?_cons, h', List.find?_nil]
  by_cases hn : n ≤ 62 <;> simp [hn]

theorem step (s : top.S) (v : Bool) (x c : Nat) (e f : Bool) (h : Wf s) :
    abs (top.step s v x c e false f) = (abs s).step 62 36 ⟨x, c, e⟩ v f := by
  obtain ⟨h1, h2, h5⟩ := h
  obtain ⟨oel, st, lo, vi, enl, ine, eic, ei, vor, oer, ocr, oreg⟩ := s
  dsimp only at h1 h2 h5
  have hst : st = 0 ∨ st = 1 ∨ st = 2 ∨ st = 3 := by omega
  have hs : Converter.steps 62 36 * 36 = 36 := by decide
  have hse : Converter.sliceEnd 62 36 0 = 62 := by decide
  have hb : bitsFor 36 = 6 := by decide
  have e1 : enl % 2 ^ 36 = enl := Nat.mod_eq_of_lt h2
  rcases hst with rfl | rfl | rfl | rfl
  · cases vor <;> cases v <;> cases f <;> simp [netlist, abs, Converter.step, convFsm, Converter.tryBurst]
  · simp only [abs, Converter.step, convFsm, pick_62, Converter.regData, hs, hse, hb]
    cases vor
    · cases f <;> simp [netlist, convFsm]
    · by_cases a : ocr ≤ 36
      · have e2 : ocr % 2 ^ 6 = ocr := by omega
        cases f <;> simp [netlist, convFsm, a, slc_zero, e2]
      · by_cases b : ocr ≤ 62
        · have e3 : (2 ^ 7 + ocr - 36) % 2 ^ 7 % 2 ^ 6 = (ocr - 36) % 2 ^ 6 := by omega
          cases f <;> simp [netlist, convFsm, a, b, slc_zero, slc_testBit, e3, hse]
        · cases f <;> simp [netlist, convFsm, a, b, slc_zero]
  · cases vor <;> cases v <;> cases f <;> simp [netlist, abs, Converter.step, convFsm, Converter.regData]
  · cases vor <;> cases v <;> cases f <;> simp [netlist, abs, Converter.step, convFsm, Converter.tryBurst, e1]

theorem init (s : top.S) (h : top.Init s) : Wf s ∧ abs s = Converter.init := by
  obtain ⟨c1, c2, c3, c4, c5, c6, c7, c8, c9, c10, c11, c12⟩ := h
  constructor
  · simp [Wf, c2, c5, c11]
  · simp [abs, Converter.init, Code.zero, convFsm, c1, c2, c3, c4, c5, c6, c7, c8, c9, c10, c11, c12]

end Netlist.ConvV

/-! ### lj92_pipeline_fifo.v -/

namespace Netlist.PipeFifoV
open Netlist Model Netlist.Beta

/-- The registers of the netlist as registers of the model. -/
def absSync (s : unbuffered.S) : SyncFifo :=
  { storage := s.storage, produce := s.produce, consume := s.consume, level := s.level, dout := s.r_0_ }

/-- Register ranges and memory size. -/
def WfSync (s : unbuffered.S) : Prop := s.level ≤ 127 ∧ s.consume < 127 ∧ s.produce < 127 ∧ s.storage.length = 127

theorem unbuffered_step (s : unbuffered.S) (we re : Bool) (d : Nat) (h : WfSync s) :
    absSync (unbuffered.step s we false re false d) = (absSync s).step 127 we d re := by
  obtain ⟨lv, cs, pr, r, st⟩ := s
  obtain ⟨h1, h2, h3, h4⟩ := h
  dsimp only at h1 h2 h3 h4
  by_cases a1 : lv = 0 <;> by_cases a2 : lv = 127 <;> by_cases a3 : cs = 126 <;> by_cases a4 : pr = 126 <;>
    cases we <;> cases re <;>
    simp [netlist, absSync, SyncFifo.step, SyncFifo.writable, SyncFifo.readable, slc_zero, a1, a2, a3, a4] <;> omega

theorem unbuffered_rst (s : unbuffered.S) (we re : Bool) (d : Nat) :
    absSync (unbuffered.step s we false re true d) =
      .reset ((absSync s).step 127 we d re).storage ((absSync s).step 127 we d re).dout := by
  simp [netlist, absSync, SyncFifo.step, SyncFifo.reset, SyncFifo.writable, Bool.and_comm]

theorem unbuffered_wf (s : unbuffered.S) (we re rst : Bool) (d : Nat) (h : WfSync s) :
    WfSync (unbuffered.step s we false re rst d) := by
  obtain ⟨lv, cs, pr, r, st⟩ := s
  obtain ⟨h1, h2, h3, h4⟩ := h
  dsimp only at h1 h2 h3 h4
  refine ⟨?_, ?_, ?_, ?_⟩
  · by_cases a1 : lv = 0 <;> by_cases a2 : lv = 127 <;> cases rst <;> cases we <;> cases re <;>
      simp [netlist, slc_zero, a1, a2] <;> omega
  · by_cases a1 : lv = 0 <;> by_cases a3 : cs = 126 <;> cases rst <;> cases re <;>
      simp [netlist, slc_zero, a1, a3] <;> omega
  · by_cases a1 : lv = 127 <;> by_cases a3 : pr = 126 <;> cases rst <;> cases we <;>
      simp [netlist, slc_zero, a1, a3] <;> omega
  · cases we <;> by_cases a1 : lv = 127 <;> simp [netlist, a1, h4]

/-- The registers of the netlist as registers of the model. -/
def abs (s : top.S) : Fifo := { inner := absSync s.u_fifo.u_unbuffered, readable := s.u_fifo.readable }

/-- Register ranges and memory size. -/
def Wf (s : top.S) : Prop := WfSync s.u_fifo.u_unbuffered

theorem step (s : top.S) (x c : Nat) (e l v : Bool) (h : Wf s) (hx : x < 2 ^ 62) (hc : c < 2 ^ 6) :
    abs (top.step s x c e l false v) = (abs s).step 128 v (Code.pack 62 ⟨x, c, e⟩) l := by
  have hb : bitsFor 62 = 6 := by decide
  have hp : e.toNat * 2 ^ 68 + c * 2 ^ 62 + x = Code.pack 62 ⟨x, c, e⟩ := by simp only [Code.pack, hb]; omega
  have a := unbuffered_step s.u_fifo.u_unbuffered v (fifo.unbuffered_re s.u_fifo l) (Code.pack 62 ⟨x, c, e⟩) h
  rw [← hp] at a ⊢
  simp only [abs, Fifo.step]
  congr 1

theorem rst (s : top.S) (x c : Nat) (e l v : Bool) :
    (abs (top.step s x c e l true v)).readable = false ∧ (abs (top.step s x c e l true v)).inner.level = 0 ∧
    (abs (top.step s x c e l true v)).inner.produce = 0 ∧ (abs (top.step s x c e l true v)).inner.consume = 0 ∧
    (top.step s x c e l true v).close_full = false := ⟨rfl, rfl, rfl, rfl, rfl⟩

theorem wf (s : top.S) (x c : Nat) (e l r v : Bool) (h : Wf s) : Wf (top.step s x c e l r v) := unbuffered_wf _ _ _ _ _ h

theorem level (s : top.S) (h : Wf s) : top.fifo_level s = (abs s).level := by
  have h1 := h.1
  simp only [netlist, Fifo.level, abs, absSync]
  have : s.u_fifo.readable.toNat ≤ 1 := by cases s.u_fifo.readable <;> decide
  omega

theorem out (s : top.S) : Code.mk (top.enc_out s) (top.enc_out_ctr s) (top.out_end s) = Code.unpack 62 (abs s).inner.dout := by
  have hb : bitsFor 62 = 6 := by decide
  simp [Code.unpack, hb, slc, netlist, abs, absSync]

theorem full_step (s : top.S) (x c : Nat) (e l v : Bool) (h : Wf s) :
    (top.step s x c e l false v).close_full = decide ((abs s).level ≥ 118) := by
  rw [← level s h]; rfl

theorem init (s : top.S) (h : top.Init s) : Wf s ∧ abs s = Fifo.reset (List.replicate 127 0) s.u_fifo.u_unbuffered.r_0_ := by
  obtain ⟨h1, h2, h3, h4, h5, h6⟩ := h
  constructor
  · simp [Wf, WfSync, h3, h4, h5, h6]
  · simp [abs, absSync, Fifo.reset, SyncFifo.reset, h2, h3, h4, h5, h6]

end Netlist.PipeFifoV

/-! ### converter_fifo.v -/

namespace Netlist.ConvFifoV
open Netlist Model Netlist.Beta

/-- The registers of the netlist as registers of the model. -/
def absSync (s : unbuffered.S) : SyncFifo :=
  { storage := s.storage, produce := s.produce, consume := s.consume, level := s.level, dout := s.r_0_ }

/-- Register ranges and memory size. -/
def WfSync (s : unbuffered.S) : Prop := s.level ≤ 127 ∧ s.consume < 127 ∧ s.produce < 127 ∧ s.storage.length = 127

theorem unbuffered_step (s : unbuffered.S) (we re : Bool) (d : Nat) (h : WfSync s) :
    absSync (unbuffered.step s we false re false d) = (absSync s).step 127 we d re := by
  obtain ⟨lv, cs, pr, r, st⟩ := s
  obtain ⟨h1, h2, h3, h4⟩ := h
  dsimp only at h1 h2 h3 h4
  by_cases a1 : lv = 0 <;> by_cases a2 : lv = 127 <;> by_cases a3 : cs = 126 <;> by_cases a4 : pr = 126 <;>
    cases we <;> cases re <;>
    simp [netlist, absSync, SyncFifo.step, SyncFifo.writable, SyncFifo.readable, slc_zero, a1, a2, a3, a4] <;> omega

theorem unbuffered_rst (s : unbuffered.S) (we re : Bool) (d : Nat) :
    absSync (unbuffered.step s we false re true d) =
      .reset ((absSync s).step 127 we d re).storage ((absSync s).step 127 we d re).dout := by
  simp [netlist, absSync, SyncFifo.step, SyncFifo.reset, SyncFifo.writable, Bool.and_comm]

theorem unbuffered_wf (s : unbuffered.S) (we re rst : Bool) (d : Nat) (h : WfSync s) :
    WfSync (unbuffered.step s we false re rst d) := by
  obtain ⟨lv, cs, pr, r, st⟩ := s
  obtain ⟨h1, h2, h3, h4⟩ := h
  dsimp only at h1 h2 h3 h4
  refine ⟨?_, ?_, ?_, ?_⟩
  · by_cases a1 : lv = 0 <;> by_cases a2 : lv = 127 <;> cases rst <;> cases we <;> cases re <;>
      simp [netlist, slc_zero, a1, a2] <;> omega
  · by_cases a1 : lv = 0 <;> by_cases a3 : cs = 126 <;> cases rst <;> cases re <;>
      simp [netlist, slc_zero, a1, a3] <;> omega
  · by_cases a1 : lv = 127 <;> by_cases a3 : pr = 126 <;> cases rst <;> cases we <;>
      simp [netlist, slc_zero, a1, a3] <;> omega
  · cases we <;> by_cases a1 : lv = 127 <;> simp [netlist, a1, h4]

/-- The registers of the netlist as registers of the model. -/
def abs (s : top.S) : Fifo := { inner := absSync s.u_fifo.u_unbuffered, readable := s.u_fifo.readable }

/-- Register ranges and memory size. -/
def Wf (s : top.S) : Prop := WfSync s.u_fifo.u_unbuffered

theorem step (s : top.S) (x c : Nat) (e l v : Bool) (h : Wf s) (hx : x < 2 ^ 36) (hc : c < 2 ^ 6) :
    abs (top.step s x c e l false v) = (abs s).step 128 v (Code.pack 36 ⟨x, c, e⟩) l := by
  have hb : bitsFor 36 = 6 := by decide
  have hp : e.toNat * 2 ^ 42 + c * 2 ^ 36 + x = Code.pack 36 ⟨x, c, e⟩ := by simp only [Code.pack, hb]; omega
  have a := unbuffered_step s.u_fifo.u_unbuffered v (fifo.unbuffered_re s.u_fifo l) (Code.pack 36 ⟨x, c, e⟩) h
  rw [← hp] at a ⊢
  simp only [abs, Fifo.step]
  congr 1

theorem rst (s : top.S) (x c : Nat) (e l v : Bool) :
    (abs (top.step s x c e l true v)).readable = false ∧ (abs (top.step s x c e l true v)).inner.level = 0 ∧
    (abs (top.step s x c e l true v)).inner.produce = 0 ∧ (abs (top.step s x c e l true v)).inner.consume = 0 ∧
    (top.step s x c e l true v).close_full = false := ⟨rfl, rfl, rfl, rfl, rfl⟩

theorem wf (s : top.S) (x c : Nat) (e l r v : Bool) (h : Wf s) : Wf (top.step s x c e l r v) := unbuffered_wf _ _ _ _ _ h

theorem level (s : top.S) (h : Wf s) : top.fifo_level s = (abs s).level := by
  have h1 := h.1
  simp only [netlist, Fifo.level, abs, absSync]
  have : s.u_fifo.readable.toNat ≤ 1 := by cases s.u_fifo.readable <;> decide
  omega

theorem out (s : top.S) : Code.mk (top.enc_out s) (top.enc_out_ctr s) (top.out_end s) = Code.unpack 36 (abs s).inner.dout := by
  have hb : bitsFor 36 = 6 := by decide
  simp [Code.unpack, hb, slc, netlist, abs, absSync]

theorem full_step (s : top.S) (x c : Nat) (e l v : Bool) (h : Wf s) :
    (top.step s x c e l false v).close_full = decide ((abs s).level ≥ 123) := by
  rw [← level s h]; rfl

theorem init (s : top.S) (h : top.Init s) : Wf s ∧ abs s = Fifo.reset (List.replicate 127 0) s.u_fifo.u_unbuffered.r_0_ := by
  obtain ⟨h1, h2, h3, h4, h5, h6⟩ := h
  constructor
  · simp [Wf, WfSync, h3, h4, h5, h6]
  · simp [abs, absSync, Fifo.reset, SyncFifo.reset, h2, h3, h4, h5, h6]

end Netlist.ConvFifoV
