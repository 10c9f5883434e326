/- Model of migen_src/converter.py, and of the packing of code words into FIFO words. -/
import Verif.Model.Merge

set_option autoImplicit false

namespace Model

/-- A code word as it travels between the modules: bits, number of bits, end flag. -/
structure Code where
  enc : Nat
  ctr : Nat
  endd : Bool
deriving DecidableEq, Repr

namespace Code

/-- Reset value. -/
def zero : Code := { enc := 0, ctr := 0, endd := false }

/-- `Cat(enc, ctr, end)` with a `w`-bit `enc` (lj92_pipeline_fifo.py:86, converter_fifo.py:86). -/
def pack (w : Nat) (c : Code) : Nat :=
  c.enc % 2 ^ w + 2 ^ w * (c.ctr % 2 ^ bitsFor w) + 2 ^ (w + bitsFor w) * c.endd.toNat

/-- Slices of the FIFO's `dout` (lj92_pipeline_fifo.py:91-93, converter_fifo.py:92-94). -/
def unpack (w n : Nat) : Code :=
  { enc := n % 2 ^ w, ctr := n / 2 ^ w % 2 ^ bitsFor w, endd := n.testBit (w + bitsFor w) }

end Code

/-- FSM states (converter.py:136-227). -/
inductive ConvFsm | idle | burstPrepare | burst | steps (i : Nat)
deriving DecidableEq, Repr

/-- Registers of `Converter` (converter.py:58-68, 90-97).  `reg` is
`enc_out_reg`, `enc_out_ctr_reg`, `out_end_reg`; `out` is `enc_in`, `enc_in_ctr`, `in_end`. -/
structure Converter where
  fsm : ConvFsm
  latch : Bool
  reg : Code
  validReg : Bool
  encLatch : Nat
  endLatch : Bool
  out : Code
  valid : Bool
deriving DecidableEq, Repr

namespace Converter

/-- Reset values. -/
def init : Converter :=
  { fsm := .idle, latch := false, reg := .zero, validReg := false, encLatch := 0,
    endLatch := false, out := .zero, valid := false }

/-- `steps` (converter.py:84-88): the loop counts the multiples of `conv` up to `total`. -/
def steps (total conv : Nat) : Nat := total / conv

/-- Upper end of slice `i` in state BURST (converter.py:186-194). -/
def sliceEnd (total conv i : Nat) : Nat := min ((i + 2) * conv) total

/-- The `STEPS_i` a word of `ctr` bits goes to: the first branch of the
If/Elif chain that matches (converter.py:186-206). -/
def pick (total conv ctr : Nat) : Option Nat :=
  (List.range (steps total conv)).find? fun i => decide (ctr ≤ sliceEnd total conv i)

/-- `try_burst_idle` (converter.py:112-131) on top of the updates `s'` made so far;
conditions read the current registers `s`. -/
def tryBurst (s s' : Converter) (validIn closeFull : Bool) : Converter :=
  if s.validReg && !closeFull then { s' with latch := true, fsm := .burst }
  else if validIn && !closeFull then { s' with latch := true, fsm := .burstPrepare }
  else { s' with fsm := .idle }

/-- `reg_data` (converter.py:101-107). -/
def regData (s : Converter) (inp : Code) (validIn : Bool) : Converter :=
  { s with reg := inp, validReg := validIn }

/-- One clock edge (converter.py:136-227); `inp`, `validIn` come from the pipeline FIFO. -/
def step (total conv : Nat) (s : Converter) (inp : Code) (validIn closeFull : Bool) : Converter :=
  match s.fsm with
  | .idle => tryBurst s { s with valid := false, latch := false } validIn closeFull
  | .burstPrepare => { regData s inp validIn with valid := false, fsm := .burst }
  | .burst =>
    let r := regData s inp validIn
    if s.validReg then
      if s.reg.ctr ≤ conv then
        let r := { r with out := { enc := s.reg.enc % 2 ^ conv, ctr := s.reg.ctr, endd := s.reg.endd }
                          valid := true }
        if closeFull then { r with latch := false, fsm := .idle } else r
      else
        let r := { r with out := { s.out with ctr := conv, endd := false }
                          valid := true
                          latch := false
                          encLatch := s.reg.enc % 2 ^ (steps total conv * conv)
                          endLatch := s.reg.endd }
        match pick total conv s.reg.ctr with
        | some i =>
          { r with out := { enc := s.reg.enc >>> ((i + 1) * conv)
                              % 2 ^ (sliceEnd total conv i - (i + 1) * conv)
                            ctr := (s.reg.ctr - (i + 1) * conv) % 2 ^ bitsFor conv
                            endd := false }
                   fsm := .steps i }
        | none => r
    else { r with valid := false }
  | .steps i =>
    let r := { s with out := { enc := s.encLatch >>> (i * conv) % 2 ^ conv
                               ctr := conv
                               endd := if i = 0 then s.endLatch else false }
                      valid := true }
    if i = 0 then tryBurst s r validIn closeFull else { r with fsm := .steps (i - 1) }

end Converter
end Model
