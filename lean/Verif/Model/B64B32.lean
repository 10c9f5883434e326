/- Model of migen_src/b64_b32.py: 64-bit words to pairs of 32-bit words through two FIFOs. -/
import Verif.Model.Fifo
import Verif.Model.Fix0xFF

set_option autoImplicit false

namespace Model

/-- `dout` of a first-word-fall-through `SyncFIFO`: the memory at `consume`, combinational
(verilog_src/b64_b32.v, modules `fifo32`, `fifo64`: `assign rdport_storage_r_data = storage[..]`).
Such a FIFO has no read register; the field `dout` of `SyncFifo` is then not used. -/
def SyncFifo.front (s : SyncFifo) : Nat := s.storage.getD s.consume 0

/-- States of the first FSM (b64_b32.py:71-103). -/
inductive FillFsm | idle | fill | handleReg
deriving DecidableEq, Repr

/-- Registers of `B64B32` (b64_b32.py:44, 56-68, 105-108): `we64`, `din64`, `re64`, `we32`, `din32` are
the FIFO ports driven by `m.d.sync`; `part2` is the state of the second FSM. -/
structure Unpack where
  f64 : SyncFifo
  f32 : SyncFifo
  we64 : Bool
  din64 : Nat
  re64 : Bool
  we32 : Bool
  din32 : Nat
  oBusy : Bool
  reg : Nat
  fsm : FillFsm
  buff : Nat
  part2 : Bool
deriving DecidableEq, Repr

namespace Unpack

/-- Reset values. -/
def init : Unpack :=
  { f64 := .init 2, f32 := .init 4, we64 := false, din64 := 0, re64 := false, we32 := false, din32 := 0,
    oBusy := false, reg := 0, fsm := .idle, buff := 0, part2 := false }

/-- `valid_out` (b64_b32.py:129). -/
def valid (s : Unpack) : Bool := s.f32.readable

/-- `data_out` (b64_b32.py:130). -/
def data (s : Unpack) : Nat := s.f32.front

/-- First FSM (b64_b32.py:71-103). -/
def stepIn (s : Unpack) (din : Nat) (validIn : Bool) : Unpack :=
  match s.fsm with
  | .idle => { s with we64 := false, oBusy := false, fsm := .fill }
  | .fill =>
    if validIn then
      if s.f64.writable 2 then { s with din64 := din, we64 := true, oBusy := true, fsm := .idle }
      else { s with reg := din, oBusy := true, fsm := .handleReg }
    else s
  | .handleReg =>
    if s.f64.writable 2 then { s with din64 := s.reg, we64 := true, fsm := .idle } else s

/-- Second FSM (b64_b32.py:108-126); it assigns registers the first does not. -/
def stepOut (s r : Unpack) : Unpack :=
  if !s.part2 then
    if s.f32.writable 4 && s.f64.readable then
      { r with din32 := slice s.f64.front 32 64, buff := slice s.f64.front 0 32, we32 := true, re64 := true,
               part2 := true }
    else if s.f32.writable 4 then { r with we32 := false }
    else r
  else
    let r := { r with re64 := false }
    if s.f32.writable 4 then { r with din32 := s.buff, part2 := false } else r

/-- One clock edge (b64_b32.py:62-132). -/
def step (s : Unpack) (din : Nat) (validIn iBusy : Bool) : Unpack :=
  { stepOut s (s.stepIn din validIn) with
    f64 := s.f64.step 2 s.we64 s.din64 s.re64
    f32 := s.f32.step 4 s.we32 s.din32 (!iBusy) }

end Unpack
end Model
