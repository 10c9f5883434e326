/- Model of migen_src/b16_b40.py: five 16-bit words into two 40-bit words, double buffered. -/
import Verif.Model.B16B64

set_option autoImplicit false

namespace Model

/-- FSM states (b16_b40.py:94-158). -/
inductive Pack40Fsm | idle1 | fill11 | fill12 | fill13 | idle2 | fill21 | fill22
deriving DecidableEq, Repr

/-- Registers of `B16B40` (b16_b40.py:38-45, 58-73, 94). -/
structure Pack40 where
  buffer1 : Nat
  valid1 : Bool
  buffer2 : Nat
  valid2 : Bool
  chs : Bool
  /-- one bit wide (b16_b40.py:73) -/
  temp8 : Nat
  valid : Bool
  oBusy : Bool
  fsm : Pack40Fsm
deriving DecidableEq, Repr

namespace Pack40

/-- Reset values. -/
def init : Pack40 :=
  { buffer1 := 0, valid1 := false, buffer2 := 0, valid2 := false, chs := false, temp8 := 0, valid := false,
    oBusy := false, fsm := .idle1 }

/-- `data_out`, combinational (b16_b40.py:76-79). -/
def data (s : Pack40) : Nat := if s.chs then s.buffer2 else s.buffer1

/-- Output handling (b16_b40.py:69-70, 82-91). -/
def stepOut (s : Pack40) (iBusy : Bool) : Pack40 :=
  let isValid := !(s.valid && !iBusy)
  let r := { s with valid := (s.valid1 || s.valid2) && isValid }
  if s.valid && !iBusy then
    if s.chs then { r with chs := false, valid2 := false } else { r with chs := true, valid1 := false }
  else r

/-- The FSM (b16_b40.py:94-158) on top of the updates `r`. -/
def stepFsm (s r : Pack40) (din : Nat) (validIn : Bool) : Pack40 :=
  match s.fsm with
  | .idle1 => if !s.valid1 then { r with oBusy := false, fsm := .fill11 } else r
  | .fill11 => if validIn then { r with buffer1 := setSlice s.buffer1 24 40 din, fsm := .fill12 } else r
  | .fill12 => if validIn then { r with buffer1 := setSlice s.buffer1 8 24 din, fsm := .fill13 } else r
  | .fill13 =>
    if validIn then
      let r := { r with buffer1 := setSlice s.buffer1 0 8 (din / 2 ^ 8), valid1 := true }
      if !s.valid2 then { r with buffer2 := setSlice s.buffer2 32 40 din, fsm := .fill21 }
      else { r with temp8 := din % 2, oBusy := true, fsm := .idle2 }
    else r
  | .idle2 =>
    if !s.valid2 then { r with buffer2 := setSlice s.buffer2 32 40 s.temp8, oBusy := false, fsm := .fill21 } else r
  | .fill21 => if validIn then { r with buffer2 := setSlice s.buffer2 16 32 din, fsm := .fill22 } else r
  | .fill22 =>
    if validIn then
      let r := { r with buffer2 := setSlice s.buffer2 0 16 din, valid2 := true }
      if !s.valid1 then { r with fsm := .fill11 } else { r with oBusy := true, fsm := .idle1 }
    else r

/-- One clock edge (b16_b40.py:69-158). `rst` is the core's auto reset: it resets the `sync` domain, in which
only the FSM state lives (`m.FSM()`, b16_b40.py:94); every other register is in the `full` domain. -/
def step (s : Pack40) (din : Nat) (validIn iBusy rst : Bool) : Pack40 :=
  let r := s.stepFsm (s.stepOut iBusy) din validIn
  if rst then { r with fsm := .idle1 } else r

end Pack40
end Model
