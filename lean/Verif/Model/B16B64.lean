/- Model of migen_src/b16_b64.py: four 16-bit words into one 64-bit word, double buffered. -/

set_option autoImplicit false

namespace Model

/-- `b[lo:hi].eq(v)`: bits `lo..hi-1` of `b` replaced by `v`. -/
def setSlice (b lo hi v : Nat) : Nat := b % 2 ^ lo + 2 ^ lo * (v % 2 ^ (hi - lo)) + 2 ^ hi * (b / 2 ^ hi)

/-- FSM states (b16_b64.py:105-180); the buffer (1 or 2) is a separate flag. -/
inductive PackFsm | idle | fill1 | fill2 | fill3 | fill4
deriving DecidableEq, Repr

/-- Registers of `B16B64` (b16_b64.py:37-46, 59-80, 105). -/
structure Pack64 where
  buffer1 : Nat
  valid1 : Bool
  buffer2 : Nat
  valid2 : Bool
  chs : Bool
  regEnd : Bool
  counter : Nat
  endOut : Bool
  data : Nat
  valid : Bool
  oBusy : Bool
  fsm : PackFsm
  /-- the FSM is in a `BUFF2_` state -/
  second : Bool
deriving DecidableEq, Repr

namespace Pack64

/-- Reset values. -/
def init : Pack64 :=
  { buffer1 := 0, valid1 := false, buffer2 := 0, valid2 := false, chs := false, regEnd := false, counter := 0,
    endOut := false, data := 0, valid := false, oBusy := false, fsm := .idle, second := false }

/-- End signal handling (b16_b64.py:74-84). -/
def stepEnd (s : Pack64) (validIn endIn iBusy : Bool) : Pack64 :=
  { s with
    regEnd := if validIn && !s.oBusy then endIn else s.regEnd
    counter := if s.regEnd && s.valid && !iBusy then (s.counter + 1) % 8 else s.counter
    endOut := if s.regEnd && s.counter == 7 then true else s.endOut }

/-- Output handling (b16_b64.py:71, 87-102) on top of the updates `r`. -/
def stepOut (s r : Pack64) (iBusy : Bool) : Pack64 :=
  let isValid := !(s.valid && !iBusy)
  let r := { r with data := if s.chs then s.buffer2 else s.buffer1, valid := (s.valid1 || s.valid2) && isValid }
  if s.valid && !iBusy then
    if s.chs then { r with chs := false, valid2 := false } else { r with chs := true, valid1 := false }
  else r

/-- States of buffer 1 (b16_b64.py:108-142). -/
def stepFsm1 (s r : Pack64) (din : Nat) (validIn : Bool) : Pack64 :=
  match s.fsm with
  | .idle => if !s.valid1 then { r with oBusy := false, fsm := .fill1 } else r
  | .fill1 => if validIn then { r with buffer1 := setSlice s.buffer1 48 64 din, fsm := .fill2 } else r
  | .fill2 => if validIn then { r with buffer1 := setSlice s.buffer1 32 48 din, fsm := .fill3 } else r
  | .fill3 => if validIn then { r with buffer1 := setSlice s.buffer1 16 32 din, fsm := .fill4 } else r
  | .fill4 =>
    if validIn then
      let r := { r with buffer1 := setSlice s.buffer1 0 16 din, valid1 := true, second := true }
      if !s.valid2 then { r with fsm := .fill1 } else { r with oBusy := true, fsm := .idle }
    else r

/-- States of buffer 2 (b16_b64.py:146-180). -/
def stepFsm2 (s r : Pack64) (din : Nat) (validIn : Bool) : Pack64 :=
  match s.fsm with
  | .idle => if !s.valid2 then { r with oBusy := false, fsm := .fill1 } else r
  | .fill1 => if validIn then { r with buffer2 := setSlice s.buffer2 48 64 din, fsm := .fill2 } else r
  | .fill2 => if validIn then { r with buffer2 := setSlice s.buffer2 32 48 din, fsm := .fill3 } else r
  | .fill3 => if validIn then { r with buffer2 := setSlice s.buffer2 16 32 din, fsm := .fill4 } else r
  | .fill4 =>
    if validIn then
      let r := { r with buffer2 := setSlice s.buffer2 0 16 din, valid2 := true, second := false }
      if !s.valid1 then { r with fsm := .fill1 } else { r with oBusy := true, fsm := .idle }
    else r

/-- One clock edge (b16_b64.py:71-180). -/
def step (s : Pack64) (din : Nat) (validIn endIn iBusy : Bool) : Pack64 :=
  let r := s.stepOut (s.stepEnd validIn endIn iBusy) iBusy
  if s.second then s.stepFsm2 r din validIn else s.stepFsm1 r din validIn

end Pack64
end Model
