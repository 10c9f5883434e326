/- Model of migen_src/b64_b32_2.py: 64-bit words from a FIFO (or AXI stream) to pairs of 24-bit values. -/
import Verif.Model.Fix0xFF

set_option autoImplicit false

namespace Model

/-- Registers of `B64B32_2` (b64_b32_2.py:42-48, 62-65). -/
structure Unpack2 where
  data : Nat
  valid : Bool
  oBusy : Bool
  reg : Nat
  regValid : Bool
  half : Bool
deriving DecidableEq, Repr

namespace Unpack2

/-- Reset values; `o_busy` resets to 1 (b64_b32_2.py:48). -/
def init : Unpack2 := { data := 0, valid := false, oBusy := true, reg := 0, regValid := false, half := false }

/-- `reg_tobe_invalid` (b64_b32_2.py:72, 100-111). -/
def tobeInvalid (s : Unpack2) (iBusy : Bool) : Bool := s.regValid && !iBusy && s.valid && s.half

/-- The condition to register the input (b64_b32_2.py:80). -/
def take (s : Unpack2) (validIn iBusy : Bool) : Bool := validIn && (!s.regValid || s.tobeInvalid iBusy)

/-- One clock edge (b64_b32_2.py:69-128), in the order of the assignments. -/
def step (s : Unpack2) (din : Nat) (validIn iBusy : Bool) : Unpack2 :=
  let r := { s with oBusy := !s.take validIn iBusy }
  let r := if s.take validIn iBusy then { r with reg := din, regValid := true } else r
  let r := if s.regValid && !s.valid && !s.half then
      { r with data := slice s.reg 40 64, valid := true, half := true } else r
  let r := if s.regValid && !iBusy && s.valid then
      if s.half then
        let r := { r with data := slice s.reg 16 40, valid := true, half := false }
        if !validIn then { r with regValid := false } else r
      else { r with data := slice s.reg 40 64, valid := true, half := true }
    else r
  if !s.regValid && !iBusy && s.valid then { r with valid := false } else r

end Unpack2
end Model
