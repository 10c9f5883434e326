/- Model of migen_src/fix_0xff.py: first stage of the FF stuffing. -/

set_option autoImplicit false

namespace Model

/-- A packet of `ctr` bytes in the low bytes of `data`, with an end flag
(`data_out`, `data_out_ctr`, `end_out`). -/
structure Packet where
  data : Nat
  ctr : Nat
  endd : Bool
deriving DecidableEq, Repr

/-- Bits `lo..hi-1` of `n` (`n[lo:hi]`). -/
def slice (n lo hi : Nat) : Nat := n / 2 ^ lo % 2 ^ (hi - lo)

/-- `logic` (fix_0xff.py:39-62): the data and count for a 16-bit word.  `zeros` and `ones` are
registers that always hold 0x00 and 0xFF (lines 92-95). -/
def fixLogic (n : Nat) : Nat × Nat :=
  if slice n 0 16 = 0xFFFF then (0 + 2 ^ 8 * 0xFF + 2 ^ 16 * 0 + 2 ^ 24 * 0xFF, 4)
  else if slice n 0 8 = 0xFF then (0 + 2 ^ 8 * 0xFF + 2 ^ 16 * slice n 8 16, 3)
  else if slice n 8 16 = 0xFF then (slice n 0 8 + 2 ^ 8 * 0 + 2 ^ 16 * 0xFF, 3)
  else (n, 2)

/-- Registers of `Fix0xFF` (fix_0xff.py:66-82, 97-100). -/
structure Fix1 where
  data : Nat
  ctr : Nat
  valid : Bool
  endd : Bool
  oBusy : Bool
  regData : Nat
  regCtr : Nat
  regEnd : Bool
  regValid : Bool
deriving DecidableEq, Repr

namespace Fix1

/-- Reset values. -/
def init : Fix1 :=
  { data := 0, ctr := 0, valid := false, endd := false, oBusy := false,
    regData := 0, regCtr := 0, regEnd := false, regValid := false }

/-- The if/elif chain (fix_0xff.py:106-139): what happens to the outputs. -/
def main (s : Fix1) (din : Nat) (validIn endIn iBusy : Bool) : Fix1 :=
  if !iBusy then
    let s1 :=
      if !s.regValid then
        { s with valid := validIn, endd := endIn, data := (fixLogic din).1, ctr := (fixLogic din).2 }
      else { s with valid := true, data := s.regData, endd := s.regEnd, ctr := s.regCtr }
    { s1 with oBusy := false, regValid := false }
  else if !s.valid then
    { s with valid := validIn, endd := endIn, oBusy := false, regValid := false,
             data := (fixLogic din).1, ctr := (fixLogic din).2 }
  else if validIn && !s.oBusy then
    { s with regValid := validIn && s.valid, oBusy := validIn && s.valid }
  else s

/-- One clock edge (fix_0xff.py:106-143). -/
def step (s : Fix1) (din : Nat) (validIn endIn iBusy : Bool) : Fix1 :=
  let s1 := s.main din validIn endIn iBusy
  if !s.oBusy then { s1 with regData := (fixLogic din).1, regCtr := (fixLogic din).2, regEnd := endIn }
  else s1

/-- The packet on the outputs. -/
def out (s : Fix1) : Packet := ⟨s.data, s.ctr, s.endd⟩

end Fix1
end Model
