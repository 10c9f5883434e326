/- Model of migen_src/encode.py. -/

set_option autoImplicit false

namespace Model

/-- `get_ssss` (encode.py:44-51): code value and code length of each class. -/
def getSsss : List (Nat × Nat) :=
  [(0b1110, 4), (0b000, 3), (0b001, 3), (0b010, 3), (0b011, 3), (0b100, 3), (0b101, 3),
   (0b110, 3), (0b11110, 5), (0b111110, 6), (0b1111110, 7), (0b11111110, 8), (0b111111110, 9),
   (0b1111111110, 10), (0b11111111110, 11), (0b111111111110, 12), (0b1111111111110, 13)]

/-- One entry of the table memory (encode.py:68-71). -/
def huffEntry (bd ind : Nat) (sx : Nat × Nat) : Nat :=
  if ind = 16 then (sx.2 <<< (16 + bd)) ||| sx.1 else (sx.2 <<< (16 + bd)) ||| (sx.1 <<< ind)

/-- `init_huff_table` (encode.py:62-72). -/
def initHuffTable (bd : Nat) : List Nat :=
  ((getSsss.take (bd + 1)).zipIdx).map fun e => huffEntry bd e.2 e.1

/-- `enc_out` width (encode.py:97, 182). -/
def singleCtr (bd : Nat) : Nat := min (16 + bd) 31

/-- Registers of `Encode`: per pixel `ssss_late`, `val_in_late`, the registered memory
read port output `rp_data`, `enc_out`, `enc_ctr`; and the valid/end delay lines, which
are identical in all `SingleEncoder`s (encode.py:114-160, 233-248). -/
structure Encode where
  ssssLate : List Nat
  valLate : List Nat
  rpData : List Nat
  validLate : Bool
  endLate : Bool
  encOut : List Nat
  encCtr : List Nat
  valid : Bool
  endd : Bool
deriving DecidableEq, Repr

namespace Encode

/-- Reset values.  The memory read port register is not reset in hardware: `rp` is what it
holds. -/
def reset (ps : Nat) (rp : List Nat) : Encode :=
  { ssssLate := List.replicate ps 0, valLate := List.replicate ps 0, rpData := rp
    validLate := false, endLate := false
    encOut := List.replicate ps 0, encCtr := List.replicate ps 0, valid := false, endd := false }

/-- Power-up values. -/
def init (ps : Nat) : Encode := reset ps (List.replicate ps 0)

/-- New `enc_out` (encode.py:141-158). -/
def encVal (bd ssss val rp : Nat) : Nat :=
  if bd = 16 ∧ ssss = 16 then rp % 2 ^ singleCtr bd else (rp ||| val) % 2 ^ singleCtr bd

/-- New `enc_ctr`, 5 bits (encode.py:141-158). -/
def encLen (bd ssss rp : Nat) : Nat :=
  if bd = 16 ∧ ssss = 16 then (rp >>> (16 + bd)) % 2 ^ 5
  else ((rp >>> (16 + bd)) % 2 ^ 5 + ssss % 2 ^ 4) % 2 ^ 5

/-- One clock edge (encode.py:114-160, 233-248).  `mem` is the content of the table
memory; reading outside it does not happen (`ssss <= bd`) and gives 0 here. -/
def step (bd : Nat) (mem : List Nat) (s : Encode) (vals ssss : List Nat) (valid endd : Bool) :
    Encode :=
  { ssssLate := ssss
    valLate := vals
    rpData := ssss.map fun a => mem.getD a 0
    validLate := valid
    endLate := endd
    encOut := if s.validLate then
        List.zipWith (fun sv rp => encVal bd sv.1 sv.2 rp) (List.zip s.ssssLate s.valLate) s.rpData
      else s.encOut
    encCtr := if s.validLate then
        List.zipWith (fun sv rp => encLen bd sv rp) s.ssssLate s.rpData
      else s.encCtr
    valid := s.validLate
    endd := s.endLate }

end Encode
end Model
