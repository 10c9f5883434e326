/- The bits of entropy-coded data in memory. -/
set_option autoImplicit false

namespace Spec

/-- The place of byte `n` of the data that begin at place `ix` of memory `d`: the byte behind an FF byte is not part of the data. -/
def bytePlace (d : Nat → Nat) (ix : Nat) : Nat → Nat
  | 0 => ix
  | n + 1 => if d (bytePlace d ix n) = 0xFF then bytePlace d ix n + 2 else bytePlace d ix n + 1

/-- Bit `n` of the data, the most significant bit of a byte first. -/
def bitAt (d : Nat → Nat) (ix n : Nat) : Nat := d (bytePlace d ix (n / 8)) / 2 ^ (7 - n % 8) % 2

/-- The number in the `len` bits from bit `m` on, the most significant first. -/
def bitsAt (d : Nat → Nat) (ix m : Nat) : Nat → Nat
  | 0 => 0
  | len + 1 => 2 * bitsAt d ix m len + bitAt d ix (m + len)

/-- A reader that keeps the rest of a byte at the top of `v.1`, the number of its bits in `v.2.1` and the place of the next byte in `v.2.2`, has read `m`
bits of the data at `ix`. -/
def Stands (d : Nat → Nat) (ix m : Nat) (v : Nat × Nat × Nat) : Prop :=
  v.2.1 = (8 - m % 8) % 8 ∧ v.2.2 = bytePlace d ix ((m + 7) / 8) ∧ (m % 8 ≠ 0 → v.1 = d (bytePlace d ix (m / 8)) * 2 ^ (m % 8) % 256)

/-- The bits from bit `m` on begin with code number `j`, of length `len`, of a list of codes (length, code), and with no shorter one. -/
def FirstCode (codes : List (Nat × Nat)) (d : Nat → Nat) (ix m j len : Nat) : Prop :=
  codes[j]? = some (len, bitsAt d ix m len) ∧ ∀ e ∈ codes, e.1 < len → bitsAt d ix m e.1 ≠ e.2

/-- T.81 F.2.2.1, H.2: at bit `m` stands the code of a class and so many further bits, which mean `diff`; what follows begins at bit `m'`. The class of
code number `j` is `vals j`, for `j` below `n`. -/
def NextDifference (codes : List (Nat × Nat)) (vals : Nat → Nat) (n : Nat) (d : Nat → Nat) (ix m : Nat) (diff : Int) (m' : Nat) : Prop :=
  ∃ j len, FirstCode codes d ix m j len ∧ j < n ∧ m' = m + len + vals j ∧
    diff = if vals j = 0 then 0
           else if bitsAt d ix (m + len) (vals j) < 2 ^ (vals j - 1) then (bitsAt d ix (m + len) (vals j) : Int) - 2 ^ vals j + 1
           else bitsAt d ix (m + len) (vals j)

/-- From bit `m` to bit `m'` stand the differences of a list. -/
def Differences (codes : List (Nat × Nat)) (vals : Nat → Nat) (n : Nat) (d : Nat → Nat) (ix : Nat) : Nat → List Int → Nat → Prop
  | m, [], m' => m' = m
  | m, x :: l, m' => ∃ m1, NextDifference codes vals n d ix m x m1 ∧ Differences codes vals n d ix m1 l m'

end Spec
