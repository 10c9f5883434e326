/-
Specification of lossless JPEG (ITU-T T.81 annex H) as far as the core uses it:
predictor 1, four interleaved components (so the "left" neighbour is four
samples back), one Huffman table.  Nothing here refers to the hardware model.
-/
import Verif.Spec.Bits

set_option autoImplicit false

namespace Spec

/-- A Huffman table: code word (MSB first) of each SSSS class. -/
abbrev Table := Nat → List Bool

/-- Difference class SSSS of T.81 table H.2: the bit size of `|d|`. -/
def cls (d : Int) : Nat := if d = 0 then 0 else Nat.log2 d.natAbs + 1

/-- Additional bits of a difference of class `s` as a number (T.81 F.1.2.1.1). -/
def extra (d : Int) : Nat := if 0 ≤ d then d.toNat else (d - 1 + 2 ^ cls d).toNat

/-- Code of a difference: Huffman code of the class, then `s` additional bits
(class 16 has none, T.81 H.1.2.2). -/
def diffBits (T : Table) (d : Int) : List Bool :=
  T (cls d) ++ (if cls d = 16 then [] else toBits (cls d) (extra d))

/-- Code of sample `x` with prediction `p`. -/
def pixelBits (T : Table) (x p : Nat) : List Bool := diffBits T ((x : Int) - (p : Int))

/-- Prediction for sample `i` (raster order, row length `W`, samples before it in `l`):
mid-range in the first four columns of the first row, the sample above in the
first four columns of the other rows, otherwise the sample four to the left. -/
def pred (bd W : Nat) (l : List Nat) (i : Nat) : Nat :=
  if i % W < 4 then (if i < W then 2 ^ (bd - 1) else l.getD (i - W) 0)
  else l.getD (i - 4) 0

/-- Code of the samples `l` of (the beginning of) a frame with row length `W`. -/
def encode (T : Table) (bd W : Nat) (l : List Nat) : List Bool :=
  (List.range l.length).flatMap fun i => pixelBits T (l.getD i 0) (pred bd W l i)

/-- T.81 F.2.2.1 EXTEND: the signed difference from class and additional bits. -/
def extend (s v : Nat) : Int :=
  if s = 0 then 0 else if 2 ^ (s - 1) ≤ v then v else (v : Int) - 2 ^ s + 1

/-- Read one difference with classes `0..n-1` from a bit string. -/
def decodeDiff (T : Table) (n : Nat) (bits : List Bool) : Option (Int × List Bool) :=
  match (List.range n).find? (fun s => (T s).isPrefixOf bits) with
  | none => none
  | some s =>
    let rest := bits.drop (T s).length
    if s = 16 then some (32768, rest)
    else if rest.length < s then none
    else some (extend s (ofBits (rest.take s)), rest.drop s)

/-- Decode one sample with prediction `p` (arithmetic modulo 2^16, T.81 H.2.1). -/
def decodePixel (T : Table) (n p : Nat) (bits : List Bool) : Option (Nat × List Bool) :=
  (decodeDiff T n bits).map fun r => ((((p : Int) + r.1) % 65536).toNat, r.2)

/-- Decode `k` further samples after the samples `l`. -/
def decode (T : Table) (n bd W : Nat) : Nat → List Nat → List Bool → Option (List Nat × List Bool)
  | 0, l, bits => some (l, bits)
  | k + 1, l, bits =>
    match decodePixel T n (pred bd W l l.length) bits with
    | none => none
    | some (x, rest) => decode T n bd W k (l ++ [x]) rest

/-- No code word of the classes `0..n-1` is a prefix of another one's. -/
def PrefixFree (T : Table) (n : Nat) : Prop :=
  ∀ i j, i < n → j < n → (T i) <+: (T j) → i = j

/-- Huffman code words of the core's default table, class 0 first. -/
def defaultCodes : List (List Bool) :=
  let o := false; let i := true
  [[i,i,i,o], [o,o,o], [o,o,i], [o,i,o], [o,i,i], [i,o,o], [i,o,i], [i,i,o],
   [i,i,i,i,o], [i,i,i,i,i,o], [i,i,i,i,i,i,o], [i,i,i,i,i,i,i,o], [i,i,i,i,i,i,i,i,o],
   [i,i,i,i,i,i,i,i,i,o], [i,i,i,i,i,i,i,i,i,i,o], [i,i,i,i,i,i,i,i,i,i,i,o],
   [i,i,i,i,i,i,i,i,i,i,i,i,o]]

/-- The default table. -/
def defaultTable : Table := fun s => defaultCodes.getD s []

end Spec
