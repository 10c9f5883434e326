/- Specification: what the encoder of liblj92 promises. One component, predictor 6 of T.81 table H.1, a Huffman table made
for the image, one scan. Nothing here refers to the model. -/
import Verif.Spec.Dht
import Verif.Spec.Bytes

set_option autoImplicit false

namespace Spec

/-- Prediction for sample `i` (raster order, row length `W`): mid-range for the first sample, the left neighbour in the
first row, the sample above in the first column, otherwise above + (left - above left) / 2 (rounded down). -/
def pred6 (bd W : Nat) (l : List Nat) (i : Nat) : Int :=
  if i = 0 then 2 ^ (bd - 1)
  else if i < W then (l.getD (i - 1) 0 : Int)
  else if i % W = 0 then (l.getD (i - W) 0 : Int)
  else (l.getD (i - W) 0 : Int) + ((l.getD (i - 1) 0 : Int) - (l.getD (i - W - 1) 0 : Int)) / 2

/-- The difference of sample `i` to its prediction, reduced to magnitude below 2^16 (sign kept). -/
def diff6 (bd W : Nat) (l : List Nat) (i : Nat) : Int := ((l.getD i 0 : Int) - pred6 bd W l i).tmod 65536

/-- Code of a difference with as many additional bits as the class says, also for class 16 (T.81 has none there, because
it reduces differences to -32767..32768). -/
def wideBits (T : Table) (d : Int) : List Bool := T (cls d) ++ toBits (cls d) (extra d)

/-- Code of the whole image. -/
def encode6 (T : Table) (bd W : Nat) (l : List Nat) : List Bool :=
  (List.range l.length).flatMap fun i => wideBits T (diff6 bd W l i)

/-- How often a class occurs in the image. -/
def classCount (bd W : Nat) (l : List Nat) (t : Nat) : Nat :=
  ((List.range l.length).filter fun i => cls (diff6 bd W l i) = t).length

/-- The table segment with the sixteen `counts` and the class list `vals` describes a legal Huffman table (T.81 annex C)
with code words `T` for the classes `P`: the values are the classes `P`, each once, there is one value per code, each code
fits its length and is not all ones, and `T` gives the codes in the order of the values. -/
structure DescribesFor (counts vals : List Nat) (T : Table) (P : Nat → Prop) : Prop where
  len : counts.length = 16
  num : vals.length = counts.sum
  nodup : vals.Nodup
  mem : ∀ t, t ∈ vals ↔ P t
  fit : ∀ e ∈ huffCodes 0 0 (huffSizes (counts.getD · 0) 16), e.2 + 1 < 2 ^ e.1
  word : ∀ (k t : Nat), vals[k]? = some t → ∃ e : Nat × Nat, (huffCodes 0 0 (huffSizes (counts.getD · 0) 16))[k]? = some e ∧ T t = toBits e.1 e.2

/-- A file header: start of image, one Huffman table, SOF3 frame header (precision, lines, samples per line, one component),
scan header (one component, predictor 6). -/
def header6 (bd lines samples : Nat) (counts vals : List Nat) : List Nat :=
  [0xFF, 0xD8] ++
  ([0xFF, 0xC4] ++ be16 (19 + vals.length) ++ [0] ++ counts ++ vals) ++
  ([0xFF, 0xC3] ++ be16 11 ++ [bd] ++ be16 lines ++ be16 samples ++ [1, 0, 0x11, 0]) ++
  ([0xFF, 0xDA] ++ be16 8 ++ [1, 0, 0, 6, 0, 0])

/-- `n` zero bits up to the next byte boundary. -/
def zeroPad (l : List Bool) : List Bool := l ++ List.replicate ((8 - l.length % 8) % 8) false

/-- `F` is a complete file of the image `acc` (`W` samples per line, `H` lines, precision `bd`): header with a legal Huffman
table for exactly the classes that occur, the stuffed bytes of the code of all samples, filled up with zero bits, end of image. -/
def IsFile6 (bd H W : Nat) (acc F : List Nat) : Prop :=
  ∃ counts vals T bytes, DescribesFor counts vals T (fun t => 0 < classCount bd W acc t) ∧ (∀ x ∈ bytes, x < 256) ∧
    byteBits bytes = zeroPad (encode6 T bd W acc) ∧ F = header6 bd H W counts vals ++ stuff bytes ++ [0xFF, 0xD9]

/-- Where sample `n` stands in memory when after every `group` samples `skip` values are left out. -/
def strided (group skip n : Nat) : Nat := n + n / group * skip

end Spec
