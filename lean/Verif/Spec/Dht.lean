/- Specification: Huffman table segments (T.81 annex C) and the header of a lossless JPEG file (T.81 annex B). -/
import Verif.Spec.Jpeg

set_option autoImplicit false

namespace Spec

/-- T.81 C.2, HUFFSIZE: the code lengths in order, `counts i` codes of length `i + 1`, lengths up to `n`. -/
def huffSizes (counts : Nat → Nat) (n : Nat) : List Nat := (List.range n).flatMap fun i => List.replicate (counts i) (i + 1)

/-- T.81 C.2, HUFFCODE: the codes of the given lengths, as (length, code): count up, shift left when the length grows. -/
def huffCodes : Nat → Nat → List Nat → List (Nat × Nat)
  | _, _, [] => []
  | code, size, n :: l => (n, code * 2 ^ (n - size)) :: huffCodes (code * 2 ^ (n - size) + 1) n l

/-- The table segment with the sixteen `counts` and the class list `vals` describes the Huffman table `T` for the classes
below `n`: the codes exist (fit their lengths), there is one value per code, every class has a code and it is the one
of the table. -/
structure Describes (counts vals : List Nat) (T : Table) (n : Nat) : Prop where
  len : counts.length = 16
  num : vals.length = counts.sum
  bytes : ∀ x, x ∈ counts ++ vals → x < 255
  total : vals.length < 200
  fit : ∀ e ∈ huffCodes 0 0 (huffSizes (counts.getD · 0) 16), e.2 < 2 ^ e.1
  word : ∀ t, t < n → ∃ (k : Nat) (e : Nat × Nat), vals[k]? = some t ∧ (huffCodes 0 0 (huffSizes (counts.getD · 0) 16))[k]? = some e ∧ T t = toBits e.1 e.2

/-- Two bytes, most significant first. -/
def be16 (n : Nat) : List Nat := [n / 256 % 256, n % 256]

/-- A file header: start of image, SOF3 frame header (precision, lines, samples per line and component, four components
with parameters `comps`), one Huffman table, scan header (four components with selectors `sels`, predictor 1). -/
def jpegHeader (bd lines samples : Nat) (comps counts vals sels : List Nat) : List Nat :=
  [0xFF, 0xD8] ++
  ([0xFF, 0xC3] ++ be16 20 ++ [bd] ++ be16 lines ++ be16 samples ++ [4] ++ comps) ++
  ([0xFF, 0xC4] ++ be16 (19 + vals.length) ++ [0] ++ counts ++ vals) ++
  ([0xFF, 0xDA] ++ be16 14 ++ [4] ++ sels ++ [1, 0, 0])

/-- The default table as a segment: seven codes of length 3 and one of each length from 4 to 13. -/
def defaultCounts : List Nat := [0, 0, 7, 1, 1, 1, 1, 1, 1, 1, 1, 1, 1, 0, 0, 0]
def defaultVals : List Nat := [1, 2, 3, 4, 5, 6, 7, 0, 8, 9, 10, 11, 12, 13, 14, 15, 16]

end Spec
