/- Specification: the marker segments before the scan of a JPEG file (T.81 annex B). Nothing here refers to the model. -/
import Verif.Spec.Dht

set_option autoImplicit false

namespace Spec

/-- A marker segment: FF, the marker code, the length (of itself and the payload), the payload. -/
def segment (g : Nat × List Nat) : List Nat := [0xFF, g.1] ++ be16 (2 + g.2.length) ++ g.2

/-- Segments that `lj92_open` reads without leaving them. SOF3 (C3): at least six bytes. Huffman table (C4): any destination,
sixteen counts, at least as many values as the counts say, no byte FF (the table is not skipped when the next marker is
searched). Any other segment except end of image and start of scan: anything. -/
structure GoodSegment (g : Nat × List Nat) : Prop where
  len : 2 + g.2.length < 65536
  marker : g.1 ≠ 0xD9 ∧ g.1 ≠ 0xDA
  frame : g.1 = 0xC3 → 6 ≤ g.2.length
  table : g.1 = 0xC4 → ∃ th counts vals, g.2 = th :: (counts ++ vals) ∧ counts.length = 16 ∧ counts.sum ≤ vals.length ∧
    19 + vals.length < 255 ∧ ∀ x ∈ counts ++ vals, x < 255

end Spec
