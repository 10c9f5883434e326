/- Specification: lossless-JPEG files with their marker segments in any order. Nothing here refers to the model. -/
import Verif.Spec.Predictors

set_option autoImplicit false

namespace Spec

/-- A marker segment of T.81 before the scan: a Huffman table (DHT) for the destination `th`, the frame header (SOF3) with three bytes of
parameters for each of the `C` components, or anything else. -/
inductive Segment
  | table (th : Nat) (counts vals : List Nat)
  | frame (bd lines samples C : Nat) (comps : List Nat)
  | other (marker : Nat) (payload : List Nat)

/-- Its bytes: marker, length (of itself and what follows), contents. -/
def Segment.bytes : Segment → List Nat
  | .table th counts vals => [0xFF, 0xC4] ++ be16 (19 + vals.length) ++ [th] ++ counts ++ vals
  | .frame bd lines samples C comps => [0xFF, 0xC3] ++ be16 (8 + 3 * C) ++ [bd] ++ be16 lines ++ be16 samples ++ [C] ++ comps
  | .other marker payload => [0xFF, marker] ++ be16 (2 + payload.length) ++ payload

/-- The segments of one file: all tables in it are the same (for any destinations), the frame header is the stated one, other segments are
application data or comments. -/
def Segment.Legal (bd lines samples C : Nat) (counts vals : List Nat) : Segment → Prop
  | .table th c v => th < 256 ∧ c = counts ∧ v = vals
  | .frame b l x n comps => b = bd ∧ l = lines ∧ x = samples ∧ n = C ∧ comps.length = 3 * C
  | .other marker payload => (0xE0 ≤ marker ∧ marker ≤ 0xEF ∨ marker = 0xFE) ∧ payload.length < 65534

/-- The scan header (SOS) for `C` components, two bytes of parameters for each, predictor `p`, no point transform. -/
def scanHeader (p C : Nat) (sels : List Nat) : List Nat := [0xFF, 0xDA] ++ be16 (6 + 2 * C) ++ [C] ++ sels ++ [p, 0, 0]

/-- `F` is a file of the image `acc` (`C` components with `X` samples per line and component, `H` lines, precision `bd`), coded with predictor `p`:
start of image, segments in any order, among them a frame header and a legal Huffman table (classes up to 16) that has a code for every class that
occurs, scan header, the stuffed bytes of the code of all samples, filled up with any bits, then anything, at least one byte. -/
def IsFileS (p bd H X C : Nat) (acc F : List Nat) : Prop :=
  ∃ (segs : List Segment) (sels counts vals : List Nat) (T : Table) (bytes : List Nat) (pad : List Bool) (tail : List Nat),
    DescribesFor counts vals T (· ∈ vals) ∧ (∀ t ∈ vals, t ≤ 16) ∧
    (∀ i, i < acc.length → cls ((acc.getD i 0 : Int) - predPC p bd C (C * X) acc i) ∈ vals) ∧
    (∀ g ∈ segs, Segment.Legal bd H X C counts vals g) ∧ (∃ th, Segment.table th counts vals ∈ segs) ∧
    (∃ comps, Segment.frame bd H X C comps ∈ segs) ∧ sels.length = 2 * C ∧
    byteBits bytes = encodePC p T bd C (C * X) acc ++ pad ∧ 1 ≤ List.length tail ∧
    F = [0xFF, 0xD8] ++ segs.flatMap Segment.bytes ++ scanHeader p C sels ++ (stuff bytes ++ tail)

end Spec
