/- Specification: one component, any of the predictors of T.81 table H.1. Nothing here refers to the model. -/
import Verif.Spec.Pred6

set_option autoImplicit false

namespace Spec

/-- T.81 table H.1: the prediction from the left neighbour `a`, the sample above `b` and the one above left `c`; halves are
rounded down. -/
def tableH1 (p : Nat) (a b c : Int) : Int :=
  match p with
  | 1 => a
  | 2 => b
  | 3 => c
  | 4 => a + b - c
  | 5 => a + (b - c) / 2
  | 6 => b + (a - c) / 2
  | 7 => (a + b) / 2
  | _ => 0

/-- T.81 H.1.2.1, prediction for sample `i` (raster order, row length `W`): mid-range for the first sample, the left neighbour
in the first row, the sample above in the first column, otherwise by the selected predictor. -/
def predP (p bd W : Nat) (l : List Nat) (i : Nat) : Int :=
  if i = 0 then 2 ^ (bd - 1)
  else if i < W then (l.getD (i - 1) 0 : Int)
  else if i % W = 0 then (l.getD (i - W) 0 : Int)
  else tableH1 p (l.getD (i - 1) 0) (l.getD (i - W) 0) (l.getD (i - W - 1) 0)

/-- The difference of sample `i` to its prediction. -/
def diffP (p bd W : Nat) (l : List Nat) (i : Nat) : Int := (l.getD i 0 : Int) - predP p bd W l i

/-- Code of the whole image. -/
def encodeP (p : Nat) (T : Table) (bd W : Nat) (l : List Nat) : List Bool :=
  (List.range l.length).flatMap fun i => diffBits T (diffP p bd W l i)

/-- A file header: start of image, one Huffman table, SOF3 frame header (precision, lines, samples per line, one component
with the parameters `comp`), scan header (one component with the parameters `sel`, predictor `p`, two more bytes `pt`). -/
def headerP (p bd lines samples : Nat) (comp sel pt counts vals : List Nat) : List Nat :=
  [0xFF, 0xD8] ++
  ([0xFF, 0xC4] ++ be16 (19 + vals.length) ++ [0] ++ counts ++ vals) ++
  ([0xFF, 0xC3] ++ be16 11 ++ [bd] ++ be16 lines ++ be16 samples ++ [1] ++ comp) ++
  ([0xFF, 0xDA] ++ be16 8 ++ [1] ++ sel ++ [p] ++ pt)

/-- `F` is a file of the image `acc` (`W` samples per line, `H` lines, precision `bd`) with predictor `p`: header with a legal
Huffman table (classes up to 16) that has a code for every class that occurs, the stuffed bytes of the code of all samples, filled up with any bits,
then anything, at least one byte. -/
def IsFileP (p bd H W : Nat) (acc F : List Nat) : Prop :=
  ∃ comp sel pt counts vals T bytes pad tail, DescribesFor counts vals T (· ∈ vals) ∧ (∀ t ∈ vals, t ≤ 16) ∧
    (∀ i, i < acc.length → cls (diffP p bd W acc i) ∈ vals) ∧ comp.length = 3 ∧ sel.length = 2 ∧ pt.length = 2 ∧
    byteBits bytes = encodeP p T bd W acc ++ pad ∧ 1 ≤ List.length tail ∧ F = headerP p bd H W comp sel pt counts vals ++ (stuff bytes ++ tail)

/-- The same for `C` interleaved components (`W` samples of all components per line): neighbours are neighbours in the same
component. -/
def predPC (p bd C W : Nat) (l : List Nat) (i : Nat) : Int :=
  if i < C then 2 ^ (bd - 1)
  else if i < W then (l.getD (i - C) 0 : Int)
  else if i % W < C then (l.getD (i - W) 0 : Int)
  else tableH1 p (l.getD (i - C) 0) (l.getD (i - W) 0) (l.getD (i - W - C) 0)

/-- Code of the whole image with `C` components. -/
def encodePC (p : Nat) (T : Table) (bd C W : Nat) (l : List Nat) : List Bool :=
  (List.range l.length).flatMap fun i => diffBits T ((l.getD i 0 : Int) - predPC p bd C W l i)

/-- A file header like `headerP` with `C` components, three bytes of parameters for each in `comps`, two in `sels`. -/
def headerPC (p bd lines samples C : Nat) (comps sels counts vals : List Nat) : List Nat :=
  [0xFF, 0xD8] ++
  ([0xFF, 0xC4] ++ be16 (19 + vals.length) ++ [0] ++ counts ++ vals) ++
  ([0xFF, 0xC3] ++ be16 (8 + 3 * C) ++ [bd] ++ be16 lines ++ be16 samples ++ [C] ++ comps) ++
  ([0xFF, 0xDA] ++ be16 (6 + 2 * C) ++ [C] ++ sels ++ [p, 0, 0])

end Spec
