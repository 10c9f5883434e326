/- Model of migen_src/merge.py. -/

set_option autoImplicit false

namespace Model

/-- nMigen's `bits_for(n)`: the number of bits of `Signal(max=n+1)`. -/
def bitsFor (n : Nat) : Nat := if n = 0 then 1 else Nat.log2 n + 1

/-- Registers of `SingleMerger` (merge.py:49-58): `enc_out`, `enc_out_ctr`, `valid_out`,
`end_out`. -/
structure Merger where
  enc : Nat
  ctr : Nat
  valid : Bool
  endd : Bool
deriving DecidableEq, Repr

namespace Merger

/-- Reset values. -/
def init : Merger := { enc := 0, ctr := 0, valid := false, endd := false }

/-- One clock edge of a `SingleMerger(width)` (merge.py:68-84); its two inputs come from
`a` and `b`, valid and end from `a` (merge.py:202-207). -/
def step (w : Nat) (s a b : Merger) : Merger :=
  { enc := if a.valid then ((a.enc <<< b.ctr) ||| b.enc) % 2 ^ (w * 2) else s.enc
    ctr := if a.valid then (a.ctr + b.ctr) % 2 ^ bitsFor (w * 2) else s.ctr
    valid := a.valid
    endd := a.endd }

end Merger

/-- `ceil(log(ps,2))` (merge.py:124). -/
def levels (ps : Nat) : Nat := if ps ≤ 1 then 0 else Nat.log2 (ps - 1) + 1

namespace Merge

/-- One tree level: merger `j` takes children `2j` and `2j+1` (merge.py:198-210). -/
def levelStep (w : Nat) : List Merger → List Merger → List Merger
  | s :: ss, a :: b :: rest => Merger.step w s a b :: levelStep w ss rest
  | _, _ => []

/-- All levels at once; the width doubles per level (merge.py:135-140). -/
def levelsStep (w : Nat) : List (List Merger) → List Merger → List (List Merger)
  | [], _ => []
  | l :: ls, inp => levelStep w l inp :: levelsStep (w * 2) ls l

/-- The inputs of the base level: the pixels' codes, padded with null values up to a power
of two (merge.py:160-193).  With one pixel per step there is no merge stage and this
is the output (integration_1.py:159-166). -/
def baseInputs (ps : Nat) (encs ctrs : List Nat) (valid endd : Bool) : List Merger :=
  (List.zipWith (fun e c => Merger.mk e c valid endd) encs ctrs) ++
    List.replicate (2 ^ levels ps - ps) { enc := 0, ctr := 0, valid := valid, endd := endd }

/-- Reset state: `2^(levels-1)` mergers in the base level, halving upwards (merge.py:127-140). -/
def initLevels : Nat → List (List Merger)
  | 0 => []
  | n + 1 => List.replicate (2 ^ n) Merger.init :: initLevels n

/-- The level the module outputs are taken from (merge.py:213-218): the last one, or the
inputs when there is no merge stage. -/
def outLevel : List (List Merger) → List Merger → List Merger
  | [], inp => inp
  | l :: ls, _ => outLevel ls l

end Merge
end Model
