/- Model of migen_src/normalize.py. -/

set_option autoImplicit false

namespace Model

/-- Registers of `Normalize` (normalize.py:123-133, one `SingleNormalizer` per pixel,
their common `valid_o`/`end_out`, normalize.py:241-244): `val_out`, `ssss`. -/
structure Normalize where
  vals : List Nat
  ssss : List Nat
  valid : Bool
  endd : Bool
deriving DecidableEq, Repr

namespace Normalize

/-- `val_in_mns[1+i:bd+1] == 2**(bd-i)-1`: the comparison of option `i`
(normalize.py:65, 81, 148). -/
def negTest (bd mns i : Nat) : Bool := (mns >>> (1 + i)) % 2 ^ (bd - i) == 2 ^ (bd - i) - 1

/-- `build_neg_tree` (normalize.py:48-84): index of the option chosen between `start`
and `stop`.  The generator is called with `start <= stop` only; the guard
`stop <= start` covers its case `end == start`. -/
def negTree (bd mns start stop : Nat) : Nat :=
  if h : stop ≤ start then start
  else if stop = start + 1 then
    if negTest bd mns start then start else stop
  else
    if negTest bd mns ((stop + start) / 2) then negTree bd mns start ((stop + start) / 2)
    else negTree bd mns ((stop + start) / 2 + 1) stop
termination_by stop - start
decreasing_by all_goals omega

/-- `build_pos_tree` (normalize.py:91-100) with the default 0 (normalize.py:167):
the If/Elif chain tests bits `n-1, n-2, .., 0`. -/
def posTree : Nat → Nat → Nat
  | 0, _ => 0
  | n + 1, v => if v.testBit n then n + 1 else posTree n v

/-- The new `val_out` (`bd` bits) of a `SingleNormalizer` (normalize.py:154-170). -/
def normVal (bd val mns : Nat) : Nat :=
  if val.testBit bd then (val + (2 ^ (negTree bd mns 0 (bd - 1) + 1) - 1)) % 2 ^ bd
  else val % 2 ^ bd

/-- The new `ssss` (5 bits) of a `SingleNormalizer` (normalize.py:154-170). -/
def normSsss (bd val mns : Nat) : Nat :=
  if val.testBit bd then (negTree bd mns 0 (bd - 1) + 1) % 2 ^ 5
  else posTree bd val % 2 ^ 5

/-- Reset values. -/
def init (ps : Nat) : Normalize :=
  { vals := List.replicate ps 0, ssss := List.replicate ps 0, valid := false, endd := false }

/-- One clock edge (normalize.py:139-178, 222-246). -/
def step (bd : Nat) (s : Normalize) (vals mns : List Nat) (valid endd : Bool) : Normalize :=
  { vals := if valid then List.zipWith (normVal bd) vals mns else s.vals
    ssss := if valid then List.zipWith (normSsss bd) vals mns else s.ssss
    valid := valid
    endd := endd }

end Normalize
end Model
