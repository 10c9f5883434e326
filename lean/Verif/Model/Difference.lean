/-
Model of migen_src/difference.py.
Conventions of all model files: nMigen computes exactly and truncates on
assignment; one-bit signals are `Bool`, others `Nat` with the truncation written
out; `step` is one rising clock edge; registers keep their value unless assigned.
-/

set_option autoImplicit false

namespace Model

/-- Registers of `Difference` (difference.py:60-72): `vals_out`, `vals_out_mns`
(one entry per pixel), `valid_out`, `end_out`. -/
structure Difference where
  vals : List Nat
  mns : List Nat
  valid : Bool
  endd : Bool
deriving DecidableEq, Repr

namespace Difference

/-- Reset values (difference.py:60-72, all registers reset to 0). -/
def init (ps : Nat) : Difference :=
  { vals := List.replicate ps 0, mns := List.replicate ps 0, valid := false, endd := false }

/-- `val_out.eq(pixel_in-predic_in)` into `bd+1` bits (difference.py:61,89). -/
def diffVal (bd x p : Nat) : Nat := (((x : Int) - (p : Int)) % (2 ^ (bd + 1) : Int)).toNat

/-- `val_out_mns.eq(pixel_in-predic_in-1)` into `bd+1` bits (difference.py:64,90). -/
def diffMns (bd x p : Nat) : Nat := (((x : Int) - (p : Int) - 1) % (2 ^ (bd + 1) : Int)).toNat

/-- One clock edge (difference.py:83-98). -/
def step (bd : Nat) (s : Difference) (pixels predics : List Nat) (valid endd : Bool) : Difference :=
  { vals := if valid then List.zipWith (diffVal bd) pixels predics else s.vals
    mns := if valid then List.zipWith (diffMns bd) pixels predics else s.mns
    valid := valid
    endd := endd }

end Difference
end Model
