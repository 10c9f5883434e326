/- Model of migen_src/constraints.py. -/

set_option autoImplicit false

namespace Model

/-- One of the ranges of `Constraints`, with the multiple (constraints.py:8-17); the component names kept beside
the numbers are left out. -/
structure Range where
  min : Nat
  max : Nat
  multiple : Nat
deriving DecidableEq, Repr

namespace Range

/-- The width and height ranges after `__init__` (constraints.py:8, 9, 12, 13, 16, 17). -/
def default : Range := ⟨1, 65535, 1⟩

/-- `update_height`, `update_width` (constraints.py:20-35). -/
def update (r : Range) (v : Nat) : Range :=
  let r := if v > r.min then { r with min := v } else r
  if v < r.max then { r with max := v } else r

/-- `update_height_multiple`, `update_width_multiple` (constraints.py:47-56). -/
def updateMultiple (r : Range) (v : Nat) : Range := if v > r.multiple then { r with multiple := v } else r

end Range

/-- The constructor of a predictor (predictor_p1_c4_pix1_2.py:55-56, predictor_p1_c4_px4.py:59-60). -/
def predictorConstraints (ps : Nat) (r : Range) : Range := (r.update ps).updateMultiple ps

end Model
