/- Generated by netlist/v2lean.py from verilog_src/difference.v.  Do not edit. -/
import Verif.Netlist.Basic

set_option autoImplicit false
set_option linter.unusedVariables false

namespace Netlist.DiffV
open Netlist

namespace top

/-- difference.v:6-147: registers, memories and instances of module `top`. -/
structure S where
  end_out : Bool
  valid_out : Bool
  val_out_3 : Nat
  val_out : Nat
  val_out_5 : Nat
  val_out_4 : Nat

/-- difference.v:67. -/
@[netlist] def w11 (s : S) (pixel_in : Nat) (predic_in : Nat) : Nat :=
  (2 ^ 17 + pixel_in - predic_in) % 2 ^ 17
/-- difference.v:68. -/
@[netlist] def w13 (s : S) (pixel_in : Nat) (predic_in : Nat) : Nat :=
  (2 ^ 18 + (w11 s pixel_in predic_in) - 1) % 2 ^ 18
/-- difference.v:69. -/
@[netlist] def w16 (s : S) (pixel_in_1 : Nat) (predic_in_2 : Nat) : Nat :=
  (2 ^ 17 + pixel_in_1 - predic_in_2) % 2 ^ 17
/-- difference.v:70. -/
@[netlist] def w18 (s : S) (pixel_in_1 : Nat) (predic_in_2 : Nat) : Nat :=
  (2 ^ 18 + (w16 s pixel_in_1 predic_in_2) - 1) % 2 ^ 18
/-- difference.v:71. -/
@[netlist] def w6 (s : S) (pixel_in : Nat) (predic_in : Nat) : Nat :=
  (2 ^ 17 + pixel_in - predic_in) % 2 ^ 17
/-- difference.v:72. -/
@[netlist] def w8 (s : S) (pixel_in_1 : Nat) (predic_in_2 : Nat) : Nat :=
  (2 ^ 17 + pixel_in_1 - predic_in_2) % 2 ^ 17
/-- difference.v:145. -/
@[netlist] def w10 (s : S) (pixel_in : Nat) (predic_in : Nat) : Nat :=
  (w13 s pixel_in predic_in)
/-- difference.v:146. -/
@[netlist] def w15 (s : S) (pixel_in_1 : Nat) (predic_in_2 : Nat) : Nat :=
  (w18 s pixel_in_1 predic_in_2)
/-- difference.v:85-95. -/
@[netlist] def next_val_out_4 (s : S) (pixel_in : Nat) (predic_in : Nat) (rst : Bool) (valid_in : Bool) : Nat :=
  let e1 := if valid_in = true then (w6 s pixel_in predic_in)
  else s.val_out_4
  if rst = true then 0
  else e1
/-- difference.v:96-106. -/
@[netlist] def next_val_out_5 (s : S) (pixel_in_1 : Nat) (predic_in_2 : Nat) (rst : Bool) (valid_in : Bool) : Nat :=
  let e1 := if valid_in = true then (w8 s pixel_in_1 predic_in_2)
  else s.val_out_5
  if rst = true then 0
  else e1
/-- difference.v:107-117. -/
@[netlist] def next_val_out (s : S) (pixel_in : Nat) (predic_in : Nat) (rst : Bool) (valid_in : Bool) : Nat :=
  let e1 := if valid_in = true then slc (w10 s pixel_in predic_in) 0 17
  else s.val_out
  if rst = true then 0
  else e1
/-- difference.v:118-128. -/
@[netlist] def next_val_out_3 (s : S) (pixel_in_1 : Nat) (predic_in_2 : Nat) (rst : Bool) (valid_in : Bool) : Nat :=
  let e1 := if valid_in = true then slc (w15 s pixel_in_1 predic_in_2) 0 17
  else s.val_out_3
  if rst = true then 0
  else e1
/-- difference.v:129-136. -/
@[netlist] def next_valid_out (s : S) (rst : Bool) (valid_in : Bool) : Bool :=
  if rst = true then false
  else valid_in
/-- difference.v:137-144. -/
@[netlist] def next_end_out (s : S) (end_in : Bool) (rst : Bool) : Bool :=
  if rst = true then false
  else end_in

/-- difference.v:6-147: one rising clock edge (`always @(posedge ...)`). -/
@[netlist] def step (s : S) (pixel_in : Nat) (predic_in : Nat) (pixel_in_1 : Nat) (predic_in_2 : Nat) (end_in : Bool) (rst : Bool) (valid_in : Bool) : S :=
  { end_out := (next_end_out s end_in rst)
    valid_out := (next_valid_out s rst valid_in)
    val_out_3 := (next_val_out_3 s pixel_in_1 predic_in_2 rst valid_in)
    val_out := (next_val_out s pixel_in predic_in rst valid_in)
    val_out_5 := (next_val_out_5 s pixel_in_1 predic_in_2 rst valid_in)
    val_out_4 := (next_val_out_4 s pixel_in predic_in rst valid_in) }

/-- difference.v:6-147: the initial values given in the netlist. -/
def Init (s : S) : Prop :=
  s.end_out = false ∧
  s.valid_out = false ∧
  s.val_out_3 = 0 ∧
  s.val_out = 0 ∧
  s.val_out_5 = 0 ∧
  s.val_out_4 = 0

/-- difference.v:6-147: a state with these initial values; registers without one are 0. -/
def powerUp : S :=
  { end_out := false
    valid_out := false
    val_out_3 := 0
    val_out := 0
    val_out_5 := 0
    val_out_4 := 0 }

theorem powerUp_init : Init powerUp := ⟨rfl, rfl, rfl, rfl, rfl, rfl⟩

end top

end Netlist.DiffV
