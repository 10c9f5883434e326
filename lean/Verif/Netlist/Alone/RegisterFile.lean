/- Generated by netlist/v2lean.py from verilog_src/register_file.v.  Do not edit. -/
import Verif.Netlist.Basic

set_option autoImplicit false
set_option linter.unusedVariables false

namespace Netlist.RegFileV
open Netlist

namespace top

/-- register_file.v:6-92: registers, memories and instances of module `top`. -/
structure S where
  allowed_cycles_reg : Nat
  height_reg : Nat
  width_reg : Nat

/-- register_file.v:84-87. -/
@[netlist] def next_allowed_cycles (s : S) : Nat :=
  s.allowed_cycles_reg
/-- register_file.v:88. -/
@[netlist] def allowed_cycles (s : S) : Nat :=
  (next_allowed_cycles s)
/-- register_file.v:80-83. -/
@[netlist] def next_height (s : S) : Nat :=
  s.height_reg
/-- register_file.v:89. -/
@[netlist] def height (s : S) : Nat :=
  (next_height s)
/-- register_file.v:76-79. -/
@[netlist] def next_width (s : S) : Nat :=
  s.width_reg
/-- register_file.v:90. -/
@[netlist] def width (s : S) : Nat :=
  (next_width s)
/-- register_file.v:52-59. -/
@[netlist] def next_width_reg (s : S) (full_rst : Bool) : Nat :=
  if full_rst = true then 0
  else 0x1000
/-- register_file.v:60-67. -/
@[netlist] def next_height_reg (s : S) (full_rst : Bool) : Nat :=
  if full_rst = true then 0
  else 3072
/-- register_file.v:68-75. -/
@[netlist] def next_allowed_cycles_reg (s : S) (full_rst : Bool) : Nat :=
  if full_rst = true then 0
  else 0x65b710

/-- register_file.v:6-92: one rising clock edge (`always @(posedge ...)`). -/
@[netlist] def step (s : S) (full_rst : Bool) : S :=
  { allowed_cycles_reg := (next_allowed_cycles_reg s full_rst)
    height_reg := (next_height_reg s full_rst)
    width_reg := (next_width_reg s full_rst) }

/-- register_file.v:6-92: the initial values given in the netlist. -/
def Init (s : S) : Prop :=
  s.allowed_cycles_reg = 0 ∧
  s.height_reg = 0 ∧
  s.width_reg = 0

/-- register_file.v:6-92: a state with these initial values; registers without one are 0. -/
def powerUp : S :=
  { allowed_cycles_reg := 0
    height_reg := 0
    width_reg := 0 }

theorem powerUp_init : Init powerUp := ⟨rfl, rfl, rfl⟩

end top

end Netlist.RegFileV
