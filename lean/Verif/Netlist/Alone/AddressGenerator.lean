/- Generated by netlist/v2lean.py from verilog_src/address_generator.v.  Do not edit. -/
import Verif.Netlist.Basic

set_option autoImplicit false
set_option linter.unusedVariables false

namespace Netlist.AddrGenV
open Netlist

namespace top

/-- address_generator.v:6-93: registers, memories and instances of module `top`. -/
structure S where
  fsm_state : Bool
  address_valid : Bool
  address_o : Nat

/-- address_generator.v:36. -/
@[netlist] def w2 (s : S) : Nat :=
  (s.address_o + 16) % 2 ^ 33
/-- address_generator.v:37. -/
@[netlist] def w5 (s : S) : Nat :=
  (s.address_o + 16) % 2 ^ 33
/-- address_generator.v:91. -/
@[netlist] def w1 (s : S) : Nat :=
  (w2 s)
/-- address_generator.v:92. -/
@[netlist] def w4 (s : S) : Nat :=
  (w5 s)
/-- address_generator.v:44-65. -/
@[netlist] def next_address_o (s : S) (address_latch : Bool) (rst : Bool) (starting_address : Nat) : Nat :=
  let e1 := if s.fsm_state = false then (if address_latch = true then slc (w1 s) 0 32
    else starting_address)
  else if s.fsm_state = true then (if address_latch = true then slc (w4 s) 0 32
    else s.address_o)
  else s.address_o
  if rst = true then 0
  else e1
/-- address_generator.v:66-76. -/
@[netlist] def next_address_valid (s : S) (rst : Bool) : Bool :=
  let e1 := if s.fsm_state = false then true
  else s.address_valid
  if rst = true then false
  else e1
/-- address_generator.v:77-90. -/
@[netlist] def next_fsm_state (s : S) (address_latch : Bool) (rst : Bool) : Bool :=
  let e1 := if s.fsm_state = false then (if address_latch = true then true
    else s.fsm_state)
  else s.fsm_state
  if rst = true then false
  else e1

/-- address_generator.v:6-93: one rising clock edge (`always @(posedge ...)`). -/
@[netlist] def step (s : S) (address_latch : Bool) (rst : Bool) (starting_address : Nat) : S :=
  { fsm_state := (next_fsm_state s address_latch rst)
    address_valid := (next_address_valid s rst)
    address_o := (next_address_o s address_latch rst starting_address) }

/-- address_generator.v:6-93: the initial values given in the netlist. -/
def Init (s : S) : Prop :=
  s.fsm_state = false ∧
  s.address_valid = false ∧
  s.address_o = 0

/-- address_generator.v:6-93: a state with these initial values; registers without one are 0. -/
def powerUp : S :=
  { fsm_state := false
    address_valid := false
    address_o := 0 }

theorem powerUp_init : Init powerUp := ⟨rfl, rfl, rfl⟩

end top

end Netlist.AddrGenV
