/- Generated by netlist/v2lean.py from verilog_src/delayer.v.  Do not edit. -/
import Verif.Netlist.Basic

set_option autoImplicit false
set_option linter.unusedVariables false

namespace Netlist.DelayerV
open Netlist

namespace top

/-- delayer.v:6-81: registers, memories and instances of module `top`. -/
structure S where
  out_val : Bool
  timer : Nat
  timer_start : Bool

/-- delayer.v:36. -/
@[netlist] def w2 (s : S) : Nat :=
  (2 ^ 4 + s.timer - 1) % 2 ^ 4
/-- delayer.v:37. -/
@[netlist] def w4 (s : S) : Bool :=
  s.timer == 0
/-- delayer.v:38. -/
@[netlist] def w6 (s : S) : Bool :=
  (w4 s) || s.out_val
/-- delayer.v:79. -/
@[netlist] def w1 (s : S) : Nat :=
  (w2 s)
/-- delayer.v:75-78. -/
@[netlist] def next_out_sig (s : S) : Bool :=
  s.out_val
/-- delayer.v:80. -/
@[netlist] def out_sig (s : S) : Bool :=
  (next_out_sig s)
/-- delayer.v:45-55. -/
@[netlist] def next_timer_start (s : S) (rst : Bool) (in_sig : Bool) : Bool :=
  let e1 := if in_sig = true then true
  else s.timer_start
  if rst = true then false
  else e1
/-- delayer.v:56-66. -/
@[netlist] def next_timer (s : S) (rst : Bool) : Nat :=
  let e1 := if s.timer_start = true then slc (w1 s) 0 3
  else s.timer
  if rst = true then 6
  else e1
/-- delayer.v:67-74. -/
@[netlist] def next_out_val (s : S) (rst : Bool) : Bool :=
  let e1 := (w6 s)
  if rst = true then false
  else e1

/-- delayer.v:6-81: one rising clock edge (`always @(posedge ...)`). -/
@[netlist] def step (s : S) (rst : Bool) (in_sig : Bool) : S :=
  { out_val := (next_out_val s rst)
    timer := (next_timer s rst)
    timer_start := (next_timer_start s rst in_sig) }

/-- delayer.v:6-81: the initial values given in the netlist. -/
def Init (s : S) : Prop :=
  s.out_val = false ∧
  s.timer = 6 ∧
  s.timer_start = false

/-- delayer.v:6-81: a state with these initial values; registers without one are 0. -/
def powerUp : S :=
  { out_val := false
    timer := 6
    timer_start := false }

theorem powerUp_init : Init powerUp := ⟨rfl, rfl, rfl⟩

end top

end Netlist.DelayerV
