/- Generated by netlist/v2lean.py from verilog_src/reverser.v.  Do not edit. -/
import Verif.Netlist.Basic

set_option autoImplicit false
set_option linter.unusedVariables false

namespace Netlist.ReverserV
open Netlist

namespace top

/-- reverser.v:6-49: registers, memories and instances of module `top`. -/
structure S where
  mk ::

/-- reverser.v:13-47. -/
@[netlist] def next_data_out (s : S) (data_in : Nat) : Nat :=
  put (put (put (put (put (put (put (put (put (put (put (put (put (put (put (put (put (put (put (put (put (put (put (put (put (put (put (put (put (put (put (put 0 31 1 ((data_in.testBit 0).toNat)) 30 1 ((data_in.testBit 1).toNat)) 29 1 ((data_in.testBit 2).toNat)) 28 1 ((data_in.testBit 3).toNat)) 27 1 ((data_in.testBit 4).toNat)) 26 1 ((data_in.testBit 5).toNat)) 25 1 ((data_in.testBit 6).toNat)) 24 1 ((data_in.testBit 7).toNat)) 23 1 ((data_in.testBit 8).toNat)) 22 1 ((data_in.testBit 9).toNat)) 21 1 ((data_in.testBit 10).toNat)) 20 1 ((data_in.testBit 11).toNat)) 19 1 ((data_in.testBit 12).toNat)) 18 1 ((data_in.testBit 13).toNat)) 17 1 ((data_in.testBit 14).toNat)) 16 1 ((data_in.testBit 15).toNat)) 15 1 ((data_in.testBit 16).toNat)) 14 1 ((data_in.testBit 17).toNat)) 13 1 ((data_in.testBit 18).toNat)) 12 1 ((data_in.testBit 19).toNat)) 11 1 ((data_in.testBit 20).toNat)) 10 1 ((data_in.testBit 21).toNat)) 9 1 ((data_in.testBit 22).toNat)) 8 1 ((data_in.testBit 23).toNat)) 7 1 ((data_in.testBit 24).toNat)) 6 1 ((data_in.testBit 25).toNat)) 5 1 ((data_in.testBit 26).toNat)) 4 1 ((data_in.testBit 27).toNat)) 3 1 ((data_in.testBit 28).toNat)) 2 1 ((data_in.testBit 29).toNat)) 1 1 ((data_in.testBit 30).toNat)) 0 1 ((data_in.testBit 31).toNat)
/-- reverser.v:48. -/
@[netlist] def data_out (s : S) (data_in : Nat) : Nat :=
  (next_data_out s data_in)

/-- reverser.v:6-49: one rising clock edge (`always @(posedge ...)`). -/
@[netlist] def step (s : S) (data_in : Nat) : S :=
  s

/-- reverser.v:6-49: the initial values given in the netlist. -/
def Init (s : S) : Prop :=
  True

/-- reverser.v:6-49: a state with these initial values; registers without one are 0. -/
def powerUp : S := {}

theorem powerUp_init : Init powerUp := trivial

end top

end Netlist.ReverserV
