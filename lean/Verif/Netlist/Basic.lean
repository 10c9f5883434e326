/- Operations used by the generated netlists. -/
import Verif.Netlist.Attr

set_option autoImplicit false

namespace Netlist

/-- Verilog part select `x[l+w-1:l]`. -/
def slc (x l w : Nat) : Nat := x / 2 ^ l % 2 ^ w

/-- Verilog assignment to the part select `x[l+w-1:l]`. -/
def put (x l w v : Nat) : Nat := x / 2 ^ (l + w) * 2 ^ (l + w) + v % 2 ^ w * 2 ^ l + x % 2 ^ l

end Netlist
