/- The AXI-lite signals of migen_src/axi3_lite_pkg.py. -/

set_option autoImplicit false

namespace Model

/-- AXI-lite master signals (axi3_lite_pkg.py:16-18, 27-30). `arprot` and
`awprot` are not used by the code and left out. -/
structure LiteIn where
  arvalid : Bool
  araddr : Nat
  rready : Bool
  awvalid : Bool
  awaddr : Nat
  wvalid : Bool
  wdata : Nat
  wstrb : Nat
  bready : Bool
deriving DecidableEq, Repr

/-- AXI-lite slave signals (axi3_lite_pkg.py:11-13, 21-24). -/
structure LiteOut where
  arready : Bool
  rvalid : Bool
  rdata : Nat
  rresp : Nat
  awready : Bool
  wready : Bool
  bvalid : Bool
  bresp : Nat
deriving DecidableEq, Repr

end Model
