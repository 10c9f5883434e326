/- Model of migen_src/axi_lite.py: AXI3 to AXI-lite bridge. -/
import Verif.Model.LiteBus

set_option autoImplicit false

namespace Model

/-- The request side of an AXI3 master: AXI-lite signals plus ids (axi_lite.py:48-51; burst, length and
size signals are not used by the code and left out). -/
structure BridgeIn where
  lite : LiteIn
  arid : Nat
  awid : Nat
deriving DecidableEq, Repr

/-- What the AXI3 master sees: the AXI-lite outputs plus ids and `rlast` (axi_lite.py:48, 50). -/
structure BridgeOut where
  lite : LiteOut
  rid : Nat
  bid : Nat
  rlast : Bool
deriving DecidableEq, Repr

/-- Registers of `AxiLite` (axi_lite.py:97, 107-108). -/
structure Bridge where
  rwid : Nat
  rid : Nat
  bid : Nat
deriving DecidableEq, Repr

namespace Bridge

/-- Reset values. -/
def init : Bridge := ⟨0, 0, 0⟩

/-- One clock edge (axi_lite.py:99-108): the later assignment, from `awid`, wins. -/
def step (s : Bridge) (i : BridgeIn) : Bridge :=
  { rwid := if i.lite.awvalid then i.awid else if i.lite.arvalid then i.arid else s.rwid
    rid := s.rwid
    bid := s.rwid }

/-- Signals towards the AXI-lite slave (axi_lite.py:110-175). -/
def toSlave (i : BridgeIn) : LiteIn := i.lite

/-- Signals towards the master (axi_lite.py:110-175). -/
def out (s : Bridge) (o : LiteOut) : BridgeOut := { lite := o, rid := s.rid, bid := s.bid, rlast := true }

end Bridge
end Model
