/- Model of migen_src/integration_3.py: the encoder core. -/
import Verif.Model.Integration2
import Verif.Model.VBits

set_option autoImplicit false

namespace Model

/-- State of `Integration3` (integration_3.py:33-34). -/
structure Int3 where
  int2 : Int2
  vbits : VBits
deriving DecidableEq, Repr

namespace Int3

/-- State after reset with `m` in the memories (see `Kept`). -/
def reset (c : CoreCfg) (m : Kept) : Int3 := { int2 := .reset c m, vbits := .init }

/-- Power-up state. -/
def init (c : CoreCfg) : Int3 :=
  reset c { pm := List.replicate (c.depth - 1) 0, pd := 0, cm := List.replicate (c.cdepth - 1) 0, cd := 0
            rp := List.replicate c.int1.ps 0 }

/-- `nready` (integration_3.py:72-75). -/
def nready (s : Int3) : Bool := s.int2.nready

/-- `data_out`, `valid_out`, `end_out` (integration_3.py:65-70). -/
def data (s : Int3) : Nat := s.vbits.data
def valid (s : Int3) : Bool := s.vbits.valid
def endd (s : Int3) : Bool := s.vbits.endd

/-- One clock edge (integration_3.py:48-76). -/
def step (c : CoreCfg) (s : Int3) (pixels : List Nat) (validIn busy : Bool) : Int3 :=
  { int2 := s.int2.step c pixels validIn s.vbits.latch
    vbits := s.vbits.step c.out c.buf (s.int2.out c) s.int2.valid busy }

end Int3
end Model
