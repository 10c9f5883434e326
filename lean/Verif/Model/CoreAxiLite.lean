/- Model of migen_src/core_axi_lite.py: the AXI-lite slave of the core, with the Huffman table
memory of migen_src/encode.py behind it. -/
import Verif.Model.B16B64
import Verif.Model.LiteBus

set_option autoImplicit false

namespace Model

/-- FSM states (core_axi_lite.py:291-393). -/
inductive LiteFsm
  | idle | rdAddr | rdDelay1 | rdDelay2 | rdData | wrAddr | wrDelay1 | wrDelay2 | wrData | wrResp
deriving DecidableEq, Repr

/-- Registers of `CoreAxiLite` (core_axi_lite.py:75-111, 162-174) and the table memory with the
address latch of its external read port (encode.py:195-201; nMigen read ports are transparent: the
address is latched and the data follow the memory). -/
structure CoreLite where
  fsm : LiteFsm
  addr : Nat
  arready : Bool
  rvalid : Bool
  awready : Bool
  wready : Bool
  bvalid : Bool
  rdata : Nat
  rresp : Nat
  bresp : Nat
  hw : Nat
  allowed : Nat
  rpAddr : Nat
  wpAddr : Nat
  wpData : Nat
  wpEn : Bool
  rpLatch : Nat
  mem : Nat → Nat

namespace CoreLite

/-- Reset values; `table` is the initial content of the memory (encode.py:195). -/
def init (table : Nat → Nat) : CoreLite :=
  { fsm := .idle, addr := 0, arready := false, rvalid := false, awready := false, wready := false, bvalid := false,
    rdata := 0, rresp := 0, bresp := 0, hw := 0, allowed := 0, rpAddr := 0, wpAddr := 0, wpData := 0, wpEn := false,
    rpLatch := 0, mem := table }

/-- `height` and `width` outputs (core_axi_lite.py:417-420). -/
def height (s : CoreLite) : Nat := s.hw % 2 ^ 16
def width (s : CoreLite) : Nat := s.hw / 2 ^ 16 % 2 ^ 16

/-- Bus outputs (core_axi_lite.py:397-415). -/
def out (s : CoreLite) : LiteOut :=
  { arready := s.arready, rvalid := s.rvalid, rdata := s.rdata, rresp := s.rresp, awready := s.awready,
    wready := s.wready, bvalid := s.bvalid, bresp := s.bresp }

/-- `ssss_index`, `hw_index`, `debug_index` (core_axi_lite.py:186-200). -/
def ssssIndex (s : CoreLite) : Nat := s.addr % 64
def hwIndex (s : CoreLite) : Nat := s.addr % 2
def debugIndex (s : CoreLite) : Nat := s.addr % 8

/-- The table window is addressed (core_axi_lite.py:194, 197, 327, 372). -/
def isSsss (bd : Nat) (s : CoreLite) : Bool := s.addr.testBit 10 && decide (s.ssssIndex < 2 * (bd + 1))
/-- `hw_enable`, `debug_enable` (core_axi_lite.py:195-196). -/
def isHw (s : CoreLite) : Bool := s.addr.testBit 11
def isDebug (s : CoreLite) : Bool := s.addr.testBit 12

/-- `rp_data64`, the memory word zero-extended (core_axi_lite.py:206-208; encode.py:201). -/
def rpData (s : CoreLite) : Nat := s.mem s.rpLatch

/-- The register load in READ_DATA (core_axi_lite.py:212-222, 240-247, 279-283, 325-338). `debug`
says whether the debug module is configured, `dbg` are its registers. -/
def readData (bd : Nat) (debug : Bool) (s r : CoreLite) (dbg : Nat → Nat) : CoreLite :=
  if s.isSsss bd then
    { r with rdata := if s.ssssIndex % 2 = 0 then s.rpData % 2 ^ 32 else s.rpData / 2 ^ 32 % 2 ^ 32, rresp := 0 }
  else if s.isHw then { r with rdata := if s.hwIndex = 0 then s.hw else s.allowed, rresp := 0 }
  else if debug && s.isDebug then { r with rdata := dbg s.debugIndex, rresp := 0 }
  else { r with rresp := 3 }

/-- Byte-wise register update (core_axi_lite.py:225-233, 252-258): bytes of `old` in the
`bytes` lowest positions replaced where the strobe is set. -/
def putBytes : Nat → Nat → Nat → Nat → Nat
  | 0, old, _, _ => old
  | i + 1, old, new, strb =>
    let v := putBytes i old new strb
    if strb.testBit i then setSlice v (8 * i) (8 * i + 8) (new / 2 ^ (8 * i)) else v

/-- `rp_data64_in` (core_axi_lite.py:206-209, 249-267): the addressed half with the strobed bytes
replaced, and zero in the other half (line 209). In the high half the new bytes are
`wdata_v[32+8*i:40+8*i]` (lines 261-265), empty slices of a 32-bit signal, that is zero. -/
def rpDataIn (s : CoreLite) (i : LiteIn) : Nat :=
  if s.ssssIndex % 2 = 0 then putBytes 4 (s.rpData % 2 ^ 32) i.wdata i.wstrb
  else 2 ^ 32 * putBytes 4 (s.rpData / 2 ^ 32 % 2 ^ 32) 0 i.wstrb

/-- The register updates in WRITE_DATA with `wvalid` (core_axi_lite.py:224-234, 268-273, 285-286, 364-385). -/
def writeData (bd : Nat) (debug : Bool) (s r : CoreLite) (i : LiteIn) : CoreLite :=
  if s.isSsss bd then
    { r with wpAddr := s.ssssIndex / 2, wpData := s.rpDataIn i % 2 ^ (bd + 21), wpEn := true, bresp := 0 }
  else if s.isHw then
    if s.hwIndex = 0 then { r with hw := putBytes 4 s.hw i.wdata i.wstrb, bresp := 0 }
    else { r with allowed := putBytes 3 s.allowed i.wdata i.wstrb, bresp := 0 }
  else if debug && s.isDebug then { r with bresp := 2 }
  else { r with bresp := 3 }

/-- The memory ports: a write when `wp_en`, the read address latched (encode.py:199-201; integration_1.py:133-141). -/
def stepMem (s : CoreLite) : CoreLite :=
  { s with mem := if s.wpEn then fun k => if k = s.wpAddr then s.wpData else s.mem k else s.mem, rpLatch := s.rpAddr }

/-- The FSM (core_axi_lite.py:291-395). -/
def stepFsm (bd : Nat) (debug : Bool) (s r : CoreLite) (i : LiteIn) (dbg : Nat → Nat) : CoreLite :=
  match s.fsm with
  | .idle =>
    let r := { r with rvalid := false, bvalid := false }
    if i.arvalid then { r with fsm := .rdAddr } else if i.awvalid then { r with fsm := .wrAddr } else r
  | .rdAddr => { r with addr := i.araddr / 4, rpAddr := i.araddr / 8 % 32, arready := true, fsm := .rdDelay1 }
  | .rdDelay1 => { r with arready := false, fsm := .rdDelay2 }
  | .rdDelay2 => { r with fsm := .rdData }
  | .rdData =>
    let r := s.readData bd debug r dbg
    if i.rready then { r with rvalid := true, fsm := .idle } else r
  | .wrAddr => { r with addr := i.awaddr / 4, rpAddr := i.awaddr / 8 % 32, awready := true, fsm := .wrDelay1 }
  | .wrDelay1 => { r with awready := false, fsm := .wrDelay2 }
  | .wrDelay2 => { r with fsm := .wrData }
  | .wrData =>
    let r := { r with wready := true }
    if i.wvalid then { s.writeData bd debug r i with fsm := .wrResp } else r
  | .wrResp =>
    let r := { r with wpEn := false, wready := false }
    if i.bready then { r with bvalid := true, fsm := .idle } else r

/-- One clock edge. `rst` is the reset of the `sync` domain (asserted by the core at the end of each
frame): it resets the FSM only, all other registers are in the `full` domain (core_axi_lite.py:212-395). -/
def step (bd : Nat) (debug rst : Bool) (s : CoreLite) (i : LiteIn) (dbg : Nat → Nat) : CoreLite :=
  let r := s.stepFsm bd debug (s.stepMem) i dbg
  if rst then { r with fsm := .idle } else r

end CoreLite
end Model
