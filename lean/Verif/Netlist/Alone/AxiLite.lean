/- Generated by netlist/v2lean.py from verilog_src/axi_lite.v.  Do not edit. -/
import Verif.Netlist.Basic

set_option autoImplicit false
set_option linter.unusedVariables false

namespace Netlist.AxiLiteV
open Netlist

namespace top

/-- axi_lite.v:6-312: registers, memories and instances of module `top`. -/
structure S where
  s_axi_wo__bid : Nat
  s_axi_ro__rid : Nat
  rwid : Nat

/-- axi_lite.v:257-260. -/
@[netlist] def next_m_axi_wo__bready (s : S) (s_axi_wi__bready : Bool) : Bool :=
  s_axi_wi__bready
/-- axi_lite.v:290. -/
@[netlist] def m_axi_wo__bready (s : S) (s_axi_wi__bready : Bool) : Bool :=
  (next_m_axi_wo__bready s s_axi_wi__bready)
/-- axi_lite.v:253-256. -/
@[netlist] def next_m_axi_wo__wvalid (s : S) (s_axi_wi__wvalid : Bool) : Bool :=
  s_axi_wi__wvalid
/-- axi_lite.v:291. -/
@[netlist] def m_axi_wo__wvalid (s : S) (s_axi_wi__wvalid : Bool) : Bool :=
  (next_m_axi_wo__wvalid s s_axi_wi__wvalid)
/-- axi_lite.v:249-252. -/
@[netlist] def next_m_axi_wo__wstrb (s : S) (s_axi_wi__wstrb : Nat) : Nat :=
  s_axi_wi__wstrb
/-- axi_lite.v:292. -/
@[netlist] def m_axi_wo__wstrb (s : S) (s_axi_wi__wstrb : Nat) : Nat :=
  (next_m_axi_wo__wstrb s s_axi_wi__wstrb)
/-- axi_lite.v:245-248. -/
@[netlist] def next_m_axi_wo__wdata (s : S) (s_axi_wi__wdata : Nat) : Nat :=
  s_axi_wi__wdata
/-- axi_lite.v:293. -/
@[netlist] def m_axi_wo__wdata (s : S) (s_axi_wi__wdata : Nat) : Nat :=
  (next_m_axi_wo__wdata s s_axi_wi__wdata)
/-- axi_lite.v:241-244. -/
@[netlist] def next_m_axi_wo__awvalid (s : S) (s_axi_wi__awvalid : Bool) : Bool :=
  s_axi_wi__awvalid
/-- axi_lite.v:294. -/
@[netlist] def m_axi_wo__awvalid (s : S) (s_axi_wi__awvalid : Bool) : Bool :=
  (next_m_axi_wo__awvalid s s_axi_wi__awvalid)
/-- axi_lite.v:229-232. -/
@[netlist] def next_m_axi_wo__awprot (s : S) (s_axi_wi__awprot : Nat) : Nat :=
  s_axi_wi__awprot
/-- axi_lite.v:295. -/
@[netlist] def m_axi_wo__awprot (s : S) (s_axi_wi__awprot : Nat) : Nat :=
  (next_m_axi_wo__awprot s s_axi_wi__awprot)
/-- axi_lite.v:225-228. -/
@[netlist] def next_m_axi_wo__awaddr (s : S) (s_axi_wi__awaddr : Nat) : Nat :=
  s_axi_wi__awaddr
/-- axi_lite.v:296. -/
@[netlist] def m_axi_wo__awaddr (s : S) (s_axi_wi__awaddr : Nat) : Nat :=
  (next_m_axi_wo__awaddr s s_axi_wi__awaddr)
/-- axi_lite.v:221-224. -/
@[netlist] def next_s_axi_wo__bvalid (s : S) (m_axi_wi__bvalid : Bool) : Bool :=
  m_axi_wi__bvalid
/-- axi_lite.v:297. -/
@[netlist] def s_axi_wo__bvalid (s : S) (m_axi_wi__bvalid : Bool) : Bool :=
  (next_s_axi_wo__bvalid s m_axi_wi__bvalid)
/-- axi_lite.v:217-220. -/
@[netlist] def next_s_axi_wo__bresp (s : S) (m_axi_wi__bresp : Nat) : Nat :=
  m_axi_wi__bresp
/-- axi_lite.v:298. -/
@[netlist] def s_axi_wo__bresp (s : S) (m_axi_wi__bresp : Nat) : Nat :=
  (next_s_axi_wo__bresp s m_axi_wi__bresp)
/-- axi_lite.v:213-216. -/
@[netlist] def next_s_axi_wo__wready (s : S) (m_axi_wi__wready : Bool) : Bool :=
  m_axi_wi__wready
/-- axi_lite.v:299. -/
@[netlist] def s_axi_wo__wready (s : S) (m_axi_wi__wready : Bool) : Bool :=
  (next_s_axi_wo__wready s m_axi_wi__wready)
/-- axi_lite.v:209-212. -/
@[netlist] def next_s_axi_wo__awready (s : S) (m_axi_wi__awready : Bool) : Bool :=
  m_axi_wi__awready
/-- axi_lite.v:300. -/
@[netlist] def s_axi_wo__awready (s : S) (m_axi_wi__awready : Bool) : Bool :=
  (next_s_axi_wo__awready s m_axi_wi__awready)
/-- axi_lite.v:205-208. -/
@[netlist] def next_m_axi_ro__rready (s : S) (s_axi_ri__rready : Bool) : Bool :=
  s_axi_ri__rready
/-- axi_lite.v:301. -/
@[netlist] def m_axi_ro__rready (s : S) (s_axi_ri__rready : Bool) : Bool :=
  (next_m_axi_ro__rready s s_axi_ri__rready)
/-- axi_lite.v:201-204. -/
@[netlist] def next_m_axi_ro__arvalid (s : S) (s_axi_ri__arvalid : Bool) : Bool :=
  s_axi_ri__arvalid
/-- axi_lite.v:302. -/
@[netlist] def m_axi_ro__arvalid (s : S) (s_axi_ri__arvalid : Bool) : Bool :=
  (next_m_axi_ro__arvalid s s_axi_ri__arvalid)
/-- axi_lite.v:197-200. -/
@[netlist] def next_m_axi_ro__arprot (s : S) (s_axi_ri__arprot : Nat) : Nat :=
  s_axi_ri__arprot
/-- axi_lite.v:303. -/
@[netlist] def m_axi_ro__arprot (s : S) (s_axi_ri__arprot : Nat) : Nat :=
  (next_m_axi_ro__arprot s s_axi_ri__arprot)
/-- axi_lite.v:193-196. -/
@[netlist] def next_m_axi_ro__araddr (s : S) (s_axi_ri__araddr : Nat) : Nat :=
  s_axi_ri__araddr
/-- axi_lite.v:304. -/
@[netlist] def m_axi_ro__araddr (s : S) (s_axi_ri__araddr : Nat) : Nat :=
  (next_m_axi_ro__araddr s s_axi_ri__araddr)
/-- axi_lite.v:286-289. -/
@[netlist] def next_s_axi_ro__rvalid (s : S) (m_axi_ri__rvalid : Bool) : Bool :=
  m_axi_ri__rvalid
/-- axi_lite.v:305. -/
@[netlist] def s_axi_ro__rvalid (s : S) (m_axi_ri__rvalid : Bool) : Bool :=
  (next_s_axi_ro__rvalid s m_axi_ri__rvalid)
/-- axi_lite.v:282-285. -/
@[netlist] def next_s_axi_ro__rresp (s : S) (m_axi_ri__rresp : Nat) : Nat :=
  m_axi_ri__rresp
/-- axi_lite.v:306. -/
@[netlist] def s_axi_ro__rresp (s : S) (m_axi_ri__rresp : Nat) : Nat :=
  (next_s_axi_ro__rresp s m_axi_ri__rresp)
/-- axi_lite.v:277-281. -/
@[netlist] def next_s_axi_ro__rlast (s : S) : Bool :=
  true
/-- axi_lite.v:307. -/
@[netlist] def s_axi_ro__rlast (s : S) : Bool :=
  (next_s_axi_ro__rlast s)
/-- axi_lite.v:273-276. -/
@[netlist] def next_s_axi_ro__rdata (s : S) (m_axi_ri__rdata : Nat) : Nat :=
  m_axi_ri__rdata
/-- axi_lite.v:308. -/
@[netlist] def s_axi_ro__rdata (s : S) (m_axi_ri__rdata : Nat) : Nat :=
  (next_s_axi_ro__rdata s m_axi_ri__rdata)
/-- axi_lite.v:269-272. -/
@[netlist] def next_s_axi_ro__arready (s : S) (m_axi_ri__arready : Bool) : Bool :=
  m_axi_ri__arready
/-- axi_lite.v:309. -/
@[netlist] def s_axi_ro__arready (s : S) (m_axi_ri__arready : Bool) : Bool :=
  (next_s_axi_ro__arready s m_axi_ri__arready)
/-- axi_lite.v:265-268. -/
@[netlist] def next_m_axi_areset_n (s : S) (s_axi_areset_n : Bool) : Bool :=
  s_axi_areset_n
/-- axi_lite.v:310. -/
@[netlist] def m_axi_areset_n (s : S) (s_axi_areset_n : Bool) : Bool :=
  (next_m_axi_areset_n s s_axi_areset_n)
/-- axi_lite.v:261-264. -/
@[netlist] def next_m_axi_aclk (s : S) (s_axi_aclk : Bool) : Bool :=
  s_axi_aclk
/-- axi_lite.v:311. -/
@[netlist] def m_axi_aclk (s : S) (s_axi_aclk : Bool) : Bool :=
  (next_m_axi_aclk s s_axi_aclk)
/-- axi_lite.v:170-184. -/
@[netlist] def next_rwid (s : S) (s_axi_ri__arid : Nat) (s_axi_wi__awvalid : Bool) (s_axi_wi__awid : Nat) (rst : Bool) (s_axi_ri__arvalid : Bool) : Nat :=
  let e1 := if s_axi_ri__arvalid = true then s_axi_ri__arid
  else s.rwid
  let e2 := if s_axi_wi__awvalid = true then s_axi_wi__awid
  else e1
  if rst = true then 0
  else e2
/-- axi_lite.v:185-192. -/
@[netlist] def next_s_axi_ro__rid (s : S) (rst : Bool) : Nat :=
  if rst = true then 0
  else s.rwid
/-- axi_lite.v:233-240. -/
@[netlist] def next_s_axi_wo__bid (s : S) (rst : Bool) : Nat :=
  if rst = true then 0
  else s.rwid

/-- axi_lite.v:6-312: one rising clock edge (`always @(posedge ...)`). -/
@[netlist] def step (s : S) (s_axi_ri__arid : Nat) (s_axi_wi__awvalid : Bool) (s_axi_wi__awid : Nat) (s_axi_aclk : Bool) (s_axi_areset_n : Bool) (m_axi_ri__arready : Bool) (m_axi_ri__rdata : Nat) (m_axi_ri__rresp : Nat) (m_axi_ri__rvalid : Bool) (s_axi_ri__araddr : Nat) (s_axi_ri__arprot : Nat) (s_axi_ri__rready : Bool) (m_axi_wi__awready : Bool) (m_axi_wi__wready : Bool) (m_axi_wi__bresp : Nat) (m_axi_wi__bvalid : Bool) (s_axi_wi__awaddr : Nat) (s_axi_wi__awprot : Nat) (s_axi_wi__wdata : Nat) (s_axi_wi__wstrb : Nat) (s_axi_wi__wvalid : Bool) (s_axi_wi__bready : Bool) (rst : Bool) (s_axi_ri__arvalid : Bool) : S :=
  { s_axi_wo__bid := (next_s_axi_wo__bid s rst)
    s_axi_ro__rid := (next_s_axi_ro__rid s rst)
    rwid := (next_rwid s s_axi_ri__arid s_axi_wi__awvalid s_axi_wi__awid rst s_axi_ri__arvalid) }

/-- axi_lite.v:6-312: the initial values given in the netlist. -/
def Init (s : S) : Prop :=
  s.s_axi_wo__bid = 0 ∧
  s.s_axi_ro__rid = 0 ∧
  s.rwid = 0

/-- axi_lite.v:6-312: a state with these initial values; registers without one are 0. -/
def powerUp : S :=
  { s_axi_wo__bid := 0
    s_axi_ro__rid := 0
    rwid := 0 }

theorem powerUp_init : Init powerUp := ⟨rfl, rfl, rfl⟩

end top

end Netlist.AxiLiteV
