/- Generated by netlist/v2lean.py from verilog_src/axihp_reader.v.  Do not edit. -/
import Verif.Netlist.Basic

set_option autoImplicit false
set_option linter.unusedVariables false

namespace Netlist.HpReaderV
open Netlist

namespace top

/-- axihp_reader.v:6-343: registers, memories and instances of module `top`. -/
structure S where
  active : Nat
  rready : Bool
  arvalid : Bool

/-- axihp_reader.v:154. -/
@[netlist] def w9 (s : S) (enable : Bool) : Bool :=
  enable == true
/-- axihp_reader.v:155. -/
@[netlist] def w11 (s : S) (addr_empty : Bool) : Bool :=
  addr_empty == false
/-- axihp_reader.v:156. -/
@[netlist] def w13 (s : S) (enable : Bool) (addr_empty : Bool) : Bool :=
  (w9 s enable) && (w11 s addr_empty)
/-- axihp_reader.v:157. -/
@[netlist] def w15 (s : S) : Bool :=
  (s.active.testBit 3) == false
/-- axihp_reader.v:158. -/
@[netlist] def w17 (s : S) (enable : Bool) (addr_empty : Bool) : Bool :=
  (w13 s enable addr_empty) && (w15 s)
/-- axihp_reader.v:159. -/
@[netlist] def w1 (s : S) : Bool :=
  s.arvalid == true
/-- axihp_reader.v:160. -/
@[netlist] def w19 (s : S) : Bool :=
  s.rready == true
/-- axihp_reader.v:161. -/
@[netlist] def w21 (s : S) (m_axi_ri__rvalid : Bool) : Bool :=
  m_axi_ri__rvalid == true
/-- axihp_reader.v:162. -/
@[netlist] def w23 (s : S) (m_axi_ri__rvalid : Bool) : Bool :=
  (w19 s) && (w21 s m_axi_ri__rvalid)
/-- axihp_reader.v:163. -/
@[netlist] def w25 (s : S) : Bool :=
  s.rready == false
/-- axihp_reader.v:164. -/
@[netlist] def w27 (s : S) (data_full : Bool) : Bool :=
  data_full == false
/-- axihp_reader.v:165. -/
@[netlist] def w29 (s : S) : Bool :=
  s.active != 0
/-- axihp_reader.v:166. -/
@[netlist] def w31 (s : S) (data_full : Bool) : Bool :=
  (w27 s data_full) && (w29 s)
/-- axihp_reader.v:291-294. -/
@[netlist] def next_data_en (s : S) (m_axi_ri__rvalid : Bool) : Bool :=
  (w23 s m_axi_ri__rvalid)
/-- axihp_reader.v:337. -/
@[netlist] def data_en (s : S) (m_axi_ri__rvalid : Bool) : Bool :=
  (next_data_en s m_axi_ri__rvalid)
/-- axihp_reader.v:167. -/
@[netlist] def w33 (s : S) (m_axi_ri__rvalid : Bool) : Bool :=
  (data_en s m_axi_ri__rvalid) == true
/-- axihp_reader.v:168. -/
@[netlist] def w35 (s : S) (m_axi_ri__rresp : Nat) : Bool :=
  m_axi_ri__rresp != 0
/-- axihp_reader.v:169. -/
@[netlist] def w37 (s : S) (m_axi_ri__rvalid : Bool) (m_axi_ri__rresp : Nat) : Bool :=
  (w33 s m_axi_ri__rvalid) && (w35 s m_axi_ri__rresp)
/-- axihp_reader.v:170. -/
@[netlist] def w3 (s : S) (m_axi_ri__arready : Bool) : Bool :=
  m_axi_ri__arready == true
/-- axihp_reader.v:180. -/
@[netlist] def w5 (s : S) (m_axi_ri__arready : Bool) : Bool :=
  (w1 s) && (w3 s m_axi_ri__arready)
/-- axihp_reader.v:193-196. -/
@[netlist] def next_addr_en (s : S) (m_axi_ri__arready : Bool) : Bool :=
  (w5 s m_axi_ri__arready)
/-- axihp_reader.v:341. -/
@[netlist] def addr_en (s : S) (m_axi_ri__arready : Bool) : Bool :=
  (next_addr_en s m_axi_ri__arready)
/-- axihp_reader.v:171. -/
@[netlist] def w39 (s : S) (m_axi_ri__arready : Bool) : Bool :=
  (addr_en s m_axi_ri__arready) == true
/-- axihp_reader.v:172. -/
@[netlist] def w41 (s : S) (m_axi_ri__rlast : Bool) : Bool :=
  m_axi_ri__rlast == false
/-- axihp_reader.v:173. -/
@[netlist] def w43 (s : S) (m_axi_ri__rlast : Bool) (m_axi_ri__arready : Bool) : Bool :=
  (w39 s m_axi_ri__arready) && (w41 s m_axi_ri__rlast)
/-- axihp_reader.v:174. -/
@[netlist] def w45 (s : S) (m_axi_ri__arready : Bool) : Bool :=
  (addr_en s m_axi_ri__arready) == false
/-- axihp_reader.v:175. -/
@[netlist] def w47 (s : S) (m_axi_ri__rlast : Bool) : Bool :=
  m_axi_ri__rlast == true
/-- axihp_reader.v:176. -/
@[netlist] def w49 (s : S) (m_axi_ri__rlast : Bool) (m_axi_ri__arready : Bool) : Bool :=
  (w45 s m_axi_ri__arready) && (w47 s m_axi_ri__rlast)
/-- axihp_reader.v:177. -/
@[netlist] def w52 (s : S) : Nat :=
  (s.active + 1) % 2 ^ 5
/-- axihp_reader.v:178. -/
@[netlist] def w55 (s : S) : Nat :=
  (2 ^ 5 + s.active - 1) % 2 ^ 5
/-- axihp_reader.v:179. -/
@[netlist] def w57 (s : S) : Bool :=
  s.active == 0
/-- axihp_reader.v:181. -/
@[netlist] def w7 (s : S) : Bool :=
  s.arvalid == false
/-- axihp_reader.v:322. -/
@[netlist] def w51 (s : S) : Nat :=
  (w52 s)
/-- axihp_reader.v:323. -/
@[netlist] def w54 (s : S) : Nat :=
  (w55 s)
/-- axihp_reader.v:275-278. -/
@[netlist] def next_reader_active (s : S) : Nat :=
  s.active
/-- axihp_reader.v:324. -/
@[netlist] def reader_active (s : S) : Nat :=
  (next_reader_active s)
/-- axihp_reader.v:241-245. -/
@[netlist] def next_m_axi_ro__arprot (s : S) : Nat :=
  0
/-- axihp_reader.v:327. -/
@[netlist] def m_axi_ro__arprot (s : S) : Nat :=
  (next_m_axi_ro__arprot s)
/-- axihp_reader.v:236-240. -/
@[netlist] def next_m_axi_ro__arsize (s : S) : Nat :=
  3
/-- axihp_reader.v:328. -/
@[netlist] def m_axi_ro__arsize (s : S) : Nat :=
  (next_m_axi_ro__arsize s)
/-- axihp_reader.v:231-235. -/
@[netlist] def next_m_axi_ro__arburst (s : S) : Nat :=
  1
/-- axihp_reader.v:329. -/
@[netlist] def m_axi_ro__arburst (s : S) : Nat :=
  (next_m_axi_ro__arburst s)
/-- axihp_reader.v:188-192. -/
@[netlist] def next_arlen_c (s : S) : Nat :=
  15
/-- axihp_reader.v:342. -/
@[netlist] def arlen_c (s : S) : Nat :=
  (next_arlen_c s)
/-- axihp_reader.v:227-230. -/
@[netlist] def next_m_axi_ro__arlen (s : S) : Nat :=
  (arlen_c s)
/-- axihp_reader.v:330. -/
@[netlist] def m_axi_ro__arlen (s : S) : Nat :=
  (next_m_axi_ro__arlen s)
/-- axihp_reader.v:222-226. -/
@[netlist] def next_m_axi_ro__arid (s : S) : Nat :=
  0
/-- axihp_reader.v:331. -/
@[netlist] def m_axi_ro__arid (s : S) : Nat :=
  (next_m_axi_ro__arid s)
/-- axihp_reader.v:218-221. -/
@[netlist] def next_inactive (s : S) : Bool :=
  (w57 s)
/-- axihp_reader.v:332. -/
@[netlist] def inactive (s : S) : Bool :=
  (next_inactive s)
/-- axihp_reader.v:201-204. -/
@[netlist] def next_data_enable (s : S) (m_axi_ri__rvalid : Bool) : Bool :=
  (data_en s m_axi_ri__rvalid)
/-- axihp_reader.v:333. -/
@[netlist] def data_enable (s : S) (m_axi_ri__rvalid : Bool) : Bool :=
  (next_data_enable s m_axi_ri__rvalid)
/-- axihp_reader.v:197-200. -/
@[netlist] def next_m_axi_ro__rready (s : S) : Bool :=
  s.rready
/-- axihp_reader.v:334. -/
@[netlist] def m_axi_ro__rready (s : S) : Bool :=
  (next_m_axi_ro__rready s)
/-- axihp_reader.v:318-321. -/
@[netlist] def next_data_out (s : S) (m_axi_ri__rdata : Nat) : Nat :=
  m_axi_ri__rdata
/-- axihp_reader.v:335. -/
@[netlist] def data_out (s : S) (m_axi_ri__rdata : Nat) : Nat :=
  (next_data_out s m_axi_ri__rdata)
/-- axihp_reader.v:314-317. -/
@[netlist] def next_reader_error (s : S) (m_axi_ri__rvalid : Bool) (m_axi_ri__rresp : Nat) : Bool :=
  (w37 s m_axi_ri__rvalid m_axi_ri__rresp)
/-- axihp_reader.v:336. -/
@[netlist] def reader_error (s : S) (m_axi_ri__rvalid : Bool) (m_axi_ri__rresp : Nat) : Bool :=
  (next_reader_error s m_axi_ri__rvalid m_axi_ri__rresp)
/-- axihp_reader.v:287-290. -/
@[netlist] def next_addr_enable (s : S) (m_axi_ri__arready : Bool) : Bool :=
  (addr_en s m_axi_ri__arready)
/-- axihp_reader.v:338. -/
@[netlist] def addr_enable (s : S) (m_axi_ri__arready : Bool) : Bool :=
  (next_addr_enable s m_axi_ri__arready)
/-- axihp_reader.v:283-286. -/
@[netlist] def next_m_axi_ro__arvalid (s : S) : Bool :=
  s.arvalid
/-- axihp_reader.v:339. -/
@[netlist] def m_axi_ro__arvalid (s : S) : Bool :=
  (next_m_axi_ro__arvalid s)
/-- axihp_reader.v:279-282. -/
@[netlist] def next_m_axi_ro__araddr (s : S) (addr_in : Nat) : Nat :=
  addr_in
/-- axihp_reader.v:340. -/
@[netlist] def m_axi_ro__araddr (s : S) (addr_in : Nat) : Nat :=
  (next_m_axi_ro__araddr s addr_in)
/-- axihp_reader.v:205-217. -/
@[netlist] def next_active (s : S) (m_axi_ri__rlast : Bool) (rst : Bool) (m_axi_ri__arready : Bool) : Nat :=
  let e1 := if (w43 s m_axi_ri__rlast m_axi_ri__arready) = true then slc (w51 s) 0 4
  else if (w49 s m_axi_ri__rlast m_axi_ri__arready) = true then slc (w54 s) 0 4
  else s.active
  if rst = true then 0
  else e1
/-- axihp_reader.v:250-270. -/
@[netlist] def next_arvalid (s : S) (enable : Bool) (addr_empty : Bool) (rst : Bool) (m_axi_ri__arready : Bool) : Bool :=
  let e1 := if (w7 s) = true then (if (w17 s enable addr_empty) = true then true
    else s.arvalid)
  else s.arvalid
  let e2 := if s.arvalid = true then (if m_axi_ri__arready = true then false
    else e1)
  else e1
  if rst = true then false
  else e2
/-- axihp_reader.v:295-313. -/
@[netlist] def next_rready (s : S) (data_full : Bool) (m_axi_ri__rlast : Bool) (rst : Bool) : Bool :=
  let e1 := if (w25 s) = true then (if (w31 s data_full) = true then true
    else s.rready)
  else (if m_axi_ri__rlast = true then false
    else s.rready)
  if rst = true then false
  else e1

/-- axihp_reader.v:6-343: one rising clock edge (`always @(posedge ...)`). -/
@[netlist] def step (s : S) (enable : Bool) (addr_empty : Bool) (addr_in : Nat) (m_axi_ri__rvalid : Bool) (data_full : Bool) (m_axi_ri__rlast : Bool) (m_axi_ri__rresp : Nat) (m_axi_ri__rdata : Nat) (m_axi_aclk_ : Bool) (rst : Bool) (m_axi_ri__arready : Bool) : S :=
  { active := (next_active s m_axi_ri__rlast rst m_axi_ri__arready)
    rready := (next_rready s data_full m_axi_ri__rlast rst)
    arvalid := (next_arvalid s enable addr_empty rst m_axi_ri__arready) }

/-- axihp_reader.v:6-343: the initial values given in the netlist. -/
def Init (s : S) : Prop :=
  s.active = 0 ∧
  s.rready = false ∧
  s.arvalid = false

/-- axihp_reader.v:6-343: a state with these initial values; registers without one are 0. -/
def powerUp : S :=
  { active := 0
    rready := false
    arvalid := false }

theorem powerUp_init : Init powerUp := ⟨rfl, rfl, rfl⟩

end top

end Netlist.HpReaderV
