/- Generated by netlist/v2lean.py from verilog_src/beta_integration_fullaxi.v.  Do not edit. -/
import Verif.Netlist.Beta

set_option autoImplicit false
set_option linter.unusedVariables false

namespace Netlist.BetaFull
open Netlist

namespace address_gen_read

/-- beta_integration_fullaxi.v:5-92: registers, memories and instances of module `address_gen_read`. -/
structure S where
  fsm_state : Bool
  address_valid : Bool
  address_o : Nat

/-- beta_integration_fullaxi.v:35. -/
@[netlist] def w2 (s : S) : Nat :=
  (s.address_o + 128) % 2 ^ 33
/-- beta_integration_fullaxi.v:36. -/
@[netlist] def w5 (s : S) : Nat :=
  (s.address_o + 128) % 2 ^ 33
/-- beta_integration_fullaxi.v:90. -/
@[netlist] def w1 (s : S) : Nat :=
  (w2 s)
/-- beta_integration_fullaxi.v:91. -/
@[netlist] def w4 (s : S) : Nat :=
  (w5 s)
/-- beta_integration_fullaxi.v:43-64. -/
@[netlist] def next_address_o (s : S) (address_latch : Bool) (rst : Bool) (starting_address : Nat) : Nat :=
  let e1 := if s.fsm_state = false then (if address_latch = true then slc (w1 s) 0 32
    else starting_address)
  else if s.fsm_state = true then (if address_latch = true then slc (w4 s) 0 32
    else s.address_o)
  else s.address_o
  if rst = true then 0
  else e1
/-- beta_integration_fullaxi.v:65-75. -/
@[netlist] def next_address_valid (s : S) (rst : Bool) : Bool :=
  let e1 := if s.fsm_state = false then true
  else s.address_valid
  if rst = true then false
  else e1
/-- beta_integration_fullaxi.v:76-89. -/
@[netlist] def next_fsm_state (s : S) (address_latch : Bool) (rst : Bool) : Bool :=
  let e1 := if s.fsm_state = false then (if address_latch = true then true
    else s.fsm_state)
  else s.fsm_state
  if rst = true then false
  else e1

/-- beta_integration_fullaxi.v:5-92: one rising clock edge (`always @(posedge ...)`). -/
@[netlist] def step (s : S) (address_latch : Bool) (rst : Bool) (starting_address : Nat) : S :=
  { fsm_state := (next_fsm_state s address_latch rst)
    address_valid := (next_address_valid s rst)
    address_o := (next_address_o s address_latch rst starting_address) }

/-- beta_integration_fullaxi.v:5-92: the initial values given in the netlist. -/
def Init (s : S) : Prop :=
  s.fsm_state = false ∧
  s.address_valid = false ∧
  s.address_o = 0

/-- beta_integration_fullaxi.v:5-92: a state with these initial values; registers without one are 0. -/
def powerUp : S :=
  { fsm_state := false
    address_valid := false
    address_o := 0 }

theorem powerUp_init : Init powerUp := ⟨rfl, rfl, rfl⟩

end address_gen_read

namespace address_gen_write

/-- beta_integration_fullaxi.v:96-183: registers, memories and instances of module `address_gen_write`. -/
structure S where
  fsm_state : Bool
  address_valid : Bool
  address_o : Nat

/-- beta_integration_fullaxi.v:126. -/
@[netlist] def w2 (s : S) : Nat :=
  (s.address_o + 128) % 2 ^ 33
/-- beta_integration_fullaxi.v:127. -/
@[netlist] def w5 (s : S) : Nat :=
  (s.address_o + 128) % 2 ^ 33
/-- beta_integration_fullaxi.v:181. -/
@[netlist] def w1 (s : S) : Nat :=
  (w2 s)
/-- beta_integration_fullaxi.v:182. -/
@[netlist] def w4 (s : S) : Nat :=
  (w5 s)
/-- beta_integration_fullaxi.v:134-155. -/
@[netlist] def next_address_o (s : S) (address_latch : Bool) (rst : Bool) (starting_address : Nat) : Nat :=
  let e1 := if s.fsm_state = false then (if address_latch = true then slc (w1 s) 0 32
    else starting_address)
  else if s.fsm_state = true then (if address_latch = true then slc (w4 s) 0 32
    else s.address_o)
  else s.address_o
  if rst = true then 0
  else e1
/-- beta_integration_fullaxi.v:156-166. -/
@[netlist] def next_address_valid (s : S) (rst : Bool) : Bool :=
  let e1 := if s.fsm_state = false then true
  else s.address_valid
  if rst = true then false
  else e1
/-- beta_integration_fullaxi.v:167-180. -/
@[netlist] def next_fsm_state (s : S) (address_latch : Bool) (rst : Bool) : Bool :=
  let e1 := if s.fsm_state = false then (if address_latch = true then true
    else s.fsm_state)
  else s.fsm_state
  if rst = true then false
  else e1

/-- beta_integration_fullaxi.v:96-183: one rising clock edge (`always @(posedge ...)`). -/
@[netlist] def step (s : S) (address_latch : Bool) (rst : Bool) (starting_address : Nat) : S :=
  { fsm_state := (next_fsm_state s address_latch rst)
    address_valid := (next_address_valid s rst)
    address_o := (next_address_o s address_latch rst starting_address) }

/-- beta_integration_fullaxi.v:96-183: the initial values given in the netlist. -/
def Init (s : S) : Prop :=
  s.fsm_state = false ∧
  s.address_valid = false ∧
  s.address_o = 0

/-- beta_integration_fullaxi.v:96-183: a state with these initial values; registers without one are 0. -/
def powerUp : S :=
  { fsm_state := false
    address_valid := false
    address_o := 0 }

theorem powerUp_init : Init powerUp := ⟨rfl, rfl, rfl⟩

end address_gen_write

namespace axihp_reader

/-- beta_integration_fullaxi.v:1320-1657: registers, memories and instances of module `axihp_reader`. -/
structure S where
  active : Nat
  rready : Bool
  arvalid : Bool

/-- beta_integration_fullaxi.v:1468. -/
@[netlist] def w9 (s : S) (enable : Bool) : Bool :=
  enable == true
/-- beta_integration_fullaxi.v:1469. -/
@[netlist] def w11 (s : S) (addr_empty : Bool) : Bool :=
  addr_empty == false
/-- beta_integration_fullaxi.v:1470. -/
@[netlist] def w13 (s : S) (enable : Bool) (addr_empty : Bool) : Bool :=
  (w9 s enable) && (w11 s addr_empty)
/-- beta_integration_fullaxi.v:1471. -/
@[netlist] def w15 (s : S) : Bool :=
  (s.active.testBit 3) == false
/-- beta_integration_fullaxi.v:1472. -/
@[netlist] def w17 (s : S) (enable : Bool) (addr_empty : Bool) : Bool :=
  (w13 s enable addr_empty) && (w15 s)
/-- beta_integration_fullaxi.v:1473. -/
@[netlist] def w1 (s : S) : Bool :=
  s.arvalid == true
/-- beta_integration_fullaxi.v:1474. -/
@[netlist] def w19 (s : S) : Bool :=
  s.rready == true
/-- beta_integration_fullaxi.v:1475. -/
@[netlist] def w21 (s : S) (m_axi_ri__rvalid : Bool) : Bool :=
  m_axi_ri__rvalid == true
/-- beta_integration_fullaxi.v:1476. -/
@[netlist] def w23 (s : S) (m_axi_ri__rvalid : Bool) : Bool :=
  (w19 s) && (w21 s m_axi_ri__rvalid)
/-- beta_integration_fullaxi.v:1477. -/
@[netlist] def w25 (s : S) : Bool :=
  s.rready == false
/-- beta_integration_fullaxi.v:1478. -/
@[netlist] def w27 (s : S) (data_full : Bool) : Bool :=
  data_full == false
/-- beta_integration_fullaxi.v:1479. -/
@[netlist] def w29 (s : S) : Bool :=
  s.active != 0
/-- beta_integration_fullaxi.v:1480. -/
@[netlist] def w31 (s : S) (data_full : Bool) : Bool :=
  (w27 s data_full) && (w29 s)
/-- beta_integration_fullaxi.v:1605-1608. -/
@[netlist] def next_data_en (s : S) (m_axi_ri__rvalid : Bool) : Bool :=
  (w23 s m_axi_ri__rvalid)
/-- beta_integration_fullaxi.v:1651. -/
@[netlist] def data_en (s : S) (m_axi_ri__rvalid : Bool) : Bool :=
  (next_data_en s m_axi_ri__rvalid)
/-- beta_integration_fullaxi.v:1481. -/
@[netlist] def w33 (s : S) (m_axi_ri__rvalid : Bool) : Bool :=
  (data_en s m_axi_ri__rvalid) == true
/-- beta_integration_fullaxi.v:1482. -/
@[netlist] def w35 (s : S) (m_axi_ri__rresp : Nat) : Bool :=
  m_axi_ri__rresp != 0
/-- beta_integration_fullaxi.v:1483. -/
@[netlist] def w37 (s : S) (m_axi_ri__rvalid : Bool) (m_axi_ri__rresp : Nat) : Bool :=
  (w33 s m_axi_ri__rvalid) && (w35 s m_axi_ri__rresp)
/-- beta_integration_fullaxi.v:1484. -/
@[netlist] def w3 (s : S) (m_axi_ri__arready : Bool) : Bool :=
  m_axi_ri__arready == true
/-- beta_integration_fullaxi.v:1494. -/
@[netlist] def w5 (s : S) (m_axi_ri__arready : Bool) : Bool :=
  (w1 s) && (w3 s m_axi_ri__arready)
/-- beta_integration_fullaxi.v:1507-1510. -/
@[netlist] def next_addr_en (s : S) (m_axi_ri__arready : Bool) : Bool :=
  (w5 s m_axi_ri__arready)
/-- beta_integration_fullaxi.v:1655. -/
@[netlist] def addr_en (s : S) (m_axi_ri__arready : Bool) : Bool :=
  (next_addr_en s m_axi_ri__arready)
/-- beta_integration_fullaxi.v:1485. -/
@[netlist] def w39 (s : S) (m_axi_ri__arready : Bool) : Bool :=
  (addr_en s m_axi_ri__arready) == true
/-- beta_integration_fullaxi.v:1486. -/
@[netlist] def w41 (s : S) (m_axi_ri__rlast : Bool) : Bool :=
  m_axi_ri__rlast == false
/-- beta_integration_fullaxi.v:1487. -/
@[netlist] def w43 (s : S) (m_axi_ri__rlast : Bool) (m_axi_ri__arready : Bool) : Bool :=
  (w39 s m_axi_ri__arready) && (w41 s m_axi_ri__rlast)
/-- beta_integration_fullaxi.v:1488. -/
@[netlist] def w45 (s : S) (m_axi_ri__arready : Bool) : Bool :=
  (addr_en s m_axi_ri__arready) == false
/-- beta_integration_fullaxi.v:1489. -/
@[netlist] def w47 (s : S) (m_axi_ri__rlast : Bool) : Bool :=
  m_axi_ri__rlast == true
/-- beta_integration_fullaxi.v:1490. -/
@[netlist] def w49 (s : S) (m_axi_ri__rlast : Bool) (m_axi_ri__arready : Bool) : Bool :=
  (w45 s m_axi_ri__arready) && (w47 s m_axi_ri__rlast)
/-- beta_integration_fullaxi.v:1491. -/
@[netlist] def w52 (s : S) : Nat :=
  (s.active + 1) % 2 ^ 5
/-- beta_integration_fullaxi.v:1492. -/
@[netlist] def w55 (s : S) : Nat :=
  (2 ^ 5 + s.active - 1) % 2 ^ 5
/-- beta_integration_fullaxi.v:1493. -/
@[netlist] def w57 (s : S) : Bool :=
  s.active == 0
/-- beta_integration_fullaxi.v:1495. -/
@[netlist] def w7 (s : S) : Bool :=
  s.arvalid == false
/-- beta_integration_fullaxi.v:1636. -/
@[netlist] def w51 (s : S) : Nat :=
  (w52 s)
/-- beta_integration_fullaxi.v:1637. -/
@[netlist] def w54 (s : S) : Nat :=
  (w55 s)
/-- beta_integration_fullaxi.v:1589-1592. -/
@[netlist] def next_reader_active (s : S) : Nat :=
  s.active
/-- beta_integration_fullaxi.v:1638. -/
@[netlist] def reader_active (s : S) : Nat :=
  (next_reader_active s)
/-- beta_integration_fullaxi.v:1555-1559. -/
@[netlist] def next_m_axi_ro__arprot (s : S) : Nat :=
  0
/-- beta_integration_fullaxi.v:1641. -/
@[netlist] def m_axi_ro__arprot (s : S) : Nat :=
  (next_m_axi_ro__arprot s)
/-- beta_integration_fullaxi.v:1550-1554. -/
@[netlist] def next_m_axi_ro__arsize (s : S) : Nat :=
  3
/-- beta_integration_fullaxi.v:1642. -/
@[netlist] def m_axi_ro__arsize (s : S) : Nat :=
  (next_m_axi_ro__arsize s)
/-- beta_integration_fullaxi.v:1545-1549. -/
@[netlist] def next_m_axi_ro__arburst (s : S) : Nat :=
  1
/-- beta_integration_fullaxi.v:1643. -/
@[netlist] def m_axi_ro__arburst (s : S) : Nat :=
  (next_m_axi_ro__arburst s)
/-- beta_integration_fullaxi.v:1502-1506. -/
@[netlist] def next_arlen_c (s : S) : Nat :=
  15
/-- beta_integration_fullaxi.v:1656. -/
@[netlist] def arlen_c (s : S) : Nat :=
  (next_arlen_c s)
/-- beta_integration_fullaxi.v:1541-1544. -/
@[netlist] def next_m_axi_ro__arlen (s : S) : Nat :=
  (arlen_c s)
/-- beta_integration_fullaxi.v:1644. -/
@[netlist] def m_axi_ro__arlen (s : S) : Nat :=
  (next_m_axi_ro__arlen s)
/-- beta_integration_fullaxi.v:1536-1540. -/
@[netlist] def next_m_axi_ro__arid (s : S) : Nat :=
  0
/-- beta_integration_fullaxi.v:1645. -/
@[netlist] def m_axi_ro__arid (s : S) : Nat :=
  (next_m_axi_ro__arid s)
/-- beta_integration_fullaxi.v:1532-1535. -/
@[netlist] def next_inactive (s : S) : Bool :=
  (w57 s)
/-- beta_integration_fullaxi.v:1646. -/
@[netlist] def inactive (s : S) : Bool :=
  (next_inactive s)
/-- beta_integration_fullaxi.v:1515-1518. -/
@[netlist] def next_data_enable (s : S) (m_axi_ri__rvalid : Bool) : Bool :=
  (data_en s m_axi_ri__rvalid)
/-- beta_integration_fullaxi.v:1647. -/
@[netlist] def data_enable (s : S) (m_axi_ri__rvalid : Bool) : Bool :=
  (next_data_enable s m_axi_ri__rvalid)
/-- beta_integration_fullaxi.v:1511-1514. -/
@[netlist] def next_m_axi_ro__rready (s : S) : Bool :=
  s.rready
/-- beta_integration_fullaxi.v:1648. -/
@[netlist] def m_axi_ro__rready (s : S) : Bool :=
  (next_m_axi_ro__rready s)
/-- beta_integration_fullaxi.v:1632-1635. -/
@[netlist] def next_data_out (s : S) (m_axi_ri__rdata : Nat) : Nat :=
  m_axi_ri__rdata
/-- beta_integration_fullaxi.v:1649. -/
@[netlist] def data_out (s : S) (m_axi_ri__rdata : Nat) : Nat :=
  (next_data_out s m_axi_ri__rdata)
/-- beta_integration_fullaxi.v:1628-1631. -/
@[netlist] def next_reader_error (s : S) (m_axi_ri__rvalid : Bool) (m_axi_ri__rresp : Nat) : Bool :=
  (w37 s m_axi_ri__rvalid m_axi_ri__rresp)
/-- beta_integration_fullaxi.v:1650. -/
@[netlist] def reader_error (s : S) (m_axi_ri__rvalid : Bool) (m_axi_ri__rresp : Nat) : Bool :=
  (next_reader_error s m_axi_ri__rvalid m_axi_ri__rresp)
/-- beta_integration_fullaxi.v:1601-1604. -/
@[netlist] def next_addr_enable (s : S) (m_axi_ri__arready : Bool) : Bool :=
  (addr_en s m_axi_ri__arready)
/-- beta_integration_fullaxi.v:1652. -/
@[netlist] def addr_enable (s : S) (m_axi_ri__arready : Bool) : Bool :=
  (next_addr_enable s m_axi_ri__arready)
/-- beta_integration_fullaxi.v:1597-1600. -/
@[netlist] def next_m_axi_ro__arvalid (s : S) : Bool :=
  s.arvalid
/-- beta_integration_fullaxi.v:1653. -/
@[netlist] def m_axi_ro__arvalid (s : S) : Bool :=
  (next_m_axi_ro__arvalid s)
/-- beta_integration_fullaxi.v:1593-1596. -/
@[netlist] def next_m_axi_ro__araddr (s : S) (addr_in : Nat) : Nat :=
  addr_in
/-- beta_integration_fullaxi.v:1654. -/
@[netlist] def m_axi_ro__araddr (s : S) (addr_in : Nat) : Nat :=
  (next_m_axi_ro__araddr s addr_in)
/-- beta_integration_fullaxi.v:1519-1531. -/
@[netlist] def next_active (s : S) (m_axi_ri__rlast : Bool) (rst : Bool) (m_axi_ri__arready : Bool) : Nat :=
  let e1 := if (w43 s m_axi_ri__rlast m_axi_ri__arready) = true then slc (w51 s) 0 4
  else if (w49 s m_axi_ri__rlast m_axi_ri__arready) = true then slc (w54 s) 0 4
  else s.active
  if rst = true then 0
  else e1
/-- beta_integration_fullaxi.v:1564-1584. -/
@[netlist] def next_arvalid (s : S) (enable : Bool) (addr_empty : Bool) (rst : Bool) (m_axi_ri__arready : Bool) : Bool :=
  let e1 := if (w7 s) = true then (if (w17 s enable addr_empty) = true then true
    else s.arvalid)
  else s.arvalid
  let e2 := if s.arvalid = true then (if m_axi_ri__arready = true then false
    else e1)
  else e1
  if rst = true then false
  else e2
/-- beta_integration_fullaxi.v:1609-1627. -/
@[netlist] def next_rready (s : S) (data_full : Bool) (m_axi_ri__rlast : Bool) (rst : Bool) : Bool :=
  let e1 := if (w25 s) = true then (if (w31 s data_full) = true then true
    else s.rready)
  else (if m_axi_ri__rlast = true then false
    else s.rready)
  if rst = true then false
  else e1

/-- beta_integration_fullaxi.v:1320-1657: one rising clock edge (`always @(posedge ...)`). -/
@[netlist] def step (s : S) (enable : Bool) (addr_empty : Bool) (addr_in : Nat) (m_axi_ri__rvalid : Bool) (data_full : Bool) (m_axi_ri__rlast : Bool) (m_axi_ri__rresp : Nat) (m_axi_ri__rdata : Nat) (m_axi_aclk_ : Bool) (rst : Bool) (m_axi_ri__arready : Bool) : S :=
  { active := (next_active s m_axi_ri__rlast rst m_axi_ri__arready)
    rready := (next_rready s data_full m_axi_ri__rlast rst)
    arvalid := (next_arvalid s enable addr_empty rst m_axi_ri__arready) }

/-- beta_integration_fullaxi.v:1320-1657: the initial values given in the netlist. -/
def Init (s : S) : Prop :=
  s.active = 0 ∧
  s.rready = false ∧
  s.arvalid = false

/-- beta_integration_fullaxi.v:1320-1657: a state with these initial values; registers without one are 0. -/
def powerUp : S :=
  { active := 0
    rready := false
    arvalid := false }

theorem powerUp_init : Init powerUp := ⟨rfl, rfl, rfl⟩

end axihp_reader

namespace axihp_writer

/-- beta_integration_fullaxi.v:1661-2189: registers, memories and instances of module `axihp_writer`. -/
structure S where
  unconf : Nat
  active : Nat
  bready : Bool
  wvalid : Bool
  wlast : Bool
  counter : Nat
  awvalid : Bool

/-- beta_integration_fullaxi.v:1876. -/
@[netlist] def w9 (s : S) (enable : Bool) : Bool :=
  enable == true
/-- beta_integration_fullaxi.v:1877. -/
@[netlist] def w11 (s : S) (addr_empty : Bool) : Bool :=
  addr_empty == false
/-- beta_integration_fullaxi.v:1878. -/
@[netlist] def w13 (s : S) (enable : Bool) (addr_empty : Bool) : Bool :=
  (w9 s enable) && (w11 s addr_empty)
/-- beta_integration_fullaxi.v:1879. -/
@[netlist] def w15 (s : S) : Bool :=
  (s.active.testBit 3) == false
/-- beta_integration_fullaxi.v:1880. -/
@[netlist] def w17 (s : S) (enable : Bool) (addr_empty : Bool) : Bool :=
  (w13 s enable addr_empty) && (w15 s)
/-- beta_integration_fullaxi.v:1881. -/
@[netlist] def w1 (s : S) : Bool :=
  s.awvalid == true
/-- beta_integration_fullaxi.v:1882. -/
@[netlist] def w19 (s : S) : Bool :=
  s.counter == 15
/-- beta_integration_fullaxi.v:1883. -/
@[netlist] def w22 (s : S) : Nat :=
  (s.counter + 1) % 2 ^ 5
/-- beta_integration_fullaxi.v:1884. -/
@[netlist] def w24 (s : S) : Bool :=
  s.counter == 15
/-- beta_integration_fullaxi.v:1885. -/
@[netlist] def w26 (s : S) : Bool :=
  s.wvalid == true
/-- beta_integration_fullaxi.v:1886. -/
@[netlist] def w28 (s : S) (m_axi_wi__wready : Bool) : Bool :=
  m_axi_wi__wready == true
/-- beta_integration_fullaxi.v:1887. -/
@[netlist] def w30 (s : S) (m_axi_wi__wready : Bool) : Bool :=
  (w26 s) && (w28 s m_axi_wi__wready)
/-- beta_integration_fullaxi.v:1888. -/
@[netlist] def w32 (s : S) : Bool :=
  s.wvalid == false
/-- beta_integration_fullaxi.v:1889. -/
@[netlist] def w34 (s : S) (data_empty : Bool) : Bool :=
  data_empty == false
/-- beta_integration_fullaxi.v:1890. -/
@[netlist] def w36 (s : S) : Bool :=
  s.active != 0
/-- beta_integration_fullaxi.v:1891. -/
@[netlist] def w38 (s : S) (data_empty : Bool) : Bool :=
  (w34 s data_empty) && (w36 s)
/-- beta_integration_fullaxi.v:1892. -/
@[netlist] def w3 (s : S) (m_axi_wi__awready : Bool) : Bool :=
  m_axi_wi__awready == true
/-- beta_integration_fullaxi.v:1893. -/
@[netlist] def w40 (s : S) : Bool :=
  s.bready == true
/-- beta_integration_fullaxi.v:1894. -/
@[netlist] def w42 (s : S) (m_axi_wi__bvalid : Bool) : Bool :=
  m_axi_wi__bvalid == true
/-- beta_integration_fullaxi.v:1895. -/
@[netlist] def w44 (s : S) (m_axi_wi__bvalid : Bool) : Bool :=
  (w40 s) && (w42 s m_axi_wi__bvalid)
/-- beta_integration_fullaxi.v:1896. -/
@[netlist] def w46 (s : S) : Bool :=
  s.bready == false
/-- beta_integration_fullaxi.v:1897. -/
@[netlist] def w48 (s : S) : Bool :=
  s.unconf == 0
/-- beta_integration_fullaxi.v:1961-1964. -/
@[netlist] def next_resp_en (s : S) (m_axi_wi__bvalid : Bool) : Bool :=
  (w44 s m_axi_wi__bvalid)
/-- beta_integration_fullaxi.v:2178. -/
@[netlist] def resp_en (s : S) (m_axi_wi__bvalid : Bool) : Bool :=
  (next_resp_en s m_axi_wi__bvalid)
/-- beta_integration_fullaxi.v:1898. -/
@[netlist] def w50 (s : S) (m_axi_wi__bvalid : Bool) : Bool :=
  (resp_en s m_axi_wi__bvalid) == true
/-- beta_integration_fullaxi.v:1899. -/
@[netlist] def w52 (s : S) (m_axi_wi__bresp : Nat) : Bool :=
  m_axi_wi__bresp != 0
/-- beta_integration_fullaxi.v:1900. -/
@[netlist] def w54 (s : S) (m_axi_wi__bvalid : Bool) (m_axi_wi__bresp : Nat) : Bool :=
  (w50 s m_axi_wi__bvalid) && (w52 s m_axi_wi__bresp)
/-- beta_integration_fullaxi.v:1903. -/
@[netlist] def w5 (s : S) (m_axi_wi__awready : Bool) : Bool :=
  (w1 s) && (w3 s m_axi_wi__awready)
/-- beta_integration_fullaxi.v:1941-1944. -/
@[netlist] def next_addr_en (s : S) (m_axi_wi__awready : Bool) : Bool :=
  (w5 s m_axi_wi__awready)
/-- beta_integration_fullaxi.v:2187. -/
@[netlist] def addr_en (s : S) (m_axi_wi__awready : Bool) : Bool :=
  (next_addr_en s m_axi_wi__awready)
/-- beta_integration_fullaxi.v:1901. -/
@[netlist] def w56 (s : S) (m_axi_wi__awready : Bool) : Bool :=
  (addr_en s m_axi_wi__awready) == true
/-- beta_integration_fullaxi.v:1902. -/
@[netlist] def w58 (s : S) : Bool :=
  s.wlast == false
/-- beta_integration_fullaxi.v:1904. -/
@[netlist] def w60 (s : S) (m_axi_wi__awready : Bool) : Bool :=
  (w56 s m_axi_wi__awready) && (w58 s)
/-- beta_integration_fullaxi.v:1905. -/
@[netlist] def w62 (s : S) (m_axi_wi__awready : Bool) : Bool :=
  (addr_en s m_axi_wi__awready) == false
/-- beta_integration_fullaxi.v:1906. -/
@[netlist] def w64 (s : S) : Bool :=
  s.wlast == true
/-- beta_integration_fullaxi.v:1907. -/
@[netlist] def w66 (s : S) (m_axi_wi__awready : Bool) : Bool :=
  (w62 s m_axi_wi__awready) && (w64 s)
/-- beta_integration_fullaxi.v:1908. -/
@[netlist] def w69 (s : S) : Nat :=
  (s.active + 1) % 2 ^ 5
/-- beta_integration_fullaxi.v:1909. -/
@[netlist] def w72 (s : S) : Nat :=
  (2 ^ 5 + s.active - 1) % 2 ^ 5
/-- beta_integration_fullaxi.v:1910. -/
@[netlist] def w74 (s : S) (m_axi_wi__awready : Bool) : Bool :=
  (addr_en s m_axi_wi__awready) == true
/-- beta_integration_fullaxi.v:1911. -/
@[netlist] def w76 (s : S) (m_axi_wi__bvalid : Bool) : Bool :=
  (resp_en s m_axi_wi__bvalid) == false
/-- beta_integration_fullaxi.v:1912. -/
@[netlist] def w78 (s : S) (m_axi_wi__bvalid : Bool) (m_axi_wi__awready : Bool) : Bool :=
  (w74 s m_axi_wi__awready) && (w76 s m_axi_wi__bvalid)
/-- beta_integration_fullaxi.v:1913. -/
@[netlist] def w7 (s : S) : Bool :=
  s.awvalid == false
/-- beta_integration_fullaxi.v:1914. -/
@[netlist] def w80 (s : S) (m_axi_wi__awready : Bool) : Bool :=
  (addr_en s m_axi_wi__awready) == false
/-- beta_integration_fullaxi.v:1915. -/
@[netlist] def w82 (s : S) (m_axi_wi__bvalid : Bool) : Bool :=
  (resp_en s m_axi_wi__bvalid) == true
/-- beta_integration_fullaxi.v:1916. -/
@[netlist] def w84 (s : S) (m_axi_wi__bvalid : Bool) (m_axi_wi__awready : Bool) : Bool :=
  (w80 s m_axi_wi__awready) && (w82 s m_axi_wi__bvalid)
/-- beta_integration_fullaxi.v:1917. -/
@[netlist] def w87 (s : S) : Nat :=
  (s.unconf + 1) % 2 ^ 5
/-- beta_integration_fullaxi.v:1918. -/
@[netlist] def w90 (s : S) : Nat :=
  (2 ^ 5 + s.unconf - 1) % 2 ^ 5
/-- beta_integration_fullaxi.v:1919. -/
@[netlist] def w92 (s : S) : Bool :=
  s.active == 0
/-- beta_integration_fullaxi.v:1920. -/
@[netlist] def w94 (s : S) : Bool :=
  s.unconf == 0
/-- beta_integration_fullaxi.v:1921. -/
@[netlist] def w96 (s : S) : Bool :=
  (w92 s) && (w94 s)
/-- beta_integration_fullaxi.v:2159. -/
@[netlist] def w21 (s : S) : Nat :=
  (w22 s)
/-- beta_integration_fullaxi.v:2160. -/
@[netlist] def w68 (s : S) : Nat :=
  (w69 s)
/-- beta_integration_fullaxi.v:2161. -/
@[netlist] def w71 (s : S) : Nat :=
  (w72 s)
/-- beta_integration_fullaxi.v:2162. -/
@[netlist] def w86 (s : S) : Nat :=
  (w87 s)
/-- beta_integration_fullaxi.v:2163. -/
@[netlist] def w89 (s : S) : Nat :=
  (w90 s)
/-- beta_integration_fullaxi.v:2092-2095. -/
@[netlist] def next_writer_unconf (s : S) : Nat :=
  s.unconf
/-- beta_integration_fullaxi.v:2164. -/
@[netlist] def writer_unconf (s : S) : Nat :=
  (next_writer_unconf s)
/-- beta_integration_fullaxi.v:2088-2091. -/
@[netlist] def next_writer_active (s : S) : Nat :=
  s.active
/-- beta_integration_fullaxi.v:2165. -/
@[netlist] def writer_active (s : S) : Nat :=
  (next_writer_active s)
/-- beta_integration_fullaxi.v:2071-2075. -/
@[netlist] def next_m_axi_wo__awprot (s : S) : Nat :=
  0
/-- beta_integration_fullaxi.v:2168. -/
@[netlist] def m_axi_wo__awprot (s : S) : Nat :=
  (next_m_axi_wo__awprot s)
/-- beta_integration_fullaxi.v:2067-2070. -/
@[netlist] def next_m_axi_wo__wstrb (s : S) (write_strobe : Nat) : Nat :=
  write_strobe
/-- beta_integration_fullaxi.v:2169. -/
@[netlist] def m_axi_wo__wstrb (s : S) (write_strobe : Nat) : Nat :=
  (next_m_axi_wo__wstrb s write_strobe)
/-- beta_integration_fullaxi.v:2062-2066. -/
@[netlist] def next_m_axi_wo__awsize (s : S) : Nat :=
  3
/-- beta_integration_fullaxi.v:2170. -/
@[netlist] def m_axi_wo__awsize (s : S) : Nat :=
  (next_m_axi_wo__awsize s)
/-- beta_integration_fullaxi.v:2057-2061. -/
@[netlist] def next_m_axi_wo__awburst (s : S) : Nat :=
  1
/-- beta_integration_fullaxi.v:2171. -/
@[netlist] def m_axi_wo__awburst (s : S) : Nat :=
  (next_m_axi_wo__awburst s)
/-- beta_integration_fullaxi.v:1936-1940. -/
@[netlist] def next_awlen_c (s : S) : Nat :=
  15
/-- beta_integration_fullaxi.v:2188. -/
@[netlist] def awlen_c (s : S) : Nat :=
  (next_awlen_c s)
/-- beta_integration_fullaxi.v:2053-2056. -/
@[netlist] def next_m_axi_wo__awlen (s : S) : Nat :=
  (awlen_c s)
/-- beta_integration_fullaxi.v:2172. -/
@[netlist] def m_axi_wo__awlen (s : S) : Nat :=
  (next_m_axi_wo__awlen s)
/-- beta_integration_fullaxi.v:2048-2052. -/
@[netlist] def next_m_axi_wo__wid (s : S) : Nat :=
  0
/-- beta_integration_fullaxi.v:2173. -/
@[netlist] def m_axi_wo__wid (s : S) : Nat :=
  (next_m_axi_wo__wid s)
/-- beta_integration_fullaxi.v:2043-2047. -/
@[netlist] def next_m_axi_wo__awid (s : S) : Nat :=
  0
/-- beta_integration_fullaxi.v:2174. -/
@[netlist] def m_axi_wo__awid (s : S) : Nat :=
  (next_m_axi_wo__awid s)
/-- beta_integration_fullaxi.v:2039-2042. -/
@[netlist] def next_inactive (s : S) : Bool :=
  (w96 s)
/-- beta_integration_fullaxi.v:2175. -/
@[netlist] def inactive (s : S) : Bool :=
  (next_inactive s)
/-- beta_integration_fullaxi.v:1988-1991. -/
@[netlist] def next_writer_error (s : S) (m_axi_wi__bvalid : Bool) (m_axi_wi__bresp : Nat) : Bool :=
  (w54 s m_axi_wi__bvalid m_axi_wi__bresp)
/-- beta_integration_fullaxi.v:2176. -/
@[netlist] def writer_error (s : S) (m_axi_wi__bvalid : Bool) (m_axi_wi__bresp : Nat) : Bool :=
  (next_writer_error s m_axi_wi__bvalid m_axi_wi__bresp)
/-- beta_integration_fullaxi.v:1984-1987. -/
@[netlist] def next_m_axi_wo__bready (s : S) : Bool :=
  s.bready
/-- beta_integration_fullaxi.v:2177. -/
@[netlist] def m_axi_wo__bready (s : S) : Bool :=
  (next_m_axi_wo__bready s)
/-- beta_integration_fullaxi.v:2136-2139. -/
@[netlist] def next_data_en (s : S) (m_axi_wi__wready : Bool) : Bool :=
  (w30 s m_axi_wi__wready)
/-- beta_integration_fullaxi.v:2183. -/
@[netlist] def data_en (s : S) (m_axi_wi__wready : Bool) : Bool :=
  (next_data_en s m_axi_wi__wready)
/-- beta_integration_fullaxi.v:1957-1960. -/
@[netlist] def next_data_enable (s : S) (m_axi_wi__wready : Bool) : Bool :=
  (data_en s m_axi_wi__wready)
/-- beta_integration_fullaxi.v:2179. -/
@[netlist] def data_enable (s : S) (m_axi_wi__wready : Bool) : Bool :=
  (next_data_enable s m_axi_wi__wready)
/-- beta_integration_fullaxi.v:1953-1956. -/
@[netlist] def next_m_axi_wo__wlast (s : S) : Bool :=
  s.wlast
/-- beta_integration_fullaxi.v:2180. -/
@[netlist] def m_axi_wo__wlast (s : S) : Bool :=
  (next_m_axi_wo__wlast s)
/-- beta_integration_fullaxi.v:1949-1952. -/
@[netlist] def next_m_axi_wo__wvalid (s : S) : Bool :=
  s.wvalid
/-- beta_integration_fullaxi.v:2181. -/
@[netlist] def m_axi_wo__wvalid (s : S) : Bool :=
  (next_m_axi_wo__wvalid s)
/-- beta_integration_fullaxi.v:1945-1948. -/
@[netlist] def next_m_axi_wo__wdata (s : S) (data_in : Nat) : Nat :=
  data_in
/-- beta_integration_fullaxi.v:2182. -/
@[netlist] def m_axi_wo__wdata (s : S) (data_in : Nat) : Nat :=
  (next_m_axi_wo__wdata s data_in)
/-- beta_integration_fullaxi.v:2100-2103. -/
@[netlist] def next_addr_enable (s : S) (m_axi_wi__awready : Bool) : Bool :=
  (addr_en s m_axi_wi__awready)
/-- beta_integration_fullaxi.v:2184. -/
@[netlist] def addr_enable (s : S) (m_axi_wi__awready : Bool) : Bool :=
  (next_addr_enable s m_axi_wi__awready)
/-- beta_integration_fullaxi.v:2096-2099. -/
@[netlist] def next_m_axi_wo__awvalid (s : S) : Bool :=
  s.awvalid
/-- beta_integration_fullaxi.v:2185. -/
@[netlist] def m_axi_wo__awvalid (s : S) : Bool :=
  (next_m_axi_wo__awvalid s)
/-- beta_integration_fullaxi.v:2084-2087. -/
@[netlist] def next_m_axi_wo__awaddr (s : S) (addr_in : Nat) : Nat :=
  addr_in
/-- beta_integration_fullaxi.v:2186. -/
@[netlist] def m_axi_wo__awaddr (s : S) (addr_in : Nat) : Nat :=
  (next_m_axi_wo__awaddr s addr_in)
/-- beta_integration_fullaxi.v:1965-1983. -/
@[netlist] def next_bready (s : S) (enable : Bool) (rst : Bool) : Bool :=
  let e1 := if (w46 s) = true then (if enable = true then true
    else s.bready)
  else (if (w48 s) = true then false
    else s.bready)
  if rst = true then false
  else e1
/-- beta_integration_fullaxi.v:1992-2004. -/
@[netlist] def next_active (s : S) (rst : Bool) (m_axi_wi__awready : Bool) : Nat :=
  let e1 := if (w60 s m_axi_wi__awready) = true then slc (w68 s) 0 4
  else if (w66 s m_axi_wi__awready) = true then slc (w71 s) 0 4
  else s.active
  if rst = true then 0
  else e1
/-- beta_integration_fullaxi.v:2005-2017. -/
@[netlist] def next_unconf (s : S) (m_axi_wi__bvalid : Bool) (rst : Bool) (m_axi_wi__awready : Bool) : Nat :=
  let e1 := if (w78 s m_axi_wi__bvalid m_axi_wi__awready) = true then slc (w86 s) 0 4
  else if (w84 s m_axi_wi__bvalid m_axi_wi__awready) = true then slc (w89 s) 0 4
  else s.unconf
  if rst = true then 0
  else e1
/-- beta_integration_fullaxi.v:2018-2038. -/
@[netlist] def next_awvalid (s : S) (enable : Bool) (addr_empty : Bool) (rst : Bool) (m_axi_wi__awready : Bool) : Bool :=
  let e1 := if (w7 s) = true then (if (w17 s enable addr_empty) = true then true
    else s.awvalid)
  else s.awvalid
  let e2 := if s.awvalid = true then (if m_axi_wi__awready = true then false
    else e1)
  else e1
  if rst = true then false
  else e2
/-- beta_integration_fullaxi.v:2104-2119. -/
@[netlist] def next_counter (s : S) (m_axi_wi__wready : Bool) (rst : Bool) : Nat :=
  let e1 := if (data_en s m_axi_wi__wready) = true then (if (w19 s) = true then 0
    else slc (w21 s) 0 4)
  else s.counter
  if rst = true then 0
  else e1
/-- beta_integration_fullaxi.v:2120-2135. -/
@[netlist] def next_wlast (s : S) (m_axi_wi__wready : Bool) (rst : Bool) : Bool :=
  let e1 := if (data_en s m_axi_wi__wready) = true then (if (w24 s) = true then true
    else false)
  else s.wlast
  if rst = true then false
  else e1
/-- beta_integration_fullaxi.v:2140-2158. -/
@[netlist] def next_wvalid (s : S) (data_empty : Bool) (rst : Bool) : Bool :=
  let e1 := if (w32 s) = true then (if (w38 s data_empty) = true then true
    else s.wvalid)
  else (if s.wlast = true then false
    else s.wvalid)
  if rst = true then false
  else e1

/-- beta_integration_fullaxi.v:1661-2189: one rising clock edge (`always @(posedge ...)`). -/
@[netlist] def step (s : S) (enable : Bool) (addr_empty : Bool) (addr_in : Nat) (m_axi_wi__wready : Bool) (data_empty : Bool) (data_in : Nat) (m_axi_wi__bvalid : Bool) (m_axi_wi__bresp : Nat) (write_strobe : Nat) (m_axi_aclk : Bool) (rst : Bool) (m_axi_wi__awready : Bool) : S :=
  { unconf := (next_unconf s m_axi_wi__bvalid rst m_axi_wi__awready)
    active := (next_active s rst m_axi_wi__awready)
    bready := (next_bready s enable rst)
    wvalid := (next_wvalid s data_empty rst)
    wlast := (next_wlast s m_axi_wi__wready rst)
    counter := (next_counter s m_axi_wi__wready rst)
    awvalid := (next_awvalid s enable addr_empty rst m_axi_wi__awready) }

/-- beta_integration_fullaxi.v:1661-2189: the initial values given in the netlist. -/
def Init (s : S) : Prop :=
  s.unconf = 0 ∧
  s.active = 0 ∧
  s.bready = false ∧
  s.wvalid = false ∧
  s.wlast = false ∧
  s.counter = 0 ∧
  s.awvalid = false

/-- beta_integration_fullaxi.v:1661-2189: a state with these initial values; registers without one are 0. -/
def powerUp : S :=
  { unconf := 0
    active := 0
    bready := false
    wvalid := false
    wlast := false
    counter := 0
    awvalid := false }

theorem powerUp_init : Init powerUp := ⟨rfl, rfl, rfl, rfl, rfl, rfl, rfl⟩

end axihp_writer

namespace b16_b64

/-- beta_integration_fullaxi.v:2193-2668: registers, memories and instances of module `b16_b64`. -/
structure S where
  buffer2 : Nat
  buffer1 : Nat
  fsm_state : Nat
  o_busy : Bool
  buffer2_valid : Bool
  buffer1_valid : Bool
  buff_chs : Bool
  valid_out : Bool
  data_out : Nat
  end_out : Bool
  counter : Nat
  reg_end : Bool

/-- beta_integration_fullaxi.v:2317. -/
@[netlist] def w9 (s : S) : Bool :=
  s.o_busy == false
/-- beta_integration_fullaxi.v:2355. -/
@[netlist] def w7 (s : S) (valid_in : Bool) : Bool :=
  valid_in == true
/-- beta_integration_fullaxi.v:2318. -/
@[netlist] def w11 (s : S) (valid_in : Bool) : Bool :=
  (w7 s valid_in) && (w9 s)
/-- beta_integration_fullaxi.v:2319. -/
@[netlist] def w13 (s : S) : Bool :=
  s.reg_end == true
/-- beta_integration_fullaxi.v:2320. -/
@[netlist] def w15 (s : S) : Bool :=
  s.valid_out == true
/-- beta_integration_fullaxi.v:2321. -/
@[netlist] def w17 (s : S) : Bool :=
  (w13 s) && (w15 s)
/-- beta_integration_fullaxi.v:2322. -/
@[netlist] def w1 (s : S) : Bool :=
  s.valid_out == true
/-- beta_integration_fullaxi.v:2323. -/
@[netlist] def w19 (s : S) (i_busy : Bool) : Bool :=
  i_busy == false
/-- beta_integration_fullaxi.v:2324. -/
@[netlist] def w21 (s : S) (i_busy : Bool) : Bool :=
  (w17 s) && (w19 s i_busy)
/-- beta_integration_fullaxi.v:2325. -/
@[netlist] def w24 (s : S) : Nat :=
  (s.counter + 1) % 2 ^ 4
/-- beta_integration_fullaxi.v:2326. -/
@[netlist] def w26 (s : S) : Bool :=
  s.reg_end == true
/-- beta_integration_fullaxi.v:2327. -/
@[netlist] def w28 (s : S) : Bool :=
  s.counter == 7
/-- beta_integration_fullaxi.v:2328. -/
@[netlist] def w30 (s : S) : Bool :=
  (w26 s) && (w28 s)
/-- beta_integration_fullaxi.v:2329. -/
@[netlist] def w32 (s : S) : Bool :=
  s.buff_chs == false
/-- beta_integration_fullaxi.v:2330. -/
@[netlist] def w34 (s : S) : Bool :=
  s.buff_chs == true
/-- beta_integration_fullaxi.v:2331. -/
@[netlist] def w36 (s : S) : Bool :=
  s.buffer1_valid == true
/-- beta_integration_fullaxi.v:2332. -/
@[netlist] def w38 (s : S) : Bool :=
  s.buffer2_valid == true
/-- beta_integration_fullaxi.v:2333. -/
@[netlist] def w3 (s : S) (i_busy : Bool) : Bool :=
  i_busy == false
/-- beta_integration_fullaxi.v:2334. -/
@[netlist] def w40 (s : S) : Bool :=
  (w36 s) || (w38 s)
/-- beta_integration_fullaxi.v:2344. -/
@[netlist] def w5 (s : S) (i_busy : Bool) : Bool :=
  (w1 s) && (w3 s i_busy)
/-- beta_integration_fullaxi.v:2383-2390. -/
@[netlist] def next_is_valid (s : S) (i_busy : Bool) : Bool :=
  if (w5 s i_busy) = true then false
  else true
/-- beta_integration_fullaxi.v:2667. -/
@[netlist] def is_valid (s : S) (i_busy : Bool) : Bool :=
  (next_is_valid s i_busy)
/-- beta_integration_fullaxi.v:2335. -/
@[netlist] def w42 (s : S) (i_busy : Bool) : Bool :=
  (is_valid s i_busy) == true
/-- beta_integration_fullaxi.v:2336. -/
@[netlist] def w44 (s : S) (i_busy : Bool) : Bool :=
  (w40 s) && (w42 s i_busy)
/-- beta_integration_fullaxi.v:2337. -/
@[netlist] def w46 (s : S) : Bool :=
  s.valid_out == true
/-- beta_integration_fullaxi.v:2338. -/
@[netlist] def w48 (s : S) (i_busy : Bool) : Bool :=
  i_busy == false
/-- beta_integration_fullaxi.v:2339. -/
@[netlist] def w50 (s : S) (i_busy : Bool) : Bool :=
  (w46 s) && (w48 s i_busy)
/-- beta_integration_fullaxi.v:2340. -/
@[netlist] def w52 (s : S) : Bool :=
  s.buff_chs == false
/-- beta_integration_fullaxi.v:2341. -/
@[netlist] def w54 (s : S) : Bool :=
  s.valid_out == true
/-- beta_integration_fullaxi.v:2342. -/
@[netlist] def w56 (s : S) (i_busy : Bool) : Bool :=
  i_busy == false
/-- beta_integration_fullaxi.v:2343. -/
@[netlist] def w58 (s : S) (i_busy : Bool) : Bool :=
  (w54 s) && (w56 s i_busy)
/-- beta_integration_fullaxi.v:2345. -/
@[netlist] def w60 (s : S) : Bool :=
  s.buff_chs == false
/-- beta_integration_fullaxi.v:2346. -/
@[netlist] def w62 (s : S) : Bool :=
  s.valid_out == true
/-- beta_integration_fullaxi.v:2347. -/
@[netlist] def w64 (s : S) (i_busy : Bool) : Bool :=
  i_busy == false
/-- beta_integration_fullaxi.v:2348. -/
@[netlist] def w66 (s : S) (i_busy : Bool) : Bool :=
  (w62 s) && (w64 s i_busy)
/-- beta_integration_fullaxi.v:2349. -/
@[netlist] def w68 (s : S) : Bool :=
  s.buff_chs == true
/-- beta_integration_fullaxi.v:2350. -/
@[netlist] def w70 (s : S) : Bool :=
  s.buffer1_valid == false
/-- beta_integration_fullaxi.v:2351. -/
@[netlist] def w72 (s : S) : Bool :=
  s.buffer2_valid == false
/-- beta_integration_fullaxi.v:2352. -/
@[netlist] def w74 (s : S) : Bool :=
  s.buffer2_valid == false
/-- beta_integration_fullaxi.v:2353. -/
@[netlist] def w76 (s : S) : Bool :=
  s.buffer1_valid == false
/-- beta_integration_fullaxi.v:2354. -/
@[netlist] def w78 (s : S) : Bool :=
  s.buffer1_valid == false
/-- beta_integration_fullaxi.v:2356. -/
@[netlist] def w80 (s : S) : Bool :=
  s.buffer2_valid == false
/-- beta_integration_fullaxi.v:2357. -/
@[netlist] def w82 (s : S) : Bool :=
  s.buffer2_valid == false
/-- beta_integration_fullaxi.v:2358. -/
@[netlist] def w84 (s : S) : Bool :=
  s.buffer1_valid == false
/-- beta_integration_fullaxi.v:2666. -/
@[netlist] def w23 (s : S) : Nat :=
  (w24 s)
/-- beta_integration_fullaxi.v:2391-2401. -/
@[netlist] def next_reg_end (s : S) (end_in : Bool) (rst : Bool) (valid_in : Bool) : Bool :=
  let e1 := if (w11 s valid_in) = true then end_in
  else s.reg_end
  if rst = true then false
  else e1
/-- beta_integration_fullaxi.v:2402-2470. -/
@[netlist] def next_fsm_state (s : S) (rst : Bool) (valid_in : Bool) : Nat :=
  let e1 := if s.fsm_state = 0 then (if (w78 s) = true then 1
    else s.fsm_state)
  else if s.fsm_state = 1 then (if valid_in = true then 2
    else s.fsm_state)
  else if s.fsm_state = 2 then (if valid_in = true then 3
    else s.fsm_state)
  else if s.fsm_state = 3 then (if valid_in = true then 4
    else s.fsm_state)
  else if s.fsm_state = 4 then (if valid_in = true then (if (w80 s) = true then 5
      else 6)
    else s.fsm_state)
  else if s.fsm_state = 6 then (if (w82 s) = true then 5
    else s.fsm_state)
  else if s.fsm_state = 5 then (if valid_in = true then 7
    else s.fsm_state)
  else if s.fsm_state = 7 then (if valid_in = true then 8
    else s.fsm_state)
  else if s.fsm_state = 8 then (if valid_in = true then 9
    else s.fsm_state)
  else if s.fsm_state = 9 then (if valid_in = true then (if (w84 s) = true then 1
      else 0)
    else s.fsm_state)
  else s.fsm_state
  if rst = true then 0
  else e1
/-- beta_integration_fullaxi.v:2471-2499. -/
@[netlist] def next_buffer1 (s : S) (data_in : Nat) (rst : Bool) (valid_in : Bool) : Nat :=
  let e1 := if s.fsm_state = 1 then (if valid_in = true then put s.buffer1 48 16 data_in
    else s.buffer1)
  else if s.fsm_state = 2 then (if valid_in = true then put s.buffer1 32 16 data_in
    else s.buffer1)
  else if s.fsm_state = 3 then (if valid_in = true then put s.buffer1 16 16 data_in
    else s.buffer1)
  else if s.fsm_state = 4 then (if valid_in = true then put s.buffer1 0 16 data_in
    else s.buffer1)
  else s.buffer1
  if rst = true then 0
  else e1
/-- beta_integration_fullaxi.v:2500-2528. -/
@[netlist] def next_buffer2 (s : S) (data_in : Nat) (rst : Bool) (valid_in : Bool) : Nat :=
  let e1 := if s.fsm_state = 5 then (if valid_in = true then put s.buffer2 48 16 data_in
    else s.buffer2)
  else if s.fsm_state = 7 then (if valid_in = true then put s.buffer2 32 16 data_in
    else s.buffer2)
  else if s.fsm_state = 8 then (if valid_in = true then put s.buffer2 16 16 data_in
    else s.buffer2)
  else if s.fsm_state = 9 then (if valid_in = true then put s.buffer2 0 16 data_in
    else s.buffer2)
  else s.buffer2
  if rst = true then 0
  else e1
/-- beta_integration_fullaxi.v:2529-2539. -/
@[netlist] def next_counter (s : S) (i_busy : Bool) (rst : Bool) : Nat :=
  let e1 := if (w21 s i_busy) = true then slc (w23 s) 0 3
  else s.counter
  if rst = true then 0
  else e1
/-- beta_integration_fullaxi.v:2540-2550. -/
@[netlist] def next_end_out (s : S) (rst : Bool) : Bool :=
  let e1 := if (w30 s) = true then true
  else s.end_out
  if rst = true then false
  else e1
/-- beta_integration_fullaxi.v:2551-2565. -/
@[netlist] def next_data_out (s : S) (rst : Bool) : Nat :=
  let e1 := if (w32 s) = true then s.buffer1
  else s.data_out
  let e2 := if (w34 s) = true then s.buffer2
  else e1
  if rst = true then 0
  else e2
/-- beta_integration_fullaxi.v:2566-2573. -/
@[netlist] def next_valid_out (s : S) (i_busy : Bool) (rst : Bool) : Bool :=
  let e1 := (w44 s i_busy)
  if rst = true then false
  else e1
/-- beta_integration_fullaxi.v:2574-2584. -/
@[netlist] def next_buff_chs (s : S) (i_busy : Bool) (rst : Bool) : Bool :=
  let e1 := if (w50 s i_busy) = true then (w52 s)
  else s.buff_chs
  if rst = true then false
  else e1
/-- beta_integration_fullaxi.v:2585-2605. -/
@[netlist] def next_buffer1_valid (s : S) (i_busy : Bool) (rst : Bool) (valid_in : Bool) : Bool :=
  let e1 := if (w58 s i_busy) = true then (if (w60 s) = true then false
    else s.buffer1_valid)
  else s.buffer1_valid
  let e2 := if s.fsm_state = 4 then (if valid_in = true then true
    else e1)
  else e1
  if rst = true then false
  else e2
/-- beta_integration_fullaxi.v:2606-2626. -/
@[netlist] def next_buffer2_valid (s : S) (i_busy : Bool) (rst : Bool) (valid_in : Bool) : Bool :=
  let e1 := if (w66 s i_busy) = true then (if (w68 s) = true then false
    else s.buffer2_valid)
  else s.buffer2_valid
  let e2 := if s.fsm_state = 9 then (if valid_in = true then true
    else e1)
  else e1
  if rst = true then false
  else e2
/-- beta_integration_fullaxi.v:2627-2665. -/
@[netlist] def next_o_busy (s : S) (rst : Bool) (valid_in : Bool) : Bool :=
  let e1 := if s.fsm_state = 0 then (if (w70 s) = true then false
    else s.o_busy)
  else if s.fsm_state = 4 then (if valid_in = true then (if (w72 s) = true then s.o_busy
      else true)
    else s.o_busy)
  else if s.fsm_state = 6 then (if (w74 s) = true then false
    else s.o_busy)
  else if s.fsm_state = 9 then (if valid_in = true then (if (w76 s) = true then s.o_busy
      else true)
    else s.o_busy)
  else s.o_busy
  if rst = true then false
  else e1

/-- beta_integration_fullaxi.v:2193-2668: one rising clock edge (`always @(posedge ...)`). -/
@[netlist] def step (s : S) (end_in : Bool) (i_busy : Bool) (data_in : Nat) (rst : Bool) (valid_in : Bool) : S :=
  { buffer2 := (next_buffer2 s data_in rst valid_in)
    buffer1 := (next_buffer1 s data_in rst valid_in)
    fsm_state := (next_fsm_state s rst valid_in)
    o_busy := (next_o_busy s rst valid_in)
    buffer2_valid := (next_buffer2_valid s i_busy rst valid_in)
    buffer1_valid := (next_buffer1_valid s i_busy rst valid_in)
    buff_chs := (next_buff_chs s i_busy rst)
    valid_out := (next_valid_out s i_busy rst)
    data_out := (next_data_out s rst)
    end_out := (next_end_out s rst)
    counter := (next_counter s i_busy rst)
    reg_end := (next_reg_end s end_in rst valid_in) }

/-- beta_integration_fullaxi.v:2193-2668: the initial values given in the netlist. -/
def Init (s : S) : Prop :=
  s.buffer2 = 0 ∧
  s.buffer1 = 0 ∧
  s.fsm_state = 0 ∧
  s.o_busy = false ∧
  s.buffer2_valid = false ∧
  s.buffer1_valid = false ∧
  s.buff_chs = false ∧
  s.valid_out = false ∧
  s.data_out = 0 ∧
  s.end_out = false ∧
  s.counter = 0 ∧
  s.reg_end = false

/-- beta_integration_fullaxi.v:2193-2668: a state with these initial values; registers without one are 0. -/
def powerUp : S :=
  { buffer2 := 0
    buffer1 := 0
    fsm_state := 0
    o_busy := false
    buffer2_valid := false
    buffer1_valid := false
    buff_chs := false
    valid_out := false
    data_out := 0
    end_out := false
    counter := 0
    reg_end := false }

theorem powerUp_init : Init powerUp := ⟨rfl, rfl, rfl, rfl, rfl, rfl, rfl, rfl, rfl, rfl, rfl, rfl⟩

end b16_b64

namespace fifo32

/-- beta_integration_fullaxi.v:5474-5685: registers, memories and instances of module `fifo32`. -/
structure S where
  level : Nat
  consume : Nat
  produce : Nat
  storage : List Nat

/-- beta_integration_fullaxi.v:5571. -/
@[netlist] def w2 (s : S) : Bool :=
  s.level != 4
/-- beta_integration_fullaxi.v:5604-5607. -/
@[netlist] def next_writable (s : S) : Bool :=
  (w2 s)
/-- beta_integration_fullaxi.v:5684. -/
@[netlist] def writable (s : S) : Bool :=
  (next_writable s)
/-- beta_integration_fullaxi.v:5562. -/
@[netlist] def w9 (s : S) (replace : Bool) : Bool :=
  (writable s) || replace
/-- beta_integration_fullaxi.v:5563. -/
@[netlist] def w11 (s : S) (we : Bool) (replace : Bool) : Bool :=
  we && (w9 s replace)
/-- beta_integration_fullaxi.v:5564. -/
@[netlist] def w13 (s : S) (we : Bool) : Bool :=
  (writable s) && we
/-- beta_integration_fullaxi.v:5565. -/
@[netlist] def w15 (s : S) (replace : Bool) : Bool :=
  !replace
/-- beta_integration_fullaxi.v:5566. -/
@[netlist] def w17 (s : S) (we : Bool) (replace : Bool) : Bool :=
  (w13 s we) && (w15 s replace)
/-- beta_integration_fullaxi.v:5567. -/
@[netlist] def w20 (s : S) : Nat :=
  (s.produce + 1) % 2 ^ 3
/-- beta_integration_fullaxi.v:5581. -/
@[netlist] def w4 (s : S) : Bool :=
  s.level != 0
/-- beta_integration_fullaxi.v:5608-5611. -/
@[netlist] def next_readable (s : S) : Bool :=
  (w4 s)
/-- beta_integration_fullaxi.v:5683. -/
@[netlist] def readable (s : S) : Bool :=
  (next_readable s)
/-- beta_integration_fullaxi.v:5568. -/
@[netlist] def w22 (s : S) (re : Bool) : Bool :=
  (readable s) && re
/-- beta_integration_fullaxi.v:5569. -/
@[netlist] def w25 (s : S) : Nat :=
  (s.consume + 1) % 2 ^ 3
/-- beta_integration_fullaxi.v:5570. -/
@[netlist] def w27 (s : S) (we : Bool) : Bool :=
  (writable s) && we
/-- beta_integration_fullaxi.v:5572. -/
@[netlist] def w29 (s : S) (replace : Bool) : Bool :=
  !replace
/-- beta_integration_fullaxi.v:5573. -/
@[netlist] def w31 (s : S) (we : Bool) (replace : Bool) : Bool :=
  (w27 s we) && (w29 s replace)
/-- beta_integration_fullaxi.v:5574. -/
@[netlist] def w34 (s : S) (re : Bool) : Bool :=
  (readable s) && re
/-- beta_integration_fullaxi.v:5575. -/
@[netlist] def w33 (s : S) (re : Bool) : Bool :=
  !(w34 s re)
/-- beta_integration_fullaxi.v:5576. -/
@[netlist] def w37 (s : S) (we : Bool) (replace : Bool) (re : Bool) : Bool :=
  (w31 s we replace) && (w33 s re)
/-- beta_integration_fullaxi.v:5577. -/
@[netlist] def w40 (s : S) : Nat :=
  (s.level + 1) % 2 ^ 4
/-- beta_integration_fullaxi.v:5578. -/
@[netlist] def w42 (s : S) (re : Bool) : Bool :=
  (readable s) && re
/-- beta_integration_fullaxi.v:5579. -/
@[netlist] def w45 (s : S) (we : Bool) : Bool :=
  (writable s) && we
/-- beta_integration_fullaxi.v:5580. -/
@[netlist] def w47 (s : S) (replace : Bool) : Bool :=
  !replace
/-- beta_integration_fullaxi.v:5582. -/
@[netlist] def w49 (s : S) (we : Bool) (replace : Bool) : Bool :=
  (w45 s we) && (w47 s replace)
/-- beta_integration_fullaxi.v:5583. -/
@[netlist] def w44 (s : S) (we : Bool) (replace : Bool) : Bool :=
  !(w49 s we replace)
/-- beta_integration_fullaxi.v:5584. -/
@[netlist] def w52 (s : S) (we : Bool) (replace : Bool) (re : Bool) : Bool :=
  (w42 s re) && (w44 s we replace)
/-- beta_integration_fullaxi.v:5585. -/
@[netlist] def w55 (s : S) : Nat :=
  (2 ^ 4 + s.level - 1) % 2 ^ 4
/-- beta_integration_fullaxi.v:5586. -/
@[netlist] def w7 (s : S) : Nat :=
  (2 ^ 3 + s.produce - 1) % 2 ^ 3
/-- beta_integration_fullaxi.v:5639-5642. -/
@[netlist] def next_rdport_storage_r_addr (s : S) : Nat :=
  s.consume
/-- beta_integration_fullaxi.v:5603. -/
@[netlist] def rdport_storage_r_data (s : S) : Nat :=
  s.storage.getD (next_rdport_storage_r_addr s) 0
/-- beta_integration_fullaxi.v:5673. -/
@[netlist] def w6 (s : S) : Nat :=
  (w7 s)
/-- beta_integration_fullaxi.v:5674. -/
@[netlist] def w19 (s : S) : Nat :=
  (w20 s)
/-- beta_integration_fullaxi.v:5675. -/
@[netlist] def w24 (s : S) : Nat :=
  (w25 s)
/-- beta_integration_fullaxi.v:5676. -/
@[netlist] def w39 (s : S) : Nat :=
  (w40 s)
/-- beta_integration_fullaxi.v:5677. -/
@[netlist] def w54 (s : S) : Nat :=
  (w55 s)
/-- beta_integration_fullaxi.v:5643-5646. -/
@[netlist] def next_dout (s : S) : Nat :=
  (rdport_storage_r_data s)
/-- beta_integration_fullaxi.v:5678. -/
@[netlist] def dout (s : S) : Nat :=
  (next_dout s)
/-- beta_integration_fullaxi.v:5679. -/
@[netlist] def rdport_storage_r_addr (s : S) : Nat :=
  (next_rdport_storage_r_addr s)
/-- beta_integration_fullaxi.v:5624-5627. -/
@[netlist] def next_wrport_storage_w_en (s : S) (we : Bool) (replace : Bool) : Bool :=
  (w11 s we replace)
/-- beta_integration_fullaxi.v:5680. -/
@[netlist] def wrport_storage_w_en (s : S) (we : Bool) (replace : Bool) : Bool :=
  (next_wrport_storage_w_en s we replace)
/-- beta_integration_fullaxi.v:5620-5623. -/
@[netlist] def next_wrport_storage_w_data (s : S) (din : Nat) : Nat :=
  din
/-- beta_integration_fullaxi.v:5681. -/
@[netlist] def wrport_storage_w_data (s : S) (din : Nat) : Nat :=
  (next_wrport_storage_w_data s din)
/-- beta_integration_fullaxi.v:5612-5619. -/
@[netlist] def next_wrport_storage_w_addr (s : S) (replace : Bool) : Nat :=
  if replace = true then slc (w6 s) 0 2
  else s.produce
/-- beta_integration_fullaxi.v:5682. -/
@[netlist] def wrport_storage_w_addr (s : S) (replace : Bool) : Nat :=
  (next_wrport_storage_w_addr s replace)
/-- beta_integration_fullaxi.v:5628-5638. -/
@[netlist] def next_produce (s : S) (we : Bool) (replace : Bool) (rst : Bool) : Nat :=
  let e1 := if (w17 s we replace) = true then slc (w19 s) 0 2
  else s.produce
  if rst = true then 0
  else e1
/-- beta_integration_fullaxi.v:5647-5657. -/
@[netlist] def next_consume (s : S) (re : Bool) (rst : Bool) : Nat :=
  let e1 := if (w22 s re) = true then slc (w24 s) 0 2
  else s.consume
  if rst = true then 0
  else e1
/-- beta_integration_fullaxi.v:5658-5672. -/
@[netlist] def next_level (s : S) (we : Bool) (replace : Bool) (re : Bool) (rst : Bool) : Nat :=
  let e1 := if (w37 s we replace re) = true then slc (w39 s) 0 3
  else s.level
  let e2 := if (w52 s we replace re) = true then slc (w54 s) 0 3
  else e1
  if rst = true then 0
  else e2

/-- beta_integration_fullaxi.v:5474-5685: one rising clock edge (`always @(posedge ...)`). -/
@[netlist] def step (s : S) (we : Bool) (replace : Bool) (re : Bool) (rst : Bool) (din : Nat) : S :=
  { level := (next_level s we replace re rst)
    consume := (next_consume s re rst)
    produce := (next_produce s we replace rst)
    storage := if (next_wrport_storage_w_en s we replace) then s.storage.set (next_wrport_storage_w_addr s replace) (next_wrport_storage_w_data s din) else s.storage }

/-- beta_integration_fullaxi.v:5474-5685: the initial values given in the netlist. -/
def Init (s : S) : Prop :=
  s.level = 0 ∧
  s.consume = 0 ∧
  s.produce = 0 ∧
  s.storage = List.replicate 4 0

/-- beta_integration_fullaxi.v:5474-5685: a state with these initial values; registers without one are 0. -/
def powerUp : S :=
  { level := 0
    consume := 0
    produce := 0
    storage := List.replicate 4 0 }

theorem powerUp_init : Init powerUp := ⟨rfl, rfl, rfl, rfl⟩

end fifo32

namespace fifo64

/-- beta_integration_fullaxi.v:5689-5898: registers, memories and instances of module `fifo64`. -/
structure S where
  level : Nat
  consume : Bool
  produce : Bool
  storage : List Nat

/-- beta_integration_fullaxi.v:5786. -/
@[netlist] def w2 (s : S) : Bool :=
  s.level != 2
/-- beta_integration_fullaxi.v:5817-5820. -/
@[netlist] def next_writable (s : S) : Bool :=
  (w2 s)
/-- beta_integration_fullaxi.v:5897. -/
@[netlist] def writable (s : S) : Bool :=
  (next_writable s)
/-- beta_integration_fullaxi.v:5777. -/
@[netlist] def w9 (s : S) (replace : Bool) : Bool :=
  (writable s) || replace
/-- beta_integration_fullaxi.v:5778. -/
@[netlist] def w11 (s : S) (we : Bool) (replace : Bool) : Bool :=
  we && (w9 s replace)
/-- beta_integration_fullaxi.v:5779. -/
@[netlist] def w13 (s : S) (we : Bool) : Bool :=
  (writable s) && we
/-- beta_integration_fullaxi.v:5780. -/
@[netlist] def w15 (s : S) (replace : Bool) : Bool :=
  !replace
/-- beta_integration_fullaxi.v:5781. -/
@[netlist] def w17 (s : S) (we : Bool) (replace : Bool) : Bool :=
  (w13 s we) && (w15 s replace)
/-- beta_integration_fullaxi.v:5782. -/
@[netlist] def w20 (s : S) : Nat :=
  (s.produce.toNat + 1) % 2 ^ 2
/-- beta_integration_fullaxi.v:5796. -/
@[netlist] def w4 (s : S) : Bool :=
  s.level != 0
/-- beta_integration_fullaxi.v:5821-5824. -/
@[netlist] def next_readable (s : S) : Bool :=
  (w4 s)
/-- beta_integration_fullaxi.v:5896. -/
@[netlist] def readable (s : S) : Bool :=
  (next_readable s)
/-- beta_integration_fullaxi.v:5783. -/
@[netlist] def w22 (s : S) (re : Bool) : Bool :=
  (readable s) && re
/-- beta_integration_fullaxi.v:5784. -/
@[netlist] def w25 (s : S) : Nat :=
  (s.consume.toNat + 1) % 2 ^ 2
/-- beta_integration_fullaxi.v:5785. -/
@[netlist] def w27 (s : S) (we : Bool) : Bool :=
  (writable s) && we
/-- beta_integration_fullaxi.v:5787. -/
@[netlist] def w29 (s : S) (replace : Bool) : Bool :=
  !replace
/-- beta_integration_fullaxi.v:5788. -/
@[netlist] def w31 (s : S) (we : Bool) (replace : Bool) : Bool :=
  (w27 s we) && (w29 s replace)
/-- beta_integration_fullaxi.v:5789. -/
@[netlist] def w34 (s : S) (re : Bool) : Bool :=
  (readable s) && re
/-- beta_integration_fullaxi.v:5790. -/
@[netlist] def w33 (s : S) (re : Bool) : Bool :=
  !(w34 s re)
/-- beta_integration_fullaxi.v:5791. -/
@[netlist] def w37 (s : S) (we : Bool) (replace : Bool) (re : Bool) : Bool :=
  (w31 s we replace) && (w33 s re)
/-- beta_integration_fullaxi.v:5792. -/
@[netlist] def w40 (s : S) : Nat :=
  (s.level + 1) % 2 ^ 3
/-- beta_integration_fullaxi.v:5793. -/
@[netlist] def w42 (s : S) (re : Bool) : Bool :=
  (readable s) && re
/-- beta_integration_fullaxi.v:5794. -/
@[netlist] def w45 (s : S) (we : Bool) : Bool :=
  (writable s) && we
/-- beta_integration_fullaxi.v:5795. -/
@[netlist] def w47 (s : S) (replace : Bool) : Bool :=
  !replace
/-- beta_integration_fullaxi.v:5797. -/
@[netlist] def w49 (s : S) (we : Bool) (replace : Bool) : Bool :=
  (w45 s we) && (w47 s replace)
/-- beta_integration_fullaxi.v:5798. -/
@[netlist] def w44 (s : S) (we : Bool) (replace : Bool) : Bool :=
  !(w49 s we replace)
/-- beta_integration_fullaxi.v:5799. -/
@[netlist] def w52 (s : S) (we : Bool) (replace : Bool) (re : Bool) : Bool :=
  (w42 s re) && (w44 s we replace)
/-- beta_integration_fullaxi.v:5800. -/
@[netlist] def w55 (s : S) : Nat :=
  (2 ^ 3 + s.level - 1) % 2 ^ 3
/-- beta_integration_fullaxi.v:5801. -/
@[netlist] def w7 (s : S) : Nat :=
  (2 ^ 2 + s.produce.toNat - 1) % 2 ^ 2
/-- beta_integration_fullaxi.v:5852-5855. -/
@[netlist] def next_rdport_storage_r_addr (s : S) : Bool :=
  s.consume
/-- beta_integration_fullaxi.v:5816. -/
@[netlist] def rdport_storage_r_data (s : S) : Nat :=
  s.storage.getD ((next_rdport_storage_r_addr s).toNat) 0
/-- beta_integration_fullaxi.v:5886. -/
@[netlist] def w6 (s : S) : Nat :=
  (w7 s)
/-- beta_integration_fullaxi.v:5887. -/
@[netlist] def w19 (s : S) : Nat :=
  (w20 s)
/-- beta_integration_fullaxi.v:5888. -/
@[netlist] def w24 (s : S) : Nat :=
  (w25 s)
/-- beta_integration_fullaxi.v:5889. -/
@[netlist] def w39 (s : S) : Nat :=
  (w40 s)
/-- beta_integration_fullaxi.v:5890. -/
@[netlist] def w54 (s : S) : Nat :=
  (w55 s)
/-- beta_integration_fullaxi.v:5856-5859. -/
@[netlist] def next_dout (s : S) : Nat :=
  (rdport_storage_r_data s)
/-- beta_integration_fullaxi.v:5891. -/
@[netlist] def dout (s : S) : Nat :=
  (next_dout s)
/-- beta_integration_fullaxi.v:5892. -/
@[netlist] def rdport_storage_r_addr (s : S) : Bool :=
  (next_rdport_storage_r_addr s)
/-- beta_integration_fullaxi.v:5837-5840. -/
@[netlist] def next_wrport_storage_w_en (s : S) (we : Bool) (replace : Bool) : Bool :=
  (w11 s we replace)
/-- beta_integration_fullaxi.v:5893. -/
@[netlist] def wrport_storage_w_en (s : S) (we : Bool) (replace : Bool) : Bool :=
  (next_wrport_storage_w_en s we replace)
/-- beta_integration_fullaxi.v:5833-5836. -/
@[netlist] def next_wrport_storage_w_data (s : S) (din : Nat) : Nat :=
  din
/-- beta_integration_fullaxi.v:5894. -/
@[netlist] def wrport_storage_w_data (s : S) (din : Nat) : Nat :=
  (next_wrport_storage_w_data s din)
/-- beta_integration_fullaxi.v:5825-5832. -/
@[netlist] def next_wrport_storage_w_addr (s : S) (replace : Bool) : Bool :=
  if replace = true then (w6 s).testBit 0
  else s.produce
/-- beta_integration_fullaxi.v:5895. -/
@[netlist] def wrport_storage_w_addr (s : S) (replace : Bool) : Bool :=
  (next_wrport_storage_w_addr s replace)
/-- beta_integration_fullaxi.v:5841-5851. -/
@[netlist] def next_produce (s : S) (we : Bool) (replace : Bool) (rst : Bool) : Bool :=
  let e1 := if (w17 s we replace) = true then (w19 s).testBit 0
  else s.produce
  if rst = true then false
  else e1
/-- beta_integration_fullaxi.v:5860-5870. -/
@[netlist] def next_consume (s : S) (re : Bool) (rst : Bool) : Bool :=
  let e1 := if (w22 s re) = true then (w24 s).testBit 0
  else s.consume
  if rst = true then false
  else e1
/-- beta_integration_fullaxi.v:5871-5885. -/
@[netlist] def next_level (s : S) (we : Bool) (replace : Bool) (re : Bool) (rst : Bool) : Nat :=
  let e1 := if (w37 s we replace re) = true then slc (w39 s) 0 2
  else s.level
  let e2 := if (w52 s we replace re) = true then slc (w54 s) 0 2
  else e1
  if rst = true then 0
  else e2

/-- beta_integration_fullaxi.v:5689-5898: one rising clock edge (`always @(posedge ...)`). -/
@[netlist] def step (s : S) (we : Bool) (replace : Bool) (re : Bool) (rst : Bool) (din : Nat) : S :=
  { level := (next_level s we replace re rst)
    consume := (next_consume s re rst)
    produce := (next_produce s we replace rst)
    storage := if (next_wrport_storage_w_en s we replace) then s.storage.set ((next_wrport_storage_w_addr s replace).toNat) (next_wrport_storage_w_data s din) else s.storage }

/-- beta_integration_fullaxi.v:5689-5898: the initial values given in the netlist. -/
def Init (s : S) : Prop :=
  s.level = 0 ∧
  s.consume = false ∧
  s.produce = false ∧
  s.storage = List.replicate 2 0

/-- beta_integration_fullaxi.v:5689-5898: a state with these initial values; registers without one are 0. -/
def powerUp : S :=
  { level := 0
    consume := false
    produce := false
    storage := List.replicate 2 0 }

theorem powerUp_init : Init powerUp := ⟨rfl, rfl, rfl, rfl⟩

end fifo64

namespace b64_b32

/-- beta_integration_fullaxi.v:2672-3065: registers, memories and instances of module `b64_b32`. -/
structure S where
  fsm_state_1 : Bool
  fifo64_re : Bool
  fifo32_we : Bool
  buff : Nat
  fifo32_din : Nat
  reg : Nat
  fifo64_din : Nat
  fsm_state : Nat
  o_busy : Bool
  fifo64_we : Bool
  fifo64_replace : Bool
  fifo32_replace : Bool
  u_fifo32 : fifo32.S
  u_fifo64 : fifo64.S

/-- beta_integration_fullaxi.v:2835-2845. -/
@[netlist] def fifo64_readable (s : S) : Bool :=
  fifo64.readable s.u_fifo64
/-- beta_integration_fullaxi.v:2784. -/
@[netlist] def w10 (s : S) : Bool :=
  (fifo64_readable s) == true
/-- beta_integration_fullaxi.v:2824-2834. -/
@[netlist] def fifo32_writable (s : S) : Bool :=
  fifo32.writable s.u_fifo32
/-- beta_integration_fullaxi.v:2799. -/
@[netlist] def w8 (s : S) : Bool :=
  (fifo32_writable s) == true
/-- beta_integration_fullaxi.v:2785. -/
@[netlist] def w12 (s : S) : Bool :=
  (w8 s) && (w10 s)
/-- beta_integration_fullaxi.v:2786. -/
@[netlist] def w14 (s : S) : Bool :=
  (fifo32_writable s) == true
/-- beta_integration_fullaxi.v:2787. -/
@[netlist] def w16 (s : S) : Bool :=
  (fifo64_readable s) == true
/-- beta_integration_fullaxi.v:2788. -/
@[netlist] def w18 (s : S) : Bool :=
  (w14 s) && (w16 s)
/-- beta_integration_fullaxi.v:2789. -/
@[netlist] def w20 (s : S) : Bool :=
  (fifo32_writable s) == true
/-- beta_integration_fullaxi.v:2790. -/
@[netlist] def w22 (s : S) : Bool :=
  (fifo64_readable s) == true
/-- beta_integration_fullaxi.v:2791. -/
@[netlist] def w24 (s : S) : Bool :=
  (w20 s) && (w22 s)
/-- beta_integration_fullaxi.v:2792. -/
@[netlist] def w26 (s : S) : Bool :=
  (fifo32_writable s) == true
/-- beta_integration_fullaxi.v:2793. -/
@[netlist] def w28 (s : S) : Bool :=
  (fifo64_readable s) == true
/-- beta_integration_fullaxi.v:2794. -/
@[netlist] def w2 (s : S) : Bool :=
  (fifo32_writable s) == true
/-- beta_integration_fullaxi.v:2795. -/
@[netlist] def w30 (s : S) : Bool :=
  (w26 s) && (w28 s)
/-- beta_integration_fullaxi.v:2796. -/
@[netlist] def w32 (s : S) (i_busy : Bool) : Bool :=
  i_busy == false
/-- beta_integration_fullaxi.v:2797. -/
@[netlist] def w4 (s : S) : Bool :=
  (fifo64_readable s) == true
/-- beta_integration_fullaxi.v:2798. -/
@[netlist] def w6 (s : S) : Bool :=
  (w2 s) && (w4 s)
/-- beta_integration_fullaxi.v:2905-2908. -/
@[netlist] def next_fifo32_re (s : S) (i_busy : Bool) : Bool :=
  (w32 s i_busy)
/-- beta_integration_fullaxi.v:3062. -/
@[netlist] def fifo32_re (s : S) (i_busy : Bool) : Bool :=
  (next_fifo32_re s i_busy)
/-- beta_integration_fullaxi.v:2824-2834. -/
@[netlist] def fifo32_dout (s : S) : Nat :=
  fifo32.dout s.u_fifo32
/-- beta_integration_fullaxi.v:2901-2904. -/
@[netlist] def next_data_out (s : S) : Nat :=
  (fifo32_dout s)
/-- beta_integration_fullaxi.v:3063. -/
@[netlist] def data_out (s : S) : Nat :=
  (next_data_out s)
/-- beta_integration_fullaxi.v:2824-2834. -/
@[netlist] def fifo32_readable (s : S) : Bool :=
  fifo32.readable s.u_fifo32
/-- beta_integration_fullaxi.v:2897-2900. -/
@[netlist] def next_valid_out (s : S) : Bool :=
  (fifo32_readable s)
/-- beta_integration_fullaxi.v:3064. -/
@[netlist] def valid_out (s : S) : Bool :=
  (next_valid_out s)
/-- beta_integration_fullaxi.v:2846-2853. -/
@[netlist] def next_fifo32_replace (s : S) (rst : Bool) : Bool :=
  if rst = true then false
  else false
/-- beta_integration_fullaxi.v:2854-2861. -/
@[netlist] def next_fifo64_replace (s : S) (rst : Bool) : Bool :=
  if rst = true then false
  else false
/-- beta_integration_fullaxi.v:2862-2877. -/
@[netlist] def next_fifo64_re (s : S) (rst : Bool) : Bool :=
  let e1 := if s.fsm_state_1 = false then (if (w24 s) = true then true
    else s.fifo64_re)
  else if s.fsm_state_1 = true then false
  else s.fifo64_re
  if rst = true then false
  else e1
/-- beta_integration_fullaxi.v:2878-2896. -/
@[netlist] def next_fsm_state_1 (s : S) (rst : Bool) : Bool :=
  let e1 := if s.fsm_state_1 = false then (if (w30 s) = true then true
    else s.fsm_state_1)
  else if s.fsm_state_1 = true then (if (fifo32_writable s) = true then false
    else s.fsm_state_1)
  else s.fsm_state_1
  if rst = true then false
  else e1
/-- beta_integration_fullaxi.v:2835-2845. -/
@[netlist] def fifo64_writable (s : S) : Bool :=
  fifo64.writable s.u_fifo64
/-- beta_integration_fullaxi.v:2909-2932. -/
@[netlist] def next_fifo64_we (s : S) (rst : Bool) (valid_in : Bool) : Bool :=
  let e1 := if s.fsm_state = 0 then false
  else if s.fsm_state = 1 then (if valid_in = true then (if (fifo64_writable s) = true then true
      else s.fifo64_we)
    else s.fifo64_we)
  else if s.fsm_state = 2 then (if (fifo64_writable s) = true then true
    else s.fifo64_we)
  else s.fifo64_we
  if rst = true then false
  else e1
/-- beta_integration_fullaxi.v:2933-2953. -/
@[netlist] def next_o_busy (s : S) (rst : Bool) (valid_in : Bool) : Bool :=
  let e1 := if s.fsm_state = 0 then false
  else if s.fsm_state = 1 then (if valid_in = true then (if (fifo64_writable s) = true then true
      else true)
    else s.o_busy)
  else s.o_busy
  if rst = true then false
  else e1
/-- beta_integration_fullaxi.v:2954-2979. -/
@[netlist] def next_fsm_state (s : S) (rst : Bool) (valid_in : Bool) : Nat :=
  let e1 := if s.fsm_state = 0 then 1
  else if s.fsm_state = 1 then (if valid_in = true then (if (fifo64_writable s) = true then 0
      else 2)
    else s.fsm_state)
  else if s.fsm_state = 2 then (if (fifo64_writable s) = true then 0
    else s.fsm_state)
  else s.fsm_state
  if rst = true then 0
  else e1
/-- beta_integration_fullaxi.v:2980-2997. -/
@[netlist] def next_fifo64_din (s : S) (data_in : Nat) (valid_in : Bool) : Nat :=
  if s.fsm_state = 1 then (if valid_in = true then (if (fifo64_writable s) = true then data_in
      else s.fifo64_din)
    else s.fifo64_din)
  else if s.fsm_state = 2 then (if (fifo64_writable s) = true then s.reg
    else s.fifo64_din)
  else s.fifo64_din
/-- beta_integration_fullaxi.v:2998-3016. -/
@[netlist] def next_reg (s : S) (data_in : Nat) (rst : Bool) (valid_in : Bool) : Nat :=
  let e1 := if s.fsm_state = 1 then (if valid_in = true then (if (fifo64_writable s) = true then s.reg
      else data_in)
    else s.reg)
  else s.reg
  if rst = true then 0
  else e1
/-- beta_integration_fullaxi.v:2835-2845. -/
@[netlist] def fifo64_dout (s : S) : Nat :=
  fifo64.dout s.u_fifo64
/-- beta_integration_fullaxi.v:3017-3031. -/
@[netlist] def next_fifo32_din (s : S) : Nat :=
  if s.fsm_state_1 = false then (if (w6 s) = true then slc (fifo64_dout s) 32 32
    else s.fifo32_din)
  else if s.fsm_state_1 = true then (if (fifo32_writable s) = true then s.buff
    else s.fifo32_din)
  else s.fifo32_din
/-- beta_integration_fullaxi.v:3032-3045. -/
@[netlist] def next_buff (s : S) (rst : Bool) : Nat :=
  let e1 := if s.fsm_state_1 = false then (if (w12 s) = true then slc (fifo64_dout s) 0 32
    else s.buff)
  else s.buff
  if rst = true then 0
  else e1
/-- beta_integration_fullaxi.v:3046-3061. -/
@[netlist] def next_fifo32_we (s : S) (rst : Bool) : Bool :=
  let e1 := if s.fsm_state_1 = false then (if (w18 s) = true then true
    else if (fifo32_writable s) = true then false
    else s.fifo32_we)
  else s.fifo32_we
  if rst = true then false
  else e1

/-- beta_integration_fullaxi.v:2672-3065: one rising clock edge (`always @(posedge ...)`). -/
@[netlist] def step (s : S) (data_in : Nat) (i_busy : Bool) (rst : Bool) (valid_in : Bool) : S :=
  { fsm_state_1 := (next_fsm_state_1 s rst)
    fifo64_re := (next_fifo64_re s rst)
    fifo32_we := (next_fifo32_we s rst)
    buff := (next_buff s rst)
    fifo32_din := (next_fifo32_din s)
    reg := (next_reg s data_in rst valid_in)
    fifo64_din := (next_fifo64_din s data_in valid_in)
    fsm_state := (next_fsm_state s rst valid_in)
    o_busy := (next_o_busy s rst valid_in)
    fifo64_we := (next_fifo64_we s rst valid_in)
    fifo64_replace := (next_fifo64_replace s rst)
    fifo32_replace := (next_fifo32_replace s rst)
    u_fifo32 := fifo32.step s.u_fifo32 s.fifo32_we s.fifo32_replace (fifo32_re s i_busy) rst s.fifo32_din
    u_fifo64 := fifo64.step s.u_fifo64 s.fifo64_we s.fifo64_replace s.fifo64_re rst s.fifo64_din }

/-- beta_integration_fullaxi.v:2672-3065: the initial values given in the netlist. -/
def Init (s : S) : Prop :=
  s.fsm_state_1 = false ∧
  s.fifo64_re = false ∧
  s.fifo32_we = false ∧
  s.buff = 0 ∧
  s.fifo32_din = 0 ∧
  s.reg = 0 ∧
  s.fifo64_din = 0 ∧
  s.fsm_state = 0 ∧
  s.o_busy = false ∧
  s.fifo64_we = false ∧
  s.fifo64_replace = false ∧
  s.fifo32_replace = false ∧
  fifo32.Init s.u_fifo32 ∧
  fifo64.Init s.u_fifo64

/-- beta_integration_fullaxi.v:2672-3065: a state with these initial values; registers without one are 0. -/
def powerUp : S :=
  { fsm_state_1 := false
    fifo64_re := false
    fifo32_we := false
    buff := 0
    fifo32_din := 0
    reg := 0
    fifo64_din := 0
    fsm_state := 0
    o_busy := false
    fifo64_we := false
    fifo64_replace := false
    fifo32_replace := false
    u_fifo32 := fifo32.powerUp
    u_fifo64 := fifo64.powerUp }

theorem powerUp_init : Init powerUp := ⟨rfl, rfl, rfl, rfl, rfl, rfl, rfl, rfl, rfl, rfl, rfl, rfl, fifo32.powerUp_init, fifo64.powerUp_init⟩

end b64_b32

namespace dma_axi_lite

/-- beta_integration_fullaxi.v:3783-4469: registers, memories and instances of module `dma_axi_lite`. -/
structure S where
  write_addr : Nat
  read_addr : Nat
  bresp_v : Nat
  wready_v : Bool
  awready_v : Bool
  rresp_v : Nat
  rdata_v : Nat
  arready_v : Bool
  addr_v : Nat
  fsm_state : Nat
  bvalid_v : Bool
  rvalid_v : Bool
  start : Nat

/-- beta_integration_fullaxi.v:3942. -/
@[netlist] def w1 (s : S) (s_axi_ri___araddr : Nat) : Nat :=
  s_axi_ri___araddr / 2 ^ 2
/-- beta_integration_fullaxi.v:3943. -/
@[netlist] def w3 (s : S) (s_axi_wi___awaddr : Nat) : Nat :=
  s_axi_wi___awaddr / 2 ^ 2
/-- beta_integration_fullaxi.v:4317-4320. -/
@[netlist] def next_s_axi_wo___bresp (s : S) : Nat :=
  s.bresp_v
/-- beta_integration_fullaxi.v:4457. -/
@[netlist] def s_axi_wo___bresp (s : S) : Nat :=
  (next_s_axi_wo___bresp s)
/-- beta_integration_fullaxi.v:4313-4316. -/
@[netlist] def next_s_axi_ro___rresp (s : S) : Nat :=
  s.rresp_v
/-- beta_integration_fullaxi.v:4458. -/
@[netlist] def s_axi_ro___rresp (s : S) : Nat :=
  (next_s_axi_ro___rresp s)
/-- beta_integration_fullaxi.v:4309-4312. -/
@[netlist] def next_s_axi_ro___rdata (s : S) : Nat :=
  s.rdata_v
/-- beta_integration_fullaxi.v:4459. -/
@[netlist] def s_axi_ro___rdata (s : S) : Nat :=
  (next_s_axi_ro___rdata s)
/-- beta_integration_fullaxi.v:4305-4308. -/
@[netlist] def next_s_axi_wo___bvalid (s : S) : Bool :=
  s.bvalid_v
/-- beta_integration_fullaxi.v:4460. -/
@[netlist] def s_axi_wo___bvalid (s : S) : Bool :=
  (next_s_axi_wo___bvalid s)
/-- beta_integration_fullaxi.v:4301-4304. -/
@[netlist] def next_s_axi_wo___wready (s : S) : Bool :=
  s.wready_v
/-- beta_integration_fullaxi.v:4461. -/
@[netlist] def s_axi_wo___wready (s : S) : Bool :=
  (next_s_axi_wo___wready s)
/-- beta_integration_fullaxi.v:4293-4296. -/
@[netlist] def next_s_axi_wo___awready (s : S) : Bool :=
  s.awready_v
/-- beta_integration_fullaxi.v:4462. -/
@[netlist] def s_axi_wo___awready (s : S) : Bool :=
  (next_s_axi_wo___awready s)
/-- beta_integration_fullaxi.v:4289-4292. -/
@[netlist] def next_s_axi_ro___rvalid (s : S) : Bool :=
  s.rvalid_v
/-- beta_integration_fullaxi.v:4463. -/
@[netlist] def s_axi_ro___rvalid (s : S) : Bool :=
  (next_s_axi_ro___rvalid s)
/-- beta_integration_fullaxi.v:4285-4288. -/
@[netlist] def next_s_axi_ro___arready (s : S) : Bool :=
  s.arready_v
/-- beta_integration_fullaxi.v:4464. -/
@[netlist] def s_axi_ro___arready (s : S) : Bool :=
  (next_s_axi_ro___arready s)
/-- beta_integration_fullaxi.v:4321-4324. -/
@[netlist] def next_basic_index (s : S) : Nat :=
  slc s.addr_v 0 4
/-- beta_integration_fullaxi.v:4465. -/
@[netlist] def basic_index (s : S) : Nat :=
  (next_basic_index s)
/-- beta_integration_fullaxi.v:4297-4300. -/
@[netlist] def next_basic_enable (s : S) : Bool :=
  s.addr_v.testBit 10
/-- beta_integration_fullaxi.v:4466. -/
@[netlist] def basic_enable (s : S) : Bool :=
  (next_basic_enable s)
/-- beta_integration_fullaxi.v:3981-3991. -/
@[netlist] def next_wstrb_v (s : S) (s_axi_wi___wvalid : Bool) (s_axi_wi___wstrb : Nat) : Nat :=
  if s.fsm_state = 4 then (if s_axi_wi___wvalid = true then s_axi_wi___wstrb
    else 0)
  else 0
/-- beta_integration_fullaxi.v:4467. -/
@[netlist] def wstrb_v (s : S) (s_axi_wi___wvalid : Bool) (s_axi_wi___wstrb : Nat) : Nat :=
  (next_wstrb_v s s_axi_wi___wvalid s_axi_wi___wstrb)
/-- beta_integration_fullaxi.v:3970-3980. -/
@[netlist] def next_wdata_v (s : S) (s_axi_wi___wvalid : Bool) (s_axi_wi___wdata : Nat) : Nat :=
  if s.fsm_state = 4 then (if s_axi_wi___wvalid = true then s_axi_wi___wdata
    else 0)
  else 0
/-- beta_integration_fullaxi.v:4468. -/
@[netlist] def wdata_v (s : S) (s_axi_wi___wvalid : Bool) (s_axi_wi___wdata : Nat) : Nat :=
  (next_wdata_v s s_axi_wi___wvalid s_axi_wi___wdata)
/-- beta_integration_fullaxi.v:3992-4007. -/
@[netlist] def next_rresp_v (s : S) (rst : Bool) : Nat :=
  let e1 := if s.fsm_state = 3 then (if (basic_enable s) = true then 0
    else 3)
  else s.rresp_v
  if rst = true then 0
  else e1
/-- beta_integration_fullaxi.v:4008-4020. -/
@[netlist] def next_awready_v (s : S) (rst : Bool) : Bool :=
  let e1 := if s.fsm_state = 2 then true
  else if s.fsm_state = 4 then false
  else s.awready_v
  if rst = true then false
  else e1
/-- beta_integration_fullaxi.v:4021-4033. -/
@[netlist] def next_wready_v (s : S) (rst : Bool) : Bool :=
  let e1 := if s.fsm_state = 4 then true
  else if s.fsm_state = 5 then false
  else s.wready_v
  if rst = true then false
  else e1
/-- beta_integration_fullaxi.v:4034-4146. -/
@[netlist] def next_bresp_v (s : S) (s_axi_wi___wvalid : Bool) (s_axi_wi___wstrb : Nat) (rst : Bool) : Nat :=
  let e4 := if s.fsm_state = 4 then (if s_axi_wi___wvalid = true then (if (basic_enable s) = true then (
        let e1 := if ((wstrb_v s s_axi_wi___wvalid s_axi_wi___wstrb).testBit 0) = true then (if (basic_index s) = 3 then 2
          else if (basic_index s) = 4 then 2
          else if (basic_index s) = 5 then 2
          else if (basic_index s) = 6 then 2
          else if (basic_index s) = 7 then 2
          else if (basic_index s) = 8 then 2
          else if (basic_index s) = 9 then 2
          else if (basic_index s) = 10 then 2
          else if (basic_index s) = 11 then 2
          else 0)
        else 0
        let e2 := if ((wstrb_v s s_axi_wi___wvalid s_axi_wi___wstrb).testBit 1) = true then (if (basic_index s) = 3 then 2
          else if (basic_index s) = 4 then 2
          else if (basic_index s) = 5 then 2
          else if (basic_index s) = 6 then 2
          else if (basic_index s) = 7 then 2
          else if (basic_index s) = 8 then 2
          else if (basic_index s) = 9 then 2
          else if (basic_index s) = 10 then 2
          else if (basic_index s) = 11 then 2
          else e1)
        else e1
        let e3 := if ((wstrb_v s s_axi_wi___wvalid s_axi_wi___wstrb).testBit 2) = true then (if (basic_index s) = 3 then 2
          else if (basic_index s) = 4 then 2
          else if (basic_index s) = 5 then 2
          else if (basic_index s) = 6 then 2
          else if (basic_index s) = 7 then 2
          else if (basic_index s) = 8 then 2
          else if (basic_index s) = 9 then 2
          else if (basic_index s) = 10 then 2
          else if (basic_index s) = 11 then 2
          else e2)
        else e2
        if ((wstrb_v s s_axi_wi___wvalid s_axi_wi___wstrb).testBit 3) = true then (if (basic_index s) = 3 then 2
          else if (basic_index s) = 4 then 2
          else if (basic_index s) = 5 then 2
          else if (basic_index s) = 6 then 2
          else if (basic_index s) = 7 then 2
          else if (basic_index s) = 8 then 2
          else if (basic_index s) = 9 then 2
          else if (basic_index s) = 10 then 2
          else if (basic_index s) = 11 then 2
          else e3)
        else e3)
      else 3)
    else s.bresp_v)
  else s.bresp_v
  if rst = true then 0
  else e4
/-- beta_integration_fullaxi.v:4147-4192. -/
@[netlist] def next_read_addr (s : S) (s_axi_wi___wvalid : Bool) (s_axi_wi___wdata : Nat) (s_axi_wi___wstrb : Nat) (rst : Bool) : Nat :=
  let e4 := if s.fsm_state = 4 then (if s_axi_wi___wvalid = true then (if (basic_enable s) = true then (
        let e1 := if ((wstrb_v s s_axi_wi___wvalid s_axi_wi___wstrb).testBit 0) = true then (if (basic_index s) = 0 then put s.read_addr 0 8 (slc (wdata_v s s_axi_wi___wvalid s_axi_wi___wdata) 0 8)
          else s.read_addr)
        else s.read_addr
        let e2 := if ((wstrb_v s s_axi_wi___wvalid s_axi_wi___wstrb).testBit 1) = true then (if (basic_index s) = 0 then put e1 8 8 (slc (wdata_v s s_axi_wi___wvalid s_axi_wi___wdata) 8 8)
          else e1)
        else e1
        let e3 := if ((wstrb_v s s_axi_wi___wvalid s_axi_wi___wstrb).testBit 2) = true then (if (basic_index s) = 0 then put e2 16 8 (slc (wdata_v s s_axi_wi___wvalid s_axi_wi___wdata) 16 8)
          else e2)
        else e2
        if ((wstrb_v s s_axi_wi___wvalid s_axi_wi___wstrb).testBit 3) = true then (if (basic_index s) = 0 then put e3 24 8 (slc (wdata_v s s_axi_wi___wvalid s_axi_wi___wdata) 24 8)
          else e3)
        else e3)
      else s.read_addr)
    else s.read_addr)
  else s.read_addr
  if rst = true then 0
  else e4
/-- beta_integration_fullaxi.v:4193-4238. -/
@[netlist] def next_write_addr (s : S) (s_axi_wi___wvalid : Bool) (s_axi_wi___wdata : Nat) (s_axi_wi___wstrb : Nat) (rst : Bool) : Nat :=
  let e4 := if s.fsm_state = 4 then (if s_axi_wi___wvalid = true then (if (basic_enable s) = true then (
        let e1 := if ((wstrb_v s s_axi_wi___wvalid s_axi_wi___wstrb).testBit 0) = true then (if (basic_index s) = 1 then put s.write_addr 0 8 (slc (wdata_v s s_axi_wi___wvalid s_axi_wi___wdata) 0 8)
          else s.write_addr)
        else s.write_addr
        let e2 := if ((wstrb_v s s_axi_wi___wvalid s_axi_wi___wstrb).testBit 1) = true then (if (basic_index s) = 1 then put e1 8 8 (slc (wdata_v s s_axi_wi___wvalid s_axi_wi___wdata) 8 8)
          else e1)
        else e1
        let e3 := if ((wstrb_v s s_axi_wi___wvalid s_axi_wi___wstrb).testBit 2) = true then (if (basic_index s) = 1 then put e2 16 8 (slc (wdata_v s s_axi_wi___wvalid s_axi_wi___wdata) 16 8)
          else e2)
        else e2
        if ((wstrb_v s s_axi_wi___wvalid s_axi_wi___wstrb).testBit 3) = true then (if (basic_index s) = 1 then put e3 24 8 (slc (wdata_v s s_axi_wi___wvalid s_axi_wi___wdata) 24 8)
          else e3)
        else e3)
      else s.write_addr)
    else s.write_addr)
  else s.write_addr
  if rst = true then 0
  else e4
/-- beta_integration_fullaxi.v:4239-4284. -/
@[netlist] def next_start (s : S) (s_axi_wi___wvalid : Bool) (s_axi_wi___wdata : Nat) (s_axi_wi___wstrb : Nat) (rst : Bool) : Nat :=
  let e4 := if s.fsm_state = 4 then (if s_axi_wi___wvalid = true then (if (basic_enable s) = true then (
        let e1 := if ((wstrb_v s s_axi_wi___wvalid s_axi_wi___wstrb).testBit 0) = true then (if (basic_index s) = 2 then put s.start 0 8 (slc (wdata_v s s_axi_wi___wvalid s_axi_wi___wdata) 0 8)
          else s.start)
        else s.start
        let e2 := if ((wstrb_v s s_axi_wi___wvalid s_axi_wi___wstrb).testBit 1) = true then (if (basic_index s) = 2 then put e1 8 8 (slc (wdata_v s s_axi_wi___wvalid s_axi_wi___wdata) 8 8)
          else e1)
        else e1
        let e3 := if ((wstrb_v s s_axi_wi___wvalid s_axi_wi___wstrb).testBit 2) = true then (if (basic_index s) = 2 then put e2 16 8 (slc (wdata_v s s_axi_wi___wvalid s_axi_wi___wdata) 16 8)
          else e2)
        else e2
        if ((wstrb_v s s_axi_wi___wvalid s_axi_wi___wstrb).testBit 3) = true then (if (basic_index s) = 2 then put e3 24 8 (slc (wdata_v s s_axi_wi___wvalid s_axi_wi___wdata) 24 8)
          else e3)
        else e3)
      else s.start)
    else s.start)
  else s.start
  if rst = true then 0
  else e4
/-- beta_integration_fullaxi.v:4325-4340. -/
@[netlist] def next_rvalid_v (s : S) (s_axi_ri___rready : Bool) (rst : Bool) : Bool :=
  let e1 := if s.fsm_state = 0 then false
  else if s.fsm_state = 3 then (if s_axi_ri___rready = true then true
    else s.rvalid_v)
  else s.rvalid_v
  if rst = true then false
  else e1
/-- beta_integration_fullaxi.v:4341-4356. -/
@[netlist] def next_bvalid_v (s : S) (s_axi_wi___bready : Bool) (rst : Bool) : Bool :=
  let e1 := if s.fsm_state = 0 then false
  else if s.fsm_state = 5 then (if s_axi_wi___bready = true then true
    else s.bvalid_v)
  else s.bvalid_v
  if rst = true then false
  else e1
/-- beta_integration_fullaxi.v:4357-4391. -/
@[netlist] def next_fsm_state (s : S) (s_axi_wi___awvalid : Bool) (s_axi_ri___rready : Bool) (s_axi_wi___wvalid : Bool) (s_axi_wi___bready : Bool) (rst : Bool) (s_axi_ri___arvalid : Bool) : Nat :=
  let e1 := if s.fsm_state = 0 then (if s_axi_ri___arvalid = true then 1
    else if s_axi_wi___awvalid = true then 2
    else s.fsm_state)
  else if s.fsm_state = 1 then 3
  else if s.fsm_state = 3 then (if s_axi_ri___rready = true then 0
    else s.fsm_state)
  else if s.fsm_state = 2 then 4
  else if s.fsm_state = 4 then (if s_axi_wi___wvalid = true then 5
    else s.fsm_state)
  else if s.fsm_state = 5 then (if s_axi_wi___bready = true then 0
    else s.fsm_state)
  else s.fsm_state
  if rst = true then 0
  else e1
/-- beta_integration_fullaxi.v:4392-4404. -/
@[netlist] def next_addr_v (s : S) (s_axi_ri___araddr : Nat) (s_axi_wi___awaddr : Nat) (rst : Bool) : Nat :=
  let e1 := if s.fsm_state = 1 then (w1 s s_axi_ri___araddr)
  else if s.fsm_state = 2 then (w3 s s_axi_wi___awaddr)
  else s.addr_v
  if rst = true then 0
  else e1
/-- beta_integration_fullaxi.v:4405-4417. -/
@[netlist] def next_arready_v (s : S) (rst : Bool) : Bool :=
  let e1 := if s.fsm_state = 1 then true
  else if s.fsm_state = 3 then false
  else s.arready_v
  if rst = true then false
  else e1
/-- beta_integration_fullaxi.v:4418-4456. -/
@[netlist] def next_rdata_v (s : S) (in1 : Nat) (in2 : Nat) (in3 : Nat) (in4 : Nat) (in5 : Nat) (in6 : Nat) (in7 : Nat) (in8 : Nat) (in9 : Nat) (rst : Bool) : Nat :=
  let e1 := if s.fsm_state = 3 then (if (basic_enable s) = true then (if (basic_index s) = 0 then s.read_addr
      else if (basic_index s) = 1 then s.write_addr
      else if (basic_index s) = 2 then s.start
      else if (basic_index s) = 3 then in1
      else if (basic_index s) = 4 then in2
      else if (basic_index s) = 5 then in3
      else if (basic_index s) = 6 then in4
      else if (basic_index s) = 7 then in5
      else if (basic_index s) = 8 then in6
      else if (basic_index s) = 9 then in7
      else if (basic_index s) = 10 then in8
      else if (basic_index s) = 11 then in9
      else s.rdata_v)
    else s.rdata_v)
  else s.rdata_v
  if rst = true then 0
  else e1

/-- beta_integration_fullaxi.v:3783-4469: one rising clock edge (`always @(posedge ...)`). -/
@[netlist] def step (s : S) (s_axi_wi___awvalid : Bool) (s_axi_ri___araddr : Nat) (in1 : Nat) (in2 : Nat) (in3 : Nat) (in4 : Nat) (in5 : Nat) (in6 : Nat) (in7 : Nat) (in8 : Nat) (in9 : Nat) (s_axi_ri___rready : Bool) (s_axi_wi___awaddr : Nat) (s_axi_wi___wvalid : Bool) (s_axi_wi___wdata : Nat) (s_axi_wi___wstrb : Nat) (s_axi_wi___bready : Bool) (rst : Bool) (s_axi_ri___arvalid : Bool) : S :=
  { write_addr := (next_write_addr s s_axi_wi___wvalid s_axi_wi___wdata s_axi_wi___wstrb rst)
    read_addr := (next_read_addr s s_axi_wi___wvalid s_axi_wi___wdata s_axi_wi___wstrb rst)
    bresp_v := (next_bresp_v s s_axi_wi___wvalid s_axi_wi___wstrb rst)
    wready_v := (next_wready_v s rst)
    awready_v := (next_awready_v s rst)
    rresp_v := (next_rresp_v s rst)
    rdata_v := (next_rdata_v s in1 in2 in3 in4 in5 in6 in7 in8 in9 rst)
    arready_v := (next_arready_v s rst)
    addr_v := (next_addr_v s s_axi_ri___araddr s_axi_wi___awaddr rst)
    fsm_state := (next_fsm_state s s_axi_wi___awvalid s_axi_ri___rready s_axi_wi___wvalid s_axi_wi___bready rst s_axi_ri___arvalid)
    bvalid_v := (next_bvalid_v s s_axi_wi___bready rst)
    rvalid_v := (next_rvalid_v s s_axi_ri___rready rst)
    start := (next_start s s_axi_wi___wvalid s_axi_wi___wdata s_axi_wi___wstrb rst) }

/-- beta_integration_fullaxi.v:3783-4469: the initial values given in the netlist. -/
def Init (s : S) : Prop :=
  s.write_addr = 0 ∧
  s.read_addr = 0 ∧
  s.bresp_v = 0 ∧
  s.wready_v = false ∧
  s.awready_v = false ∧
  s.rresp_v = 0 ∧
  s.rdata_v = 0 ∧
  s.arready_v = false ∧
  s.addr_v = 0 ∧
  s.fsm_state = 0 ∧
  s.bvalid_v = false ∧
  s.rvalid_v = false ∧
  s.start = 0

/-- beta_integration_fullaxi.v:3783-4469: a state with these initial values; registers without one are 0. -/
def powerUp : S :=
  { write_addr := 0
    read_addr := 0
    bresp_v := 0
    wready_v := false
    awready_v := false
    rresp_v := 0
    rdata_v := 0
    arready_v := false
    addr_v := 0
    fsm_state := 0
    bvalid_v := false
    rvalid_v := false
    start := 0 }

theorem powerUp_init : Init powerUp := ⟨rfl, rfl, rfl, rfl, rfl, rfl, rfl, rfl, rfl, rfl, rfl, rfl, rfl⟩

end dma_axi_lite

namespace fifo_8

/-- beta_integration_fullaxi.v:4986-5226: registers, memories and instances of module `fifo$8`. -/
structure S where
  level : Nat
  consume : Nat
  produce : Nat
  storage : List Nat

/-- beta_integration_fullaxi.v:5084. -/
@[netlist] def w2 (s : S) : Bool :=
  s.level != 32
/-- beta_integration_fullaxi.v:5145-5148. -/
@[netlist] def next_writable (s : S) : Bool :=
  (w2 s)
/-- beta_integration_fullaxi.v:5225. -/
@[netlist] def writable (s : S) : Bool :=
  (next_writable s)
/-- beta_integration_fullaxi.v:5075. -/
@[netlist] def w9 (s : S) (replace : Bool) : Bool :=
  (writable s) || replace
/-- beta_integration_fullaxi.v:5076. -/
@[netlist] def w11 (s : S) (we : Bool) (replace : Bool) : Bool :=
  we && (w9 s replace)
/-- beta_integration_fullaxi.v:5077. -/
@[netlist] def w13 (s : S) (we : Bool) : Bool :=
  (writable s) && we
/-- beta_integration_fullaxi.v:5078. -/
@[netlist] def w15 (s : S) (replace : Bool) : Bool :=
  !replace
/-- beta_integration_fullaxi.v:5079. -/
@[netlist] def w17 (s : S) (we : Bool) (replace : Bool) : Bool :=
  (w13 s we) && (w15 s replace)
/-- beta_integration_fullaxi.v:5080. -/
@[netlist] def w20 (s : S) : Nat :=
  (s.produce + 1) % 2 ^ 6
/-- beta_integration_fullaxi.v:5094. -/
@[netlist] def w4 (s : S) : Bool :=
  s.level != 0
/-- beta_integration_fullaxi.v:5149-5152. -/
@[netlist] def next_readable (s : S) : Bool :=
  (w4 s)
/-- beta_integration_fullaxi.v:5224. -/
@[netlist] def readable (s : S) : Bool :=
  (next_readable s)
/-- beta_integration_fullaxi.v:5081. -/
@[netlist] def w22 (s : S) (re : Bool) : Bool :=
  (readable s) && re
/-- beta_integration_fullaxi.v:5082. -/
@[netlist] def w25 (s : S) : Nat :=
  (s.consume + 1) % 2 ^ 6
/-- beta_integration_fullaxi.v:5083. -/
@[netlist] def w27 (s : S) (we : Bool) : Bool :=
  (writable s) && we
/-- beta_integration_fullaxi.v:5085. -/
@[netlist] def w29 (s : S) (replace : Bool) : Bool :=
  !replace
/-- beta_integration_fullaxi.v:5086. -/
@[netlist] def w31 (s : S) (we : Bool) (replace : Bool) : Bool :=
  (w27 s we) && (w29 s replace)
/-- beta_integration_fullaxi.v:5087. -/
@[netlist] def w34 (s : S) (re : Bool) : Bool :=
  (readable s) && re
/-- beta_integration_fullaxi.v:5088. -/
@[netlist] def w33 (s : S) (re : Bool) : Bool :=
  !(w34 s re)
/-- beta_integration_fullaxi.v:5089. -/
@[netlist] def w37 (s : S) (we : Bool) (replace : Bool) (re : Bool) : Bool :=
  (w31 s we replace) && (w33 s re)
/-- beta_integration_fullaxi.v:5090. -/
@[netlist] def w40 (s : S) : Nat :=
  (s.level + 1) % 2 ^ 7
/-- beta_integration_fullaxi.v:5091. -/
@[netlist] def w42 (s : S) (re : Bool) : Bool :=
  (readable s) && re
/-- beta_integration_fullaxi.v:5092. -/
@[netlist] def w45 (s : S) (we : Bool) : Bool :=
  (writable s) && we
/-- beta_integration_fullaxi.v:5093. -/
@[netlist] def w47 (s : S) (replace : Bool) : Bool :=
  !replace
/-- beta_integration_fullaxi.v:5095. -/
@[netlist] def w49 (s : S) (we : Bool) (replace : Bool) : Bool :=
  (w45 s we) && (w47 s replace)
/-- beta_integration_fullaxi.v:5096. -/
@[netlist] def w44 (s : S) (we : Bool) (replace : Bool) : Bool :=
  !(w49 s we replace)
/-- beta_integration_fullaxi.v:5097. -/
@[netlist] def w52 (s : S) (we : Bool) (replace : Bool) (re : Bool) : Bool :=
  (w42 s re) && (w44 s we replace)
/-- beta_integration_fullaxi.v:5098. -/
@[netlist] def w55 (s : S) : Nat :=
  (2 ^ 7 + s.level - 1) % 2 ^ 7
/-- beta_integration_fullaxi.v:5099. -/
@[netlist] def w7 (s : S) : Nat :=
  (2 ^ 6 + s.produce - 1) % 2 ^ 6
/-- beta_integration_fullaxi.v:5180-5183. -/
@[netlist] def next_rdport_storage_r_addr (s : S) : Nat :=
  s.consume
/-- beta_integration_fullaxi.v:5144. -/
@[netlist] def rdport_storage_r_data (s : S) : Nat :=
  s.storage.getD (next_rdport_storage_r_addr s) 0
/-- beta_integration_fullaxi.v:5214. -/
@[netlist] def w6 (s : S) : Nat :=
  (w7 s)
/-- beta_integration_fullaxi.v:5215. -/
@[netlist] def w19 (s : S) : Nat :=
  (w20 s)
/-- beta_integration_fullaxi.v:5216. -/
@[netlist] def w24 (s : S) : Nat :=
  (w25 s)
/-- beta_integration_fullaxi.v:5217. -/
@[netlist] def w39 (s : S) : Nat :=
  (w40 s)
/-- beta_integration_fullaxi.v:5218. -/
@[netlist] def w54 (s : S) : Nat :=
  (w55 s)
/-- beta_integration_fullaxi.v:5184-5187. -/
@[netlist] def next_dout (s : S) : Nat :=
  (rdport_storage_r_data s)
/-- beta_integration_fullaxi.v:5219. -/
@[netlist] def dout (s : S) : Nat :=
  (next_dout s)
/-- beta_integration_fullaxi.v:5220. -/
@[netlist] def rdport_storage_r_addr (s : S) : Nat :=
  (next_rdport_storage_r_addr s)
/-- beta_integration_fullaxi.v:5165-5168. -/
@[netlist] def next_wrport_storage_w_en (s : S) (we : Bool) (replace : Bool) : Bool :=
  (w11 s we replace)
/-- beta_integration_fullaxi.v:5221. -/
@[netlist] def wrport_storage_w_en (s : S) (we : Bool) (replace : Bool) : Bool :=
  (next_wrport_storage_w_en s we replace)
/-- beta_integration_fullaxi.v:5161-5164. -/
@[netlist] def next_wrport_storage_w_data (s : S) (din : Nat) : Nat :=
  din
/-- beta_integration_fullaxi.v:5222. -/
@[netlist] def wrport_storage_w_data (s : S) (din : Nat) : Nat :=
  (next_wrport_storage_w_data s din)
/-- beta_integration_fullaxi.v:5153-5160. -/
@[netlist] def next_wrport_storage_w_addr (s : S) (replace : Bool) : Nat :=
  if replace = true then slc (w6 s) 0 5
  else s.produce
/-- beta_integration_fullaxi.v:5223. -/
@[netlist] def wrport_storage_w_addr (s : S) (replace : Bool) : Nat :=
  (next_wrport_storage_w_addr s replace)
/-- beta_integration_fullaxi.v:5169-5179. -/
@[netlist] def next_produce (s : S) (we : Bool) (replace : Bool) (rst : Bool) : Nat :=
  let e1 := if (w17 s we replace) = true then slc (w19 s) 0 5
  else s.produce
  if rst = true then 0
  else e1
/-- beta_integration_fullaxi.v:5188-5198. -/
@[netlist] def next_consume (s : S) (re : Bool) (rst : Bool) : Nat :=
  let e1 := if (w22 s re) = true then slc (w24 s) 0 5
  else s.consume
  if rst = true then 0
  else e1
/-- beta_integration_fullaxi.v:5199-5213. -/
@[netlist] def next_level (s : S) (we : Bool) (replace : Bool) (re : Bool) (rst : Bool) : Nat :=
  let e1 := if (w37 s we replace re) = true then slc (w39 s) 0 6
  else s.level
  let e2 := if (w52 s we replace re) = true then slc (w54 s) 0 6
  else e1
  if rst = true then 0
  else e2

/-- beta_integration_fullaxi.v:4986-5226: one rising clock edge (`always @(posedge ...)`). -/
@[netlist] def step (s : S) (we : Bool) (replace : Bool) (re : Bool) (rst : Bool) (din : Nat) : S :=
  { level := (next_level s we replace re rst)
    consume := (next_consume s re rst)
    produce := (next_produce s we replace rst)
    storage := if (next_wrport_storage_w_en s we replace) then s.storage.set (next_wrport_storage_w_addr s replace) (next_wrport_storage_w_data s din) else s.storage }

/-- beta_integration_fullaxi.v:4986-5226: the initial values given in the netlist. -/
def Init (s : S) : Prop :=
  s.level = 0 ∧
  s.consume = 0 ∧
  s.produce = 0 ∧
  s.storage = List.replicate 32 0

/-- beta_integration_fullaxi.v:4986-5226: a state with these initial values; registers without one are 0. -/
def powerUp : S :=
  { level := 0
    consume := 0
    produce := 0
    storage := List.replicate 32 0 }

theorem powerUp_init : Init powerUp := ⟨rfl, rfl, rfl, rfl⟩

end fifo_8

namespace fifo_9

/-- beta_integration_fullaxi.v:5230-5470: registers, memories and instances of module `fifo$9`. -/
structure S where
  level : Nat
  consume : Nat
  produce : Nat
  storage : List Nat

/-- beta_integration_fullaxi.v:5328. -/
@[netlist] def w2 (s : S) : Bool :=
  s.level != 32
/-- beta_integration_fullaxi.v:5389-5392. -/
@[netlist] def next_writable (s : S) : Bool :=
  (w2 s)
/-- beta_integration_fullaxi.v:5469. -/
@[netlist] def writable (s : S) : Bool :=
  (next_writable s)
/-- beta_integration_fullaxi.v:5319. -/
@[netlist] def w9 (s : S) (replace : Bool) : Bool :=
  (writable s) || replace
/-- beta_integration_fullaxi.v:5320. -/
@[netlist] def w11 (s : S) (we : Bool) (replace : Bool) : Bool :=
  we && (w9 s replace)
/-- beta_integration_fullaxi.v:5321. -/
@[netlist] def w13 (s : S) (we : Bool) : Bool :=
  (writable s) && we
/-- beta_integration_fullaxi.v:5322. -/
@[netlist] def w15 (s : S) (replace : Bool) : Bool :=
  !replace
/-- beta_integration_fullaxi.v:5323. -/
@[netlist] def w17 (s : S) (we : Bool) (replace : Bool) : Bool :=
  (w13 s we) && (w15 s replace)
/-- beta_integration_fullaxi.v:5324. -/
@[netlist] def w20 (s : S) : Nat :=
  (s.produce + 1) % 2 ^ 6
/-- beta_integration_fullaxi.v:5338. -/
@[netlist] def w4 (s : S) : Bool :=
  s.level != 0
/-- beta_integration_fullaxi.v:5393-5396. -/
@[netlist] def next_readable (s : S) : Bool :=
  (w4 s)
/-- beta_integration_fullaxi.v:5468. -/
@[netlist] def readable (s : S) : Bool :=
  (next_readable s)
/-- beta_integration_fullaxi.v:5325. -/
@[netlist] def w22 (s : S) (re : Bool) : Bool :=
  (readable s) && re
/-- beta_integration_fullaxi.v:5326. -/
@[netlist] def w25 (s : S) : Nat :=
  (s.consume + 1) % 2 ^ 6
/-- beta_integration_fullaxi.v:5327. -/
@[netlist] def w27 (s : S) (we : Bool) : Bool :=
  (writable s) && we
/-- beta_integration_fullaxi.v:5329. -/
@[netlist] def w29 (s : S) (replace : Bool) : Bool :=
  !replace
/-- beta_integration_fullaxi.v:5330. -/
@[netlist] def w31 (s : S) (we : Bool) (replace : Bool) : Bool :=
  (w27 s we) && (w29 s replace)
/-- beta_integration_fullaxi.v:5331. -/
@[netlist] def w34 (s : S) (re : Bool) : Bool :=
  (readable s) && re
/-- beta_integration_fullaxi.v:5332. -/
@[netlist] def w33 (s : S) (re : Bool) : Bool :=
  !(w34 s re)
/-- beta_integration_fullaxi.v:5333. -/
@[netlist] def w37 (s : S) (we : Bool) (replace : Bool) (re : Bool) : Bool :=
  (w31 s we replace) && (w33 s re)
/-- beta_integration_fullaxi.v:5334. -/
@[netlist] def w40 (s : S) : Nat :=
  (s.level + 1) % 2 ^ 7
/-- beta_integration_fullaxi.v:5335. -/
@[netlist] def w42 (s : S) (re : Bool) : Bool :=
  (readable s) && re
/-- beta_integration_fullaxi.v:5336. -/
@[netlist] def w45 (s : S) (we : Bool) : Bool :=
  (writable s) && we
/-- beta_integration_fullaxi.v:5337. -/
@[netlist] def w47 (s : S) (replace : Bool) : Bool :=
  !replace
/-- beta_integration_fullaxi.v:5339. -/
@[netlist] def w49 (s : S) (we : Bool) (replace : Bool) : Bool :=
  (w45 s we) && (w47 s replace)
/-- beta_integration_fullaxi.v:5340. -/
@[netlist] def w44 (s : S) (we : Bool) (replace : Bool) : Bool :=
  !(w49 s we replace)
/-- beta_integration_fullaxi.v:5341. -/
@[netlist] def w52 (s : S) (we : Bool) (replace : Bool) (re : Bool) : Bool :=
  (w42 s re) && (w44 s we replace)
/-- beta_integration_fullaxi.v:5342. -/
@[netlist] def w55 (s : S) : Nat :=
  (2 ^ 7 + s.level - 1) % 2 ^ 7
/-- beta_integration_fullaxi.v:5343. -/
@[netlist] def w7 (s : S) : Nat :=
  (2 ^ 6 + s.produce - 1) % 2 ^ 6
/-- beta_integration_fullaxi.v:5424-5427. -/
@[netlist] def next_rdport_storage_r_addr (s : S) : Nat :=
  s.consume
/-- beta_integration_fullaxi.v:5388. -/
@[netlist] def rdport_storage_r_data (s : S) : Nat :=
  s.storage.getD (next_rdport_storage_r_addr s) 0
/-- beta_integration_fullaxi.v:5458. -/
@[netlist] def w6 (s : S) : Nat :=
  (w7 s)
/-- beta_integration_fullaxi.v:5459. -/
@[netlist] def w19 (s : S) : Nat :=
  (w20 s)
/-- beta_integration_fullaxi.v:5460. -/
@[netlist] def w24 (s : S) : Nat :=
  (w25 s)
/-- beta_integration_fullaxi.v:5461. -/
@[netlist] def w39 (s : S) : Nat :=
  (w40 s)
/-- beta_integration_fullaxi.v:5462. -/
@[netlist] def w54 (s : S) : Nat :=
  (w55 s)
/-- beta_integration_fullaxi.v:5428-5431. -/
@[netlist] def next_dout (s : S) : Nat :=
  (rdport_storage_r_data s)
/-- beta_integration_fullaxi.v:5463. -/
@[netlist] def dout (s : S) : Nat :=
  (next_dout s)
/-- beta_integration_fullaxi.v:5464. -/
@[netlist] def rdport_storage_r_addr (s : S) : Nat :=
  (next_rdport_storage_r_addr s)
/-- beta_integration_fullaxi.v:5409-5412. -/
@[netlist] def next_wrport_storage_w_en (s : S) (we : Bool) (replace : Bool) : Bool :=
  (w11 s we replace)
/-- beta_integration_fullaxi.v:5465. -/
@[netlist] def wrport_storage_w_en (s : S) (we : Bool) (replace : Bool) : Bool :=
  (next_wrport_storage_w_en s we replace)
/-- beta_integration_fullaxi.v:5405-5408. -/
@[netlist] def next_wrport_storage_w_data (s : S) (din : Nat) : Nat :=
  din
/-- beta_integration_fullaxi.v:5466. -/
@[netlist] def wrport_storage_w_data (s : S) (din : Nat) : Nat :=
  (next_wrport_storage_w_data s din)
/-- beta_integration_fullaxi.v:5397-5404. -/
@[netlist] def next_wrport_storage_w_addr (s : S) (replace : Bool) : Nat :=
  if replace = true then slc (w6 s) 0 5
  else s.produce
/-- beta_integration_fullaxi.v:5467. -/
@[netlist] def wrport_storage_w_addr (s : S) (replace : Bool) : Nat :=
  (next_wrport_storage_w_addr s replace)
/-- beta_integration_fullaxi.v:5413-5423. -/
@[netlist] def next_produce (s : S) (we : Bool) (replace : Bool) (rst : Bool) : Nat :=
  let e1 := if (w17 s we replace) = true then slc (w19 s) 0 5
  else s.produce
  if rst = true then 0
  else e1
/-- beta_integration_fullaxi.v:5432-5442. -/
@[netlist] def next_consume (s : S) (re : Bool) (rst : Bool) : Nat :=
  let e1 := if (w22 s re) = true then slc (w24 s) 0 5
  else s.consume
  if rst = true then 0
  else e1
/-- beta_integration_fullaxi.v:5443-5457. -/
@[netlist] def next_level (s : S) (we : Bool) (replace : Bool) (re : Bool) (rst : Bool) : Nat :=
  let e1 := if (w37 s we replace re) = true then slc (w39 s) 0 6
  else s.level
  let e2 := if (w52 s we replace re) = true then slc (w54 s) 0 6
  else e1
  if rst = true then 0
  else e2

/-- beta_integration_fullaxi.v:5230-5470: one rising clock edge (`always @(posedge ...)`). -/
@[netlist] def step (s : S) (we : Bool) (replace : Bool) (re : Bool) (rst : Bool) (din : Nat) : S :=
  { level := (next_level s we replace re rst)
    consume := (next_consume s re rst)
    produce := (next_produce s we replace rst)
    storage := if (next_wrport_storage_w_en s we replace) then s.storage.set (next_wrport_storage_w_addr s replace) (next_wrport_storage_w_data s din) else s.storage }

/-- beta_integration_fullaxi.v:5230-5470: the initial values given in the netlist. -/
def Init (s : S) : Prop :=
  s.level = 0 ∧
  s.consume = 0 ∧
  s.produce = 0 ∧
  s.storage = List.replicate 32 0

/-- beta_integration_fullaxi.v:5230-5470: a state with these initial values; registers without one are 0. -/
def powerUp : S :=
  { level := 0
    consume := 0
    produce := 0
    storage := List.replicate 32 0 }

theorem powerUp_init : Init powerUp := ⟨rfl, rfl, rfl, rfl⟩

end fifo_9

namespace reader_fifo

/-- beta_integration_fullaxi.v:10884-11013: registers, memories and instances of module `reader_fifo`. -/
structure S where
  u_fifo : fifo_8.S

/-- beta_integration_fullaxi.v:10951-10962. -/
@[netlist] def fifo_level (s : S) : Nat :=
  s.u_fifo.level
/-- beta_integration_fullaxi.v:10949. -/
@[netlist] def w1 (s : S) : Bool :=
  decide ((fifo_level s) ≥ 16)
/-- beta_integration_fullaxi.v:10950. -/
@[netlist] def w3 (s : S) : Bool :=
  decide ((fifo_level s) ≤ 12)
/-- beta_integration_fullaxi.v:10951-10962. -/
@[netlist] def fifo_readable (s : S) : Bool :=
  fifo_8.readable s.u_fifo
/-- beta_integration_fullaxi.v:10999-11002. -/
@[netlist] def next_valid_out (s : S) : Bool :=
  (fifo_readable s)
/-- beta_integration_fullaxi.v:11003. -/
@[netlist] def valid_out (s : S) : Bool :=
  (next_valid_out s)
/-- beta_integration_fullaxi.v:10951-10962. -/
@[netlist] def fifo_dout (s : S) : Nat :=
  fifo_8.dout s.u_fifo
/-- beta_integration_fullaxi.v:10995-10998. -/
@[netlist] def next_end_out (s : S) : Bool :=
  (fifo_dout s).testBit 0
/-- beta_integration_fullaxi.v:11004. -/
@[netlist] def end_out (s : S) : Bool :=
  (next_end_out s)
/-- beta_integration_fullaxi.v:10991-10994. -/
@[netlist] def next_data_out (s : S) : Nat :=
  slc (fifo_dout s) 1 64
/-- beta_integration_fullaxi.v:11005. -/
@[netlist] def data_out (s : S) : Nat :=
  (next_data_out s)
/-- beta_integration_fullaxi.v:10987-10990. -/
@[netlist] def next_writable16 (s : S) : Bool :=
  (w3 s)
/-- beta_integration_fullaxi.v:11006. -/
@[netlist] def writable16 (s : S) : Bool :=
  (next_writable16 s)
/-- beta_integration_fullaxi.v:10983-10986. -/
@[netlist] def next_readable16 (s : S) : Bool :=
  (w1 s)
/-- beta_integration_fullaxi.v:11007. -/
@[netlist] def readable16 (s : S) : Bool :=
  (next_readable16 s)
/-- beta_integration_fullaxi.v:10979-10982. -/
@[netlist] def next_readable (s : S) : Bool :=
  (fifo_readable s)
/-- beta_integration_fullaxi.v:11008. -/
@[netlist] def readable (s : S) : Bool :=
  (next_readable s)
/-- beta_integration_fullaxi.v:10951-10962. -/
@[netlist] def fifo_writable (s : S) : Bool :=
  fifo_8.writable s.u_fifo
/-- beta_integration_fullaxi.v:10975-10978. -/
@[netlist] def next_writable (s : S) : Bool :=
  (fifo_writable s)
/-- beta_integration_fullaxi.v:11009. -/
@[netlist] def writable (s : S) : Bool :=
  (next_writable s)
/-- beta_integration_fullaxi.v:10971-10974. -/
@[netlist] def next_fifo_re (s : S) (read : Bool) : Bool :=
  read
/-- beta_integration_fullaxi.v:11010. -/
@[netlist] def fifo_re (s : S) (read : Bool) : Bool :=
  (next_fifo_re s read)
/-- beta_integration_fullaxi.v:10967-10970. -/
@[netlist] def next_fifo_din (s : S) (end_in : Bool) (data_in : Nat) : Nat :=
  data_in * 2 ^ 1 + end_in.toNat
/-- beta_integration_fullaxi.v:11011. -/
@[netlist] def fifo_din (s : S) (end_in : Bool) (data_in : Nat) : Nat :=
  (next_fifo_din s end_in data_in)
/-- beta_integration_fullaxi.v:10963-10966. -/
@[netlist] def next_fifo_we (s : S) (valid_in : Bool) : Bool :=
  valid_in
/-- beta_integration_fullaxi.v:11012. -/
@[netlist] def fifo_we (s : S) (valid_in : Bool) : Bool :=
  (next_fifo_we s valid_in)

/-- beta_integration_fullaxi.v:10884-11013: one rising clock edge (`always @(posedge ...)`). -/
@[netlist] def step (s : S) (end_in : Bool) (data_in : Nat) (read : Bool) (replace : Bool) (rst : Bool) (valid_in : Bool) : S :=
  { u_fifo := fifo_8.step s.u_fifo (fifo_we s valid_in) replace (fifo_re s read) rst (fifo_din s end_in data_in) }

/-- beta_integration_fullaxi.v:10884-11013: the initial values given in the netlist. -/
def Init (s : S) : Prop :=
  fifo_8.Init s.u_fifo

/-- beta_integration_fullaxi.v:10884-11013: a state with these initial values; registers without one are 0. -/
def powerUp : S :=
  { u_fifo := fifo_8.powerUp }

theorem powerUp_init : Init powerUp := fifo_8.powerUp_init

end reader_fifo

namespace top_1

/-- beta_integration_fullaxi.v:12190-12554: registers, memories and instances of module `top$1`. -/
structure S where
  u_auto_reset : Beta.auto_reset.S
  u_fix_0xff : Beta.fix_0xff.S
  u_fix_0xff2 : Beta.fix_0xff2.S
  u_integration_3 : Beta.integration_3.S
  u_markers : Beta.markers.S

/-- beta_integration_fullaxi.v:12357-12364. -/
@[netlist] def auto_reset_reset_out (s : S) : Bool :=
  s.u_auto_reset.reset_out
/-- beta_integration_fullaxi.v:12353. -/
@[netlist] def w2 (s : S) : Bool :=
  (auto_reset_reset_out s) == true
/-- beta_integration_fullaxi.v:12354. -/
@[netlist] def w4 (s : S) (full_rst : Bool) : Bool :=
  full_rst == true
/-- beta_integration_fullaxi.v:12355. -/
@[netlist] def w6 (s : S) (full_rst : Bool) : Bool :=
  (w2 s) || (w4 s full_rst)
/-- beta_integration_fullaxi.v:12356. -/
@[netlist] def w8 (s : S) (busy_in : Bool) : Bool :=
  busy_in == false
/-- beta_integration_fullaxi.v:12391-12405. -/
@[netlist] def integration_3_nready (s : S) : Bool :=
  Beta.integration_3.nready s.u_integration_3
/-- beta_integration_fullaxi.v:12495-12498. -/
@[netlist] def next_nready (s : S) : Bool :=
  (integration_3_nready s)
/-- beta_integration_fullaxi.v:12527. -/
@[netlist] def nready (s : S) : Bool :=
  (next_nready s)
/-- beta_integration_fullaxi.v:12479-12482. -/
@[netlist] def next_markers_i_busy (s : S) (busy_in : Bool) : Bool :=
  busy_in
/-- beta_integration_fullaxi.v:12531. -/
@[netlist] def markers_i_busy (s : S) (busy_in : Bool) : Bool :=
  (next_markers_i_busy s busy_in)
/-- beta_integration_fullaxi.v:12406-12418. -/
@[netlist] def markers_end_out (s : S) (busy_in : Bool) : Bool :=
  Beta.markers.end_out s.u_markers (markers_i_busy s busy_in)
/-- beta_integration_fullaxi.v:12491-12494. -/
@[netlist] def next_end_out (s : S) (busy_in : Bool) : Bool :=
  (markers_end_out s busy_in)
/-- beta_integration_fullaxi.v:12528. -/
@[netlist] def end_out (s : S) (busy_in : Bool) : Bool :=
  (next_end_out s busy_in)
/-- beta_integration_fullaxi.v:12378-12390. -/
@[netlist] def fix_0xff2_valid_out (s : S) : Bool :=
  s.u_fix_0xff2.valid_out
/-- beta_integration_fullaxi.v:12463-12466. -/
@[netlist] def next_markers_valid_in (s : S) : Bool :=
  (fix_0xff2_valid_out s)
/-- beta_integration_fullaxi.v:12534. -/
@[netlist] def markers_valid_in (s : S) : Bool :=
  (next_markers_valid_in s)
/-- beta_integration_fullaxi.v:12391-12405. -/
@[netlist] def integration_3_fend_out (s : S) : Bool :=
  Beta.integration_3.fend_out s.u_integration_3
/-- beta_integration_fullaxi.v:12471-12474. -/
@[netlist] def next_markers_force_end_in (s : S) : Bool :=
  (integration_3_fend_out s)
/-- beta_integration_fullaxi.v:12533. -/
@[netlist] def markers_force_end_in (s : S) : Bool :=
  (next_markers_force_end_in s)
/-- beta_integration_fullaxi.v:12406-12418. -/
@[netlist] def markers_valid_out (s : S) (busy_in : Bool) : Bool :=
  Beta.markers.valid_out s.u_markers (markers_valid_in s) (markers_force_end_in s) (markers_i_busy s busy_in)
/-- beta_integration_fullaxi.v:12487-12490. -/
@[netlist] def next_valid_out (s : S) (busy_in : Bool) : Bool :=
  (markers_valid_out s busy_in)
/-- beta_integration_fullaxi.v:12529. -/
@[netlist] def valid_out (s : S) (busy_in : Bool) : Bool :=
  (next_valid_out s busy_in)
/-- beta_integration_fullaxi.v:12378-12390. -/
@[netlist] def fix_0xff2_data_out (s : S) : Nat :=
  s.u_fix_0xff2.data_out
/-- beta_integration_fullaxi.v:12459-12462. -/
@[netlist] def next_markers_data_in (s : S) : Nat :=
  (fix_0xff2_data_out s)
/-- beta_integration_fullaxi.v:12535. -/
@[netlist] def markers_data_in (s : S) : Nat :=
  (next_markers_data_in s)
/-- beta_integration_fullaxi.v:12406-12418. -/
@[netlist] def markers_data_out (s : S) (busy_in : Bool) : Nat :=
  Beta.markers.data_out s.u_markers (markers_force_end_in s) (markers_data_in s) (markers_i_busy s busy_in)
/-- beta_integration_fullaxi.v:12483-12486. -/
@[netlist] def next_data_out (s : S) (busy_in : Bool) : Nat :=
  (markers_data_out s busy_in)
/-- beta_integration_fullaxi.v:12530. -/
@[netlist] def data_out (s : S) (busy_in : Bool) : Nat :=
  (next_data_out s busy_in)
/-- beta_integration_fullaxi.v:12378-12390. -/
@[netlist] def fix_0xff2_end_out (s : S) : Bool :=
  s.u_fix_0xff2.end_out
/-- beta_integration_fullaxi.v:12475-12478. -/
@[netlist] def next_markers_end_in (s : S) : Bool :=
  (fix_0xff2_end_out s)
/-- beta_integration_fullaxi.v:12532. -/
@[netlist] def markers_end_in (s : S) : Bool :=
  (next_markers_end_in s)
/-- beta_integration_fullaxi.v:12365-12377. -/
@[netlist] def fix_0xff_data_out_ctr (s : S) : Nat :=
  s.u_fix_0xff.data_out_ctr
/-- beta_integration_fullaxi.v:12455-12458. -/
@[netlist] def next_fix_0xff2_data_in_ctr (s : S) : Nat :=
  (fix_0xff_data_out_ctr s)
/-- beta_integration_fullaxi.v:12536. -/
@[netlist] def fix_0xff2_data_in_ctr (s : S) : Nat :=
  (next_fix_0xff2_data_in_ctr s)
/-- beta_integration_fullaxi.v:12406-12418. -/
@[netlist] def markers_o_busy (s : S) (busy_in : Bool) : Bool :=
  Beta.markers.o_busy s.u_markers (markers_force_end_in s) (markers_i_busy s busy_in)
/-- beta_integration_fullaxi.v:12451-12454. -/
@[netlist] def next_fix_0xff2_i_busy (s : S) (busy_in : Bool) : Bool :=
  (markers_o_busy s busy_in)
/-- beta_integration_fullaxi.v:12537. -/
@[netlist] def fix_0xff2_i_busy (s : S) (busy_in : Bool) : Bool :=
  (next_fix_0xff2_i_busy s busy_in)
/-- beta_integration_fullaxi.v:12365-12377. -/
@[netlist] def fix_0xff_end_out (s : S) : Bool :=
  s.u_fix_0xff.end_out
/-- beta_integration_fullaxi.v:12447-12450. -/
@[netlist] def next_fix_0xff2_end_in (s : S) : Bool :=
  (fix_0xff_end_out s)
/-- beta_integration_fullaxi.v:12538. -/
@[netlist] def fix_0xff2_end_in (s : S) : Bool :=
  (next_fix_0xff2_end_in s)
/-- beta_integration_fullaxi.v:12365-12377. -/
@[netlist] def fix_0xff_valid_out (s : S) : Bool :=
  s.u_fix_0xff.valid_out
/-- beta_integration_fullaxi.v:12443-12446. -/
@[netlist] def next_fix_0xff2_valid_in (s : S) : Bool :=
  (fix_0xff_valid_out s)
/-- beta_integration_fullaxi.v:12539. -/
@[netlist] def fix_0xff2_valid_in (s : S) : Bool :=
  (next_fix_0xff2_valid_in s)
/-- beta_integration_fullaxi.v:12365-12377. -/
@[netlist] def fix_0xff_data_out (s : S) : Nat :=
  s.u_fix_0xff.data_out
/-- beta_integration_fullaxi.v:12439-12442. -/
@[netlist] def next_fix_0xff2_data_in (s : S) : Nat :=
  (fix_0xff_data_out s)
/-- beta_integration_fullaxi.v:12540. -/
@[netlist] def fix_0xff2_data_in (s : S) : Nat :=
  (next_fix_0xff2_data_in s)
/-- beta_integration_fullaxi.v:12378-12390. -/
@[netlist] def fix_0xff2_o_busy (s : S) : Bool :=
  s.u_fix_0xff2.o_busy
/-- beta_integration_fullaxi.v:12435-12438. -/
@[netlist] def next_fix_0xff_i_busy (s : S) : Bool :=
  (fix_0xff2_o_busy s)
/-- beta_integration_fullaxi.v:12541. -/
@[netlist] def fix_0xff_i_busy (s : S) : Bool :=
  (next_fix_0xff_i_busy s)
/-- beta_integration_fullaxi.v:12391-12405. -/
@[netlist] def integration_3_end_out (s : S) : Bool :=
  Beta.integration_3.end_out s.u_integration_3
/-- beta_integration_fullaxi.v:12431-12434. -/
@[netlist] def next_fix_0xff_end_in (s : S) : Bool :=
  (integration_3_end_out s)
/-- beta_integration_fullaxi.v:12542. -/
@[netlist] def fix_0xff_end_in (s : S) : Bool :=
  (next_fix_0xff_end_in s)
/-- beta_integration_fullaxi.v:12391-12405. -/
@[netlist] def integration_3_valid_out (s : S) : Bool :=
  Beta.integration_3.valid_out s.u_integration_3
/-- beta_integration_fullaxi.v:12427-12430. -/
@[netlist] def next_fix_0xff_valid_in (s : S) : Bool :=
  (integration_3_valid_out s)
/-- beta_integration_fullaxi.v:12543. -/
@[netlist] def fix_0xff_valid_in (s : S) : Bool :=
  (next_fix_0xff_valid_in s)
/-- beta_integration_fullaxi.v:12391-12405. -/
@[netlist] def integration_3_data_out (s : S) : Nat :=
  Beta.integration_3.data_out s.u_integration_3
/-- beta_integration_fullaxi.v:12523-12526. -/
@[netlist] def next_fix_0xff_data_in (s : S) : Nat :=
  (integration_3_data_out s)
/-- beta_integration_fullaxi.v:12544. -/
@[netlist] def fix_0xff_data_in (s : S) : Nat :=
  (next_fix_0xff_data_in s)
/-- beta_integration_fullaxi.v:12365-12377. -/
@[netlist] def fix_0xff_o_busy (s : S) : Bool :=
  s.u_fix_0xff.o_busy
/-- beta_integration_fullaxi.v:12519-12522. -/
@[netlist] def next_integration_3_busy_in (s : S) : Bool :=
  (fix_0xff_o_busy s)
/-- beta_integration_fullaxi.v:12545. -/
@[netlist] def integration_3_busy_in (s : S) : Bool :=
  (next_integration_3_busy_in s)
/-- beta_integration_fullaxi.v:12515-12518. -/
@[netlist] def next_integration_3_valid_in (s : S) (valid_in : Bool) : Bool :=
  valid_in
/-- beta_integration_fullaxi.v:12546. -/
@[netlist] def integration_3_valid_in (s : S) (valid_in : Bool) : Bool :=
  (next_integration_3_valid_in s valid_in)
/-- beta_integration_fullaxi.v:12511-12514. -/
@[netlist] def next_integration_3_pixel_in_1 (s : S) (pixel_in2 : Nat) : Nat :=
  pixel_in2
/-- beta_integration_fullaxi.v:12547. -/
@[netlist] def integration_3_pixel_in_1 (s : S) (pixel_in2 : Nat) : Nat :=
  (next_integration_3_pixel_in_1 s pixel_in2)
/-- beta_integration_fullaxi.v:12507-12510. -/
@[netlist] def next_integration_3_pixel_in (s : S) (pixel_in1 : Nat) : Nat :=
  pixel_in1
/-- beta_integration_fullaxi.v:12548. -/
@[netlist] def integration_3_pixel_in (s : S) (pixel_in1 : Nat) : Nat :=
  (next_integration_3_pixel_in s pixel_in1)
/-- beta_integration_fullaxi.v:12503-12506. -/
@[netlist] def next_auto_reset_hs2_in (s : S) (busy_in : Bool) : Bool :=
  (w8 s busy_in)
/-- beta_integration_fullaxi.v:12549. -/
@[netlist] def auto_reset_hs2_in (s : S) (busy_in : Bool) : Bool :=
  (next_auto_reset_hs2_in s busy_in)
/-- beta_integration_fullaxi.v:12499-12502. -/
@[netlist] def next_auto_reset_hs1_in (s : S) (busy_in : Bool) : Bool :=
  (valid_out s busy_in)
/-- beta_integration_fullaxi.v:12550. -/
@[netlist] def auto_reset_hs1_in (s : S) (busy_in : Bool) : Bool :=
  (next_auto_reset_hs1_in s busy_in)
/-- beta_integration_fullaxi.v:12467-12470. -/
@[netlist] def next_auto_reset_end_in (s : S) (busy_in : Bool) : Bool :=
  (end_out s busy_in)
/-- beta_integration_fullaxi.v:12551. -/
@[netlist] def auto_reset_end_in (s : S) (busy_in : Bool) : Bool :=
  (next_auto_reset_end_in s busy_in)
/-- beta_integration_fullaxi.v:12423-12426. -/
@[netlist] def next_rst (s : S) (full_rst : Bool) : Bool :=
  (w6 s full_rst)
/-- beta_integration_fullaxi.v:12552. -/
@[netlist] def rst (s : S) (full_rst : Bool) : Bool :=
  (next_rst s full_rst)

/-- beta_integration_fullaxi.v:12190-12554: one rising clock edge (`always @(posedge ...)`). -/
@[netlist] def step (s : S) (full_rst : Bool) (busy_in : Bool) (pixel_in1 : Nat) (pixel_in2 : Nat) (valid_in : Bool) : S :=
  { u_auto_reset := Beta.auto_reset.step s.u_auto_reset (auto_reset_hs2_in s busy_in) (auto_reset_end_in s busy_in) (rst s full_rst) (auto_reset_hs1_in s busy_in)
    u_fix_0xff := Beta.fix_0xff.step s.u_fix_0xff (fix_0xff_valid_in s) (fix_0xff_end_in s) (fix_0xff_data_in s) (rst s full_rst) (fix_0xff_i_busy s)
    u_fix_0xff2 := Beta.fix_0xff2.step s.u_fix_0xff2 (fix_0xff2_valid_in s) (fix_0xff2_data_in_ctr s) (fix_0xff2_data_in s) (fix_0xff2_end_in s) (rst s full_rst) (fix_0xff2_i_busy s busy_in)
    u_integration_3 := Beta.integration_3.step s.u_integration_3 (integration_3_pixel_in_1 s pixel_in2) (integration_3_valid_in s valid_in) (integration_3_busy_in s) (rst s full_rst) full_rst (integration_3_pixel_in s pixel_in1)
    u_markers := Beta.markers.step s.u_markers (markers_valid_in s) (markers_end_in s) (markers_force_end_in s) (markers_data_in s) (rst s full_rst) (markers_i_busy s busy_in) }

/-- beta_integration_fullaxi.v:12190-12554: the initial values given in the netlist. -/
def Init (s : S) : Prop :=
  Beta.auto_reset.Init s.u_auto_reset ∧
  Beta.fix_0xff.Init s.u_fix_0xff ∧
  Beta.fix_0xff2.Init s.u_fix_0xff2 ∧
  Beta.integration_3.Init s.u_integration_3 ∧
  Beta.markers.Init s.u_markers

/-- beta_integration_fullaxi.v:12190-12554: a state with these initial values; registers without one are 0. -/
def powerUp : S :=
  { u_auto_reset := Beta.auto_reset.powerUp
    u_fix_0xff := Beta.fix_0xff.powerUp
    u_fix_0xff2 := Beta.fix_0xff2.powerUp
    u_integration_3 := Beta.integration_3.powerUp
    u_markers := Beta.markers.powerUp }

theorem powerUp_init : Init powerUp := ⟨Beta.auto_reset.powerUp_init, Beta.fix_0xff.powerUp_init, Beta.fix_0xff2.powerUp_init, Beta.integration_3.powerUp_init, Beta.markers.powerUp_init⟩

end top_1

namespace writer_fifo

/-- beta_integration_fullaxi.v:14239-14368: registers, memories and instances of module `writer_fifo`. -/
structure S where
  u_fifo : fifo_9.S

/-- beta_integration_fullaxi.v:14306-14317. -/
@[netlist] def fifo_level (s : S) : Nat :=
  s.u_fifo.level
/-- beta_integration_fullaxi.v:14304. -/
@[netlist] def w1 (s : S) : Bool :=
  decide ((fifo_level s) ≥ 16)
/-- beta_integration_fullaxi.v:14305. -/
@[netlist] def w3 (s : S) : Bool :=
  decide ((fifo_level s) ≤ 12)
/-- beta_integration_fullaxi.v:14306-14317. -/
@[netlist] def fifo_readable (s : S) : Bool :=
  fifo_9.readable s.u_fifo
/-- beta_integration_fullaxi.v:14354-14357. -/
@[netlist] def next_valid_out (s : S) : Bool :=
  (fifo_readable s)
/-- beta_integration_fullaxi.v:14358. -/
@[netlist] def valid_out (s : S) : Bool :=
  (next_valid_out s)
/-- beta_integration_fullaxi.v:14306-14317. -/
@[netlist] def fifo_dout (s : S) : Nat :=
  fifo_9.dout s.u_fifo
/-- beta_integration_fullaxi.v:14350-14353. -/
@[netlist] def next_end_out (s : S) : Bool :=
  (fifo_dout s).testBit 0
/-- beta_integration_fullaxi.v:14359. -/
@[netlist] def end_out (s : S) : Bool :=
  (next_end_out s)
/-- beta_integration_fullaxi.v:14346-14349. -/
@[netlist] def next_data_out (s : S) : Nat :=
  slc (fifo_dout s) 1 64
/-- beta_integration_fullaxi.v:14360. -/
@[netlist] def data_out (s : S) : Nat :=
  (next_data_out s)
/-- beta_integration_fullaxi.v:14342-14345. -/
@[netlist] def next_writable16 (s : S) : Bool :=
  (w3 s)
/-- beta_integration_fullaxi.v:14361. -/
@[netlist] def writable16 (s : S) : Bool :=
  (next_writable16 s)
/-- beta_integration_fullaxi.v:14338-14341. -/
@[netlist] def next_readable16 (s : S) : Bool :=
  (w1 s)
/-- beta_integration_fullaxi.v:14362. -/
@[netlist] def readable16 (s : S) : Bool :=
  (next_readable16 s)
/-- beta_integration_fullaxi.v:14334-14337. -/
@[netlist] def next_readable (s : S) : Bool :=
  (fifo_readable s)
/-- beta_integration_fullaxi.v:14363. -/
@[netlist] def readable (s : S) : Bool :=
  (next_readable s)
/-- beta_integration_fullaxi.v:14306-14317. -/
@[netlist] def fifo_writable (s : S) : Bool :=
  fifo_9.writable s.u_fifo
/-- beta_integration_fullaxi.v:14330-14333. -/
@[netlist] def next_writable (s : S) : Bool :=
  (fifo_writable s)
/-- beta_integration_fullaxi.v:14364. -/
@[netlist] def writable (s : S) : Bool :=
  (next_writable s)
/-- beta_integration_fullaxi.v:14326-14329. -/
@[netlist] def next_fifo_re (s : S) (read : Bool) : Bool :=
  read
/-- beta_integration_fullaxi.v:14365. -/
@[netlist] def fifo_re (s : S) (read : Bool) : Bool :=
  (next_fifo_re s read)
/-- beta_integration_fullaxi.v:14322-14325. -/
@[netlist] def next_fifo_din (s : S) (end_in : Bool) (data_in : Nat) : Nat :=
  data_in * 2 ^ 1 + end_in.toNat
/-- beta_integration_fullaxi.v:14366. -/
@[netlist] def fifo_din (s : S) (end_in : Bool) (data_in : Nat) : Nat :=
  (next_fifo_din s end_in data_in)
/-- beta_integration_fullaxi.v:14318-14321. -/
@[netlist] def next_fifo_we (s : S) (valid_in : Bool) : Bool :=
  valid_in
/-- beta_integration_fullaxi.v:14367. -/
@[netlist] def fifo_we (s : S) (valid_in : Bool) : Bool :=
  (next_fifo_we s valid_in)

/-- beta_integration_fullaxi.v:14239-14368: one rising clock edge (`always @(posedge ...)`). -/
@[netlist] def step (s : S) (end_in : Bool) (data_in : Nat) (read : Bool) (replace : Bool) (rst : Bool) (valid_in : Bool) : S :=
  { u_fifo := fifo_9.step s.u_fifo (fifo_we s valid_in) replace (fifo_re s read) rst (fifo_din s end_in data_in) }

/-- beta_integration_fullaxi.v:14239-14368: the initial values given in the netlist. -/
def Init (s : S) : Prop :=
  fifo_9.Init s.u_fifo

/-- beta_integration_fullaxi.v:14239-14368: a state with these initial values; registers without one are 0. -/
def powerUp : S :=
  { u_fifo := fifo_9.powerUp }

theorem powerUp_init : Init powerUp := fifo_9.powerUp_init

end writer_fifo

namespace top

/-- beta_integration_fullaxi.v:11296-12186: registers, memories and instances of module `top`. -/
structure S where
  counter_write : Nat
  counter_read : Nat
  u_address_gen_read : address_gen_read.S
  u_address_gen_write : address_gen_write.S
  u_axihp_reader : axihp_reader.S
  u_axihp_writer : axihp_writer.S
  u_b16_b64 : b16_b64.S
  u_b64_b32 : b64_b32.S
  u_dma_axi_lite : dma_axi_lite.S
  u_reader_fifo : reader_fifo.S
  u_top : top_1.S
  u_writer_fifo : writer_fifo.S

/-- beta_integration_fullaxi.v:11751-11758. -/
@[netlist] def address_gen_write_address_valid (s : S) : Bool :=
  s.u_address_gen_write.address_valid
/-- beta_integration_fullaxi.v:11706. -/
@[netlist] def w10 (s : S) : Bool :=
  (address_gen_write_address_valid s) == true
/-- beta_integration_fullaxi.v:11787-11820. -/
@[netlist] def axihp_writer_addr_enable (s : S) (m_axi_wi__awready : Bool) : Bool :=
  axihp_writer.addr_enable s.u_axihp_writer m_axi_wi__awready
/-- beta_integration_fullaxi.v:11707. -/
@[netlist] def w12 (s : S) (m_axi_wi__awready : Bool) : Bool :=
  (axihp_writer_addr_enable s m_axi_wi__awready) == true
/-- beta_integration_fullaxi.v:11708. -/
@[netlist] def w14 (s : S) (m_axi_wi__awready : Bool) : Bool :=
  (w10 s) && (w12 s m_axi_wi__awready)
/-- beta_integration_fullaxi.v:11709. -/
@[netlist] def w16 (s : S) : Bool :=
  s.counter_write == 0x20000
/-- beta_integration_fullaxi.v:11743-11750. -/
@[netlist] def address_gen_read_address_valid (s : S) : Bool :=
  s.u_address_gen_read.address_valid
/-- beta_integration_fullaxi.v:11710. -/
@[netlist] def w18 (s : S) : Bool :=
  (address_gen_read_address_valid s) == true
/-- beta_integration_fullaxi.v:11759-11786. -/
@[netlist] def axihp_reader_addr_enable (s : S) (m_axi_ri__arready : Bool) : Bool :=
  axihp_reader.addr_enable s.u_axihp_reader m_axi_ri__arready
/-- beta_integration_fullaxi.v:11711. -/
@[netlist] def w20 (s : S) (m_axi_ri__arready : Bool) : Bool :=
  (axihp_reader_addr_enable s m_axi_ri__arready) == true
/-- beta_integration_fullaxi.v:11712. -/
@[netlist] def w22 (s : S) (m_axi_ri__arready : Bool) : Bool :=
  (w18 s) && (w20 s m_axi_ri__arready)
/-- beta_integration_fullaxi.v:11713. -/
@[netlist] def w24 (s : S) : Bool :=
  s.counter_read == 0x30000
/-- beta_integration_fullaxi.v:11714. -/
@[netlist] def w27 (s : S) : Nat :=
  (s.counter_read + 1) % 2 ^ 33
/-- beta_integration_fullaxi.v:11715. -/
@[netlist] def w2 (s : S) : Bool :=
  (address_gen_read_address_valid s) == true
/-- beta_integration_fullaxi.v:11716. -/
@[netlist] def w29 (s : S) : Bool :=
  (address_gen_write_address_valid s) == true
/-- beta_integration_fullaxi.v:11717. -/
@[netlist] def w31 (s : S) (m_axi_wi__awready : Bool) : Bool :=
  (axihp_writer_addr_enable s m_axi_wi__awready) == true
/-- beta_integration_fullaxi.v:11718. -/
@[netlist] def w33 (s : S) (m_axi_wi__awready : Bool) : Bool :=
  (w29 s) && (w31 s m_axi_wi__awready)
/-- beta_integration_fullaxi.v:11719. -/
@[netlist] def w35 (s : S) : Bool :=
  s.counter_write == 0x20000
/-- beta_integration_fullaxi.v:11720. -/
@[netlist] def w38 (s : S) : Nat :=
  (s.counter_write + 1) % 2 ^ 33
/-- beta_integration_fullaxi.v:11787-11820. -/
@[netlist] def axihp_writer_writer_unconf (s : S) : Nat :=
  axihp_writer.writer_unconf s.u_axihp_writer
/-- beta_integration_fullaxi.v:11759-11786. -/
@[netlist] def axihp_reader_reader_active (s : S) : Nat :=
  axihp_reader.reader_active s.u_axihp_reader
/-- beta_integration_fullaxi.v:11787-11820. -/
@[netlist] def axihp_writer_writer_active (s : S) : Nat :=
  axihp_writer.writer_active s.u_axihp_writer
/-- beta_integration_fullaxi.v:11759-11786. -/
@[netlist] def axihp_reader_reader_error (s : S) (m_axi_ri__rvalid : Bool) (m_axi_ri__rresp : Nat) : Bool :=
  axihp_reader.reader_error s.u_axihp_reader m_axi_ri__rvalid m_axi_ri__rresp
/-- beta_integration_fullaxi.v:11787-11820. -/
@[netlist] def axihp_writer_writer_error (s : S) (m_axi_wi__bvalid : Bool) (m_axi_wi__bresp : Nat) : Bool :=
  axihp_writer.writer_error s.u_axihp_writer m_axi_wi__bvalid m_axi_wi__bresp
/-- beta_integration_fullaxi.v:11787-11820. -/
@[netlist] def axihp_writer_inactive (s : S) : Bool :=
  axihp_writer.inactive s.u_axihp_writer
/-- beta_integration_fullaxi.v:11759-11786. -/
@[netlist] def axihp_reader_inactive (s : S) : Bool :=
  axihp_reader.inactive s.u_axihp_reader
/-- beta_integration_fullaxi.v:11927-11937. -/
@[netlist] def next_write_end (s : S) (m_axi_wi__awready : Bool) : Bool :=
  if (w14 s m_axi_wi__awready) = true then (if (w16 s) = true then true
    else false)
  else false
/-- beta_integration_fullaxi.v:12184. -/
@[netlist] def write_end (s : S) (m_axi_wi__awready : Bool) : Bool :=
  (next_write_end s m_axi_wi__awready)
/-- beta_integration_fullaxi.v:11726. -/
@[netlist] def w4 (s : S) (m_axi_ri__arready : Bool) : Bool :=
  (axihp_reader_addr_enable s m_axi_ri__arready) == true
/-- beta_integration_fullaxi.v:11737. -/
@[netlist] def w6 (s : S) (m_axi_ri__arready : Bool) : Bool :=
  (w2 s) && (w4 s m_axi_ri__arready)
/-- beta_integration_fullaxi.v:11738. -/
@[netlist] def w8 (s : S) : Bool :=
  s.counter_read == 0x30000
/-- beta_integration_fullaxi.v:11916-11926. -/
@[netlist] def next_read_end (s : S) (m_axi_ri__arready : Bool) : Bool :=
  if (w6 s m_axi_ri__arready) = true then (if (w8 s) = true then true
    else false)
  else false
/-- beta_integration_fullaxi.v:12185. -/
@[netlist] def read_end (s : S) (m_axi_ri__arready : Bool) : Bool :=
  (next_read_end s m_axi_ri__arready)
/-- beta_integration_fullaxi.v:11787-11820. -/
@[netlist] def axihp_writer_data_enable (s : S) (m_axi_wi__wready : Bool) : Bool :=
  axihp_writer.data_enable s.u_axihp_writer m_axi_wi__wready
/-- beta_integration_fullaxi.v:11902-11915. -/
@[netlist] def writer_fifo_valid_out (s : S) : Bool :=
  writer_fifo.valid_out s.u_writer_fifo
/-- beta_integration_fullaxi.v:11902-11915. -/
@[netlist] def writer_fifo_end_out (s : S) : Bool :=
  writer_fifo.end_out s.u_writer_fifo
/-- beta_integration_fullaxi.v:11821-11832. -/
@[netlist] def b16_b64_valid_out (s : S) : Bool :=
  s.u_b16_b64.valid_out
/-- beta_integration_fullaxi.v:11821-11832. -/
@[netlist] def b16_b64_end_out (s : S) : Bool :=
  s.u_b16_b64.end_out
/-- beta_integration_fullaxi.v:11721. -/
@[netlist] def w40 (s : S) (m_axi_ri__arready : Bool) (m_axi_ri__rvalid : Bool) (m_axi_ri__rresp : Nat) (m_axi_wi__awready : Bool) (m_axi_wi__wready : Bool) (m_axi_wi__bvalid : Bool) (m_axi_wi__bresp : Nat) : Nat :=
  (axihp_writer_writer_unconf s) * 2 ^ 19 + (axihp_reader_reader_active s) * 2 ^ 15 + (axihp_writer_writer_active s) * 2 ^ 11 + ((axihp_reader_reader_error s m_axi_ri__rvalid m_axi_ri__rresp).toNat) * 2 ^ 10 + ((axihp_writer_writer_error s m_axi_wi__bvalid m_axi_wi__bresp).toNat) * 2 ^ 9 + ((axihp_writer_inactive s).toNat) * 2 ^ 8 + ((axihp_reader_inactive s).toNat) * 2 ^ 7 + ((write_end s m_axi_wi__awready).toNat) * 2 ^ 6 + ((read_end s m_axi_ri__arready).toNat) * 2 ^ 5 + ((axihp_writer_data_enable s m_axi_wi__wready).toNat) * 2 ^ 4 + ((writer_fifo_valid_out s).toNat) * 2 ^ 3 + ((writer_fifo_end_out s).toNat) * 2 ^ 2 + ((b16_b64_valid_out s).toNat) * 2 ^ 1 + ((b16_b64_end_out s).toNat)
/-- beta_integration_fullaxi.v:11821-11832. -/
@[netlist] def b16_b64_o_busy (s : S) : Bool :=
  s.u_b16_b64.o_busy
/-- beta_integration_fullaxi.v:12031-12034. -/
@[netlist] def next_top_busy_in (s : S) : Bool :=
  (b16_b64_o_busy s)
/-- beta_integration_fullaxi.v:12158. -/
@[netlist] def top_busy_in (s : S) : Bool :=
  (next_top_busy_in s)
/-- beta_integration_fullaxi.v:11888-11901. -/
@[netlist] def top_data_out (s : S) : Nat :=
  top_1.data_out s.u_top (top_busy_in s)
/-- beta_integration_fullaxi.v:11722. -/
@[netlist] def w42 (s : S) : Nat :=
  (top_data_out s)
/-- beta_integration_fullaxi.v:11843-11875. -/
@[netlist] def dma_axi_lite_start (s : S) : Nat :=
  s.u_dma_axi_lite.start
/-- beta_integration_fullaxi.v:11723. -/
@[netlist] def w44 (s : S) : Bool :=
  (dma_axi_lite_start s) == 0xffffffff
/-- beta_integration_fullaxi.v:11876-11887. -/
@[netlist] def reader_fifo_writable16 (s : S) : Bool :=
  reader_fifo.writable16 s.u_reader_fifo
/-- beta_integration_fullaxi.v:11724. -/
@[netlist] def w46 (s : S) : Bool :=
  (reader_fifo_writable16 s) == false
/-- beta_integration_fullaxi.v:11725. -/
@[netlist] def w48 (s : S) : Bool :=
  (address_gen_read_address_valid s) == false
/-- beta_integration_fullaxi.v:11727. -/
@[netlist] def w50 (s : S) (m_axi_ri__arready : Bool) : Bool :=
  (read_end s m_axi_ri__arready) == true
/-- beta_integration_fullaxi.v:11728. -/
@[netlist] def w52 (s : S) (m_axi_ri__arready : Bool) : Bool :=
  (w48 s) || (w50 s m_axi_ri__arready)
/-- beta_integration_fullaxi.v:11833-11842. -/
@[netlist] def b64_b32_o_busy (s : S) : Bool :=
  s.u_b64_b32.o_busy
/-- beta_integration_fullaxi.v:11729. -/
@[netlist] def w54 (s : S) : Bool :=
  (b64_b32_o_busy s) == false
/-- beta_integration_fullaxi.v:11833-11842. -/
@[netlist] def b64_b32_valid_out (s : S) : Bool :=
  b64_b32.valid_out s.u_b64_b32
/-- beta_integration_fullaxi.v:11730. -/
@[netlist] def w56 (s : S) : Bool :=
  (b64_b32_valid_out s) == true
/-- beta_integration_fullaxi.v:11902-11915. -/
@[netlist] def writer_fifo_writable (s : S) : Bool :=
  writer_fifo.writable s.u_writer_fifo
/-- beta_integration_fullaxi.v:11731. -/
@[netlist] def w58 (s : S) : Bool :=
  (writer_fifo_writable s) == false
/-- beta_integration_fullaxi.v:11732. -/
@[netlist] def w60 (s : S) : Bool :=
  (dma_axi_lite_start s) == 0xffffffff
/-- beta_integration_fullaxi.v:11902-11915. -/
@[netlist] def writer_fifo_readable16 (s : S) : Bool :=
  writer_fifo.readable16 s.u_writer_fifo
/-- beta_integration_fullaxi.v:11733. -/
@[netlist] def w62 (s : S) : Bool :=
  (writer_fifo_readable16 s) == false
/-- beta_integration_fullaxi.v:11734. -/
@[netlist] def w64 (s : S) : Bool :=
  (address_gen_write_address_valid s) == false
/-- beta_integration_fullaxi.v:11735. -/
@[netlist] def w66 (s : S) (m_axi_wi__awready : Bool) : Bool :=
  (write_end s m_axi_wi__awready) == true
/-- beta_integration_fullaxi.v:11736. -/
@[netlist] def w68 (s : S) (m_axi_wi__awready : Bool) : Bool :=
  (w64 s) || (w66 s m_axi_wi__awready)
/-- beta_integration_fullaxi.v:12140. -/
@[netlist] def w26 (s : S) : Nat :=
  (w27 s)
/-- beta_integration_fullaxi.v:12141. -/
@[netlist] def w37 (s : S) : Nat :=
  (w38 s)
/-- beta_integration_fullaxi.v:12116-12119. -/
@[netlist] def next_axihp_writer_addr_empty (s : S) (m_axi_wi__awready : Bool) : Bool :=
  (w68 s m_axi_wi__awready)
/-- beta_integration_fullaxi.v:12142. -/
@[netlist] def axihp_writer_addr_empty (s : S) (m_axi_wi__awready : Bool) : Bool :=
  (next_axihp_writer_addr_empty s m_axi_wi__awready)
/-- beta_integration_fullaxi.v:11751-11758. -/
@[netlist] def address_gen_write_address_o (s : S) : Nat :=
  s.u_address_gen_write.address_o
/-- beta_integration_fullaxi.v:12112-12115. -/
@[netlist] def next_axihp_writer_addr_in (s : S) : Nat :=
  (address_gen_write_address_o s)
/-- beta_integration_fullaxi.v:12143. -/
@[netlist] def axihp_writer_addr_in (s : S) : Nat :=
  (next_axihp_writer_addr_in s)
/-- beta_integration_fullaxi.v:12107-12111. -/
@[netlist] def next_axihp_writer_write_strobe (s : S) : Nat :=
  255
/-- beta_integration_fullaxi.v:12144. -/
@[netlist] def axihp_writer_write_strobe (s : S) : Nat :=
  (next_axihp_writer_write_strobe s)
/-- beta_integration_fullaxi.v:12103-12106. -/
@[netlist] def next_axihp_writer_data_empty (s : S) : Bool :=
  (w62 s)
/-- beta_integration_fullaxi.v:12145. -/
@[netlist] def axihp_writer_data_empty (s : S) : Bool :=
  (next_axihp_writer_data_empty s)
/-- beta_integration_fullaxi.v:11902-11915. -/
@[netlist] def writer_fifo_data_out (s : S) : Nat :=
  writer_fifo.data_out s.u_writer_fifo
/-- beta_integration_fullaxi.v:12099-12102. -/
@[netlist] def next_axihp_writer_data_in (s : S) : Nat :=
  (writer_fifo_data_out s)
/-- beta_integration_fullaxi.v:12146. -/
@[netlist] def axihp_writer_data_in (s : S) : Nat :=
  (next_axihp_writer_data_in s)
/-- beta_integration_fullaxi.v:12095-12098. -/
@[netlist] def next_axihp_writer_enable (s : S) : Bool :=
  (w60 s)
/-- beta_integration_fullaxi.v:12147. -/
@[netlist] def axihp_writer_enable (s : S) : Bool :=
  (next_axihp_writer_enable s)
/-- beta_integration_fullaxi.v:12087-12090. -/
@[netlist] def next_writer_fifo_read (s : S) (m_axi_wi__wready : Bool) : Bool :=
  (axihp_writer_data_enable s m_axi_wi__wready)
/-- beta_integration_fullaxi.v:12148. -/
@[netlist] def writer_fifo_read (s : S) (m_axi_wi__wready : Bool) : Bool :=
  (next_writer_fifo_read s m_axi_wi__wready)
/-- beta_integration_fullaxi.v:12083-12086. -/
@[netlist] def next_writer_fifo_valid_in (s : S) : Bool :=
  (b16_b64_valid_out s)
/-- beta_integration_fullaxi.v:12149. -/
@[netlist] def writer_fifo_valid_in (s : S) : Bool :=
  (next_writer_fifo_valid_in s)
/-- beta_integration_fullaxi.v:12079-12082. -/
@[netlist] def next_writer_fifo_end_in (s : S) : Bool :=
  (b16_b64_end_out s)
/-- beta_integration_fullaxi.v:12150. -/
@[netlist] def writer_fifo_end_in (s : S) : Bool :=
  (next_writer_fifo_end_in s)
/-- beta_integration_fullaxi.v:11821-11832. -/
@[netlist] def b16_b64_data_out (s : S) : Nat :=
  s.u_b16_b64.data_out
/-- beta_integration_fullaxi.v:12075-12078. -/
@[netlist] def next_writer_fifo_data_in (s : S) : Nat :=
  (b16_b64_data_out s)
/-- beta_integration_fullaxi.v:12151. -/
@[netlist] def writer_fifo_data_in (s : S) : Nat :=
  (next_writer_fifo_data_in s)
/-- beta_integration_fullaxi.v:11888-11901. -/
@[netlist] def top_end_out (s : S) : Bool :=
  top_1.end_out s.u_top (top_busy_in s)
/-- beta_integration_fullaxi.v:12071-12074. -/
@[netlist] def next_b16_b64_end_in (s : S) : Bool :=
  (top_end_out s)
/-- beta_integration_fullaxi.v:12152. -/
@[netlist] def b16_b64_end_in (s : S) : Bool :=
  (next_b16_b64_end_in s)
/-- beta_integration_fullaxi.v:12067-12070. -/
@[netlist] def next_b16_b64_i_busy (s : S) : Bool :=
  (w58 s)
/-- beta_integration_fullaxi.v:12153. -/
@[netlist] def b16_b64_i_busy (s : S) : Bool :=
  (next_b16_b64_i_busy s)
/-- beta_integration_fullaxi.v:11888-11901. -/
@[netlist] def top_valid_out (s : S) : Bool :=
  top_1.valid_out s.u_top (top_busy_in s)
/-- beta_integration_fullaxi.v:12063-12066. -/
@[netlist] def next_b16_b64_valid_in (s : S) : Bool :=
  (top_valid_out s)
/-- beta_integration_fullaxi.v:12154. -/
@[netlist] def b16_b64_valid_in (s : S) : Bool :=
  (next_b16_b64_valid_in s)
/-- beta_integration_fullaxi.v:12059-12062. -/
@[netlist] def next_b16_b64_data_in (s : S) : Nat :=
  (top_data_out s)
/-- beta_integration_fullaxi.v:12155. -/
@[netlist] def b16_b64_data_in (s : S) : Nat :=
  (next_b16_b64_data_in s)
/-- beta_integration_fullaxi.v:11833-11842. -/
@[netlist] def b64_b32_data_out (s : S) : Nat :=
  b64_b32.data_out s.u_b64_b32
/-- beta_integration_fullaxi.v:12055-12058. -/
@[netlist] def next_top_pixel_in2 (s : S) : Nat :=
  slc (b64_b32_data_out s) 12 12
/-- beta_integration_fullaxi.v:12156. -/
@[netlist] def top_pixel_in2 (s : S) : Nat :=
  (next_top_pixel_in2 s)
/-- beta_integration_fullaxi.v:12051-12054. -/
@[netlist] def next_top_pixel_in1 (s : S) : Nat :=
  slc (b64_b32_data_out s) 0 12
/-- beta_integration_fullaxi.v:12157. -/
@[netlist] def top_pixel_in1 (s : S) : Nat :=
  (next_top_pixel_in1 s)
/-- beta_integration_fullaxi.v:12027-12030. -/
@[netlist] def next_top_valid_in (s : S) : Bool :=
  (w56 s)
/-- beta_integration_fullaxi.v:12159. -/
@[netlist] def top_valid_in (s : S) : Bool :=
  (next_top_valid_in s)
/-- beta_integration_fullaxi.v:11888-11901. -/
@[netlist] def top_nready (s : S) : Bool :=
  top_1.nready s.u_top
/-- beta_integration_fullaxi.v:12023-12026. -/
@[netlist] def next_b64_b32_i_busy (s : S) : Bool :=
  (top_nready s)
/-- beta_integration_fullaxi.v:12160. -/
@[netlist] def b64_b32_i_busy (s : S) : Bool :=
  (next_b64_b32_i_busy s)
/-- beta_integration_fullaxi.v:11876-11887. -/
@[netlist] def reader_fifo_valid_out (s : S) : Bool :=
  reader_fifo.valid_out s.u_reader_fifo
/-- beta_integration_fullaxi.v:12019-12022. -/
@[netlist] def next_b64_b32_valid_in (s : S) : Bool :=
  (reader_fifo_valid_out s)
/-- beta_integration_fullaxi.v:12161. -/
@[netlist] def b64_b32_valid_in (s : S) : Bool :=
  (next_b64_b32_valid_in s)
/-- beta_integration_fullaxi.v:11876-11887. -/
@[netlist] def reader_fifo_data_out (s : S) : Nat :=
  reader_fifo.data_out s.u_reader_fifo
/-- beta_integration_fullaxi.v:12015-12018. -/
@[netlist] def next_b64_b32_data_in (s : S) : Nat :=
  (reader_fifo_data_out s)
/-- beta_integration_fullaxi.v:12162. -/
@[netlist] def b64_b32_data_in (s : S) : Nat :=
  (next_b64_b32_data_in s)
/-- beta_integration_fullaxi.v:12011-12014. -/
@[netlist] def next_reader_fifo_read (s : S) : Bool :=
  (w54 s)
/-- beta_integration_fullaxi.v:12163. -/
@[netlist] def reader_fifo_read (s : S) : Bool :=
  (next_reader_fifo_read s)
/-- beta_integration_fullaxi.v:11759-11786. -/
@[netlist] def axihp_reader_data_enable (s : S) (m_axi_ri__rvalid : Bool) : Bool :=
  axihp_reader.data_enable s.u_axihp_reader m_axi_ri__rvalid
/-- beta_integration_fullaxi.v:12007-12010. -/
@[netlist] def next_reader_fifo_valid_in (s : S) (m_axi_ri__rvalid : Bool) : Bool :=
  (axihp_reader_data_enable s m_axi_ri__rvalid)
/-- beta_integration_fullaxi.v:12164. -/
@[netlist] def reader_fifo_valid_in (s : S) (m_axi_ri__rvalid : Bool) : Bool :=
  (next_reader_fifo_valid_in s m_axi_ri__rvalid)
/-- beta_integration_fullaxi.v:12002-12006. -/
@[netlist] def next_reader_fifo_end_in (s : S) : Bool :=
  false
/-- beta_integration_fullaxi.v:12165. -/
@[netlist] def reader_fifo_end_in (s : S) : Bool :=
  (next_reader_fifo_end_in s)
/-- beta_integration_fullaxi.v:11759-11786. -/
@[netlist] def axihp_reader_data_out (s : S) (m_axi_ri__rdata : Nat) : Nat :=
  axihp_reader.data_out s.u_axihp_reader m_axi_ri__rdata
/-- beta_integration_fullaxi.v:11998-12001. -/
@[netlist] def next_reader_fifo_data_in (s : S) (m_axi_ri__rdata : Nat) : Nat :=
  (axihp_reader_data_out s m_axi_ri__rdata)
/-- beta_integration_fullaxi.v:12166. -/
@[netlist] def reader_fifo_data_in (s : S) (m_axi_ri__rdata : Nat) : Nat :=
  (next_reader_fifo_data_in s m_axi_ri__rdata)
/-- beta_integration_fullaxi.v:11994-11997. -/
@[netlist] def next_axihp_reader_addr_empty (s : S) (m_axi_ri__arready : Bool) : Bool :=
  (w52 s m_axi_ri__arready)
/-- beta_integration_fullaxi.v:12167. -/
@[netlist] def axihp_reader_addr_empty (s : S) (m_axi_ri__arready : Bool) : Bool :=
  (next_axihp_reader_addr_empty s m_axi_ri__arready)
/-- beta_integration_fullaxi.v:11743-11750. -/
@[netlist] def address_gen_read_address_o (s : S) : Nat :=
  s.u_address_gen_read.address_o
/-- beta_integration_fullaxi.v:11974-11977. -/
@[netlist] def next_axihp_reader_addr_in (s : S) : Nat :=
  (address_gen_read_address_o s)
/-- beta_integration_fullaxi.v:12168. -/
@[netlist] def axihp_reader_addr_in (s : S) : Nat :=
  (next_axihp_reader_addr_in s)
/-- beta_integration_fullaxi.v:11970-11973. -/
@[netlist] def next_axihp_reader_data_full (s : S) : Bool :=
  (w46 s)
/-- beta_integration_fullaxi.v:12169. -/
@[netlist] def axihp_reader_data_full (s : S) : Bool :=
  (next_axihp_reader_data_full s)
/-- beta_integration_fullaxi.v:11966-11969. -/
@[netlist] def next_axihp_reader_enable (s : S) : Bool :=
  (w44 s)
/-- beta_integration_fullaxi.v:12170. -/
@[netlist] def axihp_reader_enable (s : S) : Bool :=
  (next_axihp_reader_enable s)
/-- beta_integration_fullaxi.v:11843-11875. -/
@[netlist] def dma_axi_lite_write_addr (s : S) : Nat :=
  s.u_dma_axi_lite.write_addr
/-- beta_integration_fullaxi.v:11962-11965. -/
@[netlist] def next_address_gen_write_starting_address (s : S) : Nat :=
  (dma_axi_lite_write_addr s)
/-- beta_integration_fullaxi.v:12171. -/
@[netlist] def address_gen_write_starting_address (s : S) : Nat :=
  (next_address_gen_write_starting_address s)
/-- beta_integration_fullaxi.v:11958-11961. -/
@[netlist] def next_address_gen_write_address_latch (s : S) (m_axi_wi__awready : Bool) : Bool :=
  (axihp_writer_addr_enable s m_axi_wi__awready)
/-- beta_integration_fullaxi.v:12172. -/
@[netlist] def address_gen_write_address_latch (s : S) (m_axi_wi__awready : Bool) : Bool :=
  (next_address_gen_write_address_latch s m_axi_wi__awready)
/-- beta_integration_fullaxi.v:11843-11875. -/
@[netlist] def dma_axi_lite_read_addr (s : S) : Nat :=
  s.u_dma_axi_lite.read_addr
/-- beta_integration_fullaxi.v:11954-11957. -/
@[netlist] def next_address_gen_read_starting_address (s : S) : Nat :=
  (dma_axi_lite_read_addr s)
/-- beta_integration_fullaxi.v:12173. -/
@[netlist] def address_gen_read_starting_address (s : S) : Nat :=
  (next_address_gen_read_starting_address s)
/-- beta_integration_fullaxi.v:11950-11953. -/
@[netlist] def next_address_gen_read_address_latch (s : S) (m_axi_ri__arready : Bool) : Bool :=
  (axihp_reader_addr_enable s m_axi_ri__arready)
/-- beta_integration_fullaxi.v:12174. -/
@[netlist] def address_gen_read_address_latch (s : S) (m_axi_ri__arready : Bool) : Bool :=
  (next_address_gen_read_address_latch s m_axi_ri__arready)
/-- beta_integration_fullaxi.v:11946-11949. -/
@[netlist] def next_dma_axi_lite_in9 (s : S) : Nat :=
  (b64_b32_data_out s)
/-- beta_integration_fullaxi.v:12175. -/
@[netlist] def dma_axi_lite_in9 (s : S) : Nat :=
  (next_dma_axi_lite_in9 s)
/-- beta_integration_fullaxi.v:11942-11945. -/
@[netlist] def next_dma_axi_lite_in8 (s : S) : Nat :=
  slc (b16_b64_data_out s) 32 32
/-- beta_integration_fullaxi.v:12176. -/
@[netlist] def dma_axi_lite_in8 (s : S) : Nat :=
  (next_dma_axi_lite_in8 s)
/-- beta_integration_fullaxi.v:11938-11941. -/
@[netlist] def next_dma_axi_lite_in7 (s : S) : Nat :=
  slc (b16_b64_data_out s) 0 32
/-- beta_integration_fullaxi.v:12177. -/
@[netlist] def dma_axi_lite_in7 (s : S) : Nat :=
  (next_dma_axi_lite_in7 s)
/-- beta_integration_fullaxi.v:12136-12139. -/
@[netlist] def next_dma_axi_lite_in6 (s : S) : Nat :=
  (w42 s)
/-- beta_integration_fullaxi.v:12178. -/
@[netlist] def dma_axi_lite_in6 (s : S) : Nat :=
  (next_dma_axi_lite_in6 s)
/-- beta_integration_fullaxi.v:12132-12135. -/
@[netlist] def next_dma_axi_lite_in5 (s : S) : Nat :=
  s.counter_write
/-- beta_integration_fullaxi.v:12179. -/
@[netlist] def dma_axi_lite_in5 (s : S) : Nat :=
  (next_dma_axi_lite_in5 s)
/-- beta_integration_fullaxi.v:12128-12131. -/
@[netlist] def next_dma_axi_lite_in4 (s : S) : Nat :=
  s.counter_read
/-- beta_integration_fullaxi.v:12180. -/
@[netlist] def dma_axi_lite_in4 (s : S) : Nat :=
  (next_dma_axi_lite_in4 s)
/-- beta_integration_fullaxi.v:12124-12127. -/
@[netlist] def next_dma_axi_lite_in3 (s : S) : Nat :=
  (address_gen_write_address_o s)
/-- beta_integration_fullaxi.v:12181. -/
@[netlist] def dma_axi_lite_in3 (s : S) : Nat :=
  (next_dma_axi_lite_in3 s)
/-- beta_integration_fullaxi.v:12120-12123. -/
@[netlist] def next_dma_axi_lite_in2 (s : S) : Nat :=
  (address_gen_read_address_o s)
/-- beta_integration_fullaxi.v:12182. -/
@[netlist] def dma_axi_lite_in2 (s : S) : Nat :=
  (next_dma_axi_lite_in2 s)
/-- beta_integration_fullaxi.v:12091-12094. -/
@[netlist] def next_dma_axi_lite_in1 (s : S) (m_axi_ri__arready : Bool) (m_axi_ri__rvalid : Bool) (m_axi_ri__rresp : Nat) (m_axi_wi__awready : Bool) (m_axi_wi__wready : Bool) (m_axi_wi__bvalid : Bool) (m_axi_wi__bresp : Nat) : Nat :=
  (w40 s m_axi_ri__arready m_axi_ri__rvalid m_axi_ri__rresp m_axi_wi__awready m_axi_wi__wready m_axi_wi__bvalid m_axi_wi__bresp)
/-- beta_integration_fullaxi.v:12183. -/
@[netlist] def dma_axi_lite_in1 (s : S) (m_axi_ri__arready : Bool) (m_axi_ri__rvalid : Bool) (m_axi_ri__rresp : Nat) (m_axi_wi__awready : Bool) (m_axi_wi__wready : Bool) (m_axi_wi__bvalid : Bool) (m_axi_wi__bresp : Nat) : Nat :=
  (next_dma_axi_lite_in1 s m_axi_ri__arready m_axi_ri__rvalid m_axi_ri__rresp m_axi_wi__awready m_axi_wi__wready m_axi_wi__bvalid m_axi_wi__bresp)
/-- beta_integration_fullaxi.v:11888-11901. -/
@[netlist] def rst (s : S) (full_rst : Bool) : Bool :=
  top_1.rst s.u_top full_rst
/-- beta_integration_fullaxi.v:11978-11993. -/
@[netlist] def next_counter_read (s : S) (full_rst : Bool) (m_axi_ri__arready : Bool) : Nat :=
  let e1 := if (w22 s m_axi_ri__arready) = true then (if (w24 s) = true then s.counter_read
    else slc (w26 s) 0 32)
  else s.counter_read
  if (rst s full_rst) = true then 0
  else e1
/-- beta_integration_fullaxi.v:12035-12050. -/
@[netlist] def next_counter_write (s : S) (full_rst : Bool) (m_axi_wi__awready : Bool) : Nat :=
  let e1 := if (w33 s m_axi_wi__awready) = true then (if (w35 s) = true then s.counter_write
    else slc (w37 s) 0 32)
  else s.counter_write
  if (rst s full_rst) = true then 0
  else e1
/-- beta_integration_fullaxi.v:11759-11786. -/
@[netlist] def m_axi_ro__araddr (s : S) : Nat :=
  axihp_reader.m_axi_ro__araddr s.u_axihp_reader (axihp_reader_addr_in s)
/-- beta_integration_fullaxi.v:11759-11786. -/
@[netlist] def m_axi_ro__arburst (s : S) : Nat :=
  axihp_reader.m_axi_ro__arburst s.u_axihp_reader
/-- beta_integration_fullaxi.v:11759-11786. -/
@[netlist] def m_axi_ro__arid (s : S) : Nat :=
  axihp_reader.m_axi_ro__arid s.u_axihp_reader
/-- beta_integration_fullaxi.v:11759-11786. -/
@[netlist] def m_axi_ro__arlen (s : S) : Nat :=
  axihp_reader.m_axi_ro__arlen s.u_axihp_reader
/-- beta_integration_fullaxi.v:11759-11786. -/
@[netlist] def m_axi_ro__arprot (s : S) : Nat :=
  axihp_reader.m_axi_ro__arprot s.u_axihp_reader
/-- beta_integration_fullaxi.v:11759-11786. -/
@[netlist] def m_axi_ro__arsize (s : S) : Nat :=
  axihp_reader.m_axi_ro__arsize s.u_axihp_reader
/-- beta_integration_fullaxi.v:11759-11786. -/
@[netlist] def m_axi_ro__arvalid (s : S) : Bool :=
  axihp_reader.m_axi_ro__arvalid s.u_axihp_reader
/-- beta_integration_fullaxi.v:11759-11786. -/
@[netlist] def m_axi_ro__rready (s : S) : Bool :=
  axihp_reader.m_axi_ro__rready s.u_axihp_reader
/-- beta_integration_fullaxi.v:11787-11820. -/
@[netlist] def m_axi_wo__awaddr (s : S) : Nat :=
  axihp_writer.m_axi_wo__awaddr s.u_axihp_writer (axihp_writer_addr_in s)
/-- beta_integration_fullaxi.v:11787-11820. -/
@[netlist] def m_axi_wo__awburst (s : S) : Nat :=
  axihp_writer.m_axi_wo__awburst s.u_axihp_writer
/-- beta_integration_fullaxi.v:11787-11820. -/
@[netlist] def m_axi_wo__awid (s : S) : Nat :=
  axihp_writer.m_axi_wo__awid s.u_axihp_writer
/-- beta_integration_fullaxi.v:11787-11820. -/
@[netlist] def m_axi_wo__awlen (s : S) : Nat :=
  axihp_writer.m_axi_wo__awlen s.u_axihp_writer
/-- beta_integration_fullaxi.v:11787-11820. -/
@[netlist] def m_axi_wo__awprot (s : S) : Nat :=
  axihp_writer.m_axi_wo__awprot s.u_axihp_writer
/-- beta_integration_fullaxi.v:11787-11820. -/
@[netlist] def m_axi_wo__awsize (s : S) : Nat :=
  axihp_writer.m_axi_wo__awsize s.u_axihp_writer
/-- beta_integration_fullaxi.v:11787-11820. -/
@[netlist] def m_axi_wo__awvalid (s : S) : Bool :=
  axihp_writer.m_axi_wo__awvalid s.u_axihp_writer
/-- beta_integration_fullaxi.v:11787-11820. -/
@[netlist] def m_axi_wo__bready (s : S) : Bool :=
  axihp_writer.m_axi_wo__bready s.u_axihp_writer
/-- beta_integration_fullaxi.v:11787-11820. -/
@[netlist] def m_axi_wo__wdata (s : S) : Nat :=
  axihp_writer.m_axi_wo__wdata s.u_axihp_writer (axihp_writer_data_in s)
/-- beta_integration_fullaxi.v:11787-11820. -/
@[netlist] def m_axi_wo__wid (s : S) : Nat :=
  axihp_writer.m_axi_wo__wid s.u_axihp_writer
/-- beta_integration_fullaxi.v:11787-11820. -/
@[netlist] def m_axi_wo__wlast (s : S) : Bool :=
  axihp_writer.m_axi_wo__wlast s.u_axihp_writer
/-- beta_integration_fullaxi.v:11787-11820. -/
@[netlist] def m_axi_wo__wstrb (s : S) : Nat :=
  axihp_writer.m_axi_wo__wstrb s.u_axihp_writer (axihp_writer_write_strobe s)
/-- beta_integration_fullaxi.v:11787-11820. -/
@[netlist] def m_axi_wo__wvalid (s : S) : Bool :=
  axihp_writer.m_axi_wo__wvalid s.u_axihp_writer
/-- beta_integration_fullaxi.v:11843-11875. -/
@[netlist] def s_axi_ro___arready (s : S) : Bool :=
  dma_axi_lite.s_axi_ro___arready s.u_dma_axi_lite
/-- beta_integration_fullaxi.v:11843-11875. -/
@[netlist] def s_axi_ro___rdata (s : S) : Nat :=
  dma_axi_lite.s_axi_ro___rdata s.u_dma_axi_lite
/-- beta_integration_fullaxi.v:11843-11875. -/
@[netlist] def s_axi_ro___rresp (s : S) : Nat :=
  dma_axi_lite.s_axi_ro___rresp s.u_dma_axi_lite
/-- beta_integration_fullaxi.v:11843-11875. -/
@[netlist] def s_axi_ro___rvalid (s : S) : Bool :=
  dma_axi_lite.s_axi_ro___rvalid s.u_dma_axi_lite
/-- beta_integration_fullaxi.v:11843-11875. -/
@[netlist] def s_axi_wo___awready (s : S) : Bool :=
  dma_axi_lite.s_axi_wo___awready s.u_dma_axi_lite
/-- beta_integration_fullaxi.v:11843-11875. -/
@[netlist] def s_axi_wo___bresp (s : S) : Nat :=
  dma_axi_lite.s_axi_wo___bresp s.u_dma_axi_lite
/-- beta_integration_fullaxi.v:11843-11875. -/
@[netlist] def s_axi_wo___bvalid (s : S) : Bool :=
  dma_axi_lite.s_axi_wo___bvalid s.u_dma_axi_lite
/-- beta_integration_fullaxi.v:11843-11875. -/
@[netlist] def s_axi_wo___wready (s : S) : Bool :=
  dma_axi_lite.s_axi_wo___wready s.u_dma_axi_lite

/-- beta_integration_fullaxi.v:11296-12186: one rising clock edge (`always @(posedge ...)`). -/
@[netlist] def step (s : S) (full_rst : Bool) (m_axi_ri__arready : Bool) (m_axi_ri__rvalid : Bool) (m_axi_ri__rlast : Bool) (m_axi_ri__rresp : Nat) (m_axi_ri__rdata : Nat) (m_axi_aclk_ : Bool) (m_axi_wi__awready : Bool) (m_axi_wi__wready : Bool) (m_axi_wi__bvalid : Bool) (m_axi_wi__bresp : Nat) (m_axi_aclk : Bool) (s_axi_ri___arvalid : Bool) (s_axi_wi___awvalid : Bool) (s_axi_ri___araddr : Nat) (s_axi_ri___rready : Bool) (s_axi_wi___awaddr : Nat) (s_axi_wi___wvalid : Bool) (s_axi_wi___wdata : Nat) (s_axi_wi___wstrb : Nat) (s_axi_wi___bready : Bool) (replace : Bool) (replace_1 : Bool) : S :=
  { counter_write := (next_counter_write s full_rst m_axi_wi__awready)
    counter_read := (next_counter_read s full_rst m_axi_ri__arready)
    u_address_gen_read := address_gen_read.step s.u_address_gen_read (address_gen_read_address_latch s m_axi_ri__arready) (rst s full_rst) (address_gen_read_starting_address s)
    u_address_gen_write := address_gen_write.step s.u_address_gen_write (address_gen_write_address_latch s m_axi_wi__awready) (rst s full_rst) (address_gen_write_starting_address s)
    u_axihp_reader := axihp_reader.step s.u_axihp_reader (axihp_reader_enable s) (axihp_reader_addr_empty s m_axi_ri__arready) (axihp_reader_addr_in s) m_axi_ri__rvalid (axihp_reader_data_full s) m_axi_ri__rlast m_axi_ri__rresp m_axi_ri__rdata m_axi_aclk_ (rst s full_rst) m_axi_ri__arready
    u_axihp_writer := axihp_writer.step s.u_axihp_writer (axihp_writer_enable s) (axihp_writer_addr_empty s m_axi_wi__awready) (axihp_writer_addr_in s) m_axi_wi__wready (axihp_writer_data_empty s) (axihp_writer_data_in s) m_axi_wi__bvalid m_axi_wi__bresp (axihp_writer_write_strobe s) m_axi_aclk (rst s full_rst) m_axi_wi__awready
    u_b16_b64 := b16_b64.step s.u_b16_b64 (b16_b64_end_in s) (b16_b64_i_busy s) (b16_b64_data_in s) (rst s full_rst) (b16_b64_valid_in s)
    u_b64_b32 := b64_b32.step s.u_b64_b32 (b64_b32_data_in s) (b64_b32_i_busy s) (rst s full_rst) (b64_b32_valid_in s)
    u_dma_axi_lite := dma_axi_lite.step s.u_dma_axi_lite s_axi_wi___awvalid s_axi_ri___araddr (dma_axi_lite_in1 s m_axi_ri__arready m_axi_ri__rvalid m_axi_ri__rresp m_axi_wi__awready m_axi_wi__wready m_axi_wi__bvalid m_axi_wi__bresp) (dma_axi_lite_in2 s) (dma_axi_lite_in3 s) (dma_axi_lite_in4 s) (dma_axi_lite_in5 s) (dma_axi_lite_in6 s) (dma_axi_lite_in7 s) (dma_axi_lite_in8 s) (dma_axi_lite_in9 s) s_axi_ri___rready s_axi_wi___awaddr s_axi_wi___wvalid s_axi_wi___wdata s_axi_wi___wstrb s_axi_wi___bready (rst s full_rst) s_axi_ri___arvalid
    u_reader_fifo := reader_fifo.step s.u_reader_fifo (reader_fifo_end_in s) (reader_fifo_data_in s m_axi_ri__rdata) (reader_fifo_read s) replace (rst s full_rst) (reader_fifo_valid_in s m_axi_ri__rvalid)
    u_top := top_1.step s.u_top full_rst (top_busy_in s) (top_pixel_in1 s) (top_pixel_in2 s) (top_valid_in s)
    u_writer_fifo := writer_fifo.step s.u_writer_fifo (writer_fifo_end_in s) (writer_fifo_data_in s) (writer_fifo_read s m_axi_wi__wready) replace_1 (rst s full_rst) (writer_fifo_valid_in s) }

/-- beta_integration_fullaxi.v:11296-12186: the initial values given in the netlist. -/
def Init (s : S) : Prop :=
  s.counter_write = 0 ∧
  s.counter_read = 0 ∧
  address_gen_read.Init s.u_address_gen_read ∧
  address_gen_write.Init s.u_address_gen_write ∧
  axihp_reader.Init s.u_axihp_reader ∧
  axihp_writer.Init s.u_axihp_writer ∧
  b16_b64.Init s.u_b16_b64 ∧
  b64_b32.Init s.u_b64_b32 ∧
  dma_axi_lite.Init s.u_dma_axi_lite ∧
  reader_fifo.Init s.u_reader_fifo ∧
  top_1.Init s.u_top ∧
  writer_fifo.Init s.u_writer_fifo

/-- beta_integration_fullaxi.v:11296-12186: a state with these initial values; registers without one are 0. -/
def powerUp : S :=
  { counter_write := 0
    counter_read := 0
    u_address_gen_read := address_gen_read.powerUp
    u_address_gen_write := address_gen_write.powerUp
    u_axihp_reader := axihp_reader.powerUp
    u_axihp_writer := axihp_writer.powerUp
    u_b16_b64 := b16_b64.powerUp
    u_b64_b32 := b64_b32.powerUp
    u_dma_axi_lite := dma_axi_lite.powerUp
    u_reader_fifo := reader_fifo.powerUp
    u_top := top_1.powerUp
    u_writer_fifo := writer_fifo.powerUp }

theorem powerUp_init : Init powerUp := ⟨rfl, rfl, address_gen_read.powerUp_init, address_gen_write.powerUp_init, axihp_reader.powerUp_init, axihp_writer.powerUp_init, b16_b64.powerUp_init, b64_b32.powerUp_init, dma_axi_lite.powerUp_init, reader_fifo.powerUp_init, top_1.powerUp_init, writer_fifo.powerUp_init⟩

end top

end Netlist.BetaFull
