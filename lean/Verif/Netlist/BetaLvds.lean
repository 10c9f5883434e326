/- Generated by netlist/v2lean.py from verilog_src/beta_integration_fifo_lvds.v.  Do not edit. -/
import Verif.Netlist.Beta

set_option autoImplicit false
set_option linter.unusedVariables false

namespace Netlist.BetaLvds
open Netlist

namespace b16_b40

/-- beta_integration_fifo_lvds.v:1138-1540: registers, memories and instances of module `b16_b40`. -/
structure S where
  temp_8 : Bool
  buffer2 : Nat
  buffer1 : Nat
  fsm_state : Nat
  o_busy : Bool
  buffer2_valid : Bool
  buffer1_valid : Bool
  buff_chs : Bool
  valid_out : Bool

/-- beta_integration_fifo_lvds.v:1241. -/
@[netlist] def w9 (s : S) : Bool :=
  s.buffer1_valid == true
/-- beta_integration_fifo_lvds.v:1242. -/
@[netlist] def w11 (s : S) : Bool :=
  s.buffer2_valid == true
/-- beta_integration_fifo_lvds.v:1243. -/
@[netlist] def w13 (s : S) : Bool :=
  (w9 s) || (w11 s)
/-- beta_integration_fifo_lvds.v:1246. -/
@[netlist] def w1 (s : S) : Bool :=
  s.valid_out == true
/-- beta_integration_fifo_lvds.v:1257. -/
@[netlist] def w3 (s : S) (i_busy : Bool) : Bool :=
  i_busy == false
/-- beta_integration_fifo_lvds.v:1268. -/
@[netlist] def w5 (s : S) (i_busy : Bool) : Bool :=
  (w1 s) && (w3 s i_busy)
/-- beta_integration_fifo_lvds.v:1292-1299. -/
@[netlist] def next_is_valid (s : S) (i_busy : Bool) : Bool :=
  if (w5 s i_busy) = true then false
  else true
/-- beta_integration_fifo_lvds.v:1539. -/
@[netlist] def is_valid (s : S) (i_busy : Bool) : Bool :=
  (next_is_valid s i_busy)
/-- beta_integration_fifo_lvds.v:1244. -/
@[netlist] def w15 (s : S) (i_busy : Bool) : Bool :=
  (is_valid s i_busy) == true
/-- beta_integration_fifo_lvds.v:1245. -/
@[netlist] def w17 (s : S) (i_busy : Bool) : Bool :=
  (w13 s) && (w15 s i_busy)
/-- beta_integration_fifo_lvds.v:1247. -/
@[netlist] def w19 (s : S) : Bool :=
  s.valid_out == true
/-- beta_integration_fifo_lvds.v:1248. -/
@[netlist] def w21 (s : S) (i_busy : Bool) : Bool :=
  i_busy == false
/-- beta_integration_fifo_lvds.v:1249. -/
@[netlist] def w23 (s : S) (i_busy : Bool) : Bool :=
  (w19 s) && (w21 s i_busy)
/-- beta_integration_fifo_lvds.v:1250. -/
@[netlist] def w25 (s : S) : Bool :=
  s.buff_chs == false
/-- beta_integration_fifo_lvds.v:1251. -/
@[netlist] def w27 (s : S) : Bool :=
  s.valid_out == true
/-- beta_integration_fifo_lvds.v:1252. -/
@[netlist] def w29 (s : S) (i_busy : Bool) : Bool :=
  i_busy == false
/-- beta_integration_fifo_lvds.v:1253. -/
@[netlist] def w31 (s : S) (i_busy : Bool) : Bool :=
  (w27 s) && (w29 s i_busy)
/-- beta_integration_fifo_lvds.v:1254. -/
@[netlist] def w33 (s : S) : Bool :=
  s.buff_chs == false
/-- beta_integration_fifo_lvds.v:1255. -/
@[netlist] def w35 (s : S) : Bool :=
  s.valid_out == true
/-- beta_integration_fifo_lvds.v:1256. -/
@[netlist] def w37 (s : S) (i_busy : Bool) : Bool :=
  i_busy == false
/-- beta_integration_fifo_lvds.v:1258. -/
@[netlist] def w39 (s : S) (i_busy : Bool) : Bool :=
  (w35 s) && (w37 s i_busy)
/-- beta_integration_fifo_lvds.v:1259. -/
@[netlist] def w41 (s : S) : Bool :=
  s.buff_chs == true
/-- beta_integration_fifo_lvds.v:1260. -/
@[netlist] def w43 (s : S) : Bool :=
  s.buffer1_valid == false
/-- beta_integration_fifo_lvds.v:1261. -/
@[netlist] def w45 (s : S) : Bool :=
  s.buffer2_valid == false
/-- beta_integration_fifo_lvds.v:1262. -/
@[netlist] def w47 (s : S) : Bool :=
  s.buffer2_valid == false
/-- beta_integration_fifo_lvds.v:1263. -/
@[netlist] def w49 (s : S) : Bool :=
  s.buffer1_valid == false
/-- beta_integration_fifo_lvds.v:1264. -/
@[netlist] def w51 (s : S) : Bool :=
  s.buffer1_valid == false
/-- beta_integration_fifo_lvds.v:1265. -/
@[netlist] def w53 (s : S) : Bool :=
  s.buffer2_valid == false
/-- beta_integration_fifo_lvds.v:1266. -/
@[netlist] def w55 (s : S) : Bool :=
  s.buffer2_valid == false
/-- beta_integration_fifo_lvds.v:1267. -/
@[netlist] def w57 (s : S) : Bool :=
  s.buffer1_valid == false
/-- beta_integration_fifo_lvds.v:1269. -/
@[netlist] def w59 (s : S) : Bool :=
  s.buffer2_valid == false
/-- beta_integration_fifo_lvds.v:1270. -/
@[netlist] def w61 (s : S) : Bool :=
  s.buffer2_valid == false
/-- beta_integration_fifo_lvds.v:1271. -/
@[netlist] def w63 (s : S) : Nat :=
  s.temp_8.toNat
/-- beta_integration_fifo_lvds.v:1272. -/
@[netlist] def w65 (s : S) : Bool :=
  s.buffer2_valid == false
/-- beta_integration_fifo_lvds.v:1273. -/
@[netlist] def w7 (s : S) : Bool :=
  s.buff_chs == false
/-- beta_integration_fifo_lvds.v:1300-1308. -/
@[netlist] def next_data_out (s : S) : Nat :=
  if (w7 s) = true then s.buffer1
  else s.buffer2
/-- beta_integration_fifo_lvds.v:1538. -/
@[netlist] def data_out (s : S) : Nat :=
  (next_data_out s)
/-- beta_integration_fifo_lvds.v:1309-1327. -/
@[netlist] def next_temp_8 (s : S) (valid_in : Bool) (data_in : Nat) (full_rst : Bool) : Bool :=
  let e1 := if s.fsm_state = 3 then (if valid_in = true then (if (w65 s) = true then s.temp_8
      else data_in.testBit 0)
    else s.temp_8)
  else s.temp_8
  if full_rst = true then false
  else e1
/-- beta_integration_fifo_lvds.v:1328-1335. -/
@[netlist] def next_valid_out (s : S) (full_rst : Bool) (i_busy : Bool) : Bool :=
  let e1 := (w17 s i_busy)
  if full_rst = true then false
  else e1
/-- beta_integration_fifo_lvds.v:1336-1346. -/
@[netlist] def next_buff_chs (s : S) (full_rst : Bool) (i_busy : Bool) : Bool :=
  let e1 := if (w23 s i_busy) = true then (w25 s)
  else s.buff_chs
  if full_rst = true then false
  else e1
/-- beta_integration_fifo_lvds.v:1347-1367. -/
@[netlist] def next_buffer1_valid (s : S) (valid_in : Bool) (full_rst : Bool) (i_busy : Bool) : Bool :=
  let e1 := if (w31 s i_busy) = true then (if (w33 s) = true then false
    else s.buffer1_valid)
  else s.buffer1_valid
  let e2 := if s.fsm_state = 3 then (if valid_in = true then true
    else e1)
  else e1
  if full_rst = true then false
  else e2
/-- beta_integration_fifo_lvds.v:1368-1388. -/
@[netlist] def next_buffer2_valid (s : S) (valid_in : Bool) (full_rst : Bool) (i_busy : Bool) : Bool :=
  let e1 := if (w39 s i_busy) = true then (if (w41 s) = true then false
    else s.buffer2_valid)
  else s.buffer2_valid
  let e2 := if s.fsm_state = 6 then (if valid_in = true then true
    else e1)
  else e1
  if full_rst = true then false
  else e2
/-- beta_integration_fifo_lvds.v:1389-1427. -/
@[netlist] def next_o_busy (s : S) (valid_in : Bool) (full_rst : Bool) : Bool :=
  let e1 := if s.fsm_state = 0 then (if (w43 s) = true then false
    else s.o_busy)
  else if s.fsm_state = 3 then (if valid_in = true then (if (w45 s) = true then s.o_busy
      else true)
    else s.o_busy)
  else if s.fsm_state = 5 then (if (w47 s) = true then false
    else s.o_busy)
  else if s.fsm_state = 6 then (if valid_in = true then (if (w49 s) = true then s.o_busy
      else true)
    else s.o_busy)
  else s.o_busy
  if full_rst = true then false
  else e1
/-- beta_integration_fifo_lvds.v:1428-1481. -/
@[netlist] def next_fsm_state (s : S) (valid_in : Bool) (rst : Bool) : Nat :=
  let e1 := if s.fsm_state = 0 then (if (w51 s) = true then 1
    else s.fsm_state)
  else if s.fsm_state = 1 then (if valid_in = true then 2
    else s.fsm_state)
  else if s.fsm_state = 2 then (if valid_in = true then 3
    else s.fsm_state)
  else if s.fsm_state = 3 then (if valid_in = true then (if (w53 s) = true then 4
      else 5)
    else s.fsm_state)
  else if s.fsm_state = 5 then (if (w55 s) = true then 4
    else s.fsm_state)
  else if s.fsm_state = 4 then (if valid_in = true then 6
    else s.fsm_state)
  else if s.fsm_state = 6 then (if valid_in = true then (if (w57 s) = true then 1
      else 0)
    else s.fsm_state)
  else s.fsm_state
  if rst = true then 0
  else e1
/-- beta_integration_fifo_lvds.v:1482-1505. -/
@[netlist] def next_buffer1 (s : S) (valid_in : Bool) (data_in : Nat) (full_rst : Bool) : Nat :=
  let e1 := if s.fsm_state = 1 then (if valid_in = true then put s.buffer1 24 16 data_in
    else s.buffer1)
  else if s.fsm_state = 2 then (if valid_in = true then put s.buffer1 8 16 data_in
    else s.buffer1)
  else if s.fsm_state = 3 then (if valid_in = true then put s.buffer1 0 8 (slc data_in 8 8)
    else s.buffer1)
  else s.buffer1
  if full_rst = true then 0
  else e1
/-- beta_integration_fifo_lvds.v:1506-1537. -/
@[netlist] def next_buffer2 (s : S) (valid_in : Bool) (data_in : Nat) (full_rst : Bool) : Nat :=
  let e1 := if s.fsm_state = 3 then (if valid_in = true then (if (w59 s) = true then put s.buffer2 32 8 (slc data_in 0 8)
      else s.buffer2)
    else s.buffer2)
  else if s.fsm_state = 5 then (if (w61 s) = true then put s.buffer2 32 8 (w63 s)
    else s.buffer2)
  else if s.fsm_state = 4 then (if valid_in = true then put s.buffer2 16 16 data_in
    else s.buffer2)
  else if s.fsm_state = 6 then (if valid_in = true then put s.buffer2 0 16 data_in
    else s.buffer2)
  else s.buffer2
  if full_rst = true then 0
  else e1

/-- beta_integration_fifo_lvds.v:1138-1540: one rising clock edge (`always @(posedge ...)`). -/
@[netlist] def step (s : S) (valid_in : Bool) (data_in : Nat) (full_rst : Bool) (rst : Bool) (i_busy : Bool) : S :=
  { temp_8 := (next_temp_8 s valid_in data_in full_rst)
    buffer2 := (next_buffer2 s valid_in data_in full_rst)
    buffer1 := (next_buffer1 s valid_in data_in full_rst)
    fsm_state := (next_fsm_state s valid_in rst)
    o_busy := (next_o_busy s valid_in full_rst)
    buffer2_valid := (next_buffer2_valid s valid_in full_rst i_busy)
    buffer1_valid := (next_buffer1_valid s valid_in full_rst i_busy)
    buff_chs := (next_buff_chs s full_rst i_busy)
    valid_out := (next_valid_out s full_rst i_busy) }

/-- beta_integration_fifo_lvds.v:1138-1540: the initial values given in the netlist. -/
def Init (s : S) : Prop :=
  s.temp_8 = false ∧
  s.buffer2 = 0 ∧
  s.buffer1 = 0 ∧
  s.fsm_state = 0 ∧
  s.o_busy = false ∧
  s.buffer2_valid = false ∧
  s.buffer1_valid = false ∧
  s.buff_chs = false ∧
  s.valid_out = false

/-- beta_integration_fifo_lvds.v:1138-1540: a state with these initial values; registers without one are 0. -/
def powerUp : S :=
  { temp_8 := false
    buffer2 := 0
    buffer1 := 0
    fsm_state := 0
    o_busy := false
    buffer2_valid := false
    buffer1_valid := false
    buff_chs := false
    valid_out := false }

theorem powerUp_init : Init powerUp := ⟨rfl, rfl, rfl, rfl, rfl, rfl, rfl, rfl, rfl⟩

end b16_b40

namespace b64_b32

/-- beta_integration_fifo_lvds.v:1544-1865: registers, memories and instances of module `b64_b32`. -/
structure S where
  half_latched : Bool
  valid_out : Bool
  data_out : Nat
  reg_valid : Bool
  reg : Nat
  o_busy : Bool

/-- beta_integration_fifo_lvds.v:1684. -/
@[netlist] def w1 (s : S) : Bool :=
  s.reg_valid == true
/-- beta_integration_fifo_lvds.v:1695. -/
@[netlist] def w3 (s : S) (i_busy : Bool) : Bool :=
  i_busy == false
/-- beta_integration_fifo_lvds.v:1706. -/
@[netlist] def w5 (s : S) (i_busy : Bool) : Bool :=
  (w1 s) && (w3 s i_busy)
/-- beta_integration_fifo_lvds.v:1717. -/
@[netlist] def w7 (s : S) : Bool :=
  s.valid_out == true
/-- beta_integration_fifo_lvds.v:1662. -/
@[netlist] def w9 (s : S) (i_busy : Bool) : Bool :=
  (w5 s i_busy) && (w7 s)
/-- beta_integration_fifo_lvds.v:1663. -/
@[netlist] def w99 (s : S) : Bool :=
  s.half_latched == true
/-- beta_integration_fifo_lvds.v:1664. -/
@[netlist] def w101 (s : S) : Bool :=
  s.reg_valid == false
/-- beta_integration_fifo_lvds.v:1665. -/
@[netlist] def w103 (s : S) (i_busy : Bool) : Bool :=
  i_busy == false
/-- beta_integration_fifo_lvds.v:1666. -/
@[netlist] def w105 (s : S) (i_busy : Bool) : Bool :=
  (w101 s) && (w103 s i_busy)
/-- beta_integration_fifo_lvds.v:1667. -/
@[netlist] def w107 (s : S) : Bool :=
  s.valid_out == true
/-- beta_integration_fifo_lvds.v:1668. -/
@[netlist] def w109 (s : S) (i_busy : Bool) : Bool :=
  (w105 s i_busy) && (w107 s)
/-- beta_integration_fifo_lvds.v:1669. -/
@[netlist] def w111 (s : S) : Bool :=
  s.reg_valid == true
/-- beta_integration_fifo_lvds.v:1670. -/
@[netlist] def w113 (s : S) : Bool :=
  s.valid_out == false
/-- beta_integration_fifo_lvds.v:1671. -/
@[netlist] def w115 (s : S) : Bool :=
  (w111 s) && (w113 s)
/-- beta_integration_fifo_lvds.v:1672. -/
@[netlist] def w117 (s : S) : Bool :=
  s.half_latched == false
/-- beta_integration_fifo_lvds.v:1673. -/
@[netlist] def w11 (s : S) : Bool :=
  s.half_latched == true
/-- beta_integration_fifo_lvds.v:1674. -/
@[netlist] def w119 (s : S) : Bool :=
  (w115 s) && (w117 s)
/-- beta_integration_fifo_lvds.v:1675. -/
@[netlist] def w121 (s : S) : Bool :=
  s.reg_valid == true
/-- beta_integration_fifo_lvds.v:1676. -/
@[netlist] def w123 (s : S) (i_busy : Bool) : Bool :=
  i_busy == false
/-- beta_integration_fifo_lvds.v:1677. -/
@[netlist] def w125 (s : S) (i_busy : Bool) : Bool :=
  (w121 s) && (w123 s i_busy)
/-- beta_integration_fifo_lvds.v:1678. -/
@[netlist] def w127 (s : S) : Bool :=
  s.valid_out == true
/-- beta_integration_fifo_lvds.v:1679. -/
@[netlist] def w129 (s : S) (i_busy : Bool) : Bool :=
  (w125 s i_busy) && (w127 s)
/-- beta_integration_fifo_lvds.v:1680. -/
@[netlist] def w131 (s : S) : Bool :=
  s.half_latched == true
/-- beta_integration_fifo_lvds.v:1681. -/
@[netlist] def w13 (s : S) (valid_in : Bool) : Bool :=
  valid_in == true
/-- beta_integration_fifo_lvds.v:1682. -/
@[netlist] def w15 (s : S) : Bool :=
  s.reg_valid == false
/-- beta_integration_fifo_lvds.v:1748-1758. -/
@[netlist] def next_reg_tobe_invalid (s : S) (i_busy : Bool) : Bool :=
  if (w9 s i_busy) = true then (if (w11 s) = true then true
    else false)
  else false
/-- beta_integration_fifo_lvds.v:1864. -/
@[netlist] def reg_tobe_invalid (s : S) (i_busy : Bool) : Bool :=
  (next_reg_tobe_invalid s i_busy)
/-- beta_integration_fifo_lvds.v:1683. -/
@[netlist] def w17 (s : S) (i_busy : Bool) : Bool :=
  (reg_tobe_invalid s i_busy) == true
/-- beta_integration_fifo_lvds.v:1685. -/
@[netlist] def w19 (s : S) (i_busy : Bool) : Bool :=
  (w15 s) || (w17 s i_busy)
/-- beta_integration_fifo_lvds.v:1686. -/
@[netlist] def w21 (s : S) (i_busy : Bool) (valid_in : Bool) : Bool :=
  (w13 s valid_in) && (w19 s i_busy)
/-- beta_integration_fifo_lvds.v:1687. -/
@[netlist] def w23 (s : S) (valid_in : Bool) : Bool :=
  valid_in == true
/-- beta_integration_fifo_lvds.v:1688. -/
@[netlist] def w25 (s : S) : Bool :=
  s.reg_valid == false
/-- beta_integration_fifo_lvds.v:1689. -/
@[netlist] def w27 (s : S) (i_busy : Bool) : Bool :=
  (reg_tobe_invalid s i_busy) == true
/-- beta_integration_fifo_lvds.v:1690. -/
@[netlist] def w29 (s : S) (i_busy : Bool) : Bool :=
  (w25 s) || (w27 s i_busy)
/-- beta_integration_fifo_lvds.v:1691. -/
@[netlist] def w31 (s : S) (i_busy : Bool) (valid_in : Bool) : Bool :=
  (w23 s valid_in) && (w29 s i_busy)
/-- beta_integration_fifo_lvds.v:1692. -/
@[netlist] def w33 (s : S) (valid_in : Bool) : Bool :=
  valid_in == true
/-- beta_integration_fifo_lvds.v:1693. -/
@[netlist] def w35 (s : S) : Bool :=
  s.reg_valid == false
/-- beta_integration_fifo_lvds.v:1694. -/
@[netlist] def w37 (s : S) (i_busy : Bool) : Bool :=
  (reg_tobe_invalid s i_busy) == true
/-- beta_integration_fifo_lvds.v:1696. -/
@[netlist] def w39 (s : S) (i_busy : Bool) : Bool :=
  (w35 s) || (w37 s i_busy)
/-- beta_integration_fifo_lvds.v:1697. -/
@[netlist] def w41 (s : S) (i_busy : Bool) (valid_in : Bool) : Bool :=
  (w33 s valid_in) && (w39 s i_busy)
/-- beta_integration_fifo_lvds.v:1698. -/
@[netlist] def w43 (s : S) : Bool :=
  s.reg_valid == true
/-- beta_integration_fifo_lvds.v:1699. -/
@[netlist] def w45 (s : S) (i_busy : Bool) : Bool :=
  i_busy == false
/-- beta_integration_fifo_lvds.v:1700. -/
@[netlist] def w47 (s : S) (i_busy : Bool) : Bool :=
  (w43 s) && (w45 s i_busy)
/-- beta_integration_fifo_lvds.v:1701. -/
@[netlist] def w49 (s : S) : Bool :=
  s.valid_out == true
/-- beta_integration_fifo_lvds.v:1702. -/
@[netlist] def w51 (s : S) (i_busy : Bool) : Bool :=
  (w47 s i_busy) && (w49 s)
/-- beta_integration_fifo_lvds.v:1703. -/
@[netlist] def w53 (s : S) : Bool :=
  s.half_latched == true
/-- beta_integration_fifo_lvds.v:1704. -/
@[netlist] def w55 (s : S) (valid_in : Bool) : Bool :=
  valid_in == false
/-- beta_integration_fifo_lvds.v:1705. -/
@[netlist] def w57 (s : S) : Bool :=
  s.reg_valid == true
/-- beta_integration_fifo_lvds.v:1707. -/
@[netlist] def w59 (s : S) : Bool :=
  s.valid_out == false
/-- beta_integration_fifo_lvds.v:1708. -/
@[netlist] def w61 (s : S) : Bool :=
  (w57 s) && (w59 s)
/-- beta_integration_fifo_lvds.v:1709. -/
@[netlist] def w63 (s : S) : Bool :=
  s.half_latched == false
/-- beta_integration_fifo_lvds.v:1710. -/
@[netlist] def w65 (s : S) : Bool :=
  (w61 s) && (w63 s)
/-- beta_integration_fifo_lvds.v:1711. -/
@[netlist] def w67 (s : S) : Bool :=
  s.reg_valid == true
/-- beta_integration_fifo_lvds.v:1712. -/
@[netlist] def w69 (s : S) (i_busy : Bool) : Bool :=
  i_busy == false
/-- beta_integration_fifo_lvds.v:1713. -/
@[netlist] def w71 (s : S) (i_busy : Bool) : Bool :=
  (w67 s) && (w69 s i_busy)
/-- beta_integration_fifo_lvds.v:1714. -/
@[netlist] def w73 (s : S) : Bool :=
  s.valid_out == true
/-- beta_integration_fifo_lvds.v:1715. -/
@[netlist] def w75 (s : S) (i_busy : Bool) : Bool :=
  (w71 s i_busy) && (w73 s)
/-- beta_integration_fifo_lvds.v:1716. -/
@[netlist] def w77 (s : S) : Bool :=
  s.half_latched == true
/-- beta_integration_fifo_lvds.v:1718. -/
@[netlist] def w79 (s : S) : Bool :=
  s.reg_valid == true
/-- beta_integration_fifo_lvds.v:1719. -/
@[netlist] def w81 (s : S) : Bool :=
  s.valid_out == false
/-- beta_integration_fifo_lvds.v:1720. -/
@[netlist] def w83 (s : S) : Bool :=
  (w79 s) && (w81 s)
/-- beta_integration_fifo_lvds.v:1721. -/
@[netlist] def w85 (s : S) : Bool :=
  s.half_latched == false
/-- beta_integration_fifo_lvds.v:1722. -/
@[netlist] def w87 (s : S) : Bool :=
  (w83 s) && (w85 s)
/-- beta_integration_fifo_lvds.v:1723. -/
@[netlist] def w89 (s : S) : Bool :=
  s.reg_valid == true
/-- beta_integration_fifo_lvds.v:1724. -/
@[netlist] def w91 (s : S) (i_busy : Bool) : Bool :=
  i_busy == false
/-- beta_integration_fifo_lvds.v:1725. -/
@[netlist] def w93 (s : S) (i_busy : Bool) : Bool :=
  (w89 s) && (w91 s i_busy)
/-- beta_integration_fifo_lvds.v:1726. -/
@[netlist] def w95 (s : S) : Bool :=
  s.valid_out == true
/-- beta_integration_fifo_lvds.v:1727. -/
@[netlist] def w97 (s : S) (i_busy : Bool) : Bool :=
  (w93 s i_busy) && (w95 s)
/-- beta_integration_fifo_lvds.v:1759-1766. -/
@[netlist] def next_wire_obusy (s : S) (i_busy : Bool) (valid_in : Bool) : Bool :=
  if (w21 s i_busy valid_in) = true then false
  else true
/-- beta_integration_fifo_lvds.v:1863. -/
@[netlist] def wire_obusy (s : S) (i_busy : Bool) (valid_in : Bool) : Bool :=
  (next_wire_obusy s i_busy valid_in)
/-- beta_integration_fifo_lvds.v:1740-1747. -/
@[netlist] def next_o_busy (s : S) (i_busy : Bool) (full_rst : Bool) (valid_in : Bool) : Bool :=
  let e1 := (wire_obusy s i_busy valid_in)
  if full_rst = true then true
  else e1
/-- beta_integration_fifo_lvds.v:1767-1777. -/
@[netlist] def next_reg (s : S) (data_in : Nat) (i_busy : Bool) (full_rst : Bool) (valid_in : Bool) : Nat :=
  let e1 := if (w31 s i_busy valid_in) = true then data_in
  else s.reg
  if full_rst = true then 0
  else e1
/-- beta_integration_fifo_lvds.v:1778-1798. -/
@[netlist] def next_reg_valid (s : S) (i_busy : Bool) (full_rst : Bool) (valid_in : Bool) : Bool :=
  let e1 := if (w41 s i_busy valid_in) = true then true
  else s.reg_valid
  let e2 := if (w51 s i_busy) = true then (if (w53 s) = true then (if (w55 s valid_in) = true then false
      else e1)
    else e1)
  else e1
  if full_rst = true then false
  else e2
/-- beta_integration_fifo_lvds.v:1799-1818. -/
@[netlist] def next_data_out (s : S) (i_busy : Bool) (full_rst : Bool) : Nat :=
  let e1 := if (w65 s) = true then slc s.reg 40 24
  else s.data_out
  let e2 := if (w75 s i_busy) = true then (if (w77 s) = true then slc s.reg 16 24
    else slc s.reg 40 24)
  else e1
  if full_rst = true then 0
  else e2
/-- beta_integration_fifo_lvds.v:1819-1842. -/
@[netlist] def next_valid_out (s : S) (i_busy : Bool) (full_rst : Bool) : Bool :=
  let e1 := if (w87 s) = true then true
  else s.valid_out
  let e2 := if (w97 s i_busy) = true then (if (w99 s) = true then true
    else true)
  else e1
  let e3 := if (w109 s i_busy) = true then false
  else e2
  if full_rst = true then false
  else e3
/-- beta_integration_fifo_lvds.v:1843-1862. -/
@[netlist] def next_half_latched (s : S) (i_busy : Bool) (full_rst : Bool) : Bool :=
  let e1 := if (w119 s) = true then true
  else s.half_latched
  let e2 := if (w129 s i_busy) = true then (if (w131 s) = true then false
    else true)
  else e1
  if full_rst = true then false
  else e2

/-- beta_integration_fifo_lvds.v:1544-1865: one rising clock edge (`always @(posedge ...)`). -/
@[netlist] def step (s : S) (data_in : Nat) (i_busy : Bool) (full_rst : Bool) (valid_in : Bool) : S :=
  { half_latched := (next_half_latched s i_busy full_rst)
    valid_out := (next_valid_out s i_busy full_rst)
    data_out := (next_data_out s i_busy full_rst)
    reg_valid := (next_reg_valid s i_busy full_rst valid_in)
    reg := (next_reg s data_in i_busy full_rst valid_in)
    o_busy := (next_o_busy s i_busy full_rst valid_in) }

/-- beta_integration_fifo_lvds.v:1544-1865: the initial values given in the netlist. -/
def Init (s : S) : Prop :=
  s.half_latched = false ∧
  s.valid_out = false ∧
  s.data_out = 0 ∧
  s.reg_valid = false ∧
  s.reg = 0 ∧
  s.o_busy = true

/-- beta_integration_fifo_lvds.v:1544-1865: a state with these initial values; registers without one are 0. -/
def powerUp : S :=
  { half_latched := false
    valid_out := false
    data_out := 0
    reg_valid := false
    reg := 0
    o_busy := true }

theorem powerUp_init : Init powerUp := ⟨rfl, rfl, rfl, rfl, rfl, rfl⟩

end b64_b32

namespace top_module

/-- beta_integration_fifo_lvds.v:8550-8914: registers, memories and instances of module `top_module`. -/
structure S where
  u_auto_reset : Beta.auto_reset.S
  u_fix_0xff : Beta.fix_0xff.S
  u_fix_0xff2 : Beta.fix_0xff2.S
  u_integration_3 : Beta.integration_3.S
  u_markers : Beta.markers.S

/-- beta_integration_fifo_lvds.v:8717-8724. -/
@[netlist] def auto_reset_reset_out (s : S) : Bool :=
  s.u_auto_reset.reset_out
/-- beta_integration_fifo_lvds.v:8713. -/
@[netlist] def w2 (s : S) : Bool :=
  (auto_reset_reset_out s) == true
/-- beta_integration_fifo_lvds.v:8714. -/
@[netlist] def w4 (s : S) (full_rst : Bool) : Bool :=
  full_rst == true
/-- beta_integration_fifo_lvds.v:8715. -/
@[netlist] def w6 (s : S) (full_rst : Bool) : Bool :=
  (w2 s) || (w4 s full_rst)
/-- beta_integration_fifo_lvds.v:8716. -/
@[netlist] def w8 (s : S) (busy_in : Bool) : Bool :=
  busy_in == false
/-- beta_integration_fifo_lvds.v:8751-8765. -/
@[netlist] def integration_3_nready (s : S) : Bool :=
  Beta.integration_3.nready s.u_integration_3
/-- beta_integration_fifo_lvds.v:8855-8858. -/
@[netlist] def next_nready (s : S) : Bool :=
  (integration_3_nready s)
/-- beta_integration_fifo_lvds.v:8887. -/
@[netlist] def nready (s : S) : Bool :=
  (next_nready s)
/-- beta_integration_fifo_lvds.v:8839-8842. -/
@[netlist] def next_markers_i_busy (s : S) (busy_in : Bool) : Bool :=
  busy_in
/-- beta_integration_fifo_lvds.v:8891. -/
@[netlist] def markers_i_busy (s : S) (busy_in : Bool) : Bool :=
  (next_markers_i_busy s busy_in)
/-- beta_integration_fifo_lvds.v:8766-8778. -/
@[netlist] def markers_end_out (s : S) (busy_in : Bool) : Bool :=
  Beta.markers.end_out s.u_markers (markers_i_busy s busy_in)
/-- beta_integration_fifo_lvds.v:8851-8854. -/
@[netlist] def next_end_out (s : S) (busy_in : Bool) : Bool :=
  (markers_end_out s busy_in)
/-- beta_integration_fifo_lvds.v:8888. -/
@[netlist] def end_out (s : S) (busy_in : Bool) : Bool :=
  (next_end_out s busy_in)
/-- beta_integration_fifo_lvds.v:8738-8750. -/
@[netlist] def fix_0xff2_valid_out (s : S) : Bool :=
  s.u_fix_0xff2.valid_out
/-- beta_integration_fifo_lvds.v:8823-8826. -/
@[netlist] def next_markers_valid_in (s : S) : Bool :=
  (fix_0xff2_valid_out s)
/-- beta_integration_fifo_lvds.v:8894. -/
@[netlist] def markers_valid_in (s : S) : Bool :=
  (next_markers_valid_in s)
/-- beta_integration_fifo_lvds.v:8751-8765. -/
@[netlist] def integration_3_fend_out (s : S) : Bool :=
  Beta.integration_3.fend_out s.u_integration_3
/-- beta_integration_fifo_lvds.v:8831-8834. -/
@[netlist] def next_markers_force_end_in (s : S) : Bool :=
  (integration_3_fend_out s)
/-- beta_integration_fifo_lvds.v:8893. -/
@[netlist] def markers_force_end_in (s : S) : Bool :=
  (next_markers_force_end_in s)
/-- beta_integration_fifo_lvds.v:8766-8778. -/
@[netlist] def markers_valid_out (s : S) (busy_in : Bool) : Bool :=
  Beta.markers.valid_out s.u_markers (markers_valid_in s) (markers_force_end_in s) (markers_i_busy s busy_in)
/-- beta_integration_fifo_lvds.v:8847-8850. -/
@[netlist] def next_valid_out (s : S) (busy_in : Bool) : Bool :=
  (markers_valid_out s busy_in)
/-- beta_integration_fifo_lvds.v:8889. -/
@[netlist] def valid_out (s : S) (busy_in : Bool) : Bool :=
  (next_valid_out s busy_in)
/-- beta_integration_fifo_lvds.v:8738-8750. -/
@[netlist] def fix_0xff2_data_out (s : S) : Nat :=
  s.u_fix_0xff2.data_out
/-- beta_integration_fifo_lvds.v:8819-8822. -/
@[netlist] def next_markers_data_in (s : S) : Nat :=
  (fix_0xff2_data_out s)
/-- beta_integration_fifo_lvds.v:8895. -/
@[netlist] def markers_data_in (s : S) : Nat :=
  (next_markers_data_in s)
/-- beta_integration_fifo_lvds.v:8766-8778. -/
@[netlist] def markers_data_out (s : S) (busy_in : Bool) : Nat :=
  Beta.markers.data_out s.u_markers (markers_force_end_in s) (markers_data_in s) (markers_i_busy s busy_in)
/-- beta_integration_fifo_lvds.v:8843-8846. -/
@[netlist] def next_data_out (s : S) (busy_in : Bool) : Nat :=
  (markers_data_out s busy_in)
/-- beta_integration_fifo_lvds.v:8890. -/
@[netlist] def data_out (s : S) (busy_in : Bool) : Nat :=
  (next_data_out s busy_in)
/-- beta_integration_fifo_lvds.v:8738-8750. -/
@[netlist] def fix_0xff2_end_out (s : S) : Bool :=
  s.u_fix_0xff2.end_out
/-- beta_integration_fifo_lvds.v:8835-8838. -/
@[netlist] def next_markers_end_in (s : S) : Bool :=
  (fix_0xff2_end_out s)
/-- beta_integration_fifo_lvds.v:8892. -/
@[netlist] def markers_end_in (s : S) : Bool :=
  (next_markers_end_in s)
/-- beta_integration_fifo_lvds.v:8725-8737. -/
@[netlist] def fix_0xff_data_out_ctr (s : S) : Nat :=
  s.u_fix_0xff.data_out_ctr
/-- beta_integration_fifo_lvds.v:8815-8818. -/
@[netlist] def next_fix_0xff2_data_in_ctr (s : S) : Nat :=
  (fix_0xff_data_out_ctr s)
/-- beta_integration_fifo_lvds.v:8896. -/
@[netlist] def fix_0xff2_data_in_ctr (s : S) : Nat :=
  (next_fix_0xff2_data_in_ctr s)
/-- beta_integration_fifo_lvds.v:8766-8778. -/
@[netlist] def markers_o_busy (s : S) (busy_in : Bool) : Bool :=
  Beta.markers.o_busy s.u_markers (markers_force_end_in s) (markers_i_busy s busy_in)
/-- beta_integration_fifo_lvds.v:8811-8814. -/
@[netlist] def next_fix_0xff2_i_busy (s : S) (busy_in : Bool) : Bool :=
  (markers_o_busy s busy_in)
/-- beta_integration_fifo_lvds.v:8897. -/
@[netlist] def fix_0xff2_i_busy (s : S) (busy_in : Bool) : Bool :=
  (next_fix_0xff2_i_busy s busy_in)
/-- beta_integration_fifo_lvds.v:8725-8737. -/
@[netlist] def fix_0xff_end_out (s : S) : Bool :=
  s.u_fix_0xff.end_out
/-- beta_integration_fifo_lvds.v:8807-8810. -/
@[netlist] def next_fix_0xff2_end_in (s : S) : Bool :=
  (fix_0xff_end_out s)
/-- beta_integration_fifo_lvds.v:8898. -/
@[netlist] def fix_0xff2_end_in (s : S) : Bool :=
  (next_fix_0xff2_end_in s)
/-- beta_integration_fifo_lvds.v:8725-8737. -/
@[netlist] def fix_0xff_valid_out (s : S) : Bool :=
  s.u_fix_0xff.valid_out
/-- beta_integration_fifo_lvds.v:8803-8806. -/
@[netlist] def next_fix_0xff2_valid_in (s : S) : Bool :=
  (fix_0xff_valid_out s)
/-- beta_integration_fifo_lvds.v:8899. -/
@[netlist] def fix_0xff2_valid_in (s : S) : Bool :=
  (next_fix_0xff2_valid_in s)
/-- beta_integration_fifo_lvds.v:8725-8737. -/
@[netlist] def fix_0xff_data_out (s : S) : Nat :=
  s.u_fix_0xff.data_out
/-- beta_integration_fifo_lvds.v:8799-8802. -/
@[netlist] def next_fix_0xff2_data_in (s : S) : Nat :=
  (fix_0xff_data_out s)
/-- beta_integration_fifo_lvds.v:8900. -/
@[netlist] def fix_0xff2_data_in (s : S) : Nat :=
  (next_fix_0xff2_data_in s)
/-- beta_integration_fifo_lvds.v:8738-8750. -/
@[netlist] def fix_0xff2_o_busy (s : S) : Bool :=
  s.u_fix_0xff2.o_busy
/-- beta_integration_fifo_lvds.v:8795-8798. -/
@[netlist] def next_fix_0xff_i_busy (s : S) : Bool :=
  (fix_0xff2_o_busy s)
/-- beta_integration_fifo_lvds.v:8901. -/
@[netlist] def fix_0xff_i_busy (s : S) : Bool :=
  (next_fix_0xff_i_busy s)
/-- beta_integration_fifo_lvds.v:8751-8765. -/
@[netlist] def integration_3_end_out (s : S) : Bool :=
  Beta.integration_3.end_out s.u_integration_3
/-- beta_integration_fifo_lvds.v:8791-8794. -/
@[netlist] def next_fix_0xff_end_in (s : S) : Bool :=
  (integration_3_end_out s)
/-- beta_integration_fifo_lvds.v:8902. -/
@[netlist] def fix_0xff_end_in (s : S) : Bool :=
  (next_fix_0xff_end_in s)
/-- beta_integration_fifo_lvds.v:8751-8765. -/
@[netlist] def integration_3_valid_out (s : S) : Bool :=
  Beta.integration_3.valid_out s.u_integration_3
/-- beta_integration_fifo_lvds.v:8787-8790. -/
@[netlist] def next_fix_0xff_valid_in (s : S) : Bool :=
  (integration_3_valid_out s)
/-- beta_integration_fifo_lvds.v:8903. -/
@[netlist] def fix_0xff_valid_in (s : S) : Bool :=
  (next_fix_0xff_valid_in s)
/-- beta_integration_fifo_lvds.v:8751-8765. -/
@[netlist] def integration_3_data_out (s : S) : Nat :=
  Beta.integration_3.data_out s.u_integration_3
/-- beta_integration_fifo_lvds.v:8883-8886. -/
@[netlist] def next_fix_0xff_data_in (s : S) : Nat :=
  (integration_3_data_out s)
/-- beta_integration_fifo_lvds.v:8904. -/
@[netlist] def fix_0xff_data_in (s : S) : Nat :=
  (next_fix_0xff_data_in s)
/-- beta_integration_fifo_lvds.v:8725-8737. -/
@[netlist] def fix_0xff_o_busy (s : S) : Bool :=
  s.u_fix_0xff.o_busy
/-- beta_integration_fifo_lvds.v:8879-8882. -/
@[netlist] def next_integration_3_busy_in (s : S) : Bool :=
  (fix_0xff_o_busy s)
/-- beta_integration_fifo_lvds.v:8905. -/
@[netlist] def integration_3_busy_in (s : S) : Bool :=
  (next_integration_3_busy_in s)
/-- beta_integration_fifo_lvds.v:8875-8878. -/
@[netlist] def next_integration_3_valid_in (s : S) (valid_in : Bool) : Bool :=
  valid_in
/-- beta_integration_fifo_lvds.v:8906. -/
@[netlist] def integration_3_valid_in (s : S) (valid_in : Bool) : Bool :=
  (next_integration_3_valid_in s valid_in)
/-- beta_integration_fifo_lvds.v:8871-8874. -/
@[netlist] def next_integration_3_pixel_in_1 (s : S) (pixel_in2 : Nat) : Nat :=
  pixel_in2
/-- beta_integration_fifo_lvds.v:8907. -/
@[netlist] def integration_3_pixel_in_1 (s : S) (pixel_in2 : Nat) : Nat :=
  (next_integration_3_pixel_in_1 s pixel_in2)
/-- beta_integration_fifo_lvds.v:8867-8870. -/
@[netlist] def next_integration_3_pixel_in (s : S) (pixel_in1 : Nat) : Nat :=
  pixel_in1
/-- beta_integration_fifo_lvds.v:8908. -/
@[netlist] def integration_3_pixel_in (s : S) (pixel_in1 : Nat) : Nat :=
  (next_integration_3_pixel_in s pixel_in1)
/-- beta_integration_fifo_lvds.v:8863-8866. -/
@[netlist] def next_auto_reset_hs2_in (s : S) (busy_in : Bool) : Bool :=
  (w8 s busy_in)
/-- beta_integration_fifo_lvds.v:8909. -/
@[netlist] def auto_reset_hs2_in (s : S) (busy_in : Bool) : Bool :=
  (next_auto_reset_hs2_in s busy_in)
/-- beta_integration_fifo_lvds.v:8859-8862. -/
@[netlist] def next_auto_reset_hs1_in (s : S) (busy_in : Bool) : Bool :=
  (valid_out s busy_in)
/-- beta_integration_fifo_lvds.v:8910. -/
@[netlist] def auto_reset_hs1_in (s : S) (busy_in : Bool) : Bool :=
  (next_auto_reset_hs1_in s busy_in)
/-- beta_integration_fifo_lvds.v:8827-8830. -/
@[netlist] def next_auto_reset_end_in (s : S) (busy_in : Bool) : Bool :=
  (end_out s busy_in)
/-- beta_integration_fifo_lvds.v:8911. -/
@[netlist] def auto_reset_end_in (s : S) (busy_in : Bool) : Bool :=
  (next_auto_reset_end_in s busy_in)
/-- beta_integration_fifo_lvds.v:8783-8786. -/
@[netlist] def next_rst (s : S) (full_rst : Bool) : Bool :=
  (w6 s full_rst)
/-- beta_integration_fifo_lvds.v:8912. -/
@[netlist] def rst (s : S) (full_rst : Bool) : Bool :=
  (next_rst s full_rst)

/-- beta_integration_fifo_lvds.v:8550-8914: one rising clock edge (`always @(posedge ...)`). -/
@[netlist] def step (s : S) (full_rst : Bool) (busy_in : Bool) (pixel_in1 : Nat) (pixel_in2 : Nat) (valid_in : Bool) : S :=
  { u_auto_reset := Beta.auto_reset.step s.u_auto_reset (auto_reset_hs2_in s busy_in) (auto_reset_end_in s busy_in) (rst s full_rst) (auto_reset_hs1_in s busy_in)
    u_fix_0xff := Beta.fix_0xff.step s.u_fix_0xff (fix_0xff_valid_in s) (fix_0xff_end_in s) (fix_0xff_data_in s) (rst s full_rst) (fix_0xff_i_busy s)
    u_fix_0xff2 := Beta.fix_0xff2.step s.u_fix_0xff2 (fix_0xff2_valid_in s) (fix_0xff2_data_in_ctr s) (fix_0xff2_data_in s) (fix_0xff2_end_in s) (rst s full_rst) (fix_0xff2_i_busy s busy_in)
    u_integration_3 := Beta.integration_3.step s.u_integration_3 (integration_3_pixel_in_1 s pixel_in2) (integration_3_valid_in s valid_in) (integration_3_busy_in s) (rst s full_rst) full_rst (integration_3_pixel_in s pixel_in1)
    u_markers := Beta.markers.step s.u_markers (markers_valid_in s) (markers_end_in s) (markers_force_end_in s) (markers_data_in s) (rst s full_rst) (markers_i_busy s busy_in) }

/-- beta_integration_fifo_lvds.v:8550-8914: the initial values given in the netlist. -/
def Init (s : S) : Prop :=
  Beta.auto_reset.Init s.u_auto_reset ∧
  Beta.fix_0xff.Init s.u_fix_0xff ∧
  Beta.fix_0xff2.Init s.u_fix_0xff2 ∧
  Beta.integration_3.Init s.u_integration_3 ∧
  Beta.markers.Init s.u_markers

/-- beta_integration_fifo_lvds.v:8550-8914: a state with these initial values; registers without one are 0. -/
def powerUp : S :=
  { u_auto_reset := Beta.auto_reset.powerUp
    u_fix_0xff := Beta.fix_0xff.powerUp
    u_fix_0xff2 := Beta.fix_0xff2.powerUp
    u_integration_3 := Beta.integration_3.powerUp
    u_markers := Beta.markers.powerUp }

theorem powerUp_init : Init powerUp := ⟨Beta.auto_reset.powerUp_init, Beta.fix_0xff.powerUp_init, Beta.fix_0xff2.powerUp_init, Beta.integration_3.powerUp_init, Beta.markers.powerUp_init⟩

end top_module

namespace top

/-- beta_integration_fifo_lvds.v:8357-8546: registers, memories and instances of module `top`. -/
structure S where
  u_b16_b40 : b16_b40.S
  u_b64_b32 : b64_b32.S
  u_top_module : top_module.S

/-- beta_integration_fifo_lvds.v:8444. -/
@[netlist] def w1 (s : S) (m_tready : Bool) : Bool :=
  m_tready == false
/-- beta_integration_fifo_lvds.v:8458-8467. -/
@[netlist] def b64_b32_o_busy (s : S) : Bool :=
  s.u_b64_b32.o_busy
/-- beta_integration_fifo_lvds.v:8445. -/
@[netlist] def w3 (s : S) : Bool :=
  (b64_b32_o_busy s) == false
/-- beta_integration_fifo_lvds.v:8458-8467. -/
@[netlist] def b64_b32_valid_out (s : S) : Bool :=
  s.u_b64_b32.valid_out
/-- beta_integration_fifo_lvds.v:8497-8500. -/
@[netlist] def next_top_module_valid_in (s : S) : Bool :=
  (b64_b32_valid_out s)
/-- beta_integration_fifo_lvds.v:8533. -/
@[netlist] def top_module_valid_in (s : S) : Bool :=
  (next_top_module_valid_in s)
/-- beta_integration_fifo_lvds.v:8468-8480. -/
@[netlist] def top_module_nready (s : S) : Bool :=
  top_module.nready s.u_top_module
/-- beta_integration_fifo_lvds.v:8493-8496. -/
@[netlist] def next_b64_b32_i_busy (s : S) : Bool :=
  (top_module_nready s)
/-- beta_integration_fifo_lvds.v:8534. -/
@[netlist] def b64_b32_i_busy (s : S) : Bool :=
  (next_b64_b32_i_busy s)
/-- beta_integration_fifo_lvds.v:8458-8467. -/
@[netlist] def b64_b32_data_out (s : S) : Nat :=
  s.u_b64_b32.data_out
/-- beta_integration_fifo_lvds.v:8489-8492. -/
@[netlist] def next_top_module_pixel_in2 (s : S) : Nat :=
  slc (b64_b32_data_out s) 0 12
/-- beta_integration_fifo_lvds.v:8535. -/
@[netlist] def top_module_pixel_in2 (s : S) : Nat :=
  (next_top_module_pixel_in2 s)
/-- beta_integration_fifo_lvds.v:8529-8532. -/
@[netlist] def next_top_module_pixel_in1 (s : S) : Nat :=
  slc (b64_b32_data_out s) 12 12
/-- beta_integration_fifo_lvds.v:8536. -/
@[netlist] def top_module_pixel_in1 (s : S) : Nat :=
  (next_top_module_pixel_in1 s)
/-- beta_integration_fifo_lvds.v:8525-8528. -/
@[netlist] def next_b64_b32_valid_in (s : S) (s_tvalid : Bool) : Bool :=
  s_tvalid
/-- beta_integration_fifo_lvds.v:8537. -/
@[netlist] def b64_b32_valid_in (s : S) (s_tvalid : Bool) : Bool :=
  (next_b64_b32_valid_in s s_tvalid)
/-- beta_integration_fifo_lvds.v:8521-8524. -/
@[netlist] def next_s_tready (s : S) : Bool :=
  (w3 s)
/-- beta_integration_fifo_lvds.v:8538. -/
@[netlist] def s_tready (s : S) : Bool :=
  (next_s_tready s)
/-- beta_integration_fifo_lvds.v:8517-8520. -/
@[netlist] def next_b64_b32_data_in (s : S) (s_tdata : Nat) : Nat :=
  s_tdata
/-- beta_integration_fifo_lvds.v:8539. -/
@[netlist] def b64_b32_data_in (s : S) (s_tdata : Nat) : Nat :=
  (next_b64_b32_data_in s s_tdata)
/-- beta_integration_fifo_lvds.v:8446-8457. -/
@[netlist] def b16_b40_o_busy (s : S) : Bool :=
  s.u_b16_b40.o_busy
/-- beta_integration_fifo_lvds.v:8509-8512. -/
@[netlist] def next_top_module_busy_in (s : S) : Bool :=
  (b16_b40_o_busy s)
/-- beta_integration_fifo_lvds.v:8541. -/
@[netlist] def top_module_busy_in (s : S) : Bool :=
  (next_top_module_busy_in s)
/-- beta_integration_fifo_lvds.v:8468-8480. -/
@[netlist] def top_module_valid_out (s : S) : Bool :=
  top_module.valid_out s.u_top_module (top_module_busy_in s)
/-- beta_integration_fifo_lvds.v:8513-8516. -/
@[netlist] def next_b16_b40_valid_in (s : S) : Bool :=
  (top_module_valid_out s)
/-- beta_integration_fifo_lvds.v:8540. -/
@[netlist] def b16_b40_valid_in (s : S) : Bool :=
  (next_b16_b40_valid_in s)
/-- beta_integration_fifo_lvds.v:8468-8480. -/
@[netlist] def top_module_data_out (s : S) : Nat :=
  top_module.data_out s.u_top_module (top_module_busy_in s)
/-- beta_integration_fifo_lvds.v:8505-8508. -/
@[netlist] def next_b16_b40_data_in (s : S) : Nat :=
  (top_module_data_out s)
/-- beta_integration_fifo_lvds.v:8542. -/
@[netlist] def b16_b40_data_in (s : S) : Nat :=
  (next_b16_b40_data_in s)
/-- beta_integration_fifo_lvds.v:8446-8457. -/
@[netlist] def b16_b40_valid_out (s : S) : Bool :=
  s.u_b16_b40.valid_out
/-- beta_integration_fifo_lvds.v:8501-8504. -/
@[netlist] def next_m_tvalid (s : S) : Bool :=
  (b16_b40_valid_out s)
/-- beta_integration_fifo_lvds.v:8543. -/
@[netlist] def m_tvalid (s : S) : Bool :=
  (next_m_tvalid s)
/-- beta_integration_fifo_lvds.v:8485-8488. -/
@[netlist] def next_b16_b40_i_busy (s : S) (m_tready : Bool) : Bool :=
  (w1 s m_tready)
/-- beta_integration_fifo_lvds.v:8544. -/
@[netlist] def b16_b40_i_busy (s : S) (m_tready : Bool) : Bool :=
  (next_b16_b40_i_busy s m_tready)
/-- beta_integration_fifo_lvds.v:8446-8457. -/
@[netlist] def b16_b40_data_out (s : S) : Nat :=
  b16_b40.data_out s.u_b16_b40
/-- beta_integration_fifo_lvds.v:8481-8484. -/
@[netlist] def next_m_tdata (s : S) : Nat :=
  (b16_b40_data_out s)
/-- beta_integration_fifo_lvds.v:8545. -/
@[netlist] def m_tdata (s : S) : Nat :=
  (next_m_tdata s)
/-- beta_integration_fifo_lvds.v:8468-8480. -/
@[netlist] def top_module_rst (s : S) (full_rst : Bool) : Bool :=
  top_module.rst s.u_top_module full_rst

/-- beta_integration_fifo_lvds.v:8357-8546: one rising clock edge (`always @(posedge ...)`). -/
@[netlist] def step (s : S) (s_tdata : Nat) (s_tvalid : Bool) (full_rst : Bool) (m_tready : Bool) : S :=
  { u_b16_b40 := b16_b40.step s.u_b16_b40 (b16_b40_valid_in s) (b16_b40_data_in s) full_rst (top_module_rst s full_rst) (b16_b40_i_busy s m_tready)
    u_b64_b32 := b64_b32.step s.u_b64_b32 (b64_b32_data_in s s_tdata) (b64_b32_i_busy s) full_rst (b64_b32_valid_in s s_tvalid)
    u_top_module := top_module.step s.u_top_module full_rst (top_module_busy_in s) (top_module_pixel_in1 s) (top_module_pixel_in2 s) (top_module_valid_in s) }

/-- beta_integration_fifo_lvds.v:8357-8546: the initial values given in the netlist. -/
def Init (s : S) : Prop :=
  b16_b40.Init s.u_b16_b40 ∧
  b64_b32.Init s.u_b64_b32 ∧
  top_module.Init s.u_top_module

/-- beta_integration_fifo_lvds.v:8357-8546: a state with these initial values; registers without one are 0. -/
def powerUp : S :=
  { u_b16_b40 := b16_b40.powerUp
    u_b64_b32 := b64_b32.powerUp
    u_top_module := top_module.powerUp }

theorem powerUp_init : Init powerUp := ⟨b16_b40.powerUp_init, b64_b32.powerUp_init, top_module.powerUp_init⟩

end top

end Netlist.BetaLvds
