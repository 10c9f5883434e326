/- Generated by netlist/v2lean.py from verilog_src/micro_integration.v.  Do not edit. -/
import Verif.Netlist.MicroAxis

set_option autoImplicit false
set_option linter.unusedVariables false

namespace Netlist.Micro
open Netlist

namespace core_axi_lite

/-- micro_integration.v:1115-2000: registers, memories and instances of module `core_axi_lite`. -/
structure S where
  allowed_cycles : Nat
  height_width : Nat
  bresp_v : Nat
  wp_en : Bool
  wp_data : Nat
  wp_addr : Nat
  wready_v : Bool
  awready_v : Bool
  rresp_v : Nat
  rdata_v : Nat
  arready_v : Bool
  rp_addr : Nat
  addr_v : Nat
  fsm_state : Nat
  bvalid_v : Bool
  rvalid_v : Bool

/-- micro_integration.v:1860-1863. -/
@[netlist] def next_hw_enable (s : S) : Bool :=
  s.addr_v.testBit 11
/-- micro_integration.v:1996. -/
@[netlist] def hw_enable (s : S) : Bool :=
  (next_hw_enable s)
/-- micro_integration.v:1370. -/
@[netlist] def w9 (s : S) : Bool :=
  (hw_enable s) == true
/-- micro_integration.v:1900-1903. -/
@[netlist] def next_hw_index (s : S) : Bool :=
  s.addr_v.testBit 0
/-- micro_integration.v:1992. -/
@[netlist] def hw_index (s : S) : Bool :=
  (next_hw_index s)
/-- micro_integration.v:1371. -/
@[netlist] def w100 (s : S) : Bool :=
  (hw_index s) == false
/-- micro_integration.v:1372. -/
@[netlist] def w102 (s : S) : Bool :=
  (hw_index s) == false
/-- micro_integration.v:1373. -/
@[netlist] def w104 (s : S) : Bool :=
  (hw_index s) == false
/-- micro_integration.v:1671-1674. -/
@[netlist] def next_ssss_enable (s : S) : Bool :=
  s.addr_v.testBit 10
/-- micro_integration.v:1997. -/
@[netlist] def ssss_enable (s : S) : Bool :=
  (next_ssss_enable s)
/-- micro_integration.v:1374. -/
@[netlist] def w106 (s : S) : Bool :=
  (ssss_enable s) == true
/-- micro_integration.v:1892-1895. -/
@[netlist] def next_ssss_index (s : S) : Nat :=
  slc s.addr_v 0 6
/-- micro_integration.v:1994. -/
@[netlist] def ssss_index (s : S) : Nat :=
  (next_ssss_index s)
/-- micro_integration.v:1375. -/
@[netlist] def w108 (s : S) : Bool :=
  decide ((ssss_index s) < 26)
/-- micro_integration.v:1376. -/
@[netlist] def w110 (s : S) : Bool :=
  (w106 s) && (w108 s)
/-- micro_integration.v:1377. -/
@[netlist] def w112 (s : S) : Bool :=
  (hw_enable s) == true
/-- micro_integration.v:1378. -/
@[netlist] def w114 (s : S) : Bool :=
  (hw_index s) == false
/-- micro_integration.v:1379. -/
@[netlist] def w116 (s : S) : Bool :=
  (hw_index s) == false
/-- micro_integration.v:1380. -/
@[netlist] def w118 (s : S) : Bool :=
  (hw_index s) == false
/-- micro_integration.v:1381. -/
@[netlist] def w11 (s : S) : Bool :=
  ((ssss_index s).testBit 0) == false
/-- micro_integration.v:1382. -/
@[netlist] def w13 (s : S) : Nat :=
  0
/-- micro_integration.v:1383. -/
@[netlist] def w15 (s : S) : Nat :=
  0
/-- micro_integration.v:1384. -/
@[netlist] def w17 (s : S) : Nat :=
  0
/-- micro_integration.v:1385. -/
@[netlist] def w1 (s : S) (rp_data : Nat) : Nat :=
  rp_data
/-- micro_integration.v:1386. -/
@[netlist] def w19 (s : S) : Nat :=
  0
/-- micro_integration.v:1387. -/
@[netlist] def w21 (s : S) (s_axi_ri__araddr : Nat) : Nat :=
  s_axi_ri__araddr / 2 ^ 2
/-- micro_integration.v:1388. -/
@[netlist] def w23 (s : S) (s_axi_wi__awaddr : Nat) : Nat :=
  s_axi_wi__awaddr / 2 ^ 2
/-- micro_integration.v:1389. -/
@[netlist] def w26 (s : S) (s_axi_ri__araddr : Nat) : Nat :=
  s_axi_ri__araddr / 2 ^ 3
/-- micro_integration.v:1390. -/
@[netlist] def w29 (s : S) (s_axi_wi__awaddr : Nat) : Nat :=
  s_axi_wi__awaddr / 2 ^ 3
/-- micro_integration.v:1391. -/
@[netlist] def w31 (s : S) : Bool :=
  (ssss_enable s) == true
/-- micro_integration.v:1392. -/
@[netlist] def w33 (s : S) : Bool :=
  decide ((ssss_index s) < 26)
/-- micro_integration.v:1393. -/
@[netlist] def w35 (s : S) : Bool :=
  (w31 s) && (w33 s)
/-- micro_integration.v:1394. -/
@[netlist] def w37 (s : S) : Bool :=
  (hw_enable s) == true
/-- micro_integration.v:1395. -/
@[netlist] def w3 (s : S) : Bool :=
  (ssss_enable s) == true
/-- micro_integration.v:1396. -/
@[netlist] def w39 (s : S) : Bool :=
  ((ssss_index s).testBit 0) == false
/-- micro_integration.v:1397. -/
@[netlist] def w41 (s : S) : Bool :=
  (hw_index s) == false
/-- micro_integration.v:1398. -/
@[netlist] def w43 (s : S) : Nat :=
  s.allowed_cycles
/-- micro_integration.v:1399. -/
@[netlist] def w45 (s : S) : Bool :=
  (ssss_enable s) == true
/-- micro_integration.v:1400. -/
@[netlist] def w47 (s : S) : Bool :=
  decide ((ssss_index s) < 26)
/-- micro_integration.v:1401. -/
@[netlist] def w49 (s : S) : Bool :=
  (w45 s) && (w47 s)
/-- micro_integration.v:1402. -/
@[netlist] def w51 (s : S) : Bool :=
  (hw_enable s) == true
/-- micro_integration.v:1403. -/
@[netlist] def w53 (s : S) : Bool :=
  (hw_index s) == false
/-- micro_integration.v:1404. -/
@[netlist] def w55 (s : S) : Bool :=
  (ssss_enable s) == true
/-- micro_integration.v:1405. -/
@[netlist] def w57 (s : S) : Bool :=
  decide ((ssss_index s) < 26)
/-- micro_integration.v:1406. -/
@[netlist] def w5 (s : S) : Bool :=
  decide ((ssss_index s) < 26)
/-- micro_integration.v:1407. -/
@[netlist] def w59 (s : S) : Bool :=
  (w55 s) && (w57 s)
/-- micro_integration.v:1408. -/
@[netlist] def w61 (s : S) : Bool :=
  (hw_enable s) == true
/-- micro_integration.v:1409. -/
@[netlist] def w64 (s : S) : Nat :=
  (ssss_index s) / 2 ^ 1
/-- micro_integration.v:1410. -/
@[netlist] def w66 (s : S) : Bool :=
  (ssss_enable s) == true
/-- micro_integration.v:1411. -/
@[netlist] def w68 (s : S) : Bool :=
  decide ((ssss_index s) < 26)
/-- micro_integration.v:1412. -/
@[netlist] def w70 (s : S) : Bool :=
  (w66 s) && (w68 s)
/-- micro_integration.v:1413. -/
@[netlist] def w72 (s : S) : Bool :=
  (hw_enable s) == true
/-- micro_integration.v:1414. -/
@[netlist] def w74 (s : S) : Bool :=
  (ssss_enable s) == true
/-- micro_integration.v:1415. -/
@[netlist] def w76 (s : S) : Bool :=
  decide ((ssss_index s) < 26)
/-- micro_integration.v:1416. -/
@[netlist] def w78 (s : S) : Bool :=
  (w74 s) && (w76 s)
/-- micro_integration.v:1417. -/
@[netlist] def w7 (s : S) : Bool :=
  (w3 s) && (w5 s)
/-- micro_integration.v:1418. -/
@[netlist] def w80 (s : S) : Bool :=
  (hw_enable s) == true
/-- micro_integration.v:1419. -/
@[netlist] def w82 (s : S) : Bool :=
  (ssss_enable s) == true
/-- micro_integration.v:1420. -/
@[netlist] def w84 (s : S) : Bool :=
  decide ((ssss_index s) < 26)
/-- micro_integration.v:1421. -/
@[netlist] def w86 (s : S) : Bool :=
  (w82 s) && (w84 s)
/-- micro_integration.v:1422. -/
@[netlist] def w88 (s : S) : Bool :=
  (hw_enable s) == true
/-- micro_integration.v:1423. -/
@[netlist] def w90 (s : S) : Bool :=
  (ssss_enable s) == true
/-- micro_integration.v:1424. -/
@[netlist] def w92 (s : S) : Bool :=
  decide ((ssss_index s) < 26)
/-- micro_integration.v:1425. -/
@[netlist] def w94 (s : S) : Bool :=
  (w90 s) && (w92 s)
/-- micro_integration.v:1426. -/
@[netlist] def w96 (s : S) : Bool :=
  (hw_enable s) == true
/-- micro_integration.v:1427. -/
@[netlist] def w98 (s : S) : Bool :=
  (hw_index s) == false
/-- micro_integration.v:1977. -/
@[netlist] def w25 (s : S) (s_axi_ri__araddr : Nat) : Nat :=
  (w26 s s_axi_ri__araddr)
/-- micro_integration.v:1978. -/
@[netlist] def w28 (s : S) (s_axi_wi__awaddr : Nat) : Nat :=
  (w29 s s_axi_wi__awaddr)
/-- micro_integration.v:1979. -/
@[netlist] def w63 (s : S) : Nat :=
  (w64 s)
/-- micro_integration.v:1884-1887. -/
@[netlist] def next_width (s : S) : Nat :=
  slc s.height_width 16 16
/-- micro_integration.v:1980. -/
@[netlist] def width (s : S) : Nat :=
  (next_width s)
/-- micro_integration.v:1880-1883. -/
@[netlist] def next_height (s : S) : Nat :=
  slc s.height_width 0 16
/-- micro_integration.v:1981. -/
@[netlist] def height (s : S) : Nat :=
  (next_height s)
/-- micro_integration.v:1876-1879. -/
@[netlist] def next_s_axi_wo__bresp (s : S) : Nat :=
  s.bresp_v
/-- micro_integration.v:1982. -/
@[netlist] def s_axi_wo__bresp (s : S) : Nat :=
  (next_s_axi_wo__bresp s)
/-- micro_integration.v:1872-1875. -/
@[netlist] def next_s_axi_ro__rresp (s : S) : Nat :=
  s.rresp_v
/-- micro_integration.v:1983. -/
@[netlist] def s_axi_ro__rresp (s : S) : Nat :=
  (next_s_axi_ro__rresp s)
/-- micro_integration.v:1868-1871. -/
@[netlist] def next_s_axi_ro__rdata (s : S) : Nat :=
  s.rdata_v
/-- micro_integration.v:1984. -/
@[netlist] def s_axi_ro__rdata (s : S) : Nat :=
  (next_s_axi_ro__rdata s)
/-- micro_integration.v:1864-1867. -/
@[netlist] def next_s_axi_wo__bvalid (s : S) : Bool :=
  s.bvalid_v
/-- micro_integration.v:1985. -/
@[netlist] def s_axi_wo__bvalid (s : S) : Bool :=
  (next_s_axi_wo__bvalid s)
/-- micro_integration.v:1856-1859. -/
@[netlist] def next_s_axi_wo__wready (s : S) : Bool :=
  s.wready_v
/-- micro_integration.v:1986. -/
@[netlist] def s_axi_wo__wready (s : S) : Bool :=
  (next_s_axi_wo__wready s)
/-- micro_integration.v:1852-1855. -/
@[netlist] def next_s_axi_wo__awready (s : S) : Bool :=
  s.awready_v
/-- micro_integration.v:1987. -/
@[netlist] def s_axi_wo__awready (s : S) : Bool :=
  (next_s_axi_wo__awready s)
/-- micro_integration.v:1848-1851. -/
@[netlist] def next_s_axi_ro__rvalid (s : S) : Bool :=
  s.rvalid_v
/-- micro_integration.v:1988. -/
@[netlist] def s_axi_ro__rvalid (s : S) : Bool :=
  (next_s_axi_ro__rvalid s)
/-- micro_integration.v:1844-1847. -/
@[netlist] def next_s_axi_ro__arready (s : S) : Bool :=
  s.arready_v
/-- micro_integration.v:1989. -/
@[netlist] def s_axi_ro__arready (s : S) : Bool :=
  (next_s_axi_ro__arready s)
/-- micro_integration.v:1471-1481. -/
@[netlist] def next_wstrb_v (s : S) (s_axi_wi__wvalid : Bool) (s_axi_wi__wstrb : Nat) : Nat :=
  if s.fsm_state = 8 then (if s_axi_wi__wvalid = true then s_axi_wi__wstrb
    else 0)
  else 0
/-- micro_integration.v:1998. -/
@[netlist] def wstrb_v (s : S) (s_axi_wi__wvalid : Bool) (s_axi_wi__wstrb : Nat) : Nat :=
  (next_wstrb_v s s_axi_wi__wvalid s_axi_wi__wstrb)
/-- micro_integration.v:1460-1470. -/
@[netlist] def next_wdata_v (s : S) (s_axi_wi__wvalid : Bool) (s_axi_wi__wdata : Nat) : Nat :=
  if s.fsm_state = 8 then (if s_axi_wi__wvalid = true then s_axi_wi__wdata
    else 0)
  else 0
/-- micro_integration.v:1999. -/
@[netlist] def wdata_v (s : S) (s_axi_wi__wvalid : Bool) (s_axi_wi__wdata : Nat) : Nat :=
  (next_wdata_v s s_axi_wi__wvalid s_axi_wi__wdata)
/-- micro_integration.v:1904-1907. -/
@[netlist] def next_rp_data64 (s : S) (rp_data : Nat) : Nat :=
  (w1 s rp_data)
/-- micro_integration.v:1991. -/
@[netlist] def rp_data64 (s : S) (rp_data : Nat) : Nat :=
  (next_rp_data64 s rp_data)
/-- micro_integration.v:1908-1976. -/
@[netlist] def next_rp_data64_in (s : S) (s_axi_wi__wvalid : Bool) (s_axi_wi__wdata : Nat) (s_axi_wi__wstrb : Nat) (rp_data : Nat) : Nat :=
  if s.fsm_state = 8 then (if s_axi_wi__wvalid = true then (if (w7 s) = true then (if (w11 s) = true then (
          let e1 := if ((wstrb_v s s_axi_wi__wvalid s_axi_wi__wstrb).testBit 0) = true then put 0 0 8 (slc (wdata_v s s_axi_wi__wvalid s_axi_wi__wdata) 0 8)
          else put 0 0 8 (slc (rp_data64 s rp_data) 0 8)
          let e2 := if ((wstrb_v s s_axi_wi__wvalid s_axi_wi__wstrb).testBit 1) = true then put e1 8 8 (slc (wdata_v s s_axi_wi__wvalid s_axi_wi__wdata) 8 8)
          else put e1 8 8 (slc (rp_data64 s rp_data) 8 8)
          let e3 := if ((wstrb_v s s_axi_wi__wvalid s_axi_wi__wstrb).testBit 2) = true then put e2 16 8 (slc (wdata_v s s_axi_wi__wvalid s_axi_wi__wdata) 16 8)
          else put e2 16 8 (slc (rp_data64 s rp_data) 16 8)
          if ((wstrb_v s s_axi_wi__wvalid s_axi_wi__wstrb).testBit 3) = true then put e3 24 8 (slc (wdata_v s s_axi_wi__wvalid s_axi_wi__wdata) 24 8)
          else put e3 24 8 (slc (rp_data64 s rp_data) 24 8))
        else (
          let e4 := if ((wstrb_v s s_axi_wi__wvalid s_axi_wi__wstrb).testBit 0) = true then put 0 32 8 (w13 s)
          else put 0 32 8 (slc (rp_data64 s rp_data) 32 8)
          let e5 := if ((wstrb_v s s_axi_wi__wvalid s_axi_wi__wstrb).testBit 1) = true then put e4 40 8 (w15 s)
          else put e4 40 8 (slc (rp_data64 s rp_data) 40 8)
          let e6 := if ((wstrb_v s s_axi_wi__wvalid s_axi_wi__wstrb).testBit 2) = true then put e5 48 8 (w17 s)
          else put e5 48 8 (slc (rp_data64 s rp_data) 48 8)
          if ((wstrb_v s s_axi_wi__wvalid s_axi_wi__wstrb).testBit 3) = true then put e6 56 8 (w19 s)
          else put e6 56 8 (slc (rp_data64 s rp_data) 56 8)))
      else 0)
    else 0)
  else 0
/-- micro_integration.v:1990. -/
@[netlist] def rp_data64_in (s : S) (s_axi_wi__wvalid : Bool) (s_axi_wi__wdata : Nat) (s_axi_wi__wstrb : Nat) (rp_data : Nat) : Nat :=
  (next_rp_data64_in s s_axi_wi__wvalid s_axi_wi__wdata s_axi_wi__wstrb rp_data)
/-- micro_integration.v:1896-1899. -/
@[netlist] def next_debug_index (s : S) : Nat :=
  slc s.addr_v 0 3
/-- micro_integration.v:1993. -/
@[netlist] def debug_index (s : S) : Nat :=
  (next_debug_index s)
/-- micro_integration.v:1888-1891. -/
@[netlist] def next_debug_enable (s : S) : Bool :=
  s.addr_v.testBit 12
/-- micro_integration.v:1995. -/
@[netlist] def debug_enable (s : S) : Bool :=
  (next_debug_enable s)
/-- micro_integration.v:1482-1497. -/
@[netlist] def next_rvalid_v (s : S) (s_axi_ri__rready : Bool) (full_rst : Bool) : Bool :=
  let e1 := if s.fsm_state = 0 then false
  else if s.fsm_state = 5 then (if s_axi_ri__rready = true then true
    else s.rvalid_v)
  else s.rvalid_v
  if full_rst = true then false
  else e1
/-- micro_integration.v:1498-1513. -/
@[netlist] def next_bvalid_v (s : S) (s_axi_wi__bready : Bool) (full_rst : Bool) : Bool :=
  let e1 := if s.fsm_state = 0 then false
  else if s.fsm_state = 9 then (if s_axi_wi__bready = true then true
    else s.bvalid_v)
  else s.bvalid_v
  if full_rst = true then false
  else e1
/-- micro_integration.v:1514-1556. -/
@[netlist] def next_fsm_state (s : S) (s_axi_ri__arvalid : Bool) (s_axi_wi__awvalid : Bool) (s_axi_ri__rready : Bool) (s_axi_wi__wvalid : Bool) (s_axi_wi__bready : Bool) (rst : Bool) : Nat :=
  let e1 := if s.fsm_state = 0 then (if s_axi_ri__arvalid = true then 1
    else if s_axi_wi__awvalid = true then 2
    else s.fsm_state)
  else if s.fsm_state = 1 then 3
  else if s.fsm_state = 3 then 4
  else if s.fsm_state = 4 then 5
  else if s.fsm_state = 5 then (if s_axi_ri__rready = true then 0
    else s.fsm_state)
  else if s.fsm_state = 2 then 6
  else if s.fsm_state = 6 then 7
  else if s.fsm_state = 7 then 8
  else if s.fsm_state = 8 then (if s_axi_wi__wvalid = true then 9
    else s.fsm_state)
  else if s.fsm_state = 9 then (if s_axi_wi__bready = true then 0
    else s.fsm_state)
  else s.fsm_state
  if rst = true then 0
  else e1
/-- micro_integration.v:1557-1569. -/
@[netlist] def next_addr_v (s : S) (s_axi_ri__araddr : Nat) (s_axi_wi__awaddr : Nat) (full_rst : Bool) : Nat :=
  let e1 := if s.fsm_state = 1 then (w21 s s_axi_ri__araddr)
  else if s.fsm_state = 2 then (w23 s s_axi_wi__awaddr)
  else s.addr_v
  if full_rst = true then 0
  else e1
/-- micro_integration.v:1570-1582. -/
@[netlist] def next_rp_addr (s : S) (s_axi_ri__araddr : Nat) (s_axi_wi__awaddr : Nat) (full_rst : Bool) : Nat :=
  let e1 := if s.fsm_state = 1 then slc (w25 s s_axi_ri__araddr) 0 5
  else if s.fsm_state = 2 then slc (w28 s s_axi_wi__awaddr) 0 5
  else s.rp_addr
  if full_rst = true then 0
  else e1
/-- micro_integration.v:1583-1595. -/
@[netlist] def next_arready_v (s : S) (full_rst : Bool) : Bool :=
  let e1 := if s.fsm_state = 1 then true
  else if s.fsm_state = 3 then false
  else s.arready_v
  if full_rst = true then false
  else e1
/-- micro_integration.v:1596-1621. -/
@[netlist] def next_rdata_v (s : S) (full_rst : Bool) (rp_data : Nat) : Nat :=
  let e1 := if s.fsm_state = 5 then (if (w35 s) = true then (if (w39 s) = true then slc (rp_data64 s rp_data) 0 32
      else slc (rp_data64 s rp_data) 32 32)
    else if (w37 s) = true then (if (w41 s) = true then s.height_width
      else (w43 s))
    else s.rdata_v)
  else s.rdata_v
  if full_rst = true then 0
  else e1
/-- micro_integration.v:1622-1644. -/
@[netlist] def next_rresp_v (s : S) (full_rst : Bool) : Nat :=
  let e1 := if s.fsm_state = 5 then (if (w49 s) = true then 0
    else if (w51 s) = true then (if (w53 s) = true then 0
      else 0)
    else 3)
  else s.rresp_v
  if full_rst = true then 0
  else e1
/-- micro_integration.v:1645-1657. -/
@[netlist] def next_awready_v (s : S) (full_rst : Bool) : Bool :=
  let e1 := if s.fsm_state = 2 then true
  else if s.fsm_state = 6 then false
  else s.awready_v
  if full_rst = true then false
  else e1
/-- micro_integration.v:1658-1670. -/
@[netlist] def next_wready_v (s : S) (full_rst : Bool) : Bool :=
  let e1 := if s.fsm_state = 8 then true
  else if s.fsm_state = 9 then false
  else s.wready_v
  if full_rst = true then false
  else e1
/-- micro_integration.v:1675-1691. -/
@[netlist] def next_wp_addr (s : S) (s_axi_wi__wvalid : Bool) (full_rst : Bool) : Nat :=
  let e1 := if s.fsm_state = 8 then (if s_axi_wi__wvalid = true then (if (w59 s) = true then slc (w63 s) 0 5
      else s.wp_addr)
    else s.wp_addr)
  else s.wp_addr
  if full_rst = true then 0
  else e1
/-- micro_integration.v:1692-1708. -/
@[netlist] def next_wp_data (s : S) (s_axi_wi__wvalid : Bool) (s_axi_wi__wdata : Nat) (s_axi_wi__wstrb : Nat) (full_rst : Bool) (rp_data : Nat) : Nat :=
  let e1 := if s.fsm_state = 8 then (if s_axi_wi__wvalid = true then (if (w70 s) = true then slc (rp_data64_in s s_axi_wi__wvalid s_axi_wi__wdata s_axi_wi__wstrb rp_data) 0 33
      else s.wp_data)
    else s.wp_data)
  else s.wp_data
  if full_rst = true then 0
  else e1
/-- micro_integration.v:1709-1727. -/
@[netlist] def next_wp_en (s : S) (s_axi_wi__wvalid : Bool) (full_rst : Bool) : Bool :=
  let e1 := if s.fsm_state = 8 then (if s_axi_wi__wvalid = true then (if (w78 s) = true then true
      else s.wp_en)
    else s.wp_en)
  else if s.fsm_state = 9 then false
  else s.wp_en
  if full_rst = true then false
  else e1
/-- micro_integration.v:1728-1748. -/
@[netlist] def next_bresp_v (s : S) (s_axi_wi__wvalid : Bool) (full_rst : Bool) : Nat :=
  let e1 := if s.fsm_state = 8 then (if s_axi_wi__wvalid = true then (if (w86 s) = true then 0
      else if (w88 s) = true then 0
      else 3)
    else s.bresp_v)
  else s.bresp_v
  if full_rst = true then 0
  else e1
/-- micro_integration.v:1749-1796. -/
@[netlist] def next_height_width (s : S) (s_axi_wi__wvalid : Bool) (s_axi_wi__wdata : Nat) (s_axi_wi__wstrb : Nat) (full_rst : Bool) : Nat :=
  let e4 := if s.fsm_state = 8 then (if s_axi_wi__wvalid = true then (if (w94 s) = true then s.height_width
      else if (w96 s) = true then (
        let e1 := if ((wstrb_v s s_axi_wi__wvalid s_axi_wi__wstrb).testBit 0) = true then (if (w98 s) = true then put s.height_width 0 8 (slc (wdata_v s s_axi_wi__wvalid s_axi_wi__wdata) 0 8)
          else s.height_width)
        else s.height_width
        let e2 := if ((wstrb_v s s_axi_wi__wvalid s_axi_wi__wstrb).testBit 1) = true then (if (w100 s) = true then put e1 8 8 (slc (wdata_v s s_axi_wi__wvalid s_axi_wi__wdata) 8 8)
          else e1)
        else e1
        let e3 := if ((wstrb_v s s_axi_wi__wvalid s_axi_wi__wstrb).testBit 2) = true then (if (w102 s) = true then put e2 16 8 (slc (wdata_v s s_axi_wi__wvalid s_axi_wi__wdata) 16 8)
          else e2)
        else e2
        if ((wstrb_v s s_axi_wi__wvalid s_axi_wi__wstrb).testBit 3) = true then (if (w104 s) = true then put e3 24 8 (slc (wdata_v s s_axi_wi__wvalid s_axi_wi__wdata) 24 8)
          else e3)
        else e3)
      else s.height_width)
    else s.height_width)
  else s.height_width
  if full_rst = true then 0
  else e4
/-- micro_integration.v:1797-1843. -/
@[netlist] def next_allowed_cycles (s : S) (s_axi_wi__wvalid : Bool) (s_axi_wi__wdata : Nat) (s_axi_wi__wstrb : Nat) (full_rst : Bool) : Nat :=
  let e3 := if s.fsm_state = 8 then (if s_axi_wi__wvalid = true then (if (w110 s) = true then s.allowed_cycles
      else if (w112 s) = true then (
        let e1 := if ((wstrb_v s s_axi_wi__wvalid s_axi_wi__wstrb).testBit 0) = true then (if (w114 s) = true then s.allowed_cycles
          else put s.allowed_cycles 0 8 (slc (wdata_v s s_axi_wi__wvalid s_axi_wi__wdata) 0 8))
        else s.allowed_cycles
        let e2 := if ((wstrb_v s s_axi_wi__wvalid s_axi_wi__wstrb).testBit 1) = true then (if (w116 s) = true then e1
          else put e1 8 8 (slc (wdata_v s s_axi_wi__wvalid s_axi_wi__wdata) 8 8))
        else e1
        if ((wstrb_v s s_axi_wi__wvalid s_axi_wi__wstrb).testBit 2) = true then (if (w118 s) = true then e2
          else put e2 16 8 (slc (wdata_v s s_axi_wi__wvalid s_axi_wi__wdata) 16 8))
        else e2)
      else s.allowed_cycles)
    else s.allowed_cycles)
  else s.allowed_cycles
  if full_rst = true then 0
  else e3

/-- micro_integration.v:1115-2000: one rising clock edge (`always @(posedge ...)`). -/
@[netlist] def step (s : S) (s_axi_ri__arvalid : Bool) (s_axi_wi__awvalid : Bool) (s_axi_ri__araddr : Nat) (s_axi_ri__rready : Bool) (s_axi_wi__awaddr : Nat) (s_axi_wi__wvalid : Bool) (s_axi_wi__wdata : Nat) (s_axi_wi__wstrb : Nat) (s_axi_wi__bready : Bool) (full_rst : Bool) (rst : Bool) (rp_data : Nat) : S :=
  { allowed_cycles := (next_allowed_cycles s s_axi_wi__wvalid s_axi_wi__wdata s_axi_wi__wstrb full_rst)
    height_width := (next_height_width s s_axi_wi__wvalid s_axi_wi__wdata s_axi_wi__wstrb full_rst)
    bresp_v := (next_bresp_v s s_axi_wi__wvalid full_rst)
    wp_en := (next_wp_en s s_axi_wi__wvalid full_rst)
    wp_data := (next_wp_data s s_axi_wi__wvalid s_axi_wi__wdata s_axi_wi__wstrb full_rst rp_data)
    wp_addr := (next_wp_addr s s_axi_wi__wvalid full_rst)
    wready_v := (next_wready_v s full_rst)
    awready_v := (next_awready_v s full_rst)
    rresp_v := (next_rresp_v s full_rst)
    rdata_v := (next_rdata_v s full_rst rp_data)
    arready_v := (next_arready_v s full_rst)
    rp_addr := (next_rp_addr s s_axi_ri__araddr s_axi_wi__awaddr full_rst)
    addr_v := (next_addr_v s s_axi_ri__araddr s_axi_wi__awaddr full_rst)
    fsm_state := (next_fsm_state s s_axi_ri__arvalid s_axi_wi__awvalid s_axi_ri__rready s_axi_wi__wvalid s_axi_wi__bready rst)
    bvalid_v := (next_bvalid_v s s_axi_wi__bready full_rst)
    rvalid_v := (next_rvalid_v s s_axi_ri__rready full_rst) }

/-- micro_integration.v:1115-2000: the initial values given in the netlist. -/
def Init (s : S) : Prop :=
  s.allowed_cycles = 0 ∧
  s.height_width = 0 ∧
  s.bresp_v = 0 ∧
  s.wp_en = false ∧
  s.wp_data = 0 ∧
  s.wp_addr = 0 ∧
  s.wready_v = false ∧
  s.awready_v = false ∧
  s.rresp_v = 0 ∧
  s.rdata_v = 0 ∧
  s.arready_v = false ∧
  s.rp_addr = 0 ∧
  s.addr_v = 0 ∧
  s.fsm_state = 0 ∧
  s.bvalid_v = false ∧
  s.rvalid_v = false

/-- micro_integration.v:1115-2000: a state with these initial values; registers without one are 0. -/
def powerUp : S :=
  { allowed_cycles := 0
    height_width := 0
    bresp_v := 0
    wp_en := false
    wp_data := 0
    wp_addr := 0
    wready_v := false
    awready_v := false
    rresp_v := 0
    rdata_v := 0
    arready_v := false
    rp_addr := 0
    addr_v := 0
    fsm_state := 0
    bvalid_v := false
    rvalid_v := false }

theorem powerUp_init : Init powerUp := ⟨rfl, rfl, rfl, rfl, rfl, rfl, rfl, rfl, rfl, rfl, rfl, rfl, rfl, rfl, rfl, rfl⟩

end core_axi_lite

namespace integration_1

/-- micro_integration.v:4830-5286: registers, memories and instances of module `integration_1`. -/
structure S where
  u_core_axi_lite : core_axi_lite.S
  u_difference : MicroAxis.difference.S
  u_encode : MicroAxis.encode.S
  u_force_end : Beta.force_end.S
  u_normalize : MicroAxis.normalize.S
  u_predictor : MicroAxis.predictor.S
  u_signals : MicroAxis.signals.S

/-- micro_integration.v:5074-5090. -/
@[netlist] def encode_end_out (s : S) : Bool :=
  MicroAxis.encode.end_out s.u_encode
/-- micro_integration.v:5227-5230. -/
@[netlist] def next_end_out (s : S) : Bool :=
  (encode_end_out s)
/-- micro_integration.v:5255. -/
@[netlist] def end_out (s : S) : Bool :=
  (next_end_out s)
/-- micro_integration.v:5074-5090. -/
@[netlist] def encode_valid_out (s : S) : Bool :=
  MicroAxis.encode.valid_out s.u_encode
/-- micro_integration.v:5219-5222. -/
@[netlist] def next_valid_out (s : S) : Bool :=
  (encode_valid_out s)
/-- micro_integration.v:5256. -/
@[netlist] def valid_out (s : S) : Bool :=
  (next_valid_out s)
/-- micro_integration.v:5074-5090. -/
@[netlist] def encode_enc_ctr (s : S) : Nat :=
  MicroAxis.encode.enc_ctr s.u_encode
/-- micro_integration.v:5215-5218. -/
@[netlist] def next_enc_out_ctr (s : S) : Nat :=
  (encode_enc_ctr s)
/-- micro_integration.v:5257. -/
@[netlist] def enc_out_ctr (s : S) : Nat :=
  (next_enc_out_ctr s)
/-- micro_integration.v:5074-5090. -/
@[netlist] def encode_enc_out (s : S) : Nat :=
  MicroAxis.encode.enc_out s.u_encode
/-- micro_integration.v:5211-5214. -/
@[netlist] def next_enc_out (s : S) : Nat :=
  (encode_enc_out s)
/-- micro_integration.v:5258. -/
@[netlist] def enc_out (s : S) : Nat :=
  (next_enc_out s)
/-- micro_integration.v:5039-5061. -/
@[netlist] def core_axi_lite_wp_en (s : S) : Bool :=
  s.u_core_axi_lite.wp_en
/-- micro_integration.v:5207-5210. -/
@[netlist] def next_encode_mem_w_en (s : S) : Bool :=
  (core_axi_lite_wp_en s)
/-- micro_integration.v:5259. -/
@[netlist] def encode_mem_w_en (s : S) : Bool :=
  (next_encode_mem_w_en s)
/-- micro_integration.v:5039-5061. -/
@[netlist] def core_axi_lite_wp_data (s : S) : Nat :=
  s.u_core_axi_lite.wp_data
/-- micro_integration.v:5203-5206. -/
@[netlist] def next_encode_mem_w_data (s : S) : Nat :=
  (core_axi_lite_wp_data s)
/-- micro_integration.v:5260. -/
@[netlist] def encode_mem_w_data (s : S) : Nat :=
  (next_encode_mem_w_data s)
/-- micro_integration.v:5039-5061. -/
@[netlist] def core_axi_lite_wp_addr (s : S) : Nat :=
  s.u_core_axi_lite.wp_addr
/-- micro_integration.v:5199-5202. -/
@[netlist] def next_encode_mem_w_addr (s : S) : Nat :=
  slc (core_axi_lite_wp_addr s) 0 4
/-- micro_integration.v:5261. -/
@[netlist] def encode_mem_w_addr (s : S) : Nat :=
  (next_encode_mem_w_addr s)
/-- micro_integration.v:5039-5061. -/
@[netlist] def core_axi_lite_rp_addr (s : S) : Nat :=
  s.u_core_axi_lite.rp_addr
/-- micro_integration.v:5195-5198. -/
@[netlist] def next_encode_mem_r_addr (s : S) : Nat :=
  slc (core_axi_lite_rp_addr s) 0 4
/-- micro_integration.v:5262. -/
@[netlist] def encode_mem_r_addr (s : S) : Nat :=
  (next_encode_mem_r_addr s)
/-- micro_integration.v:5074-5090. -/
@[netlist] def encode_mem_r_data (s : S) : Nat :=
  MicroAxis.encode.mem_r_data s.u_encode
/-- micro_integration.v:5191-5194. -/
@[netlist] def next_core_axi_lite_rp_data (s : S) : Nat :=
  (encode_mem_r_data s)
/-- micro_integration.v:5263. -/
@[netlist] def core_axi_lite_rp_data (s : S) : Nat :=
  (next_core_axi_lite_rp_data s)
/-- micro_integration.v:5098-5109. -/
@[netlist] def normalize_end_out (s : S) : Bool :=
  MicroAxis.normalize.end_out s.u_normalize
/-- micro_integration.v:5187-5190. -/
@[netlist] def next_encode_end_in (s : S) : Bool :=
  (normalize_end_out s)
/-- micro_integration.v:5264. -/
@[netlist] def encode_end_in (s : S) : Bool :=
  (next_encode_end_in s)
/-- micro_integration.v:5098-5109. -/
@[netlist] def normalize_valid_out (s : S) : Bool :=
  MicroAxis.normalize.valid_out s.u_normalize
/-- micro_integration.v:5183-5186. -/
@[netlist] def next_encode_valid_in (s : S) : Bool :=
  (normalize_valid_out s)
/-- micro_integration.v:5265. -/
@[netlist] def encode_valid_in (s : S) : Bool :=
  (next_encode_valid_in s)
/-- micro_integration.v:5098-5109. -/
@[netlist] def normalize_ssss (s : S) : Nat :=
  MicroAxis.normalize.ssss s.u_normalize
/-- micro_integration.v:5175-5178. -/
@[netlist] def next_encode_ssss (s : S) : Nat :=
  (normalize_ssss s)
/-- micro_integration.v:5266. -/
@[netlist] def encode_ssss (s : S) : Nat :=
  (next_encode_ssss s)
/-- micro_integration.v:5098-5109. -/
@[netlist] def normalize_val_out (s : S) : Nat :=
  MicroAxis.normalize.val_out s.u_normalize
/-- micro_integration.v:5171-5174. -/
@[netlist] def next_encode_val_in (s : S) : Nat :=
  (normalize_val_out s)
/-- micro_integration.v:5267. -/
@[netlist] def encode_val_in (s : S) : Nat :=
  (next_encode_val_in s)
/-- micro_integration.v:5062-5073. -/
@[netlist] def difference_end_out (s : S) : Bool :=
  s.u_difference.end_out
/-- micro_integration.v:5167-5170. -/
@[netlist] def next_normalize_end_in (s : S) : Bool :=
  (difference_end_out s)
/-- micro_integration.v:5268. -/
@[netlist] def normalize_end_in (s : S) : Bool :=
  (next_normalize_end_in s)
/-- micro_integration.v:5062-5073. -/
@[netlist] def difference_valid_out (s : S) : Bool :=
  s.u_difference.valid_out
/-- micro_integration.v:5163-5166. -/
@[netlist] def next_normalize_valid_in (s : S) : Bool :=
  (difference_valid_out s)
/-- micro_integration.v:5269. -/
@[netlist] def normalize_valid_in (s : S) : Bool :=
  (next_normalize_valid_in s)
/-- micro_integration.v:5062-5073. -/
@[netlist] def difference_val_out_1 (s : S) : Nat :=
  s.u_difference.val_out_1
/-- micro_integration.v:5159-5162. -/
@[netlist] def next_normalize_vals_in_mns (s : S) : Nat :=
  (difference_val_out_1 s)
/-- micro_integration.v:5270. -/
@[netlist] def normalize_vals_in_mns (s : S) : Nat :=
  (next_normalize_vals_in_mns s)
/-- micro_integration.v:5062-5073. -/
@[netlist] def difference_val_out (s : S) : Nat :=
  s.u_difference.val_out
/-- micro_integration.v:5155-5158. -/
@[netlist] def next_normalize_val_in (s : S) : Nat :=
  (difference_val_out s)
/-- micro_integration.v:5271. -/
@[netlist] def normalize_val_in (s : S) : Nat :=
  (next_normalize_val_in s)
/-- micro_integration.v:5110-5121. -/
@[netlist] def predictor_end_out (s : S) : Bool :=
  s.u_predictor.end_out
/-- micro_integration.v:5151-5154. -/
@[netlist] def next_difference_end_in (s : S) : Bool :=
  (predictor_end_out s)
/-- micro_integration.v:5272. -/
@[netlist] def difference_end_in (s : S) : Bool :=
  (next_difference_end_in s)
/-- micro_integration.v:5110-5121. -/
@[netlist] def predictor_valid_out (s : S) : Bool :=
  s.u_predictor.valid_out
/-- micro_integration.v:5147-5150. -/
@[netlist] def next_difference_valid_in (s : S) : Bool :=
  (predictor_valid_out s)
/-- micro_integration.v:5273. -/
@[netlist] def difference_valid_in (s : S) : Bool :=
  (next_difference_valid_in s)
/-- micro_integration.v:5110-5121. -/
@[netlist] def predictor_predic_out (s : S) : Nat :=
  s.u_predictor.predic_out
/-- micro_integration.v:5143-5146. -/
@[netlist] def next_difference_predic_in (s : S) : Nat :=
  (predictor_predic_out s)
/-- micro_integration.v:5274. -/
@[netlist] def difference_predic_in (s : S) : Nat :=
  (next_difference_predic_in s)
/-- micro_integration.v:5110-5121. -/
@[netlist] def predictor_pixel_out (s : S) : Nat :=
  s.u_predictor.pixel_out
/-- micro_integration.v:5139-5142. -/
@[netlist] def next_difference_pixel_in (s : S) : Nat :=
  (predictor_pixel_out s)
/-- micro_integration.v:5275. -/
@[netlist] def difference_pixel_in (s : S) : Nat :=
  (next_difference_pixel_in s)
/-- micro_integration.v:5251-5254. -/
@[netlist] def next_predictor_valid_in (s : S) (valid_in : Bool) : Bool :=
  valid_in
/-- micro_integration.v:5276. -/
@[netlist] def predictor_valid_in (s : S) (valid_in : Bool) : Bool :=
  (next_predictor_valid_in s valid_in)
/-- micro_integration.v:5122-5130. -/
@[netlist] def end_of_frame (s : S) : Bool :=
  s.u_signals.end_of_frame
/-- micro_integration.v:5247-5250. -/
@[netlist] def next_predictor_end_in (s : S) : Bool :=
  (end_of_frame s)
/-- micro_integration.v:5277. -/
@[netlist] def predictor_end_in (s : S) : Bool :=
  (next_predictor_end_in s)
/-- micro_integration.v:5122-5130. -/
@[netlist] def signals_new_row (s : S) : Bool :=
  s.u_signals.new_row
/-- micro_integration.v:5243-5246. -/
@[netlist] def next_predictor_new_row (s : S) : Bool :=
  (signals_new_row s)
/-- micro_integration.v:5278. -/
@[netlist] def predictor_new_row (s : S) : Bool :=
  (next_predictor_new_row s)
/-- micro_integration.v:5239-5242. -/
@[netlist] def next_predictor_pixel_in (s : S) (pixel_in : Nat) : Nat :=
  pixel_in
/-- micro_integration.v:5279. -/
@[netlist] def predictor_pixel_in (s : S) (pixel_in : Nat) : Nat :=
  (next_predictor_pixel_in s pixel_in)
/-- micro_integration.v:5235-5238. -/
@[netlist] def next_signals_new_input (s : S) (valid_in : Bool) : Bool :=
  valid_in
/-- micro_integration.v:5280. -/
@[netlist] def signals_new_input (s : S) (valid_in : Bool) : Bool :=
  (next_signals_new_input s valid_in)
/-- micro_integration.v:5091-5097. -/
@[netlist] def force_end_fend (s : S) : Bool :=
  s.u_force_end.fend
/-- micro_integration.v:5231-5234. -/
@[netlist] def next_fend_out (s : S) : Bool :=
  (force_end_fend s)
/-- micro_integration.v:5281. -/
@[netlist] def fend_out (s : S) : Bool :=
  (next_fend_out s)
/-- micro_integration.v:5223-5226. -/
@[netlist] def next_force_end_valid_in (s : S) (valid_in : Bool) : Bool :=
  valid_in
/-- micro_integration.v:5282. -/
@[netlist] def force_end_valid_in (s : S) (valid_in : Bool) : Bool :=
  (next_force_end_valid_in s valid_in)
/-- micro_integration.v:5039-5061. -/
@[netlist] def core_axi_lite_allowed_cycles (s : S) : Nat :=
  s.u_core_axi_lite.allowed_cycles
/-- micro_integration.v:5179-5182. -/
@[netlist] def next_force_end_allowed_cycles (s : S) : Nat :=
  (core_axi_lite_allowed_cycles s)
/-- micro_integration.v:5283. -/
@[netlist] def force_end_allowed_cycles (s : S) : Nat :=
  (next_force_end_allowed_cycles s)
/-- micro_integration.v:5039-5061. -/
@[netlist] def core_axi_lite_width (s : S) : Nat :=
  core_axi_lite.width s.u_core_axi_lite
/-- micro_integration.v:5135-5138. -/
@[netlist] def next_signals_width (s : S) : Nat :=
  (core_axi_lite_width s)
/-- micro_integration.v:5284. -/
@[netlist] def signals_width (s : S) : Nat :=
  (next_signals_width s)
/-- micro_integration.v:5039-5061. -/
@[netlist] def core_axi_lite_height (s : S) : Nat :=
  core_axi_lite.height s.u_core_axi_lite
/-- micro_integration.v:5131-5134. -/
@[netlist] def next_signals_height (s : S) : Nat :=
  (core_axi_lite_height s)
/-- micro_integration.v:5285. -/
@[netlist] def signals_height (s : S) : Nat :=
  (next_signals_height s)

/-- micro_integration.v:4830-5286: one rising clock edge (`always @(posedge ...)`). -/
@[netlist] def step (s : S) (pixel_in : Nat) (rst : Bool) (s_axi_ri__arvalid : Bool) (s_axi_wi__awvalid : Bool) (s_axi_ri__araddr : Nat) (s_axi_ri__rready : Bool) (s_axi_wi__awaddr : Nat) (s_axi_wi__wvalid : Bool) (s_axi_wi__wdata : Nat) (s_axi_wi__wstrb : Nat) (s_axi_wi__bready : Bool) (full_rst : Bool) (valid_in : Bool) : S :=
  { u_core_axi_lite := core_axi_lite.step s.u_core_axi_lite s_axi_ri__arvalid s_axi_wi__awvalid s_axi_ri__araddr s_axi_ri__rready s_axi_wi__awaddr s_axi_wi__wvalid s_axi_wi__wdata s_axi_wi__wstrb s_axi_wi__bready full_rst rst (core_axi_lite_rp_data s)
    u_difference := MicroAxis.difference.step s.u_difference (difference_pixel_in s) (difference_predic_in s) (difference_end_in s) rst (difference_valid_in s)
    u_encode := MicroAxis.encode.step s.u_encode (encode_end_in s) (encode_valid_in s) (encode_ssss s) rst (encode_mem_r_addr s) (encode_mem_w_en s) (encode_mem_w_addr s) (encode_mem_w_data s) (encode_val_in s)
    u_force_end := Beta.force_end.step s.u_force_end (force_end_allowed_cycles s) rst (force_end_valid_in s valid_in)
    u_normalize := MicroAxis.normalize.step s.u_normalize (normalize_valid_in s) (normalize_end_in s) (normalize_vals_in_mns s) rst (normalize_val_in s)
    u_predictor := MicroAxis.predictor.step s.u_predictor (predictor_new_row s) (predictor_pixel_in s pixel_in) (predictor_end_in s) rst (predictor_valid_in s valid_in)
    u_signals := MicroAxis.signals.step s.u_signals (signals_width s) (signals_height s) rst (signals_new_input s valid_in) }

/-- micro_integration.v:4830-5286: the initial values given in the netlist. -/
def Init (s : S) : Prop :=
  core_axi_lite.Init s.u_core_axi_lite ∧
  MicroAxis.difference.Init s.u_difference ∧
  MicroAxis.encode.Init s.u_encode ∧
  Beta.force_end.Init s.u_force_end ∧
  MicroAxis.normalize.Init s.u_normalize ∧
  MicroAxis.predictor.Init s.u_predictor ∧
  MicroAxis.signals.Init s.u_signals

/-- micro_integration.v:4830-5286: a state with these initial values; registers without one are 0. -/
def powerUp : S :=
  { u_core_axi_lite := core_axi_lite.powerUp
    u_difference := MicroAxis.difference.powerUp
    u_encode := MicroAxis.encode.powerUp
    u_force_end := Beta.force_end.powerUp
    u_normalize := MicroAxis.normalize.powerUp
    u_predictor := MicroAxis.predictor.powerUp
    u_signals := MicroAxis.signals.powerUp }

theorem powerUp_init : Init powerUp := ⟨core_axi_lite.powerUp_init, MicroAxis.difference.powerUp_init, MicroAxis.encode.powerUp_init, Beta.force_end.powerUp_init, MicroAxis.normalize.powerUp_init, MicroAxis.predictor.powerUp_init, MicroAxis.signals.powerUp_init⟩

end integration_1

namespace integration_2

/-- micro_integration.v:5290-5768: registers, memories and instances of module `integration_2`. -/
structure S where
  nready_reset : Bool
  nready_reset_counter : Nat
  nready_end_reg : Bool
  nready_end : Bool
  u_converter : MicroAxis.converter.S
  u_converter_fifo : MicroAxis.converter_fifo.S
  u_integration_1 : integration_1.S
  u_lj92_pipeline_fifo : MicroAxis.lj92_pipeline_fifo.S

/-- micro_integration.v:5568-5590. -/
@[netlist] def integration_1_end_of_frame (s : S) : Bool :=
  integration_1.end_of_frame s.u_integration_1
/-- micro_integration.v:5512. -/
@[netlist] def w1 (s : S) : Bool :=
  (integration_1_end_of_frame s) == true
/-- micro_integration.v:5523. -/
@[netlist] def w3 (s : S) (valid_in : Bool) : Bool :=
  valid_in == true
/-- micro_integration.v:5530. -/
@[netlist] def w5 (s : S) (valid_in : Bool) : Bool :=
  (w1 s) && (w3 s valid_in)
/-- micro_integration.v:5591-5604. -/
@[netlist] def lj92_pipeline_fifo_close_full (s : S) : Bool :=
  s.u_lj92_pipeline_fifo.close_full
/-- micro_integration.v:5519. -/
@[netlist] def w32 (s : S) : Bool :=
  (lj92_pipeline_fifo_close_full s) == true
/-- micro_integration.v:5520. -/
@[netlist] def w34 (s : S) : Bool :=
  s.nready_end == true
/-- micro_integration.v:5521. -/
@[netlist] def w36 (s : S) : Bool :=
  (w32 s) || (w34 s)
/-- micro_integration.v:5522. -/
@[netlist] def w38 (s : S) : Bool :=
  s.nready_reset == false
/-- micro_integration.v:5524. -/
@[netlist] def w40 (s : S) : Bool :=
  (w36 s) || (w38 s)
/-- micro_integration.v:5723-5726. -/
@[netlist] def next_nready_signal (s : S) : Bool :=
  (w40 s)
/-- micro_integration.v:5766. -/
@[netlist] def nready_signal (s : S) : Bool :=
  (next_nready_signal s)
/-- micro_integration.v:5629-5632. -/
@[netlist] def next_nready (s : S) : Bool :=
  (nready_signal s)
/-- micro_integration.v:5759. -/
@[netlist] def nready (s : S) : Bool :=
  (next_nready s)
/-- micro_integration.v:5531. -/
@[netlist] def w7 (s : S) : Bool :=
  (nready s) == false
/-- micro_integration.v:5507. -/
@[netlist] def w9 (s : S) (valid_in : Bool) : Bool :=
  (w5 s valid_in) && (w7 s)
/-- micro_integration.v:5605-5612. -/
@[netlist] def next_nready_end_wire (s : S) (valid_in : Bool) : Bool :=
  if (w9 s valid_in) = true then true
  else false
/-- micro_integration.v:5767. -/
@[netlist] def nready_end_wire (s : S) (valid_in : Bool) : Bool :=
  (next_nready_end_wire s valid_in)
/-- micro_integration.v:5508. -/
@[netlist] def w11 (s : S) (valid_in : Bool) : Bool :=
  (nready_end_wire s valid_in) == true
/-- micro_integration.v:5509. -/
@[netlist] def w13 (s : S) : Bool :=
  s.nready_end_reg == true
/-- micro_integration.v:5510. -/
@[netlist] def w15 (s : S) (valid_in : Bool) : Bool :=
  (w11 s valid_in) || (w13 s)
/-- micro_integration.v:5511. -/
@[netlist] def w17 (s : S) : Bool :=
  (integration_1_end_of_frame s) == true
/-- micro_integration.v:5513. -/
@[netlist] def w19 (s : S) (valid_in : Bool) : Bool :=
  valid_in == true
/-- micro_integration.v:5514. -/
@[netlist] def w21 (s : S) (valid_in : Bool) : Bool :=
  (w17 s) && (w19 s valid_in)
/-- micro_integration.v:5515. -/
@[netlist] def w23 (s : S) : Bool :=
  (nready s) == false
/-- micro_integration.v:5516. -/
@[netlist] def w25 (s : S) (valid_in : Bool) : Bool :=
  (w21 s valid_in) && (w23 s)
/-- micro_integration.v:5517. -/
@[netlist] def w28 (s : S) : Nat :=
  (s.nready_reset_counter + 1) % 2 ^ 4
/-- micro_integration.v:5518. -/
@[netlist] def w30 (s : S) : Bool :=
  s.nready_reset_counter == 7
/-- micro_integration.v:5525. -/
@[netlist] def w42 (s : S) (valid_in : Bool) : Bool :=
  valid_in == true
/-- micro_integration.v:5526. -/
@[netlist] def w44 (s : S) : Bool :=
  (nready_signal s) == false
/-- micro_integration.v:5527. -/
@[netlist] def w46 (s : S) (valid_in : Bool) : Bool :=
  (w42 s valid_in) && (w44 s)
/-- micro_integration.v:5554-5567. -/
@[netlist] def converter_fifo_enc_out (s : S) : Nat :=
  MicroAxis.converter_fifo.enc_out s.u_converter_fifo
/-- micro_integration.v:5528. -/
@[netlist] def w48 (s : S) : Nat :=
  (converter_fifo_enc_out s)
/-- micro_integration.v:5554-5567. -/
@[netlist] def converter_fifo_enc_out_ctr (s : S) : Nat :=
  MicroAxis.converter_fifo.enc_out_ctr s.u_converter_fifo
/-- micro_integration.v:5529. -/
@[netlist] def w50 (s : S) : Nat :=
  (converter_fifo_enc_out_ctr s)
/-- micro_integration.v:5743. -/
@[netlist] def w27 (s : S) : Nat :=
  (w28 s)
/-- micro_integration.v:5700-5703. -/
@[netlist] def next_converter_fifo_latch_output (s : S) (latch_output : Bool) : Bool :=
  latch_output
/-- micro_integration.v:5744. -/
@[netlist] def converter_fifo_latch_output (s : S) (latch_output : Bool) : Bool :=
  (next_converter_fifo_latch_output s latch_output)
/-- micro_integration.v:5554-5567. -/
@[netlist] def converter_fifo_out_end (s : S) : Bool :=
  MicroAxis.converter_fifo.out_end s.u_converter_fifo
/-- micro_integration.v:5696-5699. -/
@[netlist] def next_out_end (s : S) : Bool :=
  (converter_fifo_out_end s)
/-- micro_integration.v:5745. -/
@[netlist] def out_end (s : S) : Bool :=
  (next_out_end s)
/-- micro_integration.v:5554-5567. -/
@[netlist] def converter_fifo_valid_out (s : S) : Bool :=
  MicroAxis.converter_fifo.valid_out s.u_converter_fifo
/-- micro_integration.v:5692-5695. -/
@[netlist] def next_valid_out (s : S) : Bool :=
  (converter_fifo_valid_out s)
/-- micro_integration.v:5746. -/
@[netlist] def valid_out (s : S) : Bool :=
  (next_valid_out s)
/-- micro_integration.v:5688-5691. -/
@[netlist] def next_enc_out_ctr (s : S) : Nat :=
  (w50 s)
/-- micro_integration.v:5747. -/
@[netlist] def enc_out_ctr (s : S) : Nat :=
  (next_enc_out_ctr s)
/-- micro_integration.v:5684-5687. -/
@[netlist] def next_enc_out (s : S) : Nat :=
  (w48 s)
/-- micro_integration.v:5748. -/
@[netlist] def enc_out (s : S) : Nat :=
  (next_enc_out s)
/-- micro_integration.v:5554-5567. -/
@[netlist] def converter_fifo_close_full (s : S) : Bool :=
  s.u_converter_fifo.close_full
/-- micro_integration.v:5680-5683. -/
@[netlist] def next_converter_close_full (s : S) : Bool :=
  (converter_fifo_close_full s)
/-- micro_integration.v:5749. -/
@[netlist] def converter_close_full (s : S) : Bool :=
  (next_converter_close_full s)
/-- micro_integration.v:5540-5553. -/
@[netlist] def converter_valid_in (s : S) : Bool :=
  s.u_converter.valid_in
/-- micro_integration.v:5676-5679. -/
@[netlist] def next_converter_fifo_valid_in (s : S) : Bool :=
  (converter_valid_in s)
/-- micro_integration.v:5750. -/
@[netlist] def converter_fifo_valid_in (s : S) : Bool :=
  (next_converter_fifo_valid_in s)
/-- micro_integration.v:5540-5553. -/
@[netlist] def converter_in_end (s : S) : Bool :=
  s.u_converter.in_end
/-- micro_integration.v:5672-5675. -/
@[netlist] def next_converter_fifo_in_end (s : S) : Bool :=
  (converter_in_end s)
/-- micro_integration.v:5751. -/
@[netlist] def converter_fifo_in_end (s : S) : Bool :=
  (next_converter_fifo_in_end s)
/-- micro_integration.v:5540-5553. -/
@[netlist] def converter_enc_in_ctr (s : S) : Nat :=
  s.u_converter.enc_in_ctr
/-- micro_integration.v:5657-5660. -/
@[netlist] def next_converter_fifo_enc_in_ctr (s : S) : Nat :=
  (converter_enc_in_ctr s)
/-- micro_integration.v:5752. -/
@[netlist] def converter_fifo_enc_in_ctr (s : S) : Nat :=
  (next_converter_fifo_enc_in_ctr s)
/-- micro_integration.v:5540-5553. -/
@[netlist] def converter_enc_in (s : S) : Nat :=
  s.u_converter.enc_in
/-- micro_integration.v:5653-5656. -/
@[netlist] def next_converter_fifo_enc_in (s : S) : Nat :=
  (converter_enc_in s)
/-- micro_integration.v:5753. -/
@[netlist] def converter_fifo_enc_in (s : S) : Nat :=
  (next_converter_fifo_enc_in s)
/-- micro_integration.v:5591-5604. -/
@[netlist] def lj92_pipeline_fifo_valid_out (s : S) : Bool :=
  MicroAxis.lj92_pipeline_fifo.valid_out s.u_lj92_pipeline_fifo
/-- micro_integration.v:5649-5652. -/
@[netlist] def next_converter_valid_out (s : S) : Bool :=
  (lj92_pipeline_fifo_valid_out s)
/-- micro_integration.v:5754. -/
@[netlist] def converter_valid_out (s : S) : Bool :=
  (next_converter_valid_out s)
/-- micro_integration.v:5591-5604. -/
@[netlist] def lj92_pipeline_fifo_out_end (s : S) : Bool :=
  MicroAxis.lj92_pipeline_fifo.out_end s.u_lj92_pipeline_fifo
/-- micro_integration.v:5645-5648. -/
@[netlist] def next_converter_out_end (s : S) : Bool :=
  (lj92_pipeline_fifo_out_end s)
/-- micro_integration.v:5755. -/
@[netlist] def converter_out_end (s : S) : Bool :=
  (next_converter_out_end s)
/-- micro_integration.v:5591-5604. -/
@[netlist] def lj92_pipeline_fifo_enc_out_ctr (s : S) : Nat :=
  MicroAxis.lj92_pipeline_fifo.enc_out_ctr s.u_lj92_pipeline_fifo
/-- micro_integration.v:5641-5644. -/
@[netlist] def next_converter_enc_out_ctr (s : S) : Nat :=
  (lj92_pipeline_fifo_enc_out_ctr s)
/-- micro_integration.v:5756. -/
@[netlist] def converter_enc_out_ctr (s : S) : Nat :=
  (next_converter_enc_out_ctr s)
/-- micro_integration.v:5591-5604. -/
@[netlist] def lj92_pipeline_fifo_enc_out (s : S) : Nat :=
  MicroAxis.lj92_pipeline_fifo.enc_out s.u_lj92_pipeline_fifo
/-- micro_integration.v:5637-5640. -/
@[netlist] def next_converter_enc_out (s : S) : Nat :=
  (lj92_pipeline_fifo_enc_out s)
/-- micro_integration.v:5757. -/
@[netlist] def converter_enc_out (s : S) : Nat :=
  (next_converter_enc_out s)
/-- micro_integration.v:5540-5553. -/
@[netlist] def converter_latch_output (s : S) : Bool :=
  s.u_converter.latch_output
/-- micro_integration.v:5633-5636. -/
@[netlist] def next_lj92_pipeline_fifo_latch_output (s : S) : Bool :=
  (converter_latch_output s)
/-- micro_integration.v:5758. -/
@[netlist] def lj92_pipeline_fifo_latch_output (s : S) : Bool :=
  (next_lj92_pipeline_fifo_latch_output s)
/-- micro_integration.v:5568-5590. -/
@[netlist] def integration_1_end_out (s : S) : Bool :=
  integration_1.end_out s.u_integration_1
/-- micro_integration.v:5625-5628. -/
@[netlist] def next_lj92_pipeline_fifo_in_end (s : S) : Bool :=
  (integration_1_end_out s)
/-- micro_integration.v:5760. -/
@[netlist] def lj92_pipeline_fifo_in_end (s : S) : Bool :=
  (next_lj92_pipeline_fifo_in_end s)
/-- micro_integration.v:5568-5590. -/
@[netlist] def integration_1_valid_out (s : S) : Bool :=
  integration_1.valid_out s.u_integration_1
/-- micro_integration.v:5621-5624. -/
@[netlist] def next_lj92_pipeline_fifo_valid_in (s : S) : Bool :=
  (integration_1_valid_out s)
/-- micro_integration.v:5761. -/
@[netlist] def lj92_pipeline_fifo_valid_in (s : S) : Bool :=
  (next_lj92_pipeline_fifo_valid_in s)
/-- micro_integration.v:5568-5590. -/
@[netlist] def integration_1_enc_out_ctr (s : S) : Nat :=
  integration_1.enc_out_ctr s.u_integration_1
/-- micro_integration.v:5739-5742. -/
@[netlist] def next_lj92_pipeline_fifo_enc_in_ctr (s : S) : Nat :=
  (integration_1_enc_out_ctr s)
/-- micro_integration.v:5762. -/
@[netlist] def lj92_pipeline_fifo_enc_in_ctr (s : S) : Nat :=
  (next_lj92_pipeline_fifo_enc_in_ctr s)
/-- micro_integration.v:5568-5590. -/
@[netlist] def integration_1_enc_out (s : S) : Nat :=
  integration_1.enc_out s.u_integration_1
/-- micro_integration.v:5735-5738. -/
@[netlist] def next_lj92_pipeline_fifo_enc_in (s : S) : Nat :=
  (integration_1_enc_out s)
/-- micro_integration.v:5763. -/
@[netlist] def lj92_pipeline_fifo_enc_in (s : S) : Nat :=
  (next_lj92_pipeline_fifo_enc_in s)
/-- micro_integration.v:5731-5734. -/
@[netlist] def next_integration_1_valid_in (s : S) (valid_in : Bool) : Bool :=
  (w46 s valid_in)
/-- micro_integration.v:5764. -/
@[netlist] def integration_1_valid_in (s : S) (valid_in : Bool) : Bool :=
  (next_integration_1_valid_in s valid_in)
/-- micro_integration.v:5727-5730. -/
@[netlist] def next_integration_1_pixel_in (s : S) (pixel_in : Nat) : Nat :=
  pixel_in
/-- micro_integration.v:5765. -/
@[netlist] def integration_1_pixel_in (s : S) (pixel_in : Nat) : Nat :=
  (next_integration_1_pixel_in s pixel_in)
/-- micro_integration.v:5613-5620. -/
@[netlist] def next_nready_end (s : S) (rst : Bool) (valid_in : Bool) : Bool :=
  let e1 := (w15 s valid_in)
  if rst = true then false
  else e1
/-- micro_integration.v:5661-5671. -/
@[netlist] def next_nready_end_reg (s : S) (rst : Bool) (valid_in : Bool) : Bool :=
  let e1 := if (w25 s valid_in) = true then true
  else s.nready_end_reg
  if rst = true then false
  else e1
/-- micro_integration.v:5704-5711. -/
@[netlist] def next_nready_reset_counter (s : S) (rst : Bool) : Nat :=
  let e1 := slc (w27 s) 0 3
  if rst = true then 0
  else e1
/-- micro_integration.v:5712-5722. -/
@[netlist] def next_nready_reset (s : S) (rst : Bool) : Bool :=
  let e1 := if (w30 s) = true then true
  else s.nready_reset
  if rst = true then false
  else e1
/-- micro_integration.v:5568-5590. -/
@[netlist] def fend_out (s : S) : Bool :=
  integration_1.fend_out s.u_integration_1

/-- micro_integration.v:5290-5768: one rising clock edge (`always @(posedge ...)`). -/
@[netlist] def step (s : S) (pixel_in : Nat) (latch_output : Bool) (rst : Bool) (s_axi_ri__arvalid : Bool) (s_axi_wi__awvalid : Bool) (s_axi_ri__araddr : Nat) (s_axi_ri__rready : Bool) (s_axi_wi__awaddr : Nat) (s_axi_wi__wvalid : Bool) (s_axi_wi__wdata : Nat) (s_axi_wi__wstrb : Nat) (s_axi_wi__bready : Bool) (full_rst : Bool) (valid_in : Bool) : S :=
  { nready_reset := (next_nready_reset s rst)
    nready_reset_counter := (next_nready_reset_counter s rst)
    nready_end_reg := (next_nready_end_reg s rst valid_in)
    nready_end := (next_nready_end s rst valid_in)
    u_converter := MicroAxis.converter.step s.u_converter (converter_valid_out s) (converter_enc_out s) (converter_enc_out_ctr s) (converter_out_end s) rst (converter_close_full s)
    u_converter_fifo := MicroAxis.converter_fifo.step s.u_converter_fifo (converter_fifo_enc_in s) (converter_fifo_enc_in_ctr s) (converter_fifo_in_end s) (converter_fifo_latch_output s latch_output) rst (converter_fifo_valid_in s)
    u_integration_1 := integration_1.step s.u_integration_1 (integration_1_pixel_in s pixel_in) rst s_axi_ri__arvalid s_axi_wi__awvalid s_axi_ri__araddr s_axi_ri__rready s_axi_wi__awaddr s_axi_wi__wvalid s_axi_wi__wdata s_axi_wi__wstrb s_axi_wi__bready full_rst (integration_1_valid_in s valid_in)
    u_lj92_pipeline_fifo := MicroAxis.lj92_pipeline_fifo.step s.u_lj92_pipeline_fifo (lj92_pipeline_fifo_enc_in s) (lj92_pipeline_fifo_enc_in_ctr s) (lj92_pipeline_fifo_in_end s) (lj92_pipeline_fifo_latch_output s) rst (lj92_pipeline_fifo_valid_in s) }

/-- micro_integration.v:5290-5768: the initial values given in the netlist. -/
def Init (s : S) : Prop :=
  s.nready_reset = false ∧
  s.nready_reset_counter = 0 ∧
  s.nready_end_reg = false ∧
  s.nready_end = false ∧
  MicroAxis.converter.Init s.u_converter ∧
  MicroAxis.converter_fifo.Init s.u_converter_fifo ∧
  integration_1.Init s.u_integration_1 ∧
  MicroAxis.lj92_pipeline_fifo.Init s.u_lj92_pipeline_fifo

/-- micro_integration.v:5290-5768: a state with these initial values; registers without one are 0. -/
def powerUp : S :=
  { nready_reset := false
    nready_reset_counter := 0
    nready_end_reg := false
    nready_end := false
    u_converter := MicroAxis.converter.powerUp
    u_converter_fifo := MicroAxis.converter_fifo.powerUp
    u_integration_1 := integration_1.powerUp
    u_lj92_pipeline_fifo := MicroAxis.lj92_pipeline_fifo.powerUp }

theorem powerUp_init : Init powerUp := ⟨rfl, rfl, rfl, rfl, MicroAxis.converter.powerUp_init, MicroAxis.converter_fifo.powerUp_init, integration_1.powerUp_init, MicroAxis.lj92_pipeline_fifo.powerUp_init⟩

end integration_2

namespace integration_3

/-- micro_integration.v:5772-5970: registers, memories and instances of module `integration_3`. -/
structure S where
  u_integration_2 : integration_2.S
  u_vbits_to_cbits : MicroAxis.vbits_to_cbits.S

/-- micro_integration.v:5873-5896. -/
@[netlist] def integration_2_nready (s : S) : Bool :=
  integration_2.nready s.u_integration_2
/-- micro_integration.v:5922-5925. -/
@[netlist] def next_nready (s : S) : Bool :=
  (integration_2_nready s)
/-- micro_integration.v:5958. -/
@[netlist] def nready (s : S) : Bool :=
  (next_nready s)
/-- micro_integration.v:5897-5909. -/
@[netlist] def vbits_to_cbits_end_out (s : S) : Bool :=
  MicroAxis.vbits_to_cbits.end_out s.u_vbits_to_cbits
/-- micro_integration.v:5918-5921. -/
@[netlist] def next_end_out (s : S) : Bool :=
  (vbits_to_cbits_end_out s)
/-- micro_integration.v:5959. -/
@[netlist] def end_out (s : S) : Bool :=
  (next_end_out s)
/-- micro_integration.v:5897-5909. -/
@[netlist] def vbits_to_cbits_valid_out (s : S) : Bool :=
  MicroAxis.vbits_to_cbits.valid_out s.u_vbits_to_cbits
/-- micro_integration.v:5954-5957. -/
@[netlist] def next_valid_out (s : S) : Bool :=
  (vbits_to_cbits_valid_out s)
/-- micro_integration.v:5960. -/
@[netlist] def valid_out (s : S) : Bool :=
  (next_valid_out s)
/-- micro_integration.v:5897-5909. -/
@[netlist] def vbits_to_cbits_data_out (s : S) : Nat :=
  MicroAxis.vbits_to_cbits.data_out s.u_vbits_to_cbits
/-- micro_integration.v:5950-5953. -/
@[netlist] def next_data_out (s : S) : Nat :=
  (vbits_to_cbits_data_out s)
/-- micro_integration.v:5961. -/
@[netlist] def data_out (s : S) : Nat :=
  (next_data_out s)
/-- micro_integration.v:5946-5949. -/
@[netlist] def next_vbits_to_cbits_busy_in (s : S) (busy_in : Bool) : Bool :=
  busy_in
/-- micro_integration.v:5962. -/
@[netlist] def vbits_to_cbits_busy_in (s : S) (busy_in : Bool) : Bool :=
  (next_vbits_to_cbits_busy_in s busy_in)
/-- micro_integration.v:5873-5896. -/
@[netlist] def integration_2_valid_out (s : S) : Bool :=
  integration_2.valid_out s.u_integration_2
/-- micro_integration.v:5942-5945. -/
@[netlist] def next_vbits_to_cbits_valid_in (s : S) : Bool :=
  (integration_2_valid_out s)
/-- micro_integration.v:5963. -/
@[netlist] def vbits_to_cbits_valid_in (s : S) : Bool :=
  (next_vbits_to_cbits_valid_in s)
/-- micro_integration.v:5873-5896. -/
@[netlist] def integration_2_out_end (s : S) : Bool :=
  integration_2.out_end s.u_integration_2
/-- micro_integration.v:5938-5941. -/
@[netlist] def next_vbits_to_cbits_in_end (s : S) : Bool :=
  (integration_2_out_end s)
/-- micro_integration.v:5964. -/
@[netlist] def vbits_to_cbits_in_end (s : S) : Bool :=
  (next_vbits_to_cbits_in_end s)
/-- micro_integration.v:5873-5896. -/
@[netlist] def integration_2_enc_out_ctr (s : S) : Nat :=
  integration_2.enc_out_ctr s.u_integration_2
/-- micro_integration.v:5934-5937. -/
@[netlist] def next_vbits_to_cbits_enc_in_ctr (s : S) : Nat :=
  slc (integration_2_enc_out_ctr s) 0 4
/-- micro_integration.v:5965. -/
@[netlist] def vbits_to_cbits_enc_in_ctr (s : S) : Nat :=
  (next_vbits_to_cbits_enc_in_ctr s)
/-- micro_integration.v:5873-5896. -/
@[netlist] def integration_2_enc_out (s : S) : Nat :=
  integration_2.enc_out s.u_integration_2
/-- micro_integration.v:5930-5933. -/
@[netlist] def next_vbits_to_cbits_enc_in (s : S) : Nat :=
  slc (integration_2_enc_out s) 0 15
/-- micro_integration.v:5966. -/
@[netlist] def vbits_to_cbits_enc_in (s : S) : Nat :=
  (next_vbits_to_cbits_enc_in s)
/-- micro_integration.v:5897-5909. -/
@[netlist] def vbits_to_cbits_latch_input (s : S) : Bool :=
  MicroAxis.vbits_to_cbits.latch_input s.u_vbits_to_cbits
/-- micro_integration.v:5926-5929. -/
@[netlist] def next_integration_2_latch_output (s : S) : Bool :=
  (vbits_to_cbits_latch_input s)
/-- micro_integration.v:5967. -/
@[netlist] def integration_2_latch_output (s : S) : Bool :=
  (next_integration_2_latch_output s)
/-- micro_integration.v:5914-5917. -/
@[netlist] def next_integration_2_valid_in (s : S) (valid_in : Bool) : Bool :=
  valid_in
/-- micro_integration.v:5968. -/
@[netlist] def integration_2_valid_in (s : S) (valid_in : Bool) : Bool :=
  (next_integration_2_valid_in s valid_in)
/-- micro_integration.v:5910-5913. -/
@[netlist] def next_integration_2_pixel_in (s : S) (pixel_in : Nat) : Nat :=
  pixel_in
/-- micro_integration.v:5969. -/
@[netlist] def integration_2_pixel_in (s : S) (pixel_in : Nat) : Nat :=
  (next_integration_2_pixel_in s pixel_in)
/-- micro_integration.v:5873-5896. -/
@[netlist] def fend_out (s : S) : Bool :=
  integration_2.fend_out s.u_integration_2

/-- micro_integration.v:5772-5970: one rising clock edge (`always @(posedge ...)`). -/
@[netlist] def step (s : S) (valid_in : Bool) (busy_in : Bool) (rst : Bool) (s_axi_ri__arvalid : Bool) (s_axi_wi__awvalid : Bool) (s_axi_ri__araddr : Nat) (s_axi_ri__rready : Bool) (s_axi_wi__awaddr : Nat) (s_axi_wi__wvalid : Bool) (s_axi_wi__wdata : Nat) (s_axi_wi__wstrb : Nat) (s_axi_wi__bready : Bool) (full_rst : Bool) (pixel_in : Nat) : S :=
  { u_integration_2 := integration_2.step s.u_integration_2 (integration_2_pixel_in s pixel_in) (integration_2_latch_output s) rst s_axi_ri__arvalid s_axi_wi__awvalid s_axi_ri__araddr s_axi_ri__rready s_axi_wi__awaddr s_axi_wi__wvalid s_axi_wi__wdata s_axi_wi__wstrb s_axi_wi__bready full_rst (integration_2_valid_in s valid_in)
    u_vbits_to_cbits := MicroAxis.vbits_to_cbits.step s.u_vbits_to_cbits (vbits_to_cbits_enc_in_ctr s) (vbits_to_cbits_in_end s) (vbits_to_cbits_valid_in s) (vbits_to_cbits_busy_in s busy_in) rst (vbits_to_cbits_enc_in s) }

/-- micro_integration.v:5772-5970: the initial values given in the netlist. -/
def Init (s : S) : Prop :=
  integration_2.Init s.u_integration_2 ∧
  MicroAxis.vbits_to_cbits.Init s.u_vbits_to_cbits

/-- micro_integration.v:5772-5970: a state with these initial values; registers without one are 0. -/
def powerUp : S :=
  { u_integration_2 := integration_2.powerUp
    u_vbits_to_cbits := MicroAxis.vbits_to_cbits.powerUp }

theorem powerUp_init : Init powerUp := ⟨integration_2.powerUp_init, MicroAxis.vbits_to_cbits.powerUp_init⟩

end integration_3

namespace top

/-- micro_integration.v:7406-7762: registers, memories and instances of module `top`. -/
structure S where
  u_auto_reset : Beta.auto_reset.S
  u_fix_0xff : MicroAxis.fix_0xff.S
  u_fix_0xff2 : Beta.fix_0xff2.S
  u_integration_3 : integration_3.S
  u_markers : MicroAxis.markers.S

/-- micro_integration.v:7575-7582. -/
@[netlist] def auto_reset_reset_out (s : S) : Bool :=
  s.u_auto_reset.reset_out
/-- micro_integration.v:7571. -/
@[netlist] def w2 (s : S) : Bool :=
  (auto_reset_reset_out s) == true
/-- micro_integration.v:7572. -/
@[netlist] def w4 (s : S) (full_rst : Bool) : Bool :=
  full_rst == true
/-- micro_integration.v:7573. -/
@[netlist] def w6 (s : S) (full_rst : Bool) : Bool :=
  (w2 s) || (w4 s full_rst)
/-- micro_integration.v:7574. -/
@[netlist] def w8 (s : S) (busy_in : Bool) : Bool :=
  busy_in == false
/-- micro_integration.v:7608-7629. -/
@[netlist] def integration_3_nready (s : S) : Bool :=
  integration_3.nready s.u_integration_3
/-- micro_integration.v:7706-7709. -/
@[netlist] def next_nready (s : S) : Bool :=
  (integration_3_nready s)
/-- micro_integration.v:7738. -/
@[netlist] def nready (s : S) : Bool :=
  (next_nready s)
/-- micro_integration.v:7686-7689. -/
@[netlist] def next_markers_i_busy (s : S) (busy_in : Bool) : Bool :=
  busy_in
/-- micro_integration.v:7742. -/
@[netlist] def markers_i_busy (s : S) (busy_in : Bool) : Bool :=
  (next_markers_i_busy s busy_in)
/-- micro_integration.v:7630-7641. -/
@[netlist] def markers_end_out (s : S) (busy_in : Bool) : Bool :=
  MicroAxis.markers.end_out s.u_markers (markers_i_busy s busy_in)
/-- micro_integration.v:7702-7705. -/
@[netlist] def next_end_out (s : S) (busy_in : Bool) : Bool :=
  (markers_end_out s busy_in)
/-- micro_integration.v:7739. -/
@[netlist] def end_out (s : S) (busy_in : Bool) : Bool :=
  (next_end_out s busy_in)
/-- micro_integration.v:7595-7607. -/
@[netlist] def fix_0xff2_valid_out (s : S) : Bool :=
  s.u_fix_0xff2.valid_out
/-- micro_integration.v:7674-7677. -/
@[netlist] def next_markers_valid_in (s : S) : Bool :=
  (fix_0xff2_valid_out s)
/-- micro_integration.v:7745. -/
@[netlist] def markers_valid_in (s : S) : Bool :=
  (next_markers_valid_in s)
/-- micro_integration.v:7608-7629. -/
@[netlist] def integration_3_fend_out (s : S) : Bool :=
  integration_3.fend_out s.u_integration_3
/-- micro_integration.v:7678-7681. -/
@[netlist] def next_markers_force_end_in (s : S) : Bool :=
  (integration_3_fend_out s)
/-- micro_integration.v:7744. -/
@[netlist] def markers_force_end_in (s : S) : Bool :=
  (next_markers_force_end_in s)
/-- micro_integration.v:7630-7641. -/
@[netlist] def markers_valid_out (s : S) (busy_in : Bool) : Bool :=
  MicroAxis.markers.valid_out s.u_markers (markers_valid_in s) (markers_force_end_in s) (markers_i_busy s busy_in)
/-- micro_integration.v:7698-7701. -/
@[netlist] def next_valid_out (s : S) (busy_in : Bool) : Bool :=
  (markers_valid_out s busy_in)
/-- micro_integration.v:7740. -/
@[netlist] def valid_out (s : S) (busy_in : Bool) : Bool :=
  (next_valid_out s busy_in)
/-- micro_integration.v:7595-7607. -/
@[netlist] def fix_0xff2_data_out (s : S) : Nat :=
  s.u_fix_0xff2.data_out
/-- micro_integration.v:7670-7673. -/
@[netlist] def next_markers_data_in (s : S) : Nat :=
  (fix_0xff2_data_out s)
/-- micro_integration.v:7746. -/
@[netlist] def markers_data_in (s : S) : Nat :=
  (next_markers_data_in s)
/-- micro_integration.v:7630-7641. -/
@[netlist] def markers_data_out (s : S) (busy_in : Bool) : Nat :=
  MicroAxis.markers.data_out s.u_markers (markers_force_end_in s) (markers_data_in s) (markers_i_busy s busy_in)
/-- micro_integration.v:7694-7697. -/
@[netlist] def next_data_out (s : S) (busy_in : Bool) : Nat :=
  (markers_data_out s busy_in)
/-- micro_integration.v:7741. -/
@[netlist] def data_out (s : S) (busy_in : Bool) : Nat :=
  (next_data_out s busy_in)
/-- micro_integration.v:7595-7607. -/
@[netlist] def fix_0xff2_end_out (s : S) : Bool :=
  s.u_fix_0xff2.end_out
/-- micro_integration.v:7682-7685. -/
@[netlist] def next_markers_end_in (s : S) : Bool :=
  (fix_0xff2_end_out s)
/-- micro_integration.v:7743. -/
@[netlist] def markers_end_in (s : S) : Bool :=
  (next_markers_end_in s)
/-- micro_integration.v:7583-7594. -/
@[netlist] def fix_0xff_data_out_ctr (s : S) : Nat :=
  s.u_fix_0xff.data_out_ctr
/-- micro_integration.v:7666-7669. -/
@[netlist] def next_fix_0xff2_data_in_ctr (s : S) : Nat :=
  (fix_0xff_data_out_ctr s)
/-- micro_integration.v:7747. -/
@[netlist] def fix_0xff2_data_in_ctr (s : S) : Nat :=
  (next_fix_0xff2_data_in_ctr s)
/-- micro_integration.v:7662-7665. -/
@[netlist] def next_fix_0xff2_i_busy (s : S) (busy_in : Bool) : Bool :=
  busy_in
/-- micro_integration.v:7748. -/
@[netlist] def fix_0xff2_i_busy (s : S) (busy_in : Bool) : Bool :=
  (next_fix_0xff2_i_busy s busy_in)
/-- micro_integration.v:7583-7594. -/
@[netlist] def fix_0xff_valid_out (s : S) : Bool :=
  s.u_fix_0xff.valid_out
/-- micro_integration.v:7658-7661. -/
@[netlist] def next_fix_0xff2_valid_in (s : S) : Bool :=
  (fix_0xff_valid_out s)
/-- micro_integration.v:7749. -/
@[netlist] def fix_0xff2_valid_in (s : S) : Bool :=
  (next_fix_0xff2_valid_in s)
/-- micro_integration.v:7583-7594. -/
@[netlist] def fix_0xff_data_out (s : S) : Nat :=
  s.u_fix_0xff.data_out
/-- micro_integration.v:7654-7657. -/
@[netlist] def next_fix_0xff2_data_in (s : S) : Nat :=
  (fix_0xff_data_out s)
/-- micro_integration.v:7750. -/
@[netlist] def fix_0xff2_data_in (s : S) : Nat :=
  (next_fix_0xff2_data_in s)
/-- micro_integration.v:7595-7607. -/
@[netlist] def fix_0xff2_o_busy (s : S) : Bool :=
  s.u_fix_0xff2.o_busy
/-- micro_integration.v:7650-7653. -/
@[netlist] def next_fix_0xff_i_busy (s : S) : Bool :=
  (fix_0xff2_o_busy s)
/-- micro_integration.v:7751. -/
@[netlist] def fix_0xff_i_busy (s : S) : Bool :=
  (next_fix_0xff_i_busy s)
/-- micro_integration.v:7608-7629. -/
@[netlist] def integration_3_valid_out (s : S) : Bool :=
  integration_3.valid_out s.u_integration_3
/-- micro_integration.v:7734-7737. -/
@[netlist] def next_fix_0xff_valid_in (s : S) : Bool :=
  (integration_3_valid_out s)
/-- micro_integration.v:7752. -/
@[netlist] def fix_0xff_valid_in (s : S) : Bool :=
  (next_fix_0xff_valid_in s)
/-- micro_integration.v:7608-7629. -/
@[netlist] def integration_3_data_out (s : S) : Nat :=
  integration_3.data_out s.u_integration_3
/-- micro_integration.v:7730-7733. -/
@[netlist] def next_fix_0xff_data_in (s : S) : Nat :=
  (integration_3_data_out s)
/-- micro_integration.v:7753. -/
@[netlist] def fix_0xff_data_in (s : S) : Nat :=
  (next_fix_0xff_data_in s)
/-- micro_integration.v:7583-7594. -/
@[netlist] def fix_0xff_o_busy (s : S) : Bool :=
  s.u_fix_0xff.o_busy
/-- micro_integration.v:7726-7729. -/
@[netlist] def next_integration_3_busy_in (s : S) : Bool :=
  (fix_0xff_o_busy s)
/-- micro_integration.v:7754. -/
@[netlist] def integration_3_busy_in (s : S) : Bool :=
  (next_integration_3_busy_in s)
/-- micro_integration.v:7722-7725. -/
@[netlist] def next_integration_3_valid_in (s : S) (valid_in : Bool) : Bool :=
  valid_in
/-- micro_integration.v:7755. -/
@[netlist] def integration_3_valid_in (s : S) (valid_in : Bool) : Bool :=
  (next_integration_3_valid_in s valid_in)
/-- micro_integration.v:7718-7721. -/
@[netlist] def next_integration_3_pixel_in (s : S) (pixel_in : Nat) : Nat :=
  pixel_in
/-- micro_integration.v:7756. -/
@[netlist] def integration_3_pixel_in (s : S) (pixel_in : Nat) : Nat :=
  (next_integration_3_pixel_in s pixel_in)
/-- micro_integration.v:7714-7717. -/
@[netlist] def next_auto_reset_hs2_in (s : S) (busy_in : Bool) : Bool :=
  (w8 s busy_in)
/-- micro_integration.v:7757. -/
@[netlist] def auto_reset_hs2_in (s : S) (busy_in : Bool) : Bool :=
  (next_auto_reset_hs2_in s busy_in)
/-- micro_integration.v:7710-7713. -/
@[netlist] def next_auto_reset_hs1_in (s : S) (busy_in : Bool) : Bool :=
  (valid_out s busy_in)
/-- micro_integration.v:7758. -/
@[netlist] def auto_reset_hs1_in (s : S) (busy_in : Bool) : Bool :=
  (next_auto_reset_hs1_in s busy_in)
/-- micro_integration.v:7690-7693. -/
@[netlist] def next_auto_reset_end_in (s : S) (busy_in : Bool) : Bool :=
  (end_out s busy_in)
/-- micro_integration.v:7759. -/
@[netlist] def auto_reset_end_in (s : S) (busy_in : Bool) : Bool :=
  (next_auto_reset_end_in s busy_in)
/-- micro_integration.v:7646-7649. -/
@[netlist] def next_integration_3_rst (s : S) (full_rst : Bool) : Bool :=
  (w6 s full_rst)
/-- micro_integration.v:7760. -/
@[netlist] def integration_3_rst (s : S) (full_rst : Bool) : Bool :=
  (next_integration_3_rst s full_rst)

/-- micro_integration.v:7406-7762: one rising clock edge (`always @(posedge ...)`). -/
@[netlist] def step (s : S) (full_rst : Bool) (busy_in : Bool) (pixel_in : Nat) (valid_in : Bool) (s_axi_ri__arvalid : Bool) (s_axi_wi__awvalid : Bool) (s_axi_ri__araddr : Nat) (s_axi_ri__rready : Bool) (s_axi_wi__awaddr : Nat) (s_axi_wi__wvalid : Bool) (s_axi_wi__wdata : Nat) (s_axi_wi__wstrb : Nat) (s_axi_wi__bready : Bool) (end_in : Bool) (end_in_1 : Bool) : S :=
  { u_auto_reset := Beta.auto_reset.step s.u_auto_reset (auto_reset_hs2_in s busy_in) (auto_reset_end_in s busy_in) (integration_3_rst s full_rst) (auto_reset_hs1_in s busy_in)
    u_fix_0xff := MicroAxis.fix_0xff.step s.u_fix_0xff (fix_0xff_valid_in s) end_in (fix_0xff_data_in s) (integration_3_rst s full_rst) (fix_0xff_i_busy s)
    u_fix_0xff2 := Beta.fix_0xff2.step s.u_fix_0xff2 (fix_0xff2_valid_in s) (fix_0xff2_data_in_ctr s) (fix_0xff2_data_in s) end_in_1 (integration_3_rst s full_rst) (fix_0xff2_i_busy s busy_in)
    u_integration_3 := integration_3.step s.u_integration_3 (integration_3_valid_in s valid_in) (integration_3_busy_in s) (integration_3_rst s full_rst) s_axi_ri__arvalid s_axi_wi__awvalid s_axi_ri__araddr s_axi_ri__rready s_axi_wi__awaddr s_axi_wi__wvalid s_axi_wi__wdata s_axi_wi__wstrb s_axi_wi__bready full_rst (integration_3_pixel_in s pixel_in)
    u_markers := MicroAxis.markers.step s.u_markers (markers_valid_in s) (markers_end_in s) (markers_force_end_in s) (markers_data_in s) (integration_3_rst s full_rst) (markers_i_busy s busy_in) }

/-- micro_integration.v:7406-7762: the initial values given in the netlist. -/
def Init (s : S) : Prop :=
  Beta.auto_reset.Init s.u_auto_reset ∧
  MicroAxis.fix_0xff.Init s.u_fix_0xff ∧
  Beta.fix_0xff2.Init s.u_fix_0xff2 ∧
  integration_3.Init s.u_integration_3 ∧
  MicroAxis.markers.Init s.u_markers

/-- micro_integration.v:7406-7762: a state with these initial values; registers without one are 0. -/
def powerUp : S :=
  { u_auto_reset := Beta.auto_reset.powerUp
    u_fix_0xff := MicroAxis.fix_0xff.powerUp
    u_fix_0xff2 := Beta.fix_0xff2.powerUp
    u_integration_3 := integration_3.powerUp
    u_markers := MicroAxis.markers.powerUp }

theorem powerUp_init : Init powerUp := ⟨Beta.auto_reset.powerUp_init, MicroAxis.fix_0xff.powerUp_init, Beta.fix_0xff2.powerUp_init, integration_3.powerUp_init, MicroAxis.markers.powerUp_init⟩

end top

end Netlist.Micro
