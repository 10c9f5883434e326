/- Generated by netlist/v2lean.py from verilog_src/integration_1.v.  Do not edit. -/
import Verif.Netlist.Beta

set_option autoImplicit false
set_option linter.unusedVariables false

namespace Netlist.I1
open Netlist

namespace core_axi_lite

/-- integration_1.v:1094-1986: registers, memories and instances of module `core_axi_lite`. -/
structure S where
  wready_v : Bool
  awready_v : Bool
  rresp_v : Nat
  rdata_v : Nat
  arready_v : Bool
  rp_addr : Nat
  addr_v : Nat
  fsm_state : Nat
  bvalid_v : Bool
  rvalid_v : Bool
  allowed_cycles : Nat
  height_width : Nat
  bresp_v : Nat
  wp_en : Bool
  wp_data : Nat
  wp_addr : Nat

/-- integration_1.v:1938-1941. -/
@[netlist] def next_hw_enable (s : S) : Bool :=
  s.addr_v.testBit 11
/-- integration_1.v:1981. -/
@[netlist] def hw_enable (s : S) : Bool :=
  (next_hw_enable s)
/-- integration_1.v:1351. -/
@[netlist] def w9 (s : S) : Bool :=
  (hw_enable s) == true
/-- integration_1.v:1954-1957. -/
@[netlist] def next_hw_index (s : S) : Bool :=
  s.addr_v.testBit 0
/-- integration_1.v:1977. -/
@[netlist] def hw_index (s : S) : Bool :=
  (next_hw_index s)
/-- integration_1.v:1352. -/
@[netlist] def w100 (s : S) : Bool :=
  (hw_index s) == false
/-- integration_1.v:1353. -/
@[netlist] def w102 (s : S) : Bool :=
  (hw_index s) == false
/-- integration_1.v:1354. -/
@[netlist] def w104 (s : S) : Bool :=
  (hw_index s) == false
/-- integration_1.v:1906-1909. -/
@[netlist] def next_ssss_enable (s : S) : Bool :=
  s.addr_v.testBit 10
/-- integration_1.v:1982. -/
@[netlist] def ssss_enable (s : S) : Bool :=
  (next_ssss_enable s)
/-- integration_1.v:1355. -/
@[netlist] def w106 (s : S) : Bool :=
  (ssss_enable s) == true
/-- integration_1.v:1946-1949. -/
@[netlist] def next_ssss_index (s : S) : Nat :=
  slc s.addr_v 0 6
/-- integration_1.v:1979. -/
@[netlist] def ssss_index (s : S) : Nat :=
  (next_ssss_index s)
/-- integration_1.v:1356. -/
@[netlist] def w108 (s : S) : Bool :=
  decide ((ssss_index s) < 26)
/-- integration_1.v:1357. -/
@[netlist] def w110 (s : S) : Bool :=
  (w106 s) && (w108 s)
/-- integration_1.v:1358. -/
@[netlist] def w112 (s : S) : Bool :=
  (hw_enable s) == true
/-- integration_1.v:1359. -/
@[netlist] def w114 (s : S) : Bool :=
  (hw_index s) == false
/-- integration_1.v:1360. -/
@[netlist] def w116 (s : S) : Bool :=
  (hw_index s) == false
/-- integration_1.v:1361. -/
@[netlist] def w118 (s : S) : Bool :=
  (hw_index s) == false
/-- integration_1.v:1362. -/
@[netlist] def w11 (s : S) : Bool :=
  ((ssss_index s).testBit 0) == false
/-- integration_1.v:1363. -/
@[netlist] def w13 (s : S) : Nat :=
  0
/-- integration_1.v:1364. -/
@[netlist] def w15 (s : S) : Nat :=
  0
/-- integration_1.v:1365. -/
@[netlist] def w17 (s : S) : Nat :=
  0
/-- integration_1.v:1366. -/
@[netlist] def w1 (s : S) (rp_data : Nat) : Nat :=
  rp_data
/-- integration_1.v:1367. -/
@[netlist] def w19 (s : S) : Nat :=
  0
/-- integration_1.v:1368. -/
@[netlist] def w21 (s : S) (s_axi_ri__araddr : Nat) : Nat :=
  s_axi_ri__araddr / 2 ^ 2
/-- integration_1.v:1369. -/
@[netlist] def w23 (s : S) (s_axi_wi__awaddr : Nat) : Nat :=
  s_axi_wi__awaddr / 2 ^ 2
/-- integration_1.v:1370. -/
@[netlist] def w26 (s : S) (s_axi_ri__araddr : Nat) : Nat :=
  s_axi_ri__araddr / 2 ^ 3
/-- integration_1.v:1371. -/
@[netlist] def w29 (s : S) (s_axi_wi__awaddr : Nat) : Nat :=
  s_axi_wi__awaddr / 2 ^ 3
/-- integration_1.v:1372. -/
@[netlist] def w31 (s : S) : Bool :=
  (ssss_enable s) == true
/-- integration_1.v:1373. -/
@[netlist] def w33 (s : S) : Bool :=
  decide ((ssss_index s) < 26)
/-- integration_1.v:1374. -/
@[netlist] def w35 (s : S) : Bool :=
  (w31 s) && (w33 s)
/-- integration_1.v:1375. -/
@[netlist] def w37 (s : S) : Bool :=
  (hw_enable s) == true
/-- integration_1.v:1376. -/
@[netlist] def w3 (s : S) : Bool :=
  (ssss_enable s) == true
/-- integration_1.v:1377. -/
@[netlist] def w39 (s : S) : Bool :=
  ((ssss_index s).testBit 0) == false
/-- integration_1.v:1378. -/
@[netlist] def w41 (s : S) : Bool :=
  (hw_index s) == false
/-- integration_1.v:1379. -/
@[netlist] def w43 (s : S) : Nat :=
  s.allowed_cycles
/-- integration_1.v:1380. -/
@[netlist] def w45 (s : S) : Bool :=
  (ssss_enable s) == true
/-- integration_1.v:1381. -/
@[netlist] def w47 (s : S) : Bool :=
  decide ((ssss_index s) < 26)
/-- integration_1.v:1382. -/
@[netlist] def w49 (s : S) : Bool :=
  (w45 s) && (w47 s)
/-- integration_1.v:1383. -/
@[netlist] def w51 (s : S) : Bool :=
  (hw_enable s) == true
/-- integration_1.v:1384. -/
@[netlist] def w53 (s : S) : Bool :=
  (hw_index s) == false
/-- integration_1.v:1385. -/
@[netlist] def w55 (s : S) : Bool :=
  (ssss_enable s) == true
/-- integration_1.v:1386. -/
@[netlist] def w57 (s : S) : Bool :=
  decide ((ssss_index s) < 26)
/-- integration_1.v:1387. -/
@[netlist] def w5 (s : S) : Bool :=
  decide ((ssss_index s) < 26)
/-- integration_1.v:1388. -/
@[netlist] def w59 (s : S) : Bool :=
  (w55 s) && (w57 s)
/-- integration_1.v:1389. -/
@[netlist] def w61 (s : S) : Bool :=
  (hw_enable s) == true
/-- integration_1.v:1390. -/
@[netlist] def w64 (s : S) : Nat :=
  (ssss_index s) / 2 ^ 1
/-- integration_1.v:1391. -/
@[netlist] def w66 (s : S) : Bool :=
  (ssss_enable s) == true
/-- integration_1.v:1392. -/
@[netlist] def w68 (s : S) : Bool :=
  decide ((ssss_index s) < 26)
/-- integration_1.v:1393. -/
@[netlist] def w70 (s : S) : Bool :=
  (w66 s) && (w68 s)
/-- integration_1.v:1394. -/
@[netlist] def w72 (s : S) : Bool :=
  (hw_enable s) == true
/-- integration_1.v:1395. -/
@[netlist] def w74 (s : S) : Bool :=
  (ssss_enable s) == true
/-- integration_1.v:1396. -/
@[netlist] def w76 (s : S) : Bool :=
  decide ((ssss_index s) < 26)
/-- integration_1.v:1397. -/
@[netlist] def w78 (s : S) : Bool :=
  (w74 s) && (w76 s)
/-- integration_1.v:1398. -/
@[netlist] def w7 (s : S) : Bool :=
  (w3 s) && (w5 s)
/-- integration_1.v:1399. -/
@[netlist] def w80 (s : S) : Bool :=
  (hw_enable s) == true
/-- integration_1.v:1400. -/
@[netlist] def w82 (s : S) : Bool :=
  (ssss_enable s) == true
/-- integration_1.v:1401. -/
@[netlist] def w84 (s : S) : Bool :=
  decide ((ssss_index s) < 26)
/-- integration_1.v:1402. -/
@[netlist] def w86 (s : S) : Bool :=
  (w82 s) && (w84 s)
/-- integration_1.v:1403. -/
@[netlist] def w88 (s : S) : Bool :=
  (hw_enable s) == true
/-- integration_1.v:1404. -/
@[netlist] def w90 (s : S) : Bool :=
  (ssss_enable s) == true
/-- integration_1.v:1405. -/
@[netlist] def w92 (s : S) : Bool :=
  decide ((ssss_index s) < 26)
/-- integration_1.v:1406. -/
@[netlist] def w94 (s : S) : Bool :=
  (w90 s) && (w92 s)
/-- integration_1.v:1407. -/
@[netlist] def w96 (s : S) : Bool :=
  (hw_enable s) == true
/-- integration_1.v:1408. -/
@[netlist] def w98 (s : S) : Bool :=
  (hw_index s) == false
/-- integration_1.v:1962. -/
@[netlist] def w25 (s : S) (s_axi_ri__araddr : Nat) : Nat :=
  (w26 s s_axi_ri__araddr)
/-- integration_1.v:1963. -/
@[netlist] def w28 (s : S) (s_axi_wi__awaddr : Nat) : Nat :=
  (w29 s s_axi_wi__awaddr)
/-- integration_1.v:1964. -/
@[netlist] def w63 (s : S) : Nat :=
  (w64 s)
/-- integration_1.v:1934-1937. -/
@[netlist] def next_width (s : S) : Nat :=
  slc s.height_width 16 16
/-- integration_1.v:1965. -/
@[netlist] def width (s : S) : Nat :=
  (next_width s)
/-- integration_1.v:1930-1933. -/
@[netlist] def next_height (s : S) : Nat :=
  slc s.height_width 0 16
/-- integration_1.v:1966. -/
@[netlist] def height (s : S) : Nat :=
  (next_height s)
/-- integration_1.v:1926-1929. -/
@[netlist] def next_s_axi_wo__bresp (s : S) : Nat :=
  s.bresp_v
/-- integration_1.v:1967. -/
@[netlist] def s_axi_wo__bresp (s : S) : Nat :=
  (next_s_axi_wo__bresp s)
/-- integration_1.v:1922-1925. -/
@[netlist] def next_s_axi_ro__rresp (s : S) : Nat :=
  s.rresp_v
/-- integration_1.v:1968. -/
@[netlist] def s_axi_ro__rresp (s : S) : Nat :=
  (next_s_axi_ro__rresp s)
/-- integration_1.v:1918-1921. -/
@[netlist] def next_s_axi_ro__rdata (s : S) : Nat :=
  s.rdata_v
/-- integration_1.v:1969. -/
@[netlist] def s_axi_ro__rdata (s : S) : Nat :=
  (next_s_axi_ro__rdata s)
/-- integration_1.v:1914-1917. -/
@[netlist] def next_s_axi_wo__bvalid (s : S) : Bool :=
  s.bvalid_v
/-- integration_1.v:1970. -/
@[netlist] def s_axi_wo__bvalid (s : S) : Bool :=
  (next_s_axi_wo__bvalid s)
/-- integration_1.v:1910-1913. -/
@[netlist] def next_s_axi_wo__wready (s : S) : Bool :=
  s.wready_v
/-- integration_1.v:1971. -/
@[netlist] def s_axi_wo__wready (s : S) : Bool :=
  (next_s_axi_wo__wready s)
/-- integration_1.v:1902-1905. -/
@[netlist] def next_s_axi_wo__awready (s : S) : Bool :=
  s.awready_v
/-- integration_1.v:1972. -/
@[netlist] def s_axi_wo__awready (s : S) : Bool :=
  (next_s_axi_wo__awready s)
/-- integration_1.v:1898-1901. -/
@[netlist] def next_s_axi_ro__rvalid (s : S) : Bool :=
  s.rvalid_v
/-- integration_1.v:1973. -/
@[netlist] def s_axi_ro__rvalid (s : S) : Bool :=
  (next_s_axi_ro__rvalid s)
/-- integration_1.v:1894-1897. -/
@[netlist] def next_s_axi_ro__arready (s : S) : Bool :=
  s.arready_v
/-- integration_1.v:1974. -/
@[netlist] def s_axi_ro__arready (s : S) : Bool :=
  (next_s_axi_ro__arready s)
/-- integration_1.v:1701-1711. -/
@[netlist] def next_wstrb_v (s : S) (s_axi_wi__wvalid : Bool) (s_axi_wi__wstrb : Nat) : Nat :=
  if s.fsm_state = 8 then (if s_axi_wi__wvalid = true then s_axi_wi__wstrb
    else 0)
  else 0
/-- integration_1.v:1983. -/
@[netlist] def wstrb_v (s : S) (s_axi_wi__wvalid : Bool) (s_axi_wi__wstrb : Nat) : Nat :=
  (next_wstrb_v s s_axi_wi__wvalid s_axi_wi__wstrb)
/-- integration_1.v:1445-1455. -/
@[netlist] def next_wdata_v (s : S) (s_axi_wi__wvalid : Bool) (s_axi_wi__wdata : Nat) : Nat :=
  if s.fsm_state = 8 then (if s_axi_wi__wvalid = true then s_axi_wi__wdata
    else 0)
  else 0
/-- integration_1.v:1984. -/
@[netlist] def wdata_v (s : S) (s_axi_wi__wvalid : Bool) (s_axi_wi__wdata : Nat) : Nat :=
  (next_wdata_v s s_axi_wi__wvalid s_axi_wi__wdata)
/-- integration_1.v:1958-1961. -/
@[netlist] def next_rp_data64 (s : S) (rp_data : Nat) : Nat :=
  (w1 s rp_data)
/-- integration_1.v:1976. -/
@[netlist] def rp_data64 (s : S) (rp_data : Nat) : Nat :=
  (next_rp_data64 s rp_data)
/-- integration_1.v:1456-1524. -/
@[netlist] def next_rp_data64_in (s : S) (rp_data : Nat) (s_axi_wi__wvalid : Bool) (s_axi_wi__wdata : Nat) (s_axi_wi__wstrb : Nat) : Nat :=
  if s.fsm_state = 8 then (if s_axi_wi__wvalid = true then (if (w7 s) = true then (if (w11 s) = true then (
          let e1 := if ((wstrb_v s s_axi_wi__wvalid s_axi_wi__wstrb).testBit 0) = true then put 0 0 8 (slc (wdata_v s s_axi_wi__wvalid s_axi_wi__wdata) 0 8)
          else put 0 0 8 (slc (rp_data64 s rp_data) 0 8)
          let e2 := if ((wstrb_v s s_axi_wi__wvalid s_axi_wi__wstrb).testBit 1) = true then put e1 8 8 (slc (wdata_v s s_axi_wi__wvalid s_axi_wi__wdata) 8 8)
          else put e1 8 8 (slc (rp_data64 s rp_data) 8 8)
          let e3 := if ((wstrb_v s s_axi_wi__wvalid s_axi_wi__wstrb).testBit 2) = true then put e2 16 8 (slc (wdata_v s s_axi_wi__wvalid s_axi_wi__wdata) 16 8)
          else put e2 16 8 (slc (rp_data64 s rp_data) 16 8)
          if ((wstrb_v s s_axi_wi__wvalid s_axi_wi__wstrb).testBit 3) = true then put e3 24 8 (slc (wdata_v s s_axi_wi__wvalid s_axi_wi__wdata) 24 8)
          else put e3 24 8 (slc (rp_data64 s rp_data) 24 8))
        else (
          let e4 := if ((wstrb_v s s_axi_wi__wvalid s_axi_wi__wstrb).testBit 0) = true then put 0 32 8 (w13 s)
          else put 0 32 8 (slc (rp_data64 s rp_data) 32 8)
          let e5 := if ((wstrb_v s s_axi_wi__wvalid s_axi_wi__wstrb).testBit 1) = true then put e4 40 8 (w15 s)
          else put e4 40 8 (slc (rp_data64 s rp_data) 40 8)
          let e6 := if ((wstrb_v s s_axi_wi__wvalid s_axi_wi__wstrb).testBit 2) = true then put e5 48 8 (w17 s)
          else put e5 48 8 (slc (rp_data64 s rp_data) 48 8)
          if ((wstrb_v s s_axi_wi__wvalid s_axi_wi__wstrb).testBit 3) = true then put e6 56 8 (w19 s)
          else put e6 56 8 (slc (rp_data64 s rp_data) 56 8)))
      else 0)
    else 0)
  else 0
/-- integration_1.v:1975. -/
@[netlist] def rp_data64_in (s : S) (rp_data : Nat) (s_axi_wi__wvalid : Bool) (s_axi_wi__wdata : Nat) (s_axi_wi__wstrb : Nat) : Nat :=
  (next_rp_data64_in s rp_data s_axi_wi__wvalid s_axi_wi__wdata s_axi_wi__wstrb)
/-- integration_1.v:1950-1953. -/
@[netlist] def next_debug_index (s : S) : Nat :=
  slc s.addr_v 0 3
/-- integration_1.v:1978. -/
@[netlist] def debug_index (s : S) : Nat :=
  (next_debug_index s)
/-- integration_1.v:1942-1945. -/
@[netlist] def next_debug_enable (s : S) : Bool :=
  s.addr_v.testBit 12
/-- integration_1.v:1980. -/
@[netlist] def debug_enable (s : S) : Bool :=
  (next_debug_enable s)
/-- integration_1.v:1525-1540. -/
@[netlist] def next_rvalid_v (s : S) (s_axi_ri__rready : Bool) (full_rst : Bool) : Bool :=
  let e1 := if s.fsm_state = 0 then false
  else if s.fsm_state = 5 then (if s_axi_ri__rready = true then true
    else s.rvalid_v)
  else s.rvalid_v
  if full_rst = true then false
  else e1
/-- integration_1.v:1541-1556. -/
@[netlist] def next_bvalid_v (s : S) (s_axi_wi__bready : Bool) (full_rst : Bool) : Bool :=
  let e1 := if s.fsm_state = 0 then false
  else if s.fsm_state = 9 then (if s_axi_wi__bready = true then true
    else s.bvalid_v)
  else s.bvalid_v
  if full_rst = true then false
  else e1
/-- integration_1.v:1557-1599. -/
@[netlist] def next_fsm_state (s : S) (s_axi_ri__arvalid : Bool) (s_axi_wi__awvalid : Bool) (s_axi_ri__rready : Bool) (s_axi_wi__wvalid : Bool) (s_axi_wi__bready : Bool) (rst : Bool) : Nat :=
  let e1 := if s.fsm_state = 0 then (if s_axi_ri__arvalid = true then 1
    else if s_axi_wi__awvalid = true then 2
    else s.fsm_state)
  else if s.fsm_state = 1 then 3
  else if s.fsm_state = 3 then 4
  else if s.fsm_state = 4 then 5
  else if s.fsm_state = 5 then (if s_axi_ri__rready = true then 0
    else s.fsm_state)
  else if s.fsm_state = 2 then 6
  else if s.fsm_state = 6 then 7
  else if s.fsm_state = 7 then 8
  else if s.fsm_state = 8 then (if s_axi_wi__wvalid = true then 9
    else s.fsm_state)
  else if s.fsm_state = 9 then (if s_axi_wi__bready = true then 0
    else s.fsm_state)
  else s.fsm_state
  if rst = true then 0
  else e1
/-- integration_1.v:1600-1612. -/
@[netlist] def next_addr_v (s : S) (s_axi_ri__araddr : Nat) (s_axi_wi__awaddr : Nat) (full_rst : Bool) : Nat :=
  let e1 := if s.fsm_state = 1 then (w21 s s_axi_ri__araddr)
  else if s.fsm_state = 2 then (w23 s s_axi_wi__awaddr)
  else s.addr_v
  if full_rst = true then 0
  else e1
/-- integration_1.v:1613-1625. -/
@[netlist] def next_rp_addr (s : S) (s_axi_ri__araddr : Nat) (s_axi_wi__awaddr : Nat) (full_rst : Bool) : Nat :=
  let e1 := if s.fsm_state = 1 then slc (w25 s s_axi_ri__araddr) 0 5
  else if s.fsm_state = 2 then slc (w28 s s_axi_wi__awaddr) 0 5
  else s.rp_addr
  if full_rst = true then 0
  else e1
/-- integration_1.v:1626-1638. -/
@[netlist] def next_arready_v (s : S) (full_rst : Bool) : Bool :=
  let e1 := if s.fsm_state = 1 then true
  else if s.fsm_state = 3 then false
  else s.arready_v
  if full_rst = true then false
  else e1
/-- integration_1.v:1639-1664. -/
@[netlist] def next_rdata_v (s : S) (rp_data : Nat) (full_rst : Bool) : Nat :=
  let e1 := if s.fsm_state = 5 then (if (w35 s) = true then (if (w39 s) = true then slc (rp_data64 s rp_data) 0 32
      else slc (rp_data64 s rp_data) 32 32)
    else if (w37 s) = true then (if (w41 s) = true then s.height_width
      else (w43 s))
    else s.rdata_v)
  else s.rdata_v
  if full_rst = true then 0
  else e1
/-- integration_1.v:1665-1687. -/
@[netlist] def next_rresp_v (s : S) (full_rst : Bool) : Nat :=
  let e1 := if s.fsm_state = 5 then (if (w49 s) = true then 0
    else if (w51 s) = true then (if (w53 s) = true then 0
      else 0)
    else 3)
  else s.rresp_v
  if full_rst = true then 0
  else e1
/-- integration_1.v:1688-1700. -/
@[netlist] def next_awready_v (s : S) (full_rst : Bool) : Bool :=
  let e1 := if s.fsm_state = 2 then true
  else if s.fsm_state = 6 then false
  else s.awready_v
  if full_rst = true then false
  else e1
/-- integration_1.v:1712-1724. -/
@[netlist] def next_wready_v (s : S) (full_rst : Bool) : Bool :=
  let e1 := if s.fsm_state = 8 then true
  else if s.fsm_state = 9 then false
  else s.wready_v
  if full_rst = true then false
  else e1
/-- integration_1.v:1725-1741. -/
@[netlist] def next_wp_addr (s : S) (s_axi_wi__wvalid : Bool) (full_rst : Bool) : Nat :=
  let e1 := if s.fsm_state = 8 then (if s_axi_wi__wvalid = true then (if (w59 s) = true then slc (w63 s) 0 5
      else s.wp_addr)
    else s.wp_addr)
  else s.wp_addr
  if full_rst = true then 0
  else e1
/-- integration_1.v:1742-1758. -/
@[netlist] def next_wp_data (s : S) (rp_data : Nat) (s_axi_wi__wvalid : Bool) (s_axi_wi__wdata : Nat) (s_axi_wi__wstrb : Nat) (full_rst : Bool) : Nat :=
  let e1 := if s.fsm_state = 8 then (if s_axi_wi__wvalid = true then (if (w70 s) = true then slc (rp_data64_in s rp_data s_axi_wi__wvalid s_axi_wi__wdata s_axi_wi__wstrb) 0 33
      else s.wp_data)
    else s.wp_data)
  else s.wp_data
  if full_rst = true then 0
  else e1
/-- integration_1.v:1759-1777. -/
@[netlist] def next_wp_en (s : S) (s_axi_wi__wvalid : Bool) (full_rst : Bool) : Bool :=
  let e1 := if s.fsm_state = 8 then (if s_axi_wi__wvalid = true then (if (w78 s) = true then true
      else s.wp_en)
    else s.wp_en)
  else if s.fsm_state = 9 then false
  else s.wp_en
  if full_rst = true then false
  else e1
/-- integration_1.v:1778-1798. -/
@[netlist] def next_bresp_v (s : S) (s_axi_wi__wvalid : Bool) (full_rst : Bool) : Nat :=
  let e1 := if s.fsm_state = 8 then (if s_axi_wi__wvalid = true then (if (w86 s) = true then 0
      else if (w88 s) = true then 0
      else 3)
    else s.bresp_v)
  else s.bresp_v
  if full_rst = true then 0
  else e1
/-- integration_1.v:1799-1846. -/
@[netlist] def next_height_width (s : S) (s_axi_wi__wvalid : Bool) (s_axi_wi__wdata : Nat) (s_axi_wi__wstrb : Nat) (full_rst : Bool) : Nat :=
  let e4 := if s.fsm_state = 8 then (if s_axi_wi__wvalid = true then (if (w94 s) = true then s.height_width
      else if (w96 s) = true then (
        let e1 := if ((wstrb_v s s_axi_wi__wvalid s_axi_wi__wstrb).testBit 0) = true then (if (w98 s) = true then put s.height_width 0 8 (slc (wdata_v s s_axi_wi__wvalid s_axi_wi__wdata) 0 8)
          else s.height_width)
        else s.height_width
        let e2 := if ((wstrb_v s s_axi_wi__wvalid s_axi_wi__wstrb).testBit 1) = true then (if (w100 s) = true then put e1 8 8 (slc (wdata_v s s_axi_wi__wvalid s_axi_wi__wdata) 8 8)
          else e1)
        else e1
        let e3 := if ((wstrb_v s s_axi_wi__wvalid s_axi_wi__wstrb).testBit 2) = true then (if (w102 s) = true then put e2 16 8 (slc (wdata_v s s_axi_wi__wvalid s_axi_wi__wdata) 16 8)
          else e2)
        else e2
        if ((wstrb_v s s_axi_wi__wvalid s_axi_wi__wstrb).testBit 3) = true then (if (w104 s) = true then put e3 24 8 (slc (wdata_v s s_axi_wi__wvalid s_axi_wi__wdata) 24 8)
          else e3)
        else e3)
      else s.height_width)
    else s.height_width)
  else s.height_width
  if full_rst = true then 0
  else e4
/-- integration_1.v:1847-1893. -/
@[netlist] def next_allowed_cycles (s : S) (s_axi_wi__wvalid : Bool) (s_axi_wi__wdata : Nat) (s_axi_wi__wstrb : Nat) (full_rst : Bool) : Nat :=
  let e3 := if s.fsm_state = 8 then (if s_axi_wi__wvalid = true then (if (w110 s) = true then s.allowed_cycles
      else if (w112 s) = true then (
        let e1 := if ((wstrb_v s s_axi_wi__wvalid s_axi_wi__wstrb).testBit 0) = true then (if (w114 s) = true then s.allowed_cycles
          else put s.allowed_cycles 0 8 (slc (wdata_v s s_axi_wi__wvalid s_axi_wi__wdata) 0 8))
        else s.allowed_cycles
        let e2 := if ((wstrb_v s s_axi_wi__wvalid s_axi_wi__wstrb).testBit 1) = true then (if (w116 s) = true then e1
          else put e1 8 8 (slc (wdata_v s s_axi_wi__wvalid s_axi_wi__wdata) 8 8))
        else e1
        if ((wstrb_v s s_axi_wi__wvalid s_axi_wi__wstrb).testBit 2) = true then (if (w118 s) = true then e2
          else put e2 16 8 (slc (wdata_v s s_axi_wi__wvalid s_axi_wi__wdata) 16 8))
        else e2)
      else s.allowed_cycles)
    else s.allowed_cycles)
  else s.allowed_cycles
  if full_rst = true then 0
  else e3

/-- integration_1.v:1094-1986: one rising clock edge (`always @(posedge ...)`). -/
@[netlist] def step (s : S) (rp_data : Nat) (s_axi_ri__arvalid : Bool) (s_axi_wi__awvalid : Bool) (s_axi_ri__araddr : Nat) (s_axi_ri__rready : Bool) (s_axi_wi__awaddr : Nat) (s_axi_wi__wvalid : Bool) (s_axi_wi__wdata : Nat) (s_axi_wi__wstrb : Nat) (s_axi_wi__bready : Bool) (full_rst : Bool) (rst : Bool) : S :=
  { wready_v := (next_wready_v s full_rst)
    awready_v := (next_awready_v s full_rst)
    rresp_v := (next_rresp_v s full_rst)
    rdata_v := (next_rdata_v s rp_data full_rst)
    arready_v := (next_arready_v s full_rst)
    rp_addr := (next_rp_addr s s_axi_ri__araddr s_axi_wi__awaddr full_rst)
    addr_v := (next_addr_v s s_axi_ri__araddr s_axi_wi__awaddr full_rst)
    fsm_state := (next_fsm_state s s_axi_ri__arvalid s_axi_wi__awvalid s_axi_ri__rready s_axi_wi__wvalid s_axi_wi__bready rst)
    bvalid_v := (next_bvalid_v s s_axi_wi__bready full_rst)
    rvalid_v := (next_rvalid_v s s_axi_ri__rready full_rst)
    allowed_cycles := (next_allowed_cycles s s_axi_wi__wvalid s_axi_wi__wdata s_axi_wi__wstrb full_rst)
    height_width := (next_height_width s s_axi_wi__wvalid s_axi_wi__wdata s_axi_wi__wstrb full_rst)
    bresp_v := (next_bresp_v s s_axi_wi__wvalid full_rst)
    wp_en := (next_wp_en s s_axi_wi__wvalid full_rst)
    wp_data := (next_wp_data s rp_data s_axi_wi__wvalid s_axi_wi__wdata s_axi_wi__wstrb full_rst)
    wp_addr := (next_wp_addr s s_axi_wi__wvalid full_rst) }

/-- integration_1.v:1094-1986: the initial values given in the netlist. -/
def Init (s : S) : Prop :=
  s.wready_v = false ∧
  s.awready_v = false ∧
  s.rresp_v = 0 ∧
  s.rdata_v = 0 ∧
  s.arready_v = false ∧
  s.rp_addr = 0 ∧
  s.addr_v = 0 ∧
  s.fsm_state = 0 ∧
  s.bvalid_v = false ∧
  s.rvalid_v = false ∧
  s.allowed_cycles = 0 ∧
  s.height_width = 0 ∧
  s.bresp_v = 0 ∧
  s.wp_en = false ∧
  s.wp_data = 0 ∧
  s.wp_addr = 0

/-- integration_1.v:1094-1986: a state with these initial values; registers without one are 0. -/
def powerUp : S :=
  { wready_v := false
    awready_v := false
    rresp_v := 0
    rdata_v := 0
    arready_v := false
    rp_addr := 0
    addr_v := 0
    fsm_state := 0
    bvalid_v := false
    rvalid_v := false
    allowed_cycles := 0
    height_width := 0
    bresp_v := 0
    wp_en := false
    wp_data := 0
    wp_addr := 0 }

theorem powerUp_init : Init powerUp := ⟨rfl, rfl, rfl, rfl, rfl, rfl, rfl, rfl, rfl, rfl, rfl, rfl, rfl, rfl, rfl, rfl⟩

end core_axi_lite

namespace encode

/-- integration_1.v:2135-2398: registers, memories and instances of module `encode`. -/
structure S where
  r_0_ : Nat
  r_1_ : Nat
  r_2_ : Nat
  mem : List Nat
  u_w13 : Beta.anonymous_2.S
  u_w22 : Beta.anonymous_3.S

/-- integration_1.v:2305. -/
@[netlist] def mem_r_data_28 (s : S) : Nat :=
  s.mem.getD s.r_0_ 0
/-- integration_1.v:2306. -/
@[netlist] def mem_r_data_25 (s : S) : Nat :=
  s.mem.getD s.r_1_ 0
/-- integration_1.v:2307. -/
@[netlist] def mem_r_data (s : S) : Nat :=
  s.mem.getD s.r_2_ 0
/-- integration_1.v:2254-2267. -/
@[netlist] def end_out_10 (s : S) : Bool :=
  s.u_w13.end_out
/-- integration_1.v:2344-2347. -/
@[netlist] def next_end_out (s : S) : Bool :=
  (end_out_10 s)
/-- integration_1.v:2380. -/
@[netlist] def end_out (s : S) : Bool :=
  (next_end_out s)
/-- integration_1.v:2254-2267. -/
@[netlist] def valid_out_9 (s : S) : Bool :=
  s.u_w13.valid_out
/-- integration_1.v:2340-2343. -/
@[netlist] def next_valid_out (s : S) : Bool :=
  (valid_out_9 s)
/-- integration_1.v:2381. -/
@[netlist] def valid_out (s : S) : Bool :=
  (next_valid_out s)
/-- integration_1.v:2268-2279. -/
@[netlist] def enc_ctr_21 (s : S) : Nat :=
  s.u_w22.enc_ctr
/-- integration_1.v:2336-2339. -/
@[netlist] def next_enc_ctr_4 (s : S) : Nat :=
  (enc_ctr_21 s)
/-- integration_1.v:2382. -/
@[netlist] def enc_ctr_4 (s : S) : Nat :=
  (next_enc_ctr_4 s)
/-- integration_1.v:2268-2279. -/
@[netlist] def enc_out_20 (s : S) : Nat :=
  s.u_w22.enc_out
/-- integration_1.v:2332-2335. -/
@[netlist] def next_enc_out_3 (s : S) : Nat :=
  (enc_out_20 s)
/-- integration_1.v:2383. -/
@[netlist] def enc_out_3 (s : S) : Nat :=
  (next_enc_out_3 s)
/-- integration_1.v:2328-2331. -/
@[netlist] def next_rp_data_18 (s : S) : Nat :=
  (mem_r_data_28 s)
/-- integration_1.v:2384. -/
@[netlist] def rp_data_18 (s : S) : Nat :=
  (next_rp_data_18 s)
/-- integration_1.v:2320-2323. -/
@[netlist] def next_ssss_16 (s : S) (ssss_2 : Nat) : Nat :=
  ssss_2
/-- integration_1.v:2386. -/
@[netlist] def ssss_16 (s : S) (ssss_2 : Nat) : Nat :=
  (next_ssss_16 s ssss_2)
/-- integration_1.v:2268-2279. -/
@[netlist] def rp_addr_19 (s : S) (ssss_2 : Nat) : Nat :=
  Beta.anonymous_3.rp_addr s.u_w22 (ssss_16 s ssss_2)
/-- integration_1.v:2324-2327. -/
@[netlist] def next_mem_r_addr_27 (s : S) (ssss_2 : Nat) : Nat :=
  slc (rp_addr_19 s ssss_2) 0 4
/-- integration_1.v:2385. -/
@[netlist] def mem_r_addr_27 (s : S) (ssss_2 : Nat) : Nat :=
  (next_mem_r_addr_27 s ssss_2)
/-- integration_1.v:2316-2319. -/
@[netlist] def next_valid_in_14 (s : S) (valid_in : Bool) : Bool :=
  valid_in
/-- integration_1.v:2387. -/
@[netlist] def valid_in_14 (s : S) (valid_in : Bool) : Bool :=
  (next_valid_in_14 s valid_in)
/-- integration_1.v:2376-2379. -/
@[netlist] def next_end_in_15 (s : S) (end_in : Bool) : Bool :=
  end_in
/-- integration_1.v:2388. -/
@[netlist] def end_in_15 (s : S) (end_in : Bool) : Bool :=
  (next_end_in_15 s end_in)
/-- integration_1.v:2372-2375. -/
@[netlist] def next_val_in_17 (s : S) (val_in_1 : Nat) : Nat :=
  val_in_1
/-- integration_1.v:2389. -/
@[netlist] def val_in_17 (s : S) (val_in_1 : Nat) : Nat :=
  (next_val_in_17 s val_in_1)
/-- integration_1.v:2254-2267. -/
@[netlist] def enc_ctr_12 (s : S) : Nat :=
  s.u_w13.enc_ctr
/-- integration_1.v:2368-2371. -/
@[netlist] def next_enc_ctr (s : S) : Nat :=
  (enc_ctr_12 s)
/-- integration_1.v:2390. -/
@[netlist] def enc_ctr (s : S) : Nat :=
  (next_enc_ctr s)
/-- integration_1.v:2254-2267. -/
@[netlist] def enc_out_11 (s : S) : Nat :=
  s.u_w13.enc_out
/-- integration_1.v:2364-2367. -/
@[netlist] def next_enc_out (s : S) : Nat :=
  (enc_out_11 s)
/-- integration_1.v:2391. -/
@[netlist] def enc_out (s : S) : Nat :=
  (next_enc_out s)
/-- integration_1.v:2360-2363. -/
@[netlist] def next_rp_data (s : S) : Nat :=
  (mem_r_data_25 s)
/-- integration_1.v:2392. -/
@[netlist] def rp_data (s : S) : Nat :=
  (next_rp_data s)
/-- integration_1.v:2352-2355. -/
@[netlist] def next_ssss_7 (s : S) (ssss : Nat) : Nat :=
  ssss
/-- integration_1.v:2394. -/
@[netlist] def ssss_7 (s : S) (ssss : Nat) : Nat :=
  (next_ssss_7 s ssss)
/-- integration_1.v:2254-2267. -/
@[netlist] def rp_addr (s : S) (ssss : Nat) : Nat :=
  Beta.anonymous_2.rp_addr s.u_w13 (ssss_7 s ssss)
/-- integration_1.v:2356-2359. -/
@[netlist] def next_mem_r_addr_24 (s : S) (ssss : Nat) : Nat :=
  slc (rp_addr s ssss) 0 4
/-- integration_1.v:2393. -/
@[netlist] def mem_r_addr_24 (s : S) (ssss : Nat) : Nat :=
  (next_mem_r_addr_24 s ssss)
/-- integration_1.v:2348-2351. -/
@[netlist] def next_valid_in_5 (s : S) (valid_in : Bool) : Bool :=
  valid_in
/-- integration_1.v:2395. -/
@[netlist] def valid_in_5 (s : S) (valid_in : Bool) : Bool :=
  (next_valid_in_5 s valid_in)
/-- integration_1.v:2312-2315. -/
@[netlist] def next_end_in_6 (s : S) (end_in : Bool) : Bool :=
  end_in
/-- integration_1.v:2396. -/
@[netlist] def end_in_6 (s : S) (end_in : Bool) : Bool :=
  (next_end_in_6 s end_in)
/-- integration_1.v:2308-2311. -/
@[netlist] def next_val_in_8 (s : S) (val_in : Nat) : Nat :=
  val_in
/-- integration_1.v:2397. -/
@[netlist] def val_in_8 (s : S) (val_in : Nat) : Nat :=
  (next_val_in_8 s val_in)

/-- integration_1.v:2135-2398: one rising clock edge (`always @(posedge ...)`). -/
@[netlist] def step (s : S) (end_in : Bool) (valid_in : Bool) (ssss : Nat) (val_in_1 : Nat) (ssss_2 : Nat) (rst : Bool) (mem_r_addr : Nat) (mem_w_en : Bool) (mem_w_addr : Nat) (mem_w_data : Nat) (val_in : Nat) : S :=
  { r_0_ := (next_mem_r_addr_27 s ssss_2)
    r_1_ := (next_mem_r_addr_24 s ssss)
    r_2_ := mem_r_addr
    mem := if mem_w_en then s.mem.set mem_w_addr mem_w_data else s.mem
    u_w13 := Beta.anonymous_2.step s.u_w13 (end_in_6 s end_in) (ssss_7 s ssss) (val_in_8 s val_in) (rp_data s) rst (valid_in_5 s valid_in)
    u_w22 := Beta.anonymous_3.step s.u_w22 (end_in_15 s end_in) (ssss_16 s ssss_2) (val_in_17 s val_in_1) (rp_data_18 s) rst (valid_in_14 s valid_in) }

/-- integration_1.v:2135-2398: the initial values given in the netlist. -/
def Init (s : S) : Prop :=
  s.mem = [0x4000000e, 0x30000000, 0x30000004, 0x30000010, 0x30000030, 0x30000080, 0x30000140, 0x30000300, 0x50001e00, 0x60007c00, 0x7001f800, 0x8007f000, 0x901fe000] ∧
  Beta.anonymous_2.Init s.u_w13 ∧
  Beta.anonymous_3.Init s.u_w22

/-- integration_1.v:2135-2398: a state with these initial values; registers without one are 0. -/
def powerUp : S :=
  { r_0_ := 0
    r_1_ := 0
    r_2_ := 0
    mem := [0x4000000e, 0x30000000, 0x30000004, 0x30000010, 0x30000030, 0x30000080, 0x30000140, 0x30000300, 0x50001e00, 0x60007c00, 0x7001f800, 0x8007f000, 0x901fe000]
    u_w13 := Beta.anonymous_2.powerUp
    u_w22 := Beta.anonymous_3.powerUp }

theorem powerUp_init : Init powerUp := ⟨rfl, Beta.anonymous_2.powerUp_init, Beta.anonymous_3.powerUp_init⟩

end encode

namespace top

/-- integration_1.v:3445-4073: registers, memories and instances of module `top`. -/
structure S where
  u_core_axi_lite : core_axi_lite.S
  u_difference : Beta.difference.S
  u_encode : encode.S
  u_force_end : Beta.force_end.S
  u_merge : Beta.merge.S
  u_normalize : Beta.normalize.S
  u_predictor : Beta.predictor.S
  u_signals : Beta.signals.S

/-- integration_1.v:3799-3812. -/
@[netlist] def merge_end_out (s : S) : Bool :=
  Beta.merge.end_out s.u_merge
/-- integration_1.v:4005-4008. -/
@[netlist] def next_end_out (s : S) : Bool :=
  (merge_end_out s)
/-- integration_1.v:4029. -/
@[netlist] def end_out (s : S) : Bool :=
  (next_end_out s)
/-- integration_1.v:3799-3812. -/
@[netlist] def merge_valid_out (s : S) : Bool :=
  Beta.merge.valid_out s.u_merge
/-- integration_1.v:4001-4004. -/
@[netlist] def next_valid_out (s : S) : Bool :=
  (merge_valid_out s)
/-- integration_1.v:4030. -/
@[netlist] def valid_out (s : S) : Bool :=
  (next_valid_out s)
/-- integration_1.v:3799-3812. -/
@[netlist] def merge_enc_out_ctr (s : S) : Nat :=
  Beta.merge.enc_out_ctr s.u_merge
/-- integration_1.v:3997-4000. -/
@[netlist] def next_enc_out_ctr (s : S) : Nat :=
  (merge_enc_out_ctr s)
/-- integration_1.v:4031. -/
@[netlist] def enc_out_ctr (s : S) : Nat :=
  (next_enc_out_ctr s)
/-- integration_1.v:3799-3812. -/
@[netlist] def merge_enc_out (s : S) : Nat :=
  Beta.merge.enc_out s.u_merge
/-- integration_1.v:3993-3996. -/
@[netlist] def next_enc_out (s : S) : Nat :=
  (merge_enc_out s)
/-- integration_1.v:4032. -/
@[netlist] def enc_out (s : S) : Nat :=
  (next_enc_out s)
/-- integration_1.v:3771-3791. -/
@[netlist] def encode_end_out (s : S) : Bool :=
  encode.end_out s.u_encode
/-- integration_1.v:3985-3988. -/
@[netlist] def next_merge_end_in (s : S) : Bool :=
  (encode_end_out s)
/-- integration_1.v:4033. -/
@[netlist] def merge_end_in (s : S) : Bool :=
  (next_merge_end_in s)
/-- integration_1.v:3771-3791. -/
@[netlist] def encode_valid_out (s : S) : Bool :=
  encode.valid_out s.u_encode
/-- integration_1.v:3981-3984. -/
@[netlist] def next_merge_valid_in (s : S) : Bool :=
  (encode_valid_out s)
/-- integration_1.v:4034. -/
@[netlist] def merge_valid_in (s : S) : Bool :=
  (next_merge_valid_in s)
/-- integration_1.v:3771-3791. -/
@[netlist] def encode_enc_ctr_17 (s : S) : Nat :=
  encode.enc_ctr_4 s.u_encode
/-- integration_1.v:3977-3980. -/
@[netlist] def next_merge_enc_in_ctr_19 (s : S) : Nat :=
  (encode_enc_ctr_17 s)
/-- integration_1.v:4035. -/
@[netlist] def merge_enc_in_ctr_19 (s : S) : Nat :=
  (next_merge_enc_in_ctr_19 s)
/-- integration_1.v:3771-3791. -/
@[netlist] def encode_enc_ctr (s : S) : Nat :=
  encode.enc_ctr s.u_encode
/-- integration_1.v:3973-3976. -/
@[netlist] def next_merge_enc_in_ctr (s : S) : Nat :=
  (encode_enc_ctr s)
/-- integration_1.v:4036. -/
@[netlist] def merge_enc_in_ctr (s : S) : Nat :=
  (next_merge_enc_in_ctr s)
/-- integration_1.v:3771-3791. -/
@[netlist] def encode_enc_out_16 (s : S) : Nat :=
  encode.enc_out_3 s.u_encode
/-- integration_1.v:3969-3972. -/
@[netlist] def next_merge_enc_in_18 (s : S) : Nat :=
  (encode_enc_out_16 s)
/-- integration_1.v:4037. -/
@[netlist] def merge_enc_in_18 (s : S) : Nat :=
  (next_merge_enc_in_18 s)
/-- integration_1.v:3771-3791. -/
@[netlist] def encode_enc_out (s : S) : Nat :=
  encode.enc_out s.u_encode
/-- integration_1.v:3965-3968. -/
@[netlist] def next_merge_enc_in (s : S) : Nat :=
  (encode_enc_out s)
/-- integration_1.v:4038. -/
@[netlist] def merge_enc_in (s : S) : Nat :=
  (next_merge_enc_in s)
/-- integration_1.v:3732-3754. -/
@[netlist] def core_axi_lite_wp_en (s : S) : Bool :=
  s.u_core_axi_lite.wp_en
/-- integration_1.v:3961-3964. -/
@[netlist] def next_encode_mem_w_en (s : S) : Bool :=
  (core_axi_lite_wp_en s)
/-- integration_1.v:4039. -/
@[netlist] def encode_mem_w_en (s : S) : Bool :=
  (next_encode_mem_w_en s)
/-- integration_1.v:3732-3754. -/
@[netlist] def core_axi_lite_wp_data (s : S) : Nat :=
  s.u_core_axi_lite.wp_data
/-- integration_1.v:3957-3960. -/
@[netlist] def next_encode_mem_w_data (s : S) : Nat :=
  (core_axi_lite_wp_data s)
/-- integration_1.v:4040. -/
@[netlist] def encode_mem_w_data (s : S) : Nat :=
  (next_encode_mem_w_data s)
/-- integration_1.v:3732-3754. -/
@[netlist] def core_axi_lite_wp_addr (s : S) : Nat :=
  s.u_core_axi_lite.wp_addr
/-- integration_1.v:3953-3956. -/
@[netlist] def next_encode_mem_w_addr (s : S) : Nat :=
  slc (core_axi_lite_wp_addr s) 0 4
/-- integration_1.v:4041. -/
@[netlist] def encode_mem_w_addr (s : S) : Nat :=
  (next_encode_mem_w_addr s)
/-- integration_1.v:3732-3754. -/
@[netlist] def core_axi_lite_rp_addr (s : S) : Nat :=
  s.u_core_axi_lite.rp_addr
/-- integration_1.v:3949-3952. -/
@[netlist] def next_encode_mem_r_addr (s : S) : Nat :=
  slc (core_axi_lite_rp_addr s) 0 4
/-- integration_1.v:4042. -/
@[netlist] def encode_mem_r_addr (s : S) : Nat :=
  (next_encode_mem_r_addr s)
/-- integration_1.v:3771-3791. -/
@[netlist] def encode_mem_r_data (s : S) : Nat :=
  encode.mem_r_data s.u_encode
/-- integration_1.v:3941-3944. -/
@[netlist] def next_core_axi_lite_rp_data (s : S) : Nat :=
  (encode_mem_r_data s)
/-- integration_1.v:4043. -/
@[netlist] def core_axi_lite_rp_data (s : S) : Nat :=
  (next_core_axi_lite_rp_data s)
/-- integration_1.v:3813-3828. -/
@[netlist] def normalize_end_out (s : S) : Bool :=
  Beta.normalize.end_out s.u_normalize
/-- integration_1.v:3937-3940. -/
@[netlist] def next_encode_end_in (s : S) : Bool :=
  (normalize_end_out s)
/-- integration_1.v:4044. -/
@[netlist] def encode_end_in (s : S) : Bool :=
  (next_encode_end_in s)
/-- integration_1.v:3813-3828. -/
@[netlist] def normalize_valid_out (s : S) : Bool :=
  Beta.normalize.valid_out s.u_normalize
/-- integration_1.v:3933-3936. -/
@[netlist] def next_encode_valid_in (s : S) : Bool :=
  (normalize_valid_out s)
/-- integration_1.v:4045. -/
@[netlist] def encode_valid_in (s : S) : Bool :=
  (next_encode_valid_in s)
/-- integration_1.v:3813-3828. -/
@[netlist] def normalize_ssss_12 (s : S) : Nat :=
  Beta.normalize.ssss_3 s.u_normalize
/-- integration_1.v:3929-3932. -/
@[netlist] def next_encode_ssss_15 (s : S) : Nat :=
  (normalize_ssss_12 s)
/-- integration_1.v:4046. -/
@[netlist] def encode_ssss_15 (s : S) : Nat :=
  (next_encode_ssss_15 s)
/-- integration_1.v:3813-3828. -/
@[netlist] def normalize_ssss (s : S) : Nat :=
  Beta.normalize.ssss s.u_normalize
/-- integration_1.v:3925-3928. -/
@[netlist] def next_encode_ssss (s : S) : Nat :=
  (normalize_ssss s)
/-- integration_1.v:4047. -/
@[netlist] def encode_ssss (s : S) : Nat :=
  (next_encode_ssss s)
/-- integration_1.v:3813-3828. -/
@[netlist] def normalize_val_out_13 (s : S) : Nat :=
  Beta.normalize.val_out_4 s.u_normalize
/-- integration_1.v:3921-3924. -/
@[netlist] def next_encode_val_in_14 (s : S) : Nat :=
  (normalize_val_out_13 s)
/-- integration_1.v:4048. -/
@[netlist] def encode_val_in_14 (s : S) : Nat :=
  (next_encode_val_in_14 s)
/-- integration_1.v:3813-3828. -/
@[netlist] def normalize_val_out (s : S) : Nat :=
  Beta.normalize.val_out s.u_normalize
/-- integration_1.v:3917-3920. -/
@[netlist] def next_encode_val_in (s : S) : Nat :=
  (normalize_val_out s)
/-- integration_1.v:4049. -/
@[netlist] def encode_val_in (s : S) : Nat :=
  (next_encode_val_in s)
/-- integration_1.v:3755-3770. -/
@[netlist] def difference_end_out (s : S) : Bool :=
  s.u_difference.end_out
/-- integration_1.v:3913-3916. -/
@[netlist] def next_normalize_end_in (s : S) : Bool :=
  (difference_end_out s)
/-- integration_1.v:4050. -/
@[netlist] def normalize_end_in (s : S) : Bool :=
  (next_normalize_end_in s)
/-- integration_1.v:3755-3770. -/
@[netlist] def difference_valid_out (s : S) : Bool :=
  s.u_difference.valid_out
/-- integration_1.v:3909-3912. -/
@[netlist] def next_normalize_valid_in (s : S) : Bool :=
  (difference_valid_out s)
/-- integration_1.v:4051. -/
@[netlist] def normalize_valid_in (s : S) : Bool :=
  (next_normalize_valid_in s)
/-- integration_1.v:3755-3770. -/
@[netlist] def difference_val_out_9 (s : S) : Nat :=
  s.u_difference.val_out_5
/-- integration_1.v:3905-3908. -/
@[netlist] def next_normalize_vals_in_mns_11 (s : S) : Nat :=
  (difference_val_out_9 s)
/-- integration_1.v:4052. -/
@[netlist] def normalize_vals_in_mns_11 (s : S) : Nat :=
  (next_normalize_vals_in_mns_11 s)
/-- integration_1.v:3755-3770. -/
@[netlist] def difference_val_out_8 (s : S) : Nat :=
  s.u_difference.val_out_4
/-- integration_1.v:3897-3900. -/
@[netlist] def next_normalize_vals_in_mns (s : S) : Nat :=
  (difference_val_out_8 s)
/-- integration_1.v:4053. -/
@[netlist] def normalize_vals_in_mns (s : S) : Nat :=
  (next_normalize_vals_in_mns s)
/-- integration_1.v:3755-3770. -/
@[netlist] def difference_val_out_7 (s : S) : Nat :=
  s.u_difference.val_out_3
/-- integration_1.v:3893-3896. -/
@[netlist] def next_normalize_val_in_10 (s : S) : Nat :=
  (difference_val_out_7 s)
/-- integration_1.v:4054. -/
@[netlist] def normalize_val_in_10 (s : S) : Nat :=
  (next_normalize_val_in_10 s)
/-- integration_1.v:3755-3770. -/
@[netlist] def difference_val_out (s : S) : Nat :=
  s.u_difference.val_out
/-- integration_1.v:3889-3892. -/
@[netlist] def next_normalize_val_in (s : S) : Nat :=
  (difference_val_out s)
/-- integration_1.v:4055. -/
@[netlist] def normalize_val_in (s : S) : Nat :=
  (next_normalize_val_in s)
/-- integration_1.v:3829-3843. -/
@[netlist] def predictor_end_out (s : S) : Bool :=
  s.u_predictor.end_out
/-- integration_1.v:3885-3888. -/
@[netlist] def next_difference_end_in (s : S) : Bool :=
  (predictor_end_out s)
/-- integration_1.v:4056. -/
@[netlist] def difference_end_in (s : S) : Bool :=
  (next_difference_end_in s)
/-- integration_1.v:3829-3843. -/
@[netlist] def predictor_valid_out (s : S) : Bool :=
  s.u_predictor.valid_out
/-- integration_1.v:3881-3884. -/
@[netlist] def next_difference_valid_in (s : S) : Bool :=
  (predictor_valid_out s)
/-- integration_1.v:4057. -/
@[netlist] def difference_valid_in (s : S) : Bool :=
  (next_difference_valid_in s)
/-- integration_1.v:3829-3843. -/
@[netlist] def predictor_predic_out_4 (s : S) : Nat :=
  s.u_predictor.predic_out_3
/-- integration_1.v:3877-3880. -/
@[netlist] def next_difference_predic_in_6 (s : S) : Nat :=
  (predictor_predic_out_4 s)
/-- integration_1.v:4058. -/
@[netlist] def difference_predic_in_6 (s : S) : Nat :=
  (next_difference_predic_in_6 s)
/-- integration_1.v:3829-3843. -/
@[netlist] def predictor_predic_out (s : S) : Nat :=
  s.u_predictor.predic_out
/-- integration_1.v:3873-3876. -/
@[netlist] def next_difference_predic_in (s : S) : Nat :=
  (predictor_predic_out s)
/-- integration_1.v:4059. -/
@[netlist] def difference_predic_in (s : S) : Nat :=
  (next_difference_predic_in s)
/-- integration_1.v:3829-3843. -/
@[netlist] def predictor_pixel_out_3 (s : S) : Nat :=
  s.u_predictor.pixel_out_2
/-- integration_1.v:3869-3872. -/
@[netlist] def next_difference_pixel_in_5 (s : S) : Nat :=
  (predictor_pixel_out_3 s)
/-- integration_1.v:4060. -/
@[netlist] def difference_pixel_in_5 (s : S) : Nat :=
  (next_difference_pixel_in_5 s)
/-- integration_1.v:3829-3843. -/
@[netlist] def predictor_pixel_out (s : S) : Nat :=
  s.u_predictor.pixel_out
/-- integration_1.v:3865-3868. -/
@[netlist] def next_difference_pixel_in (s : S) : Nat :=
  (predictor_pixel_out s)
/-- integration_1.v:4061. -/
@[netlist] def difference_pixel_in (s : S) : Nat :=
  (next_difference_pixel_in s)
/-- integration_1.v:3861-3864. -/
@[netlist] def next_predictor_valid_in (s : S) (valid_in : Bool) : Bool :=
  valid_in
/-- integration_1.v:4062. -/
@[netlist] def predictor_valid_in (s : S) (valid_in : Bool) : Bool :=
  (next_predictor_valid_in s valid_in)
/-- integration_1.v:3844-3852. -/
@[netlist] def signals_end_of_frame (s : S) : Bool :=
  s.u_signals.end_of_frame
/-- integration_1.v:4025-4028. -/
@[netlist] def next_predictor_end_in (s : S) : Bool :=
  (signals_end_of_frame s)
/-- integration_1.v:4063. -/
@[netlist] def predictor_end_in (s : S) : Bool :=
  (next_predictor_end_in s)
/-- integration_1.v:3844-3852. -/
@[netlist] def signals_new_row (s : S) : Bool :=
  s.u_signals.new_row
/-- integration_1.v:4021-4024. -/
@[netlist] def next_predictor_new_row (s : S) : Bool :=
  (signals_new_row s)
/-- integration_1.v:4064. -/
@[netlist] def predictor_new_row (s : S) : Bool :=
  (next_predictor_new_row s)
/-- integration_1.v:4017-4020. -/
@[netlist] def next_predictor_pixel_in_2 (s : S) (pixel_in_1 : Nat) : Nat :=
  pixel_in_1
/-- integration_1.v:4065. -/
@[netlist] def predictor_pixel_in_2 (s : S) (pixel_in_1 : Nat) : Nat :=
  (next_predictor_pixel_in_2 s pixel_in_1)
/-- integration_1.v:4013-4016. -/
@[netlist] def next_predictor_pixel_in (s : S) (pixel_in : Nat) : Nat :=
  pixel_in
/-- integration_1.v:4066. -/
@[netlist] def predictor_pixel_in (s : S) (pixel_in : Nat) : Nat :=
  (next_predictor_pixel_in s pixel_in)
/-- integration_1.v:4009-4012. -/
@[netlist] def next_signals_new_input (s : S) (valid_in : Bool) : Bool :=
  valid_in
/-- integration_1.v:4067. -/
@[netlist] def signals_new_input (s : S) (valid_in : Bool) : Bool :=
  (next_signals_new_input s valid_in)
/-- integration_1.v:3792-3798. -/
@[netlist] def force_end_fend (s : S) : Bool :=
  s.u_force_end.fend
/-- integration_1.v:3989-3992. -/
@[netlist] def next_fend_out (s : S) : Bool :=
  (force_end_fend s)
/-- integration_1.v:4068. -/
@[netlist] def fend_out (s : S) : Bool :=
  (next_fend_out s)
/-- integration_1.v:3945-3948. -/
@[netlist] def next_force_end_valid_in (s : S) (valid_in : Bool) : Bool :=
  valid_in
/-- integration_1.v:4069. -/
@[netlist] def force_end_valid_in (s : S) (valid_in : Bool) : Bool :=
  (next_force_end_valid_in s valid_in)
/-- integration_1.v:3732-3754. -/
@[netlist] def core_axi_lite_allowed_cycles (s : S) : Nat :=
  s.u_core_axi_lite.allowed_cycles
/-- integration_1.v:3901-3904. -/
@[netlist] def next_force_end_allowed_cycles (s : S) : Nat :=
  (core_axi_lite_allowed_cycles s)
/-- integration_1.v:4070. -/
@[netlist] def force_end_allowed_cycles (s : S) : Nat :=
  (next_force_end_allowed_cycles s)
/-- integration_1.v:3732-3754. -/
@[netlist] def core_axi_lite_width (s : S) : Nat :=
  core_axi_lite.width s.u_core_axi_lite
/-- integration_1.v:3857-3860. -/
@[netlist] def next_signals_width (s : S) : Nat :=
  (core_axi_lite_width s)
/-- integration_1.v:4071. -/
@[netlist] def signals_width (s : S) : Nat :=
  (next_signals_width s)
/-- integration_1.v:3732-3754. -/
@[netlist] def core_axi_lite_height (s : S) : Nat :=
  core_axi_lite.height s.u_core_axi_lite
/-- integration_1.v:3853-3856. -/
@[netlist] def next_signals_height (s : S) : Nat :=
  (core_axi_lite_height s)
/-- integration_1.v:4072. -/
@[netlist] def signals_height (s : S) : Nat :=
  (next_signals_height s)

/-- integration_1.v:3445-4073: one rising clock edge (`always @(posedge ...)`). -/
@[netlist] def step (s : S) (pixel_in : Nat) (pixel_in_1 : Nat) (rst : Bool) (s_axi_ri__arvalid : Bool) (s_axi_wi__awvalid : Bool) (s_axi_ri__araddr : Nat) (s_axi_ri__rready : Bool) (s_axi_wi__awaddr : Nat) (s_axi_wi__wvalid : Bool) (s_axi_wi__wdata : Nat) (s_axi_wi__wstrb : Nat) (s_axi_wi__bready : Bool) (full_rst : Bool) (valid_in : Bool) : S :=
  { u_core_axi_lite := core_axi_lite.step s.u_core_axi_lite (core_axi_lite_rp_data s) s_axi_ri__arvalid s_axi_wi__awvalid s_axi_ri__araddr s_axi_ri__rready s_axi_wi__awaddr s_axi_wi__wvalid s_axi_wi__wdata s_axi_wi__wstrb s_axi_wi__bready full_rst rst
    u_difference := Beta.difference.step s.u_difference (difference_pixel_in s) (difference_predic_in s) (difference_pixel_in_5 s) (difference_predic_in_6 s) (difference_end_in s) rst (difference_valid_in s)
    u_encode := encode.step s.u_encode (encode_end_in s) (encode_valid_in s) (encode_ssss s) (encode_val_in_14 s) (encode_ssss_15 s) rst (encode_mem_r_addr s) (encode_mem_w_en s) (encode_mem_w_addr s) (encode_mem_w_data s) (encode_val_in s)
    u_force_end := Beta.force_end.step s.u_force_end (force_end_allowed_cycles s) rst (force_end_valid_in s valid_in)
    u_merge := Beta.merge.step s.u_merge (merge_enc_in_ctr s) (merge_valid_in s) (merge_end_in s) (merge_enc_in_18 s) (merge_enc_in_ctr_19 s) rst (merge_enc_in s)
    u_normalize := Beta.normalize.step s.u_normalize (normalize_valid_in s) (normalize_end_in s) (normalize_vals_in_mns s) (normalize_val_in_10 s) (normalize_vals_in_mns_11 s) rst (normalize_val_in s)
    u_predictor := Beta.predictor.step s.u_predictor (predictor_new_row s) (predictor_pixel_in s pixel_in) (predictor_pixel_in_2 s pixel_in_1) (predictor_end_in s) rst (predictor_valid_in s valid_in)
    u_signals := Beta.signals.step s.u_signals (signals_width s) (signals_height s) rst (signals_new_input s valid_in) }

/-- integration_1.v:3445-4073: the initial values given in the netlist. -/
def Init (s : S) : Prop :=
  core_axi_lite.Init s.u_core_axi_lite ∧
  Beta.difference.Init s.u_difference ∧
  encode.Init s.u_encode ∧
  Beta.force_end.Init s.u_force_end ∧
  Beta.merge.Init s.u_merge ∧
  Beta.normalize.Init s.u_normalize ∧
  Beta.predictor.Init s.u_predictor ∧
  Beta.signals.Init s.u_signals

/-- integration_1.v:3445-4073: a state with these initial values; registers without one are 0. -/
def powerUp : S :=
  { u_core_axi_lite := core_axi_lite.powerUp
    u_difference := Beta.difference.powerUp
    u_encode := encode.powerUp
    u_force_end := Beta.force_end.powerUp
    u_merge := Beta.merge.powerUp
    u_normalize := Beta.normalize.powerUp
    u_predictor := Beta.predictor.powerUp
    u_signals := Beta.signals.powerUp }

theorem powerUp_init : Init powerUp := ⟨core_axi_lite.powerUp_init, Beta.difference.powerUp_init, encode.powerUp_init, Beta.force_end.powerUp_init, Beta.merge.powerUp_init, Beta.normalize.powerUp_init, Beta.predictor.powerUp_init, Beta.signals.powerUp_init⟩

end top

end Netlist.I1
