/- Generated by netlist/v2lean.py from verilog_src/core_axi_lite.v.  Do not edit. -/
import Verif.Netlist.Basic

set_option autoImplicit false
set_option linter.unusedVariables false

namespace Netlist.CoreLiteV
open Netlist

namespace debug_module

/-- core_axi_lite.v:5-196: registers, memories and instances of module `debug_module`. -/
structure S where
  r_signal_7 : Nat
  r_signal_6 : Nat
  r_signal_5 : Nat
  r_signal_4 : Nat
  r_signal_3 : Nat
  r_signal_2 : Nat
  r_signal_1 : Nat
  r_signal : Nat

/-- core_axi_lite.v:76. -/
@[netlist] def w9 (s : S) : Nat :=
  (s.r_signal + 1) % 2 ^ 33
/-- core_axi_lite.v:77. -/
@[netlist] def w12 (s : S) : Nat :=
  (s.r_signal_1 + 1) % 2 ^ 33
/-- core_axi_lite.v:78. -/
@[netlist] def w15 (s : S) : Nat :=
  (s.r_signal_2 + 1) % 2 ^ 33
/-- core_axi_lite.v:79. -/
@[netlist] def w18 (s : S) : Nat :=
  (s.r_signal_3 + 1) % 2 ^ 33
/-- core_axi_lite.v:80. -/
@[netlist] def w21 (s : S) : Nat :=
  (s.r_signal_4 + 1) % 2 ^ 33
/-- core_axi_lite.v:81. -/
@[netlist] def w24 (s : S) : Nat :=
  (s.r_signal_5 + 1) % 2 ^ 33
/-- core_axi_lite.v:82. -/
@[netlist] def w27 (s : S) : Nat :=
  (s.r_signal_6 + 1) % 2 ^ 33
/-- core_axi_lite.v:83. -/
@[netlist] def w30 (s : S) : Nat :=
  (s.r_signal_7 + 1) % 2 ^ 33
/-- core_axi_lite.v:188. -/
@[netlist] def w8 (s : S) : Nat :=
  (w9 s)
/-- core_axi_lite.v:189. -/
@[netlist] def w11 (s : S) : Nat :=
  (w12 s)
/-- core_axi_lite.v:190. -/
@[netlist] def w14 (s : S) : Nat :=
  (w15 s)
/-- core_axi_lite.v:191. -/
@[netlist] def w17 (s : S) : Nat :=
  (w18 s)
/-- core_axi_lite.v:192. -/
@[netlist] def w20 (s : S) : Nat :=
  (w21 s)
/-- core_axi_lite.v:193. -/
@[netlist] def w23 (s : S) : Nat :=
  (w24 s)
/-- core_axi_lite.v:194. -/
@[netlist] def w26 (s : S) : Nat :=
  (w27 s)
/-- core_axi_lite.v:195. -/
@[netlist] def w29 (s : S) : Nat :=
  (w30 s)
/-- core_axi_lite.v:100-110. -/
@[netlist] def r_next_signal (s : S) (full_rst : Bool) (regs_en : Nat) : Nat :=
  let e1 := if (regs_en.testBit 0) = true then slc (w8 s) 0 32
  else s.r_signal
  if full_rst = true then 0
  else e1
/-- core_axi_lite.v:111-121. -/
@[netlist] def r_next_signal_1 (s : S) (full_rst : Bool) (regs_en : Nat) : Nat :=
  let e1 := if (regs_en.testBit 1) = true then slc (w11 s) 0 32
  else s.r_signal_1
  if full_rst = true then 0
  else e1
/-- core_axi_lite.v:122-132. -/
@[netlist] def r_next_signal_2 (s : S) (full_rst : Bool) (regs_en : Nat) : Nat :=
  let e1 := if (regs_en.testBit 2) = true then slc (w14 s) 0 32
  else s.r_signal_2
  if full_rst = true then 0
  else e1
/-- core_axi_lite.v:133-143. -/
@[netlist] def r_next_signal_3 (s : S) (full_rst : Bool) (regs_en : Nat) : Nat :=
  let e1 := if (regs_en.testBit 3) = true then slc (w17 s) 0 32
  else s.r_signal_3
  if full_rst = true then 0
  else e1
/-- core_axi_lite.v:144-154. -/
@[netlist] def r_next_signal_4 (s : S) (full_rst : Bool) (regs_en : Nat) : Nat :=
  let e1 := if (regs_en.testBit 4) = true then slc (w20 s) 0 32
  else s.r_signal_4
  if full_rst = true then 0
  else e1
/-- core_axi_lite.v:155-165. -/
@[netlist] def r_next_signal_5 (s : S) (full_rst : Bool) (regs_en : Nat) : Nat :=
  let e1 := if (regs_en.testBit 5) = true then slc (w23 s) 0 32
  else s.r_signal_5
  if full_rst = true then 0
  else e1
/-- core_axi_lite.v:166-176. -/
@[netlist] def r_next_signal_6 (s : S) (full_rst : Bool) (regs_en : Nat) : Nat :=
  let e1 := if (regs_en.testBit 6) = true then slc (w26 s) 0 32
  else s.r_signal_6
  if full_rst = true then 0
  else e1
/-- core_axi_lite.v:177-187. -/
@[netlist] def r_next_signal_7 (s : S) (full_rst : Bool) (regs_en : Nat) : Nat :=
  let e1 := if (regs_en.testBit 7) = true then slc (w29 s) 0 32
  else s.r_signal_7
  if full_rst = true then 0
  else e1

/-- core_axi_lite.v:5-196: one rising clock edge (`always @(posedge ...)`). -/
@[netlist] def step (s : S) (full_rst : Bool) (regs_en : Nat) : S :=
  { r_signal_7 := (r_next_signal_7 s full_rst regs_en)
    r_signal_6 := (r_next_signal_6 s full_rst regs_en)
    r_signal_5 := (r_next_signal_5 s full_rst regs_en)
    r_signal_4 := (r_next_signal_4 s full_rst regs_en)
    r_signal_3 := (r_next_signal_3 s full_rst regs_en)
    r_signal_2 := (r_next_signal_2 s full_rst regs_en)
    r_signal_1 := (r_next_signal_1 s full_rst regs_en)
    r_signal := (r_next_signal s full_rst regs_en) }

/-- core_axi_lite.v:5-196: the initial values given in the netlist. -/
def Init (s : S) : Prop :=
  s.r_signal_7 = 0 ∧
  s.r_signal_6 = 0 ∧
  s.r_signal_5 = 0 ∧
  s.r_signal_4 = 0 ∧
  s.r_signal_3 = 0 ∧
  s.r_signal_2 = 0 ∧
  s.r_signal_1 = 0 ∧
  s.r_signal = 0

/-- core_axi_lite.v:5-196: a state with these initial values; registers without one are 0. -/
def powerUp : S :=
  { r_signal_7 := 0
    r_signal_6 := 0
    r_signal_5 := 0
    r_signal_4 := 0
    r_signal_3 := 0
    r_signal_2 := 0
    r_signal_1 := 0
    r_signal := 0 }

theorem powerUp_init : Init powerUp := ⟨rfl, rfl, rfl, rfl, rfl, rfl, rfl, rfl⟩

end debug_module

namespace top

/-- core_axi_lite.v:201-1246: registers, memories and instances of module `top`. -/
structure S where
  allowed_cycles : Nat
  rdata_v : Nat
  arready_v : Bool
  rp_addr : Nat
  addr_v : Nat
  fsm_state : Nat
  bvalid_v : Bool
  rvalid_v : Bool
  height_width : Nat
  bresp_v : Nat
  wp_en : Bool
  wp_data : Nat
  wp_addr : Nat
  wready_v : Bool
  awready_v : Bool
  rresp_v : Nat
  u_debug_module : debug_module.S

/-- core_axi_lite.v:675-678. -/
@[netlist] def next_ssss_index (s : S) : Nat :=
  slc s.addr_v 0 6
/-- core_axi_lite.v:1230. -/
@[netlist] def ssss_index (s : S) : Nat :=
  (next_ssss_index s)
/-- core_axi_lite.v:521. -/
@[netlist] def w100 (s : S) : Bool :=
  decide ((ssss_index s) < 26)
/-- core_axi_lite.v:663-666. -/
@[netlist] def next_ssss_enable (s : S) : Bool :=
  s.addr_v.testBit 10
/-- core_axi_lite.v:1233. -/
@[netlist] def ssss_enable (s : S) : Bool :=
  (next_ssss_enable s)
/-- core_axi_lite.v:587. -/
@[netlist] def w98 (s : S) : Bool :=
  (ssss_enable s) == true
/-- core_axi_lite.v:522. -/
@[netlist] def w102 (s : S) : Bool :=
  (w98 s) && (w100 s)
/-- core_axi_lite.v:667-670. -/
@[netlist] def next_hw_enable (s : S) : Bool :=
  s.addr_v.testBit 11
/-- core_axi_lite.v:1232. -/
@[netlist] def hw_enable (s : S) : Bool :=
  (next_hw_enable s)
/-- core_axi_lite.v:523. -/
@[netlist] def w104 (s : S) : Bool :=
  (hw_enable s) == true
/-- core_axi_lite.v:671-674. -/
@[netlist] def next_debug_enable (s : S) : Bool :=
  s.addr_v.testBit 12
/-- core_axi_lite.v:1231. -/
@[netlist] def debug_enable (s : S) : Bool :=
  (next_debug_enable s)
/-- core_axi_lite.v:524. -/
@[netlist] def w106 (s : S) : Bool :=
  (debug_enable s) == true
/-- core_axi_lite.v:525. -/
@[netlist] def w108 (s : S) : Bool :=
  (ssss_enable s) == true
/-- core_axi_lite.v:526. -/
@[netlist] def w110 (s : S) : Bool :=
  decide ((ssss_index s) < 26)
/-- core_axi_lite.v:527. -/
@[netlist] def w112 (s : S) : Bool :=
  (w108 s) && (w110 s)
/-- core_axi_lite.v:528. -/
@[netlist] def w114 (s : S) : Bool :=
  (hw_enable s) == true
/-- core_axi_lite.v:529. -/
@[netlist] def w116 (s : S) : Bool :=
  (debug_enable s) == true
/-- core_axi_lite.v:530. -/
@[netlist] def w118 (s : S) : Bool :=
  (ssss_enable s) == true
/-- core_axi_lite.v:531. -/
@[netlist] def w120 (s : S) : Bool :=
  decide ((ssss_index s) < 26)
/-- core_axi_lite.v:532. -/
@[netlist] def w122 (s : S) : Bool :=
  (w118 s) && (w120 s)
/-- core_axi_lite.v:533. -/
@[netlist] def w124 (s : S) : Bool :=
  (hw_enable s) == true
/-- core_axi_lite.v:534. -/
@[netlist] def w126 (s : S) : Bool :=
  (debug_enable s) == true
/-- core_axi_lite.v:683-686. -/
@[netlist] def next_hw_index (s : S) : Bool :=
  s.addr_v.testBit 0
/-- core_axi_lite.v:1228. -/
@[netlist] def hw_index (s : S) : Bool :=
  (next_hw_index s)
/-- core_axi_lite.v:535. -/
@[netlist] def w128 (s : S) : Bool :=
  (hw_index s) == false
/-- core_axi_lite.v:536. -/
@[netlist] def w130 (s : S) : Bool :=
  (hw_index s) == false
/-- core_axi_lite.v:537. -/
@[netlist] def w132 (s : S) : Bool :=
  (hw_index s) == false
/-- core_axi_lite.v:538. -/
@[netlist] def w134 (s : S) : Bool :=
  (hw_index s) == false
/-- core_axi_lite.v:539. -/
@[netlist] def w136 (s : S) : Bool :=
  (ssss_enable s) == true
/-- core_axi_lite.v:540. -/
@[netlist] def w138 (s : S) : Bool :=
  decide ((ssss_index s) < 26)
/-- core_axi_lite.v:541. -/
@[netlist] def w140 (s : S) : Bool :=
  (w136 s) && (w138 s)
/-- core_axi_lite.v:542. -/
@[netlist] def w142 (s : S) : Bool :=
  (hw_enable s) == true
/-- core_axi_lite.v:543. -/
@[netlist] def w144 (s : S) : Bool :=
  (debug_enable s) == true
/-- core_axi_lite.v:544. -/
@[netlist] def w146 (s : S) : Bool :=
  (hw_index s) == false
/-- core_axi_lite.v:545. -/
@[netlist] def w148 (s : S) : Bool :=
  (hw_index s) == false
/-- core_axi_lite.v:546. -/
@[netlist] def w150 (s : S) : Bool :=
  (hw_index s) == false
/-- core_axi_lite.v:547. -/
@[netlist] def w15 (s : S) (rp_data : Nat) : Nat :=
  rp_data
/-- core_axi_lite.v:548. -/
@[netlist] def w17 (s : S) : Bool :=
  (ssss_enable s) == true
/-- core_axi_lite.v:549. -/
@[netlist] def w19 (s : S) : Bool :=
  decide ((ssss_index s) < 26)
/-- core_axi_lite.v:550. -/
@[netlist] def w21 (s : S) : Bool :=
  (w17 s) && (w19 s)
/-- core_axi_lite.v:551. -/
@[netlist] def w23 (s : S) : Bool :=
  (hw_enable s) == true
/-- core_axi_lite.v:552. -/
@[netlist] def w25 (s : S) : Bool :=
  (debug_enable s) == true
/-- core_axi_lite.v:553. -/
@[netlist] def w27 (s : S) : Bool :=
  ((ssss_index s).testBit 0) == false
/-- core_axi_lite.v:554. -/
@[netlist] def w29 (s : S) : Nat :=
  0
/-- core_axi_lite.v:555. -/
@[netlist] def w31 (s : S) : Nat :=
  0
/-- core_axi_lite.v:556. -/
@[netlist] def w33 (s : S) : Nat :=
  0
/-- core_axi_lite.v:557. -/
@[netlist] def w35 (s : S) : Nat :=
  0
/-- core_axi_lite.v:558. -/
@[netlist] def w37 (s : S) (s_axi_ri__araddr : Nat) : Nat :=
  s_axi_ri__araddr / 2 ^ 2
/-- core_axi_lite.v:559. -/
@[netlist] def w39 (s : S) (s_axi_wi__awaddr : Nat) : Nat :=
  s_axi_wi__awaddr / 2 ^ 2
/-- core_axi_lite.v:560. -/
@[netlist] def w42 (s : S) (s_axi_ri__araddr : Nat) : Nat :=
  s_axi_ri__araddr / 2 ^ 3
/-- core_axi_lite.v:561. -/
@[netlist] def w45 (s : S) (s_axi_wi__awaddr : Nat) : Nat :=
  s_axi_wi__awaddr / 2 ^ 3
/-- core_axi_lite.v:562. -/
@[netlist] def w47 (s : S) : Bool :=
  (ssss_enable s) == true
/-- core_axi_lite.v:563. -/
@[netlist] def w49 (s : S) : Bool :=
  decide ((ssss_index s) < 26)
/-- core_axi_lite.v:564. -/
@[netlist] def w51 (s : S) : Bool :=
  (w47 s) && (w49 s)
/-- core_axi_lite.v:565. -/
@[netlist] def w53 (s : S) : Bool :=
  (hw_enable s) == true
/-- core_axi_lite.v:566. -/
@[netlist] def w55 (s : S) : Bool :=
  (debug_enable s) == true
/-- core_axi_lite.v:567. -/
@[netlist] def w57 (s : S) : Bool :=
  ((ssss_index s).testBit 0) == false
/-- core_axi_lite.v:568. -/
@[netlist] def w59 (s : S) : Bool :=
  (hw_index s) == false
/-- core_axi_lite.v:569. -/
@[netlist] def w61 (s : S) : Nat :=
  s.allowed_cycles
/-- core_axi_lite.v:570. -/
@[netlist] def w63 (s : S) : Bool :=
  (ssss_enable s) == true
/-- core_axi_lite.v:571. -/
@[netlist] def w65 (s : S) : Bool :=
  decide ((ssss_index s) < 26)
/-- core_axi_lite.v:572. -/
@[netlist] def w67 (s : S) : Bool :=
  (w63 s) && (w65 s)
/-- core_axi_lite.v:573. -/
@[netlist] def w69 (s : S) : Bool :=
  (hw_enable s) == true
/-- core_axi_lite.v:574. -/
@[netlist] def w71 (s : S) : Bool :=
  (debug_enable s) == true
/-- core_axi_lite.v:575. -/
@[netlist] def w73 (s : S) : Bool :=
  (hw_index s) == false
/-- core_axi_lite.v:576. -/
@[netlist] def w75 (s : S) : Bool :=
  (ssss_enable s) == true
/-- core_axi_lite.v:577. -/
@[netlist] def w77 (s : S) : Bool :=
  decide ((ssss_index s) < 26)
/-- core_axi_lite.v:578. -/
@[netlist] def w79 (s : S) : Bool :=
  (w75 s) && (w77 s)
/-- core_axi_lite.v:579. -/
@[netlist] def w81 (s : S) : Bool :=
  (hw_enable s) == true
/-- core_axi_lite.v:580. -/
@[netlist] def w83 (s : S) : Bool :=
  (debug_enable s) == true
/-- core_axi_lite.v:581. -/
@[netlist] def w86 (s : S) : Nat :=
  (ssss_index s) / 2 ^ 1
/-- core_axi_lite.v:582. -/
@[netlist] def w88 (s : S) : Bool :=
  (ssss_enable s) == true
/-- core_axi_lite.v:583. -/
@[netlist] def w90 (s : S) : Bool :=
  decide ((ssss_index s) < 26)
/-- core_axi_lite.v:584. -/
@[netlist] def w92 (s : S) : Bool :=
  (w88 s) && (w90 s)
/-- core_axi_lite.v:585. -/
@[netlist] def w94 (s : S) : Bool :=
  (hw_enable s) == true
/-- core_axi_lite.v:586. -/
@[netlist] def w96 (s : S) : Bool :=
  (debug_enable s) == true
/-- core_axi_lite.v:1213. -/
@[netlist] def w41 (s : S) (s_axi_ri__araddr : Nat) : Nat :=
  (w42 s s_axi_ri__araddr)
/-- core_axi_lite.v:1214. -/
@[netlist] def w44 (s : S) (s_axi_wi__awaddr : Nat) : Nat :=
  (w45 s s_axi_wi__awaddr)
/-- core_axi_lite.v:1215. -/
@[netlist] def w85 (s : S) : Nat :=
  (w86 s)
/-- core_axi_lite.v:1189-1192. -/
@[netlist] def next_width (s : S) : Nat :=
  slc s.height_width 16 16
/-- core_axi_lite.v:1216. -/
@[netlist] def width (s : S) : Nat :=
  (next_width s)
/-- core_axi_lite.v:1185-1188. -/
@[netlist] def next_height (s : S) : Nat :=
  slc s.height_width 0 16
/-- core_axi_lite.v:1217. -/
@[netlist] def height (s : S) : Nat :=
  (next_height s)
/-- core_axi_lite.v:1181-1184. -/
@[netlist] def next_s_axi_wo__bresp (s : S) : Nat :=
  s.bresp_v
/-- core_axi_lite.v:1218. -/
@[netlist] def s_axi_wo__bresp (s : S) : Nat :=
  (next_s_axi_wo__bresp s)
/-- core_axi_lite.v:1177-1180. -/
@[netlist] def next_s_axi_ro__rresp (s : S) : Nat :=
  s.rresp_v
/-- core_axi_lite.v:1219. -/
@[netlist] def s_axi_ro__rresp (s : S) : Nat :=
  (next_s_axi_ro__rresp s)
/-- core_axi_lite.v:1173-1176. -/
@[netlist] def next_s_axi_ro__rdata (s : S) : Nat :=
  s.rdata_v
/-- core_axi_lite.v:1220. -/
@[netlist] def s_axi_ro__rdata (s : S) : Nat :=
  (next_s_axi_ro__rdata s)
/-- core_axi_lite.v:1169-1172. -/
@[netlist] def next_s_axi_wo__bvalid (s : S) : Bool :=
  s.bvalid_v
/-- core_axi_lite.v:1221. -/
@[netlist] def s_axi_wo__bvalid (s : S) : Bool :=
  (next_s_axi_wo__bvalid s)
/-- core_axi_lite.v:1161-1164. -/
@[netlist] def next_s_axi_wo__wready (s : S) : Bool :=
  s.wready_v
/-- core_axi_lite.v:1222. -/
@[netlist] def s_axi_wo__wready (s : S) : Bool :=
  (next_s_axi_wo__wready s)
/-- core_axi_lite.v:1157-1160. -/
@[netlist] def next_s_axi_wo__awready (s : S) : Bool :=
  s.awready_v
/-- core_axi_lite.v:1223. -/
@[netlist] def s_axi_wo__awready (s : S) : Bool :=
  (next_s_axi_wo__awready s)
/-- core_axi_lite.v:1153-1156. -/
@[netlist] def next_s_axi_ro__rvalid (s : S) : Bool :=
  s.rvalid_v
/-- core_axi_lite.v:1224. -/
@[netlist] def s_axi_ro__rvalid (s : S) : Bool :=
  (next_s_axi_ro__rvalid s)
/-- core_axi_lite.v:1149-1152. -/
@[netlist] def next_s_axi_ro__arready (s : S) : Bool :=
  s.arready_v
/-- core_axi_lite.v:1225. -/
@[netlist] def s_axi_ro__arready (s : S) : Bool :=
  (next_s_axi_ro__arready s)
/-- core_axi_lite.v:652-662. -/
@[netlist] def next_wstrb_v (s : S) (s_axi_wi__wvalid : Bool) (s_axi_wi__wstrb : Nat) : Nat :=
  if s.fsm_state = 8 then (if s_axi_wi__wvalid = true then s_axi_wi__wstrb
    else 0)
  else 0
/-- core_axi_lite.v:1234. -/
@[netlist] def wstrb_v (s : S) (s_axi_wi__wvalid : Bool) (s_axi_wi__wstrb : Nat) : Nat :=
  (next_wstrb_v s s_axi_wi__wvalid s_axi_wi__wstrb)
/-- core_axi_lite.v:641-651. -/
@[netlist] def next_wdata_v (s : S) (s_axi_wi__wvalid : Bool) (s_axi_wi__wdata : Nat) : Nat :=
  if s.fsm_state = 8 then (if s_axi_wi__wvalid = true then s_axi_wi__wdata
    else 0)
  else 0
/-- core_axi_lite.v:1235. -/
@[netlist] def wdata_v (s : S) (s_axi_wi__wvalid : Bool) (s_axi_wi__wdata : Nat) : Nat :=
  (next_wdata_v s s_axi_wi__wvalid s_axi_wi__wdata)
/-- core_axi_lite.v:687-690. -/
@[netlist] def next_rp_data64 (s : S) (rp_data : Nat) : Nat :=
  (w15 s rp_data)
/-- core_axi_lite.v:1227. -/
@[netlist] def rp_data64 (s : S) (rp_data : Nat) : Nat :=
  (next_rp_data64 s rp_data)
/-- core_axi_lite.v:691-759. -/
@[netlist] def next_rp_data64_in (s : S) (rp_data : Nat) (s_axi_wi__wvalid : Bool) (s_axi_wi__wdata : Nat) (s_axi_wi__wstrb : Nat) : Nat :=
  if s.fsm_state = 8 then (if s_axi_wi__wvalid = true then (if (w21 s) = true then (if (w27 s) = true then (
          let e1 := if ((wstrb_v s s_axi_wi__wvalid s_axi_wi__wstrb).testBit 0) = true then put 0 0 8 (slc (wdata_v s s_axi_wi__wvalid s_axi_wi__wdata) 0 8)
          else put 0 0 8 (slc (rp_data64 s rp_data) 0 8)
          let e2 := if ((wstrb_v s s_axi_wi__wvalid s_axi_wi__wstrb).testBit 1) = true then put e1 8 8 (slc (wdata_v s s_axi_wi__wvalid s_axi_wi__wdata) 8 8)
          else put e1 8 8 (slc (rp_data64 s rp_data) 8 8)
          let e3 := if ((wstrb_v s s_axi_wi__wvalid s_axi_wi__wstrb).testBit 2) = true then put e2 16 8 (slc (wdata_v s s_axi_wi__wvalid s_axi_wi__wdata) 16 8)
          else put e2 16 8 (slc (rp_data64 s rp_data) 16 8)
          if ((wstrb_v s s_axi_wi__wvalid s_axi_wi__wstrb).testBit 3) = true then put e3 24 8 (slc (wdata_v s s_axi_wi__wvalid s_axi_wi__wdata) 24 8)
          else put e3 24 8 (slc (rp_data64 s rp_data) 24 8))
        else (
          let e4 := if ((wstrb_v s s_axi_wi__wvalid s_axi_wi__wstrb).testBit 0) = true then put 0 32 8 (w29 s)
          else put 0 32 8 (slc (rp_data64 s rp_data) 32 8)
          let e5 := if ((wstrb_v s s_axi_wi__wvalid s_axi_wi__wstrb).testBit 1) = true then put e4 40 8 (w31 s)
          else put e4 40 8 (slc (rp_data64 s rp_data) 40 8)
          let e6 := if ((wstrb_v s s_axi_wi__wvalid s_axi_wi__wstrb).testBit 2) = true then put e5 48 8 (w33 s)
          else put e5 48 8 (slc (rp_data64 s rp_data) 48 8)
          if ((wstrb_v s s_axi_wi__wvalid s_axi_wi__wstrb).testBit 3) = true then put e6 56 8 (w35 s)
          else put e6 56 8 (slc (rp_data64 s rp_data) 56 8)))
      else 0)
    else 0)
  else 0
/-- core_axi_lite.v:1226. -/
@[netlist] def rp_data64_in (s : S) (rp_data : Nat) (s_axi_wi__wvalid : Bool) (s_axi_wi__wdata : Nat) (s_axi_wi__wstrb : Nat) : Nat :=
  (next_rp_data64_in s rp_data s_axi_wi__wvalid s_axi_wi__wdata s_axi_wi__wstrb)
/-- core_axi_lite.v:679-682. -/
@[netlist] def next_debug_index (s : S) : Nat :=
  slc s.addr_v 0 3
/-- core_axi_lite.v:1229. -/
@[netlist] def debug_index (s : S) : Nat :=
  (next_debug_index s)
/-- core_axi_lite.v:620-632. -/
@[netlist] def debug_module__signal_7 (s : S) : Nat :=
  s.u_debug_module.r_signal_7
/-- core_axi_lite.v:1205-1208. -/
@[netlist] def r_next_signal_14 (s : S) : Nat :=
  (debug_module__signal_7 s)
/-- core_axi_lite.v:1237. -/
@[netlist] def r_signal_14 (s : S) : Nat :=
  (r_next_signal_14 s)
/-- core_axi_lite.v:620-632. -/
@[netlist] def debug_module__signal_6 (s : S) : Nat :=
  s.u_debug_module.r_signal_6
/-- core_axi_lite.v:1201-1204. -/
@[netlist] def r_next_signal_13 (s : S) : Nat :=
  (debug_module__signal_6 s)
/-- core_axi_lite.v:1238. -/
@[netlist] def r_signal_13 (s : S) : Nat :=
  (r_next_signal_13 s)
/-- core_axi_lite.v:620-632. -/
@[netlist] def debug_module__signal_5 (s : S) : Nat :=
  s.u_debug_module.r_signal_5
/-- core_axi_lite.v:1197-1200. -/
@[netlist] def r_next_signal_12 (s : S) : Nat :=
  (debug_module__signal_5 s)
/-- core_axi_lite.v:1239. -/
@[netlist] def r_signal_12 (s : S) : Nat :=
  (r_next_signal_12 s)
/-- core_axi_lite.v:620-632. -/
@[netlist] def debug_module__signal_4 (s : S) : Nat :=
  s.u_debug_module.r_signal_4
/-- core_axi_lite.v:1193-1196. -/
@[netlist] def r_next_signal_11 (s : S) : Nat :=
  (debug_module__signal_4 s)
/-- core_axi_lite.v:1240. -/
@[netlist] def r_signal_11 (s : S) : Nat :=
  (r_next_signal_11 s)
/-- core_axi_lite.v:620-632. -/
@[netlist] def debug_module__signal_3 (s : S) : Nat :=
  s.u_debug_module.r_signal_3
/-- core_axi_lite.v:1165-1168. -/
@[netlist] def r_next_signal_10 (s : S) : Nat :=
  (debug_module__signal_3 s)
/-- core_axi_lite.v:1241. -/
@[netlist] def r_signal_10 (s : S) : Nat :=
  (r_next_signal_10 s)
/-- core_axi_lite.v:620-632. -/
@[netlist] def debug_module__signal_2 (s : S) : Nat :=
  s.u_debug_module.r_signal_2
/-- core_axi_lite.v:974-977. -/
@[netlist] def r_next_signal_9 (s : S) : Nat :=
  (debug_module__signal_2 s)
/-- core_axi_lite.v:1242. -/
@[netlist] def r_signal_9 (s : S) : Nat :=
  (r_next_signal_9 s)
/-- core_axi_lite.v:620-632. -/
@[netlist] def debug_module__signal_1 (s : S) : Nat :=
  s.u_debug_module.r_signal_1
/-- core_axi_lite.v:760-763. -/
@[netlist] def r_next_signal_8 (s : S) : Nat :=
  (debug_module__signal_1 s)
/-- core_axi_lite.v:1243. -/
@[netlist] def r_signal_8 (s : S) : Nat :=
  (r_next_signal_8 s)
/-- core_axi_lite.v:620-632. -/
@[netlist] def debug_module__signal (s : S) : Nat :=
  s.u_debug_module.r_signal
/-- core_axi_lite.v:637-640. -/
@[netlist] def r_next_signal (s : S) : Nat :=
  (debug_module__signal s)
/-- core_axi_lite.v:1244. -/
@[netlist] def r_signal (s : S) : Nat :=
  (r_next_signal s)
/-- core_axi_lite.v:633-636. -/
@[netlist] def next_debug_module_regs_en (s : S) (debug_en : Nat) : Nat :=
  debug_en
/-- core_axi_lite.v:1245. -/
@[netlist] def debug_module_regs_en (s : S) (debug_en : Nat) : Nat :=
  (next_debug_module_regs_en s debug_en)
/-- core_axi_lite.v:764-779. -/
@[netlist] def next_rvalid_v (s : S) (s_axi_ri__rready : Bool) (full_rst : Bool) : Bool :=
  let e1 := if s.fsm_state = 0 then false
  else if s.fsm_state = 5 then (if s_axi_ri__rready = true then true
    else s.rvalid_v)
  else s.rvalid_v
  if full_rst = true then false
  else e1
/-- core_axi_lite.v:780-795. -/
@[netlist] def next_bvalid_v (s : S) (s_axi_wi__bready : Bool) (full_rst : Bool) : Bool :=
  let e1 := if s.fsm_state = 0 then false
  else if s.fsm_state = 9 then (if s_axi_wi__bready = true then true
    else s.bvalid_v)
  else s.bvalid_v
  if full_rst = true then false
  else e1
/-- core_axi_lite.v:796-838. -/
@[netlist] def next_fsm_state (s : S) (s_axi_ri__arvalid : Bool) (s_axi_wi__awvalid : Bool) (s_axi_ri__rready : Bool) (s_axi_wi__wvalid : Bool) (s_axi_wi__bready : Bool) (rst : Bool) : Nat :=
  let e1 := if s.fsm_state = 0 then (if s_axi_ri__arvalid = true then 1
    else if s_axi_wi__awvalid = true then 2
    else s.fsm_state)
  else if s.fsm_state = 1 then 3
  else if s.fsm_state = 3 then 4
  else if s.fsm_state = 4 then 5
  else if s.fsm_state = 5 then (if s_axi_ri__rready = true then 0
    else s.fsm_state)
  else if s.fsm_state = 2 then 6
  else if s.fsm_state = 6 then 7
  else if s.fsm_state = 7 then 8
  else if s.fsm_state = 8 then (if s_axi_wi__wvalid = true then 9
    else s.fsm_state)
  else if s.fsm_state = 9 then (if s_axi_wi__bready = true then 0
    else s.fsm_state)
  else s.fsm_state
  if rst = true then 0
  else e1
/-- core_axi_lite.v:839-851. -/
@[netlist] def next_addr_v (s : S) (s_axi_ri__araddr : Nat) (s_axi_wi__awaddr : Nat) (full_rst : Bool) : Nat :=
  let e1 := if s.fsm_state = 1 then (w37 s s_axi_ri__araddr)
  else if s.fsm_state = 2 then (w39 s s_axi_wi__awaddr)
  else s.addr_v
  if full_rst = true then 0
  else e1
/-- core_axi_lite.v:852-864. -/
@[netlist] def next_rp_addr (s : S) (s_axi_ri__araddr : Nat) (s_axi_wi__awaddr : Nat) (full_rst : Bool) : Nat :=
  let e1 := if s.fsm_state = 1 then slc (w41 s s_axi_ri__araddr) 0 5
  else if s.fsm_state = 2 then slc (w44 s s_axi_wi__awaddr) 0 5
  else s.rp_addr
  if full_rst = true then 0
  else e1
/-- core_axi_lite.v:865-877. -/
@[netlist] def next_arready_v (s : S) (full_rst : Bool) : Bool :=
  let e1 := if s.fsm_state = 1 then true
  else if s.fsm_state = 3 then false
  else s.arready_v
  if full_rst = true then false
  else e1
/-- core_axi_lite.v:878-922. -/
@[netlist] def next_rdata_v (s : S) (rp_data : Nat) (full_rst : Bool) : Nat :=
  let e1 := if s.fsm_state = 5 then (if (w51 s) = true then (if (w57 s) = true then slc (rp_data64 s rp_data) 0 32
      else slc (rp_data64 s rp_data) 32 32)
    else if (w53 s) = true then (if (w59 s) = true then s.height_width
      else (w61 s))
    else if (w55 s) = true then (if (debug_index s) = 0 then (r_signal s)
      else if (debug_index s) = 1 then (r_signal_8 s)
      else if (debug_index s) = 2 then (r_signal_9 s)
      else if (debug_index s) = 3 then (r_signal_10 s)
      else if (debug_index s) = 4 then (r_signal_11 s)
      else if (debug_index s) = 5 then (r_signal_12 s)
      else if (debug_index s) = 6 then (r_signal_13 s)
      else (r_signal_14 s))
    else s.rdata_v)
  else s.rdata_v
  if full_rst = true then 0
  else e1
/-- core_axi_lite.v:923-947. -/
@[netlist] def next_rresp_v (s : S) (full_rst : Bool) : Nat :=
  let e1 := if s.fsm_state = 5 then (if (w67 s) = true then 0
    else if (w69 s) = true then (if (w73 s) = true then 0
      else 0)
    else if (w71 s) = true then 0
    else 3)
  else s.rresp_v
  if full_rst = true then 0
  else e1
/-- core_axi_lite.v:948-960. -/
@[netlist] def next_awready_v (s : S) (full_rst : Bool) : Bool :=
  let e1 := if s.fsm_state = 2 then true
  else if s.fsm_state = 6 then false
  else s.awready_v
  if full_rst = true then false
  else e1
/-- core_axi_lite.v:961-973. -/
@[netlist] def next_wready_v (s : S) (full_rst : Bool) : Bool :=
  let e1 := if s.fsm_state = 8 then true
  else if s.fsm_state = 9 then false
  else s.wready_v
  if full_rst = true then false
  else e1
/-- core_axi_lite.v:978-994. -/
@[netlist] def next_wp_addr (s : S) (s_axi_wi__wvalid : Bool) (full_rst : Bool) : Nat :=
  let e1 := if s.fsm_state = 8 then (if s_axi_wi__wvalid = true then (if (w79 s) = true then slc (w85 s) 0 5
      else s.wp_addr)
    else s.wp_addr)
  else s.wp_addr
  if full_rst = true then 0
  else e1
/-- core_axi_lite.v:995-1011. -/
@[netlist] def next_wp_data (s : S) (rp_data : Nat) (s_axi_wi__wvalid : Bool) (s_axi_wi__wdata : Nat) (s_axi_wi__wstrb : Nat) (full_rst : Bool) : Nat :=
  let e1 := if s.fsm_state = 8 then (if s_axi_wi__wvalid = true then (if (w92 s) = true then slc (rp_data64_in s rp_data s_axi_wi__wvalid s_axi_wi__wdata s_axi_wi__wstrb) 0 33
      else s.wp_data)
    else s.wp_data)
  else s.wp_data
  if full_rst = true then 0
  else e1
/-- core_axi_lite.v:1012-1030. -/
@[netlist] def next_wp_en (s : S) (s_axi_wi__wvalid : Bool) (full_rst : Bool) : Bool :=
  let e1 := if s.fsm_state = 8 then (if s_axi_wi__wvalid = true then (if (w102 s) = true then true
      else s.wp_en)
    else s.wp_en)
  else if s.fsm_state = 9 then false
  else s.wp_en
  if full_rst = true then false
  else e1
/-- core_axi_lite.v:1031-1053. -/
@[netlist] def next_bresp_v (s : S) (s_axi_wi__wvalid : Bool) (full_rst : Bool) : Nat :=
  let e1 := if s.fsm_state = 8 then (if s_axi_wi__wvalid = true then (if (w112 s) = true then 0
      else if (w114 s) = true then 0
      else if (w116 s) = true then 2
      else 3)
    else s.bresp_v)
  else s.bresp_v
  if full_rst = true then 0
  else e1
/-- core_axi_lite.v:1054-1101. -/
@[netlist] def next_height_width (s : S) (s_axi_wi__wvalid : Bool) (s_axi_wi__wdata : Nat) (s_axi_wi__wstrb : Nat) (full_rst : Bool) : Nat :=
  let e4 := if s.fsm_state = 8 then (if s_axi_wi__wvalid = true then (if (w122 s) = true then s.height_width
      else if (w124 s) = true then (
        let e1 := if ((wstrb_v s s_axi_wi__wvalid s_axi_wi__wstrb).testBit 0) = true then (if (w128 s) = true then put s.height_width 0 8 (slc (wdata_v s s_axi_wi__wvalid s_axi_wi__wdata) 0 8)
          else s.height_width)
        else s.height_width
        let e2 := if ((wstrb_v s s_axi_wi__wvalid s_axi_wi__wstrb).testBit 1) = true then (if (w130 s) = true then put e1 8 8 (slc (wdata_v s s_axi_wi__wvalid s_axi_wi__wdata) 8 8)
          else e1)
        else e1
        let e3 := if ((wstrb_v s s_axi_wi__wvalid s_axi_wi__wstrb).testBit 2) = true then (if (w132 s) = true then put e2 16 8 (slc (wdata_v s s_axi_wi__wvalid s_axi_wi__wdata) 16 8)
          else e2)
        else e2
        if ((wstrb_v s s_axi_wi__wvalid s_axi_wi__wstrb).testBit 3) = true then (if (w134 s) = true then put e3 24 8 (slc (wdata_v s s_axi_wi__wvalid s_axi_wi__wdata) 24 8)
          else e3)
        else e3)
      else s.height_width)
    else s.height_width)
  else s.height_width
  if full_rst = true then 0
  else e4
/-- core_axi_lite.v:1102-1148. -/
@[netlist] def next_allowed_cycles (s : S) (s_axi_wi__wvalid : Bool) (s_axi_wi__wdata : Nat) (s_axi_wi__wstrb : Nat) (full_rst : Bool) : Nat :=
  let e3 := if s.fsm_state = 8 then (if s_axi_wi__wvalid = true then (if (w140 s) = true then s.allowed_cycles
      else if (w142 s) = true then (
        let e1 := if ((wstrb_v s s_axi_wi__wvalid s_axi_wi__wstrb).testBit 0) = true then (if (w146 s) = true then s.allowed_cycles
          else put s.allowed_cycles 0 8 (slc (wdata_v s s_axi_wi__wvalid s_axi_wi__wdata) 0 8))
        else s.allowed_cycles
        let e2 := if ((wstrb_v s s_axi_wi__wvalid s_axi_wi__wstrb).testBit 1) = true then (if (w148 s) = true then e1
          else put e1 8 8 (slc (wdata_v s s_axi_wi__wvalid s_axi_wi__wdata) 8 8))
        else e1
        if ((wstrb_v s s_axi_wi__wvalid s_axi_wi__wstrb).testBit 2) = true then (if (w150 s) = true then e2
          else put e2 16 8 (slc (wdata_v s s_axi_wi__wvalid s_axi_wi__wdata) 16 8))
        else e2)
      else s.allowed_cycles)
    else s.allowed_cycles)
  else s.allowed_cycles
  if full_rst = true then 0
  else e3

/-- core_axi_lite.v:201-1246: one rising clock edge (`always @(posedge ...)`). -/
@[netlist] def step (s : S) (rp_data : Nat) (s_axi_ri__arvalid : Bool) (s_axi_wi__awvalid : Bool) (s_axi_ri__araddr : Nat) (s_axi_ri__rready : Bool) (s_axi_wi__awaddr : Nat) (s_axi_wi__wvalid : Bool) (s_axi_wi__wdata : Nat) (s_axi_wi__wstrb : Nat) (s_axi_wi__bready : Bool) (full_rst : Bool) (rst : Bool) (debug_en : Nat) : S :=
  { allowed_cycles := (next_allowed_cycles s s_axi_wi__wvalid s_axi_wi__wdata s_axi_wi__wstrb full_rst)
    rdata_v := (next_rdata_v s rp_data full_rst)
    arready_v := (next_arready_v s full_rst)
    rp_addr := (next_rp_addr s s_axi_ri__araddr s_axi_wi__awaddr full_rst)
    addr_v := (next_addr_v s s_axi_ri__araddr s_axi_wi__awaddr full_rst)
    fsm_state := (next_fsm_state s s_axi_ri__arvalid s_axi_wi__awvalid s_axi_ri__rready s_axi_wi__wvalid s_axi_wi__bready rst)
    bvalid_v := (next_bvalid_v s s_axi_wi__bready full_rst)
    rvalid_v := (next_rvalid_v s s_axi_ri__rready full_rst)
    height_width := (next_height_width s s_axi_wi__wvalid s_axi_wi__wdata s_axi_wi__wstrb full_rst)
    bresp_v := (next_bresp_v s s_axi_wi__wvalid full_rst)
    wp_en := (next_wp_en s s_axi_wi__wvalid full_rst)
    wp_data := (next_wp_data s rp_data s_axi_wi__wvalid s_axi_wi__wdata s_axi_wi__wstrb full_rst)
    wp_addr := (next_wp_addr s s_axi_wi__wvalid full_rst)
    wready_v := (next_wready_v s full_rst)
    awready_v := (next_awready_v s full_rst)
    rresp_v := (next_rresp_v s full_rst)
    u_debug_module := debug_module.step s.u_debug_module full_rst (debug_module_regs_en s debug_en) }

/-- core_axi_lite.v:201-1246: the initial values given in the netlist. -/
def Init (s : S) : Prop :=
  s.allowed_cycles = 0 ∧
  s.rdata_v = 0 ∧
  s.arready_v = false ∧
  s.rp_addr = 0 ∧
  s.addr_v = 0 ∧
  s.fsm_state = 0 ∧
  s.bvalid_v = false ∧
  s.rvalid_v = false ∧
  s.height_width = 0 ∧
  s.bresp_v = 0 ∧
  s.wp_en = false ∧
  s.wp_data = 0 ∧
  s.wp_addr = 0 ∧
  s.wready_v = false ∧
  s.awready_v = false ∧
  s.rresp_v = 0 ∧
  debug_module.Init s.u_debug_module

/-- core_axi_lite.v:201-1246: a state with these initial values; registers without one are 0. -/
def powerUp : S :=
  { allowed_cycles := 0
    rdata_v := 0
    arready_v := false
    rp_addr := 0
    addr_v := 0
    fsm_state := 0
    bvalid_v := false
    rvalid_v := false
    height_width := 0
    bresp_v := 0
    wp_en := false
    wp_data := 0
    wp_addr := 0
    wready_v := false
    awready_v := false
    rresp_v := 0
    u_debug_module := debug_module.powerUp }

theorem powerUp_init : Init powerUp := ⟨rfl, rfl, rfl, rfl, rfl, rfl, rfl, rfl, rfl, rfl, rfl, rfl, rfl, rfl, rfl, rfl, debug_module.powerUp_init⟩

end top

end Netlist.CoreLiteV
