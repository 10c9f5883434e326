/- Generated by netlist/v2lean.py from verilog_src/axihp_writer.v.  Do not edit. -/
import Verif.Netlist.Basic

set_option autoImplicit false
set_option linter.unusedVariables false

namespace Netlist.HpWriterV
open Netlist

namespace top

/-- axihp_writer.v:6-534: registers, memories and instances of module `top`. -/
structure S where
  unconf : Nat
  active : Nat
  bready : Bool
  wvalid : Bool
  wlast : Bool
  counter : Nat
  awvalid : Bool

/-- axihp_writer.v:221. -/
@[netlist] def w9 (s : S) (enable : Bool) : Bool :=
  enable == true
/-- axihp_writer.v:222. -/
@[netlist] def w11 (s : S) (addr_empty : Bool) : Bool :=
  addr_empty == false
/-- axihp_writer.v:223. -/
@[netlist] def w13 (s : S) (enable : Bool) (addr_empty : Bool) : Bool :=
  (w9 s enable) && (w11 s addr_empty)
/-- axihp_writer.v:224. -/
@[netlist] def w15 (s : S) : Bool :=
  (s.active.testBit 3) == false
/-- axihp_writer.v:225. -/
@[netlist] def w17 (s : S) (enable : Bool) (addr_empty : Bool) : Bool :=
  (w13 s enable addr_empty) && (w15 s)
/-- axihp_writer.v:226. -/
@[netlist] def w1 (s : S) : Bool :=
  s.awvalid == true
/-- axihp_writer.v:227. -/
@[netlist] def w19 (s : S) : Bool :=
  s.counter == 15
/-- axihp_writer.v:228. -/
@[netlist] def w22 (s : S) : Nat :=
  (s.counter + 1) % 2 ^ 5
/-- axihp_writer.v:229. -/
@[netlist] def w24 (s : S) : Bool :=
  s.counter == 15
/-- axihp_writer.v:230. -/
@[netlist] def w26 (s : S) : Bool :=
  s.wvalid == true
/-- axihp_writer.v:231. -/
@[netlist] def w28 (s : S) (m_axi_wi__wready : Bool) : Bool :=
  m_axi_wi__wready == true
/-- axihp_writer.v:232. -/
@[netlist] def w30 (s : S) (m_axi_wi__wready : Bool) : Bool :=
  (w26 s) && (w28 s m_axi_wi__wready)
/-- axihp_writer.v:233. -/
@[netlist] def w32 (s : S) : Bool :=
  s.wvalid == false
/-- axihp_writer.v:234. -/
@[netlist] def w34 (s : S) (data_empty : Bool) : Bool :=
  data_empty == false
/-- axihp_writer.v:235. -/
@[netlist] def w36 (s : S) : Bool :=
  s.active != 0
/-- axihp_writer.v:236. -/
@[netlist] def w38 (s : S) (data_empty : Bool) : Bool :=
  (w34 s data_empty) && (w36 s)
/-- axihp_writer.v:237. -/
@[netlist] def w3 (s : S) (m_axi_wi__awready : Bool) : Bool :=
  m_axi_wi__awready == true
/-- axihp_writer.v:238. -/
@[netlist] def w40 (s : S) : Bool :=
  s.bready == true
/-- axihp_writer.v:239. -/
@[netlist] def w42 (s : S) (m_axi_wi__bvalid : Bool) : Bool :=
  m_axi_wi__bvalid == true
/-- axihp_writer.v:240. -/
@[netlist] def w44 (s : S) (m_axi_wi__bvalid : Bool) : Bool :=
  (w40 s) && (w42 s m_axi_wi__bvalid)
/-- axihp_writer.v:241. -/
@[netlist] def w46 (s : S) : Bool :=
  s.bready == false
/-- axihp_writer.v:242. -/
@[netlist] def w48 (s : S) : Bool :=
  s.unconf == 0
/-- axihp_writer.v:306-309. -/
@[netlist] def next_resp_en (s : S) (m_axi_wi__bvalid : Bool) : Bool :=
  (w44 s m_axi_wi__bvalid)
/-- axihp_writer.v:523. -/
@[netlist] def resp_en (s : S) (m_axi_wi__bvalid : Bool) : Bool :=
  (next_resp_en s m_axi_wi__bvalid)
/-- axihp_writer.v:243. -/
@[netlist] def w50 (s : S) (m_axi_wi__bvalid : Bool) : Bool :=
  (resp_en s m_axi_wi__bvalid) == true
/-- axihp_writer.v:244. -/
@[netlist] def w52 (s : S) (m_axi_wi__bresp : Nat) : Bool :=
  m_axi_wi__bresp != 0
/-- axihp_writer.v:245. -/
@[netlist] def w54 (s : S) (m_axi_wi__bvalid : Bool) (m_axi_wi__bresp : Nat) : Bool :=
  (w50 s m_axi_wi__bvalid) && (w52 s m_axi_wi__bresp)
/-- axihp_writer.v:248. -/
@[netlist] def w5 (s : S) (m_axi_wi__awready : Bool) : Bool :=
  (w1 s) && (w3 s m_axi_wi__awready)
/-- axihp_writer.v:286-289. -/
@[netlist] def next_addr_en (s : S) (m_axi_wi__awready : Bool) : Bool :=
  (w5 s m_axi_wi__awready)
/-- axihp_writer.v:532. -/
@[netlist] def addr_en (s : S) (m_axi_wi__awready : Bool) : Bool :=
  (next_addr_en s m_axi_wi__awready)
/-- axihp_writer.v:246. -/
@[netlist] def w56 (s : S) (m_axi_wi__awready : Bool) : Bool :=
  (addr_en s m_axi_wi__awready) == true
/-- axihp_writer.v:247. -/
@[netlist] def w58 (s : S) : Bool :=
  s.wlast == false
/-- axihp_writer.v:249. -/
@[netlist] def w60 (s : S) (m_axi_wi__awready : Bool) : Bool :=
  (w56 s m_axi_wi__awready) && (w58 s)
/-- axihp_writer.v:250. -/
@[netlist] def w62 (s : S) (m_axi_wi__awready : Bool) : Bool :=
  (addr_en s m_axi_wi__awready) == false
/-- axihp_writer.v:251. -/
@[netlist] def w64 (s : S) : Bool :=
  s.wlast == true
/-- axihp_writer.v:252. -/
@[netlist] def w66 (s : S) (m_axi_wi__awready : Bool) : Bool :=
  (w62 s m_axi_wi__awready) && (w64 s)
/-- axihp_writer.v:253. -/
@[netlist] def w69 (s : S) : Nat :=
  (s.active + 1) % 2 ^ 5
/-- axihp_writer.v:254. -/
@[netlist] def w72 (s : S) : Nat :=
  (2 ^ 5 + s.active - 1) % 2 ^ 5
/-- axihp_writer.v:255. -/
@[netlist] def w74 (s : S) (m_axi_wi__awready : Bool) : Bool :=
  (addr_en s m_axi_wi__awready) == true
/-- axihp_writer.v:256. -/
@[netlist] def w76 (s : S) (m_axi_wi__bvalid : Bool) : Bool :=
  (resp_en s m_axi_wi__bvalid) == false
/-- axihp_writer.v:257. -/
@[netlist] def w78 (s : S) (m_axi_wi__bvalid : Bool) (m_axi_wi__awready : Bool) : Bool :=
  (w74 s m_axi_wi__awready) && (w76 s m_axi_wi__bvalid)
/-- axihp_writer.v:258. -/
@[netlist] def w7 (s : S) : Bool :=
  s.awvalid == false
/-- axihp_writer.v:259. -/
@[netlist] def w80 (s : S) (m_axi_wi__awready : Bool) : Bool :=
  (addr_en s m_axi_wi__awready) == false
/-- axihp_writer.v:260. -/
@[netlist] def w82 (s : S) (m_axi_wi__bvalid : Bool) : Bool :=
  (resp_en s m_axi_wi__bvalid) == true
/-- axihp_writer.v:261. -/
@[netlist] def w84 (s : S) (m_axi_wi__bvalid : Bool) (m_axi_wi__awready : Bool) : Bool :=
  (w80 s m_axi_wi__awready) && (w82 s m_axi_wi__bvalid)
/-- axihp_writer.v:262. -/
@[netlist] def w87 (s : S) : Nat :=
  (s.unconf + 1) % 2 ^ 5
/-- axihp_writer.v:263. -/
@[netlist] def w90 (s : S) : Nat :=
  (2 ^ 5 + s.unconf - 1) % 2 ^ 5
/-- axihp_writer.v:264. -/
@[netlist] def w92 (s : S) : Bool :=
  s.active == 0
/-- axihp_writer.v:265. -/
@[netlist] def w94 (s : S) : Bool :=
  s.unconf == 0
/-- axihp_writer.v:266. -/
@[netlist] def w96 (s : S) : Bool :=
  (w92 s) && (w94 s)
/-- axihp_writer.v:504. -/
@[netlist] def w21 (s : S) : Nat :=
  (w22 s)
/-- axihp_writer.v:505. -/
@[netlist] def w68 (s : S) : Nat :=
  (w69 s)
/-- axihp_writer.v:506. -/
@[netlist] def w71 (s : S) : Nat :=
  (w72 s)
/-- axihp_writer.v:507. -/
@[netlist] def w86 (s : S) : Nat :=
  (w87 s)
/-- axihp_writer.v:508. -/
@[netlist] def w89 (s : S) : Nat :=
  (w90 s)
/-- axihp_writer.v:437-440. -/
@[netlist] def next_writer_unconf (s : S) : Nat :=
  s.unconf
/-- axihp_writer.v:509. -/
@[netlist] def writer_unconf (s : S) : Nat :=
  (next_writer_unconf s)
/-- axihp_writer.v:433-436. -/
@[netlist] def next_writer_active (s : S) : Nat :=
  s.active
/-- axihp_writer.v:510. -/
@[netlist] def writer_active (s : S) : Nat :=
  (next_writer_active s)
/-- axihp_writer.v:416-420. -/
@[netlist] def next_m_axi_wo__awprot (s : S) : Nat :=
  0
/-- axihp_writer.v:513. -/
@[netlist] def m_axi_wo__awprot (s : S) : Nat :=
  (next_m_axi_wo__awprot s)
/-- axihp_writer.v:412-415. -/
@[netlist] def next_m_axi_wo__wstrb (s : S) (write_strobe : Nat) : Nat :=
  write_strobe
/-- axihp_writer.v:514. -/
@[netlist] def m_axi_wo__wstrb (s : S) (write_strobe : Nat) : Nat :=
  (next_m_axi_wo__wstrb s write_strobe)
/-- axihp_writer.v:407-411. -/
@[netlist] def next_m_axi_wo__awsize (s : S) : Nat :=
  3
/-- axihp_writer.v:515. -/
@[netlist] def m_axi_wo__awsize (s : S) : Nat :=
  (next_m_axi_wo__awsize s)
/-- axihp_writer.v:402-406. -/
@[netlist] def next_m_axi_wo__awburst (s : S) : Nat :=
  1
/-- axihp_writer.v:516. -/
@[netlist] def m_axi_wo__awburst (s : S) : Nat :=
  (next_m_axi_wo__awburst s)
/-- axihp_writer.v:281-285. -/
@[netlist] def next_awlen_c (s : S) : Nat :=
  15
/-- axihp_writer.v:533. -/
@[netlist] def awlen_c (s : S) : Nat :=
  (next_awlen_c s)
/-- axihp_writer.v:398-401. -/
@[netlist] def next_m_axi_wo__awlen (s : S) : Nat :=
  (awlen_c s)
/-- axihp_writer.v:517. -/
@[netlist] def m_axi_wo__awlen (s : S) : Nat :=
  (next_m_axi_wo__awlen s)
/-- axihp_writer.v:393-397. -/
@[netlist] def next_m_axi_wo__wid (s : S) : Nat :=
  0
/-- axihp_writer.v:518. -/
@[netlist] def m_axi_wo__wid (s : S) : Nat :=
  (next_m_axi_wo__wid s)
/-- axihp_writer.v:388-392. -/
@[netlist] def next_m_axi_wo__awid (s : S) : Nat :=
  0
/-- axihp_writer.v:519. -/
@[netlist] def m_axi_wo__awid (s : S) : Nat :=
  (next_m_axi_wo__awid s)
/-- axihp_writer.v:384-387. -/
@[netlist] def next_inactive (s : S) : Bool :=
  (w96 s)
/-- axihp_writer.v:520. -/
@[netlist] def inactive (s : S) : Bool :=
  (next_inactive s)
/-- axihp_writer.v:333-336. -/
@[netlist] def next_writer_error (s : S) (m_axi_wi__bvalid : Bool) (m_axi_wi__bresp : Nat) : Bool :=
  (w54 s m_axi_wi__bvalid m_axi_wi__bresp)
/-- axihp_writer.v:521. -/
@[netlist] def writer_error (s : S) (m_axi_wi__bvalid : Bool) (m_axi_wi__bresp : Nat) : Bool :=
  (next_writer_error s m_axi_wi__bvalid m_axi_wi__bresp)
/-- axihp_writer.v:329-332. -/
@[netlist] def next_m_axi_wo__bready (s : S) : Bool :=
  s.bready
/-- axihp_writer.v:522. -/
@[netlist] def m_axi_wo__bready (s : S) : Bool :=
  (next_m_axi_wo__bready s)
/-- axihp_writer.v:481-484. -/
@[netlist] def next_data_en (s : S) (m_axi_wi__wready : Bool) : Bool :=
  (w30 s m_axi_wi__wready)
/-- axihp_writer.v:528. -/
@[netlist] def data_en (s : S) (m_axi_wi__wready : Bool) : Bool :=
  (next_data_en s m_axi_wi__wready)
/-- axihp_writer.v:302-305. -/
@[netlist] def next_data_enable (s : S) (m_axi_wi__wready : Bool) : Bool :=
  (data_en s m_axi_wi__wready)
/-- axihp_writer.v:524. -/
@[netlist] def data_enable (s : S) (m_axi_wi__wready : Bool) : Bool :=
  (next_data_enable s m_axi_wi__wready)
/-- axihp_writer.v:298-301. -/
@[netlist] def next_m_axi_wo__wlast (s : S) : Bool :=
  s.wlast
/-- axihp_writer.v:525. -/
@[netlist] def m_axi_wo__wlast (s : S) : Bool :=
  (next_m_axi_wo__wlast s)
/-- axihp_writer.v:294-297. -/
@[netlist] def next_m_axi_wo__wvalid (s : S) : Bool :=
  s.wvalid
/-- axihp_writer.v:526. -/
@[netlist] def m_axi_wo__wvalid (s : S) : Bool :=
  (next_m_axi_wo__wvalid s)
/-- axihp_writer.v:290-293. -/
@[netlist] def next_m_axi_wo__wdata (s : S) (data_in : Nat) : Nat :=
  data_in
/-- axihp_writer.v:527. -/
@[netlist] def m_axi_wo__wdata (s : S) (data_in : Nat) : Nat :=
  (next_m_axi_wo__wdata s data_in)
/-- axihp_writer.v:445-448. -/
@[netlist] def next_addr_enable (s : S) (m_axi_wi__awready : Bool) : Bool :=
  (addr_en s m_axi_wi__awready)
/-- axihp_writer.v:529. -/
@[netlist] def addr_enable (s : S) (m_axi_wi__awready : Bool) : Bool :=
  (next_addr_enable s m_axi_wi__awready)
/-- axihp_writer.v:441-444. -/
@[netlist] def next_m_axi_wo__awvalid (s : S) : Bool :=
  s.awvalid
/-- axihp_writer.v:530. -/
@[netlist] def m_axi_wo__awvalid (s : S) : Bool :=
  (next_m_axi_wo__awvalid s)
/-- axihp_writer.v:429-432. -/
@[netlist] def next_m_axi_wo__awaddr (s : S) (addr_in : Nat) : Nat :=
  addr_in
/-- axihp_writer.v:531. -/
@[netlist] def m_axi_wo__awaddr (s : S) (addr_in : Nat) : Nat :=
  (next_m_axi_wo__awaddr s addr_in)
/-- axihp_writer.v:310-328. -/
@[netlist] def next_bready (s : S) (enable : Bool) (rst : Bool) : Bool :=
  let e1 := if (w46 s) = true then (if enable = true then true
    else s.bready)
  else (if (w48 s) = true then false
    else s.bready)
  if rst = true then false
  else e1
/-- axihp_writer.v:337-349. -/
@[netlist] def next_active (s : S) (rst : Bool) (m_axi_wi__awready : Bool) : Nat :=
  let e1 := if (w60 s m_axi_wi__awready) = true then slc (w68 s) 0 4
  else if (w66 s m_axi_wi__awready) = true then slc (w71 s) 0 4
  else s.active
  if rst = true then 0
  else e1
/-- axihp_writer.v:350-362. -/
@[netlist] def next_unconf (s : S) (m_axi_wi__bvalid : Bool) (rst : Bool) (m_axi_wi__awready : Bool) : Nat :=
  let e1 := if (w78 s m_axi_wi__bvalid m_axi_wi__awready) = true then slc (w86 s) 0 4
  else if (w84 s m_axi_wi__bvalid m_axi_wi__awready) = true then slc (w89 s) 0 4
  else s.unconf
  if rst = true then 0
  else e1
/-- axihp_writer.v:363-383. -/
@[netlist] def next_awvalid (s : S) (enable : Bool) (addr_empty : Bool) (rst : Bool) (m_axi_wi__awready : Bool) : Bool :=
  let e1 := if (w7 s) = true then (if (w17 s enable addr_empty) = true then true
    else s.awvalid)
  else s.awvalid
  let e2 := if s.awvalid = true then (if m_axi_wi__awready = true then false
    else e1)
  else e1
  if rst = true then false
  else e2
/-- axihp_writer.v:449-464. -/
@[netlist] def next_counter (s : S) (m_axi_wi__wready : Bool) (rst : Bool) : Nat :=
  let e1 := if (data_en s m_axi_wi__wready) = true then (if (w19 s) = true then 0
    else slc (w21 s) 0 4)
  else s.counter
  if rst = true then 0
  else e1
/-- axihp_writer.v:465-480. -/
@[netlist] def next_wlast (s : S) (m_axi_wi__wready : Bool) (rst : Bool) : Bool :=
  let e1 := if (data_en s m_axi_wi__wready) = true then (if (w24 s) = true then true
    else false)
  else s.wlast
  if rst = true then false
  else e1
/-- axihp_writer.v:485-503. -/
@[netlist] def next_wvalid (s : S) (data_empty : Bool) (rst : Bool) : Bool :=
  let e1 := if (w32 s) = true then (if (w38 s data_empty) = true then true
    else s.wvalid)
  else (if s.wlast = true then false
    else s.wvalid)
  if rst = true then false
  else e1

/-- axihp_writer.v:6-534: one rising clock edge (`always @(posedge ...)`). -/
@[netlist] def step (s : S) (enable : Bool) (addr_empty : Bool) (addr_in : Nat) (m_axi_wi__wready : Bool) (data_empty : Bool) (data_in : Nat) (m_axi_wi__bvalid : Bool) (m_axi_wi__bresp : Nat) (write_strobe : Nat) (m_axi_aclk : Bool) (rst : Bool) (m_axi_wi__awready : Bool) : S :=
  { unconf := (next_unconf s m_axi_wi__bvalid rst m_axi_wi__awready)
    active := (next_active s rst m_axi_wi__awready)
    bready := (next_bready s enable rst)
    wvalid := (next_wvalid s data_empty rst)
    wlast := (next_wlast s m_axi_wi__wready rst)
    counter := (next_counter s m_axi_wi__wready rst)
    awvalid := (next_awvalid s enable addr_empty rst m_axi_wi__awready) }

/-- axihp_writer.v:6-534: the initial values given in the netlist. -/
def Init (s : S) : Prop :=
  s.unconf = 0 ∧
  s.active = 0 ∧
  s.bready = false ∧
  s.wvalid = false ∧
  s.wlast = false ∧
  s.counter = 0 ∧
  s.awvalid = false

/-- axihp_writer.v:6-534: a state with these initial values; registers without one are 0. -/
def powerUp : S :=
  { unconf := 0
    active := 0
    bready := false
    wvalid := false
    wlast := false
    counter := 0
    awvalid := false }

theorem powerUp_init : Init powerUp := ⟨rfl, rfl, rfl, rfl, rfl, rfl, rfl⟩

end top

end Netlist.HpWriterV
