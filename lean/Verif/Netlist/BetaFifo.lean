/- Generated by netlist/v2lean.py from verilog_src/beta_integration_fifo_axistream.v.  Do not edit. -/
import Verif.Netlist.Beta

set_option autoImplicit false
set_option linter.unusedVariables false

namespace Netlist.BetaFifo
open Netlist

namespace b64_b32

/-- beta_integration_fifo_axistream.v:1138-1459: registers, memories and instances of module `b64_b32`. -/
structure S where
  half_latched : Bool
  valid_out : Bool
  data_out : Nat
  reg_valid : Bool
  reg : Nat
  o_busy : Bool

/-- beta_integration_fifo_axistream.v:1278. -/
@[netlist] def w1 (s : S) : Bool :=
  s.reg_valid == true
/-- beta_integration_fifo_axistream.v:1289. -/
@[netlist] def w3 (s : S) (i_busy : Bool) : Bool :=
  i_busy == false
/-- beta_integration_fifo_axistream.v:1300. -/
@[netlist] def w5 (s : S) (i_busy : Bool) : Bool :=
  (w1 s) && (w3 s i_busy)
/-- beta_integration_fifo_axistream.v:1311. -/
@[netlist] def w7 (s : S) : Bool :=
  s.valid_out == true
/-- beta_integration_fifo_axistream.v:1256. -/
@[netlist] def w9 (s : S) (i_busy : Bool) : Bool :=
  (w5 s i_busy) && (w7 s)
/-- beta_integration_fifo_axistream.v:1257. -/
@[netlist] def w99 (s : S) : Bool :=
  s.half_latched == true
/-- beta_integration_fifo_axistream.v:1258. -/
@[netlist] def w101 (s : S) : Bool :=
  s.reg_valid == false
/-- beta_integration_fifo_axistream.v:1259. -/
@[netlist] def w103 (s : S) (i_busy : Bool) : Bool :=
  i_busy == false
/-- beta_integration_fifo_axistream.v:1260. -/
@[netlist] def w105 (s : S) (i_busy : Bool) : Bool :=
  (w101 s) && (w103 s i_busy)
/-- beta_integration_fifo_axistream.v:1261. -/
@[netlist] def w107 (s : S) : Bool :=
  s.valid_out == true
/-- beta_integration_fifo_axistream.v:1262. -/
@[netlist] def w109 (s : S) (i_busy : Bool) : Bool :=
  (w105 s i_busy) && (w107 s)
/-- beta_integration_fifo_axistream.v:1263. -/
@[netlist] def w111 (s : S) : Bool :=
  s.reg_valid == true
/-- beta_integration_fifo_axistream.v:1264. -/
@[netlist] def w113 (s : S) : Bool :=
  s.valid_out == false
/-- beta_integration_fifo_axistream.v:1265. -/
@[netlist] def w115 (s : S) : Bool :=
  (w111 s) && (w113 s)
/-- beta_integration_fifo_axistream.v:1266. -/
@[netlist] def w117 (s : S) : Bool :=
  s.half_latched == false
/-- beta_integration_fifo_axistream.v:1267. -/
@[netlist] def w11 (s : S) : Bool :=
  s.half_latched == true
/-- beta_integration_fifo_axistream.v:1268. -/
@[netlist] def w119 (s : S) : Bool :=
  (w115 s) && (w117 s)
/-- beta_integration_fifo_axistream.v:1269. -/
@[netlist] def w121 (s : S) : Bool :=
  s.reg_valid == true
/-- beta_integration_fifo_axistream.v:1270. -/
@[netlist] def w123 (s : S) (i_busy : Bool) : Bool :=
  i_busy == false
/-- beta_integration_fifo_axistream.v:1271. -/
@[netlist] def w125 (s : S) (i_busy : Bool) : Bool :=
  (w121 s) && (w123 s i_busy)
/-- beta_integration_fifo_axistream.v:1272. -/
@[netlist] def w127 (s : S) : Bool :=
  s.valid_out == true
/-- beta_integration_fifo_axistream.v:1273. -/
@[netlist] def w129 (s : S) (i_busy : Bool) : Bool :=
  (w125 s i_busy) && (w127 s)
/-- beta_integration_fifo_axistream.v:1274. -/
@[netlist] def w131 (s : S) : Bool :=
  s.half_latched == true
/-- beta_integration_fifo_axistream.v:1275. -/
@[netlist] def w13 (s : S) (valid_in : Bool) : Bool :=
  valid_in == true
/-- beta_integration_fifo_axistream.v:1276. -/
@[netlist] def w15 (s : S) : Bool :=
  s.reg_valid == false
/-- beta_integration_fifo_axistream.v:1342-1352. -/
@[netlist] def next_reg_tobe_invalid (s : S) (i_busy : Bool) : Bool :=
  if (w9 s i_busy) = true then (if (w11 s) = true then true
    else false)
  else false
/-- beta_integration_fifo_axistream.v:1458. -/
@[netlist] def reg_tobe_invalid (s : S) (i_busy : Bool) : Bool :=
  (next_reg_tobe_invalid s i_busy)
/-- beta_integration_fifo_axistream.v:1277. -/
@[netlist] def w17 (s : S) (i_busy : Bool) : Bool :=
  (reg_tobe_invalid s i_busy) == true
/-- beta_integration_fifo_axistream.v:1279. -/
@[netlist] def w19 (s : S) (i_busy : Bool) : Bool :=
  (w15 s) || (w17 s i_busy)
/-- beta_integration_fifo_axistream.v:1280. -/
@[netlist] def w21 (s : S) (i_busy : Bool) (valid_in : Bool) : Bool :=
  (w13 s valid_in) && (w19 s i_busy)
/-- beta_integration_fifo_axistream.v:1281. -/
@[netlist] def w23 (s : S) (valid_in : Bool) : Bool :=
  valid_in == true
/-- beta_integration_fifo_axistream.v:1282. -/
@[netlist] def w25 (s : S) : Bool :=
  s.reg_valid == false
/-- beta_integration_fifo_axistream.v:1283. -/
@[netlist] def w27 (s : S) (i_busy : Bool) : Bool :=
  (reg_tobe_invalid s i_busy) == true
/-- beta_integration_fifo_axistream.v:1284. -/
@[netlist] def w29 (s : S) (i_busy : Bool) : Bool :=
  (w25 s) || (w27 s i_busy)
/-- beta_integration_fifo_axistream.v:1285. -/
@[netlist] def w31 (s : S) (i_busy : Bool) (valid_in : Bool) : Bool :=
  (w23 s valid_in) && (w29 s i_busy)
/-- beta_integration_fifo_axistream.v:1286. -/
@[netlist] def w33 (s : S) (valid_in : Bool) : Bool :=
  valid_in == true
/-- beta_integration_fifo_axistream.v:1287. -/
@[netlist] def w35 (s : S) : Bool :=
  s.reg_valid == false
/-- beta_integration_fifo_axistream.v:1288. -/
@[netlist] def w37 (s : S) (i_busy : Bool) : Bool :=
  (reg_tobe_invalid s i_busy) == true
/-- beta_integration_fifo_axistream.v:1290. -/
@[netlist] def w39 (s : S) (i_busy : Bool) : Bool :=
  (w35 s) || (w37 s i_busy)
/-- beta_integration_fifo_axistream.v:1291. -/
@[netlist] def w41 (s : S) (i_busy : Bool) (valid_in : Bool) : Bool :=
  (w33 s valid_in) && (w39 s i_busy)
/-- beta_integration_fifo_axistream.v:1292. -/
@[netlist] def w43 (s : S) : Bool :=
  s.reg_valid == true
/-- beta_integration_fifo_axistream.v:1293. -/
@[netlist] def w45 (s : S) (i_busy : Bool) : Bool :=
  i_busy == false
/-- beta_integration_fifo_axistream.v:1294. -/
@[netlist] def w47 (s : S) (i_busy : Bool) : Bool :=
  (w43 s) && (w45 s i_busy)
/-- beta_integration_fifo_axistream.v:1295. -/
@[netlist] def w49 (s : S) : Bool :=
  s.valid_out == true
/-- beta_integration_fifo_axistream.v:1296. -/
@[netlist] def w51 (s : S) (i_busy : Bool) : Bool :=
  (w47 s i_busy) && (w49 s)
/-- beta_integration_fifo_axistream.v:1297. -/
@[netlist] def w53 (s : S) : Bool :=
  s.half_latched == true
/-- beta_integration_fifo_axistream.v:1298. -/
@[netlist] def w55 (s : S) (valid_in : Bool) : Bool :=
  valid_in == false
/-- beta_integration_fifo_axistream.v:1299. -/
@[netlist] def w57 (s : S) : Bool :=
  s.reg_valid == true
/-- beta_integration_fifo_axistream.v:1301. -/
@[netlist] def w59 (s : S) : Bool :=
  s.valid_out == false
/-- beta_integration_fifo_axistream.v:1302. -/
@[netlist] def w61 (s : S) : Bool :=
  (w57 s) && (w59 s)
/-- beta_integration_fifo_axistream.v:1303. -/
@[netlist] def w63 (s : S) : Bool :=
  s.half_latched == false
/-- beta_integration_fifo_axistream.v:1304. -/
@[netlist] def w65 (s : S) : Bool :=
  (w61 s) && (w63 s)
/-- beta_integration_fifo_axistream.v:1305. -/
@[netlist] def w67 (s : S) : Bool :=
  s.reg_valid == true
/-- beta_integration_fifo_axistream.v:1306. -/
@[netlist] def w69 (s : S) (i_busy : Bool) : Bool :=
  i_busy == false
/-- beta_integration_fifo_axistream.v:1307. -/
@[netlist] def w71 (s : S) (i_busy : Bool) : Bool :=
  (w67 s) && (w69 s i_busy)
/-- beta_integration_fifo_axistream.v:1308. -/
@[netlist] def w73 (s : S) : Bool :=
  s.valid_out == true
/-- beta_integration_fifo_axistream.v:1309. -/
@[netlist] def w75 (s : S) (i_busy : Bool) : Bool :=
  (w71 s i_busy) && (w73 s)
/-- beta_integration_fifo_axistream.v:1310. -/
@[netlist] def w77 (s : S) : Bool :=
  s.half_latched == true
/-- beta_integration_fifo_axistream.v:1312. -/
@[netlist] def w79 (s : S) : Bool :=
  s.reg_valid == true
/-- beta_integration_fifo_axistream.v:1313. -/
@[netlist] def w81 (s : S) : Bool :=
  s.valid_out == false
/-- beta_integration_fifo_axistream.v:1314. -/
@[netlist] def w83 (s : S) : Bool :=
  (w79 s) && (w81 s)
/-- beta_integration_fifo_axistream.v:1315. -/
@[netlist] def w85 (s : S) : Bool :=
  s.half_latched == false
/-- beta_integration_fifo_axistream.v:1316. -/
@[netlist] def w87 (s : S) : Bool :=
  (w83 s) && (w85 s)
/-- beta_integration_fifo_axistream.v:1317. -/
@[netlist] def w89 (s : S) : Bool :=
  s.reg_valid == true
/-- beta_integration_fifo_axistream.v:1318. -/
@[netlist] def w91 (s : S) (i_busy : Bool) : Bool :=
  i_busy == false
/-- beta_integration_fifo_axistream.v:1319. -/
@[netlist] def w93 (s : S) (i_busy : Bool) : Bool :=
  (w89 s) && (w91 s i_busy)
/-- beta_integration_fifo_axistream.v:1320. -/
@[netlist] def w95 (s : S) : Bool :=
  s.valid_out == true
/-- beta_integration_fifo_axistream.v:1321. -/
@[netlist] def w97 (s : S) (i_busy : Bool) : Bool :=
  (w93 s i_busy) && (w95 s)
/-- beta_integration_fifo_axistream.v:1353-1360. -/
@[netlist] def next_wire_obusy (s : S) (i_busy : Bool) (valid_in : Bool) : Bool :=
  if (w21 s i_busy valid_in) = true then false
  else true
/-- beta_integration_fifo_axistream.v:1457. -/
@[netlist] def wire_obusy (s : S) (i_busy : Bool) (valid_in : Bool) : Bool :=
  (next_wire_obusy s i_busy valid_in)
/-- beta_integration_fifo_axistream.v:1334-1341. -/
@[netlist] def next_o_busy (s : S) (i_busy : Bool) (full_rst : Bool) (valid_in : Bool) : Bool :=
  let e1 := (wire_obusy s i_busy valid_in)
  if full_rst = true then true
  else e1
/-- beta_integration_fifo_axistream.v:1361-1371. -/
@[netlist] def next_reg (s : S) (data_in : Nat) (i_busy : Bool) (full_rst : Bool) (valid_in : Bool) : Nat :=
  let e1 := if (w31 s i_busy valid_in) = true then data_in
  else s.reg
  if full_rst = true then 0
  else e1
/-- beta_integration_fifo_axistream.v:1372-1392. -/
@[netlist] def next_reg_valid (s : S) (i_busy : Bool) (full_rst : Bool) (valid_in : Bool) : Bool :=
  let e1 := if (w41 s i_busy valid_in) = true then true
  else s.reg_valid
  let e2 := if (w51 s i_busy) = true then (if (w53 s) = true then (if (w55 s valid_in) = true then false
      else e1)
    else e1)
  else e1
  if full_rst = true then false
  else e2
/-- beta_integration_fifo_axistream.v:1393-1412. -/
@[netlist] def next_data_out (s : S) (i_busy : Bool) (full_rst : Bool) : Nat :=
  let e1 := if (w65 s) = true then slc s.reg 40 24
  else s.data_out
  let e2 := if (w75 s i_busy) = true then (if (w77 s) = true then slc s.reg 16 24
    else slc s.reg 40 24)
  else e1
  if full_rst = true then 0
  else e2
/-- beta_integration_fifo_axistream.v:1413-1436. -/
@[netlist] def next_valid_out (s : S) (i_busy : Bool) (full_rst : Bool) : Bool :=
  let e1 := if (w87 s) = true then true
  else s.valid_out
  let e2 := if (w97 s i_busy) = true then (if (w99 s) = true then true
    else true)
  else e1
  let e3 := if (w109 s i_busy) = true then false
  else e2
  if full_rst = true then false
  else e3
/-- beta_integration_fifo_axistream.v:1437-1456. -/
@[netlist] def next_half_latched (s : S) (i_busy : Bool) (full_rst : Bool) : Bool :=
  let e1 := if (w119 s) = true then true
  else s.half_latched
  let e2 := if (w129 s i_busy) = true then (if (w131 s) = true then false
    else true)
  else e1
  if full_rst = true then false
  else e2

/-- beta_integration_fifo_axistream.v:1138-1459: one rising clock edge (`always @(posedge ...)`). -/
@[netlist] def step (s : S) (data_in : Nat) (i_busy : Bool) (full_rst : Bool) (valid_in : Bool) : S :=
  { half_latched := (next_half_latched s i_busy full_rst)
    valid_out := (next_valid_out s i_busy full_rst)
    data_out := (next_data_out s i_busy full_rst)
    reg_valid := (next_reg_valid s i_busy full_rst valid_in)
    reg := (next_reg s data_in i_busy full_rst valid_in)
    o_busy := (next_o_busy s i_busy full_rst valid_in) }

/-- beta_integration_fifo_axistream.v:1138-1459: the initial values given in the netlist. -/
def Init (s : S) : Prop :=
  s.half_latched = false ∧
  s.valid_out = false ∧
  s.data_out = 0 ∧
  s.reg_valid = false ∧
  s.reg = 0 ∧
  s.o_busy = true

/-- beta_integration_fifo_axistream.v:1138-1459: a state with these initial values; registers without one are 0. -/
def powerUp : S :=
  { half_latched := false
    valid_out := false
    data_out := 0
    reg_valid := false
    reg := 0
    o_busy := true }

theorem powerUp_init : Init powerUp := ⟨rfl, rfl, rfl, rfl, rfl, rfl⟩

end b64_b32

namespace top

/-- beta_integration_fifo_axistream.v:7951-8101: registers, memories and instances of module `top`. -/
structure S where
  u_b64_b32 : b64_b32.S
  u_top_module : Beta.top.S

/-- beta_integration_fifo_axistream.v:8022. -/
@[netlist] def w1 (s : S) (m_tready : Bool) : Bool :=
  m_tready == false
/-- beta_integration_fifo_axistream.v:8024-8033. -/
@[netlist] def b64_b32_o_busy (s : S) : Bool :=
  s.u_b64_b32.o_busy
/-- beta_integration_fifo_axistream.v:8023. -/
@[netlist] def w3 (s : S) : Bool :=
  (b64_b32_o_busy s) == false
/-- beta_integration_fifo_axistream.v:8024-8033. -/
@[netlist] def b64_b32_valid_out (s : S) : Bool :=
  s.u_b64_b32.valid_out
/-- beta_integration_fifo_axistream.v:8054-8057. -/
@[netlist] def next_top_module_valid_in (s : S) : Bool :=
  (b64_b32_valid_out s)
/-- beta_integration_fifo_axistream.v:8090. -/
@[netlist] def top_module_valid_in (s : S) : Bool :=
  (next_top_module_valid_in s)
/-- beta_integration_fifo_axistream.v:8034-8045. -/
@[netlist] def top_module_nready (s : S) : Bool :=
  Beta.top.nready s.u_top_module
/-- beta_integration_fifo_axistream.v:8086-8089. -/
@[netlist] def next_b64_b32_i_busy (s : S) : Bool :=
  (top_module_nready s)
/-- beta_integration_fifo_axistream.v:8091. -/
@[netlist] def b64_b32_i_busy (s : S) : Bool :=
  (next_b64_b32_i_busy s)
/-- beta_integration_fifo_axistream.v:8024-8033. -/
@[netlist] def b64_b32_data_out (s : S) : Nat :=
  s.u_b64_b32.data_out
/-- beta_integration_fifo_axistream.v:8082-8085. -/
@[netlist] def next_top_module_pixel_in2 (s : S) : Nat :=
  slc (b64_b32_data_out s) 0 12
/-- beta_integration_fifo_axistream.v:8092. -/
@[netlist] def top_module_pixel_in2 (s : S) : Nat :=
  (next_top_module_pixel_in2 s)
/-- beta_integration_fifo_axistream.v:8078-8081. -/
@[netlist] def next_top_module_pixel_in1 (s : S) : Nat :=
  slc (b64_b32_data_out s) 12 12
/-- beta_integration_fifo_axistream.v:8093. -/
@[netlist] def top_module_pixel_in1 (s : S) : Nat :=
  (next_top_module_pixel_in1 s)
/-- beta_integration_fifo_axistream.v:8074-8077. -/
@[netlist] def next_b64_b32_valid_in (s : S) (s_tvalid : Bool) : Bool :=
  s_tvalid
/-- beta_integration_fifo_axistream.v:8094. -/
@[netlist] def b64_b32_valid_in (s : S) (s_tvalid : Bool) : Bool :=
  (next_b64_b32_valid_in s s_tvalid)
/-- beta_integration_fifo_axistream.v:8070-8073. -/
@[netlist] def next_s_tready (s : S) : Bool :=
  (w3 s)
/-- beta_integration_fifo_axistream.v:8095. -/
@[netlist] def s_tready (s : S) : Bool :=
  (next_s_tready s)
/-- beta_integration_fifo_axistream.v:8066-8069. -/
@[netlist] def next_b64_b32_data_in (s : S) (s_tdata : Nat) : Nat :=
  s_tdata
/-- beta_integration_fifo_axistream.v:8096. -/
@[netlist] def b64_b32_data_in (s : S) (s_tdata : Nat) : Nat :=
  (next_b64_b32_data_in s s_tdata)
/-- beta_integration_fifo_axistream.v:8058-8061. -/
@[netlist] def next_top_module_busy_in (s : S) (m_tready : Bool) : Bool :=
  (w1 s m_tready)
/-- beta_integration_fifo_axistream.v:8098. -/
@[netlist] def top_module_busy_in (s : S) (m_tready : Bool) : Bool :=
  (next_top_module_busy_in s m_tready)
/-- beta_integration_fifo_axistream.v:8034-8045. -/
@[netlist] def top_module_valid_out (s : S) (m_tready : Bool) : Bool :=
  Beta.top.valid_out s.u_top_module (top_module_busy_in s m_tready)
/-- beta_integration_fifo_axistream.v:8062-8065. -/
@[netlist] def next_m_tvalid (s : S) (m_tready : Bool) : Bool :=
  (top_module_valid_out s m_tready)
/-- beta_integration_fifo_axistream.v:8097. -/
@[netlist] def m_tvalid (s : S) (m_tready : Bool) : Bool :=
  (next_m_tvalid s m_tready)
/-- beta_integration_fifo_axistream.v:8034-8045. -/
@[netlist] def top_module_end_out (s : S) (m_tready : Bool) : Bool :=
  Beta.top.end_out s.u_top_module (top_module_busy_in s m_tready)
/-- beta_integration_fifo_axistream.v:8050-8053. -/
@[netlist] def next_m_tlast (s : S) (m_tready : Bool) : Bool :=
  (top_module_end_out s m_tready)
/-- beta_integration_fifo_axistream.v:8099. -/
@[netlist] def m_tlast (s : S) (m_tready : Bool) : Bool :=
  (next_m_tlast s m_tready)
/-- beta_integration_fifo_axistream.v:8034-8045. -/
@[netlist] def top_module_data_out (s : S) (m_tready : Bool) : Nat :=
  Beta.top.data_out s.u_top_module (top_module_busy_in s m_tready)
/-- beta_integration_fifo_axistream.v:8046-8049. -/
@[netlist] def next_m_tdata (s : S) (m_tready : Bool) : Nat :=
  (top_module_data_out s m_tready)
/-- beta_integration_fifo_axistream.v:8100. -/
@[netlist] def m_tdata (s : S) (m_tready : Bool) : Nat :=
  (next_m_tdata s m_tready)

/-- beta_integration_fifo_axistream.v:7951-8101: one rising clock edge (`always @(posedge ...)`). -/
@[netlist] def step (s : S) (s_tdata : Nat) (s_tvalid : Bool) (full_rst : Bool) (m_tready : Bool) : S :=
  { u_b64_b32 := b64_b32.step s.u_b64_b32 (b64_b32_data_in s s_tdata) (b64_b32_i_busy s) full_rst (b64_b32_valid_in s s_tvalid)
    u_top_module := Beta.top.step s.u_top_module full_rst (top_module_busy_in s m_tready) (top_module_pixel_in1 s) (top_module_pixel_in2 s) (top_module_valid_in s) }

/-- beta_integration_fifo_axistream.v:7951-8101: the initial values given in the netlist. -/
def Init (s : S) : Prop :=
  b64_b32.Init s.u_b64_b32 ∧
  Beta.top.Init s.u_top_module

/-- beta_integration_fifo_axistream.v:7951-8101: a state with these initial values; registers without one are 0. -/
def powerUp : S :=
  { u_b64_b32 := b64_b32.powerUp
    u_top_module := Beta.top.powerUp }

theorem powerUp_init : Init powerUp := ⟨b64_b32.powerUp_init, Beta.top.powerUp_init⟩

end top

end Netlist.BetaFifo
