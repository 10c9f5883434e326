/- Generated by netlist/v2lean.py from verilog_src/axihp_fifo.v.  Do not edit. -/
import Verif.Netlist.Basic

set_option autoImplicit false
set_option linter.unusedVariables false

namespace Netlist.HpFifoV
open Netlist

namespace fifo

/-- axihp_fifo.v:5-245: registers, memories and instances of module `fifo`. -/
structure S where
  level : Nat
  consume : Nat
  produce : Nat
  storage : List Nat

/-- axihp_fifo.v:103. -/
@[netlist] def w2 (s : S) : Bool :=
  s.level != 32
/-- axihp_fifo.v:164-167. -/
@[netlist] def next_writable (s : S) : Bool :=
  (w2 s)
/-- axihp_fifo.v:244. -/
@[netlist] def writable (s : S) : Bool :=
  (next_writable s)
/-- axihp_fifo.v:94. -/
@[netlist] def w9 (s : S) (replace : Bool) : Bool :=
  (writable s) || replace
/-- axihp_fifo.v:95. -/
@[netlist] def w11 (s : S) (we : Bool) (replace : Bool) : Bool :=
  we && (w9 s replace)
/-- axihp_fifo.v:96. -/
@[netlist] def w13 (s : S) (we : Bool) : Bool :=
  (writable s) && we
/-- axihp_fifo.v:97. -/
@[netlist] def w15 (s : S) (replace : Bool) : Bool :=
  !replace
/-- axihp_fifo.v:98. -/
@[netlist] def w17 (s : S) (we : Bool) (replace : Bool) : Bool :=
  (w13 s we) && (w15 s replace)
/-- axihp_fifo.v:99. -/
@[netlist] def w20 (s : S) : Nat :=
  (s.produce + 1) % 2 ^ 6
/-- axihp_fifo.v:113. -/
@[netlist] def w4 (s : S) : Bool :=
  s.level != 0
/-- axihp_fifo.v:168-171. -/
@[netlist] def next_readable (s : S) : Bool :=
  (w4 s)
/-- axihp_fifo.v:243. -/
@[netlist] def readable (s : S) : Bool :=
  (next_readable s)
/-- axihp_fifo.v:100. -/
@[netlist] def w22 (s : S) (re : Bool) : Bool :=
  (readable s) && re
/-- axihp_fifo.v:101. -/
@[netlist] def w25 (s : S) : Nat :=
  (s.consume + 1) % 2 ^ 6
/-- axihp_fifo.v:102. -/
@[netlist] def w27 (s : S) (we : Bool) : Bool :=
  (writable s) && we
/-- axihp_fifo.v:104. -/
@[netlist] def w29 (s : S) (replace : Bool) : Bool :=
  !replace
/-- axihp_fifo.v:105. -/
@[netlist] def w31 (s : S) (we : Bool) (replace : Bool) : Bool :=
  (w27 s we) && (w29 s replace)
/-- axihp_fifo.v:106. -/
@[netlist] def w34 (s : S) (re : Bool) : Bool :=
  (readable s) && re
/-- axihp_fifo.v:107. -/
@[netlist] def w33 (s : S) (re : Bool) : Bool :=
  !(w34 s re)
/-- axihp_fifo.v:108. -/
@[netlist] def w37 (s : S) (we : Bool) (replace : Bool) (re : Bool) : Bool :=
  (w31 s we replace) && (w33 s re)
/-- axihp_fifo.v:109. -/
@[netlist] def w40 (s : S) : Nat :=
  (s.level + 1) % 2 ^ 7
/-- axihp_fifo.v:110. -/
@[netlist] def w42 (s : S) (re : Bool) : Bool :=
  (readable s) && re
/-- axihp_fifo.v:111. -/
@[netlist] def w45 (s : S) (we : Bool) : Bool :=
  (writable s) && we
/-- axihp_fifo.v:112. -/
@[netlist] def w47 (s : S) (replace : Bool) : Bool :=
  !replace
/-- axihp_fifo.v:114. -/
@[netlist] def w49 (s : S) (we : Bool) (replace : Bool) : Bool :=
  (w45 s we) && (w47 s replace)
/-- axihp_fifo.v:115. -/
@[netlist] def w44 (s : S) (we : Bool) (replace : Bool) : Bool :=
  !(w49 s we replace)
/-- axihp_fifo.v:116. -/
@[netlist] def w52 (s : S) (we : Bool) (replace : Bool) (re : Bool) : Bool :=
  (w42 s re) && (w44 s we replace)
/-- axihp_fifo.v:117. -/
@[netlist] def w55 (s : S) : Nat :=
  (2 ^ 7 + s.level - 1) % 2 ^ 7
/-- axihp_fifo.v:118. -/
@[netlist] def w7 (s : S) : Nat :=
  (2 ^ 6 + s.produce - 1) % 2 ^ 6
/-- axihp_fifo.v:199-202. -/
@[netlist] def next_rdport_storage_r_addr (s : S) : Nat :=
  s.consume
/-- axihp_fifo.v:163. -/
@[netlist] def rdport_storage_r_data (s : S) : Nat :=
  s.storage.getD (next_rdport_storage_r_addr s) 0
/-- axihp_fifo.v:233. -/
@[netlist] def w6 (s : S) : Nat :=
  (w7 s)
/-- axihp_fifo.v:234. -/
@[netlist] def w19 (s : S) : Nat :=
  (w20 s)
/-- axihp_fifo.v:235. -/
@[netlist] def w24 (s : S) : Nat :=
  (w25 s)
/-- axihp_fifo.v:236. -/
@[netlist] def w39 (s : S) : Nat :=
  (w40 s)
/-- axihp_fifo.v:237. -/
@[netlist] def w54 (s : S) : Nat :=
  (w55 s)
/-- axihp_fifo.v:203-206. -/
@[netlist] def next_dout (s : S) : Nat :=
  (rdport_storage_r_data s)
/-- axihp_fifo.v:238. -/
@[netlist] def dout (s : S) : Nat :=
  (next_dout s)
/-- axihp_fifo.v:239. -/
@[netlist] def rdport_storage_r_addr (s : S) : Nat :=
  (next_rdport_storage_r_addr s)
/-- axihp_fifo.v:184-187. -/
@[netlist] def next_wrport_storage_w_en (s : S) (we : Bool) (replace : Bool) : Bool :=
  (w11 s we replace)
/-- axihp_fifo.v:240. -/
@[netlist] def wrport_storage_w_en (s : S) (we : Bool) (replace : Bool) : Bool :=
  (next_wrport_storage_w_en s we replace)
/-- axihp_fifo.v:180-183. -/
@[netlist] def next_wrport_storage_w_data (s : S) (din : Nat) : Nat :=
  din
/-- axihp_fifo.v:241. -/
@[netlist] def wrport_storage_w_data (s : S) (din : Nat) : Nat :=
  (next_wrport_storage_w_data s din)
/-- axihp_fifo.v:172-179. -/
@[netlist] def next_wrport_storage_w_addr (s : S) (replace : Bool) : Nat :=
  if replace = true then slc (w6 s) 0 5
  else s.produce
/-- axihp_fifo.v:242. -/
@[netlist] def wrport_storage_w_addr (s : S) (replace : Bool) : Nat :=
  (next_wrport_storage_w_addr s replace)
/-- axihp_fifo.v:188-198. -/
@[netlist] def next_produce (s : S) (we : Bool) (replace : Bool) (rst : Bool) : Nat :=
  let e1 := if (w17 s we replace) = true then slc (w19 s) 0 5
  else s.produce
  if rst = true then 0
  else e1
/-- axihp_fifo.v:207-217. -/
@[netlist] def next_consume (s : S) (re : Bool) (rst : Bool) : Nat :=
  let e1 := if (w22 s re) = true then slc (w24 s) 0 5
  else s.consume
  if rst = true then 0
  else e1
/-- axihp_fifo.v:218-232. -/
@[netlist] def next_level (s : S) (we : Bool) (replace : Bool) (re : Bool) (rst : Bool) : Nat :=
  let e1 := if (w37 s we replace re) = true then slc (w39 s) 0 6
  else s.level
  let e2 := if (w52 s we replace re) = true then slc (w54 s) 0 6
  else e1
  if rst = true then 0
  else e2

/-- axihp_fifo.v:5-245: one rising clock edge (`always @(posedge ...)`). -/
@[netlist] def step (s : S) (we : Bool) (replace : Bool) (re : Bool) (rst : Bool) (din : Nat) : S :=
  { level := (next_level s we replace re rst)
    consume := (next_consume s re rst)
    produce := (next_produce s we replace rst)
    storage := if (next_wrport_storage_w_en s we replace) then s.storage.set (next_wrport_storage_w_addr s replace) (next_wrport_storage_w_data s din) else s.storage }

/-- axihp_fifo.v:5-245: the initial values given in the netlist. -/
def Init (s : S) : Prop :=
  s.level = 0 ∧
  s.consume = 0 ∧
  s.produce = 0 ∧
  s.storage = List.replicate 32 0

/-- axihp_fifo.v:5-245: a state with these initial values; registers without one are 0. -/
def powerUp : S :=
  { level := 0
    consume := 0
    produce := 0
    storage := List.replicate 32 0 }

theorem powerUp_init : Init powerUp := ⟨rfl, rfl, rfl, rfl⟩

end fifo

namespace top

/-- axihp_fifo.v:250-379: registers, memories and instances of module `top`. -/
structure S where
  u_fifo : fifo.S

/-- axihp_fifo.v:317-328. -/
@[netlist] def fifo_level (s : S) : Nat :=
  s.u_fifo.level
/-- axihp_fifo.v:315. -/
@[netlist] def w1 (s : S) : Bool :=
  decide ((fifo_level s) ≥ 16)
/-- axihp_fifo.v:316. -/
@[netlist] def w3 (s : S) : Bool :=
  decide ((fifo_level s) ≤ 12)
/-- axihp_fifo.v:317-328. -/
@[netlist] def fifo_readable (s : S) : Bool :=
  fifo.readable s.u_fifo
/-- axihp_fifo.v:365-368. -/
@[netlist] def next_valid_out (s : S) : Bool :=
  (fifo_readable s)
/-- axihp_fifo.v:369. -/
@[netlist] def valid_out (s : S) : Bool :=
  (next_valid_out s)
/-- axihp_fifo.v:317-328. -/
@[netlist] def fifo_dout (s : S) : Nat :=
  fifo.dout s.u_fifo
/-- axihp_fifo.v:361-364. -/
@[netlist] def next_end_out (s : S) : Bool :=
  (fifo_dout s).testBit 0
/-- axihp_fifo.v:370. -/
@[netlist] def end_out (s : S) : Bool :=
  (next_end_out s)
/-- axihp_fifo.v:357-360. -/
@[netlist] def next_data_out (s : S) : Nat :=
  slc (fifo_dout s) 1 64
/-- axihp_fifo.v:371. -/
@[netlist] def data_out (s : S) : Nat :=
  (next_data_out s)
/-- axihp_fifo.v:353-356. -/
@[netlist] def next_writable16 (s : S) : Bool :=
  (w3 s)
/-- axihp_fifo.v:372. -/
@[netlist] def writable16 (s : S) : Bool :=
  (next_writable16 s)
/-- axihp_fifo.v:349-352. -/
@[netlist] def next_readable16 (s : S) : Bool :=
  (w1 s)
/-- axihp_fifo.v:373. -/
@[netlist] def readable16 (s : S) : Bool :=
  (next_readable16 s)
/-- axihp_fifo.v:345-348. -/
@[netlist] def next_readable (s : S) : Bool :=
  (fifo_readable s)
/-- axihp_fifo.v:374. -/
@[netlist] def readable (s : S) : Bool :=
  (next_readable s)
/-- axihp_fifo.v:317-328. -/
@[netlist] def fifo_writable (s : S) : Bool :=
  fifo.writable s.u_fifo
/-- axihp_fifo.v:341-344. -/
@[netlist] def next_writable (s : S) : Bool :=
  (fifo_writable s)
/-- axihp_fifo.v:375. -/
@[netlist] def writable (s : S) : Bool :=
  (next_writable s)
/-- axihp_fifo.v:337-340. -/
@[netlist] def next_fifo_re (s : S) (read : Bool) : Bool :=
  read
/-- axihp_fifo.v:376. -/
@[netlist] def fifo_re (s : S) (read : Bool) : Bool :=
  (next_fifo_re s read)
/-- axihp_fifo.v:333-336. -/
@[netlist] def next_fifo_din (s : S) (end_in : Bool) (data_in : Nat) : Nat :=
  data_in * 2 ^ 1 + end_in.toNat
/-- axihp_fifo.v:377. -/
@[netlist] def fifo_din (s : S) (end_in : Bool) (data_in : Nat) : Nat :=
  (next_fifo_din s end_in data_in)
/-- axihp_fifo.v:329-332. -/
@[netlist] def next_fifo_we (s : S) (valid_in : Bool) : Bool :=
  valid_in
/-- axihp_fifo.v:378. -/
@[netlist] def fifo_we (s : S) (valid_in : Bool) : Bool :=
  (next_fifo_we s valid_in)

/-- axihp_fifo.v:250-379: one rising clock edge (`always @(posedge ...)`). -/
@[netlist] def step (s : S) (end_in : Bool) (data_in : Nat) (read : Bool) (replace : Bool) (rst : Bool) (valid_in : Bool) : S :=
  { u_fifo := fifo.step s.u_fifo (fifo_we s valid_in) replace (fifo_re s read) rst (fifo_din s end_in data_in) }

/-- axihp_fifo.v:250-379: the initial values given in the netlist. -/
def Init (s : S) : Prop :=
  fifo.Init s.u_fifo

/-- axihp_fifo.v:250-379: a state with these initial values; registers without one are 0. -/
def powerUp : S :=
  { u_fifo := fifo.powerUp }

theorem powerUp_init : Init powerUp := fifo.powerUp_init

end top

end Netlist.HpFifoV
