/- Generated by netlist/v2lean.py from verilog_src/converter_fifo.v.  Do not edit. -/
import Verif.Netlist.Basic

set_option autoImplicit false
set_option linter.unusedVariables false

namespace Netlist.ConvFifoV
open Netlist

namespace unbuffered

/-- converter_fifo.v:264-622: registers, memories and instances of module `unbuffered`. -/
structure S where
  level : Nat
  consume : Nat
  produce : Nat
  r_0_ : Nat
  storage : List Nat

/-- converter_fifo.v:363. -/
@[netlist] def w10 (s : S) : Bool :=
  s.produce == 0
/-- converter_fifo.v:393. -/
@[netlist] def w7 (s : S) : Nat :=
  (2 ^ 8 + s.produce - 1) % 2 ^ 8
/-- converter_fifo.v:364. -/
@[netlist] def w9 (s : S) : Nat :=
  if (w10 s) then 126 else (w7 s)
/-- converter_fifo.v:373. -/
@[netlist] def w2 (s : S) : Bool :=
  s.level != 127
/-- converter_fifo.v:536-539. -/
@[netlist] def next_writable (s : S) : Bool :=
  (w2 s)
/-- converter_fifo.v:621. -/
@[netlist] def writable (s : S) : Bool :=
  (next_writable s)
/-- converter_fifo.v:365. -/
@[netlist] def w13 (s : S) (replace : Bool) : Bool :=
  (writable s) || replace
/-- converter_fifo.v:366. -/
@[netlist] def w15 (s : S) (we : Bool) (replace : Bool) : Bool :=
  we && (w13 s replace)
/-- converter_fifo.v:367. -/
@[netlist] def w17 (s : S) (we : Bool) : Bool :=
  (writable s) && we
/-- converter_fifo.v:368. -/
@[netlist] def w19 (s : S) (replace : Bool) : Bool :=
  !replace
/-- converter_fifo.v:369. -/
@[netlist] def w21 (s : S) (we : Bool) (replace : Bool) : Bool :=
  (w17 s we) && (w19 s replace)
/-- converter_fifo.v:370. -/
@[netlist] def w24 (s : S) : Nat :=
  (s.produce + 1) % 2 ^ 8
/-- converter_fifo.v:371. -/
@[netlist] def w27 (s : S) : Bool :=
  s.produce == 126
/-- converter_fifo.v:372. -/
@[netlist] def w26 (s : S) : Nat :=
  if (w27 s) then 0 else (w24 s)
/-- converter_fifo.v:383. -/
@[netlist] def w4 (s : S) : Bool :=
  s.level != 0
/-- converter_fifo.v:540-543. -/
@[netlist] def next_readable (s : S) : Bool :=
  (w4 s)
/-- converter_fifo.v:620. -/
@[netlist] def readable (s : S) : Bool :=
  (next_readable s)
/-- converter_fifo.v:374. -/
@[netlist] def w30 (s : S) (re : Bool) : Bool :=
  (readable s) && re
/-- converter_fifo.v:375. -/
@[netlist] def w33 (s : S) : Nat :=
  (s.consume + 1) % 2 ^ 8
/-- converter_fifo.v:376. -/
@[netlist] def w36 (s : S) : Bool :=
  s.consume == 126
/-- converter_fifo.v:377. -/
@[netlist] def w35 (s : S) : Nat :=
  if (w36 s) then 0 else (w33 s)
/-- converter_fifo.v:378. -/
@[netlist] def w39 (s : S) (we : Bool) : Bool :=
  (writable s) && we
/-- converter_fifo.v:379. -/
@[netlist] def w41 (s : S) (replace : Bool) : Bool :=
  !replace
/-- converter_fifo.v:380. -/
@[netlist] def w43 (s : S) (we : Bool) (replace : Bool) : Bool :=
  (w39 s we) && (w41 s replace)
/-- converter_fifo.v:381. -/
@[netlist] def w46 (s : S) (re : Bool) : Bool :=
  (readable s) && re
/-- converter_fifo.v:382. -/
@[netlist] def w45 (s : S) (re : Bool) : Bool :=
  !(w46 s re)
/-- converter_fifo.v:384. -/
@[netlist] def w49 (s : S) (we : Bool) (replace : Bool) (re : Bool) : Bool :=
  (w43 s we replace) && (w45 s re)
/-- converter_fifo.v:385. -/
@[netlist] def w52 (s : S) : Nat :=
  (s.level + 1) % 2 ^ 8
/-- converter_fifo.v:386. -/
@[netlist] def w54 (s : S) (re : Bool) : Bool :=
  (readable s) && re
/-- converter_fifo.v:387. -/
@[netlist] def w57 (s : S) (we : Bool) : Bool :=
  (writable s) && we
/-- converter_fifo.v:388. -/
@[netlist] def w59 (s : S) (replace : Bool) : Bool :=
  !replace
/-- converter_fifo.v:389. -/
@[netlist] def w61 (s : S) (we : Bool) (replace : Bool) : Bool :=
  (w57 s we) && (w59 s replace)
/-- converter_fifo.v:390. -/
@[netlist] def w56 (s : S) (we : Bool) (replace : Bool) : Bool :=
  !(w61 s we replace)
/-- converter_fifo.v:391. -/
@[netlist] def w64 (s : S) (we : Bool) (replace : Bool) (re : Bool) : Bool :=
  (w54 s re) && (w56 s we replace)
/-- converter_fifo.v:392. -/
@[netlist] def w67 (s : S) : Nat :=
  (2 ^ 8 + s.level - 1) % 2 ^ 8
/-- converter_fifo.v:535. -/
@[netlist] def rdport_storage_r_data (s : S) : Nat :=
  s.r_0_
/-- converter_fifo.v:609. -/
@[netlist] def w6 (s : S) : Nat :=
  (w9 s)
/-- converter_fifo.v:610. -/
@[netlist] def w23 (s : S) : Nat :=
  (w26 s)
/-- converter_fifo.v:611. -/
@[netlist] def w32 (s : S) : Nat :=
  (w35 s)
/-- converter_fifo.v:612. -/
@[netlist] def w51 (s : S) : Nat :=
  (w52 s)
/-- converter_fifo.v:613. -/
@[netlist] def w66 (s : S) : Nat :=
  (w67 s)
/-- converter_fifo.v:594-597. -/
@[netlist] def next_rdport_storage_r_en (s : S) (re : Bool) : Bool :=
  re
/-- converter_fifo.v:614. -/
@[netlist] def rdport_storage_r_en (s : S) (re : Bool) : Bool :=
  (next_rdport_storage_r_en s re)
/-- converter_fifo.v:590-593. -/
@[netlist] def next_dout (s : S) : Nat :=
  (rdport_storage_r_data s)
/-- converter_fifo.v:615. -/
@[netlist] def dout (s : S) : Nat :=
  (next_dout s)
/-- converter_fifo.v:586-589. -/
@[netlist] def next_rdport_storage_r_addr (s : S) : Nat :=
  s.consume
/-- converter_fifo.v:616. -/
@[netlist] def rdport_storage_r_addr (s : S) : Nat :=
  (next_rdport_storage_r_addr s)
/-- converter_fifo.v:571-574. -/
@[netlist] def next_wrport_storage_w_en (s : S) (we : Bool) (replace : Bool) : Bool :=
  (w15 s we replace)
/-- converter_fifo.v:617. -/
@[netlist] def wrport_storage_w_en (s : S) (we : Bool) (replace : Bool) : Bool :=
  (next_wrport_storage_w_en s we replace)
/-- converter_fifo.v:567-570. -/
@[netlist] def next_wrport_storage_w_data (s : S) (din : Nat) : Nat :=
  din
/-- converter_fifo.v:618. -/
@[netlist] def wrport_storage_w_data (s : S) (din : Nat) : Nat :=
  (next_wrport_storage_w_data s din)
/-- converter_fifo.v:559-566. -/
@[netlist] def next_wrport_storage_w_addr (s : S) (replace : Bool) : Nat :=
  if replace = true then slc (w6 s) 0 7
  else s.produce
/-- converter_fifo.v:619. -/
@[netlist] def wrport_storage_w_addr (s : S) (replace : Bool) : Nat :=
  (next_wrport_storage_w_addr s replace)
/-- converter_fifo.v:544-558. -/
@[netlist] def next_level (s : S) (we : Bool) (replace : Bool) (re : Bool) (rst : Bool) : Nat :=
  let e1 := if (w49 s we replace re) = true then slc (w51 s) 0 7
  else s.level
  let e2 := if (w64 s we replace re) = true then slc (w66 s) 0 7
  else e1
  if rst = true then 0
  else e2
/-- converter_fifo.v:575-585. -/
@[netlist] def next_produce (s : S) (we : Bool) (replace : Bool) (rst : Bool) : Nat :=
  let e1 := if (w21 s we replace) = true then slc (w23 s) 0 7
  else s.produce
  if rst = true then 0
  else e1
/-- converter_fifo.v:598-608. -/
@[netlist] def next_consume (s : S) (re : Bool) (rst : Bool) : Nat :=
  let e1 := if (w30 s re) = true then slc (w32 s) 0 7
  else s.consume
  if rst = true then 0
  else e1

/-- converter_fifo.v:264-622: one rising clock edge (`always @(posedge ...)`). -/
@[netlist] def step (s : S) (we : Bool) (replace : Bool) (re : Bool) (rst : Bool) (din : Nat) : S :=
  { level := (next_level s we replace re rst)
    consume := (next_consume s re rst)
    produce := (next_produce s we replace rst)
    r_0_ := if (next_rdport_storage_r_en s re) then s.storage.getD (next_rdport_storage_r_addr s) 0 else s.r_0_
    storage := if (next_wrport_storage_w_en s we replace) then s.storage.set (next_wrport_storage_w_addr s replace) (next_wrport_storage_w_data s din) else s.storage }

/-- converter_fifo.v:264-622: the initial values given in the netlist. -/
def Init (s : S) : Prop :=
  s.level = 0 ∧
  s.consume = 0 ∧
  s.produce = 0 ∧
  s.storage = List.replicate 127 0

/-- converter_fifo.v:264-622: a state with these initial values; registers without one are 0. -/
def powerUp : S :=
  { level := 0
    consume := 0
    produce := 0
    r_0_ := 0
    storage := List.replicate 127 0 }

theorem powerUp_init : Init powerUp := ⟨rfl, rfl, rfl, rfl⟩

end unbuffered

namespace fifo

/-- converter_fifo.v:5-131: registers, memories and instances of module `fifo`. -/
structure S where
  readable : Bool
  u_unbuffered : unbuffered.S

/-- converter_fifo.v:64. -/
@[netlist] def w1 (s : S) : Bool :=
  !s.readable
/-- converter_fifo.v:65. -/
@[netlist] def w3 (s : S) (re : Bool) : Bool :=
  (w1 s) || re
/-- converter_fifo.v:70-81. -/
@[netlist] def unbuffered_readable (s : S) : Bool :=
  unbuffered.readable s.u_unbuffered
/-- converter_fifo.v:66. -/
@[netlist] def w5 (s : S) (re : Bool) : Bool :=
  (unbuffered_readable s) && (w3 s re)
/-- converter_fifo.v:70-81. -/
@[netlist] def unbuffered_level (s : S) : Nat :=
  s.u_unbuffered.level
/-- converter_fifo.v:67. -/
@[netlist] def w7 (s : S) : Nat :=
  ((unbuffered_level s) + s.readable.toNat) % 2 ^ 8
/-- converter_fifo.v:120-123. -/
@[netlist] def next_level (s : S) : Nat :=
  (w7 s)
/-- converter_fifo.v:124. -/
@[netlist] def level (s : S) : Nat :=
  (next_level s)
/-- converter_fifo.v:103-106. -/
@[netlist] def next_unbuffered_re (s : S) (re : Bool) : Bool :=
  (w5 s re)
/-- converter_fifo.v:125. -/
@[netlist] def unbuffered_re (s : S) (re : Bool) : Bool :=
  (next_unbuffered_re s re)
/-- converter_fifo.v:70-81. -/
@[netlist] def unbuffered_dout (s : S) : Nat :=
  unbuffered.dout s.u_unbuffered
/-- converter_fifo.v:99-102. -/
@[netlist] def next_dout (s : S) : Nat :=
  (unbuffered_dout s)
/-- converter_fifo.v:126. -/
@[netlist] def dout (s : S) : Nat :=
  (next_dout s)
/-- converter_fifo.v:94-98. -/
@[netlist] def next_unbuffered_replace (s : S) : Bool :=
  false
/-- converter_fifo.v:127. -/
@[netlist] def unbuffered_replace (s : S) : Bool :=
  (next_unbuffered_replace s)
/-- converter_fifo.v:70-81. -/
@[netlist] def unbuffered_writable (s : S) : Bool :=
  unbuffered.writable s.u_unbuffered
/-- converter_fifo.v:90-93. -/
@[netlist] def next_writable (s : S) : Bool :=
  (unbuffered_writable s)
/-- converter_fifo.v:128. -/
@[netlist] def writable (s : S) : Bool :=
  (next_writable s)
/-- converter_fifo.v:86-89. -/
@[netlist] def next_unbuffered_we (s : S) (we : Bool) : Bool :=
  we
/-- converter_fifo.v:129. -/
@[netlist] def unbuffered_we (s : S) (we : Bool) : Bool :=
  (next_unbuffered_we s we)
/-- converter_fifo.v:82-85. -/
@[netlist] def next_unbuffered_din (s : S) (din : Nat) : Nat :=
  din
/-- converter_fifo.v:130. -/
@[netlist] def unbuffered_din (s : S) (din : Nat) : Nat :=
  (next_unbuffered_din s din)
/-- converter_fifo.v:107-119. -/
@[netlist] def next_readable (s : S) (re : Bool) (rst : Bool) : Bool :=
  let e1 := if (unbuffered_re s re) = true then true
  else if re = true then false
  else s.readable
  if rst = true then false
  else e1

/-- converter_fifo.v:5-131: one rising clock edge (`always @(posedge ...)`). -/
@[netlist] def step (s : S) (we : Bool) (re : Bool) (rst : Bool) (din : Nat) : S :=
  { readable := (next_readable s re rst)
    u_unbuffered := unbuffered.step s.u_unbuffered (unbuffered_we s we) (unbuffered_replace s) (unbuffered_re s re) rst (unbuffered_din s din) }

/-- converter_fifo.v:5-131: the initial values given in the netlist. -/
def Init (s : S) : Prop :=
  s.readable = false ∧
  unbuffered.Init s.u_unbuffered

/-- converter_fifo.v:5-131: a state with these initial values; registers without one are 0. -/
def powerUp : S :=
  { readable := false
    u_unbuffered := unbuffered.powerUp }

theorem powerUp_init : Init powerUp := ⟨rfl, unbuffered.powerUp_init⟩

end fifo

namespace top

/-- converter_fifo.v:136-260: registers, memories and instances of module `top`. -/
structure S where
  close_full : Bool
  u_fifo : fifo.S

/-- converter_fifo.v:201-211. -/
@[netlist] def fifo_level (s : S) : Nat :=
  fifo.level s.u_fifo
/-- converter_fifo.v:198. -/
@[netlist] def w1 (s : S) : Bool :=
  decide ((fifo_level s) ≥ 123)
/-- converter_fifo.v:240-243. -/
@[netlist] def next_fifo_re (s : S) (latch_output : Bool) : Bool :=
  latch_output
/-- converter_fifo.v:252. -/
@[netlist] def fifo_re (s : S) (latch_output : Bool) : Bool :=
  (next_fifo_re s latch_output)
/-- converter_fifo.v:201-211. -/
@[netlist] def fifo_dout (s : S) : Nat :=
  fifo.dout s.u_fifo
/-- converter_fifo.v:236-239. -/
@[netlist] def next_out_end (s : S) : Bool :=
  (fifo_dout s).testBit 42
/-- converter_fifo.v:253. -/
@[netlist] def out_end (s : S) : Bool :=
  (next_out_end s)
/-- converter_fifo.v:232-235. -/
@[netlist] def next_enc_out_ctr (s : S) : Nat :=
  slc (fifo_dout s) 36 6
/-- converter_fifo.v:254. -/
@[netlist] def enc_out_ctr (s : S) : Nat :=
  (next_enc_out_ctr s)
/-- converter_fifo.v:228-231. -/
@[netlist] def next_enc_out (s : S) : Nat :=
  slc (fifo_dout s) 0 36
/-- converter_fifo.v:255. -/
@[netlist] def enc_out (s : S) : Nat :=
  (next_enc_out s)
/-- converter_fifo.v:201-211. -/
@[netlist] def fifo_readable (s : S) : Bool :=
  s.u_fifo.readable
/-- converter_fifo.v:224-227. -/
@[netlist] def next_valid_out (s : S) : Bool :=
  (fifo_readable s)
/-- converter_fifo.v:256. -/
@[netlist] def valid_out (s : S) : Bool :=
  (next_valid_out s)
/-- converter_fifo.v:201-211. -/
@[netlist] def fifo_writable (s : S) : Bool :=
  fifo.writable s.u_fifo
/-- converter_fifo.v:220-223. -/
@[netlist] def next_writable (s : S) : Bool :=
  (fifo_writable s)
/-- converter_fifo.v:257. -/
@[netlist] def writable (s : S) : Bool :=
  (next_writable s)
/-- converter_fifo.v:216-219. -/
@[netlist] def next_fifo_din (s : S) (enc_in : Nat) (enc_in_ctr : Nat) (in_end : Bool) : Nat :=
  in_end.toNat * 2 ^ 42 + enc_in_ctr * 2 ^ 36 + enc_in
/-- converter_fifo.v:258. -/
@[netlist] def fifo_din (s : S) (enc_in : Nat) (enc_in_ctr : Nat) (in_end : Bool) : Nat :=
  (next_fifo_din s enc_in enc_in_ctr in_end)
/-- converter_fifo.v:212-215. -/
@[netlist] def next_fifo_we (s : S) (valid_in : Bool) : Bool :=
  valid_in
/-- converter_fifo.v:259. -/
@[netlist] def fifo_we (s : S) (valid_in : Bool) : Bool :=
  (next_fifo_we s valid_in)
/-- converter_fifo.v:244-251. -/
@[netlist] def next_close_full (s : S) (rst : Bool) : Bool :=
  let e1 := (w1 s)
  if rst = true then false
  else e1

/-- converter_fifo.v:136-260: one rising clock edge (`always @(posedge ...)`). -/
@[netlist] def step (s : S) (enc_in : Nat) (enc_in_ctr : Nat) (in_end : Bool) (latch_output : Bool) (rst : Bool) (valid_in : Bool) : S :=
  { close_full := (next_close_full s rst)
    u_fifo := fifo.step s.u_fifo (fifo_we s valid_in) (fifo_re s latch_output) rst (fifo_din s enc_in enc_in_ctr in_end) }

/-- converter_fifo.v:136-260: the initial values given in the netlist. -/
def Init (s : S) : Prop :=
  s.close_full = false ∧
  fifo.Init s.u_fifo

/-- converter_fifo.v:136-260: a state with these initial values; registers without one are 0. -/
def powerUp : S :=
  { close_full := false
    u_fifo := fifo.powerUp }

theorem powerUp_init : Init powerUp := ⟨rfl, fifo.powerUp_init⟩

end top

end Netlist.ConvFifoV
