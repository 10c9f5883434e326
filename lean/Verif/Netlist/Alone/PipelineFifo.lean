/- Generated by netlist/v2lean.py from verilog_src/lj92_pipeline_fifo.v.  Do not edit. -/
import Verif.Netlist.Basic

set_option autoImplicit false
set_option linter.unusedVariables false

namespace Netlist.PipeFifoV
open Netlist

namespace unbuffered

/-- lj92_pipeline_fifo.v:252-610: registers, memories and instances of module `unbuffered`. -/
structure S where
  level : Nat
  consume : Nat
  produce : Nat
  r_0_ : Nat
  storage : List Nat

/-- lj92_pipeline_fifo.v:351. -/
@[netlist] def w10 (s : S) : Bool :=
  s.produce == 0
/-- lj92_pipeline_fifo.v:381. -/
@[netlist] def w7 (s : S) : Nat :=
  (2 ^ 8 + s.produce - 1) % 2 ^ 8
/-- lj92_pipeline_fifo.v:352. -/
@[netlist] def w9 (s : S) : Nat :=
  if (w10 s) then 126 else (w7 s)
/-- lj92_pipeline_fifo.v:361. -/
@[netlist] def w2 (s : S) : Bool :=
  s.level != 127
/-- lj92_pipeline_fifo.v:524-527. -/
@[netlist] def next_writable (s : S) : Bool :=
  (w2 s)
/-- lj92_pipeline_fifo.v:609. -/
@[netlist] def writable (s : S) : Bool :=
  (next_writable s)
/-- lj92_pipeline_fifo.v:353. -/
@[netlist] def w13 (s : S) (replace : Bool) : Bool :=
  (writable s) || replace
/-- lj92_pipeline_fifo.v:354. -/
@[netlist] def w15 (s : S) (we : Bool) (replace : Bool) : Bool :=
  we && (w13 s replace)
/-- lj92_pipeline_fifo.v:355. -/
@[netlist] def w17 (s : S) (we : Bool) : Bool :=
  (writable s) && we
/-- lj92_pipeline_fifo.v:356. -/
@[netlist] def w19 (s : S) (replace : Bool) : Bool :=
  !replace
/-- lj92_pipeline_fifo.v:357. -/
@[netlist] def w21 (s : S) (we : Bool) (replace : Bool) : Bool :=
  (w17 s we) && (w19 s replace)
/-- lj92_pipeline_fifo.v:358. -/
@[netlist] def w24 (s : S) : Nat :=
  (s.produce + 1) % 2 ^ 8
/-- lj92_pipeline_fifo.v:359. -/
@[netlist] def w27 (s : S) : Bool :=
  s.produce == 126
/-- lj92_pipeline_fifo.v:360. -/
@[netlist] def w26 (s : S) : Nat :=
  if (w27 s) then 0 else (w24 s)
/-- lj92_pipeline_fifo.v:371. -/
@[netlist] def w4 (s : S) : Bool :=
  s.level != 0
/-- lj92_pipeline_fifo.v:528-531. -/
@[netlist] def next_readable (s : S) : Bool :=
  (w4 s)
/-- lj92_pipeline_fifo.v:608. -/
@[netlist] def readable (s : S) : Bool :=
  (next_readable s)
/-- lj92_pipeline_fifo.v:362. -/
@[netlist] def w30 (s : S) (re : Bool) : Bool :=
  (readable s) && re
/-- lj92_pipeline_fifo.v:363. -/
@[netlist] def w33 (s : S) : Nat :=
  (s.consume + 1) % 2 ^ 8
/-- lj92_pipeline_fifo.v:364. -/
@[netlist] def w36 (s : S) : Bool :=
  s.consume == 126
/-- lj92_pipeline_fifo.v:365. -/
@[netlist] def w35 (s : S) : Nat :=
  if (w36 s) then 0 else (w33 s)
/-- lj92_pipeline_fifo.v:366. -/
@[netlist] def w39 (s : S) (we : Bool) : Bool :=
  (writable s) && we
/-- lj92_pipeline_fifo.v:367. -/
@[netlist] def w41 (s : S) (replace : Bool) : Bool :=
  !replace
/-- lj92_pipeline_fifo.v:368. -/
@[netlist] def w43 (s : S) (we : Bool) (replace : Bool) : Bool :=
  (w39 s we) && (w41 s replace)
/-- lj92_pipeline_fifo.v:369. -/
@[netlist] def w46 (s : S) (re : Bool) : Bool :=
  (readable s) && re
/-- lj92_pipeline_fifo.v:370. -/
@[netlist] def w45 (s : S) (re : Bool) : Bool :=
  !(w46 s re)
/-- lj92_pipeline_fifo.v:372. -/
@[netlist] def w49 (s : S) (we : Bool) (replace : Bool) (re : Bool) : Bool :=
  (w43 s we replace) && (w45 s re)
/-- lj92_pipeline_fifo.v:373. -/
@[netlist] def w52 (s : S) : Nat :=
  (s.level + 1) % 2 ^ 8
/-- lj92_pipeline_fifo.v:374. -/
@[netlist] def w54 (s : S) (re : Bool) : Bool :=
  (readable s) && re
/-- lj92_pipeline_fifo.v:375. -/
@[netlist] def w57 (s : S) (we : Bool) : Bool :=
  (writable s) && we
/-- lj92_pipeline_fifo.v:376. -/
@[netlist] def w59 (s : S) (replace : Bool) : Bool :=
  !replace
/-- lj92_pipeline_fifo.v:377. -/
@[netlist] def w61 (s : S) (we : Bool) (replace : Bool) : Bool :=
  (w57 s we) && (w59 s replace)
/-- lj92_pipeline_fifo.v:378. -/
@[netlist] def w56 (s : S) (we : Bool) (replace : Bool) : Bool :=
  !(w61 s we replace)
/-- lj92_pipeline_fifo.v:379. -/
@[netlist] def w64 (s : S) (we : Bool) (replace : Bool) (re : Bool) : Bool :=
  (w54 s re) && (w56 s we replace)
/-- lj92_pipeline_fifo.v:380. -/
@[netlist] def w67 (s : S) : Nat :=
  (2 ^ 8 + s.level - 1) % 2 ^ 8
/-- lj92_pipeline_fifo.v:523. -/
@[netlist] def rdport_storage_r_data (s : S) : Nat :=
  s.r_0_
/-- lj92_pipeline_fifo.v:597. -/
@[netlist] def w6 (s : S) : Nat :=
  (w9 s)
/-- lj92_pipeline_fifo.v:598. -/
@[netlist] def w23 (s : S) : Nat :=
  (w26 s)
/-- lj92_pipeline_fifo.v:599. -/
@[netlist] def w32 (s : S) : Nat :=
  (w35 s)
/-- lj92_pipeline_fifo.v:600. -/
@[netlist] def w51 (s : S) : Nat :=
  (w52 s)
/-- lj92_pipeline_fifo.v:601. -/
@[netlist] def w66 (s : S) : Nat :=
  (w67 s)
/-- lj92_pipeline_fifo.v:582-585. -/
@[netlist] def next_rdport_storage_r_en (s : S) (re : Bool) : Bool :=
  re
/-- lj92_pipeline_fifo.v:602. -/
@[netlist] def rdport_storage_r_en (s : S) (re : Bool) : Bool :=
  (next_rdport_storage_r_en s re)
/-- lj92_pipeline_fifo.v:578-581. -/
@[netlist] def next_dout (s : S) : Nat :=
  (rdport_storage_r_data s)
/-- lj92_pipeline_fifo.v:603. -/
@[netlist] def dout (s : S) : Nat :=
  (next_dout s)
/-- lj92_pipeline_fifo.v:574-577. -/
@[netlist] def next_rdport_storage_r_addr (s : S) : Nat :=
  s.consume
/-- lj92_pipeline_fifo.v:604. -/
@[netlist] def rdport_storage_r_addr (s : S) : Nat :=
  (next_rdport_storage_r_addr s)
/-- lj92_pipeline_fifo.v:559-562. -/
@[netlist] def next_wrport_storage_w_en (s : S) (we : Bool) (replace : Bool) : Bool :=
  (w15 s we replace)
/-- lj92_pipeline_fifo.v:605. -/
@[netlist] def wrport_storage_w_en (s : S) (we : Bool) (replace : Bool) : Bool :=
  (next_wrport_storage_w_en s we replace)
/-- lj92_pipeline_fifo.v:555-558. -/
@[netlist] def next_wrport_storage_w_data (s : S) (din : Nat) : Nat :=
  din
/-- lj92_pipeline_fifo.v:606. -/
@[netlist] def wrport_storage_w_data (s : S) (din : Nat) : Nat :=
  (next_wrport_storage_w_data s din)
/-- lj92_pipeline_fifo.v:547-554. -/
@[netlist] def next_wrport_storage_w_addr (s : S) (replace : Bool) : Nat :=
  if replace = true then slc (w6 s) 0 7
  else s.produce
/-- lj92_pipeline_fifo.v:607. -/
@[netlist] def wrport_storage_w_addr (s : S) (replace : Bool) : Nat :=
  (next_wrport_storage_w_addr s replace)
/-- lj92_pipeline_fifo.v:532-546. -/
@[netlist] def next_level (s : S) (we : Bool) (replace : Bool) (re : Bool) (rst : Bool) : Nat :=
  let e1 := if (w49 s we replace re) = true then slc (w51 s) 0 7
  else s.level
  let e2 := if (w64 s we replace re) = true then slc (w66 s) 0 7
  else e1
  if rst = true then 0
  else e2
/-- lj92_pipeline_fifo.v:563-573. -/
@[netlist] def next_produce (s : S) (we : Bool) (replace : Bool) (rst : Bool) : Nat :=
  let e1 := if (w21 s we replace) = true then slc (w23 s) 0 7
  else s.produce
  if rst = true then 0
  else e1
/-- lj92_pipeline_fifo.v:586-596. -/
@[netlist] def next_consume (s : S) (re : Bool) (rst : Bool) : Nat :=
  let e1 := if (w30 s re) = true then slc (w32 s) 0 7
  else s.consume
  if rst = true then 0
  else e1

/-- lj92_pipeline_fifo.v:252-610: one rising clock edge (`always @(posedge ...)`). -/
@[netlist] def step (s : S) (we : Bool) (replace : Bool) (re : Bool) (rst : Bool) (din : Nat) : S :=
  { level := (next_level s we replace re rst)
    consume := (next_consume s re rst)
    produce := (next_produce s we replace rst)
    r_0_ := if (next_rdport_storage_r_en s re) then s.storage.getD (next_rdport_storage_r_addr s) 0 else s.r_0_
    storage := if (next_wrport_storage_w_en s we replace) then s.storage.set (next_wrport_storage_w_addr s replace) (next_wrport_storage_w_data s din) else s.storage }

/-- lj92_pipeline_fifo.v:252-610: the initial values given in the netlist. -/
def Init (s : S) : Prop :=
  s.level = 0 ∧
  s.consume = 0 ∧
  s.produce = 0 ∧
  s.storage = List.replicate 127 0

/-- lj92_pipeline_fifo.v:252-610: a state with these initial values; registers without one are 0. -/
def powerUp : S :=
  { level := 0
    consume := 0
    produce := 0
    r_0_ := 0
    storage := List.replicate 127 0 }

theorem powerUp_init : Init powerUp := ⟨rfl, rfl, rfl, rfl⟩

end unbuffered

namespace fifo

/-- lj92_pipeline_fifo.v:5-131: registers, memories and instances of module `fifo`. -/
structure S where
  readable : Bool
  u_unbuffered : unbuffered.S

/-- lj92_pipeline_fifo.v:64. -/
@[netlist] def w1 (s : S) : Bool :=
  !s.readable
/-- lj92_pipeline_fifo.v:65. -/
@[netlist] def w3 (s : S) (re : Bool) : Bool :=
  (w1 s) || re
/-- lj92_pipeline_fifo.v:70-81. -/
@[netlist] def unbuffered_readable (s : S) : Bool :=
  unbuffered.readable s.u_unbuffered
/-- lj92_pipeline_fifo.v:66. -/
@[netlist] def w5 (s : S) (re : Bool) : Bool :=
  (unbuffered_readable s) && (w3 s re)
/-- lj92_pipeline_fifo.v:70-81. -/
@[netlist] def unbuffered_level (s : S) : Nat :=
  s.u_unbuffered.level
/-- lj92_pipeline_fifo.v:67. -/
@[netlist] def w7 (s : S) : Nat :=
  ((unbuffered_level s) + s.readable.toNat) % 2 ^ 8
/-- lj92_pipeline_fifo.v:120-123. -/
@[netlist] def next_level (s : S) : Nat :=
  (w7 s)
/-- lj92_pipeline_fifo.v:124. -/
@[netlist] def level (s : S) : Nat :=
  (next_level s)
/-- lj92_pipeline_fifo.v:103-106. -/
@[netlist] def next_unbuffered_re (s : S) (re : Bool) : Bool :=
  (w5 s re)
/-- lj92_pipeline_fifo.v:125. -/
@[netlist] def unbuffered_re (s : S) (re : Bool) : Bool :=
  (next_unbuffered_re s re)
/-- lj92_pipeline_fifo.v:70-81. -/
@[netlist] def unbuffered_dout (s : S) : Nat :=
  unbuffered.dout s.u_unbuffered
/-- lj92_pipeline_fifo.v:99-102. -/
@[netlist] def next_dout (s : S) : Nat :=
  (unbuffered_dout s)
/-- lj92_pipeline_fifo.v:126. -/
@[netlist] def dout (s : S) : Nat :=
  (next_dout s)
/-- lj92_pipeline_fifo.v:94-98. -/
@[netlist] def next_unbuffered_replace (s : S) : Bool :=
  false
/-- lj92_pipeline_fifo.v:127. -/
@[netlist] def unbuffered_replace (s : S) : Bool :=
  (next_unbuffered_replace s)
/-- lj92_pipeline_fifo.v:70-81. -/
@[netlist] def unbuffered_writable (s : S) : Bool :=
  unbuffered.writable s.u_unbuffered
/-- lj92_pipeline_fifo.v:90-93. -/
@[netlist] def next_writable (s : S) : Bool :=
  (unbuffered_writable s)
/-- lj92_pipeline_fifo.v:128. -/
@[netlist] def writable (s : S) : Bool :=
  (next_writable s)
/-- lj92_pipeline_fifo.v:86-89. -/
@[netlist] def next_unbuffered_we (s : S) (we : Bool) : Bool :=
  we
/-- lj92_pipeline_fifo.v:129. -/
@[netlist] def unbuffered_we (s : S) (we : Bool) : Bool :=
  (next_unbuffered_we s we)
/-- lj92_pipeline_fifo.v:82-85. -/
@[netlist] def next_unbuffered_din (s : S) (din : Nat) : Nat :=
  din
/-- lj92_pipeline_fifo.v:130. -/
@[netlist] def unbuffered_din (s : S) (din : Nat) : Nat :=
  (next_unbuffered_din s din)
/-- lj92_pipeline_fifo.v:107-119. -/
@[netlist] def next_readable (s : S) (re : Bool) (rst : Bool) : Bool :=
  let e1 := if (unbuffered_re s re) = true then true
  else if re = true then false
  else s.readable
  if rst = true then false
  else e1

/-- lj92_pipeline_fifo.v:5-131: one rising clock edge (`always @(posedge ...)`). -/
@[netlist] def step (s : S) (we : Bool) (re : Bool) (rst : Bool) (din : Nat) : S :=
  { readable := (next_readable s re rst)
    u_unbuffered := unbuffered.step s.u_unbuffered (unbuffered_we s we) (unbuffered_replace s) (unbuffered_re s re) rst (unbuffered_din s din) }

/-- lj92_pipeline_fifo.v:5-131: the initial values given in the netlist. -/
def Init (s : S) : Prop :=
  s.readable = false ∧
  unbuffered.Init s.u_unbuffered

/-- lj92_pipeline_fifo.v:5-131: a state with these initial values; registers without one are 0. -/
def powerUp : S :=
  { readable := false
    u_unbuffered := unbuffered.powerUp }

theorem powerUp_init : Init powerUp := ⟨rfl, unbuffered.powerUp_init⟩

end fifo

namespace top

/-- lj92_pipeline_fifo.v:136-248: registers, memories and instances of module `top`. -/
structure S where
  close_full : Bool
  u_fifo : fifo.S

/-- lj92_pipeline_fifo.v:195-204. -/
@[netlist] def fifo_level (s : S) : Nat :=
  fifo.level s.u_fifo
/-- lj92_pipeline_fifo.v:192. -/
@[netlist] def w1 (s : S) : Bool :=
  decide ((fifo_level s) ≥ 118)
/-- lj92_pipeline_fifo.v:229-232. -/
@[netlist] def next_fifo_re (s : S) (latch_output : Bool) : Bool :=
  latch_output
/-- lj92_pipeline_fifo.v:241. -/
@[netlist] def fifo_re (s : S) (latch_output : Bool) : Bool :=
  (next_fifo_re s latch_output)
/-- lj92_pipeline_fifo.v:195-204. -/
@[netlist] def fifo_dout (s : S) : Nat :=
  fifo.dout s.u_fifo
/-- lj92_pipeline_fifo.v:225-228. -/
@[netlist] def next_out_end (s : S) : Bool :=
  (fifo_dout s).testBit 68
/-- lj92_pipeline_fifo.v:242. -/
@[netlist] def out_end (s : S) : Bool :=
  (next_out_end s)
/-- lj92_pipeline_fifo.v:221-224. -/
@[netlist] def next_enc_out_ctr (s : S) : Nat :=
  slc (fifo_dout s) 62 6
/-- lj92_pipeline_fifo.v:243. -/
@[netlist] def enc_out_ctr (s : S) : Nat :=
  (next_enc_out_ctr s)
/-- lj92_pipeline_fifo.v:217-220. -/
@[netlist] def next_enc_out (s : S) : Nat :=
  slc (fifo_dout s) 0 62
/-- lj92_pipeline_fifo.v:244. -/
@[netlist] def enc_out (s : S) : Nat :=
  (next_enc_out s)
/-- lj92_pipeline_fifo.v:195-204. -/
@[netlist] def fifo_readable (s : S) : Bool :=
  s.u_fifo.readable
/-- lj92_pipeline_fifo.v:213-216. -/
@[netlist] def next_valid_out (s : S) : Bool :=
  (fifo_readable s)
/-- lj92_pipeline_fifo.v:245. -/
@[netlist] def valid_out (s : S) : Bool :=
  (next_valid_out s)
/-- lj92_pipeline_fifo.v:209-212. -/
@[netlist] def next_fifo_din (s : S) (enc_in : Nat) (enc_in_ctr : Nat) (in_end : Bool) : Nat :=
  in_end.toNat * 2 ^ 68 + enc_in_ctr * 2 ^ 62 + enc_in
/-- lj92_pipeline_fifo.v:246. -/
@[netlist] def fifo_din (s : S) (enc_in : Nat) (enc_in_ctr : Nat) (in_end : Bool) : Nat :=
  (next_fifo_din s enc_in enc_in_ctr in_end)
/-- lj92_pipeline_fifo.v:205-208. -/
@[netlist] def next_fifo_we (s : S) (valid_in : Bool) : Bool :=
  valid_in
/-- lj92_pipeline_fifo.v:247. -/
@[netlist] def fifo_we (s : S) (valid_in : Bool) : Bool :=
  (next_fifo_we s valid_in)
/-- lj92_pipeline_fifo.v:233-240. -/
@[netlist] def next_close_full (s : S) (rst : Bool) : Bool :=
  let e1 := (w1 s)
  if rst = true then false
  else e1

/-- lj92_pipeline_fifo.v:136-248: one rising clock edge (`always @(posedge ...)`). -/
@[netlist] def step (s : S) (enc_in : Nat) (enc_in_ctr : Nat) (in_end : Bool) (latch_output : Bool) (rst : Bool) (valid_in : Bool) : S :=
  { close_full := (next_close_full s rst)
    u_fifo := fifo.step s.u_fifo (fifo_we s valid_in) (fifo_re s latch_output) rst (fifo_din s enc_in enc_in_ctr in_end) }

/-- lj92_pipeline_fifo.v:136-248: the initial values given in the netlist. -/
def Init (s : S) : Prop :=
  s.close_full = false ∧
  fifo.Init s.u_fifo

/-- lj92_pipeline_fifo.v:136-248: a state with these initial values; registers without one are 0. -/
def powerUp : S :=
  { close_full := false
    u_fifo := fifo.powerUp }

theorem powerUp_init : Init powerUp := ⟨rfl, fifo.powerUp_init⟩

end top

end Netlist.PipeFifoV
