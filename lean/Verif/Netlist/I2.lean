/- Generated by netlist/v2lean.py from verilog_src/integration_2.v.  Do not edit. -/
import Verif.Netlist.I3

set_option autoImplicit false
set_option linter.unusedVariables false

namespace Netlist.I2
open Netlist

namespace top

/-- integration_2.v:6079-6566: registers, memories and instances of module `top`. -/
structure S where
  nready_reset : Bool
  nready_reset_counter : Nat
  nready_end_reg : Bool
  nready_end : Bool
  u_converter : I3Axis.converter.S
  u_converter_fifo : I3Axis.converter_fifo.S
  u_integration_1 : I3.integration_1.S
  u_lj92_pipeline_fifo : I3Axis.lj92_pipeline_fifo.S

/-- integration_2.v:6296. -/
@[netlist] def w9 (s : S) (valid_in : Bool) : Bool :=
  valid_in == true
/-- integration_2.v:6357-6373. -/
@[netlist] def integration_1_end_of_frame (s : S) : Bool :=
  I3.integration_1.end_of_frame s.u_integration_1
/-- integration_2.v:6320. -/
@[netlist] def w7 (s : S) : Bool :=
  (integration_1_end_of_frame s) == true
/-- integration_2.v:6297. -/
@[netlist] def w11 (s : S) (valid_in : Bool) : Bool :=
  (w7 s) && (w9 s valid_in)
/-- integration_2.v:6374-6387. -/
@[netlist] def lj92_pipeline_fifo_close_full (s : S) : Bool :=
  s.u_lj92_pipeline_fifo.close_full
/-- integration_2.v:6310. -/
@[netlist] def w38 (s : S) : Bool :=
  (lj92_pipeline_fifo_close_full s) == true
/-- integration_2.v:6311. -/
@[netlist] def w40 (s : S) : Bool :=
  s.nready_end == true
/-- integration_2.v:6312. -/
@[netlist] def w42 (s : S) : Bool :=
  (w38 s) || (w40 s)
/-- integration_2.v:6313. -/
@[netlist] def w44 (s : S) : Bool :=
  s.nready_reset == false
/-- integration_2.v:6314. -/
@[netlist] def w46 (s : S) : Bool :=
  (w42 s) || (w44 s)
/-- integration_2.v:6518-6521. -/
@[netlist] def next_nready_signal (s : S) : Bool :=
  (w46 s)
/-- integration_2.v:6564. -/
@[netlist] def nready_signal (s : S) : Bool :=
  (next_nready_signal s)
/-- integration_2.v:6424-6427. -/
@[netlist] def next_nready (s : S) : Bool :=
  (nready_signal s)
/-- integration_2.v:6554. -/
@[netlist] def nready (s : S) : Bool :=
  (next_nready s)
/-- integration_2.v:6298. -/
@[netlist] def w13 (s : S) : Bool :=
  (nready s) == false
/-- integration_2.v:6299. -/
@[netlist] def w15 (s : S) (valid_in : Bool) : Bool :=
  (w11 s valid_in) && (w13 s)
/-- integration_2.v:6388-6395. -/
@[netlist] def next_nready_end_wire (s : S) (valid_in : Bool) : Bool :=
  if (w15 s valid_in) = true then true
  else false
/-- integration_2.v:6565. -/
@[netlist] def nready_end_wire (s : S) (valid_in : Bool) : Bool :=
  (next_nready_end_wire s valid_in)
/-- integration_2.v:6300. -/
@[netlist] def w17 (s : S) (valid_in : Bool) : Bool :=
  (nready_end_wire s valid_in) == true
/-- integration_2.v:6301. -/
@[netlist] def w19 (s : S) : Bool :=
  s.nready_end_reg == true
/-- integration_2.v:6302. -/
@[netlist] def w21 (s : S) (valid_in : Bool) : Bool :=
  (w17 s valid_in) || (w19 s)
/-- integration_2.v:6303. -/
@[netlist] def w23 (s : S) : Bool :=
  (integration_1_end_of_frame s) == true
/-- integration_2.v:6304. -/
@[netlist] def w25 (s : S) (valid_in : Bool) : Bool :=
  valid_in == true
/-- integration_2.v:6305. -/
@[netlist] def w27 (s : S) (valid_in : Bool) : Bool :=
  (w23 s) && (w25 s valid_in)
/-- integration_2.v:6306. -/
@[netlist] def w29 (s : S) : Bool :=
  (nready s) == false
/-- integration_2.v:6307. -/
@[netlist] def w31 (s : S) (valid_in : Bool) : Bool :=
  (w27 s valid_in) && (w29 s)
/-- integration_2.v:6308. -/
@[netlist] def w34 (s : S) : Nat :=
  (s.nready_reset_counter + 1) % 2 ^ 4
/-- integration_2.v:6309. -/
@[netlist] def w36 (s : S) : Bool :=
  s.nready_reset_counter == 7
/-- integration_2.v:6315. -/
@[netlist] def w48 (s : S) (valid_in : Bool) : Bool :=
  valid_in == true
/-- integration_2.v:6316. -/
@[netlist] def w50 (s : S) : Bool :=
  (nready_signal s) == false
/-- integration_2.v:6317. -/
@[netlist] def w52 (s : S) (valid_in : Bool) : Bool :=
  (w48 s valid_in) && (w50 s)
/-- integration_2.v:6343-6356. -/
@[netlist] def converter_fifo_enc_out (s : S) : Nat :=
  I3Axis.converter_fifo.enc_out s.u_converter_fifo
/-- integration_2.v:6318. -/
@[netlist] def w54 (s : S) : Nat :=
  (converter_fifo_enc_out s)
/-- integration_2.v:6343-6356. -/
@[netlist] def converter_fifo_enc_out_ctr (s : S) : Nat :=
  I3Axis.converter_fifo.enc_out_ctr s.u_converter_fifo
/-- integration_2.v:6319. -/
@[netlist] def w56 (s : S) : Nat :=
  (converter_fifo_enc_out_ctr s)
/-- integration_2.v:6538. -/
@[netlist] def w33 (s : S) : Nat :=
  (w34 s)
/-- integration_2.v:6503-6506. -/
@[netlist] def next_converter_fifo_latch_output (s : S) (latch_output : Bool) : Bool :=
  latch_output
/-- integration_2.v:6539. -/
@[netlist] def converter_fifo_latch_output (s : S) (latch_output : Bool) : Bool :=
  (next_converter_fifo_latch_output s latch_output)
/-- integration_2.v:6343-6356. -/
@[netlist] def converter_fifo_out_end (s : S) : Bool :=
  I3Axis.converter_fifo.out_end s.u_converter_fifo
/-- integration_2.v:6491-6494. -/
@[netlist] def next_out_end (s : S) : Bool :=
  (converter_fifo_out_end s)
/-- integration_2.v:6540. -/
@[netlist] def out_end (s : S) : Bool :=
  (next_out_end s)
/-- integration_2.v:6343-6356. -/
@[netlist] def converter_fifo_valid_out (s : S) : Bool :=
  I3Axis.converter_fifo.valid_out s.u_converter_fifo
/-- integration_2.v:6487-6490. -/
@[netlist] def next_valid_out (s : S) : Bool :=
  (converter_fifo_valid_out s)
/-- integration_2.v:6541. -/
@[netlist] def valid_out (s : S) : Bool :=
  (next_valid_out s)
/-- integration_2.v:6483-6486. -/
@[netlist] def next_enc_out_ctr (s : S) : Nat :=
  (w56 s)
/-- integration_2.v:6542. -/
@[netlist] def enc_out_ctr (s : S) : Nat :=
  (next_enc_out_ctr s)
/-- integration_2.v:6479-6482. -/
@[netlist] def next_enc_out (s : S) : Nat :=
  (w54 s)
/-- integration_2.v:6543. -/
@[netlist] def enc_out (s : S) : Nat :=
  (next_enc_out s)
/-- integration_2.v:6343-6356. -/
@[netlist] def converter_fifo_close_full (s : S) : Bool :=
  s.u_converter_fifo.close_full
/-- integration_2.v:6475-6478. -/
@[netlist] def next_converter_close_full (s : S) : Bool :=
  (converter_fifo_close_full s)
/-- integration_2.v:6544. -/
@[netlist] def converter_close_full (s : S) : Bool :=
  (next_converter_close_full s)
/-- integration_2.v:6329-6342. -/
@[netlist] def converter_valid_in (s : S) : Bool :=
  s.u_converter.valid_in
/-- integration_2.v:6471-6474. -/
@[netlist] def next_converter_fifo_valid_in (s : S) : Bool :=
  (converter_valid_in s)
/-- integration_2.v:6545. -/
@[netlist] def converter_fifo_valid_in (s : S) : Bool :=
  (next_converter_fifo_valid_in s)
/-- integration_2.v:6329-6342. -/
@[netlist] def converter_in_end (s : S) : Bool :=
  s.u_converter.in_end
/-- integration_2.v:6467-6470. -/
@[netlist] def next_converter_fifo_in_end (s : S) : Bool :=
  (converter_in_end s)
/-- integration_2.v:6546. -/
@[netlist] def converter_fifo_in_end (s : S) : Bool :=
  (next_converter_fifo_in_end s)
/-- integration_2.v:6329-6342. -/
@[netlist] def converter_enc_in_ctr (s : S) : Nat :=
  s.u_converter.enc_in_ctr
/-- integration_2.v:6463-6466. -/
@[netlist] def next_converter_fifo_enc_in_ctr (s : S) : Nat :=
  (converter_enc_in_ctr s)
/-- integration_2.v:6547. -/
@[netlist] def converter_fifo_enc_in_ctr (s : S) : Nat :=
  (next_converter_fifo_enc_in_ctr s)
/-- integration_2.v:6329-6342. -/
@[netlist] def converter_enc_in (s : S) : Nat :=
  s.u_converter.enc_in
/-- integration_2.v:6459-6462. -/
@[netlist] def next_converter_fifo_enc_in (s : S) : Nat :=
  (converter_enc_in s)
/-- integration_2.v:6548. -/
@[netlist] def converter_fifo_enc_in (s : S) : Nat :=
  (next_converter_fifo_enc_in s)
/-- integration_2.v:6374-6387. -/
@[netlist] def lj92_pipeline_fifo_valid_out (s : S) : Bool :=
  I3Axis.lj92_pipeline_fifo.valid_out s.u_lj92_pipeline_fifo
/-- integration_2.v:6455-6458. -/
@[netlist] def next_converter_valid_out (s : S) : Bool :=
  (lj92_pipeline_fifo_valid_out s)
/-- integration_2.v:6549. -/
@[netlist] def converter_valid_out (s : S) : Bool :=
  (next_converter_valid_out s)
/-- integration_2.v:6374-6387. -/
@[netlist] def lj92_pipeline_fifo_out_end (s : S) : Bool :=
  I3Axis.lj92_pipeline_fifo.out_end s.u_lj92_pipeline_fifo
/-- integration_2.v:6440-6443. -/
@[netlist] def next_converter_out_end (s : S) : Bool :=
  (lj92_pipeline_fifo_out_end s)
/-- integration_2.v:6550. -/
@[netlist] def converter_out_end (s : S) : Bool :=
  (next_converter_out_end s)
/-- integration_2.v:6374-6387. -/
@[netlist] def lj92_pipeline_fifo_enc_out_ctr (s : S) : Nat :=
  I3Axis.lj92_pipeline_fifo.enc_out_ctr s.u_lj92_pipeline_fifo
/-- integration_2.v:6436-6439. -/
@[netlist] def next_converter_enc_out_ctr (s : S) : Nat :=
  (lj92_pipeline_fifo_enc_out_ctr s)
/-- integration_2.v:6551. -/
@[netlist] def converter_enc_out_ctr (s : S) : Nat :=
  (next_converter_enc_out_ctr s)
/-- integration_2.v:6374-6387. -/
@[netlist] def lj92_pipeline_fifo_enc_out (s : S) : Nat :=
  I3Axis.lj92_pipeline_fifo.enc_out s.u_lj92_pipeline_fifo
/-- integration_2.v:6432-6435. -/
@[netlist] def next_converter_enc_out (s : S) : Nat :=
  (lj92_pipeline_fifo_enc_out s)
/-- integration_2.v:6552. -/
@[netlist] def converter_enc_out (s : S) : Nat :=
  (next_converter_enc_out s)
/-- integration_2.v:6329-6342. -/
@[netlist] def converter_latch_output (s : S) : Bool :=
  s.u_converter.latch_output
/-- integration_2.v:6428-6431. -/
@[netlist] def next_lj92_pipeline_fifo_latch_output (s : S) : Bool :=
  (converter_latch_output s)
/-- integration_2.v:6553. -/
@[netlist] def lj92_pipeline_fifo_latch_output (s : S) : Bool :=
  (next_lj92_pipeline_fifo_latch_output s)
/-- integration_2.v:6357-6373. -/
@[netlist] def integration_1_end_out (s : S) : Bool :=
  I3.integration_1.end_out s.u_integration_1
/-- integration_2.v:6420-6423. -/
@[netlist] def next_lj92_pipeline_fifo_in_end (s : S) : Bool :=
  (integration_1_end_out s)
/-- integration_2.v:6555. -/
@[netlist] def lj92_pipeline_fifo_in_end (s : S) : Bool :=
  (next_lj92_pipeline_fifo_in_end s)
/-- integration_2.v:6357-6373. -/
@[netlist] def integration_1_valid_out (s : S) : Bool :=
  I3.integration_1.valid_out s.u_integration_1
/-- integration_2.v:6416-6419. -/
@[netlist] def next_lj92_pipeline_fifo_valid_in (s : S) : Bool :=
  (integration_1_valid_out s)
/-- integration_2.v:6556. -/
@[netlist] def lj92_pipeline_fifo_valid_in (s : S) : Bool :=
  (next_lj92_pipeline_fifo_valid_in s)
/-- integration_2.v:6357-6373. -/
@[netlist] def integration_1_enc_out_ctr (s : S) : Nat :=
  I3.integration_1.enc_out_ctr s.u_integration_1
/-- integration_2.v:6412-6415. -/
@[netlist] def next_lj92_pipeline_fifo_enc_in_ctr (s : S) : Nat :=
  (integration_1_enc_out_ctr s)
/-- integration_2.v:6557. -/
@[netlist] def lj92_pipeline_fifo_enc_in_ctr (s : S) : Nat :=
  (next_lj92_pipeline_fifo_enc_in_ctr s)
/-- integration_2.v:6357-6373. -/
@[netlist] def integration_1_enc_out (s : S) : Nat :=
  I3.integration_1.enc_out s.u_integration_1
/-- integration_2.v:6408-6411. -/
@[netlist] def next_lj92_pipeline_fifo_enc_in (s : S) : Nat :=
  (integration_1_enc_out s)
/-- integration_2.v:6558. -/
@[netlist] def lj92_pipeline_fifo_enc_in (s : S) : Nat :=
  (next_lj92_pipeline_fifo_enc_in s)
/-- integration_2.v:6404-6407. -/
@[netlist] def next_integration_1_valid_in (s : S) (valid_in : Bool) : Bool :=
  (w52 s valid_in)
/-- integration_2.v:6559. -/
@[netlist] def integration_1_valid_in (s : S) (valid_in : Bool) : Bool :=
  (next_integration_1_valid_in s valid_in)
/-- integration_2.v:6534-6537. -/
@[netlist] def next_integration_1_pixel_in_6 (s : S) (pixel_in_3 : Nat) : Nat :=
  pixel_in_3
/-- integration_2.v:6560. -/
@[netlist] def integration_1_pixel_in_6 (s : S) (pixel_in_3 : Nat) : Nat :=
  (next_integration_1_pixel_in_6 s pixel_in_3)
/-- integration_2.v:6530-6533. -/
@[netlist] def next_integration_1_pixel_in_5 (s : S) (pixel_in_2 : Nat) : Nat :=
  pixel_in_2
/-- integration_2.v:6561. -/
@[netlist] def integration_1_pixel_in_5 (s : S) (pixel_in_2 : Nat) : Nat :=
  (next_integration_1_pixel_in_5 s pixel_in_2)
/-- integration_2.v:6526-6529. -/
@[netlist] def next_integration_1_pixel_in_4 (s : S) (pixel_in_1 : Nat) : Nat :=
  pixel_in_1
/-- integration_2.v:6562. -/
@[netlist] def integration_1_pixel_in_4 (s : S) (pixel_in_1 : Nat) : Nat :=
  (next_integration_1_pixel_in_4 s pixel_in_1)
/-- integration_2.v:6522-6525. -/
@[netlist] def next_integration_1_pixel_in (s : S) (pixel_in : Nat) : Nat :=
  pixel_in
/-- integration_2.v:6563. -/
@[netlist] def integration_1_pixel_in (s : S) (pixel_in : Nat) : Nat :=
  (next_integration_1_pixel_in s pixel_in)
/-- integration_2.v:6396-6403. -/
@[netlist] def next_nready_end (s : S) (rst : Bool) (valid_in : Bool) : Bool :=
  let e1 := (w21 s valid_in)
  if rst = true then false
  else e1
/-- integration_2.v:6444-6454. -/
@[netlist] def next_nready_end_reg (s : S) (rst : Bool) (valid_in : Bool) : Bool :=
  let e1 := if (w31 s valid_in) = true then true
  else s.nready_end_reg
  if rst = true then false
  else e1
/-- integration_2.v:6495-6502. -/
@[netlist] def next_nready_reset_counter (s : S) (rst : Bool) : Nat :=
  let e1 := slc (w33 s) 0 3
  if rst = true then 0
  else e1
/-- integration_2.v:6507-6517. -/
@[netlist] def next_nready_reset (s : S) (rst : Bool) : Bool :=
  let e1 := if (w36 s) = true then true
  else s.nready_reset
  if rst = true then false
  else e1
/-- integration_2.v:6357-6373. -/
@[netlist] def fend_out (s : S) : Bool :=
  I3.integration_1.fend_out s.u_integration_1

/-- integration_2.v:6079-6566: one rising clock edge (`always @(posedge ...)`). -/
@[netlist] def step (s : S) (pixel_in : Nat) (pixel_in_1 : Nat) (pixel_in_2 : Nat) (pixel_in_3 : Nat) (latch_output : Bool) (rst : Bool) (full_rst : Bool) (valid_in : Bool) : S :=
  { nready_reset := (next_nready_reset s rst)
    nready_reset_counter := (next_nready_reset_counter s rst)
    nready_end_reg := (next_nready_end_reg s rst valid_in)
    nready_end := (next_nready_end s rst valid_in)
    u_converter := I3Axis.converter.step s.u_converter (converter_valid_out s) (converter_enc_out s) (converter_enc_out_ctr s) (converter_out_end s) rst (converter_close_full s)
    u_converter_fifo := I3Axis.converter_fifo.step s.u_converter_fifo (converter_fifo_enc_in s) (converter_fifo_enc_in_ctr s) (converter_fifo_in_end s) (converter_fifo_latch_output s latch_output) rst (converter_fifo_valid_in s)
    u_integration_1 := I3.integration_1.step s.u_integration_1 (integration_1_pixel_in s pixel_in) (integration_1_pixel_in_4 s pixel_in_1) (integration_1_pixel_in_5 s pixel_in_2) (integration_1_pixel_in_6 s pixel_in_3) rst full_rst (integration_1_valid_in s valid_in)
    u_lj92_pipeline_fifo := I3Axis.lj92_pipeline_fifo.step s.u_lj92_pipeline_fifo (lj92_pipeline_fifo_enc_in s) (lj92_pipeline_fifo_enc_in_ctr s) (lj92_pipeline_fifo_in_end s) (lj92_pipeline_fifo_latch_output s) rst (lj92_pipeline_fifo_valid_in s) }

/-- integration_2.v:6079-6566: the initial values given in the netlist. -/
def Init (s : S) : Prop :=
  s.nready_reset = false ∧
  s.nready_reset_counter = 0 ∧
  s.nready_end_reg = false ∧
  s.nready_end = false ∧
  I3Axis.converter.Init s.u_converter ∧
  I3Axis.converter_fifo.Init s.u_converter_fifo ∧
  I3.integration_1.Init s.u_integration_1 ∧
  I3Axis.lj92_pipeline_fifo.Init s.u_lj92_pipeline_fifo

/-- integration_2.v:6079-6566: a state with these initial values; registers without one are 0. -/
def powerUp : S :=
  { nready_reset := false
    nready_reset_counter := 0
    nready_end_reg := false
    nready_end := false
    u_converter := I3Axis.converter.powerUp
    u_converter_fifo := I3Axis.converter_fifo.powerUp
    u_integration_1 := I3.integration_1.powerUp
    u_lj92_pipeline_fifo := I3Axis.lj92_pipeline_fifo.powerUp }

theorem powerUp_init : Init powerUp := ⟨rfl, rfl, rfl, rfl, I3Axis.converter.powerUp_init, I3Axis.converter_fifo.powerUp_init, I3.integration_1.powerUp_init, I3Axis.lj92_pipeline_fifo.powerUp_init⟩

end top

end Netlist.I2
