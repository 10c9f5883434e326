/- Generated by netlist/v2lean.py from verilog_src/micro_integration_axistream.v.  Do not edit. -/
import Verif.Netlist.Beta

set_option autoImplicit false
set_option linter.unusedVariables false

namespace Netlist.MicroAxis
open Netlist

namespace converter

/-- micro_integration_axistream.v:546-983: registers, memories and instances of module `converter`. -/
structure S where
  out_end_latch : Bool
  enc_out_latch : Nat
  in_end : Bool
  enc_in_ctr : Nat
  enc_in : Nat
  valid_out_reg : Bool
  out_end_reg : Bool
  enc_out_ctr_reg : Nat
  enc_out_reg : Nat
  fsm_state : Nat
  latch_output : Bool
  valid_in : Bool

/-- micro_integration_axistream.v:684. -/
@[netlist] def w7 (s : S) (close_full : Bool) : Bool :=
  close_full == false
/-- micro_integration_axistream.v:656. -/
@[netlist] def w9 (s : S) (valid_out : Bool) (close_full : Bool) : Bool :=
  valid_out && (w7 s close_full)
/-- micro_integration_axistream.v:657. -/
@[netlist] def w11 (s : S) : Bool :=
  decide (s.enc_out_ctr_reg ≤ 15)
/-- micro_integration_axistream.v:658. -/
@[netlist] def w13 (s : S) (close_full : Bool) : Bool :=
  close_full == false
/-- micro_integration_axistream.v:659. -/
@[netlist] def w15 (s : S) (close_full : Bool) : Bool :=
  s.valid_out_reg && (w13 s close_full)
/-- micro_integration_axistream.v:660. -/
@[netlist] def w17 (s : S) (close_full : Bool) : Bool :=
  close_full == false
/-- micro_integration_axistream.v:661. -/
@[netlist] def w1 (s : S) : Bool :=
  decide (s.enc_out_ctr_reg ≤ 15)
/-- micro_integration_axistream.v:662. -/
@[netlist] def w19 (s : S) (valid_out : Bool) (close_full : Bool) : Bool :=
  valid_out && (w17 s close_full)
/-- micro_integration_axistream.v:663. -/
@[netlist] def w21 (s : S) (close_full : Bool) : Bool :=
  close_full == false
/-- micro_integration_axistream.v:664. -/
@[netlist] def w23 (s : S) (close_full : Bool) : Bool :=
  s.valid_out_reg && (w21 s close_full)
/-- micro_integration_axistream.v:665. -/
@[netlist] def w25 (s : S) (close_full : Bool) : Bool :=
  close_full == false
/-- micro_integration_axistream.v:666. -/
@[netlist] def w27 (s : S) (valid_out : Bool) (close_full : Bool) : Bool :=
  valid_out && (w25 s close_full)
/-- micro_integration_axistream.v:667. -/
@[netlist] def w29 (s : S) : Bool :=
  decide (s.enc_out_ctr_reg ≤ 15)
/-- micro_integration_axistream.v:668. -/
@[netlist] def w31 (s : S) : Bool :=
  decide (s.enc_out_ctr_reg ≤ 28)
/-- micro_integration_axistream.v:669. -/
@[netlist] def w33 (s : S) (close_full : Bool) : Bool :=
  close_full == false
/-- micro_integration_axistream.v:670. -/
@[netlist] def w35 (s : S) (close_full : Bool) : Bool :=
  s.valid_out_reg && (w33 s close_full)
/-- micro_integration_axistream.v:671. -/
@[netlist] def w37 (s : S) (close_full : Bool) : Bool :=
  close_full == false
/-- micro_integration_axistream.v:672. -/
@[netlist] def w3 (s : S) (close_full : Bool) : Bool :=
  close_full == false
/-- micro_integration_axistream.v:673. -/
@[netlist] def w39 (s : S) (valid_out : Bool) (close_full : Bool) : Bool :=
  valid_out && (w37 s close_full)
/-- micro_integration_axistream.v:674. -/
@[netlist] def w41 (s : S) : Bool :=
  decide (s.enc_out_ctr_reg ≤ 15)
/-- micro_integration_axistream.v:675. -/
@[netlist] def w43 (s : S) : Bool :=
  decide (s.enc_out_ctr_reg ≤ 28)
/-- micro_integration_axistream.v:676. -/
@[netlist] def w45 (s : S) : Nat :=
  slc s.enc_out_reg 15 13
/-- micro_integration_axistream.v:677. -/
@[netlist] def w47 (s : S) : Bool :=
  decide (s.enc_out_ctr_reg ≤ 15)
/-- micro_integration_axistream.v:678. -/
@[netlist] def w49 (s : S) : Bool :=
  decide (s.enc_out_ctr_reg ≤ 28)
/-- micro_integration_axistream.v:679. -/
@[netlist] def w52 (s : S) : Nat :=
  (2 ^ 6 + s.enc_out_ctr_reg - 15) % 2 ^ 6
/-- micro_integration_axistream.v:680. -/
@[netlist] def w54 (s : S) : Bool :=
  decide (s.enc_out_ctr_reg ≤ 15)
/-- micro_integration_axistream.v:681. -/
@[netlist] def w56 (s : S) : Bool :=
  decide (s.enc_out_ctr_reg ≤ 15)
/-- micro_integration_axistream.v:682. -/
@[netlist] def w58 (s : S) : Bool :=
  decide (s.enc_out_ctr_reg ≤ 15)
/-- micro_integration_axistream.v:683. -/
@[netlist] def w5 (s : S) (close_full : Bool) : Bool :=
  s.valid_out_reg && (w3 s close_full)
/-- micro_integration_axistream.v:982. -/
@[netlist] def w51 (s : S) : Nat :=
  (w52 s)
/-- micro_integration_axistream.v:709-735. -/
@[netlist] def next_valid_in (s : S) (rst : Bool) : Bool :=
  let e1 := if s.fsm_state = 0 then false
  else if s.fsm_state = 2 then false
  else if s.fsm_state = 1 then (if s.valid_out_reg = true then (if (w1 s) = true then true
      else true)
    else false)
  else if s.fsm_state = 3 then true
  else s.valid_in
  if rst = true then false
  else e1
/-- micro_integration_axistream.v:736-774. -/
@[netlist] def next_latch_output (s : S) (valid_out : Bool) (rst : Bool) (close_full : Bool) : Bool :=
  let e1 := if s.fsm_state = 0 then (if (w5 s close_full) = true then true
    else if (w9 s valid_out close_full) = true then true
    else false)
  else if s.fsm_state = 1 then (if s.valid_out_reg = true then (if (w11 s) = true then (if close_full = true then false
        else s.latch_output)
      else false)
    else s.latch_output)
  else if s.fsm_state = 3 then (if (w15 s close_full) = true then true
    else if (w19 s valid_out close_full) = true then true
    else s.latch_output)
  else s.latch_output
  if rst = true then false
  else e1
/-- micro_integration_axistream.v:775-793. -/
@[netlist] def next_enc_out_latch (s : S) (rst : Bool) : Nat :=
  let e1 := if s.fsm_state = 1 then (if s.valid_out_reg = true then (if (w56 s) = true then s.enc_out_latch
      else slc s.enc_out_reg 0 15)
    else s.enc_out_latch)
  else s.enc_out_latch
  if rst = true then 0
  else e1
/-- micro_integration_axistream.v:794-812. -/
@[netlist] def next_out_end_latch (s : S) (rst : Bool) : Bool :=
  let e1 := if s.fsm_state = 1 then (if s.valid_out_reg = true then (if (w58 s) = true then s.out_end_latch
      else s.out_end_reg)
    else s.out_end_latch)
  else s.out_end_latch
  if rst = true then false
  else e1
/-- micro_integration_axistream.v:813-857. -/
@[netlist] def next_fsm_state (s : S) (valid_out : Bool) (rst : Bool) (close_full : Bool) : Nat :=
  let e1 := if s.fsm_state = 0 then (if (w23 s close_full) = true then 1
    else if (w27 s valid_out close_full) = true then 2
    else 0)
  else if s.fsm_state = 2 then 1
  else if s.fsm_state = 1 then (if s.valid_out_reg = true then (if (w29 s) = true then (if close_full = true then 0
        else s.fsm_state)
      else (if (w31 s) = true then 3
        else s.fsm_state))
    else s.fsm_state)
  else if s.fsm_state = 3 then (if (w35 s close_full) = true then 1
    else if (w39 s valid_out close_full) = true then 2
    else 0)
  else s.fsm_state
  if rst = true then 0
  else e1
/-- micro_integration_axistream.v:858-870. -/
@[netlist] def next_enc_out_reg (s : S) (enc_out : Nat) (rst : Bool) : Nat :=
  let e1 := if s.fsm_state = 2 then enc_out
  else if s.fsm_state = 1 then enc_out
  else s.enc_out_reg
  if rst = true then 0
  else e1
/-- micro_integration_axistream.v:871-883. -/
@[netlist] def next_enc_out_ctr_reg (s : S) (enc_out_ctr : Nat) (rst : Bool) : Nat :=
  let e1 := if s.fsm_state = 2 then enc_out_ctr
  else if s.fsm_state = 1 then enc_out_ctr
  else s.enc_out_ctr_reg
  if rst = true then 0
  else e1
/-- micro_integration_axistream.v:884-896. -/
@[netlist] def next_out_end_reg (s : S) (out_end : Bool) (rst : Bool) : Bool :=
  let e1 := if s.fsm_state = 2 then out_end
  else if s.fsm_state = 1 then out_end
  else s.out_end_reg
  if rst = true then false
  else e1
/-- micro_integration_axistream.v:897-909. -/
@[netlist] def next_valid_out_reg (s : S) (valid_out : Bool) (rst : Bool) : Bool :=
  let e1 := if s.fsm_state = 2 then valid_out
  else if s.fsm_state = 1 then valid_out
  else s.valid_out_reg
  if rst = true then false
  else e1
/-- micro_integration_axistream.v:910-933. -/
@[netlist] def next_enc_in (s : S) (rst : Bool) : Nat :=
  let e1 := if s.fsm_state = 1 then (if s.valid_out_reg = true then (if (w41 s) = true then slc s.enc_out_reg 0 15
      else (if (w43 s) = true then (w45 s)
        else s.enc_in))
    else s.enc_in)
  else if s.fsm_state = 3 then s.enc_out_latch
  else s.enc_in
  if rst = true then 0
  else e1
/-- micro_integration_axistream.v:934-960. -/
@[netlist] def next_enc_in_ctr (s : S) (rst : Bool) : Nat :=
  let e1 := if s.fsm_state = 1 then (if s.valid_out_reg = true then (if (w47 s) = true then slc s.enc_out_ctr_reg 0 4
      else (if (w49 s) = true then slc (w51 s) 0 4
        else 15))
    else s.enc_in_ctr)
  else if s.fsm_state = 3 then 15
  else s.enc_in_ctr
  if rst = true then 0
  else e1
/-- micro_integration_axistream.v:961-981. -/
@[netlist] def next_in_end (s : S) (rst : Bool) : Bool :=
  let e1 := if s.fsm_state = 1 then (if s.valid_out_reg = true then (if (w54 s) = true then s.out_end_reg
      else false)
    else s.in_end)
  else if s.fsm_state = 3 then s.out_end_latch
  else s.in_end
  if rst = true then false
  else e1

/-- micro_integration_axistream.v:546-983: one rising clock edge (`always @(posedge ...)`). -/
@[netlist] def step (s : S) (valid_out : Bool) (enc_out : Nat) (enc_out_ctr : Nat) (out_end : Bool) (rst : Bool) (close_full : Bool) : S :=
  { out_end_latch := (next_out_end_latch s rst)
    enc_out_latch := (next_enc_out_latch s rst)
    in_end := (next_in_end s rst)
    enc_in_ctr := (next_enc_in_ctr s rst)
    enc_in := (next_enc_in s rst)
    valid_out_reg := (next_valid_out_reg s valid_out rst)
    out_end_reg := (next_out_end_reg s out_end rst)
    enc_out_ctr_reg := (next_enc_out_ctr_reg s enc_out_ctr rst)
    enc_out_reg := (next_enc_out_reg s enc_out rst)
    fsm_state := (next_fsm_state s valid_out rst close_full)
    latch_output := (next_latch_output s valid_out rst close_full)
    valid_in := (next_valid_in s rst) }

/-- micro_integration_axistream.v:546-983: the initial values given in the netlist. -/
def Init (s : S) : Prop :=
  s.out_end_latch = false ∧
  s.enc_out_latch = 0 ∧
  s.in_end = false ∧
  s.enc_in_ctr = 0 ∧
  s.enc_in = 0 ∧
  s.valid_out_reg = false ∧
  s.out_end_reg = false ∧
  s.enc_out_ctr_reg = 0 ∧
  s.enc_out_reg = 0 ∧
  s.fsm_state = 0 ∧
  s.latch_output = false ∧
  s.valid_in = false

/-- micro_integration_axistream.v:546-983: a state with these initial values; registers without one are 0. -/
def powerUp : S :=
  { out_end_latch := false
    enc_out_latch := 0
    in_end := false
    enc_in_ctr := 0
    enc_in := 0
    valid_out_reg := false
    out_end_reg := false
    enc_out_ctr_reg := 0
    enc_out_reg := 0
    fsm_state := 0
    latch_output := false
    valid_in := false }

theorem powerUp_init : Init powerUp := ⟨rfl, rfl, rfl, rfl, rfl, rfl, rfl, rfl, rfl, rfl, rfl, rfl⟩

end converter

namespace unbuffered_3

/-- micro_integration_axistream.v:8777-10031: registers, memories and instances of module `unbuffered$3`. -/
structure S where
  level : Nat
  consume : Nat
  produce : Nat
  r_0_ : Nat
  storage : List Nat

/-- micro_integration_axistream.v:8876. -/
@[netlist] def w10 (s : S) : Bool :=
  s.produce == 0
/-- micro_integration_axistream.v:8906. -/
@[netlist] def w7 (s : S) : Nat :=
  (2 ^ 11 + s.produce - 1) % 2 ^ 11
/-- micro_integration_axistream.v:8877. -/
@[netlist] def w9 (s : S) : Nat :=
  if (w10 s) then 1022 else (w7 s)
/-- micro_integration_axistream.v:8886. -/
@[netlist] def w2 (s : S) : Bool :=
  s.level != 1023
/-- micro_integration_axistream.v:9945-9948. -/
@[netlist] def next_writable (s : S) : Bool :=
  (w2 s)
/-- micro_integration_axistream.v:10030. -/
@[netlist] def writable (s : S) : Bool :=
  (next_writable s)
/-- micro_integration_axistream.v:8878. -/
@[netlist] def w13 (s : S) (replace : Bool) : Bool :=
  (writable s) || replace
/-- micro_integration_axistream.v:8879. -/
@[netlist] def w15 (s : S) (we : Bool) (replace : Bool) : Bool :=
  we && (w13 s replace)
/-- micro_integration_axistream.v:8880. -/
@[netlist] def w17 (s : S) (we : Bool) : Bool :=
  (writable s) && we
/-- micro_integration_axistream.v:8881. -/
@[netlist] def w19 (s : S) (replace : Bool) : Bool :=
  !replace
/-- micro_integration_axistream.v:8882. -/
@[netlist] def w21 (s : S) (we : Bool) (replace : Bool) : Bool :=
  (w17 s we) && (w19 s replace)
/-- micro_integration_axistream.v:8883. -/
@[netlist] def w24 (s : S) : Nat :=
  (s.produce + 1) % 2 ^ 11
/-- micro_integration_axistream.v:8884. -/
@[netlist] def w27 (s : S) : Bool :=
  s.produce == 1022
/-- micro_integration_axistream.v:8885. -/
@[netlist] def w26 (s : S) : Nat :=
  if (w27 s) then 0 else (w24 s)
/-- micro_integration_axistream.v:8896. -/
@[netlist] def w4 (s : S) : Bool :=
  s.level != 0
/-- micro_integration_axistream.v:9949-9952. -/
@[netlist] def next_readable (s : S) : Bool :=
  (w4 s)
/-- micro_integration_axistream.v:10029. -/
@[netlist] def readable (s : S) : Bool :=
  (next_readable s)
/-- micro_integration_axistream.v:8887. -/
@[netlist] def w30 (s : S) (re : Bool) : Bool :=
  (readable s) && re
/-- micro_integration_axistream.v:8888. -/
@[netlist] def w33 (s : S) : Nat :=
  (s.consume + 1) % 2 ^ 11
/-- micro_integration_axistream.v:8889. -/
@[netlist] def w36 (s : S) : Bool :=
  s.consume == 1022
/-- micro_integration_axistream.v:8890. -/
@[netlist] def w35 (s : S) : Nat :=
  if (w36 s) then 0 else (w33 s)
/-- micro_integration_axistream.v:8891. -/
@[netlist] def w39 (s : S) (we : Bool) : Bool :=
  (writable s) && we
/-- micro_integration_axistream.v:8892. -/
@[netlist] def w41 (s : S) (replace : Bool) : Bool :=
  !replace
/-- micro_integration_axistream.v:8893. -/
@[netlist] def w43 (s : S) (we : Bool) (replace : Bool) : Bool :=
  (w39 s we) && (w41 s replace)
/-- micro_integration_axistream.v:8894. -/
@[netlist] def w46 (s : S) (re : Bool) : Bool :=
  (readable s) && re
/-- micro_integration_axistream.v:8895. -/
@[netlist] def w45 (s : S) (re : Bool) : Bool :=
  !(w46 s re)
/-- micro_integration_axistream.v:8897. -/
@[netlist] def w49 (s : S) (we : Bool) (replace : Bool) (re : Bool) : Bool :=
  (w43 s we replace) && (w45 s re)
/-- micro_integration_axistream.v:8898. -/
@[netlist] def w52 (s : S) : Nat :=
  (s.level + 1) % 2 ^ 11
/-- micro_integration_axistream.v:8899. -/
@[netlist] def w54 (s : S) (re : Bool) : Bool :=
  (readable s) && re
/-- micro_integration_axistream.v:8900. -/
@[netlist] def w57 (s : S) (we : Bool) : Bool :=
  (writable s) && we
/-- micro_integration_axistream.v:8901. -/
@[netlist] def w59 (s : S) (replace : Bool) : Bool :=
  !replace
/-- micro_integration_axistream.v:8902. -/
@[netlist] def w61 (s : S) (we : Bool) (replace : Bool) : Bool :=
  (w57 s we) && (w59 s replace)
/-- micro_integration_axistream.v:8903. -/
@[netlist] def w56 (s : S) (we : Bool) (replace : Bool) : Bool :=
  !(w61 s we replace)
/-- micro_integration_axistream.v:8904. -/
@[netlist] def w64 (s : S) (we : Bool) (replace : Bool) (re : Bool) : Bool :=
  (w54 s re) && (w56 s we replace)
/-- micro_integration_axistream.v:8905. -/
@[netlist] def w67 (s : S) : Nat :=
  (2 ^ 11 + s.level - 1) % 2 ^ 11
/-- micro_integration_axistream.v:9944. -/
@[netlist] def rdport_storage_r_data (s : S) : Nat :=
  s.r_0_
/-- micro_integration_axistream.v:10018. -/
@[netlist] def w6 (s : S) : Nat :=
  (w9 s)
/-- micro_integration_axistream.v:10019. -/
@[netlist] def w23 (s : S) : Nat :=
  (w26 s)
/-- micro_integration_axistream.v:10020. -/
@[netlist] def w32 (s : S) : Nat :=
  (w35 s)
/-- micro_integration_axistream.v:10021. -/
@[netlist] def w51 (s : S) : Nat :=
  (w52 s)
/-- micro_integration_axistream.v:10022. -/
@[netlist] def w66 (s : S) : Nat :=
  (w67 s)
/-- micro_integration_axistream.v:10003-10006. -/
@[netlist] def next_rdport_storage_r_en (s : S) (re : Bool) : Bool :=
  re
/-- micro_integration_axistream.v:10023. -/
@[netlist] def rdport_storage_r_en (s : S) (re : Bool) : Bool :=
  (next_rdport_storage_r_en s re)
/-- micro_integration_axistream.v:9999-10002. -/
@[netlist] def next_dout (s : S) : Nat :=
  (rdport_storage_r_data s)
/-- micro_integration_axistream.v:10024. -/
@[netlist] def dout (s : S) : Nat :=
  (next_dout s)
/-- micro_integration_axistream.v:9995-9998. -/
@[netlist] def next_rdport_storage_r_addr (s : S) : Nat :=
  s.consume
/-- micro_integration_axistream.v:10025. -/
@[netlist] def rdport_storage_r_addr (s : S) : Nat :=
  (next_rdport_storage_r_addr s)
/-- micro_integration_axistream.v:9980-9983. -/
@[netlist] def next_wrport_storage_w_en (s : S) (we : Bool) (replace : Bool) : Bool :=
  (w15 s we replace)
/-- micro_integration_axistream.v:10026. -/
@[netlist] def wrport_storage_w_en (s : S) (we : Bool) (replace : Bool) : Bool :=
  (next_wrport_storage_w_en s we replace)
/-- micro_integration_axistream.v:9976-9979. -/
@[netlist] def next_wrport_storage_w_data (s : S) (din : Nat) : Nat :=
  din
/-- micro_integration_axistream.v:10027. -/
@[netlist] def wrport_storage_w_data (s : S) (din : Nat) : Nat :=
  (next_wrport_storage_w_data s din)
/-- micro_integration_axistream.v:9968-9975. -/
@[netlist] def next_wrport_storage_w_addr (s : S) (replace : Bool) : Nat :=
  if replace = true then slc (w6 s) 0 10
  else s.produce
/-- micro_integration_axistream.v:10028. -/
@[netlist] def wrport_storage_w_addr (s : S) (replace : Bool) : Nat :=
  (next_wrport_storage_w_addr s replace)
/-- micro_integration_axistream.v:9953-9967. -/
@[netlist] def next_level (s : S) (we : Bool) (replace : Bool) (re : Bool) (rst : Bool) : Nat :=
  let e1 := if (w49 s we replace re) = true then slc (w51 s) 0 10
  else s.level
  let e2 := if (w64 s we replace re) = true then slc (w66 s) 0 10
  else e1
  if rst = true then 0
  else e2
/-- micro_integration_axistream.v:9984-9994. -/
@[netlist] def next_produce (s : S) (we : Bool) (replace : Bool) (rst : Bool) : Nat :=
  let e1 := if (w21 s we replace) = true then slc (w23 s) 0 10
  else s.produce
  if rst = true then 0
  else e1
/-- micro_integration_axistream.v:10007-10017. -/
@[netlist] def next_consume (s : S) (re : Bool) (rst : Bool) : Nat :=
  let e1 := if (w30 s re) = true then slc (w32 s) 0 10
  else s.consume
  if rst = true then 0
  else e1

/-- micro_integration_axistream.v:8777-10031: one rising clock edge (`always @(posedge ...)`). -/
@[netlist] def step (s : S) (we : Bool) (replace : Bool) (re : Bool) (rst : Bool) (din : Nat) : S :=
  { level := (next_level s we replace re rst)
    consume := (next_consume s re rst)
    produce := (next_produce s we replace rst)
    r_0_ := if (next_rdport_storage_r_en s re) then s.storage.getD (next_rdport_storage_r_addr s) 0 else s.r_0_
    storage := if (next_wrport_storage_w_en s we replace) then s.storage.set (next_wrport_storage_w_addr s replace) (next_wrport_storage_w_data s din) else s.storage }

/-- micro_integration_axistream.v:8777-10031: the initial values given in the netlist. -/
def Init (s : S) : Prop :=
  s.level = 0 ∧
  s.consume = 0 ∧
  s.produce = 0 ∧
  s.storage = List.replicate 1023 0

/-- micro_integration_axistream.v:8777-10031: a state with these initial values; registers without one are 0. -/
def powerUp : S :=
  { level := 0
    consume := 0
    produce := 0
    r_0_ := 0
    storage := List.replicate 1023 0 }

theorem powerUp_init : Init powerUp := ⟨rfl, rfl, rfl, rfl⟩

end unbuffered_3

namespace fifo_2

/-- micro_integration_axistream.v:2397-2523: registers, memories and instances of module `fifo$2`. -/
structure S where
  readable : Bool
  u_unbuffered : unbuffered_3.S

/-- micro_integration_axistream.v:2456. -/
@[netlist] def w1 (s : S) : Bool :=
  !s.readable
/-- micro_integration_axistream.v:2457. -/
@[netlist] def w3 (s : S) (re : Bool) : Bool :=
  (w1 s) || re
/-- micro_integration_axistream.v:2462-2473. -/
@[netlist] def unbuffered_readable (s : S) : Bool :=
  unbuffered_3.readable s.u_unbuffered
/-- micro_integration_axistream.v:2458. -/
@[netlist] def w5 (s : S) (re : Bool) : Bool :=
  (unbuffered_readable s) && (w3 s re)
/-- micro_integration_axistream.v:2462-2473. -/
@[netlist] def unbuffered_level (s : S) : Nat :=
  s.u_unbuffered.level
/-- micro_integration_axistream.v:2459. -/
@[netlist] def w7 (s : S) : Nat :=
  ((unbuffered_level s) + s.readable.toNat) % 2 ^ 11
/-- micro_integration_axistream.v:2512-2515. -/
@[netlist] def next_level (s : S) : Nat :=
  (w7 s)
/-- micro_integration_axistream.v:2516. -/
@[netlist] def level (s : S) : Nat :=
  (next_level s)
/-- micro_integration_axistream.v:2495-2498. -/
@[netlist] def next_unbuffered_re (s : S) (re : Bool) : Bool :=
  (w5 s re)
/-- micro_integration_axistream.v:2517. -/
@[netlist] def unbuffered_re (s : S) (re : Bool) : Bool :=
  (next_unbuffered_re s re)
/-- micro_integration_axistream.v:2462-2473. -/
@[netlist] def unbuffered_dout (s : S) : Nat :=
  unbuffered_3.dout s.u_unbuffered
/-- micro_integration_axistream.v:2491-2494. -/
@[netlist] def next_dout (s : S) : Nat :=
  (unbuffered_dout s)
/-- micro_integration_axistream.v:2518. -/
@[netlist] def dout (s : S) : Nat :=
  (next_dout s)
/-- micro_integration_axistream.v:2486-2490. -/
@[netlist] def next_unbuffered_replace (s : S) : Bool :=
  false
/-- micro_integration_axistream.v:2519. -/
@[netlist] def unbuffered_replace (s : S) : Bool :=
  (next_unbuffered_replace s)
/-- micro_integration_axistream.v:2462-2473. -/
@[netlist] def unbuffered_writable (s : S) : Bool :=
  unbuffered_3.writable s.u_unbuffered
/-- micro_integration_axistream.v:2482-2485. -/
@[netlist] def next_writable (s : S) : Bool :=
  (unbuffered_writable s)
/-- micro_integration_axistream.v:2520. -/
@[netlist] def writable (s : S) : Bool :=
  (next_writable s)
/-- micro_integration_axistream.v:2478-2481. -/
@[netlist] def next_unbuffered_we (s : S) (we : Bool) : Bool :=
  we
/-- micro_integration_axistream.v:2521. -/
@[netlist] def unbuffered_we (s : S) (we : Bool) : Bool :=
  (next_unbuffered_we s we)
/-- micro_integration_axistream.v:2474-2477. -/
@[netlist] def next_unbuffered_din (s : S) (din : Nat) : Nat :=
  din
/-- micro_integration_axistream.v:2522. -/
@[netlist] def unbuffered_din (s : S) (din : Nat) : Nat :=
  (next_unbuffered_din s din)
/-- micro_integration_axistream.v:2499-2511. -/
@[netlist] def next_readable (s : S) (re : Bool) (rst : Bool) : Bool :=
  let e1 := if (unbuffered_re s re) = true then true
  else if re = true then false
  else s.readable
  if rst = true then false
  else e1

/-- micro_integration_axistream.v:2397-2523: one rising clock edge (`always @(posedge ...)`). -/
@[netlist] def step (s : S) (we : Bool) (re : Bool) (rst : Bool) (din : Nat) : S :=
  { readable := (next_readable s re rst)
    u_unbuffered := unbuffered_3.step s.u_unbuffered (unbuffered_we s we) (unbuffered_replace s) (unbuffered_re s re) rst (unbuffered_din s din) }

/-- micro_integration_axistream.v:2397-2523: the initial values given in the netlist. -/
def Init (s : S) : Prop :=
  s.readable = false ∧
  unbuffered_3.Init s.u_unbuffered

/-- micro_integration_axistream.v:2397-2523: a state with these initial values; registers without one are 0. -/
def powerUp : S :=
  { readable := false
    u_unbuffered := unbuffered_3.powerUp }

theorem powerUp_init : Init powerUp := ⟨rfl, unbuffered_3.powerUp_init⟩

end fifo_2

namespace converter_fifo

/-- micro_integration_axistream.v:987-1111: registers, memories and instances of module `converter_fifo`. -/
structure S where
  close_full : Bool
  u_fifo : fifo_2.S

/-- micro_integration_axistream.v:1052-1062. -/
@[netlist] def fifo_level (s : S) : Nat :=
  fifo_2.level s.u_fifo
/-- micro_integration_axistream.v:1049. -/
@[netlist] def w1 (s : S) : Bool :=
  decide ((fifo_level s) ≥ 1019)
/-- micro_integration_axistream.v:1091-1094. -/
@[netlist] def next_fifo_re (s : S) (latch_output : Bool) : Bool :=
  latch_output
/-- micro_integration_axistream.v:1103. -/
@[netlist] def fifo_re (s : S) (latch_output : Bool) : Bool :=
  (next_fifo_re s latch_output)
/-- micro_integration_axistream.v:1052-1062. -/
@[netlist] def fifo_dout (s : S) : Nat :=
  fifo_2.dout s.u_fifo
/-- micro_integration_axistream.v:1087-1090. -/
@[netlist] def next_out_end (s : S) : Bool :=
  (fifo_dout s).testBit 19
/-- micro_integration_axistream.v:1104. -/
@[netlist] def out_end (s : S) : Bool :=
  (next_out_end s)
/-- micro_integration_axistream.v:1083-1086. -/
@[netlist] def next_enc_out_ctr (s : S) : Nat :=
  slc (fifo_dout s) 15 4
/-- micro_integration_axistream.v:1105. -/
@[netlist] def enc_out_ctr (s : S) : Nat :=
  (next_enc_out_ctr s)
/-- micro_integration_axistream.v:1079-1082. -/
@[netlist] def next_enc_out (s : S) : Nat :=
  slc (fifo_dout s) 0 15
/-- micro_integration_axistream.v:1106. -/
@[netlist] def enc_out (s : S) : Nat :=
  (next_enc_out s)
/-- micro_integration_axistream.v:1052-1062. -/
@[netlist] def fifo_readable (s : S) : Bool :=
  s.u_fifo.readable
/-- micro_integration_axistream.v:1075-1078. -/
@[netlist] def next_valid_out (s : S) : Bool :=
  (fifo_readable s)
/-- micro_integration_axistream.v:1107. -/
@[netlist] def valid_out (s : S) : Bool :=
  (next_valid_out s)
/-- micro_integration_axistream.v:1052-1062. -/
@[netlist] def fifo_writable (s : S) : Bool :=
  fifo_2.writable s.u_fifo
/-- micro_integration_axistream.v:1071-1074. -/
@[netlist] def next_writable (s : S) : Bool :=
  (fifo_writable s)
/-- micro_integration_axistream.v:1108. -/
@[netlist] def writable (s : S) : Bool :=
  (next_writable s)
/-- micro_integration_axistream.v:1067-1070. -/
@[netlist] def next_fifo_din (s : S) (enc_in : Nat) (enc_in_ctr : Nat) (in_end : Bool) : Nat :=
  in_end.toNat * 2 ^ 19 + enc_in_ctr * 2 ^ 15 + enc_in
/-- micro_integration_axistream.v:1109. -/
@[netlist] def fifo_din (s : S) (enc_in : Nat) (enc_in_ctr : Nat) (in_end : Bool) : Nat :=
  (next_fifo_din s enc_in enc_in_ctr in_end)
/-- micro_integration_axistream.v:1063-1066. -/
@[netlist] def next_fifo_we (s : S) (valid_in : Bool) : Bool :=
  valid_in
/-- micro_integration_axistream.v:1110. -/
@[netlist] def fifo_we (s : S) (valid_in : Bool) : Bool :=
  (next_fifo_we s valid_in)
/-- micro_integration_axistream.v:1095-1102. -/
@[netlist] def next_close_full (s : S) (rst : Bool) : Bool :=
  let e1 := (w1 s)
  if rst = true then false
  else e1

/-- micro_integration_axistream.v:987-1111: one rising clock edge (`always @(posedge ...)`). -/
@[netlist] def step (s : S) (enc_in : Nat) (enc_in_ctr : Nat) (in_end : Bool) (latch_output : Bool) (rst : Bool) (valid_in : Bool) : S :=
  { close_full := (next_close_full s rst)
    u_fifo := fifo_2.step s.u_fifo (fifo_we s valid_in) (fifo_re s latch_output) rst (fifo_din s enc_in enc_in_ctr in_end) }

/-- micro_integration_axistream.v:987-1111: the initial values given in the netlist. -/
def Init (s : S) : Prop :=
  s.close_full = false ∧
  fifo_2.Init s.u_fifo

/-- micro_integration_axistream.v:987-1111: a state with these initial values; registers without one are 0. -/
def powerUp : S :=
  { close_full := false
    u_fifo := fifo_2.powerUp }

theorem powerUp_init : Init powerUp := ⟨rfl, fifo_2.powerUp_init⟩

end converter_fifo

namespace core_axi_lite

/-- micro_integration_axistream.v:1115-2000: registers, memories and instances of module `core_axi_lite`. -/
structure S where
  allowed_cycles : Nat
  height_width : Nat
  bresp_v : Nat
  wp_en : Bool
  wp_data : Nat
  wp_addr : Nat
  wready_v : Bool
  awready_v : Bool
  rresp_v : Nat
  rdata_v : Nat
  arready_v : Bool
  rp_addr : Nat
  addr_v : Nat
  fsm_state : Nat
  bvalid_v : Bool
  rvalid_v : Bool

/-- micro_integration_axistream.v:1860-1863. -/
@[netlist] def next_hw_enable (s : S) : Bool :=
  s.addr_v.testBit 11
/-- micro_integration_axistream.v:1996. -/
@[netlist] def hw_enable (s : S) : Bool :=
  (next_hw_enable s)
/-- micro_integration_axistream.v:1370. -/
@[netlist] def w9 (s : S) : Bool :=
  (hw_enable s) == true
/-- micro_integration_axistream.v:1900-1903. -/
@[netlist] def next_hw_index (s : S) : Bool :=
  s.addr_v.testBit 0
/-- micro_integration_axistream.v:1992. -/
@[netlist] def hw_index (s : S) : Bool :=
  (next_hw_index s)
/-- micro_integration_axistream.v:1371. -/
@[netlist] def w100 (s : S) : Bool :=
  (hw_index s) == false
/-- micro_integration_axistream.v:1372. -/
@[netlist] def w102 (s : S) : Bool :=
  (hw_index s) == false
/-- micro_integration_axistream.v:1373. -/
@[netlist] def w104 (s : S) : Bool :=
  (hw_index s) == false
/-- micro_integration_axistream.v:1671-1674. -/
@[netlist] def next_ssss_enable (s : S) : Bool :=
  s.addr_v.testBit 10
/-- micro_integration_axistream.v:1997. -/
@[netlist] def ssss_enable (s : S) : Bool :=
  (next_ssss_enable s)
/-- micro_integration_axistream.v:1374. -/
@[netlist] def w106 (s : S) : Bool :=
  (ssss_enable s) == true
/-- micro_integration_axistream.v:1892-1895. -/
@[netlist] def next_ssss_index (s : S) : Nat :=
  slc s.addr_v 0 6
/-- micro_integration_axistream.v:1994. -/
@[netlist] def ssss_index (s : S) : Nat :=
  (next_ssss_index s)
/-- micro_integration_axistream.v:1375. -/
@[netlist] def w108 (s : S) : Bool :=
  decide ((ssss_index s) < 26)
/-- micro_integration_axistream.v:1376. -/
@[netlist] def w110 (s : S) : Bool :=
  (w106 s) && (w108 s)
/-- micro_integration_axistream.v:1377. -/
@[netlist] def w112 (s : S) : Bool :=
  (hw_enable s) == true
/-- micro_integration_axistream.v:1378. -/
@[netlist] def w114 (s : S) : Bool :=
  (hw_index s) == false
/-- micro_integration_axistream.v:1379. -/
@[netlist] def w116 (s : S) : Bool :=
  (hw_index s) == false
/-- micro_integration_axistream.v:1380. -/
@[netlist] def w118 (s : S) : Bool :=
  (hw_index s) == false
/-- micro_integration_axistream.v:1381. -/
@[netlist] def w11 (s : S) : Bool :=
  ((ssss_index s).testBit 0) == false
/-- micro_integration_axistream.v:1382. -/
@[netlist] def w13 (s : S) : Nat :=
  0
/-- micro_integration_axistream.v:1383. -/
@[netlist] def w15 (s : S) : Nat :=
  0
/-- micro_integration_axistream.v:1384. -/
@[netlist] def w17 (s : S) : Nat :=
  0
/-- micro_integration_axistream.v:1385. -/
@[netlist] def w1 (s : S) (rp_data : Nat) : Nat :=
  rp_data
/-- micro_integration_axistream.v:1386. -/
@[netlist] def w19 (s : S) : Nat :=
  0
/-- micro_integration_axistream.v:1387. -/
@[netlist] def w21 (s : S) (s_axi_ri__araddr : Nat) : Nat :=
  s_axi_ri__araddr / 2 ^ 2
/-- micro_integration_axistream.v:1388. -/
@[netlist] def w23 (s : S) (s_axi_wi__awaddr : Nat) : Nat :=
  s_axi_wi__awaddr / 2 ^ 2
/-- micro_integration_axistream.v:1389. -/
@[netlist] def w26 (s : S) (s_axi_ri__araddr : Nat) : Nat :=
  s_axi_ri__araddr / 2 ^ 3
/-- micro_integration_axistream.v:1390. -/
@[netlist] def w29 (s : S) (s_axi_wi__awaddr : Nat) : Nat :=
  s_axi_wi__awaddr / 2 ^ 3
/-- micro_integration_axistream.v:1391. -/
@[netlist] def w31 (s : S) : Bool :=
  (ssss_enable s) == true
/-- micro_integration_axistream.v:1392. -/
@[netlist] def w33 (s : S) : Bool :=
  decide ((ssss_index s) < 26)
/-- micro_integration_axistream.v:1393. -/
@[netlist] def w35 (s : S) : Bool :=
  (w31 s) && (w33 s)
/-- micro_integration_axistream.v:1394. -/
@[netlist] def w37 (s : S) : Bool :=
  (hw_enable s) == true
/-- micro_integration_axistream.v:1395. -/
@[netlist] def w3 (s : S) : Bool :=
  (ssss_enable s) == true
/-- micro_integration_axistream.v:1396. -/
@[netlist] def w39 (s : S) : Bool :=
  ((ssss_index s).testBit 0) == false
/-- micro_integration_axistream.v:1397. -/
@[netlist] def w41 (s : S) : Bool :=
  (hw_index s) == false
/-- micro_integration_axistream.v:1398. -/
@[netlist] def w43 (s : S) : Nat :=
  s.allowed_cycles
/-- micro_integration_axistream.v:1399. -/
@[netlist] def w45 (s : S) : Bool :=
  (ssss_enable s) == true
/-- micro_integration_axistream.v:1400. -/
@[netlist] def w47 (s : S) : Bool :=
  decide ((ssss_index s) < 26)
/-- micro_integration_axistream.v:1401. -/
@[netlist] def w49 (s : S) : Bool :=
  (w45 s) && (w47 s)
/-- micro_integration_axistream.v:1402. -/
@[netlist] def w51 (s : S) : Bool :=
  (hw_enable s) == true
/-- micro_integration_axistream.v:1403. -/
@[netlist] def w53 (s : S) : Bool :=
  (hw_index s) == false
/-- micro_integration_axistream.v:1404. -/
@[netlist] def w55 (s : S) : Bool :=
  (ssss_enable s) == true
/-- micro_integration_axistream.v:1405. -/
@[netlist] def w57 (s : S) : Bool :=
  decide ((ssss_index s) < 26)
/-- micro_integration_axistream.v:1406. -/
@[netlist] def w5 (s : S) : Bool :=
  decide ((ssss_index s) < 26)
/-- micro_integration_axistream.v:1407. -/
@[netlist] def w59 (s : S) : Bool :=
  (w55 s) && (w57 s)
/-- micro_integration_axistream.v:1408. -/
@[netlist] def w61 (s : S) : Bool :=
  (hw_enable s) == true
/-- micro_integration_axistream.v:1409. -/
@[netlist] def w64 (s : S) : Nat :=
  (ssss_index s) / 2 ^ 1
/-- micro_integration_axistream.v:1410. -/
@[netlist] def w66 (s : S) : Bool :=
  (ssss_enable s) == true
/-- micro_integration_axistream.v:1411. -/
@[netlist] def w68 (s : S) : Bool :=
  decide ((ssss_index s) < 26)
/-- micro_integration_axistream.v:1412. -/
@[netlist] def w70 (s : S) : Bool :=
  (w66 s) && (w68 s)
/-- micro_integration_axistream.v:1413. -/
@[netlist] def w72 (s : S) : Bool :=
  (hw_enable s) == true
/-- micro_integration_axistream.v:1414. -/
@[netlist] def w74 (s : S) : Bool :=
  (ssss_enable s) == true
/-- micro_integration_axistream.v:1415. -/
@[netlist] def w76 (s : S) : Bool :=
  decide ((ssss_index s) < 26)
/-- micro_integration_axistream.v:1416. -/
@[netlist] def w78 (s : S) : Bool :=
  (w74 s) && (w76 s)
/-- micro_integration_axistream.v:1417. -/
@[netlist] def w7 (s : S) : Bool :=
  (w3 s) && (w5 s)
/-- micro_integration_axistream.v:1418. -/
@[netlist] def w80 (s : S) : Bool :=
  (hw_enable s) == true
/-- micro_integration_axistream.v:1419. -/
@[netlist] def w82 (s : S) : Bool :=
  (ssss_enable s) == true
/-- micro_integration_axistream.v:1420. -/
@[netlist] def w84 (s : S) : Bool :=
  decide ((ssss_index s) < 26)
/-- micro_integration_axistream.v:1421. -/
@[netlist] def w86 (s : S) : Bool :=
  (w82 s) && (w84 s)
/-- micro_integration_axistream.v:1422. -/
@[netlist] def w88 (s : S) : Bool :=
  (hw_enable s) == true
/-- micro_integration_axistream.v:1423. -/
@[netlist] def w90 (s : S) : Bool :=
  (ssss_enable s) == true
/-- micro_integration_axistream.v:1424. -/
@[netlist] def w92 (s : S) : Bool :=
  decide ((ssss_index s) < 26)
/-- micro_integration_axistream.v:1425. -/
@[netlist] def w94 (s : S) : Bool :=
  (w90 s) && (w92 s)
/-- micro_integration_axistream.v:1426. -/
@[netlist] def w96 (s : S) : Bool :=
  (hw_enable s) == true
/-- micro_integration_axistream.v:1427. -/
@[netlist] def w98 (s : S) : Bool :=
  (hw_index s) == false
/-- micro_integration_axistream.v:1977. -/
@[netlist] def w25 (s : S) (s_axi_ri__araddr : Nat) : Nat :=
  (w26 s s_axi_ri__araddr)
/-- micro_integration_axistream.v:1978. -/
@[netlist] def w28 (s : S) (s_axi_wi__awaddr : Nat) : Nat :=
  (w29 s s_axi_wi__awaddr)
/-- micro_integration_axistream.v:1979. -/
@[netlist] def w63 (s : S) : Nat :=
  (w64 s)
/-- micro_integration_axistream.v:1884-1887. -/
@[netlist] def next_width (s : S) : Nat :=
  slc s.height_width 16 16
/-- micro_integration_axistream.v:1980. -/
@[netlist] def width (s : S) : Nat :=
  (next_width s)
/-- micro_integration_axistream.v:1880-1883. -/
@[netlist] def next_height (s : S) : Nat :=
  slc s.height_width 0 16
/-- micro_integration_axistream.v:1981. -/
@[netlist] def height (s : S) : Nat :=
  (next_height s)
/-- micro_integration_axistream.v:1876-1879. -/
@[netlist] def next_s_axi_wo__bresp (s : S) : Nat :=
  s.bresp_v
/-- micro_integration_axistream.v:1982. -/
@[netlist] def s_axi_wo__bresp (s : S) : Nat :=
  (next_s_axi_wo__bresp s)
/-- micro_integration_axistream.v:1872-1875. -/
@[netlist] def next_s_axi_ro__rresp (s : S) : Nat :=
  s.rresp_v
/-- micro_integration_axistream.v:1983. -/
@[netlist] def s_axi_ro__rresp (s : S) : Nat :=
  (next_s_axi_ro__rresp s)
/-- micro_integration_axistream.v:1868-1871. -/
@[netlist] def next_s_axi_ro__rdata (s : S) : Nat :=
  s.rdata_v
/-- micro_integration_axistream.v:1984. -/
@[netlist] def s_axi_ro__rdata (s : S) : Nat :=
  (next_s_axi_ro__rdata s)
/-- micro_integration_axistream.v:1864-1867. -/
@[netlist] def next_s_axi_wo__bvalid (s : S) : Bool :=
  s.bvalid_v
/-- micro_integration_axistream.v:1985. -/
@[netlist] def s_axi_wo__bvalid (s : S) : Bool :=
  (next_s_axi_wo__bvalid s)
/-- micro_integration_axistream.v:1856-1859. -/
@[netlist] def next_s_axi_wo__wready (s : S) : Bool :=
  s.wready_v
/-- micro_integration_axistream.v:1986. -/
@[netlist] def s_axi_wo__wready (s : S) : Bool :=
  (next_s_axi_wo__wready s)
/-- micro_integration_axistream.v:1852-1855. -/
@[netlist] def next_s_axi_wo__awready (s : S) : Bool :=
  s.awready_v
/-- micro_integration_axistream.v:1987. -/
@[netlist] def s_axi_wo__awready (s : S) : Bool :=
  (next_s_axi_wo__awready s)
/-- micro_integration_axistream.v:1848-1851. -/
@[netlist] def next_s_axi_ro__rvalid (s : S) : Bool :=
  s.rvalid_v
/-- micro_integration_axistream.v:1988. -/
@[netlist] def s_axi_ro__rvalid (s : S) : Bool :=
  (next_s_axi_ro__rvalid s)
/-- micro_integration_axistream.v:1844-1847. -/
@[netlist] def next_s_axi_ro__arready (s : S) : Bool :=
  s.arready_v
/-- micro_integration_axistream.v:1989. -/
@[netlist] def s_axi_ro__arready (s : S) : Bool :=
  (next_s_axi_ro__arready s)
/-- micro_integration_axistream.v:1471-1481. -/
@[netlist] def next_wstrb_v (s : S) (s_axi_wi__wvalid : Bool) (s_axi_wi__wstrb : Nat) : Nat :=
  if s.fsm_state = 8 then (if s_axi_wi__wvalid = true then s_axi_wi__wstrb
    else 0)
  else 0
/-- micro_integration_axistream.v:1998. -/
@[netlist] def wstrb_v (s : S) (s_axi_wi__wvalid : Bool) (s_axi_wi__wstrb : Nat) : Nat :=
  (next_wstrb_v s s_axi_wi__wvalid s_axi_wi__wstrb)
/-- micro_integration_axistream.v:1460-1470. -/
@[netlist] def next_wdata_v (s : S) (s_axi_wi__wvalid : Bool) (s_axi_wi__wdata : Nat) : Nat :=
  if s.fsm_state = 8 then (if s_axi_wi__wvalid = true then s_axi_wi__wdata
    else 0)
  else 0
/-- micro_integration_axistream.v:1999. -/
@[netlist] def wdata_v (s : S) (s_axi_wi__wvalid : Bool) (s_axi_wi__wdata : Nat) : Nat :=
  (next_wdata_v s s_axi_wi__wvalid s_axi_wi__wdata)
/-- micro_integration_axistream.v:1904-1907. -/
@[netlist] def next_rp_data64 (s : S) (rp_data : Nat) : Nat :=
  (w1 s rp_data)
/-- micro_integration_axistream.v:1991. -/
@[netlist] def rp_data64 (s : S) (rp_data : Nat) : Nat :=
  (next_rp_data64 s rp_data)
/-- micro_integration_axistream.v:1908-1976. -/
@[netlist] def next_rp_data64_in (s : S) (s_axi_wi__wvalid : Bool) (s_axi_wi__wdata : Nat) (s_axi_wi__wstrb : Nat) (rp_data : Nat) : Nat :=
  if s.fsm_state = 8 then (if s_axi_wi__wvalid = true then (if (w7 s) = true then (if (w11 s) = true then (
          let e1 := if ((wstrb_v s s_axi_wi__wvalid s_axi_wi__wstrb).testBit 0) = true then put 0 0 8 (slc (wdata_v s s_axi_wi__wvalid s_axi_wi__wdata) 0 8)
          else put 0 0 8 (slc (rp_data64 s rp_data) 0 8)
          let e2 := if ((wstrb_v s s_axi_wi__wvalid s_axi_wi__wstrb).testBit 1) = true then put e1 8 8 (slc (wdata_v s s_axi_wi__wvalid s_axi_wi__wdata) 8 8)
          else put e1 8 8 (slc (rp_data64 s rp_data) 8 8)
          let e3 := if ((wstrb_v s s_axi_wi__wvalid s_axi_wi__wstrb).testBit 2) = true then put e2 16 8 (slc (wdata_v s s_axi_wi__wvalid s_axi_wi__wdata) 16 8)
          else put e2 16 8 (slc (rp_data64 s rp_data) 16 8)
          if ((wstrb_v s s_axi_wi__wvalid s_axi_wi__wstrb).testBit 3) = true then put e3 24 8 (slc (wdata_v s s_axi_wi__wvalid s_axi_wi__wdata) 24 8)
          else put e3 24 8 (slc (rp_data64 s rp_data) 24 8))
        else (
          let e4 := if ((wstrb_v s s_axi_wi__wvalid s_axi_wi__wstrb).testBit 0) = true then put 0 32 8 (w13 s)
          else put 0 32 8 (slc (rp_data64 s rp_data) 32 8)
          let e5 := if ((wstrb_v s s_axi_wi__wvalid s_axi_wi__wstrb).testBit 1) = true then put e4 40 8 (w15 s)
          else put e4 40 8 (slc (rp_data64 s rp_data) 40 8)
          let e6 := if ((wstrb_v s s_axi_wi__wvalid s_axi_wi__wstrb).testBit 2) = true then put e5 48 8 (w17 s)
          else put e5 48 8 (slc (rp_data64 s rp_data) 48 8)
          if ((wstrb_v s s_axi_wi__wvalid s_axi_wi__wstrb).testBit 3) = true then put e6 56 8 (w19 s)
          else put e6 56 8 (slc (rp_data64 s rp_data) 56 8)))
      else 0)
    else 0)
  else 0
/-- micro_integration_axistream.v:1990. -/
@[netlist] def rp_data64_in (s : S) (s_axi_wi__wvalid : Bool) (s_axi_wi__wdata : Nat) (s_axi_wi__wstrb : Nat) (rp_data : Nat) : Nat :=
  (next_rp_data64_in s s_axi_wi__wvalid s_axi_wi__wdata s_axi_wi__wstrb rp_data)
/-- micro_integration_axistream.v:1896-1899. -/
@[netlist] def next_debug_index (s : S) : Nat :=
  slc s.addr_v 0 3
/-- micro_integration_axistream.v:1993. -/
@[netlist] def debug_index (s : S) : Nat :=
  (next_debug_index s)
/-- micro_integration_axistream.v:1888-1891. -/
@[netlist] def next_debug_enable (s : S) : Bool :=
  s.addr_v.testBit 12
/-- micro_integration_axistream.v:1995. -/
@[netlist] def debug_enable (s : S) : Bool :=
  (next_debug_enable s)
/-- micro_integration_axistream.v:1482-1497. -/
@[netlist] def next_rvalid_v (s : S) (s_axi_ri__rready : Bool) (full_rst : Bool) : Bool :=
  let e1 := if s.fsm_state = 0 then false
  else if s.fsm_state = 5 then (if s_axi_ri__rready = true then true
    else s.rvalid_v)
  else s.rvalid_v
  if full_rst = true then false
  else e1
/-- micro_integration_axistream.v:1498-1513. -/
@[netlist] def next_bvalid_v (s : S) (s_axi_wi__bready : Bool) (full_rst : Bool) : Bool :=
  let e1 := if s.fsm_state = 0 then false
  else if s.fsm_state = 9 then (if s_axi_wi__bready = true then true
    else s.bvalid_v)
  else s.bvalid_v
  if full_rst = true then false
  else e1
/-- micro_integration_axistream.v:1514-1556. -/
@[netlist] def next_fsm_state (s : S) (s_axi_ri__arvalid : Bool) (s_axi_wi__awvalid : Bool) (s_axi_ri__rready : Bool) (s_axi_wi__wvalid : Bool) (s_axi_wi__bready : Bool) (rst : Bool) : Nat :=
  let e1 := if s.fsm_state = 0 then (if s_axi_ri__arvalid = true then 1
    else if s_axi_wi__awvalid = true then 2
    else s.fsm_state)
  else if s.fsm_state = 1 then 3
  else if s.fsm_state = 3 then 4
  else if s.fsm_state = 4 then 5
  else if s.fsm_state = 5 then (if s_axi_ri__rready = true then 0
    else s.fsm_state)
  else if s.fsm_state = 2 then 6
  else if s.fsm_state = 6 then 7
  else if s.fsm_state = 7 then 8
  else if s.fsm_state = 8 then (if s_axi_wi__wvalid = true then 9
    else s.fsm_state)
  else if s.fsm_state = 9 then (if s_axi_wi__bready = true then 0
    else s.fsm_state)
  else s.fsm_state
  if rst = true then 0
  else e1
/-- micro_integration_axistream.v:1557-1569. -/
@[netlist] def next_addr_v (s : S) (s_axi_ri__araddr : Nat) (s_axi_wi__awaddr : Nat) (full_rst : Bool) : Nat :=
  let e1 := if s.fsm_state = 1 then (w21 s s_axi_ri__araddr)
  else if s.fsm_state = 2 then (w23 s s_axi_wi__awaddr)
  else s.addr_v
  if full_rst = true then 0
  else e1
/-- micro_integration_axistream.v:1570-1582. -/
@[netlist] def next_rp_addr (s : S) (s_axi_ri__araddr : Nat) (s_axi_wi__awaddr : Nat) (full_rst : Bool) : Nat :=
  let e1 := if s.fsm_state = 1 then slc (w25 s s_axi_ri__araddr) 0 5
  else if s.fsm_state = 2 then slc (w28 s s_axi_wi__awaddr) 0 5
  else s.rp_addr
  if full_rst = true then 0
  else e1
/-- micro_integration_axistream.v:1583-1595. -/
@[netlist] def next_arready_v (s : S) (full_rst : Bool) : Bool :=
  let e1 := if s.fsm_state = 1 then true
  else if s.fsm_state = 3 then false
  else s.arready_v
  if full_rst = true then false
  else e1
/-- micro_integration_axistream.v:1596-1621. -/
@[netlist] def next_rdata_v (s : S) (full_rst : Bool) (rp_data : Nat) : Nat :=
  let e1 := if s.fsm_state = 5 then (if (w35 s) = true then (if (w39 s) = true then slc (rp_data64 s rp_data) 0 32
      else slc (rp_data64 s rp_data) 32 32)
    else if (w37 s) = true then (if (w41 s) = true then s.height_width
      else (w43 s))
    else s.rdata_v)
  else s.rdata_v
  if full_rst = true then 0
  else e1
/-- micro_integration_axistream.v:1622-1644. -/
@[netlist] def next_rresp_v (s : S) (full_rst : Bool) : Nat :=
  let e1 := if s.fsm_state = 5 then (if (w49 s) = true then 0
    else if (w51 s) = true then (if (w53 s) = true then 0
      else 0)
    else 3)
  else s.rresp_v
  if full_rst = true then 0
  else e1
/-- micro_integration_axistream.v:1645-1657. -/
@[netlist] def next_awready_v (s : S) (full_rst : Bool) : Bool :=
  let e1 := if s.fsm_state = 2 then true
  else if s.fsm_state = 6 then false
  else s.awready_v
  if full_rst = true then false
  else e1
/-- micro_integration_axistream.v:1658-1670. -/
@[netlist] def next_wready_v (s : S) (full_rst : Bool) : Bool :=
  let e1 := if s.fsm_state = 8 then true
  else if s.fsm_state = 9 then false
  else s.wready_v
  if full_rst = true then false
  else e1
/-- micro_integration_axistream.v:1675-1691. -/
@[netlist] def next_wp_addr (s : S) (s_axi_wi__wvalid : Bool) (full_rst : Bool) : Nat :=
  let e1 := if s.fsm_state = 8 then (if s_axi_wi__wvalid = true then (if (w59 s) = true then slc (w63 s) 0 5
      else s.wp_addr)
    else s.wp_addr)
  else s.wp_addr
  if full_rst = true then 0
  else e1
/-- micro_integration_axistream.v:1692-1708. -/
@[netlist] def next_wp_data (s : S) (s_axi_wi__wvalid : Bool) (s_axi_wi__wdata : Nat) (s_axi_wi__wstrb : Nat) (full_rst : Bool) (rp_data : Nat) : Nat :=
  let e1 := if s.fsm_state = 8 then (if s_axi_wi__wvalid = true then (if (w70 s) = true then slc (rp_data64_in s s_axi_wi__wvalid s_axi_wi__wdata s_axi_wi__wstrb rp_data) 0 33
      else s.wp_data)
    else s.wp_data)
  else s.wp_data
  if full_rst = true then 0
  else e1
/-- micro_integration_axistream.v:1709-1727. -/
@[netlist] def next_wp_en (s : S) (s_axi_wi__wvalid : Bool) (full_rst : Bool) : Bool :=
  let e1 := if s.fsm_state = 8 then (if s_axi_wi__wvalid = true then (if (w78 s) = true then true
      else s.wp_en)
    else s.wp_en)
  else if s.fsm_state = 9 then false
  else s.wp_en
  if full_rst = true then false
  else e1
/-- micro_integration_axistream.v:1728-1748. -/
@[netlist] def next_bresp_v (s : S) (s_axi_wi__wvalid : Bool) (full_rst : Bool) : Nat :=
  let e1 := if s.fsm_state = 8 then (if s_axi_wi__wvalid = true then (if (w86 s) = true then 0
      else if (w88 s) = true then 0
      else 3)
    else s.bresp_v)
  else s.bresp_v
  if full_rst = true then 0
  else e1
/-- micro_integration_axistream.v:1749-1796. -/
@[netlist] def next_height_width (s : S) (s_axi_wi__wvalid : Bool) (s_axi_wi__wdata : Nat) (s_axi_wi__wstrb : Nat) (full_rst : Bool) : Nat :=
  let e4 := if s.fsm_state = 8 then (if s_axi_wi__wvalid = true then (if (w94 s) = true then s.height_width
      else if (w96 s) = true then (
        let e1 := if ((wstrb_v s s_axi_wi__wvalid s_axi_wi__wstrb).testBit 0) = true then (if (w98 s) = true then put s.height_width 0 8 (slc (wdata_v s s_axi_wi__wvalid s_axi_wi__wdata) 0 8)
          else s.height_width)
        else s.height_width
        let e2 := if ((wstrb_v s s_axi_wi__wvalid s_axi_wi__wstrb).testBit 1) = true then (if (w100 s) = true then put e1 8 8 (slc (wdata_v s s_axi_wi__wvalid s_axi_wi__wdata) 8 8)
          else e1)
        else e1
        let e3 := if ((wstrb_v s s_axi_wi__wvalid s_axi_wi__wstrb).testBit 2) = true then (if (w102 s) = true then put e2 16 8 (slc (wdata_v s s_axi_wi__wvalid s_axi_wi__wdata) 16 8)
          else e2)
        else e2
        if ((wstrb_v s s_axi_wi__wvalid s_axi_wi__wstrb).testBit 3) = true then (if (w104 s) = true then put e3 24 8 (slc (wdata_v s s_axi_wi__wvalid s_axi_wi__wdata) 24 8)
          else e3)
        else e3)
      else s.height_width)
    else s.height_width)
  else s.height_width
  if full_rst = true then 0
  else e4
/-- micro_integration_axistream.v:1797-1843. -/
@[netlist] def next_allowed_cycles (s : S) (s_axi_wi__wvalid : Bool) (s_axi_wi__wdata : Nat) (s_axi_wi__wstrb : Nat) (full_rst : Bool) : Nat :=
  let e3 := if s.fsm_state = 8 then (if s_axi_wi__wvalid = true then (if (w110 s) = true then s.allowed_cycles
      else if (w112 s) = true then (
        let e1 := if ((wstrb_v s s_axi_wi__wvalid s_axi_wi__wstrb).testBit 0) = true then (if (w114 s) = true then s.allowed_cycles
          else put s.allowed_cycles 0 8 (slc (wdata_v s s_axi_wi__wvalid s_axi_wi__wdata) 0 8))
        else s.allowed_cycles
        let e2 := if ((wstrb_v s s_axi_wi__wvalid s_axi_wi__wstrb).testBit 1) = true then (if (w116 s) = true then e1
          else put e1 8 8 (slc (wdata_v s s_axi_wi__wvalid s_axi_wi__wdata) 8 8))
        else e1
        if ((wstrb_v s s_axi_wi__wvalid s_axi_wi__wstrb).testBit 2) = true then (if (w118 s) = true then e2
          else put e2 16 8 (slc (wdata_v s s_axi_wi__wvalid s_axi_wi__wdata) 16 8))
        else e2)
      else s.allowed_cycles)
    else s.allowed_cycles)
  else s.allowed_cycles
  if full_rst = true then 0
  else e3

/-- micro_integration_axistream.v:1115-2000: one rising clock edge (`always @(posedge ...)`). -/
@[netlist] def step (s : S) (s_axi_ri__arvalid : Bool) (s_axi_wi__awvalid : Bool) (s_axi_ri__araddr : Nat) (s_axi_ri__rready : Bool) (s_axi_wi__awaddr : Nat) (s_axi_wi__wvalid : Bool) (s_axi_wi__wdata : Nat) (s_axi_wi__wstrb : Nat) (s_axi_wi__bready : Bool) (full_rst : Bool) (rst : Bool) (rp_data : Nat) : S :=
  { allowed_cycles := (next_allowed_cycles s s_axi_wi__wvalid s_axi_wi__wdata s_axi_wi__wstrb full_rst)
    height_width := (next_height_width s s_axi_wi__wvalid s_axi_wi__wdata s_axi_wi__wstrb full_rst)
    bresp_v := (next_bresp_v s s_axi_wi__wvalid full_rst)
    wp_en := (next_wp_en s s_axi_wi__wvalid full_rst)
    wp_data := (next_wp_data s s_axi_wi__wvalid s_axi_wi__wdata s_axi_wi__wstrb full_rst rp_data)
    wp_addr := (next_wp_addr s s_axi_wi__wvalid full_rst)
    wready_v := (next_wready_v s full_rst)
    awready_v := (next_awready_v s full_rst)
    rresp_v := (next_rresp_v s full_rst)
    rdata_v := (next_rdata_v s full_rst rp_data)
    arready_v := (next_arready_v s full_rst)
    rp_addr := (next_rp_addr s s_axi_ri__araddr s_axi_wi__awaddr full_rst)
    addr_v := (next_addr_v s s_axi_ri__araddr s_axi_wi__awaddr full_rst)
    fsm_state := (next_fsm_state s s_axi_ri__arvalid s_axi_wi__awvalid s_axi_ri__rready s_axi_wi__wvalid s_axi_wi__bready rst)
    bvalid_v := (next_bvalid_v s s_axi_wi__bready full_rst)
    rvalid_v := (next_rvalid_v s s_axi_ri__rready full_rst) }

/-- micro_integration_axistream.v:1115-2000: the initial values given in the netlist. -/
def Init (s : S) : Prop :=
  s.allowed_cycles = 0 ∧
  s.height_width = 0 ∧
  s.bresp_v = 0 ∧
  s.wp_en = false ∧
  s.wp_data = 0 ∧
  s.wp_addr = 0 ∧
  s.wready_v = false ∧
  s.awready_v = false ∧
  s.rresp_v = 0 ∧
  s.rdata_v = 0 ∧
  s.arready_v = false ∧
  s.rp_addr = 0 ∧
  s.addr_v = 0 ∧
  s.fsm_state = 0 ∧
  s.bvalid_v = false ∧
  s.rvalid_v = false

/-- micro_integration_axistream.v:1115-2000: a state with these initial values; registers without one are 0. -/
def powerUp : S :=
  { allowed_cycles := 0
    height_width := 0
    bresp_v := 0
    wp_en := false
    wp_data := 0
    wp_addr := 0
    wready_v := false
    awready_v := false
    rresp_v := 0
    rdata_v := 0
    arready_v := false
    rp_addr := 0
    addr_v := 0
    fsm_state := 0
    bvalid_v := false
    rvalid_v := false }

theorem powerUp_init : Init powerUp := ⟨rfl, rfl, rfl, rfl, rfl, rfl, rfl, rfl, rfl, rfl, rfl, rfl, rfl, rfl, rfl, rfl⟩

end core_axi_lite

namespace difference

/-- micro_integration_axistream.v:2004-2095: registers, memories and instances of module `difference`. -/
structure S where
  end_out : Bool
  valid_out : Bool
  val_out_1 : Nat
  val_out : Nat

/-- micro_integration_axistream.v:2045. -/
@[netlist] def w2 (s : S) (pixel_in : Nat) (predic_in : Nat) : Nat :=
  (2 ^ 13 + pixel_in - predic_in) % 2 ^ 13
/-- micro_integration_axistream.v:2046. -/
@[netlist] def w5 (s : S) (pixel_in : Nat) (predic_in : Nat) : Nat :=
  (2 ^ 13 + pixel_in - predic_in) % 2 ^ 13
/-- micro_integration_axistream.v:2047. -/
@[netlist] def w7 (s : S) (pixel_in : Nat) (predic_in : Nat) : Nat :=
  (2 ^ 14 + (w5 s pixel_in predic_in) - 1) % 2 ^ 14
/-- micro_integration_axistream.v:2094. -/
@[netlist] def w4 (s : S) (pixel_in : Nat) (predic_in : Nat) : Nat :=
  (w7 s pixel_in predic_in)
/-- micro_integration_axistream.v:2056-2066. -/
@[netlist] def next_val_out (s : S) (pixel_in : Nat) (predic_in : Nat) (rst : Bool) (valid_in : Bool) : Nat :=
  let e1 := if valid_in = true then (w2 s pixel_in predic_in)
  else s.val_out
  if rst = true then 0
  else e1
/-- micro_integration_axistream.v:2067-2077. -/
@[netlist] def next_val_out_1 (s : S) (pixel_in : Nat) (predic_in : Nat) (rst : Bool) (valid_in : Bool) : Nat :=
  let e1 := if valid_in = true then slc (w4 s pixel_in predic_in) 0 13
  else s.val_out_1
  if rst = true then 0
  else e1
/-- micro_integration_axistream.v:2078-2085. -/
@[netlist] def next_valid_out (s : S) (rst : Bool) (valid_in : Bool) : Bool :=
  if rst = true then false
  else valid_in
/-- micro_integration_axistream.v:2086-2093. -/
@[netlist] def next_end_out (s : S) (end_in : Bool) (rst : Bool) : Bool :=
  if rst = true then false
  else end_in

/-- micro_integration_axistream.v:2004-2095: one rising clock edge (`always @(posedge ...)`). -/
@[netlist] def step (s : S) (pixel_in : Nat) (predic_in : Nat) (end_in : Bool) (rst : Bool) (valid_in : Bool) : S :=
  { end_out := (next_end_out s end_in rst)
    valid_out := (next_valid_out s rst valid_in)
    val_out_1 := (next_val_out_1 s pixel_in predic_in rst valid_in)
    val_out := (next_val_out s pixel_in predic_in rst valid_in) }

/-- micro_integration_axistream.v:2004-2095: the initial values given in the netlist. -/
def Init (s : S) : Prop :=
  s.end_out = false ∧
  s.valid_out = false ∧
  s.val_out_1 = 0 ∧
  s.val_out = 0

/-- micro_integration_axistream.v:2004-2095: a state with these initial values; registers without one are 0. -/
def powerUp : S :=
  { end_out := false
    valid_out := false
    val_out_1 := 0
    val_out := 0 }

theorem powerUp_init : Init powerUp := ⟨rfl, rfl, rfl, rfl⟩

end difference

namespace anonymous_2

/-- micro_integration_axistream.v:665-827: registers, memories and instances of module `anonymous$2`. -/
structure S where
  end_out : Bool
  end_late : Bool
  valid_out : Bool
  valid_late : Bool
  enc_ctr : Nat
  enc_out : Nat
  val_in_late : Nat
  ssss_late : Nat

/-- micro_integration_axistream.v:732. -/
@[netlist] def w2 (s : S) (rp_data : Nat) : Nat :=
  rp_data ||| s.val_in_late
/-- micro_integration_axistream.v:733. -/
@[netlist] def w5 (s : S) (rp_data : Nat) : Nat :=
  ((slc rp_data 28 5) + (slc s.ssss_late 0 4)) % 2 ^ 6
/-- micro_integration_axistream.v:824. -/
@[netlist] def w1 (s : S) (rp_data : Nat) : Nat :=
  (w2 s rp_data)
/-- micro_integration_axistream.v:825. -/
@[netlist] def w4 (s : S) (rp_data : Nat) : Nat :=
  (w5 s rp_data)
/-- micro_integration_axistream.v:798-801. -/
@[netlist] def next_rp_addr (s : S) (ssss : Nat) : Nat :=
  ssss
/-- micro_integration_axistream.v:826. -/
@[netlist] def rp_addr (s : S) (ssss : Nat) : Nat :=
  (next_rp_addr s ssss)
/-- micro_integration_axistream.v:750-757. -/
@[netlist] def next_valid_late (s : S) (rst : Bool) (valid_in : Bool) : Bool :=
  if rst = true then false
  else valid_in
/-- micro_integration_axistream.v:758-765. -/
@[netlist] def next_valid_out (s : S) (rst : Bool) : Bool :=
  if rst = true then false
  else s.valid_late
/-- micro_integration_axistream.v:766-773. -/
@[netlist] def next_end_late (s : S) (end_in : Bool) (rst : Bool) : Bool :=
  if rst = true then false
  else end_in
/-- micro_integration_axistream.v:774-781. -/
@[netlist] def next_end_out (s : S) (rst : Bool) : Bool :=
  if rst = true then false
  else s.end_late
/-- micro_integration_axistream.v:782-789. -/
@[netlist] def next_ssss_late (s : S) (ssss : Nat) (rst : Bool) : Nat :=
  if rst = true then 0
  else ssss
/-- micro_integration_axistream.v:790-797. -/
@[netlist] def next_val_in_late (s : S) (val_in : Nat) (rst : Bool) : Nat :=
  if rst = true then 0
  else val_in
/-- micro_integration_axistream.v:802-812. -/
@[netlist] def next_enc_out (s : S) (rp_data : Nat) (rst : Bool) : Nat :=
  let e1 := if s.valid_late = true then slc (w1 s rp_data) 0 28
  else s.enc_out
  if rst = true then 0
  else e1
/-- micro_integration_axistream.v:813-823. -/
@[netlist] def next_enc_ctr (s : S) (rp_data : Nat) (rst : Bool) : Nat :=
  let e1 := if s.valid_late = true then slc (w4 s rp_data) 0 5
  else s.enc_ctr
  if rst = true then 0
  else e1

/-- micro_integration_axistream.v:665-827: one rising clock edge (`always @(posedge ...)`). -/
@[netlist] def step (s : S) (end_in : Bool) (ssss : Nat) (val_in : Nat) (rp_data : Nat) (rst : Bool) (valid_in : Bool) : S :=
  { end_out := (next_end_out s rst)
    end_late := (next_end_late s end_in rst)
    valid_out := (next_valid_out s rst)
    valid_late := (next_valid_late s rst valid_in)
    enc_ctr := (next_enc_ctr s rp_data rst)
    enc_out := (next_enc_out s rp_data rst)
    val_in_late := (next_val_in_late s val_in rst)
    ssss_late := (next_ssss_late s ssss rst) }

/-- micro_integration_axistream.v:665-827: the initial values given in the netlist. -/
def Init (s : S) : Prop :=
  s.end_out = false ∧
  s.end_late = false ∧
  s.valid_out = false ∧
  s.valid_late = false ∧
  s.enc_ctr = 0 ∧
  s.enc_out = 0 ∧
  s.val_in_late = 0 ∧
  s.ssss_late = 0

/-- micro_integration_axistream.v:665-827: a state with these initial values; registers without one are 0. -/
def powerUp : S :=
  { end_out := false
    end_late := false
    valid_out := false
    valid_late := false
    enc_ctr := 0
    enc_out := 0
    val_in_late := 0
    ssss_late := 0 }

theorem powerUp_init : Init powerUp := ⟨rfl, rfl, rfl, rfl, rfl, rfl, rfl, rfl⟩

end anonymous_2

namespace encode

/-- micro_integration_axistream.v:2099-2263: registers, memories and instances of module `encode`. -/
structure S where
  r_0_ : Nat
  r_1_ : Nat
  mem : List Nat
  u_w9 : anonymous_2.S

/-- micro_integration_axistream.v:2211. -/
@[netlist] def mem_r_data_12 (s : S) : Nat :=
  s.mem.getD s.r_0_ 0
/-- micro_integration_axistream.v:2212. -/
@[netlist] def mem_r_data (s : S) : Nat :=
  s.mem.getD s.r_1_ 0
/-- micro_integration_axistream.v:2174-2187. -/
@[netlist] def end_out_6 (s : S) : Bool :=
  s.u_w9.end_out
/-- micro_integration_axistream.v:2249-2252. -/
@[netlist] def next_end_out (s : S) : Bool :=
  (end_out_6 s)
/-- micro_integration_axistream.v:2253. -/
@[netlist] def end_out (s : S) : Bool :=
  (next_end_out s)
/-- micro_integration_axistream.v:2174-2187. -/
@[netlist] def valid_out_5 (s : S) : Bool :=
  s.u_w9.valid_out
/-- micro_integration_axistream.v:2245-2248. -/
@[netlist] def next_valid_out (s : S) : Bool :=
  (valid_out_5 s)
/-- micro_integration_axistream.v:2254. -/
@[netlist] def valid_out (s : S) : Bool :=
  (next_valid_out s)
/-- micro_integration_axistream.v:2174-2187. -/
@[netlist] def enc_ctr_8 (s : S) : Nat :=
  s.u_w9.enc_ctr
/-- micro_integration_axistream.v:2241-2244. -/
@[netlist] def next_enc_ctr (s : S) : Nat :=
  (enc_ctr_8 s)
/-- micro_integration_axistream.v:2255. -/
@[netlist] def enc_ctr (s : S) : Nat :=
  (next_enc_ctr s)
/-- micro_integration_axistream.v:2174-2187. -/
@[netlist] def enc_out_7 (s : S) : Nat :=
  s.u_w9.enc_out
/-- micro_integration_axistream.v:2237-2240. -/
@[netlist] def next_enc_out (s : S) : Nat :=
  (enc_out_7 s)
/-- micro_integration_axistream.v:2256. -/
@[netlist] def enc_out (s : S) : Nat :=
  (next_enc_out s)
/-- micro_integration_axistream.v:2233-2236. -/
@[netlist] def next_rp_data (s : S) : Nat :=
  (mem_r_data_12 s)
/-- micro_integration_axistream.v:2257. -/
@[netlist] def rp_data (s : S) : Nat :=
  (next_rp_data s)
/-- micro_integration_axistream.v:2225-2228. -/
@[netlist] def next_ssss_3 (s : S) (ssss : Nat) : Nat :=
  ssss
/-- micro_integration_axistream.v:2259. -/
@[netlist] def ssss_3 (s : S) (ssss : Nat) : Nat :=
  (next_ssss_3 s ssss)
/-- micro_integration_axistream.v:2174-2187. -/
@[netlist] def rp_addr (s : S) (ssss : Nat) : Nat :=
  anonymous_2.rp_addr s.u_w9 (ssss_3 s ssss)
/-- micro_integration_axistream.v:2229-2232. -/
@[netlist] def next_mem_r_addr_11 (s : S) (ssss : Nat) : Nat :=
  slc (rp_addr s ssss) 0 4
/-- micro_integration_axistream.v:2258. -/
@[netlist] def mem_r_addr_11 (s : S) (ssss : Nat) : Nat :=
  (next_mem_r_addr_11 s ssss)
/-- micro_integration_axistream.v:2221-2224. -/
@[netlist] def next_valid_in_1 (s : S) (valid_in : Bool) : Bool :=
  valid_in
/-- micro_integration_axistream.v:2260. -/
@[netlist] def valid_in_1 (s : S) (valid_in : Bool) : Bool :=
  (next_valid_in_1 s valid_in)
/-- micro_integration_axistream.v:2217-2220. -/
@[netlist] def next_end_in_2 (s : S) (end_in : Bool) : Bool :=
  end_in
/-- micro_integration_axistream.v:2261. -/
@[netlist] def end_in_2 (s : S) (end_in : Bool) : Bool :=
  (next_end_in_2 s end_in)
/-- micro_integration_axistream.v:2213-2216. -/
@[netlist] def next_val_in_4 (s : S) (val_in : Nat) : Nat :=
  val_in
/-- micro_integration_axistream.v:2262. -/
@[netlist] def val_in_4 (s : S) (val_in : Nat) : Nat :=
  (next_val_in_4 s val_in)

/-- micro_integration_axistream.v:2099-2263: one rising clock edge (`always @(posedge ...)`). -/
@[netlist] def step (s : S) (end_in : Bool) (valid_in : Bool) (ssss : Nat) (rst : Bool) (mem_r_addr : Nat) (mem_w_en : Bool) (mem_w_addr : Nat) (mem_w_data : Nat) (val_in : Nat) : S :=
  { r_0_ := (next_mem_r_addr_11 s ssss)
    r_1_ := mem_r_addr
    mem := if mem_w_en then s.mem.set mem_w_addr mem_w_data else s.mem
    u_w9 := anonymous_2.step s.u_w9 (end_in_2 s end_in) (ssss_3 s ssss) (val_in_4 s val_in) (rp_data s) rst (valid_in_1 s valid_in) }

/-- micro_integration_axistream.v:2099-2263: the initial values given in the netlist. -/
def Init (s : S) : Prop :=
  s.mem = [0x4000000e, 0x30000000, 0x30000004, 0x30000010, 0x30000030, 0x30000080, 0x30000140, 0x30000300, 0x50001e00, 0x60007c00, 0x7001f800, 0x8007f000, 0x901fe000] ∧
  anonymous_2.Init s.u_w9

/-- micro_integration_axistream.v:2099-2263: a state with these initial values; registers without one are 0. -/
def powerUp : S :=
  { r_0_ := 0
    r_1_ := 0
    mem := [0x4000000e, 0x30000000, 0x30000004, 0x30000010, 0x30000030, 0x30000080, 0x30000140, 0x30000300, 0x50001e00, 0x60007c00, 0x7001f800, 0x8007f000, 0x901fe000]
    u_w9 := anonymous_2.powerUp }

theorem powerUp_init : Init powerUp := ⟨rfl, anonymous_2.powerUp_init⟩

end encode

namespace unbuffered

/-- micro_integration_axistream.v:8031-8773: registers, memories and instances of module `unbuffered`. -/
structure S where
  level : Nat
  consume : Nat
  produce : Nat
  r_0_ : Nat
  storage : List Nat

/-- micro_integration_axistream.v:8130. -/
@[netlist] def w10 (s : S) : Bool :=
  s.produce == 0
/-- micro_integration_axistream.v:8160. -/
@[netlist] def w7 (s : S) : Nat :=
  (2 ^ 10 + s.produce - 1) % 2 ^ 10
/-- micro_integration_axistream.v:8131. -/
@[netlist] def w9 (s : S) : Nat :=
  if (w10 s) then 510 else (w7 s)
/-- micro_integration_axistream.v:8140. -/
@[netlist] def w2 (s : S) : Bool :=
  s.level != 511
/-- micro_integration_axistream.v:8687-8690. -/
@[netlist] def next_writable (s : S) : Bool :=
  (w2 s)
/-- micro_integration_axistream.v:8772. -/
@[netlist] def writable (s : S) : Bool :=
  (next_writable s)
/-- micro_integration_axistream.v:8132. -/
@[netlist] def w13 (s : S) (replace : Bool) : Bool :=
  (writable s) || replace
/-- micro_integration_axistream.v:8133. -/
@[netlist] def w15 (s : S) (we : Bool) (replace : Bool) : Bool :=
  we && (w13 s replace)
/-- micro_integration_axistream.v:8134. -/
@[netlist] def w17 (s : S) (we : Bool) : Bool :=
  (writable s) && we
/-- micro_integration_axistream.v:8135. -/
@[netlist] def w19 (s : S) (replace : Bool) : Bool :=
  !replace
/-- micro_integration_axistream.v:8136. -/
@[netlist] def w21 (s : S) (we : Bool) (replace : Bool) : Bool :=
  (w17 s we) && (w19 s replace)
/-- micro_integration_axistream.v:8137. -/
@[netlist] def w24 (s : S) : Nat :=
  (s.produce + 1) % 2 ^ 10
/-- micro_integration_axistream.v:8138. -/
@[netlist] def w27 (s : S) : Bool :=
  s.produce == 510
/-- micro_integration_axistream.v:8139. -/
@[netlist] def w26 (s : S) : Nat :=
  if (w27 s) then 0 else (w24 s)
/-- micro_integration_axistream.v:8150. -/
@[netlist] def w4 (s : S) : Bool :=
  s.level != 0
/-- micro_integration_axistream.v:8691-8694. -/
@[netlist] def next_readable (s : S) : Bool :=
  (w4 s)
/-- micro_integration_axistream.v:8771. -/
@[netlist] def readable (s : S) : Bool :=
  (next_readable s)
/-- micro_integration_axistream.v:8141. -/
@[netlist] def w30 (s : S) (re : Bool) : Bool :=
  (readable s) && re
/-- micro_integration_axistream.v:8142. -/
@[netlist] def w33 (s : S) : Nat :=
  (s.consume + 1) % 2 ^ 10
/-- micro_integration_axistream.v:8143. -/
@[netlist] def w36 (s : S) : Bool :=
  s.consume == 510
/-- micro_integration_axistream.v:8144. -/
@[netlist] def w35 (s : S) : Nat :=
  if (w36 s) then 0 else (w33 s)
/-- micro_integration_axistream.v:8145. -/
@[netlist] def w39 (s : S) (we : Bool) : Bool :=
  (writable s) && we
/-- micro_integration_axistream.v:8146. -/
@[netlist] def w41 (s : S) (replace : Bool) : Bool :=
  !replace
/-- micro_integration_axistream.v:8147. -/
@[netlist] def w43 (s : S) (we : Bool) (replace : Bool) : Bool :=
  (w39 s we) && (w41 s replace)
/-- micro_integration_axistream.v:8148. -/
@[netlist] def w46 (s : S) (re : Bool) : Bool :=
  (readable s) && re
/-- micro_integration_axistream.v:8149. -/
@[netlist] def w45 (s : S) (re : Bool) : Bool :=
  !(w46 s re)
/-- micro_integration_axistream.v:8151. -/
@[netlist] def w49 (s : S) (we : Bool) (replace : Bool) (re : Bool) : Bool :=
  (w43 s we replace) && (w45 s re)
/-- micro_integration_axistream.v:8152. -/
@[netlist] def w52 (s : S) : Nat :=
  (s.level + 1) % 2 ^ 10
/-- micro_integration_axistream.v:8153. -/
@[netlist] def w54 (s : S) (re : Bool) : Bool :=
  (readable s) && re
/-- micro_integration_axistream.v:8154. -/
@[netlist] def w57 (s : S) (we : Bool) : Bool :=
  (writable s) && we
/-- micro_integration_axistream.v:8155. -/
@[netlist] def w59 (s : S) (replace : Bool) : Bool :=
  !replace
/-- micro_integration_axistream.v:8156. -/
@[netlist] def w61 (s : S) (we : Bool) (replace : Bool) : Bool :=
  (w57 s we) && (w59 s replace)
/-- micro_integration_axistream.v:8157. -/
@[netlist] def w56 (s : S) (we : Bool) (replace : Bool) : Bool :=
  !(w61 s we replace)
/-- micro_integration_axistream.v:8158. -/
@[netlist] def w64 (s : S) (we : Bool) (replace : Bool) (re : Bool) : Bool :=
  (w54 s re) && (w56 s we replace)
/-- micro_integration_axistream.v:8159. -/
@[netlist] def w67 (s : S) : Nat :=
  (2 ^ 10 + s.level - 1) % 2 ^ 10
/-- micro_integration_axistream.v:8686. -/
@[netlist] def rdport_storage_r_data (s : S) : Nat :=
  s.r_0_
/-- micro_integration_axistream.v:8760. -/
@[netlist] def w6 (s : S) : Nat :=
  (w9 s)
/-- micro_integration_axistream.v:8761. -/
@[netlist] def w23 (s : S) : Nat :=
  (w26 s)
/-- micro_integration_axistream.v:8762. -/
@[netlist] def w32 (s : S) : Nat :=
  (w35 s)
/-- micro_integration_axistream.v:8763. -/
@[netlist] def w51 (s : S) : Nat :=
  (w52 s)
/-- micro_integration_axistream.v:8764. -/
@[netlist] def w66 (s : S) : Nat :=
  (w67 s)
/-- micro_integration_axistream.v:8745-8748. -/
@[netlist] def next_rdport_storage_r_en (s : S) (re : Bool) : Bool :=
  re
/-- micro_integration_axistream.v:8765. -/
@[netlist] def rdport_storage_r_en (s : S) (re : Bool) : Bool :=
  (next_rdport_storage_r_en s re)
/-- micro_integration_axistream.v:8741-8744. -/
@[netlist] def next_dout (s : S) : Nat :=
  (rdport_storage_r_data s)
/-- micro_integration_axistream.v:8766. -/
@[netlist] def dout (s : S) : Nat :=
  (next_dout s)
/-- micro_integration_axistream.v:8737-8740. -/
@[netlist] def next_rdport_storage_r_addr (s : S) : Nat :=
  s.consume
/-- micro_integration_axistream.v:8767. -/
@[netlist] def rdport_storage_r_addr (s : S) : Nat :=
  (next_rdport_storage_r_addr s)
/-- micro_integration_axistream.v:8722-8725. -/
@[netlist] def next_wrport_storage_w_en (s : S) (we : Bool) (replace : Bool) : Bool :=
  (w15 s we replace)
/-- micro_integration_axistream.v:8768. -/
@[netlist] def wrport_storage_w_en (s : S) (we : Bool) (replace : Bool) : Bool :=
  (next_wrport_storage_w_en s we replace)
/-- micro_integration_axistream.v:8718-8721. -/
@[netlist] def next_wrport_storage_w_data (s : S) (din : Nat) : Nat :=
  din
/-- micro_integration_axistream.v:8769. -/
@[netlist] def wrport_storage_w_data (s : S) (din : Nat) : Nat :=
  (next_wrport_storage_w_data s din)
/-- micro_integration_axistream.v:8710-8717. -/
@[netlist] def next_wrport_storage_w_addr (s : S) (replace : Bool) : Nat :=
  if replace = true then slc (w6 s) 0 9
  else s.produce
/-- micro_integration_axistream.v:8770. -/
@[netlist] def wrport_storage_w_addr (s : S) (replace : Bool) : Nat :=
  (next_wrport_storage_w_addr s replace)
/-- micro_integration_axistream.v:8695-8709. -/
@[netlist] def next_level (s : S) (we : Bool) (replace : Bool) (re : Bool) (rst : Bool) : Nat :=
  let e1 := if (w49 s we replace re) = true then slc (w51 s) 0 9
  else s.level
  let e2 := if (w64 s we replace re) = true then slc (w66 s) 0 9
  else e1
  if rst = true then 0
  else e2
/-- micro_integration_axistream.v:8726-8736. -/
@[netlist] def next_produce (s : S) (we : Bool) (replace : Bool) (rst : Bool) : Nat :=
  let e1 := if (w21 s we replace) = true then slc (w23 s) 0 9
  else s.produce
  if rst = true then 0
  else e1
/-- micro_integration_axistream.v:8749-8759. -/
@[netlist] def next_consume (s : S) (re : Bool) (rst : Bool) : Nat :=
  let e1 := if (w30 s re) = true then slc (w32 s) 0 9
  else s.consume
  if rst = true then 0
  else e1

/-- micro_integration_axistream.v:8031-8773: one rising clock edge (`always @(posedge ...)`). -/
@[netlist] def step (s : S) (we : Bool) (replace : Bool) (re : Bool) (rst : Bool) (din : Nat) : S :=
  { level := (next_level s we replace re rst)
    consume := (next_consume s re rst)
    produce := (next_produce s we replace rst)
    r_0_ := if (next_rdport_storage_r_en s re) then s.storage.getD (next_rdport_storage_r_addr s) 0 else s.r_0_
    storage := if (next_wrport_storage_w_en s we replace) then s.storage.set (next_wrport_storage_w_addr s replace) (next_wrport_storage_w_data s din) else s.storage }

/-- micro_integration_axistream.v:8031-8773: the initial values given in the netlist. -/
def Init (s : S) : Prop :=
  s.level = 0 ∧
  s.consume = 0 ∧
  s.produce = 0 ∧
  s.storage = List.replicate 511 0

/-- micro_integration_axistream.v:8031-8773: a state with these initial values; registers without one are 0. -/
def powerUp : S :=
  { level := 0
    consume := 0
    produce := 0
    r_0_ := 0
    storage := List.replicate 511 0 }

theorem powerUp_init : Init powerUp := ⟨rfl, rfl, rfl, rfl⟩

end unbuffered

namespace fifo

/-- micro_integration_axistream.v:2267-2393: registers, memories and instances of module `fifo`. -/
structure S where
  readable : Bool
  u_unbuffered : unbuffered.S

/-- micro_integration_axistream.v:2326. -/
@[netlist] def w1 (s : S) : Bool :=
  !s.readable
/-- micro_integration_axistream.v:2327. -/
@[netlist] def w3 (s : S) (re : Bool) : Bool :=
  (w1 s) || re
/-- micro_integration_axistream.v:2332-2343. -/
@[netlist] def unbuffered_readable (s : S) : Bool :=
  unbuffered.readable s.u_unbuffered
/-- micro_integration_axistream.v:2328. -/
@[netlist] def w5 (s : S) (re : Bool) : Bool :=
  (unbuffered_readable s) && (w3 s re)
/-- micro_integration_axistream.v:2332-2343. -/
@[netlist] def unbuffered_level (s : S) : Nat :=
  s.u_unbuffered.level
/-- micro_integration_axistream.v:2329. -/
@[netlist] def w7 (s : S) : Nat :=
  ((unbuffered_level s) + s.readable.toNat) % 2 ^ 10
/-- micro_integration_axistream.v:2382-2385. -/
@[netlist] def next_level (s : S) : Nat :=
  (w7 s)
/-- micro_integration_axistream.v:2386. -/
@[netlist] def level (s : S) : Nat :=
  (next_level s)
/-- micro_integration_axistream.v:2365-2368. -/
@[netlist] def next_unbuffered_re (s : S) (re : Bool) : Bool :=
  (w5 s re)
/-- micro_integration_axistream.v:2387. -/
@[netlist] def unbuffered_re (s : S) (re : Bool) : Bool :=
  (next_unbuffered_re s re)
/-- micro_integration_axistream.v:2332-2343. -/
@[netlist] def unbuffered_dout (s : S) : Nat :=
  unbuffered.dout s.u_unbuffered
/-- micro_integration_axistream.v:2361-2364. -/
@[netlist] def next_dout (s : S) : Nat :=
  (unbuffered_dout s)
/-- micro_integration_axistream.v:2388. -/
@[netlist] def dout (s : S) : Nat :=
  (next_dout s)
/-- micro_integration_axistream.v:2356-2360. -/
@[netlist] def next_unbuffered_replace (s : S) : Bool :=
  false
/-- micro_integration_axistream.v:2389. -/
@[netlist] def unbuffered_replace (s : S) : Bool :=
  (next_unbuffered_replace s)
/-- micro_integration_axistream.v:2332-2343. -/
@[netlist] def unbuffered_writable (s : S) : Bool :=
  unbuffered.writable s.u_unbuffered
/-- micro_integration_axistream.v:2352-2355. -/
@[netlist] def next_writable (s : S) : Bool :=
  (unbuffered_writable s)
/-- micro_integration_axistream.v:2390. -/
@[netlist] def writable (s : S) : Bool :=
  (next_writable s)
/-- micro_integration_axistream.v:2348-2351. -/
@[netlist] def next_unbuffered_we (s : S) (we : Bool) : Bool :=
  we
/-- micro_integration_axistream.v:2391. -/
@[netlist] def unbuffered_we (s : S) (we : Bool) : Bool :=
  (next_unbuffered_we s we)
/-- micro_integration_axistream.v:2344-2347. -/
@[netlist] def next_unbuffered_din (s : S) (din : Nat) : Nat :=
  din
/-- micro_integration_axistream.v:2392. -/
@[netlist] def unbuffered_din (s : S) (din : Nat) : Nat :=
  (next_unbuffered_din s din)
/-- micro_integration_axistream.v:2369-2381. -/
@[netlist] def next_readable (s : S) (re : Bool) (rst : Bool) : Bool :=
  let e1 := if (unbuffered_re s re) = true then true
  else if re = true then false
  else s.readable
  if rst = true then false
  else e1

/-- micro_integration_axistream.v:2267-2393: one rising clock edge (`always @(posedge ...)`). -/
@[netlist] def step (s : S) (we : Bool) (re : Bool) (rst : Bool) (din : Nat) : S :=
  { readable := (next_readable s re rst)
    u_unbuffered := unbuffered.step s.u_unbuffered (unbuffered_we s we) (unbuffered_replace s) (unbuffered_re s re) rst (unbuffered_din s din) }

/-- micro_integration_axistream.v:2267-2393: the initial values given in the netlist. -/
def Init (s : S) : Prop :=
  s.readable = false ∧
  unbuffered.Init s.u_unbuffered

/-- micro_integration_axistream.v:2267-2393: a state with these initial values; registers without one are 0. -/
def powerUp : S :=
  { readable := false
    u_unbuffered := unbuffered.powerUp }

theorem powerUp_init : Init powerUp := ⟨rfl, unbuffered.powerUp_init⟩

end fifo

namespace fix_0xff

/-- micro_integration_axistream.v:2527-2966: registers, memories and instances of module `fix_0xff`. -/
structure S where
  end_out_reg : Bool
  data_out_ctr_reg : Nat
  data_out_reg : Nat
  data_out_valid : Bool
  o_busy : Bool
  data_out_ctr : Nat
  data_out : Nat
  end_out : Bool
  valid_out : Bool
  zeros : Nat
  ones : Nat

/-- micro_integration_axistream.v:2717. -/
@[netlist] def w5 (s : S) (valid_in : Bool) : Bool :=
  valid_in == true
/-- micro_integration_axistream.v:2728. -/
@[netlist] def w7 (s : S) : Bool :=
  s.o_busy == false
/-- micro_integration_axistream.v:2669. -/
@[netlist] def w9 (s : S) (valid_in : Bool) : Bool :=
  (w5 s valid_in) && (w7 s)
/-- micro_integration_axistream.v:2737. -/
@[netlist] def w95 (s : S) (valid_in : Bool) : Bool :=
  valid_in == true
/-- micro_integration_axistream.v:2738. -/
@[netlist] def w97 (s : S) : Bool :=
  s.valid_out == true
/-- micro_integration_axistream.v:2670. -/
@[netlist] def w99 (s : S) (valid_in : Bool) : Bool :=
  (w95 s valid_in) && (w97 s)
/-- micro_integration_axistream.v:2671. -/
@[netlist] def w101 (s : S) (i_busy : Bool) : Bool :=
  i_busy == false
/-- micro_integration_axistream.v:2672. -/
@[netlist] def w103 (s : S) : Bool :=
  s.valid_out == false
/-- micro_integration_axistream.v:2673. -/
@[netlist] def w105 (s : S) (valid_in : Bool) : Bool :=
  valid_in == true
/-- micro_integration_axistream.v:2674. -/
@[netlist] def w107 (s : S) : Bool :=
  s.o_busy == false
/-- micro_integration_axistream.v:2675. -/
@[netlist] def w109 (s : S) (valid_in : Bool) : Bool :=
  (w105 s valid_in) && (w107 s)
/-- micro_integration_axistream.v:2676. -/
@[netlist] def w111 (s : S) (valid_in : Bool) : Bool :=
  valid_in == true
/-- micro_integration_axistream.v:2677. -/
@[netlist] def w113 (s : S) : Bool :=
  s.valid_out == true
/-- micro_integration_axistream.v:2678. -/
@[netlist] def w115 (s : S) (valid_in : Bool) : Bool :=
  (w111 s valid_in) && (w113 s)
/-- micro_integration_axistream.v:2679. -/
@[netlist] def w117 (s : S) : Bool :=
  s.o_busy == false
/-- micro_integration_axistream.v:2680. -/
@[netlist] def w11 (s : S) : Bool :=
  s.data_out_valid == false
/-- micro_integration_axistream.v:2681. -/
@[netlist] def w119 (s : S) (data_in : Nat) : Bool :=
  data_in == 0xffff
/-- micro_integration_axistream.v:2682. -/
@[netlist] def w121 (s : S) (data_in : Nat) : Bool :=
  (slc data_in 0 8) == 255
/-- micro_integration_axistream.v:2683. -/
@[netlist] def w123 (s : S) (data_in : Nat) : Bool :=
  (slc data_in 8 8) == 255
/-- micro_integration_axistream.v:2684. -/
@[netlist] def w125 (s : S) (data_in : Nat) : Nat :=
  (slc data_in 8 8) * 2 ^ 16 + s.ones * 2 ^ 8 + s.zeros
/-- micro_integration_axistream.v:2685. -/
@[netlist] def w127 (s : S) (data_in : Nat) : Nat :=
  s.ones * 2 ^ 16 + s.zeros * 2 ^ 8 + (slc data_in 0 8)
/-- micro_integration_axistream.v:2686. -/
@[netlist] def w129 (s : S) (data_in : Nat) : Nat :=
  data_in
/-- micro_integration_axistream.v:2687. -/
@[netlist] def w131 (s : S) : Bool :=
  s.o_busy == false
/-- micro_integration_axistream.v:2688. -/
@[netlist] def w133 (s : S) (data_in : Nat) : Bool :=
  data_in == 0xffff
/-- micro_integration_axistream.v:2689. -/
@[netlist] def w135 (s : S) (data_in : Nat) : Bool :=
  (slc data_in 0 8) == 255
/-- micro_integration_axistream.v:2690. -/
@[netlist] def w137 (s : S) (data_in : Nat) : Bool :=
  (slc data_in 8 8) == 255
/-- micro_integration_axistream.v:2691. -/
@[netlist] def w13 (s : S) (i_busy : Bool) : Bool :=
  i_busy == false
/-- micro_integration_axistream.v:2692. -/
@[netlist] def w139 (s : S) : Bool :=
  s.o_busy == false
/-- micro_integration_axistream.v:2693. -/
@[netlist] def w15 (s : S) : Bool :=
  s.valid_out == false
/-- micro_integration_axistream.v:2694. -/
@[netlist] def w17 (s : S) (valid_in : Bool) : Bool :=
  valid_in == true
/-- micro_integration_axistream.v:2695. -/
@[netlist] def w1 (s : S) (i_busy : Bool) : Bool :=
  i_busy == false
/-- micro_integration_axistream.v:2696. -/
@[netlist] def w19 (s : S) : Bool :=
  s.o_busy == false
/-- micro_integration_axistream.v:2697. -/
@[netlist] def w21 (s : S) (valid_in : Bool) : Bool :=
  (w17 s valid_in) && (w19 s)
/-- micro_integration_axistream.v:2698. -/
@[netlist] def w23 (s : S) : Bool :=
  s.data_out_valid == false
/-- micro_integration_axistream.v:2699. -/
@[netlist] def w25 (s : S) (i_busy : Bool) : Bool :=
  i_busy == false
/-- micro_integration_axistream.v:2700. -/
@[netlist] def w27 (s : S) : Bool :=
  s.valid_out == false
/-- micro_integration_axistream.v:2701. -/
@[netlist] def w29 (s : S) (valid_in : Bool) : Bool :=
  valid_in == true
/-- micro_integration_axistream.v:2702. -/
@[netlist] def w31 (s : S) : Bool :=
  s.o_busy == false
/-- micro_integration_axistream.v:2703. -/
@[netlist] def w33 (s : S) (valid_in : Bool) : Bool :=
  (w29 s valid_in) && (w31 s)
/-- micro_integration_axistream.v:2704. -/
@[netlist] def w35 (s : S) : Bool :=
  s.data_out_valid == false
/-- micro_integration_axistream.v:2705. -/
@[netlist] def w37 (s : S) (data_in : Nat) : Bool :=
  data_in == 0xffff
/-- micro_integration_axistream.v:2706. -/
@[netlist] def w3 (s : S) : Bool :=
  s.valid_out == false
/-- micro_integration_axistream.v:2707. -/
@[netlist] def w39 (s : S) (data_in : Nat) : Bool :=
  (slc data_in 0 8) == 255
/-- micro_integration_axistream.v:2708. -/
@[netlist] def w41 (s : S) (data_in : Nat) : Bool :=
  (slc data_in 8 8) == 255
/-- micro_integration_axistream.v:2709. -/
@[netlist] def w43 (s : S) (data_in : Nat) : Nat :=
  (slc data_in 8 8) * 2 ^ 16 + s.ones * 2 ^ 8 + s.zeros
/-- micro_integration_axistream.v:2710. -/
@[netlist] def w45 (s : S) (data_in : Nat) : Nat :=
  s.ones * 2 ^ 16 + s.zeros * 2 ^ 8 + (slc data_in 0 8)
/-- micro_integration_axistream.v:2711. -/
@[netlist] def w47 (s : S) (data_in : Nat) : Nat :=
  data_in
/-- micro_integration_axistream.v:2712. -/
@[netlist] def w49 (s : S) (data_in : Nat) : Bool :=
  data_in == 0xffff
/-- micro_integration_axistream.v:2713. -/
@[netlist] def w51 (s : S) (data_in : Nat) : Bool :=
  (slc data_in 0 8) == 255
/-- micro_integration_axistream.v:2714. -/
@[netlist] def w53 (s : S) (data_in : Nat) : Bool :=
  (slc data_in 8 8) == 255
/-- micro_integration_axistream.v:2715. -/
@[netlist] def w55 (s : S) (data_in : Nat) : Nat :=
  (slc data_in 8 8) * 2 ^ 16 + s.ones * 2 ^ 8 + s.zeros
/-- micro_integration_axistream.v:2716. -/
@[netlist] def w57 (s : S) (data_in : Nat) : Nat :=
  s.ones * 2 ^ 16 + s.zeros * 2 ^ 8 + (slc data_in 0 8)
/-- micro_integration_axistream.v:2718. -/
@[netlist] def w59 (s : S) (data_in : Nat) : Nat :=
  data_in
/-- micro_integration_axistream.v:2719. -/
@[netlist] def w61 (s : S) (i_busy : Bool) : Bool :=
  i_busy == false
/-- micro_integration_axistream.v:2720. -/
@[netlist] def w63 (s : S) : Bool :=
  s.valid_out == false
/-- micro_integration_axistream.v:2721. -/
@[netlist] def w65 (s : S) (valid_in : Bool) : Bool :=
  valid_in == true
/-- micro_integration_axistream.v:2722. -/
@[netlist] def w67 (s : S) : Bool :=
  s.o_busy == false
/-- micro_integration_axistream.v:2723. -/
@[netlist] def w69 (s : S) (valid_in : Bool) : Bool :=
  (w65 s valid_in) && (w67 s)
/-- micro_integration_axistream.v:2724. -/
@[netlist] def w71 (s : S) : Bool :=
  s.data_out_valid == false
/-- micro_integration_axistream.v:2725. -/
@[netlist] def w73 (s : S) (data_in : Nat) : Bool :=
  data_in == 0xffff
/-- micro_integration_axistream.v:2726. -/
@[netlist] def w75 (s : S) (data_in : Nat) : Bool :=
  (slc data_in 0 8) == 255
/-- micro_integration_axistream.v:2727. -/
@[netlist] def w77 (s : S) (data_in : Nat) : Bool :=
  (slc data_in 8 8) == 255
/-- micro_integration_axistream.v:2729. -/
@[netlist] def w79 (s : S) (data_in : Nat) : Bool :=
  data_in == 0xffff
/-- micro_integration_axistream.v:2730. -/
@[netlist] def w81 (s : S) (data_in : Nat) : Bool :=
  (slc data_in 0 8) == 255
/-- micro_integration_axistream.v:2731. -/
@[netlist] def w83 (s : S) (data_in : Nat) : Bool :=
  (slc data_in 8 8) == 255
/-- micro_integration_axistream.v:2732. -/
@[netlist] def w85 (s : S) (i_busy : Bool) : Bool :=
  i_busy == false
/-- micro_integration_axistream.v:2733. -/
@[netlist] def w87 (s : S) : Bool :=
  s.valid_out == false
/-- micro_integration_axistream.v:2734. -/
@[netlist] def w89 (s : S) (valid_in : Bool) : Bool :=
  valid_in == true
/-- micro_integration_axistream.v:2735. -/
@[netlist] def w91 (s : S) : Bool :=
  s.o_busy == false
/-- micro_integration_axistream.v:2736. -/
@[netlist] def w93 (s : S) (valid_in : Bool) : Bool :=
  (w89 s valid_in) && (w91 s)
/-- micro_integration_axistream.v:2761-2768. -/
@[netlist] def next_ones (s : S) (rst : Bool) : Nat :=
  if rst = true then 255
  else 255
/-- micro_integration_axistream.v:2769-2776. -/
@[netlist] def next_zeros (s : S) (rst : Bool) : Nat :=
  if rst = true then 0
  else 0
/-- micro_integration_axistream.v:2777-2787. -/
@[netlist] def next_end_out_reg (s : S) (end_in : Bool) (rst : Bool) : Bool :=
  let e1 := if (w139 s) = true then end_in
  else s.end_out_reg
  if rst = true then false
  else e1
/-- micro_integration_axistream.v:2788-2805. -/
@[netlist] def next_valid_out (s : S) (valid_in : Bool) (rst : Bool) (i_busy : Bool) : Bool :=
  let e1 := if (w1 s i_busy) = true then (if (w11 s) = true then valid_in
    else true)
  else if (w3 s) = true then valid_in
  else s.valid_out
  if rst = true then false
  else e1
/-- micro_integration_axistream.v:2806-2823. -/
@[netlist] def next_end_out (s : S) (valid_in : Bool) (end_in : Bool) (rst : Bool) (i_busy : Bool) : Bool :=
  let e1 := if (w13 s i_busy) = true then (if (w23 s) = true then end_in
    else s.end_out_reg)
  else if (w15 s) = true then end_in
  else s.end_out
  if rst = true then false
  else e1
/-- micro_integration_axistream.v:2824-2859. -/
@[netlist] def next_data_out (s : S) (valid_in : Bool) (data_in : Nat) (rst : Bool) (i_busy : Bool) : Nat :=
  let e1 := if (w25 s i_busy) = true then (if (w35 s) = true then (if (w37 s data_in) = true then s.ones * 2 ^ 24 + s.zeros * 2 ^ 16 + s.ones * 2 ^ 8 + s.zeros
      else if (w39 s data_in) = true then (w43 s data_in)
      else if (w41 s data_in) = true then (w45 s data_in)
      else (w47 s data_in))
    else s.data_out_reg)
  else if (w27 s) = true then (if (w49 s data_in) = true then s.ones * 2 ^ 24 + s.zeros * 2 ^ 16 + s.ones * 2 ^ 8 + s.zeros
    else if (w51 s data_in) = true then (w55 s data_in)
    else if (w53 s data_in) = true then (w57 s data_in)
    else (w59 s data_in))
  else s.data_out
  if rst = true then 0
  else e1
/-- micro_integration_axistream.v:2860-2895. -/
@[netlist] def next_data_out_ctr (s : S) (valid_in : Bool) (data_in : Nat) (rst : Bool) (i_busy : Bool) : Nat :=
  let e1 := if (w61 s i_busy) = true then (if (w71 s) = true then (if (w73 s data_in) = true then 4
      else if (w75 s data_in) = true then 3
      else if (w77 s data_in) = true then 3
      else 2)
    else s.data_out_ctr_reg)
  else if (w63 s) = true then (if (w79 s data_in) = true then 4
    else if (w81 s data_in) = true then 3
    else if (w83 s data_in) = true then 3
    else 2)
  else s.data_out_ctr
  if rst = true then 0
  else e1
/-- micro_integration_axistream.v:2896-2910. -/
@[netlist] def next_o_busy (s : S) (valid_in : Bool) (rst : Bool) (i_busy : Bool) : Bool :=
  let e1 := if (w85 s i_busy) = true then false
  else if (w87 s) = true then false
  else if (w93 s valid_in) = true then (w99 s valid_in)
  else s.o_busy
  if rst = true then false
  else e1
/-- micro_integration_axistream.v:2911-2925. -/
@[netlist] def next_data_out_valid (s : S) (valid_in : Bool) (rst : Bool) (i_busy : Bool) : Bool :=
  let e1 := if (w101 s i_busy) = true then false
  else if (w103 s) = true then false
  else if (w109 s valid_in) = true then (w115 s valid_in)
  else s.data_out_valid
  if rst = true then false
  else e1
/-- micro_integration_axistream.v:2926-2945. -/
@[netlist] def next_data_out_reg (s : S) (data_in : Nat) (rst : Bool) : Nat :=
  let e1 := if (w117 s) = true then (if (w119 s data_in) = true then s.ones * 2 ^ 24 + s.zeros * 2 ^ 16 + s.ones * 2 ^ 8 + s.zeros
    else if (w121 s data_in) = true then (w125 s data_in)
    else if (w123 s data_in) = true then (w127 s data_in)
    else (w129 s data_in))
  else s.data_out_reg
  if rst = true then 0
  else e1
/-- micro_integration_axistream.v:2946-2965. -/
@[netlist] def next_data_out_ctr_reg (s : S) (data_in : Nat) (rst : Bool) : Nat :=
  let e1 := if (w131 s) = true then (if (w133 s data_in) = true then 4
    else if (w135 s data_in) = true then 3
    else if (w137 s data_in) = true then 3
    else 2)
  else s.data_out_ctr_reg
  if rst = true then 0
  else e1

/-- micro_integration_axistream.v:2527-2966: one rising clock edge (`always @(posedge ...)`). -/
@[netlist] def step (s : S) (valid_in : Bool) (end_in : Bool) (data_in : Nat) (rst : Bool) (i_busy : Bool) : S :=
  { end_out_reg := (next_end_out_reg s end_in rst)
    data_out_ctr_reg := (next_data_out_ctr_reg s data_in rst)
    data_out_reg := (next_data_out_reg s data_in rst)
    data_out_valid := (next_data_out_valid s valid_in rst i_busy)
    o_busy := (next_o_busy s valid_in rst i_busy)
    data_out_ctr := (next_data_out_ctr s valid_in data_in rst i_busy)
    data_out := (next_data_out s valid_in data_in rst i_busy)
    end_out := (next_end_out s valid_in end_in rst i_busy)
    valid_out := (next_valid_out s valid_in rst i_busy)
    zeros := (next_zeros s rst)
    ones := (next_ones s rst) }

/-- micro_integration_axistream.v:2527-2966: the initial values given in the netlist. -/
def Init (s : S) : Prop :=
  s.end_out_reg = false ∧
  s.data_out_ctr_reg = 0 ∧
  s.data_out_reg = 0 ∧
  s.data_out_valid = false ∧
  s.o_busy = false ∧
  s.data_out_ctr = 0 ∧
  s.data_out = 0 ∧
  s.end_out = false ∧
  s.valid_out = false ∧
  s.zeros = 0 ∧
  s.ones = 255

/-- micro_integration_axistream.v:2527-2966: a state with these initial values; registers without one are 0. -/
def powerUp : S :=
  { end_out_reg := false
    data_out_ctr_reg := 0
    data_out_reg := 0
    data_out_valid := false
    o_busy := false
    data_out_ctr := 0
    data_out := 0
    end_out := false
    valid_out := false
    zeros := 0
    ones := 255 }

theorem powerUp_init : Init powerUp := ⟨rfl, rfl, rfl, rfl, rfl, rfl, rfl, rfl, rfl, rfl, rfl⟩

end fix_0xff

namespace input_handler

/-- micro_integration_axistream.v:4222-4826: registers, memories and instances of module `input_handler`. -/
structure S where
  buff_consum : Nat
  valid_in_reg : Bool
  end_out : Bool
  buffer : Nat
  valid_in_buff : Bool
  latch_input : Bool
  fsm_state : Nat
  in_end_reg : Bool
  enc_in_ctr_reg : Nat
  enc_in_reg : Nat
  in_end_buff : Bool
  enc_in_ctr_buff : Nat
  enc_in_buff : Nat
  start : Bool
  buff_free : Nat
  valid_in_late : Bool

/-- micro_integration_axistream.v:4378. -/
@[netlist] def w9 (s : S) : Bool :=
  decide (s.enc_in_ctr_buff ≤ s.buff_free)
/-- micro_integration_axistream.v:4379. -/
@[netlist] def w11 (s : S) : Bool :=
  decide (s.enc_in_ctr_buff ≤ s.buff_free)
/-- micro_integration_axistream.v:4380. -/
@[netlist] def w13 (s : S) : Bool :=
  decide (s.enc_in_ctr_buff ≤ s.buff_free)
/-- micro_integration_axistream.v:4381. -/
@[netlist] def w15 (s : S) : Bool :=
  decide (s.enc_in_ctr_buff ≤ s.buff_free)
/-- micro_integration_axistream.v:4382. -/
@[netlist] def w17 (s : S) : Bool :=
  decide (s.enc_in_ctr_buff ≤ s.buff_free)
/-- micro_integration_axistream.v:4383. -/
@[netlist] def w1 (s : S) : Bool :=
  decide (s.enc_in_ctr_reg ≤ s.buff_free)
/-- micro_integration_axistream.v:4384. -/
@[netlist] def w19 (s : S) : Bool :=
  decide (s.enc_in_ctr_buff ≤ s.buff_free)
/-- micro_integration_axistream.v:4385. -/
@[netlist] def w21 (s : S) : Bool :=
  decide (s.enc_in_ctr_buff ≤ s.buff_free)
/-- micro_integration_axistream.v:4386. -/
@[netlist] def w23 (s : S) : Bool :=
  decide (s.enc_in_ctr_reg ≤ s.buff_free)
/-- micro_integration_axistream.v:4387. -/
@[netlist] def w25 (s : S) : Bool :=
  decide (s.enc_in_ctr_reg ≤ s.buff_free)
/-- micro_integration_axistream.v:4388. -/
@[netlist] def w28 (s : S) : Nat :=
  s.buffer * 2 ^ s.enc_in_ctr_reg % 2 ^ 56
/-- micro_integration_axistream.v:4389. -/
@[netlist] def w30 (s : S) : Nat :=
  (w28 s) ||| s.enc_in_reg
/-- micro_integration_axistream.v:4390. -/
@[netlist] def w32 (s : S) : Bool :=
  decide (s.enc_in_ctr_reg ≤ s.buff_free)
/-- micro_integration_axistream.v:4391. -/
@[netlist] def w35 (s : S) : Nat :=
  s.buffer * 2 ^ s.enc_in_ctr_reg % 2 ^ 56
/-- micro_integration_axistream.v:4392. -/
@[netlist] def w37 (s : S) : Nat :=
  (w35 s) ||| s.enc_in_reg
/-- micro_integration_axistream.v:4439-4454. -/
@[netlist] def next_inc_buff (s : S) : Bool :=
  if s.fsm_state = 1 then true
  else if s.fsm_state = 2 then (if s.valid_in_reg = true then (if (w1 s) = true then true
      else false)
    else false)
  else false
/-- micro_integration_axistream.v:4825. -/
@[netlist] def inc_buff (s : S) : Bool :=
  (next_inc_buff s)
/-- micro_integration_axistream.v:4393. -/
@[netlist] def w3 (s : S) (dec_buff : Bool) : Bool :=
  (inc_buff s) || dec_buff
/-- micro_integration_axistream.v:4394. -/
@[netlist] def w39 (s : S) : Bool :=
  decide (s.enc_in_ctr_reg ≤ s.buff_free)
/-- micro_integration_axistream.v:4395. -/
@[netlist] def w41 (s : S) (dec_buff : Bool) : Bool :=
  (inc_buff s) && dec_buff
/-- micro_integration_axistream.v:4396. -/
@[netlist] def w44 (s : S) : Nat :=
  (s.buff_free + 16) % 2 ^ 7
/-- micro_integration_axistream.v:4397. -/
@[netlist] def w46 (s : S) : Nat :=
  (2 ^ 8 + (w44 s) - s.enc_in_ctr_reg) % 2 ^ 8
/-- micro_integration_axistream.v:4398. -/
@[netlist] def w49 (s : S) : Nat :=
  (s.buff_free + 16) % 2 ^ 7
/-- micro_integration_axistream.v:4399. -/
@[netlist] def w52 (s : S) : Nat :=
  (2 ^ 7 + s.buff_free - s.enc_in_ctr_reg) % 2 ^ 7
/-- micro_integration_axistream.v:4400. -/
@[netlist] def w54 (s : S) (dec_buff : Bool) : Bool :=
  (inc_buff s) && dec_buff
/-- micro_integration_axistream.v:4401. -/
@[netlist] def w57 (s : S) : Nat :=
  (2 ^ 7 + s.buff_consum - 16) % 2 ^ 7
/-- micro_integration_axistream.v:4402. -/
@[netlist] def w5 (s : S) : Bool :=
  s.start == false
/-- micro_integration_axistream.v:4403. -/
@[netlist] def w59 (s : S) : Nat :=
  ((w57 s) + s.enc_in_ctr_reg) % 2 ^ 8
/-- micro_integration_axistream.v:4404. -/
@[netlist] def w62 (s : S) : Nat :=
  (2 ^ 7 + s.buff_consum - 16) % 2 ^ 7
/-- micro_integration_axistream.v:4405. -/
@[netlist] def w65 (s : S) : Nat :=
  (s.buff_consum + s.enc_in_ctr_reg) % 2 ^ 7
/-- micro_integration_axistream.v:4406. -/
@[netlist] def w7 (s : S) : Bool :=
  s.start == false
/-- micro_integration_axistream.v:4813. -/
@[netlist] def w27 (s : S) : Nat :=
  (w30 s)
/-- micro_integration_axistream.v:4814. -/
@[netlist] def w34 (s : S) : Nat :=
  (w37 s)
/-- micro_integration_axistream.v:4815. -/
@[netlist] def w43 (s : S) : Nat :=
  (w46 s)
/-- micro_integration_axistream.v:4816. -/
@[netlist] def w48 (s : S) : Nat :=
  (w49 s)
/-- micro_integration_axistream.v:4817. -/
@[netlist] def w51 (s : S) : Nat :=
  (w52 s)
/-- micro_integration_axistream.v:4818. -/
@[netlist] def w56 (s : S) : Nat :=
  (w59 s)
/-- micro_integration_axistream.v:4819. -/
@[netlist] def w61 (s : S) : Nat :=
  (w62 s)
/-- micro_integration_axistream.v:4820. -/
@[netlist] def w64 (s : S) : Nat :=
  (w65 s)
/-- micro_integration_axistream.v:4658-4671. -/
@[netlist] def next_new_buff_consum (s : S) (dec_buff : Bool) : Nat :=
  if (w54 s dec_buff) = true then slc (w56 s) 0 6
  else (if dec_buff = true then slc (w61 s) 0 6
    else if (inc_buff s) = true then slc (w64 s) 0 6
    else 0)
/-- micro_integration_axistream.v:4821. -/
@[netlist] def new_buff_consum (s : S) (dec_buff : Bool) : Nat :=
  (next_new_buff_consum s dec_buff)
/-- micro_integration_axistream.v:4644-4657. -/
@[netlist] def next_new_buff_free (s : S) (dec_buff : Bool) : Nat :=
  if (w41 s dec_buff) = true then slc (w43 s) 0 6
  else (if dec_buff = true then slc (w48 s) 0 6
    else if (inc_buff s) = true then slc (w51 s) 0 6
    else 0)
/-- micro_integration_axistream.v:4822. -/
@[netlist] def new_buff_free (s : S) (dec_buff : Bool) : Nat :=
  (next_new_buff_free s dec_buff)
/-- micro_integration_axistream.v:4691-4700. -/
@[netlist] def next_buff_reg (s : S) : Bool :=
  if s.fsm_state = 3 then true
  else if s.fsm_state = 2 then true
  else false
/-- micro_integration_axistream.v:4823. -/
@[netlist] def buff_reg (s : S) : Bool :=
  (next_buff_reg s)
/-- micro_integration_axistream.v:4455-4458. -/
@[netlist] def next_buff_change (s : S) (dec_buff : Bool) : Bool :=
  (w3 s dec_buff)
/-- micro_integration_axistream.v:4824. -/
@[netlist] def buff_change (s : S) (dec_buff : Bool) : Bool :=
  (next_buff_change s dec_buff)
/-- micro_integration_axistream.v:4459-4481. -/
@[netlist] def next_enc_in_ctr_reg (s : S) (enc_in_ctr : Nat) (rst : Bool) : Nat :=
  let e1 := if s.fsm_state = 0 then (if s.valid_in_buff = true then (if (w17 s) = true then s.enc_in_ctr_buff
      else s.enc_in_ctr_reg)
    else s.enc_in_ctr_reg)
  else if s.fsm_state = 1 then s.enc_in_ctr_buff
  else if s.fsm_state = 3 then enc_in_ctr
  else if s.fsm_state = 2 then enc_in_ctr
  else s.enc_in_ctr_reg
  if rst = true then 0
  else e1
/-- micro_integration_axistream.v:4482-4504. -/
@[netlist] def next_in_end_reg (s : S) (in_end : Bool) (rst : Bool) : Bool :=
  let e1 := if s.fsm_state = 0 then (if s.valid_in_buff = true then (if (w19 s) = true then s.in_end_buff
      else s.in_end_reg)
    else s.in_end_reg)
  else if s.fsm_state = 1 then s.in_end_buff
  else if s.fsm_state = 3 then in_end
  else if s.fsm_state = 2 then in_end
  else s.in_end_reg
  if rst = true then false
  else e1
/-- micro_integration_axistream.v:4505-4544. -/
@[netlist] def next_fsm_state (s : S) (rst : Bool) : Nat :=
  let e1 := if s.fsm_state = 0 then (if s.valid_in_buff = true then (if (w21 s) = true then 1
      else s.fsm_state)
    else if s.valid_in_reg = true then 2
    else 3)
  else if s.fsm_state = 1 then (if s.valid_in_reg = true then 2
    else 3)
  else if s.fsm_state = 3 then 2
  else if s.fsm_state = 2 then (if s.valid_in_reg = true then (if (w23 s) = true then s.fsm_state
      else 0)
    else s.fsm_state)
  else s.fsm_state
  if rst = true then 0
  else e1
/-- micro_integration_axistream.v:4545-4579. -/
@[netlist] def next_latch_input (s : S) (rst : Bool) : Bool :=
  let e1 := if s.fsm_state = 0 then (if s.valid_in_buff = true then s.latch_input
    else if s.valid_in_reg = true then true
    else true)
  else if s.fsm_state = 1 then (if s.valid_in_reg = true then true
    else true)
  else if s.fsm_state = 2 then (if s.valid_in_reg = true then (if (w25 s) = true then true
      else false)
    else s.latch_input)
  else s.latch_input
  if rst = true then false
  else e1
/-- micro_integration_axistream.v:4580-4592. -/
@[netlist] def next_valid_in_buff (s : S) (rst : Bool) : Bool :=
  let e1 := if s.fsm_state = 1 then false
  else if s.fsm_state = 2 then s.valid_in_reg
  else s.valid_in_buff
  if rst = true then false
  else e1
/-- micro_integration_axistream.v:4593-4611. -/
@[netlist] def next_buffer (s : S) (rst : Bool) : Nat :=
  let e1 := if s.fsm_state = 1 then slc (w27 s) 0 41
  else if s.fsm_state = 2 then (if s.valid_in_reg = true then (if (w32 s) = true then slc (w34 s) 0 41
      else s.buffer)
    else s.buffer)
  else s.buffer
  if rst = true then 0
  else e1
/-- micro_integration_axistream.v:4612-4630. -/
@[netlist] def next_end_out (s : S) (rst : Bool) : Bool :=
  let e1 := if s.fsm_state = 1 then s.in_end_reg
  else if s.fsm_state = 2 then (if s.valid_in_reg = true then (if (w39 s) = true then s.in_end_reg
      else s.end_out)
    else s.end_out)
  else s.end_out
  if rst = true then false
  else e1
/-- micro_integration_axistream.v:4631-4643. -/
@[netlist] def next_valid_in_reg (s : S) (valid_in : Bool) (rst : Bool) : Bool :=
  let e1 := if s.fsm_state = 3 then valid_in
  else if s.fsm_state = 2 then valid_in
  else s.valid_in_reg
  if rst = true then false
  else e1
/-- micro_integration_axistream.v:4672-4679. -/
@[netlist] def next_valid_in_late (s : S) (valid_in : Bool) (rst : Bool) : Bool :=
  if rst = true then false
  else valid_in
/-- micro_integration_axistream.v:4680-4690. -/
@[netlist] def next_buff_consum (s : S) (rst : Bool) (dec_buff : Bool) : Nat :=
  let e1 := if (buff_change s dec_buff) = true then (new_buff_consum s dec_buff)
  else s.buff_consum
  if rst = true then 0
  else e1
/-- micro_integration_axistream.v:4701-4715. -/
@[netlist] def next_buff_free (s : S) (rst : Bool) (dec_buff : Bool) : Nat :=
  let e1 := if (w5 s) = true then 41
  else s.buff_free
  let e2 := if (buff_change s dec_buff) = true then (new_buff_free s dec_buff)
  else e1
  if rst = true then 0
  else e2
/-- micro_integration_axistream.v:4716-4726. -/
@[netlist] def next_start (s : S) (rst : Bool) : Bool :=
  let e1 := if (w7 s) = true then true
  else s.start
  if rst = true then false
  else e1
/-- micro_integration_axistream.v:4727-4747. -/
@[netlist] def next_enc_in_buff (s : S) (rst : Bool) : Nat :=
  let e1 := if s.fsm_state = 0 then (if s.valid_in_buff = true then (if (w9 s) = true then s.enc_in_reg
      else s.enc_in_buff)
    else s.enc_in_buff)
  else if s.fsm_state = 1 then s.enc_in_reg
  else if s.fsm_state = 2 then s.enc_in_reg
  else s.enc_in_buff
  if rst = true then 0
  else e1
/-- micro_integration_axistream.v:4748-4768. -/
@[netlist] def next_enc_in_ctr_buff (s : S) (rst : Bool) : Nat :=
  let e1 := if s.fsm_state = 0 then (if s.valid_in_buff = true then (if (w11 s) = true then s.enc_in_ctr_reg
      else s.enc_in_ctr_buff)
    else s.enc_in_ctr_buff)
  else if s.fsm_state = 1 then s.enc_in_ctr_reg
  else if s.fsm_state = 2 then s.enc_in_ctr_reg
  else s.enc_in_ctr_buff
  if rst = true then 0
  else e1
/-- micro_integration_axistream.v:4769-4789. -/
@[netlist] def next_in_end_buff (s : S) (rst : Bool) : Bool :=
  let e1 := if s.fsm_state = 0 then (if s.valid_in_buff = true then (if (w13 s) = true then s.in_end_reg
      else s.in_end_buff)
    else s.in_end_buff)
  else if s.fsm_state = 1 then s.in_end_reg
  else if s.fsm_state = 2 then s.in_end_reg
  else s.in_end_buff
  if rst = true then false
  else e1
/-- micro_integration_axistream.v:4790-4812. -/
@[netlist] def next_enc_in_reg (s : S) (enc_in : Nat) (rst : Bool) : Nat :=
  let e1 := if s.fsm_state = 0 then (if s.valid_in_buff = true then (if (w15 s) = true then s.enc_in_buff
      else s.enc_in_reg)
    else s.enc_in_reg)
  else if s.fsm_state = 1 then s.enc_in_buff
  else if s.fsm_state = 3 then enc_in
  else if s.fsm_state = 2 then enc_in
  else s.enc_in_reg
  if rst = true then 0
  else e1

/-- micro_integration_axistream.v:4222-4826: one rising clock edge (`always @(posedge ...)`). -/
@[netlist] def step (s : S) (valid_in : Bool) (enc_in : Nat) (enc_in_ctr : Nat) (in_end : Bool) (rst : Bool) (dec_buff : Bool) : S :=
  { buff_consum := (next_buff_consum s rst dec_buff)
    valid_in_reg := (next_valid_in_reg s valid_in rst)
    end_out := (next_end_out s rst)
    buffer := (next_buffer s rst)
    valid_in_buff := (next_valid_in_buff s rst)
    latch_input := (next_latch_input s rst)
    fsm_state := (next_fsm_state s rst)
    in_end_reg := (next_in_end_reg s in_end rst)
    enc_in_ctr_reg := (next_enc_in_ctr_reg s enc_in_ctr rst)
    enc_in_reg := (next_enc_in_reg s enc_in rst)
    in_end_buff := (next_in_end_buff s rst)
    enc_in_ctr_buff := (next_enc_in_ctr_buff s rst)
    enc_in_buff := (next_enc_in_buff s rst)
    start := (next_start s rst)
    buff_free := (next_buff_free s rst dec_buff)
    valid_in_late := (next_valid_in_late s valid_in rst) }

/-- micro_integration_axistream.v:4222-4826: the initial values given in the netlist. -/
def Init (s : S) : Prop :=
  s.buff_consum = 0 ∧
  s.valid_in_reg = false ∧
  s.end_out = false ∧
  s.buffer = 0 ∧
  s.valid_in_buff = false ∧
  s.latch_input = false ∧
  s.fsm_state = 0 ∧
  s.in_end_reg = false ∧
  s.enc_in_ctr_reg = 0 ∧
  s.enc_in_reg = 0 ∧
  s.in_end_buff = false ∧
  s.enc_in_ctr_buff = 0 ∧
  s.enc_in_buff = 0 ∧
  s.start = false ∧
  s.buff_free = 0 ∧
  s.valid_in_late = false

/-- micro_integration_axistream.v:4222-4826: a state with these initial values; registers without one are 0. -/
def powerUp : S :=
  { buff_consum := 0
    valid_in_reg := false
    end_out := false
    buffer := 0
    valid_in_buff := false
    latch_input := false
    fsm_state := 0
    in_end_reg := false
    enc_in_ctr_reg := 0
    enc_in_reg := 0
    in_end_buff := false
    enc_in_ctr_buff := 0
    enc_in_buff := 0
    start := false
    buff_free := 0
    valid_in_late := false }

theorem powerUp_init : Init powerUp := ⟨rfl, rfl, rfl, rfl, rfl, rfl, rfl, rfl, rfl, rfl, rfl, rfl, rfl, rfl, rfl, rfl⟩

end input_handler

namespace normalize

/-- micro_integration_axistream.v:6473-6578: registers, memories and instances of module `normalize`. -/
structure S where
  u_w6 : Beta.anonymous.S

/-- micro_integration_axistream.v:6526-6537. -/
@[netlist] def end_out_5 (s : S) : Bool :=
  s.u_w6.end_out
/-- micro_integration_axistream.v:6566-6569. -/
@[netlist] def next_end_out (s : S) : Bool :=
  (end_out_5 s)
/-- micro_integration_axistream.v:6570. -/
@[netlist] def end_out (s : S) : Bool :=
  (next_end_out s)
/-- micro_integration_axistream.v:6526-6537. -/
@[netlist] def valid_o (s : S) : Bool :=
  s.u_w6.valid_o
/-- micro_integration_axistream.v:6562-6565. -/
@[netlist] def next_valid_out (s : S) : Bool :=
  (valid_o s)
/-- micro_integration_axistream.v:6571. -/
@[netlist] def valid_out (s : S) : Bool :=
  (next_valid_out s)
/-- micro_integration_axistream.v:6526-6537. -/
@[netlist] def val_out_3 (s : S) : Nat :=
  s.u_w6.val_out
/-- micro_integration_axistream.v:6558-6561. -/
@[netlist] def next_val_out (s : S) : Nat :=
  (val_out_3 s)
/-- micro_integration_axistream.v:6572. -/
@[netlist] def val_out (s : S) : Nat :=
  (next_val_out s)
/-- micro_integration_axistream.v:6526-6537. -/
@[netlist] def ssss_4 (s : S) : Nat :=
  s.u_w6.ssss
/-- micro_integration_axistream.v:6554-6557. -/
@[netlist] def next_ssss (s : S) : Nat :=
  (ssss_4 s)
/-- micro_integration_axistream.v:6573. -/
@[netlist] def ssss (s : S) : Nat :=
  (next_ssss s)
/-- micro_integration_axistream.v:6550-6553. -/
@[netlist] def next_val_in_mns (s : S) (vals_in_mns : Nat) : Nat :=
  vals_in_mns
/-- micro_integration_axistream.v:6574. -/
@[netlist] def val_in_mns (s : S) (vals_in_mns : Nat) : Nat :=
  (next_val_in_mns s vals_in_mns)
/-- micro_integration_axistream.v:6546-6549. -/
@[netlist] def next_end_in_2 (s : S) (end_in : Bool) : Bool :=
  end_in
/-- micro_integration_axistream.v:6575. -/
@[netlist] def end_in_2 (s : S) (end_in : Bool) : Bool :=
  (next_end_in_2 s end_in)
/-- micro_integration_axistream.v:6542-6545. -/
@[netlist] def next_valid (s : S) (valid_in : Bool) : Bool :=
  valid_in
/-- micro_integration_axistream.v:6576. -/
@[netlist] def valid (s : S) (valid_in : Bool) : Bool :=
  (next_valid s valid_in)
/-- micro_integration_axistream.v:6538-6541. -/
@[netlist] def next_val_in_1 (s : S) (val_in : Nat) : Nat :=
  val_in
/-- micro_integration_axistream.v:6577. -/
@[netlist] def val_in_1 (s : S) (val_in : Nat) : Nat :=
  (next_val_in_1 s val_in)

/-- micro_integration_axistream.v:6473-6578: one rising clock edge (`always @(posedge ...)`). -/
@[netlist] def step (s : S) (valid_in : Bool) (end_in : Bool) (vals_in_mns : Nat) (rst : Bool) (val_in : Nat) : S :=
  { u_w6 := Beta.anonymous.step s.u_w6 (val_in_1 s val_in) (val_in_mns s vals_in_mns) (end_in_2 s end_in) rst (valid s valid_in) }

/-- micro_integration_axistream.v:6473-6578: the initial values given in the netlist. -/
def Init (s : S) : Prop :=
  Beta.anonymous.Init s.u_w6

/-- micro_integration_axistream.v:6473-6578: a state with these initial values; registers without one are 0. -/
def powerUp : S :=
  { u_w6 := Beta.anonymous.powerUp }

theorem powerUp_init : Init powerUp := Beta.anonymous.powerUp_init

end normalize

namespace predictor

/-- micro_integration_axistream.v:6878-7276: registers, memories and instances of module `predictor`. -/
structure S where
  end_out : Bool
  valid_out : Bool
  predic_out : Nat
  lbuff_29 : Nat
  lbuff_28 : Nat
  lbuff_27 : Nat
  lbuff : Nat
  lbuff_ctr : Nat
  buff_23 : Nat
  buff_22 : Nat
  buff_21 : Nat
  buff : Nat
  buff_ctr : Nat
  pixel_out : Nat
  debug_counter : Nat
  new_row_reg : Bool

/-- micro_integration_axistream.v:6992. -/
@[netlist] def w9 (s : S) : Bool :=
  s.lbuff_ctr == 3
/-- micro_integration_axistream.v:7001. -/
@[netlist] def w7 (s : S) (valid_in : Bool) : Bool :=
  valid_in == true
/-- micro_integration_axistream.v:6993. -/
@[netlist] def w11 (s : S) (valid_in : Bool) : Bool :=
  (w7 s valid_in) && (w9 s)
/-- micro_integration_axistream.v:6994. -/
@[netlist] def w13 (s : S) (new_row : Bool) : Bool :=
  new_row || s.new_row_reg
/-- micro_integration_axistream.v:6995. -/
@[netlist] def w16 (s : S) : Nat :=
  (s.debug_counter + 1) % 2 ^ 33
/-- micro_integration_axistream.v:6996. -/
@[netlist] def w1 (s : S) (valid_in : Bool) : Bool :=
  valid_in == true
/-- micro_integration_axistream.v:6997. -/
@[netlist] def w19 (s : S) : Nat :=
  (s.buff_ctr + 1) % 2 ^ 3
/-- micro_integration_axistream.v:6998. -/
@[netlist] def w25 (s : S) : Nat :=
  (s.lbuff_ctr + 1) % 2 ^ 3
/-- micro_integration_axistream.v:6999. -/
@[netlist] def w3 (s : S) (new_row : Bool) : Bool :=
  new_row == true
/-- micro_integration_axistream.v:7000. -/
@[netlist] def w5 (s : S) (new_row : Bool) (valid_in : Bool) : Bool :=
  (w1 s valid_in) && (w3 s new_row)
/-- micro_integration_axistream.v:7272. -/
@[netlist] def w15 (s : S) : Nat :=
  (w16 s)
/-- micro_integration_axistream.v:7273. -/
@[netlist] def w18 (s : S) : Nat :=
  (w19 s)
/-- micro_integration_axistream.v:7274. -/
@[netlist] def w24 (s : S) : Nat :=
  (w25 s)
/-- micro_integration_axistream.v:7047-7050. -/
@[netlist] def next_new_row_latch (s : S) (new_row : Bool) : Bool :=
  (w13 s new_row)
/-- micro_integration_axistream.v:7275. -/
@[netlist] def new_row_latch (s : S) (new_row : Bool) : Bool :=
  (next_new_row_latch s new_row)
/-- micro_integration_axistream.v:7034-7046. -/
@[netlist] def next_new_row_reg (s : S) (new_row : Bool) (rst : Bool) (valid_in : Bool) : Bool :=
  let e1 := if (w5 s new_row valid_in) = true then true
  else if (w11 s valid_in) = true then false
  else s.new_row_reg
  if rst = true then false
  else e1
/-- micro_integration_axistream.v:7051-7067. -/
@[netlist] def next_lbuff (s : S) (new_row : Bool) (pixel_in : Nat) (rst : Bool) (valid_in : Bool) : Nat :=
  let e1 := if valid_in = true then (if (new_row_latch s new_row) = true then (if s.lbuff_ctr = 0 then pixel_in
      else s.lbuff)
    else s.lbuff)
  else s.lbuff
  if rst = true then 2048
  else e1
/-- micro_integration_axistream.v:7068-7084. -/
@[netlist] def next_lbuff_27 (s : S) (new_row : Bool) (pixel_in : Nat) (rst : Bool) (valid_in : Bool) : Nat :=
  let e1 := if valid_in = true then (if (new_row_latch s new_row) = true then (if s.lbuff_ctr = 1 then pixel_in
      else s.lbuff_27)
    else s.lbuff_27)
  else s.lbuff_27
  if rst = true then 2048
  else e1
/-- micro_integration_axistream.v:7085-7101. -/
@[netlist] def next_lbuff_28 (s : S) (new_row : Bool) (pixel_in : Nat) (rst : Bool) (valid_in : Bool) : Nat :=
  let e1 := if valid_in = true then (if (new_row_latch s new_row) = true then (if s.lbuff_ctr = 2 then pixel_in
      else s.lbuff_28)
    else s.lbuff_28)
  else s.lbuff_28
  if rst = true then 2048
  else e1
/-- micro_integration_axistream.v:7102-7118. -/
@[netlist] def next_lbuff_29 (s : S) (new_row : Bool) (pixel_in : Nat) (rst : Bool) (valid_in : Bool) : Nat :=
  let e1 := if valid_in = true then (if (new_row_latch s new_row) = true then (if s.lbuff_ctr = 3 then pixel_in
      else s.lbuff_29)
    else s.lbuff_29)
  else s.lbuff_29
  if rst = true then 2048
  else e1
/-- micro_integration_axistream.v:7119-7152. -/
@[netlist] def next_predic_out (s : S) (new_row : Bool) (rst : Bool) (valid_in : Bool) : Nat :=
  let e1 := if valid_in = true then (if (new_row_latch s new_row) = true then (if s.lbuff_ctr = 0 then s.lbuff
      else if s.lbuff_ctr = 1 then s.lbuff_27
      else if s.lbuff_ctr = 2 then s.lbuff_28
      else if s.lbuff_ctr = 3 then s.lbuff_29
      else s.predic_out)
    else (if s.buff_ctr = 0 then s.buff
      else if s.buff_ctr = 1 then s.buff_21
      else if s.buff_ctr = 2 then s.buff_22
      else if s.buff_ctr = 3 then s.buff_23
      else s.predic_out))
  else s.predic_out
  if rst = true then 0
  else e1
/-- micro_integration_axistream.v:7153-7160. -/
@[netlist] def next_valid_out (s : S) (rst : Bool) (valid_in : Bool) : Bool :=
  if rst = true then false
  else valid_in
/-- micro_integration_axistream.v:7161-7168. -/
@[netlist] def next_end_out (s : S) (end_in : Bool) (rst : Bool) : Bool :=
  if rst = true then false
  else end_in
/-- micro_integration_axistream.v:7169-7179. -/
@[netlist] def next_debug_counter (s : S) (rst : Bool) (valid_in : Bool) : Nat :=
  let e1 := if valid_in = true then slc (w15 s) 0 32
  else s.debug_counter
  if rst = true then 0
  else e1
/-- micro_integration_axistream.v:7180-7190. -/
@[netlist] def next_pixel_out (s : S) (pixel_in : Nat) (rst : Bool) (valid_in : Bool) : Nat :=
  let e1 := if valid_in = true then pixel_in
  else s.pixel_out
  if rst = true then 0
  else e1
/-- micro_integration_axistream.v:7191-7201. -/
@[netlist] def next_buff_ctr (s : S) (rst : Bool) (valid_in : Bool) : Nat :=
  let e1 := if valid_in = true then slc (w18 s) 0 2
  else s.buff_ctr
  if rst = true then 0
  else e1
/-- micro_integration_axistream.v:7202-7215. -/
@[netlist] def next_buff (s : S) (pixel_in : Nat) (rst : Bool) (valid_in : Bool) : Nat :=
  let e1 := if valid_in = true then (if s.buff_ctr = 0 then pixel_in
    else s.buff)
  else s.buff
  if rst = true then 2048
  else e1
/-- micro_integration_axistream.v:7216-7229. -/
@[netlist] def next_buff_21 (s : S) (pixel_in : Nat) (rst : Bool) (valid_in : Bool) : Nat :=
  let e1 := if valid_in = true then (if s.buff_ctr = 1 then pixel_in
    else s.buff_21)
  else s.buff_21
  if rst = true then 2048
  else e1
/-- micro_integration_axistream.v:7230-7243. -/
@[netlist] def next_buff_22 (s : S) (pixel_in : Nat) (rst : Bool) (valid_in : Bool) : Nat :=
  let e1 := if valid_in = true then (if s.buff_ctr = 2 then pixel_in
    else s.buff_22)
  else s.buff_22
  if rst = true then 2048
  else e1
/-- micro_integration_axistream.v:7244-7257. -/
@[netlist] def next_buff_23 (s : S) (pixel_in : Nat) (rst : Bool) (valid_in : Bool) : Nat :=
  let e1 := if valid_in = true then (if s.buff_ctr = 3 then pixel_in
    else s.buff_23)
  else s.buff_23
  if rst = true then 2048
  else e1
/-- micro_integration_axistream.v:7258-7271. -/
@[netlist] def next_lbuff_ctr (s : S) (new_row : Bool) (rst : Bool) (valid_in : Bool) : Nat :=
  let e1 := if valid_in = true then (if (new_row_latch s new_row) = true then slc (w24 s) 0 2
    else s.lbuff_ctr)
  else s.lbuff_ctr
  if rst = true then 0
  else e1

/-- micro_integration_axistream.v:6878-7276: one rising clock edge (`always @(posedge ...)`). -/
@[netlist] def step (s : S) (new_row : Bool) (pixel_in : Nat) (end_in : Bool) (rst : Bool) (valid_in : Bool) : S :=
  { end_out := (next_end_out s end_in rst)
    valid_out := (next_valid_out s rst valid_in)
    predic_out := (next_predic_out s new_row rst valid_in)
    lbuff_29 := (next_lbuff_29 s new_row pixel_in rst valid_in)
    lbuff_28 := (next_lbuff_28 s new_row pixel_in rst valid_in)
    lbuff_27 := (next_lbuff_27 s new_row pixel_in rst valid_in)
    lbuff := (next_lbuff s new_row pixel_in rst valid_in)
    lbuff_ctr := (next_lbuff_ctr s new_row rst valid_in)
    buff_23 := (next_buff_23 s pixel_in rst valid_in)
    buff_22 := (next_buff_22 s pixel_in rst valid_in)
    buff_21 := (next_buff_21 s pixel_in rst valid_in)
    buff := (next_buff s pixel_in rst valid_in)
    buff_ctr := (next_buff_ctr s rst valid_in)
    pixel_out := (next_pixel_out s pixel_in rst valid_in)
    debug_counter := (next_debug_counter s rst valid_in)
    new_row_reg := (next_new_row_reg s new_row rst valid_in) }

/-- micro_integration_axistream.v:6878-7276: the initial values given in the netlist. -/
def Init (s : S) : Prop :=
  s.end_out = false ∧
  s.valid_out = false ∧
  s.predic_out = 0 ∧
  s.lbuff_29 = 2048 ∧
  s.lbuff_28 = 2048 ∧
  s.lbuff_27 = 2048 ∧
  s.lbuff = 2048 ∧
  s.lbuff_ctr = 0 ∧
  s.buff_23 = 2048 ∧
  s.buff_22 = 2048 ∧
  s.buff_21 = 2048 ∧
  s.buff = 2048 ∧
  s.buff_ctr = 0 ∧
  s.pixel_out = 0 ∧
  s.debug_counter = 0 ∧
  s.new_row_reg = false

/-- micro_integration_axistream.v:6878-7276: a state with these initial values; registers without one are 0. -/
def powerUp : S :=
  { end_out := false
    valid_out := false
    predic_out := 0
    lbuff_29 := 2048
    lbuff_28 := 2048
    lbuff_27 := 2048
    lbuff := 2048
    lbuff_ctr := 0
    buff_23 := 2048
    buff_22 := 2048
    buff_21 := 2048
    buff := 2048
    buff_ctr := 0
    pixel_out := 0
    debug_counter := 0
    new_row_reg := false }

theorem powerUp_init : Init powerUp := ⟨rfl, rfl, rfl, rfl, rfl, rfl, rfl, rfl, rfl, rfl, rfl, rfl, rfl, rfl, rfl, rfl⟩

end predictor

namespace signals

/-- micro_integration_axistream.v:7280-7473: registers, memories and instances of module `signals`. -/
structure S where
  end_of_frame : Bool
  fsm_state : Nat
  new_row : Bool
  height_temp : Nat
  width_temp : Nat

/-- micro_integration_axistream.v:7335. -/
@[netlist] def w10 (s : S) (height : Nat) : Nat :=
  (2 ^ 17 + height - 1) % 2 ^ 17
/-- micro_integration_axistream.v:7336. -/
@[netlist] def w12 (s : S) : Bool :=
  s.width_temp == 1
/-- micro_integration_axistream.v:7337. -/
@[netlist] def w15 (s : S) : Nat :=
  (2 ^ 17 + s.height_temp - 1) % 2 ^ 17
/-- micro_integration_axistream.v:7338. -/
@[netlist] def w17 (s : S) : Bool :=
  s.width_temp == 1
/-- micro_integration_axistream.v:7339. -/
@[netlist] def w19 (s : S) : Bool :=
  s.height_temp == 0
/-- micro_integration_axistream.v:7340. -/
@[netlist] def w21 (s : S) : Bool :=
  s.width_temp == 2
/-- micro_integration_axistream.v:7341. -/
@[netlist] def w23 (s : S) : Bool :=
  (w19 s) && (w21 s)
/-- micro_integration_axistream.v:7342. -/
@[netlist] def w25 (s : S) : Bool :=
  s.height_temp == 0
/-- micro_integration_axistream.v:7343. -/
@[netlist] def w27 (s : S) : Bool :=
  s.width_temp == 2
/-- micro_integration_axistream.v:7344. -/
@[netlist] def w2 (s : S) (width : Nat) : Nat :=
  (2 ^ 17 + width - 1) % 2 ^ 17
/-- micro_integration_axistream.v:7345. -/
@[netlist] def w29 (s : S) : Bool :=
  (w25 s) && (w27 s)
/-- micro_integration_axistream.v:7346. -/
@[netlist] def w4 (s : S) : Bool :=
  s.width_temp == 1
/-- micro_integration_axistream.v:7347. -/
@[netlist] def w7 (s : S) : Nat :=
  (2 ^ 17 + s.width_temp - 1) % 2 ^ 17
/-- micro_integration_axistream.v:7469. -/
@[netlist] def w1 (s : S) (width : Nat) : Nat :=
  (w2 s width)
/-- micro_integration_axistream.v:7470. -/
@[netlist] def w6 (s : S) : Nat :=
  (w7 s)
/-- micro_integration_axistream.v:7471. -/
@[netlist] def w9 (s : S) (height : Nat) : Nat :=
  (w10 s height)
/-- micro_integration_axistream.v:7472. -/
@[netlist] def w14 (s : S) : Nat :=
  (w15 s)
/-- micro_integration_axistream.v:7358-7381. -/
@[netlist] def next_width_temp (s : S) (width : Nat) (rst : Bool) (new_input : Bool) : Nat :=
  let e1 := if s.fsm_state = 0 then (if new_input = true then slc (w1 s width) 0 16
    else s.width_temp)
  else if s.fsm_state = 1 then (if new_input = true then (if (w4 s) = true then width
      else slc (w6 s) 0 16)
    else s.width_temp)
  else s.width_temp
  if rst = true then 0
  else e1
/-- micro_integration_axistream.v:7382-7403. -/
@[netlist] def next_height_temp (s : S) (height : Nat) (rst : Bool) (new_input : Bool) : Nat :=
  let e1 := if s.fsm_state = 0 then (if new_input = true then slc (w9 s height) 0 16
    else s.height_temp)
  else if s.fsm_state = 1 then (if new_input = true then (if (w12 s) = true then slc (w14 s) 0 16
      else s.height_temp)
    else s.height_temp)
  else s.height_temp
  if rst = true then 0
  else e1
/-- micro_integration_axistream.v:7404-7427. -/
@[netlist] def next_new_row (s : S) (rst : Bool) (new_input : Bool) : Bool :=
  let e1 := if s.fsm_state = 0 then (if new_input = true then false
    else s.new_row)
  else if s.fsm_state = 1 then (if new_input = true then (if (w17 s) = true then true
      else false)
    else s.new_row)
  else s.new_row
  if rst = true then true
  else e1
/-- micro_integration_axistream.v:7428-7449. -/
@[netlist] def next_fsm_state (s : S) (rst : Bool) (new_input : Bool) : Nat :=
  let e1 := if s.fsm_state = 0 then (if new_input = true then 1
    else s.fsm_state)
  else if s.fsm_state = 1 then (if new_input = true then (if (w23 s) = true then 2
      else s.fsm_state)
    else s.fsm_state)
  else s.fsm_state
  if rst = true then 0
  else e1
/-- micro_integration_axistream.v:7450-7468. -/
@[netlist] def next_end_of_frame (s : S) (rst : Bool) (new_input : Bool) : Bool :=
  let e1 := if s.fsm_state = 1 then (if new_input = true then (if (w29 s) = true then true
      else s.end_of_frame)
    else s.end_of_frame)
  else if s.fsm_state = 2 then true
  else s.end_of_frame
  if rst = true then false
  else e1

/-- micro_integration_axistream.v:7280-7473: one rising clock edge (`always @(posedge ...)`). -/
@[netlist] def step (s : S) (width : Nat) (height : Nat) (rst : Bool) (new_input : Bool) : S :=
  { end_of_frame := (next_end_of_frame s rst new_input)
    fsm_state := (next_fsm_state s rst new_input)
    new_row := (next_new_row s rst new_input)
    height_temp := (next_height_temp s height rst new_input)
    width_temp := (next_width_temp s width rst new_input) }

/-- micro_integration_axistream.v:7280-7473: the initial values given in the netlist. -/
def Init (s : S) : Prop :=
  s.end_of_frame = false ∧
  s.fsm_state = 0 ∧
  s.new_row = true ∧
  s.height_temp = 0 ∧
  s.width_temp = 0

/-- micro_integration_axistream.v:7280-7473: a state with these initial values; registers without one are 0. -/
def powerUp : S :=
  { end_of_frame := false
    fsm_state := 0
    new_row := true
    height_temp := 0
    width_temp := 0 }

theorem powerUp_init : Init powerUp := ⟨rfl, rfl, rfl, rfl, rfl⟩

end signals

namespace integration_1

/-- micro_integration_axistream.v:4830-5310: registers, memories and instances of module `integration_1`. -/
structure S where
  u_core_axi_lite : core_axi_lite.S
  u_difference : difference.S
  u_encode : encode.S
  u_force_end : Beta.force_end.S
  u_normalize : normalize.S
  u_predictor : predictor.S
  u_signals : signals.S

/-- micro_integration_axistream.v:5098-5114. -/
@[netlist] def encode_end_out (s : S) : Bool :=
  encode.end_out s.u_encode
/-- micro_integration_axistream.v:5251-5254. -/
@[netlist] def next_end_out (s : S) : Bool :=
  (encode_end_out s)
/-- micro_integration_axistream.v:5279. -/
@[netlist] def end_out (s : S) : Bool :=
  (next_end_out s)
/-- micro_integration_axistream.v:5098-5114. -/
@[netlist] def encode_valid_out (s : S) : Bool :=
  encode.valid_out s.u_encode
/-- micro_integration_axistream.v:5243-5246. -/
@[netlist] def next_valid_out (s : S) : Bool :=
  (encode_valid_out s)
/-- micro_integration_axistream.v:5280. -/
@[netlist] def valid_out (s : S) : Bool :=
  (next_valid_out s)
/-- micro_integration_axistream.v:5098-5114. -/
@[netlist] def encode_enc_ctr (s : S) : Nat :=
  encode.enc_ctr s.u_encode
/-- micro_integration_axistream.v:5239-5242. -/
@[netlist] def next_enc_out_ctr (s : S) : Nat :=
  (encode_enc_ctr s)
/-- micro_integration_axistream.v:5281. -/
@[netlist] def enc_out_ctr (s : S) : Nat :=
  (next_enc_out_ctr s)
/-- micro_integration_axistream.v:5098-5114. -/
@[netlist] def encode_enc_out (s : S) : Nat :=
  encode.enc_out s.u_encode
/-- micro_integration_axistream.v:5235-5238. -/
@[netlist] def next_enc_out (s : S) : Nat :=
  (encode_enc_out s)
/-- micro_integration_axistream.v:5282. -/
@[netlist] def enc_out (s : S) : Nat :=
  (next_enc_out s)
/-- micro_integration_axistream.v:5055-5085. -/
@[netlist] def core_axi_lite_wp_en (s : S) : Bool :=
  s.u_core_axi_lite.wp_en
/-- micro_integration_axistream.v:5231-5234. -/
@[netlist] def next_encode_mem_w_en (s : S) : Bool :=
  (core_axi_lite_wp_en s)
/-- micro_integration_axistream.v:5283. -/
@[netlist] def encode_mem_w_en (s : S) : Bool :=
  (next_encode_mem_w_en s)
/-- micro_integration_axistream.v:5055-5085. -/
@[netlist] def core_axi_lite_wp_data (s : S) : Nat :=
  s.u_core_axi_lite.wp_data
/-- micro_integration_axistream.v:5227-5230. -/
@[netlist] def next_encode_mem_w_data (s : S) : Nat :=
  (core_axi_lite_wp_data s)
/-- micro_integration_axistream.v:5284. -/
@[netlist] def encode_mem_w_data (s : S) : Nat :=
  (next_encode_mem_w_data s)
/-- micro_integration_axistream.v:5055-5085. -/
@[netlist] def core_axi_lite_wp_addr (s : S) : Nat :=
  s.u_core_axi_lite.wp_addr
/-- micro_integration_axistream.v:5223-5226. -/
@[netlist] def next_encode_mem_w_addr (s : S) : Nat :=
  slc (core_axi_lite_wp_addr s) 0 4
/-- micro_integration_axistream.v:5285. -/
@[netlist] def encode_mem_w_addr (s : S) : Nat :=
  (next_encode_mem_w_addr s)
/-- micro_integration_axistream.v:5055-5085. -/
@[netlist] def core_axi_lite_rp_addr (s : S) : Nat :=
  s.u_core_axi_lite.rp_addr
/-- micro_integration_axistream.v:5219-5222. -/
@[netlist] def next_encode_mem_r_addr (s : S) : Nat :=
  slc (core_axi_lite_rp_addr s) 0 4
/-- micro_integration_axistream.v:5286. -/
@[netlist] def encode_mem_r_addr (s : S) : Nat :=
  (next_encode_mem_r_addr s)
/-- micro_integration_axistream.v:5098-5114. -/
@[netlist] def encode_mem_r_data (s : S) : Nat :=
  encode.mem_r_data s.u_encode
/-- micro_integration_axistream.v:5215-5218. -/
@[netlist] def next_core_axi_lite_rp_data (s : S) : Nat :=
  (encode_mem_r_data s)
/-- micro_integration_axistream.v:5287. -/
@[netlist] def core_axi_lite_rp_data (s : S) : Nat :=
  (next_core_axi_lite_rp_data s)
/-- micro_integration_axistream.v:5122-5133. -/
@[netlist] def normalize_end_out (s : S) : Bool :=
  normalize.end_out s.u_normalize
/-- micro_integration_axistream.v:5211-5214. -/
@[netlist] def next_encode_end_in (s : S) : Bool :=
  (normalize_end_out s)
/-- micro_integration_axistream.v:5288. -/
@[netlist] def encode_end_in (s : S) : Bool :=
  (next_encode_end_in s)
/-- micro_integration_axistream.v:5122-5133. -/
@[netlist] def normalize_valid_out (s : S) : Bool :=
  normalize.valid_out s.u_normalize
/-- micro_integration_axistream.v:5207-5210. -/
@[netlist] def next_encode_valid_in (s : S) : Bool :=
  (normalize_valid_out s)
/-- micro_integration_axistream.v:5289. -/
@[netlist] def encode_valid_in (s : S) : Bool :=
  (next_encode_valid_in s)
/-- micro_integration_axistream.v:5122-5133. -/
@[netlist] def normalize_ssss (s : S) : Nat :=
  normalize.ssss s.u_normalize
/-- micro_integration_axistream.v:5199-5202. -/
@[netlist] def next_encode_ssss (s : S) : Nat :=
  (normalize_ssss s)
/-- micro_integration_axistream.v:5290. -/
@[netlist] def encode_ssss (s : S) : Nat :=
  (next_encode_ssss s)
/-- micro_integration_axistream.v:5122-5133. -/
@[netlist] def normalize_val_out (s : S) : Nat :=
  normalize.val_out s.u_normalize
/-- micro_integration_axistream.v:5195-5198. -/
@[netlist] def next_encode_val_in (s : S) : Nat :=
  (normalize_val_out s)
/-- micro_integration_axistream.v:5291. -/
@[netlist] def encode_val_in (s : S) : Nat :=
  (next_encode_val_in s)
/-- micro_integration_axistream.v:5086-5097. -/
@[netlist] def difference_end_out (s : S) : Bool :=
  s.u_difference.end_out
/-- micro_integration_axistream.v:5191-5194. -/
@[netlist] def next_normalize_end_in (s : S) : Bool :=
  (difference_end_out s)
/-- micro_integration_axistream.v:5292. -/
@[netlist] def normalize_end_in (s : S) : Bool :=
  (next_normalize_end_in s)
/-- micro_integration_axistream.v:5086-5097. -/
@[netlist] def difference_valid_out (s : S) : Bool :=
  s.u_difference.valid_out
/-- micro_integration_axistream.v:5187-5190. -/
@[netlist] def next_normalize_valid_in (s : S) : Bool :=
  (difference_valid_out s)
/-- micro_integration_axistream.v:5293. -/
@[netlist] def normalize_valid_in (s : S) : Bool :=
  (next_normalize_valid_in s)
/-- micro_integration_axistream.v:5086-5097. -/
@[netlist] def difference_val_out_1 (s : S) : Nat :=
  s.u_difference.val_out_1
/-- micro_integration_axistream.v:5183-5186. -/
@[netlist] def next_normalize_vals_in_mns (s : S) : Nat :=
  (difference_val_out_1 s)
/-- micro_integration_axistream.v:5294. -/
@[netlist] def normalize_vals_in_mns (s : S) : Nat :=
  (next_normalize_vals_in_mns s)
/-- micro_integration_axistream.v:5086-5097. -/
@[netlist] def difference_val_out (s : S) : Nat :=
  s.u_difference.val_out
/-- micro_integration_axistream.v:5179-5182. -/
@[netlist] def next_normalize_val_in (s : S) : Nat :=
  (difference_val_out s)
/-- micro_integration_axistream.v:5295. -/
@[netlist] def normalize_val_in (s : S) : Nat :=
  (next_normalize_val_in s)
/-- micro_integration_axistream.v:5134-5145. -/
@[netlist] def predictor_end_out (s : S) : Bool :=
  s.u_predictor.end_out
/-- micro_integration_axistream.v:5175-5178. -/
@[netlist] def next_difference_end_in (s : S) : Bool :=
  (predictor_end_out s)
/-- micro_integration_axistream.v:5296. -/
@[netlist] def difference_end_in (s : S) : Bool :=
  (next_difference_end_in s)
/-- micro_integration_axistream.v:5134-5145. -/
@[netlist] def predictor_valid_out (s : S) : Bool :=
  s.u_predictor.valid_out
/-- micro_integration_axistream.v:5171-5174. -/
@[netlist] def next_difference_valid_in (s : S) : Bool :=
  (predictor_valid_out s)
/-- micro_integration_axistream.v:5297. -/
@[netlist] def difference_valid_in (s : S) : Bool :=
  (next_difference_valid_in s)
/-- micro_integration_axistream.v:5134-5145. -/
@[netlist] def predictor_predic_out (s : S) : Nat :=
  s.u_predictor.predic_out
/-- micro_integration_axistream.v:5167-5170. -/
@[netlist] def next_difference_predic_in (s : S) : Nat :=
  (predictor_predic_out s)
/-- micro_integration_axistream.v:5298. -/
@[netlist] def difference_predic_in (s : S) : Nat :=
  (next_difference_predic_in s)
/-- micro_integration_axistream.v:5134-5145. -/
@[netlist] def predictor_pixel_out (s : S) : Nat :=
  s.u_predictor.pixel_out
/-- micro_integration_axistream.v:5163-5166. -/
@[netlist] def next_difference_pixel_in (s : S) : Nat :=
  (predictor_pixel_out s)
/-- micro_integration_axistream.v:5299. -/
@[netlist] def difference_pixel_in (s : S) : Nat :=
  (next_difference_pixel_in s)
/-- micro_integration_axistream.v:5275-5278. -/
@[netlist] def next_predictor_valid_in (s : S) (valid_in : Bool) : Bool :=
  valid_in
/-- micro_integration_axistream.v:5300. -/
@[netlist] def predictor_valid_in (s : S) (valid_in : Bool) : Bool :=
  (next_predictor_valid_in s valid_in)
/-- micro_integration_axistream.v:5146-5154. -/
@[netlist] def end_of_frame (s : S) : Bool :=
  s.u_signals.end_of_frame
/-- micro_integration_axistream.v:5271-5274. -/
@[netlist] def next_predictor_end_in (s : S) : Bool :=
  (end_of_frame s)
/-- micro_integration_axistream.v:5301. -/
@[netlist] def predictor_end_in (s : S) : Bool :=
  (next_predictor_end_in s)
/-- micro_integration_axistream.v:5146-5154. -/
@[netlist] def signals_new_row (s : S) : Bool :=
  s.u_signals.new_row
/-- micro_integration_axistream.v:5267-5270. -/
@[netlist] def next_predictor_new_row (s : S) : Bool :=
  (signals_new_row s)
/-- micro_integration_axistream.v:5302. -/
@[netlist] def predictor_new_row (s : S) : Bool :=
  (next_predictor_new_row s)
/-- micro_integration_axistream.v:5263-5266. -/
@[netlist] def next_predictor_pixel_in (s : S) (pixel_in : Nat) : Nat :=
  pixel_in
/-- micro_integration_axistream.v:5303. -/
@[netlist] def predictor_pixel_in (s : S) (pixel_in : Nat) : Nat :=
  (next_predictor_pixel_in s pixel_in)
/-- micro_integration_axistream.v:5259-5262. -/
@[netlist] def next_signals_new_input (s : S) (valid_in : Bool) : Bool :=
  valid_in
/-- micro_integration_axistream.v:5304. -/
@[netlist] def signals_new_input (s : S) (valid_in : Bool) : Bool :=
  (next_signals_new_input s valid_in)
/-- micro_integration_axistream.v:5115-5121. -/
@[netlist] def force_end_fend (s : S) : Bool :=
  s.u_force_end.fend
/-- micro_integration_axistream.v:5255-5258. -/
@[netlist] def next_fend_out (s : S) : Bool :=
  (force_end_fend s)
/-- micro_integration_axistream.v:5305. -/
@[netlist] def fend_out (s : S) : Bool :=
  (next_fend_out s)
/-- micro_integration_axistream.v:5247-5250. -/
@[netlist] def next_force_end_valid_in (s : S) (valid_in : Bool) : Bool :=
  valid_in
/-- micro_integration_axistream.v:5306. -/
@[netlist] def force_end_valid_in (s : S) (valid_in : Bool) : Bool :=
  (next_force_end_valid_in s valid_in)
/-- micro_integration_axistream.v:5055-5085. -/
@[netlist] def core_axi_lite_allowed_cycles (s : S) : Nat :=
  s.u_core_axi_lite.allowed_cycles
/-- micro_integration_axistream.v:5203-5206. -/
@[netlist] def next_force_end_allowed_cycles (s : S) : Nat :=
  (core_axi_lite_allowed_cycles s)
/-- micro_integration_axistream.v:5307. -/
@[netlist] def force_end_allowed_cycles (s : S) : Nat :=
  (next_force_end_allowed_cycles s)
/-- micro_integration_axistream.v:5055-5085. -/
@[netlist] def core_axi_lite_width (s : S) : Nat :=
  core_axi_lite.width s.u_core_axi_lite
/-- micro_integration_axistream.v:5159-5162. -/
@[netlist] def next_signals_width (s : S) : Nat :=
  (core_axi_lite_width s)
/-- micro_integration_axistream.v:5308. -/
@[netlist] def signals_width (s : S) : Nat :=
  (next_signals_width s)
/-- micro_integration_axistream.v:5055-5085. -/
@[netlist] def core_axi_lite_height (s : S) : Nat :=
  core_axi_lite.height s.u_core_axi_lite
/-- micro_integration_axistream.v:5155-5158. -/
@[netlist] def next_signals_height (s : S) : Nat :=
  (core_axi_lite_height s)
/-- micro_integration_axistream.v:5309. -/
@[netlist] def signals_height (s : S) : Nat :=
  (next_signals_height s)
/-- micro_integration_axistream.v:5055-5085. -/
@[netlist] def s_axi_ro__arready (s : S) : Bool :=
  core_axi_lite.s_axi_ro__arready s.u_core_axi_lite
/-- micro_integration_axistream.v:5055-5085. -/
@[netlist] def s_axi_ro__rdata (s : S) : Nat :=
  core_axi_lite.s_axi_ro__rdata s.u_core_axi_lite
/-- micro_integration_axistream.v:5055-5085. -/
@[netlist] def s_axi_ro__rresp (s : S) : Nat :=
  core_axi_lite.s_axi_ro__rresp s.u_core_axi_lite
/-- micro_integration_axistream.v:5055-5085. -/
@[netlist] def s_axi_ro__rvalid (s : S) : Bool :=
  core_axi_lite.s_axi_ro__rvalid s.u_core_axi_lite
/-- micro_integration_axistream.v:5055-5085. -/
@[netlist] def s_axi_wo__awready (s : S) : Bool :=
  core_axi_lite.s_axi_wo__awready s.u_core_axi_lite
/-- micro_integration_axistream.v:5055-5085. -/
@[netlist] def s_axi_wo__bresp (s : S) : Nat :=
  core_axi_lite.s_axi_wo__bresp s.u_core_axi_lite
/-- micro_integration_axistream.v:5055-5085. -/
@[netlist] def s_axi_wo__bvalid (s : S) : Bool :=
  core_axi_lite.s_axi_wo__bvalid s.u_core_axi_lite
/-- micro_integration_axistream.v:5055-5085. -/
@[netlist] def s_axi_wo__wready (s : S) : Bool :=
  core_axi_lite.s_axi_wo__wready s.u_core_axi_lite

/-- micro_integration_axistream.v:4830-5310: one rising clock edge (`always @(posedge ...)`). -/
@[netlist] def step (s : S) (pixel_in : Nat) (rst : Bool) (s_axi_ri__arvalid : Bool) (s_axi_wi__awvalid : Bool) (s_axi_ri__araddr : Nat) (s_axi_ri__rready : Bool) (s_axi_wi__awaddr : Nat) (s_axi_wi__wvalid : Bool) (s_axi_wi__wdata : Nat) (s_axi_wi__wstrb : Nat) (s_axi_wi__bready : Bool) (full_rst : Bool) (valid_in : Bool) : S :=
  { u_core_axi_lite := core_axi_lite.step s.u_core_axi_lite s_axi_ri__arvalid s_axi_wi__awvalid s_axi_ri__araddr s_axi_ri__rready s_axi_wi__awaddr s_axi_wi__wvalid s_axi_wi__wdata s_axi_wi__wstrb s_axi_wi__bready full_rst rst (core_axi_lite_rp_data s)
    u_difference := difference.step s.u_difference (difference_pixel_in s) (difference_predic_in s) (difference_end_in s) rst (difference_valid_in s)
    u_encode := encode.step s.u_encode (encode_end_in s) (encode_valid_in s) (encode_ssss s) rst (encode_mem_r_addr s) (encode_mem_w_en s) (encode_mem_w_addr s) (encode_mem_w_data s) (encode_val_in s)
    u_force_end := Beta.force_end.step s.u_force_end (force_end_allowed_cycles s) rst (force_end_valid_in s valid_in)
    u_normalize := normalize.step s.u_normalize (normalize_valid_in s) (normalize_end_in s) (normalize_vals_in_mns s) rst (normalize_val_in s)
    u_predictor := predictor.step s.u_predictor (predictor_new_row s) (predictor_pixel_in s pixel_in) (predictor_end_in s) rst (predictor_valid_in s valid_in)
    u_signals := signals.step s.u_signals (signals_width s) (signals_height s) rst (signals_new_input s valid_in) }

/-- micro_integration_axistream.v:4830-5310: the initial values given in the netlist. -/
def Init (s : S) : Prop :=
  core_axi_lite.Init s.u_core_axi_lite ∧
  difference.Init s.u_difference ∧
  encode.Init s.u_encode ∧
  Beta.force_end.Init s.u_force_end ∧
  normalize.Init s.u_normalize ∧
  predictor.Init s.u_predictor ∧
  signals.Init s.u_signals

/-- micro_integration_axistream.v:4830-5310: a state with these initial values; registers without one are 0. -/
def powerUp : S :=
  { u_core_axi_lite := core_axi_lite.powerUp
    u_difference := difference.powerUp
    u_encode := encode.powerUp
    u_force_end := Beta.force_end.powerUp
    u_normalize := normalize.powerUp
    u_predictor := predictor.powerUp
    u_signals := signals.powerUp }

theorem powerUp_init : Init powerUp := ⟨core_axi_lite.powerUp_init, difference.powerUp_init, encode.powerUp_init, Beta.force_end.powerUp_init, normalize.powerUp_init, predictor.powerUp_init, signals.powerUp_init⟩

end integration_1

namespace lj92_pipeline_fifo

/-- micro_integration_axistream.v:6046-6158: registers, memories and instances of module `lj92_pipeline_fifo`. -/
structure S where
  close_full : Bool
  u_fifo : fifo.S

/-- micro_integration_axistream.v:6105-6114. -/
@[netlist] def fifo_level (s : S) : Nat :=
  fifo.level s.u_fifo
/-- micro_integration_axistream.v:6102. -/
@[netlist] def w1 (s : S) : Bool :=
  decide ((fifo_level s) ≥ 502)
/-- micro_integration_axistream.v:6139-6142. -/
@[netlist] def next_fifo_re (s : S) (latch_output : Bool) : Bool :=
  latch_output
/-- micro_integration_axistream.v:6151. -/
@[netlist] def fifo_re (s : S) (latch_output : Bool) : Bool :=
  (next_fifo_re s latch_output)
/-- micro_integration_axistream.v:6105-6114. -/
@[netlist] def fifo_dout (s : S) : Nat :=
  fifo.dout s.u_fifo
/-- micro_integration_axistream.v:6135-6138. -/
@[netlist] def next_out_end (s : S) : Bool :=
  (fifo_dout s).testBit 33
/-- micro_integration_axistream.v:6152. -/
@[netlist] def out_end (s : S) : Bool :=
  (next_out_end s)
/-- micro_integration_axistream.v:6131-6134. -/
@[netlist] def next_enc_out_ctr (s : S) : Nat :=
  slc (fifo_dout s) 28 5
/-- micro_integration_axistream.v:6153. -/
@[netlist] def enc_out_ctr (s : S) : Nat :=
  (next_enc_out_ctr s)
/-- micro_integration_axistream.v:6127-6130. -/
@[netlist] def next_enc_out (s : S) : Nat :=
  slc (fifo_dout s) 0 28
/-- micro_integration_axistream.v:6154. -/
@[netlist] def enc_out (s : S) : Nat :=
  (next_enc_out s)
/-- micro_integration_axistream.v:6105-6114. -/
@[netlist] def fifo_readable (s : S) : Bool :=
  s.u_fifo.readable
/-- micro_integration_axistream.v:6123-6126. -/
@[netlist] def next_valid_out (s : S) : Bool :=
  (fifo_readable s)
/-- micro_integration_axistream.v:6155. -/
@[netlist] def valid_out (s : S) : Bool :=
  (next_valid_out s)
/-- micro_integration_axistream.v:6119-6122. -/
@[netlist] def next_fifo_din (s : S) (enc_in : Nat) (enc_in_ctr : Nat) (in_end : Bool) : Nat :=
  in_end.toNat * 2 ^ 33 + enc_in_ctr * 2 ^ 28 + enc_in
/-- micro_integration_axistream.v:6156. -/
@[netlist] def fifo_din (s : S) (enc_in : Nat) (enc_in_ctr : Nat) (in_end : Bool) : Nat :=
  (next_fifo_din s enc_in enc_in_ctr in_end)
/-- micro_integration_axistream.v:6115-6118. -/
@[netlist] def next_fifo_we (s : S) (valid_in : Bool) : Bool :=
  valid_in
/-- micro_integration_axistream.v:6157. -/
@[netlist] def fifo_we (s : S) (valid_in : Bool) : Bool :=
  (next_fifo_we s valid_in)
/-- micro_integration_axistream.v:6143-6150. -/
@[netlist] def next_close_full (s : S) (rst : Bool) : Bool :=
  let e1 := (w1 s)
  if rst = true then false
  else e1

/-- micro_integration_axistream.v:6046-6158: one rising clock edge (`always @(posedge ...)`). -/
@[netlist] def step (s : S) (enc_in : Nat) (enc_in_ctr : Nat) (in_end : Bool) (latch_output : Bool) (rst : Bool) (valid_in : Bool) : S :=
  { close_full := (next_close_full s rst)
    u_fifo := fifo.step s.u_fifo (fifo_we s valid_in) (fifo_re s latch_output) rst (fifo_din s enc_in enc_in_ctr in_end) }

/-- micro_integration_axistream.v:6046-6158: the initial values given in the netlist. -/
def Init (s : S) : Prop :=
  s.close_full = false ∧
  fifo.Init s.u_fifo

/-- micro_integration_axistream.v:6046-6158: a state with these initial values; registers without one are 0. -/
def powerUp : S :=
  { close_full := false
    u_fifo := fifo.powerUp }

theorem powerUp_init : Init powerUp := ⟨rfl, fifo.powerUp_init⟩

end lj92_pipeline_fifo

namespace integration_2

/-- micro_integration_axistream.v:5314-5816: registers, memories and instances of module `integration_2`. -/
structure S where
  nready_reset : Bool
  nready_reset_counter : Nat
  nready_end_reg : Bool
  nready_end : Bool
  u_converter : converter.S
  u_converter_fifo : converter_fifo.S
  u_integration_1 : integration_1.S
  u_lj92_pipeline_fifo : lj92_pipeline_fifo.S

/-- micro_integration_axistream.v:5608-5638. -/
@[netlist] def integration_1_end_of_frame (s : S) : Bool :=
  integration_1.end_of_frame s.u_integration_1
/-- micro_integration_axistream.v:5552. -/
@[netlist] def w1 (s : S) : Bool :=
  (integration_1_end_of_frame s) == true
/-- micro_integration_axistream.v:5563. -/
@[netlist] def w3 (s : S) (valid_in : Bool) : Bool :=
  valid_in == true
/-- micro_integration_axistream.v:5570. -/
@[netlist] def w5 (s : S) (valid_in : Bool) : Bool :=
  (w1 s) && (w3 s valid_in)
/-- micro_integration_axistream.v:5639-5652. -/
@[netlist] def lj92_pipeline_fifo_close_full (s : S) : Bool :=
  s.u_lj92_pipeline_fifo.close_full
/-- micro_integration_axistream.v:5559. -/
@[netlist] def w32 (s : S) : Bool :=
  (lj92_pipeline_fifo_close_full s) == true
/-- micro_integration_axistream.v:5560. -/
@[netlist] def w34 (s : S) : Bool :=
  s.nready_end == true
/-- micro_integration_axistream.v:5561. -/
@[netlist] def w36 (s : S) : Bool :=
  (w32 s) || (w34 s)
/-- micro_integration_axistream.v:5562. -/
@[netlist] def w38 (s : S) : Bool :=
  s.nready_reset == false
/-- micro_integration_axistream.v:5564. -/
@[netlist] def w40 (s : S) : Bool :=
  (w36 s) || (w38 s)
/-- micro_integration_axistream.v:5771-5774. -/
@[netlist] def next_nready_signal (s : S) : Bool :=
  (w40 s)
/-- micro_integration_axistream.v:5814. -/
@[netlist] def nready_signal (s : S) : Bool :=
  (next_nready_signal s)
/-- micro_integration_axistream.v:5677-5680. -/
@[netlist] def next_nready (s : S) : Bool :=
  (nready_signal s)
/-- micro_integration_axistream.v:5807. -/
@[netlist] def nready (s : S) : Bool :=
  (next_nready s)
/-- micro_integration_axistream.v:5571. -/
@[netlist] def w7 (s : S) : Bool :=
  (nready s) == false
/-- micro_integration_axistream.v:5547. -/
@[netlist] def w9 (s : S) (valid_in : Bool) : Bool :=
  (w5 s valid_in) && (w7 s)
/-- micro_integration_axistream.v:5653-5660. -/
@[netlist] def next_nready_end_wire (s : S) (valid_in : Bool) : Bool :=
  if (w9 s valid_in) = true then true
  else false
/-- micro_integration_axistream.v:5815. -/
@[netlist] def nready_end_wire (s : S) (valid_in : Bool) : Bool :=
  (next_nready_end_wire s valid_in)
/-- micro_integration_axistream.v:5548. -/
@[netlist] def w11 (s : S) (valid_in : Bool) : Bool :=
  (nready_end_wire s valid_in) == true
/-- micro_integration_axistream.v:5549. -/
@[netlist] def w13 (s : S) : Bool :=
  s.nready_end_reg == true
/-- micro_integration_axistream.v:5550. -/
@[netlist] def w15 (s : S) (valid_in : Bool) : Bool :=
  (w11 s valid_in) || (w13 s)
/-- micro_integration_axistream.v:5551. -/
@[netlist] def w17 (s : S) : Bool :=
  (integration_1_end_of_frame s) == true
/-- micro_integration_axistream.v:5553. -/
@[netlist] def w19 (s : S) (valid_in : Bool) : Bool :=
  valid_in == true
/-- micro_integration_axistream.v:5554. -/
@[netlist] def w21 (s : S) (valid_in : Bool) : Bool :=
  (w17 s) && (w19 s valid_in)
/-- micro_integration_axistream.v:5555. -/
@[netlist] def w23 (s : S) : Bool :=
  (nready s) == false
/-- micro_integration_axistream.v:5556. -/
@[netlist] def w25 (s : S) (valid_in : Bool) : Bool :=
  (w21 s valid_in) && (w23 s)
/-- micro_integration_axistream.v:5557. -/
@[netlist] def w28 (s : S) : Nat :=
  (s.nready_reset_counter + 1) % 2 ^ 4
/-- micro_integration_axistream.v:5558. -/
@[netlist] def w30 (s : S) : Bool :=
  s.nready_reset_counter == 7
/-- micro_integration_axistream.v:5565. -/
@[netlist] def w42 (s : S) (valid_in : Bool) : Bool :=
  valid_in == true
/-- micro_integration_axistream.v:5566. -/
@[netlist] def w44 (s : S) : Bool :=
  (nready_signal s) == false
/-- micro_integration_axistream.v:5567. -/
@[netlist] def w46 (s : S) (valid_in : Bool) : Bool :=
  (w42 s valid_in) && (w44 s)
/-- micro_integration_axistream.v:5594-5607. -/
@[netlist] def converter_fifo_enc_out (s : S) : Nat :=
  converter_fifo.enc_out s.u_converter_fifo
/-- micro_integration_axistream.v:5568. -/
@[netlist] def w48 (s : S) : Nat :=
  (converter_fifo_enc_out s)
/-- micro_integration_axistream.v:5594-5607. -/
@[netlist] def converter_fifo_enc_out_ctr (s : S) : Nat :=
  converter_fifo.enc_out_ctr s.u_converter_fifo
/-- micro_integration_axistream.v:5569. -/
@[netlist] def w50 (s : S) : Nat :=
  (converter_fifo_enc_out_ctr s)
/-- micro_integration_axistream.v:5791. -/
@[netlist] def w27 (s : S) : Nat :=
  (w28 s)
/-- micro_integration_axistream.v:5748-5751. -/
@[netlist] def next_converter_fifo_latch_output (s : S) (latch_output : Bool) : Bool :=
  latch_output
/-- micro_integration_axistream.v:5792. -/
@[netlist] def converter_fifo_latch_output (s : S) (latch_output : Bool) : Bool :=
  (next_converter_fifo_latch_output s latch_output)
/-- micro_integration_axistream.v:5594-5607. -/
@[netlist] def converter_fifo_out_end (s : S) : Bool :=
  converter_fifo.out_end s.u_converter_fifo
/-- micro_integration_axistream.v:5744-5747. -/
@[netlist] def next_out_end (s : S) : Bool :=
  (converter_fifo_out_end s)
/-- micro_integration_axistream.v:5793. -/
@[netlist] def out_end (s : S) : Bool :=
  (next_out_end s)
/-- micro_integration_axistream.v:5594-5607. -/
@[netlist] def converter_fifo_valid_out (s : S) : Bool :=
  converter_fifo.valid_out s.u_converter_fifo
/-- micro_integration_axistream.v:5740-5743. -/
@[netlist] def next_valid_out (s : S) : Bool :=
  (converter_fifo_valid_out s)
/-- micro_integration_axistream.v:5794. -/
@[netlist] def valid_out (s : S) : Bool :=
  (next_valid_out s)
/-- micro_integration_axistream.v:5736-5739. -/
@[netlist] def next_enc_out_ctr (s : S) : Nat :=
  (w50 s)
/-- micro_integration_axistream.v:5795. -/
@[netlist] def enc_out_ctr (s : S) : Nat :=
  (next_enc_out_ctr s)
/-- micro_integration_axistream.v:5732-5735. -/
@[netlist] def next_enc_out (s : S) : Nat :=
  (w48 s)
/-- micro_integration_axistream.v:5796. -/
@[netlist] def enc_out (s : S) : Nat :=
  (next_enc_out s)
/-- micro_integration_axistream.v:5594-5607. -/
@[netlist] def converter_fifo_close_full (s : S) : Bool :=
  s.u_converter_fifo.close_full
/-- micro_integration_axistream.v:5728-5731. -/
@[netlist] def next_converter_close_full (s : S) : Bool :=
  (converter_fifo_close_full s)
/-- micro_integration_axistream.v:5797. -/
@[netlist] def converter_close_full (s : S) : Bool :=
  (next_converter_close_full s)
/-- micro_integration_axistream.v:5580-5593. -/
@[netlist] def converter_valid_in (s : S) : Bool :=
  s.u_converter.valid_in
/-- micro_integration_axistream.v:5724-5727. -/
@[netlist] def next_converter_fifo_valid_in (s : S) : Bool :=
  (converter_valid_in s)
/-- micro_integration_axistream.v:5798. -/
@[netlist] def converter_fifo_valid_in (s : S) : Bool :=
  (next_converter_fifo_valid_in s)
/-- micro_integration_axistream.v:5580-5593. -/
@[netlist] def converter_in_end (s : S) : Bool :=
  s.u_converter.in_end
/-- micro_integration_axistream.v:5720-5723. -/
@[netlist] def next_converter_fifo_in_end (s : S) : Bool :=
  (converter_in_end s)
/-- micro_integration_axistream.v:5799. -/
@[netlist] def converter_fifo_in_end (s : S) : Bool :=
  (next_converter_fifo_in_end s)
/-- micro_integration_axistream.v:5580-5593. -/
@[netlist] def converter_enc_in_ctr (s : S) : Nat :=
  s.u_converter.enc_in_ctr
/-- micro_integration_axistream.v:5705-5708. -/
@[netlist] def next_converter_fifo_enc_in_ctr (s : S) : Nat :=
  (converter_enc_in_ctr s)
/-- micro_integration_axistream.v:5800. -/
@[netlist] def converter_fifo_enc_in_ctr (s : S) : Nat :=
  (next_converter_fifo_enc_in_ctr s)
/-- micro_integration_axistream.v:5580-5593. -/
@[netlist] def converter_enc_in (s : S) : Nat :=
  s.u_converter.enc_in
/-- micro_integration_axistream.v:5701-5704. -/
@[netlist] def next_converter_fifo_enc_in (s : S) : Nat :=
  (converter_enc_in s)
/-- micro_integration_axistream.v:5801. -/
@[netlist] def converter_fifo_enc_in (s : S) : Nat :=
  (next_converter_fifo_enc_in s)
/-- micro_integration_axistream.v:5639-5652. -/
@[netlist] def lj92_pipeline_fifo_valid_out (s : S) : Bool :=
  lj92_pipeline_fifo.valid_out s.u_lj92_pipeline_fifo
/-- micro_integration_axistream.v:5697-5700. -/
@[netlist] def next_converter_valid_out (s : S) : Bool :=
  (lj92_pipeline_fifo_valid_out s)
/-- micro_integration_axistream.v:5802. -/
@[netlist] def converter_valid_out (s : S) : Bool :=
  (next_converter_valid_out s)
/-- micro_integration_axistream.v:5639-5652. -/
@[netlist] def lj92_pipeline_fifo_out_end (s : S) : Bool :=
  lj92_pipeline_fifo.out_end s.u_lj92_pipeline_fifo
/-- micro_integration_axistream.v:5693-5696. -/
@[netlist] def next_converter_out_end (s : S) : Bool :=
  (lj92_pipeline_fifo_out_end s)
/-- micro_integration_axistream.v:5803. -/
@[netlist] def converter_out_end (s : S) : Bool :=
  (next_converter_out_end s)
/-- micro_integration_axistream.v:5639-5652. -/
@[netlist] def lj92_pipeline_fifo_enc_out_ctr (s : S) : Nat :=
  lj92_pipeline_fifo.enc_out_ctr s.u_lj92_pipeline_fifo
/-- micro_integration_axistream.v:5689-5692. -/
@[netlist] def next_converter_enc_out_ctr (s : S) : Nat :=
  (lj92_pipeline_fifo_enc_out_ctr s)
/-- micro_integration_axistream.v:5804. -/
@[netlist] def converter_enc_out_ctr (s : S) : Nat :=
  (next_converter_enc_out_ctr s)
/-- micro_integration_axistream.v:5639-5652. -/
@[netlist] def lj92_pipeline_fifo_enc_out (s : S) : Nat :=
  lj92_pipeline_fifo.enc_out s.u_lj92_pipeline_fifo
/-- micro_integration_axistream.v:5685-5688. -/
@[netlist] def next_converter_enc_out (s : S) : Nat :=
  (lj92_pipeline_fifo_enc_out s)
/-- micro_integration_axistream.v:5805. -/
@[netlist] def converter_enc_out (s : S) : Nat :=
  (next_converter_enc_out s)
/-- micro_integration_axistream.v:5580-5593. -/
@[netlist] def converter_latch_output (s : S) : Bool :=
  s.u_converter.latch_output
/-- micro_integration_axistream.v:5681-5684. -/
@[netlist] def next_lj92_pipeline_fifo_latch_output (s : S) : Bool :=
  (converter_latch_output s)
/-- micro_integration_axistream.v:5806. -/
@[netlist] def lj92_pipeline_fifo_latch_output (s : S) : Bool :=
  (next_lj92_pipeline_fifo_latch_output s)
/-- micro_integration_axistream.v:5608-5638. -/
@[netlist] def integration_1_end_out (s : S) : Bool :=
  integration_1.end_out s.u_integration_1
/-- micro_integration_axistream.v:5673-5676. -/
@[netlist] def next_lj92_pipeline_fifo_in_end (s : S) : Bool :=
  (integration_1_end_out s)
/-- micro_integration_axistream.v:5808. -/
@[netlist] def lj92_pipeline_fifo_in_end (s : S) : Bool :=
  (next_lj92_pipeline_fifo_in_end s)
/-- micro_integration_axistream.v:5608-5638. -/
@[netlist] def integration_1_valid_out (s : S) : Bool :=
  integration_1.valid_out s.u_integration_1
/-- micro_integration_axistream.v:5669-5672. -/
@[netlist] def next_lj92_pipeline_fifo_valid_in (s : S) : Bool :=
  (integration_1_valid_out s)
/-- micro_integration_axistream.v:5809. -/
@[netlist] def lj92_pipeline_fifo_valid_in (s : S) : Bool :=
  (next_lj92_pipeline_fifo_valid_in s)
/-- micro_integration_axistream.v:5608-5638. -/
@[netlist] def integration_1_enc_out_ctr (s : S) : Nat :=
  integration_1.enc_out_ctr s.u_integration_1
/-- micro_integration_axistream.v:5787-5790. -/
@[netlist] def next_lj92_pipeline_fifo_enc_in_ctr (s : S) : Nat :=
  (integration_1_enc_out_ctr s)
/-- micro_integration_axistream.v:5810. -/
@[netlist] def lj92_pipeline_fifo_enc_in_ctr (s : S) : Nat :=
  (next_lj92_pipeline_fifo_enc_in_ctr s)
/-- micro_integration_axistream.v:5608-5638. -/
@[netlist] def integration_1_enc_out (s : S) : Nat :=
  integration_1.enc_out s.u_integration_1
/-- micro_integration_axistream.v:5783-5786. -/
@[netlist] def next_lj92_pipeline_fifo_enc_in (s : S) : Nat :=
  (integration_1_enc_out s)
/-- micro_integration_axistream.v:5811. -/
@[netlist] def lj92_pipeline_fifo_enc_in (s : S) : Nat :=
  (next_lj92_pipeline_fifo_enc_in s)
/-- micro_integration_axistream.v:5779-5782. -/
@[netlist] def next_integration_1_valid_in (s : S) (valid_in : Bool) : Bool :=
  (w46 s valid_in)
/-- micro_integration_axistream.v:5812. -/
@[netlist] def integration_1_valid_in (s : S) (valid_in : Bool) : Bool :=
  (next_integration_1_valid_in s valid_in)
/-- micro_integration_axistream.v:5775-5778. -/
@[netlist] def next_integration_1_pixel_in (s : S) (pixel_in : Nat) : Nat :=
  pixel_in
/-- micro_integration_axistream.v:5813. -/
@[netlist] def integration_1_pixel_in (s : S) (pixel_in : Nat) : Nat :=
  (next_integration_1_pixel_in s pixel_in)
/-- micro_integration_axistream.v:5661-5668. -/
@[netlist] def next_nready_end (s : S) (rst : Bool) (valid_in : Bool) : Bool :=
  let e1 := (w15 s valid_in)
  if rst = true then false
  else e1
/-- micro_integration_axistream.v:5709-5719. -/
@[netlist] def next_nready_end_reg (s : S) (rst : Bool) (valid_in : Bool) : Bool :=
  let e1 := if (w25 s valid_in) = true then true
  else s.nready_end_reg
  if rst = true then false
  else e1
/-- micro_integration_axistream.v:5752-5759. -/
@[netlist] def next_nready_reset_counter (s : S) (rst : Bool) : Nat :=
  let e1 := slc (w27 s) 0 3
  if rst = true then 0
  else e1
/-- micro_integration_axistream.v:5760-5770. -/
@[netlist] def next_nready_reset (s : S) (rst : Bool) : Bool :=
  let e1 := if (w30 s) = true then true
  else s.nready_reset
  if rst = true then false
  else e1
/-- micro_integration_axistream.v:5608-5638. -/
@[netlist] def fend_out (s : S) : Bool :=
  integration_1.fend_out s.u_integration_1
/-- micro_integration_axistream.v:5608-5638. -/
@[netlist] def s_axi_ro__arready (s : S) : Bool :=
  integration_1.s_axi_ro__arready s.u_integration_1
/-- micro_integration_axistream.v:5608-5638. -/
@[netlist] def s_axi_ro__rdata (s : S) : Nat :=
  integration_1.s_axi_ro__rdata s.u_integration_1
/-- micro_integration_axistream.v:5608-5638. -/
@[netlist] def s_axi_ro__rresp (s : S) : Nat :=
  integration_1.s_axi_ro__rresp s.u_integration_1
/-- micro_integration_axistream.v:5608-5638. -/
@[netlist] def s_axi_ro__rvalid (s : S) : Bool :=
  integration_1.s_axi_ro__rvalid s.u_integration_1
/-- micro_integration_axistream.v:5608-5638. -/
@[netlist] def s_axi_wo__awready (s : S) : Bool :=
  integration_1.s_axi_wo__awready s.u_integration_1
/-- micro_integration_axistream.v:5608-5638. -/
@[netlist] def s_axi_wo__bresp (s : S) : Nat :=
  integration_1.s_axi_wo__bresp s.u_integration_1
/-- micro_integration_axistream.v:5608-5638. -/
@[netlist] def s_axi_wo__bvalid (s : S) : Bool :=
  integration_1.s_axi_wo__bvalid s.u_integration_1
/-- micro_integration_axistream.v:5608-5638. -/
@[netlist] def s_axi_wo__wready (s : S) : Bool :=
  integration_1.s_axi_wo__wready s.u_integration_1

/-- micro_integration_axistream.v:5314-5816: one rising clock edge (`always @(posedge ...)`). -/
@[netlist] def step (s : S) (pixel_in : Nat) (latch_output : Bool) (rst : Bool) (s_axi_ri__arvalid : Bool) (s_axi_wi__awvalid : Bool) (s_axi_ri__araddr : Nat) (s_axi_ri__rready : Bool) (s_axi_wi__awaddr : Nat) (s_axi_wi__wvalid : Bool) (s_axi_wi__wdata : Nat) (s_axi_wi__wstrb : Nat) (s_axi_wi__bready : Bool) (full_rst : Bool) (valid_in : Bool) : S :=
  { nready_reset := (next_nready_reset s rst)
    nready_reset_counter := (next_nready_reset_counter s rst)
    nready_end_reg := (next_nready_end_reg s rst valid_in)
    nready_end := (next_nready_end s rst valid_in)
    u_converter := converter.step s.u_converter (converter_valid_out s) (converter_enc_out s) (converter_enc_out_ctr s) (converter_out_end s) rst (converter_close_full s)
    u_converter_fifo := converter_fifo.step s.u_converter_fifo (converter_fifo_enc_in s) (converter_fifo_enc_in_ctr s) (converter_fifo_in_end s) (converter_fifo_latch_output s latch_output) rst (converter_fifo_valid_in s)
    u_integration_1 := integration_1.step s.u_integration_1 (integration_1_pixel_in s pixel_in) rst s_axi_ri__arvalid s_axi_wi__awvalid s_axi_ri__araddr s_axi_ri__rready s_axi_wi__awaddr s_axi_wi__wvalid s_axi_wi__wdata s_axi_wi__wstrb s_axi_wi__bready full_rst (integration_1_valid_in s valid_in)
    u_lj92_pipeline_fifo := lj92_pipeline_fifo.step s.u_lj92_pipeline_fifo (lj92_pipeline_fifo_enc_in s) (lj92_pipeline_fifo_enc_in_ctr s) (lj92_pipeline_fifo_in_end s) (lj92_pipeline_fifo_latch_output s) rst (lj92_pipeline_fifo_valid_in s) }

/-- micro_integration_axistream.v:5314-5816: the initial values given in the netlist. -/
def Init (s : S) : Prop :=
  s.nready_reset = false ∧
  s.nready_reset_counter = 0 ∧
  s.nready_end_reg = false ∧
  s.nready_end = false ∧
  converter.Init s.u_converter ∧
  converter_fifo.Init s.u_converter_fifo ∧
  integration_1.Init s.u_integration_1 ∧
  lj92_pipeline_fifo.Init s.u_lj92_pipeline_fifo

/-- micro_integration_axistream.v:5314-5816: a state with these initial values; registers without one are 0. -/
def powerUp : S :=
  { nready_reset := false
    nready_reset_counter := 0
    nready_end_reg := false
    nready_end := false
    u_converter := converter.powerUp
    u_converter_fifo := converter_fifo.powerUp
    u_integration_1 := integration_1.powerUp
    u_lj92_pipeline_fifo := lj92_pipeline_fifo.powerUp }

theorem powerUp_init : Init powerUp := ⟨rfl, rfl, rfl, rfl, converter.powerUp_init, converter_fifo.powerUp_init, integration_1.powerUp_init, lj92_pipeline_fifo.powerUp_init⟩

end integration_2

namespace output_handler

/-- micro_integration_axistream.v:6582-6874: registers, memories and instances of module `output_handler`. -/
structure S where
  valid_out : Bool
  end_out : Bool
  data_out : Nat
  fsm_state : Nat

/-- micro_integration_axistream.v:6685. -/
@[netlist] def w17 (s : S) (buff_consum : Nat) : Bool :=
  decide (buff_consum ≥ 16)
/-- micro_integration_axistream.v:6750-6753. -/
@[netlist] def next_buff_consum_greater_eq (s : S) (buff_consum : Nat) : Bool :=
  (w17 s buff_consum)
/-- micro_integration_axistream.v:6870. -/
@[netlist] def buff_consum_greater_eq (s : S) (buff_consum : Nat) : Bool :=
  (next_buff_consum_greater_eq s buff_consum)
/-- micro_integration_axistream.v:6686. -/
@[netlist] def w19 (s : S) (buff_consum : Nat) : Bool :=
  decide (buff_consum ≤ 16)
/-- micro_integration_axistream.v:6754-6757. -/
@[netlist] def next_buff_consum_less_eq (s : S) (buff_consum : Nat) : Bool :=
  (w19 s buff_consum)
/-- micro_integration_axistream.v:6869. -/
@[netlist] def buff_consum_less_eq (s : S) (buff_consum : Nat) : Bool :=
  (next_buff_consum_less_eq s buff_consum)
/-- micro_integration_axistream.v:6716. -/
@[netlist] def w7 (s : S) (end_in : Bool) (buff_consum : Nat) : Bool :=
  (buff_consum_less_eq s buff_consum) && end_in
/-- micro_integration_axistream.v:6681. -/
@[netlist] def w9 (s : S) (end_in : Bool) (buff_consum : Nat) : Bool :=
  (buff_consum_greater_eq s buff_consum) || (w7 s end_in buff_consum)
/-- micro_integration_axistream.v:6682. -/
@[netlist] def w11 (s : S) (busy_in : Bool) : Bool :=
  busy_in == false
/-- micro_integration_axistream.v:6683. -/
@[netlist] def w13 (s : S) (busy_in : Bool) (buff_consum : Nat) : Bool :=
  (w11 s busy_in) && (buff_consum_greater_eq s buff_consum)
/-- micro_integration_axistream.v:6684. -/
@[netlist] def w15 (s : S) (busy_in : Bool) : Bool :=
  busy_in == false
/-- micro_integration_axistream.v:6687. -/
@[netlist] def w21 (s : S) (end_in : Bool) (buff_consum : Nat) : Bool :=
  (buff_consum_less_eq s buff_consum) && end_in
/-- micro_integration_axistream.v:6688. -/
@[netlist] def w23 (s : S) (end_in : Bool) (buff_consum : Nat) : Bool :=
  (buff_consum_greater_eq s buff_consum) || (w21 s end_in buff_consum)
/-- micro_integration_axistream.v:6689. -/
@[netlist] def w25 (s : S) (end_in : Bool) (buff_consum : Nat) : Bool :=
  (buff_consum_less_eq s buff_consum) && end_in
/-- micro_integration_axistream.v:6690. -/
@[netlist] def w27 (s : S) (busy_in : Bool) : Bool :=
  busy_in == false
/-- micro_integration_axistream.v:6691. -/
@[netlist] def w2 (s : S) (buff_consum : Nat) : Nat :=
  (2 ^ 7 + buff_consum - 16) % 2 ^ 7
/-- micro_integration_axistream.v:6692. -/
@[netlist] def w29 (s : S) (busy_in : Bool) (buff_consum : Nat) : Bool :=
  (w27 s busy_in) && (buff_consum_greater_eq s buff_consum)
/-- micro_integration_axistream.v:6693. -/
@[netlist] def w31 (s : S) (busy_in : Bool) : Bool :=
  busy_in == false
/-- micro_integration_axistream.v:6694. -/
@[netlist] def w33 (s : S) (end_in : Bool) (buff_consum : Nat) : Bool :=
  (buff_consum_less_eq s buff_consum) && end_in
/-- micro_integration_axistream.v:6695. -/
@[netlist] def w35 (s : S) (end_in : Bool) (buff_consum : Nat) : Bool :=
  (buff_consum_less_eq s buff_consum) && end_in
/-- micro_integration_axistream.v:6696. -/
@[netlist] def w37 (s : S) (end_in : Bool) (buff_consum : Nat) : Bool :=
  (buff_consum_greater_eq s buff_consum) || (w35 s end_in buff_consum)
/-- micro_integration_axistream.v:6863. -/
@[netlist] def w1 (s : S) (buff_consum : Nat) : Nat :=
  (w2 s buff_consum)
/-- micro_integration_axistream.v:6726-6729. -/
@[netlist] def next_shift_right (s : S) (buff_consum : Nat) : Nat :=
  slc (w1 s buff_consum) 0 5
/-- micro_integration_axistream.v:6873. -/
@[netlist] def shift_right (s : S) (buff_consum : Nat) : Nat :=
  (next_shift_right s buff_consum)
/-- micro_integration_axistream.v:6697. -/
@[netlist] def w40 (s : S) (buffer : Nat) (buff_consum : Nat) : Nat :=
  buffer / 2 ^ (shift_right s buff_consum)
/-- micro_integration_axistream.v:6705. -/
@[netlist] def w5 (s : S) (buff_consum : Nat) : Nat :=
  (2 ^ 7 + 16 - buff_consum) % 2 ^ 7
/-- micro_integration_axistream.v:6864. -/
@[netlist] def w4 (s : S) (buff_consum : Nat) : Nat :=
  (w5 s buff_consum)
/-- micro_integration_axistream.v:6730-6733. -/
@[netlist] def next_shift_left (s : S) (buff_consum : Nat) : Nat :=
  slc (w4 s buff_consum) 0 4
/-- micro_integration_axistream.v:6872. -/
@[netlist] def shift_left (s : S) (buff_consum : Nat) : Nat :=
  (next_shift_left s buff_consum)
/-- micro_integration_axistream.v:6698. -/
@[netlist] def w43 (s : S) (buffer : Nat) (buff_consum : Nat) : Nat :=
  buffer * 2 ^ (shift_left s buff_consum) % 2 ^ 56
/-- micro_integration_axistream.v:6699. -/
@[netlist] def w45 (s : S) (busy_in : Bool) : Bool :=
  busy_in == false
/-- micro_integration_axistream.v:6700. -/
@[netlist] def w47 (s : S) (busy_in : Bool) (buff_consum : Nat) : Bool :=
  (w45 s busy_in) && (buff_consum_greater_eq s buff_consum)
/-- micro_integration_axistream.v:6701. -/
@[netlist] def w49 (s : S) (busy_in : Bool) : Bool :=
  busy_in == false
/-- micro_integration_axistream.v:6702. -/
@[netlist] def w52 (s : S) (buffer : Nat) (buff_consum : Nat) : Nat :=
  buffer / 2 ^ (shift_right s buff_consum)
/-- micro_integration_axistream.v:6703. -/
@[netlist] def w55 (s : S) (buffer : Nat) (buff_consum : Nat) : Nat :=
  buffer * 2 ^ (shift_left s buff_consum) % 2 ^ 56
/-- micro_integration_axistream.v:6704. -/
@[netlist] def w57 (s : S) (end_in : Bool) (buff_consum : Nat) : Bool :=
  (buff_consum_less_eq s buff_consum) && end_in
/-- micro_integration_axistream.v:6706. -/
@[netlist] def w59 (s : S) (end_in : Bool) (buff_consum : Nat) : Bool :=
  (buff_consum_greater_eq s buff_consum) || (w57 s end_in buff_consum)
/-- micro_integration_axistream.v:6707. -/
@[netlist] def w61 (s : S) (end_in : Bool) (buff_consum : Nat) : Bool :=
  (buff_consum_less_eq s buff_consum) && end_in
/-- micro_integration_axistream.v:6708. -/
@[netlist] def w63 (s : S) (busy_in : Bool) : Bool :=
  busy_in == false
/-- micro_integration_axistream.v:6709. -/
@[netlist] def w65 (s : S) (busy_in : Bool) (buff_consum : Nat) : Bool :=
  (w63 s busy_in) && (buff_consum_greater_eq s buff_consum)
/-- micro_integration_axistream.v:6710. -/
@[netlist] def w67 (s : S) (busy_in : Bool) : Bool :=
  busy_in == false
/-- micro_integration_axistream.v:6711. -/
@[netlist] def w69 (s : S) (end_in : Bool) (buff_consum : Nat) : Bool :=
  (buff_consum_less_eq s buff_consum) && end_in
/-- micro_integration_axistream.v:6712. -/
@[netlist] def w71 (s : S) (end_in : Bool) (buff_consum : Nat) : Bool :=
  (buff_consum_less_eq s buff_consum) && end_in
/-- micro_integration_axistream.v:6713. -/
@[netlist] def w73 (s : S) (end_in : Bool) (buff_consum : Nat) : Bool :=
  (buff_consum_greater_eq s buff_consum) || (w71 s end_in buff_consum)
/-- micro_integration_axistream.v:6714. -/
@[netlist] def w75 (s : S) (busy_in : Bool) : Bool :=
  busy_in == false
/-- micro_integration_axistream.v:6715. -/
@[netlist] def w77 (s : S) (busy_in : Bool) (buff_consum : Nat) : Bool :=
  (w75 s busy_in) && (buff_consum_greater_eq s buff_consum)
/-- micro_integration_axistream.v:6717. -/
@[netlist] def w79 (s : S) (busy_in : Bool) : Bool :=
  busy_in == false
/-- micro_integration_axistream.v:6865. -/
@[netlist] def w39 (s : S) (buffer : Nat) (buff_consum : Nat) : Nat :=
  (w40 s buffer buff_consum)
/-- micro_integration_axistream.v:6866. -/
@[netlist] def w42 (s : S) (buffer : Nat) (buff_consum : Nat) : Nat :=
  (w43 s buffer buff_consum)
/-- micro_integration_axistream.v:6867. -/
@[netlist] def w51 (s : S) (buffer : Nat) (buff_consum : Nat) : Nat :=
  (w52 s buffer buff_consum)
/-- micro_integration_axistream.v:6868. -/
@[netlist] def w54 (s : S) (buffer : Nat) (buff_consum : Nat) : Nat :=
  (w55 s buffer buff_consum)
/-- micro_integration_axistream.v:6734-6749. -/
@[netlist] def next_dec_buff_out (s : S) (end_in : Bool) (busy_in : Bool) (buff_consum : Nat) : Bool :=
  if s.fsm_state = 0 then (if (w9 s end_in buff_consum) = true then true
    else false)
  else if s.fsm_state = 1 then (if (w13 s busy_in buff_consum) = true then true
    else false)
  else false
/-- micro_integration_axistream.v:6871. -/
@[netlist] def dec_buff_out (s : S) (end_in : Bool) (busy_in : Bool) (buff_consum : Nat) : Bool :=
  (next_dec_buff_out s end_in busy_in buff_consum)
/-- micro_integration_axistream.v:6758-6787. -/
@[netlist] def next_fsm_state (s : S) (end_in : Bool) (busy_in : Bool) (rst : Bool) (buff_consum : Nat) : Nat :=
  let e1 := if s.fsm_state = 0 then (if (w23 s end_in buff_consum) = true then (if (w25 s end_in buff_consum) = true then 2
      else 1)
    else s.fsm_state)
  else if s.fsm_state = 1 then (if (w29 s busy_in buff_consum) = true then (if (w33 s end_in buff_consum) = true then 2
      else s.fsm_state)
    else if (w31 s busy_in) = true then 0
    else s.fsm_state)
  else s.fsm_state
  if rst = true then 0
  else e1
/-- micro_integration_axistream.v:6788-6816. -/
@[netlist] def next_data_out (s : S) (end_in : Bool) (buffer : Nat) (busy_in : Bool) (rst : Bool) (buff_consum : Nat) : Nat :=
  let e1 := if s.fsm_state = 0 then (if (w37 s end_in buff_consum) = true then (if (buff_consum_greater_eq s buff_consum) = true then slc (w39 s buffer buff_consum) 0 16
      else slc (w42 s buffer buff_consum) 0 16)
    else s.data_out)
  else if s.fsm_state = 1 then (if (w47 s busy_in buff_consum) = true then (if (buff_consum_greater_eq s buff_consum) = true then slc (w51 s buffer buff_consum) 0 16
      else slc (w54 s buffer buff_consum) 0 16)
    else s.data_out)
  else s.data_out
  if rst = true then 0
  else e1
/-- micro_integration_axistream.v:6817-6841. -/
@[netlist] def next_end_out (s : S) (end_in : Bool) (busy_in : Bool) (rst : Bool) (buff_consum : Nat) : Bool :=
  let e1 := if s.fsm_state = 0 then (if (w59 s end_in buff_consum) = true then (if (w61 s end_in buff_consum) = true then true
      else s.end_out)
    else s.end_out)
  else if s.fsm_state = 1 then (if (w65 s busy_in buff_consum) = true then (if (w69 s end_in buff_consum) = true then true
      else s.end_out)
    else s.end_out)
  else s.end_out
  if rst = true then false
  else e1
/-- micro_integration_axistream.v:6842-6862. -/
@[netlist] def next_valid_out (s : S) (end_in : Bool) (busy_in : Bool) (rst : Bool) (buff_consum : Nat) : Bool :=
  let e1 := if s.fsm_state = 0 then (if (w73 s end_in buff_consum) = true then true
    else s.valid_out)
  else if s.fsm_state = 1 then (if (w77 s busy_in buff_consum) = true then true
    else if (w79 s busy_in) = true then false
    else s.valid_out)
  else s.valid_out
  if rst = true then false
  else e1

/-- micro_integration_axistream.v:6582-6874: one rising clock edge (`always @(posedge ...)`). -/
@[netlist] def step (s : S) (end_in : Bool) (buffer : Nat) (busy_in : Bool) (rst : Bool) (buff_consum : Nat) : S :=
  { valid_out := (next_valid_out s end_in busy_in rst buff_consum)
    end_out := (next_end_out s end_in busy_in rst buff_consum)
    data_out := (next_data_out s end_in buffer busy_in rst buff_consum)
    fsm_state := (next_fsm_state s end_in busy_in rst buff_consum) }

/-- micro_integration_axistream.v:6582-6874: the initial values given in the netlist. -/
def Init (s : S) : Prop :=
  s.valid_out = false ∧
  s.end_out = false ∧
  s.data_out = 0 ∧
  s.fsm_state = 0

/-- micro_integration_axistream.v:6582-6874: a state with these initial values; registers without one are 0. -/
def powerUp : S :=
  { valid_out := false
    end_out := false
    data_out := 0
    fsm_state := 0 }

theorem powerUp_init : Init powerUp := ⟨rfl, rfl, rfl, rfl⟩

end output_handler

namespace vbits_to_cbits

/-- micro_integration_axistream.v:10035-10220: registers, memories and instances of module `vbits_to_cbits`. -/
structure S where
  u_input_handler : input_handler.S
  u_output_handler : output_handler.S

/-- micro_integration_axistream.v:10170-10173. -/
@[netlist] def next_output_handler_busy_in (s : S) (busy_in : Bool) : Bool :=
  busy_in
/-- micro_integration_axistream.v:10206. -/
@[netlist] def output_handler_busy_in (s : S) (busy_in : Bool) : Bool :=
  (next_output_handler_busy_in s busy_in)
/-- micro_integration_axistream.v:10138-10149. -/
@[netlist] def output_handler_end_out (s : S) : Bool :=
  s.u_output_handler.end_out
/-- micro_integration_axistream.v:10166-10169. -/
@[netlist] def next_end_out (s : S) : Bool :=
  (output_handler_end_out s)
/-- micro_integration_axistream.v:10207. -/
@[netlist] def end_out (s : S) : Bool :=
  (next_end_out s)
/-- micro_integration_axistream.v:10138-10149. -/
@[netlist] def output_handler_valid_out (s : S) : Bool :=
  s.u_output_handler.valid_out
/-- micro_integration_axistream.v:10162-10165. -/
@[netlist] def next_valid_out (s : S) : Bool :=
  (output_handler_valid_out s)
/-- micro_integration_axistream.v:10208. -/
@[netlist] def valid_out (s : S) : Bool :=
  (next_valid_out s)
/-- micro_integration_axistream.v:10138-10149. -/
@[netlist] def output_handler_data_out (s : S) : Nat :=
  s.u_output_handler.data_out
/-- micro_integration_axistream.v:10158-10161. -/
@[netlist] def next_data_out (s : S) : Nat :=
  (output_handler_data_out s)
/-- micro_integration_axistream.v:10209. -/
@[netlist] def data_out (s : S) : Nat :=
  (next_data_out s)
/-- micro_integration_axistream.v:10124-10137. -/
@[netlist] def input_handler_end_out (s : S) : Bool :=
  s.u_input_handler.end_out
/-- micro_integration_axistream.v:10202-10205. -/
@[netlist] def next_output_handler_end_in (s : S) : Bool :=
  (input_handler_end_out s)
/-- micro_integration_axistream.v:10210. -/
@[netlist] def output_handler_end_in (s : S) : Bool :=
  (next_output_handler_end_in s)
/-- micro_integration_axistream.v:10124-10137. -/
@[netlist] def input_handler_buff_consum (s : S) : Nat :=
  s.u_input_handler.buff_consum
/-- micro_integration_axistream.v:10194-10197. -/
@[netlist] def next_output_handler_buff_consum (s : S) : Nat :=
  (input_handler_buff_consum s)
/-- micro_integration_axistream.v:10212. -/
@[netlist] def output_handler_buff_consum (s : S) : Nat :=
  (next_output_handler_buff_consum s)
/-- micro_integration_axistream.v:10138-10149. -/
@[netlist] def output_handler_dec_buff_out (s : S) (busy_in : Bool) : Bool :=
  output_handler.dec_buff_out s.u_output_handler (output_handler_end_in s) (output_handler_busy_in s busy_in) (output_handler_buff_consum s)
/-- micro_integration_axistream.v:10186-10189. -/
@[netlist] def next_input_handler_dec_buff (s : S) (busy_in : Bool) : Bool :=
  (output_handler_dec_buff_out s busy_in)
/-- micro_integration_axistream.v:10214. -/
@[netlist] def input_handler_dec_buff (s : S) (busy_in : Bool) : Bool :=
  (next_input_handler_dec_buff s busy_in)
/-- micro_integration_axistream.v:10124-10137. -/
@[netlist] def input_handler_new_buff_consum (s : S) (busy_in : Bool) : Nat :=
  input_handler.new_buff_consum s.u_input_handler (input_handler_dec_buff s busy_in)
/-- micro_integration_axistream.v:10198-10201. -/
@[netlist] def next_new_buff_consum (s : S) (busy_in : Bool) : Nat :=
  (input_handler_new_buff_consum s busy_in)
/-- micro_integration_axistream.v:10211. -/
@[netlist] def new_buff_consum (s : S) (busy_in : Bool) : Nat :=
  (next_new_buff_consum s busy_in)
/-- micro_integration_axistream.v:10124-10137. -/
@[netlist] def input_handler_buffer (s : S) : Nat :=
  s.u_input_handler.buffer
/-- micro_integration_axistream.v:10190-10193. -/
@[netlist] def next_output_handler_buffer (s : S) : Nat :=
  (input_handler_buffer s)
/-- micro_integration_axistream.v:10213. -/
@[netlist] def output_handler_buffer (s : S) : Nat :=
  (next_output_handler_buffer s)
/-- micro_integration_axistream.v:10182-10185. -/
@[netlist] def next_input_handler_valid_in (s : S) (valid_in : Bool) : Bool :=
  valid_in
/-- micro_integration_axistream.v:10215. -/
@[netlist] def input_handler_valid_in (s : S) (valid_in : Bool) : Bool :=
  (next_input_handler_valid_in s valid_in)
/-- micro_integration_axistream.v:10178-10181. -/
@[netlist] def next_input_handler_in_end (s : S) (in_end : Bool) : Bool :=
  in_end
/-- micro_integration_axistream.v:10216. -/
@[netlist] def input_handler_in_end (s : S) (in_end : Bool) : Bool :=
  (next_input_handler_in_end s in_end)
/-- micro_integration_axistream.v:10174-10177. -/
@[netlist] def next_input_handler_enc_in_ctr (s : S) (enc_in_ctr : Nat) : Nat :=
  enc_in_ctr
/-- micro_integration_axistream.v:10217. -/
@[netlist] def input_handler_enc_in_ctr (s : S) (enc_in_ctr : Nat) : Nat :=
  (next_input_handler_enc_in_ctr s enc_in_ctr)
/-- micro_integration_axistream.v:10154-10157. -/
@[netlist] def next_input_handler_enc_in (s : S) (enc_in : Nat) : Nat :=
  enc_in
/-- micro_integration_axistream.v:10218. -/
@[netlist] def input_handler_enc_in (s : S) (enc_in : Nat) : Nat :=
  (next_input_handler_enc_in s enc_in)
/-- micro_integration_axistream.v:10124-10137. -/
@[netlist] def input_handler_latch_input (s : S) : Bool :=
  s.u_input_handler.latch_input
/-- micro_integration_axistream.v:10150-10153. -/
@[netlist] def next_latch_input (s : S) : Bool :=
  (input_handler_latch_input s)
/-- micro_integration_axistream.v:10219. -/
@[netlist] def latch_input (s : S) : Bool :=
  (next_latch_input s)

/-- micro_integration_axistream.v:10035-10220: one rising clock edge (`always @(posedge ...)`). -/
@[netlist] def step (s : S) (enc_in_ctr : Nat) (in_end : Bool) (valid_in : Bool) (busy_in : Bool) (rst : Bool) (enc_in : Nat) : S :=
  { u_input_handler := input_handler.step s.u_input_handler (input_handler_valid_in s valid_in) (input_handler_enc_in s enc_in) (input_handler_enc_in_ctr s enc_in_ctr) (input_handler_in_end s in_end) rst (input_handler_dec_buff s busy_in)
    u_output_handler := output_handler.step s.u_output_handler (output_handler_end_in s) (output_handler_buffer s) (output_handler_busy_in s busy_in) rst (output_handler_buff_consum s) }

/-- micro_integration_axistream.v:10035-10220: the initial values given in the netlist. -/
def Init (s : S) : Prop :=
  input_handler.Init s.u_input_handler ∧
  output_handler.Init s.u_output_handler

/-- micro_integration_axistream.v:10035-10220: a state with these initial values; registers without one are 0. -/
def powerUp : S :=
  { u_input_handler := input_handler.powerUp
    u_output_handler := output_handler.powerUp }

theorem powerUp_init : Init powerUp := ⟨input_handler.powerUp_init, output_handler.powerUp_init⟩

end vbits_to_cbits

namespace integration_3

/-- micro_integration_axistream.v:5820-6042: registers, memories and instances of module `integration_3`. -/
structure S where
  u_integration_2 : integration_2.S
  u_vbits_to_cbits : vbits_to_cbits.S

/-- micro_integration_axistream.v:5937-5968. -/
@[netlist] def integration_2_nready (s : S) : Bool :=
  integration_2.nready s.u_integration_2
/-- micro_integration_axistream.v:5994-5997. -/
@[netlist] def next_nready (s : S) : Bool :=
  (integration_2_nready s)
/-- micro_integration_axistream.v:6030. -/
@[netlist] def nready (s : S) : Bool :=
  (next_nready s)
/-- micro_integration_axistream.v:5969-5981. -/
@[netlist] def vbits_to_cbits_end_out (s : S) : Bool :=
  vbits_to_cbits.end_out s.u_vbits_to_cbits
/-- micro_integration_axistream.v:5990-5993. -/
@[netlist] def next_end_out (s : S) : Bool :=
  (vbits_to_cbits_end_out s)
/-- micro_integration_axistream.v:6031. -/
@[netlist] def end_out (s : S) : Bool :=
  (next_end_out s)
/-- micro_integration_axistream.v:5969-5981. -/
@[netlist] def vbits_to_cbits_valid_out (s : S) : Bool :=
  vbits_to_cbits.valid_out s.u_vbits_to_cbits
/-- micro_integration_axistream.v:6026-6029. -/
@[netlist] def next_valid_out (s : S) : Bool :=
  (vbits_to_cbits_valid_out s)
/-- micro_integration_axistream.v:6032. -/
@[netlist] def valid_out (s : S) : Bool :=
  (next_valid_out s)
/-- micro_integration_axistream.v:5969-5981. -/
@[netlist] def vbits_to_cbits_data_out (s : S) : Nat :=
  vbits_to_cbits.data_out s.u_vbits_to_cbits
/-- micro_integration_axistream.v:6022-6025. -/
@[netlist] def next_data_out (s : S) : Nat :=
  (vbits_to_cbits_data_out s)
/-- micro_integration_axistream.v:6033. -/
@[netlist] def data_out (s : S) : Nat :=
  (next_data_out s)
/-- micro_integration_axistream.v:6018-6021. -/
@[netlist] def next_vbits_to_cbits_busy_in (s : S) (busy_in : Bool) : Bool :=
  busy_in
/-- micro_integration_axistream.v:6034. -/
@[netlist] def vbits_to_cbits_busy_in (s : S) (busy_in : Bool) : Bool :=
  (next_vbits_to_cbits_busy_in s busy_in)
/-- micro_integration_axistream.v:5937-5968. -/
@[netlist] def integration_2_valid_out (s : S) : Bool :=
  integration_2.valid_out s.u_integration_2
/-- micro_integration_axistream.v:6014-6017. -/
@[netlist] def next_vbits_to_cbits_valid_in (s : S) : Bool :=
  (integration_2_valid_out s)
/-- micro_integration_axistream.v:6035. -/
@[netlist] def vbits_to_cbits_valid_in (s : S) : Bool :=
  (next_vbits_to_cbits_valid_in s)
/-- micro_integration_axistream.v:5937-5968. -/
@[netlist] def integration_2_out_end (s : S) : Bool :=
  integration_2.out_end s.u_integration_2
/-- micro_integration_axistream.v:6010-6013. -/
@[netlist] def next_vbits_to_cbits_in_end (s : S) : Bool :=
  (integration_2_out_end s)
/-- micro_integration_axistream.v:6036. -/
@[netlist] def vbits_to_cbits_in_end (s : S) : Bool :=
  (next_vbits_to_cbits_in_end s)
/-- micro_integration_axistream.v:5937-5968. -/
@[netlist] def integration_2_enc_out_ctr (s : S) : Nat :=
  integration_2.enc_out_ctr s.u_integration_2
/-- micro_integration_axistream.v:6006-6009. -/
@[netlist] def next_vbits_to_cbits_enc_in_ctr (s : S) : Nat :=
  slc (integration_2_enc_out_ctr s) 0 4
/-- micro_integration_axistream.v:6037. -/
@[netlist] def vbits_to_cbits_enc_in_ctr (s : S) : Nat :=
  (next_vbits_to_cbits_enc_in_ctr s)
/-- micro_integration_axistream.v:5937-5968. -/
@[netlist] def integration_2_enc_out (s : S) : Nat :=
  integration_2.enc_out s.u_integration_2
/-- micro_integration_axistream.v:6002-6005. -/
@[netlist] def next_vbits_to_cbits_enc_in (s : S) : Nat :=
  slc (integration_2_enc_out s) 0 15
/-- micro_integration_axistream.v:6038. -/
@[netlist] def vbits_to_cbits_enc_in (s : S) : Nat :=
  (next_vbits_to_cbits_enc_in s)
/-- micro_integration_axistream.v:5969-5981. -/
@[netlist] def vbits_to_cbits_latch_input (s : S) : Bool :=
  vbits_to_cbits.latch_input s.u_vbits_to_cbits
/-- micro_integration_axistream.v:5998-6001. -/
@[netlist] def next_integration_2_latch_output (s : S) : Bool :=
  (vbits_to_cbits_latch_input s)
/-- micro_integration_axistream.v:6039. -/
@[netlist] def integration_2_latch_output (s : S) : Bool :=
  (next_integration_2_latch_output s)
/-- micro_integration_axistream.v:5986-5989. -/
@[netlist] def next_integration_2_valid_in (s : S) (valid_in : Bool) : Bool :=
  valid_in
/-- micro_integration_axistream.v:6040. -/
@[netlist] def integration_2_valid_in (s : S) (valid_in : Bool) : Bool :=
  (next_integration_2_valid_in s valid_in)
/-- micro_integration_axistream.v:5982-5985. -/
@[netlist] def next_integration_2_pixel_in (s : S) (pixel_in : Nat) : Nat :=
  pixel_in
/-- micro_integration_axistream.v:6041. -/
@[netlist] def integration_2_pixel_in (s : S) (pixel_in : Nat) : Nat :=
  (next_integration_2_pixel_in s pixel_in)
/-- micro_integration_axistream.v:5937-5968. -/
@[netlist] def fend_out (s : S) : Bool :=
  integration_2.fend_out s.u_integration_2
/-- micro_integration_axistream.v:5937-5968. -/
@[netlist] def s_axi_ro__arready (s : S) : Bool :=
  integration_2.s_axi_ro__arready s.u_integration_2
/-- micro_integration_axistream.v:5937-5968. -/
@[netlist] def s_axi_ro__rdata (s : S) : Nat :=
  integration_2.s_axi_ro__rdata s.u_integration_2
/-- micro_integration_axistream.v:5937-5968. -/
@[netlist] def s_axi_ro__rresp (s : S) : Nat :=
  integration_2.s_axi_ro__rresp s.u_integration_2
/-- micro_integration_axistream.v:5937-5968. -/
@[netlist] def s_axi_ro__rvalid (s : S) : Bool :=
  integration_2.s_axi_ro__rvalid s.u_integration_2
/-- micro_integration_axistream.v:5937-5968. -/
@[netlist] def s_axi_wo__awready (s : S) : Bool :=
  integration_2.s_axi_wo__awready s.u_integration_2
/-- micro_integration_axistream.v:5937-5968. -/
@[netlist] def s_axi_wo__bresp (s : S) : Nat :=
  integration_2.s_axi_wo__bresp s.u_integration_2
/-- micro_integration_axistream.v:5937-5968. -/
@[netlist] def s_axi_wo__bvalid (s : S) : Bool :=
  integration_2.s_axi_wo__bvalid s.u_integration_2
/-- micro_integration_axistream.v:5937-5968. -/
@[netlist] def s_axi_wo__wready (s : S) : Bool :=
  integration_2.s_axi_wo__wready s.u_integration_2

/-- micro_integration_axistream.v:5820-6042: one rising clock edge (`always @(posedge ...)`). -/
@[netlist] def step (s : S) (valid_in : Bool) (busy_in : Bool) (rst : Bool) (s_axi_ri__arvalid : Bool) (s_axi_wi__awvalid : Bool) (s_axi_ri__araddr : Nat) (s_axi_ri__rready : Bool) (s_axi_wi__awaddr : Nat) (s_axi_wi__wvalid : Bool) (s_axi_wi__wdata : Nat) (s_axi_wi__wstrb : Nat) (s_axi_wi__bready : Bool) (full_rst : Bool) (pixel_in : Nat) : S :=
  { u_integration_2 := integration_2.step s.u_integration_2 (integration_2_pixel_in s pixel_in) (integration_2_latch_output s) rst s_axi_ri__arvalid s_axi_wi__awvalid s_axi_ri__araddr s_axi_ri__rready s_axi_wi__awaddr s_axi_wi__wvalid s_axi_wi__wdata s_axi_wi__wstrb s_axi_wi__bready full_rst (integration_2_valid_in s valid_in)
    u_vbits_to_cbits := vbits_to_cbits.step s.u_vbits_to_cbits (vbits_to_cbits_enc_in_ctr s) (vbits_to_cbits_in_end s) (vbits_to_cbits_valid_in s) (vbits_to_cbits_busy_in s busy_in) rst (vbits_to_cbits_enc_in s) }

/-- micro_integration_axistream.v:5820-6042: the initial values given in the netlist. -/
def Init (s : S) : Prop :=
  integration_2.Init s.u_integration_2 ∧
  vbits_to_cbits.Init s.u_vbits_to_cbits

/-- micro_integration_axistream.v:5820-6042: a state with these initial values; registers without one are 0. -/
def powerUp : S :=
  { u_integration_2 := integration_2.powerUp
    u_vbits_to_cbits := vbits_to_cbits.powerUp }

theorem powerUp_init : Init powerUp := ⟨integration_2.powerUp_init, vbits_to_cbits.powerUp_init⟩

end integration_3

namespace markers

/-- micro_integration_axistream.v:6162-6469: registers, memories and instances of module `markers`. -/
structure S where
  fsm_state : Nat
  counter : Nat
  end_cond : Bool

/-- micro_integration_axistream.v:6237. -/
@[netlist] def w9 (s : S) (i_busy : Bool) : Bool :=
  i_busy == false
/-- micro_integration_axistream.v:6238. -/
@[netlist] def w11 (s : S) : Bool :=
  s.counter == 1
/-- micro_integration_axistream.v:6239. -/
@[netlist] def w13 (s : S) (i_busy : Bool) : Bool :=
  i_busy == false
/-- micro_integration_axistream.v:6240. -/
@[netlist] def w15 (s : S) (valid_in : Bool) : Bool :=
  valid_in == true
/-- micro_integration_axistream.v:6241. -/
@[netlist] def w17 (s : S) (valid_in : Bool) (i_busy : Bool) : Bool :=
  (w13 s i_busy) && (w15 s valid_in)
/-- micro_integration_axistream.v:6242. -/
@[netlist] def w1 (s : S) (i_busy : Bool) : Bool :=
  i_busy == false
/-- micro_integration_axistream.v:6243. -/
@[netlist] def w19 (s : S) (end_in : Bool) : Bool :=
  end_in == true
/-- micro_integration_axistream.v:6244. -/
@[netlist] def w21 (s : S) (valid_in : Bool) (end_in : Bool) (i_busy : Bool) : Bool :=
  (w17 s valid_in i_busy) && (w19 s end_in)
/-- micro_integration_axistream.v:6245. -/
@[netlist] def w23 (s : S) (i_busy : Bool) : Bool :=
  i_busy == false
/-- micro_integration_axistream.v:6246. -/
@[netlist] def w26 (s : S) : Nat :=
  (2 ^ 5 + s.counter - 1) % 2 ^ 5
/-- micro_integration_axistream.v:6247. -/
@[netlist] def w28 (s : S) : Bool :=
  s.counter == 0
/-- micro_integration_axistream.v:6248. -/
@[netlist] def w30 (s : S) (i_busy : Bool) : Bool :=
  i_busy == false
/-- micro_integration_axistream.v:6249. -/
@[netlist] def w33 (s : S) : Nat :=
  (2 ^ 5 + s.counter - 1) % 2 ^ 5
/-- micro_integration_axistream.v:6250. -/
@[netlist] def w35 (s : S) (i_busy : Bool) : Bool :=
  i_busy == false
/-- micro_integration_axistream.v:6251. -/
@[netlist] def w38 (s : S) : Nat :=
  (2 ^ 5 + s.counter - 1) % 2 ^ 5
/-- micro_integration_axistream.v:6252. -/
@[netlist] def w3 (s : S) : Bool :=
  s.counter == 0
/-- micro_integration_axistream.v:6253. -/
@[netlist] def w40 (s : S) (i_busy : Bool) : Bool :=
  i_busy == false
/-- micro_integration_axistream.v:6254. -/
@[netlist] def w42 (s : S) : Bool :=
  s.counter == 0
/-- micro_integration_axistream.v:6255. -/
@[netlist] def w44 (s : S) (i_busy : Bool) : Bool :=
  i_busy == false
/-- micro_integration_axistream.v:6256. -/
@[netlist] def w46 (s : S) : Bool :=
  s.counter == 1
/-- micro_integration_axistream.v:6257. -/
@[netlist] def w48 (s : S) (i_busy : Bool) : Bool :=
  i_busy == false
/-- micro_integration_axistream.v:6258. -/
@[netlist] def w50 (s : S) : Bool :=
  s.counter == 1
/-- micro_integration_axistream.v:6259. -/
@[netlist] def w52 (s : S) (i_busy : Bool) : Bool :=
  i_busy == false
/-- micro_integration_axistream.v:6260. -/
@[netlist] def w54 (s : S) : Bool :=
  s.counter == 0
/-- micro_integration_axistream.v:6261. -/
@[netlist] def w5 (s : S) (i_busy : Bool) : Bool :=
  i_busy == false
/-- micro_integration_axistream.v:6262. -/
@[netlist] def w7 (s : S) : Bool :=
  s.counter == 1
/-- micro_integration_axistream.v:6462. -/
@[netlist] def w25 (s : S) : Nat :=
  (w26 s)
/-- micro_integration_axistream.v:6463. -/
@[netlist] def w32 (s : S) : Nat :=
  (w33 s)
/-- micro_integration_axistream.v:6464. -/
@[netlist] def w37 (s : S) : Nat :=
  (w38 s)
/-- micro_integration_axistream.v:6429-6461. -/
@[netlist] def next_data_out (s : S) (force_end_in : Bool) (data_in : Nat) (i_busy : Bool) : Nat :=
  if s.fsm_state = 1 then (if (w52 s i_busy) = true then (if (w54 s) = true then 0
      else 0xffff)
    else 0xffff)
  else if s.fsm_state = 3 then 0xffff
  else if s.fsm_state = 5 then 0xfffe
  else if s.fsm_state = 2 then (if s.end_cond = true then 0
    else if force_end_in = true then 0
    else data_in)
  else if s.fsm_state = 4 then 0xffff
  else if s.fsm_state = 6 then 0xfffe
  else 0
/-- micro_integration_axistream.v:6465. -/
@[netlist] def data_out (s : S) (force_end_in : Bool) (data_in : Nat) (i_busy : Bool) : Nat :=
  (next_data_out s force_end_in data_in i_busy)
/-- micro_integration_axistream.v:6318-6343. -/
@[netlist] def next_end_out (s : S) (i_busy : Bool) : Bool :=
  if s.fsm_state = 3 then (if (w5 s i_busy) = true then (if (w7 s) = true then true
      else false)
    else false)
  else if s.fsm_state = 5 then (if (w9 s i_busy) = true then (if (w11 s) = true then true
      else false)
    else false)
  else if s.fsm_state = 4 then true
  else if s.fsm_state = 6 then true
  else false
/-- micro_integration_axistream.v:6466. -/
@[netlist] def end_out (s : S) (i_busy : Bool) : Bool :=
  (next_end_out s i_busy)
/-- micro_integration_axistream.v:6284-6317. -/
@[netlist] def next_valid_out (s : S) (valid_in : Bool) (force_end_in : Bool) (i_busy : Bool) : Bool :=
  if s.fsm_state = 1 then (if (w1 s i_busy) = true then (if (w3 s) = true then false
      else true)
    else true)
  else if s.fsm_state = 3 then true
  else if s.fsm_state = 5 then true
  else if s.fsm_state = 2 then (if s.end_cond = true then false
    else if force_end_in = true then false
    else valid_in)
  else if s.fsm_state = 4 then true
  else if s.fsm_state = 6 then true
  else false
/-- micro_integration_axistream.v:6467. -/
@[netlist] def valid_out (s : S) (valid_in : Bool) (force_end_in : Bool) (i_busy : Bool) : Bool :=
  (next_valid_out s valid_in force_end_in i_busy)
/-- micro_integration_axistream.v:6269-6283. -/
@[netlist] def next_o_busy (s : S) (force_end_in : Bool) (i_busy : Bool) : Bool :=
  if s.fsm_state = 2 then (if s.end_cond = true then true
    else if force_end_in = true then true
    else i_busy)
  else true
/-- micro_integration_axistream.v:6468. -/
@[netlist] def o_busy (s : S) (force_end_in : Bool) (i_busy : Bool) : Bool :=
  (next_o_busy s force_end_in i_busy)
/-- micro_integration_axistream.v:6344-6351. -/
@[netlist] def next_end_cond (s : S) (valid_in : Bool) (end_in : Bool) (rst : Bool) (i_busy : Bool) : Bool :=
  let e1 := (w21 s valid_in end_in i_busy)
  if rst = true then false
  else e1
/-- micro_integration_axistream.v:6352-6383. -/
@[netlist] def next_counter (s : S) (rst : Bool) (i_busy : Bool) : Nat :=
  let e2 := if s.fsm_state = 0 then 8
  else if s.fsm_state = 1 then (if (w23 s i_busy) = true then (let e1 := slc (w25 s) 0 4
      if (w28 s) = true then 8
      else e1)
    else s.counter)
  else if s.fsm_state = 3 then (if (w30 s i_busy) = true then slc (w32 s) 0 4
    else s.counter)
  else if s.fsm_state = 5 then (if (w35 s i_busy) = true then slc (w37 s) 0 4
    else s.counter)
  else s.counter
  if rst = true then 0
  else e2
/-- micro_integration_axistream.v:6384-6428. -/
@[netlist] def next_fsm_state (s : S) (valid_in : Bool) (force_end_in : Bool) (rst : Bool) (i_busy : Bool) : Nat :=
  let e1 := if s.fsm_state = 0 then (if valid_in = true then 1
    else s.fsm_state)
  else if s.fsm_state = 1 then (if (w40 s i_busy) = true then (if (w42 s) = true then 2
      else s.fsm_state)
    else s.fsm_state)
  else if s.fsm_state = 3 then (if (w44 s i_busy) = true then (if (w46 s) = true then 4
      else s.fsm_state)
    else s.fsm_state)
  else if s.fsm_state = 5 then (if (w48 s i_busy) = true then (if (w50 s) = true then 6
      else s.fsm_state)
    else s.fsm_state)
  else if s.fsm_state = 2 then (if s.end_cond = true then 3
    else if force_end_in = true then 5
    else s.fsm_state)
  else s.fsm_state
  if rst = true then 0
  else e1

/-- micro_integration_axistream.v:6162-6469: one rising clock edge (`always @(posedge ...)`). -/
@[netlist] def step (s : S) (valid_in : Bool) (end_in : Bool) (force_end_in : Bool) (data_in : Nat) (rst : Bool) (i_busy : Bool) : S :=
  { fsm_state := (next_fsm_state s valid_in force_end_in rst i_busy)
    counter := (next_counter s rst i_busy)
    end_cond := (next_end_cond s valid_in end_in rst i_busy) }

/-- micro_integration_axistream.v:6162-6469: the initial values given in the netlist. -/
def Init (s : S) : Prop :=
  s.fsm_state = 0 ∧
  s.counter = 0 ∧
  s.end_cond = false

/-- micro_integration_axistream.v:6162-6469: a state with these initial values; registers without one are 0. -/
def powerUp : S :=
  { fsm_state := 0
    counter := 0
    end_cond := false }

theorem powerUp_init : Init powerUp := ⟨rfl, rfl, rfl⟩

end markers

namespace top_module

/-- micro_integration_axistream.v:7647-8027: registers, memories and instances of module `top_module`. -/
structure S where
  u_auto_reset : Beta.auto_reset.S
  u_fix_0xff : fix_0xff.S
  u_fix_0xff2 : Beta.fix_0xff2.S
  u_integration_3 : integration_3.S
  u_markers : markers.S

/-- micro_integration_axistream.v:7832-7839. -/
@[netlist] def auto_reset_reset_out (s : S) : Bool :=
  s.u_auto_reset.reset_out
/-- micro_integration_axistream.v:7828. -/
@[netlist] def w2 (s : S) : Bool :=
  (auto_reset_reset_out s) == true
/-- micro_integration_axistream.v:7829. -/
@[netlist] def w4 (s : S) (full_rst : Bool) : Bool :=
  full_rst == true
/-- micro_integration_axistream.v:7830. -/
@[netlist] def w6 (s : S) (full_rst : Bool) : Bool :=
  (w2 s) || (w4 s full_rst)
/-- micro_integration_axistream.v:7831. -/
@[netlist] def w8 (s : S) (busy_in : Bool) : Bool :=
  busy_in == false
/-- micro_integration_axistream.v:7865-7894. -/
@[netlist] def integration_3_nready (s : S) : Bool :=
  integration_3.nready s.u_integration_3
/-- micro_integration_axistream.v:7971-7974. -/
@[netlist] def next_nready (s : S) : Bool :=
  (integration_3_nready s)
/-- micro_integration_axistream.v:8003. -/
@[netlist] def nready (s : S) : Bool :=
  (next_nready s)
/-- micro_integration_axistream.v:7951-7954. -/
@[netlist] def next_markers_i_busy (s : S) (busy_in : Bool) : Bool :=
  busy_in
/-- micro_integration_axistream.v:8007. -/
@[netlist] def markers_i_busy (s : S) (busy_in : Bool) : Bool :=
  (next_markers_i_busy s busy_in)
/-- micro_integration_axistream.v:7895-7906. -/
@[netlist] def markers_end_out (s : S) (busy_in : Bool) : Bool :=
  markers.end_out s.u_markers (markers_i_busy s busy_in)
/-- micro_integration_axistream.v:7967-7970. -/
@[netlist] def next_end_out (s : S) (busy_in : Bool) : Bool :=
  (markers_end_out s busy_in)
/-- micro_integration_axistream.v:8004. -/
@[netlist] def end_out (s : S) (busy_in : Bool) : Bool :=
  (next_end_out s busy_in)
/-- micro_integration_axistream.v:7852-7864. -/
@[netlist] def fix_0xff2_valid_out (s : S) : Bool :=
  s.u_fix_0xff2.valid_out
/-- micro_integration_axistream.v:7939-7942. -/
@[netlist] def next_markers_valid_in (s : S) : Bool :=
  (fix_0xff2_valid_out s)
/-- micro_integration_axistream.v:8010. -/
@[netlist] def markers_valid_in (s : S) : Bool :=
  (next_markers_valid_in s)
/-- micro_integration_axistream.v:7865-7894. -/
@[netlist] def integration_3_fend_out (s : S) : Bool :=
  integration_3.fend_out s.u_integration_3
/-- micro_integration_axistream.v:7943-7946. -/
@[netlist] def next_markers_force_end_in (s : S) : Bool :=
  (integration_3_fend_out s)
/-- micro_integration_axistream.v:8009. -/
@[netlist] def markers_force_end_in (s : S) : Bool :=
  (next_markers_force_end_in s)
/-- micro_integration_axistream.v:7895-7906. -/
@[netlist] def markers_valid_out (s : S) (busy_in : Bool) : Bool :=
  markers.valid_out s.u_markers (markers_valid_in s) (markers_force_end_in s) (markers_i_busy s busy_in)
/-- micro_integration_axistream.v:7963-7966. -/
@[netlist] def next_valid_out (s : S) (busy_in : Bool) : Bool :=
  (markers_valid_out s busy_in)
/-- micro_integration_axistream.v:8005. -/
@[netlist] def valid_out (s : S) (busy_in : Bool) : Bool :=
  (next_valid_out s busy_in)
/-- micro_integration_axistream.v:7852-7864. -/
@[netlist] def fix_0xff2_data_out (s : S) : Nat :=
  s.u_fix_0xff2.data_out
/-- micro_integration_axistream.v:7935-7938. -/
@[netlist] def next_markers_data_in (s : S) : Nat :=
  (fix_0xff2_data_out s)
/-- micro_integration_axistream.v:8011. -/
@[netlist] def markers_data_in (s : S) : Nat :=
  (next_markers_data_in s)
/-- micro_integration_axistream.v:7895-7906. -/
@[netlist] def markers_data_out (s : S) (busy_in : Bool) : Nat :=
  markers.data_out s.u_markers (markers_force_end_in s) (markers_data_in s) (markers_i_busy s busy_in)
/-- micro_integration_axistream.v:7959-7962. -/
@[netlist] def next_data_out (s : S) (busy_in : Bool) : Nat :=
  (markers_data_out s busy_in)
/-- micro_integration_axistream.v:8006. -/
@[netlist] def data_out (s : S) (busy_in : Bool) : Nat :=
  (next_data_out s busy_in)
/-- micro_integration_axistream.v:7852-7864. -/
@[netlist] def fix_0xff2_end_out (s : S) : Bool :=
  s.u_fix_0xff2.end_out
/-- micro_integration_axistream.v:7947-7950. -/
@[netlist] def next_markers_end_in (s : S) : Bool :=
  (fix_0xff2_end_out s)
/-- micro_integration_axistream.v:8008. -/
@[netlist] def markers_end_in (s : S) : Bool :=
  (next_markers_end_in s)
/-- micro_integration_axistream.v:7840-7851. -/
@[netlist] def fix_0xff_data_out_ctr (s : S) : Nat :=
  s.u_fix_0xff.data_out_ctr
/-- micro_integration_axistream.v:7931-7934. -/
@[netlist] def next_fix_0xff2_data_in_ctr (s : S) : Nat :=
  (fix_0xff_data_out_ctr s)
/-- micro_integration_axistream.v:8012. -/
@[netlist] def fix_0xff2_data_in_ctr (s : S) : Nat :=
  (next_fix_0xff2_data_in_ctr s)
/-- micro_integration_axistream.v:7927-7930. -/
@[netlist] def next_fix_0xff2_i_busy (s : S) (busy_in : Bool) : Bool :=
  busy_in
/-- micro_integration_axistream.v:8013. -/
@[netlist] def fix_0xff2_i_busy (s : S) (busy_in : Bool) : Bool :=
  (next_fix_0xff2_i_busy s busy_in)
/-- micro_integration_axistream.v:7840-7851. -/
@[netlist] def fix_0xff_valid_out (s : S) : Bool :=
  s.u_fix_0xff.valid_out
/-- micro_integration_axistream.v:7923-7926. -/
@[netlist] def next_fix_0xff2_valid_in (s : S) : Bool :=
  (fix_0xff_valid_out s)
/-- micro_integration_axistream.v:8014. -/
@[netlist] def fix_0xff2_valid_in (s : S) : Bool :=
  (next_fix_0xff2_valid_in s)
/-- micro_integration_axistream.v:7840-7851. -/
@[netlist] def fix_0xff_data_out (s : S) : Nat :=
  s.u_fix_0xff.data_out
/-- micro_integration_axistream.v:7919-7922. -/
@[netlist] def next_fix_0xff2_data_in (s : S) : Nat :=
  (fix_0xff_data_out s)
/-- micro_integration_axistream.v:8015. -/
@[netlist] def fix_0xff2_data_in (s : S) : Nat :=
  (next_fix_0xff2_data_in s)
/-- micro_integration_axistream.v:7852-7864. -/
@[netlist] def fix_0xff2_o_busy (s : S) : Bool :=
  s.u_fix_0xff2.o_busy
/-- micro_integration_axistream.v:7915-7918. -/
@[netlist] def next_fix_0xff_i_busy (s : S) : Bool :=
  (fix_0xff2_o_busy s)
/-- micro_integration_axistream.v:8016. -/
@[netlist] def fix_0xff_i_busy (s : S) : Bool :=
  (next_fix_0xff_i_busy s)
/-- micro_integration_axistream.v:7865-7894. -/
@[netlist] def integration_3_valid_out (s : S) : Bool :=
  integration_3.valid_out s.u_integration_3
/-- micro_integration_axistream.v:7999-8002. -/
@[netlist] def next_fix_0xff_valid_in (s : S) : Bool :=
  (integration_3_valid_out s)
/-- micro_integration_axistream.v:8017. -/
@[netlist] def fix_0xff_valid_in (s : S) : Bool :=
  (next_fix_0xff_valid_in s)
/-- micro_integration_axistream.v:7865-7894. -/
@[netlist] def integration_3_data_out (s : S) : Nat :=
  integration_3.data_out s.u_integration_3
/-- micro_integration_axistream.v:7995-7998. -/
@[netlist] def next_fix_0xff_data_in (s : S) : Nat :=
  (integration_3_data_out s)
/-- micro_integration_axistream.v:8018. -/
@[netlist] def fix_0xff_data_in (s : S) : Nat :=
  (next_fix_0xff_data_in s)
/-- micro_integration_axistream.v:7840-7851. -/
@[netlist] def fix_0xff_o_busy (s : S) : Bool :=
  s.u_fix_0xff.o_busy
/-- micro_integration_axistream.v:7991-7994. -/
@[netlist] def next_integration_3_busy_in (s : S) : Bool :=
  (fix_0xff_o_busy s)
/-- micro_integration_axistream.v:8019. -/
@[netlist] def integration_3_busy_in (s : S) : Bool :=
  (next_integration_3_busy_in s)
/-- micro_integration_axistream.v:7987-7990. -/
@[netlist] def next_integration_3_valid_in (s : S) (valid_in : Bool) : Bool :=
  valid_in
/-- micro_integration_axistream.v:8020. -/
@[netlist] def integration_3_valid_in (s : S) (valid_in : Bool) : Bool :=
  (next_integration_3_valid_in s valid_in)
/-- micro_integration_axistream.v:7983-7986. -/
@[netlist] def next_integration_3_pixel_in (s : S) (pixel_in : Nat) : Nat :=
  pixel_in
/-- micro_integration_axistream.v:8021. -/
@[netlist] def integration_3_pixel_in (s : S) (pixel_in : Nat) : Nat :=
  (next_integration_3_pixel_in s pixel_in)
/-- micro_integration_axistream.v:7979-7982. -/
@[netlist] def next_auto_reset_hs2_in (s : S) (busy_in : Bool) : Bool :=
  (w8 s busy_in)
/-- micro_integration_axistream.v:8022. -/
@[netlist] def auto_reset_hs2_in (s : S) (busy_in : Bool) : Bool :=
  (next_auto_reset_hs2_in s busy_in)
/-- micro_integration_axistream.v:7975-7978. -/
@[netlist] def next_auto_reset_hs1_in (s : S) (busy_in : Bool) : Bool :=
  (valid_out s busy_in)
/-- micro_integration_axistream.v:8023. -/
@[netlist] def auto_reset_hs1_in (s : S) (busy_in : Bool) : Bool :=
  (next_auto_reset_hs1_in s busy_in)
/-- micro_integration_axistream.v:7955-7958. -/
@[netlist] def next_auto_reset_end_in (s : S) (busy_in : Bool) : Bool :=
  (end_out s busy_in)
/-- micro_integration_axistream.v:8024. -/
@[netlist] def auto_reset_end_in (s : S) (busy_in : Bool) : Bool :=
  (next_auto_reset_end_in s busy_in)
/-- micro_integration_axistream.v:7911-7914. -/
@[netlist] def next_integration_3_rst (s : S) (full_rst : Bool) : Bool :=
  (w6 s full_rst)
/-- micro_integration_axistream.v:8025. -/
@[netlist] def integration_3_rst (s : S) (full_rst : Bool) : Bool :=
  (next_integration_3_rst s full_rst)
/-- micro_integration_axistream.v:7865-7894. -/
@[netlist] def s_axi_ro__arready (s : S) : Bool :=
  integration_3.s_axi_ro__arready s.u_integration_3
/-- micro_integration_axistream.v:7865-7894. -/
@[netlist] def s_axi_ro__rdata (s : S) : Nat :=
  integration_3.s_axi_ro__rdata s.u_integration_3
/-- micro_integration_axistream.v:7865-7894. -/
@[netlist] def s_axi_ro__rresp (s : S) : Nat :=
  integration_3.s_axi_ro__rresp s.u_integration_3
/-- micro_integration_axistream.v:7865-7894. -/
@[netlist] def s_axi_ro__rvalid (s : S) : Bool :=
  integration_3.s_axi_ro__rvalid s.u_integration_3
/-- micro_integration_axistream.v:7865-7894. -/
@[netlist] def s_axi_wo__awready (s : S) : Bool :=
  integration_3.s_axi_wo__awready s.u_integration_3
/-- micro_integration_axistream.v:7865-7894. -/
@[netlist] def s_axi_wo__bresp (s : S) : Nat :=
  integration_3.s_axi_wo__bresp s.u_integration_3
/-- micro_integration_axistream.v:7865-7894. -/
@[netlist] def s_axi_wo__bvalid (s : S) : Bool :=
  integration_3.s_axi_wo__bvalid s.u_integration_3
/-- micro_integration_axistream.v:7865-7894. -/
@[netlist] def s_axi_wo__wready (s : S) : Bool :=
  integration_3.s_axi_wo__wready s.u_integration_3

/-- micro_integration_axistream.v:7647-8027: one rising clock edge (`always @(posedge ...)`). -/
@[netlist] def step (s : S) (full_rst : Bool) (busy_in : Bool) (pixel_in : Nat) (valid_in : Bool) (s_axi_ri__arvalid : Bool) (s_axi_wi__awvalid : Bool) (s_axi_ri__araddr : Nat) (s_axi_ri__rready : Bool) (s_axi_wi__awaddr : Nat) (s_axi_wi__wvalid : Bool) (s_axi_wi__wdata : Nat) (s_axi_wi__wstrb : Nat) (s_axi_wi__bready : Bool) (end_in : Bool) (end_in_1 : Bool) : S :=
  { u_auto_reset := Beta.auto_reset.step s.u_auto_reset (auto_reset_hs2_in s busy_in) (auto_reset_end_in s busy_in) (integration_3_rst s full_rst) (auto_reset_hs1_in s busy_in)
    u_fix_0xff := fix_0xff.step s.u_fix_0xff (fix_0xff_valid_in s) end_in (fix_0xff_data_in s) (integration_3_rst s full_rst) (fix_0xff_i_busy s)
    u_fix_0xff2 := Beta.fix_0xff2.step s.u_fix_0xff2 (fix_0xff2_valid_in s) (fix_0xff2_data_in_ctr s) (fix_0xff2_data_in s) end_in_1 (integration_3_rst s full_rst) (fix_0xff2_i_busy s busy_in)
    u_integration_3 := integration_3.step s.u_integration_3 (integration_3_valid_in s valid_in) (integration_3_busy_in s) (integration_3_rst s full_rst) s_axi_ri__arvalid s_axi_wi__awvalid s_axi_ri__araddr s_axi_ri__rready s_axi_wi__awaddr s_axi_wi__wvalid s_axi_wi__wdata s_axi_wi__wstrb s_axi_wi__bready full_rst (integration_3_pixel_in s pixel_in)
    u_markers := markers.step s.u_markers (markers_valid_in s) (markers_end_in s) (markers_force_end_in s) (markers_data_in s) (integration_3_rst s full_rst) (markers_i_busy s busy_in) }

/-- micro_integration_axistream.v:7647-8027: the initial values given in the netlist. -/
def Init (s : S) : Prop :=
  Beta.auto_reset.Init s.u_auto_reset ∧
  fix_0xff.Init s.u_fix_0xff ∧
  Beta.fix_0xff2.Init s.u_fix_0xff2 ∧
  integration_3.Init s.u_integration_3 ∧
  markers.Init s.u_markers

/-- micro_integration_axistream.v:7647-8027: a state with these initial values; registers without one are 0. -/
def powerUp : S :=
  { u_auto_reset := Beta.auto_reset.powerUp
    u_fix_0xff := fix_0xff.powerUp
    u_fix_0xff2 := Beta.fix_0xff2.powerUp
    u_integration_3 := integration_3.powerUp
    u_markers := markers.powerUp }

theorem powerUp_init : Init powerUp := ⟨Beta.auto_reset.powerUp_init, fix_0xff.powerUp_init, Beta.fix_0xff2.powerUp_init, integration_3.powerUp_init, markers.powerUp_init⟩

end top_module

namespace top

/-- micro_integration_axistream.v:7478-7643: registers, memories and instances of module `top`. -/
structure S where
  u_top_module : top_module.S

/-- micro_integration_axistream.v:7571. -/
@[netlist] def w2 (s : S) (m_tready : Bool) : Bool :=
  m_tready == false
/-- micro_integration_axistream.v:7573-7602. -/
@[netlist] def top_module_nready (s : S) : Bool :=
  top_module.nready s.u_top_module
/-- micro_integration_axistream.v:7572. -/
@[netlist] def w4 (s : S) : Bool :=
  (top_module_nready s) == false
/-- micro_integration_axistream.v:7631-7634. -/
@[netlist] def next_top_module_valid_in (s : S) (s_tvalid : Bool) : Bool :=
  s_tvalid
/-- micro_integration_axistream.v:7635. -/
@[netlist] def top_module_valid_in (s : S) (s_tvalid : Bool) : Bool :=
  (next_top_module_valid_in s s_tvalid)
/-- micro_integration_axistream.v:7627-7630. -/
@[netlist] def next_s_end (s : S) (s_tlast : Bool) : Bool :=
  s_tlast
/-- micro_integration_axistream.v:7636. -/
@[netlist] def s_end (s : S) (s_tlast : Bool) : Bool :=
  (next_s_end s s_tlast)
/-- micro_integration_axistream.v:7623-7626. -/
@[netlist] def next_s_tready (s : S) : Bool :=
  (w4 s)
/-- micro_integration_axistream.v:7637. -/
@[netlist] def s_tready (s : S) : Bool :=
  (next_s_tready s)
/-- micro_integration_axistream.v:7619-7622. -/
@[netlist] def next_top_module_pixel_in (s : S) (s_tdata : Nat) : Nat :=
  slc s_tdata 0 12
/-- micro_integration_axistream.v:7638. -/
@[netlist] def top_module_pixel_in (s : S) (s_tdata : Nat) : Nat :=
  (next_top_module_pixel_in s s_tdata)
/-- micro_integration_axistream.v:7611-7614. -/
@[netlist] def next_top_module_busy_in (s : S) (m_tready : Bool) : Bool :=
  (w2 s m_tready)
/-- micro_integration_axistream.v:7640. -/
@[netlist] def top_module_busy_in (s : S) (m_tready : Bool) : Bool :=
  (next_top_module_busy_in s m_tready)
/-- micro_integration_axistream.v:7573-7602. -/
@[netlist] def top_module_valid_out (s : S) (m_tready : Bool) : Bool :=
  top_module.valid_out s.u_top_module (top_module_busy_in s m_tready)
/-- micro_integration_axistream.v:7615-7618. -/
@[netlist] def next_m_tvalid (s : S) (m_tready : Bool) : Bool :=
  (top_module_valid_out s m_tready)
/-- micro_integration_axistream.v:7639. -/
@[netlist] def m_tvalid (s : S) (m_tready : Bool) : Bool :=
  (next_m_tvalid s m_tready)
/-- micro_integration_axistream.v:7573-7602. -/
@[netlist] def top_module_end_out (s : S) (m_tready : Bool) : Bool :=
  top_module.end_out s.u_top_module (top_module_busy_in s m_tready)
/-- micro_integration_axistream.v:7607-7610. -/
@[netlist] def next_m_tlast (s : S) (m_tready : Bool) : Bool :=
  (top_module_end_out s m_tready)
/-- micro_integration_axistream.v:7641. -/
@[netlist] def m_tlast (s : S) (m_tready : Bool) : Bool :=
  (next_m_tlast s m_tready)
/-- micro_integration_axistream.v:7573-7602. -/
@[netlist] def top_module_data_out (s : S) (m_tready : Bool) : Nat :=
  top_module.data_out s.u_top_module (top_module_busy_in s m_tready)
/-- micro_integration_axistream.v:7603-7606. -/
@[netlist] def next_m_tdata (s : S) (m_tready : Bool) : Nat :=
  (top_module_data_out s m_tready)
/-- micro_integration_axistream.v:7642. -/
@[netlist] def m_tdata (s : S) (m_tready : Bool) : Nat :=
  (next_m_tdata s m_tready)
/-- micro_integration_axistream.v:7573-7602. -/
@[netlist] def s_axi_ro__arready (s : S) : Bool :=
  top_module.s_axi_ro__arready s.u_top_module
/-- micro_integration_axistream.v:7573-7602. -/
@[netlist] def s_axi_ro__rdata (s : S) : Nat :=
  top_module.s_axi_ro__rdata s.u_top_module
/-- micro_integration_axistream.v:7573-7602. -/
@[netlist] def s_axi_ro__rresp (s : S) : Nat :=
  top_module.s_axi_ro__rresp s.u_top_module
/-- micro_integration_axistream.v:7573-7602. -/
@[netlist] def s_axi_ro__rvalid (s : S) : Bool :=
  top_module.s_axi_ro__rvalid s.u_top_module
/-- micro_integration_axistream.v:7573-7602. -/
@[netlist] def s_axi_wo__awready (s : S) : Bool :=
  top_module.s_axi_wo__awready s.u_top_module
/-- micro_integration_axistream.v:7573-7602. -/
@[netlist] def s_axi_wo__bresp (s : S) : Nat :=
  top_module.s_axi_wo__bresp s.u_top_module
/-- micro_integration_axistream.v:7573-7602. -/
@[netlist] def s_axi_wo__bvalid (s : S) : Bool :=
  top_module.s_axi_wo__bvalid s.u_top_module
/-- micro_integration_axistream.v:7573-7602. -/
@[netlist] def s_axi_wo__wready (s : S) : Bool :=
  top_module.s_axi_wo__wready s.u_top_module

/-- micro_integration_axistream.v:7478-7643: one rising clock edge (`always @(posedge ...)`). -/
@[netlist] def step (s : S) (s_tdata : Nat) (s_tlast : Bool) (s_tvalid : Bool) (full_rst : Bool) (s_axi_ri__arvalid : Bool) (s_axi_wi__awvalid : Bool) (s_axi_ri__araddr : Nat) (s_axi_ri__rready : Bool) (s_axi_wi__awaddr : Nat) (s_axi_wi__wvalid : Bool) (s_axi_wi__wdata : Nat) (s_axi_wi__wstrb : Nat) (s_axi_wi__bready : Bool) (end_in : Bool) (end_in_1 : Bool) (m_tready : Bool) : S :=
  { u_top_module := top_module.step s.u_top_module full_rst (top_module_busy_in s m_tready) (top_module_pixel_in s s_tdata) (top_module_valid_in s s_tvalid) s_axi_ri__arvalid s_axi_wi__awvalid s_axi_ri__araddr s_axi_ri__rready s_axi_wi__awaddr s_axi_wi__wvalid s_axi_wi__wdata s_axi_wi__wstrb s_axi_wi__bready end_in end_in_1 }

/-- micro_integration_axistream.v:7478-7643: the initial values given in the netlist. -/
def Init (s : S) : Prop :=
  top_module.Init s.u_top_module

/-- micro_integration_axistream.v:7478-7643: a state with these initial values; registers without one are 0. -/
def powerUp : S :=
  { u_top_module := top_module.powerUp }

theorem powerUp_init : Init powerUp := top_module.powerUp_init

end top

end Netlist.MicroAxis
