/- Generated by netlist/v2lean.py from verilog_src/converter.v.  Do not edit. -/
import Verif.Netlist.Basic

set_option autoImplicit false
set_option linter.unusedVariables false

namespace Netlist.ConvV
open Netlist

namespace top

/-- converter.v:6-443: registers, memories and instances of module `top`. -/
structure S where
  out_end_latch : Bool
  fsm_state : Nat
  latch_output : Bool
  valid_in : Bool
  enc_out_latch : Nat
  in_end : Bool
  enc_in_ctr : Nat
  enc_in : Nat
  valid_out_reg : Bool
  out_end_reg : Bool
  enc_out_ctr_reg : Nat
  enc_out_reg : Nat

/-- converter.v:144. -/
@[netlist] def w7 (s : S) (close_full : Bool) : Bool :=
  close_full == false
/-- converter.v:116. -/
@[netlist] def w9 (s : S) (valid_out : Bool) (close_full : Bool) : Bool :=
  valid_out && (w7 s close_full)
/-- converter.v:117. -/
@[netlist] def w11 (s : S) : Bool :=
  decide (s.enc_out_ctr_reg ≤ 36)
/-- converter.v:118. -/
@[netlist] def w13 (s : S) (close_full : Bool) : Bool :=
  close_full == false
/-- converter.v:119. -/
@[netlist] def w15 (s : S) (close_full : Bool) : Bool :=
  s.valid_out_reg && (w13 s close_full)
/-- converter.v:120. -/
@[netlist] def w17 (s : S) (close_full : Bool) : Bool :=
  close_full == false
/-- converter.v:121. -/
@[netlist] def w1 (s : S) : Bool :=
  decide (s.enc_out_ctr_reg ≤ 36)
/-- converter.v:122. -/
@[netlist] def w19 (s : S) (valid_out : Bool) (close_full : Bool) : Bool :=
  valid_out && (w17 s close_full)
/-- converter.v:123. -/
@[netlist] def w21 (s : S) (close_full : Bool) : Bool :=
  close_full == false
/-- converter.v:124. -/
@[netlist] def w23 (s : S) (close_full : Bool) : Bool :=
  s.valid_out_reg && (w21 s close_full)
/-- converter.v:125. -/
@[netlist] def w25 (s : S) (close_full : Bool) : Bool :=
  close_full == false
/-- converter.v:126. -/
@[netlist] def w27 (s : S) (valid_out : Bool) (close_full : Bool) : Bool :=
  valid_out && (w25 s close_full)
/-- converter.v:127. -/
@[netlist] def w29 (s : S) : Bool :=
  decide (s.enc_out_ctr_reg ≤ 36)
/-- converter.v:128. -/
@[netlist] def w31 (s : S) : Bool :=
  decide (s.enc_out_ctr_reg ≤ 62)
/-- converter.v:129. -/
@[netlist] def w33 (s : S) (close_full : Bool) : Bool :=
  close_full == false
/-- converter.v:130. -/
@[netlist] def w35 (s : S) (close_full : Bool) : Bool :=
  s.valid_out_reg && (w33 s close_full)
/-- converter.v:131. -/
@[netlist] def w37 (s : S) (close_full : Bool) : Bool :=
  close_full == false
/-- converter.v:132. -/
@[netlist] def w3 (s : S) (close_full : Bool) : Bool :=
  close_full == false
/-- converter.v:133. -/
@[netlist] def w39 (s : S) (valid_out : Bool) (close_full : Bool) : Bool :=
  valid_out && (w37 s close_full)
/-- converter.v:134. -/
@[netlist] def w41 (s : S) : Bool :=
  decide (s.enc_out_ctr_reg ≤ 36)
/-- converter.v:135. -/
@[netlist] def w43 (s : S) : Bool :=
  decide (s.enc_out_ctr_reg ≤ 62)
/-- converter.v:136. -/
@[netlist] def w45 (s : S) : Nat :=
  slc s.enc_out_reg 36 26
/-- converter.v:137. -/
@[netlist] def w47 (s : S) : Bool :=
  decide (s.enc_out_ctr_reg ≤ 36)
/-- converter.v:138. -/
@[netlist] def w49 (s : S) : Bool :=
  decide (s.enc_out_ctr_reg ≤ 62)
/-- converter.v:139. -/
@[netlist] def w52 (s : S) : Nat :=
  (2 ^ 7 + s.enc_out_ctr_reg - 36) % 2 ^ 7
/-- converter.v:140. -/
@[netlist] def w54 (s : S) : Bool :=
  decide (s.enc_out_ctr_reg ≤ 36)
/-- converter.v:141. -/
@[netlist] def w56 (s : S) : Bool :=
  decide (s.enc_out_ctr_reg ≤ 36)
/-- converter.v:142. -/
@[netlist] def w58 (s : S) : Bool :=
  decide (s.enc_out_ctr_reg ≤ 36)
/-- converter.v:143. -/
@[netlist] def w5 (s : S) (close_full : Bool) : Bool :=
  s.valid_out_reg && (w3 s close_full)
/-- converter.v:442. -/
@[netlist] def w51 (s : S) : Nat :=
  (w52 s)
/-- converter.v:169-195. -/
@[netlist] def next_valid_in (s : S) (rst : Bool) : Bool :=
  let e1 := if s.fsm_state = 0 then false
  else if s.fsm_state = 2 then false
  else if s.fsm_state = 1 then (if s.valid_out_reg = true then (if (w1 s) = true then true
      else true)
    else false)
  else if s.fsm_state = 3 then true
  else s.valid_in
  if rst = true then false
  else e1
/-- converter.v:196-234. -/
@[netlist] def next_latch_output (s : S) (valid_out : Bool) (rst : Bool) (close_full : Bool) : Bool :=
  let e1 := if s.fsm_state = 0 then (if (w5 s close_full) = true then true
    else if (w9 s valid_out close_full) = true then true
    else false)
  else if s.fsm_state = 1 then (if s.valid_out_reg = true then (if (w11 s) = true then (if close_full = true then false
        else s.latch_output)
      else false)
    else s.latch_output)
  else if s.fsm_state = 3 then (if (w15 s close_full) = true then true
    else if (w19 s valid_out close_full) = true then true
    else s.latch_output)
  else s.latch_output
  if rst = true then false
  else e1
/-- converter.v:235-253. -/
@[netlist] def next_enc_out_latch (s : S) (rst : Bool) : Nat :=
  let e1 := if s.fsm_state = 1 then (if s.valid_out_reg = true then (if (w56 s) = true then s.enc_out_latch
      else slc s.enc_out_reg 0 36)
    else s.enc_out_latch)
  else s.enc_out_latch
  if rst = true then 0
  else e1
/-- converter.v:254-272. -/
@[netlist] def next_out_end_latch (s : S) (rst : Bool) : Bool :=
  let e1 := if s.fsm_state = 1 then (if s.valid_out_reg = true then (if (w58 s) = true then s.out_end_latch
      else s.out_end_reg)
    else s.out_end_latch)
  else s.out_end_latch
  if rst = true then false
  else e1
/-- converter.v:273-317. -/
@[netlist] def next_fsm_state (s : S) (valid_out : Bool) (rst : Bool) (close_full : Bool) : Nat :=
  let e1 := if s.fsm_state = 0 then (if (w23 s close_full) = true then 1
    else if (w27 s valid_out close_full) = true then 2
    else 0)
  else if s.fsm_state = 2 then 1
  else if s.fsm_state = 1 then (if s.valid_out_reg = true then (if (w29 s) = true then (if close_full = true then 0
        else s.fsm_state)
      else (if (w31 s) = true then 3
        else s.fsm_state))
    else s.fsm_state)
  else if s.fsm_state = 3 then (if (w35 s close_full) = true then 1
    else if (w39 s valid_out close_full) = true then 2
    else 0)
  else s.fsm_state
  if rst = true then 0
  else e1
/-- converter.v:318-330. -/
@[netlist] def next_enc_out_reg (s : S) (enc_out : Nat) (rst : Bool) : Nat :=
  let e1 := if s.fsm_state = 2 then enc_out
  else if s.fsm_state = 1 then enc_out
  else s.enc_out_reg
  if rst = true then 0
  else e1
/-- converter.v:331-343. -/
@[netlist] def next_enc_out_ctr_reg (s : S) (enc_out_ctr : Nat) (rst : Bool) : Nat :=
  let e1 := if s.fsm_state = 2 then enc_out_ctr
  else if s.fsm_state = 1 then enc_out_ctr
  else s.enc_out_ctr_reg
  if rst = true then 0
  else e1
/-- converter.v:344-356. -/
@[netlist] def next_out_end_reg (s : S) (out_end : Bool) (rst : Bool) : Bool :=
  let e1 := if s.fsm_state = 2 then out_end
  else if s.fsm_state = 1 then out_end
  else s.out_end_reg
  if rst = true then false
  else e1
/-- converter.v:357-369. -/
@[netlist] def next_valid_out_reg (s : S) (valid_out : Bool) (rst : Bool) : Bool :=
  let e1 := if s.fsm_state = 2 then valid_out
  else if s.fsm_state = 1 then valid_out
  else s.valid_out_reg
  if rst = true then false
  else e1
/-- converter.v:370-393. -/
@[netlist] def next_enc_in (s : S) (rst : Bool) : Nat :=
  let e1 := if s.fsm_state = 1 then (if s.valid_out_reg = true then (if (w41 s) = true then slc s.enc_out_reg 0 36
      else (if (w43 s) = true then (w45 s)
        else s.enc_in))
    else s.enc_in)
  else if s.fsm_state = 3 then s.enc_out_latch
  else s.enc_in
  if rst = true then 0
  else e1
/-- converter.v:394-420. -/
@[netlist] def next_enc_in_ctr (s : S) (rst : Bool) : Nat :=
  let e1 := if s.fsm_state = 1 then (if s.valid_out_reg = true then (if (w47 s) = true then s.enc_out_ctr_reg
      else (if (w49 s) = true then slc (w51 s) 0 6
        else 36))
    else s.enc_in_ctr)
  else if s.fsm_state = 3 then 36
  else s.enc_in_ctr
  if rst = true then 0
  else e1
/-- converter.v:421-441. -/
@[netlist] def next_in_end (s : S) (rst : Bool) : Bool :=
  let e1 := if s.fsm_state = 1 then (if s.valid_out_reg = true then (if (w54 s) = true then s.out_end_reg
      else false)
    else s.in_end)
  else if s.fsm_state = 3 then s.out_end_latch
  else s.in_end
  if rst = true then false
  else e1

/-- converter.v:6-443: one rising clock edge (`always @(posedge ...)`). -/
@[netlist] def step (s : S) (valid_out : Bool) (enc_out : Nat) (enc_out_ctr : Nat) (out_end : Bool) (rst : Bool) (close_full : Bool) : S :=
  { out_end_latch := (next_out_end_latch s rst)
    fsm_state := (next_fsm_state s valid_out rst close_full)
    latch_output := (next_latch_output s valid_out rst close_full)
    valid_in := (next_valid_in s rst)
    enc_out_latch := (next_enc_out_latch s rst)
    in_end := (next_in_end s rst)
    enc_in_ctr := (next_enc_in_ctr s rst)
    enc_in := (next_enc_in s rst)
    valid_out_reg := (next_valid_out_reg s valid_out rst)
    out_end_reg := (next_out_end_reg s out_end rst)
    enc_out_ctr_reg := (next_enc_out_ctr_reg s enc_out_ctr rst)
    enc_out_reg := (next_enc_out_reg s enc_out rst) }

/-- converter.v:6-443: the initial values given in the netlist. -/
def Init (s : S) : Prop :=
  s.out_end_latch = false ∧
  s.fsm_state = 0 ∧
  s.latch_output = false ∧
  s.valid_in = false ∧
  s.enc_out_latch = 0 ∧
  s.in_end = false ∧
  s.enc_in_ctr = 0 ∧
  s.enc_in = 0 ∧
  s.valid_out_reg = false ∧
  s.out_end_reg = false ∧
  s.enc_out_ctr_reg = 0 ∧
  s.enc_out_reg = 0

/-- converter.v:6-443: a state with these initial values; registers without one are 0. -/
def powerUp : S :=
  { out_end_latch := false
    fsm_state := 0
    latch_output := false
    valid_in := false
    enc_out_latch := 0
    in_end := false
    enc_in_ctr := 0
    enc_in := 0
    valid_out_reg := false
    out_end_reg := false
    enc_out_ctr_reg := 0
    enc_out_reg := 0 }

theorem powerUp_init : Init powerUp := ⟨rfl, rfl, rfl, rfl, rfl, rfl, rfl, rfl, rfl, rfl, rfl, rfl⟩

end top

end Netlist.ConvV
