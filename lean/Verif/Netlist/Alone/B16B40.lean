/- Generated by netlist/v2lean.py from verilog_src/b16_b40.v.  Do not edit. -/
import Verif.Netlist.Basic

set_option autoImplicit false
set_option linter.unusedVariables false

namespace Netlist.Pack40V
open Netlist

namespace top

/-- b16_b40.v:6-415: registers, memories and instances of module `top`. -/
structure S where
  temp_8 : Bool
  buffer2 : Nat
  buffer1 : Nat
  fsm_state : Nat
  o_busy : Bool
  buffer2_valid : Bool
  buffer1_valid : Bool
  buff_chs : Bool
  valid_out : Bool

/-- b16_b40.v:111. -/
@[netlist] def w9 (s : S) : Bool :=
  s.buffer1_valid == true
/-- b16_b40.v:112. -/
@[netlist] def w11 (s : S) : Bool :=
  s.buffer2_valid == true
/-- b16_b40.v:113. -/
@[netlist] def w13 (s : S) : Bool :=
  (w9 s) || (w11 s)
/-- b16_b40.v:116. -/
@[netlist] def w1 (s : S) : Bool :=
  s.valid_out == true
/-- b16_b40.v:127. -/
@[netlist] def w3 (s : S) (i_busy : Bool) : Bool :=
  i_busy == false
/-- b16_b40.v:138. -/
@[netlist] def w5 (s : S) (i_busy : Bool) : Bool :=
  (w1 s) && (w3 s i_busy)
/-- b16_b40.v:166-173. -/
@[netlist] def next_is_valid (s : S) (i_busy : Bool) : Bool :=
  if (w5 s i_busy) = true then false
  else true
/-- b16_b40.v:413. -/
@[netlist] def is_valid (s : S) (i_busy : Bool) : Bool :=
  (next_is_valid s i_busy)
/-- b16_b40.v:114. -/
@[netlist] def w15 (s : S) (i_busy : Bool) : Bool :=
  (is_valid s i_busy) == true
/-- b16_b40.v:115. -/
@[netlist] def w17 (s : S) (i_busy : Bool) : Bool :=
  (w13 s) && (w15 s i_busy)
/-- b16_b40.v:117. -/
@[netlist] def w19 (s : S) : Bool :=
  s.valid_out == true
/-- b16_b40.v:118. -/
@[netlist] def w21 (s : S) (i_busy : Bool) : Bool :=
  i_busy == false
/-- b16_b40.v:119. -/
@[netlist] def w23 (s : S) (i_busy : Bool) : Bool :=
  (w19 s) && (w21 s i_busy)
/-- b16_b40.v:120. -/
@[netlist] def w25 (s : S) : Bool :=
  s.buff_chs == false
/-- b16_b40.v:121. -/
@[netlist] def w27 (s : S) : Bool :=
  s.valid_out == true
/-- b16_b40.v:122. -/
@[netlist] def w29 (s : S) (i_busy : Bool) : Bool :=
  i_busy == false
/-- b16_b40.v:123. -/
@[netlist] def w31 (s : S) (i_busy : Bool) : Bool :=
  (w27 s) && (w29 s i_busy)
/-- b16_b40.v:124. -/
@[netlist] def w33 (s : S) : Bool :=
  s.buff_chs == false
/-- b16_b40.v:125. -/
@[netlist] def w35 (s : S) : Bool :=
  s.valid_out == true
/-- b16_b40.v:126. -/
@[netlist] def w37 (s : S) (i_busy : Bool) : Bool :=
  i_busy == false
/-- b16_b40.v:128. -/
@[netlist] def w39 (s : S) (i_busy : Bool) : Bool :=
  (w35 s) && (w37 s i_busy)
/-- b16_b40.v:129. -/
@[netlist] def w41 (s : S) : Bool :=
  s.buff_chs == true
/-- b16_b40.v:130. -/
@[netlist] def w43 (s : S) : Bool :=
  s.buffer1_valid == false
/-- b16_b40.v:131. -/
@[netlist] def w45 (s : S) : Bool :=
  s.buffer2_valid == false
/-- b16_b40.v:132. -/
@[netlist] def w47 (s : S) : Bool :=
  s.buffer2_valid == false
/-- b16_b40.v:133. -/
@[netlist] def w49 (s : S) : Bool :=
  s.buffer1_valid == false
/-- b16_b40.v:134. -/
@[netlist] def w51 (s : S) : Bool :=
  s.buffer1_valid == false
/-- b16_b40.v:135. -/
@[netlist] def w53 (s : S) : Bool :=
  s.buffer2_valid == false
/-- b16_b40.v:136. -/
@[netlist] def w55 (s : S) : Bool :=
  s.buffer2_valid == false
/-- b16_b40.v:137. -/
@[netlist] def w57 (s : S) : Bool :=
  s.buffer1_valid == false
/-- b16_b40.v:139. -/
@[netlist] def w59 (s : S) : Bool :=
  s.buffer2_valid == false
/-- b16_b40.v:140. -/
@[netlist] def w61 (s : S) : Bool :=
  s.buffer2_valid == false
/-- b16_b40.v:141. -/
@[netlist] def w63 (s : S) : Nat :=
  s.temp_8.toNat
/-- b16_b40.v:142. -/
@[netlist] def w65 (s : S) : Bool :=
  s.buffer2_valid == false
/-- b16_b40.v:143. -/
@[netlist] def w7 (s : S) : Bool :=
  s.buff_chs == false
/-- b16_b40.v:225-233. -/
@[netlist] def next_data_out (s : S) : Nat :=
  if (w7 s) = true then s.buffer1
  else s.buffer2
/-- b16_b40.v:412. -/
@[netlist] def data_out (s : S) : Nat :=
  (next_data_out s)
/-- b16_b40.v:174-205. -/
@[netlist] def next_buffer2 (s : S) (valid_in : Bool) (data_in : Nat) (full_rst : Bool) : Nat :=
  let e1 := if s.fsm_state = 3 then (if valid_in = true then (if (w59 s) = true then put s.buffer2 32 8 (slc data_in 0 8)
      else s.buffer2)
    else s.buffer2)
  else if s.fsm_state = 5 then (if (w61 s) = true then put s.buffer2 32 8 (w63 s)
    else s.buffer2)
  else if s.fsm_state = 4 then (if valid_in = true then put s.buffer2 16 16 data_in
    else s.buffer2)
  else if s.fsm_state = 6 then (if valid_in = true then put s.buffer2 0 16 data_in
    else s.buffer2)
  else s.buffer2
  if full_rst = true then 0
  else e1
/-- b16_b40.v:206-224. -/
@[netlist] def next_temp_8 (s : S) (valid_in : Bool) (data_in : Nat) (full_rst : Bool) : Bool :=
  let e1 := if s.fsm_state = 3 then (if valid_in = true then (if (w65 s) = true then s.temp_8
      else data_in.testBit 0)
    else s.temp_8)
  else s.temp_8
  if full_rst = true then false
  else e1
/-- b16_b40.v:234-241. -/
@[netlist] def next_valid_out (s : S) (i_busy : Bool) (full_rst : Bool) : Bool :=
  let e1 := (w17 s i_busy)
  if full_rst = true then false
  else e1
/-- b16_b40.v:242-252. -/
@[netlist] def next_buff_chs (s : S) (i_busy : Bool) (full_rst : Bool) : Bool :=
  let e1 := if (w23 s i_busy) = true then (w25 s)
  else s.buff_chs
  if full_rst = true then false
  else e1
/-- b16_b40.v:253-273. -/
@[netlist] def next_buffer1_valid (s : S) (i_busy : Bool) (valid_in : Bool) (full_rst : Bool) : Bool :=
  let e1 := if (w31 s i_busy) = true then (if (w33 s) = true then false
    else s.buffer1_valid)
  else s.buffer1_valid
  let e2 := if s.fsm_state = 3 then (if valid_in = true then true
    else e1)
  else e1
  if full_rst = true then false
  else e2
/-- b16_b40.v:274-294. -/
@[netlist] def next_buffer2_valid (s : S) (i_busy : Bool) (valid_in : Bool) (full_rst : Bool) : Bool :=
  let e1 := if (w39 s i_busy) = true then (if (w41 s) = true then false
    else s.buffer2_valid)
  else s.buffer2_valid
  let e2 := if s.fsm_state = 6 then (if valid_in = true then true
    else e1)
  else e1
  if full_rst = true then false
  else e2
/-- b16_b40.v:295-333. -/
@[netlist] def next_o_busy (s : S) (valid_in : Bool) (full_rst : Bool) : Bool :=
  let e1 := if s.fsm_state = 0 then (if (w43 s) = true then false
    else s.o_busy)
  else if s.fsm_state = 3 then (if valid_in = true then (if (w45 s) = true then s.o_busy
      else true)
    else s.o_busy)
  else if s.fsm_state = 5 then (if (w47 s) = true then false
    else s.o_busy)
  else if s.fsm_state = 6 then (if valid_in = true then (if (w49 s) = true then s.o_busy
      else true)
    else s.o_busy)
  else s.o_busy
  if full_rst = true then false
  else e1
/-- b16_b40.v:334-387. -/
@[netlist] def next_fsm_state (s : S) (valid_in : Bool) (rst : Bool) : Nat :=
  let e1 := if s.fsm_state = 0 then (if (w51 s) = true then 1
    else s.fsm_state)
  else if s.fsm_state = 1 then (if valid_in = true then 2
    else s.fsm_state)
  else if s.fsm_state = 2 then (if valid_in = true then 3
    else s.fsm_state)
  else if s.fsm_state = 3 then (if valid_in = true then (if (w53 s) = true then 4
      else 5)
    else s.fsm_state)
  else if s.fsm_state = 5 then (if (w55 s) = true then 4
    else s.fsm_state)
  else if s.fsm_state = 4 then (if valid_in = true then 6
    else s.fsm_state)
  else if s.fsm_state = 6 then (if valid_in = true then (if (w57 s) = true then 1
      else 0)
    else s.fsm_state)
  else s.fsm_state
  if rst = true then 0
  else e1
/-- b16_b40.v:388-411. -/
@[netlist] def next_buffer1 (s : S) (valid_in : Bool) (data_in : Nat) (full_rst : Bool) : Nat :=
  let e1 := if s.fsm_state = 1 then (if valid_in = true then put s.buffer1 24 16 data_in
    else s.buffer1)
  else if s.fsm_state = 2 then (if valid_in = true then put s.buffer1 8 16 data_in
    else s.buffer1)
  else if s.fsm_state = 3 then (if valid_in = true then put s.buffer1 0 8 (slc data_in 8 8)
    else s.buffer1)
  else s.buffer1
  if full_rst = true then 0
  else e1

/-- b16_b40.v:6-415: one rising clock edge (`always @(posedge ...)`). -/
@[netlist] def step (s : S) (i_busy : Bool) (valid_in : Bool) (data_in : Nat) (full_rst : Bool) (rst : Bool) : S :=
  { temp_8 := (next_temp_8 s valid_in data_in full_rst)
    buffer2 := (next_buffer2 s valid_in data_in full_rst)
    buffer1 := (next_buffer1 s valid_in data_in full_rst)
    fsm_state := (next_fsm_state s valid_in rst)
    o_busy := (next_o_busy s valid_in full_rst)
    buffer2_valid := (next_buffer2_valid s i_busy valid_in full_rst)
    buffer1_valid := (next_buffer1_valid s i_busy valid_in full_rst)
    buff_chs := (next_buff_chs s i_busy full_rst)
    valid_out := (next_valid_out s i_busy full_rst) }

/-- b16_b40.v:6-415: the initial values given in the netlist. -/
def Init (s : S) : Prop :=
  s.temp_8 = false ∧
  s.buffer2 = 0 ∧
  s.buffer1 = 0 ∧
  s.fsm_state = 0 ∧
  s.o_busy = false ∧
  s.buffer2_valid = false ∧
  s.buffer1_valid = false ∧
  s.buff_chs = false ∧
  s.valid_out = false

/-- b16_b40.v:6-415: a state with these initial values; registers without one are 0. -/
def powerUp : S :=
  { temp_8 := false
    buffer2 := 0
    buffer1 := 0
    fsm_state := 0
    o_busy := false
    buffer2_valid := false
    buffer1_valid := false
    buff_chs := false
    valid_out := false }

theorem powerUp_init : Init powerUp := ⟨rfl, rfl, rfl, rfl, rfl, rfl, rfl, rfl, rfl⟩

end top

end Netlist.Pack40V
