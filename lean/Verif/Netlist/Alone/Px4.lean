/- Generated by netlist/v2lean.py from verilog_src/predictor_p1_c4_px4.v.  Do not edit. -/
import Verif.Netlist.Basic

set_option autoImplicit false
set_option linter.unusedVariables false

namespace Netlist.Px4V
open Netlist

namespace top

/-- predictor_p1_c4_px4.v:6-385: registers, memories and instances of module `top`. -/
structure S where
  end_out : Bool
  lbuff : Nat
  predic_out_6 : Nat
  predic_out_5 : Nat
  predic_out_4 : Nat
  predic_out : Nat
  pixel_out_9 : Nat
  pixel_out_8 : Nat
  pixel_out_7 : Nat
  pixel_out : Nat
  valid_out : Bool
  buff_15 : Nat
  buff_13 : Nat
  buff_11 : Nat
  buff : Nat
  lbuff_14 : Nat
  lbuff_12 : Nat
  lbuff_10 : Nat

/-- predictor_p1_c4_px4.v:161-171. -/
@[netlist] def next_pixel_out (s : S) (pixel_in : Nat) (rst : Bool) (valid_in : Bool) : Nat :=
  let e1 := if valid_in = true then pixel_in
  else s.pixel_out
  if rst = true then 0
  else e1
/-- predictor_p1_c4_px4.v:172-182. -/
@[netlist] def next_pixel_out_7 (s : S) (pixel_in_1 : Nat) (rst : Bool) (valid_in : Bool) : Nat :=
  let e1 := if valid_in = true then pixel_in_1
  else s.pixel_out_7
  if rst = true then 0
  else e1
/-- predictor_p1_c4_px4.v:183-196. -/
@[netlist] def next_lbuff_12 (s : S) (pixel_in_2 : Nat) (new_row : Bool) (rst : Bool) (valid_in : Bool) : Nat :=
  let e1 := if valid_in = true then (if new_row = true then pixel_in_2
    else s.lbuff_12)
  else s.lbuff_12
  if rst = true then 0x8000
  else e1
/-- predictor_p1_c4_px4.v:197-210. -/
@[netlist] def next_lbuff_14 (s : S) (pixel_in_3 : Nat) (new_row : Bool) (rst : Bool) (valid_in : Bool) : Nat :=
  let e1 := if valid_in = true then (if new_row = true then pixel_in_3
    else s.lbuff_14)
  else s.lbuff_14
  if rst = true then 0x8000
  else e1
/-- predictor_p1_c4_px4.v:211-221. -/
@[netlist] def next_buff (s : S) (pixel_in : Nat) (rst : Bool) (valid_in : Bool) : Nat :=
  let e1 := if valid_in = true then pixel_in
  else s.buff
  if rst = true then 0x8000
  else e1
/-- predictor_p1_c4_px4.v:222-232. -/
@[netlist] def next_buff_11 (s : S) (pixel_in_1 : Nat) (rst : Bool) (valid_in : Bool) : Nat :=
  let e1 := if valid_in = true then pixel_in_1
  else s.buff_11
  if rst = true then 0x8000
  else e1
/-- predictor_p1_c4_px4.v:233-243. -/
@[netlist] def next_buff_13 (s : S) (pixel_in_2 : Nat) (rst : Bool) (valid_in : Bool) : Nat :=
  let e1 := if valid_in = true then pixel_in_2
  else s.buff_13
  if rst = true then 0x8000
  else e1
/-- predictor_p1_c4_px4.v:244-254. -/
@[netlist] def next_buff_15 (s : S) (pixel_in_3 : Nat) (rst : Bool) (valid_in : Bool) : Nat :=
  let e1 := if valid_in = true then pixel_in_3
  else s.buff_15
  if rst = true then 0x8000
  else e1
/-- predictor_p1_c4_px4.v:255-262. -/
@[netlist] def next_valid_out (s : S) (rst : Bool) (valid_in : Bool) : Bool :=
  if rst = true then false
  else valid_in
/-- predictor_p1_c4_px4.v:263-270. -/
@[netlist] def next_end_out (s : S) (end_in : Bool) (rst : Bool) : Bool :=
  if rst = true then false
  else end_in
/-- predictor_p1_c4_px4.v:271-281. -/
@[netlist] def next_pixel_out_8 (s : S) (pixel_in_2 : Nat) (rst : Bool) (valid_in : Bool) : Nat :=
  let e1 := if valid_in = true then pixel_in_2
  else s.pixel_out_8
  if rst = true then 0
  else e1
/-- predictor_p1_c4_px4.v:282-292. -/
@[netlist] def next_pixel_out_9 (s : S) (pixel_in_3 : Nat) (rst : Bool) (valid_in : Bool) : Nat :=
  let e1 := if valid_in = true then pixel_in_3
  else s.pixel_out_9
  if rst = true then 0
  else e1
/-- predictor_p1_c4_px4.v:293-308. -/
@[netlist] def next_predic_out (s : S) (new_row : Bool) (rst : Bool) (valid_in : Bool) : Nat :=
  let e1 := if valid_in = true then (if new_row = true then s.lbuff
    else s.buff)
  else s.predic_out
  if rst = true then 0
  else e1
/-- predictor_p1_c4_px4.v:309-324. -/
@[netlist] def next_predic_out_4 (s : S) (new_row : Bool) (rst : Bool) (valid_in : Bool) : Nat :=
  let e1 := if valid_in = true then (if new_row = true then s.lbuff_10
    else s.buff_11)
  else s.predic_out_4
  if rst = true then 0
  else e1
/-- predictor_p1_c4_px4.v:325-340. -/
@[netlist] def next_predic_out_5 (s : S) (new_row : Bool) (rst : Bool) (valid_in : Bool) : Nat :=
  let e1 := if valid_in = true then (if new_row = true then s.lbuff_12
    else s.buff_13)
  else s.predic_out_5
  if rst = true then 0
  else e1
/-- predictor_p1_c4_px4.v:341-356. -/
@[netlist] def next_predic_out_6 (s : S) (new_row : Bool) (rst : Bool) (valid_in : Bool) : Nat :=
  let e1 := if valid_in = true then (if new_row = true then s.lbuff_14
    else s.buff_15)
  else s.predic_out_6
  if rst = true then 0
  else e1
/-- predictor_p1_c4_px4.v:357-370. -/
@[netlist] def next_lbuff (s : S) (pixel_in : Nat) (new_row : Bool) (rst : Bool) (valid_in : Bool) : Nat :=
  let e1 := if valid_in = true then (if new_row = true then pixel_in
    else s.lbuff)
  else s.lbuff
  if rst = true then 0x8000
  else e1
/-- predictor_p1_c4_px4.v:371-384. -/
@[netlist] def next_lbuff_10 (s : S) (pixel_in_1 : Nat) (new_row : Bool) (rst : Bool) (valid_in : Bool) : Nat :=
  let e1 := if valid_in = true then (if new_row = true then pixel_in_1
    else s.lbuff_10)
  else s.lbuff_10
  if rst = true then 0x8000
  else e1

/-- predictor_p1_c4_px4.v:6-385: one rising clock edge (`always @(posedge ...)`). -/
@[netlist] def step (s : S) (pixel_in : Nat) (pixel_in_1 : Nat) (pixel_in_2 : Nat) (pixel_in_3 : Nat) (new_row : Bool) (end_in : Bool) (rst : Bool) (valid_in : Bool) : S :=
  { end_out := (next_end_out s end_in rst)
    lbuff := (next_lbuff s pixel_in new_row rst valid_in)
    predic_out_6 := (next_predic_out_6 s new_row rst valid_in)
    predic_out_5 := (next_predic_out_5 s new_row rst valid_in)
    predic_out_4 := (next_predic_out_4 s new_row rst valid_in)
    predic_out := (next_predic_out s new_row rst valid_in)
    pixel_out_9 := (next_pixel_out_9 s pixel_in_3 rst valid_in)
    pixel_out_8 := (next_pixel_out_8 s pixel_in_2 rst valid_in)
    pixel_out_7 := (next_pixel_out_7 s pixel_in_1 rst valid_in)
    pixel_out := (next_pixel_out s pixel_in rst valid_in)
    valid_out := (next_valid_out s rst valid_in)
    buff_15 := (next_buff_15 s pixel_in_3 rst valid_in)
    buff_13 := (next_buff_13 s pixel_in_2 rst valid_in)
    buff_11 := (next_buff_11 s pixel_in_1 rst valid_in)
    buff := (next_buff s pixel_in rst valid_in)
    lbuff_14 := (next_lbuff_14 s pixel_in_3 new_row rst valid_in)
    lbuff_12 := (next_lbuff_12 s pixel_in_2 new_row rst valid_in)
    lbuff_10 := (next_lbuff_10 s pixel_in_1 new_row rst valid_in) }

/-- predictor_p1_c4_px4.v:6-385: the initial values given in the netlist. -/
def Init (s : S) : Prop :=
  s.end_out = false ∧
  s.lbuff = 0x8000 ∧
  s.predic_out_6 = 0 ∧
  s.predic_out_5 = 0 ∧
  s.predic_out_4 = 0 ∧
  s.predic_out = 0 ∧
  s.pixel_out_9 = 0 ∧
  s.pixel_out_8 = 0 ∧
  s.pixel_out_7 = 0 ∧
  s.pixel_out = 0 ∧
  s.valid_out = false ∧
  s.buff_15 = 0x8000 ∧
  s.buff_13 = 0x8000 ∧
  s.buff_11 = 0x8000 ∧
  s.buff = 0x8000 ∧
  s.lbuff_14 = 0x8000 ∧
  s.lbuff_12 = 0x8000 ∧
  s.lbuff_10 = 0x8000

/-- predictor_p1_c4_px4.v:6-385: a state with these initial values; registers without one are 0. -/
def powerUp : S :=
  { end_out := false
    lbuff := 0x8000
    predic_out_6 := 0
    predic_out_5 := 0
    predic_out_4 := 0
    predic_out := 0
    pixel_out_9 := 0
    pixel_out_8 := 0
    pixel_out_7 := 0
    pixel_out := 0
    valid_out := false
    buff_15 := 0x8000
    buff_13 := 0x8000
    buff_11 := 0x8000
    buff := 0x8000
    lbuff_14 := 0x8000
    lbuff_12 := 0x8000
    lbuff_10 := 0x8000 }

theorem powerUp_init : Init powerUp := ⟨rfl, rfl, rfl, rfl, rfl, rfl, rfl, rfl, rfl, rfl, rfl, rfl, rfl, rfl, rfl, rfl, rfl, rfl⟩

end top

end Netlist.Px4V
