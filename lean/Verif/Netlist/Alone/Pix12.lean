/- Generated by netlist/v2lean.py from verilog_src/predictor_p1_c4_pix1_2.v.  Do not edit. -/
import Verif.Netlist.Basic

set_option autoImplicit false
set_option linter.unusedVariables false

namespace Netlist.Pix12V
open Netlist

namespace top

/-- predictor_p1_c4_pix1_2.v:6-452: registers, memories and instances of module `top`. -/
structure S where
  end_out : Bool
  buff_26 : Nat
  buff_25 : Nat
  buff_24 : Nat
  buff : Nat
  buff_ctr : Bool
  pixel_out_2 : Nat
  pixel_out : Nat
  debug_counter : Nat
  new_row_reg : Bool
  valid_out : Bool
  predic_out_3 : Nat
  predic_out : Nat
  lbuff_32 : Nat
  lbuff_31 : Nat
  lbuff_30 : Nat
  lbuff : Nat
  lbuff_ctr : Bool

/-- predictor_p1_c4_pix1_2.v:135. -/
@[netlist] def w10 (s : S) (valid_in : Bool) : Bool :=
  valid_in == true
/-- predictor_p1_c4_pix1_2.v:136. -/
@[netlist] def w12 (s : S) : Bool :=
  s.lbuff_ctr == true
/-- predictor_p1_c4_pix1_2.v:137. -/
@[netlist] def w14 (s : S) (valid_in : Bool) : Bool :=
  (w10 s valid_in) && (w12 s)
/-- predictor_p1_c4_pix1_2.v:138. -/
@[netlist] def w16 (s : S) (new_row : Bool) : Bool :=
  new_row || s.new_row_reg
/-- predictor_p1_c4_pix1_2.v:139. -/
@[netlist] def w19 (s : S) : Nat :=
  (s.debug_counter + 1) % 2 ^ 33
/-- predictor_p1_c4_pix1_2.v:140. -/
@[netlist] def w22 (s : S) : Nat :=
  (s.buff_ctr.toNat + 1) % 2 ^ 2
/-- predictor_p1_c4_pix1_2.v:141. -/
@[netlist] def w28 (s : S) : Nat :=
  (s.lbuff_ctr.toNat + 1) % 2 ^ 2
/-- predictor_p1_c4_pix1_2.v:142. -/
@[netlist] def w4 (s : S) (valid_in : Bool) : Bool :=
  valid_in == true
/-- predictor_p1_c4_pix1_2.v:143. -/
@[netlist] def w6 (s : S) (new_row : Bool) : Bool :=
  new_row == true
/-- predictor_p1_c4_pix1_2.v:144. -/
@[netlist] def w8 (s : S) (new_row : Bool) (valid_in : Bool) : Bool :=
  (w4 s valid_in) && (w6 s new_row)
/-- predictor_p1_c4_pix1_2.v:448. -/
@[netlist] def w18 (s : S) : Nat :=
  (w19 s)
/-- predictor_p1_c4_pix1_2.v:449. -/
@[netlist] def w21 (s : S) : Nat :=
  (w22 s)
/-- predictor_p1_c4_pix1_2.v:450. -/
@[netlist] def w27 (s : S) : Nat :=
  (w28 s)
/-- predictor_p1_c4_pix1_2.v:194-197. -/
@[netlist] def next_new_row_latch (s : S) (new_row : Bool) : Bool :=
  (w16 s new_row)
/-- predictor_p1_c4_pix1_2.v:451. -/
@[netlist] def new_row_latch (s : S) (new_row : Bool) : Bool :=
  (next_new_row_latch s new_row)
/-- predictor_p1_c4_pix1_2.v:181-193. -/
@[netlist] def next_new_row_reg (s : S) (new_row : Bool) (rst : Bool) (valid_in : Bool) : Bool :=
  let e1 := if (w8 s new_row valid_in) = true then true
  else if (w14 s valid_in) = true then false
  else s.new_row_reg
  if rst = true then false
  else e1
/-- predictor_p1_c4_pix1_2.v:198-211. -/
@[netlist] def next_lbuff_ctr (s : S) (new_row : Bool) (rst : Bool) (valid_in : Bool) : Bool :=
  let e1 := if valid_in = true then (if (new_row_latch s new_row) = true then (w27 s).testBit 0
    else s.lbuff_ctr)
  else s.lbuff_ctr
  if rst = true then false
  else e1
/-- predictor_p1_c4_pix1_2.v:212-228. -/
@[netlist] def next_lbuff (s : S) (new_row : Bool) (pixel_in : Nat) (rst : Bool) (valid_in : Bool) : Nat :=
  let e1 := if valid_in = true then (if (new_row_latch s new_row) = true then (if s.lbuff_ctr = false then pixel_in
      else s.lbuff)
    else s.lbuff)
  else s.lbuff
  if rst = true then 0x8000
  else e1
/-- predictor_p1_c4_pix1_2.v:229-245. -/
@[netlist] def next_lbuff_30 (s : S) (new_row : Bool) (pixel_in_1 : Nat) (rst : Bool) (valid_in : Bool) : Nat :=
  let e1 := if valid_in = true then (if (new_row_latch s new_row) = true then (if s.lbuff_ctr = false then pixel_in_1
      else s.lbuff_30)
    else s.lbuff_30)
  else s.lbuff_30
  if rst = true then 0x8000
  else e1
/-- predictor_p1_c4_pix1_2.v:246-262. -/
@[netlist] def next_lbuff_31 (s : S) (new_row : Bool) (pixel_in : Nat) (rst : Bool) (valid_in : Bool) : Nat :=
  let e1 := if valid_in = true then (if (new_row_latch s new_row) = true then (if s.lbuff_ctr = true then pixel_in
      else s.lbuff_31)
    else s.lbuff_31)
  else s.lbuff_31
  if rst = true then 0x8000
  else e1
/-- predictor_p1_c4_pix1_2.v:263-279. -/
@[netlist] def next_lbuff_32 (s : S) (new_row : Bool) (pixel_in_1 : Nat) (rst : Bool) (valid_in : Bool) : Nat :=
  let e1 := if valid_in = true then (if (new_row_latch s new_row) = true then (if s.lbuff_ctr = true then pixel_in_1
      else s.lbuff_32)
    else s.lbuff_32)
  else s.lbuff_32
  if rst = true then 0x8000
  else e1
/-- predictor_p1_c4_pix1_2.v:280-305. -/
@[netlist] def next_predic_out (s : S) (new_row : Bool) (rst : Bool) (valid_in : Bool) : Nat :=
  let e1 := if valid_in = true then (if (new_row_latch s new_row) = true then (if s.lbuff_ctr = false then s.lbuff
      else if s.lbuff_ctr = true then s.lbuff_31
      else s.predic_out)
    else (if s.buff_ctr = false then s.buff
      else if s.buff_ctr = true then s.buff_25
      else s.predic_out))
  else s.predic_out
  if rst = true then 0
  else e1
/-- predictor_p1_c4_pix1_2.v:306-331. -/
@[netlist] def next_predic_out_3 (s : S) (new_row : Bool) (rst : Bool) (valid_in : Bool) : Nat :=
  let e1 := if valid_in = true then (if (new_row_latch s new_row) = true then (if s.lbuff_ctr = false then s.lbuff_30
      else if s.lbuff_ctr = true then s.lbuff_32
      else s.predic_out_3)
    else (if s.buff_ctr = false then s.buff_24
      else if s.buff_ctr = true then s.buff_26
      else s.predic_out_3))
  else s.predic_out_3
  if rst = true then 0
  else e1
/-- predictor_p1_c4_pix1_2.v:332-339. -/
@[netlist] def next_valid_out (s : S) (rst : Bool) (valid_in : Bool) : Bool :=
  if rst = true then false
  else valid_in
/-- predictor_p1_c4_pix1_2.v:340-347. -/
@[netlist] def next_end_out (s : S) (end_in : Bool) (rst : Bool) : Bool :=
  if rst = true then false
  else end_in
/-- predictor_p1_c4_pix1_2.v:348-358. -/
@[netlist] def next_debug_counter (s : S) (rst : Bool) (valid_in : Bool) : Nat :=
  let e1 := if valid_in = true then slc (w18 s) 0 32
  else s.debug_counter
  if rst = true then 0
  else e1
/-- predictor_p1_c4_pix1_2.v:359-369. -/
@[netlist] def next_pixel_out (s : S) (pixel_in : Nat) (rst : Bool) (valid_in : Bool) : Nat :=
  let e1 := if valid_in = true then pixel_in
  else s.pixel_out
  if rst = true then 0
  else e1
/-- predictor_p1_c4_pix1_2.v:370-380. -/
@[netlist] def next_pixel_out_2 (s : S) (pixel_in_1 : Nat) (rst : Bool) (valid_in : Bool) : Nat :=
  let e1 := if valid_in = true then pixel_in_1
  else s.pixel_out_2
  if rst = true then 0
  else e1
/-- predictor_p1_c4_pix1_2.v:381-391. -/
@[netlist] def next_buff_ctr (s : S) (rst : Bool) (valid_in : Bool) : Bool :=
  let e1 := if valid_in = true then (w21 s).testBit 0
  else s.buff_ctr
  if rst = true then false
  else e1
/-- predictor_p1_c4_pix1_2.v:392-405. -/
@[netlist] def next_buff (s : S) (pixel_in : Nat) (rst : Bool) (valid_in : Bool) : Nat :=
  let e1 := if valid_in = true then (if s.buff_ctr = false then pixel_in
    else s.buff)
  else s.buff
  if rst = true then 0x8000
  else e1
/-- predictor_p1_c4_pix1_2.v:406-419. -/
@[netlist] def next_buff_24 (s : S) (pixel_in_1 : Nat) (rst : Bool) (valid_in : Bool) : Nat :=
  let e1 := if valid_in = true then (if s.buff_ctr = false then pixel_in_1
    else s.buff_24)
  else s.buff_24
  if rst = true then 0x8000
  else e1
/-- predictor_p1_c4_pix1_2.v:420-433. -/
@[netlist] def next_buff_25 (s : S) (pixel_in : Nat) (rst : Bool) (valid_in : Bool) : Nat :=
  let e1 := if valid_in = true then (if s.buff_ctr = true then pixel_in
    else s.buff_25)
  else s.buff_25
  if rst = true then 0x8000
  else e1
/-- predictor_p1_c4_pix1_2.v:434-447. -/
@[netlist] def next_buff_26 (s : S) (pixel_in_1 : Nat) (rst : Bool) (valid_in : Bool) : Nat :=
  let e1 := if valid_in = true then (if s.buff_ctr = true then pixel_in_1
    else s.buff_26)
  else s.buff_26
  if rst = true then 0x8000
  else e1

/-- predictor_p1_c4_pix1_2.v:6-452: one rising clock edge (`always @(posedge ...)`). -/
@[netlist] def step (s : S) (new_row : Bool) (pixel_in : Nat) (pixel_in_1 : Nat) (end_in : Bool) (rst : Bool) (valid_in : Bool) : S :=
  { end_out := (next_end_out s end_in rst)
    buff_26 := (next_buff_26 s pixel_in_1 rst valid_in)
    buff_25 := (next_buff_25 s pixel_in rst valid_in)
    buff_24 := (next_buff_24 s pixel_in_1 rst valid_in)
    buff := (next_buff s pixel_in rst valid_in)
    buff_ctr := (next_buff_ctr s rst valid_in)
    pixel_out_2 := (next_pixel_out_2 s pixel_in_1 rst valid_in)
    pixel_out := (next_pixel_out s pixel_in rst valid_in)
    debug_counter := (next_debug_counter s rst valid_in)
    new_row_reg := (next_new_row_reg s new_row rst valid_in)
    valid_out := (next_valid_out s rst valid_in)
    predic_out_3 := (next_predic_out_3 s new_row rst valid_in)
    predic_out := (next_predic_out s new_row rst valid_in)
    lbuff_32 := (next_lbuff_32 s new_row pixel_in_1 rst valid_in)
    lbuff_31 := (next_lbuff_31 s new_row pixel_in rst valid_in)
    lbuff_30 := (next_lbuff_30 s new_row pixel_in_1 rst valid_in)
    lbuff := (next_lbuff s new_row pixel_in rst valid_in)
    lbuff_ctr := (next_lbuff_ctr s new_row rst valid_in) }

/-- predictor_p1_c4_pix1_2.v:6-452: the initial values given in the netlist. -/
def Init (s : S) : Prop :=
  s.end_out = false ∧
  s.buff_26 = 0x8000 ∧
  s.buff_25 = 0x8000 ∧
  s.buff_24 = 0x8000 ∧
  s.buff = 0x8000 ∧
  s.buff_ctr = false ∧
  s.pixel_out_2 = 0 ∧
  s.pixel_out = 0 ∧
  s.debug_counter = 0 ∧
  s.new_row_reg = false ∧
  s.valid_out = false ∧
  s.predic_out_3 = 0 ∧
  s.predic_out = 0 ∧
  s.lbuff_32 = 0x8000 ∧
  s.lbuff_31 = 0x8000 ∧
  s.lbuff_30 = 0x8000 ∧
  s.lbuff = 0x8000 ∧
  s.lbuff_ctr = false

/-- predictor_p1_c4_pix1_2.v:6-452: a state with these initial values; registers without one are 0. -/
def powerUp : S :=
  { end_out := false
    buff_26 := 0x8000
    buff_25 := 0x8000
    buff_24 := 0x8000
    buff := 0x8000
    buff_ctr := false
    pixel_out_2 := 0
    pixel_out := 0
    debug_counter := 0
    new_row_reg := false
    valid_out := false
    predic_out_3 := 0
    predic_out := 0
    lbuff_32 := 0x8000
    lbuff_31 := 0x8000
    lbuff_30 := 0x8000
    lbuff := 0x8000
    lbuff_ctr := false }

theorem powerUp_init : Init powerUp := ⟨rfl, rfl, rfl, rfl, rfl, rfl, rfl, rfl, rfl, rfl, rfl, rfl, rfl, rfl, rfl, rfl, rfl, rfl⟩

end top

end Netlist.Pix12V
