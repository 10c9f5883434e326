/- Generated by netlist/v2lean.py from verilog_src/merge.v.  Do not edit. -/
import Verif.Netlist.Basic

set_option autoImplicit false
set_option linter.unusedVariables false

namespace Netlist.MergeV
open Netlist

namespace anonymous

/-- merge.v:5-98: registers, memories and instances of module `anonymous`. -/
structure S where
  end_out : Bool
  valid_out : Bool
  enc_out : Nat
  enc_out_ctr : Nat

/-- merge.v:49. -/
@[netlist] def w1 (s : S) (enc_in_ctr1 : Nat) (enc_in_ctr2 : Nat) : Nat :=
  (enc_in_ctr1 + enc_in_ctr2) % 2 ^ 6
/-- merge.v:50. -/
@[netlist] def w3 (s : S) (enc_in_ctr2 : Nat) (enc_in1 : Nat) : Nat :=
  enc_in1 * 2 ^ enc_in_ctr2 % 2 ^ 62
/-- merge.v:51. -/
@[netlist] def w5 (s : S) (enc_in_ctr2 : Nat) (enc_in1 : Nat) (enc_in2 : Nat) : Nat :=
  (w3 s enc_in_ctr2 enc_in1) ||| enc_in2
/-- merge.v:60-70. -/
@[netlist] def next_enc_out_ctr (s : S) (enc_in_ctr1 : Nat) (enc_in_ctr2 : Nat) (rst : Bool) (valid_in : Bool) : Nat :=
  let e1 := if valid_in = true then (w1 s enc_in_ctr1 enc_in_ctr2)
  else s.enc_out_ctr
  if rst = true then 0
  else e1
/-- merge.v:71-81. -/
@[netlist] def next_enc_out (s : S) (enc_in_ctr2 : Nat) (enc_in1 : Nat) (enc_in2 : Nat) (rst : Bool) (valid_in : Bool) : Nat :=
  let e1 := if valid_in = true then (w5 s enc_in_ctr2 enc_in1 enc_in2)
  else s.enc_out
  if rst = true then 0
  else e1
/-- merge.v:82-89. -/
@[netlist] def next_valid_out (s : S) (rst : Bool) (valid_in : Bool) : Bool :=
  if rst = true then false
  else valid_in
/-- merge.v:90-97. -/
@[netlist] def next_end_out (s : S) (end_in : Bool) (rst : Bool) : Bool :=
  if rst = true then false
  else end_in

/-- merge.v:5-98: one rising clock edge (`always @(posedge ...)`). -/
@[netlist] def step (s : S) (enc_in_ctr1 : Nat) (enc_in_ctr2 : Nat) (enc_in1 : Nat) (enc_in2 : Nat) (end_in : Bool) (rst : Bool) (valid_in : Bool) : S :=
  { end_out := (next_end_out s end_in rst)
    valid_out := (next_valid_out s rst valid_in)
    enc_out := (next_enc_out s enc_in_ctr2 enc_in1 enc_in2 rst valid_in)
    enc_out_ctr := (next_enc_out_ctr s enc_in_ctr1 enc_in_ctr2 rst valid_in) }

/-- merge.v:5-98: the initial values given in the netlist. -/
def Init (s : S) : Prop :=
  s.end_out = false ∧
  s.valid_out = false ∧
  s.enc_out = 0 ∧
  s.enc_out_ctr = 0

/-- merge.v:5-98: a state with these initial values; registers without one are 0. -/
def powerUp : S :=
  { end_out := false
    valid_out := false
    enc_out := 0
    enc_out_ctr := 0 }

theorem powerUp_init : Init powerUp := ⟨rfl, rfl, rfl, rfl⟩

end anonymous

namespace top

/-- merge.v:103-232: registers, memories and instances of module `top`. -/
structure S where
  u_w9 : anonymous.S

/-- merge.v:168-181. -/
@[netlist] def end_out_8 (s : S) : Bool :=
  s.u_w9.end_out
/-- merge.v:218-221. -/
@[netlist] def next_end_out (s : S) : Bool :=
  (end_out_8 s)
/-- merge.v:222. -/
@[netlist] def end_out (s : S) : Bool :=
  (next_end_out s)
/-- merge.v:168-181. -/
@[netlist] def valid_out_7 (s : S) : Bool :=
  s.u_w9.valid_out
/-- merge.v:214-217. -/
@[netlist] def next_valid_out (s : S) : Bool :=
  (valid_out_7 s)
/-- merge.v:223. -/
@[netlist] def valid_out (s : S) : Bool :=
  (next_valid_out s)
/-- merge.v:168-181. -/
@[netlist] def enc_out_ctr_5 (s : S) : Nat :=
  s.u_w9.enc_out_ctr
/-- merge.v:210-213. -/
@[netlist] def next_enc_out_ctr (s : S) : Nat :=
  (enc_out_ctr_5 s)
/-- merge.v:224. -/
@[netlist] def enc_out_ctr (s : S) : Nat :=
  (next_enc_out_ctr s)
/-- merge.v:168-181. -/
@[netlist] def enc_out_6 (s : S) : Nat :=
  s.u_w9.enc_out
/-- merge.v:206-209. -/
@[netlist] def next_enc_out (s : S) : Nat :=
  (enc_out_6 s)
/-- merge.v:225. -/
@[netlist] def enc_out (s : S) : Nat :=
  (next_enc_out s)
/-- merge.v:202-205. -/
@[netlist] def next_enc_in_ctr2 (s : S) (enc_in_ctr_2 : Nat) : Nat :=
  enc_in_ctr_2
/-- merge.v:226. -/
@[netlist] def enc_in_ctr2 (s : S) (enc_in_ctr_2 : Nat) : Nat :=
  (next_enc_in_ctr2 s enc_in_ctr_2)
/-- merge.v:198-201. -/
@[netlist] def next_enc_in2 (s : S) (enc_in_1 : Nat) : Nat :=
  enc_in_1
/-- merge.v:227. -/
@[netlist] def enc_in2 (s : S) (enc_in_1 : Nat) : Nat :=
  (next_enc_in2 s enc_in_1)
/-- merge.v:194-197. -/
@[netlist] def next_end_in_4 (s : S) (end_in : Bool) : Bool :=
  end_in
/-- merge.v:228. -/
@[netlist] def end_in_4 (s : S) (end_in : Bool) : Bool :=
  (next_end_in_4 s end_in)
/-- merge.v:190-193. -/
@[netlist] def next_valid_in_3 (s : S) (valid_in : Bool) : Bool :=
  valid_in
/-- merge.v:229. -/
@[netlist] def valid_in_3 (s : S) (valid_in : Bool) : Bool :=
  (next_valid_in_3 s valid_in)
/-- merge.v:186-189. -/
@[netlist] def next_enc_in_ctr1 (s : S) (enc_in_ctr : Nat) : Nat :=
  enc_in_ctr
/-- merge.v:230. -/
@[netlist] def enc_in_ctr1 (s : S) (enc_in_ctr : Nat) : Nat :=
  (next_enc_in_ctr1 s enc_in_ctr)
/-- merge.v:182-185. -/
@[netlist] def next_enc_in1 (s : S) (enc_in : Nat) : Nat :=
  enc_in
/-- merge.v:231. -/
@[netlist] def enc_in1 (s : S) (enc_in : Nat) : Nat :=
  (next_enc_in1 s enc_in)

/-- merge.v:103-232: one rising clock edge (`always @(posedge ...)`). -/
@[netlist] def step (s : S) (enc_in_ctr : Nat) (valid_in : Bool) (end_in : Bool) (enc_in_1 : Nat) (enc_in_ctr_2 : Nat) (rst : Bool) (enc_in : Nat) : S :=
  { u_w9 := anonymous.step s.u_w9 (enc_in_ctr1 s enc_in_ctr) (enc_in_ctr2 s enc_in_ctr_2) (enc_in1 s enc_in) (enc_in2 s enc_in_1) (end_in_4 s end_in) rst (valid_in_3 s valid_in) }

/-- merge.v:103-232: the initial values given in the netlist. -/
def Init (s : S) : Prop :=
  anonymous.Init s.u_w9

/-- merge.v:103-232: a state with these initial values; registers without one are 0. -/
def powerUp : S :=
  { u_w9 := anonymous.powerUp }

theorem powerUp_init : Init powerUp := anonymous.powerUp_init

end top

end Netlist.MergeV
