/- Generated by netlist/v2lean.py from verilog_src/encode.v.  Do not edit. -/
import Verif.Netlist.Basic

set_option autoImplicit false
set_option linter.unusedVariables false

namespace Netlist.EncV
open Netlist

namespace anonymous

/-- encode.v:5-181: registers, memories and instances of module `anonymous`. -/
structure S where
  enc_ctr : Nat
  enc_out : Nat
  val_in_late : Nat
  ssss_late : Nat
  end_out : Bool
  end_late : Bool
  valid_out : Bool
  valid_late : Bool

/-- encode.v:74. -/
@[netlist] def w9 (s : S) (rp_data : Nat) : Nat :=
  ((slc rp_data 32 5) + (slc s.ssss_late 0 4)) % 2 ^ 6
/-- encode.v:75. -/
@[netlist] def w1 (s : S) : Bool :=
  s.ssss_late == 16
/-- encode.v:76. -/
@[netlist] def w4 (s : S) (rp_data : Nat) : Nat :=
  rp_data ||| s.val_in_late
/-- encode.v:77. -/
@[netlist] def w6 (s : S) : Bool :=
  s.ssss_late == 16
/-- encode.v:178. -/
@[netlist] def w3 (s : S) (rp_data : Nat) : Nat :=
  (w4 s rp_data)
/-- encode.v:179. -/
@[netlist] def w8 (s : S) (rp_data : Nat) : Nat :=
  (w9 s rp_data)
/-- encode.v:142-145. -/
@[netlist] def next_rp_addr (s : S) (ssss : Nat) : Nat :=
  ssss
/-- encode.v:180. -/
@[netlist] def rp_addr (s : S) (ssss : Nat) : Nat :=
  (next_rp_addr s ssss)
/-- encode.v:94-101. -/
@[netlist] def next_valid_late (s : S) (rst : Bool) (valid_in : Bool) : Bool :=
  if rst = true then false
  else valid_in
/-- encode.v:102-109. -/
@[netlist] def next_valid_out (s : S) (rst : Bool) : Bool :=
  if rst = true then false
  else s.valid_late
/-- encode.v:110-117. -/
@[netlist] def next_end_late (s : S) (end_in : Bool) (rst : Bool) : Bool :=
  if rst = true then false
  else end_in
/-- encode.v:118-125. -/
@[netlist] def next_end_out (s : S) (rst : Bool) : Bool :=
  if rst = true then false
  else s.end_late
/-- encode.v:126-133. -/
@[netlist] def next_ssss_late (s : S) (ssss : Nat) (rst : Bool) : Nat :=
  if rst = true then 0
  else ssss
/-- encode.v:134-141. -/
@[netlist] def next_val_in_late (s : S) (val_in : Nat) (rst : Bool) : Nat :=
  if rst = true then 0
  else val_in
/-- encode.v:146-161. -/
@[netlist] def next_enc_out (s : S) (rp_data : Nat) (rst : Bool) : Nat :=
  let e1 := if s.valid_late = true then (if (w1 s) = true then slc rp_data 0 31
    else slc (w3 s rp_data) 0 31)
  else s.enc_out
  if rst = true then 0
  else e1
/-- encode.v:162-177. -/
@[netlist] def next_enc_ctr (s : S) (rp_data : Nat) (rst : Bool) : Nat :=
  let e1 := if s.valid_late = true then (if (w6 s) = true then slc rp_data 32 5
    else slc (w8 s rp_data) 0 5)
  else s.enc_ctr
  if rst = true then 0
  else e1

/-- encode.v:5-181: one rising clock edge (`always @(posedge ...)`). -/
@[netlist] def step (s : S) (end_in : Bool) (ssss : Nat) (val_in : Nat) (rp_data : Nat) (rst : Bool) (valid_in : Bool) : S :=
  { enc_ctr := (next_enc_ctr s rp_data rst)
    enc_out := (next_enc_out s rp_data rst)
    val_in_late := (next_val_in_late s val_in rst)
    ssss_late := (next_ssss_late s ssss rst)
    end_out := (next_end_out s rst)
    end_late := (next_end_late s end_in rst)
    valid_out := (next_valid_out s rst)
    valid_late := (next_valid_late s rst valid_in) }

/-- encode.v:5-181: the initial values given in the netlist. -/
def Init (s : S) : Prop :=
  s.enc_ctr = 0 ∧
  s.enc_out = 0 ∧
  s.val_in_late = 0 ∧
  s.ssss_late = 0 ∧
  s.end_out = false ∧
  s.end_late = false ∧
  s.valid_out = false ∧
  s.valid_late = false

/-- encode.v:5-181: a state with these initial values; registers without one are 0. -/
def powerUp : S :=
  { enc_ctr := 0
    enc_out := 0
    val_in_late := 0
    ssss_late := 0
    end_out := false
    end_late := false
    valid_out := false
    valid_late := false }

theorem powerUp_init : Init powerUp := ⟨rfl, rfl, rfl, rfl, rfl, rfl, rfl, rfl⟩

end anonymous

namespace top

/-- encode.v:186-340: registers, memories and instances of module `top`. -/
structure S where
  r_0_ : Nat
  mem : List Nat
  u_w9 : anonymous.S

/-- encode.v:289. -/
@[netlist] def mem_r_data (s : S) : Nat :=
  s.mem.getD s.r_0_ 0
/-- encode.v:251-264. -/
@[netlist] def end_out_6 (s : S) : Bool :=
  s.u_w9.end_out
/-- encode.v:326-329. -/
@[netlist] def next_end_out (s : S) : Bool :=
  (end_out_6 s)
/-- encode.v:330. -/
@[netlist] def end_out (s : S) : Bool :=
  (next_end_out s)
/-- encode.v:251-264. -/
@[netlist] def valid_out_5 (s : S) : Bool :=
  s.u_w9.valid_out
/-- encode.v:322-325. -/
@[netlist] def next_valid_out (s : S) : Bool :=
  (valid_out_5 s)
/-- encode.v:331. -/
@[netlist] def valid_out (s : S) : Bool :=
  (next_valid_out s)
/-- encode.v:251-264. -/
@[netlist] def enc_ctr_8 (s : S) : Nat :=
  s.u_w9.enc_ctr
/-- encode.v:318-321. -/
@[netlist] def next_enc_ctr (s : S) : Nat :=
  (enc_ctr_8 s)
/-- encode.v:332. -/
@[netlist] def enc_ctr (s : S) : Nat :=
  (next_enc_ctr s)
/-- encode.v:251-264. -/
@[netlist] def enc_out_7 (s : S) : Nat :=
  s.u_w9.enc_out
/-- encode.v:314-317. -/
@[netlist] def next_enc_out (s : S) : Nat :=
  (enc_out_7 s)
/-- encode.v:333. -/
@[netlist] def enc_out (s : S) : Nat :=
  (next_enc_out s)
/-- encode.v:310-313. -/
@[netlist] def next_rp_data (s : S) : Nat :=
  (mem_r_data s)
/-- encode.v:334. -/
@[netlist] def rp_data (s : S) : Nat :=
  (next_rp_data s)
/-- encode.v:302-305. -/
@[netlist] def next_ssss_3 (s : S) (ssss : Nat) : Nat :=
  ssss
/-- encode.v:336. -/
@[netlist] def ssss_3 (s : S) (ssss : Nat) : Nat :=
  (next_ssss_3 s ssss)
/-- encode.v:251-264. -/
@[netlist] def rp_addr (s : S) (ssss : Nat) : Nat :=
  anonymous.rp_addr s.u_w9 (ssss_3 s ssss)
/-- encode.v:306-309. -/
@[netlist] def next_mem_r_addr (s : S) (ssss : Nat) : Nat :=
  (rp_addr s ssss)
/-- encode.v:335. -/
@[netlist] def mem_r_addr (s : S) (ssss : Nat) : Nat :=
  (next_mem_r_addr s ssss)
/-- encode.v:298-301. -/
@[netlist] def next_valid_in_1 (s : S) (valid_in : Bool) : Bool :=
  valid_in
/-- encode.v:337. -/
@[netlist] def valid_in_1 (s : S) (valid_in : Bool) : Bool :=
  (next_valid_in_1 s valid_in)
/-- encode.v:294-297. -/
@[netlist] def next_end_in_2 (s : S) (end_in : Bool) : Bool :=
  end_in
/-- encode.v:338. -/
@[netlist] def end_in_2 (s : S) (end_in : Bool) : Bool :=
  (next_end_in_2 s end_in)
/-- encode.v:290-293. -/
@[netlist] def next_val_in_4 (s : S) (val_in : Nat) : Nat :=
  val_in
/-- encode.v:339. -/
@[netlist] def val_in_4 (s : S) (val_in : Nat) : Nat :=
  (next_val_in_4 s val_in)

/-- encode.v:186-340: one rising clock edge (`always @(posedge ...)`). -/
@[netlist] def step (s : S) (end_in : Bool) (valid_in : Bool) (ssss : Nat) (rst : Bool) (val_in : Nat) : S :=
  { r_0_ := (next_mem_r_addr s ssss)
    mem := s.mem
    u_w9 := anonymous.step s.u_w9 (end_in_2 s end_in) (ssss_3 s ssss) (val_in_4 s val_in) (rp_data s) rst (valid_in_1 s valid_in) }

/-- encode.v:186-340: the initial values given in the netlist. -/
def Init (s : S) : Prop :=
  s.mem = [0x40000000e, 0x300000000, 0x300000004, 0x300000010, 0x300000030, 0x300000080, 0x300000140, 0x300000300, 0x500001e00, 0x600007c00, 0x70001f800, 0x80007f000, 0x9001fe000, 0xa007fc000, 0xb01ff8000, 0xc07ff0000, 0xd00001ffe] ∧
  anonymous.Init s.u_w9

/-- encode.v:186-340: a state with these initial values; registers without one are 0. -/
def powerUp : S :=
  { r_0_ := 0
    mem := [0x40000000e, 0x300000000, 0x300000004, 0x300000010, 0x300000030, 0x300000080, 0x300000140, 0x300000300, 0x500001e00, 0x600007c00, 0x70001f800, 0x80007f000, 0x9001fe000, 0xa007fc000, 0xb01ff8000, 0xc07ff0000, 0xd00001ffe]
    u_w9 := anonymous.powerUp }

theorem powerUp_init : Init powerUp := ⟨rfl, anonymous.powerUp_init⟩

end top

end Netlist.EncV
