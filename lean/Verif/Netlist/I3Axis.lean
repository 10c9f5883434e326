/- Generated by netlist/v2lean.py from verilog_src/integration_3_axi_stream.v.  Do not edit. -/
import Verif.Netlist.Beta

set_option autoImplicit false
set_option linter.unusedVariables false

namespace Netlist.I3Axis
open Netlist

namespace anonymous_10

/-- integration_3_axi_stream.v:665-760: registers, memories and instances of module `anonymous$10`. -/
structure S where
  end_out : Bool
  valid_out : Bool
  enc_out : Nat
  enc_out_ctr : Nat

/-- integration_3_axi_stream.v:710. -/
@[netlist] def w1 (s : S) (enc_in_ctr1 : Nat) (enc_in_ctr2 : Nat) : Nat :=
  (enc_in_ctr1 + enc_in_ctr2) % 2 ^ 7
/-- integration_3_axi_stream.v:711. -/
@[netlist] def w4 (s : S) (enc_in_ctr2 : Nat) (enc_in1 : Nat) : Nat :=
  enc_in1 * 2 ^ enc_in_ctr2 % 2 ^ 119
/-- integration_3_axi_stream.v:712. -/
@[netlist] def w6 (s : S) (enc_in_ctr2 : Nat) (enc_in1 : Nat) (enc_in2 : Nat) : Nat :=
  (w4 s enc_in_ctr2 enc_in1) ||| enc_in2
/-- integration_3_axi_stream.v:759. -/
@[netlist] def w3 (s : S) (enc_in_ctr2 : Nat) (enc_in1 : Nat) (enc_in2 : Nat) : Nat :=
  (w6 s enc_in_ctr2 enc_in1 enc_in2)
/-- integration_3_axi_stream.v:721-731. -/
@[netlist] def next_enc_out_ctr (s : S) (enc_in_ctr1 : Nat) (enc_in_ctr2 : Nat) (rst : Bool) (valid_in : Bool) : Nat :=
  let e1 := if valid_in = true then (w1 s enc_in_ctr1 enc_in_ctr2)
  else s.enc_out_ctr
  if rst = true then 0
  else e1
/-- integration_3_axi_stream.v:732-742. -/
@[netlist] def next_enc_out (s : S) (enc_in_ctr2 : Nat) (enc_in1 : Nat) (enc_in2 : Nat) (rst : Bool) (valid_in : Bool) : Nat :=
  let e1 := if valid_in = true then slc (w3 s enc_in_ctr2 enc_in1 enc_in2) 0 112
  else s.enc_out
  if rst = true then 0
  else e1
/-- integration_3_axi_stream.v:743-750. -/
@[netlist] def next_valid_out (s : S) (rst : Bool) (valid_in : Bool) : Bool :=
  if rst = true then false
  else valid_in
/-- integration_3_axi_stream.v:751-758. -/
@[netlist] def next_end_out (s : S) (end_in : Bool) (rst : Bool) : Bool :=
  if rst = true then false
  else end_in

/-- integration_3_axi_stream.v:665-760: one rising clock edge (`always @(posedge ...)`). -/
@[netlist] def step (s : S) (enc_in_ctr1 : Nat) (enc_in_ctr2 : Nat) (enc_in1 : Nat) (enc_in2 : Nat) (end_in : Bool) (rst : Bool) (valid_in : Bool) : S :=
  { end_out := (next_end_out s end_in rst)
    valid_out := (next_valid_out s rst valid_in)
    enc_out := (next_enc_out s enc_in_ctr2 enc_in1 enc_in2 rst valid_in)
    enc_out_ctr := (next_enc_out_ctr s enc_in_ctr1 enc_in_ctr2 rst valid_in) }

/-- integration_3_axi_stream.v:665-760: the initial values given in the netlist. -/
def Init (s : S) : Prop :=
  s.end_out = false ∧
  s.valid_out = false ∧
  s.enc_out = 0 ∧
  s.enc_out_ctr = 0

/-- integration_3_axi_stream.v:665-760: a state with these initial values; registers without one are 0. -/
def powerUp : S :=
  { end_out := false
    valid_out := false
    enc_out := 0
    enc_out_ctr := 0 }

theorem powerUp_init : Init powerUp := ⟨rfl, rfl, rfl, rfl⟩

end anonymous_10

namespace anonymous_9

/-- integration_3_axi_stream.v:2179-2272: registers, memories and instances of module `anonymous$9`. -/
structure S where
  end_out : Bool
  valid_out : Bool
  enc_out : Nat
  enc_out_ctr : Nat

/-- integration_3_axi_stream.v:2222. -/
@[netlist] def w1 (s : S) (enc_in_ctr1 : Nat) (enc_in_ctr2 : Nat) : Nat :=
  (enc_in_ctr1 + enc_in_ctr2) % 2 ^ 6
/-- integration_3_axi_stream.v:2223. -/
@[netlist] def w4 (s : S) (enc_in_ctr2 : Nat) (enc_in1 : Nat) : Nat :=
  enc_in1 * 2 ^ enc_in_ctr2 % 2 ^ 59
/-- integration_3_axi_stream.v:2224. -/
@[netlist] def w6 (s : S) (enc_in_ctr2 : Nat) (enc_in1 : Nat) (enc_in2 : Nat) : Nat :=
  (w4 s enc_in_ctr2 enc_in1) ||| enc_in2
/-- integration_3_axi_stream.v:2271. -/
@[netlist] def w3 (s : S) (enc_in_ctr2 : Nat) (enc_in1 : Nat) (enc_in2 : Nat) : Nat :=
  (w6 s enc_in_ctr2 enc_in1 enc_in2)
/-- integration_3_axi_stream.v:2233-2243. -/
@[netlist] def next_enc_out_ctr (s : S) (enc_in_ctr1 : Nat) (enc_in_ctr2 : Nat) (rst : Bool) (valid_in : Bool) : Nat :=
  let e1 := if valid_in = true then (w1 s enc_in_ctr1 enc_in_ctr2)
  else s.enc_out_ctr
  if rst = true then 0
  else e1
/-- integration_3_axi_stream.v:2244-2254. -/
@[netlist] def next_enc_out (s : S) (enc_in_ctr2 : Nat) (enc_in1 : Nat) (enc_in2 : Nat) (rst : Bool) (valid_in : Bool) : Nat :=
  let e1 := if valid_in = true then slc (w3 s enc_in_ctr2 enc_in1 enc_in2) 0 56
  else s.enc_out
  if rst = true then 0
  else e1
/-- integration_3_axi_stream.v:2255-2262. -/
@[netlist] def next_valid_out (s : S) (rst : Bool) (valid_in : Bool) : Bool :=
  if rst = true then false
  else valid_in
/-- integration_3_axi_stream.v:2263-2270. -/
@[netlist] def next_end_out (s : S) (end_in : Bool) (rst : Bool) : Bool :=
  if rst = true then false
  else end_in

/-- integration_3_axi_stream.v:2179-2272: one rising clock edge (`always @(posedge ...)`). -/
@[netlist] def step (s : S) (enc_in_ctr1 : Nat) (enc_in_ctr2 : Nat) (enc_in1 : Nat) (enc_in2 : Nat) (end_in : Bool) (rst : Bool) (valid_in : Bool) : S :=
  { end_out := (next_end_out s end_in rst)
    valid_out := (next_valid_out s rst valid_in)
    enc_out := (next_enc_out s enc_in_ctr2 enc_in1 enc_in2 rst valid_in)
    enc_out_ctr := (next_enc_out_ctr s enc_in_ctr1 enc_in_ctr2 rst valid_in) }

/-- integration_3_axi_stream.v:2179-2272: the initial values given in the netlist. -/
def Init (s : S) : Prop :=
  s.end_out = false ∧
  s.valid_out = false ∧
  s.enc_out = 0 ∧
  s.enc_out_ctr = 0

/-- integration_3_axi_stream.v:2179-2272: a state with these initial values; registers without one are 0. -/
def powerUp : S :=
  { end_out := false
    valid_out := false
    enc_out := 0
    enc_out_ctr := 0 }

theorem powerUp_init : Init powerUp := ⟨rfl, rfl, rfl, rfl⟩

end anonymous_9

namespace converter

/-- integration_3_axi_stream.v:2276-2739: registers, memories and instances of module `converter`. -/
structure S where
  out_end_latch : Bool
  enc_out_latch : Nat
  in_end : Bool
  enc_in_ctr : Nat
  enc_in : Nat
  valid_out_reg : Bool
  out_end_reg : Bool
  enc_out_ctr_reg : Nat
  enc_out_reg : Nat
  fsm_state : Nat
  latch_output : Bool
  valid_in : Bool

/-- integration_3_axi_stream.v:2423. -/
@[netlist] def w7 (s : S) (close_full : Bool) : Bool :=
  close_full == false
/-- integration_3_axi_stream.v:2391. -/
@[netlist] def w9 (s : S) (valid_out : Bool) (close_full : Bool) : Bool :=
  valid_out && (w7 s close_full)
/-- integration_3_axi_stream.v:2392. -/
@[netlist] def w11 (s : S) : Bool :=
  decide (s.enc_out_ctr_reg ≤ 48)
/-- integration_3_axi_stream.v:2393. -/
@[netlist] def w13 (s : S) (close_full : Bool) : Bool :=
  close_full == false
/-- integration_3_axi_stream.v:2394. -/
@[netlist] def w15 (s : S) (close_full : Bool) : Bool :=
  s.valid_out_reg && (w13 s close_full)
/-- integration_3_axi_stream.v:2395. -/
@[netlist] def w17 (s : S) (close_full : Bool) : Bool :=
  close_full == false
/-- integration_3_axi_stream.v:2396. -/
@[netlist] def w1 (s : S) : Bool :=
  decide (s.enc_out_ctr_reg ≤ 48)
/-- integration_3_axi_stream.v:2397. -/
@[netlist] def w19 (s : S) (valid_out : Bool) (close_full : Bool) : Bool :=
  valid_out && (w17 s close_full)
/-- integration_3_axi_stream.v:2398. -/
@[netlist] def w21 (s : S) (close_full : Bool) : Bool :=
  close_full == false
/-- integration_3_axi_stream.v:2399. -/
@[netlist] def w23 (s : S) (close_full : Bool) : Bool :=
  s.valid_out_reg && (w21 s close_full)
/-- integration_3_axi_stream.v:2400. -/
@[netlist] def w25 (s : S) (close_full : Bool) : Bool :=
  close_full == false
/-- integration_3_axi_stream.v:2401. -/
@[netlist] def w27 (s : S) (valid_out : Bool) (close_full : Bool) : Bool :=
  valid_out && (w25 s close_full)
/-- integration_3_axi_stream.v:2402. -/
@[netlist] def w29 (s : S) : Bool :=
  decide (s.enc_out_ctr_reg ≤ 48)
/-- integration_3_axi_stream.v:2403. -/
@[netlist] def w31 (s : S) : Bool :=
  decide (s.enc_out_ctr_reg ≤ 96)
/-- integration_3_axi_stream.v:2404. -/
@[netlist] def w33 (s : S) : Bool :=
  decide (s.enc_out_ctr_reg ≤ 112)
/-- integration_3_axi_stream.v:2405. -/
@[netlist] def w35 (s : S) (close_full : Bool) : Bool :=
  close_full == false
/-- integration_3_axi_stream.v:2406. -/
@[netlist] def w37 (s : S) (close_full : Bool) : Bool :=
  s.valid_out_reg && (w35 s close_full)
/-- integration_3_axi_stream.v:2407. -/
@[netlist] def w3 (s : S) (close_full : Bool) : Bool :=
  close_full == false
/-- integration_3_axi_stream.v:2408. -/
@[netlist] def w39 (s : S) (close_full : Bool) : Bool :=
  close_full == false
/-- integration_3_axi_stream.v:2409. -/
@[netlist] def w41 (s : S) (valid_out : Bool) (close_full : Bool) : Bool :=
  valid_out && (w39 s close_full)
/-- integration_3_axi_stream.v:2410. -/
@[netlist] def w43 (s : S) : Bool :=
  decide (s.enc_out_ctr_reg ≤ 48)
/-- integration_3_axi_stream.v:2411. -/
@[netlist] def w45 (s : S) : Bool :=
  decide (s.enc_out_ctr_reg ≤ 96)
/-- integration_3_axi_stream.v:2412. -/
@[netlist] def w47 (s : S) : Bool :=
  decide (s.enc_out_ctr_reg ≤ 112)
/-- integration_3_axi_stream.v:2413. -/
@[netlist] def w49 (s : S) : Nat :=
  slc s.enc_out_reg 96 16
/-- integration_3_axi_stream.v:2414. -/
@[netlist] def w51 (s : S) : Bool :=
  decide (s.enc_out_ctr_reg ≤ 48)
/-- integration_3_axi_stream.v:2415. -/
@[netlist] def w53 (s : S) : Bool :=
  decide (s.enc_out_ctr_reg ≤ 96)
/-- integration_3_axi_stream.v:2416. -/
@[netlist] def w55 (s : S) : Bool :=
  decide (s.enc_out_ctr_reg ≤ 112)
/-- integration_3_axi_stream.v:2417. -/
@[netlist] def w58 (s : S) : Nat :=
  (2 ^ 8 + s.enc_out_ctr_reg - 48) % 2 ^ 8
/-- integration_3_axi_stream.v:2418. -/
@[netlist] def w5 (s : S) (close_full : Bool) : Bool :=
  s.valid_out_reg && (w3 s close_full)
/-- integration_3_axi_stream.v:2419. -/
@[netlist] def w61 (s : S) : Nat :=
  (2 ^ 8 + s.enc_out_ctr_reg - 96) % 2 ^ 8
/-- integration_3_axi_stream.v:2420. -/
@[netlist] def w63 (s : S) : Bool :=
  decide (s.enc_out_ctr_reg ≤ 48)
/-- integration_3_axi_stream.v:2421. -/
@[netlist] def w65 (s : S) : Bool :=
  decide (s.enc_out_ctr_reg ≤ 48)
/-- integration_3_axi_stream.v:2422. -/
@[netlist] def w67 (s : S) : Bool :=
  decide (s.enc_out_ctr_reg ≤ 48)
/-- integration_3_axi_stream.v:2737. -/
@[netlist] def w57 (s : S) : Nat :=
  (w58 s)
/-- integration_3_axi_stream.v:2738. -/
@[netlist] def w60 (s : S) : Nat :=
  (w61 s)
/-- integration_3_axi_stream.v:2448-2476. -/
@[netlist] def next_valid_in (s : S) (rst : Bool) : Bool :=
  let e1 := if s.fsm_state = 0 then false
  else if s.fsm_state = 2 then false
  else if s.fsm_state = 1 then (if s.valid_out_reg = true then (if (w1 s) = true then true
      else true)
    else false)
  else if s.fsm_state = 3 then true
  else if s.fsm_state = 4 then true
  else s.valid_in
  if rst = true then false
  else e1
/-- integration_3_axi_stream.v:2477-2515. -/
@[netlist] def next_latch_output (s : S) (valid_out : Bool) (rst : Bool) (close_full : Bool) : Bool :=
  let e1 := if s.fsm_state = 0 then (if (w5 s close_full) = true then true
    else if (w9 s valid_out close_full) = true then true
    else false)
  else if s.fsm_state = 1 then (if s.valid_out_reg = true then (if (w11 s) = true then (if close_full = true then false
        else s.latch_output)
      else false)
    else s.latch_output)
  else if s.fsm_state = 3 then (if (w15 s close_full) = true then true
    else if (w19 s valid_out close_full) = true then true
    else s.latch_output)
  else s.latch_output
  if rst = true then false
  else e1
/-- integration_3_axi_stream.v:2516-2534. -/
@[netlist] def next_enc_out_latch (s : S) (rst : Bool) : Nat :=
  let e1 := if s.fsm_state = 1 then (if s.valid_out_reg = true then (if (w65 s) = true then s.enc_out_latch
      else slc s.enc_out_reg 0 96)
    else s.enc_out_latch)
  else s.enc_out_latch
  if rst = true then 0
  else e1
/-- integration_3_axi_stream.v:2535-2553. -/
@[netlist] def next_out_end_latch (s : S) (rst : Bool) : Bool :=
  let e1 := if s.fsm_state = 1 then (if s.valid_out_reg = true then (if (w67 s) = true then s.out_end_latch
      else s.out_end_reg)
    else s.out_end_latch)
  else s.out_end_latch
  if rst = true then false
  else e1
/-- integration_3_axi_stream.v:2554-2602. -/
@[netlist] def next_fsm_state (s : S) (valid_out : Bool) (rst : Bool) (close_full : Bool) : Nat :=
  let e1 := if s.fsm_state = 0 then (if (w23 s close_full) = true then 1
    else if (w27 s valid_out close_full) = true then 2
    else 0)
  else if s.fsm_state = 2 then 1
  else if s.fsm_state = 1 then (if s.valid_out_reg = true then (if (w29 s) = true then (if close_full = true then 0
        else s.fsm_state)
      else (if (w31 s) = true then 3
        else if (w33 s) = true then 4
        else s.fsm_state))
    else s.fsm_state)
  else if s.fsm_state = 3 then (if (w37 s close_full) = true then 1
    else if (w41 s valid_out close_full) = true then 2
    else 0)
  else if s.fsm_state = 4 then 3
  else s.fsm_state
  if rst = true then 0
  else e1
/-- integration_3_axi_stream.v:2603-2615. -/
@[netlist] def next_enc_out_reg (s : S) (enc_out : Nat) (rst : Bool) : Nat :=
  let e1 := if s.fsm_state = 2 then enc_out
  else if s.fsm_state = 1 then enc_out
  else s.enc_out_reg
  if rst = true then 0
  else e1
/-- integration_3_axi_stream.v:2616-2628. -/
@[netlist] def next_enc_out_ctr_reg (s : S) (enc_out_ctr : Nat) (rst : Bool) : Nat :=
  let e1 := if s.fsm_state = 2 then enc_out_ctr
  else if s.fsm_state = 1 then enc_out_ctr
  else s.enc_out_ctr_reg
  if rst = true then 0
  else e1
/-- integration_3_axi_stream.v:2629-2641. -/
@[netlist] def next_out_end_reg (s : S) (out_end : Bool) (rst : Bool) : Bool :=
  let e1 := if s.fsm_state = 2 then out_end
  else if s.fsm_state = 1 then out_end
  else s.out_end_reg
  if rst = true then false
  else e1
/-- integration_3_axi_stream.v:2642-2654. -/
@[netlist] def next_valid_out_reg (s : S) (valid_out : Bool) (rst : Bool) : Bool :=
  let e1 := if s.fsm_state = 2 then valid_out
  else if s.fsm_state = 1 then valid_out
  else s.valid_out_reg
  if rst = true then false
  else e1
/-- integration_3_axi_stream.v:2655-2682. -/
@[netlist] def next_enc_in (s : S) (rst : Bool) : Nat :=
  let e1 := if s.fsm_state = 1 then (if s.valid_out_reg = true then (if (w43 s) = true then slc s.enc_out_reg 0 48
      else (if (w45 s) = true then slc s.enc_out_reg 48 48
        else if (w47 s) = true then (w49 s)
        else s.enc_in))
    else s.enc_in)
  else if s.fsm_state = 3 then slc s.enc_out_latch 0 48
  else if s.fsm_state = 4 then slc s.enc_out_latch 48 48
  else s.enc_in
  if rst = true then 0
  else e1
/-- integration_3_axi_stream.v:2683-2713. -/
@[netlist] def next_enc_in_ctr (s : S) (rst : Bool) : Nat :=
  let e1 := if s.fsm_state = 1 then (if s.valid_out_reg = true then (if (w51 s) = true then slc s.enc_out_ctr_reg 0 6
      else (if (w53 s) = true then slc (w57 s) 0 6
        else if (w55 s) = true then slc (w60 s) 0 6
        else 48))
    else s.enc_in_ctr)
  else if s.fsm_state = 3 then 48
  else if s.fsm_state = 4 then 48
  else s.enc_in_ctr
  if rst = true then 0
  else e1
/-- integration_3_axi_stream.v:2714-2736. -/
@[netlist] def next_in_end (s : S) (rst : Bool) : Bool :=
  let e1 := if s.fsm_state = 1 then (if s.valid_out_reg = true then (if (w63 s) = true then s.out_end_reg
      else false)
    else s.in_end)
  else if s.fsm_state = 3 then s.out_end_latch
  else if s.fsm_state = 4 then false
  else s.in_end
  if rst = true then false
  else e1

/-- integration_3_axi_stream.v:2276-2739: one rising clock edge (`always @(posedge ...)`). -/
@[netlist] def step (s : S) (valid_out : Bool) (enc_out : Nat) (enc_out_ctr : Nat) (out_end : Bool) (rst : Bool) (close_full : Bool) : S :=
  { out_end_latch := (next_out_end_latch s rst)
    enc_out_latch := (next_enc_out_latch s rst)
    in_end := (next_in_end s rst)
    enc_in_ctr := (next_enc_in_ctr s rst)
    enc_in := (next_enc_in s rst)
    valid_out_reg := (next_valid_out_reg s valid_out rst)
    out_end_reg := (next_out_end_reg s out_end rst)
    enc_out_ctr_reg := (next_enc_out_ctr_reg s enc_out_ctr rst)
    enc_out_reg := (next_enc_out_reg s enc_out rst)
    fsm_state := (next_fsm_state s valid_out rst close_full)
    latch_output := (next_latch_output s valid_out rst close_full)
    valid_in := (next_valid_in s rst) }

/-- integration_3_axi_stream.v:2276-2739: the initial values given in the netlist. -/
def Init (s : S) : Prop :=
  s.out_end_latch = false ∧
  s.enc_out_latch = 0 ∧
  s.in_end = false ∧
  s.enc_in_ctr = 0 ∧
  s.enc_in = 0 ∧
  s.valid_out_reg = false ∧
  s.out_end_reg = false ∧
  s.enc_out_ctr_reg = 0 ∧
  s.enc_out_reg = 0 ∧
  s.fsm_state = 0 ∧
  s.latch_output = false ∧
  s.valid_in = false

/-- integration_3_axi_stream.v:2276-2739: a state with these initial values; registers without one are 0. -/
def powerUp : S :=
  { out_end_latch := false
    enc_out_latch := 0
    in_end := false
    enc_in_ctr := 0
    enc_in := 0
    valid_out_reg := false
    out_end_reg := false
    enc_out_ctr_reg := 0
    enc_out_reg := 0
    fsm_state := 0
    latch_output := false
    valid_in := false }

theorem powerUp_init : Init powerUp := ⟨rfl, rfl, rfl, rfl, rfl, rfl, rfl, rfl, rfl, rfl, rfl, rfl⟩

end converter

namespace unbuffered_12

/-- integration_3_axi_stream.v:8186-8672: registers, memories and instances of module `unbuffered$12`. -/
structure S where
  level : Nat
  consume : Nat
  produce : Nat
  r_0_ : Nat
  storage : List Nat

/-- integration_3_axi_stream.v:8285. -/
@[netlist] def w10 (s : S) : Bool :=
  s.produce == 0
/-- integration_3_axi_stream.v:8315. -/
@[netlist] def w7 (s : S) : Nat :=
  (2 ^ 9 + s.produce - 1) % 2 ^ 9
/-- integration_3_axi_stream.v:8286. -/
@[netlist] def w9 (s : S) : Nat :=
  if (w10 s) then 254 else (w7 s)
/-- integration_3_axi_stream.v:8295. -/
@[netlist] def w2 (s : S) : Bool :=
  s.level != 255
/-- integration_3_axi_stream.v:8586-8589. -/
@[netlist] def next_writable (s : S) : Bool :=
  (w2 s)
/-- integration_3_axi_stream.v:8671. -/
@[netlist] def writable (s : S) : Bool :=
  (next_writable s)
/-- integration_3_axi_stream.v:8287. -/
@[netlist] def w13 (s : S) (replace : Bool) : Bool :=
  (writable s) || replace
/-- integration_3_axi_stream.v:8288. -/
@[netlist] def w15 (s : S) (we : Bool) (replace : Bool) : Bool :=
  we && (w13 s replace)
/-- integration_3_axi_stream.v:8289. -/
@[netlist] def w17 (s : S) (we : Bool) : Bool :=
  (writable s) && we
/-- integration_3_axi_stream.v:8290. -/
@[netlist] def w19 (s : S) (replace : Bool) : Bool :=
  !replace
/-- integration_3_axi_stream.v:8291. -/
@[netlist] def w21 (s : S) (we : Bool) (replace : Bool) : Bool :=
  (w17 s we) && (w19 s replace)
/-- integration_3_axi_stream.v:8292. -/
@[netlist] def w24 (s : S) : Nat :=
  (s.produce + 1) % 2 ^ 9
/-- integration_3_axi_stream.v:8293. -/
@[netlist] def w27 (s : S) : Bool :=
  s.produce == 254
/-- integration_3_axi_stream.v:8294. -/
@[netlist] def w26 (s : S) : Nat :=
  if (w27 s) then 0 else (w24 s)
/-- integration_3_axi_stream.v:8305. -/
@[netlist] def w4 (s : S) : Bool :=
  s.level != 0
/-- integration_3_axi_stream.v:8590-8593. -/
@[netlist] def next_readable (s : S) : Bool :=
  (w4 s)
/-- integration_3_axi_stream.v:8670. -/
@[netlist] def readable (s : S) : Bool :=
  (next_readable s)
/-- integration_3_axi_stream.v:8296. -/
@[netlist] def w30 (s : S) (re : Bool) : Bool :=
  (readable s) && re
/-- integration_3_axi_stream.v:8297. -/
@[netlist] def w33 (s : S) : Nat :=
  (s.consume + 1) % 2 ^ 9
/-- integration_3_axi_stream.v:8298. -/
@[netlist] def w36 (s : S) : Bool :=
  s.consume == 254
/-- integration_3_axi_stream.v:8299. -/
@[netlist] def w35 (s : S) : Nat :=
  if (w36 s) then 0 else (w33 s)
/-- integration_3_axi_stream.v:8300. -/
@[netlist] def w39 (s : S) (we : Bool) : Bool :=
  (writable s) && we
/-- integration_3_axi_stream.v:8301. -/
@[netlist] def w41 (s : S) (replace : Bool) : Bool :=
  !replace
/-- integration_3_axi_stream.v:8302. -/
@[netlist] def w43 (s : S) (we : Bool) (replace : Bool) : Bool :=
  (w39 s we) && (w41 s replace)
/-- integration_3_axi_stream.v:8303. -/
@[netlist] def w46 (s : S) (re : Bool) : Bool :=
  (readable s) && re
/-- integration_3_axi_stream.v:8304. -/
@[netlist] def w45 (s : S) (re : Bool) : Bool :=
  !(w46 s re)
/-- integration_3_axi_stream.v:8306. -/
@[netlist] def w49 (s : S) (we : Bool) (replace : Bool) (re : Bool) : Bool :=
  (w43 s we replace) && (w45 s re)
/-- integration_3_axi_stream.v:8307. -/
@[netlist] def w52 (s : S) : Nat :=
  (s.level + 1) % 2 ^ 9
/-- integration_3_axi_stream.v:8308. -/
@[netlist] def w54 (s : S) (re : Bool) : Bool :=
  (readable s) && re
/-- integration_3_axi_stream.v:8309. -/
@[netlist] def w57 (s : S) (we : Bool) : Bool :=
  (writable s) && we
/-- integration_3_axi_stream.v:8310. -/
@[netlist] def w59 (s : S) (replace : Bool) : Bool :=
  !replace
/-- integration_3_axi_stream.v:8311. -/
@[netlist] def w61 (s : S) (we : Bool) (replace : Bool) : Bool :=
  (w57 s we) && (w59 s replace)
/-- integration_3_axi_stream.v:8312. -/
@[netlist] def w56 (s : S) (we : Bool) (replace : Bool) : Bool :=
  !(w61 s we replace)
/-- integration_3_axi_stream.v:8313. -/
@[netlist] def w64 (s : S) (we : Bool) (replace : Bool) (re : Bool) : Bool :=
  (w54 s re) && (w56 s we replace)
/-- integration_3_axi_stream.v:8314. -/
@[netlist] def w67 (s : S) : Nat :=
  (2 ^ 9 + s.level - 1) % 2 ^ 9
/-- integration_3_axi_stream.v:8585. -/
@[netlist] def rdport_storage_r_data (s : S) : Nat :=
  s.r_0_
/-- integration_3_axi_stream.v:8659. -/
@[netlist] def w6 (s : S) : Nat :=
  (w9 s)
/-- integration_3_axi_stream.v:8660. -/
@[netlist] def w23 (s : S) : Nat :=
  (w26 s)
/-- integration_3_axi_stream.v:8661. -/
@[netlist] def w32 (s : S) : Nat :=
  (w35 s)
/-- integration_3_axi_stream.v:8662. -/
@[netlist] def w51 (s : S) : Nat :=
  (w52 s)
/-- integration_3_axi_stream.v:8663. -/
@[netlist] def w66 (s : S) : Nat :=
  (w67 s)
/-- integration_3_axi_stream.v:8644-8647. -/
@[netlist] def next_rdport_storage_r_en (s : S) (re : Bool) : Bool :=
  re
/-- integration_3_axi_stream.v:8664. -/
@[netlist] def rdport_storage_r_en (s : S) (re : Bool) : Bool :=
  (next_rdport_storage_r_en s re)
/-- integration_3_axi_stream.v:8640-8643. -/
@[netlist] def next_dout (s : S) : Nat :=
  (rdport_storage_r_data s)
/-- integration_3_axi_stream.v:8665. -/
@[netlist] def dout (s : S) : Nat :=
  (next_dout s)
/-- integration_3_axi_stream.v:8636-8639. -/
@[netlist] def next_rdport_storage_r_addr (s : S) : Nat :=
  s.consume
/-- integration_3_axi_stream.v:8666. -/
@[netlist] def rdport_storage_r_addr (s : S) : Nat :=
  (next_rdport_storage_r_addr s)
/-- integration_3_axi_stream.v:8621-8624. -/
@[netlist] def next_wrport_storage_w_en (s : S) (we : Bool) (replace : Bool) : Bool :=
  (w15 s we replace)
/-- integration_3_axi_stream.v:8667. -/
@[netlist] def wrport_storage_w_en (s : S) (we : Bool) (replace : Bool) : Bool :=
  (next_wrport_storage_w_en s we replace)
/-- integration_3_axi_stream.v:8617-8620. -/
@[netlist] def next_wrport_storage_w_data (s : S) (din : Nat) : Nat :=
  din
/-- integration_3_axi_stream.v:8668. -/
@[netlist] def wrport_storage_w_data (s : S) (din : Nat) : Nat :=
  (next_wrport_storage_w_data s din)
/-- integration_3_axi_stream.v:8609-8616. -/
@[netlist] def next_wrport_storage_w_addr (s : S) (replace : Bool) : Nat :=
  if replace = true then slc (w6 s) 0 8
  else s.produce
/-- integration_3_axi_stream.v:8669. -/
@[netlist] def wrport_storage_w_addr (s : S) (replace : Bool) : Nat :=
  (next_wrport_storage_w_addr s replace)
/-- integration_3_axi_stream.v:8594-8608. -/
@[netlist] def next_level (s : S) (we : Bool) (replace : Bool) (re : Bool) (rst : Bool) : Nat :=
  let e1 := if (w49 s we replace re) = true then slc (w51 s) 0 8
  else s.level
  let e2 := if (w64 s we replace re) = true then slc (w66 s) 0 8
  else e1
  if rst = true then 0
  else e2
/-- integration_3_axi_stream.v:8625-8635. -/
@[netlist] def next_produce (s : S) (we : Bool) (replace : Bool) (rst : Bool) : Nat :=
  let e1 := if (w21 s we replace) = true then slc (w23 s) 0 8
  else s.produce
  if rst = true then 0
  else e1
/-- integration_3_axi_stream.v:8648-8658. -/
@[netlist] def next_consume (s : S) (re : Bool) (rst : Bool) : Nat :=
  let e1 := if (w30 s re) = true then slc (w32 s) 0 8
  else s.consume
  if rst = true then 0
  else e1

/-- integration_3_axi_stream.v:8186-8672: one rising clock edge (`always @(posedge ...)`). -/
@[netlist] def step (s : S) (we : Bool) (replace : Bool) (re : Bool) (rst : Bool) (din : Nat) : S :=
  { level := (next_level s we replace re rst)
    consume := (next_consume s re rst)
    produce := (next_produce s we replace rst)
    r_0_ := if (next_rdport_storage_r_en s re) then s.storage.getD (next_rdport_storage_r_addr s) 0 else s.r_0_
    storage := if (next_wrport_storage_w_en s we replace) then s.storage.set (next_wrport_storage_w_addr s replace) (next_wrport_storage_w_data s din) else s.storage }

/-- integration_3_axi_stream.v:8186-8672: the initial values given in the netlist. -/
def Init (s : S) : Prop :=
  s.level = 0 ∧
  s.consume = 0 ∧
  s.produce = 0 ∧
  s.storage = List.replicate 255 0

/-- integration_3_axi_stream.v:8186-8672: a state with these initial values; registers without one are 0. -/
def powerUp : S :=
  { level := 0
    consume := 0
    produce := 0
    r_0_ := 0
    storage := List.replicate 255 0 }

theorem powerUp_init : Init powerUp := ⟨rfl, rfl, rfl, rfl⟩

end unbuffered_12

namespace fifo_11

/-- integration_3_axi_stream.v:3697-3823: registers, memories and instances of module `fifo$11`. -/
structure S where
  readable : Bool
  u_unbuffered : unbuffered_12.S

/-- integration_3_axi_stream.v:3756. -/
@[netlist] def w1 (s : S) : Bool :=
  !s.readable
/-- integration_3_axi_stream.v:3757. -/
@[netlist] def w3 (s : S) (re : Bool) : Bool :=
  (w1 s) || re
/-- integration_3_axi_stream.v:3762-3773. -/
@[netlist] def unbuffered_readable (s : S) : Bool :=
  unbuffered_12.readable s.u_unbuffered
/-- integration_3_axi_stream.v:3758. -/
@[netlist] def w5 (s : S) (re : Bool) : Bool :=
  (unbuffered_readable s) && (w3 s re)
/-- integration_3_axi_stream.v:3762-3773. -/
@[netlist] def unbuffered_level (s : S) : Nat :=
  s.u_unbuffered.level
/-- integration_3_axi_stream.v:3759. -/
@[netlist] def w7 (s : S) : Nat :=
  ((unbuffered_level s) + s.readable.toNat) % 2 ^ 9
/-- integration_3_axi_stream.v:3812-3815. -/
@[netlist] def next_level (s : S) : Nat :=
  (w7 s)
/-- integration_3_axi_stream.v:3816. -/
@[netlist] def level (s : S) : Nat :=
  (next_level s)
/-- integration_3_axi_stream.v:3795-3798. -/
@[netlist] def next_unbuffered_re (s : S) (re : Bool) : Bool :=
  (w5 s re)
/-- integration_3_axi_stream.v:3817. -/
@[netlist] def unbuffered_re (s : S) (re : Bool) : Bool :=
  (next_unbuffered_re s re)
/-- integration_3_axi_stream.v:3762-3773. -/
@[netlist] def unbuffered_dout (s : S) : Nat :=
  unbuffered_12.dout s.u_unbuffered
/-- integration_3_axi_stream.v:3791-3794. -/
@[netlist] def next_dout (s : S) : Nat :=
  (unbuffered_dout s)
/-- integration_3_axi_stream.v:3818. -/
@[netlist] def dout (s : S) : Nat :=
  (next_dout s)
/-- integration_3_axi_stream.v:3786-3790. -/
@[netlist] def next_unbuffered_replace (s : S) : Bool :=
  false
/-- integration_3_axi_stream.v:3819. -/
@[netlist] def unbuffered_replace (s : S) : Bool :=
  (next_unbuffered_replace s)
/-- integration_3_axi_stream.v:3762-3773. -/
@[netlist] def unbuffered_writable (s : S) : Bool :=
  unbuffered_12.writable s.u_unbuffered
/-- integration_3_axi_stream.v:3782-3785. -/
@[netlist] def next_writable (s : S) : Bool :=
  (unbuffered_writable s)
/-- integration_3_axi_stream.v:3820. -/
@[netlist] def writable (s : S) : Bool :=
  (next_writable s)
/-- integration_3_axi_stream.v:3778-3781. -/
@[netlist] def next_unbuffered_we (s : S) (we : Bool) : Bool :=
  we
/-- integration_3_axi_stream.v:3821. -/
@[netlist] def unbuffered_we (s : S) (we : Bool) : Bool :=
  (next_unbuffered_we s we)
/-- integration_3_axi_stream.v:3774-3777. -/
@[netlist] def next_unbuffered_din (s : S) (din : Nat) : Nat :=
  din
/-- integration_3_axi_stream.v:3822. -/
@[netlist] def unbuffered_din (s : S) (din : Nat) : Nat :=
  (next_unbuffered_din s din)
/-- integration_3_axi_stream.v:3799-3811. -/
@[netlist] def next_readable (s : S) (re : Bool) (rst : Bool) : Bool :=
  let e1 := if (unbuffered_re s re) = true then true
  else if re = true then false
  else s.readable
  if rst = true then false
  else e1

/-- integration_3_axi_stream.v:3697-3823: one rising clock edge (`always @(posedge ...)`). -/
@[netlist] def step (s : S) (we : Bool) (re : Bool) (rst : Bool) (din : Nat) : S :=
  { readable := (next_readable s re rst)
    u_unbuffered := unbuffered_12.step s.u_unbuffered (unbuffered_we s we) (unbuffered_replace s) (unbuffered_re s re) rst (unbuffered_din s din) }

/-- integration_3_axi_stream.v:3697-3823: the initial values given in the netlist. -/
def Init (s : S) : Prop :=
  s.readable = false ∧
  unbuffered_12.Init s.u_unbuffered

/-- integration_3_axi_stream.v:3697-3823: a state with these initial values; registers without one are 0. -/
def powerUp : S :=
  { readable := false
    u_unbuffered := unbuffered_12.powerUp }

theorem powerUp_init : Init powerUp := ⟨rfl, unbuffered_12.powerUp_init⟩

end fifo_11

namespace converter_fifo

/-- integration_3_axi_stream.v:2743-2867: registers, memories and instances of module `converter_fifo`. -/
structure S where
  close_full : Bool
  u_fifo : fifo_11.S

/-- integration_3_axi_stream.v:2808-2818. -/
@[netlist] def fifo_level (s : S) : Nat :=
  fifo_11.level s.u_fifo
/-- integration_3_axi_stream.v:2805. -/
@[netlist] def w1 (s : S) : Bool :=
  decide ((fifo_level s) ≥ 250)
/-- integration_3_axi_stream.v:2847-2850. -/
@[netlist] def next_fifo_re (s : S) (latch_output : Bool) : Bool :=
  latch_output
/-- integration_3_axi_stream.v:2859. -/
@[netlist] def fifo_re (s : S) (latch_output : Bool) : Bool :=
  (next_fifo_re s latch_output)
/-- integration_3_axi_stream.v:2808-2818. -/
@[netlist] def fifo_dout (s : S) : Nat :=
  fifo_11.dout s.u_fifo
/-- integration_3_axi_stream.v:2843-2846. -/
@[netlist] def next_out_end (s : S) : Bool :=
  (fifo_dout s).testBit 54
/-- integration_3_axi_stream.v:2860. -/
@[netlist] def out_end (s : S) : Bool :=
  (next_out_end s)
/-- integration_3_axi_stream.v:2839-2842. -/
@[netlist] def next_enc_out_ctr (s : S) : Nat :=
  slc (fifo_dout s) 48 6
/-- integration_3_axi_stream.v:2861. -/
@[netlist] def enc_out_ctr (s : S) : Nat :=
  (next_enc_out_ctr s)
/-- integration_3_axi_stream.v:2835-2838. -/
@[netlist] def next_enc_out (s : S) : Nat :=
  slc (fifo_dout s) 0 48
/-- integration_3_axi_stream.v:2862. -/
@[netlist] def enc_out (s : S) : Nat :=
  (next_enc_out s)
/-- integration_3_axi_stream.v:2808-2818. -/
@[netlist] def fifo_readable (s : S) : Bool :=
  s.u_fifo.readable
/-- integration_3_axi_stream.v:2831-2834. -/
@[netlist] def next_valid_out (s : S) : Bool :=
  (fifo_readable s)
/-- integration_3_axi_stream.v:2863. -/
@[netlist] def valid_out (s : S) : Bool :=
  (next_valid_out s)
/-- integration_3_axi_stream.v:2808-2818. -/
@[netlist] def fifo_writable (s : S) : Bool :=
  fifo_11.writable s.u_fifo
/-- integration_3_axi_stream.v:2827-2830. -/
@[netlist] def next_writable (s : S) : Bool :=
  (fifo_writable s)
/-- integration_3_axi_stream.v:2864. -/
@[netlist] def writable (s : S) : Bool :=
  (next_writable s)
/-- integration_3_axi_stream.v:2823-2826. -/
@[netlist] def next_fifo_din (s : S) (enc_in : Nat) (enc_in_ctr : Nat) (in_end : Bool) : Nat :=
  in_end.toNat * 2 ^ 54 + enc_in_ctr * 2 ^ 48 + enc_in
/-- integration_3_axi_stream.v:2865. -/
@[netlist] def fifo_din (s : S) (enc_in : Nat) (enc_in_ctr : Nat) (in_end : Bool) : Nat :=
  (next_fifo_din s enc_in enc_in_ctr in_end)
/-- integration_3_axi_stream.v:2819-2822. -/
@[netlist] def next_fifo_we (s : S) (valid_in : Bool) : Bool :=
  valid_in
/-- integration_3_axi_stream.v:2866. -/
@[netlist] def fifo_we (s : S) (valid_in : Bool) : Bool :=
  (next_fifo_we s valid_in)
/-- integration_3_axi_stream.v:2851-2858. -/
@[netlist] def next_close_full (s : S) (rst : Bool) : Bool :=
  let e1 := (w1 s)
  if rst = true then false
  else e1

/-- integration_3_axi_stream.v:2743-2867: one rising clock edge (`always @(posedge ...)`). -/
@[netlist] def step (s : S) (enc_in : Nat) (enc_in_ctr : Nat) (in_end : Bool) (latch_output : Bool) (rst : Bool) (valid_in : Bool) : S :=
  { close_full := (next_close_full s rst)
    u_fifo := fifo_11.step s.u_fifo (fifo_we s valid_in) (fifo_re s latch_output) rst (fifo_din s enc_in enc_in_ctr in_end) }

/-- integration_3_axi_stream.v:2743-2867: the initial values given in the netlist. -/
def Init (s : S) : Prop :=
  s.close_full = false ∧
  fifo_11.Init s.u_fifo

/-- integration_3_axi_stream.v:2743-2867: a state with these initial values; registers without one are 0. -/
def powerUp : S :=
  { close_full := false
    u_fifo := fifo_11.powerUp }

theorem powerUp_init : Init powerUp := ⟨rfl, fifo_11.powerUp_init⟩

end converter_fifo

namespace difference

/-- integration_3_axi_stream.v:2871-3112: registers, memories and instances of module `difference`. -/
structure S where
  end_out : Bool
  valid_out : Bool
  val_out_13 : Nat
  val_out_12 : Nat
  val_out_11 : Nat
  val_out_10 : Nat
  val_out_9 : Nat
  val_out_8 : Nat
  val_out_7 : Nat
  val_out : Nat

/-- integration_3_axi_stream.v:2972. -/
@[netlist] def w14 (s : S) (pixel_in : Nat) (predic_in : Nat) : Nat :=
  (2 ^ 13 + pixel_in - predic_in) % 2 ^ 13
/-- integration_3_axi_stream.v:2973. -/
@[netlist] def w16 (s : S) (pixel_in_1 : Nat) (predic_in_2 : Nat) : Nat :=
  (2 ^ 13 + pixel_in_1 - predic_in_2) % 2 ^ 13
/-- integration_3_axi_stream.v:2974. -/
@[netlist] def w18 (s : S) (pixel_in_3 : Nat) (predic_in_4 : Nat) : Nat :=
  (2 ^ 13 + pixel_in_3 - predic_in_4) % 2 ^ 13
/-- integration_3_axi_stream.v:2975. -/
@[netlist] def w20 (s : S) (pixel_in_5 : Nat) (predic_in_6 : Nat) : Nat :=
  (2 ^ 13 + pixel_in_5 - predic_in_6) % 2 ^ 13
/-- integration_3_axi_stream.v:2976. -/
@[netlist] def w23 (s : S) (pixel_in : Nat) (predic_in : Nat) : Nat :=
  (2 ^ 13 + pixel_in - predic_in) % 2 ^ 13
/-- integration_3_axi_stream.v:2977. -/
@[netlist] def w25 (s : S) (pixel_in : Nat) (predic_in : Nat) : Nat :=
  (2 ^ 14 + (w23 s pixel_in predic_in) - 1) % 2 ^ 14
/-- integration_3_axi_stream.v:2978. -/
@[netlist] def w28 (s : S) (pixel_in_1 : Nat) (predic_in_2 : Nat) : Nat :=
  (2 ^ 13 + pixel_in_1 - predic_in_2) % 2 ^ 13
/-- integration_3_axi_stream.v:2979. -/
@[netlist] def w30 (s : S) (pixel_in_1 : Nat) (predic_in_2 : Nat) : Nat :=
  (2 ^ 14 + (w28 s pixel_in_1 predic_in_2) - 1) % 2 ^ 14
/-- integration_3_axi_stream.v:2980. -/
@[netlist] def w33 (s : S) (pixel_in_3 : Nat) (predic_in_4 : Nat) : Nat :=
  (2 ^ 13 + pixel_in_3 - predic_in_4) % 2 ^ 13
/-- integration_3_axi_stream.v:2981. -/
@[netlist] def w35 (s : S) (pixel_in_3 : Nat) (predic_in_4 : Nat) : Nat :=
  (2 ^ 14 + (w33 s pixel_in_3 predic_in_4) - 1) % 2 ^ 14
/-- integration_3_axi_stream.v:2982. -/
@[netlist] def w38 (s : S) (pixel_in_5 : Nat) (predic_in_6 : Nat) : Nat :=
  (2 ^ 13 + pixel_in_5 - predic_in_6) % 2 ^ 13
/-- integration_3_axi_stream.v:2983. -/
@[netlist] def w40 (s : S) (pixel_in_5 : Nat) (predic_in_6 : Nat) : Nat :=
  (2 ^ 14 + (w38 s pixel_in_5 predic_in_6) - 1) % 2 ^ 14
/-- integration_3_axi_stream.v:3108. -/
@[netlist] def w22 (s : S) (pixel_in : Nat) (predic_in : Nat) : Nat :=
  (w25 s pixel_in predic_in)
/-- integration_3_axi_stream.v:3109. -/
@[netlist] def w27 (s : S) (pixel_in_1 : Nat) (predic_in_2 : Nat) : Nat :=
  (w30 s pixel_in_1 predic_in_2)
/-- integration_3_axi_stream.v:3110. -/
@[netlist] def w32 (s : S) (pixel_in_3 : Nat) (predic_in_4 : Nat) : Nat :=
  (w35 s pixel_in_3 predic_in_4)
/-- integration_3_axi_stream.v:3111. -/
@[netlist] def w37 (s : S) (pixel_in_5 : Nat) (predic_in_6 : Nat) : Nat :=
  (w40 s pixel_in_5 predic_in_6)
/-- integration_3_axi_stream.v:3004-3014. -/
@[netlist] def next_val_out (s : S) (pixel_in : Nat) (predic_in : Nat) (rst : Bool) (valid_in : Bool) : Nat :=
  let e1 := if valid_in = true then (w14 s pixel_in predic_in)
  else s.val_out
  if rst = true then 0
  else e1
/-- integration_3_axi_stream.v:3015-3025. -/
@[netlist] def next_val_out_7 (s : S) (pixel_in_1 : Nat) (predic_in_2 : Nat) (rst : Bool) (valid_in : Bool) : Nat :=
  let e1 := if valid_in = true then (w16 s pixel_in_1 predic_in_2)
  else s.val_out_7
  if rst = true then 0
  else e1
/-- integration_3_axi_stream.v:3026-3036. -/
@[netlist] def next_val_out_8 (s : S) (pixel_in_3 : Nat) (predic_in_4 : Nat) (rst : Bool) (valid_in : Bool) : Nat :=
  let e1 := if valid_in = true then (w18 s pixel_in_3 predic_in_4)
  else s.val_out_8
  if rst = true then 0
  else e1
/-- integration_3_axi_stream.v:3037-3047. -/
@[netlist] def next_val_out_9 (s : S) (pixel_in_5 : Nat) (predic_in_6 : Nat) (rst : Bool) (valid_in : Bool) : Nat :=
  let e1 := if valid_in = true then (w20 s pixel_in_5 predic_in_6)
  else s.val_out_9
  if rst = true then 0
  else e1
/-- integration_3_axi_stream.v:3048-3058. -/
@[netlist] def next_val_out_10 (s : S) (pixel_in : Nat) (predic_in : Nat) (rst : Bool) (valid_in : Bool) : Nat :=
  let e1 := if valid_in = true then slc (w22 s pixel_in predic_in) 0 13
  else s.val_out_10
  if rst = true then 0
  else e1
/-- integration_3_axi_stream.v:3059-3069. -/
@[netlist] def next_val_out_11 (s : S) (pixel_in_1 : Nat) (predic_in_2 : Nat) (rst : Bool) (valid_in : Bool) : Nat :=
  let e1 := if valid_in = true then slc (w27 s pixel_in_1 predic_in_2) 0 13
  else s.val_out_11
  if rst = true then 0
  else e1
/-- integration_3_axi_stream.v:3070-3080. -/
@[netlist] def next_val_out_12 (s : S) (pixel_in_3 : Nat) (predic_in_4 : Nat) (rst : Bool) (valid_in : Bool) : Nat :=
  let e1 := if valid_in = true then slc (w32 s pixel_in_3 predic_in_4) 0 13
  else s.val_out_12
  if rst = true then 0
  else e1
/-- integration_3_axi_stream.v:3081-3091. -/
@[netlist] def next_val_out_13 (s : S) (pixel_in_5 : Nat) (predic_in_6 : Nat) (rst : Bool) (valid_in : Bool) : Nat :=
  let e1 := if valid_in = true then slc (w37 s pixel_in_5 predic_in_6) 0 13
  else s.val_out_13
  if rst = true then 0
  else e1
/-- integration_3_axi_stream.v:3092-3099. -/
@[netlist] def next_valid_out (s : S) (rst : Bool) (valid_in : Bool) : Bool :=
  if rst = true then false
  else valid_in
/-- integration_3_axi_stream.v:3100-3107. -/
@[netlist] def next_end_out (s : S) (end_in : Bool) (rst : Bool) : Bool :=
  if rst = true then false
  else end_in

/-- integration_3_axi_stream.v:2871-3112: one rising clock edge (`always @(posedge ...)`). -/
@[netlist] def step (s : S) (pixel_in : Nat) (predic_in : Nat) (pixel_in_1 : Nat) (predic_in_2 : Nat) (pixel_in_3 : Nat) (predic_in_4 : Nat) (pixel_in_5 : Nat) (predic_in_6 : Nat) (end_in : Bool) (rst : Bool) (valid_in : Bool) : S :=
  { end_out := (next_end_out s end_in rst)
    valid_out := (next_valid_out s rst valid_in)
    val_out_13 := (next_val_out_13 s pixel_in_5 predic_in_6 rst valid_in)
    val_out_12 := (next_val_out_12 s pixel_in_3 predic_in_4 rst valid_in)
    val_out_11 := (next_val_out_11 s pixel_in_1 predic_in_2 rst valid_in)
    val_out_10 := (next_val_out_10 s pixel_in predic_in rst valid_in)
    val_out_9 := (next_val_out_9 s pixel_in_5 predic_in_6 rst valid_in)
    val_out_8 := (next_val_out_8 s pixel_in_3 predic_in_4 rst valid_in)
    val_out_7 := (next_val_out_7 s pixel_in_1 predic_in_2 rst valid_in)
    val_out := (next_val_out s pixel_in predic_in rst valid_in) }

/-- integration_3_axi_stream.v:2871-3112: the initial values given in the netlist. -/
def Init (s : S) : Prop :=
  s.end_out = false ∧
  s.valid_out = false ∧
  s.val_out_13 = 0 ∧
  s.val_out_12 = 0 ∧
  s.val_out_11 = 0 ∧
  s.val_out_10 = 0 ∧
  s.val_out_9 = 0 ∧
  s.val_out_8 = 0 ∧
  s.val_out_7 = 0 ∧
  s.val_out = 0

/-- integration_3_axi_stream.v:2871-3112: a state with these initial values; registers without one are 0. -/
def powerUp : S :=
  { end_out := false
    valid_out := false
    val_out_13 := 0
    val_out_12 := 0
    val_out_11 := 0
    val_out_10 := 0
    val_out_9 := 0
    val_out_8 := 0
    val_out_7 := 0
    val_out := 0 }

theorem powerUp_init : Init powerUp := ⟨rfl, rfl, rfl, rfl, rfl, rfl, rfl, rfl, rfl, rfl⟩

end difference

namespace encode

/-- integration_3_axi_stream.v:3116-3563: registers, memories and instances of module `encode`. -/
structure S where
  r_0_ : Nat
  r_1_ : Nat
  r_2_ : Nat
  r_3_ : Nat
  mem : List Nat
  u_w21 : Beta.anonymous_2.S
  u_w30 : Beta.anonymous_3.S
  u_w39 : Beta.anonymous_3.S
  u_w48 : Beta.anonymous_3.S

/-- integration_3_axi_stream.v:3389. -/
@[netlist] def mem_r_data (s : S) : Nat :=
  s.mem.getD s.r_0_ 0
/-- integration_3_axi_stream.v:3390. -/
@[netlist] def mem_r_data_52 (s : S) : Nat :=
  s.mem.getD s.r_1_ 0
/-- integration_3_axi_stream.v:3391. -/
@[netlist] def mem_r_data_55 (s : S) : Nat :=
  s.mem.getD s.r_2_ 0
/-- integration_3_axi_stream.v:3392. -/
@[netlist] def mem_r_data_58 (s : S) : Nat :=
  s.mem.getD s.r_3_ 0
/-- integration_3_axi_stream.v:3313-3326. -/
@[netlist] def end_out_18 (s : S) : Bool :=
  s.u_w21.end_out
/-- integration_3_axi_stream.v:3501-3504. -/
@[netlist] def next_end_out (s : S) : Bool :=
  (end_out_18 s)
/-- integration_3_axi_stream.v:3529. -/
@[netlist] def end_out (s : S) : Bool :=
  (next_end_out s)
/-- integration_3_axi_stream.v:3313-3326. -/
@[netlist] def valid_out_17 (s : S) : Bool :=
  s.u_w21.valid_out
/-- integration_3_axi_stream.v:3497-3500. -/
@[netlist] def next_valid_out (s : S) : Bool :=
  (valid_out_17 s)
/-- integration_3_axi_stream.v:3530. -/
@[netlist] def valid_out (s : S) : Bool :=
  (next_valid_out s)
/-- integration_3_axi_stream.v:3351-3362. -/
@[netlist] def enc_ctr_47 (s : S) : Nat :=
  s.u_w48.enc_ctr
/-- integration_3_axi_stream.v:3493-3496. -/
@[netlist] def next_enc_ctr_12 (s : S) : Nat :=
  (enc_ctr_47 s)
/-- integration_3_axi_stream.v:3531. -/
@[netlist] def enc_ctr_12 (s : S) : Nat :=
  (next_enc_ctr_12 s)
/-- integration_3_axi_stream.v:3351-3362. -/
@[netlist] def enc_out_46 (s : S) : Nat :=
  s.u_w48.enc_out
/-- integration_3_axi_stream.v:3489-3492. -/
@[netlist] def next_enc_out_11 (s : S) : Nat :=
  (enc_out_46 s)
/-- integration_3_axi_stream.v:3532. -/
@[netlist] def enc_out_11 (s : S) : Nat :=
  (next_enc_out_11 s)
/-- integration_3_axi_stream.v:3481-3484. -/
@[netlist] def next_rp_data_44 (s : S) : Nat :=
  (mem_r_data_58 s)
/-- integration_3_axi_stream.v:3533. -/
@[netlist] def rp_data_44 (s : S) : Nat :=
  (next_rp_data_44 s)
/-- integration_3_axi_stream.v:3473-3476. -/
@[netlist] def next_ssss_42 (s : S) (ssss_6 : Nat) : Nat :=
  ssss_6
/-- integration_3_axi_stream.v:3535. -/
@[netlist] def ssss_42 (s : S) (ssss_6 : Nat) : Nat :=
  (next_ssss_42 s ssss_6)
/-- integration_3_axi_stream.v:3351-3362. -/
@[netlist] def rp_addr_45 (s : S) (ssss_6 : Nat) : Nat :=
  Beta.anonymous_3.rp_addr s.u_w48 (ssss_42 s ssss_6)
/-- integration_3_axi_stream.v:3477-3480. -/
@[netlist] def next_mem_r_addr_57 (s : S) (ssss_6 : Nat) : Nat :=
  slc (rp_addr_45 s ssss_6) 0 4
/-- integration_3_axi_stream.v:3534. -/
@[netlist] def mem_r_addr_57 (s : S) (ssss_6 : Nat) : Nat :=
  (next_mem_r_addr_57 s ssss_6)
/-- integration_3_axi_stream.v:3469-3472. -/
@[netlist] def next_valid_in_40 (s : S) (valid_in : Bool) : Bool :=
  valid_in
/-- integration_3_axi_stream.v:3536. -/
@[netlist] def valid_in_40 (s : S) (valid_in : Bool) : Bool :=
  (next_valid_in_40 s valid_in)
/-- integration_3_axi_stream.v:3465-3468. -/
@[netlist] def next_end_in_41 (s : S) (end_in : Bool) : Bool :=
  end_in
/-- integration_3_axi_stream.v:3537. -/
@[netlist] def end_in_41 (s : S) (end_in : Bool) : Bool :=
  (next_end_in_41 s end_in)
/-- integration_3_axi_stream.v:3461-3464. -/
@[netlist] def next_val_in_43 (s : S) (val_in_5 : Nat) : Nat :=
  val_in_5
/-- integration_3_axi_stream.v:3538. -/
@[netlist] def val_in_43 (s : S) (val_in_5 : Nat) : Nat :=
  (next_val_in_43 s val_in_5)
/-- integration_3_axi_stream.v:3339-3350. -/
@[netlist] def enc_ctr_38 (s : S) : Nat :=
  s.u_w39.enc_ctr
/-- integration_3_axi_stream.v:3457-3460. -/
@[netlist] def next_enc_ctr_10 (s : S) : Nat :=
  (enc_ctr_38 s)
/-- integration_3_axi_stream.v:3539. -/
@[netlist] def enc_ctr_10 (s : S) : Nat :=
  (next_enc_ctr_10 s)
/-- integration_3_axi_stream.v:3339-3350. -/
@[netlist] def enc_out_37 (s : S) : Nat :=
  s.u_w39.enc_out
/-- integration_3_axi_stream.v:3453-3456. -/
@[netlist] def next_enc_out_9 (s : S) : Nat :=
  (enc_out_37 s)
/-- integration_3_axi_stream.v:3540. -/
@[netlist] def enc_out_9 (s : S) : Nat :=
  (next_enc_out_9 s)
/-- integration_3_axi_stream.v:3449-3452. -/
@[netlist] def next_rp_data_35 (s : S) : Nat :=
  (mem_r_data_55 s)
/-- integration_3_axi_stream.v:3541. -/
@[netlist] def rp_data_35 (s : S) : Nat :=
  (next_rp_data_35 s)
/-- integration_3_axi_stream.v:3437-3440. -/
@[netlist] def next_ssss_33 (s : S) (ssss_4 : Nat) : Nat :=
  ssss_4
/-- integration_3_axi_stream.v:3543. -/
@[netlist] def ssss_33 (s : S) (ssss_4 : Nat) : Nat :=
  (next_ssss_33 s ssss_4)
/-- integration_3_axi_stream.v:3339-3350. -/
@[netlist] def rp_addr_36 (s : S) (ssss_4 : Nat) : Nat :=
  Beta.anonymous_3.rp_addr s.u_w39 (ssss_33 s ssss_4)
/-- integration_3_axi_stream.v:3445-3448. -/
@[netlist] def next_mem_r_addr_54 (s : S) (ssss_4 : Nat) : Nat :=
  slc (rp_addr_36 s ssss_4) 0 4
/-- integration_3_axi_stream.v:3542. -/
@[netlist] def mem_r_addr_54 (s : S) (ssss_4 : Nat) : Nat :=
  (next_mem_r_addr_54 s ssss_4)
/-- integration_3_axi_stream.v:3433-3436. -/
@[netlist] def next_valid_in_31 (s : S) (valid_in : Bool) : Bool :=
  valid_in
/-- integration_3_axi_stream.v:3544. -/
@[netlist] def valid_in_31 (s : S) (valid_in : Bool) : Bool :=
  (next_valid_in_31 s valid_in)
/-- integration_3_axi_stream.v:3429-3432. -/
@[netlist] def next_end_in_32 (s : S) (end_in : Bool) : Bool :=
  end_in
/-- integration_3_axi_stream.v:3545. -/
@[netlist] def end_in_32 (s : S) (end_in : Bool) : Bool :=
  (next_end_in_32 s end_in)
/-- integration_3_axi_stream.v:3425-3428. -/
@[netlist] def next_val_in_34 (s : S) (val_in_3 : Nat) : Nat :=
  val_in_3
/-- integration_3_axi_stream.v:3546. -/
@[netlist] def val_in_34 (s : S) (val_in_3 : Nat) : Nat :=
  (next_val_in_34 s val_in_3)
/-- integration_3_axi_stream.v:3327-3338. -/
@[netlist] def enc_ctr_29 (s : S) : Nat :=
  s.u_w30.enc_ctr
/-- integration_3_axi_stream.v:3421-3424. -/
@[netlist] def next_enc_ctr_8 (s : S) : Nat :=
  (enc_ctr_29 s)
/-- integration_3_axi_stream.v:3547. -/
@[netlist] def enc_ctr_8 (s : S) : Nat :=
  (next_enc_ctr_8 s)
/-- integration_3_axi_stream.v:3327-3338. -/
@[netlist] def enc_out_28 (s : S) : Nat :=
  s.u_w30.enc_out
/-- integration_3_axi_stream.v:3417-3420. -/
@[netlist] def next_enc_out_7 (s : S) : Nat :=
  (enc_out_28 s)
/-- integration_3_axi_stream.v:3548. -/
@[netlist] def enc_out_7 (s : S) : Nat :=
  (next_enc_out_7 s)
/-- integration_3_axi_stream.v:3413-3416. -/
@[netlist] def next_rp_data_26 (s : S) : Nat :=
  (mem_r_data_52 s)
/-- integration_3_axi_stream.v:3549. -/
@[netlist] def rp_data_26 (s : S) : Nat :=
  (next_rp_data_26 s)
/-- integration_3_axi_stream.v:3405-3408. -/
@[netlist] def next_ssss_24 (s : S) (ssss_2 : Nat) : Nat :=
  ssss_2
/-- integration_3_axi_stream.v:3551. -/
@[netlist] def ssss_24 (s : S) (ssss_2 : Nat) : Nat :=
  (next_ssss_24 s ssss_2)
/-- integration_3_axi_stream.v:3327-3338. -/
@[netlist] def rp_addr_27 (s : S) (ssss_2 : Nat) : Nat :=
  Beta.anonymous_3.rp_addr s.u_w30 (ssss_24 s ssss_2)
/-- integration_3_axi_stream.v:3409-3412. -/
@[netlist] def next_mem_r_addr_51 (s : S) (ssss_2 : Nat) : Nat :=
  slc (rp_addr_27 s ssss_2) 0 4
/-- integration_3_axi_stream.v:3550. -/
@[netlist] def mem_r_addr_51 (s : S) (ssss_2 : Nat) : Nat :=
  (next_mem_r_addr_51 s ssss_2)
/-- integration_3_axi_stream.v:3401-3404. -/
@[netlist] def next_valid_in_22 (s : S) (valid_in : Bool) : Bool :=
  valid_in
/-- integration_3_axi_stream.v:3552. -/
@[netlist] def valid_in_22 (s : S) (valid_in : Bool) : Bool :=
  (next_valid_in_22 s valid_in)
/-- integration_3_axi_stream.v:3525-3528. -/
@[netlist] def next_end_in_23 (s : S) (end_in : Bool) : Bool :=
  end_in
/-- integration_3_axi_stream.v:3553. -/
@[netlist] def end_in_23 (s : S) (end_in : Bool) : Bool :=
  (next_end_in_23 s end_in)
/-- integration_3_axi_stream.v:3521-3524. -/
@[netlist] def next_val_in_25 (s : S) (val_in_1 : Nat) : Nat :=
  val_in_1
/-- integration_3_axi_stream.v:3554. -/
@[netlist] def val_in_25 (s : S) (val_in_1 : Nat) : Nat :=
  (next_val_in_25 s val_in_1)
/-- integration_3_axi_stream.v:3313-3326. -/
@[netlist] def enc_ctr_20 (s : S) : Nat :=
  s.u_w21.enc_ctr
/-- integration_3_axi_stream.v:3517-3520. -/
@[netlist] def next_enc_ctr (s : S) : Nat :=
  (enc_ctr_20 s)
/-- integration_3_axi_stream.v:3555. -/
@[netlist] def enc_ctr (s : S) : Nat :=
  (next_enc_ctr s)
/-- integration_3_axi_stream.v:3313-3326. -/
@[netlist] def enc_out_19 (s : S) : Nat :=
  s.u_w21.enc_out
/-- integration_3_axi_stream.v:3513-3516. -/
@[netlist] def next_enc_out (s : S) : Nat :=
  (enc_out_19 s)
/-- integration_3_axi_stream.v:3556. -/
@[netlist] def enc_out (s : S) : Nat :=
  (next_enc_out s)
/-- integration_3_axi_stream.v:3509-3512. -/
@[netlist] def next_rp_data (s : S) : Nat :=
  (mem_r_data s)
/-- integration_3_axi_stream.v:3557. -/
@[netlist] def rp_data (s : S) : Nat :=
  (next_rp_data s)
/-- integration_3_axi_stream.v:3485-3488. -/
@[netlist] def next_ssss_15 (s : S) (ssss : Nat) : Nat :=
  ssss
/-- integration_3_axi_stream.v:3559. -/
@[netlist] def ssss_15 (s : S) (ssss : Nat) : Nat :=
  (next_ssss_15 s ssss)
/-- integration_3_axi_stream.v:3313-3326. -/
@[netlist] def rp_addr (s : S) (ssss : Nat) : Nat :=
  Beta.anonymous_2.rp_addr s.u_w21 (ssss_15 s ssss)
/-- integration_3_axi_stream.v:3505-3508. -/
@[netlist] def next_mem_r_addr (s : S) (ssss : Nat) : Nat :=
  slc (rp_addr s ssss) 0 4
/-- integration_3_axi_stream.v:3558. -/
@[netlist] def mem_r_addr (s : S) (ssss : Nat) : Nat :=
  (next_mem_r_addr s ssss)
/-- integration_3_axi_stream.v:3441-3444. -/
@[netlist] def next_valid_in_13 (s : S) (valid_in : Bool) : Bool :=
  valid_in
/-- integration_3_axi_stream.v:3560. -/
@[netlist] def valid_in_13 (s : S) (valid_in : Bool) : Bool :=
  (next_valid_in_13 s valid_in)
/-- integration_3_axi_stream.v:3397-3400. -/
@[netlist] def next_end_in_14 (s : S) (end_in : Bool) : Bool :=
  end_in
/-- integration_3_axi_stream.v:3561. -/
@[netlist] def end_in_14 (s : S) (end_in : Bool) : Bool :=
  (next_end_in_14 s end_in)
/-- integration_3_axi_stream.v:3393-3396. -/
@[netlist] def next_val_in_16 (s : S) (val_in : Nat) : Nat :=
  val_in
/-- integration_3_axi_stream.v:3562. -/
@[netlist] def val_in_16 (s : S) (val_in : Nat) : Nat :=
  (next_val_in_16 s val_in)

/-- integration_3_axi_stream.v:3116-3563: one rising clock edge (`always @(posedge ...)`). -/
@[netlist] def step (s : S) (end_in : Bool) (valid_in : Bool) (ssss : Nat) (val_in_1 : Nat) (ssss_2 : Nat) (val_in_3 : Nat) (ssss_4 : Nat) (val_in_5 : Nat) (ssss_6 : Nat) (rst : Bool) (val_in : Nat) : S :=
  { r_0_ := (next_mem_r_addr s ssss)
    r_1_ := (next_mem_r_addr_51 s ssss_2)
    r_2_ := (next_mem_r_addr_54 s ssss_4)
    r_3_ := (next_mem_r_addr_57 s ssss_6)
    mem := s.mem
    u_w21 := Beta.anonymous_2.step s.u_w21 (end_in_14 s end_in) (ssss_15 s ssss) (val_in_16 s val_in) (rp_data s) rst (valid_in_13 s valid_in)
    u_w30 := Beta.anonymous_3.step s.u_w30 (end_in_23 s end_in) (ssss_24 s ssss_2) (val_in_25 s val_in_1) (rp_data_26 s) rst (valid_in_22 s valid_in)
    u_w39 := Beta.anonymous_3.step s.u_w39 (end_in_32 s end_in) (ssss_33 s ssss_4) (val_in_34 s val_in_3) (rp_data_35 s) rst (valid_in_31 s valid_in)
    u_w48 := Beta.anonymous_3.step s.u_w48 (end_in_41 s end_in) (ssss_42 s ssss_6) (val_in_43 s val_in_5) (rp_data_44 s) rst (valid_in_40 s valid_in) }

/-- integration_3_axi_stream.v:3116-3563: the initial values given in the netlist. -/
def Init (s : S) : Prop :=
  s.mem = [0x4000000e, 0x30000000, 0x30000004, 0x30000010, 0x30000030, 0x30000080, 0x30000140, 0x30000300, 0x50001e00, 0x60007c00, 0x7001f800, 0x8007f000, 0x901fe000] ∧
  Beta.anonymous_2.Init s.u_w21 ∧
  Beta.anonymous_3.Init s.u_w30 ∧
  Beta.anonymous_3.Init s.u_w39 ∧
  Beta.anonymous_3.Init s.u_w48

/-- integration_3_axi_stream.v:3116-3563: a state with these initial values; registers without one are 0. -/
def powerUp : S :=
  { r_0_ := 0
    r_1_ := 0
    r_2_ := 0
    r_3_ := 0
    mem := [0x4000000e, 0x30000000, 0x30000004, 0x30000010, 0x30000030, 0x30000080, 0x30000140, 0x30000300, 0x50001e00, 0x60007c00, 0x7001f800, 0x8007f000, 0x901fe000]
    u_w21 := Beta.anonymous_2.powerUp
    u_w30 := Beta.anonymous_3.powerUp
    u_w39 := Beta.anonymous_3.powerUp
    u_w48 := Beta.anonymous_3.powerUp }

theorem powerUp_init : Init powerUp := ⟨rfl, Beta.anonymous_2.powerUp_init, Beta.anonymous_3.powerUp_init, Beta.anonymous_3.powerUp_init, Beta.anonymous_3.powerUp_init⟩

end encode

namespace unbuffered

/-- integration_3_axi_stream.v:7824-8182: registers, memories and instances of module `unbuffered`. -/
structure S where
  level : Nat
  consume : Nat
  produce : Nat
  r_0_ : Nat
  storage : List Nat

/-- integration_3_axi_stream.v:7923. -/
@[netlist] def w10 (s : S) : Bool :=
  s.produce == 0
/-- integration_3_axi_stream.v:7953. -/
@[netlist] def w7 (s : S) : Nat :=
  (2 ^ 8 + s.produce - 1) % 2 ^ 8
/-- integration_3_axi_stream.v:7924. -/
@[netlist] def w9 (s : S) : Nat :=
  if (w10 s) then 126 else (w7 s)
/-- integration_3_axi_stream.v:7933. -/
@[netlist] def w2 (s : S) : Bool :=
  s.level != 127
/-- integration_3_axi_stream.v:8096-8099. -/
@[netlist] def next_writable (s : S) : Bool :=
  (w2 s)
/-- integration_3_axi_stream.v:8181. -/
@[netlist] def writable (s : S) : Bool :=
  (next_writable s)
/-- integration_3_axi_stream.v:7925. -/
@[netlist] def w13 (s : S) (replace : Bool) : Bool :=
  (writable s) || replace
/-- integration_3_axi_stream.v:7926. -/
@[netlist] def w15 (s : S) (we : Bool) (replace : Bool) : Bool :=
  we && (w13 s replace)
/-- integration_3_axi_stream.v:7927. -/
@[netlist] def w17 (s : S) (we : Bool) : Bool :=
  (writable s) && we
/-- integration_3_axi_stream.v:7928. -/
@[netlist] def w19 (s : S) (replace : Bool) : Bool :=
  !replace
/-- integration_3_axi_stream.v:7929. -/
@[netlist] def w21 (s : S) (we : Bool) (replace : Bool) : Bool :=
  (w17 s we) && (w19 s replace)
/-- integration_3_axi_stream.v:7930. -/
@[netlist] def w24 (s : S) : Nat :=
  (s.produce + 1) % 2 ^ 8
/-- integration_3_axi_stream.v:7931. -/
@[netlist] def w27 (s : S) : Bool :=
  s.produce == 126
/-- integration_3_axi_stream.v:7932. -/
@[netlist] def w26 (s : S) : Nat :=
  if (w27 s) then 0 else (w24 s)
/-- integration_3_axi_stream.v:7943. -/
@[netlist] def w4 (s : S) : Bool :=
  s.level != 0
/-- integration_3_axi_stream.v:8100-8103. -/
@[netlist] def next_readable (s : S) : Bool :=
  (w4 s)
/-- integration_3_axi_stream.v:8180. -/
@[netlist] def readable (s : S) : Bool :=
  (next_readable s)
/-- integration_3_axi_stream.v:7934. -/
@[netlist] def w30 (s : S) (re : Bool) : Bool :=
  (readable s) && re
/-- integration_3_axi_stream.v:7935. -/
@[netlist] def w33 (s : S) : Nat :=
  (s.consume + 1) % 2 ^ 8
/-- integration_3_axi_stream.v:7936. -/
@[netlist] def w36 (s : S) : Bool :=
  s.consume == 126
/-- integration_3_axi_stream.v:7937. -/
@[netlist] def w35 (s : S) : Nat :=
  if (w36 s) then 0 else (w33 s)
/-- integration_3_axi_stream.v:7938. -/
@[netlist] def w39 (s : S) (we : Bool) : Bool :=
  (writable s) && we
/-- integration_3_axi_stream.v:7939. -/
@[netlist] def w41 (s : S) (replace : Bool) : Bool :=
  !replace
/-- integration_3_axi_stream.v:7940. -/
@[netlist] def w43 (s : S) (we : Bool) (replace : Bool) : Bool :=
  (w39 s we) && (w41 s replace)
/-- integration_3_axi_stream.v:7941. -/
@[netlist] def w46 (s : S) (re : Bool) : Bool :=
  (readable s) && re
/-- integration_3_axi_stream.v:7942. -/
@[netlist] def w45 (s : S) (re : Bool) : Bool :=
  !(w46 s re)
/-- integration_3_axi_stream.v:7944. -/
@[netlist] def w49 (s : S) (we : Bool) (replace : Bool) (re : Bool) : Bool :=
  (w43 s we replace) && (w45 s re)
/-- integration_3_axi_stream.v:7945. -/
@[netlist] def w52 (s : S) : Nat :=
  (s.level + 1) % 2 ^ 8
/-- integration_3_axi_stream.v:7946. -/
@[netlist] def w54 (s : S) (re : Bool) : Bool :=
  (readable s) && re
/-- integration_3_axi_stream.v:7947. -/
@[netlist] def w57 (s : S) (we : Bool) : Bool :=
  (writable s) && we
/-- integration_3_axi_stream.v:7948. -/
@[netlist] def w59 (s : S) (replace : Bool) : Bool :=
  !replace
/-- integration_3_axi_stream.v:7949. -/
@[netlist] def w61 (s : S) (we : Bool) (replace : Bool) : Bool :=
  (w57 s we) && (w59 s replace)
/-- integration_3_axi_stream.v:7950. -/
@[netlist] def w56 (s : S) (we : Bool) (replace : Bool) : Bool :=
  !(w61 s we replace)
/-- integration_3_axi_stream.v:7951. -/
@[netlist] def w64 (s : S) (we : Bool) (replace : Bool) (re : Bool) : Bool :=
  (w54 s re) && (w56 s we replace)
/-- integration_3_axi_stream.v:7952. -/
@[netlist] def w67 (s : S) : Nat :=
  (2 ^ 8 + s.level - 1) % 2 ^ 8
/-- integration_3_axi_stream.v:8095. -/
@[netlist] def rdport_storage_r_data (s : S) : Nat :=
  s.r_0_
/-- integration_3_axi_stream.v:8169. -/
@[netlist] def w6 (s : S) : Nat :=
  (w9 s)
/-- integration_3_axi_stream.v:8170. -/
@[netlist] def w23 (s : S) : Nat :=
  (w26 s)
/-- integration_3_axi_stream.v:8171. -/
@[netlist] def w32 (s : S) : Nat :=
  (w35 s)
/-- integration_3_axi_stream.v:8172. -/
@[netlist] def w51 (s : S) : Nat :=
  (w52 s)
/-- integration_3_axi_stream.v:8173. -/
@[netlist] def w66 (s : S) : Nat :=
  (w67 s)
/-- integration_3_axi_stream.v:8154-8157. -/
@[netlist] def next_rdport_storage_r_en (s : S) (re : Bool) : Bool :=
  re
/-- integration_3_axi_stream.v:8174. -/
@[netlist] def rdport_storage_r_en (s : S) (re : Bool) : Bool :=
  (next_rdport_storage_r_en s re)
/-- integration_3_axi_stream.v:8150-8153. -/
@[netlist] def next_dout (s : S) : Nat :=
  (rdport_storage_r_data s)
/-- integration_3_axi_stream.v:8175. -/
@[netlist] def dout (s : S) : Nat :=
  (next_dout s)
/-- integration_3_axi_stream.v:8146-8149. -/
@[netlist] def next_rdport_storage_r_addr (s : S) : Nat :=
  s.consume
/-- integration_3_axi_stream.v:8176. -/
@[netlist] def rdport_storage_r_addr (s : S) : Nat :=
  (next_rdport_storage_r_addr s)
/-- integration_3_axi_stream.v:8131-8134. -/
@[netlist] def next_wrport_storage_w_en (s : S) (we : Bool) (replace : Bool) : Bool :=
  (w15 s we replace)
/-- integration_3_axi_stream.v:8177. -/
@[netlist] def wrport_storage_w_en (s : S) (we : Bool) (replace : Bool) : Bool :=
  (next_wrport_storage_w_en s we replace)
/-- integration_3_axi_stream.v:8127-8130. -/
@[netlist] def next_wrport_storage_w_data (s : S) (din : Nat) : Nat :=
  din
/-- integration_3_axi_stream.v:8178. -/
@[netlist] def wrport_storage_w_data (s : S) (din : Nat) : Nat :=
  (next_wrport_storage_w_data s din)
/-- integration_3_axi_stream.v:8119-8126. -/
@[netlist] def next_wrport_storage_w_addr (s : S) (replace : Bool) : Nat :=
  if replace = true then slc (w6 s) 0 7
  else s.produce
/-- integration_3_axi_stream.v:8179. -/
@[netlist] def wrport_storage_w_addr (s : S) (replace : Bool) : Nat :=
  (next_wrport_storage_w_addr s replace)
/-- integration_3_axi_stream.v:8104-8118. -/
@[netlist] def next_level (s : S) (we : Bool) (replace : Bool) (re : Bool) (rst : Bool) : Nat :=
  let e1 := if (w49 s we replace re) = true then slc (w51 s) 0 7
  else s.level
  let e2 := if (w64 s we replace re) = true then slc (w66 s) 0 7
  else e1
  if rst = true then 0
  else e2
/-- integration_3_axi_stream.v:8135-8145. -/
@[netlist] def next_produce (s : S) (we : Bool) (replace : Bool) (rst : Bool) : Nat :=
  let e1 := if (w21 s we replace) = true then slc (w23 s) 0 7
  else s.produce
  if rst = true then 0
  else e1
/-- integration_3_axi_stream.v:8158-8168. -/
@[netlist] def next_consume (s : S) (re : Bool) (rst : Bool) : Nat :=
  let e1 := if (w30 s re) = true then slc (w32 s) 0 7
  else s.consume
  if rst = true then 0
  else e1

/-- integration_3_axi_stream.v:7824-8182: one rising clock edge (`always @(posedge ...)`). -/
@[netlist] def step (s : S) (we : Bool) (replace : Bool) (re : Bool) (rst : Bool) (din : Nat) : S :=
  { level := (next_level s we replace re rst)
    consume := (next_consume s re rst)
    produce := (next_produce s we replace rst)
    r_0_ := if (next_rdport_storage_r_en s re) then s.storage.getD (next_rdport_storage_r_addr s) 0 else s.r_0_
    storage := if (next_wrport_storage_w_en s we replace) then s.storage.set (next_wrport_storage_w_addr s replace) (next_wrport_storage_w_data s din) else s.storage }

/-- integration_3_axi_stream.v:7824-8182: the initial values given in the netlist. -/
def Init (s : S) : Prop :=
  s.level = 0 ∧
  s.consume = 0 ∧
  s.produce = 0 ∧
  s.storage = List.replicate 127 0

/-- integration_3_axi_stream.v:7824-8182: a state with these initial values; registers without one are 0. -/
def powerUp : S :=
  { level := 0
    consume := 0
    produce := 0
    r_0_ := 0
    storage := List.replicate 127 0 }

theorem powerUp_init : Init powerUp := ⟨rfl, rfl, rfl, rfl⟩

end unbuffered

namespace fifo

/-- integration_3_axi_stream.v:3567-3693: registers, memories and instances of module `fifo`. -/
structure S where
  readable : Bool
  u_unbuffered : unbuffered.S

/-- integration_3_axi_stream.v:3626. -/
@[netlist] def w1 (s : S) : Bool :=
  !s.readable
/-- integration_3_axi_stream.v:3627. -/
@[netlist] def w3 (s : S) (re : Bool) : Bool :=
  (w1 s) || re
/-- integration_3_axi_stream.v:3632-3643. -/
@[netlist] def unbuffered_readable (s : S) : Bool :=
  unbuffered.readable s.u_unbuffered
/-- integration_3_axi_stream.v:3628. -/
@[netlist] def w5 (s : S) (re : Bool) : Bool :=
  (unbuffered_readable s) && (w3 s re)
/-- integration_3_axi_stream.v:3632-3643. -/
@[netlist] def unbuffered_level (s : S) : Nat :=
  s.u_unbuffered.level
/-- integration_3_axi_stream.v:3629. -/
@[netlist] def w7 (s : S) : Nat :=
  ((unbuffered_level s) + s.readable.toNat) % 2 ^ 8
/-- integration_3_axi_stream.v:3682-3685. -/
@[netlist] def next_level (s : S) : Nat :=
  (w7 s)
/-- integration_3_axi_stream.v:3686. -/
@[netlist] def level (s : S) : Nat :=
  (next_level s)
/-- integration_3_axi_stream.v:3665-3668. -/
@[netlist] def next_unbuffered_re (s : S) (re : Bool) : Bool :=
  (w5 s re)
/-- integration_3_axi_stream.v:3687. -/
@[netlist] def unbuffered_re (s : S) (re : Bool) : Bool :=
  (next_unbuffered_re s re)
/-- integration_3_axi_stream.v:3632-3643. -/
@[netlist] def unbuffered_dout (s : S) : Nat :=
  unbuffered.dout s.u_unbuffered
/-- integration_3_axi_stream.v:3661-3664. -/
@[netlist] def next_dout (s : S) : Nat :=
  (unbuffered_dout s)
/-- integration_3_axi_stream.v:3688. -/
@[netlist] def dout (s : S) : Nat :=
  (next_dout s)
/-- integration_3_axi_stream.v:3656-3660. -/
@[netlist] def next_unbuffered_replace (s : S) : Bool :=
  false
/-- integration_3_axi_stream.v:3689. -/
@[netlist] def unbuffered_replace (s : S) : Bool :=
  (next_unbuffered_replace s)
/-- integration_3_axi_stream.v:3632-3643. -/
@[netlist] def unbuffered_writable (s : S) : Bool :=
  unbuffered.writable s.u_unbuffered
/-- integration_3_axi_stream.v:3652-3655. -/
@[netlist] def next_writable (s : S) : Bool :=
  (unbuffered_writable s)
/-- integration_3_axi_stream.v:3690. -/
@[netlist] def writable (s : S) : Bool :=
  (next_writable s)
/-- integration_3_axi_stream.v:3648-3651. -/
@[netlist] def next_unbuffered_we (s : S) (we : Bool) : Bool :=
  we
/-- integration_3_axi_stream.v:3691. -/
@[netlist] def unbuffered_we (s : S) (we : Bool) : Bool :=
  (next_unbuffered_we s we)
/-- integration_3_axi_stream.v:3644-3647. -/
@[netlist] def next_unbuffered_din (s : S) (din : Nat) : Nat :=
  din
/-- integration_3_axi_stream.v:3692. -/
@[netlist] def unbuffered_din (s : S) (din : Nat) : Nat :=
  (next_unbuffered_din s din)
/-- integration_3_axi_stream.v:3669-3681. -/
@[netlist] def next_readable (s : S) (re : Bool) (rst : Bool) : Bool :=
  let e1 := if (unbuffered_re s re) = true then true
  else if re = true then false
  else s.readable
  if rst = true then false
  else e1

/-- integration_3_axi_stream.v:3567-3693: one rising clock edge (`always @(posedge ...)`). -/
@[netlist] def step (s : S) (we : Bool) (re : Bool) (rst : Bool) (din : Nat) : S :=
  { readable := (next_readable s re rst)
    u_unbuffered := unbuffered.step s.u_unbuffered (unbuffered_we s we) (unbuffered_replace s) (unbuffered_re s re) rst (unbuffered_din s din) }

/-- integration_3_axi_stream.v:3567-3693: the initial values given in the netlist. -/
def Init (s : S) : Prop :=
  s.readable = false ∧
  unbuffered.Init s.u_unbuffered

/-- integration_3_axi_stream.v:3567-3693: a state with these initial values; registers without one are 0. -/
def powerUp : S :=
  { readable := false
    u_unbuffered := unbuffered.powerUp }

theorem powerUp_init : Init powerUp := ⟨rfl, unbuffered.powerUp_init⟩

end fifo

namespace input_handler

/-- integration_3_axi_stream.v:3909-4513: registers, memories and instances of module `input_handler`. -/
structure S where
  latch_input : Bool
  fsm_state : Nat
  in_end_reg : Bool
  enc_in_ctr_reg : Nat
  enc_in_reg : Nat
  in_end_buff : Bool
  enc_in_ctr_buff : Nat
  enc_in_buff : Nat
  start : Bool
  buff_free : Nat
  valid_in_late : Bool
  buff_consum : Nat
  valid_in_reg : Bool
  end_out : Bool
  buffer : Nat
  valid_in_buff : Bool

/-- integration_3_axi_stream.v:4065. -/
@[netlist] def w9 (s : S) : Bool :=
  decide (s.enc_in_ctr_buff ≤ s.buff_free)
/-- integration_3_axi_stream.v:4066. -/
@[netlist] def w11 (s : S) : Bool :=
  decide (s.enc_in_ctr_buff ≤ s.buff_free)
/-- integration_3_axi_stream.v:4067. -/
@[netlist] def w13 (s : S) : Bool :=
  decide (s.enc_in_ctr_buff ≤ s.buff_free)
/-- integration_3_axi_stream.v:4068. -/
@[netlist] def w15 (s : S) : Bool :=
  decide (s.enc_in_ctr_buff ≤ s.buff_free)
/-- integration_3_axi_stream.v:4069. -/
@[netlist] def w17 (s : S) : Bool :=
  decide (s.enc_in_ctr_buff ≤ s.buff_free)
/-- integration_3_axi_stream.v:4070. -/
@[netlist] def w1 (s : S) : Bool :=
  decide (s.enc_in_ctr_reg ≤ s.buff_free)
/-- integration_3_axi_stream.v:4071. -/
@[netlist] def w19 (s : S) : Bool :=
  decide (s.enc_in_ctr_buff ≤ s.buff_free)
/-- integration_3_axi_stream.v:4072. -/
@[netlist] def w21 (s : S) : Bool :=
  decide (s.enc_in_ctr_buff ≤ s.buff_free)
/-- integration_3_axi_stream.v:4073. -/
@[netlist] def w23 (s : S) : Bool :=
  decide (s.enc_in_ctr_reg ≤ s.buff_free)
/-- integration_3_axi_stream.v:4074. -/
@[netlist] def w25 (s : S) : Bool :=
  decide (s.enc_in_ctr_reg ≤ s.buff_free)
/-- integration_3_axi_stream.v:4075. -/
@[netlist] def w28 (s : S) : Nat :=
  s.buffer * 2 ^ s.enc_in_ctr_reg % 2 ^ 207
/-- integration_3_axi_stream.v:4076. -/
@[netlist] def w30 (s : S) : Nat :=
  (w28 s) ||| s.enc_in_reg
/-- integration_3_axi_stream.v:4077. -/
@[netlist] def w32 (s : S) : Bool :=
  decide (s.enc_in_ctr_reg ≤ s.buff_free)
/-- integration_3_axi_stream.v:4078. -/
@[netlist] def w35 (s : S) : Nat :=
  s.buffer * 2 ^ s.enc_in_ctr_reg % 2 ^ 207
/-- integration_3_axi_stream.v:4079. -/
@[netlist] def w37 (s : S) : Nat :=
  (w35 s) ||| s.enc_in_reg
/-- integration_3_axi_stream.v:4126-4141. -/
@[netlist] def next_inc_buff (s : S) : Bool :=
  if s.fsm_state = 1 then true
  else if s.fsm_state = 2 then (if s.valid_in_reg = true then (if (w1 s) = true then true
      else false)
    else false)
  else false
/-- integration_3_axi_stream.v:4512. -/
@[netlist] def inc_buff (s : S) : Bool :=
  (next_inc_buff s)
/-- integration_3_axi_stream.v:4080. -/
@[netlist] def w3 (s : S) (dec_buff : Bool) : Bool :=
  (inc_buff s) || dec_buff
/-- integration_3_axi_stream.v:4081. -/
@[netlist] def w39 (s : S) : Bool :=
  decide (s.enc_in_ctr_reg ≤ s.buff_free)
/-- integration_3_axi_stream.v:4082. -/
@[netlist] def w41 (s : S) (dec_buff : Bool) : Bool :=
  (inc_buff s) && dec_buff
/-- integration_3_axi_stream.v:4083. -/
@[netlist] def w44 (s : S) : Nat :=
  (s.buff_free + 32) % 2 ^ 9
/-- integration_3_axi_stream.v:4084. -/
@[netlist] def w46 (s : S) : Nat :=
  (2 ^ 10 + (w44 s) - s.enc_in_ctr_reg) % 2 ^ 10
/-- integration_3_axi_stream.v:4085. -/
@[netlist] def w49 (s : S) : Nat :=
  (s.buff_free + 32) % 2 ^ 9
/-- integration_3_axi_stream.v:4086. -/
@[netlist] def w52 (s : S) : Nat :=
  (2 ^ 9 + s.buff_free - s.enc_in_ctr_reg) % 2 ^ 9
/-- integration_3_axi_stream.v:4087. -/
@[netlist] def w54 (s : S) (dec_buff : Bool) : Bool :=
  (inc_buff s) && dec_buff
/-- integration_3_axi_stream.v:4088. -/
@[netlist] def w57 (s : S) : Nat :=
  (2 ^ 9 + s.buff_consum - 32) % 2 ^ 9
/-- integration_3_axi_stream.v:4089. -/
@[netlist] def w5 (s : S) : Bool :=
  s.start == false
/-- integration_3_axi_stream.v:4090. -/
@[netlist] def w59 (s : S) : Nat :=
  ((w57 s) + s.enc_in_ctr_reg) % 2 ^ 10
/-- integration_3_axi_stream.v:4091. -/
@[netlist] def w62 (s : S) : Nat :=
  (2 ^ 9 + s.buff_consum - 32) % 2 ^ 9
/-- integration_3_axi_stream.v:4092. -/
@[netlist] def w65 (s : S) : Nat :=
  (s.buff_consum + s.enc_in_ctr_reg) % 2 ^ 9
/-- integration_3_axi_stream.v:4093. -/
@[netlist] def w7 (s : S) : Bool :=
  s.start == false
/-- integration_3_axi_stream.v:4500. -/
@[netlist] def w27 (s : S) : Nat :=
  (w30 s)
/-- integration_3_axi_stream.v:4501. -/
@[netlist] def w34 (s : S) : Nat :=
  (w37 s)
/-- integration_3_axi_stream.v:4502. -/
@[netlist] def w43 (s : S) : Nat :=
  (w46 s)
/-- integration_3_axi_stream.v:4503. -/
@[netlist] def w48 (s : S) : Nat :=
  (w49 s)
/-- integration_3_axi_stream.v:4504. -/
@[netlist] def w51 (s : S) : Nat :=
  (w52 s)
/-- integration_3_axi_stream.v:4505. -/
@[netlist] def w56 (s : S) : Nat :=
  (w59 s)
/-- integration_3_axi_stream.v:4506. -/
@[netlist] def w61 (s : S) : Nat :=
  (w62 s)
/-- integration_3_axi_stream.v:4507. -/
@[netlist] def w64 (s : S) : Nat :=
  (w65 s)
/-- integration_3_axi_stream.v:4345-4358. -/
@[netlist] def next_new_buff_consum (s : S) (dec_buff : Bool) : Nat :=
  if (w54 s dec_buff) = true then slc (w56 s) 0 8
  else (if dec_buff = true then slc (w61 s) 0 8
    else if (inc_buff s) = true then slc (w64 s) 0 8
    else 0)
/-- integration_3_axi_stream.v:4508. -/
@[netlist] def new_buff_consum (s : S) (dec_buff : Bool) : Nat :=
  (next_new_buff_consum s dec_buff)
/-- integration_3_axi_stream.v:4331-4344. -/
@[netlist] def next_new_buff_free (s : S) (dec_buff : Bool) : Nat :=
  if (w41 s dec_buff) = true then slc (w43 s) 0 8
  else (if dec_buff = true then slc (w48 s) 0 8
    else if (inc_buff s) = true then slc (w51 s) 0 8
    else 0)
/-- integration_3_axi_stream.v:4509. -/
@[netlist] def new_buff_free (s : S) (dec_buff : Bool) : Nat :=
  (next_new_buff_free s dec_buff)
/-- integration_3_axi_stream.v:4378-4387. -/
@[netlist] def next_buff_reg (s : S) : Bool :=
  if s.fsm_state = 3 then true
  else if s.fsm_state = 2 then true
  else false
/-- integration_3_axi_stream.v:4510. -/
@[netlist] def buff_reg (s : S) : Bool :=
  (next_buff_reg s)
/-- integration_3_axi_stream.v:4142-4145. -/
@[netlist] def next_buff_change (s : S) (dec_buff : Bool) : Bool :=
  (w3 s dec_buff)
/-- integration_3_axi_stream.v:4511. -/
@[netlist] def buff_change (s : S) (dec_buff : Bool) : Bool :=
  (next_buff_change s dec_buff)
/-- integration_3_axi_stream.v:4146-4168. -/
@[netlist] def next_enc_in_ctr_reg (s : S) (enc_in_ctr : Nat) (rst : Bool) : Nat :=
  let e1 := if s.fsm_state = 0 then (if s.valid_in_buff = true then (if (w17 s) = true then s.enc_in_ctr_buff
      else s.enc_in_ctr_reg)
    else s.enc_in_ctr_reg)
  else if s.fsm_state = 1 then s.enc_in_ctr_buff
  else if s.fsm_state = 3 then enc_in_ctr
  else if s.fsm_state = 2 then enc_in_ctr
  else s.enc_in_ctr_reg
  if rst = true then 0
  else e1
/-- integration_3_axi_stream.v:4169-4191. -/
@[netlist] def next_in_end_reg (s : S) (in_end : Bool) (rst : Bool) : Bool :=
  let e1 := if s.fsm_state = 0 then (if s.valid_in_buff = true then (if (w19 s) = true then s.in_end_buff
      else s.in_end_reg)
    else s.in_end_reg)
  else if s.fsm_state = 1 then s.in_end_buff
  else if s.fsm_state = 3 then in_end
  else if s.fsm_state = 2 then in_end
  else s.in_end_reg
  if rst = true then false
  else e1
/-- integration_3_axi_stream.v:4192-4231. -/
@[netlist] def next_fsm_state (s : S) (rst : Bool) : Nat :=
  let e1 := if s.fsm_state = 0 then (if s.valid_in_buff = true then (if (w21 s) = true then 1
      else s.fsm_state)
    else if s.valid_in_reg = true then 2
    else 3)
  else if s.fsm_state = 1 then (if s.valid_in_reg = true then 2
    else 3)
  else if s.fsm_state = 3 then 2
  else if s.fsm_state = 2 then (if s.valid_in_reg = true then (if (w23 s) = true then s.fsm_state
      else 0)
    else s.fsm_state)
  else s.fsm_state
  if rst = true then 0
  else e1
/-- integration_3_axi_stream.v:4232-4266. -/
@[netlist] def next_latch_input (s : S) (rst : Bool) : Bool :=
  let e1 := if s.fsm_state = 0 then (if s.valid_in_buff = true then s.latch_input
    else if s.valid_in_reg = true then true
    else true)
  else if s.fsm_state = 1 then (if s.valid_in_reg = true then true
    else true)
  else if s.fsm_state = 2 then (if s.valid_in_reg = true then (if (w25 s) = true then true
      else false)
    else s.latch_input)
  else s.latch_input
  if rst = true then false
  else e1
/-- integration_3_axi_stream.v:4267-4279. -/
@[netlist] def next_valid_in_buff (s : S) (rst : Bool) : Bool :=
  let e1 := if s.fsm_state = 1 then false
  else if s.fsm_state = 2 then s.valid_in_reg
  else s.valid_in_buff
  if rst = true then false
  else e1
/-- integration_3_axi_stream.v:4280-4298. -/
@[netlist] def next_buffer (s : S) (rst : Bool) : Nat :=
  let e1 := if s.fsm_state = 1 then slc (w27 s) 0 144
  else if s.fsm_state = 2 then (if s.valid_in_reg = true then (if (w32 s) = true then slc (w34 s) 0 144
      else s.buffer)
    else s.buffer)
  else s.buffer
  if rst = true then 0
  else e1
/-- integration_3_axi_stream.v:4299-4317. -/
@[netlist] def next_end_out (s : S) (rst : Bool) : Bool :=
  let e1 := if s.fsm_state = 1 then s.in_end_reg
  else if s.fsm_state = 2 then (if s.valid_in_reg = true then (if (w39 s) = true then s.in_end_reg
      else s.end_out)
    else s.end_out)
  else s.end_out
  if rst = true then false
  else e1
/-- integration_3_axi_stream.v:4318-4330. -/
@[netlist] def next_valid_in_reg (s : S) (valid_in : Bool) (rst : Bool) : Bool :=
  let e1 := if s.fsm_state = 3 then valid_in
  else if s.fsm_state = 2 then valid_in
  else s.valid_in_reg
  if rst = true then false
  else e1
/-- integration_3_axi_stream.v:4359-4366. -/
@[netlist] def next_valid_in_late (s : S) (valid_in : Bool) (rst : Bool) : Bool :=
  if rst = true then false
  else valid_in
/-- integration_3_axi_stream.v:4367-4377. -/
@[netlist] def next_buff_consum (s : S) (rst : Bool) (dec_buff : Bool) : Nat :=
  let e1 := if (buff_change s dec_buff) = true then (new_buff_consum s dec_buff)
  else s.buff_consum
  if rst = true then 0
  else e1
/-- integration_3_axi_stream.v:4388-4402. -/
@[netlist] def next_buff_free (s : S) (rst : Bool) (dec_buff : Bool) : Nat :=
  let e1 := if (w5 s) = true then 144
  else s.buff_free
  let e2 := if (buff_change s dec_buff) = true then (new_buff_free s dec_buff)
  else e1
  if rst = true then 0
  else e2
/-- integration_3_axi_stream.v:4403-4413. -/
@[netlist] def next_start (s : S) (rst : Bool) : Bool :=
  let e1 := if (w7 s) = true then true
  else s.start
  if rst = true then false
  else e1
/-- integration_3_axi_stream.v:4414-4434. -/
@[netlist] def next_enc_in_buff (s : S) (rst : Bool) : Nat :=
  let e1 := if s.fsm_state = 0 then (if s.valid_in_buff = true then (if (w9 s) = true then s.enc_in_reg
      else s.enc_in_buff)
    else s.enc_in_buff)
  else if s.fsm_state = 1 then s.enc_in_reg
  else if s.fsm_state = 2 then s.enc_in_reg
  else s.enc_in_buff
  if rst = true then 0
  else e1
/-- integration_3_axi_stream.v:4435-4455. -/
@[netlist] def next_enc_in_ctr_buff (s : S) (rst : Bool) : Nat :=
  let e1 := if s.fsm_state = 0 then (if s.valid_in_buff = true then (if (w11 s) = true then s.enc_in_ctr_reg
      else s.enc_in_ctr_buff)
    else s.enc_in_ctr_buff)
  else if s.fsm_state = 1 then s.enc_in_ctr_reg
  else if s.fsm_state = 2 then s.enc_in_ctr_reg
  else s.enc_in_ctr_buff
  if rst = true then 0
  else e1
/-- integration_3_axi_stream.v:4456-4476. -/
@[netlist] def next_in_end_buff (s : S) (rst : Bool) : Bool :=
  let e1 := if s.fsm_state = 0 then (if s.valid_in_buff = true then (if (w13 s) = true then s.in_end_reg
      else s.in_end_buff)
    else s.in_end_buff)
  else if s.fsm_state = 1 then s.in_end_reg
  else if s.fsm_state = 2 then s.in_end_reg
  else s.in_end_buff
  if rst = true then false
  else e1
/-- integration_3_axi_stream.v:4477-4499. -/
@[netlist] def next_enc_in_reg (s : S) (enc_in : Nat) (rst : Bool) : Nat :=
  let e1 := if s.fsm_state = 0 then (if s.valid_in_buff = true then (if (w15 s) = true then s.enc_in_buff
      else s.enc_in_reg)
    else s.enc_in_reg)
  else if s.fsm_state = 1 then s.enc_in_buff
  else if s.fsm_state = 3 then enc_in
  else if s.fsm_state = 2 then enc_in
  else s.enc_in_reg
  if rst = true then 0
  else e1

/-- integration_3_axi_stream.v:3909-4513: one rising clock edge (`always @(posedge ...)`). -/
@[netlist] def step (s : S) (valid_in : Bool) (enc_in : Nat) (enc_in_ctr : Nat) (in_end : Bool) (rst : Bool) (dec_buff : Bool) : S :=
  { latch_input := (next_latch_input s rst)
    fsm_state := (next_fsm_state s rst)
    in_end_reg := (next_in_end_reg s in_end rst)
    enc_in_ctr_reg := (next_enc_in_ctr_reg s enc_in_ctr rst)
    enc_in_reg := (next_enc_in_reg s enc_in rst)
    in_end_buff := (next_in_end_buff s rst)
    enc_in_ctr_buff := (next_enc_in_ctr_buff s rst)
    enc_in_buff := (next_enc_in_buff s rst)
    start := (next_start s rst)
    buff_free := (next_buff_free s rst dec_buff)
    valid_in_late := (next_valid_in_late s valid_in rst)
    buff_consum := (next_buff_consum s rst dec_buff)
    valid_in_reg := (next_valid_in_reg s valid_in rst)
    end_out := (next_end_out s rst)
    buffer := (next_buffer s rst)
    valid_in_buff := (next_valid_in_buff s rst) }

/-- integration_3_axi_stream.v:3909-4513: the initial values given in the netlist. -/
def Init (s : S) : Prop :=
  s.latch_input = false ∧
  s.fsm_state = 0 ∧
  s.in_end_reg = false ∧
  s.enc_in_ctr_reg = 0 ∧
  s.enc_in_reg = 0 ∧
  s.in_end_buff = false ∧
  s.enc_in_ctr_buff = 0 ∧
  s.enc_in_buff = 0 ∧
  s.start = false ∧
  s.buff_free = 0 ∧
  s.valid_in_late = false ∧
  s.buff_consum = 0 ∧
  s.valid_in_reg = false ∧
  s.end_out = false ∧
  s.buffer = 0 ∧
  s.valid_in_buff = false

/-- integration_3_axi_stream.v:3909-4513: a state with these initial values; registers without one are 0. -/
def powerUp : S :=
  { latch_input := false
    fsm_state := 0
    in_end_reg := false
    enc_in_ctr_reg := 0
    enc_in_reg := 0
    in_end_buff := false
    enc_in_ctr_buff := 0
    enc_in_buff := 0
    start := false
    buff_free := 0
    valid_in_late := false
    buff_consum := 0
    valid_in_reg := false
    end_out := false
    buffer := 0
    valid_in_buff := false }

theorem powerUp_init : Init powerUp := ⟨rfl, rfl, rfl, rfl, rfl, rfl, rfl, rfl, rfl, rfl, rfl, rfl, rfl, rfl, rfl, rfl⟩

end input_handler

namespace merge

/-- integration_3_axi_stream.v:5892-6175: registers, memories and instances of module `merge`. -/
structure S where
  u_w13 : Beta.anonymous_4.S
  u_w22 : anonymous_9.S
  u_w33 : anonymous_10.S

/-- integration_3_axi_stream.v:6051-6064. -/
@[netlist] def end_out_32 (s : S) : Bool :=
  s.u_w33.end_out
/-- integration_3_axi_stream.v:6121-6124. -/
@[netlist] def next_end_out (s : S) : Bool :=
  (end_out_32 s)
/-- integration_3_axi_stream.v:6153. -/
@[netlist] def end_out (s : S) : Bool :=
  (next_end_out s)
/-- integration_3_axi_stream.v:6051-6064. -/
@[netlist] def valid_out_31 (s : S) : Bool :=
  s.u_w33.valid_out
/-- integration_3_axi_stream.v:6117-6120. -/
@[netlist] def next_valid_out (s : S) : Bool :=
  (valid_out_31 s)
/-- integration_3_axi_stream.v:6154. -/
@[netlist] def valid_out (s : S) : Bool :=
  (next_valid_out s)
/-- integration_3_axi_stream.v:6051-6064. -/
@[netlist] def enc_out_ctr_29 (s : S) : Nat :=
  s.u_w33.enc_out_ctr
/-- integration_3_axi_stream.v:6109-6112. -/
@[netlist] def next_enc_out_ctr (s : S) : Nat :=
  (enc_out_ctr_29 s)
/-- integration_3_axi_stream.v:6155. -/
@[netlist] def enc_out_ctr (s : S) : Nat :=
  (next_enc_out_ctr s)
/-- integration_3_axi_stream.v:6051-6064. -/
@[netlist] def enc_out_30 (s : S) : Nat :=
  s.u_w33.enc_out
/-- integration_3_axi_stream.v:6105-6108. -/
@[netlist] def next_enc_out (s : S) : Nat :=
  (enc_out_30 s)
/-- integration_3_axi_stream.v:6156. -/
@[netlist] def enc_out (s : S) : Nat :=
  (next_enc_out s)
/-- integration_3_axi_stream.v:6025-6038. -/
@[netlist] def end_out_12 (s : S) : Bool :=
  s.u_w13.end_out
/-- integration_3_axi_stream.v:6101-6104. -/
@[netlist] def next_end_in_28 (s : S) : Bool :=
  (end_out_12 s)
/-- integration_3_axi_stream.v:6157. -/
@[netlist] def end_in_28 (s : S) : Bool :=
  (next_end_in_28 s)
/-- integration_3_axi_stream.v:6025-6038. -/
@[netlist] def valid_out_11 (s : S) : Bool :=
  s.u_w13.valid_out
/-- integration_3_axi_stream.v:6097-6100. -/
@[netlist] def next_valid_in_23 (s : S) : Bool :=
  (valid_out_11 s)
/-- integration_3_axi_stream.v:6158. -/
@[netlist] def valid_in_23 (s : S) : Bool :=
  (next_valid_in_23 s)
/-- integration_3_axi_stream.v:6039-6050. -/
@[netlist] def enc_out_ctr_20 (s : S) : Nat :=
  s.u_w22.enc_out_ctr
/-- integration_3_axi_stream.v:6093-6096. -/
@[netlist] def next_enc_in_ctr2_25 (s : S) : Nat :=
  (enc_out_ctr_20 s)
/-- integration_3_axi_stream.v:6159. -/
@[netlist] def enc_in_ctr2_25 (s : S) : Nat :=
  (next_enc_in_ctr2_25 s)
/-- integration_3_axi_stream.v:6039-6050. -/
@[netlist] def enc_out_21 (s : S) : Nat :=
  s.u_w22.enc_out
/-- integration_3_axi_stream.v:6089-6092. -/
@[netlist] def next_enc_in2_27 (s : S) : Nat :=
  (enc_out_21 s)
/-- integration_3_axi_stream.v:6160. -/
@[netlist] def enc_in2_27 (s : S) : Nat :=
  (next_enc_in2_27 s)
/-- integration_3_axi_stream.v:6025-6038. -/
@[netlist] def enc_out_ctr_9 (s : S) : Nat :=
  s.u_w13.enc_out_ctr
/-- integration_3_axi_stream.v:6085-6088. -/
@[netlist] def next_enc_in_ctr1_24 (s : S) : Nat :=
  (enc_out_ctr_9 s)
/-- integration_3_axi_stream.v:6161. -/
@[netlist] def enc_in_ctr1_24 (s : S) : Nat :=
  (next_enc_in_ctr1_24 s)
/-- integration_3_axi_stream.v:6025-6038. -/
@[netlist] def enc_out_10 (s : S) : Nat :=
  s.u_w13.enc_out
/-- integration_3_axi_stream.v:6081-6084. -/
@[netlist] def next_enc_in1_26 (s : S) : Nat :=
  (enc_out_10 s)
/-- integration_3_axi_stream.v:6162. -/
@[netlist] def enc_in1_26 (s : S) : Nat :=
  (next_enc_in1_26 s)
/-- integration_3_axi_stream.v:6077-6080. -/
@[netlist] def next_enc_in_ctr2_16 (s : S) (enc_in_ctr_6 : Nat) : Nat :=
  enc_in_ctr_6
/-- integration_3_axi_stream.v:6163. -/
@[netlist] def enc_in_ctr2_16 (s : S) (enc_in_ctr_6 : Nat) : Nat :=
  (next_enc_in_ctr2_16 s enc_in_ctr_6)
/-- integration_3_axi_stream.v:6073-6076. -/
@[netlist] def next_enc_in2_18 (s : S) (enc_in_5 : Nat) : Nat :=
  enc_in_5
/-- integration_3_axi_stream.v:6164. -/
@[netlist] def enc_in2_18 (s : S) (enc_in_5 : Nat) : Nat :=
  (next_enc_in2_18 s enc_in_5)
/-- integration_3_axi_stream.v:6149-6152. -/
@[netlist] def next_end_in_19 (s : S) (end_in : Bool) : Bool :=
  end_in
/-- integration_3_axi_stream.v:6165. -/
@[netlist] def end_in_19 (s : S) (end_in : Bool) : Bool :=
  (next_end_in_19 s end_in)
/-- integration_3_axi_stream.v:6145-6148. -/
@[netlist] def next_valid_in_14 (s : S) (valid_in : Bool) : Bool :=
  valid_in
/-- integration_3_axi_stream.v:6166. -/
@[netlist] def valid_in_14 (s : S) (valid_in : Bool) : Bool :=
  (next_valid_in_14 s valid_in)
/-- integration_3_axi_stream.v:6141-6144. -/
@[netlist] def next_enc_in_ctr1_15 (s : S) (enc_in_ctr_4 : Nat) : Nat :=
  enc_in_ctr_4
/-- integration_3_axi_stream.v:6167. -/
@[netlist] def enc_in_ctr1_15 (s : S) (enc_in_ctr_4 : Nat) : Nat :=
  (next_enc_in_ctr1_15 s enc_in_ctr_4)
/-- integration_3_axi_stream.v:6137-6140. -/
@[netlist] def next_enc_in1_17 (s : S) (enc_in_3 : Nat) : Nat :=
  enc_in_3
/-- integration_3_axi_stream.v:6168. -/
@[netlist] def enc_in1_17 (s : S) (enc_in_3 : Nat) : Nat :=
  (next_enc_in1_17 s enc_in_3)
/-- integration_3_axi_stream.v:6133-6136. -/
@[netlist] def next_enc_in_ctr2 (s : S) (enc_in_ctr_2 : Nat) : Nat :=
  enc_in_ctr_2
/-- integration_3_axi_stream.v:6169. -/
@[netlist] def enc_in_ctr2 (s : S) (enc_in_ctr_2 : Nat) : Nat :=
  (next_enc_in_ctr2 s enc_in_ctr_2)
/-- integration_3_axi_stream.v:6129-6132. -/
@[netlist] def next_enc_in2 (s : S) (enc_in_1 : Nat) : Nat :=
  enc_in_1
/-- integration_3_axi_stream.v:6170. -/
@[netlist] def enc_in2 (s : S) (enc_in_1 : Nat) : Nat :=
  (next_enc_in2 s enc_in_1)
/-- integration_3_axi_stream.v:6125-6128. -/
@[netlist] def next_end_in_8 (s : S) (end_in : Bool) : Bool :=
  end_in
/-- integration_3_axi_stream.v:6171. -/
@[netlist] def end_in_8 (s : S) (end_in : Bool) : Bool :=
  (next_end_in_8 s end_in)
/-- integration_3_axi_stream.v:6113-6116. -/
@[netlist] def next_valid_in_7 (s : S) (valid_in : Bool) : Bool :=
  valid_in
/-- integration_3_axi_stream.v:6172. -/
@[netlist] def valid_in_7 (s : S) (valid_in : Bool) : Bool :=
  (next_valid_in_7 s valid_in)
/-- integration_3_axi_stream.v:6069-6072. -/
@[netlist] def next_enc_in_ctr1 (s : S) (enc_in_ctr : Nat) : Nat :=
  enc_in_ctr
/-- integration_3_axi_stream.v:6173. -/
@[netlist] def enc_in_ctr1 (s : S) (enc_in_ctr : Nat) : Nat :=
  (next_enc_in_ctr1 s enc_in_ctr)
/-- integration_3_axi_stream.v:6065-6068. -/
@[netlist] def next_enc_in1 (s : S) (enc_in : Nat) : Nat :=
  enc_in
/-- integration_3_axi_stream.v:6174. -/
@[netlist] def enc_in1 (s : S) (enc_in : Nat) : Nat :=
  (next_enc_in1 s enc_in)

/-- integration_3_axi_stream.v:5892-6175: one rising clock edge (`always @(posedge ...)`). -/
@[netlist] def step (s : S) (enc_in_ctr : Nat) (valid_in : Bool) (end_in : Bool) (enc_in_1 : Nat) (enc_in_ctr_2 : Nat) (enc_in_3 : Nat) (enc_in_ctr_4 : Nat) (enc_in_5 : Nat) (enc_in_ctr_6 : Nat) (rst : Bool) (enc_in : Nat) : S :=
  { u_w13 := Beta.anonymous_4.step s.u_w13 (enc_in_ctr1 s enc_in_ctr) (enc_in_ctr2 s enc_in_ctr_2) (enc_in1 s enc_in) (enc_in2 s enc_in_1) (end_in_8 s end_in) rst (valid_in_7 s valid_in)
    u_w22 := anonymous_9.step s.u_w22 (enc_in_ctr1_15 s enc_in_ctr_4) (enc_in_ctr2_16 s enc_in_ctr_6) (enc_in1_17 s enc_in_3) (enc_in2_18 s enc_in_5) (end_in_19 s end_in) rst (valid_in_14 s valid_in)
    u_w33 := anonymous_10.step s.u_w33 (enc_in_ctr1_24 s) (enc_in_ctr2_25 s) (enc_in1_26 s) (enc_in2_27 s) (end_in_28 s) rst (valid_in_23 s) }

/-- integration_3_axi_stream.v:5892-6175: the initial values given in the netlist. -/
def Init (s : S) : Prop :=
  Beta.anonymous_4.Init s.u_w13 ∧
  anonymous_9.Init s.u_w22 ∧
  anonymous_10.Init s.u_w33

/-- integration_3_axi_stream.v:5892-6175: a state with these initial values; registers without one are 0. -/
def powerUp : S :=
  { u_w13 := Beta.anonymous_4.powerUp
    u_w22 := anonymous_9.powerUp
    u_w33 := anonymous_10.powerUp }

theorem powerUp_init : Init powerUp := ⟨Beta.anonymous_4.powerUp_init, anonymous_9.powerUp_init, anonymous_10.powerUp_init⟩

end merge

namespace normalize

/-- integration_3_axi_stream.v:6179-6500: registers, memories and instances of module `normalize`. -/
structure S where
  u_w18 : Beta.anonymous.S
  u_w25 : Beta.anonymous_1.S
  u_w32 : Beta.anonymous_1.S
  u_w39 : Beta.anonymous_1.S

/-- integration_3_axi_stream.v:6328-6339. -/
@[netlist] def end_out_17 (s : S) : Bool :=
  s.u_w18.end_out
/-- integration_3_axi_stream.v:6442-6445. -/
@[netlist] def next_end_out (s : S) : Bool :=
  (end_out_17 s)
/-- integration_3_axi_stream.v:6474. -/
@[netlist] def end_out (s : S) : Bool :=
  (next_end_out s)
/-- integration_3_axi_stream.v:6328-6339. -/
@[netlist] def valid_o (s : S) : Bool :=
  s.u_w18.valid_o
/-- integration_3_axi_stream.v:6438-6441. -/
@[netlist] def next_valid_out (s : S) : Bool :=
  (valid_o s)
/-- integration_3_axi_stream.v:6475. -/
@[netlist] def valid_out (s : S) : Bool :=
  (next_valid_out s)
/-- integration_3_axi_stream.v:6360-6369. -/
@[netlist] def val_out_37 (s : S) : Nat :=
  s.u_w39.val_out
/-- integration_3_axi_stream.v:6434-6437. -/
@[netlist] def next_val_out_12 (s : S) : Nat :=
  (val_out_37 s)
/-- integration_3_axi_stream.v:6476. -/
@[netlist] def val_out_12 (s : S) : Nat :=
  (next_val_out_12 s)
/-- integration_3_axi_stream.v:6360-6369. -/
@[netlist] def ssss_38 (s : S) : Nat :=
  s.u_w39.ssss
/-- integration_3_axi_stream.v:6430-6433. -/
@[netlist] def next_ssss_11 (s : S) : Nat :=
  (ssss_38 s)
/-- integration_3_axi_stream.v:6477. -/
@[netlist] def ssss_11 (s : S) : Nat :=
  (next_ssss_11 s)
/-- integration_3_axi_stream.v:6426-6429. -/
@[netlist] def next_val_in_mns_35 (s : S) (vals_in_mns_6 : Nat) : Nat :=
  vals_in_mns_6
/-- integration_3_axi_stream.v:6478. -/
@[netlist] def val_in_mns_35 (s : S) (vals_in_mns_6 : Nat) : Nat :=
  (next_val_in_mns_35 s vals_in_mns_6)
/-- integration_3_axi_stream.v:6422-6425. -/
@[netlist] def next_end_in_36 (s : S) (end_in : Bool) : Bool :=
  end_in
/-- integration_3_axi_stream.v:6479. -/
@[netlist] def end_in_36 (s : S) (end_in : Bool) : Bool :=
  (next_end_in_36 s end_in)
/-- integration_3_axi_stream.v:6414-6417. -/
@[netlist] def next_valid_33 (s : S) (valid_in : Bool) : Bool :=
  valid_in
/-- integration_3_axi_stream.v:6480. -/
@[netlist] def valid_33 (s : S) (valid_in : Bool) : Bool :=
  (next_valid_33 s valid_in)
/-- integration_3_axi_stream.v:6410-6413. -/
@[netlist] def next_val_in_34 (s : S) (val_in_5 : Nat) : Nat :=
  val_in_5
/-- integration_3_axi_stream.v:6481. -/
@[netlist] def val_in_34 (s : S) (val_in_5 : Nat) : Nat :=
  (next_val_in_34 s val_in_5)
/-- integration_3_axi_stream.v:6350-6359. -/
@[netlist] def val_out_30 (s : S) : Nat :=
  s.u_w32.val_out
/-- integration_3_axi_stream.v:6406-6409. -/
@[netlist] def next_val_out_10 (s : S) : Nat :=
  (val_out_30 s)
/-- integration_3_axi_stream.v:6482. -/
@[netlist] def val_out_10 (s : S) : Nat :=
  (next_val_out_10 s)
/-- integration_3_axi_stream.v:6350-6359. -/
@[netlist] def ssss_31 (s : S) : Nat :=
  s.u_w32.ssss
/-- integration_3_axi_stream.v:6402-6405. -/
@[netlist] def next_ssss_9 (s : S) : Nat :=
  (ssss_31 s)
/-- integration_3_axi_stream.v:6483. -/
@[netlist] def ssss_9 (s : S) : Nat :=
  (next_ssss_9 s)
/-- integration_3_axi_stream.v:6398-6401. -/
@[netlist] def next_val_in_mns_28 (s : S) (vals_in_mns_4 : Nat) : Nat :=
  vals_in_mns_4
/-- integration_3_axi_stream.v:6484. -/
@[netlist] def val_in_mns_28 (s : S) (vals_in_mns_4 : Nat) : Nat :=
  (next_val_in_mns_28 s vals_in_mns_4)
/-- integration_3_axi_stream.v:6394-6397. -/
@[netlist] def next_end_in_29 (s : S) (end_in : Bool) : Bool :=
  end_in
/-- integration_3_axi_stream.v:6485. -/
@[netlist] def end_in_29 (s : S) (end_in : Bool) : Bool :=
  (next_end_in_29 s end_in)
/-- integration_3_axi_stream.v:6390-6393. -/
@[netlist] def next_valid_26 (s : S) (valid_in : Bool) : Bool :=
  valid_in
/-- integration_3_axi_stream.v:6486. -/
@[netlist] def valid_26 (s : S) (valid_in : Bool) : Bool :=
  (next_valid_26 s valid_in)
/-- integration_3_axi_stream.v:6386-6389. -/
@[netlist] def next_val_in_27 (s : S) (val_in_3 : Nat) : Nat :=
  val_in_3
/-- integration_3_axi_stream.v:6487. -/
@[netlist] def val_in_27 (s : S) (val_in_3 : Nat) : Nat :=
  (next_val_in_27 s val_in_3)
/-- integration_3_axi_stream.v:6340-6349. -/
@[netlist] def val_out_23 (s : S) : Nat :=
  s.u_w25.val_out
/-- integration_3_axi_stream.v:6382-6385. -/
@[netlist] def next_val_out_8 (s : S) : Nat :=
  (val_out_23 s)
/-- integration_3_axi_stream.v:6488. -/
@[netlist] def val_out_8 (s : S) : Nat :=
  (next_val_out_8 s)
/-- integration_3_axi_stream.v:6340-6349. -/
@[netlist] def ssss_24 (s : S) : Nat :=
  s.u_w25.ssss
/-- integration_3_axi_stream.v:6378-6381. -/
@[netlist] def next_ssss_7 (s : S) : Nat :=
  (ssss_24 s)
/-- integration_3_axi_stream.v:6489. -/
@[netlist] def ssss_7 (s : S) : Nat :=
  (next_ssss_7 s)
/-- integration_3_axi_stream.v:6470-6473. -/
@[netlist] def next_val_in_mns_21 (s : S) (vals_in_mns_2 : Nat) : Nat :=
  vals_in_mns_2
/-- integration_3_axi_stream.v:6490. -/
@[netlist] def val_in_mns_21 (s : S) (vals_in_mns_2 : Nat) : Nat :=
  (next_val_in_mns_21 s vals_in_mns_2)
/-- integration_3_axi_stream.v:6466-6469. -/
@[netlist] def next_end_in_22 (s : S) (end_in : Bool) : Bool :=
  end_in
/-- integration_3_axi_stream.v:6491. -/
@[netlist] def end_in_22 (s : S) (end_in : Bool) : Bool :=
  (next_end_in_22 s end_in)
/-- integration_3_axi_stream.v:6462-6465. -/
@[netlist] def next_valid_19 (s : S) (valid_in : Bool) : Bool :=
  valid_in
/-- integration_3_axi_stream.v:6492. -/
@[netlist] def valid_19 (s : S) (valid_in : Bool) : Bool :=
  (next_valid_19 s valid_in)
/-- integration_3_axi_stream.v:6458-6461. -/
@[netlist] def next_val_in_20 (s : S) (val_in_1 : Nat) : Nat :=
  val_in_1
/-- integration_3_axi_stream.v:6493. -/
@[netlist] def val_in_20 (s : S) (val_in_1 : Nat) : Nat :=
  (next_val_in_20 s val_in_1)
/-- integration_3_axi_stream.v:6328-6339. -/
@[netlist] def val_out_15 (s : S) : Nat :=
  s.u_w18.val_out
/-- integration_3_axi_stream.v:6454-6457. -/
@[netlist] def next_val_out (s : S) : Nat :=
  (val_out_15 s)
/-- integration_3_axi_stream.v:6494. -/
@[netlist] def val_out (s : S) : Nat :=
  (next_val_out s)
/-- integration_3_axi_stream.v:6328-6339. -/
@[netlist] def ssss_16 (s : S) : Nat :=
  s.u_w18.ssss
/-- integration_3_axi_stream.v:6450-6453. -/
@[netlist] def next_ssss (s : S) : Nat :=
  (ssss_16 s)
/-- integration_3_axi_stream.v:6495. -/
@[netlist] def ssss (s : S) : Nat :=
  (next_ssss s)
/-- integration_3_axi_stream.v:6446-6449. -/
@[netlist] def next_val_in_mns (s : S) (vals_in_mns : Nat) : Nat :=
  vals_in_mns
/-- integration_3_axi_stream.v:6496. -/
@[netlist] def val_in_mns (s : S) (vals_in_mns : Nat) : Nat :=
  (next_val_in_mns s vals_in_mns)
/-- integration_3_axi_stream.v:6418-6421. -/
@[netlist] def next_end_in_14 (s : S) (end_in : Bool) : Bool :=
  end_in
/-- integration_3_axi_stream.v:6497. -/
@[netlist] def end_in_14 (s : S) (end_in : Bool) : Bool :=
  (next_end_in_14 s end_in)
/-- integration_3_axi_stream.v:6374-6377. -/
@[netlist] def next_valid (s : S) (valid_in : Bool) : Bool :=
  valid_in
/-- integration_3_axi_stream.v:6498. -/
@[netlist] def valid (s : S) (valid_in : Bool) : Bool :=
  (next_valid s valid_in)
/-- integration_3_axi_stream.v:6370-6373. -/
@[netlist] def next_val_in_13 (s : S) (val_in : Nat) : Nat :=
  val_in
/-- integration_3_axi_stream.v:6499. -/
@[netlist] def val_in_13 (s : S) (val_in : Nat) : Nat :=
  (next_val_in_13 s val_in)

/-- integration_3_axi_stream.v:6179-6500: one rising clock edge (`always @(posedge ...)`). -/
@[netlist] def step (s : S) (valid_in : Bool) (end_in : Bool) (vals_in_mns : Nat) (val_in_1 : Nat) (vals_in_mns_2 : Nat) (val_in_3 : Nat) (vals_in_mns_4 : Nat) (val_in_5 : Nat) (vals_in_mns_6 : Nat) (rst : Bool) (val_in : Nat) : S :=
  { u_w18 := Beta.anonymous.step s.u_w18 (val_in_13 s val_in) (val_in_mns s vals_in_mns) (end_in_14 s end_in) rst (valid s valid_in)
    u_w25 := Beta.anonymous_1.step s.u_w25 (val_in_20 s val_in_1) (val_in_mns_21 s vals_in_mns_2) (end_in_22 s end_in) rst (valid_19 s valid_in)
    u_w32 := Beta.anonymous_1.step s.u_w32 (val_in_27 s val_in_3) (val_in_mns_28 s vals_in_mns_4) (end_in_29 s end_in) rst (valid_26 s valid_in)
    u_w39 := Beta.anonymous_1.step s.u_w39 (val_in_34 s val_in_5) (val_in_mns_35 s vals_in_mns_6) (end_in_36 s end_in) rst (valid_33 s valid_in) }

/-- integration_3_axi_stream.v:6179-6500: the initial values given in the netlist. -/
def Init (s : S) : Prop :=
  Beta.anonymous.Init s.u_w18 ∧
  Beta.anonymous_1.Init s.u_w25 ∧
  Beta.anonymous_1.Init s.u_w32 ∧
  Beta.anonymous_1.Init s.u_w39

/-- integration_3_axi_stream.v:6179-6500: a state with these initial values; registers without one are 0. -/
def powerUp : S :=
  { u_w18 := Beta.anonymous.powerUp
    u_w25 := Beta.anonymous_1.powerUp
    u_w32 := Beta.anonymous_1.powerUp
    u_w39 := Beta.anonymous_1.powerUp }

theorem powerUp_init : Init powerUp := ⟨Beta.anonymous.powerUp_init, Beta.anonymous_1.powerUp_init, Beta.anonymous_1.powerUp_init, Beta.anonymous_1.powerUp_init⟩

end normalize

namespace predictor

/-- integration_3_axi_stream.v:6800-7179: registers, memories and instances of module `predictor`. -/
structure S where
  end_out : Bool
  valid_out : Bool
  buff_15 : Nat
  buff_13 : Nat
  buff_11 : Nat
  buff : Nat
  lbuff_14 : Nat
  lbuff_12 : Nat
  lbuff_10 : Nat
  lbuff : Nat
  predic_out_9 : Nat
  predic_out_8 : Nat
  predic_out_7 : Nat
  predic_out : Nat
  pixel_out_6 : Nat
  pixel_out_5 : Nat
  pixel_out_4 : Nat
  pixel_out : Nat

/-- integration_3_axi_stream.v:6955-6965. -/
@[netlist] def next_pixel_out (s : S) (pixel_in : Nat) (rst : Bool) (valid_in : Bool) : Nat :=
  let e1 := if valid_in = true then pixel_in
  else s.pixel_out
  if rst = true then 0
  else e1
/-- integration_3_axi_stream.v:6966-6976. -/
@[netlist] def next_pixel_out_4 (s : S) (pixel_in_1 : Nat) (rst : Bool) (valid_in : Bool) : Nat :=
  let e1 := if valid_in = true then pixel_in_1
  else s.pixel_out_4
  if rst = true then 0
  else e1
/-- integration_3_axi_stream.v:6977-6990. -/
@[netlist] def next_lbuff_12 (s : S) (pixel_in_2 : Nat) (new_row : Bool) (rst : Bool) (valid_in : Bool) : Nat :=
  let e1 := if valid_in = true then (if new_row = true then pixel_in_2
    else s.lbuff_12)
  else s.lbuff_12
  if rst = true then 2048
  else e1
/-- integration_3_axi_stream.v:6991-7004. -/
@[netlist] def next_lbuff_14 (s : S) (pixel_in_3 : Nat) (new_row : Bool) (rst : Bool) (valid_in : Bool) : Nat :=
  let e1 := if valid_in = true then (if new_row = true then pixel_in_3
    else s.lbuff_14)
  else s.lbuff_14
  if rst = true then 2048
  else e1
/-- integration_3_axi_stream.v:7005-7015. -/
@[netlist] def next_buff (s : S) (pixel_in : Nat) (rst : Bool) (valid_in : Bool) : Nat :=
  let e1 := if valid_in = true then pixel_in
  else s.buff
  if rst = true then 2048
  else e1
/-- integration_3_axi_stream.v:7016-7026. -/
@[netlist] def next_buff_11 (s : S) (pixel_in_1 : Nat) (rst : Bool) (valid_in : Bool) : Nat :=
  let e1 := if valid_in = true then pixel_in_1
  else s.buff_11
  if rst = true then 2048
  else e1
/-- integration_3_axi_stream.v:7027-7037. -/
@[netlist] def next_buff_13 (s : S) (pixel_in_2 : Nat) (rst : Bool) (valid_in : Bool) : Nat :=
  let e1 := if valid_in = true then pixel_in_2
  else s.buff_13
  if rst = true then 2048
  else e1
/-- integration_3_axi_stream.v:7038-7048. -/
@[netlist] def next_buff_15 (s : S) (pixel_in_3 : Nat) (rst : Bool) (valid_in : Bool) : Nat :=
  let e1 := if valid_in = true then pixel_in_3
  else s.buff_15
  if rst = true then 2048
  else e1
/-- integration_3_axi_stream.v:7049-7056. -/
@[netlist] def next_valid_out (s : S) (rst : Bool) (valid_in : Bool) : Bool :=
  if rst = true then false
  else valid_in
/-- integration_3_axi_stream.v:7057-7064. -/
@[netlist] def next_end_out (s : S) (end_in : Bool) (rst : Bool) : Bool :=
  if rst = true then false
  else end_in
/-- integration_3_axi_stream.v:7065-7075. -/
@[netlist] def next_pixel_out_5 (s : S) (pixel_in_2 : Nat) (rst : Bool) (valid_in : Bool) : Nat :=
  let e1 := if valid_in = true then pixel_in_2
  else s.pixel_out_5
  if rst = true then 0
  else e1
/-- integration_3_axi_stream.v:7076-7086. -/
@[netlist] def next_pixel_out_6 (s : S) (pixel_in_3 : Nat) (rst : Bool) (valid_in : Bool) : Nat :=
  let e1 := if valid_in = true then pixel_in_3
  else s.pixel_out_6
  if rst = true then 0
  else e1
/-- integration_3_axi_stream.v:7087-7102. -/
@[netlist] def next_predic_out (s : S) (new_row : Bool) (rst : Bool) (valid_in : Bool) : Nat :=
  let e1 := if valid_in = true then (if new_row = true then s.lbuff
    else s.buff)
  else s.predic_out
  if rst = true then 0
  else e1
/-- integration_3_axi_stream.v:7103-7118. -/
@[netlist] def next_predic_out_7 (s : S) (new_row : Bool) (rst : Bool) (valid_in : Bool) : Nat :=
  let e1 := if valid_in = true then (if new_row = true then s.lbuff_10
    else s.buff_11)
  else s.predic_out_7
  if rst = true then 0
  else e1
/-- integration_3_axi_stream.v:7119-7134. -/
@[netlist] def next_predic_out_8 (s : S) (new_row : Bool) (rst : Bool) (valid_in : Bool) : Nat :=
  let e1 := if valid_in = true then (if new_row = true then s.lbuff_12
    else s.buff_13)
  else s.predic_out_8
  if rst = true then 0
  else e1
/-- integration_3_axi_stream.v:7135-7150. -/
@[netlist] def next_predic_out_9 (s : S) (new_row : Bool) (rst : Bool) (valid_in : Bool) : Nat :=
  let e1 := if valid_in = true then (if new_row = true then s.lbuff_14
    else s.buff_15)
  else s.predic_out_9
  if rst = true then 0
  else e1
/-- integration_3_axi_stream.v:7151-7164. -/
@[netlist] def next_lbuff (s : S) (pixel_in : Nat) (new_row : Bool) (rst : Bool) (valid_in : Bool) : Nat :=
  let e1 := if valid_in = true then (if new_row = true then pixel_in
    else s.lbuff)
  else s.lbuff
  if rst = true then 2048
  else e1
/-- integration_3_axi_stream.v:7165-7178. -/
@[netlist] def next_lbuff_10 (s : S) (pixel_in_1 : Nat) (new_row : Bool) (rst : Bool) (valid_in : Bool) : Nat :=
  let e1 := if valid_in = true then (if new_row = true then pixel_in_1
    else s.lbuff_10)
  else s.lbuff_10
  if rst = true then 2048
  else e1

/-- integration_3_axi_stream.v:6800-7179: one rising clock edge (`always @(posedge ...)`). -/
@[netlist] def step (s : S) (pixel_in : Nat) (pixel_in_1 : Nat) (pixel_in_2 : Nat) (pixel_in_3 : Nat) (new_row : Bool) (end_in : Bool) (rst : Bool) (valid_in : Bool) : S :=
  { end_out := (next_end_out s end_in rst)
    valid_out := (next_valid_out s rst valid_in)
    buff_15 := (next_buff_15 s pixel_in_3 rst valid_in)
    buff_13 := (next_buff_13 s pixel_in_2 rst valid_in)
    buff_11 := (next_buff_11 s pixel_in_1 rst valid_in)
    buff := (next_buff s pixel_in rst valid_in)
    lbuff_14 := (next_lbuff_14 s pixel_in_3 new_row rst valid_in)
    lbuff_12 := (next_lbuff_12 s pixel_in_2 new_row rst valid_in)
    lbuff_10 := (next_lbuff_10 s pixel_in_1 new_row rst valid_in)
    lbuff := (next_lbuff s pixel_in new_row rst valid_in)
    predic_out_9 := (next_predic_out_9 s new_row rst valid_in)
    predic_out_8 := (next_predic_out_8 s new_row rst valid_in)
    predic_out_7 := (next_predic_out_7 s new_row rst valid_in)
    predic_out := (next_predic_out s new_row rst valid_in)
    pixel_out_6 := (next_pixel_out_6 s pixel_in_3 rst valid_in)
    pixel_out_5 := (next_pixel_out_5 s pixel_in_2 rst valid_in)
    pixel_out_4 := (next_pixel_out_4 s pixel_in_1 rst valid_in)
    pixel_out := (next_pixel_out s pixel_in rst valid_in) }

/-- integration_3_axi_stream.v:6800-7179: the initial values given in the netlist. -/
def Init (s : S) : Prop :=
  s.end_out = false ∧
  s.valid_out = false ∧
  s.buff_15 = 2048 ∧
  s.buff_13 = 2048 ∧
  s.buff_11 = 2048 ∧
  s.buff = 2048 ∧
  s.lbuff_14 = 2048 ∧
  s.lbuff_12 = 2048 ∧
  s.lbuff_10 = 2048 ∧
  s.lbuff = 2048 ∧
  s.predic_out_9 = 0 ∧
  s.predic_out_8 = 0 ∧
  s.predic_out_7 = 0 ∧
  s.predic_out = 0 ∧
  s.pixel_out_6 = 0 ∧
  s.pixel_out_5 = 0 ∧
  s.pixel_out_4 = 0 ∧
  s.pixel_out = 0

/-- integration_3_axi_stream.v:6800-7179: a state with these initial values; registers without one are 0. -/
def powerUp : S :=
  { end_out := false
    valid_out := false
    buff_15 := 2048
    buff_13 := 2048
    buff_11 := 2048
    buff := 2048
    lbuff_14 := 2048
    lbuff_12 := 2048
    lbuff_10 := 2048
    lbuff := 2048
    predic_out_9 := 0
    predic_out_8 := 0
    predic_out_7 := 0
    predic_out := 0
    pixel_out_6 := 0
    pixel_out_5 := 0
    pixel_out_4 := 0
    pixel_out := 0 }

theorem powerUp_init : Init powerUp := ⟨rfl, rfl, rfl, rfl, rfl, rfl, rfl, rfl, rfl, rfl, rfl, rfl, rfl, rfl, rfl, rfl, rfl, rfl⟩

end predictor

namespace register_file

/-- integration_3_axi_stream.v:7183-7269: registers, memories and instances of module `register_file`. -/
structure S where
  allowed_cycles_reg : Nat
  height_reg : Nat
  width_reg : Nat

/-- integration_3_axi_stream.v:7261-7264. -/
@[netlist] def next_allowed_cycles (s : S) : Nat :=
  s.allowed_cycles_reg
/-- integration_3_axi_stream.v:7265. -/
@[netlist] def allowed_cycles (s : S) : Nat :=
  (next_allowed_cycles s)
/-- integration_3_axi_stream.v:7257-7260. -/
@[netlist] def next_height (s : S) : Nat :=
  s.height_reg
/-- integration_3_axi_stream.v:7266. -/
@[netlist] def height (s : S) : Nat :=
  (next_height s)
/-- integration_3_axi_stream.v:7253-7256. -/
@[netlist] def next_width (s : S) : Nat :=
  s.width_reg
/-- integration_3_axi_stream.v:7267. -/
@[netlist] def width (s : S) : Nat :=
  (next_width s)
/-- integration_3_axi_stream.v:7229-7236. -/
@[netlist] def next_width_reg (s : S) (full_rst : Bool) : Nat :=
  if full_rst = true then 0
  else 0x1000
/-- integration_3_axi_stream.v:7237-7244. -/
@[netlist] def next_height_reg (s : S) (full_rst : Bool) : Nat :=
  if full_rst = true then 0
  else 3072
/-- integration_3_axi_stream.v:7245-7252. -/
@[netlist] def next_allowed_cycles_reg (s : S) (full_rst : Bool) : Nat :=
  if full_rst = true then 0
  else 0x65b710

/-- integration_3_axi_stream.v:7183-7269: one rising clock edge (`always @(posedge ...)`). -/
@[netlist] def step (s : S) (full_rst : Bool) : S :=
  { allowed_cycles_reg := (next_allowed_cycles_reg s full_rst)
    height_reg := (next_height_reg s full_rst)
    width_reg := (next_width_reg s full_rst) }

/-- integration_3_axi_stream.v:7183-7269: the initial values given in the netlist. -/
def Init (s : S) : Prop :=
  s.allowed_cycles_reg = 0 ∧
  s.height_reg = 0 ∧
  s.width_reg = 0

/-- integration_3_axi_stream.v:7183-7269: a state with these initial values; registers without one are 0. -/
def powerUp : S :=
  { allowed_cycles_reg := 0
    height_reg := 0
    width_reg := 0 }

theorem powerUp_init : Init powerUp := ⟨rfl, rfl, rfl⟩

end register_file

namespace signals

/-- integration_3_axi_stream.v:7273-7466: registers, memories and instances of module `signals`. -/
structure S where
  end_of_frame : Bool
  fsm_state : Nat
  new_row : Bool
  height_temp : Nat
  width_temp : Nat

/-- integration_3_axi_stream.v:7328. -/
@[netlist] def w10 (s : S) (height : Nat) : Nat :=
  (2 ^ 17 + height - 1) % 2 ^ 17
/-- integration_3_axi_stream.v:7329. -/
@[netlist] def w12 (s : S) : Bool :=
  s.width_temp == 4
/-- integration_3_axi_stream.v:7330. -/
@[netlist] def w15 (s : S) : Nat :=
  (2 ^ 17 + s.height_temp - 1) % 2 ^ 17
/-- integration_3_axi_stream.v:7331. -/
@[netlist] def w17 (s : S) : Bool :=
  s.width_temp == 4
/-- integration_3_axi_stream.v:7332. -/
@[netlist] def w19 (s : S) : Bool :=
  s.height_temp == 0
/-- integration_3_axi_stream.v:7333. -/
@[netlist] def w21 (s : S) : Bool :=
  s.width_temp == 8
/-- integration_3_axi_stream.v:7334. -/
@[netlist] def w23 (s : S) : Bool :=
  (w19 s) && (w21 s)
/-- integration_3_axi_stream.v:7335. -/
@[netlist] def w25 (s : S) : Bool :=
  s.height_temp == 0
/-- integration_3_axi_stream.v:7336. -/
@[netlist] def w27 (s : S) : Bool :=
  s.width_temp == 8
/-- integration_3_axi_stream.v:7337. -/
@[netlist] def w2 (s : S) (width : Nat) : Nat :=
  (2 ^ 17 + width - 4) % 2 ^ 17
/-- integration_3_axi_stream.v:7338. -/
@[netlist] def w29 (s : S) : Bool :=
  (w25 s) && (w27 s)
/-- integration_3_axi_stream.v:7339. -/
@[netlist] def w4 (s : S) : Bool :=
  s.width_temp == 4
/-- integration_3_axi_stream.v:7340. -/
@[netlist] def w7 (s : S) : Nat :=
  (2 ^ 17 + s.width_temp - 4) % 2 ^ 17
/-- integration_3_axi_stream.v:7462. -/
@[netlist] def w1 (s : S) (width : Nat) : Nat :=
  (w2 s width)
/-- integration_3_axi_stream.v:7463. -/
@[netlist] def w6 (s : S) : Nat :=
  (w7 s)
/-- integration_3_axi_stream.v:7464. -/
@[netlist] def w9 (s : S) (height : Nat) : Nat :=
  (w10 s height)
/-- integration_3_axi_stream.v:7465. -/
@[netlist] def w14 (s : S) : Nat :=
  (w15 s)
/-- integration_3_axi_stream.v:7351-7374. -/
@[netlist] def next_width_temp (s : S) (width : Nat) (rst : Bool) (new_input : Bool) : Nat :=
  let e1 := if s.fsm_state = 0 then (if new_input = true then slc (w1 s width) 0 16
    else s.width_temp)
  else if s.fsm_state = 1 then (if new_input = true then (if (w4 s) = true then width
      else slc (w6 s) 0 16)
    else s.width_temp)
  else s.width_temp
  if rst = true then 0
  else e1
/-- integration_3_axi_stream.v:7375-7396. -/
@[netlist] def next_height_temp (s : S) (height : Nat) (rst : Bool) (new_input : Bool) : Nat :=
  let e1 := if s.fsm_state = 0 then (if new_input = true then slc (w9 s height) 0 16
    else s.height_temp)
  else if s.fsm_state = 1 then (if new_input = true then (if (w12 s) = true then slc (w14 s) 0 16
      else s.height_temp)
    else s.height_temp)
  else s.height_temp
  if rst = true then 0
  else e1
/-- integration_3_axi_stream.v:7397-7420. -/
@[netlist] def next_new_row (s : S) (rst : Bool) (new_input : Bool) : Bool :=
  let e1 := if s.fsm_state = 0 then (if new_input = true then false
    else s.new_row)
  else if s.fsm_state = 1 then (if new_input = true then (if (w17 s) = true then true
      else false)
    else s.new_row)
  else s.new_row
  if rst = true then true
  else e1
/-- integration_3_axi_stream.v:7421-7442. -/
@[netlist] def next_fsm_state (s : S) (rst : Bool) (new_input : Bool) : Nat :=
  let e1 := if s.fsm_state = 0 then (if new_input = true then 1
    else s.fsm_state)
  else if s.fsm_state = 1 then (if new_input = true then (if (w23 s) = true then 2
      else s.fsm_state)
    else s.fsm_state)
  else s.fsm_state
  if rst = true then 0
  else e1
/-- integration_3_axi_stream.v:7443-7461. -/
@[netlist] def next_end_of_frame (s : S) (rst : Bool) (new_input : Bool) : Bool :=
  let e1 := if s.fsm_state = 1 then (if new_input = true then (if (w29 s) = true then true
      else s.end_of_frame)
    else s.end_of_frame)
  else if s.fsm_state = 2 then true
  else s.end_of_frame
  if rst = true then false
  else e1

/-- integration_3_axi_stream.v:7273-7466: one rising clock edge (`always @(posedge ...)`). -/
@[netlist] def step (s : S) (width : Nat) (height : Nat) (rst : Bool) (new_input : Bool) : S :=
  { end_of_frame := (next_end_of_frame s rst new_input)
    fsm_state := (next_fsm_state s rst new_input)
    new_row := (next_new_row s rst new_input)
    height_temp := (next_height_temp s height rst new_input)
    width_temp := (next_width_temp s width rst new_input) }

/-- integration_3_axi_stream.v:7273-7466: the initial values given in the netlist. -/
def Init (s : S) : Prop :=
  s.end_of_frame = false ∧
  s.fsm_state = 0 ∧
  s.new_row = true ∧
  s.height_temp = 0 ∧
  s.width_temp = 0

/-- integration_3_axi_stream.v:7273-7466: a state with these initial values; registers without one are 0. -/
def powerUp : S :=
  { end_of_frame := false
    fsm_state := 0
    new_row := true
    height_temp := 0
    width_temp := 0 }

theorem powerUp_init : Init powerUp := ⟨rfl, rfl, rfl, rfl, rfl⟩

end signals

namespace integration_1

/-- integration_3_axi_stream.v:4517-5284: registers, memories and instances of module `integration_1`. -/
structure S where
  u_difference : difference.S
  u_encode : encode.S
  u_force_end : Beta.force_end.S
  u_merge : merge.S
  u_normalize : normalize.S
  u_predictor : predictor.S
  u_register_file : register_file.S
  u_signals : signals.S

/-- integration_3_axi_stream.v:4919-4936. -/
@[netlist] def merge_end_out (s : S) : Bool :=
  merge.end_out s.u_merge
/-- integration_3_axi_stream.v:5207-5210. -/
@[netlist] def next_end_out (s : S) : Bool :=
  (merge_end_out s)
/-- integration_3_axi_stream.v:5227. -/
@[netlist] def end_out (s : S) : Bool :=
  (next_end_out s)
/-- integration_3_axi_stream.v:4919-4936. -/
@[netlist] def merge_valid_out (s : S) : Bool :=
  merge.valid_out s.u_merge
/-- integration_3_axi_stream.v:5203-5206. -/
@[netlist] def next_valid_out (s : S) : Bool :=
  (merge_valid_out s)
/-- integration_3_axi_stream.v:5228. -/
@[netlist] def valid_out (s : S) : Bool :=
  (next_valid_out s)
/-- integration_3_axi_stream.v:4919-4936. -/
@[netlist] def merge_enc_out_ctr (s : S) : Nat :=
  merge.enc_out_ctr s.u_merge
/-- integration_3_axi_stream.v:5199-5202. -/
@[netlist] def next_enc_out_ctr (s : S) : Nat :=
  (merge_enc_out_ctr s)
/-- integration_3_axi_stream.v:5229. -/
@[netlist] def enc_out_ctr (s : S) : Nat :=
  (next_enc_out_ctr s)
/-- integration_3_axi_stream.v:4919-4936. -/
@[netlist] def merge_enc_out (s : S) : Nat :=
  merge.enc_out s.u_merge
/-- integration_3_axi_stream.v:5195-5198. -/
@[netlist] def next_enc_out (s : S) : Nat :=
  (merge_enc_out s)
/-- integration_3_axi_stream.v:5230. -/
@[netlist] def enc_out (s : S) : Nat :=
  (next_enc_out s)
/-- integration_3_axi_stream.v:4888-4911. -/
@[netlist] def encode_end_out (s : S) : Bool :=
  encode.end_out s.u_encode
/-- integration_3_axi_stream.v:5191-5194. -/
@[netlist] def next_merge_end_in (s : S) : Bool :=
  (encode_end_out s)
/-- integration_3_axi_stream.v:5231. -/
@[netlist] def merge_end_in (s : S) : Bool :=
  (next_merge_end_in s)
/-- integration_3_axi_stream.v:4888-4911. -/
@[netlist] def encode_valid_out (s : S) : Bool :=
  encode.valid_out s.u_encode
/-- integration_3_axi_stream.v:5187-5190. -/
@[netlist] def next_merge_valid_in (s : S) : Bool :=
  (encode_valid_out s)
/-- integration_3_axi_stream.v:5232. -/
@[netlist] def merge_valid_in (s : S) : Bool :=
  (next_merge_valid_in s)
/-- integration_3_axi_stream.v:4888-4911. -/
@[netlist] def encode_enc_ctr_49 (s : S) : Nat :=
  encode.enc_ctr_12 s.u_encode
/-- integration_3_axi_stream.v:5183-5186. -/
@[netlist] def next_merge_enc_in_ctr_55 (s : S) : Nat :=
  (encode_enc_ctr_49 s)
/-- integration_3_axi_stream.v:5233. -/
@[netlist] def merge_enc_in_ctr_55 (s : S) : Nat :=
  (next_merge_enc_in_ctr_55 s)
/-- integration_3_axi_stream.v:4888-4911. -/
@[netlist] def encode_enc_ctr_47 (s : S) : Nat :=
  encode.enc_ctr_10 s.u_encode
/-- integration_3_axi_stream.v:5175-5178. -/
@[netlist] def next_merge_enc_in_ctr_53 (s : S) : Nat :=
  (encode_enc_ctr_47 s)
/-- integration_3_axi_stream.v:5234. -/
@[netlist] def merge_enc_in_ctr_53 (s : S) : Nat :=
  (next_merge_enc_in_ctr_53 s)
/-- integration_3_axi_stream.v:4888-4911. -/
@[netlist] def encode_enc_ctr_45 (s : S) : Nat :=
  encode.enc_ctr_8 s.u_encode
/-- integration_3_axi_stream.v:5171-5174. -/
@[netlist] def next_merge_enc_in_ctr_51 (s : S) : Nat :=
  (encode_enc_ctr_45 s)
/-- integration_3_axi_stream.v:5235. -/
@[netlist] def merge_enc_in_ctr_51 (s : S) : Nat :=
  (next_merge_enc_in_ctr_51 s)
/-- integration_3_axi_stream.v:4888-4911. -/
@[netlist] def encode_enc_ctr (s : S) : Nat :=
  encode.enc_ctr s.u_encode
/-- integration_3_axi_stream.v:5167-5170. -/
@[netlist] def next_merge_enc_in_ctr (s : S) : Nat :=
  (encode_enc_ctr s)
/-- integration_3_axi_stream.v:5236. -/
@[netlist] def merge_enc_in_ctr (s : S) : Nat :=
  (next_merge_enc_in_ctr s)
/-- integration_3_axi_stream.v:4888-4911. -/
@[netlist] def encode_enc_out_48 (s : S) : Nat :=
  encode.enc_out_11 s.u_encode
/-- integration_3_axi_stream.v:5163-5166. -/
@[netlist] def next_merge_enc_in_54 (s : S) : Nat :=
  (encode_enc_out_48 s)
/-- integration_3_axi_stream.v:5237. -/
@[netlist] def merge_enc_in_54 (s : S) : Nat :=
  (next_merge_enc_in_54 s)
/-- integration_3_axi_stream.v:4888-4911. -/
@[netlist] def encode_enc_out_46 (s : S) : Nat :=
  encode.enc_out_9 s.u_encode
/-- integration_3_axi_stream.v:5159-5162. -/
@[netlist] def next_merge_enc_in_52 (s : S) : Nat :=
  (encode_enc_out_46 s)
/-- integration_3_axi_stream.v:5238. -/
@[netlist] def merge_enc_in_52 (s : S) : Nat :=
  (next_merge_enc_in_52 s)
/-- integration_3_axi_stream.v:4888-4911. -/
@[netlist] def encode_enc_out_44 (s : S) : Nat :=
  encode.enc_out_7 s.u_encode
/-- integration_3_axi_stream.v:5155-5158. -/
@[netlist] def next_merge_enc_in_50 (s : S) : Nat :=
  (encode_enc_out_44 s)
/-- integration_3_axi_stream.v:5239. -/
@[netlist] def merge_enc_in_50 (s : S) : Nat :=
  (next_merge_enc_in_50 s)
/-- integration_3_axi_stream.v:4888-4911. -/
@[netlist] def encode_enc_out (s : S) : Nat :=
  encode.enc_out s.u_encode
/-- integration_3_axi_stream.v:5151-5154. -/
@[netlist] def next_merge_enc_in (s : S) : Nat :=
  (encode_enc_out s)
/-- integration_3_axi_stream.v:5240. -/
@[netlist] def merge_enc_in (s : S) : Nat :=
  (next_merge_enc_in s)
/-- integration_3_axi_stream.v:4937-4960. -/
@[netlist] def normalize_end_out (s : S) : Bool :=
  normalize.end_out s.u_normalize
/-- integration_3_axi_stream.v:5147-5150. -/
@[netlist] def next_encode_end_in (s : S) : Bool :=
  (normalize_end_out s)
/-- integration_3_axi_stream.v:5241. -/
@[netlist] def encode_end_in (s : S) : Bool :=
  (next_encode_end_in s)
/-- integration_3_axi_stream.v:4937-4960. -/
@[netlist] def normalize_valid_out (s : S) : Bool :=
  normalize.valid_out s.u_normalize
/-- integration_3_axi_stream.v:5143-5146. -/
@[netlist] def next_encode_valid_in (s : S) : Bool :=
  (normalize_valid_out s)
/-- integration_3_axi_stream.v:5242. -/
@[netlist] def encode_valid_in (s : S) : Bool :=
  (next_encode_valid_in s)
/-- integration_3_axi_stream.v:4937-4960. -/
@[netlist] def normalize_ssss_36 (s : S) : Nat :=
  normalize.ssss_11 s.u_normalize
/-- integration_3_axi_stream.v:5139-5142. -/
@[netlist] def next_encode_ssss_43 (s : S) : Nat :=
  (normalize_ssss_36 s)
/-- integration_3_axi_stream.v:5243. -/
@[netlist] def encode_ssss_43 (s : S) : Nat :=
  (next_encode_ssss_43 s)
/-- integration_3_axi_stream.v:4937-4960. -/
@[netlist] def normalize_ssss_34 (s : S) : Nat :=
  normalize.ssss_9 s.u_normalize
/-- integration_3_axi_stream.v:5131-5134. -/
@[netlist] def next_encode_ssss_41 (s : S) : Nat :=
  (normalize_ssss_34 s)
/-- integration_3_axi_stream.v:5244. -/
@[netlist] def encode_ssss_41 (s : S) : Nat :=
  (next_encode_ssss_41 s)
/-- integration_3_axi_stream.v:4937-4960. -/
@[netlist] def normalize_ssss_32 (s : S) : Nat :=
  normalize.ssss_7 s.u_normalize
/-- integration_3_axi_stream.v:5127-5130. -/
@[netlist] def next_encode_ssss_39 (s : S) : Nat :=
  (normalize_ssss_32 s)
/-- integration_3_axi_stream.v:5245. -/
@[netlist] def encode_ssss_39 (s : S) : Nat :=
  (next_encode_ssss_39 s)
/-- integration_3_axi_stream.v:4937-4960. -/
@[netlist] def normalize_ssss (s : S) : Nat :=
  normalize.ssss s.u_normalize
/-- integration_3_axi_stream.v:5123-5126. -/
@[netlist] def next_encode_ssss (s : S) : Nat :=
  (normalize_ssss s)
/-- integration_3_axi_stream.v:5246. -/
@[netlist] def encode_ssss (s : S) : Nat :=
  (next_encode_ssss s)
/-- integration_3_axi_stream.v:4937-4960. -/
@[netlist] def normalize_val_out_37 (s : S) : Nat :=
  normalize.val_out_12 s.u_normalize
/-- integration_3_axi_stream.v:5119-5122. -/
@[netlist] def next_encode_val_in_42 (s : S) : Nat :=
  (normalize_val_out_37 s)
/-- integration_3_axi_stream.v:5247. -/
@[netlist] def encode_val_in_42 (s : S) : Nat :=
  (next_encode_val_in_42 s)
/-- integration_3_axi_stream.v:4937-4960. -/
@[netlist] def normalize_val_out_35 (s : S) : Nat :=
  normalize.val_out_10 s.u_normalize
/-- integration_3_axi_stream.v:5115-5118. -/
@[netlist] def next_encode_val_in_40 (s : S) : Nat :=
  (normalize_val_out_35 s)
/-- integration_3_axi_stream.v:5248. -/
@[netlist] def encode_val_in_40 (s : S) : Nat :=
  (next_encode_val_in_40 s)
/-- integration_3_axi_stream.v:4937-4960. -/
@[netlist] def normalize_val_out_33 (s : S) : Nat :=
  normalize.val_out_8 s.u_normalize
/-- integration_3_axi_stream.v:5111-5114. -/
@[netlist] def next_encode_val_in_38 (s : S) : Nat :=
  (normalize_val_out_33 s)
/-- integration_3_axi_stream.v:5249. -/
@[netlist] def encode_val_in_38 (s : S) : Nat :=
  (next_encode_val_in_38 s)
/-- integration_3_axi_stream.v:4937-4960. -/
@[netlist] def normalize_val_out (s : S) : Nat :=
  normalize.val_out s.u_normalize
/-- integration_3_axi_stream.v:5107-5110. -/
@[netlist] def next_encode_val_in (s : S) : Nat :=
  (normalize_val_out s)
/-- integration_3_axi_stream.v:5250. -/
@[netlist] def encode_val_in (s : S) : Nat :=
  (next_encode_val_in s)
/-- integration_3_axi_stream.v:4864-4887. -/
@[netlist] def difference_end_out (s : S) : Bool :=
  s.u_difference.end_out
/-- integration_3_axi_stream.v:5103-5106. -/
@[netlist] def next_normalize_end_in (s : S) : Bool :=
  (difference_end_out s)
/-- integration_3_axi_stream.v:5251. -/
@[netlist] def normalize_end_in (s : S) : Bool :=
  (next_normalize_end_in s)
/-- integration_3_axi_stream.v:4864-4887. -/
@[netlist] def difference_valid_out (s : S) : Bool :=
  s.u_difference.valid_out
/-- integration_3_axi_stream.v:5099-5102. -/
@[netlist] def next_normalize_valid_in (s : S) : Bool :=
  (difference_valid_out s)
/-- integration_3_axi_stream.v:5252. -/
@[netlist] def normalize_valid_in (s : S) : Bool :=
  (next_normalize_valid_in s)
/-- integration_3_axi_stream.v:4864-4887. -/
@[netlist] def difference_val_out_25 (s : S) : Nat :=
  s.u_difference.val_out_13
/-- integration_3_axi_stream.v:5095-5098. -/
@[netlist] def next_normalize_vals_in_mns_31 (s : S) : Nat :=
  (difference_val_out_25 s)
/-- integration_3_axi_stream.v:5253. -/
@[netlist] def normalize_vals_in_mns_31 (s : S) : Nat :=
  (next_normalize_vals_in_mns_31 s)
/-- integration_3_axi_stream.v:4864-4887. -/
@[netlist] def difference_val_out_24 (s : S) : Nat :=
  s.u_difference.val_out_12
/-- integration_3_axi_stream.v:5087-5090. -/
@[netlist] def next_normalize_vals_in_mns_29 (s : S) : Nat :=
  (difference_val_out_24 s)
/-- integration_3_axi_stream.v:5254. -/
@[netlist] def normalize_vals_in_mns_29 (s : S) : Nat :=
  (next_normalize_vals_in_mns_29 s)
/-- integration_3_axi_stream.v:4864-4887. -/
@[netlist] def difference_val_out_23 (s : S) : Nat :=
  s.u_difference.val_out_11
/-- integration_3_axi_stream.v:5083-5086. -/
@[netlist] def next_normalize_vals_in_mns_27 (s : S) : Nat :=
  (difference_val_out_23 s)
/-- integration_3_axi_stream.v:5255. -/
@[netlist] def normalize_vals_in_mns_27 (s : S) : Nat :=
  (next_normalize_vals_in_mns_27 s)
/-- integration_3_axi_stream.v:4864-4887. -/
@[netlist] def difference_val_out_22 (s : S) : Nat :=
  s.u_difference.val_out_10
/-- integration_3_axi_stream.v:5079-5082. -/
@[netlist] def next_normalize_vals_in_mns (s : S) : Nat :=
  (difference_val_out_22 s)
/-- integration_3_axi_stream.v:5256. -/
@[netlist] def normalize_vals_in_mns (s : S) : Nat :=
  (next_normalize_vals_in_mns s)
/-- integration_3_axi_stream.v:4864-4887. -/
@[netlist] def difference_val_out_21 (s : S) : Nat :=
  s.u_difference.val_out_9
/-- integration_3_axi_stream.v:5075-5078. -/
@[netlist] def next_normalize_val_in_30 (s : S) : Nat :=
  (difference_val_out_21 s)
/-- integration_3_axi_stream.v:5257. -/
@[netlist] def normalize_val_in_30 (s : S) : Nat :=
  (next_normalize_val_in_30 s)
/-- integration_3_axi_stream.v:4864-4887. -/
@[netlist] def difference_val_out_20 (s : S) : Nat :=
  s.u_difference.val_out_8
/-- integration_3_axi_stream.v:5071-5074. -/
@[netlist] def next_normalize_val_in_28 (s : S) : Nat :=
  (difference_val_out_20 s)
/-- integration_3_axi_stream.v:5258. -/
@[netlist] def normalize_val_in_28 (s : S) : Nat :=
  (next_normalize_val_in_28 s)
/-- integration_3_axi_stream.v:4864-4887. -/
@[netlist] def difference_val_out_19 (s : S) : Nat :=
  s.u_difference.val_out_7
/-- integration_3_axi_stream.v:5067-5070. -/
@[netlist] def next_normalize_val_in_26 (s : S) : Nat :=
  (difference_val_out_19 s)
/-- integration_3_axi_stream.v:5259. -/
@[netlist] def normalize_val_in_26 (s : S) : Nat :=
  (next_normalize_val_in_26 s)
/-- integration_3_axi_stream.v:4864-4887. -/
@[netlist] def difference_val_out (s : S) : Nat :=
  s.u_difference.val_out
/-- integration_3_axi_stream.v:5063-5066. -/
@[netlist] def next_normalize_val_in (s : S) : Nat :=
  (difference_val_out s)
/-- integration_3_axi_stream.v:5260. -/
@[netlist] def normalize_val_in (s : S) : Nat :=
  (next_normalize_val_in s)
/-- integration_3_axi_stream.v:4961-4981. -/
@[netlist] def predictor_end_out (s : S) : Bool :=
  s.u_predictor.end_out
/-- integration_3_axi_stream.v:5059-5062. -/
@[netlist] def next_difference_end_in (s : S) : Bool :=
  (predictor_end_out s)
/-- integration_3_axi_stream.v:5261. -/
@[netlist] def difference_end_in (s : S) : Bool :=
  (next_difference_end_in s)
/-- integration_3_axi_stream.v:4961-4981. -/
@[netlist] def predictor_valid_out (s : S) : Bool :=
  s.u_predictor.valid_out
/-- integration_3_axi_stream.v:5055-5058. -/
@[netlist] def next_difference_valid_in (s : S) : Bool :=
  (predictor_valid_out s)
/-- integration_3_axi_stream.v:5262. -/
@[netlist] def difference_valid_in (s : S) : Bool :=
  (next_difference_valid_in s)
/-- integration_3_axi_stream.v:4961-4981. -/
@[netlist] def predictor_predic_out_12 (s : S) : Nat :=
  s.u_predictor.predic_out_9
/-- integration_3_axi_stream.v:5051-5054. -/
@[netlist] def next_difference_predic_in_18 (s : S) : Nat :=
  (predictor_predic_out_12 s)
/-- integration_3_axi_stream.v:5263. -/
@[netlist] def difference_predic_in_18 (s : S) : Nat :=
  (next_difference_predic_in_18 s)
/-- integration_3_axi_stream.v:4961-4981. -/
@[netlist] def predictor_predic_out_11 (s : S) : Nat :=
  s.u_predictor.predic_out_8
/-- integration_3_axi_stream.v:5043-5046. -/
@[netlist] def next_difference_predic_in_16 (s : S) : Nat :=
  (predictor_predic_out_11 s)
/-- integration_3_axi_stream.v:5264. -/
@[netlist] def difference_predic_in_16 (s : S) : Nat :=
  (next_difference_predic_in_16 s)
/-- integration_3_axi_stream.v:4961-4981. -/
@[netlist] def predictor_predic_out_10 (s : S) : Nat :=
  s.u_predictor.predic_out_7
/-- integration_3_axi_stream.v:5039-5042. -/
@[netlist] def next_difference_predic_in_14 (s : S) : Nat :=
  (predictor_predic_out_10 s)
/-- integration_3_axi_stream.v:5265. -/
@[netlist] def difference_predic_in_14 (s : S) : Nat :=
  (next_difference_predic_in_14 s)
/-- integration_3_axi_stream.v:4961-4981. -/
@[netlist] def predictor_predic_out (s : S) : Nat :=
  s.u_predictor.predic_out
/-- integration_3_axi_stream.v:5035-5038. -/
@[netlist] def next_difference_predic_in (s : S) : Nat :=
  (predictor_predic_out s)
/-- integration_3_axi_stream.v:5266. -/
@[netlist] def difference_predic_in (s : S) : Nat :=
  (next_difference_predic_in s)
/-- integration_3_axi_stream.v:4961-4981. -/
@[netlist] def predictor_pixel_out_9 (s : S) : Nat :=
  s.u_predictor.pixel_out_6
/-- integration_3_axi_stream.v:5031-5034. -/
@[netlist] def next_difference_pixel_in_17 (s : S) : Nat :=
  (predictor_pixel_out_9 s)
/-- integration_3_axi_stream.v:5267. -/
@[netlist] def difference_pixel_in_17 (s : S) : Nat :=
  (next_difference_pixel_in_17 s)
/-- integration_3_axi_stream.v:4961-4981. -/
@[netlist] def predictor_pixel_out_8 (s : S) : Nat :=
  s.u_predictor.pixel_out_5
/-- integration_3_axi_stream.v:5027-5030. -/
@[netlist] def next_difference_pixel_in_15 (s : S) : Nat :=
  (predictor_pixel_out_8 s)
/-- integration_3_axi_stream.v:5268. -/
@[netlist] def difference_pixel_in_15 (s : S) : Nat :=
  (next_difference_pixel_in_15 s)
/-- integration_3_axi_stream.v:4961-4981. -/
@[netlist] def predictor_pixel_out_7 (s : S) : Nat :=
  s.u_predictor.pixel_out_4
/-- integration_3_axi_stream.v:5023-5026. -/
@[netlist] def next_difference_pixel_in_13 (s : S) : Nat :=
  (predictor_pixel_out_7 s)
/-- integration_3_axi_stream.v:5269. -/
@[netlist] def difference_pixel_in_13 (s : S) : Nat :=
  (next_difference_pixel_in_13 s)
/-- integration_3_axi_stream.v:4961-4981. -/
@[netlist] def predictor_pixel_out (s : S) : Nat :=
  s.u_predictor.pixel_out
/-- integration_3_axi_stream.v:5019-5022. -/
@[netlist] def next_difference_pixel_in (s : S) : Nat :=
  (predictor_pixel_out s)
/-- integration_3_axi_stream.v:5270. -/
@[netlist] def difference_pixel_in (s : S) : Nat :=
  (next_difference_pixel_in s)
/-- integration_3_axi_stream.v:5015-5018. -/
@[netlist] def next_predictor_valid_in (s : S) (valid_in : Bool) : Bool :=
  valid_in
/-- integration_3_axi_stream.v:5271. -/
@[netlist] def predictor_valid_in (s : S) (valid_in : Bool) : Bool :=
  (next_predictor_valid_in s valid_in)
/-- integration_3_axi_stream.v:4990-4998. -/
@[netlist] def end_of_frame (s : S) : Bool :=
  s.u_signals.end_of_frame
/-- integration_3_axi_stream.v:5011-5014. -/
@[netlist] def next_predictor_end_in (s : S) : Bool :=
  (end_of_frame s)
/-- integration_3_axi_stream.v:5272. -/
@[netlist] def predictor_end_in (s : S) : Bool :=
  (next_predictor_end_in s)
/-- integration_3_axi_stream.v:4990-4998. -/
@[netlist] def signals_new_row (s : S) : Bool :=
  s.u_signals.new_row
/-- integration_3_axi_stream.v:5007-5010. -/
@[netlist] def next_predictor_new_row (s : S) : Bool :=
  (signals_new_row s)
/-- integration_3_axi_stream.v:5273. -/
@[netlist] def predictor_new_row (s : S) : Bool :=
  (next_predictor_new_row s)
/-- integration_3_axi_stream.v:5223-5226. -/
@[netlist] def next_predictor_pixel_in_6 (s : S) (pixel_in_3 : Nat) : Nat :=
  pixel_in_3
/-- integration_3_axi_stream.v:5274. -/
@[netlist] def predictor_pixel_in_6 (s : S) (pixel_in_3 : Nat) : Nat :=
  (next_predictor_pixel_in_6 s pixel_in_3)
/-- integration_3_axi_stream.v:5219-5222. -/
@[netlist] def next_predictor_pixel_in_5 (s : S) (pixel_in_2 : Nat) : Nat :=
  pixel_in_2
/-- integration_3_axi_stream.v:5275. -/
@[netlist] def predictor_pixel_in_5 (s : S) (pixel_in_2 : Nat) : Nat :=
  (next_predictor_pixel_in_5 s pixel_in_2)
/-- integration_3_axi_stream.v:5215-5218. -/
@[netlist] def next_predictor_pixel_in_4 (s : S) (pixel_in_1 : Nat) : Nat :=
  pixel_in_1
/-- integration_3_axi_stream.v:5276. -/
@[netlist] def predictor_pixel_in_4 (s : S) (pixel_in_1 : Nat) : Nat :=
  (next_predictor_pixel_in_4 s pixel_in_1)
/-- integration_3_axi_stream.v:5211-5214. -/
@[netlist] def next_predictor_pixel_in (s : S) (pixel_in : Nat) : Nat :=
  pixel_in
/-- integration_3_axi_stream.v:5277. -/
@[netlist] def predictor_pixel_in (s : S) (pixel_in : Nat) : Nat :=
  (next_predictor_pixel_in s pixel_in)
/-- integration_3_axi_stream.v:5179-5182. -/
@[netlist] def next_signals_new_input (s : S) (valid_in : Bool) : Bool :=
  valid_in
/-- integration_3_axi_stream.v:5278. -/
@[netlist] def signals_new_input (s : S) (valid_in : Bool) : Bool :=
  (next_signals_new_input s valid_in)
/-- integration_3_axi_stream.v:4912-4918. -/
@[netlist] def force_end_fend (s : S) : Bool :=
  s.u_force_end.fend
/-- integration_3_axi_stream.v:5135-5138. -/
@[netlist] def next_fend_out (s : S) : Bool :=
  (force_end_fend s)
/-- integration_3_axi_stream.v:5279. -/
@[netlist] def fend_out (s : S) : Bool :=
  (next_fend_out s)
/-- integration_3_axi_stream.v:5091-5094. -/
@[netlist] def next_force_end_valid_in (s : S) (valid_in : Bool) : Bool :=
  valid_in
/-- integration_3_axi_stream.v:5280. -/
@[netlist] def force_end_valid_in (s : S) (valid_in : Bool) : Bool :=
  (next_force_end_valid_in s valid_in)
/-- integration_3_axi_stream.v:4982-4989. -/
@[netlist] def register_file_allowed_cycles (s : S) : Nat :=
  register_file.allowed_cycles s.u_register_file
/-- integration_3_axi_stream.v:5047-5050. -/
@[netlist] def next_force_end_allowed_cycles (s : S) : Nat :=
  (register_file_allowed_cycles s)
/-- integration_3_axi_stream.v:5281. -/
@[netlist] def force_end_allowed_cycles (s : S) : Nat :=
  (next_force_end_allowed_cycles s)
/-- integration_3_axi_stream.v:4982-4989. -/
@[netlist] def register_file_width (s : S) : Nat :=
  register_file.width s.u_register_file
/-- integration_3_axi_stream.v:5003-5006. -/
@[netlist] def next_signals_width (s : S) : Nat :=
  (register_file_width s)
/-- integration_3_axi_stream.v:5282. -/
@[netlist] def signals_width (s : S) : Nat :=
  (next_signals_width s)
/-- integration_3_axi_stream.v:4982-4989. -/
@[netlist] def register_file_height (s : S) : Nat :=
  register_file.height s.u_register_file
/-- integration_3_axi_stream.v:4999-5002. -/
@[netlist] def next_signals_height (s : S) : Nat :=
  (register_file_height s)
/-- integration_3_axi_stream.v:5283. -/
@[netlist] def signals_height (s : S) : Nat :=
  (next_signals_height s)

/-- integration_3_axi_stream.v:4517-5284: one rising clock edge (`always @(posedge ...)`). -/
@[netlist] def step (s : S) (pixel_in : Nat) (pixel_in_1 : Nat) (pixel_in_2 : Nat) (pixel_in_3 : Nat) (rst : Bool) (full_rst : Bool) (valid_in : Bool) : S :=
  { u_difference := difference.step s.u_difference (difference_pixel_in s) (difference_predic_in s) (difference_pixel_in_13 s) (difference_predic_in_14 s) (difference_pixel_in_15 s) (difference_predic_in_16 s) (difference_pixel_in_17 s) (difference_predic_in_18 s) (difference_end_in s) rst (difference_valid_in s)
    u_encode := encode.step s.u_encode (encode_end_in s) (encode_valid_in s) (encode_ssss s) (encode_val_in_38 s) (encode_ssss_39 s) (encode_val_in_40 s) (encode_ssss_41 s) (encode_val_in_42 s) (encode_ssss_43 s) rst (encode_val_in s)
    u_force_end := Beta.force_end.step s.u_force_end (force_end_allowed_cycles s) rst (force_end_valid_in s valid_in)
    u_merge := merge.step s.u_merge (merge_enc_in_ctr s) (merge_valid_in s) (merge_end_in s) (merge_enc_in_50 s) (merge_enc_in_ctr_51 s) (merge_enc_in_52 s) (merge_enc_in_ctr_53 s) (merge_enc_in_54 s) (merge_enc_in_ctr_55 s) rst (merge_enc_in s)
    u_normalize := normalize.step s.u_normalize (normalize_valid_in s) (normalize_end_in s) (normalize_vals_in_mns s) (normalize_val_in_26 s) (normalize_vals_in_mns_27 s) (normalize_val_in_28 s) (normalize_vals_in_mns_29 s) (normalize_val_in_30 s) (normalize_vals_in_mns_31 s) rst (normalize_val_in s)
    u_predictor := predictor.step s.u_predictor (predictor_pixel_in s pixel_in) (predictor_pixel_in_4 s pixel_in_1) (predictor_pixel_in_5 s pixel_in_2) (predictor_pixel_in_6 s pixel_in_3) (predictor_new_row s) (predictor_end_in s) rst (predictor_valid_in s valid_in)
    u_register_file := register_file.step s.u_register_file full_rst
    u_signals := signals.step s.u_signals (signals_width s) (signals_height s) rst (signals_new_input s valid_in) }

/-- integration_3_axi_stream.v:4517-5284: the initial values given in the netlist. -/
def Init (s : S) : Prop :=
  difference.Init s.u_difference ∧
  encode.Init s.u_encode ∧
  Beta.force_end.Init s.u_force_end ∧
  merge.Init s.u_merge ∧
  normalize.Init s.u_normalize ∧
  predictor.Init s.u_predictor ∧
  register_file.Init s.u_register_file ∧
  signals.Init s.u_signals

/-- integration_3_axi_stream.v:4517-5284: a state with these initial values; registers without one are 0. -/
def powerUp : S :=
  { u_difference := difference.powerUp
    u_encode := encode.powerUp
    u_force_end := Beta.force_end.powerUp
    u_merge := merge.powerUp
    u_normalize := normalize.powerUp
    u_predictor := predictor.powerUp
    u_register_file := register_file.powerUp
    u_signals := signals.powerUp }

theorem powerUp_init : Init powerUp := ⟨difference.powerUp_init, encode.powerUp_init, Beta.force_end.powerUp_init, merge.powerUp_init, normalize.powerUp_init, predictor.powerUp_init, register_file.powerUp_init, signals.powerUp_init⟩

end integration_1

namespace lj92_pipeline_fifo

/-- integration_3_axi_stream.v:5776-5888: registers, memories and instances of module `lj92_pipeline_fifo`. -/
structure S where
  close_full : Bool
  u_fifo : fifo.S

/-- integration_3_axi_stream.v:5835-5844. -/
@[netlist] def fifo_level (s : S) : Nat :=
  fifo.level s.u_fifo
/-- integration_3_axi_stream.v:5832. -/
@[netlist] def w1 (s : S) : Bool :=
  decide ((fifo_level s) ≥ 118)
/-- integration_3_axi_stream.v:5869-5872. -/
@[netlist] def next_fifo_re (s : S) (latch_output : Bool) : Bool :=
  latch_output
/-- integration_3_axi_stream.v:5881. -/
@[netlist] def fifo_re (s : S) (latch_output : Bool) : Bool :=
  (next_fifo_re s latch_output)
/-- integration_3_axi_stream.v:5835-5844. -/
@[netlist] def fifo_dout (s : S) : Nat :=
  fifo.dout s.u_fifo
/-- integration_3_axi_stream.v:5865-5868. -/
@[netlist] def next_out_end (s : S) : Bool :=
  (fifo_dout s).testBit 119
/-- integration_3_axi_stream.v:5882. -/
@[netlist] def out_end (s : S) : Bool :=
  (next_out_end s)
/-- integration_3_axi_stream.v:5861-5864. -/
@[netlist] def next_enc_out_ctr (s : S) : Nat :=
  slc (fifo_dout s) 112 7
/-- integration_3_axi_stream.v:5883. -/
@[netlist] def enc_out_ctr (s : S) : Nat :=
  (next_enc_out_ctr s)
/-- integration_3_axi_stream.v:5857-5860. -/
@[netlist] def next_enc_out (s : S) : Nat :=
  slc (fifo_dout s) 0 112
/-- integration_3_axi_stream.v:5884. -/
@[netlist] def enc_out (s : S) : Nat :=
  (next_enc_out s)
/-- integration_3_axi_stream.v:5835-5844. -/
@[netlist] def fifo_readable (s : S) : Bool :=
  s.u_fifo.readable
/-- integration_3_axi_stream.v:5853-5856. -/
@[netlist] def next_valid_out (s : S) : Bool :=
  (fifo_readable s)
/-- integration_3_axi_stream.v:5885. -/
@[netlist] def valid_out (s : S) : Bool :=
  (next_valid_out s)
/-- integration_3_axi_stream.v:5849-5852. -/
@[netlist] def next_fifo_din (s : S) (enc_in : Nat) (enc_in_ctr : Nat) (in_end : Bool) : Nat :=
  in_end.toNat * 2 ^ 119 + enc_in_ctr * 2 ^ 112 + enc_in
/-- integration_3_axi_stream.v:5886. -/
@[netlist] def fifo_din (s : S) (enc_in : Nat) (enc_in_ctr : Nat) (in_end : Bool) : Nat :=
  (next_fifo_din s enc_in enc_in_ctr in_end)
/-- integration_3_axi_stream.v:5845-5848. -/
@[netlist] def next_fifo_we (s : S) (valid_in : Bool) : Bool :=
  valid_in
/-- integration_3_axi_stream.v:5887. -/
@[netlist] def fifo_we (s : S) (valid_in : Bool) : Bool :=
  (next_fifo_we s valid_in)
/-- integration_3_axi_stream.v:5873-5880. -/
@[netlist] def next_close_full (s : S) (rst : Bool) : Bool :=
  let e1 := (w1 s)
  if rst = true then false
  else e1

/-- integration_3_axi_stream.v:5776-5888: one rising clock edge (`always @(posedge ...)`). -/
@[netlist] def step (s : S) (enc_in : Nat) (enc_in_ctr : Nat) (in_end : Bool) (latch_output : Bool) (rst : Bool) (valid_in : Bool) : S :=
  { close_full := (next_close_full s rst)
    u_fifo := fifo.step s.u_fifo (fifo_we s valid_in) (fifo_re s latch_output) rst (fifo_din s enc_in enc_in_ctr in_end) }

/-- integration_3_axi_stream.v:5776-5888: the initial values given in the netlist. -/
def Init (s : S) : Prop :=
  s.close_full = false ∧
  fifo.Init s.u_fifo

/-- integration_3_axi_stream.v:5776-5888: a state with these initial values; registers without one are 0. -/
def powerUp : S :=
  { close_full := false
    u_fifo := fifo.powerUp }

theorem powerUp_init : Init powerUp := ⟨rfl, fifo.powerUp_init⟩

end lj92_pipeline_fifo

namespace integration_2

/-- integration_3_axi_stream.v:5288-5772: registers, memories and instances of module `integration_2`. -/
structure S where
  nready_reset : Bool
  nready_reset_counter : Nat
  nready_end_reg : Bool
  nready_end : Bool
  u_converter : converter.S
  u_converter_fifo : converter_fifo.S
  u_integration_1 : integration_1.S
  u_lj92_pipeline_fifo : lj92_pipeline_fifo.S

/-- integration_3_axi_stream.v:5503. -/
@[netlist] def w9 (s : S) (valid_in : Bool) : Bool :=
  valid_in == true
/-- integration_3_axi_stream.v:5564-5579. -/
@[netlist] def integration_1_end_of_frame (s : S) : Bool :=
  integration_1.end_of_frame s.u_integration_1
/-- integration_3_axi_stream.v:5527. -/
@[netlist] def w7 (s : S) : Bool :=
  (integration_1_end_of_frame s) == true
/-- integration_3_axi_stream.v:5504. -/
@[netlist] def w11 (s : S) (valid_in : Bool) : Bool :=
  (w7 s) && (w9 s valid_in)
/-- integration_3_axi_stream.v:5580-5593. -/
@[netlist] def lj92_pipeline_fifo_close_full (s : S) : Bool :=
  s.u_lj92_pipeline_fifo.close_full
/-- integration_3_axi_stream.v:5517. -/
@[netlist] def w38 (s : S) : Bool :=
  (lj92_pipeline_fifo_close_full s) == true
/-- integration_3_axi_stream.v:5518. -/
@[netlist] def w40 (s : S) : Bool :=
  s.nready_end == true
/-- integration_3_axi_stream.v:5519. -/
@[netlist] def w42 (s : S) : Bool :=
  (w38 s) || (w40 s)
/-- integration_3_axi_stream.v:5520. -/
@[netlist] def w44 (s : S) : Bool :=
  s.nready_reset == false
/-- integration_3_axi_stream.v:5521. -/
@[netlist] def w46 (s : S) : Bool :=
  (w42 s) || (w44 s)
/-- integration_3_axi_stream.v:5724-5727. -/
@[netlist] def next_nready_signal (s : S) : Bool :=
  (w46 s)
/-- integration_3_axi_stream.v:5770. -/
@[netlist] def nready_signal (s : S) : Bool :=
  (next_nready_signal s)
/-- integration_3_axi_stream.v:5630-5633. -/
@[netlist] def next_nready (s : S) : Bool :=
  (nready_signal s)
/-- integration_3_axi_stream.v:5760. -/
@[netlist] def nready (s : S) : Bool :=
  (next_nready s)
/-- integration_3_axi_stream.v:5505. -/
@[netlist] def w13 (s : S) : Bool :=
  (nready s) == false
/-- integration_3_axi_stream.v:5506. -/
@[netlist] def w15 (s : S) (valid_in : Bool) : Bool :=
  (w11 s valid_in) && (w13 s)
/-- integration_3_axi_stream.v:5594-5601. -/
@[netlist] def next_nready_end_wire (s : S) (valid_in : Bool) : Bool :=
  if (w15 s valid_in) = true then true
  else false
/-- integration_3_axi_stream.v:5771. -/
@[netlist] def nready_end_wire (s : S) (valid_in : Bool) : Bool :=
  (next_nready_end_wire s valid_in)
/-- integration_3_axi_stream.v:5507. -/
@[netlist] def w17 (s : S) (valid_in : Bool) : Bool :=
  (nready_end_wire s valid_in) == true
/-- integration_3_axi_stream.v:5508. -/
@[netlist] def w19 (s : S) : Bool :=
  s.nready_end_reg == true
/-- integration_3_axi_stream.v:5509. -/
@[netlist] def w21 (s : S) (valid_in : Bool) : Bool :=
  (w17 s valid_in) || (w19 s)
/-- integration_3_axi_stream.v:5510. -/
@[netlist] def w23 (s : S) : Bool :=
  (integration_1_end_of_frame s) == true
/-- integration_3_axi_stream.v:5511. -/
@[netlist] def w25 (s : S) (valid_in : Bool) : Bool :=
  valid_in == true
/-- integration_3_axi_stream.v:5512. -/
@[netlist] def w27 (s : S) (valid_in : Bool) : Bool :=
  (w23 s) && (w25 s valid_in)
/-- integration_3_axi_stream.v:5513. -/
@[netlist] def w29 (s : S) : Bool :=
  (nready s) == false
/-- integration_3_axi_stream.v:5514. -/
@[netlist] def w31 (s : S) (valid_in : Bool) : Bool :=
  (w27 s valid_in) && (w29 s)
/-- integration_3_axi_stream.v:5515. -/
@[netlist] def w34 (s : S) : Nat :=
  (s.nready_reset_counter + 1) % 2 ^ 4
/-- integration_3_axi_stream.v:5516. -/
@[netlist] def w36 (s : S) : Bool :=
  s.nready_reset_counter == 7
/-- integration_3_axi_stream.v:5522. -/
@[netlist] def w48 (s : S) (valid_in : Bool) : Bool :=
  valid_in == true
/-- integration_3_axi_stream.v:5523. -/
@[netlist] def w50 (s : S) : Bool :=
  (nready_signal s) == false
/-- integration_3_axi_stream.v:5524. -/
@[netlist] def w52 (s : S) (valid_in : Bool) : Bool :=
  (w48 s valid_in) && (w50 s)
/-- integration_3_axi_stream.v:5550-5563. -/
@[netlist] def converter_fifo_enc_out (s : S) : Nat :=
  converter_fifo.enc_out s.u_converter_fifo
/-- integration_3_axi_stream.v:5525. -/
@[netlist] def w54 (s : S) : Nat :=
  (converter_fifo_enc_out s)
/-- integration_3_axi_stream.v:5550-5563. -/
@[netlist] def converter_fifo_enc_out_ctr (s : S) : Nat :=
  converter_fifo.enc_out_ctr s.u_converter_fifo
/-- integration_3_axi_stream.v:5526. -/
@[netlist] def w56 (s : S) : Nat :=
  (converter_fifo_enc_out_ctr s)
/-- integration_3_axi_stream.v:5744. -/
@[netlist] def w33 (s : S) : Nat :=
  (w34 s)
/-- integration_3_axi_stream.v:5709-5712. -/
@[netlist] def next_converter_fifo_latch_output (s : S) (latch_output : Bool) : Bool :=
  latch_output
/-- integration_3_axi_stream.v:5745. -/
@[netlist] def converter_fifo_latch_output (s : S) (latch_output : Bool) : Bool :=
  (next_converter_fifo_latch_output s latch_output)
/-- integration_3_axi_stream.v:5550-5563. -/
@[netlist] def converter_fifo_out_end (s : S) : Bool :=
  converter_fifo.out_end s.u_converter_fifo
/-- integration_3_axi_stream.v:5697-5700. -/
@[netlist] def next_out_end (s : S) : Bool :=
  (converter_fifo_out_end s)
/-- integration_3_axi_stream.v:5746. -/
@[netlist] def out_end (s : S) : Bool :=
  (next_out_end s)
/-- integration_3_axi_stream.v:5550-5563. -/
@[netlist] def converter_fifo_valid_out (s : S) : Bool :=
  converter_fifo.valid_out s.u_converter_fifo
/-- integration_3_axi_stream.v:5693-5696. -/
@[netlist] def next_valid_out (s : S) : Bool :=
  (converter_fifo_valid_out s)
/-- integration_3_axi_stream.v:5747. -/
@[netlist] def valid_out (s : S) : Bool :=
  (next_valid_out s)
/-- integration_3_axi_stream.v:5689-5692. -/
@[netlist] def next_enc_out_ctr (s : S) : Nat :=
  (w56 s)
/-- integration_3_axi_stream.v:5748. -/
@[netlist] def enc_out_ctr (s : S) : Nat :=
  (next_enc_out_ctr s)
/-- integration_3_axi_stream.v:5685-5688. -/
@[netlist] def next_enc_out (s : S) : Nat :=
  (w54 s)
/-- integration_3_axi_stream.v:5749. -/
@[netlist] def enc_out (s : S) : Nat :=
  (next_enc_out s)
/-- integration_3_axi_stream.v:5550-5563. -/
@[netlist] def converter_fifo_close_full (s : S) : Bool :=
  s.u_converter_fifo.close_full
/-- integration_3_axi_stream.v:5681-5684. -/
@[netlist] def next_converter_close_full (s : S) : Bool :=
  (converter_fifo_close_full s)
/-- integration_3_axi_stream.v:5750. -/
@[netlist] def converter_close_full (s : S) : Bool :=
  (next_converter_close_full s)
/-- integration_3_axi_stream.v:5536-5549. -/
@[netlist] def converter_valid_in (s : S) : Bool :=
  s.u_converter.valid_in
/-- integration_3_axi_stream.v:5677-5680. -/
@[netlist] def next_converter_fifo_valid_in (s : S) : Bool :=
  (converter_valid_in s)
/-- integration_3_axi_stream.v:5751. -/
@[netlist] def converter_fifo_valid_in (s : S) : Bool :=
  (next_converter_fifo_valid_in s)
/-- integration_3_axi_stream.v:5536-5549. -/
@[netlist] def converter_in_end (s : S) : Bool :=
  s.u_converter.in_end
/-- integration_3_axi_stream.v:5673-5676. -/
@[netlist] def next_converter_fifo_in_end (s : S) : Bool :=
  (converter_in_end s)
/-- integration_3_axi_stream.v:5752. -/
@[netlist] def converter_fifo_in_end (s : S) : Bool :=
  (next_converter_fifo_in_end s)
/-- integration_3_axi_stream.v:5536-5549. -/
@[netlist] def converter_enc_in_ctr (s : S) : Nat :=
  s.u_converter.enc_in_ctr
/-- integration_3_axi_stream.v:5669-5672. -/
@[netlist] def next_converter_fifo_enc_in_ctr (s : S) : Nat :=
  (converter_enc_in_ctr s)
/-- integration_3_axi_stream.v:5753. -/
@[netlist] def converter_fifo_enc_in_ctr (s : S) : Nat :=
  (next_converter_fifo_enc_in_ctr s)
/-- integration_3_axi_stream.v:5536-5549. -/
@[netlist] def converter_enc_in (s : S) : Nat :=
  s.u_converter.enc_in
/-- integration_3_axi_stream.v:5665-5668. -/
@[netlist] def next_converter_fifo_enc_in (s : S) : Nat :=
  (converter_enc_in s)
/-- integration_3_axi_stream.v:5754. -/
@[netlist] def converter_fifo_enc_in (s : S) : Nat :=
  (next_converter_fifo_enc_in s)
/-- integration_3_axi_stream.v:5580-5593. -/
@[netlist] def lj92_pipeline_fifo_valid_out (s : S) : Bool :=
  lj92_pipeline_fifo.valid_out s.u_lj92_pipeline_fifo
/-- integration_3_axi_stream.v:5661-5664. -/
@[netlist] def next_converter_valid_out (s : S) : Bool :=
  (lj92_pipeline_fifo_valid_out s)
/-- integration_3_axi_stream.v:5755. -/
@[netlist] def converter_valid_out (s : S) : Bool :=
  (next_converter_valid_out s)
/-- integration_3_axi_stream.v:5580-5593. -/
@[netlist] def lj92_pipeline_fifo_out_end (s : S) : Bool :=
  lj92_pipeline_fifo.out_end s.u_lj92_pipeline_fifo
/-- integration_3_axi_stream.v:5646-5649. -/
@[netlist] def next_converter_out_end (s : S) : Bool :=
  (lj92_pipeline_fifo_out_end s)
/-- integration_3_axi_stream.v:5756. -/
@[netlist] def converter_out_end (s : S) : Bool :=
  (next_converter_out_end s)
/-- integration_3_axi_stream.v:5580-5593. -/
@[netlist] def lj92_pipeline_fifo_enc_out_ctr (s : S) : Nat :=
  lj92_pipeline_fifo.enc_out_ctr s.u_lj92_pipeline_fifo
/-- integration_3_axi_stream.v:5642-5645. -/
@[netlist] def next_converter_enc_out_ctr (s : S) : Nat :=
  (lj92_pipeline_fifo_enc_out_ctr s)
/-- integration_3_axi_stream.v:5757. -/
@[netlist] def converter_enc_out_ctr (s : S) : Nat :=
  (next_converter_enc_out_ctr s)
/-- integration_3_axi_stream.v:5580-5593. -/
@[netlist] def lj92_pipeline_fifo_enc_out (s : S) : Nat :=
  lj92_pipeline_fifo.enc_out s.u_lj92_pipeline_fifo
/-- integration_3_axi_stream.v:5638-5641. -/
@[netlist] def next_converter_enc_out (s : S) : Nat :=
  (lj92_pipeline_fifo_enc_out s)
/-- integration_3_axi_stream.v:5758. -/
@[netlist] def converter_enc_out (s : S) : Nat :=
  (next_converter_enc_out s)
/-- integration_3_axi_stream.v:5536-5549. -/
@[netlist] def converter_latch_output (s : S) : Bool :=
  s.u_converter.latch_output
/-- integration_3_axi_stream.v:5634-5637. -/
@[netlist] def next_lj92_pipeline_fifo_latch_output (s : S) : Bool :=
  (converter_latch_output s)
/-- integration_3_axi_stream.v:5759. -/
@[netlist] def lj92_pipeline_fifo_latch_output (s : S) : Bool :=
  (next_lj92_pipeline_fifo_latch_output s)
/-- integration_3_axi_stream.v:5564-5579. -/
@[netlist] def integration_1_end_out (s : S) : Bool :=
  integration_1.end_out s.u_integration_1
/-- integration_3_axi_stream.v:5626-5629. -/
@[netlist] def next_lj92_pipeline_fifo_in_end (s : S) : Bool :=
  (integration_1_end_out s)
/-- integration_3_axi_stream.v:5761. -/
@[netlist] def lj92_pipeline_fifo_in_end (s : S) : Bool :=
  (next_lj92_pipeline_fifo_in_end s)
/-- integration_3_axi_stream.v:5564-5579. -/
@[netlist] def integration_1_valid_out (s : S) : Bool :=
  integration_1.valid_out s.u_integration_1
/-- integration_3_axi_stream.v:5622-5625. -/
@[netlist] def next_lj92_pipeline_fifo_valid_in (s : S) : Bool :=
  (integration_1_valid_out s)
/-- integration_3_axi_stream.v:5762. -/
@[netlist] def lj92_pipeline_fifo_valid_in (s : S) : Bool :=
  (next_lj92_pipeline_fifo_valid_in s)
/-- integration_3_axi_stream.v:5564-5579. -/
@[netlist] def integration_1_enc_out_ctr (s : S) : Nat :=
  integration_1.enc_out_ctr s.u_integration_1
/-- integration_3_axi_stream.v:5618-5621. -/
@[netlist] def next_lj92_pipeline_fifo_enc_in_ctr (s : S) : Nat :=
  (integration_1_enc_out_ctr s)
/-- integration_3_axi_stream.v:5763. -/
@[netlist] def lj92_pipeline_fifo_enc_in_ctr (s : S) : Nat :=
  (next_lj92_pipeline_fifo_enc_in_ctr s)
/-- integration_3_axi_stream.v:5564-5579. -/
@[netlist] def integration_1_enc_out (s : S) : Nat :=
  integration_1.enc_out s.u_integration_1
/-- integration_3_axi_stream.v:5614-5617. -/
@[netlist] def next_lj92_pipeline_fifo_enc_in (s : S) : Nat :=
  (integration_1_enc_out s)
/-- integration_3_axi_stream.v:5764. -/
@[netlist] def lj92_pipeline_fifo_enc_in (s : S) : Nat :=
  (next_lj92_pipeline_fifo_enc_in s)
/-- integration_3_axi_stream.v:5610-5613. -/
@[netlist] def next_integration_1_valid_in (s : S) (valid_in : Bool) : Bool :=
  (w52 s valid_in)
/-- integration_3_axi_stream.v:5765. -/
@[netlist] def integration_1_valid_in (s : S) (valid_in : Bool) : Bool :=
  (next_integration_1_valid_in s valid_in)
/-- integration_3_axi_stream.v:5740-5743. -/
@[netlist] def next_integration_1_pixel_in_6 (s : S) (pixel_in_3 : Nat) : Nat :=
  pixel_in_3
/-- integration_3_axi_stream.v:5766. -/
@[netlist] def integration_1_pixel_in_6 (s : S) (pixel_in_3 : Nat) : Nat :=
  (next_integration_1_pixel_in_6 s pixel_in_3)
/-- integration_3_axi_stream.v:5736-5739. -/
@[netlist] def next_integration_1_pixel_in_5 (s : S) (pixel_in_2 : Nat) : Nat :=
  pixel_in_2
/-- integration_3_axi_stream.v:5767. -/
@[netlist] def integration_1_pixel_in_5 (s : S) (pixel_in_2 : Nat) : Nat :=
  (next_integration_1_pixel_in_5 s pixel_in_2)
/-- integration_3_axi_stream.v:5732-5735. -/
@[netlist] def next_integration_1_pixel_in_4 (s : S) (pixel_in_1 : Nat) : Nat :=
  pixel_in_1
/-- integration_3_axi_stream.v:5768. -/
@[netlist] def integration_1_pixel_in_4 (s : S) (pixel_in_1 : Nat) : Nat :=
  (next_integration_1_pixel_in_4 s pixel_in_1)
/-- integration_3_axi_stream.v:5728-5731. -/
@[netlist] def next_integration_1_pixel_in (s : S) (pixel_in : Nat) : Nat :=
  pixel_in
/-- integration_3_axi_stream.v:5769. -/
@[netlist] def integration_1_pixel_in (s : S) (pixel_in : Nat) : Nat :=
  (next_integration_1_pixel_in s pixel_in)
/-- integration_3_axi_stream.v:5602-5609. -/
@[netlist] def next_nready_end (s : S) (rst : Bool) (valid_in : Bool) : Bool :=
  let e1 := (w21 s valid_in)
  if rst = true then false
  else e1
/-- integration_3_axi_stream.v:5650-5660. -/
@[netlist] def next_nready_end_reg (s : S) (rst : Bool) (valid_in : Bool) : Bool :=
  let e1 := if (w31 s valid_in) = true then true
  else s.nready_end_reg
  if rst = true then false
  else e1
/-- integration_3_axi_stream.v:5701-5708. -/
@[netlist] def next_nready_reset_counter (s : S) (rst : Bool) : Nat :=
  let e1 := slc (w33 s) 0 3
  if rst = true then 0
  else e1
/-- integration_3_axi_stream.v:5713-5723. -/
@[netlist] def next_nready_reset (s : S) (rst : Bool) : Bool :=
  let e1 := if (w36 s) = true then true
  else s.nready_reset
  if rst = true then false
  else e1

/-- integration_3_axi_stream.v:5288-5772: one rising clock edge (`always @(posedge ...)`). -/
@[netlist] def step (s : S) (pixel_in : Nat) (pixel_in_1 : Nat) (pixel_in_2 : Nat) (pixel_in_3 : Nat) (latch_output : Bool) (rst : Bool) (full_rst : Bool) (valid_in : Bool) : S :=
  { nready_reset := (next_nready_reset s rst)
    nready_reset_counter := (next_nready_reset_counter s rst)
    nready_end_reg := (next_nready_end_reg s rst valid_in)
    nready_end := (next_nready_end s rst valid_in)
    u_converter := converter.step s.u_converter (converter_valid_out s) (converter_enc_out s) (converter_enc_out_ctr s) (converter_out_end s) rst (converter_close_full s)
    u_converter_fifo := converter_fifo.step s.u_converter_fifo (converter_fifo_enc_in s) (converter_fifo_enc_in_ctr s) (converter_fifo_in_end s) (converter_fifo_latch_output s latch_output) rst (converter_fifo_valid_in s)
    u_integration_1 := integration_1.step s.u_integration_1 (integration_1_pixel_in s pixel_in) (integration_1_pixel_in_4 s pixel_in_1) (integration_1_pixel_in_5 s pixel_in_2) (integration_1_pixel_in_6 s pixel_in_3) rst full_rst (integration_1_valid_in s valid_in)
    u_lj92_pipeline_fifo := lj92_pipeline_fifo.step s.u_lj92_pipeline_fifo (lj92_pipeline_fifo_enc_in s) (lj92_pipeline_fifo_enc_in_ctr s) (lj92_pipeline_fifo_in_end s) (lj92_pipeline_fifo_latch_output s) rst (lj92_pipeline_fifo_valid_in s) }

/-- integration_3_axi_stream.v:5288-5772: the initial values given in the netlist. -/
def Init (s : S) : Prop :=
  s.nready_reset = false ∧
  s.nready_reset_counter = 0 ∧
  s.nready_end_reg = false ∧
  s.nready_end = false ∧
  converter.Init s.u_converter ∧
  converter_fifo.Init s.u_converter_fifo ∧
  integration_1.Init s.u_integration_1 ∧
  lj92_pipeline_fifo.Init s.u_lj92_pipeline_fifo

/-- integration_3_axi_stream.v:5288-5772: a state with these initial values; registers without one are 0. -/
def powerUp : S :=
  { nready_reset := false
    nready_reset_counter := 0
    nready_end_reg := false
    nready_end := false
    u_converter := converter.powerUp
    u_converter_fifo := converter_fifo.powerUp
    u_integration_1 := integration_1.powerUp
    u_lj92_pipeline_fifo := lj92_pipeline_fifo.powerUp }

theorem powerUp_init : Init powerUp := ⟨rfl, rfl, rfl, rfl, converter.powerUp_init, converter_fifo.powerUp_init, integration_1.powerUp_init, lj92_pipeline_fifo.powerUp_init⟩

end integration_2

namespace output_handler

/-- integration_3_axi_stream.v:6504-6796: registers, memories and instances of module `output_handler`. -/
structure S where
  valid_out : Bool
  end_out : Bool
  data_out : Nat
  fsm_state : Nat

/-- integration_3_axi_stream.v:6607. -/
@[netlist] def w17 (s : S) (buff_consum : Nat) : Bool :=
  decide (buff_consum ≥ 32)
/-- integration_3_axi_stream.v:6672-6675. -/
@[netlist] def next_buff_consum_greater_eq (s : S) (buff_consum : Nat) : Bool :=
  (w17 s buff_consum)
/-- integration_3_axi_stream.v:6792. -/
@[netlist] def buff_consum_greater_eq (s : S) (buff_consum : Nat) : Bool :=
  (next_buff_consum_greater_eq s buff_consum)
/-- integration_3_axi_stream.v:6608. -/
@[netlist] def w19 (s : S) (buff_consum : Nat) : Bool :=
  decide (buff_consum ≤ 32)
/-- integration_3_axi_stream.v:6676-6679. -/
@[netlist] def next_buff_consum_less_eq (s : S) (buff_consum : Nat) : Bool :=
  (w19 s buff_consum)
/-- integration_3_axi_stream.v:6791. -/
@[netlist] def buff_consum_less_eq (s : S) (buff_consum : Nat) : Bool :=
  (next_buff_consum_less_eq s buff_consum)
/-- integration_3_axi_stream.v:6638. -/
@[netlist] def w7 (s : S) (end_in : Bool) (buff_consum : Nat) : Bool :=
  (buff_consum_less_eq s buff_consum) && end_in
/-- integration_3_axi_stream.v:6603. -/
@[netlist] def w9 (s : S) (end_in : Bool) (buff_consum : Nat) : Bool :=
  (buff_consum_greater_eq s buff_consum) || (w7 s end_in buff_consum)
/-- integration_3_axi_stream.v:6604. -/
@[netlist] def w11 (s : S) (busy_in : Bool) : Bool :=
  busy_in == false
/-- integration_3_axi_stream.v:6605. -/
@[netlist] def w13 (s : S) (busy_in : Bool) (buff_consum : Nat) : Bool :=
  (w11 s busy_in) && (buff_consum_greater_eq s buff_consum)
/-- integration_3_axi_stream.v:6606. -/
@[netlist] def w15 (s : S) (busy_in : Bool) : Bool :=
  busy_in == false
/-- integration_3_axi_stream.v:6609. -/
@[netlist] def w21 (s : S) (end_in : Bool) (buff_consum : Nat) : Bool :=
  (buff_consum_less_eq s buff_consum) && end_in
/-- integration_3_axi_stream.v:6610. -/
@[netlist] def w23 (s : S) (end_in : Bool) (buff_consum : Nat) : Bool :=
  (buff_consum_greater_eq s buff_consum) || (w21 s end_in buff_consum)
/-- integration_3_axi_stream.v:6611. -/
@[netlist] def w25 (s : S) (end_in : Bool) (buff_consum : Nat) : Bool :=
  (buff_consum_less_eq s buff_consum) && end_in
/-- integration_3_axi_stream.v:6612. -/
@[netlist] def w27 (s : S) (busy_in : Bool) : Bool :=
  busy_in == false
/-- integration_3_axi_stream.v:6613. -/
@[netlist] def w2 (s : S) (buff_consum : Nat) : Nat :=
  (2 ^ 9 + buff_consum - 32) % 2 ^ 9
/-- integration_3_axi_stream.v:6614. -/
@[netlist] def w29 (s : S) (busy_in : Bool) (buff_consum : Nat) : Bool :=
  (w27 s busy_in) && (buff_consum_greater_eq s buff_consum)
/-- integration_3_axi_stream.v:6615. -/
@[netlist] def w31 (s : S) (busy_in : Bool) : Bool :=
  busy_in == false
/-- integration_3_axi_stream.v:6616. -/
@[netlist] def w33 (s : S) (end_in : Bool) (buff_consum : Nat) : Bool :=
  (buff_consum_less_eq s buff_consum) && end_in
/-- integration_3_axi_stream.v:6617. -/
@[netlist] def w35 (s : S) (end_in : Bool) (buff_consum : Nat) : Bool :=
  (buff_consum_less_eq s buff_consum) && end_in
/-- integration_3_axi_stream.v:6618. -/
@[netlist] def w37 (s : S) (end_in : Bool) (buff_consum : Nat) : Bool :=
  (buff_consum_greater_eq s buff_consum) || (w35 s end_in buff_consum)
/-- integration_3_axi_stream.v:6785. -/
@[netlist] def w1 (s : S) (buff_consum : Nat) : Nat :=
  (w2 s buff_consum)
/-- integration_3_axi_stream.v:6648-6651. -/
@[netlist] def next_shift_right (s : S) (buff_consum : Nat) : Nat :=
  slc (w1 s buff_consum) 0 7
/-- integration_3_axi_stream.v:6795. -/
@[netlist] def shift_right (s : S) (buff_consum : Nat) : Nat :=
  (next_shift_right s buff_consum)
/-- integration_3_axi_stream.v:6619. -/
@[netlist] def w40 (s : S) (buffer : Nat) (buff_consum : Nat) : Nat :=
  buffer / 2 ^ (shift_right s buff_consum)
/-- integration_3_axi_stream.v:6627. -/
@[netlist] def w5 (s : S) (buff_consum : Nat) : Nat :=
  (2 ^ 9 + 32 - buff_consum) % 2 ^ 9
/-- integration_3_axi_stream.v:6786. -/
@[netlist] def w4 (s : S) (buff_consum : Nat) : Nat :=
  (w5 s buff_consum)
/-- integration_3_axi_stream.v:6652-6655. -/
@[netlist] def next_shift_left (s : S) (buff_consum : Nat) : Nat :=
  slc (w4 s buff_consum) 0 5
/-- integration_3_axi_stream.v:6794. -/
@[netlist] def shift_left (s : S) (buff_consum : Nat) : Nat :=
  (next_shift_left s buff_consum)
/-- integration_3_axi_stream.v:6620. -/
@[netlist] def w43 (s : S) (buffer : Nat) (buff_consum : Nat) : Nat :=
  buffer * 2 ^ (shift_left s buff_consum) % 2 ^ 175
/-- integration_3_axi_stream.v:6621. -/
@[netlist] def w45 (s : S) (busy_in : Bool) : Bool :=
  busy_in == false
/-- integration_3_axi_stream.v:6622. -/
@[netlist] def w47 (s : S) (busy_in : Bool) (buff_consum : Nat) : Bool :=
  (w45 s busy_in) && (buff_consum_greater_eq s buff_consum)
/-- integration_3_axi_stream.v:6623. -/
@[netlist] def w49 (s : S) (busy_in : Bool) : Bool :=
  busy_in == false
/-- integration_3_axi_stream.v:6624. -/
@[netlist] def w52 (s : S) (buffer : Nat) (buff_consum : Nat) : Nat :=
  buffer / 2 ^ (shift_right s buff_consum)
/-- integration_3_axi_stream.v:6625. -/
@[netlist] def w55 (s : S) (buffer : Nat) (buff_consum : Nat) : Nat :=
  buffer * 2 ^ (shift_left s buff_consum) % 2 ^ 175
/-- integration_3_axi_stream.v:6626. -/
@[netlist] def w57 (s : S) (end_in : Bool) (buff_consum : Nat) : Bool :=
  (buff_consum_less_eq s buff_consum) && end_in
/-- integration_3_axi_stream.v:6628. -/
@[netlist] def w59 (s : S) (end_in : Bool) (buff_consum : Nat) : Bool :=
  (buff_consum_greater_eq s buff_consum) || (w57 s end_in buff_consum)
/-- integration_3_axi_stream.v:6629. -/
@[netlist] def w61 (s : S) (end_in : Bool) (buff_consum : Nat) : Bool :=
  (buff_consum_less_eq s buff_consum) && end_in
/-- integration_3_axi_stream.v:6630. -/
@[netlist] def w63 (s : S) (busy_in : Bool) : Bool :=
  busy_in == false
/-- integration_3_axi_stream.v:6631. -/
@[netlist] def w65 (s : S) (busy_in : Bool) (buff_consum : Nat) : Bool :=
  (w63 s busy_in) && (buff_consum_greater_eq s buff_consum)
/-- integration_3_axi_stream.v:6632. -/
@[netlist] def w67 (s : S) (busy_in : Bool) : Bool :=
  busy_in == false
/-- integration_3_axi_stream.v:6633. -/
@[netlist] def w69 (s : S) (end_in : Bool) (buff_consum : Nat) : Bool :=
  (buff_consum_less_eq s buff_consum) && end_in
/-- integration_3_axi_stream.v:6634. -/
@[netlist] def w71 (s : S) (end_in : Bool) (buff_consum : Nat) : Bool :=
  (buff_consum_less_eq s buff_consum) && end_in
/-- integration_3_axi_stream.v:6635. -/
@[netlist] def w73 (s : S) (end_in : Bool) (buff_consum : Nat) : Bool :=
  (buff_consum_greater_eq s buff_consum) || (w71 s end_in buff_consum)
/-- integration_3_axi_stream.v:6636. -/
@[netlist] def w75 (s : S) (busy_in : Bool) : Bool :=
  busy_in == false
/-- integration_3_axi_stream.v:6637. -/
@[netlist] def w77 (s : S) (busy_in : Bool) (buff_consum : Nat) : Bool :=
  (w75 s busy_in) && (buff_consum_greater_eq s buff_consum)
/-- integration_3_axi_stream.v:6639. -/
@[netlist] def w79 (s : S) (busy_in : Bool) : Bool :=
  busy_in == false
/-- integration_3_axi_stream.v:6787. -/
@[netlist] def w39 (s : S) (buffer : Nat) (buff_consum : Nat) : Nat :=
  (w40 s buffer buff_consum)
/-- integration_3_axi_stream.v:6788. -/
@[netlist] def w42 (s : S) (buffer : Nat) (buff_consum : Nat) : Nat :=
  (w43 s buffer buff_consum)
/-- integration_3_axi_stream.v:6789. -/
@[netlist] def w51 (s : S) (buffer : Nat) (buff_consum : Nat) : Nat :=
  (w52 s buffer buff_consum)
/-- integration_3_axi_stream.v:6790. -/
@[netlist] def w54 (s : S) (buffer : Nat) (buff_consum : Nat) : Nat :=
  (w55 s buffer buff_consum)
/-- integration_3_axi_stream.v:6656-6671. -/
@[netlist] def next_dec_buff_out (s : S) (end_in : Bool) (busy_in : Bool) (buff_consum : Nat) : Bool :=
  if s.fsm_state = 0 then (if (w9 s end_in buff_consum) = true then true
    else false)
  else if s.fsm_state = 1 then (if (w13 s busy_in buff_consum) = true then true
    else false)
  else false
/-- integration_3_axi_stream.v:6793. -/
@[netlist] def dec_buff_out (s : S) (end_in : Bool) (busy_in : Bool) (buff_consum : Nat) : Bool :=
  (next_dec_buff_out s end_in busy_in buff_consum)
/-- integration_3_axi_stream.v:6680-6709. -/
@[netlist] def next_fsm_state (s : S) (end_in : Bool) (busy_in : Bool) (rst : Bool) (buff_consum : Nat) : Nat :=
  let e1 := if s.fsm_state = 0 then (if (w23 s end_in buff_consum) = true then (if (w25 s end_in buff_consum) = true then 2
      else 1)
    else s.fsm_state)
  else if s.fsm_state = 1 then (if (w29 s busy_in buff_consum) = true then (if (w33 s end_in buff_consum) = true then 2
      else s.fsm_state)
    else if (w31 s busy_in) = true then 0
    else s.fsm_state)
  else s.fsm_state
  if rst = true then 0
  else e1
/-- integration_3_axi_stream.v:6710-6738. -/
@[netlist] def next_data_out (s : S) (end_in : Bool) (buffer : Nat) (busy_in : Bool) (rst : Bool) (buff_consum : Nat) : Nat :=
  let e1 := if s.fsm_state = 0 then (if (w37 s end_in buff_consum) = true then (if (buff_consum_greater_eq s buff_consum) = true then slc (w39 s buffer buff_consum) 0 32
      else slc (w42 s buffer buff_consum) 0 32)
    else s.data_out)
  else if s.fsm_state = 1 then (if (w47 s busy_in buff_consum) = true then (if (buff_consum_greater_eq s buff_consum) = true then slc (w51 s buffer buff_consum) 0 32
      else slc (w54 s buffer buff_consum) 0 32)
    else s.data_out)
  else s.data_out
  if rst = true then 0
  else e1
/-- integration_3_axi_stream.v:6739-6763. -/
@[netlist] def next_end_out (s : S) (end_in : Bool) (busy_in : Bool) (rst : Bool) (buff_consum : Nat) : Bool :=
  let e1 := if s.fsm_state = 0 then (if (w59 s end_in buff_consum) = true then (if (w61 s end_in buff_consum) = true then true
      else s.end_out)
    else s.end_out)
  else if s.fsm_state = 1 then (if (w65 s busy_in buff_consum) = true then (if (w69 s end_in buff_consum) = true then true
      else s.end_out)
    else s.end_out)
  else s.end_out
  if rst = true then false
  else e1
/-- integration_3_axi_stream.v:6764-6784. -/
@[netlist] def next_valid_out (s : S) (end_in : Bool) (busy_in : Bool) (rst : Bool) (buff_consum : Nat) : Bool :=
  let e1 := if s.fsm_state = 0 then (if (w73 s end_in buff_consum) = true then true
    else s.valid_out)
  else if s.fsm_state = 1 then (if (w77 s busy_in buff_consum) = true then true
    else if (w79 s busy_in) = true then false
    else s.valid_out)
  else s.valid_out
  if rst = true then false
  else e1

/-- integration_3_axi_stream.v:6504-6796: one rising clock edge (`always @(posedge ...)`). -/
@[netlist] def step (s : S) (end_in : Bool) (buffer : Nat) (busy_in : Bool) (rst : Bool) (buff_consum : Nat) : S :=
  { valid_out := (next_valid_out s end_in busy_in rst buff_consum)
    end_out := (next_end_out s end_in busy_in rst buff_consum)
    data_out := (next_data_out s end_in buffer busy_in rst buff_consum)
    fsm_state := (next_fsm_state s end_in busy_in rst buff_consum) }

/-- integration_3_axi_stream.v:6504-6796: the initial values given in the netlist. -/
def Init (s : S) : Prop :=
  s.valid_out = false ∧
  s.end_out = false ∧
  s.data_out = 0 ∧
  s.fsm_state = 0

/-- integration_3_axi_stream.v:6504-6796: a state with these initial values; registers without one are 0. -/
def powerUp : S :=
  { valid_out := false
    end_out := false
    data_out := 0
    fsm_state := 0 }

theorem powerUp_init : Init powerUp := ⟨rfl, rfl, rfl, rfl⟩

end output_handler

namespace vbits_to_cbits

/-- integration_3_axi_stream.v:8676-8861: registers, memories and instances of module `vbits_to_cbits`. -/
structure S where
  u_input_handler : input_handler.S
  u_output_handler : output_handler.S

/-- integration_3_axi_stream.v:8811-8814. -/
@[netlist] def next_output_handler_busy_in (s : S) (busy_in : Bool) : Bool :=
  busy_in
/-- integration_3_axi_stream.v:8847. -/
@[netlist] def output_handler_busy_in (s : S) (busy_in : Bool) : Bool :=
  (next_output_handler_busy_in s busy_in)
/-- integration_3_axi_stream.v:8779-8790. -/
@[netlist] def output_handler_end_out (s : S) : Bool :=
  s.u_output_handler.end_out
/-- integration_3_axi_stream.v:8807-8810. -/
@[netlist] def next_end_out (s : S) : Bool :=
  (output_handler_end_out s)
/-- integration_3_axi_stream.v:8848. -/
@[netlist] def end_out (s : S) : Bool :=
  (next_end_out s)
/-- integration_3_axi_stream.v:8779-8790. -/
@[netlist] def output_handler_valid_out (s : S) : Bool :=
  s.u_output_handler.valid_out
/-- integration_3_axi_stream.v:8803-8806. -/
@[netlist] def next_valid_out (s : S) : Bool :=
  (output_handler_valid_out s)
/-- integration_3_axi_stream.v:8849. -/
@[netlist] def valid_out (s : S) : Bool :=
  (next_valid_out s)
/-- integration_3_axi_stream.v:8779-8790. -/
@[netlist] def output_handler_data_out (s : S) : Nat :=
  s.u_output_handler.data_out
/-- integration_3_axi_stream.v:8799-8802. -/
@[netlist] def next_data_out (s : S) : Nat :=
  (output_handler_data_out s)
/-- integration_3_axi_stream.v:8850. -/
@[netlist] def data_out (s : S) : Nat :=
  (next_data_out s)
/-- integration_3_axi_stream.v:8765-8778. -/
@[netlist] def input_handler_end_out (s : S) : Bool :=
  s.u_input_handler.end_out
/-- integration_3_axi_stream.v:8843-8846. -/
@[netlist] def next_output_handler_end_in (s : S) : Bool :=
  (input_handler_end_out s)
/-- integration_3_axi_stream.v:8851. -/
@[netlist] def output_handler_end_in (s : S) : Bool :=
  (next_output_handler_end_in s)
/-- integration_3_axi_stream.v:8765-8778. -/
@[netlist] def input_handler_buff_consum (s : S) : Nat :=
  s.u_input_handler.buff_consum
/-- integration_3_axi_stream.v:8835-8838. -/
@[netlist] def next_output_handler_buff_consum (s : S) : Nat :=
  (input_handler_buff_consum s)
/-- integration_3_axi_stream.v:8853. -/
@[netlist] def output_handler_buff_consum (s : S) : Nat :=
  (next_output_handler_buff_consum s)
/-- integration_3_axi_stream.v:8779-8790. -/
@[netlist] def output_handler_dec_buff_out (s : S) (busy_in : Bool) : Bool :=
  output_handler.dec_buff_out s.u_output_handler (output_handler_end_in s) (output_handler_busy_in s busy_in) (output_handler_buff_consum s)
/-- integration_3_axi_stream.v:8827-8830. -/
@[netlist] def next_input_handler_dec_buff (s : S) (busy_in : Bool) : Bool :=
  (output_handler_dec_buff_out s busy_in)
/-- integration_3_axi_stream.v:8855. -/
@[netlist] def input_handler_dec_buff (s : S) (busy_in : Bool) : Bool :=
  (next_input_handler_dec_buff s busy_in)
/-- integration_3_axi_stream.v:8765-8778. -/
@[netlist] def input_handler_new_buff_consum (s : S) (busy_in : Bool) : Nat :=
  input_handler.new_buff_consum s.u_input_handler (input_handler_dec_buff s busy_in)
/-- integration_3_axi_stream.v:8839-8842. -/
@[netlist] def next_new_buff_consum (s : S) (busy_in : Bool) : Nat :=
  (input_handler_new_buff_consum s busy_in)
/-- integration_3_axi_stream.v:8852. -/
@[netlist] def new_buff_consum (s : S) (busy_in : Bool) : Nat :=
  (next_new_buff_consum s busy_in)
/-- integration_3_axi_stream.v:8765-8778. -/
@[netlist] def input_handler_buffer (s : S) : Nat :=
  s.u_input_handler.buffer
/-- integration_3_axi_stream.v:8831-8834. -/
@[netlist] def next_output_handler_buffer (s : S) : Nat :=
  (input_handler_buffer s)
/-- integration_3_axi_stream.v:8854. -/
@[netlist] def output_handler_buffer (s : S) : Nat :=
  (next_output_handler_buffer s)
/-- integration_3_axi_stream.v:8823-8826. -/
@[netlist] def next_input_handler_valid_in (s : S) (valid_in : Bool) : Bool :=
  valid_in
/-- integration_3_axi_stream.v:8856. -/
@[netlist] def input_handler_valid_in (s : S) (valid_in : Bool) : Bool :=
  (next_input_handler_valid_in s valid_in)
/-- integration_3_axi_stream.v:8819-8822. -/
@[netlist] def next_input_handler_in_end (s : S) (in_end : Bool) : Bool :=
  in_end
/-- integration_3_axi_stream.v:8857. -/
@[netlist] def input_handler_in_end (s : S) (in_end : Bool) : Bool :=
  (next_input_handler_in_end s in_end)
/-- integration_3_axi_stream.v:8815-8818. -/
@[netlist] def next_input_handler_enc_in_ctr (s : S) (enc_in_ctr : Nat) : Nat :=
  enc_in_ctr
/-- integration_3_axi_stream.v:8858. -/
@[netlist] def input_handler_enc_in_ctr (s : S) (enc_in_ctr : Nat) : Nat :=
  (next_input_handler_enc_in_ctr s enc_in_ctr)
/-- integration_3_axi_stream.v:8795-8798. -/
@[netlist] def next_input_handler_enc_in (s : S) (enc_in : Nat) : Nat :=
  enc_in
/-- integration_3_axi_stream.v:8859. -/
@[netlist] def input_handler_enc_in (s : S) (enc_in : Nat) : Nat :=
  (next_input_handler_enc_in s enc_in)
/-- integration_3_axi_stream.v:8765-8778. -/
@[netlist] def input_handler_latch_input (s : S) : Bool :=
  s.u_input_handler.latch_input
/-- integration_3_axi_stream.v:8791-8794. -/
@[netlist] def next_latch_input (s : S) : Bool :=
  (input_handler_latch_input s)
/-- integration_3_axi_stream.v:8860. -/
@[netlist] def latch_input (s : S) : Bool :=
  (next_latch_input s)

/-- integration_3_axi_stream.v:8676-8861: one rising clock edge (`always @(posedge ...)`). -/
@[netlist] def step (s : S) (enc_in_ctr : Nat) (in_end : Bool) (valid_in : Bool) (busy_in : Bool) (rst : Bool) (enc_in : Nat) : S :=
  { u_input_handler := input_handler.step s.u_input_handler (input_handler_valid_in s valid_in) (input_handler_enc_in s enc_in) (input_handler_enc_in_ctr s enc_in_ctr) (input_handler_in_end s in_end) rst (input_handler_dec_buff s busy_in)
    u_output_handler := output_handler.step s.u_output_handler (output_handler_end_in s) (output_handler_buffer s) (output_handler_busy_in s busy_in) rst (output_handler_buff_consum s) }

/-- integration_3_axi_stream.v:8676-8861: the initial values given in the netlist. -/
def Init (s : S) : Prop :=
  input_handler.Init s.u_input_handler ∧
  output_handler.Init s.u_output_handler

/-- integration_3_axi_stream.v:8676-8861: a state with these initial values; registers without one are 0. -/
def powerUp : S :=
  { u_input_handler := input_handler.powerUp
    u_output_handler := output_handler.powerUp }

theorem powerUp_init : Init powerUp := ⟨input_handler.powerUp_init, output_handler.powerUp_init⟩

end vbits_to_cbits

namespace top_module

/-- integration_3_axi_stream.v:7616-7820: registers, memories and instances of module `top_module`. -/
structure S where
  u_integration_2 : integration_2.S
  u_vbits_to_cbits : vbits_to_cbits.S

/-- integration_3_axi_stream.v:7715-7731. -/
@[netlist] def integration_2_nready (s : S) : Bool :=
  integration_2.nready s.u_integration_2
/-- integration_3_axi_stream.v:7769-7772. -/
@[netlist] def next_nready (s : S) : Bool :=
  (integration_2_nready s)
/-- integration_3_axi_stream.v:7805. -/
@[netlist] def nready (s : S) : Bool :=
  (next_nready s)
/-- integration_3_axi_stream.v:7732-7744. -/
@[netlist] def vbits_to_cbits_end_out (s : S) : Bool :=
  vbits_to_cbits.end_out s.u_vbits_to_cbits
/-- integration_3_axi_stream.v:7765-7768. -/
@[netlist] def next_end_out (s : S) : Bool :=
  (vbits_to_cbits_end_out s)
/-- integration_3_axi_stream.v:7806. -/
@[netlist] def end_out (s : S) : Bool :=
  (next_end_out s)
/-- integration_3_axi_stream.v:7732-7744. -/
@[netlist] def vbits_to_cbits_valid_out (s : S) : Bool :=
  vbits_to_cbits.valid_out s.u_vbits_to_cbits
/-- integration_3_axi_stream.v:7761-7764. -/
@[netlist] def next_valid_out (s : S) : Bool :=
  (vbits_to_cbits_valid_out s)
/-- integration_3_axi_stream.v:7807. -/
@[netlist] def valid_out (s : S) : Bool :=
  (next_valid_out s)
/-- integration_3_axi_stream.v:7732-7744. -/
@[netlist] def vbits_to_cbits_data_out (s : S) : Nat :=
  vbits_to_cbits.data_out s.u_vbits_to_cbits
/-- integration_3_axi_stream.v:7757-7760. -/
@[netlist] def next_data_out (s : S) : Nat :=
  (vbits_to_cbits_data_out s)
/-- integration_3_axi_stream.v:7808. -/
@[netlist] def data_out (s : S) : Nat :=
  (next_data_out s)
/-- integration_3_axi_stream.v:7753-7756. -/
@[netlist] def next_vbits_to_cbits_busy_in (s : S) (busy_in : Bool) : Bool :=
  busy_in
/-- integration_3_axi_stream.v:7809. -/
@[netlist] def vbits_to_cbits_busy_in (s : S) (busy_in : Bool) : Bool :=
  (next_vbits_to_cbits_busy_in s busy_in)
/-- integration_3_axi_stream.v:7715-7731. -/
@[netlist] def integration_2_valid_out (s : S) : Bool :=
  integration_2.valid_out s.u_integration_2
/-- integration_3_axi_stream.v:7801-7804. -/
@[netlist] def next_vbits_to_cbits_valid_in (s : S) : Bool :=
  (integration_2_valid_out s)
/-- integration_3_axi_stream.v:7810. -/
@[netlist] def vbits_to_cbits_valid_in (s : S) : Bool :=
  (next_vbits_to_cbits_valid_in s)
/-- integration_3_axi_stream.v:7715-7731. -/
@[netlist] def integration_2_out_end (s : S) : Bool :=
  integration_2.out_end s.u_integration_2
/-- integration_3_axi_stream.v:7797-7800. -/
@[netlist] def next_vbits_to_cbits_in_end (s : S) : Bool :=
  (integration_2_out_end s)
/-- integration_3_axi_stream.v:7811. -/
@[netlist] def vbits_to_cbits_in_end (s : S) : Bool :=
  (next_vbits_to_cbits_in_end s)
/-- integration_3_axi_stream.v:7715-7731. -/
@[netlist] def integration_2_enc_out_ctr (s : S) : Nat :=
  integration_2.enc_out_ctr s.u_integration_2
/-- integration_3_axi_stream.v:7793-7796. -/
@[netlist] def next_vbits_to_cbits_enc_in_ctr (s : S) : Nat :=
  slc (integration_2_enc_out_ctr s) 0 6
/-- integration_3_axi_stream.v:7812. -/
@[netlist] def vbits_to_cbits_enc_in_ctr (s : S) : Nat :=
  (next_vbits_to_cbits_enc_in_ctr s)
/-- integration_3_axi_stream.v:7715-7731. -/
@[netlist] def integration_2_enc_out (s : S) : Nat :=
  integration_2.enc_out s.u_integration_2
/-- integration_3_axi_stream.v:7789-7792. -/
@[netlist] def next_vbits_to_cbits_enc_in (s : S) : Nat :=
  slc (integration_2_enc_out s) 0 48
/-- integration_3_axi_stream.v:7813. -/
@[netlist] def vbits_to_cbits_enc_in (s : S) : Nat :=
  (next_vbits_to_cbits_enc_in s)
/-- integration_3_axi_stream.v:7732-7744. -/
@[netlist] def vbits_to_cbits_latch_input (s : S) : Bool :=
  vbits_to_cbits.latch_input s.u_vbits_to_cbits
/-- integration_3_axi_stream.v:7785-7788. -/
@[netlist] def next_integration_2_latch_output (s : S) : Bool :=
  (vbits_to_cbits_latch_input s)
/-- integration_3_axi_stream.v:7814. -/
@[netlist] def integration_2_latch_output (s : S) : Bool :=
  (next_integration_2_latch_output s)
/-- integration_3_axi_stream.v:7781-7784. -/
@[netlist] def next_integration_2_valid_in (s : S) (valid_in : Bool) : Bool :=
  valid_in
/-- integration_3_axi_stream.v:7815. -/
@[netlist] def integration_2_valid_in (s : S) (valid_in : Bool) : Bool :=
  (next_integration_2_valid_in s valid_in)
/-- integration_3_axi_stream.v:7777-7780. -/
@[netlist] def next_integration_2_pixel_in_6 (s : S) (pixel_in_3 : Nat) : Nat :=
  pixel_in_3
/-- integration_3_axi_stream.v:7816. -/
@[netlist] def integration_2_pixel_in_6 (s : S) (pixel_in_3 : Nat) : Nat :=
  (next_integration_2_pixel_in_6 s pixel_in_3)
/-- integration_3_axi_stream.v:7773-7776. -/
@[netlist] def next_integration_2_pixel_in_5 (s : S) (pixel_in_2 : Nat) : Nat :=
  pixel_in_2
/-- integration_3_axi_stream.v:7817. -/
@[netlist] def integration_2_pixel_in_5 (s : S) (pixel_in_2 : Nat) : Nat :=
  (next_integration_2_pixel_in_5 s pixel_in_2)
/-- integration_3_axi_stream.v:7749-7752. -/
@[netlist] def next_integration_2_pixel_in_4 (s : S) (pixel_in_1 : Nat) : Nat :=
  pixel_in_1
/-- integration_3_axi_stream.v:7818. -/
@[netlist] def integration_2_pixel_in_4 (s : S) (pixel_in_1 : Nat) : Nat :=
  (next_integration_2_pixel_in_4 s pixel_in_1)
/-- integration_3_axi_stream.v:7745-7748. -/
@[netlist] def next_integration_2_pixel_in (s : S) (pixel_in : Nat) : Nat :=
  pixel_in
/-- integration_3_axi_stream.v:7819. -/
@[netlist] def integration_2_pixel_in (s : S) (pixel_in : Nat) : Nat :=
  (next_integration_2_pixel_in s pixel_in)

/-- integration_3_axi_stream.v:7616-7820: one rising clock edge (`always @(posedge ...)`). -/
@[netlist] def step (s : S) (pixel_in_1 : Nat) (pixel_in_2 : Nat) (pixel_in_3 : Nat) (valid_in : Bool) (busy_in : Bool) (rst : Bool) (full_rst : Bool) (pixel_in : Nat) : S :=
  { u_integration_2 := integration_2.step s.u_integration_2 (integration_2_pixel_in s pixel_in) (integration_2_pixel_in_4 s pixel_in_1) (integration_2_pixel_in_5 s pixel_in_2) (integration_2_pixel_in_6 s pixel_in_3) (integration_2_latch_output s) rst full_rst (integration_2_valid_in s valid_in)
    u_vbits_to_cbits := vbits_to_cbits.step s.u_vbits_to_cbits (vbits_to_cbits_enc_in_ctr s) (vbits_to_cbits_in_end s) (vbits_to_cbits_valid_in s) (vbits_to_cbits_busy_in s busy_in) rst (vbits_to_cbits_enc_in s) }

/-- integration_3_axi_stream.v:7616-7820: the initial values given in the netlist. -/
def Init (s : S) : Prop :=
  integration_2.Init s.u_integration_2 ∧
  vbits_to_cbits.Init s.u_vbits_to_cbits

/-- integration_3_axi_stream.v:7616-7820: a state with these initial values; registers without one are 0. -/
def powerUp : S :=
  { u_integration_2 := integration_2.powerUp
    u_vbits_to_cbits := vbits_to_cbits.powerUp }

theorem powerUp_init : Init powerUp := ⟨integration_2.powerUp_init, vbits_to_cbits.powerUp_init⟩

end top_module

namespace top

/-- integration_3_axi_stream.v:7471-7612: registers, memories and instances of module `top`. -/
structure S where
  u_top_module : top_module.S

/-- integration_3_axi_stream.v:7540. -/
@[netlist] def w4 (s : S) (m_tready : Bool) : Bool :=
  m_tready == false
/-- integration_3_axi_stream.v:7542-7556. -/
@[netlist] def top_module_nready (s : S) : Bool :=
  top_module.nready s.u_top_module
/-- integration_3_axi_stream.v:7541. -/
@[netlist] def w6 (s : S) : Bool :=
  (top_module_nready s) == false
/-- integration_3_axi_stream.v:7565-7568. -/
@[netlist] def next_top_module_valid_in (s : S) (s_tvalid : Bool) : Bool :=
  s_tvalid
/-- integration_3_axi_stream.v:7601. -/
@[netlist] def top_module_valid_in (s : S) (s_tvalid : Bool) : Bool :=
  (next_top_module_valid_in s s_tvalid)
/-- integration_3_axi_stream.v:7597-7600. -/
@[netlist] def next_s_end (s : S) (s_tlast : Bool) : Bool :=
  s_tlast
/-- integration_3_axi_stream.v:7602. -/
@[netlist] def s_end (s : S) (s_tlast : Bool) : Bool :=
  (next_s_end s s_tlast)
/-- integration_3_axi_stream.v:7593-7596. -/
@[netlist] def next_s_tready (s : S) : Bool :=
  (w6 s)
/-- integration_3_axi_stream.v:7603. -/
@[netlist] def s_tready (s : S) : Bool :=
  (next_s_tready s)
/-- integration_3_axi_stream.v:7589-7592. -/
@[netlist] def next_top_module_pixel_in_3 (s : S) (s_tdata : Nat) : Nat :=
  slc s_tdata 36 12
/-- integration_3_axi_stream.v:7604. -/
@[netlist] def top_module_pixel_in_3 (s : S) (s_tdata : Nat) : Nat :=
  (next_top_module_pixel_in_3 s s_tdata)
/-- integration_3_axi_stream.v:7585-7588. -/
@[netlist] def next_top_module_pixel_in_2 (s : S) (s_tdata : Nat) : Nat :=
  slc s_tdata 24 12
/-- integration_3_axi_stream.v:7605. -/
@[netlist] def top_module_pixel_in_2 (s : S) (s_tdata : Nat) : Nat :=
  (next_top_module_pixel_in_2 s s_tdata)
/-- integration_3_axi_stream.v:7581-7584. -/
@[netlist] def next_top_module_pixel_in_1 (s : S) (s_tdata : Nat) : Nat :=
  slc s_tdata 12 12
/-- integration_3_axi_stream.v:7606. -/
@[netlist] def top_module_pixel_in_1 (s : S) (s_tdata : Nat) : Nat :=
  (next_top_module_pixel_in_1 s s_tdata)
/-- integration_3_axi_stream.v:7577-7580. -/
@[netlist] def next_top_module_pixel_in (s : S) (s_tdata : Nat) : Nat :=
  slc s_tdata 0 12
/-- integration_3_axi_stream.v:7607. -/
@[netlist] def top_module_pixel_in (s : S) (s_tdata : Nat) : Nat :=
  (next_top_module_pixel_in s s_tdata)
/-- integration_3_axi_stream.v:7542-7556. -/
@[netlist] def top_module_valid_out (s : S) : Bool :=
  top_module.valid_out s.u_top_module
/-- integration_3_axi_stream.v:7573-7576. -/
@[netlist] def next_m_tvalid (s : S) : Bool :=
  (top_module_valid_out s)
/-- integration_3_axi_stream.v:7608. -/
@[netlist] def m_tvalid (s : S) : Bool :=
  (next_m_tvalid s)
/-- integration_3_axi_stream.v:7569-7572. -/
@[netlist] def next_top_module_busy_in (s : S) (m_tready : Bool) : Bool :=
  (w4 s m_tready)
/-- integration_3_axi_stream.v:7609. -/
@[netlist] def top_module_busy_in (s : S) (m_tready : Bool) : Bool :=
  (next_top_module_busy_in s m_tready)
/-- integration_3_axi_stream.v:7542-7556. -/
@[netlist] def top_module_end_out (s : S) : Bool :=
  top_module.end_out s.u_top_module
/-- integration_3_axi_stream.v:7561-7564. -/
@[netlist] def next_m_tlast (s : S) : Bool :=
  (top_module_end_out s)
/-- integration_3_axi_stream.v:7610. -/
@[netlist] def m_tlast (s : S) : Bool :=
  (next_m_tlast s)
/-- integration_3_axi_stream.v:7542-7556. -/
@[netlist] def top_module_data_out (s : S) : Nat :=
  top_module.data_out s.u_top_module
/-- integration_3_axi_stream.v:7557-7560. -/
@[netlist] def next_m_tdata (s : S) : Nat :=
  (top_module_data_out s)
/-- integration_3_axi_stream.v:7611. -/
@[netlist] def m_tdata (s : S) : Nat :=
  (next_m_tdata s)

/-- integration_3_axi_stream.v:7471-7612: one rising clock edge (`always @(posedge ...)`). -/
@[netlist] def step (s : S) (s_tdata : Nat) (s_tlast : Bool) (s_tvalid : Bool) (rst : Bool) (full_rst : Bool) (m_tready : Bool) : S :=
  { u_top_module := top_module.step s.u_top_module (top_module_pixel_in_1 s s_tdata) (top_module_pixel_in_2 s s_tdata) (top_module_pixel_in_3 s s_tdata) (top_module_valid_in s s_tvalid) (top_module_busy_in s m_tready) rst full_rst (top_module_pixel_in s s_tdata) }

/-- integration_3_axi_stream.v:7471-7612: the initial values given in the netlist. -/
def Init (s : S) : Prop :=
  top_module.Init s.u_top_module

/-- integration_3_axi_stream.v:7471-7612: a state with these initial values; registers without one are 0. -/
def powerUp : S :=
  { u_top_module := top_module.powerUp }

theorem powerUp_init : Init powerUp := top_module.powerUp_init

end top

end Netlist.I3Axis
