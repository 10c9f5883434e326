/- Model of migen_src/vbits_to_cbits.py. -/
import Verif.Model.Converter

set_option autoImplicit false

namespace Model

/-- FSM states of the output handler (vbits_to_cbits.py:104-125). -/
inductive OutFsm | output | burst | done
deriving DecidableEq, Repr

/-- FSM states of the input handler (vbits_to_cbits.py:238-288). -/
inductive InFsm | input | cleanBuffer | registerForBurst | burst
deriving DecidableEq, Repr

/-- Registers of `VBitsToCBits` (vbits_to_cbits.py:42-66, 129-193).  `reg`/`validReg` is the
`enc_in_reg` group, `bf`/`validBf` the `enc_in_buff` group, `endIn` is `end_out` of the
input handler.  `valid_in_late` is never read and is left out. -/
structure VBits where
  ofsm : OutFsm
  data : Nat
  valid : Bool
  endd : Bool
  ifsm : InFsm
  latch : Bool
  buffer : Nat
  consum : Nat
  free : Nat
  start : Bool
  endIn : Bool
  reg : Code
  validReg : Bool
  bf : Code
  validBf : Bool
deriving DecidableEq, Repr

namespace VBits

/-- Reset values. -/
def init : VBits :=
  { ofsm := .output, data := 0, valid := false, endd := false, ifsm := .input, latch := false,
    buffer := 0, consum := 0, free := 0, start := false, endIn := false,
    reg := .zero, validReg := false, bf := .zero, validBf := false }

/-- Truncation of an integer to a `w`-bit register. -/
def trunc (w : Nat) (x : Int) : Nat := (x % 2 ^ w).toNat

/-- Does the output handler run `do_output` in this cycle (vbits_to_cbits.py:108, 114)?
This is also `dec_buff_out`. -/
def doOutput (out : Nat) (s : VBits) (busy : Bool) : Bool :=
  match s.ofsm with
  | .output => decide (s.consum ≥ out) || (decide (s.consum ≤ out) && s.endIn)
  | .burst => !busy && decide (s.consum ≥ out)
  | .done => false

/-- Next values of the output handler: state, `data_out`, `valid_out`, `end_out`
(vbits_to_cbits.py:69-127). -/
def outStep (out buf : Nat) (s : VBits) (busy : Bool) : OutFsm × Nat × Bool × Bool :=
  if s.doOutput out busy then
    let data :=
      if s.consum ≥ out then
        (s.buffer >>> trunc (bitsFor (buf - out)) ((s.consum : Int) - out)) % 2 ^ out
      else (s.buffer <<< trunc (bitsFor (out - 1)) ((out : Int) - s.consum)) % 2 ^ out
    if s.consum ≤ out ∧ s.endIn = true then (.done, data, true, true)
    else (.burst, data, true, s.endd)
  else match s.ofsm with
    | .burst => if busy then (.burst, s.data, s.valid, s.endd) else (.output, s.data, false, s.endd)
    | f => (f, s.data, s.valid, s.endd)

/-- `inc_buff` (vbits_to_cbits.py:209, 262, 282). -/
def incBuff (s : VBits) : Bool :=
  match s.ifsm with
  | .cleanBuffer => true
  | .burst => s.validReg && decide (s.reg.ctr ≤ s.free)
  | _ => false

/-- Input handler: the FSM with the registers it drives except the counters
(vbits_to_cbits.py:195-288). -/
def inStep (s : VBits) (inp : Code) (validIn : Bool) : VBits :=
  match s.ifsm with
  | .input =>
    if s.validBf then
      if s.bf.ctr ≤ s.free then { s with bf := s.reg, reg := s.bf, ifsm := .cleanBuffer } else s
    else if s.validReg then { s with latch := true, ifsm := .burst }
    else { s with latch := true, ifsm := .registerForBurst }
  | .cleanBuffer =>
    let s1 := { s with validBf := false, bf := s.reg, reg := s.bf, endIn := s.reg.endd, latch := true }
    if s.validReg then { s1 with ifsm := .burst } else { s1 with ifsm := .registerForBurst }
  | .registerForBurst => { s with reg := inp, validReg := validIn, ifsm := .burst }
  | .burst =>
    let s1 := { s with reg := inp, validReg := validIn, bf := s.reg, validBf := s.validReg }
    if s.validReg then
      if s.reg.ctr ≤ s.free then { s1 with endIn := s.reg.endd, latch := true }
      else { s1 with latch := false, ifsm := .input }
    else s1

/-- One clock edge of the packer with output width `out` and buffer size `buf`
(vbits_to_cbits.py:230-312). -/
def step (out buf : Nat) (s : VBits) (inp : Code) (validIn busy : Bool) : VBits :=
  let inc := s.incBuff
  let dec := s.doOutput out busy
  let o := s.outStep out buf busy
  let s1 := s.inStep inp validIn
  let add : Int := if inc then s.reg.ctr else 0
  let sub : Int := if dec then out else 0
  { s1 with
    ofsm := o.1
    data := o.2.1
    valid := o.2.2.1
    endd := o.2.2.2
    buffer := if inc then ((s.buffer <<< s.reg.ctr) ||| s.reg.enc) % 2 ^ buf else s.buffer
    start := true
    free := if inc || dec then trunc (bitsFor buf) ((s.free : Int) + sub - add)
            else if !s.start then buf else s.free
    consum := if inc || dec then trunc (bitsFor buf) ((s.consum : Int) - sub + add) else s.consum }

end VBits
end Model
