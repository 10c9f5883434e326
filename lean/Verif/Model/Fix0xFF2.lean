/- Model of migen_src/fix_0xff2.py: second stage of the FF stuffing. -/
import Verif.Model.Fix0xFF

set_option autoImplicit false

namespace Model

/-- FSM states (fix_0xff2.py:182-244). -/
inductive Fix2Fsm | normal | clean | preEnd | fin
deriving DecidableEq, Repr

/-- Registers of `Fix0xFF2` (fix_0xff2.py:146-180). -/
structure Fix2 where
  fsm : Fix2Fsm
  data : Nat
  valid : Bool
  endd : Bool
  oBusy : Bool
  buffer : Nat
  count : Nat
  regData : Nat
  regEnd : Bool
  regValid : Bool
  endReg : Bool
deriving DecidableEq, Repr

namespace Fix2

/-- Reset values. -/
def init : Fix2 :=
  { fsm := .normal, data := 0, valid := false, endd := false, oBusy := false, buffer := 0, count := 0,
    regData := 0, regEnd := false, regValid := false, endReg := false }

/-- `normal_logic` (fix_0xff2.py:38-111) on top of the updates `r` made so far; conditions read
the current registers `s`.  `toReg` selects `data_out_reg`/`end_out_reg` instead of
`data_out`/`end_out`.  A switch without a matching case does nothing. -/
def normalLogic (s r : Fix2) (p : Packet) (validIn : Bool) (toReg : Bool) : Fix2 :=
  let put (r : Fix2) (d : Nat) : Fix2 := if toReg then { r with regData := d } else { r with data := d }
  if validIn then
    let r :=
      if s.count = 0 then
        if p.ctr = 2 then put r (slice p.data 0 16)
        else if p.ctr = 3 then { put r (slice p.data 8 24) with buffer := slice p.data 0 8, count := 1 }
        else if p.ctr = 4 then
          { put r (slice p.data 16 32) with buffer := slice p.data 0 16, count := 2, oBusy := true, fsm := .clean }
        else r
      else if s.count = 1 then
        if p.ctr = 2 then
          { put r (slice p.data 8 16 + 2 ^ 8 * slice s.buffer 0 8) with buffer := slice p.data 0 8, count := 1 }
        else if p.ctr = 3 then
          { put r (slice p.data 16 24 + 2 ^ 8 * slice s.buffer 0 8) with
            buffer := slice p.data 0 16, count := 2, oBusy := true, fsm := .clean }
        else if p.ctr = 4 then
          { put r (slice p.data 24 32 + 2 ^ 8 * slice s.buffer 0 8) with
            buffer := slice p.data 0 24, count := 3, oBusy := true, fsm := .clean }
        else r
      else r
    if p.endd then
      if s.count = 0 ∧ p.ctr = 2 then
        if toReg then { r with regEnd := true, fsm := .preEnd } else { r with endd := true, fsm := .preEnd }
      else { r with oBusy := true, endReg := true, fsm := .clean }
    else r
  else r

/-- `clean_logic` (fix_0xff2.py:117-142). -/
def cleanLogic (s : Fix2) : Fix2 :=
  let r :=
    if s.count = 1 then { s with data := 0 + 2 ^ 8 * slice s.buffer 0 8, count := 0 }
    else if s.count = 2 then { s with data := slice s.buffer 0 16, count := 0 }
    else if s.count = 3 then { s with data := slice s.buffer 8 24, buffer := slice s.buffer 0 8, count := 1 }
    else s
  if s.endReg then
    if s.count ≤ 2 then { r with endd := true, fsm := .fin } else r
  else r

/-- State NORMAL (fix_0xff2.py:183-215). -/
def stepNormal (s : Fix2) (p : Packet) (validIn iBusy : Bool) : Fix2 :=
  let r :=
    if !iBusy then
      let r :=
        if !s.regValid then normalLogic s { s with valid := validIn } p validIn false
        else { s with valid := true, data := s.regData, endd := s.regEnd }
      { r with oBusy := false, regValid := false }
    else if !s.valid then
      normalLogic s { s with valid := validIn, oBusy := false, regValid := false } p validIn false
    else if validIn && !s.oBusy then
      { s with regValid := validIn && s.valid, oBusy := validIn && s.valid }
    else s
  if !s.oBusy then normalLogic s r p validIn true else r

/-- State CLEAN (fix_0xff2.py:217-231). -/
def stepClean (s : Fix2) (iBusy : Bool) : Fix2 :=
  if !iBusy then
    if !s.regValid then
      let r := { cleanLogic s with valid := true }
      if !s.endReg then { r with oBusy := false, fsm := .normal } else r
    else { s with valid := true, data := s.regData, endd := s.regEnd, regValid := false }
  else s

/-- State PRE_END (fix_0xff2.py:233-241). -/
def stepPreEnd (s : Fix2) (iBusy : Bool) : Fix2 :=
  if !iBusy then
    let r := if s.regValid then { s with valid := true, data := s.regData, endd := true } else s
    { r with fsm := .fin }
  else s

/-- One clock edge (fix_0xff2.py:182-244).  In state END nothing changes. -/
def step (s : Fix2) (p : Packet) (validIn iBusy : Bool) : Fix2 :=
  match s.fsm with
  | .normal => s.stepNormal p validIn iBusy
  | .clean => s.stepClean iBusy
  | .preEnd => s.stepPreEnd iBusy
  | .fin => s

end Fix2
end Model
