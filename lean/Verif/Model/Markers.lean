/- Model of migen_src/markers.py. -/

set_option autoImplicit false

namespace Model

/-- FSM states (markers.py:95-179). -/
inductive MarkFsm | idle | startMarker | endMarker | forceMarker | frame | doneNormal | doneForce
deriving DecidableEq, Repr

/-- Registers of `Markers` (markers.py:61, 75-76, 95). -/
structure Markers where
  fsm : MarkFsm
  counter : Nat
  endCond : Bool
deriving DecidableEq, Repr

/-- Inputs of `Markers` in one cycle (markers.py:35-49). -/
structure MarkIn where
  data : Nat
  valid : Bool
  endd : Bool
  force : Bool
  busy : Bool
deriving DecidableEq, Repr

/-- Combinational outputs of `Markers` (markers.py:38-48). -/
structure MarkOut where
  data : Nat
  valid : Bool
  endd : Bool
  oBusy : Bool
deriving DecidableEq, Repr

namespace Markers

/-- Reset values. -/
def init : Markers := { fsm := .idle, counter := 0, endCond := false }

/-- `counter - 1` into the 4-bit register. -/
def dec (n : Nat) : Nat := (n + 15) % 16

/-- Outputs (markers.py:64-68 defaults, 97-179). -/
def out (s : Markers) (i : MarkIn) : MarkOut :=
  match s.fsm with
  | .idle => { data := 0, valid := false, endd := false, oBusy := true }
  | .startMarker =>
    if !i.busy && decide (s.counter = 0) then { data := 0, valid := false, endd := false, oBusy := true }
    else { data := 0xFFFF, valid := true, endd := false, oBusy := true }
  | .endMarker =>
    { data := 0xFFFF, valid := true, endd := !i.busy && decide (s.counter = 1), oBusy := true }
  | .forceMarker =>
    { data := 0xFFFE, valid := true, endd := !i.busy && decide (s.counter = 1), oBusy := true }
  | .frame =>
    if s.endCond then { data := 0, valid := false, endd := false, oBusy := true }
    else if i.force then { data := 0, valid := false, endd := false, oBusy := true }
    else { data := i.data, valid := i.valid, endd := false, oBusy := i.busy }
  | .doneNormal => { data := 0xFFFF, valid := true, endd := true, oBusy := true }
  | .doneForce => { data := 0xFFFE, valid := true, endd := true, oBusy := true }

/-- One clock edge (markers.py:76-179). -/
def step (s : Markers) (i : MarkIn) : Markers :=
  let e := !i.busy && i.valid && i.endd
  match s.fsm with
  | .idle => { fsm := if i.valid then .startMarker else .idle, counter := 8, endCond := e }
  | .startMarker =>
    if !i.busy then
      if s.counter = 0 then { fsm := .frame, counter := 8, endCond := e }
      else { fsm := .startMarker, counter := dec s.counter, endCond := e }
    else { s with endCond := e }
  | .endMarker =>
    if !i.busy then
      { fsm := if s.counter = 1 then .doneNormal else .endMarker, counter := dec s.counter, endCond := e }
    else { s with endCond := e }
  | .forceMarker =>
    if !i.busy then
      { fsm := if s.counter = 1 then .doneForce else .forceMarker, counter := dec s.counter, endCond := e }
    else { s with endCond := e }
  | .frame =>
    if s.endCond then { s with fsm := .endMarker, endCond := e }
    else if i.force then { s with fsm := .forceMarker, endCond := e }
    else { s with endCond := e }
  | .doneNormal => { s with endCond := e }
  | .doneForce => { s with endCond := e }

end Markers
end Model
