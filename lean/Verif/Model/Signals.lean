/- Model of migen_src/signals.py. -/

set_option autoImplicit false

namespace Model

/-- FSM states (signals.py:60-93). -/
inductive SigFsm | idle | loop | done
deriving DecidableEq, Repr

/-- Registers of `Signals` (signals.py:45-46, 56-60). -/
structure Signals where
  fsm : SigFsm
  widthTemp : Nat
  heightTemp : Nat
  endOfFrame : Bool
  newRow : Bool
deriving DecidableEq, Repr

namespace Signals

/-- Reset values (`new_row` resets to 1, signals.py:46). -/
def init : Signals :=
  { fsm := .idle, widthTemp := 0, heightTemp := 0, endOfFrame := false, newRow := true }

/-- Subtraction into a 16-bit register. -/
def sub16 (a b : Nat) : Nat := (((a : Int) - (b : Int)) % 65536).toNat

/-- One clock edge (signals.py:60-93). -/
def step (ps W H : Nat) (s : Signals) (newInput : Bool) : Signals :=
  match s.fsm with
  | .idle =>
    if newInput then
      { s with widthTemp := sub16 W ps, heightTemp := sub16 H 1, newRow := false, fsm := .loop }
    else s
  | .loop =>
    if newInput then
      let s1 : Signals :=
        if s.widthTemp = ps then
          { s with widthTemp := W % 65536, heightTemp := sub16 s.heightTemp 1, newRow := true }
        else { s with widthTemp := sub16 s.widthTemp ps, newRow := false }
      if s.heightTemp = 0 ∧ s.widthTemp = 2 * ps then
        { s1 with endOfFrame := true, fsm := .done }
      else s1
    else s
  | .done => { s with endOfFrame := true }

end Signals
end Model
