/- Specification of the register driver of software/src/core_axi_lite.cpp, as a user of the class sees it. -/

set_option autoImplicit false

namespace Spec

/-- Calls of the public interface, with their arguments. -/
inductive DrvCall
  | getHeight | getWidth | getAllowedCycles | getSsss
  | setHeight (v : Nat) | setWidth (v : Nat) | setAllowedCycles (v : Nat)
deriving DecidableEq, Repr

/-- What a call returns: nothing, a number, or the list of Huffman codes with their lengths. -/
inductive DrvReply
  | unit
  | num (n : Nat)
  | codes (l : List (Nat × Nat))
deriving DecidableEq, Repr

/-- The frame parameters as a plain record. -/
structure DrvState where
  height : Nat
  width : Nat
  cycles : Nat
deriving DecidableEq, Repr

/-- Effect and reply of one call; `codes` is the Huffman table of the core. Arguments are `uint16_t`
(height, width) and `uint32_t` (cycles, of which the core keeps 24 bits). -/
def drvCall (codes : List (Nat × Nat)) (s : DrvState) : DrvCall → DrvState × DrvReply
  | .getHeight => (s, .num s.height)
  | .getWidth => (s, .num s.width)
  | .getAllowedCycles => (s, .num s.cycles)
  | .getSsss => (s, .codes codes)
  | .setHeight v => ({ s with height := v }, .unit)
  | .setWidth v => ({ s with width := v }, .unit)
  | .setAllowedCycles v => ({ s with cycles := v % 2 ^ 24 }, .unit)

/-- A sequence of calls. -/
def drvCalls (codes : List (Nat × Nat)) : DrvState → List DrvCall → DrvState × List DrvReply
  | s, [] => (s, [])
  | s, c :: r => let (s', y) := drvCall codes s c; let (s'', ys) := drvCalls codes s' r; (s'', y :: ys)

/-- Arguments within their C++ types. -/
def DrvCall.Typed : DrvCall → Prop
  | .setHeight v => v < 2 ^ 16
  | .setWidth v => v < 2 ^ 16
  | .setAllowedCycles v => v < 2 ^ 32
  | _ => True

end Spec
