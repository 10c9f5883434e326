/- Specification of a register file behind an AXI4-lite bus: what a bus master may observe, as a
sequence of channel transfers. Independent of the model. -/

set_option autoImplicit false

namespace Spec

/-- Transfers on the five AXI-lite channels. -/
inductive BusEv
  /-- read address accepted -/
  | ar (addr : Nat)
  /-- read data delivered -/
  | r (data resp : Nat)
  /-- write address accepted -/
  | aw (addr : Nat)
  /-- write data accepted -/
  | w (data strb : Nat)
  /-- write response delivered -/
  | b (resp : Nat)
deriving DecidableEq, Repr

/-- A register map: registers `R`, values `L` of the live (read-only) inputs. A read gives an
optional value (none: any data may be returned) and a response code, a write gives the new
registers and a response code. -/
structure RegMap (R L : Type) where
  read : R → L → Nat → Option Nat × Nat
  write : R → Nat → Nat → Nat → R × Nat

/-- Transaction in progress: nothing, a read with its address, a write waiting for data, a write
whose response is outstanding. -/
inductive BusPhase
  | idle
  | read (addr : Nat)
  | write (addr : Nat)
  | resp (code : Nat)
deriving DecidableEq, Repr

/-- One transfer: the next registers and phase, or `none` when the transfer is not allowed. `live`
are the live inputs in the cycle before the transfer. -/
def busEv {R L : Type} (m : RegMap R L) (live : L) : R × BusPhase → BusEv → Option (R × BusPhase)
  | (g, .idle), .ar a => some (g, .read a)
  | (g, .read a), .r d c =>
    if c = (m.read g live a).2 ∧ (∀ v ∈ (m.read g live a).1, d = v) then some (g, .idle) else none
  | (g, .idle), .aw a => some (g, .write a)
  | (g, .write a), .w d s => some ((m.write g a d s).1, .resp (m.write g a d s).2)
  | (g, .resp c), .b c' => if c' = c then some (g, .idle) else none
  | _, _ => none

/-- All the transfers of one cycle. -/
def busEvs {R L : Type} (m : RegMap R L) (live : L) (s : R × BusPhase) (es : List BusEv) : Option (R × BusPhase) :=
  es.foldlM (busEv m live) s

/-- A whole history, one entry (live inputs, transfers) for each cycle. `live` are the live inputs
before the first cycle. -/
def busRun {R L : Type} (m : RegMap R L) : L → R × BusPhase → List (L × List BusEv) → Option (R × BusPhase)
  | _, s, [] => some s
  | live, s, (l, es) :: r => (busEvs m live s es).bind fun s' => busRun m l s' r

/-- Byte `i` of `n`. -/
def byteAt (n i : Nat) : Nat := n / 256 ^ i % 256

/-- The 32-bit word whose byte `i` is taken from `new` when strobe `i` is set, from `old` otherwise. -/
def strobed (old new strb : Nat) : Nat :=
  let pick := fun i => if strb.testBit i then byteAt new i else byteAt old i
  pick 0 + 256 * pick 1 + 256 ^ 2 * pick 2 + 256 ^ 3 * pick 3

end Spec
