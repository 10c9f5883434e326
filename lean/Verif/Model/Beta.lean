/- Models of migen_src/beta_integration.py and migen_src/micro_integration.py: the encoder core with
byte stuffing, frame markers, forced end and automatic reset. -/
import Verif.Model.Core
import Verif.Model.Fix0xFF2
import Verif.Model.Markers
import Verif.Model.ForceEnd

set_option autoImplicit false

namespace Model

/-- State of the two integrations (beta_integration.py:45-49, micro_integration.py:44-48).
`fend` sits inside `Integration1` (integration_1.py:84-87, 97-100). -/
structure Cam where
  core : Int3
  fend : ForceEnd
  fix1 : Fix1
  fix2 : Fix2
  marks : Markers
  resetOut : Bool
deriving DecidableEq, Repr

/-- Inputs in one cycle: pixels, `valid_in`, `busy_in`. -/
structure CamIn where
  pixels : List Nat
  valid : Bool
  busy : Bool
deriving DecidableEq, Repr

namespace Cam

/-- After reset, with `m` in the core's memories.  (The register file is in the clock domain
`full`, which the automatic reset does not reset: the frame size stays.) -/
def reset (c : CoreCfg) (m : Kept) : Cam :=
  { core := .reset c m, fend := .init, fix1 := .init, fix2 := .init, marks := .init, resetOut := false }

/-- Power-up. -/
def init (c : CoreCfg) : Cam :=
  { core := .init c, fend := .init, fix1 := .init, fix2 := .init, marks := .init, resetOut := false }

/-- Inputs of the marker stage (beta_integration.py:118-125, micro_integration.py:115-122). -/
def markIn (s : Cam) (busy : Bool) : MarkIn :=
  { data := s.fix2.data, valid := s.fix2.valid, endd := s.fix2.endd, force := s.fend.fend, busy := busy }

/-- Outputs `data_out`, `valid_out`, `end_out` (beta_integration.py:127-131): combinational in `busy_in`. -/
def out (s : Cam) (busy : Bool) : MarkOut := s.marks.out (s.markIn busy)

/-- `nready` (beta_integration.py:132). -/
def nready (s : Cam) : Bool := s.core.nready

/-- Next `reset_out` (beta_integration.py:72-77, auto_reset.py:52-55). -/
def resetNext (s : Cam) (busy : Bool) : Bool :=
  AutoReset.next s.resetOut (s.out busy).valid (!busy) (s.out busy).endd

/-- A cycle of the beta core in which `reset_out` is low (beta_integration.py:94-133). -/
def betaRun (c : CoreCfg) (allowed : Nat) (s : Cam) (i : CamIn) : Cam :=
  { core := s.core.step c i.pixels i.valid s.fix1.oBusy
    fend := s.fend.step allowed (i.valid && !s.core.nready)
    fix1 := s.fix1.step s.core.data s.core.valid s.core.endd s.fix2.oBusy
    fix2 := s.fix2.step s.fix1.out s.fix1.valid (s.out i.busy).oBusy
    marks := s.marks.step (s.markIn i.busy)
    resetOut := s.resetNext i.busy }

/-- One clock edge of the beta core: while `reset_out` is high the clock domain `sync` is reset
(beta_integration.py:67-70); memories and read port registers are clocked as usual. -/
def betaStep (c : CoreCfg) (allowed : Nat) (s : Cam) (i : CamIn) : Cam :=
  if s.resetOut then reset c (s.betaRun c allowed i).core.int2.kept else s.betaRun c allowed i

/-- A cycle of the micro core without reset (micro_integration.py:93-130): neither stuffing stage
gets an end flag (their `end_in` is not driven and stays 0), and the second one gets `busy_in` instead
of the marker stage's `o_busy`. -/
def microRun (c : CoreCfg) (allowed : Nat) (s : Cam) (i : CamIn) : Cam :=
  { core := s.core.step c i.pixels i.valid s.fix1.oBusy
    fend := s.fend.step allowed (i.valid && !s.core.nready)
    fix1 := s.fix1.step s.core.data s.core.valid false s.fix2.oBusy
    fix2 := s.fix2.step ⟨s.fix1.data, s.fix1.ctr, false⟩ s.fix1.valid i.busy
    marks := s.marks.step (s.markIn i.busy)
    resetOut := s.resetNext i.busy }

/-- One clock edge of the micro core (micro_integration.py:66-69). -/
def microStep (c : CoreCfg) (allowed : Nat) (s : Cam) (i : CamIn) : Cam :=
  if s.resetOut then reset c (s.microRun c allowed i).core.int2.kept else s.microRun c allowed i

end Cam
end Model
