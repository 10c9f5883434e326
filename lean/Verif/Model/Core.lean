/- Executions of the core: inputs per cycle, what is accepted and what is delivered. -/
import Verif.Model.Integration3

set_option autoImplicit false

namespace Model

/-- The inputs of `Integration3` in one clock cycle (integration_3.py:23-31). -/
structure CoreIn where
  pixels : List Nat
  valid : Bool
  busy : Bool
deriving DecidableEq, Repr

namespace Int3

/-- State after the given cycles. -/
def run (c : CoreCfg) : Int3 → List CoreIn → Int3
  | s, [] => s
  | s, i :: r => run c (s.step c i.pixels i.valid i.busy) r

/-- Pixels taken: those of the cycles with `valid_in` and not `nready`. -/
def accepted (c : CoreCfg) : Int3 → List CoreIn → List Nat
  | _, [] => []
  | s, i :: r => (if i.valid && !s.nready then i.pixels else []) ++
      accepted c (s.step c i.pixels i.valid i.busy) r

/-- Words delivered: those of the cycles with `valid_out` and not `busy_in`, with `end_out`. -/
def delivered (c : CoreCfg) : Int3 → List CoreIn → List (Nat × Bool)
  | _, [] => []
  | s, i :: r => (if s.valid && !i.busy then [(s.data, s.endd)] else []) ++
      delivered c (s.step c i.pixels i.valid i.busy) r

end Int3
end Model
