/- The samples from their differences, whatever these are. -/
import Verif.Spec.Predictors

set_option autoImplicit false

namespace Spec

/-- T.81 H.1.2, H.2 (predictor 1, `C` interleaved components, `W` samples of all components per line): each sample is its prediction from the samples before
plus its difference, modulo 2^16. -/
def rebuild (bd C W : Nat) (l : List Int) : List Nat :=
  l.foldl (fun acc x => acc ++ [((predPC 1 bd C W acc acc.length + x) % 65536).toNat]) []

end Spec
