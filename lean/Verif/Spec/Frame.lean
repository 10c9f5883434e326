/- Which configurations and frame sizes the core is specified for. -/
import Verif.Spec.Jpeg

set_option autoImplicit false

namespace Spec

/-- Legal parameters: 1, 2 or 4 pixels per step, 2..16 bits, a width that is a multiple of the
step and at least 4 pixels and two steps, 16-bit sizes, and at least three steps in the frame. -/
structure Legal (bd ps W H : Nat) : Prop where
  pixels : ps = 1 ∨ ps = 2 ∨ ps = 4
  bd2 : 2 ≤ bd
  bd16 : bd ≤ 16
  dvd : ps ∣ W
  W4 : 4 ≤ W
  W2 : 2 * ps ≤ W
  W16 : W < 65536
  H1 : 1 ≤ H
  H16 : H < 65536
  size : 2 ≤ H ∨ 3 * ps ≤ W

instance (bd ps W H : Nat) : Decidable (Legal bd ps W H) :=
  decidable_of_iff ((ps = 1 ∨ ps = 2 ∨ ps = 4) ∧ 2 ≤ bd ∧ bd ≤ 16 ∧ ps ∣ W ∧ 4 ≤ W ∧ 2 * ps ≤ W ∧
      W < 65536 ∧ 1 ≤ H ∧ H < 65536 ∧ (2 ≤ H ∨ 3 * ps ≤ W))
    ⟨fun ⟨a, b, c, d, e, f, g, h, i, j⟩ => ⟨a, b, c, d, e, f, g, h, i, j⟩,
     fun ⟨a, b, c, d, e, f, g, h, i, j⟩ => ⟨a, b, c, d, e, f, g, h, i, j⟩⟩

end Spec
