/-
Property theorem C21: the core does not deadlock.
-/
import Verif.Proof.Live
import Verif.Props.Core

set_option autoImplicit false

namespace Props
open Spec Model

/-- C21: for every infinite schedule in which the producer offers pixels infinitely often and the
consumer is ready infinitely often (no other assumption on either), a core that starts at reset
delivers an end-flagged word after finitely many cycles. -/
theorem C21_no_deadlock {c : CoreCfg} {T : Table} (h : CoreSetup c T) {s : Int3} (hs : AfterReset c s)
    (u : Nat → CoreIn)
    (hwf : ∀ t, (u t).valid = true → (u t).pixels.length = c.int1.ps ∧ ∀ x ∈ (u t).pixels, x < 2 ^ c.int1.bd)
    (hprod : ∀ n, ∃ m, n ≤ m ∧ (u m).valid = true)
    (hcons : ∀ n, ∃ m, n ≤ m ∧ (u m).busy = false) :
    ∃ t w, (w, true) ∈ Int3.delivered c s ((List.range t).map u) :=
  Live.end_reached h.ok hs hwf hprod hcons

/-- C21 together with C17: under such a schedule the complete code of a frame of `W * H` pixels
that were offered is delivered. -/
theorem C21_frame_completes {c : CoreCfg} {T : Table} (h : CoreSetup c T) {s : Int3} (hs : AfterReset c s)
    (u : Nat → CoreIn)
    (hwf : ∀ t, (u t).valid = true → (u t).pixels.length = c.int1.ps ∧ ∀ x ∈ (u t).pixels, x < 2 ^ c.int1.bd)
    (hprod : ∀ n, ∃ m, n ≤ m ∧ (u m).valid = true)
    (hcons : ∀ n, ∃ m, n ≤ m ∧ (u m).busy = false) :
    ∃ t, (Int3.accepted c s ((List.range t).map u)).length = c.int1.W * c.int1.H ∧
      ∃ j, j < c.out ∧ wordBits c.out (upToEnd (Int3.delivered c s ((List.range t).map u))) =
        encode T c.int1.bd c.int1.W (Int3.accepted c s ((List.range t).map u)) ++ List.replicate j false := by
  obtain ⟨t, w, hw⟩ := C21_no_deadlock h hs u hwf hprod hcons
  have := C17_complete_at_end h hs ((List.range t).map u) (by
    intro i hi
    simp only [List.mem_map] at hi
    obtain ⟨n, _, rfl⟩ := hi
    exact hwf n) w hw
  exact ⟨t, this.1, this.2.1⟩

/-- Non-vacuity: pixels offered in every third cycle only, a consumer ready in every second one. -/
example : ∃ t w, (w, true) ∈ Int3.delivered betaCore (Int3.init betaCore)
    ((List.range t).map fun n => ⟨[n % 4096, 7], n % 3 == 0, n % 2 == 0⟩) := by
  apply C21_no_deadlock (c := betaCore) (default_setup (by decide) rfl) (afterReset_init _)
  · intro t _
    refine ⟨rfl, ?_⟩
    intro x hx
    simp only [List.mem_cons, List.not_mem_nil, or_false] at hx
    show x < 4096
    omega
  · intro n; exact ⟨3 * n, by omega, by simp⟩
  · intro n; exact ⟨2 * n + 1, by omega, by simp⟩

end Props
