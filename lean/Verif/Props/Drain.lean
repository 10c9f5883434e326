/- Property theorems C75: once the last pixel of a frame is taken, the core gives out the rest of the code in bounded time. -/
import Verif.Proof.Drain
import Verif.Props.Speed
import Verif.Props.Liveness

set_option autoImplicit false

namespace Props
open Spec Model

/-- The bound of C75, from the configuration alone: FIFO depths, pieces per code word, output words per piece, buffer. -/
def drainCycles (c : CoreCfg) : Nat :=
  9 * (c.depth * ((c.total / c.conv + 1) * (c.conv / c.out + 5) + 1) + (c.cdepth + 1) * (c.conv / c.out + 5) + c.buf / c.out) + 17

variable {c : CoreCfg} {T : Table}

theorem run_done {s : Int3} (h1 : s.vbits.ofsm = .done) (h2 : s.vbits.valid = true) (h3 : s.vbits.endd = true) :
    ∀ tail : List CoreIn, (∃ i ∈ tail, i.busy = false) → ∃ w, (w, true) ∈ Int3.delivered c s tail := by
  intro tail
  induction tail generalizing s with
  | nil => rintro ⟨i, hi, _⟩; simp at hi
  | cons j tail ih =>
    intro hex
    cases hb : j.busy with
    | false =>
      refine ⟨s.vbits.data, ?_⟩
      simp [Int3.delivered, Int3.valid, Int3.data, Int3.endd, h2, h3, hb]
    | true =>
      obtain ⟨d1, d2, d3⟩ := Drain.done_stays (c := c) j h1
      obtain ⟨w, hw⟩ := ih d1 (by rw [d2, h2]) (by rw [d3, h3]) (by
        obtain ⟨i, hi, hbi⟩ := hex
        rcases List.mem_cons.1 hi with rfl | hi
        · rw [hb] at hbi; cases hbi
        · exact ⟨i, hi, hbi⟩)
      refine ⟨w, ?_⟩
      simp only [Int3.delivered]
      exact List.mem_append_right _ hw

/-- C75: in every execution from reset, once all pixels of the frame have been taken, the end-flagged last word has been
delivered after at most `drainCycles c` further cycles, nine more for every cycle in which the receiver is busy: whatever the
image, the earlier stalls and what the producer does meanwhile. -/
theorem C75_rest_in_bounded_time (h : CoreSetup c T) {s : Int3} (hs : AfterReset c s) (ins tail : List CoreIn)
    (hwf : Int3.Wf c (ins ++ tail)) (hall : (Int3.accepted c s ins).length = c.int1.W * c.int1.H)
    (hlong : drainCycles c + 9 * busyCycles tail ≤ tail.length) :
    ∃ w, (w, true) ∈ Int3.delivered c s (ins ++ tail) := by
  have hok := h.ok
  have hw1 : Int3.Wf c ins := fun j hj => hwf j (by simp [hj])
  have hw2 : Int3.Wf c tail := fun j hj => hwf j (by simp [hj])
  obtain ⟨k, its, recv, h1, h2⟩ := run_from_reset hok hs hw1
  have hWH : c.int1.W / c.int1.ps * c.int1.H * c.int1.ps = c.int1.W * c.int1.H := by
    rw [Nat.mul_right_comm, Nat.div_mul_cancel h.legal.frame.dvd]
  have hps : 0 < c.int1.ps := by have := hok.int1.ps; omega
  have hk : k = c.int1.W / c.int1.ps * c.int1.H := by
    have hl := h1.int1.hlen
    rw [hall, ← hWH, Nat.mul_comm] at hl
    exact (Nat.eq_of_mul_eq_mul_left hps hl).symm
  subst hk
  rw [delivered_append]
  suffices ∃ w, (w, true) ∈ Int3.delivered c (Int3.run c s ins) tail by
    obtain ⟨w, hw⟩ := this
    exact ⟨w, List.mem_append_right _ hw⟩
  rcases h2 with h2 | h2
  · have hst : (Int3.run c s ins).vbits.start = true := by
      cases hl : ins using snoc_induction with
      | h0 =>
        subst hl
        have h4 := h.legal.frame.W4
        have h5 := h.legal.frame.H1
        simp only [Int3.accepted, List.length_nil] at hall
        have : 0 < c.int1.W * c.int1.H := Nat.mul_pos (by omega) (by omega)
        omega
      | h1 l i _ => subst hl; rw [run_append]; rfl
    have hlv := Int2.levels_le hok.int1.ps
    have hil := h1.itsLen
    have := Drain.drain_run hok ⟨hst, _, _, _, h1, h2⟩ hil tail hw2
    have hb : tail.countP (·.busy) = busyCycles tail := rfl
    rw [hb] at this
    have hM : drainCycles c = 9 * Drain.phiMax c + 17 := rfl
    rcases this with h3 | ⟨_, _, _, h3⟩ | ⟨_, h3⟩
    · exact h3
    · omega
    · have := h3 (by omega)
      omega
  · refine run_done h2.fsm h2.valid h2.endd tail ?_
    apply Classical.byContradiction
    intro hno
    have : busyCycles tail = tail.length := by
      unfold busyCycles
      rw [List.countP_eq_length]
      intro i hi
      cases hb : i.busy with
      | true => rfl
      | false => exact absurd ⟨i, hi, hb⟩ hno
    unfold drainCycles at hlong
    omega

/-- C75 for the shipped core of the Axiom Beta: at most 87659 cycles with a receiver that is always ready. -/
theorem C75_beta {s : Int3} (hs : AfterReset betaCore s) (ins tail : List CoreIn) (hwf : Int3.Wf betaCore (ins ++ tail))
    (hall : (Int3.accepted betaCore s ins).length = 4096 * 3072) (hready : ∀ i ∈ tail, i.busy = false) (hlong : 87659 ≤ tail.length) :
    ∃ w, (w, true) ∈ Int3.delivered betaCore s (ins ++ tail) := by
  refine C75_rest_in_bounded_time (default_setup (by decide) rfl) hs ins tail hwf hall ?_
  have h0 : busyCycles tail = 0 := by
    unfold busyCycles
    rw [List.countP_eq_zero]
    intro i hi
    rw [hready i hi]
    simp
  have h1 : drainCycles betaCore = 87659 := by decide
  rw [h0, h1]
  omega

/-! ### The hypotheses can be met -/

-- Every fair schedule has a prefix after which the whole frame has been taken; any tail can follow.
example : ∃ ins : List CoreIn, Int3.Wf betaCore (ins ++ List.replicate 87659 ⟨[0, 0], true, false⟩) ∧
    (Int3.accepted betaCore (Int3.init betaCore) ins).length = 4096 * 3072 := by
  have hw : ∀ n : Nat, ∀ x ∈ [n % 4096, 7], x < 2 ^ betaCore.int1.bd := by
    intro n x hx
    simp only [List.mem_cons, List.not_mem_nil, or_false] at hx
    show x < 4096
    omega
  obtain ⟨t, ht, _⟩ := C21_frame_completes (c := betaCore) (default_setup (by decide) rfl) (afterReset_init _)
    (fun n => ⟨[n % 4096, 7], n % 3 == 0, n % 2 == 0⟩) (fun t _ => ⟨rfl, hw t⟩)
    (fun n => ⟨3 * n, by omega, by simp⟩) (fun n => ⟨2 * n + 1, by omega, by simp⟩)
  refine ⟨_, ?_, ht⟩
  intro i hi hv
  rcases List.mem_append.1 hi with hi | hi
  · obtain ⟨n, _, rfl⟩ := List.mem_map.1 hi
    exact ⟨rfl, hw n⟩
  · rw [List.eq_of_mem_replicate hi]
    refine ⟨rfl, ?_⟩
    intro x hx
    simp at hx
    subst hx
    decide

end Props
