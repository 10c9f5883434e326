/- The netlist modules behind the encoder core (stuffing, markers; micro core) against the model of migen_src. -/
import Verif.Netlist.MInt3
import Verif.Netlist.Back
import Verif.Model.Beta

set_option autoImplicit false

namespace Netlist.MicroAxis
open Netlist Model

/-! ### fix_0xff -/

/-- The registers of the netlist as registers of the model. -/
def absFix1 (s : fix_0xff.S) : Fix1 :=
  { data := s.data_out, ctr := s.data_out_ctr, valid := s.valid_out, endd := s.end_out, oBusy := s.o_busy
    regData := s.data_out_reg, regCtr := s.data_out_ctr_reg, regEnd := s.end_out_reg, regValid := s.data_out_valid }

/-- The constant registers. -/
def WfFix1 (s : fix_0xff.S) : Prop := s.ones = 255 ∧ s.zeros = 0

theorem fix1_rst (s : fix_0xff.S) (v e : Bool) (x : Nat) (b : Bool) : absFix1 (fix_0xff.step s v e x true b) = Fix1.init := by
  simp [netlist, absFix1, Fix1.init]

theorem fix1_wf (s : fix_0xff.S) (v e : Bool) (x : Nat) (rst b : Bool) : WfFix1 (fix_0xff.step s v e x rst b) := by
  cases rst <;> simp [netlist, WfFix1]

theorem fix1_step (s : fix_0xff.S) (v e : Bool) (x : Nat) (b : Bool) (h : WfFix1 s) (hx : x < 2 ^ 16) :
    absFix1 (fix_0xff.step s v e x false b) = (absFix1 s).step x v e b := by
  have hf := Beta.fixLogic_eq x s.ones s.zeros hx h.1 h.2
  obtain ⟨r1, r2, r3, r4, r5, r6, r7, r8, r9, r10, r11⟩ := s
  dsimp only at hf
  clear h
  by_cases q1 : x = 65535
  · subst q1
    rw [if_pos rfl] at hf
    cases b <;> cases r4 <;> cases r5 <;> cases r9 <;> cases v <;>
      simp [netlist, absFix1, Fix1.step, Fix1.main, hf]
  · rw [if_neg q1] at hf
    by_cases q2 : slc x 0 8 = 255
    · rw [if_pos q2] at hf
      cases b <;> cases r4 <;> cases r5 <;> cases r9 <;> cases v <;>
        simp [netlist, absFix1, Fix1.step, Fix1.main, hf, q1, q2]
    · rw [if_neg q2] at hf
      by_cases q3 : slc x 8 8 = 255
      · rw [if_pos q3] at hf
        cases b <;> cases r4 <;> cases r5 <;> cases r9 <;> cases v <;>
          simp [netlist, absFix1, Fix1.step, Fix1.main, hf, q1, q2, q3]
      · rw [if_neg q3] at hf
        cases b <;> cases r4 <;> cases r5 <;> cases r9 <;> cases v <;>
          simp [netlist, absFix1, Fix1.step, Fix1.main, hf, q1, q2, q3]

/-! ### markers -/

/-- The registers of the netlist as registers of the model. -/
def absMarkers (s : markers.S) : Markers := { fsm := Beta.markFsm s.fsm_state, counter := s.counter, endCond := s.end_cond }

/-- Register ranges. -/
def WfMarkers (s : markers.S) : Prop := s.fsm_state ≤ 6 ∧ s.counter < 16

theorem markers_rst (s : markers.S) (v e f : Bool) (x : Nat) (b : Bool) :
    absMarkers (markers.step s v e f x true b) = Markers.init := by
  simp [netlist, absMarkers, Markers.init, Beta.markFsm]

theorem markers_wf (s : markers.S) (v e f : Bool) (x : Nat) (rst b : Bool) (h : WfMarkers s) :
    WfMarkers (markers.step s v e f x rst b) := by
  obtain ⟨h1, h2⟩ := h
  refine ⟨?_, ?_⟩ <;> simp only [netlist, slc] <;> (repeat' first | apply Beta.ite_le | apply Beta.ite_lt) <;> omega

theorem markers_step (s : markers.S) (v e f : Bool) (x : Nat) (b : Bool) (h : WfMarkers s) :
    absMarkers (markers.step s v e f x false b) = (absMarkers s).step ⟨x, v, e, f, b⟩ := by
  obtain ⟨st, c, ec⟩ := s
  obtain ⟨h1, h2⟩ := h
  dsimp only at h1 h2
  have hd : slc ((31 + c) % 32) 0 4 = Markers.dec c := by simp only [slc, Markers.dec]; omega
  have hst : st = 0 ∨ st = 1 ∨ st = 2 ∨ st = 3 ∨ st = 4 ∨ st = 5 ∨ st = 6 := by omega
  by_cases c0 : c = 0
  · subst c0
    rcases hst with rfl | rfl | rfl | rfl | rfl | rfl | rfl <;> cases b <;> cases v <;> cases ec <;> cases f <;>
      simp [netlist, absMarkers, Markers.step, Beta.markFsm, hd]
  · by_cases c1 : c = 1
    · subst c1
      rcases hst with rfl | rfl | rfl | rfl | rfl | rfl | rfl <;> cases b <;> cases v <;> cases ec <;> cases f <;>
        simp [netlist, absMarkers, Markers.step, Beta.markFsm, hd]
    · rcases hst with rfl | rfl | rfl | rfl | rfl | rfl | rfl <;> cases b <;> cases v <;> cases ec <;> cases f <;>
        simp [netlist, absMarkers, Markers.step, Beta.markFsm, hd, c0, c1]

theorem markers_out (s : markers.S) (v e f : Bool) (x : Nat) (b : Bool) (h : WfMarkers s) :
    MarkOut.mk (markers.data_out s f x b) (markers.valid_out s v f b) (markers.end_out s b) (markers.o_busy s f b) =
      (absMarkers s).out ⟨x, v, e, f, b⟩ := by
  obtain ⟨st, c, ec⟩ := s
  obtain ⟨h1, h2⟩ := h
  dsimp only at h1 h2
  have hst : st = 0 ∨ st = 1 ∨ st = 2 ∨ st = 3 ∨ st = 4 ∨ st = 5 ∨ st = 6 := by omega
  by_cases c0 : c = 0
  · subst c0
    rcases hst with rfl | rfl | rfl | rfl | rfl | rfl | rfl <;> cases b <;> cases v <;> cases ec <;> cases f <;>
      simp [netlist, absMarkers, Markers.out, Beta.markFsm]
  · by_cases c1 : c = 1
    · subst c1
      rcases hst with rfl | rfl | rfl | rfl | rfl | rfl | rfl <;> cases b <;> cases v <;> cases ec <;> cases f <;>
        simp [netlist, absMarkers, Markers.out, Beta.markFsm]
    · rcases hst with rfl | rfl | rfl | rfl | rfl | rfl | rfl <;> cases b <;> cases v <;> cases ec <;> cases f <;>
        simp [netlist, absMarkers, Markers.out, Beta.markFsm, c0, c1]

end Netlist.MicroAxis
