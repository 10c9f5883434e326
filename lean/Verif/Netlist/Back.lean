/- The netlist modules behind the encoder core (stuffing, markers, automatic reset) against the model of migen_src. -/
import Verif.Netlist.Int3
import Verif.Model.Beta

set_option autoImplicit false

namespace Netlist.Beta
open Netlist Model

/-! ### fix_0xff -/

/-- The registers of the netlist as registers of the model. -/
def absFix1 (s : fix_0xff.S) : Fix1 :=
  { data := s.data_out, ctr := s.data_out_ctr, valid := s.valid_out, endd := s.end_out, oBusy := s.o_busy
    regData := s.data_out_reg, regCtr := s.data_out_ctr_reg, regEnd := s.end_out_reg, regValid := s.data_out_valid }

/-- The constant registers. -/
def WfFix1 (s : fix_0xff.S) : Prop := s.ones = 255 ∧ s.zeros = 0

theorem fix1_rst (s : fix_0xff.S) (v e : Bool) (x : Nat) (b : Bool) : absFix1 (fix_0xff.step s v e x true b) = Fix1.init := by
  simp [netlist, absFix1, Fix1.init]

theorem fix1_wf (s : fix_0xff.S) (v e : Bool) (x : Nat) (rst b : Bool) : WfFix1 (fix_0xff.step s v e x rst b) := by
  cases rst <;> simp [netlist, WfFix1]

/-- `logic` with the constant registers in it. -/
theorem fixLogic_eq (x o z : Nat) (hx : x < 2 ^ 16) (ho : o = 255) (hz : z = 0) : fixLogic x =
    if x = 65535 then (o * 2 ^ 24 + z * 2 ^ 16 + o * 2 ^ 8 + z, 4)
    else if slc x 0 8 = 255 then (slc x 8 8 * 2 ^ 16 + o * 2 ^ 8 + z, 3)
    else if slc x 8 8 = 255 then (o * 2 ^ 16 + z * 2 ^ 8 + slc x 0 8, 3) else (x, 2) := by
  have e1 : slice x 0 16 = x := by simp only [slice]; omega
  have e2 : slice x 0 8 = slc x 0 8 := rfl
  have e3 : slice x 8 16 = slc x 8 8 := rfl
  simp only [fixLogic, e1, e2, e3]
  generalize slc x 0 8 = l
  generalize slc x 8 8 = m
  split
  · congr 1; omega
  · split
    · congr 1; omega
    · split
      · congr 1; omega
      · rfl

theorem fix1_step (s : fix_0xff.S) (v e : Bool) (x : Nat) (b : Bool) (h : WfFix1 s) (hx : x < 2 ^ 16) :
    absFix1 (fix_0xff.step s v e x false b) = (absFix1 s).step x v e b := by
  have hf := fixLogic_eq x s.ones s.zeros hx h.1 h.2
  obtain ⟨r1, r2, r3, r4, r5, r6, r7, r8, r9, r10, r11⟩ := s
  dsimp only at hf
  clear h
  by_cases q1 : x = 65535
  · subst q1
    rw [if_pos rfl] at hf
    cases b <;> cases r4 <;> cases r5 <;> cases r9 <;> cases v <;>
      simp [netlist, absFix1, Fix1.step, Fix1.main, hf]
  · rw [if_neg q1] at hf
    by_cases q2 : slc x 0 8 = 255
    · rw [if_pos q2] at hf
      cases b <;> cases r4 <;> cases r5 <;> cases r9 <;> cases v <;>
        simp [netlist, absFix1, Fix1.step, Fix1.main, hf, q1, q2]
    · rw [if_neg q2] at hf
      by_cases q3 : slc x 8 8 = 255
      · rw [if_pos q3] at hf
        cases b <;> cases r4 <;> cases r5 <;> cases r9 <;> cases v <;>
          simp [netlist, absFix1, Fix1.step, Fix1.main, hf, q1, q2, q3]
      · rw [if_neg q3] at hf
        cases b <;> cases r4 <;> cases r5 <;> cases r9 <;> cases v <;>
          simp [netlist, absFix1, Fix1.step, Fix1.main, hf, q1, q2, q3]

/-! ### fix_0xff2 -/

/-- FSM encoding of the netlist. -/
def fix2Fsm : Nat → Fix2Fsm
  | 0 => .normal
  | 1 => .clean
  | 2 => .preEnd
  | _ => .fin

/-- The registers of the netlist as registers of the model. -/
def absFix2 (s : fix_0xff2.S) : Fix2 :=
  { fsm := fix2Fsm s.fsm_state, data := s.data_out, valid := s.valid_out, endd := s.end_out, oBusy := s.o_busy
    buffer := s.buffer_data, count := s.buffer_count, regData := s.data_out_reg, regEnd := s.end_out_reg
    regValid := s.data_out_valid, endReg := s.end_reg }

/-- Register ranges, and: in state NORMAL the stage is busy exactly when its skid register is full.  The last part is
needed because the netlist and fix_0xff2.py differ in the other states of the registers: in the source `o_busy.eq(0)`
(fix_0xff2.py:196) comes after `normal_logic` and wins, in the netlist it comes before the case statement and loses
(beta_integration.v, `$next\\o_busy` of module fix_0xff2). -/
def WfFix2 (s : fix_0xff2.S) : Prop :=
  s.fsm_state ≤ 3 ∧ s.buffer_count ≤ 3 ∧ s.data_out < 2 ^ 16 ∧ s.data_out_reg < 2 ^ 16 ∧
  (s.fsm_state = 0 → s.o_busy = s.data_out_valid)

theorem fix2_rst (s : fix_0xff2.S) (v : Bool) (c x : Nat) (e b : Bool) :
    absFix2 (fix_0xff2.step s v c x e true b) = Fix2.init := by
  simp [netlist, absFix2, Fix2.init, fix2Fsm]

theorem cat_lt (a b : Nat) (l m : Nat) : slc a l 8 * 2 ^ 8 + slc b m 8 < 2 ^ 16 := by
  have h1 := slc_lt a l 8
  have h2 := slc_lt b m 8
  omega

theorem put_clean (d a : Nat) (hd : d < 2 ^ 16) (ha : a < 2 ^ 8) : put (put d 8 8 a) 0 8 0 = 0 + 2 ^ 8 * a := by
  simp only [put]; omega

theorem put_lt (d x : Nat) (hd : d < 2 ^ 16) : put (put d 8 8 (slc x 0 8)) 0 8 0 < 2 ^ 16 := by
  have := slc_lt x 0 8
  rw [put_clean _ _ hd this]
  generalize slc x 0 8 = y at this
  omega

/-- States other than NORMAL. -/
theorem fix2_step_other (s : fix_0xff2.S) (v : Bool) (c x : Nat) (e b : Bool) (h : WfFix2 s) (h0 : s.fsm_state ≠ 0) :
    absFix2 (fix_0xff2.step s v c x e false b) = (absFix2 s).step ⟨x, c, e⟩ v b := by
  obtain ⟨st, ob, bc, bd, d, vo, er, dr, dv, ere, eo⟩ := s
  obtain ⟨h1, h2, h3, h4, _⟩ := h
  dsimp only at h0 h1 h2 h3 h4
  have hp := put_clean d (slc bd 0 8) h3 (slc_lt _ _ _)
  have e2 : slice bd 0 8 = slc bd 0 8 := rfl
  have e3 : slice bd 0 16 = slc bd 0 16 := rfl
  have e4 : slice bd 8 24 = slc bd 8 16 := rfl
  have hst : st = 1 ∨ st = 2 ∨ st = 3 := by omega
  have hbc : bc = 0 ∨ bc = 1 ∨ bc = 2 ∨ bc = 3 := by omega
  rcases hst with rfl | rfl | rfl
  · rcases hbc with rfl | rfl | rfl | rfl <;> cases b <;> cases dv <;> cases ere <;>
      simp [netlist, absFix2, Fix2.step, Fix2.stepClean, Fix2.cleanLogic, fix2Fsm, hp, e2, e3, e4]
  · cases b <;> cases dv <;> simp [netlist, absFix2, Fix2.step, Fix2.stepPreEnd, fix2Fsm]
  · simp [netlist, absFix2, Fix2.step, fix2Fsm]

/-- State NORMAL. -/
theorem fix2_step_normal (s : fix_0xff2.S) (v : Bool) (c x : Nat) (e b : Bool) (h : WfFix2 s) (h0 : s.fsm_state = 0) :
    absFix2 (fix_0xff2.step s v c x e false b) = (absFix2 s).step ⟨x, c, e⟩ v b := by
  obtain ⟨st, ob, bc, bd, d, vo, er, dr, dv, ere, eo⟩ := s
  obtain ⟨h1, h2, h3, h4, h5⟩ := h
  dsimp only at h0 h1 h2 h3 h4 h5
  have h6 := h5 h0
  clear h5
  subst h0 h6
  have e1 : ∀ n lo hi, slice n lo hi = slc n lo (hi - lo) := fun _ _ _ => rfl
  have hbc : bc = 0 ∨ bc = 1 ∨ bc = 2 ∨ bc = 3 := by omega
  cases v
  · cases b <;> cases ob <;> cases vo <;>
      simp [netlist, absFix2, Fix2.step, Fix2.stepNormal, Fix2.normalLogic, fix2Fsm]
  · rcases hbc with rfl | rfl | rfl | rfl
    · by_cases c2 : c = 2
      · subst c2
        cases b <;> cases ob <;> cases vo <;> cases e <;>
          simp [netlist, absFix2, Fix2.step, Fix2.stepNormal, Fix2.normalLogic, fix2Fsm, e1]
      · by_cases c3 : c = 3
        · subst c3
          cases b <;> cases ob <;> cases vo <;> cases e <;>
            simp [netlist, absFix2, Fix2.step, Fix2.stepNormal, Fix2.normalLogic, fix2Fsm, e1]
        · by_cases c4 : c = 4
          · subst c4
            cases b <;> cases ob <;> cases vo <;> cases e <;>
              simp [netlist, absFix2, Fix2.step, Fix2.stepNormal, Fix2.normalLogic, fix2Fsm, e1]
          · cases b <;> cases ob <;> cases vo <;> cases e <;>
              simp [netlist, absFix2, Fix2.step, Fix2.stepNormal, Fix2.normalLogic, fix2Fsm, c2, c3, c4]
    · by_cases c2 : c = 2
      · subst c2
        cases b <;> cases ob <;> cases vo <;> cases e <;>
          simp [netlist, absFix2, Fix2.step, Fix2.stepNormal, Fix2.normalLogic, fix2Fsm, e1] <;> omega
      · by_cases c3 : c = 3
        · subst c3
          cases b <;> cases ob <;> cases vo <;> cases e <;>
            simp [netlist, absFix2, Fix2.step, Fix2.stepNormal, Fix2.normalLogic, fix2Fsm, e1] <;> omega
        · by_cases c4 : c = 4
          · subst c4
            cases b <;> cases ob <;> cases vo <;> cases e <;>
              simp [netlist, absFix2, Fix2.step, Fix2.stepNormal, Fix2.normalLogic, fix2Fsm, e1] <;> omega
          · cases b <;> cases ob <;> cases vo <;> cases e <;>
              simp [netlist, absFix2, Fix2.step, Fix2.stepNormal, Fix2.normalLogic, fix2Fsm, c2, c3, c4]
    all_goals
      cases b <;> cases ob <;> cases vo <;> cases e <;>
        simp [netlist, absFix2, Fix2.step, Fix2.stepNormal, Fix2.normalLogic, fix2Fsm]

theorem fix2_step (s : fix_0xff2.S) (v : Bool) (c x : Nat) (e b : Bool) (h : WfFix2 s) :
    absFix2 (fix_0xff2.step s v c x e false b) = (absFix2 s).step ⟨x, c, e⟩ v b := by
  by_cases h0 : s.fsm_state = 0
  · exact fix2_step_normal s v c x e b h h0
  · exact fix2_step_other s v c x e b h h0

theorem normalLogic_busy (s r : Fix2) (p : Packet) (v t : Bool) :
    (Fix2.normalLogic s r p v t).regValid = r.regValid ∧
      ((Fix2.normalLogic s r p v t).fsm = .normal → (Fix2.normalLogic s r p v t).oBusy = r.oBusy ∧ r.fsm = .normal) := by
  unfold Fix2.normalLogic
  cases v
  · simp
  · cases t <;> (repeat' split) <;> simp_all

/-- In state NORMAL the stage is busy exactly when its skid register is full. -/
theorem fix2_busy (s : Fix2) (p : Packet) (v b : Bool) (h : s.fsm = .normal → s.oBusy = s.regValid) :
    (s.step p v b).fsm = .normal → (s.step p v b).oBusy = (s.step p v b).regValid := by
  obtain ⟨f, d, vo, e, ob, bu, ct, rd, re, rv, er⟩ := s
  cases f
  · have h := h rfl
    dsimp only at h
    subst h
    simp only [Fix2.step, Fix2.stepNormal]
    cases b
    · cases ob
      · simp only [Bool.not_false, if_true]
        intro hn
        rw [(normalLogic_busy _ _ p v true).1, ((normalLogic_busy _ _ p v true).2 hn).1]
      · simp
    · cases vo
      · simp only [Bool.not_true, Bool.false_eq_true, if_false, Bool.not_false, if_true]
        cases ob
        · simp only [Bool.not_false, if_true]
          intro hn
          rw [(normalLogic_busy _ _ p v true).1, ((normalLogic_busy _ _ p v true).2 hn).1,
            (normalLogic_busy _ _ p v false).1, ((normalLogic_busy _ _ p v false).2 ((normalLogic_busy _ _ p v true).2 hn).2).1]
        · simp only [Bool.not_true, Bool.false_eq_true, if_false]
          intro hn
          rw [(normalLogic_busy _ _ p v false).1, ((normalLogic_busy _ _ p v false).2 hn).1]
      · cases ob
        · cases v
          · simp [Fix2.normalLogic]
          · simp only [Bool.not_true, Bool.false_eq_true, if_false, Bool.not_false, Bool.and_self, if_true]
            intro hn
            rw [(normalLogic_busy _ _ p true true).1, ((normalLogic_busy _ _ p true true).2 hn).1]
        · simp
  · simp only [Fix2.step, Fix2.stepClean, Fix2.cleanLogic]
    cases b <;> cases rv <;> cases er <;> simp <;> (repeat' split) <;> simp_all
  · simp only [Fix2.step, Fix2.stepPreEnd]
    cases b <;> cases rv <;> simp
  · simp [Fix2.step]

theorem fix2Fsm_zero {n : Nat} (h : fix2Fsm n = .normal) : n = 0 := by
  unfold fix2Fsm at h
  split at h <;> simp_all

theorem fix2_wf (s : fix_0xff2.S) (v : Bool) (c x : Nat) (e rst b : Bool) (h : WfFix2 s) :
    WfFix2 (fix_0xff2.step s v c x e rst b) := by
  obtain ⟨h1, h2, h3, h4, h5⟩ := h
  refine ⟨?_, ?_, ?_, ?_, ?_⟩
  · show fix_0xff2.next_fsm_state _ _ _ _ _ _ ≤ 3
    simp only [netlist]
    repeat' first | assumption | decide | apply ite_le
  · show fix_0xff2.next_buffer_count _ _ _ _ _ ≤ 3
    simp only [netlist]
    repeat' first | assumption | decide | apply ite_le
  · show fix_0xff2.next_data_out _ _ _ _ _ _ < 2 ^ 16
    simp only [netlist]
    repeat' first | with_reducible assumption | with_reducible exact Nat.two_pow_pos 16 | with_reducible exact slc_lt _ _ _ | with_reducible exact cat_lt _ _ _ _ |
      with_reducible exact put_lt _ _ h3 | apply ite_lt
  · show fix_0xff2.next_data_out_reg _ _ _ _ _ < 2 ^ 16
    simp only [netlist]
    repeat' first | with_reducible assumption | with_reducible exact Nat.two_pow_pos 16 | with_reducible exact slc_lt _ _ _ | with_reducible exact cat_lt _ _ _ _ |
      with_reducible exact put_lt _ _ h3 | apply ite_lt
  · cases rst
    · intro hn
      have hs := fix2_step s v c x e b ⟨h1, h2, h3, h4, h5⟩
      have hb := fix2_busy (absFix2 s) ⟨x, c, e⟩ v b (fun hf => h5 (fix2Fsm_zero hf))
      rw [← hs] at hb
      exact hb (by simp [absFix2, fix2Fsm, hn])
    · intro _; rfl

/-! ### markers -/

/-- FSM encoding of the netlist. -/
def markFsm : Nat → MarkFsm
  | 0 => .idle
  | 1 => .startMarker
  | 2 => .frame
  | 3 => .endMarker
  | 4 => .doneNormal
  | 5 => .forceMarker
  | _ => .doneForce

/-- The registers of the netlist as registers of the model. -/
def absMarkers (s : markers.S) : Markers := { fsm := markFsm s.fsm_state, counter := s.counter, endCond := s.end_cond }

/-- Register ranges. -/
def WfMarkers (s : markers.S) : Prop := s.fsm_state ≤ 6 ∧ s.counter < 16

theorem markers_rst (s : markers.S) (v e f : Bool) (x : Nat) (b : Bool) :
    absMarkers (markers.step s v e f x true b) = Markers.init := by
  simp [netlist, absMarkers, Markers.init, markFsm]

theorem markers_wf (s : markers.S) (v e f : Bool) (x : Nat) (rst b : Bool) (h : WfMarkers s) :
    WfMarkers (markers.step s v e f x rst b) := by
  obtain ⟨h1, h2⟩ := h
  refine ⟨?_, ?_⟩ <;> simp only [netlist, slc] <;> (repeat' first | apply ite_le | apply ite_lt) <;> omega

theorem markers_step (s : markers.S) (v e f : Bool) (x : Nat) (b : Bool) (h : WfMarkers s) :
    absMarkers (markers.step s v e f x false b) = (absMarkers s).step ⟨x, v, e, f, b⟩ := by
  obtain ⟨st, c, ec⟩ := s
  obtain ⟨h1, h2⟩ := h
  dsimp only at h1 h2
  have hd : slc ((31 + c) % 32) 0 4 = Markers.dec c := by simp only [slc, Markers.dec]; omega
  have hst : st = 0 ∨ st = 1 ∨ st = 2 ∨ st = 3 ∨ st = 4 ∨ st = 5 ∨ st = 6 := by omega
  by_cases c0 : c = 0
  · subst c0
    rcases hst with rfl | rfl | rfl | rfl | rfl | rfl | rfl <;> cases b <;> cases v <;> cases ec <;> cases f <;>
      simp [netlist, absMarkers, Markers.step, markFsm, hd]
  · by_cases c1 : c = 1
    · subst c1
      rcases hst with rfl | rfl | rfl | rfl | rfl | rfl | rfl <;> cases b <;> cases v <;> cases ec <;> cases f <;>
        simp [netlist, absMarkers, Markers.step, markFsm, hd]
    · rcases hst with rfl | rfl | rfl | rfl | rfl | rfl | rfl <;> cases b <;> cases v <;> cases ec <;> cases f <;>
        simp [netlist, absMarkers, Markers.step, markFsm, hd, c0, c1]

theorem markers_out (s : markers.S) (v e f : Bool) (x : Nat) (b : Bool) (h : WfMarkers s) :
    MarkOut.mk (markers.data_out s f x b) (markers.valid_out s v f b) (markers.end_out s b) (markers.o_busy s f b) =
      (absMarkers s).out ⟨x, v, e, f, b⟩ := by
  obtain ⟨st, c, ec⟩ := s
  obtain ⟨h1, h2⟩ := h
  dsimp only at h1 h2
  have hst : st = 0 ∨ st = 1 ∨ st = 2 ∨ st = 3 ∨ st = 4 ∨ st = 5 ∨ st = 6 := by omega
  by_cases c0 : c = 0
  · subst c0
    rcases hst with rfl | rfl | rfl | rfl | rfl | rfl | rfl <;> cases b <;> cases v <;> cases ec <;> cases f <;>
      simp [netlist, absMarkers, Markers.out, markFsm]
  · by_cases c1 : c = 1
    · subst c1
      rcases hst with rfl | rfl | rfl | rfl | rfl | rfl | rfl <;> cases b <;> cases v <;> cases ec <;> cases f <;>
        simp [netlist, absMarkers, Markers.out, markFsm]
    · rcases hst with rfl | rfl | rfl | rfl | rfl | rfl | rfl <;> cases b <;> cases v <;> cases ec <;> cases f <;>
        simp [netlist, absMarkers, Markers.out, markFsm, c0, c1]

end Netlist.Beta
