/- Property theorems C51: consecutive frames through the beta core. -/
import Verif.Props.Beta

set_option autoImplicit false

namespace Props
open Spec Model

/-- `NormalFrames c allowed n hist`: the run `hist` from power-up consists of `n` frames that ended normally (end
marker FFFF), each followed by its reset cycle.  Within a frame no end-flagged word is given before its last cycle. -/
inductive NormalFrames (c : CoreCfg) (allowed : Nat) : Nat → List CamIn → Prop
  | zero : NormalFrames c allowed 0 []
  | next {n : Nat} {hist ins : List CamIn} {i r : CamIn} (h : NormalFrames c allowed n hist)
      (hno : ∀ x ∈ camGiven c allowed (camRun c allowed (Cam.init c) hist) ins, x.2 = false)
      (hw : (0xFFFF, true) ∈ camGiven c allowed (camRun c allowed (Cam.init c) hist) (ins ++ [i])) :
      NormalFrames c allowed (n + 1) (hist ++ (ins ++ [i]) ++ [r])

/-- When a whole frame is accepted the core is not ready. -/
theorem full_not_ready {c : CoreCfg} {T : Table} (h : CamSetup c T) {s : Cam} {acc : List Nat}
    {D : List (Nat × Bool)} {P : List Packet} {M G : List (Nat × Bool)} {forced : Prop}
    (hi : Cam.Inv c T s acc D P M G forced) (hl : acc.length = c.int1.W * c.int1.H) : s.nready = true := by
  obtain ⟨k, hc⟩ := hi.core
  have hlen := Int3.inv_len hc
  have hdv := h.core.legal.frame.dvd
  have hps : 0 < c.int1.ps := by
    rcases h.core.legal.frame.pixels with e | e | e <;> omega
  have hk : k = c.int1.W / c.int1.ps * c.int1.H := by
    have : c.int1.ps * k = c.int1.ps * (c.int1.W / c.int1.ps * c.int1.H) := by
      rw [← hlen, hl, ← Nat.mul_assoc, Nat.mul_div_cancel' hdv]
    exact Nat.eq_of_mul_eq_mul_left hps this
  obtain ⟨its, recv, h2, _⟩ := hc
  have := h2.endN
  rw [hk] at this
  simp only [decide_true] at this
  simp [Cam.nready, Int3.nready, Int2.nready, this]

/-- After `n` normal frames: the core is as after a reset and has accepted exactly `n` times `W*H` pixels. -/
theorem frames_state {c : CoreCfg} {T : Table} (h : CamSetup c T) (allowed : Nat) {n : Nat} {hist : List CamIn}
    (hn : NormalFrames c allowed n hist) (hwf : CamWf c hist) :
    CamAfterReset c (camRun c allowed (Cam.init c) hist) ∧
    (camAccepted c allowed (Cam.init c) hist).length = n * (c.int1.W * c.int1.H) := by
  induction hn with
  | zero => exact ⟨init_afterReset c, by simp [camAccepted]⟩
  | @next n hist ins i r hf hno hw ih =>
    obtain ⟨h1, h2⟩ := ih (fun j hj => hwf j (by simp [hj]))
    have hwf1 : CamWf c (ins ++ [i]) := fun j hj => hwf j (by
      simp only [List.mem_append] at hj ⊢; exact Or.inl (Or.inr hj))
    obtain ⟨D, P, M, forced, hi⟩ := frame_run_last h allowed ins i h1 hwf1 hno
    obtain ⟨body, _, _, hb⟩ := C30_frame h allowed h1 ins i hwf1 hno 0xFFFF hw
    have hlen : (camAccepted c allowed (camRun c allowed (Cam.init c) hist) (ins ++ [i])).length = c.int1.W * c.int1.H := by
      rcases hb with ⟨_, hl, _⟩ | ⟨hx, _⟩
      · exact hl
      · simp at hx
    have hr : (camRun c allowed (camRun c allowed (Cam.init c) hist) (ins ++ [i])).resetOut = true :=
      ((C28_first_pulse c allowed h1 ins hno).2 i).2 ⟨_, hw⟩
    have hnr := full_not_ready h hi hlen
    constructor
    · rw [camRun_append, camRun_append]
      exact (reach_step h allowed ⟨_, _, _, _, _, _, hi⟩ r (hwf r (by simp))).2 hr
    · rw [camAccepted_append, camAccepted_append, List.length_append, List.length_append, h2, hlen, camRun_append]
      simp [camAccepted, hnr, Nat.add_mul]

/-- C51: over any number of consecutive frames, all of which end normally, with any schedule: when the `n+1`-st
frame's end marker is given, exactly `(n+1)*W*H` pixels have been accepted since power-up, and what a receiver
decodes from the words of that frame are the pixels number `n*W*H` to `(n+1)*W*H-1` of all accepted ones: no
pixel is lost, duplicated or moved to another frame, also not in the reset cycles between frames. -/
theorem C51_nth_frame {c : CoreCfg} {T : Table} (h : CamSetup c T) (hbd : c.int1.bd ≤ 15) (allowed : Nat) {n : Nat}
    {hist : List CamIn} (hn : NormalFrames c allowed n hist) (ins : List CamIn) (i : CamIn)
    (hwf : CamWf c (hist ++ (ins ++ [i])))
    (hno : ∀ x ∈ camGiven c allowed (camRun c allowed (Cam.init c) hist) ins, x.2 = false)
    (hw : (0xFFFF, true) ∈ camGiven c allowed (camRun c allowed (Cam.init c) hist) (ins ++ [i])) :
    let words := camGiven c allowed (camRun c allowed (Cam.init c) hist) (ins ++ [i])
    let all := camAccepted c allowed (Cam.init c) (hist ++ (ins ++ [i]))
    all.length = (n + 1) * (c.int1.W * c.int1.H) ∧
    ∃ pad, decode T (c.int1.bd + 1) c.int1.bd c.int1.W (c.int1.W * c.int1.H) []
      (byteBits (unstuff (wordBytes ((words.drop 8).take (words.length - 16))))) =
        some (all.drop (n * (c.int1.W * c.int1.H)), pad) := by
  intro words all
  obtain ⟨h1, h2⟩ := frames_state h allowed hn (fun j hj => hwf j (by simp [hj]))
  have hwf1 : CamWf c (ins ++ [i]) := fun j hj => hwf j (by
    simp only [List.mem_append] at hj ⊢; exact Or.inr hj)
  have e : all = camAccepted c allowed (Cam.init c) hist ++
      camAccepted c allowed (camRun c allowed (Cam.init c) hist) (ins ++ [i]) := camAccepted_append ..
  obtain ⟨body, _, _, hb⟩ := C30_frame h allowed h1 ins i hwf1 hno 0xFFFF hw
  have hlen : (camAccepted c allowed (camRun c allowed (Cam.init c) hist) (ins ++ [i])).length = c.int1.W * c.int1.H := by
    rcases hb with ⟨_, hl, _⟩ | ⟨hx, _⟩
    · exact hl
    · simp at hx
  refine ⟨by rw [e, List.length_append, h2, hlen, Nat.add_mul, Nat.one_mul], ?_⟩
  rw [e, List.drop_left' h2]
  exact C30_image_recovered h hbd allowed h1 ins i hwf1 hno hw

-- The hypotheses are met: the tiny configuration's run of 51 cycles is one normal frame with its reset cycle, and
-- a second one follows.
set_option maxRecDepth 20000 in
example : NormalFrames tinyCam 1000 1 ([] ++ (tinyCamIns ++ [⟨[5], true, false⟩]) ++ [⟨[5], true, false⟩]) ∧
    (∀ x ∈ camGiven tinyCam 1000 (camRun tinyCam 1000 (Cam.init tinyCam)
      ([] ++ (tinyCamIns ++ [⟨[5], true, false⟩]) ++ [⟨[5], true, false⟩])) tinyCamIns, x.2 = false) ∧
    (0xFFFF, true) ∈ camGiven tinyCam 1000 (camRun tinyCam 1000 (Cam.init tinyCam)
      ([] ++ (tinyCamIns ++ [⟨[5], true, false⟩]) ++ [⟨[5], true, false⟩])) (tinyCamIns ++ [⟨[5], true, false⟩]) := by
  refine ⟨NormalFrames.next .zero ?_ ?_, ?_, ?_⟩ <;> decide +kernel

end Props
