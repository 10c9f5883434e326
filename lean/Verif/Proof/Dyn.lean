/- Cores whose configuration changes from cycle to cycle: as long as no pixel was accepted since the reset the
configuration has no effect. -/
import Verif.Model.Config
import Verif.Props.Beta

set_option autoImplicit false

namespace Props
open Spec Model

/-- One cycle: frame width and height, table, cycle budget, and the inputs. -/
structure DynIn where
  W : Nat
  H : Nat
  mem : List Nat
  allowed : Nat
  cam : CamIn

/-- One step with this cycle's configuration. -/
def dynStep (c : CoreCfg) (s : Cam) (i : DynIn) : Cam := s.betaStep (c.withRegs i.W i.H i.mem) i.allowed i.cam

def dynRun (c : CoreCfg) : Cam → List DynIn → Cam
  | s, [] => s
  | s, i :: r => dynRun c (dynStep c s i) r

def dynAccepted (c : CoreCfg) : Cam → List DynIn → List Nat
  | _, [] => []
  | s, i :: r => (if i.cam.valid && !s.nready then i.cam.pixels else []) ++ dynAccepted c (dynStep c s i) r

def dynGiven (c : CoreCfg) : Cam → List DynIn → List (Nat × Bool)
  | _, [] => []
  | s, i :: r => (if (s.out i.cam.busy).valid && !i.cam.busy then [((s.out i.cam.busy).data, (s.out i.cam.busy).endd)] else []) ++
      dynGiven c (dynStep c s i) r

/-- No pixel is taken in any of these cycles. -/
def DynQuiet (c : CoreCfg) : Cam → List DynIn → Prop
  | _, [] => True
  | s, i :: r => (i.cam.valid && !s.nready) = false ∧ DynQuiet c (dynStep c s i) r

theorem dynRun_append (c : CoreCfg) (x y : List DynIn) : ∀ s, dynRun c s (x ++ y) = dynRun c (dynRun c s x) y := by
  induction x with
  | nil => intro s; rfl
  | cons i x ih => intro s; exact ih _

theorem dynGiven_append (c : CoreCfg) (x y : List DynIn) :
    ∀ s, dynGiven c s (x ++ y) = dynGiven c s x ++ dynGiven c (dynRun c s x) y := by
  induction x with
  | nil => intro s; rfl
  | cons i x ih => intro s; simp [dynGiven, dynRun, ih]

theorem dynAccepted_append (c : CoreCfg) (x y : List DynIn) :
    ∀ s, dynAccepted c s (x ++ y) = dynAccepted c s x ++ dynAccepted c (dynRun c s x) y := by
  induction x with
  | nil => intro s; rfl
  | cons i x ih => intro s; simp [dynAccepted, dynRun, ih]

/-- No pixel on its way to the table, row counters and forced end not started. -/
structure CamQuiet (s : Cam) : Prop where
  sig : s.core.int2.int1.signals.fsm = .idle
  pred : s.core.int2.int1.predictor.valid = false
  diff : s.core.int2.int1.difference.valid = false
  norm : s.core.int2.int1.normalize.valid = false
  enc : s.core.int2.int1.encode.validLate = false
  fend : s.fend.fsm = .idle

theorem camQuiet_reset (c : CoreCfg) (m : Kept) : CamQuiet (Cam.reset c m) := by
  refine ⟨rfl, ?_, rfl, rfl, rfl, rfl⟩
  simp only [Cam.reset, Int3.reset, Int2.reset, Int1.reset, Predictor.init]
  split <;> rfl

theorem camQuiet_step (c : CoreCfg) {s : Cam} (h : CamQuiet s) (a : Nat) (i : CamIn) (hq : (i.valid && !s.nready) = false) :
    CamQuiet (s.betaRun c a i) := by
  obtain ⟨h1, h2, h3, h4, h5, h6⟩ := h
  have hq' : (i.valid && !s.core.int2.nready) = false := hq
  have hq2 : (i.valid && !s.core.nready) = false := hq
  refine ⟨?_, ?_, ?_, ?_, ?_, ?_⟩
  · simp [Cam.betaRun, Int3.step, Int2.step, Int1.step, Signals.step, h1, hq']
  · simp only [Cam.betaRun, Int3.step, Int2.step, Int1.step, hq']
    cases s.core.int2.int1.predictor <;> rfl
  · simp [Cam.betaRun, Int3.step, Int2.step, Int1.step, Difference.step, h2]
  · simp [Cam.betaRun, Int3.step, Int2.step, Int1.step, Normalize.step, h3]
  · simp [Cam.betaRun, Int3.step, Int2.step, Int1.step, Encode.step, h4]
  · simp [Cam.betaRun, ForceEnd.step, h6, hq2]

/-- In a quiet cycle a state that runs with any configuration stays similar to one that runs with a fixed one. -/
theorem camQuiet_sim (c : CoreCfg) {s t : Cam} (h : CamQuiet s) (hs : CamSim c s t) (W H : Nat) (mem : List Nat) (a a' : Nat) (i : CamIn)
    (hq : (i.valid && !s.nready) = false) :
    CamSim c (s.betaRun (c.withRegs W H mem) a i) (t.betaRun c a' i) := by
  have h1 := camSim_run hs a' i
  have hQ := camQuiet_step c h a' i hq
  have e : (s.betaRun (c.withRegs W H mem) a i) = { s.betaRun c a' i with core := { (s.betaRun c a' i).core with int2 :=
      { (s.betaRun c a' i).core.int2 with int1 := { (s.betaRun c a' i).core.int2.int1 with encode :=
      { (s.betaRun c a' i).core.int2.int1.encode with rpData := (s.betaRun (c.withRegs W H mem) a i).core.int2.int1.encode.rpData } } } } } := by
    obtain ⟨q1, q2, q3, q4, q5, q6⟩ := h
    have hq' : (i.valid && !s.core.int2.nready) = false := hq
    have hq2 : (i.valid && !s.core.nready) = false := hq
    simp [Cam.betaRun, Int3.step, Int2.step, Int1.step, Signals.step, ForceEnd.step, q1, q6, hq', hq2, CoreCfg.withRegs,
      Int1.out, Int1.mergeIn, Encode.step, Int2.out, CoreCfg.total, CoreCfg.csteps]
  rw [e]
  obtain ⟨⟨s1, s2, s3, s4, s5, s6⟩, s7⟩ := h1
  refine ⟨⟨?_, s2, s3, s4, s5, s6⟩, s7⟩
  obtain ⟨rp, hb, hr⟩ := s1
  refine ⟨rp, by rw [hb], fun hv => ?_⟩
  have : (s.betaRun c a' i).core.int2.int1.encode.validLate = true := hv
  rw [hQ.enc] at this
  cases this

theorem sim_given (c : CoreCfg) {s t : Cam} (h : CamSim c s t) (i : CamIn) :
    (if (s.out i.busy).valid && !i.busy then [((s.out i.busy).data, (s.out i.busy).endd)] else []) =
      (if (t.out i.busy).valid && !i.busy then [((t.out i.busy).data, (t.out i.busy).endd)] else []) := by
  rw [(camSim_out h i.busy).2]

theorem dyn_reset_flag (c : CoreCfg) {s : Cam} (i : DynIn) (h : s.resetOut = false)
    (hg : ∀ x ∈ (if (s.out i.cam.busy).valid && !i.cam.busy then [((s.out i.cam.busy).data, (s.out i.cam.busy).endd)] else []), x.2 = false) :
    (dynStep c s i).resetOut = false := by
  rw [dynStep, reset_flag _ _ _ _ h]
  cases hv : (s.out i.cam.busy).valid <;> cases hb : i.cam.busy <;> simp_all

/-- Two runs of similar states, one with changing and one with fixed configuration, over quiet cycles and then cycles
with the fixed configuration. -/
theorem dyn_static (c : CoreCfg) (a : Nat) (quiet frame : List DynIn) :
    ∀ {s t : Cam}, CamQuiet s → CamSim (c) s t → s.resetOut = false → DynQuiet c s quiet →
    (∀ i ∈ frame, c.withRegs i.W i.H i.mem = c ∧ i.allowed = a) →
    (∀ x ∈ dynGiven c s (quiet ++ frame).dropLast, x.2 = false) →
    dynGiven c s (quiet ++ frame) = camGiven c a t ((quiet ++ frame).map DynIn.cam) ∧
    dynAccepted c s (quiet ++ frame) = camAccepted c a t ((quiet ++ frame).map DynIn.cam) := by
  induction quiet with
  | nil =>
    have key : ∀ (frame : List DynIn) {s t : Cam}, CamSim c s t → s.resetOut = false →
        (∀ i ∈ frame, c.withRegs i.W i.H i.mem = c ∧ i.allowed = a) →
        (∀ x ∈ dynGiven c s frame.dropLast, x.2 = false) →
        dynGiven c s frame = camGiven c a t (frame.map DynIn.cam) ∧
        dynAccepted c s frame = camAccepted c a t (frame.map DynIn.cam) := by
      intro frame
      induction frame with
      | nil => intros; exact ⟨rfl, rfl⟩
      | cons i r ih =>
        intro s t hs hr hc hg
        have e1 := sim_given c hs i.cam
        have e2 := (camSim_out hs i.cam.busy).1
        cases r with
        | nil => simp only [dynGiven, camGiven, dynAccepted, camAccepted, List.map, e1, e2]; exact ⟨trivial, trivial⟩
        | cons j r =>
          simp only [List.dropLast_cons_of_ne_nil (List.cons_ne_nil j r), dynGiven, List.mem_append] at hg
          have hr' := dyn_reset_flag c i hr (fun x hx => hg x (Or.inl hx))
          have hci := hc i (by simp)
          have hrt : t.resetOut = false := by rw [← hs.rest.2.2.2.2]; exact hr
          have hs' : CamSim c (dynStep c s i) (t.betaStep c a i.cam) := by
            simp only [dynStep, Cam.betaStep, hr, hrt, Bool.false_eq_true, if_false, hci.1, hci.2]
            exact camSim_run hs _ _
          obtain ⟨k1, k2⟩ := ih hs' hr' (fun k hk => hc k (by simp [hk])) (fun x hx => hg x (Or.inr hx))
          constructor
          · rw [dynGiven, List.map_cons, camGiven, k1, e1]
          · rw [dynAccepted, List.map_cons, camAccepted, k2, e2]
    intro s t _ hs hr _ hc hg
    exact key frame hs hr hc hg
  | cons i r ih =>
    intro s t hQ hs hr hq hc hg
    have e1 := sim_given c hs i.cam
    have e2 := (camSim_out hs i.cam.busy).1
    by_cases hne : r ++ frame = []
    · simp only [List.append_eq_nil_iff] at hne
      obtain ⟨rfl, rfl⟩ := hne
      simp only [List.append_nil, dynGiven, camGiven, dynAccepted, camAccepted, List.map, e1, e2]; exact ⟨trivial, trivial⟩
    · rw [List.cons_append, List.dropLast_cons_of_ne_nil hne] at hg
      simp only [dynGiven, List.mem_append] at hg
      have hr' := dyn_reset_flag c i hr (fun x hx => hg x (Or.inl hx))
      have hrt : t.resetOut = false := by rw [← hs.rest.2.2.2.2]; exact hr
      have hs' : CamSim c (dynStep c s i) (t.betaStep c a i.cam) := by
        simp only [dynStep, Cam.betaStep, hr, hrt, Bool.false_eq_true, if_false]
        exact camQuiet_sim c hQ hs _ _ _ _ _ _ hq.1
      have hQ' : CamQuiet (dynStep c s i) := by
        simp only [dynStep, Cam.betaStep, hr, Bool.false_eq_true, if_false]
        exact camQuiet_step _ hQ _ _ hq.1
      obtain ⟨k1, k2⟩ := ih hQ' hs' hr' hq.2 hc (fun x hx => hg x (Or.inr hx))
      constructor
      · rw [List.cons_append, dynGiven, List.map_cons, camGiven, k1, e1]
      · rw [List.cons_append, dynAccepted, List.map_cons, camAccepted, k2, e2]

end Props
