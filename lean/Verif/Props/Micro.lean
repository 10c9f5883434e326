/- C32: the micro core (micro_integration.py) never ends a frame normally. -/
import Verif.Props.Beta

set_option autoImplicit false

namespace Props
open Spec Model

/-- The micro core over a run of cycles. -/
def microRuns (c : CoreCfg) (allowed : Nat) : Cam → List CamIn → Cam
  | s, [] => s
  | s, i :: r => microRuns c allowed (s.microStep c allowed i) r

/-- The (word, end flag) pairs the micro core transfers: cycles with `valid_out` and not `busy_in`. -/
def microGiven (c : CoreCfg) (allowed : Nat) : Cam → List CamIn → List (Nat × Bool)
  | _, [] => []
  | s, i :: r =>
    (if (s.out i.busy).valid && !i.busy then [((s.out i.busy).data, (s.out i.busy).endd)] else []) ++
      microGiven c allowed (s.microStep c allowed i) r

/-- The pixel groups the micro core accepts. -/
def microAccepted (c : CoreCfg) (allowed : Nat) : Cam → List CamIn → List Nat
  | _, [] => []
  | s, i :: r =>
    (if i.valid && !s.nready then i.pixels else []) ++ microAccepted c allowed (s.microStep c allowed i) r

/-- No end flag is anywhere behind the packer. -/
structure NoEnd (s : Cam) : Prop where
  f1 : s.fix1.endd = false ∧ s.fix1.regEnd = false
  f2 : s.fix2.endd = false ∧ s.fix2.regEnd = false ∧ s.fix2.endReg = false
  f2s : s.fix2.fsm = .normal ∨ s.fix2.fsm = .clean
  mks : s.marks.endCond = false ∧ s.marks.fsm ≠ .endMarker ∧ s.marks.fsm ≠ .doneNormal

theorem noEnd_reset (c : CoreCfg) (m : Kept) : NoEnd (Cam.reset c m) :=
  ⟨⟨rfl, rfl⟩, ⟨rfl, rfl, rfl⟩, Or.inl rfl, ⟨rfl, by simp [Cam.reset, Markers.init], by simp [Cam.reset, Markers.init]⟩⟩

theorem noEnd_init (c : CoreCfg) : NoEnd (Cam.init c) :=
  ⟨⟨rfl, rfl⟩, ⟨rfl, rfl, rfl⟩, Or.inl rfl, ⟨rfl, by simp [Cam.init, Markers.init], by simp [Cam.init, Markers.init]⟩⟩

theorem fix1_noEnd {f : Fix1} (h : f.endd = false ∧ f.regEnd = false) (d : Nat) (v b : Bool) :
    (f.step d v false b).endd = false ∧ (f.step d v false b).regEnd = false := by
  obtain ⟨h1, h2⟩ := h
  simp only [Fix1.step, Fix1.main]
  repeat' split
  all_goals simp_all

theorem normalLogic_noEnd (s r : Fix2) (d k : Nat) (v toReg : Bool)
    (h : (r.endd = false ∧ r.regEnd = false ∧ r.endReg = false) ∧ (r.fsm = .normal ∨ r.fsm = .clean)) :
    (((s.normalLogic r ⟨d, k, false⟩ v toReg).endd = false ∧ (s.normalLogic r ⟨d, k, false⟩ v toReg).regEnd = false ∧
      (s.normalLogic r ⟨d, k, false⟩ v toReg).endReg = false) ∧
     ((s.normalLogic r ⟨d, k, false⟩ v toReg).fsm = .normal ∨ (s.normalLogic r ⟨d, k, false⟩ v toReg).fsm = .clean)) := by
  obtain ⟨⟨h1, h2, h3⟩, h4⟩ := h
  simp only [Fix2.normalLogic]
  cases toReg <;> simp only [Bool.false_eq_true, if_false, if_true]
  all_goals
    repeat' split
    all_goals simp_all

theorem fix2_noEnd {f : Fix2} (h : f.endd = false ∧ f.regEnd = false ∧ f.endReg = false)
    (hs : f.fsm = .normal ∨ f.fsm = .clean) (d k : Nat) (v b : Bool) :
    (((f.step ⟨d, k, false⟩ v b).endd = false ∧ (f.step ⟨d, k, false⟩ v b).regEnd = false ∧
      (f.step ⟨d, k, false⟩ v b).endReg = false) ∧
     ((f.step ⟨d, k, false⟩ v b).fsm = .normal ∨ (f.step ⟨d, k, false⟩ v b).fsm = .clean)) := by
  rcases hs with hs | hs
  · simp only [Fix2.step, hs, Fix2.stepNormal]
    have key : ∀ r : Fix2, ((r.endd = false ∧ r.regEnd = false ∧ r.endReg = false) ∧ (r.fsm = .normal ∨ r.fsm = .clean)) →
        let q := if !f.oBusy then f.normalLogic r ⟨d, k, false⟩ v true else r
        ((q.endd = false ∧ q.regEnd = false ∧ q.endReg = false) ∧ (q.fsm = .normal ∨ q.fsm = .clean)) := by
      intro r hr
      dsimp only
      split
      · exact normalLogic_noEnd f r d k v true hr
      · exact hr
    apply key
    split
    · split
      · exact normalLogic_noEnd f _ d k v false ⟨h, Or.inl rfl⟩
      · exact ⟨⟨h.2.1, h.2.1, h.2.2⟩, Or.inl rfl⟩
    · split
      · exact normalLogic_noEnd f _ d k v false ⟨h, Or.inl rfl⟩
      · split
        · exact ⟨h, Or.inl rfl⟩
        · exact ⟨h, Or.inl hs⟩
  · obtain ⟨h1, h2, h3⟩ := h
    simp only [Fix2.step, hs, Fix2.stepClean, Fix2.cleanLogic, h3]
    repeat' split
    all_goals simp_all

theorem marks_noEnd {s : Markers} (h : s.endCond = false ∧ s.fsm ≠ .endMarker ∧ s.fsm ≠ .doneNormal)
    {i : MarkIn} (hi : i.endd = false) :
    (s.step i).endCond = false ∧ (s.step i).fsm ≠ .endMarker ∧ (s.step i).fsm ≠ .doneNormal := by
  obtain ⟨f, n, e⟩ := s
  obtain ⟨h1, h2, h3⟩ := h
  dsimp only at h1 h2 h3
  subst h1
  cases f <;> simp only [Markers.step, hi, Bool.and_false] <;> (repeat' split) <;> simp_all

theorem noEnd_step {c : CoreCfg} {s : Cam} (h : NoEnd s) (allowed : Nat) (i : CamIn) :
    NoEnd (s.microStep c allowed i) := by
  unfold Cam.microStep
  split
  · exact noEnd_reset c _
  · have h2 := fix2_noEnd h.f2 h.f2s s.fix1.data s.fix1.ctr s.fix1.valid i.busy
    exact ⟨fix1_noEnd h.f1 _ _ _, h2.1, h2.2, marks_noEnd h.mks h.f2.1⟩

theorem noEnd_run {c : CoreCfg} (allowed : Nat) (ins : List CamIn) :
    ∀ {s : Cam}, NoEnd s → NoEnd (microRuns c allowed s ins) := by
  induction ins with
  | nil => intro s h; exact h
  | cons i r ih => intro s h; exact ih (noEnd_step h allowed i)

theorem noEnd_out {s : Cam} (h : NoEnd s) (busy : Bool) (he : (s.out busy).endd = true) :
    (s.out busy).data = 0xFFFE ∧ (s.marks.fsm = .forceMarker ∨ s.marks.fsm = .doneForce) := by
  obtain ⟨h1, h2, h3⟩ := h.mks
  simp only [Cam.out] at he ⊢
  cases hf : s.marks.fsm <;> simp only [Markers.out, hf] at he ⊢ <;> simp_all
  · revert he; split <;> simp
  · revert he; split <;> simp

/-- C32: every end-flagged word of the micro core, in any history of any length including automatic
resets, is a forced-end marker FFFE; no frame ever ends with a normal end marker. -/
theorem C32_only_forced_ends (c : CoreCfg) (allowed : Nat) (ins : List CamIn) :
    ∀ w, (w, true) ∈ microGiven c allowed (Cam.init c) ins → w = 0xFFFE := by
  have key : ∀ (ins : List CamIn) (s : Cam), NoEnd s → ∀ w, (w, true) ∈ microGiven c allowed s ins → w = 0xFFFE := by
    intro ins
    induction ins with
    | nil => intro s _ w hw; simp [microGiven] at hw
    | cons i r ih =>
      intro s hs w hw
      simp only [microGiven, List.mem_append] at hw
      rcases hw with hw | hw
      · split at hw
        · simp only [List.mem_singleton, Prod.mk.injEq] at hw
          rw [hw.1]; exact (noEnd_out hs i.busy hw.2.symm).1
        · simp at hw
      · exact ih _ (noEnd_step hs allowed i) w hw
  exact key ins _ (noEnd_init c)

/-- How far the forced end has come after `n` cycles from a reset without further reset. -/
structure EarlyEnd (allowed n : Nat) (s : Cam) : Prop where
  noEnd : NoEnd s
  rst : s.resetOut = false
  idl : s.fend.fsm = .idle → s.fend.counter = 0
  cnt : s.fend.fsm = .counting → s.fend.counter + 1 ≤ n
  fin : s.fend.fsm = .fin → allowed + 2 ≤ n
  fend : s.fend.fend = true → allowed + 3 ≤ n
  fendf : s.fend.fend = true → s.fend.fsm = .fin
  mks : s.marks.fsm = .forceMarker ∨ s.marks.fsm = .doneForce → allowed + 4 ≤ n

theorem earlyEnd_out {allowed n : Nat} {s : Cam} (h : EarlyEnd allowed n s) (hn : n ≤ allowed + 3) (busy : Bool) :
    (s.out busy).endd = false := by
  cases he : (s.out busy).endd with
  | false => rfl
  | true => have := h.mks (noEnd_out h.noEnd busy he).2; omega

theorem earlyEnd_step {c : CoreCfg} {allowed n : Nat} {s : Cam} (h : EarlyEnd allowed n s)
    (hn : n ≤ allowed + 3) (i : CamIn) : EarlyEnd allowed (n + 1) (s.microStep c allowed i) := by
  have hne := noEnd_step (c := c) h.noEnd allowed i
  have ho := earlyEnd_out h hn i.busy
  have hr := h.rst
  simp only [Cam.microStep, hr, Bool.false_eq_true, if_false] at hne ⊢
  have h2 := h.cnt
  have h3 := h.fin
  have h4 := h.fend
  have h5 := h.fendf
  have h6 := h.mks
  refine ⟨hne, ?_, ?_, ?_, ?_, ?_, ?_, ?_⟩
  · simp [Cam.microRun, Cam.resetNext, AutoReset.next, ho, hr]
  · simp only [Cam.microRun]
    cases hf : s.fend.fsm <;> simp only [ForceEnd.step, hf]
    · have := h.idl hf
      split <;> simp_all
    · split <;> intro hc <;> cases hc
    · intro hc; cases hc
  · simp only [Cam.microRun]
    cases hf : s.fend.fsm <;> simp only [ForceEnd.step, hf]
    · have := h.idl hf
      split <;> simp_all
    · intro hc
      have := h2 hf
      have := Nat.mod_le (s.fend.counter + 1) (2 ^ 25)
      omega
    · simp [hf]
  · simp only [Cam.microRun]
    cases hf : s.fend.fsm <;> simp only [ForceEnd.step, hf]
    · split <;> simp_all
    · have := h2 hf
      split
      · intro _; omega
      · intro hc; cases hc
    · intro _; have := h3 hf; omega
  · simp only [Cam.microRun]
    cases hf : s.fend.fsm <;> simp only [ForceEnd.step, hf]
    · intro hc
      have : s.fend.fend = true := by revert hc; split <;> simp
      have := h5 this
      rw [hf] at this; cases this
    · intro hc; have := h5 hc; rw [hf] at this; cases this
    · intro _; have := h3 hf; omega
  · simp only [Cam.microRun]
    cases hf : s.fend.fsm <;> simp only [ForceEnd.step, hf]
    · intro hc
      have : s.fend.fend = true := by revert hc; split <;> simp
      have := h5 this
      rw [hf] at this; cases this
    · intro hc; have := h5 hc; rw [hf] at this; cases this
    · simp [hf]
  · simp only [Cam.microRun]
    intro hm
    by_cases hfe : s.fend.fend = true
    · have := h4 hfe; omega
    · have hfi : (s.markIn i.busy).force = false := by
        show s.fend.fend = false
        simpa using hfe
      generalize s.markIn i.busy = mi at *
      have hec := h.noEnd.mks.1
      have : s.marks.fsm = .forceMarker ∨ s.marks.fsm = .doneForce := by
        revert hm
        cases hf : s.marks.fsm <;> simp only [Markers.step, hf, hfi, hec] <;> (repeat' split) <;> simp
      have := h6 this
      omega

/-- C32: in the first `allowed + 3` cycles after power-up the micro core gives no end-flagged word,
however much of the frame has been coded: without the forced end no frame ends. -/
theorem C32_no_end_before_forced_end (c : CoreCfg) (allowed : Nat) (ins : List CamIn)
    (hl : ins.length ≤ allowed + 4) : ∀ x ∈ microGiven c allowed (Cam.init c) ins, x.2 = false := by
  have key : ∀ (ins : List CamIn) (n : Nat) (s : Cam), EarlyEnd allowed n s → n + ins.length ≤ allowed + 4 →
      ∀ x ∈ microGiven c allowed s ins, x.2 = false := by
    intro ins
    induction ins with
    | nil => intro n s _ _ w hw; simp [microGiven] at hw
    | cons i r ih =>
      intro n s hs hn w hw
      simp only [List.length_cons] at hn
      simp only [microGiven, List.mem_append] at hw
      rcases hw with hw | hw
      · split at hw
        · rw [List.mem_singleton] at hw
          rw [hw]; exact earlyEnd_out hs (by omega) i.busy
        · simp at hw
      · exact ih _ _ (earlyEnd_step hs (by omega) i) (by omega) w hw
  refine key ins 0 _ ⟨noEnd_init c, rfl, ?_, ?_, ?_, ?_, ?_, ?_⟩ (by omega) <;> simp [Cam.init, ForceEnd.init, Markers.init]

/-- C32: the micro core also loses frame data, even with a consumer that is always ready: its stuffing
stage is told the consumer's `busy_in`, not the marker stage's, so words that it presents while the
start marker is sent are dropped.  Two different frames, both accepted completely, give the same words
up to and including the (forced) end. -/
theorem C32_micro_loses_data : ∃ (c : CoreCfg) (allowed : Nat) (a b : List CamIn),
    CamSetup c defaultTable ∧ CamWf c a ∧ CamWf c b ∧ (∀ i ∈ a ++ b, i.busy = false) ∧
    (microAccepted c allowed (Cam.init c) a).length = c.int1.W * c.int1.H ∧
    (microAccepted c allowed (Cam.init c) b).length = c.int1.W * c.int1.H ∧
    microAccepted c allowed (Cam.init c) a ≠ microAccepted c allowed (Cam.init c) b ∧
    microGiven c allowed (Cam.init c) a = microGiven c allowed (Cam.init c) b ∧
    (0xFFFE, true) ∈ microGiven c allowed (Cam.init c) a := by
  refine ⟨tinyCam, 50, List.replicate 70 ⟨[5], true, false⟩, List.replicate 70 ⟨[6], true, false⟩,
    ⟨default_setup (by decide) rfl, rfl, default_long _ (by decide)⟩, ?_, ?_, ?_, ?_⟩
  · intro i hi _; rw [List.eq_of_mem_replicate hi]; decide
  · intro i hi _; rw [List.eq_of_mem_replicate hi]; decide
  · intro i hi
    rcases List.mem_append.1 hi with hi | hi <;> rw [List.eq_of_mem_replicate hi]
  · set_option maxRecDepth 20000 in decide +kernel

end Props
