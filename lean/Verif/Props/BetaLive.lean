/- C50: the beta core always finishes a frame. -/
import Verif.Props.Beta
import Verif.Props.Liveness

set_option autoImplicit false

namespace Props
open Spec Model

/-- State of the beta core in cycle `t` of an infinite schedule. -/
def camAt (c : CoreCfg) (allowed : Nat) (s : Cam) (u : Nat → CamIn) : Nat → Cam
  | 0 => s
  | t + 1 => (camAt c allowed s u t).betaStep c allowed (u t)

theorem camAt_run (c : CoreCfg) (a : Nat) (s : Cam) (u : Nat → CamIn) (t : Nat) :
    camAt c a s u t = camRun c a s ((List.range t).map u) := by
  induction t with
  | zero => rfl
  | succ t ih => rw [List.range_succ, List.map_append, camRun_append, ← ih]; rfl

theorem camGiven_mem (c : CoreCfg) (a : Nat) (s : Cam) (u : Nat → CamIn) (t : Nat)
    (h1 : ((camAt c a s u t).out (u t).busy).valid = true) (h2 : (u t).busy = false)
    (h3 : ((camAt c a s u t).out (u t).busy).endd = true) :
    ∃ w, (w, true) ∈ camGiven c a s ((List.range (t + 1)).map u) := by
  refine ⟨((camAt c a s u t).out (u t).busy).data, ?_⟩
  rw [List.range_succ, List.map_append, camGiven_append, ← camAt_run, List.mem_append]
  right
  have hc : (((camAt c a s u t).out (u t).busy).valid && !(u t).busy) = true := by
    rw [Bool.and_eq_true]; exact ⟨h1, by rw [h2]; rfl⟩
  simp only [List.map_cons, List.map_nil, camGiven, List.append_nil]
  rw [if_pos hc, List.mem_singleton, Prod.mk.injEq]
  exact ⟨rfl, h3.symm⟩

section
variable {c : CoreCfg} {T : Table} {allowed : Nat} {s : Cam} {u : Nat → CamIn}

/-- No end-flagged word is ever given. -/
def NoEndGiven (c : CoreCfg) (allowed : Nat) (s : Cam) (u : Nat → CamIn) : Prop :=
  ∀ t, ((camAt c allowed s u t).out (u t).busy).valid = true → (u t).busy = false →
    ((camAt c allowed s u t).out (u t).busy).endd = false

theorem live_rst (hs : CamAfterReset c s) (hno : NoEndGiven c allowed s u) (t : Nat) :
    (camAt c allowed s u t).resetOut = false := by
  induction t with
  | zero => obtain ⟨m, _, rfl⟩ := hs; rfl
  | succ t ih =>
    have := C28_reset_pulse c allowed (camAt c allowed s u t) (u t)
    cases hr : (camAt c allowed s u (t + 1)).resetOut with
    | false => rfl
    | true =>
      obtain ⟨_, a, b, d⟩ := this.1 hr
      rw [hno t a b] at d; cases d

theorem live_step (hs : CamAfterReset c s) (hno : NoEndGiven c allowed s u) (t : Nat) :
    camAt c allowed s u (t + 1) = (camAt c allowed s u t).betaRun c allowed (u t) := by
  show Cam.betaStep _ _ _ _ = _
  simp [Cam.betaStep, live_rst hs hno t]

/-- What the encoder core sees. -/
def coreIns (c : CoreCfg) (allowed : Nat) (s : Cam) (u : Nat → CamIn) (t : Nat) : CoreIn :=
  ⟨(u t).pixels, (u t).valid, (camAt c allowed s u t).fix1.oBusy⟩

theorem live_core (hs : CamAfterReset c s) (hno : NoEndGiven c allowed s u) (t : Nat) :
    (camAt c allowed s u t).core = Int3.at c s.core (coreIns c allowed s u) t := by
  induction t with
  | zero => rfl
  | succ t ih => rw [live_step hs hno]; simp only [Cam.betaRun, Int3.at, ih, coreIns]

theorem core_afterReset (hs : CamAfterReset c s) : AfterReset c s.core := by
  obtain ⟨m, hm, rfl⟩ := hs; exact ⟨m, hm, rfl⟩

/-- If the first stuffing stage never blocks, the core delivers something. -/
theorem core_valid (h : CamSetup c T) (hs : CamAfterReset c s) (hno : NoEndGiven c allowed s u)
    (hwf : ∀ t, (u t).valid = true → (u t).pixels.length = c.int1.ps ∧ ∀ x ∈ (u t).pixels, x < 2 ^ c.int1.bd)
    (hprod : ∀ n, ∃ m, n ≤ m ∧ (u m).valid = true)
    (hb : ∀ t, (camAt c allowed s u t).fix1.oBusy = false)
    (hv : ∀ t, (camAt c allowed s u t).core.valid = false) : False := by
  obtain ⟨t, w, hw⟩ := C21_no_deadlock h.core (core_afterReset hs) (coreIns c allowed s u) hwf hprod
    (fun n => ⟨n, Nat.le_refl _, hb n⟩)
  have : ∀ t, Int3.delivered c s.core ((List.range t).map (coreIns c allowed s u)) = [] := by
    intro t
    induction t with
    | zero => rfl
    | succ t ih =>
      rw [List.range_succ, List.map_append, delivered_append, ih]
      have e : Int3.run c s.core ((List.range t).map (coreIns c allowed s u)) = (camAt c allowed s u t).core := by
        rw [live_core hs hno, Int3.at_run]; rfl
      rw [e]
      simp [Int3.delivered, hv t]
  rw [this] at hw
  simp at hw

/-- A pixel group is accepted at some time. -/
theorem some_accepted (h : CamSetup c T) (hs : CamAfterReset c s) (hno : NoEndGiven c allowed s u)
    (hwf : ∀ t, (u t).valid = true → (u t).pixels.length = c.int1.ps ∧ ∀ x ∈ (u t).pixels, x < 2 ^ c.int1.bd)
    (hprod : ∀ n, ∃ m, n ≤ m ∧ (u m).valid = true) :
    ∃ t, ((u t).valid && !(camAt c allowed s u t).core.nready) = true := by
  apply Classical.byContradiction
  intro hcon
  have hna : ∀ t, ((u t).valid && !(camAt c allowed s u t).core.nready) = false := by
    intro t
    cases hb : ((u t).valid && !(camAt c allowed s u t).core.nready) with
    | false => rfl
    | true => exact absurd ⟨t, hb⟩ hcon
  obtain ⟨m, hm, hse⟩ := hs
  have hs' : CamAfterReset c s := ⟨m, hm, hse⟩
  have hrun : ∀ t, Int3.run c s.core ((List.range t).map (coreIns c allowed s u)) = (camAt c allowed s u t).core := by
    intro t; rw [live_core hs' hno, Int3.at_run]; rfl
  have hacc : ∀ t, Int3.accepted c s.core ((List.range t).map (coreIns c allowed s u)) = [] := by
    intro t
    induction t with
    | zero => rfl
    | succ t ih =>
      rw [List.range_succ, List.map_append, accepted_append, ih, hrun]
      simp only [List.map_cons, List.map_nil, Int3.accepted, List.append_nil, List.nil_append]
      have : ((coreIns c allowed s u t).valid && !(camAt c allowed s u t).core.nready) = false := hna t
      rw [this]; rfl
  have hdel : ∀ t, Int3.delivered c s.core ((List.range t).map (coreIns c allowed s u)) = [] := by
    intro t
    obtain ⟨k, hi⟩ := Int3.run_ok h.core.ok ((List.range t).map (coreIns c allowed s u))
      (s := s.core) (by rw [hse]; exact Int3.inv_reset h.core.ok hm) (by
        intro i hi
        simp only [List.mem_map] at hi
        obtain ⟨n, _, rfl⟩ := hi
        exact hwf n)
    rw [hacc, List.append_nil, List.nil_append] at hi
    obtain ⟨f1, f2⟩ := Cam.core_facts h.core hi
    have hW : 0 < c.int1.W * c.int1.H := by
      refine Nat.pos_of_ne_zero fun h0 => ?_
      have := h.long [] (by rw [h0]; rfl)
      simp [encode] at this
    generalize Int3.delivered c s.core ((List.range t).map (coreIns c allowed s u)) = D at *
    cases D with
    | nil => rfl
    | cons x D =>
      exfalso
      cases hx : x.2 with
      | true =>
        have := (f2 x.1 (by rw [← hx]; simp)).1
        simp at this; omega
      | false =>
        have := f1.length_le
        simp [beforeEnd, hx, wordBits, encode, h.out, toBits_length] at this
  have hf : ∀ t, ((camAt c allowed s u t).fix1.oBusy = false ∧ (camAt c allowed s u t).fix1.regValid = false ∧
      (camAt c allowed s u t).fix1.valid = false) ∧ (camAt c allowed s u t).core.valid = false := by
    have hc : ∀ t, (camAt c allowed s u t).fix1.oBusy = false → (camAt c allowed s u t).core.valid = false := by
      intro t hb
      have := hdel (t + 1)
      rw [List.range_succ, List.map_append, delivered_append, hdel, hrun] at this
      cases hv : (camAt c allowed s u t).core.valid with
      | false => rfl
      | true =>
        have hb' : (coreIns c allowed s u t).busy = false := hb
        simp [Int3.delivered, hv, hb'] at this
    intro t
    induction t with
    | zero =>
      refine ⟨?_, hc 0 ?_⟩ <;> simp [camAt, hse, Cam.reset, Fix1.init]
    | succ t ih =>
      obtain ⟨⟨h1, h2, h3⟩, h4⟩ := ih
      have : (camAt c allowed s u (t + 1)).fix1.oBusy = false ∧ (camAt c allowed s u (t + 1)).fix1.regValid = false ∧
          (camAt c allowed s u (t + 1)).fix1.valid = false := by
        rw [live_step hs' hno]
        simp only [Cam.betaRun, h4]
        simp only [Fix1.step, Fix1.main, h1, h2, h3]
        repeat' split
        all_goals simp_all
      exact ⟨this, hc _ this.1⟩
  exact core_valid h hs' hno hwf hprod (fun t => (hf t).1.1) (fun t => (hf t).2)

theorem normalLogic_valid (s r : Fix2) (p : Packet) (v toReg : Bool) :
    (s.normalLogic r p v toReg).valid = r.valid := by
  simp only [Fix2.normalLogic]
  cases toReg <;> simp only [Bool.false_eq_true, if_false, if_true]
  all_goals
    split
    · split
      · split <;> (repeat' split) <;> rfl
      · repeat' split
        all_goals rfl
    · rfl

theorem fix2_takes (p : Packet) : (Fix2.init.step p true true).valid = true := by
  simp only [Fix2.step, Fix2.init, Fix2.stepNormal]
  simp only [Bool.not_false, Bool.not_true, Bool.false_eq_true, if_false, if_true]
  rw [normalLogic_valid, normalLogic_valid]

/-- The marker stage is offered a word at some time. -/
theorem some_word (h : CamSetup c T) (hs : CamAfterReset c s) (hno : NoEndGiven c allowed s u)
    (hwf : ∀ t, (u t).valid = true → (u t).pixels.length = c.int1.ps ∧ ∀ x ∈ (u t).pixels, x < 2 ^ c.int1.bd)
    (hprod : ∀ n, ∃ m, n ≤ m ∧ (u m).valid = true) :
    ∃ t, (camAt c allowed s u t).fix2.valid = true := by
  apply Classical.byContradiction
  intro hcon
  have hnv : ∀ t, (camAt c allowed s u t).fix2.valid = false := by
    intro t
    cases hb : (camAt c allowed s u t).fix2.valid with
    | false => rfl
    | true => exact absurd ⟨t, hb⟩ hcon
  have hm : ∀ t, (camAt c allowed s u t).marks.fsm = .idle ∧ (camAt c allowed s u t).fix2 = .init := by
    intro t
    induction t with
    | zero => obtain ⟨m, hm, rfl⟩ := hs; exact ⟨rfl, rfl⟩
    | succ t ih =>
      obtain ⟨h1, h2⟩ := ih
      have hn := hnv (t + 1)
      rw [live_step hs hno] at hn ⊢
      simp only [Cam.betaRun] at hn ⊢
      constructor
      · simp [Markers.step, h1, Cam.markIn, hnv t]
      · have ho : ((camAt c allowed s u t).out (u t).busy).oBusy = true := by
          simp [Cam.out, Markers.out, h1]
        rw [h2, ho] at hn ⊢
        generalize (camAt c allowed s u t).fix1.out = p at *
        cases hv : (camAt c allowed s u t).fix1.valid with
        | false => rfl
        | true =>
          rw [hv] at hn
          exfalso
          rw [fix2_takes] at hn; cases hn
  have hf : ∀ t, (camAt c allowed s u t).fix1.oBusy = false ∧ (camAt c allowed s u t).fix1.regValid = false := by
    intro t
    induction t with
    | zero => obtain ⟨m, hm, rfl⟩ := hs; exact ⟨rfl, rfl⟩
    | succ t ih =>
      obtain ⟨h1, h2⟩ := ih
      rw [live_step hs hno]
      simp only [Cam.betaRun, (hm t).2, Fix2.init]
      simp [Fix1.step, Fix1.main, h1]
  have hv : ∀ t, (camAt c allowed s u t).fix1.valid = false := by
    intro t
    have hn := hnv (t + 1)
    rw [live_step hs hno] at hn
    simp only [Cam.betaRun] at hn
    have ho : ((camAt c allowed s u t).out (u t).busy).oBusy = true := by
      simp [Cam.out, Markers.out, (hm t).1]
    rw [(hm t).2, ho] at hn
    cases hv : (camAt c allowed s u t).fix1.valid with
    | false => rfl
    | true =>
      rw [hv] at hn
      exfalso
      rw [fix2_takes] at hn; cases hn
  refine core_valid h hs hno hwf hprod (fun t => (hf t).1) (fun t => ?_)
  have hn := hv (t + 1)
  rw [live_step hs hno] at hn
  simp only [Cam.betaRun, (hm t).2, Fix2.init] at hn
  simpa [Fix1.step, Fix1.main, (hf t).1, (hf t).2] using hn

/-- The forced end is eventually raised for good. -/
theorem force_raised (h : CamSetup c T) (ha : allowed < 2 ^ 24) (hs : CamAfterReset c s) (hno : NoEndGiven c allowed s u)
    (hwf : ∀ t, (u t).valid = true → (u t).pixels.length = c.int1.ps ∧ ∀ x ∈ (u t).pixels, x < 2 ^ c.int1.bd)
    (hprod : ∀ n, ∃ m, n ≤ m ∧ (u m).valid = true) :
    ∃ N, ∀ t, N ≤ t → (camAt c allowed s u t).fend.fend = true := by
  have hrun : ∀ t n, (camAt c allowed s u (t + n)).fend = runForce allowed (camAt c allowed s u t).fend
      ((List.range' t n).map fun k => (u k).valid && !(camAt c allowed s u k).core.nready) := by
    intro t n
    induction n generalizing t with
    | zero => rfl
    | succ n ih =>
      rw [show t + (n + 1) = t + 1 + n by omega, ih (t + 1), List.range'_succ, List.map_cons]
      simp only [runForce]
      rw [live_step hs hno]; rfl
  obtain ⟨t, ht⟩ := some_accepted h hs hno hwf hprod
  have hst : ∀ t, ((camAt c allowed s u t).fend.fsm = .idle → (camAt c allowed s u t).fend = .init) ∧
      ((camAt c allowed s u t).fend.fsm = .counting → (camAt c allowed s u t).fend.fend = false ∧
        (camAt c allowed s u t).fend.counter ≤ allowed) := by
    intro t
    induction t with
    | zero => obtain ⟨m, hm, rfl⟩ := hs; exact ⟨fun _ => rfl, by simp [camAt, Cam.reset, ForceEnd.init]⟩
    | succ t ih =>
      rw [live_step hs hno]
      simp only [Cam.betaRun]
      generalize ((u t).valid && !(camAt c allowed s u t).core.nready) = v
      generalize (camAt c allowed s u t).fend = f at *
      obtain ⟨fs, n, fe⟩ := f
      cases fs
      · have := ih.1 rfl
        rw [this]
        cases v <;> simp [ForceEnd.step, ForceEnd.init]
      · have := ih.2 rfl
        simp only [ForceEnd.step] at *
        refine ⟨by split <;> simp, ?_⟩
        split
        · simp
        · intro _
          refine ⟨this.1, ?_⟩
          have := Nat.mod_le (n + 1) (2 ^ 25)
          omega
      · simp [ForceEnd.step]
  have hone : ∃ t, (camAt c allowed s u t).fend.fsm ≠ .idle := by
    refine ⟨t + 1, ?_⟩
    rw [live_step hs hno]
    simp only [Cam.betaRun, ht, ForceEnd.step]
    split
    · simp
    · split <;> simp
    · rename_i hf; simp [hf]
  obtain ⟨t, ht⟩ := hone
  cases hf : (camAt c allowed s u t).fend.fsm with
  | idle => exact absurd hf ht
  | counting =>
    obtain ⟨h1, h2⟩ := (hst t).2 hf
    refine ⟨t + allowed + 2, fun k hk => ?_⟩
    rw [show k = t + (k - t) by omega, hrun, force_counting allowed ha _ _ hf h1 h2]
    simp; omega
  | fin =>
    refine ⟨t + 1, fun k hk => ?_⟩
    have : (camAt c allowed s u (t + 1)).fend.fend = true := by
      rw [live_step hs hno]
      simp [Cam.betaRun, ForceEnd.step, hf]
    have hmono : ∀ n, (camAt c allowed s u (t + 1 + n)).fend.fend = true := by
      intro n
      induction n with
      | zero => exact this
      | succ n ih =>
        rw [← Nat.add_assoc, live_step hs hno]
        exact C27_stays _ _ _ ih
    rw [show k = t + 1 + (k - (t + 1)) by omega]
    exact hmono _

/-- How far the marker stage is from done. -/
def markRank (m : Markers) : Nat :=
  match m.fsm with
  | .idle => 100
  | .startMarker => 50 + m.counter
  | .frame => 40
  | .endMarker => m.counter
  | .forceMarker => m.counter
  | .doneNormal => 0
  | .doneForce => 0

/-- Counter ranges of the marker stage. -/
def MarkOk (m : Markers) : Prop :=
  match m.fsm with
  | .idle => True
  | .startMarker => m.counter ≤ 8
  | .frame => m.counter = 8
  | .endMarker => 1 ≤ m.counter ∧ m.counter ≤ 8
  | .forceMarker => 1 ≤ m.counter ∧ m.counter ≤ 8
  | .doneNormal => True
  | .doneForce => True

theorem mark_step {m : Markers} (hm : MarkOk m) (i : MarkIn)
    (hne : (m.out i).valid = true → i.busy = false → (m.out i).endd = false) :
    MarkOk (m.step i) ∧ markRank (m.step i) ≤ markRank m ∧ (m.fsm ≠ .idle → (m.step i).fsm ≠ .idle) ∧
    (m.fsm ≠ .idle → i.busy = false → i.force = true → markRank (m.step i) < markRank m) := by
  obtain ⟨f, n, e⟩ := m
  obtain ⟨d, v, en, fo, b⟩ := i
  cases f
  · cases v <;> simp [Markers.step, MarkOk, markRank]
  · simp only [MarkOk] at hm
    have hd : 1 ≤ n → Markers.dec n = n - 1 := by intro h; simp only [Markers.dec]; omega
    cases b
    · by_cases hn : n = 0
      · simp [Markers.step, hn, MarkOk, markRank]
      · rw [show Markers.step ⟨.startMarker, n, e⟩ ⟨d, v, en, fo, false⟩ = ⟨.startMarker, n - 1, v && en⟩ by
          simp [Markers.step, hn, hd (by omega)]]
        simp [MarkOk, markRank]; omega
    · simp [Markers.step, MarkOk, markRank, hm]
  · simp only [MarkOk] at hm
    have hd : Markers.dec n = n - 1 := by simp only [Markers.dec]; omega
    cases b
    · have hn : n ≠ 1 := by
        intro h; simp [Markers.out, h] at hne
      rw [show Markers.step ⟨.endMarker, n, e⟩ ⟨d, v, en, fo, false⟩ = ⟨.endMarker, n - 1, v && en⟩ by
          simp [Markers.step, hn, hd]]
      simp [MarkOk, markRank]; omega
    · simp [Markers.step, MarkOk, markRank, hm]
  · simp only [MarkOk] at hm
    have hd : Markers.dec n = n - 1 := by simp only [Markers.dec]; omega
    cases b
    · have hn : n ≠ 1 := by
        intro h; simp [Markers.out, h] at hne
      rw [show Markers.step ⟨.forceMarker, n, e⟩ ⟨d, v, en, fo, false⟩ = ⟨.forceMarker, n - 1, v && en⟩ by
          simp [Markers.step, hn, hd]]
      simp [MarkOk, markRank]; omega
    · simp [Markers.step, MarkOk, markRank, hm]
  · simp only [MarkOk] at hm
    subst hm
    cases e <;> cases fo <;> simp [Markers.step, MarkOk, markRank]
  · cases b
    · simp [Markers.out] at hne
    · simp [Markers.step, MarkOk, markRank]
  · cases b
    · simp [Markers.out] at hne
    · simp [Markers.step, MarkOk, markRank]

end

/-- C50: for every infinite schedule in which the producer offers pixels infinitely often and the consumer
is ready infinitely often, the beta core gives an end-flagged word after finitely many cycles from
reset: no frame, stall pattern or marker can hang it, and so it always gets back to its reset state. -/
theorem C50_always_ends {c : CoreCfg} {T : Table} (h : CamSetup c T) {allowed : Nat} (ha : allowed < 2 ^ 24)
    {s : Cam} (hs : CamAfterReset c s) (u : Nat → CamIn)
    (hwf : ∀ t, (u t).valid = true → (u t).pixels.length = c.int1.ps ∧ ∀ x ∈ (u t).pixels, x < 2 ^ c.int1.bd)
    (hprod : ∀ n, ∃ m, n ≤ m ∧ (u m).valid = true)
    (hcons : ∀ n, ∃ m, n ≤ m ∧ (u m).busy = false) :
    ∃ t w, (w, true) ∈ camGiven c allowed s ((List.range t).map u) := by
  apply Classical.byContradiction
  intro hcon
  have hno : NoEndGiven c allowed s u := by
    intro t h1 h2
    cases he : ((camAt c allowed s u t).out (u t).busy).endd with
    | false => rfl
    | true =>
      obtain ⟨w, hw⟩ := camGiven_mem c allowed s u t h1 h2 he
      exact absurd ⟨_, w, hw⟩ hcon
  have hok : ∀ t, MarkOk (camAt c allowed s u t).marks := by
    intro t
    induction t with
    | zero => obtain ⟨m, hm, rfl⟩ := hs; exact trivial
    | succ t ih =>
      rw [live_step hs hno]
      exact (mark_step ih _ (hno t)).1
  have hstep : ∀ t, markRank (camAt c allowed s u (t + 1)).marks ≤ markRank (camAt c allowed s u t).marks ∧
      ((camAt c allowed s u t).marks.fsm ≠ .idle → (camAt c allowed s u (t + 1)).marks.fsm ≠ .idle) ∧
      ((camAt c allowed s u t).marks.fsm ≠ .idle → (u t).busy = false → (camAt c allowed s u t).fend.fend = true →
        markRank (camAt c allowed s u (t + 1)).marks < markRank (camAt c allowed s u t).marks) := by
    intro t
    rw [live_step hs hno]
    exact (mark_step (hok t) ((camAt c allowed s u t).markIn (u t).busy) (hno t)).2
  obtain ⟨N1, hN1⟩ := force_raised h ha hs hno hwf hprod
  obtain ⟨t1, ht1⟩ := some_word h hs hno hwf hprod
  have hni1 : (camAt c allowed s u (t1 + 1)).marks.fsm ≠ .idle := by
    by_cases hi : (camAt c allowed s u t1).marks.fsm = .idle
    · rw [live_step hs hno]
      simp [Cam.betaRun, Markers.step, hi, Cam.markIn, ht1]
    · exact (hstep t1).2.1 hi
  have hni : ∀ n, (camAt c allowed s u (t1 + 1 + n)).marks.fsm ≠ .idle := by
    intro n
    induction n with
    | zero => exact hni1
    | succ n ih => exact (hstep _).2.1 ih
  have hmono : ∀ t n, markRank (camAt c allowed s u (t + n)).marks ≤ markRank (camAt c allowed s u t).marks := by
    intro t n
    induction n with
    | zero => exact Nat.le_refl _
    | succ n ih => exact Nat.le_trans (hstep (t + n)).1 ih
  have key : ∀ v t, N1 + t1 + 1 ≤ t → markRank (camAt c allowed s u t).marks = v → False := by
    intro v
    induction v using Nat.strongRecOn with
    | ind v ih =>
      intro t ht hv
      obtain ⟨m, hm, hb⟩ := hcons t
      have h1 := hmono t (m - t)
      rw [show t + (m - t) = m by omega] at h1
      have h2 := (hstep m).2.2 (by
        have := hni (m - (t1 + 1))
        rwa [show t1 + 1 + (m - (t1 + 1)) = m by omega] at this) hb (hN1 m (by omega))
      exact ih _ (by omega) (m + 1) (by omega) rfl
  exact key _ _ (Nat.le_refl _) rfl

/-- Non-vacuity: the beta configuration, pixels in every third cycle, consumer ready in every second one. -/
example : ∃ t w, (w, true) ∈ camGiven betaCore 6666000 (Cam.init betaCore)
    ((List.range t).map fun n => ⟨[n % 4096, 7], n % 3 == 0, n % 2 == 0⟩) := by
  apply C50_always_ends (c := betaCore) (T := defaultTable) ⟨default_setup (by decide) rfl, rfl, default_long _ (by decide)⟩
    (by decide) (init_afterReset _)
  · intro t _
    refine ⟨rfl, ?_⟩
    intro x hx
    simp only [List.mem_cons, List.not_mem_nil, or_false] at hx
    show x < 4096
    omega
  · intro n; exact ⟨3 * n, by omega, by simp⟩
  · intro n; exact ⟨2 * n + 1, by omega, by simp⟩

end Props
