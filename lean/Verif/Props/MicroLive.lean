/- C68: the micro core always finishes a frame. -/
import Verif.Props.BetaLive
import Verif.Props.MicroFrame
import Verif.Props.Stream32

set_option autoImplicit false

namespace Props
open Spec Model

/-- State of the micro core in cycle `t` of an infinite schedule. -/
def microAt (c : CoreCfg) (allowed : Nat) (s : Cam) (u : Nat → CamIn) : Nat → Cam
  | 0 => s
  | t + 1 => (microAt c allowed s u t).microStep c allowed (u t)

theorem microAt_run (c : CoreCfg) (a : Nat) (s : Cam) (u : Nat → CamIn) (t : Nat) :
    microAt c a s u t = microRuns c a s ((List.range t).map u) := by
  induction t with
  | zero => rfl
  | succ t ih => rw [List.range_succ, List.map_append, microRuns_append, ← ih]; rfl

theorem microGiven_mem (c : CoreCfg) (a : Nat) (s : Cam) (u : Nat → CamIn) (t : Nat)
    (h1 : ((microAt c a s u t).out (u t).busy).valid = true) (h2 : (u t).busy = false)
    (h3 : ((microAt c a s u t).out (u t).busy).endd = true) :
    ∃ w, (w, true) ∈ microGiven c a s ((List.range (t + 1)).map u) := by
  refine ⟨((microAt c a s u t).out (u t).busy).data, ?_⟩
  rw [List.range_succ, List.map_append, microGiven_append, ← microAt_run, List.mem_append]
  right
  have hc : (((microAt c a s u t).out (u t).busy).valid && !(u t).busy) = true := by
    rw [Bool.and_eq_true]; exact ⟨h1, by rw [h2]; rfl⟩
  simp only [List.map_cons, List.map_nil, microGiven, List.append_nil]
  rw [if_pos hc, List.mem_singleton, Prod.mk.injEq]
  exact ⟨rfl, h3.symm⟩

section
variable {c : CoreCfg} {T : Table} {allowed : Nat} {s : Cam} {u : Nat → CamIn}

/-- No end-flagged word is ever given. -/
def MicroNoEnd (c : CoreCfg) (allowed : Nat) (s : Cam) (u : Nat → CamIn) : Prop :=
  ∀ t, ((microAt c allowed s u t).out (u t).busy).valid = true → (u t).busy = false →
    ((microAt c allowed s u t).out (u t).busy).endd = false

theorem mlive_rst (hs : CamAfterReset c s) (hno : MicroNoEnd c allowed s u) (t : Nat) :
    (microAt c allowed s u t).resetOut = false := by
  induction t with
  | zero => obtain ⟨m, _, rfl⟩ := hs; rfl
  | succ t ih =>
    show (Cam.microStep c allowed (microAt c allowed s u t) (u t)).resetOut = false
    rw [micro_reset_flag _ _ _ _ ih]
    have hn := hno t
    cases h1 : ((microAt c allowed s u t).out (u t).busy).valid with
    | false => rfl
    | true =>
      cases h2 : (u t).busy with
      | true => rfl
      | false => rw [h2] at hn h1; exact hn h1 rfl

theorem mlive_step (hs : CamAfterReset c s) (hno : MicroNoEnd c allowed s u) (t : Nat) :
    microAt c allowed s u (t + 1) = (microAt c allowed s u t).microRun c allowed (u t) := by
  show Cam.microStep _ _ _ _ = _
  simp [Cam.microStep, mlive_rst hs hno t]

/-- What the encoder core sees. -/
def mcoreIns (c : CoreCfg) (allowed : Nat) (s : Cam) (u : Nat → CamIn) (t : Nat) : CoreIn :=
  ⟨(u t).pixels, (u t).valid, (microAt c allowed s u t).fix1.oBusy⟩

theorem mlive_core (hs : CamAfterReset c s) (hno : MicroNoEnd c allowed s u) (t : Nat) :
    (microAt c allowed s u t).core = Int3.at c s.core (mcoreIns c allowed s u) t := by
  induction t with
  | zero => rfl
  | succ t ih => rw [mlive_step hs hno]; simp only [Cam.microRun, Int3.at, ih, mcoreIns]

theorem mcore_afterReset (hs : CamAfterReset c s) : AfterReset c s.core := by
  obtain ⟨m, hm, rfl⟩ := hs; exact ⟨m, hm, rfl⟩

/-- If the first stuffing stage never blocks, the core delivers something. -/
theorem mcore_valid (h : CamSetup c T) (hs : CamAfterReset c s) (hno : MicroNoEnd c allowed s u)
    (hwf : ∀ t, (u t).valid = true → (u t).pixels.length = c.int1.ps ∧ ∀ x ∈ (u t).pixels, x < 2 ^ c.int1.bd)
    (hprod : ∀ n, ∃ m, n ≤ m ∧ (u m).valid = true)
    (hb : ∀ t, (microAt c allowed s u t).fix1.oBusy = false)
    (hv : ∀ t, (microAt c allowed s u t).core.valid = false) : False := by
  obtain ⟨t, w, hw⟩ := C21_no_deadlock h.core (mcore_afterReset hs) (mcoreIns c allowed s u) hwf hprod
    (fun n => ⟨n, Nat.le_refl _, hb n⟩)
  have : ∀ t, Int3.delivered c s.core ((List.range t).map (mcoreIns c allowed s u)) = [] := by
    intro t
    induction t with
    | zero => rfl
    | succ t ih =>
      rw [List.range_succ, List.map_append, delivered_append, ih]
      have e : Int3.run c s.core ((List.range t).map (mcoreIns c allowed s u)) = (microAt c allowed s u t).core := by
        rw [mlive_core hs hno, Int3.at_run]; rfl
      rw [e]
      simp [Int3.delivered, hv t]
  rw [this] at hw
  simp at hw

/-- A pixel group is accepted at some time. -/
theorem msome_accepted (h : CamSetup c T) (hs : CamAfterReset c s) (hno : MicroNoEnd c allowed s u)
    (hwf : ∀ t, (u t).valid = true → (u t).pixels.length = c.int1.ps ∧ ∀ x ∈ (u t).pixels, x < 2 ^ c.int1.bd)
    (hprod : ∀ n, ∃ m, n ≤ m ∧ (u m).valid = true) :
    ∃ t, ((u t).valid && !(microAt c allowed s u t).core.nready) = true := by
  apply Classical.byContradiction
  intro hcon
  have hna : ∀ t, ((u t).valid && !(microAt c allowed s u t).core.nready) = false := by
    intro t
    cases hb : ((u t).valid && !(microAt c allowed s u t).core.nready) with
    | false => rfl
    | true => exact absurd ⟨t, hb⟩ hcon
  obtain ⟨m, hm, hse⟩ := hs
  have hs' : CamAfterReset c s := ⟨m, hm, hse⟩
  have hrun : ∀ t, Int3.run c s.core ((List.range t).map (mcoreIns c allowed s u)) = (microAt c allowed s u t).core := by
    intro t; rw [mlive_core hs' hno, Int3.at_run]; rfl
  have hacc : ∀ t, Int3.accepted c s.core ((List.range t).map (mcoreIns c allowed s u)) = [] := by
    intro t
    induction t with
    | zero => rfl
    | succ t ih =>
      rw [List.range_succ, List.map_append, accepted_append, ih, hrun]
      simp only [List.map_cons, List.map_nil, Int3.accepted, List.append_nil, List.nil_append]
      have : ((mcoreIns c allowed s u t).valid && !(microAt c allowed s u t).core.nready) = false := hna t
      rw [this]; rfl
  have hdel : ∀ t, Int3.delivered c s.core ((List.range t).map (mcoreIns c allowed s u)) = [] := by
    intro t
    obtain ⟨k, hi⟩ := Int3.run_ok h.core.ok ((List.range t).map (mcoreIns c allowed s u))
      (s := s.core) (by rw [hse]; exact Int3.inv_reset h.core.ok hm) (by
        intro i hi
        simp only [List.mem_map] at hi
        obtain ⟨n, _, rfl⟩ := hi
        exact hwf n)
    rw [hacc, List.append_nil, List.nil_append] at hi
    obtain ⟨f1, f2⟩ := Cam.core_facts h.core hi
    have hW : 0 < c.int1.W * c.int1.H := by
      refine Nat.pos_of_ne_zero fun h0 => ?_
      have := h.long [] (by rw [h0]; rfl)
      simp [encode] at this
    generalize Int3.delivered c s.core ((List.range t).map (mcoreIns c allowed s u)) = D at *
    cases D with
    | nil => rfl
    | cons x D =>
      exfalso
      cases hx : x.2 with
      | true =>
        have := (f2 x.1 (by rw [← hx]; simp)).1
        simp at this; omega
      | false =>
        have := f1.length_le
        simp [beforeEnd, hx, wordBits, encode, h.out, toBits_length] at this
  have hf : ∀ t, ((microAt c allowed s u t).fix1.oBusy = false ∧ (microAt c allowed s u t).fix1.regValid = false ∧
      (microAt c allowed s u t).fix1.valid = false) ∧ (microAt c allowed s u t).core.valid = false := by
    have hc : ∀ t, (microAt c allowed s u t).fix1.oBusy = false → (microAt c allowed s u t).core.valid = false := by
      intro t hb
      have := hdel (t + 1)
      rw [List.range_succ, List.map_append, delivered_append, hdel, hrun] at this
      cases hv : (microAt c allowed s u t).core.valid with
      | false => rfl
      | true =>
        have hb' : (mcoreIns c allowed s u t).busy = false := hb
        simp [Int3.delivered, hv, hb'] at this
    intro t
    induction t with
    | zero =>
      refine ⟨?_, hc 0 ?_⟩ <;> simp [microAt, hse, Cam.reset, Fix1.init]
    | succ t ih =>
      obtain ⟨⟨h1, h2, h3⟩, h4⟩ := ih
      have : (microAt c allowed s u (t + 1)).fix1.oBusy = false ∧ (microAt c allowed s u (t + 1)).fix1.regValid = false ∧
          (microAt c allowed s u (t + 1)).fix1.valid = false := by
        rw [mlive_step hs' hno]
        simp only [Cam.microRun, h4]
        simp only [Fix1.step, Fix1.main, h1, h2, h3]
        repeat' split
        all_goals simp_all
      exact ⟨this, hc _ this.1⟩
  exact mcore_valid h hs' hno hwf hprod (fun t => (hf t).1.1) (fun t => (hf t).2)

theorem fix2_takes' (p : Packet) (b : Bool) : (Fix2.init.step p true b).valid = true := by
  cases b
  · simp only [Fix2.step, Fix2.init, Fix2.stepNormal]
    simp only [Bool.not_false, if_true]
    rw [normalLogic_valid, normalLogic_valid]
  · exact fix2_takes p

/-- The marker stage is offered a word at some time. -/
theorem msome_word (h : CamSetup c T) (hs : CamAfterReset c s) (hno : MicroNoEnd c allowed s u)
    (hwf : ∀ t, (u t).valid = true → (u t).pixels.length = c.int1.ps ∧ ∀ x ∈ (u t).pixels, x < 2 ^ c.int1.bd)
    (hprod : ∀ n, ∃ m, n ≤ m ∧ (u m).valid = true) :
    ∃ t, (microAt c allowed s u t).fix2.valid = true := by
  apply Classical.byContradiction
  intro hcon
  have hnv : ∀ t, (microAt c allowed s u t).fix2.valid = false := by
    intro t
    cases hb : (microAt c allowed s u t).fix2.valid with
    | false => rfl
    | true => exact absurd ⟨t, hb⟩ hcon
  have hm : ∀ t, (microAt c allowed s u t).marks.fsm = .idle ∧ (microAt c allowed s u t).fix2 = .init := by
    intro t
    induction t with
    | zero => obtain ⟨m, hm, rfl⟩ := hs; exact ⟨rfl, rfl⟩
    | succ t ih =>
      obtain ⟨h1, h2⟩ := ih
      have hn := hnv (t + 1)
      rw [mlive_step hs hno] at hn ⊢
      simp only [Cam.microRun] at hn ⊢
      constructor
      · simp [Markers.step, h1, Cam.markIn, hnv t]
      · rw [h2] at hn ⊢
        cases hv : (microAt c allowed s u t).fix1.valid with
        | false => cases (u t).busy <;> rfl
        | true =>
          rw [hv] at hn
          exfalso
          rw [fix2_takes'] at hn; cases hn
  have hf : ∀ t, (microAt c allowed s u t).fix1.oBusy = false ∧ (microAt c allowed s u t).fix1.regValid = false := by
    intro t
    induction t with
    | zero => obtain ⟨m, hm, rfl⟩ := hs; exact ⟨rfl, rfl⟩
    | succ t ih =>
      obtain ⟨h1, h2⟩ := ih
      rw [mlive_step hs hno]
      simp only [Cam.microRun, (hm t).2, Fix2.init]
      simp [Fix1.step, Fix1.main, h1]
  have hv : ∀ t, (microAt c allowed s u t).fix1.valid = false := by
    intro t
    have hn := hnv (t + 1)
    rw [mlive_step hs hno] at hn
    simp only [Cam.microRun] at hn
    rw [(hm t).2] at hn
    cases hv : (microAt c allowed s u t).fix1.valid with
    | false => rfl
    | true =>
      rw [hv] at hn
      exfalso
      rw [fix2_takes'] at hn; cases hn
  refine mcore_valid h hs hno hwf hprod (fun t => (hf t).1) (fun t => ?_)
  have hn := hv (t + 1)
  rw [mlive_step hs hno] at hn
  simp only [Cam.microRun, (hm t).2, Fix2.init] at hn
  simpa [Fix1.step, Fix1.main, (hf t).1, (hf t).2] using hn

/-- The forced end is eventually raised for good. -/
theorem mforce_raised (h : CamSetup c T) (ha : allowed < 2 ^ 24) (hs : CamAfterReset c s) (hno : MicroNoEnd c allowed s u)
    (hwf : ∀ t, (u t).valid = true → (u t).pixels.length = c.int1.ps ∧ ∀ x ∈ (u t).pixels, x < 2 ^ c.int1.bd)
    (hprod : ∀ n, ∃ m, n ≤ m ∧ (u m).valid = true) :
    ∃ N, ∀ t, N ≤ t → (microAt c allowed s u t).fend.fend = true := by
  have hrun : ∀ t n, (microAt c allowed s u (t + n)).fend = runForce allowed (microAt c allowed s u t).fend
      ((List.range' t n).map fun k => (u k).valid && !(microAt c allowed s u k).core.nready) := by
    intro t n
    induction n generalizing t with
    | zero => rfl
    | succ n ih =>
      rw [show t + (n + 1) = t + 1 + n by omega, ih (t + 1), List.range'_succ, List.map_cons]
      simp only [runForce]
      rw [mlive_step hs hno]; rfl
  obtain ⟨t, ht⟩ := msome_accepted h hs hno hwf hprod
  have hst : ∀ t, ((microAt c allowed s u t).fend.fsm = .idle → (microAt c allowed s u t).fend = .init) ∧
      ((microAt c allowed s u t).fend.fsm = .counting → (microAt c allowed s u t).fend.fend = false ∧
        (microAt c allowed s u t).fend.counter ≤ allowed) := by
    intro t
    induction t with
    | zero => obtain ⟨m, hm, rfl⟩ := hs; exact ⟨fun _ => rfl, by simp [microAt, Cam.reset, ForceEnd.init]⟩
    | succ t ih =>
      rw [mlive_step hs hno]
      simp only [Cam.microRun]
      generalize ((u t).valid && !(microAt c allowed s u t).core.nready) = v
      generalize (microAt c allowed s u t).fend = f at *
      obtain ⟨fs, n, fe⟩ := f
      cases fs
      · have := ih.1 rfl
        rw [this]
        cases v <;> simp [ForceEnd.step, ForceEnd.init]
      · have := ih.2 rfl
        simp only [ForceEnd.step] at *
        refine ⟨by split <;> simp, ?_⟩
        split
        · simp
        · intro _
          refine ⟨this.1, ?_⟩
          have := Nat.mod_le (n + 1) (2 ^ 25)
          omega
      · simp [ForceEnd.step]
  have hone : ∃ t, (microAt c allowed s u t).fend.fsm ≠ .idle := by
    refine ⟨t + 1, ?_⟩
    rw [mlive_step hs hno]
    simp only [Cam.microRun, ht, ForceEnd.step]
    split
    · simp
    · split <;> simp
    · rename_i hf; simp [hf]
  obtain ⟨t, ht⟩ := hone
  cases hf : (microAt c allowed s u t).fend.fsm with
  | idle => exact absurd hf ht
  | counting =>
    obtain ⟨h1, h2⟩ := (hst t).2 hf
    refine ⟨t + allowed + 2, fun k hk => ?_⟩
    rw [show k = t + (k - t) by omega, hrun, force_counting allowed ha _ _ hf h1 h2]
    simp; omega
  | fin =>
    refine ⟨t + 1, fun k hk => ?_⟩
    have : (microAt c allowed s u (t + 1)).fend.fend = true := by
      rw [mlive_step hs hno]
      simp [Cam.microRun, ForceEnd.step, hf]
    have hmono : ∀ n, (microAt c allowed s u (t + 1 + n)).fend.fend = true := by
      intro n
      induction n with
      | zero => exact this
      | succ n ih =>
        rw [← Nat.add_assoc, mlive_step hs hno]
        exact C27_stays _ _ _ ih
    rw [show k = t + 1 + (k - (t + 1)) by omega]
    exact hmono _

end

/-- For every infinite schedule in which the producer offers pixels infinitely often and the consumer
is ready infinitely often, the micro core gives an end-flagged word after finitely many cycles from
reset: no frame, stall pattern or marker can hang it, and so it always gets back to its reset state. -/
theorem micro_always_ends {c : CoreCfg} {T : Table} (h : CamSetup c T) {allowed : Nat} (ha : allowed < 2 ^ 24)
    {s : Cam} (hs : CamAfterReset c s) (u : Nat → CamIn)
    (hwf : ∀ t, (u t).valid = true → (u t).pixels.length = c.int1.ps ∧ ∀ x ∈ (u t).pixels, x < 2 ^ c.int1.bd)
    (hprod : ∀ n, ∃ m, n ≤ m ∧ (u m).valid = true)
    (hcons : ∀ n, ∃ m, n ≤ m ∧ (u m).busy = false) :
    ∃ t w, (w, true) ∈ microGiven c allowed s ((List.range t).map u) := by
  apply Classical.byContradiction
  intro hcon
  have hno : MicroNoEnd c allowed s u := by
    intro t h1 h2
    cases he : ((microAt c allowed s u t).out (u t).busy).endd with
    | false => rfl
    | true =>
      obtain ⟨w, hw⟩ := microGiven_mem c allowed s u t h1 h2 he
      exact absurd ⟨_, w, hw⟩ hcon
  have hok : ∀ t, MarkOk (microAt c allowed s u t).marks := by
    intro t
    induction t with
    | zero => obtain ⟨m, hm, rfl⟩ := hs; exact trivial
    | succ t ih =>
      rw [mlive_step hs hno]
      exact (mark_step ih _ (hno t)).1
  have hstep : ∀ t, markRank (microAt c allowed s u (t + 1)).marks ≤ markRank (microAt c allowed s u t).marks ∧
      ((microAt c allowed s u t).marks.fsm ≠ .idle → (microAt c allowed s u (t + 1)).marks.fsm ≠ .idle) ∧
      ((microAt c allowed s u t).marks.fsm ≠ .idle → (u t).busy = false → (microAt c allowed s u t).fend.fend = true →
        markRank (microAt c allowed s u (t + 1)).marks < markRank (microAt c allowed s u t).marks) := by
    intro t
    rw [mlive_step hs hno]
    exact (mark_step (hok t) ((microAt c allowed s u t).markIn (u t).busy) (hno t)).2
  obtain ⟨N1, hN1⟩ := mforce_raised h ha hs hno hwf hprod
  obtain ⟨t1, ht1⟩ := msome_word h hs hno hwf hprod
  have hni1 : (microAt c allowed s u (t1 + 1)).marks.fsm ≠ .idle := by
    by_cases hi : (microAt c allowed s u t1).marks.fsm = .idle
    · rw [mlive_step hs hno]
      simp [Cam.microRun, Markers.step, hi, Cam.markIn, ht1]
    · exact (hstep t1).2.1 hi
  have hni : ∀ n, (microAt c allowed s u (t1 + 1 + n)).marks.fsm ≠ .idle := by
    intro n
    induction n with
    | zero => exact hni1
    | succ n ih => exact (hstep _).2.1 ih
  have hmono : ∀ t n, markRank (microAt c allowed s u (t + n)).marks ≤ markRank (microAt c allowed s u t).marks := by
    intro t n
    induction n with
    | zero => exact Nat.le_refl _
    | succ n ih => exact Nat.le_trans (hstep (t + n)).1 ih
  have key : ∀ v t, N1 + t1 + 1 ≤ t → markRank (microAt c allowed s u t).marks = v → False := by
    intro v
    induction v using Nat.strongRecOn with
    | ind v ih =>
      intro t ht hv
      obtain ⟨m, hm, hb⟩ := hcons t
      have h1 := hmono t (m - t)
      rw [show t + (m - t) = m by omega] at h1
      have h2 := (hstep m).2.2 (by
        have := hni (m - (t1 + 1))
        rwa [show t1 + 1 + (m - (t1 + 1)) = m by omega] at this) hb (hN1 m (by omega))
      exact ih _ (by omega) (m + 1) (by omega) rfl
  exact key _ _ (Nat.le_refl _) rfl

/-- Every end-flagged word of a run from a reset state is the forced one. -/
theorem micro_forced_only {c : CoreCfg} {allowed : Nat} : ∀ (ins : List CamIn) (s : Cam), NoEnd s →
    ∀ w, (w, true) ∈ microGiven c allowed s ins → w = 0xFFFE
  | [], _, _, _, hw => by simp [microGiven] at hw
  | i :: r, s, hs, w, hw => by
    simp only [microGiven, List.mem_append] at hw
    rcases hw with hw | hw
    · split at hw
      · simp only [List.mem_singleton, Prod.mk.injEq] at hw
        rw [hw.1]; exact (noEnd_out hs i.busy hw.2.symm).1
      · simp at hw
    · exact micro_forced_only r _ (noEnd_step hs allowed i) w hw

/-- C68: for every infinite schedule in which the producer offers pixels infinitely often and the consumer is ready
infinitely often, the micro core gives the end of a frame (always the forced end FFFE) after finitely many cycles. -/
theorem C68_always_ends {c : CoreCfg} {T : Table} (h : CamSetup c T) {allowed : Nat} (ha : allowed < 2 ^ 24)
    {s : Cam} (hs : CamAfterReset c s) (u : Nat → CamIn)
    (hwf : ∀ t, (u t).valid = true → (u t).pixels.length = c.int1.ps ∧ ∀ x ∈ (u t).pixels, x < 2 ^ c.int1.bd)
    (hprod : ∀ n, ∃ m, n ≤ m ∧ (u m).valid = true)
    (hcons : ∀ n, ∃ m, n ≤ m ∧ (u m).busy = false) :
    ∃ t, (0xFFFE, true) ∈ microGiven c allowed s ((List.range t).map u) := by
  obtain ⟨t, w, hw⟩ := micro_always_ends h ha hs u hwf hprod hcons
  obtain ⟨m, _, rfl⟩ := hs
  have := micro_forced_only _ _ (noEnd_reset c m) w hw
  exact ⟨t, by rw [← this]; exact hw⟩

/-- The micro configuration (micro_integration.py:15-27) with the size the register file starts with. -/
def microCore : CoreCfg :=
  { int1 := { bd := 12, ps := 1, W := 4096, H := 3072, mem := initHuffTable 12 }
    depth := 512, conv := 15, cdepth := 1024, out := 16, buf := 41 }

theorem microCore_setup : CamSetup microCore defaultTable :=
  ⟨default_setup (by decide) rfl, rfl, default_long _ (by decide)⟩

/-- Non-vacuity: the micro configuration, pixels in every third cycle, consumer ready in every second one. -/
example : ∃ t, (0xFFFE, true) ∈ microGiven microCore 6666000 (Cam.init microCore)
    ((List.range t).map fun n => ⟨[n % 4096], n % 3 == 0, n % 2 == 0⟩) := by
  apply C68_always_ends (c := microCore) (T := defaultTable) microCore_setup (by decide) (init_afterReset _)
  · intro t _
    refine ⟨rfl, ?_⟩
    intro x hx
    simp only [List.mem_cons, List.not_mem_nil, or_false] at hx
    show x < 4096
    omega
  · intro n; exact ⟨3 * n, by omega, by simp⟩
  · intro n; exact ⟨2 * n + 1, by omega, by simp⟩

/-! ### Between two AXI streams -/

/-- Cycles of `MicroIntegrationAxiStream` as cycles of its core. -/
def axisMicro (ins : List AxisIn) : List CamIn := ins.map fun i => streamMicroIn i.data i.valid i.ready

/-- Words transferred on the slave stream (`s_tvalid` and `s_tready`, which is the negation of `nready`,
micro_integration_axistream.py:52). -/
def axisMicroMoved (c : CoreCfg) (a : Nat) : Cam → List AxisIn → List Nat
  | _, [] => []
  | s, i :: r => (if i.valid && !s.nready then [i.data] else []) ++
      axisMicroMoved c a (s.microStep c a (streamMicroIn i.data i.valid i.ready)) r

theorem axisMicro_accepted (c : CoreCfg) (a : Nat) : ∀ (ins : List AxisIn) (s : Cam),
    microAccepted c a s (axisMicro ins) = (axisMicroMoved c a s ins).map (· % 2 ^ 12)
  | [], _ => rfl
  | i :: r, s => by
    have ih := axisMicro_accepted c a r (s.microStep c a (streamMicroIn i.data i.valid i.ready))
    simp only [axisMicro, List.map_cons, microAccepted, axisMicroMoved, List.map_append] at ih ⊢
    rw [ih]
    congr 1
    by_cases hv : (i.valid && !s.nready) = true <;>
      simp only [streamMicroIn, hv, if_true, Bool.false_eq_true, if_false] <;> simp [slice]

theorem axisMicro_wf {c : CoreCfg} (hps : c.int1.ps = 1) (hbd : c.int1.bd = 12) (ins : List AxisIn) :
    CamWf c (axisMicro ins) := by
  intro j hj _
  obtain ⟨i, _, rfl⟩ := List.mem_map.1 hj
  rw [hps, hbd]
  refine ⟨rfl, ?_⟩
  intro x hx
  simp only [streamMicroIn, List.mem_cons, List.not_mem_nil, or_false] at hx
  rw [hx]; exact Nat.mod_lt _ (by decide)

/-- C68: the same for the micro core between two AXI streams: each slave word carries one pixel in its low twelve bits. -/
theorem C68_stream_frame {c : CoreCfg} {T : Table} (h : CamSetup c T) (hps : c.int1.ps = 1) (hbd : c.int1.bd = 12)
    (allowed : Nat) {s : Cam} (hs : CamAfterReset c s) (ins : List AxisIn) (i : AxisIn)
    (hno : ∀ x ∈ microGiven c allowed s (axisMicro ins), x.2 = false)
    (w : Nat) (hw : (w, true) ∈ microGiven c allowed s (axisMicro (ins ++ [i]))) :
    let pixels := (axisMicroMoved c allowed s (ins ++ [i])).map (· % 2 ^ 12)
    ∃ lost body, microGiven c allowed s (axisMicro (ins ++ [i])) = startMark ++ body ++ endMark 0xFFFE ∧
      (∀ x ∈ body, x.2 = false) ∧ 1 ≤ lost.length ∧ lost.length ≤ 10 ∧
      ∃ (code : List (Nat × Bool)) (n last : Nat),
        wordBytes (lost ++ body) <+: stuff (wordBytes (code ++ List.replicate n (last, false))) ∧
        ((n = 0 ∧ wordBits 16 code <+: encode T 12 c.int1.W pixels) ∨
         (pixels.length = c.int1.W * c.int1.H ∧ code.getLast? = some (last, false) ∧
          ∃ j, j < 16 ∧ wordBits 16 code = encode T 12 c.int1.W pixels ++ List.replicate j false)) := by
  have e : axisMicro (ins ++ [i]) = axisMicro ins ++ [streamMicroIn i.data i.valid i.ready] := by simp [axisMicro]
  have := C68_frame h allowed hs (axisMicro ins) (streamMicroIn i.data i.valid i.ready)
    (by rw [← e]; exact axisMicro_wf hps hbd _) hno w (by rw [← e]; exact hw)
  rw [← e, axisMicro_accepted, hbd] at this
  exact this

/-- C68: and it always ends its frames if both streams keep moving. -/
theorem C68_stream_always_ends {c : CoreCfg} {T : Table} (h : CamSetup c T) (hps : c.int1.ps = 1) (hbd : c.int1.bd = 12)
    {allowed : Nat} (ha : allowed < 2 ^ 24) {s : Cam} (hs : CamAfterReset c s) (u : Nat → AxisIn)
    (hprod : ∀ n, ∃ m, n ≤ m ∧ (u m).valid = true) (hcons : ∀ n, ∃ m, n ≤ m ∧ (u m).ready = true) :
    ∃ t, (0xFFFE, true) ∈ microGiven c allowed s (axisMicro ((List.range t).map u)) := by
  have hwf := axisMicro_wf hps hbd
  obtain ⟨t, hw⟩ := C68_always_ends h ha hs (fun n => streamMicroIn (u n).data (u n).valid (u n).ready)
    (fun t hv => hwf [u t] _ (List.mem_singleton.2 rfl) hv) hprod
    (fun n => by obtain ⟨m, hm, hr⟩ := hcons n; exact ⟨m, hm, by simp [streamMicroIn, hr]⟩)
  exact ⟨t, by simpa [axisMicro, Function.comp_def] using hw⟩

end Props
