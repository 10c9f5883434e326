/- Property theorems C57: when the beta and micro cores may end a frame by force. -/
import Verif.Props.Beta
import Verif.Props.Micro

set_option autoImplicit false

namespace Props
open Spec Model

/-- The forced end in terms of `S k`: a pixel group was accepted at least `k + 1` cycles ago. -/
structure Aged (allowed : Nat) (S : Nat → Prop) (f : ForceEnd) (m : Markers) : Prop where
  idl : f.fsm = .idle → f.counter = 0 ∧ f.fend = false
  cnt : f.fsm = .counting → S f.counter ∧ f.fend = false
  fin : f.fsm = .fin → S (allowed + 1)
  fend : f.fend = true → S (allowed + 2)
  fr : m.fsm = .frame → m.counter = 8
  fm : m.fsm = .forceMarker → 1 ≤ m.counter ∧ m.counter ≤ 8 ∧ S (allowed + 11 - m.counter)
  dn : m.fsm = .doneForce → S (allowed + 11)

theorem aged_init (allowed : Nat) (S : Nat → Prop) : Aged allowed S .init .init := by
  constructor <;> simp [ForceEnd.init, Markers.init]

theorem aged_step {allowed : Nat} {S S' : Nat → Prop} {f : ForceEnd} {m : Markers} (h : Aged allowed S f m)
    (anti : ∀ k l, l ≤ k → S' k → S' l) (next : ∀ k, S k → S' (k + 1)) {v : Bool} (acc : v = true → S' 0) {i : MarkIn}
    (hi : i.force = f.fend) : Aged allowed S' (f.step allowed v) (m.step i) := by
  obtain ⟨fs, n, fe⟩ := f
  obtain ⟨ms, mc, me⟩ := m
  obtain ⟨h1, h2, h3, h4, h5, h6, h7⟩ := h
  dsimp only at h1 h2 h3 h4 h5 h6 h7 hi
  have hF : (ForceEnd.step ⟨fs, n, fe⟩ allowed v).fsm = .idle → (ForceEnd.step ⟨fs, n, fe⟩ allowed v).counter = 0 ∧
      (ForceEnd.step ⟨fs, n, fe⟩ allowed v).fend = false := by
    cases fs
    · obtain ⟨rfl, rfl⟩ := h1 rfl
      cases v <;> simp [ForceEnd.step]
    · simp only [ForceEnd.step]; split <;> intro hc <;> cases hc
    · simp [ForceEnd.step]
  have hC : (ForceEnd.step ⟨fs, n, fe⟩ allowed v).fsm = .counting → S' (ForceEnd.step ⟨fs, n, fe⟩ allowed v).counter ∧
      (ForceEnd.step ⟨fs, n, fe⟩ allowed v).fend = false := by
    cases fs
    · obtain ⟨rfl, rfl⟩ := h1 rfl
      cases v
      · simp [ForceEnd.step]
      · intro _; exact ⟨acc rfl, rfl⟩
    · obtain ⟨ha, rfl⟩ := h2 rfl
      intro _
      exact ⟨anti _ _ (Nat.mod_le _ _) (next _ ha), rfl⟩
    · simp [ForceEnd.step]
  have hN : (ForceEnd.step ⟨fs, n, fe⟩ allowed v).fsm = .fin → S' (allowed + 1) := by
    cases fs
    · cases v <;> simp [ForceEnd.step]
    · obtain ⟨ha, rfl⟩ := h2 rfl
      simp only [ForceEnd.step]
      split
      · rename_i he; intro _; rw [← he]; exact next _ ha
      · intro hc; cases hc
    · intro _; exact anti _ _ (by omega) (next _ (h3 rfl))
  have hE : (ForceEnd.step ⟨fs, n, fe⟩ allowed v).fend = true → S' (allowed + 2) := by
    cases fs
    · obtain ⟨rfl, rfl⟩ := h1 rfl
      cases v <;> simp [ForceEnd.step]
    · obtain ⟨ha, rfl⟩ := h2 rfl
      simp [ForceEnd.step]
    · intro _; exact next _ (h3 rfl)
  refine ⟨hF, hC, hN, hE, ?_, ?_, ?_⟩
  · clear hF hC hN hE
    cases ms <;> simp only [Markers.step] <;> (repeat' split) <;> simp_all
  · clear hF hC hN hE
    cases ms <;> simp only [Markers.step]
    case forceMarker =>
      obtain ⟨a, b, d⟩ := h6 rfl
      have d' := next _ d
      split
      · split
        · simp
        · intro _
          have : Markers.dec mc = mc - 1 := by unfold Markers.dec; omega
          dsimp only
          rw [this]
          exact ⟨by omega, by omega, anti _ _ (by omega) d'⟩
      · intro _; exact ⟨a, b, anti _ _ (by dsimp only; omega) d'⟩
    case frame =>
      have hc := h5 rfl
      subst hc
      split
      · simp
      · split
        · rename_i hf
          rw [hi] at hf
          intro _
          exact ⟨by show 1 ≤ 8; decide, by show 8 ≤ 8; decide, anti _ _ (by show allowed + 11 - 8 ≤ _; omega) (next _ (h4 hf))⟩
        · simp
    all_goals (repeat' split) <;> simp
  · clear hF hC hN hE
    cases ms <;> simp only [Markers.step]
    case forceMarker =>
      obtain ⟨a, b, d⟩ := h6 rfl
      have d' := next _ d
      split
      · split
        · intro _; exact anti _ _ (by omega) d'
        · simp
      · simp
    case doneForce => intro _; exact anti _ _ (by omega) (next _ (h7 rfl))
    all_goals (repeat' split) <;> simp

theorem aged_out {allowed : Nat} {S : Nat → Prop} {f : ForceEnd} {m : Markers} (h : Aged allowed S f m)
    (anti : ∀ k l, l ≤ k → S k → S l) {i : MarkIn} (hd : (m.out i).data = 0xFFFE) (he : (m.out i).endd = true) :
    S (allowed + 10) := by
  obtain ⟨ms, mc, me⟩ := m
  cases ms <;> simp only [Markers.out] at hd he
  case forceMarker =>
    obtain ⟨a, b, d⟩ := h.fm rfl
    have : mc = 1 := by simp at he; exact he.2
    subst this
    exact d
  case doneForce => exact anti _ _ (by omega) (h.dn rfl)
  all_goals (repeat' split at he) <;> simp_all

/-- A pixel group was accepted (`valid_in` and not `nready`) by the beta core started in `s`, and at least `k` further
cycles have passed. -/
def AcceptedAgo (c : CoreCfg) (allowed : Nat) (s : Cam) (ins : List CamIn) (k : Nat) : Prop :=
  ∃ pre j post, ins = pre ++ j :: post ∧ j.valid = true ∧ (camRun c allowed s pre).nready = false ∧ k ≤ post.length

/-- The same for the micro core. -/
def MicroAcceptedAgo (c : CoreCfg) (allowed : Nat) (s : Cam) (ins : List CamIn) (k : Nat) : Prop :=
  ∃ pre j post, ins = pre ++ j :: post ∧ j.valid = true ∧ (microRuns c allowed s pre).nready = false ∧ k ≤ post.length

theorem acceptedAgo_anti {c : CoreCfg} {allowed : Nat} {s : Cam} {ins : List CamIn} (k l : Nat) (h : l ≤ k) :
    AcceptedAgo c allowed s ins k → AcceptedAgo c allowed s ins l := by
  rintro ⟨a, j, b, e, v, n, hk⟩; exact ⟨a, j, b, e, v, n, by omega⟩

theorem microAcceptedAgo_anti {c : CoreCfg} {allowed : Nat} {s : Cam} {ins : List CamIn} (k l : Nat) (h : l ≤ k) :
    MicroAcceptedAgo c allowed s ins k → MicroAcceptedAgo c allowed s ins l := by
  rintro ⟨a, j, b, e, v, n, hk⟩; exact ⟨a, j, b, e, v, n, by omega⟩

theorem microRuns_append (c : CoreCfg) (a : Nat) (x y : List CamIn) :
    ∀ s, microRuns c a s (x ++ y) = microRuns c a (microRuns c a s x) y := by
  induction x with
  | nil => intro s; rfl
  | cons i x ih => intro s; exact ih _

theorem microGiven_append (c : CoreCfg) (a : Nat) (x y : List CamIn) :
    ∀ s, microGiven c a s (x ++ y) = microGiven c a s x ++ microGiven c a (microRuns c a s x) y := by
  induction x with
  | nil => intro s; rfl
  | cons i x ih => intro s; simp [microGiven, microRuns, ih]

theorem beta_aged {c : CoreCfg} (allowed : Nat) (m : Kept) : ∀ (n : Nat) (ins : List CamIn), ins.length = n →
    (∀ x ∈ camGiven c allowed (Cam.reset c m) ins, x.2 = false) →
    (camRun c allowed (Cam.reset c m) ins).resetOut = false ∧
    Aged allowed (AcceptedAgo c allowed (Cam.reset c m) ins) (camRun c allowed (Cam.reset c m) ins).fend
      (camRun c allowed (Cam.reset c m) ins).marks
  | 0, ins, hn, _ => by
    rw [List.length_eq_zero_iff] at hn; subst hn
    exact ⟨rfl, aged_init _ _⟩
  | n + 1, ins, hn, hno => by
    obtain ⟨l, i, rfl⟩ : ∃ l i, ins = l ++ [i] := ⟨_, _, (List.dropLast_concat_getLast (l := ins) (by intro h; simp [h] at hn)).symm⟩
    rw [camGiven_append] at hno
    obtain ⟨hr, ha⟩ := beta_aged allowed m n l (by simpa using hn) (fun x hx => hno x (List.mem_append_left _ hx))
    have hlast := fun x hx => hno x (List.mem_append_right _ hx)
    rw [camRun_append]
    generalize hs : camRun c allowed (Cam.reset c m) l = s at *
    simp only [camGiven, camRun, List.append_nil] at hlast ⊢
    refine ⟨?_, ?_⟩
    · rw [reset_flag _ _ _ _ hr]
      by_cases hg : ((s.out i.busy).valid && !i.busy) = true
      · rw [hg, Bool.true_and]
        exact hlast _ (by rw [if_pos hg]; exact List.mem_singleton.2 rfl)
      · simp [hg]
    · simp only [Cam.betaStep, hr, Bool.false_eq_true, if_false, Cam.betaRun]
      refine aged_step ha acceptedAgo_anti ?_ ?_ rfl
      · rintro k ⟨a, j, b, e, v, nr, hk⟩
        exact ⟨a, j, b ++ [i], by simp [e], v, nr, by simp; omega⟩
      · intro hv
        simp only [Bool.and_eq_true, Bool.not_eq_true'] at hv
        exact ⟨l, i, [], rfl, hv.1, by rw [hs]; exact hv.2, Nat.le_refl _⟩

theorem micro_aged {c : CoreCfg} (allowed : Nat) (m : Kept) : ∀ (n : Nat) (ins : List CamIn), ins.length = n →
    (∀ x ∈ microGiven c allowed (Cam.reset c m) ins, x.2 = false) →
    (microRuns c allowed (Cam.reset c m) ins).resetOut = false ∧
    Aged allowed (MicroAcceptedAgo c allowed (Cam.reset c m) ins) (microRuns c allowed (Cam.reset c m) ins).fend
      (microRuns c allowed (Cam.reset c m) ins).marks
  | 0, ins, hn, _ => by
    rw [List.length_eq_zero_iff] at hn; subst hn
    exact ⟨rfl, aged_init _ _⟩
  | n + 1, ins, hn, hno => by
    obtain ⟨l, i, rfl⟩ : ∃ l i, ins = l ++ [i] := ⟨_, _, (List.dropLast_concat_getLast (l := ins) (by intro h; simp [h] at hn)).symm⟩
    rw [microGiven_append] at hno
    obtain ⟨hr, ha⟩ := micro_aged allowed m n l (by simpa using hn) (fun x hx => hno x (List.mem_append_left _ hx))
    have hlast := fun x hx => hno x (List.mem_append_right _ hx)
    rw [microRuns_append]
    generalize hs : microRuns c allowed (Cam.reset c m) l = s at *
    simp only [microGiven, microRuns, List.append_nil] at hlast ⊢
    refine ⟨?_, ?_⟩
    · simp only [Cam.microStep, hr, Bool.false_eq_true, if_false, Cam.microRun, Cam.resetNext, AutoReset.next]
      by_cases hg : ((s.out i.busy).valid && !i.busy) = true
      · rw [hg, Bool.true_and, if_neg]
        have := hlast _ (by rw [if_pos hg]; exact List.mem_singleton.2 rfl)
        simpa using this
      · simp [hg]
    · simp only [Cam.microStep, hr, Bool.false_eq_true, if_false, Cam.microRun]
      refine aged_step ha microAcceptedAgo_anti ?_ ?_ rfl
      · rintro k ⟨a, j, b, e, v, nr, hk⟩
        exact ⟨a, j, b ++ [i], by simp [e], v, nr, by simp; omega⟩
      · intro hv
        simp only [Bool.and_eq_true, Bool.not_eq_true'] at hv
        exact ⟨l, i, [], rfl, hv.1, by rw [hs]; exact hv.2, Nat.le_refl _⟩

/-- C57: a frame of the beta core ends by force (end-flagged word FFFE) only if a pixel group of the same frame was
accepted at least `allowed + 11` cycles earlier; before the first accepted pixel the time does not run. -/
theorem C57_beta_forced_end_in_time (c : CoreCfg) (allowed : Nat) {s : Cam} (hs : CamAfterReset c s) (ins : List CamIn) (i : CamIn)
    (hno : ∀ x ∈ camGiven c allowed s ins, x.2 = false)
    (hw : (0xFFFE, true) ∈ camGiven c allowed s (ins ++ [i])) :
    ∃ pre j post, ins = pre ++ j :: post ∧ j.valid = true ∧ (camRun c allowed s pre).nready = false ∧
      allowed + 10 ≤ post.length := by
  obtain ⟨m, _, rfl⟩ := hs
  obtain ⟨_, ha⟩ := beta_aged allowed m _ ins rfl hno
  rw [camGiven_append] at hw
  rcases List.mem_append.1 hw with hw | hw
  · have := hno _ hw; cases this
  · simp only [camGiven, List.append_nil] at hw
    split at hw
    · have e := List.mem_singleton.1 hw
      rw [Prod.mk.injEq] at e
      exact aged_out ha acceptedAgo_anti e.1.symm e.2.symm
    · cases hw

/-- C57: the same for the micro core. -/
theorem C57_micro_forced_end_in_time (c : CoreCfg) (allowed : Nat) {s : Cam} (hs : CamAfterReset c s) (ins : List CamIn) (i : CamIn)
    (hno : ∀ x ∈ microGiven c allowed s ins, x.2 = false)
    (hw : (0xFFFE, true) ∈ microGiven c allowed s (ins ++ [i])) :
    ∃ pre j post, ins = pre ++ j :: post ∧ j.valid = true ∧ (microRuns c allowed s pre).nready = false ∧
      allowed + 10 ≤ post.length := by
  obtain ⟨m, _, rfl⟩ := hs
  obtain ⟨_, ha⟩ := micro_aged allowed m _ ins rfl hno
  rw [microGiven_append] at hw
  rcases List.mem_append.1 hw with hw | hw
  · have := hno _ hw; cases this
  · simp only [microGiven, List.append_nil] at hw
    split at hw
    · have e := List.mem_singleton.1 hw
      rw [Prod.mk.injEq] at e
      exact aged_out ha microAcceptedAgo_anti e.1.symm e.2.symm
    · cases hw

-- The hypotheses are met: frames that end by force.
set_option maxRecDepth 40000 in
example : (∀ x ∈ camGiven tinyCam 20 (Cam.init tinyCam) (List.replicate 46 ⟨[5], true, false⟩), x.2 = false) ∧
    (0xFFFE, true) ∈ camGiven tinyCam 20 (Cam.init tinyCam) (List.replicate 46 ⟨[5], true, false⟩ ++ [⟨[5], true, false⟩]) ∧
    (∀ x ∈ microGiven tinyCam 20 (Cam.init tinyCam) (List.replicate 46 ⟨[5], true, false⟩), x.2 = false) ∧
    (0xFFFE, true) ∈ microGiven tinyCam 20 (Cam.init tinyCam) (List.replicate 46 ⟨[5], true, false⟩ ++ [⟨[5], true, false⟩]) := by
  refine ⟨?_, ?_, ?_, ?_⟩ <;> decide +kernel

end Props
