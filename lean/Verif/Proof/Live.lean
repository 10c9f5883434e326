/- Liveness of the core under fair infinite schedules. -/
import Verif.Proof.Core

set_option autoImplicit false

namespace Model
open Spec

/-- Holds from some time on. -/
def Ev (P : Nat → Prop) : Prop := ∃ N, ∀ t, N ≤ t → P t

theorem Ev.and {P Q : Nat → Prop} (h1 : Ev P) (h2 : Ev Q) : Ev fun t => P t ∧ Q t := by
  obtain ⟨n, h1⟩ := h1
  obtain ⟨m, h2⟩ := h2
  exact ⟨n + m, fun t ht => ⟨h1 t (by omega), h2 t (by omega)⟩⟩

theorem Ev.mono {P Q : Nat → Prop} (h : Ev P) (hpq : ∀ t, P t → Q t) : Ev Q := by
  obtain ⟨n, h⟩ := h
  exact ⟨n, fun t ht => hpq t (h t ht)⟩

theorem Ev.succ {P : Nat → Prop} (h : Ev P) : Ev fun t => P (t + 1) := by
  obtain ⟨n, h⟩ := h
  exact ⟨n, fun t ht => h _ (by omega)⟩

theorem Ev.of_succ {P : Nat → Prop} (h : Ev fun t => P (t + 1)) : Ev P := by
  obtain ⟨n, h⟩ := h
  refine ⟨n + 1, fun t ht => ?_⟩
  have := h (t - 1) (by omega)
  have e : t - 1 + 1 = t := by omega
  simpa only [e] using this

theorem Ev.of_all {P : Nat → Prop} (h : ∀ t, P t) : Ev P := ⟨0, fun t _ => h t⟩

theorem Ev.false {P : Nat → Prop} (h : Ev P) (hn : ∀ t, ¬ P t) : False := by
  obtain ⟨n, h⟩ := h
  exact hn n (h n (Nat.le_refl _))

/-- A sequence of numbers that eventually never grows is eventually constant. -/
theorem Ev.const {f : Nat → Nat} (h : Ev fun t => f (t + 1) ≤ f t) : Ev fun t => f (t + 1) = f t := by
  obtain ⟨N, h⟩ := h
  suffices H : ∀ v M, N ≤ M → f M = v → Ev fun t => f (t + 1) = f t from H _ N (Nat.le_refl _) rfl
  intro v
  induction v using Nat.strongRecOn with
  | _ v ih =>
    intro M hM hv
    by_cases hc : ∃ t, M ≤ t ∧ f (t + 1) ≠ f t
    · obtain ⟨t, ht, hne⟩ := hc
      have hmon : ∀ n, f (M + n) ≤ f M := by
        intro n
        induction n with
        | zero => exact Nat.le_refl _
        | succ n ihn => exact Nat.le_trans (h (M + n) (by omega)) ihn
      have h1 := h t (by omega)
      have h2 := hmon (t - M)
      rw [Nat.add_sub_cancel' ht] at h2
      exact ih (f (t + 1)) (by omega) (t + 1) (by omega) rfl
    · refine ⟨M, fun t ht => ?_⟩
      apply Classical.byContradiction
      intro hne
      exact hc ⟨t, ht, hne⟩

/-- A growing bounded sequence of numbers is eventually constant. -/
theorem Ev.const_of_bounded {f : Nat → Nat} {B : Nat} (hb : ∀ t, f t ≤ B) (h : ∀ t, f t ≤ f (t + 1)) :
    Ev fun t => f (t + 1) = f t := by
  have := Ev.const (f := fun t => B - f t) (Ev.of_all fun t => by
    have := h t; omega)
  refine this.mono fun t ht => ?_
  have := hb t
  have := hb (t + 1)
  have := h t
  omega

/-- A property that persists and keeps occurring holds from some time on. -/
theorem Ev.absorb {P : Nat → Prop} (h : Ev fun t => P t → P (t + 1)) (ho : ∀ N, ∃ t, N ≤ t ∧ P t) : Ev P := by
  obtain ⟨N, h⟩ := h
  obtain ⟨m, hm, hp⟩ := ho N
  refine ⟨m, fun t ht => ?_⟩
  have : ∀ n, P (m + n) := by
    intro n
    induction n with
    | zero => exact hp
    | succ n ih => exact h (m + n) (by omega) ih
  have := this (t - m)
  rwa [Nat.add_sub_cancel' ht] at this

/-- Core state at time `t` of an infinite schedule. -/
def Int3.at (c : CoreCfg) (s : Int3) (u : Nat → CoreIn) : Nat → Int3
  | 0 => s
  | t + 1 => (Int3.at c s u t).step c (u t).pixels (u t).valid (u t).busy

/-- The first `t` cycles of an infinite schedule. -/
def cyclesOf (u : Nat → CoreIn) (t : Nat) : List CoreIn := (List.range t).map u

theorem cyclesOf_succ (u : Nat → CoreIn) (t : Nat) : cyclesOf u (t + 1) = cyclesOf u t ++ [u t] := by
  simp [cyclesOf, List.range_succ]

theorem Int3.at_run (c : CoreCfg) (s : Int3) (u : Nat → CoreIn) (t : Nat) :
    Int3.at c s u t = Int3.run c s (cyclesOf u t) := by
  induction t with
  | zero => rfl
  | succ t ih => rw [cyclesOf_succ, run_append, ← ih]; rfl

namespace Live

variable {c : CoreCfg} {C : Nat} {T : Table}

/-- What is known of a live core at one time with pipeline items `its`. -/
def J (c : CoreCfg) (C : Nat) (T : Table) (s : Int3) (its : List Item) : Prop :=
  ∃ hist k recv sent, Int2.Inv c C T hist k its s.int2 recv ∧
    VBits.Live c.out c.conv c.buf s.vbits sent recv

theorem live_of_inv {out conv buf : Nat} {s : VBits} {sent : List (Nat × Bool)}
    {recv : List (Option Bool)} (h : VBits.Inv out conv buf s sent recv) (hd : s.ofsm ≠ .done) :
    VBits.Live out conv buf s sent recv := by
  rcases h with h | h
  · exact h
  · exact absurd h.fsm hd

/-- Inputs of the schedule are within the port widths. -/
def WfAt (c : CoreCfg) (i : CoreIn) : Prop :=
  i.valid = true → i.pixels.length = c.int1.ps ∧ ∀ x ∈ i.pixels, x < 2 ^ c.int1.bd

theorem J_step (hok : CoreOk c C T) {s : Int3} {its : List Item} (h : J c C T s its) (i : CoreIn)
    (hwf : WfAt c i) (hacc : (i.valid && !s.nready) = false)
    (hd : (s.step c i.pixels i.valid i.busy).vbits.ofsm ≠ .done) :
    J c C T (s.step c i.pixels i.valid i.busy) ((none :: its).dropLast) := by
  obtain ⟨hist, k, recv, sent, h1, h2⟩ := h
  have hs := Int2.step_ok hok h1 s.vbits.latch hwf
  have hin : s.int2.valid = true → (s.int2.out c).Ok c.conv := by
    intro hr
    apply h1.cok
    rw [Fifo.contents_readable hr]; simp
  have hw : WellMarked (recv ++ if s.vbits.latch && s.int2.valid then (s.int2.out c).flat else []) := by
    have := hs.stream
    apply WellMarked.prefix (b := Int2.pend c (s.int2.step c i.pixels i.valid s.vbits.latch)
      ((Int2.newItem c C T hist k i.pixels (i.valid && !s.int2.nready) :: its).dropLast))
    show WellMarked (recv ++ (if s.vbits.latch && s.int2.cfifo.readable then (s.int2.out c).flat else []) ++ _)
    rw [this]
    exact wellMarked_marked _ _ _ _ _
  have hv := VBits.step_ok hok.out hok.buf (Or.inl h2) (busy := i.busy) hin hw
  have hacc' : (i.valid && !s.int2.nready) = false := hacc
  rw [hacc'] at hs
  simp only [Int2.newItem, Bool.false_eq_true, if_false] at hs
  exact ⟨_, _, _, _, hs, live_of_inv hv hd⟩

/-- Items after `n` cycles without acceptance. -/
theorem J_steps (hok : CoreOk c C T) {s0 : Int3} {u : Nat → CoreIn} (hwf : ∀ t, WfAt c (u t))
    (hd : ∀ t, (Int3.at c s0 u t).vbits.ofsm ≠ .done) {N : Nat}
    (hacc : ∀ t, N ≤ t → ((u t).valid && !(Int3.at c s0 u t).nready) = false) {its : List Item}
    (h : J c C T (Int3.at c s0 u N) its) (n : Nat) :
    J c C T (Int3.at c s0 u (N + n)) ((List.replicate n none ++ its).take its.length) := by
  induction n with
  | zero => simpa using h
  | succ n ih =>
    have := J_step hok ih (u (N + n)) (hwf _) (hacc _ (by omega)) (hd (N + n + 1))
    have e : (none :: (List.replicate n (none : Item) ++ its).take its.length).dropLast =
        (List.replicate (n + 1) none ++ its).take its.length := by
      rw [List.dropLast_eq_take, List.length_cons, List.length_take, List.length_append, List.length_replicate,
        Nat.min_eq_left (by omega), List.replicate_succ, List.cons_append]
      cases its with
      | nil => simp
      | cons a l =>
        simp only [List.length_cons, Nat.add_sub_cancel, List.take_succ_cons, List.take_take]
        congr 2
        omega
    rw [e] at this
    exact this

/-! Per-cycle facts of a core whose encoding pipeline is empty -/

/-- The empty pipeline. -/
abbrev noItems (c : CoreCfg) : List Item := List.replicate (5 + levels c.int1.ps) none

theorem no_output (hok : CoreOk c C T) {s : Int3} (h : J c C T s (noItems c)) :
    (s.int2.int1.out c.int1).valid = false := by
  obtain ⟨hist, k, recv, sent, h1, h2⟩ := h
  have hne : noItems c ≠ [] := by
    intro hh; have := congrArg List.length hh; simp at this
  have := int1_out hok.int1 h1.int1 hne
  have hl : (noItems c).getLast hne = none := List.eq_of_mem_replicate (List.getLast_mem hne)
  rw [hl] at this
  exact this

theorem fifo_level {depth : Nat} {s : Fifo} (h : s.Inv depth) (din : Nat) (re : Bool) :
    (s.step depth false din re).level + (re && s.readable).toNat = s.level := by
  rw [← Fifo.contents_length depth, Fifo.contents_step h, ← Fifo.contents_length depth]
  cases hr : s.readable <;> cases re <;> simp
  rw [Fifo.contents_readable hr]; simp

theorem fifo_empty {depth : Nat} {s : Fifo} (din : Nat) (re we : Bool) (h : s.readable = false)
    (h' : (s.step depth we din re).readable = false) : s.level = 0 := by
  rw [Fifo.readable_step] at h'
  simp [h, SyncFifo.readable] at h'
  simp [Fifo.level, h, h']

theorem fifo_contents {depth : Nat} {s : Fifo} (h : s.level = 0) : s.contents depth = [] := by
  rw [← List.length_eq_zero_iff, Fifo.contents_length, h]

theorem pfifo_step (hok : CoreOk c C T) {s : Int3} (h : J c C T s (noItems c)) (i : CoreIn) :
    (s.step c i.pixels i.valid i.busy).int2.pfifo.level + (s.int2.conv.latch && s.int2.pfifo.readable).toNat
      = s.int2.pfifo.level := by
  have ho := no_output hok h
  obtain ⟨hist, k, recv, sent, h1, h2⟩ := h
  simp only [Int3.step, Int2.step, ho]
  exact fifo_level h1.pinv _ _

theorem conv_step (hok : CoreOk c C T) {s : Int3} (h : J c C T s (noItems c)) (i : CoreIn)
    (hp : (s.int2.conv.latch && s.int2.pfifo.readable) = false) :
    (s.step c i.pixels i.valid i.busy).int2.conv.outFlat.length +
      ((s.step c i.pixels i.valid i.busy).int2.conv.rest c.conv).length =
      (s.int2.conv.rest c.conv).length := by
  obtain ⟨hist, k, recv, sent, h1, h2⟩ := h
  have hcin : s.int2.pfifo.readable = true → (Code.unpack c.total s.int2.pfifo.dout).Ok c.total := by
    intro hr
    apply h1.pok
    rw [Fifo.contents_readable hr]; simp
  have := (Converter.step_ok (total := c.total) hok.conv1 h1.conv (cf := s.int2.cFull) hcin).2
  rw [hp] at this
  simp only [Bool.false_eq_true, if_false, List.append_nil] at this
  rw [← List.length_append, ← this]
  rfl

theorem conv_quiet {s : Int3} (h : J c C T s (noItems c)) (ho : s.int2.conv.outFlat = []) :
    s.int2.conv.valid = false := by
  obtain ⟨hist, k, recv, sent, h1, h2⟩ := h
  cases hv : s.int2.conv.valid with
  | false => rfl
  | true =>
    unfold Converter.outFlat at ho
    rw [hv] at ho
    exact absurd ho (Code.flat_ne_nil (h1.conv.out hv))

theorem cfifo_step {s : Int3} (h : J c C T s (noItems c)) (i : CoreIn)
    (hv : s.int2.conv.valid = false) :
    (s.step c i.pixels i.valid i.busy).int2.cfifo.level + (s.vbits.latch && s.int2.cfifo.readable).toNat
      = s.int2.cfifo.level := by
  obtain ⟨hist, k, recv, sent, h1, h2⟩ := h
  simp only [Int3.step, Int2.step, hv]
  exact fifo_level h1.cinv _ _

theorem pendIn_step {s : Int3} (h : J c C T s (noItems c)) (i : CoreIn)
    (hp : (s.vbits.latch && s.int2.cfifo.readable) = false) :
    (s.step c i.pixels i.valid i.busy).vbits.pendIn.length +
      (if s.vbits.incBuff then s.vbits.reg.flat else []).length = s.vbits.pendIn.length := by
  obtain ⟨hist, k, recv, sent, h1, h2⟩ := h
  have hin : s.int2.valid = true → (s.int2.out c).Ok c.conv := by
    intro hr
    apply h1.cok
    rw [Fifo.contents_readable hr]; simp
  have := (VBits.inStep_ok h2.inp (inp := s.int2.out c) hin).1
  have hp' : (s.vbits.latch && s.int2.valid) = false := hp
  rw [hp'] at this
  simp only [Bool.false_eq_true, if_false, List.append_nil] at this
  rw [← this, List.length_append, Nat.add_comm]
  rfl

theorem inc_quiet {s : Int3} (h : J c C T s (noItems c))
    (hl : (if s.vbits.incBuff then s.vbits.reg.flat else []).length = 0) : s.vbits.incBuff = false := by
  obtain ⟨hist, k, recv, sent, h1, h2⟩ := h
  cases hi : s.vbits.incBuff with
  | false => rfl
  | true =>
    rw [hi] at hl
    have hok := ((VBits.inStep_ok h2.inp (inp := Code.zero) (v := false) (by simp)).2.1 hi).1
    exact absurd (List.length_eq_zero_iff.1 hl) (Code.flat_ne_nil hok)

theorem consum_step (hok : CoreOk c C T) {s : Int3} (h : J c C T s (noItems c)) (i : CoreIn)
    (hi : s.vbits.incBuff = false) (hd : (s.step c i.pixels i.valid i.busy).vbits.ofsm ≠ .done) :
    (s.step c i.pixels i.valid i.busy).vbits.consum +
      (if s.vbits.doOutput c.out i.busy then c.out else 0) = s.vbits.consum := by
  obtain ⟨hist, k, recv, sent, h1, h2⟩ := h
  cases hdo : s.vbits.doOutput c.out i.busy with
  | false => simp [Int3.step, VBits.step, hi, hdo]
  | true =>
    have hge : c.out ≤ s.vbits.consum := by
      have hd' : ¬ (s.vbits.consum ≤ c.out ∧ s.vbits.endIn = true) := by
        intro hh
        apply hd
        simp [Int3.step, VBits.step, VBits.outStep, hdo, hh]
      unfold VBits.doOutput at hdo
      cases hf : s.vbits.ofsm <;> rw [hf] at hdo <;> simp at hdo
      · rcases hdo with hdo | hdo
        · exact hdo
        · exact absurd hdo hd'
      · exact hdo.2
    have hst : s.vbits.start = true := by
      cases hs : s.vbits.start with
      | true => rfl
      | false =>
        have := h2.count
        rw [hs] at this
        simp only [Bool.false_eq_true, if_false] at this
        rw [this] at hge
        have := hok.out
        simp [VBits.init] at hge; omega
    have hcnt := h2.count
    rw [hst] at hcnt
    simp only [if_true] at hcnt
    simp only [Int3.step, VBits.step, hi, hdo, Bool.or_true, if_true]
    rw [VBits.trunc_eq (n := s.vbits.consum - c.out)]
    · omega
    · simp; omega
    · exact Nat.lt_of_le_of_lt (by omega) (Code.lt_two_pow_bitsFor c.buf)

/-- The core delivers an end-flagged word under every fair schedule. -/
theorem end_reached (hok : CoreOk c C T) {s0 : Int3} (hs0 : AfterReset c s0) {u : Nat → CoreIn}
    (hwf : ∀ t, WfAt c (u t)) (hprod : ∀ n, ∃ m, n ≤ m ∧ (u m).valid = true)
    (hcons : ∀ n, ∃ m, n ≤ m ∧ (u m).busy = false) :
    ∃ t w, (w, true) ∈ Int3.delivered c s0 (cyclesOf u t) := by
  apply Classical.byContradiction
  intro hno
  have hno : ∀ t w, (w, true) ∉ Int3.delivered c s0 (cyclesOf u t) :=
    fun t w hh => hno ⟨t, w, hh⟩
  have hwfl : ∀ t, Int3.Wf c (cyclesOf u t) := by
    intro t i hi
    simp only [cyclesOf, List.mem_map] at hi
    obtain ⟨n, _, rfl⟩ := hi
    exact hwf n
  have hinv : ∀ t, ∃ k, Int3.Inv c C T (Int3.accepted c s0 (cyclesOf u t)) k (Int3.at c s0 u t)
      (Int3.delivered c s0 (cyclesOf u t)) := by
    intro t
    rw [Int3.at_run]
    exact run_from_reset hok hs0 (hwfl t)
  generalize hσ : Int3.at c s0 u = σ at hinv
  have hstep : ∀ t, σ (t + 1) = (σ t).step c (u t).pixels (u t).valid (u t).busy := by
    intro t; rw [← hσ]; rfl
  have hrun : ∀ t, Int3.run c s0 (cyclesOf u t) = σ t := by
    intro t; rw [← hσ, Int3.at_run]
  -- never done
  have hnd : ∀ t, (σ t).vbits.ofsm ≠ .done := by
    intro t hd
    obtain ⟨k, its, recv, h1, h2⟩ := hinv t
    have hdone : (σ t).vbits.valid = true ∧ (σ t).vbits.endd = true := by
      rcases h2 with h2 | h2
      · exact absurd hd h2.outp.done
      · exact ⟨h2.valid, h2.endd⟩
    have hpers : ∀ n, (σ (t + n)).vbits.ofsm = .done ∧ (σ (t + n)).vbits.valid = true ∧
        (σ (t + n)).vbits.endd = true := by
      intro n
      induction n with
      | zero => exact ⟨hd, hdone⟩
      | succ n ih =>
        obtain ⟨i1, i2, i3⟩ := ih
        rw [← Nat.add_assoc, hstep]
        simp [Int3.step, VBits.step, VBits.outStep, VBits.doOutput, i1, i2, i3]
    obtain ⟨m, hm, hb⟩ := hcons t
    have hp := hpers (m - t)
    rw [Nat.add_sub_cancel' hm] at hp
    apply hno (m + 1) (σ m).vbits.data
    rw [cyclesOf_succ, delivered_append, hrun]
    apply List.mem_append_right
    simp [Int3.delivered, Int3.valid, Int3.data, Int3.endd, hp, hb]
  -- acceptance stops
  have hps : 0 < c.int1.ps := by have := hok.int1.ps; omega
  have hacc : Ev fun t => ((u t).valid && !(σ t).nready) = false := by
    have hlen : ∀ t, (Int3.accepted c s0 (cyclesOf u (t + 1))).length =
        (Int3.accepted c s0 (cyclesOf u t)).length +
          if (u t).valid && !(σ t).nready then c.int1.ps else 0 := by
      intro t
      rw [cyclesOf_succ, accepted_append, hrun, List.length_append]
      simp only [Int3.accepted, List.append_nil]
      split
      · rename_i hv
        simp only [Bool.and_eq_true] at hv
        rw [(hwf t hv.1).1]
      · rfl
    have := Ev.const_of_bounded (f := fun t => (Int3.accepted c s0 (cyclesOf u t)).length)
      (B := c.int1.ps * (C * c.int1.H))
      (by
        intro t
        obtain ⟨k, hi⟩ := hinv t
        have hl := Int3.inv_len hi
        obtain ⟨its, recv, h1, h2⟩ := hi
        simp only [hl]
        exact Nat.mul_le_mul_left _ h1.kle)
      (by intro t; simp only [hlen t]; omega)
    refine this.mono fun t ht => ?_
    have ht : _ = _ := ht
    rw [hlen t] at ht
    cases ha : ((u t).valid && !(σ t).nready) with
    | false => rfl
    | true => rw [ha] at ht; simp at ht; omega
  -- the pipeline drains
  have hJ : Ev fun t => J c C T (σ t) (noItems c) := by
    obtain ⟨N, hN⟩ := hacc
    obtain ⟨k, its, recv, h1, h2⟩ := hinv N
    have hj : J c C T (Int3.at c s0 u N) its := by
      rw [hσ]; exact ⟨_, _, _, _, h1, live_of_inv h2 (hnd N)⟩
    have := J_steps hok hwf (by rw [hσ]; exact hnd) (by rw [hσ]; exact hN) hj
    rw [hσ] at this
    refine ⟨N + its.length, fun t ht => ?_⟩
    have := this (t - N)
    rw [Nat.add_sub_cancel' (by omega), List.take_append_of_le_length (by simp; omega),
      List.take_replicate, Nat.min_eq_left (by omega), h1.itsLen] at this
    exact this
  -- pipeline FIFO
  have hpp : Ev fun t => ((σ t).int2.conv.latch && (σ t).int2.pfifo.readable) = false := by
    have hs : Ev fun t => (σ (t + 1)).int2.pfifo.level +
        ((σ t).int2.conv.latch && (σ t).int2.pfifo.readable).toNat = (σ t).int2.pfifo.level :=
      hJ.mono fun t hj => by rw [hstep]; exact pfifo_step hok hj (u t)
    have hc := Ev.const (f := fun t => (σ t).int2.pfifo.level) (hs.mono fun t h => by
      show _ ≤ _; omega)
    refine (hs.and hc).mono fun t h => ?_
    obtain ⟨h1, h2⟩ := h
    have h2 : _ = _ := h2
    have : ((σ t).int2.conv.latch && (σ t).int2.pfifo.readable).toNat = 0 := by omega
    simpa using this
  -- converter
  have hcv : Ev fun t => (σ t).int2.conv.valid = false := by
    have hs : Ev fun t => (σ (t + 1)).int2.conv.outFlat.length +
        ((σ (t + 1)).int2.conv.rest c.conv).length = ((σ t).int2.conv.rest c.conv).length :=
      (hJ.and hpp).mono fun t h => by rw [hstep]; exact conv_step hok h.1 (u t) h.2
    have hc := Ev.const (f := fun t => ((σ t).int2.conv.rest c.conv).length) (hs.mono fun t h => by
      show _ ≤ _; omega)
    apply Ev.of_succ
    refine ((hs.and hc).and hJ.succ).mono fun t h => ?_
    obtain ⟨⟨h1, h2⟩, h3⟩ := h
    have h2 : _ = _ := h2
    exact conv_quiet h3 (List.length_eq_zero_iff.1 (by omega))
  -- converter FIFO
  have hcp : Ev fun t => ((σ t).vbits.latch && (σ t).int2.cfifo.readable) = false := by
    have hs : Ev fun t => (σ (t + 1)).int2.cfifo.level +
        ((σ t).vbits.latch && (σ t).int2.cfifo.readable).toNat = (σ t).int2.cfifo.level :=
      (hJ.and hcv).mono fun t h => by rw [hstep]; exact cfifo_step h.1 (u t) h.2
    have hc := Ev.const (f := fun t => (σ t).int2.cfifo.level) (hs.mono fun t h => by
      show _ ≤ _; omega)
    refine (hs.and hc).mono fun t h => ?_
    obtain ⟨h1, h2⟩ := h
    have h2 : _ = _ := h2
    have : ((σ t).vbits.latch && (σ t).int2.cfifo.readable).toNat = 0 := by omega
    simpa using this
  -- packer input
  have hinc : Ev fun t => (σ t).vbits.incBuff = false := by
    have hs : Ev fun t => (σ (t + 1)).vbits.pendIn.length +
        (if (σ t).vbits.incBuff then (σ t).vbits.reg.flat else []).length = (σ t).vbits.pendIn.length :=
      (hJ.and hcp).mono fun t h => by rw [hstep]; exact pendIn_step h.1 (u t) h.2
    have hc := Ev.const (f := fun t => (σ t).vbits.pendIn.length) (hs.mono fun t h => by
      show _ ≤ _; omega)
    refine ((hs.and hc).and hJ).mono fun t h => ?_
    obtain ⟨⟨h1, h2⟩, h3⟩ := h
    have h2 : _ = _ := h2
    exact inc_quiet h3 (by omega)
  -- packer output
  have hdo : Ev fun t => (σ t).vbits.doOutput c.out (u t).busy = false := by
    have hs : Ev fun t => (σ (t + 1)).vbits.consum +
        (if (σ t).vbits.doOutput c.out (u t).busy then c.out else 0) = (σ t).vbits.consum :=
      (hJ.and hinc).mono fun t h => by
        rw [hstep]; exact consum_step hok h.1 (u t) h.2 (by rw [← hstep]; exact hnd _)
    have hc := Ev.const (f := fun t => (σ t).vbits.consum) (hs.mono fun t h => by
      show _ ≤ _; omega)
    refine (hs.and hc).mono fun t h => ?_
    obtain ⟨h1, h2⟩ := h
    have h2 : _ = _ := h2
    have ho := hok.out
    cases hd : (σ t).vbits.doOutput c.out (u t).busy with
    | false => rfl
    | true => rw [hd] at h1; simp only [if_true] at h1; omega
  -- the output register is idle
  have hof : Ev fun t => (σ t).vbits.ofsm = .output := by
    have hone : Ev fun t => ((σ t).vbits.ofsm = .output → (σ (t + 1)).vbits.ofsm = .output) ∧
        ((u t).busy = false → (σ (t + 1)).vbits.ofsm = .output) := by
      refine hdo.mono fun t h => ?_
      rw [hstep]
      simp only [Int3.step, VBits.step, VBits.outStep, h, Bool.false_eq_true, if_false]
      cases hf : (σ t).vbits.ofsm with
      | output => simp
      | burst => cases (u t).busy <;> simp
      | done => exact absurd hf (hnd t)
    refine Ev.absorb (hone.mono fun t h => h.1) ?_
    intro N
    obtain ⟨M, hM⟩ := hone
    obtain ⟨m, hm, hb⟩ := hcons (N + M)
    exact ⟨m + 1, by omega, (hM m (by omega)).2 hb⟩
  have hlow : Ev fun t => (σ t).vbits.consum < c.out ∧ (σ t).vbits.endIn = false := by
    refine (hdo.and hof).mono fun t h => ?_
    obtain ⟨h1, h2⟩ := h
    unfold VBits.doOutput at h1
    rw [h2] at h1
    simp only [ge_iff_le, Bool.or_eq_false_iff, decide_eq_false_iff_not, Bool.and_eq_false_iff] at h1
    refine ⟨by omega, ?_⟩
    rcases h1.2 with h3 | h3
    · omega
    · exact h3
  have hfree : Ev fun t => c.conv ≤ (σ t).vbits.free := by
    have hst : Ev fun t => (σ t).vbits.start = true :=
      Ev.of_succ (Ev.of_all fun t => by rw [hstep]; rfl)
    refine ((hst.and hlow).and hJ).mono fun t h => ?_
    obtain ⟨⟨h1, h2⟩, hist, k, recv, sent, _, h3⟩ := h
    have := h3.count
    rw [h1] at this
    simp only [if_true] at this
    have := hok.buf
    omega
  -- the input handler waits in BURST
  have hncl : Ev fun t => (σ t).vbits.ifsm ≠ .cleanBuffer := by
    refine hinc.mono fun t h hh => ?_
    unfold VBits.incBuff at h
    rw [hh] at h
    simp at h
  have hbv : Ev fun t => (σ t).vbits.ifsm = .burst → (σ t).vbits.validReg = false := by
    refine ((hinc.and hfree).and hJ).mono fun t h hh => ?_
    obtain ⟨⟨h1, h2⟩, hist, k, recv, sent, _, h3⟩ := h
    cases hv : (σ t).vbits.validReg with
    | false => rfl
    | true =>
      have := (h3.inp.burst hh hv).ctr
      unfold VBits.incBuff at h1
      rw [hh, hv] at h1
      simp at h1
      omega
  have hib : Ev fun t => (σ t).vbits.ifsm = .burst := by
    have hone : Ev fun t => ((σ t).vbits.ifsm = .burst → (σ (t + 1)).vbits.ifsm = .burst) ∧
        ((σ t).vbits.ifsm = .registerForBurst → (σ (t + 1)).vbits.ifsm = .burst) ∧
        ((σ t).vbits.ifsm = .input → (σ (t + 1)).vbits.ifsm = .burst ∨
          (σ (t + 1)).vbits.ifsm = .registerForBurst) := by
      refine ((hbv.and hncl.succ).and (hfree.and hJ)).mono fun t h => ?_
      obtain ⟨⟨h1, h2⟩, h3, hist, k, recv, sent, _, h4⟩ := h
      rw [hstep] at h2 ⊢
      simp only [Int3.step, VBits.step, VBits.inStep] at h2 ⊢
      refine ⟨?_, ?_, ?_⟩
      · intro hf
        simp [hf, h1 hf]
      · intro hf
        simp [hf]
      · intro hf
        simp only [hf] at h2 ⊢
        cases hb : (σ t).vbits.validBf with
        | true =>
          exfalso
          have := ((h4.inp.input hf).1 hb).ctr
          simp only [hb, if_true] at h2
          rw [if_pos (by omega)] at h2
          simp at h2
        | false =>
          cases hr : (σ t).vbits.validReg <;> simp
    refine Ev.absorb (hone.mono fun t h => h.1) ?_
    intro N
    obtain ⟨M, hM⟩ := hone
    obtain ⟨M', hM'⟩ := hncl
    have hM0 := hM (N + M + M') (by omega)
    have hM1 := hM (N + M + M' + 1) (by omega)
    have hc := hM' (N + M + M') (by omega)
    cases hf : (σ (N + M + M')).vbits.ifsm with
    | burst => exact ⟨_, by omega, hf⟩
    | registerForBurst => exact ⟨_, by omega, hM0.2.1 hf⟩
    | cleanBuffer => exact absurd hf hc
    | input =>
      rcases hM0.2.2 hf with h | h
      · exact ⟨_, by omega, h⟩
      · exact ⟨_, by omega, hM1.2.1 h⟩
  have hcr : Ev fun t => (σ t).int2.cfifo.readable = false := by
    refine ((hib.and hcp).and hJ).mono fun t h => ?_
    obtain ⟨⟨h1, h2⟩, hist, k, recv, sent, _, h3⟩ := h
    have := h3.inp.latch
    rw [h1] at this
    rw [this] at h2
    simpa using h2
  have hcl : Ev fun t => (σ t).int2.cfifo.level = 0 := by
    refine (hcr.and hcr.succ).mono fun t h => ?_
    obtain ⟨h1, h2⟩ := h
    rw [hstep] at h2
    exact fifo_empty _ _ _ h1 h2
  have hcf : Ev fun t => (σ t).int2.cFull = false := by
    apply Ev.of_succ
    refine hcl.mono fun t h => ?_
    rw [hstep]
    simp only [Int3.step, Int2.step, h]
    have := hok.cdepth
    simp; omega
  -- the converter waits
  have hconv : Ev fun t => (σ t).int2.conv.validReg = false ∧ (σ t).int2.pfifo.readable = false ∧
      ((σ t).int2.conv.fsm = .burst ∨ (σ t).int2.conv.fsm = .idle) := by
    have hone : Ev fun t => (∀ i, (σ t).int2.conv.fsm ≠ .steps i) ∧
        ((σ t).int2.conv.fsm = .burst → (σ t).int2.conv.validReg = false ∧
          (σ t).int2.pfifo.readable = false ∧ (σ (t + 1)).int2.conv.fsm = .burst) ∧
        ((σ t).int2.conv.fsm = .burstPrepare → (σ (t + 1)).int2.conv.fsm = .burst) ∧
        ((σ t).int2.conv.fsm = .idle →
          ((σ t).int2.conv.validReg = false ∧ (σ t).int2.pfifo.readable = false) ∨
          (σ (t + 1)).int2.conv.fsm = .burst ∨ (σ (t + 1)).int2.conv.fsm = .burstPrepare) := by
      refine ((hcv.succ.and hcf).and (hpp.and hJ)).mono fun t h => ?_
      obtain ⟨⟨h1, h2⟩, h3, hist, k, recv, sent, h4, _⟩ := h
      have hl := h4.conv.latch
      rw [hstep] at h1 ⊢
      simp only [Int3.step, Int2.step, Converter.step, h2] at h1 ⊢
      refine ⟨?_, ?_, ?_, ?_⟩
      · intro i hf
        simp only [hf] at h1
        split at h1
        · rw [(Converter.tryBurst_keeps _ _ _ _).1] at h1; simp at h1
        · simp at h1
      · intro hf
        simp only [hf] at h1 hl ⊢
        have hv : (σ t).int2.conv.validReg = false := by
          cases hv : (σ t).int2.conv.validReg with
          | false => rfl
          | true =>
            exfalso
            simp only [hv, if_true] at h1
            split at h1
            · simp at h1
            · split at h1 <;> simp at h1
        rw [hl] at h3
        refine ⟨hv, by simpa using h3, ?_⟩
        simp [hv, Converter.regData, hf]
      · intro hf
        simp [hf]
      · intro hf
        simp only [hf]
        unfold Converter.tryBurst
        cases (σ t).int2.conv.validReg <;> cases (σ t).int2.pfifo.readable <;> simp
    obtain ⟨N, hN⟩ := hone
    by_cases hex : ∃ t, N ≤ t ∧ (σ t).int2.conv.fsm = .burst
    · obtain ⟨m, hm, hf⟩ := hex
      refine ⟨m, fun t ht => ?_⟩
      have hall : ∀ n, (σ (m + n)).int2.conv.fsm = .burst := by
        intro n
        induction n with
        | zero => exact hf
        | succ n ih => exact ((hN (m + n) (by omega)).2.1 ih).2.2
      have hb := hall (t - m)
      rw [Nat.add_sub_cancel' ht] at hb
      have := (hN t (by omega)).2.1 hb
      exact ⟨this.1, this.2.1, Or.inl hb⟩
    · have hnb : ∀ t, N ≤ t → (σ t).int2.conv.fsm ≠ .burst := fun t ht hf => hex ⟨t, ht, hf⟩
      have hnp : ∀ t, N ≤ t → (σ t).int2.conv.fsm ≠ .burstPrepare :=
        fun t ht hf => hnb (t + 1) (by omega) ((hN t ht).2.2.1 hf)
      refine ⟨N, fun t ht => ?_⟩
      obtain ⟨h1, h2, h3, h4⟩ := hN t ht
      cases hf : (σ t).int2.conv.fsm with
      | burst => exact absurd hf (hnb t ht)
      | burstPrepare => exact absurd hf (hnp t ht)
      | steps i => exact absurd hf (h1 i)
      | idle =>
        rcases h4 hf with h | h | h
        · exact ⟨h.1, h.2, Or.inr rfl⟩
        · exact absurd h (hnb _ (by omega))
        · exact absurd h (hnp _ (by omega))
  have hpl : Ev fun t => (σ t).int2.pfifo.level = 0 := by
    refine (hconv.and hconv.succ).mono fun t h => ?_
    obtain ⟨h1, h2⟩ := h
    rw [hstep] at h2
    exact fifo_empty _ _ _ h1.2.1 h2.2.1
  have hpf : Ev fun t => (σ t).int2.pFull = false := by
    apply Ev.of_succ
    refine hpl.mono fun t h => ?_
    rw [hstep]
    simp only [Int3.step, Int2.step, h]
    have := hok.depth
    simp; omega
  have hctr : ∀ t, (σ t).int2.nreadyCtr = t % 8 := by
    intro t
    induction t with
    | zero =>
      obtain ⟨m, _, rfl⟩ := hs0
      rw [← hσ]; rfl
    | succ t ih =>
      rw [hstep]
      simp only [Int3.step, Int2.step, ih]
      omega
  have hrst : Ev fun t => (σ t).int2.nreadyReset = true := by
    refine Ev.absorb (Ev.of_all fun t h => ?_) ?_
    · rw [hstep]
      simp only [Int3.step, Int2.step]
      split
      · rfl
      · exact h
    · intro N
      refine ⟨8 * N + 7 + 1, by omega, ?_⟩
      rw [hstep]
      simp only [Int3.step, Int2.step, hctr]
      rw [if_pos (by omega)]
  -- contradiction
  obtain ⟨N, hN⟩ := ((((hJ.and hacc).and (hpf.and hrst)).and ((hconv.and hpl).and (hcl.and hcv))).and
    ((hib.and hbv).and hlow))
  obtain ⟨m, hm, hv⟩ := hprod N
  obtain ⟨⟨⟨⟨hj, ha⟩, hf, hr⟩, ⟨hco, hl⟩, hc, hq⟩, ⟨hb, hbv⟩, hlo⟩ := hN m hm
  obtain ⟨hist, k, recv, sent, h1, h2⟩ := hj
  have hk : k = C * c.int1.H := by
    have hn : (σ m).nready = (σ m).int2.nreadyEnd := by simp [Int3.nready, Int2.nready, hf, hr]
    rw [hv, hn, h1.endN] at ha
    simpa using ha
  have hst := h1.stream
  have hpend : Int2.pend c (σ m).int2 (noItems c) = [] := by
    have e1 : itsFlat (noItems c) = [] := by
      unfold itsFlat
      rw [List.flatMap_eq_nil_iff]
      intro x hx
      rw [List.reverse_replicate] at hx
      rw [List.eq_of_mem_replicate hx]; rfl
    have e2 : (σ m).int2.conv.rest c.conv = [] := by
      unfold Converter.rest Converter.remaining
      rcases hco.2.2 with h | h <;> simp [h, hco.1]
    have e3 : (σ m).int2.conv.outFlat = [] := by simp [Converter.outFlat, hq]
    simp [Int2.pend, e1, e2, e3, fifo_contents hl, fifo_contents hc, Code.flats]
  rw [hpend, hk] at hst
  have hvs := h2.stream
  have hpi : (σ m).vbits.pendIn = [] := by simp [VBits.pendIn, hb, hbv hb]
  rw [hlo.2, hpi] at hvs
  simp only [Bool.false_eq_true, if_false, List.append_nil] at hvs
  rw [List.append_nil, ← hvs] at hst
  have : (none : Option Bool) ∈ marked T c.int1.bd c.int1.W hist (decide (C * c.int1.H = C * c.int1.H)) := by
    simp [marked]
  rw [← hst] at this
  simp at this

end Live
end Model
