/- Runs of `Integration2` with an arbitrary reader behind it: what the pieces say, and liveness. -/
import Verif.Proof.Live

set_option autoImplicit false

namespace Model
open Spec

/-- The inputs of `Integration2` in one cycle (integration_2.py:22-32). -/
structure Int2In where
  pixels : List Nat
  valid : Bool
  latch : Bool
deriving DecidableEq, Repr

namespace Int2

/-- State after the given cycles. -/
def run (c : CoreCfg) : Int2 → List Int2In → Int2
  | s, [] => s
  | s, i :: r => run c (s.step c i.pixels i.valid i.latch) r

/-- Pixels taken: shown with `valid_in` while `nready` is low. -/
def taken (c : CoreCfg) : Int2 → List Int2In → List Nat
  | _, [] => []
  | s, i :: r => (if i.valid && !s.nready then i.pixels else []) ++ taken c (s.step c i.pixels i.valid i.latch) r

/-- Pieces read: shown with `valid_out` while `latch_output` is high. -/
def pieces (c : CoreCfg) : Int2 → List Int2In → List Code
  | _, [] => []
  | s, i :: r => (if i.latch && s.valid then [s.out c] else []) ++ pieces c (s.step c i.pixels i.valid i.latch) r

/-- Every valid cycle carries `ps` pixels of `bd` bits. -/
def Wf (c : CoreCfg) (ins : List Int2In) : Prop :=
  ∀ i ∈ ins, i.valid = true → i.pixels.length = c.int1.ps ∧ ∀ x ∈ i.pixels, x < 2 ^ c.int1.bd

/-- The stream of a list of pieces. -/
def flatOf (l : List Code) : List (Option Bool) := l.flatMap Code.flat

theorem run_ok {c : CoreCfg} {C : Nat} {T : Table} (hok : CoreOk c C T) : ∀ (ins : List Int2In) {hist : List Nat} {k : Nat}
    {its : List Item} {s : Int2} {sent : List (Option Bool)}, Inv c C T hist k its s sent → Wf c ins →
    (∃ k' its', Inv c C T (hist ++ taken c s ins) k' its' (run c s ins) (sent ++ flatOf (pieces c s ins))) ∧
    ∀ p ∈ pieces c s ins, p.Ok c.conv := by
  intro ins
  induction ins with
  | nil => intro hist k its s sent h _; exact ⟨⟨k, its, by simpa [taken, pieces, run, flatOf] using h⟩, by simp [pieces]⟩
  | cons i r ih =>
    intro hist k its s sent h hw
    have h1 := step_ok hok h i.latch (hw i (by simp))
    obtain ⟨⟨k', its', h2⟩, h3⟩ := ih h1 (fun j hj => hw j (by simp [hj]))
    have e : flatOf (pieces c s (i :: r)) = (if i.latch && s.cfifo.readable then (s.out c).flat else []) ++
        flatOf (pieces c (s.step c i.pixels i.valid i.latch) r) := by
      rw [pieces, flatOf, List.flatMap_append]
      congr 1
      show List.flatMap Code.flat (if (i.latch && s.cfifo.readable) = true then [s.out c] else []) = _
      split <;> simp
    refine ⟨⟨k', its', ?_⟩, ?_⟩
    · rw [taken, run, e, ← List.append_assoc, ← List.append_assoc]
      exact h2
    · intro p hp
      rw [pieces] at hp
      rcases List.mem_append.1 hp with hp | hp
      · split at hp
        · rename_i hv
          simp only [Bool.and_eq_true] at hv
          simp only [List.mem_singleton] at hp
          rw [hp]
          apply h.cok
          rw [Fifo.contents_readable hv.2]; simp
        · simp at hp
      · exact h3 p hp

theorem run_append (c : CoreCfg) (a b : List Int2In) : ∀ s, run c s (a ++ b) = run c (run c s a) b := by
  induction a with
  | nil => intro s; rfl
  | cons i a ih => intro s; exact ih _

theorem taken_append (c : CoreCfg) (a b : List Int2In) :
    ∀ s, taken c s (a ++ b) = taken c s a ++ taken c (run c s a) b := by
  induction a with
  | nil => intro s; rfl
  | cons i a ih => intro s; simp [taken, run, ih]

theorem pieces_append (c : CoreCfg) (a b : List Int2In) :
    ∀ s, pieces c s (a ++ b) = pieces c s a ++ pieces c (run c s a) b := by
  induction a with
  | nil => intro s; rfl
  | cons i a ih => intro s; simp [pieces, run, ih]

end Int2

/-- State at time `t` of an infinite schedule. -/
def Int2.at (c : CoreCfg) (s : Int2) (u : Nat → Int2In) : Nat → Int2
  | 0 => s
  | t + 1 => (Int2.at c s u t).step c (u t).pixels (u t).valid (u t).latch

/-- The first `t` cycles of an infinite schedule. -/
def cycles2 (u : Nat → Int2In) (t : Nat) : List Int2In := (List.range t).map u

theorem cycles2_succ (u : Nat → Int2In) (t : Nat) : cycles2 u (t + 1) = cycles2 u t ++ [u t] := by
  simp [cycles2, List.range_succ]

theorem Int2.at_run (c : CoreCfg) (s : Int2) (u : Nat → Int2In) (t : Nat) :
    Int2.at c s u t = Int2.run c s (cycles2 u t) := by
  induction t with
  | zero => rfl
  | succ t ih => rw [cycles2_succ, Int2.run_append, ← ih]; rfl

namespace Live2
open Live (fifo_level fifo_empty fifo_contents noItems)

variable {c : CoreCfg} {C : Nat} {T : Table}

/-- What is known at one time with pipeline items `its`. -/
def J (c : CoreCfg) (C : Nat) (T : Table) (s : Int2) (its : List Item) (sent : List (Option Bool)) : Prop :=
  ∃ hist k, Int2.Inv c C T hist k its s sent

/-- Inputs of the schedule are within the port widths. -/
def WfAt (c : CoreCfg) (i : Int2In) : Prop :=
  i.valid = true → i.pixels.length = c.int1.ps ∧ ∀ x ∈ i.pixels, x < 2 ^ c.int1.bd

/-- What has been read by time `t`. -/
def sentAt (c : CoreCfg) (s0 : Int2) (u : Nat → Int2In) (t : Nat) : List (Option Bool) :=
  Int2.flatOf (Int2.pieces c s0 (cycles2 u t))

theorem sentAt_succ (s0 : Int2) (u : Nat → Int2In) (t : Nat) : sentAt c s0 u (t + 1) = sentAt c s0 u t ++
    if (u t).latch && (Int2.at c s0 u t).cfifo.readable then ((Int2.at c s0 u t).out c).flat else [] := by
  rw [sentAt, cycles2_succ, Int2.pieces_append, Int2.at_run, Int2.flatOf, List.flatMap_append]
  show _ ++ List.flatMap Code.flat ((if ((u t).latch && (Int2.run c s0 (cycles2 u t)).cfifo.readable) = true then _ else []) ++ []) = _
  rw [List.append_nil]
  congr 1
  split <;> simp

theorem J_steps (hok : CoreOk c C T) {s0 : Int2} {u : Nat → Int2In} (hwf : ∀ t, WfAt c (u t)) {N : Nat}
    (hacc : ∀ t, N ≤ t → ((u t).valid && !(Int2.at c s0 u t).nready) = false) {its : List Item}
    (h : J c C T (Int2.at c s0 u N) its (sentAt c s0 u N)) (n : Nat) :
    J c C T (Int2.at c s0 u (N + n)) ((List.replicate n none ++ its).take its.length) (sentAt c s0 u (N + n)) := by
  induction n with
  | zero => simpa using h
  | succ n ih =>
    obtain ⟨hist, k, h1⟩ := ih
    have hs := Int2.step_ok hok h1 (u (N + n)).latch (hwf (N + n))
    rw [hacc (N + n) (by omega)] at hs
    simp only [Int2.newItem, Bool.false_eq_true, if_false] at hs
    have e : (none :: (List.replicate n (none : Item) ++ its).take its.length).dropLast =
        (List.replicate (n + 1) none ++ its).take its.length := by
      rw [List.dropLast_eq_take, List.length_cons, List.length_take, List.length_append, List.length_replicate,
        Nat.min_eq_left (by omega), List.replicate_succ, List.cons_append]
      cases its with
      | nil => simp
      | cons a l =>
        simp only [List.length_cons, Nat.add_sub_cancel, List.take_succ_cons, List.take_take]
        congr 2
        omega
    rw [e] at hs
    rw [← Nat.add_assoc, sentAt_succ]
    exact ⟨_, _, hs⟩

theorem no_output (hok : CoreOk c C T) {s : Int2} {x : List (Option Bool)} (h : J c C T s (noItems c) x) :
    (s.int1.out c.int1).valid = false := by
  obtain ⟨hist, k, h1⟩ := h
  have hne : noItems c ≠ [] := by
    intro hh; have := congrArg List.length hh; simp at this
  have := int1_out hok.int1 h1.int1 hne
  have hl : (noItems c).getLast hne = none := List.eq_of_mem_replicate (List.getLast_mem hne)
  rw [hl] at this
  exact this

theorem pfifo_step (hok : CoreOk c C T) {s : Int2} {x : List (Option Bool)} (h : J c C T s (noItems c) x) (i : Int2In) :
    (s.step c i.pixels i.valid i.latch).pfifo.level + (s.conv.latch && s.pfifo.readable).toNat = s.pfifo.level := by
  have ho := no_output hok h
  obtain ⟨hist, k, h1⟩ := h
  simp only [Int2.step, ho]
  exact fifo_level h1.pinv _ _

theorem conv_step (hok : CoreOk c C T) {s : Int2} {x : List (Option Bool)} (h : J c C T s (noItems c) x) (i : Int2In)
    (hp : (s.conv.latch && s.pfifo.readable) = false) :
    (s.step c i.pixels i.valid i.latch).conv.outFlat.length +
      ((s.step c i.pixels i.valid i.latch).conv.rest c.conv).length = (s.conv.rest c.conv).length := by
  obtain ⟨hist, k, h1⟩ := h
  have hcin : s.pfifo.readable = true → (Code.unpack c.total s.pfifo.dout).Ok c.total := by
    intro hr
    apply h1.pok
    rw [Fifo.contents_readable hr]; simp
  have := (Converter.step_ok (total := c.total) hok.conv1 h1.conv (cf := s.cFull) hcin).2
  rw [hp] at this
  simp only [Bool.false_eq_true, if_false, List.append_nil] at this
  rw [← List.length_append, ← this]
  rfl

theorem conv_quiet {s : Int2} {x : List (Option Bool)} (h : J c C T s (noItems c) x) (ho : s.conv.outFlat = []) :
    s.conv.valid = false := by
  obtain ⟨hist, k, h1⟩ := h
  cases hv : s.conv.valid with
  | false => rfl
  | true =>
    unfold Converter.outFlat at ho
    rw [hv] at ho
    exact absurd ho (Code.flat_ne_nil (h1.conv.out hv))

theorem cfifo_step {s : Int2} {x : List (Option Bool)} (h : J c C T s (noItems c) x) (i : Int2In) (hv : s.conv.valid = false) :
    (s.step c i.pixels i.valid i.latch).cfifo.level + (i.latch && s.cfifo.readable).toNat = s.cfifo.level := by
  obtain ⟨hist, k, h1⟩ := h
  simp only [Int2.step, hv]
  exact fifo_level h1.cinv _ _

/-- A FIFO that is not empty and not popped shows its oldest word. -/
theorem fifo_shows {depth : Nat} {s : Fifo} (we re : Bool) (din : Nat) (hl : s.level ≠ 0) (hp : (re && s.readable) = false) :
    (s.step depth we din re).readable = true := by
  rw [Fifo.readable_step]
  unfold Fifo.level at hl
  cases hr : s.readable
  · rw [hr] at hl
    simp [SyncFifo.readable] at hl ⊢
    omega
  · rw [hr] at hp
    simp at hp
    simp [hp]

/-- The end mark is read under every fair schedule. -/
theorem end_reached (hok : CoreOk c C T) {s0 : Int2} (hs0 : ∃ m : Kept, m.Ok c ∧ s0 = Int2.reset c m) {u : Nat → Int2In}
    (hwf : ∀ t, WfAt c (u t)) (hprod : ∀ n, ∃ m, n ≤ m ∧ (u m).valid = true)
    (hcons : ∀ n, ∃ m, n ≤ m ∧ (u m).latch = true) :
    ∃ t, none ∈ sentAt c s0 u t := by
  apply Classical.byContradiction
  intro hno
  have hno : ∀ t, none ∉ sentAt c s0 u t := fun t hh => hno ⟨t, hh⟩
  have hwfl : ∀ t, Int2.Wf c (cycles2 u t) := by
    intro t i hi
    simp only [cycles2, List.mem_map] at hi
    obtain ⟨n, _, rfl⟩ := hi
    exact hwf n
  have hinv : ∀ t, ∃ k its, Int2.Inv c C T (Int2.taken c s0 (cycles2 u t)) k its (Int2.at c s0 u t) (sentAt c s0 u t) := by
    intro t
    rw [Int2.at_run]
    obtain ⟨m, hm, rfl⟩ := hs0
    obtain ⟨k, its, h⟩ := (Int2.run_ok hok (cycles2 u t) (Int2.inv_reset hok hm) (hwfl t)).1
    exact ⟨k, its, by simpa [sentAt] using h⟩
  generalize hρ : sentAt c s0 u = ρ at hinv hno
  generalize hσ : Int2.at c s0 u = σ at hinv
  have hstep : ∀ t, σ (t + 1) = (σ t).step c (u t).pixels (u t).valid (u t).latch := by
    intro t; rw [← hσ]; rfl
  have hrun : ∀ t, Int2.run c s0 (cycles2 u t) = σ t := by
    intro t; rw [← hσ, Int2.at_run]
  -- acceptance stops
  have hps : 0 < c.int1.ps := by have := hok.int1.ps; omega
  have hacc : Ev fun t => ((u t).valid && !(σ t).nready) = false := by
    have hlen : ∀ t, (Int2.taken c s0 (cycles2 u (t + 1))).length =
        (Int2.taken c s0 (cycles2 u t)).length +
          if (u t).valid && !(σ t).nready then c.int1.ps else 0 := by
      intro t
      rw [cycles2_succ, Int2.taken_append, hrun, List.length_append]
      simp only [Int2.taken, List.append_nil]
      split
      · rename_i hv
        simp only [Bool.and_eq_true] at hv
        rw [(hwf t hv.1).1]
      · rfl
    have := Ev.const_of_bounded (f := fun t => (Int2.taken c s0 (cycles2 u t)).length)
      (B := c.int1.ps * (C * c.int1.H))
      (by
        intro t
        obtain ⟨k, its, h1⟩ := hinv t
        have hl := h1.int1.hlen
        simp only [hl]
        exact Nat.mul_le_mul_left _ h1.kle)
      (by intro t; simp only [hlen t]; omega)
    refine this.mono fun t ht => ?_
    have ht : _ = _ := ht
    rw [hlen t] at ht
    cases ha : ((u t).valid && !(σ t).nready) with
    | false => rfl
    | true => rw [ha] at ht; simp at ht; omega
  -- the pipeline drains
  have hJ : Ev fun t => J c C T (σ t) (noItems c) (ρ t) := by
    obtain ⟨N, hN⟩ := hacc
    obtain ⟨k, its, h1⟩ := hinv N
    have hj : J c C T (Int2.at c s0 u N) its (sentAt c s0 u N) := by
      rw [hσ, hρ]; exact ⟨_, _, h1⟩
    have := J_steps hok hwf (by rw [hσ]; exact hN) hj
    rw [hσ, hρ] at this
    refine ⟨N + its.length, fun t ht => ?_⟩
    have := this (t - N)
    rw [Nat.add_sub_cancel' (by omega), List.take_append_of_le_length (by simp; omega),
      List.take_replicate, Nat.min_eq_left (by omega), h1.itsLen] at this
    exact this
  -- pipeline FIFO
  have hpp : Ev fun t => ((σ t).conv.latch && (σ t).pfifo.readable) = false := by
    have hs : Ev fun t => (σ (t + 1)).pfifo.level +
        ((σ t).conv.latch && (σ t).pfifo.readable).toNat = (σ t).pfifo.level :=
      hJ.mono fun t hj => by rw [hstep]; exact pfifo_step hok hj (u t)
    have hc := Ev.const (f := fun t => (σ t).pfifo.level) (hs.mono fun t h => by
      show _ ≤ _; omega)
    refine (hs.and hc).mono fun t h => ?_
    obtain ⟨h1, h2⟩ := h
    have h2 : _ = _ := h2
    have : ((σ t).conv.latch && (σ t).pfifo.readable).toNat = 0 := by omega
    simpa using this
  -- converter
  have hcv : Ev fun t => (σ t).conv.valid = false := by
    have hs : Ev fun t => (σ (t + 1)).conv.outFlat.length +
        ((σ (t + 1)).conv.rest c.conv).length = ((σ t).conv.rest c.conv).length :=
      (hJ.and hpp).mono fun t h => by rw [hstep]; exact conv_step hok h.1 (u t) h.2
    have hc := Ev.const (f := fun t => ((σ t).conv.rest c.conv).length) (hs.mono fun t h => by
      show _ ≤ _; omega)
    apply Ev.of_succ
    refine ((hs.and hc).and hJ.succ).mono fun t h => ?_
    obtain ⟨⟨h1, h2⟩, h3⟩ := h
    have h2 : _ = _ := h2
    exact conv_quiet h3 (List.length_eq_zero_iff.1 (by omega))
  -- converter FIFO
  have hcl : Ev fun t => (σ t).cfifo.level = 0 := by
    have hs : Ev fun t => (σ (t + 1)).cfifo.level +
        ((u t).latch && (σ t).cfifo.readable).toNat = (σ t).cfifo.level :=
      (hJ.and hcv).mono fun t h => by rw [hstep]; exact cfifo_step h.1 (u t) h.2
    have hc := Ev.const (f := fun t => (σ t).cfifo.level) (hs.mono fun t h => by
      show _ ≤ _; omega)
    have hcp : Ev fun t => ((u t).latch && (σ t).cfifo.readable) = false ∧ (σ (t + 1)).cfifo.level = (σ t).cfifo.level := by
      refine (hs.and hc).mono fun t h => ?_
      obtain ⟨h1, h2⟩ := h
      have h2 : _ = _ := h2
      have : ((u t).latch && (σ t).cfifo.readable).toNat = 0 := by omega
      exact ⟨by simpa using this, h2⟩
    obtain ⟨N, hN⟩ := hcp
    refine ⟨N, fun t ht => ?_⟩
    apply Classical.byContradiction
    intro hne
    have hl : ∀ n, (σ (t + n)).cfifo.level ≠ 0 := by
      intro n
      induction n with
      | zero => exact hne
      | succ n ih => rw [← Nat.add_assoc, (hN (t + n) (by omega)).2]; exact ih
    obtain ⟨m, hm, hla⟩ := hcons (t + 1)
    have h1 := hN (m - 1) (by omega)
    have h2 := hl (m - 1 - t)
    rw [Nat.add_sub_cancel' (by omega)] at h2
    have h3 := fifo_shows (depth := c.cdepth) (σ (m - 1)).conv.valid (u (m - 1)).latch (Code.pack c.conv (σ (m - 1)).conv.out) h2 h1.1
    have h4 := hstep (m - 1)
    rw [Nat.sub_add_cancel (by omega)] at h4
    have h5 : (σ m).cfifo.readable = true := by rw [h4]; exact h3
    have h6 := (hN m (by omega)).1
    rw [hla, h5] at h6
    cases h6
  have hcf : Ev fun t => (σ t).cFull = false := by
    apply Ev.of_succ
    refine hcl.mono fun t h => ?_
    rw [hstep]
    simp only [Int2.step, h]
    have := hok.cdepth
    simp; omega
  -- the converter waits
  have hconv : Ev fun t => (σ t).conv.validReg = false ∧ (σ t).pfifo.readable = false ∧
      ((σ t).conv.fsm = .burst ∨ (σ t).conv.fsm = .idle) := by
    have hone : Ev fun t => (∀ i, (σ t).conv.fsm ≠ .steps i) ∧
        ((σ t).conv.fsm = .burst → (σ t).conv.validReg = false ∧
          (σ t).pfifo.readable = false ∧ (σ (t + 1)).conv.fsm = .burst) ∧
        ((σ t).conv.fsm = .burstPrepare → (σ (t + 1)).conv.fsm = .burst) ∧
        ((σ t).conv.fsm = .idle →
          ((σ t).conv.validReg = false ∧ (σ t).pfifo.readable = false) ∨
          (σ (t + 1)).conv.fsm = .burst ∨ (σ (t + 1)).conv.fsm = .burstPrepare) := by
      refine ((hcv.succ.and hcf).and (hpp.and hJ)).mono fun t h => ?_
      obtain ⟨⟨h1, h2⟩, h3, hist, k, h4⟩ := h
      have hl := h4.conv.latch
      rw [hstep] at h1 ⊢
      simp only [Int2.step, Converter.step, h2] at h1 ⊢
      refine ⟨?_, ?_, ?_, ?_⟩
      · intro i hf
        simp only [hf] at h1
        split at h1
        · rw [(Converter.tryBurst_keeps _ _ _ _).1] at h1; simp at h1
        · simp at h1
      · intro hf
        simp only [hf] at h1 hl ⊢
        have hv : (σ t).conv.validReg = false := by
          cases hv : (σ t).conv.validReg with
          | false => rfl
          | true =>
            exfalso
            simp only [hv, if_true] at h1
            split at h1
            · simp at h1
            · split at h1 <;> simp at h1
        rw [hl] at h3
        refine ⟨hv, by simpa using h3, ?_⟩
        simp [hv, Converter.regData, hf]
      · intro hf
        simp [hf]
      · intro hf
        simp only [hf]
        unfold Converter.tryBurst
        cases (σ t).conv.validReg <;> cases (σ t).pfifo.readable <;> simp
    obtain ⟨N, hN⟩ := hone
    by_cases hex : ∃ t, N ≤ t ∧ (σ t).conv.fsm = .burst
    · obtain ⟨m, hm, hf⟩ := hex
      refine ⟨m, fun t ht => ?_⟩
      have hall : ∀ n, (σ (m + n)).conv.fsm = .burst := by
        intro n
        induction n with
        | zero => exact hf
        | succ n ih => exact ((hN (m + n) (by omega)).2.1 ih).2.2
      have hb := hall (t - m)
      rw [Nat.add_sub_cancel' ht] at hb
      have := (hN t (by omega)).2.1 hb
      exact ⟨this.1, this.2.1, Or.inl hb⟩
    · have hnb : ∀ t, N ≤ t → (σ t).conv.fsm ≠ .burst := fun t ht hf => hex ⟨t, ht, hf⟩
      have hnp : ∀ t, N ≤ t → (σ t).conv.fsm ≠ .burstPrepare :=
        fun t ht hf => hnb (t + 1) (by omega) ((hN t ht).2.2.1 hf)
      refine ⟨N, fun t ht => ?_⟩
      obtain ⟨h1, h2, h3, h4⟩ := hN t ht
      cases hf : (σ t).conv.fsm with
      | burst => exact absurd hf (hnb t ht)
      | burstPrepare => exact absurd hf (hnp t ht)
      | steps i => exact absurd hf (h1 i)
      | idle =>
        rcases h4 hf with h | h | h
        · exact ⟨h.1, h.2, Or.inr rfl⟩
        · exact absurd h (hnb _ (by omega))
        · exact absurd h (hnp _ (by omega))
  have hpl : Ev fun t => (σ t).pfifo.level = 0 := by
    refine (hconv.and hconv.succ).mono fun t h => ?_
    obtain ⟨h1, h2⟩ := h
    rw [hstep] at h2
    exact fifo_empty _ _ _ h1.2.1 h2.2.1
  have hpf : Ev fun t => (σ t).pFull = false := by
    apply Ev.of_succ
    refine hpl.mono fun t h => ?_
    rw [hstep]
    simp only [Int2.step, h]
    have := hok.depth
    simp; omega
  have hctr : ∀ t, (σ t).nreadyCtr = t % 8 := by
    intro t
    induction t with
    | zero =>
      obtain ⟨m, _, rfl⟩ := hs0
      rw [← hσ]; rfl
    | succ t ih =>
      rw [hstep]
      simp only [Int2.step, ih]
      omega
  have hrst : Ev fun t => (σ t).nreadyReset = true := by
    refine Ev.absorb (Ev.of_all fun t h => ?_) ?_
    · rw [hstep]
      simp only [Int2.step]
      split
      · rfl
      · exact h
    · intro N
      refine ⟨8 * N + 7 + 1, by omega, ?_⟩
      rw [hstep]
      simp only [Int2.step, hctr]
      rw [if_pos (by omega)]
  -- contradiction
  obtain ⟨N, hN⟩ := (((hJ.and hacc).and (hpf.and hrst)).and ((hconv.and hpl).and (hcl.and hcv)))
  obtain ⟨m, hm, hv⟩ := hprod N
  obtain ⟨⟨⟨hj, ha⟩, hf, hr⟩, ⟨hco, hl⟩, hc, hq⟩ := hN m hm
  obtain ⟨hist, k, h1⟩ := hj
  have hk : k = C * c.int1.H := by
    have hn : (σ m).nready = (σ m).nreadyEnd := by simp [Int2.nready, hf, hr]
    rw [hv, hn, h1.endN] at ha
    simpa using ha
  have hst := h1.stream
  have hpend : Int2.pend c (σ m) (noItems c) = [] := by
    have e1 : itsFlat (noItems c) = [] := by
      unfold itsFlat
      rw [List.flatMap_eq_nil_iff]
      intro x hx
      rw [List.reverse_replicate] at hx
      rw [List.eq_of_mem_replicate hx]; rfl
    have e2 : (σ m).conv.rest c.conv = [] := by
      unfold Converter.rest Converter.remaining
      rcases hco.2.2 with h | h <;> simp [h, hco.1]
    have e3 : (σ m).conv.outFlat = [] := by simp [Converter.outFlat, hq]
    simp [Int2.pend, e1, e2, e3, fifo_contents hl, fifo_contents hc, Code.flats]
  rw [hpend, hk, List.append_nil] at hst
  apply hno m
  rw [hst]
  simp [marked]

end Live2
end Model
