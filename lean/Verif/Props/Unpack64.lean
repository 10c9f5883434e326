/- Property theorems C34: the buffered 64-bit to 2x32-bit unpacker. -/
import Verif.Model.B64B32
import Verif.Proof.Fifo

set_option autoImplicit false

namespace Props
open Model

/-- Inputs of the unpacker in one cycle. -/
structure WordIn where
  data : Nat
  valid : Bool
  busy : Bool

def unpack64Run : Unpack → List WordIn → Unpack
  | s, [] => s
  | s, i :: r => unpack64Run (s.step i.data i.valid i.busy) r

/-- Words transferred to the unpacker: `valid_in` and not `o_busy`. -/
def unpack64Taken : Unpack → List WordIn → List Nat
  | _, [] => []
  | s, i :: r => (if i.valid && !s.oBusy then [i.data] else []) ++ unpack64Taken (s.step i.data i.valid i.busy) r

/-- Words transferred by the unpacker: `valid_out` and not `i_busy`. -/
def unpack64Given : Unpack → List WordIn → List Nat
  | _, [] => []
  | s, i :: r => (if s.valid && !i.busy then [s.data] else []) ++ unpack64Given (s.step i.data i.valid i.busy) r

/-- Specification: upper, then lower 32 bits of a 64-bit word. -/
def halves64 (w : Nat) : List Nat := [w / 2 ^ 32 % 2 ^ 32, w % 2 ^ 32]

/-- 64-bit words inside that are not split yet. -/
def unpack64Words (s : Unpack) : List Nat :=
  (s.f64.contents 2).drop (if s.re64 then 1 else 0) ++ (if s.we64 then [s.din64] else []) ++
    (if s.fsm = .handleReg then [s.reg] else [])

/-- 32-bit words inside. -/
def unpack64Pend (s : Unpack) : List Nat :=
  s.f32.contents 4 ++ (if s.we32 then [s.din32] else []) ++ (if s.part2 then [s.buff] else []) ++
    (unpack64Words s).flatMap halves64

/-- Invariant after the first cycle. -/
structure Unpack64Inv (s : Unpack) : Prop where
  f64 : s.f64.Inv 2
  f32 : s.f32.Inv 4
  p2 : s.part2 = true → s.we32 = true
  re : s.re64 = true → s.part2 = true ∧ s.f64.level ≠ 0
  we : s.we64 = true → s.fsm = .idle ∧ s.f64.writable 2 = true
  busy : s.oBusy = !decide (s.fsm = .fill)

theorem front_cons {d : Nat} {s : SyncFifo} (h : s.Inv d) (hr : s.readable = true) :
    ∃ t, s.contents d = s.front :: t := by
  refine ⟨_, SyncFifo.contents_cons h ?_⟩
  simpa [SyncFifo.readable] using hr

theorem sync_level {d : Nat} {s : SyncFifo} (h : s.Inv d) (we : Bool) (x : Nat) (re : Bool) :
    (s.step d we x re).level = s.level - (if s.readable && re then 1 else 0) + (if s.writable d && we then 1 else 0) := by
  rw [← SyncFifo.contents_length d, SyncFifo.contents_step h, ← SyncFifo.contents_length d s]
  rw [List.length_append, List.length_drop]
  congr 1
  split <;> rfl

theorem fsm_cases (f : FillFsm) : f = .idle ∨ f = .fill ∨ f = .handleReg := by cases f <;> simp

theorem unpack64_inv_step {s : Unpack} (h : Unpack64Inv s) (i : WordIn) :
    Unpack64Inv (s.step i.data i.valid i.busy) := by
  have h64 := SyncFifo.inv_step h.f64 s.we64 s.din64 s.re64
  have h32 := SyncFifo.inv_step h.f32 s.we32 s.din32 (!i.busy)
  have hl := sync_level h.f64 s.we64 s.din64 s.re64
  have h1 := h.p2
  have h2 := h.re
  have h3 := h.we
  have h4 := h.busy
  have hin := h.f64.level
  constructor
  · exact h64
  · exact h32
  · show (Unpack.stepOut s (s.stepIn i.data i.valid)).part2 = true → (Unpack.stepOut s (s.stepIn i.data i.valid)).we32 = true
    have e : (s.stepIn i.data i.valid).part2 = s.part2 ∧ (s.stepIn i.data i.valid).we32 = s.we32 := by
      simp only [Unpack.stepIn]; repeat' split
      all_goals exact ⟨rfl, rfl⟩
    simp only [Unpack.stepOut]
    cases hp : s.part2 <;> simp only [hp, Bool.not_true, Bool.not_false, Bool.false_eq_true, if_true, if_false] <;>
      (repeat' split) <;> simp_all
  · show (Unpack.stepOut s (s.stepIn i.data i.valid)).re64 = true → (Unpack.stepOut s (s.stepIn i.data i.valid)).part2 = true ∧
      (s.f64.step 2 s.we64 s.din64 s.re64).level ≠ 0
    have e : (s.stepIn i.data i.valid).re64 = s.re64 := by
      simp only [Unpack.stepIn]; repeat' split
      all_goals rfl
    rw [hl]
    simp only [Unpack.stepOut]
    cases hp : s.part2 with
    | true =>
      simp only [Bool.not_true, Bool.false_eq_true, if_false]
      split <;> simp
    | false =>
      have hre : s.re64 = false := by
        cases hr : s.re64 with
        | false => rfl
        | true => have := (h2 hr).1; rw [hp] at this; cases this
      simp only [hre, Bool.and_false, Bool.false_eq_true, if_false, Bool.not_false, if_true, Nat.sub_zero]
      split
      · rename_i hc
        simp only [Bool.and_eq_true] at hc
        have : s.f64.level ≠ 0 := by simpa [SyncFifo.readable] using hc.2
        intro _
        exact ⟨rfl, by omega⟩
      · split <;> simp [e, hre]
  · show (Unpack.stepOut s (s.stepIn i.data i.valid)).we64 = true → (Unpack.stepOut s (s.stepIn i.data i.valid)).fsm = .idle ∧
      (s.f64.step 2 s.we64 s.din64 s.re64).writable 2 = true
    have e : (Unpack.stepOut s (s.stepIn i.data i.valid)).we64 = (s.stepIn i.data i.valid).we64 ∧
        (Unpack.stepOut s (s.stepIn i.data i.valid)).fsm = (s.stepIn i.data i.valid).fsm := by
      simp only [Unpack.stepOut]; repeat' split
      all_goals exact ⟨rfl, rfl⟩
    rw [e.1, e.2]
    have hw : s.we64 = false → s.f64.writable 2 = true → (s.f64.step 2 s.we64 s.din64 s.re64).writable 2 = true := by
      intro a b
      simp only [SyncFifo.writable, bne_iff_ne] at b ⊢
      rw [hl]
      simp only [a, Bool.and_false, Bool.false_eq_true, if_false]
      split <;> omega
    have hwe : s.fsm ≠ .idle → s.we64 = false := by
      intro hf
      cases hr : s.we64 with
      | false => rfl
      | true => exact absurd (h3 hr).1 hf
    rcases fsm_cases s.fsm with hf | hf | hf <;> simp only [Unpack.stepIn, hf]
    · simp
    · have := hwe (by simp [hf])
      split
      · split
        · rename_i hww; intro _; exact ⟨rfl, hw this hww⟩
        · simp [this]
      · simp [this]
    · have := hwe (by simp [hf])
      split
      · rename_i hww; intro _; exact ⟨rfl, hw this hww⟩
      · simp [this]
  · show (Unpack.stepOut s (s.stepIn i.data i.valid)).oBusy = !decide ((Unpack.stepOut s (s.stepIn i.data i.valid)).fsm = .fill)
    have e : (Unpack.stepOut s (s.stepIn i.data i.valid)).oBusy = (s.stepIn i.data i.valid).oBusy ∧
        (Unpack.stepOut s (s.stepIn i.data i.valid)).fsm = (s.stepIn i.data i.valid).fsm := by
      simp only [Unpack.stepOut]; repeat' split
      all_goals exact ⟨rfl, rfl⟩
    rw [e.1, e.2]
    rcases fsm_cases s.fsm with hf | hf | hf <;> simp only [Unpack.stepIn, hf] at h4 ⊢ <;> (repeat' split) <;> simp_all

/-- Words side: what leaves the 64-bit side in one cycle. -/
theorem unpack64_words {s : Unpack} (h : Unpack64Inv s) (i : WordIn) :
    (if !s.part2 && s.f32.writable 4 && s.f64.readable then [s.f64.front] else []) ++
      unpack64Words (s.step i.data i.valid i.busy) =
      unpack64Words s ++ (if i.valid && !s.oBusy then [i.data] else []) := by
  have hl := SyncFifo.contents_step h.f64 s.we64 s.din64 s.re64
  have h2 := h.re
  have h3 := h.we
  have h4 := h.busy
  have e1 : (Unpack.stepOut s (s.stepIn i.data i.valid)).we64 = (s.stepIn i.data i.valid).we64 ∧
      (Unpack.stepOut s (s.stepIn i.data i.valid)).fsm = (s.stepIn i.data i.valid).fsm ∧
      (Unpack.stepOut s (s.stepIn i.data i.valid)).din64 = (s.stepIn i.data i.valid).din64 ∧
      (Unpack.stepOut s (s.stepIn i.data i.valid)).reg = (s.stepIn i.data i.valid).reg := by
    simp only [Unpack.stepOut]; repeat' split
    all_goals exact ⟨rfl, rfl, rfl, rfl⟩
  -- the input side
  have hin : (if (s.stepIn i.data i.valid).we64 then [(s.stepIn i.data i.valid).din64] else []) ++
      (if (s.stepIn i.data i.valid).fsm = .handleReg then [(s.stepIn i.data i.valid).reg] else []) =
      (if s.fsm = .handleReg then [s.reg] else []) ++ (if i.valid && !s.oBusy then [i.data] else []) := by
    rw [h4]
    have hwe : s.fsm ≠ .idle → s.we64 = false := by
      intro hf
      cases hr : s.we64 with
      | false => rfl
      | true => exact absurd (h3 hr).1 hf
    rcases fsm_cases s.fsm with hf | hf | hf <;> simp only [Unpack.stepIn, hf]
    · simp
    · have := hwe (by simp [hf])
      cases i.valid <;> simp [hf, this]
      split <;> simp [this]
    · have := hwe (by simp [hf])
      split <;> simp [hf, this]
  -- the 64-bit FIFO
  have hf : (if !s.part2 && s.f32.writable 4 && s.f64.readable then [s.f64.front] else []) ++
      (((s.f64.step 2 s.we64 s.din64 s.re64).contents 2).drop
        (if (Unpack.stepOut s (s.stepIn i.data i.valid)).re64 then 1 else 0)) =
      (s.f64.contents 2).drop (if s.re64 then 1 else 0) ++ (if s.we64 then [s.din64] else []) := by
    have hw : (if (s.f64.writable 2 && s.we64) = true then [s.din64] else []) = (if s.we64 then [s.din64] else []) := by
      cases hr : s.we64 with
      | false => simp
      | true => simp [(h3 hr).2]
    rw [hl, hw]
    have e : (s.stepIn i.data i.valid).re64 = s.re64 := by
      simp only [Unpack.stepIn]; repeat' split
      all_goals rfl
    cases hp : s.part2 with
    | true =>
      simp only [Unpack.stepOut, hp]
      simp only [Bool.not_true, Bool.false_eq_true, Bool.false_and, if_false, List.nil_append]
      have : (if s.f32.writable 4 = true then ({ (s.stepIn i.data i.valid) with re64 := false, din32 := s.buff, part2 := false } : Unpack)
          else { (s.stepIn i.data i.valid) with re64 := false }).re64 = false := by split <;> rfl
      rw [this]
      simp only [Bool.false_eq_true, if_false, List.drop_zero]
      cases hr : s.re64 with
      | false => simp
      | true =>
        have : s.f64.readable = true := by simpa [SyncFifo.readable] using (h2 hr).2
        simp [this]
    | false =>
      have hre : s.re64 = false := by
        cases hr : s.re64 with
        | false => rfl
        | true => have := (h2 hr).1; rw [hp] at this; cases this
      simp only [Unpack.stepOut, hp, hre, Bool.and_false, Bool.false_eq_true, if_false, Bool.not_false, if_true,
        List.drop_zero, Bool.true_and]
      cases hc : s.f32.writable 4 && s.f64.readable with
      | true =>
        simp only [Bool.and_eq_true] at hc
        obtain ⟨t, ht⟩ := front_cons h.f64 hc.2
        rw [ht]; simp
      | false =>
        have : (if s.f32.writable 4 = true then ({ (s.stepIn i.data i.valid) with we32 := false } : Unpack)
          else (s.stepIn i.data i.valid)).re64 = false := by split <;> simp [e, hre]
        simp [this]
  simp only [unpack64Words]
  show _ ++ (((s.f64.step 2 s.we64 s.din64 s.re64).contents 2).drop
        (if (Unpack.stepOut s (s.stepIn i.data i.valid)).re64 then 1 else 0) ++
        (if (Unpack.stepOut s (s.stepIn i.data i.valid)).we64 then [(Unpack.stepOut s (s.stepIn i.data i.valid)).din64] else []) ++
        (if (Unpack.stepOut s (s.stepIn i.data i.valid)).fsm = .handleReg then
          [(Unpack.stepOut s (s.stepIn i.data i.valid)).reg] else [])) = _
  rw [e1.1, e1.2.1, e1.2.2.1, e1.2.2.2]
  rw [List.append_assoc (List.drop _ _), ← List.append_assoc (ite _ _ _) (List.drop _ _), hf, hin]
  simp only [List.append_assoc]

/-- The 32-bit side in one cycle. -/
theorem unpack64_out {s : Unpack} (h : Unpack64Inv s) (i : WordIn) :
    (if s.valid && !i.busy then [s.data] else []) ++
      ((s.step i.data i.valid i.busy).f32.contents 4 ++
        (if (s.step i.data i.valid i.busy).we32 then [(s.step i.data i.valid i.busy).din32] else []) ++
        (if (s.step i.data i.valid i.busy).part2 then [(s.step i.data i.valid i.busy).buff] else [])) =
      s.f32.contents 4 ++ (if s.we32 then [s.din32] else []) ++ (if s.part2 then [s.buff] else []) ++
      (if !s.part2 && s.f32.writable 4 && s.f64.readable then halves64 s.f64.front else []) := by
  have hl := SyncFifo.contents_step h.f32 s.we32 s.din32 (!i.busy)
  have hg : (if s.valid && !i.busy then [s.data] else []) ++ (s.f32.step 4 s.we32 s.din32 (!i.busy)).contents 4 =
      s.f32.contents 4 ++ (if s.f32.writable 4 && s.we32 then [s.din32] else []) := by
    rw [hl, ← List.append_assoc]
    congr 1
    simp only [Unpack.valid, Unpack.data]
    by_cases hr : s.f32.readable = true
    · obtain ⟨t, ht⟩ := front_cons h.f32 hr
      rw [ht]
      cases i.busy <;> simp [hr]
    · simp [hr]
  have e : (s.stepIn i.data i.valid).we32 = s.we32 ∧ (s.stepIn i.data i.valid).din32 = s.din32 ∧
      (s.stepIn i.data i.valid).part2 = s.part2 ∧ (s.stepIn i.data i.valid).buff = s.buff := by
    simp only [Unpack.stepIn]; repeat' split
    all_goals exact ⟨rfl, rfl, rfl, rfl⟩
  show _ ++ ((s.f32.step 4 s.we32 s.din32 (!i.busy)).contents 4 ++
      (if (Unpack.stepOut s (s.stepIn i.data i.valid)).we32 then [(Unpack.stepOut s (s.stepIn i.data i.valid)).din32] else []) ++
      (if (Unpack.stepOut s (s.stepIn i.data i.valid)).part2 then [(Unpack.stepOut s (s.stepIn i.data i.valid)).buff] else [])) = _
  rw [← List.append_assoc, ← List.append_assoc, hg]
  have hp2 := h.p2
  simp only [Unpack.stepOut]
  cases hp : s.part2 with
  | true =>
    have hw := hp2 hp
    cases hww : s.f32.writable 4 <;> simp [e, hw, hp]
  | false =>
    cases hww : s.f32.writable 4 <;> cases hr : s.f64.readable <;> simp [e, hp, halves64, slice]

theorem unpack64_step {s : Unpack} (h : Unpack64Inv s) (i : WordIn) :
    (if s.valid && !i.busy then [s.data] else []) ++ unpack64Pend (s.step i.data i.valid i.busy) =
      unpack64Pend s ++ (if i.valid && !s.oBusy then [i.data] else []).flatMap halves64 := by
  have h1 := unpack64_words h i
  have h2 := unpack64_out h i
  simp only [unpack64Pend]
  rw [← List.append_assoc, h2, List.append_assoc _ _ (List.flatMap _ _)]
  have h3 := congrArg (List.flatMap halves64) h1
  simp only [List.flatMap_append] at h3
  have h4 : (if !s.part2 && s.f32.writable 4 && s.f64.readable then halves64 s.f64.front else []) =
      (if !s.part2 && s.f32.writable 4 && s.f64.readable then [s.f64.front] else []).flatMap halves64 := by
    split <;> simp
  rw [h4, h3]
  simp only [List.append_assoc]

theorem unpack64_run (ins : List WordIn) : ∀ {s : Unpack}, Unpack64Inv s →
    Unpack64Inv (unpack64Run s ins) ∧ unpack64Given s ins ++ unpack64Pend (unpack64Run s ins) =
      unpack64Pend s ++ (unpack64Taken s ins).flatMap halves64 := by
  induction ins with
  | nil => intro s h; exact ⟨h, by simp [unpack64Given, unpack64Run, unpack64Taken]⟩
  | cons i r ih =>
    intro s h
    obtain ⟨h3, h4⟩ := ih (unpack64_inv_step h i)
    refine ⟨h3, ?_⟩
    simp only [unpack64Given, unpack64Run, unpack64Taken, List.append_assoc, List.flatMap_append]
    rw [h4, ← List.append_assoc, unpack64_step h i, List.append_assoc]

/-- The state after the first cycle from reset. -/
theorem unpack64_first (i : WordIn) : Unpack64Inv (Unpack.init.step i.data i.valid i.busy) ∧
    unpack64Pend (Unpack.init.step i.data i.valid i.busy) = [] ∧ Unpack.init.valid = false := by
  have : Unpack.init.step i.data i.valid i.busy = { Unpack.init.step 0 false true with } := by
    cases i with | mk d v b => cases v <;> cases b <;> rfl
  rw [this]
  refine ⟨⟨SyncFifo.inv_step (SyncFifo.inv_reset _ _ (by decide) (by decide)) _ _ _,
    SyncFifo.inv_step (SyncFifo.inv_reset _ _ (by decide) (by decide)) _ _ _, ?_, ?_, ?_, ?_⟩, ?_, rfl⟩ <;> decide

/-- C34, safety: from reset, not counting the first cycle, the 32-bit words given are at every moment
a prefix of the upper and lower halves of the accepted words in order. -/
theorem C34_in_order (i : WordIn) (ins : List WordIn) :
    unpack64Given .init (i :: ins) <+:
      (unpack64Taken (Unpack.init.step i.data i.valid i.busy) ins).flatMap halves64 := by
  obtain ⟨h1, h2, h3⟩ := unpack64_first i
  obtain ⟨_, h⟩ := unpack64_run ins h1
  rw [h2, List.nil_append] at h
  refine ⟨unpack64Pend (unpack64Run (Unpack.init.step i.data i.valid i.busy) ins), ?_⟩
  rw [← h]
  simp only [unpack64Given, h3, Bool.false_and, Bool.false_eq_true, if_false, List.nil_append]

/-- How far the unpacker is from showing a word (0 = shown). -/
def unpack64Dist (s : Unpack) : Nat :=
  if s.f32.readable then 0 else if s.we32 then 1 else if s.f64.readable then 2 else if s.we64 then 3 else 4

theorem dist_le {s : Unpack} : (s.f32.readable = true → unpack64Dist s = 0) ∧ (s.we32 = true → unpack64Dist s ≤ 1) ∧
    (s.f64.readable = true → unpack64Dist s ≤ 2) ∧ (s.we64 = true → unpack64Dist s ≤ 3) ∧
    (unpack64Dist s = 0 → s.f32.readable = true) := by
  unfold unpack64Dist
  cases s.f32.readable <;> cases s.we32 <;> cases s.f64.readable <;> cases s.we64 <;> simp

theorem unpack64_dist {s : Unpack} (h : Unpack64Inv s) (hp : unpack64Pend s ≠ []) (i : WordIn)
    (hg : (s.valid && !i.busy) = false) :
    unpack64Pend (s.step i.data i.valid i.busy) ≠ [] ∧
    unpack64Dist (s.step i.data i.valid i.busy) ≤ unpack64Dist s - 1 := by
  constructor
  · have h2 := unpack64_step h i
    rw [hg] at h2
    simp only [Bool.false_eq_true, if_false, List.nil_append] at h2
    rw [h2]
    intro h3
    exact hp (List.append_eq_nil_iff.1 h3).1
  · have l32 := sync_level h.f32 s.we32 s.din32 (!i.busy)
    have l64 := sync_level h.f64 s.we64 s.din64 s.re64
    have e32 : (s.step i.data i.valid i.busy).f32 = s.f32.step 4 s.we32 s.din32 (!i.busy) := rfl
    have e64 : (s.step i.data i.valid i.busy).f64 = s.f64.step 2 s.we64 s.din64 s.re64 := rfl
    simp only [Unpack.valid] at hg
    by_cases hr : s.f32.readable = true
    · have hb : i.busy = true := by cases hb : i.busy <;> simp_all
      have : (s.step i.data i.valid i.busy).f32.readable = true := by
        rw [e32]
        simp only [SyncFifo.readable, bne_iff_ne] at hr ⊢
        rw [l32, hb]; simp; omega
      simp [unpack64Dist, this]
    · have hr' : s.f32.readable = false := by simpa using hr
      have hlv : s.f32.level = 0 := by simpa [SyncFifo.readable] using hr'
      have hw : s.f32.writable 4 = true := by simp [SyncFifo.writable, hlv]
      by_cases hwe : s.we32 = true
      · have : (s.step i.data i.valid i.busy).f32.readable = true := by
          rw [e32]
          simp only [SyncFifo.readable, bne_iff_ne]
          rw [l32, hw, hwe]; simp
        simp [unpack64Dist, this]
      · have hwe' : s.we32 = false := by simpa using hwe
        have hp2 : s.part2 = false := by
          cases hq : s.part2 with
          | false => rfl
          | true => have := h.p2 hq; rw [hwe'] at this; cases this
        have hre : s.re64 = false := by
          cases hq : s.re64 with
          | false => rfl
          | true => have := (h.re hq).1; rw [hp2] at this; cases this
        by_cases h64 : s.f64.readable = true
        · have : (s.step i.data i.valid i.busy).we32 = true := by
            show (Unpack.stepOut s (s.stepIn i.data i.valid)).we32 = true
            simp [Unpack.stepOut, hp2, hw, h64]
          have hd : unpack64Dist s = 2 := by simp [unpack64Dist, hr', hwe', h64]
          rw [hd]
          exact dist_le.2.1 this
        · have h64' : s.f64.readable = false := by simpa using h64
          have hl64 : s.f64.level = 0 := by simpa [SyncFifo.readable] using h64'
          have hw64 : s.f64.writable 2 = true := by simp [SyncFifo.writable, hl64]
          by_cases hwe6 : s.we64 = true
          · have : (s.step i.data i.valid i.busy).f64.readable = true := by
              rw [e64]
              simp only [SyncFifo.readable, bne_iff_ne]
              rw [l64, hw64, hwe6]; simp
            have hd : unpack64Dist s = 3 := by simp [unpack64Dist, hr', hwe', h64', hwe6]
            rw [hd]
            exact dist_le.2.2.1 this
          · have hwe6' : s.we64 = false := by simpa using hwe6
            have hd : unpack64Dist s = 4 := by simp [unpack64Dist, hr', hwe', h64', hwe6']
            have hfs : s.fsm = .handleReg := by
              have c1 : s.f32.contents 4 = [] := by rw [← List.length_eq_zero_iff]; simp [hlv]
              have c2 : s.f64.contents 2 = [] := by rw [← List.length_eq_zero_iff]; simp [hl64]
              by_cases hfs : s.fsm = .handleReg
              · exact hfs
              · simp [unpack64Pend, unpack64Words, c1, c2, hwe', hwe6', hp2, hfs] at hp
            have : (s.step i.data i.valid i.busy).we64 = true := by
              have e : (Unpack.stepOut s (s.stepIn i.data i.valid)).we64 = (s.stepIn i.data i.valid).we64 := by
                simp only [Unpack.stepOut]; repeat' split
                all_goals rfl
              show (Unpack.stepOut s (s.stepIn i.data i.valid)).we64 = true
              rw [e]
              simp [Unpack.stepIn, hfs, hw64]
            rw [hd]
            exact dist_le.2.2.2.1 this

/-- C34, progress: in any state after the first cycle in which accepted words are not all given yet,
after at least four further cycles the next cycle with a ready consumer has given at least one more word. -/
theorem C34_progress (i0 : WordIn) (past ins : List WordIn) (i : WordIn)
    (hp : (unpack64Given .init (i0 :: past)).length <
      ((unpack64Taken (Unpack.init.step i0.data i0.valid i0.busy) past).flatMap halves64).length)
    (hl : 4 ≤ ins.length) (hb : i.busy = false) :
    unpack64Given (unpack64Run .init (i0 :: past)) (ins ++ [i]) ≠ [] := by
  obtain ⟨h1, h2, h3⟩ := unpack64_first i0
  obtain ⟨hinv, hc⟩ := unpack64_run past h1
  simp only [unpack64Given, unpack64Run, h3, Bool.false_and, Bool.false_eq_true, if_false, List.nil_append] at hp ⊢
  have hne : unpack64Pend (unpack64Run (Unpack.init.step i0.data i0.valid i0.busy) past) ≠ [] := by
    intro h0
    rw [h0, List.append_nil, h2, List.nil_append] at hc
    rw [hc] at hp
    exact Nat.lt_irrefl _ hp
  have key : ∀ (ins : List WordIn) (s : Unpack), Unpack64Inv s → unpack64Pend s ≠ [] →
      unpack64Dist s ≤ ins.length → unpack64Given s (ins ++ [i]) ≠ [] := by
    intro ins
    induction ins with
    | nil =>
      intro s _ _ hd
      have : s.valid = true := dist_le.2.2.2.2 (Nat.le_zero.1 hd)
      simp [unpack64Given, this, hb]
    | cons j r ih =>
      intro s hs hp hd
      cases hg : s.valid && !j.busy with
      | true => simp [unpack64Given, hg]
      | false =>
        obtain ⟨h1, h2⟩ := unpack64_dist hs hp j hg
        simp only [List.length_cons] at hd
        have := ih _ (unpack64_inv_step hs j) h1 (by omega)
        simp only [List.cons_append, unpack64Given, hg, Bool.false_eq_true, if_false, List.nil_append]
        exact this
  refine key ins _ hinv hne ?_
  have : ∀ s, unpack64Dist s ≤ 4 := by intro s; unfold unpack64Dist; repeat' split
                                       all_goals simp
  exact Nat.le_trans (this _) hl

/-- C34, stability: a word shown to a busy consumer stays shown unchanged. -/
theorem C34_stable (i0 : WordIn) (past : List WordIn) (i : WordIn)
    (hv : (unpack64Run .init (i0 :: past)).valid = true) (hb : i.busy = true) :
    (unpack64Run .init (i0 :: past ++ [i])).valid = true ∧
    (unpack64Run .init (i0 :: past ++ [i])).data = (unpack64Run .init (i0 :: past)).data := by
  have hrun : ∀ (l : List WordIn) (s : Unpack), unpack64Run s (l ++ [i]) = (unpack64Run s l).step i.data i.valid i.busy := by
    intro l
    induction l with
    | nil => intro s; rfl
    | cons j r ih => intro s; exact ih _
  rw [hrun]
  have h : Unpack64Inv (unpack64Run .init (i0 :: past)) := (unpack64_run past (unpack64_first i0).1).1
  generalize unpack64Run .init (i0 :: past) = s at *
  obtain ⟨t, ht⟩ := front_cons h.f32 hv
  have h2 := SyncFifo.contents_step h.f32 s.we32 s.din32 (!i.busy)
  rw [hb] at h2
  simp only [Bool.not_true, Bool.and_false, Bool.false_eq_true, if_false, List.drop_zero, ht, List.cons_append] at h2
  have e32 : (s.step i.data i.valid i.busy).f32 = s.f32.step 4 s.we32 s.din32 false := by
    show s.f32.step 4 s.we32 s.din32 (!i.busy) = _
    rw [hb]; rfl
  have hl : (s.f32.step 4 s.we32 s.din32 false).level ≠ 0 := by
    rw [← SyncFifo.contents_length 4, h2]; simp
  have hr : (s.f32.step 4 s.we32 s.din32 false).readable = true := by simpa [SyncFifo.readable] using hl
  obtain ⟨t', ht'⟩ := front_cons (SyncFifo.inv_step h.f32 s.we32 s.din32 false) hr
  rw [h2] at ht'
  refine ⟨by simp only [Unpack.valid, e32]; exact hr, ?_⟩
  simp only [Unpack.data, e32]
  exact ((List.cons.inj ht').1).symm

/-- C34, the exception: a word offered in the very first cycle after reset is accepted (`o_busy` is 0)
and lost: whatever it is, the unpacker goes on as if nothing had been offered. -/
theorem C34_first_cycle_word_lost (d : Nat) (b : Bool) :
    Unpack.init.oBusy = false ∧ Unpack.init.step d true b = Unpack.init.step 0 false b := by
  cases b <;> exact ⟨rfl, rfl⟩

/-- Two words through the unpacker. -/
example : unpack64Given .init ([⟨0, false, false⟩] ++ List.replicate 2 ⟨0x1122334455667788, true, true⟩ ++
    [⟨0xAABBCCDD00000001, true, false⟩] ++ List.replicate 12 ⟨0, false, false⟩) =
    [0x11223344, 0x55667788, 0xAABBCCDD, 0x00000001] := by decide

end Props
