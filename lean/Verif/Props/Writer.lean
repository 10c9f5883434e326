/- Property theorems C42: the AXI burst writer behind its FIFO. -/
import Verif.Model.AxiHp
import Verif.Proof.Fifo

set_option autoImplicit false

namespace Props
open Model

/-- The writer with its FIFO (beta_integration_fullaxi.py:160-177). -/
structure WriteSide where
  wr : HpWriter
  fifo : SyncFifo

/-- The environment in one cycle: control, AXI slave, and the producer's word for the FIFO. -/
structure WriteSideIn where
  enable : Bool
  addrEmpty : Bool
  awready : Bool
  wready : Bool
  bvalid : Bool
  push : Bool
  word : Nat
  endd : Bool

namespace WriteSide

def init : WriteSide := ⟨.init, HpFifo.init⟩

def step (s : WriteSide) (i : WriteSideIn) : WriteSide :=
  { wr := s.wr.step ⟨i.enable, i.addrEmpty, i.awready, i.wready, i.bvalid, !HpFifo.readable16 s.fifo⟩
    fifo := HpFifo.step s.fifo i.push i.word i.endd (s.wr.dataEn i.wready) }

def run : WriteSide → List WriteSideIn → WriteSide
  | s, [] => s
  | s, i :: r => run (s.step i) r

/-- Beats transferred on the AXI write data channel (`wvalid` and `wready`): data and `wlast`. -/
def beats : WriteSide → List WriteSideIn → List (Nat × Bool)
  | _, [] => []
  | s, i :: r => (if s.wr.wvalid && i.wready then [(HpFifo.data s.fifo, s.wr.wlast)] else []) ++ beats (s.step i) r

/-- Words the FIFO accepts from the producer. -/
def pushed : WriteSide → List WriteSideIn → List Nat
  | _, [] => []
  | s, i :: r => (if s.fifo.writable 32 && i.push then [i.word] else []) ++ pushed (s.step i) r

/-- Write bursts requested (`awvalid` and `awready`); each announces 16 beats (`awlen` is 15, axihp_writer.py:76, 213). -/
def bursts : WriteSide → List WriteSideIn → Nat
  | _, [] => 0
  | s, i :: r => (if s.wr.awvalid && i.awready then 1 else 0) + bursts (s.step i) r

/-- The slave accepts a beat in the first cycle in which it is offered with `wlast`. -/
def LastTaken : WriteSide → List WriteSideIn → Prop
  | _, [] => True
  | s, i :: r => (s.wr.wvalid = true → s.wr.wlast = true → i.wready = true) ∧ LastTaken (s.step i) r

instance decLastTaken : ∀ (s : WriteSide) (is : List WriteSideIn), Decidable (LastTaken s is)
  | _, [] => isTrue trivial
  | s, i :: r =>
    have := decLastTaken (s.step i) r
    by unfold LastTaken; exact inferInstance

/-- Data words in the FIFO. -/
def queue (s : WriteSide) : List Nat := (s.fifo.contents 32).map fun w => w / 2 % 2 ^ 64

/-! ### Positions of `wlast` -/

/-- Counter and `wlast` after `b` beats. -/
def Count (b : Nat) (s : WriteSide) : Prop := s.wr.counter = b % 16 ∧ s.wr.wlast = (decide (0 < b) && b % 16 == 0)

theorem count_step {b : Nat} {s : WriteSide} (h : Count b s) (i : WriteSideIn) :
    Count (b + (if s.wr.wvalid && i.wready then 1 else 0)) (s.step i) := by
  obtain ⟨h1, h2⟩ := h
  simp only [Count, step, HpWriter.step, HpWriter.dataEn]
  by_cases hc : (s.wr.wvalid && i.wready) = true
  rotate_left
  · simp only [hc, if_false, Nat.add_zero]; exact ⟨h1, h2⟩
  · simp only [hc, if_true, h1]
    constructor
    · split <;> omega
    · by_cases h : b % 16 = 15
      · have : (b + 1) % 16 = 0 := by omega
        simp [h, this]
      · have : (b + 1) % 16 ≠ 0 := by omega
        rw [beq_eq_false_iff_ne.2 h, beq_eq_false_iff_ne.2 this, Bool.and_false]

theorem flags_run : ∀ (is : List WriteSideIn) (b : Nat) (s : WriteSide), Count b s →
    (beats s is).map Prod.snd = (List.range (beats s is).length).map (fun k => decide (0 < b + k) && (b + k) % 16 == 0) ∧
    Count (b + (beats s is).length) (run s is)
  | [], b, s, h => by simp [beats, run, h]
  | i :: r, b, s, h => by
    have ih := flags_run r _ _ (count_step h i)
    simp only [beats, run]
    cases hc : (s.wr.wvalid && i.wready)
    · simp only [hc, Bool.false_eq_true, if_false, Nat.add_zero] at ih
      simpa using ih
    · simp only [hc, if_true] at ih
      simp only [if_true, List.cons_append, List.nil_append, List.map_cons, List.length_cons, List.range_succ_eq_map,
        List.map_map, Function.comp_def]
      refine ⟨?_, ?_⟩
      · rw [ih.1, h.2]
        simp only [Nat.add_zero]
        congr 1
        apply List.map_congr_left
        intro k _
        simp only [show b + 1 + k = b + Nat.succ k by omega]
      · rw [show b + ((beats (s.step i) r).length + 1) = b + 1 + (beats (s.step i) r).length by omega]; exact ih.2

/-! ### Conservation when the flagged beat is taken at once -/

/-- Invariant after `b` beats and `a` requested bursts. -/
structure Inv (b a : Nat) (s : WriteSide) : Prop where
  fifo : s.fifo.Inv 32
  count : Count b s
  idle : s.wr.wvalid = false → b = 0 ∨ b % 16 = 1
  busy : s.wr.wvalid = true → 0 < s.wr.active ∧ (b ≤ 16 → 16 ≤ s.fifo.level + b) ∧
    (17 ≤ b → 16 ≤ s.fifo.level + (b - 1) % 16)
  active : s.wr.active + (b - 1) / 16 = a
  le : s.wr.active ≤ 8
  addr : s.wr.awvalid = true → s.wr.active ≤ 7

theorem fifo_level (f : SyncFifo) (we : Bool) (d : Nat) (re : Bool) :
    f.level ≤ (f.step 32 we d re).level + re.toNat := by
  simp only [SyncFifo.step]
  repeat' split
  all_goals (try omega)
  rename_i h1
  have : re = true := by
    revert h1; cases re <;> simp
  subst this; simp; omega

theorem inv_step {b a : Nat} {s : WriteSide} (h : Inv b a s) (i : WriteSideIn)
    (hl : s.wr.wvalid = true → s.wr.wlast = true → i.wready = true) :
    Inv (b + (if s.wr.wvalid && i.wready then 1 else 0)) (a + (if s.wr.awvalid && i.awready then 1 else 0)) (s.step i) ∧
    (s.wr.wvalid = true → i.wready = true → b ≠ 16 → s.fifo.readable = true) := by
  have hcnt := count_step h.count i
  obtain ⟨⟨active, unconf, awvalid, wvalid, wlast, bready, counter⟩, fifo⟩ := s
  obtain ⟨en, ae, awr, wr, bv, push, word, endd⟩ := i
  obtain ⟨h1, ⟨c1, c2⟩, h3, h4, h5, h6, h7⟩ := h
  dsimp only at *
  have hread : wvalid = true → wr = true → b ≠ 16 → fifo.readable = true := by
    intro hv _ hb
    have := h4 hv
    simp only [SyncFifo.readable, bne_iff_ne]
    have := this.2.1
    have := (h4 hv).2.2
    omega
  refine ⟨?_, hread⟩
  have hb : ∀ a, a ≤ 8 → a.testBit 3 = decide (a = 8) := by decide
  have hlev : fifo.level ≤ (HpFifo.step fifo push word false (wvalid && wr)).level + (wvalid && wr).toNat := fifo_level fifo _ _ _
  have hf := SyncFifo.inv_step h1 push (HpFifo.word word endd) (wvalid && wr)
  have key : ∀ lev, fifo.level ≤ lev + (wvalid && wr).toNat → ∀ act av wv,
      act = (if (awvalid && awr) && !wlast then (active + 1) % 16
        else if !(awvalid && awr) && wlast then (active + 15) % 16 else active) →
      av = (if !awvalid then en && !ae && !decide (active = 8) else !awr) →
      wv = (if !wvalid then !(!decide (16 ≤ fifo.level)) && active != 0 else !wlast) →
      ∀ b', b' = b + (if wvalid && wr then 1 else 0) → ∀ a', a' = a + (if awvalid && awr then 1 else 0) →
      (wv = false → b' = 0 ∨ b' % 16 = 1) ∧
      (wv = true → 0 < act ∧ (b' ≤ 16 → 16 ≤ lev + b') ∧ (17 ≤ b' → 16 ≤ lev + (b' - 1) % 16)) ∧
      act + (b' - 1) / 16 = a' ∧ act ≤ 8 ∧ (av = true → act ≤ 7) := by
    intro lev hl' act av wv ha hav hwv b' hb' a' ha'
    clear hlev hf hread hb h1 hcnt c1 counter
    cases wlast
    · have c2' : ¬ (0 < b ∧ b % 16 = 0) := by
        intro h; simp [h.1, h.2] at c2
      revert hl' ha hav hwv hb' ha'
      cases awvalid <;> cases awr <;> cases wvalid <;> cases wr <;>
        simp only [Bool.and_true, Bool.and_false, Bool.true_and, Bool.false_and, Bool.not_true, Bool.not_false, if_true, if_false, Bool.false_eq_true, Bool.toNat_false, Bool.not_not, Bool.toNat_true] <;>
        intro a1 a2 a3 a4 a5 a6 <;>
        (try have h3' := h3 rfl) <;> (try obtain ⟨h4a, h4b, h4c⟩ := h4 rfl) <;> (try have h7' := h7 rfl) <;>
        (cases wv <;> cases av <;> simp at a2 a6 <;> simp <;> omega)
    · have c2' : 0 < b ∧ b % 16 = 0 := by
        have := c2.symm; simpa using this
      have hv : wvalid = true := by
        cases wvalid
        · have := h3 rfl; omega
        · rfl
      subst hv
      have hw := hl rfl rfl
      subst hw
      obtain ⟨h4a, h4b, h4c⟩ := h4 rfl
      revert hl' ha hav hwv hb' ha'
      cases awvalid <;> cases awr <;>
        simp only [Bool.and_true, Bool.and_false, Bool.true_and, Bool.false_and, Bool.not_true, Bool.not_false, if_true, if_false, Bool.false_eq_true, Bool.toNat_false, Bool.not_not, Bool.toNat_true] <;>
        intro a1 a2 a3 a4 a5 a6 <;>
        (try have h7' := h7 rfl) <;>
        (cases wv <;> cases av <;> (try simp at a2) <;> (try simp at a3) <;> (try simp at a4) <;> (try simp at a5) <;> (try simp at a6) <;> simp <;> omega)
  obtain ⟨k1, k2, k3, k4, k5⟩ := key _ hlev _ _ _ rfl rfl rfl _ rfl _ rfl
  rw [← hb _ h6] at k5
  exact ⟨hf, hcnt, k1, k2, k3, k4, k5⟩

/-- What one cycle does to the data: the word taken from the FIFO is the beat, unless the FIFO is empty. -/
theorem queue_step {s : WriteSide} (h : s.fifo.Inv 32) (i : WriteSideIn) (hd : i.word < 2 ^ 64) :
    (if s.fifo.readable && (s.wr.wvalid && i.wready) then [HpFifo.data s.fifo] else []) ++ (s.step i).queue =
      s.queue ++ (if s.fifo.writable 32 && i.push then [i.word] else []) := by
  have hc := SyncFifo.contents_step h i.push (HpFifo.word i.word i.endd) (s.wr.dataEn i.wready)
  have e : (s.step i).fifo = s.fifo.step 32 i.push (HpFifo.word i.word i.endd) (s.wr.dataEn i.wready) := rfl
  rw [queue, e, hc, List.map_append, ← List.append_assoc]
  congr 1
  · simp only [HpWriter.dataEn]
    by_cases hre : (s.fifo.readable && (s.wr.wvalid && i.wready)) = true
    rotate_left
    · simp only [hre]; simp [queue]
    · have hl : s.fifo.level ≠ 0 := by
        have := (Bool.and_eq_true _ _ ▸ hre).1; simpa [SyncFifo.readable] using this
      simp only [hre, if_true, queue]
      rw [SyncFifo.contents_cons h hl]
      simp [HpFifo.data, SyncFifo.front]
  · split
    · simp only [List.map_cons, List.map_nil, HpFifo.word]
      have := Bool.toNat_le i.endd
      congr 1; omega
    · rfl

/-- From `b` beats on: data are conserved, except that beat 16 may be no FIFO word at all. -/
theorem run_inv : ∀ (is : List WriteSideIn) (b a : Nat) (s : WriteSide), Inv b a s → LastTaken s is →
    (∀ i ∈ is, i.word < 2 ^ 64) →
    Inv (b + (beats s is).length) (a + bursts s is) (run s is) ∧
    (((beats s is).map Prod.fst ++ (run s is).queue = s.queue ++ pushed s is) ∨
     (b ≤ 16 ∧ 16 < b + (beats s is).length ∧
       ((beats s is).map Prod.fst).eraseIdx (16 - b) ++ (run s is).queue = s.queue ++ pushed s is))
  | [], b, a, s, h, _, _ => by simpa [beats, bursts, run, pushed] using h
  | i :: r, b, a, s, h, ⟨hl, hr⟩, hd => by
    obtain ⟨hi, hread⟩ := inv_step h i hl
    have hq := queue_step h.fifo i (hd i (List.mem_cons_self ..))
    obtain ⟨e1, e2⟩ := run_inv r _ _ _ hi hr (fun j hj => hd j (List.mem_cons_of_mem _ hj))
    simp only [beats, bursts, run, pushed, List.length_append, List.map_append]
    refine ⟨?_, ?_⟩
    · have x1 : b + ((if (s.wr.wvalid && i.wready) = true then [(HpFifo.data s.fifo, s.wr.wlast)] else []).length +
          (beats (s.step i) r).length) = b + (if (s.wr.wvalid && i.wready) = true then 1 else 0) + (beats (s.step i) r).length := by
        split <;> simp <;> omega
      rw [x1, ← Nat.add_assoc a]; exact e1
    · cases hc : (s.wr.wvalid && i.wready)
      · simp only [hc, Bool.and_false, Bool.false_eq_true, if_false, List.nil_append, Nat.add_zero] at e2 hq
        simp only [Bool.false_eq_true, if_false, List.map_nil, List.nil_append, List.length_nil, Nat.zero_add, ← List.append_assoc]
        rw [hq] at e2; exact e2
      · have hc' : s.wr.wvalid = true ∧ i.wready = true := by simpa using hc
        simp only [hc, Bool.and_true, if_true] at e2 hq
        simp only [if_true, List.map_cons, List.map_nil, List.length_cons, List.length_nil, List.cons_append, List.nil_append]
        rw [← List.append_assoc, ← hq]
        by_cases hre : s.fifo.readable = true
        · simp only [hre, if_true, List.cons_append, List.nil_append]
          rcases e2 with e2 | ⟨p1, p2, e2⟩
          · exact .inl (by rw [e2])
          · refine .inr ⟨by omega, by omega, ?_⟩
            rw [show 16 - b = (16 - (b + 1)) + 1 by omega, List.eraseIdx_cons_succ, List.cons_append, e2]
        · have hb : b = 16 := Classical.byContradiction fun hb => hre (hread hc'.1 hc'.2 hb)
          subst hb
          simp only [hre, Bool.false_eq_true, if_false, List.nil_append]
          rcases e2 with e2 | ⟨p1, _⟩
          · exact .inr ⟨by omega, by omega, by simpa using e2⟩
          · omega

theorem inv_init : Inv 0 0 init :=
  ⟨SyncFifo.inv_reset _ _ (by decide) (by simp), by simp [Count, init, HpWriter.init], by simp,
   by simp [init, HpWriter.init], rfl, by decide, by decide⟩

end WriteSide

/-- C42: in every run, whatever slave and producer do, `wlast` is set on exactly the beats number 16, 32, 48, …
counted from 0: it is one beat late. The 16 beats that `awlen` announces end with beat 15. -/
theorem C42_last_positions (is : List WriteSideIn) :
    (WriteSide.beats .init is).map Prod.snd =
      (List.range (WriteSide.beats .init is).length).map fun k => decide (0 < k) && k % 16 == 0 := by
  have := (WriteSide.flags_run is 0 .init (by simp [WriteSide.Count, WriteSide.init, HpWriter.init])).1
  simpa using this

/-- C42: so no burst ends with `wlast` on its 16th beat. -/
theorem C42_never_on_16th (is : List WriteSideIn) (k : Nat) (d : Nat × Bool)
    (hk : (WriteSide.beats .init is)[16 * k + 15]? = some d) : d.2 = false := by
  have h := congrArg (·[16 * k + 15]?) (C42_last_positions is)
  have hlt : 16 * k + 15 < (WriteSide.beats .init is).length := by
    have := List.getElem?_eq_some_iff.1 hk; exact this.1
  simp only [List.getElem?_map, hk, Option.map_some, List.getElem?_range hlt] at h
  have e : (16 * k + 15) % 16 = 15 := by omega
  simpa [e] using h

/-- C42: with a slave that takes each flagged beat at once, the data beats are the producer's words in order, each once,
with the rest still in the FIFO — except that beat number 16 may be an additional, meaningless word. -/
theorem C42_data (is : List WriteSideIn) (hl : WriteSide.LastTaken .init is) (hd : ∀ i ∈ is, i.word < 2 ^ 64) :
    let out := (WriteSide.beats .init is).map Prod.fst
    let left := (WriteSide.run .init is).queue
    let words := WriteSide.pushed .init is
    out ++ left = words ∨ (16 < out.length ∧ out.eraseIdx 16 ++ left = words) := by
  have h := (WriteSide.run_inv is 0 0 _ WriteSide.inv_init hl hd).2
  have e : WriteSide.queue .init = [] := by simp [WriteSide.queue, WriteSide.init, HpFifo.init, SyncFifo.init]
  rw [e] at h
  simpa using h

/-- C42: with such a slave, the writer counts unfinished bursts exactly (a burst finishes with its flagged beat), keeps at
most eight of them, and never sends more than one beat beyond those requested. -/
theorem C42_outstanding (is : List WriteSideIn) (hl : WriteSide.LastTaken .init is) (hd : ∀ i ∈ is, i.word < 2 ^ 64) :
    (WriteSide.run .init is).wr.active + (WriteSide.beats .init is).countP Prod.snd = WriteSide.bursts .init is ∧
    (WriteSide.run .init is).wr.active ≤ 8 ∧
    (WriteSide.beats .init is).length ≤ 16 * WriteSide.bursts .init is + 1 := by
  have h := (WriteSide.run_inv is 0 0 _ WriteSide.inv_init hl hd).1
  have hc : (WriteSide.beats .init is).countP Prod.snd = ((WriteSide.beats .init is).length - 1) / 16 := by
    have e : (WriteSide.beats .init is).countP Prod.snd = ((WriteSide.beats .init is).map Prod.snd).countP id := by
      rw [List.countP_map]; rfl
    rw [e, C42_last_positions]
    generalize (WriteSide.beats .init is).length = n
    induction n with
    | zero => rfl
    | succ n ih =>
      rw [List.range_succ, List.map_append, List.countP_append, ih]
      by_cases h : 0 < n ∧ n % 16 = 0
      · simp [h.1, h.2]; omega
      · have : (decide (0 < n) && n % 16 == 0) = false := by
          simp only [Bool.and_eq_false_iff, decide_eq_false_iff_not, beq_eq_false_iff_ne]; omega
        simp [this]; omega
  have h5 := h.active
  refine ⟨by rw [hc]; omega, h.le, ?_⟩
  cases hv : (WriteSide.run .init is).wr.wvalid
  · have := h.idle hv; omega
  · have := (h.busy hv).1; omega

/-- A cycle with an always ready slave: enabled, address available, optionally a word for the FIFO. -/
def wcyc (push : Bool) (word : Nat) : WriteSideIn := ⟨true, false, true, true, false, push, word, false⟩

/-- 40 words pushed at full speed, then 40 cycles more: the first burst takes 17 words, the second 16; the hypotheses
of `C42_data` and `C42_outstanding` are met. -/
example : let is := (List.range 40).map (fun k => wcyc true (100 + k)) ++ List.replicate 40 (wcyc false 0)
    WriteSide.LastTaken .init is ∧
    (WriteSide.beats .init is).map Prod.fst = (List.range 33).map (100 + ·) ∧
    (WriteSide.beats .init is).map Prod.snd = (List.range 33).map (fun k => k == 16 || k == 32) ∧
    (WriteSide.run .init is).queue = [133, 134, 135, 136, 137, 138, 139] := by decide +kernel

/-- C42 (limit of the code): with exactly 16 words in the FIFO the writer sends 17 beats, the last one from an
empty FIFO. The hypotheses of `C42_data` hold, so its second case does occur. -/
theorem C42_underrun_limit :
    let is := (List.range 16).map (fun k => wcyc true (100 + k)) ++ List.replicate 30 (wcyc false 0)
    WriteSide.LastTaken .init is ∧ WriteSide.pushed .init is = (List.range 16).map (100 + ·) ∧
    (WriteSide.beats .init is).map Prod.fst = (List.range 16).map (100 + ·) ++ [0] := by decide +kernel

/-- C42 (limit of the code): a beat offered with `wlast` is withdrawn in the next cycle even if the slave was not ready,
which AXI forbids; `wlast` stays set and so the count of unfinished bursts goes down again and again. -/
theorem C42_withdrawn_limit (s : WriteSide) (i : WriteSideIn) (hv : s.wr.wvalid = true) (hl : s.wr.wlast = true)
    (hr : i.wready = false) :
    (s.step i).wr.wvalid = false ∧ (s.step i).wr.wlast = true ∧
    (i.awready = false → (s.step i).wr.active = (s.wr.active + 15) % 16) := by
  obtain ⟨⟨active, unconf, awvalid, wvalid, wlast, bready, counter⟩, fifo⟩ := s
  obtain ⟨en, ae, awr, wr, bv, push, word, endd⟩ := i
  dsimp only at hv hl hr
  subst hv hl hr
  refine ⟨rfl, rfl, ?_⟩
  rintro rfl
  simp [WriteSide.step, HpWriter.step, HpWriter.addrEn]

/-- Such a state is reached: after 16 beats, with the flagged 17th offered; a slave not ready then makes the count wrong. -/
example : let is := (List.range 33).map fun k => wcyc true k
    (WriteSide.run .init is).wr.wvalid = true ∧ (WriteSide.run .init is).wr.wlast = true ∧
    (WriteSide.beats .init is).length = 16 ∧
    (WriteSide.run .init (is ++ List.replicate 9 ⟨false, true, false, false, false, false, 0, false⟩)).wr.active = 15 := by decide +kernel

end Props
