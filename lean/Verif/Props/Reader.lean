/- Property theorems C41: the AXI burst reader in front of its FIFO. -/
import Verif.Model.AxiHp
import Verif.Proof.Fifo

set_option autoImplicit false

namespace Props
open Model

/-- The reader with its FIFO (beta_integration_fullaxi.py:128-144). -/
structure ReadSide where
  rd : HpReader
  fifo : SyncFifo

/-- The environment in one cycle: control, AXI slave, and whether the consumer reads the FIFO. -/
structure ReadSideIn where
  enable : Bool
  addrEmpty : Bool
  arready : Bool
  rvalid : Bool
  rlast : Bool
  rdata : Nat
  pop : Bool

namespace ReadSide

def init : ReadSide := ⟨.init, HpFifo.init⟩

def step (s : ReadSide) (i : ReadSideIn) : ReadSide :=
  { rd := s.rd.step ⟨i.enable, i.addrEmpty, i.arready, i.rvalid, i.rlast, i.rdata, !HpFifo.writable16 s.fifo⟩
    fifo := HpFifo.step s.fifo (s.rd.dataEn i.rvalid) i.rdata false i.pop }

def run : ReadSide → List ReadSideIn → ReadSide
  | s, [] => s
  | s, i :: r => run (s.step i) r

/-- Beats transferred on the AXI read data channel (`rvalid` and `rready`). -/
def beats : ReadSide → List ReadSideIn → List Nat
  | _, [] => []
  | s, i :: r => (if s.rd.rready && i.rvalid then [i.rdata] else []) ++ beats (s.step i) r

/-- Words the consumer takes from the FIFO. -/
def popped : ReadSide → List ReadSideIn → List Nat
  | _, [] => []
  | s, i :: r => (if s.fifo.readable && i.pop then [HpFifo.data s.fifo] else []) ++ popped (s.step i) r

/-- Read bursts requested (`arvalid` and `arready`). -/
def bursts : ReadSide → List ReadSideIn → Nat
  | _, [] => 0
  | s, i :: r => (if s.rd.arvalid && i.arready then 1 else 0) + bursts (s.step i) r

/-- An AXI read slave: with `n` beats still owed, data are only valid when some are owed, `rlast` marks
exactly the last beat of each burst of 16 (and is low without `rvalid`), and each accepted
address makes the slave owe 16 more. Otherwise the slave is free: any delays, any data. -/
def SlaveOk : Nat → ReadSide → List ReadSideIn → Prop
  | _, _, [] => True
  | n, s, i :: r => (i.rvalid = true → 0 < n) ∧ i.rlast = (i.rvalid && n % 16 == 1) ∧
      SlaveOk (n + (if s.rd.arvalid && i.arready then 16 else 0) - (if s.rd.rready && i.rvalid then 1 else 0)) (s.step i) r

/-- Data words in the FIFO. -/
def queue (s : ReadSide) : List Nat := (s.fifo.contents 32).map fun w => w / 2 % 2 ^ 64

/-- Invariant with `n` beats owed. -/
structure Inv (n : Nat) (s : ReadSide) : Prop where
  fifo : s.fifo.Inv 32
  active : s.rd.active = (n + 15) / 16
  le : s.rd.active ≤ 8
  addr : s.rd.arvalid = true → s.rd.active ≤ 7
  idle : s.rd.rready = false → n % 16 = 0
  room : s.rd.rready = true → 0 < n ∧ s.fifo.level + ((n + 15) % 16 + 1) ≤ 28
  level : s.fifo.level ≤ 28

theorem fifo_level (f : SyncFifo) (h : f.Inv 32) (we : Bool) (d : Nat) (re : Bool) :
    (f.step 32 we d re).level ≤ f.level + we.toNat := by
  simp only [SyncFifo.step]
  repeat' split
  all_goals (try omega)
  rename_i h1 h2
  have : we = true := by
    revert h2; cases we <;> simp
  subst this; simp

theorem inv_step {n : Nat} {s : ReadSide} (h : Inv n s) (i : ReadSideIn) (hv : i.rvalid = true → 0 < n)
    (hl : i.rlast = (i.rvalid && n % 16 == 1)) :
    Inv (n + (if s.rd.arvalid && i.arready then 16 else 0) - (if s.rd.rready && i.rvalid then 1 else 0)) (s.step i) ∧
    (s.rd.rready = true → i.rvalid = true → s.fifo.writable 32 = true) := by
  obtain ⟨⟨active, arvalid, rready⟩, fifo⟩ := s
  obtain ⟨en, ae, arr, rv, rl, rdat, pop⟩ := i
  obtain ⟨h1, h2, h3, h4, h5, h6, h7⟩ := h
  dsimp only at *
  have hw : rready = true → rv = true → fifo.writable 32 = true := by
    intro hr hv
    have := (h6 hr).2
    simp only [SyncFifo.writable, bne_iff_ne]
    omega
  refine ⟨?_, hw⟩
  have hb : ∀ a, a ≤ 8 → a.testBit 3 = decide (a = 8) := by decide
  have hlev := fifo_level fifo h1 (rready && rv) (HpFifo.word rdat false) pop
  replace hl : rl = (rv && n % 16 == 1) := hl
  subst hl
  have hlev0 : rready = false → (HpFifo.step fifo (rready && rv) rdat false pop).level ≤ fifo.level := by
    rintro rfl; simpa [HpFifo.step] using hlev
  have hlev1 : (HpFifo.step fifo (rready && rv) rdat false pop).level ≤ fifo.level + (rready && rv).toNat := hlev
  have hf := SyncFifo.inv_step h1 (rready && rv) (HpFifo.word rdat false) pop
  have key : ∀ lev, lev ≤ fifo.level + (rready && rv).toNat → ∀ act ar rr, 
      act = (if (arvalid && arr) && !(rv && n % 16 == 1) then (active + 1) % 16
        else if !(arvalid && arr) && (rv && n % 16 == 1) then (active + 15) % 16 else active) →
      ar = (if !arvalid then en && !ae && !decide (active = 8) else !arr) →
      rr = (if !rready then !(!decide (fifo.level ≤ 12)) && active != 0 else !(rv && n % 16 == 1)) →
      ∀ n', n' = n + (if arvalid && arr then 16 else 0) - (if rready && rv then 1 else 0) →
      act = (n' + 15) / 16 ∧ act ≤ 8 ∧ (ar = true → act ≤ 7) ∧ (rr = false → n' % 16 = 0) ∧
      (rr = true → 0 < n' ∧ lev + ((n' + 15) % 16 + 1) ≤ 28) ∧ lev ≤ 28 := by
    intro lev hl act ar rr ha har hrr n' hn
    clear hlev hlev0 hlev1 hf hw hb h1
    have hm : (n % 16 == 1) = true ↔ n % 16 = 1 := by simp
    revert ha har hrr hn hl
    generalize hmb : (n % 16 == 1) = mb at *
    cases rready
    · have h5' := h5 rfl
      have : mb = false := by
        cases mb
        · rfl
        · have := hm.1 rfl; omega
      subst this
      cases arvalid <;> cases arr <;> cases rv <;>
        simp only [Bool.and_true, Bool.and_false, Bool.true_and, Bool.false_and, Bool.not_true, Bool.not_false, if_true, if_false, Bool.false_eq_true, Bool.toNat_false, Bool.not_not] <;>
        intro a1 a2 a3 a4 a5 <;> 
        (try have h4' := h4 rfl) <;> (try have hv' := hv rfl) <;>
        (cases rr <;> cases ar <;> simp at a3 a4 <;> simp <;> omega)
    · obtain ⟨h6a, h6b⟩ := h6 rfl
      have hm' : mb = decide (n % 16 = 1) := by rw [← hmb]; simp [BEq.beq]
      cases mb
      · have hm'' : n % 16 ≠ 1 := fun h => by rw [hm.2 h] at hm'; have := hm.2 h; cases this
        cases arvalid <;> cases arr <;> cases rv <;>
        simp only [Bool.and_true, Bool.and_false, Bool.true_and, Bool.false_and, Bool.not_true, Bool.not_false, if_true, if_false, Bool.false_eq_true, Bool.toNat_false, Bool.not_not, Bool.toNat_true] <;>
        intro a1 a2 a3 a4 a5 <;> 
        (try have h4' := h4 rfl) <;> (try have hv' := hv rfl) <;>
        (cases rr <;> cases ar <;> simp at a3 a4 <;> simp <;> omega)
      · have hm'' : n % 16 = 1 := hm.1 rfl
        cases arvalid <;> cases arr <;> cases rv <;>
        simp only [Bool.and_true, Bool.and_false, Bool.true_and, Bool.false_and, Bool.not_true, Bool.not_false, if_true, if_false, Bool.false_eq_true, Bool.toNat_false, Bool.not_not, Bool.toNat_true] <;>
        intro a1 a2 a3 a4 a5 <;> 
        (try have h4' := h4 rfl) <;> (try have hv' := hv rfl) <;>
        (cases rr <;> cases ar <;> simp at a3 a4 <;> simp <;> omega)
  obtain ⟨k1, k2, k3, k4, k5, k6⟩ := key _ hlev1 _ _ _ rfl rfl rfl _ rfl
  rw [← hb _ h3] at k3
  exact ⟨hf, k1, k2, k3, k4, k5, k6⟩

theorem queue_step {n : Nat} {s : ReadSide} (h : Inv n s) (i : ReadSideIn) (hv : i.rvalid = true → 0 < n)
    (hl : i.rlast = (i.rvalid && n % 16 == 1)) (hd : i.rdata < 2 ^ 64) :
    (if s.fifo.readable && i.pop then [HpFifo.data s.fifo] else []) ++ (s.step i).queue =
      s.queue ++ (if s.rd.rready && i.rvalid then [i.rdata] else []) := by
  have hw := (inv_step h i hv hl).2
  have hc := SyncFifo.contents_step h.fifo (s.rd.dataEn i.rvalid) (HpFifo.word i.rdata false) i.pop
  have e : (s.step i).fifo = s.fifo.step 32 (s.rd.dataEn i.rvalid) (HpFifo.word i.rdata false) i.pop := rfl
  have hwe : (if (s.fifo.writable 32 && s.rd.dataEn i.rvalid) = true then [HpFifo.word i.rdata false] else []) =
      if s.rd.rready && i.rvalid then [HpFifo.word i.rdata false] else [] := by
    simp only [HpReader.dataEn]
    by_cases hr : s.rd.rready = true <;> by_cases hv : i.rvalid = true <;> simp [hr, hv]
    simp [hw hr hv]
  rw [queue, e, hc, hwe, List.map_append, ← List.append_assoc]
  congr 1
  · cases hre : s.fifo.readable && i.pop
    · simp [queue]
    · have hl : s.fifo.level ≠ 0 := by
        have := (Bool.and_eq_true _ _ ▸ hre).1; simpa [SyncFifo.readable] using this
      simp only [if_true, queue]
      rw [SyncFifo.contents_cons h.fifo hl]
      simp [HpFifo.data, SyncFifo.front]
  · split
    · simp only [List.map_cons, List.map_nil, HpFifo.word, Bool.toNat_false, Nat.zero_add]
      congr 1; omega
    · rfl

theorem run_inv : ∀ (is : List ReadSideIn) (n : Nat) (s : ReadSide), Inv n s → SlaveOk n s is → (∀ i ∈ is, i.rdata < 2 ^ 64) →
    ∃ n', Inv n' (run s is) ∧ popped s is ++ (run s is).queue = s.queue ++ beats s is ∧
      n' + (beats s is).length = n + 16 * bursts s is
  | [], n, s, h, _, _ => ⟨n, h, by simp [popped, run, beats], by simp [beats, bursts]⟩
  | i :: r, n, s, h, ⟨hv, hl, hr⟩, hd => by
    have hi := (inv_step h i hv hl).1
    have hq := queue_step h i hv hl (hd i (List.mem_cons_self ..))
    obtain ⟨n', e1, e2, e3⟩ := run_inv r _ _ hi hr (fun j hj => hd j (List.mem_cons_of_mem _ hj))
    refine ⟨n', e1, ?_, ?_⟩
    · simp only [popped, run, beats]
      rw [List.append_assoc, e2, ← List.append_assoc, hq, List.append_assoc]
    · simp only [beats, bursts, List.length_append]
      have : (s.rd.rready && i.rvalid) = true → 0 < n := fun h => hv (by simp at h; exact h.2)
      revert e3
      cases (s.rd.arvalid && i.arready) <;> cases hc : (s.rd.rready && i.rvalid) <;>
        simp only [Bool.false_eq_true, if_false, if_true, List.length_cons, List.length_nil] <;>
        (try have := this hc) <;> omega

theorem inv_init : Inv 0 init :=
  ⟨SyncFifo.inv_reset _ _ (by decide) (by simp), rfl, by decide, by decide, fun _ => rfl, by decide, by decide⟩

end ReadSide

/-- C41: with any AXI slave that answers bursts of 16 and any consumer, the words the consumer takes from the FIFO are
the beats transferred on the AXI bus, each exactly once and in order; what is not yet taken is still in the FIFO,
which never holds more than 28 of its 32 words. -/
theorem C41_no_beat_lost (is : List ReadSideIn) (hs : ReadSide.SlaveOk 0 .init is) (hd : ∀ i ∈ is, i.rdata < 2 ^ 64) :
    ReadSide.popped .init is ++ (ReadSide.run .init is).queue = ReadSide.beats .init is ∧
    (ReadSide.run .init is).fifo.level ≤ 28 := by
  obtain ⟨n, h1, h2, _⟩ := ReadSide.run_inv is 0 _ ReadSide.inv_init hs hd
  exact ⟨by simpa [ReadSide.queue, ReadSide.init, HpFifo.init, SyncFifo.init] using h2, h1.level⟩

/-- C41: a transferred beat always finds the FIFO writable. -/
theorem C41_never_full (is : List ReadSideIn) (i : ReadSideIn) (hs : ReadSide.SlaveOk 0 .init (is ++ [i]))
    (hd : ∀ j ∈ is, j.rdata < 2 ^ 64) :
    (ReadSide.run .init is).rd.rready = true → i.rvalid = true → (ReadSide.run .init is).fifo.writable 32 = true := by
  suffices ∀ (is : List ReadSideIn) (n : Nat) (s : ReadSide), ReadSide.Inv n s → ReadSide.SlaveOk n s (is ++ [i]) →
      (ReadSide.run s is).rd.rready = true → i.rvalid = true → (ReadSide.run s is).fifo.writable 32 = true from
    this is 0 _ ReadSide.inv_init hs
  intro is
  induction is with
  | nil => intro n s h hs; exact (ReadSide.inv_step h i hs.1 hs.2.1).2
  | cons j r ih => intro n s h hs; exact ih _ _ (ReadSide.inv_step h j hs.1 hs.2.1).1 hs.2.2

/-- C41: the beats transferred never exceed what was requested, at most eight bursts are outstanding, and the
reader's count of unfinished bursts is exact: `active` bursts of 16 cover the beats still owed. -/
theorem C41_outstanding (is : List ReadSideIn) (hs : ReadSide.SlaveOk 0 .init is) (hd : ∀ i ∈ is, i.rdata < 2 ^ 64) :
    (ReadSide.beats .init is).length ≤ 16 * ReadSide.bursts .init is ∧
    16 * ReadSide.bursts .init is ≤ (ReadSide.beats .init is).length + 128 ∧
    (ReadSide.run .init is).rd.active = (16 * ReadSide.bursts .init is - (ReadSide.beats .init is).length + 15) / 16 := by
  obtain ⟨n, h1, _, h3⟩ := ReadSide.run_inv is 0 _ ReadSide.inv_init hs hd
  have := h1.active
  have := h1.le
  refine ⟨by omega, by omega, ?_⟩
  rw [h1.active]; congr 2; omega

/-- A run meeting the hypotheses: one burst is requested and answered with beats 0..15, four of which are read. -/
def readExample : List ReadSideIn :=
  [⟨true, false, true, false, false, 0, false⟩, ⟨false, true, true, false, false, 0, false⟩,
   ⟨false, true, true, false, false, 0, false⟩] ++
  (List.range 16).map (fun k => ⟨false, true, true, true, k == 15, 100 + k, k ≥ 12⟩)

instance : ∀ (n : Nat) (s : ReadSide) (is : List ReadSideIn), Decidable (ReadSide.SlaveOk n s is)
  | _, _, [] => isTrue trivial
  | n, s, i :: r =>
    have := instDecidableSlaveOk (n + (if s.rd.arvalid && i.arready then 16 else 0) - (if s.rd.rready && i.rvalid then 1 else 0)) (s.step i) r
    by unfold ReadSide.SlaveOk; exact inferInstance

example : ReadSide.SlaveOk 0 .init readExample ∧ ReadSide.beats .init readExample = (List.range 16).map (100 + ·) ∧
    ReadSide.popped .init readExample = [100, 101, 102, 103] ∧ ReadSide.bursts .init readExample = 1 := by decide +kernel

/-- C41 (limit of the code): the reader looks at `rlast` without `rvalid`. A slave that holds `rlast` high while it
has no data (AXI allows this) makes the count of unfinished bursts wrong: from reset it becomes 15 with nothing requested. -/
theorem C41_idle_rlast_limit :
    (ReadSide.run .init [⟨false, true, true, false, true, 0, false⟩]).rd.active = 15 ∧
    ReadSide.bursts .init [⟨false, true, true, false, true, 0, false⟩] = 0 := by decide +kernel

end Props
