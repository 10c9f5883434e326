/- Properties C41 and C42, progress: the AXI burst reader and writer never get stuck, in infinite runs. -/
import Verif.Props.Reader
import Verif.Props.Writer

set_option autoImplicit false

namespace Props
open Model

/-- Something happens at or after time `t`. -/
def Later (t : Nat) (P : Nat → Prop) : Prop := ∃ t', t ≤ t' ∧ P t'

/-- Induction along time: what is stable holds from `t` on. -/
theorem stable_from {P : Nat → Prop} {t : Nat} (h0 : P t) (hs : ∀ k, t ≤ k → P k → P (k + 1)) : ∀ k, t ≤ k → P k := by
  intro k hk
  induction k with
  | zero => have : t = 0 := by omega
            subst this; exact h0
  | succ k ih =>
    by_cases h : t = k + 1
    · subst h; exact h0
    · exact hs k (by omega) (ih (by omega))

/-! ### Reader -/

/-- State and number of beats owed by the slave along an infinite run. -/
def readAt (f : Nat → ReadSideIn) : Nat → Nat × ReadSide
  | 0 => (0, .init)
  | t + 1 => let (n, s) := readAt f t
    (n + (if s.rd.arvalid && (f t).arready then 16 else 0) - (if s.rd.rready && (f t).rvalid then 1 else 0), s.step (f t))

/-- The AXI slave of an infinite run: as `ReadSide.SlaveOk`; in addition data are held until taken and owed data come
eventually; requests are accepted again and again. -/
structure FairSlave (f : Nat → ReadSideIn) : Prop where
  owed : ∀ t, (f t).rvalid = true → 0 < (readAt f t).1
  last : ∀ t, (f t).rlast = ((f t).rvalid && (readAt f t).1 % 16 == 1)
  hold : ∀ t, (f t).rvalid = true → (readAt f t).2.rd.rready = false → (f (t + 1)).rvalid = true
  come : ∀ t, 0 < (readAt f t).1 → Later t fun t' => (f t').rvalid = true
  accept : ∀ t, Later t fun t' => (f t').arready = true

theorem readAt_inv {f : Nat → ReadSideIn} (h : FairSlave f) : ∀ t, ReadSide.Inv (readAt f t).1 (readAt f t).2
  | 0 => ReadSide.inv_init
  | t + 1 => (ReadSide.inv_step (readAt_inv h t) (f t) (h.owed t) (h.last t)).1

/-- `readAt` is the run of the finite theorems. -/
theorem readAt_run (f : Nat → ReadSideIn) : ∀ t, (readAt f t).2 = ReadSide.run .init ((List.range t).map f)
  | 0 => rfl
  | t + 1 => by
    have hr : ∀ (xs : List ReadSideIn) (s : ReadSide) (i : ReadSideIn), ReadSide.run s (xs ++ [i]) = (ReadSide.run s xs).step i := by
      intro xs
      induction xs with
      | nil => intros; rfl
      | cons x xs ih => intro s i; exact ih _ _
    rw [List.range_succ, List.map_append, List.map_cons, List.map_nil, hr, ← readAt_run f t]
    rfl

/-- C41, progress: while the reader is enabled and addresses are available, the slave is fair and the consumer reads the
FIFO again and again, beats are transferred for ever. -/
theorem C41_progress (f : Nat → ReadSideIn) (hs : FairSlave f) (hen : ∀ t, (f t).enable = true ∧ (f t).addrEmpty = false)
    (hpop : ∀ t, Later t fun t' => (f t').pop = true) (t : Nat) :
    Later t fun t' => (readAt f t').2.rd.rready = true ∧ (f t').rvalid = true := by
  apply Classical.byContradiction
  intro hno
  have no : ∀ k, t ≤ k → (readAt f k).2.rd.rready = true → (f k).rvalid = false := by
    intro k hk hr
    cases hv : (f k).rvalid
    · rfl
    · exact absurd ⟨k, hk, hr, hv⟩ hno
  have hdata : ∀ k, t ≤ k → (readAt f k).2.rd.dataEn (f k).rvalid = false := by
    intro k hk
    simp only [HpReader.dataEn]
    cases hr : (readAt f k).2.rd.rready
    · rfl
    · rw [no k hk hr]; rfl
  -- the FIFO is only read
  have hlev : ∀ k, t ≤ k → (readAt f (k + 1)).2.fifo.level ≤ (readAt f k).2.fifo.level ∧
      ((f k).pop = true → (readAt f k).2.fifo.level ≠ 0 → (readAt f (k + 1)).2.fifo.level + 1 ≤ (readAt f k).2.fifo.level) := by
    intro k hk
    have e : (readAt f (k + 1)).2.fifo = (readAt f k).2.fifo.step 32 false (HpFifo.word (f k).rdata false) (f k).pop := by
      show HpFifo.step _ _ _ _ _ = _
      rw [hdata k hk]; rfl
    rw [e]
    generalize (readAt f k).2.fifo = q
    simp only [SyncFifo.step, Bool.and_false, Bool.not_false, Bool.and_true, Bool.false_and, Bool.false_eq_true, if_false, SyncFifo.readable]
    refine ⟨by split <;> omega, fun hp hl => ?_⟩
    simp [hp, hl]; omega
  have hlow : ∀ m, Later t fun k => (readAt f k).2.fifo.level ≤ 12 ∨ (readAt f k).2.fifo.level + m ≤ (readAt f t).2.fifo.level := by
    intro m
    induction m with
    | zero => exact ⟨t, Nat.le_refl t, Or.inr (Nat.le_refl _)⟩
    | succ m ih =>
      obtain ⟨k, hk, h | h⟩ := ih
      · exact ⟨k, hk, Or.inl h⟩
      · obtain ⟨k', hk', hp⟩ := hpop k
        have hmono : ∀ j, k ≤ j → (readAt f j).2.fifo.level ≤ (readAt f k).2.fifo.level :=
          stable_from (P := fun j => (readAt f j).2.fifo.level ≤ (readAt f k).2.fifo.level) (Nat.le_refl _)
            (fun j hj h => Nat.le_trans (hlev j (by omega)).1 h)
        have h1 := hmono k' hk'
        by_cases h0 : (readAt f k').2.fifo.level = 0
        · exact ⟨k', by omega, Or.inl (by omega)⟩
        · have := (hlev k' (by omega)).2 hp h0
          exact ⟨k' + 1, by omega, Or.inr (by omega)⟩
  obtain ⟨t1, ht1, h1⟩ := hlow ((readAt f t).2.fifo.level + 1)
  have h1 : (readAt f t1).2.fifo.level ≤ 12 := by rcases h1 with h | h <;> omega
  have low : ∀ k, t1 ≤ k → (readAt f k).2.fifo.level ≤ 12 :=
    stable_from (P := fun j => (readAt f j).2.fifo.level ≤ 12) h1 (fun j hj h => Nat.le_trans (hlev j (by omega)).1 h)
  have inv := readAt_inv hs
  -- `rready` leads to a beat
  have notReady : ∀ k, t1 ≤ k → (readAt f k).2.rd.rready = false := by
    intro k hk
    cases hr : (readAt f k).2.rd.rready
    · rfl
    · exfalso
      have stay : ∀ j, k ≤ j → (readAt f j).2.rd.rready = true := by
        apply stable_from (P := fun j => (readAt f j).2.rd.rready = true) hr
        intro j hj hrj
        have hv := no j (by omega) hrj
        show (HpReader.step _ _).rready = true
        simp only [HpReader.step, hrj, hs.last j, hv]; rfl
      obtain ⟨k', hk', hv⟩ := hs.come k ((inv k).room hr).1
      rw [no k' (by omega) (stay k' hk')] at hv
      cases hv
  -- so nothing is owed
  have zero : ∀ k, t1 ≤ k → (readAt f k).2.rd.active = 0 := by
    intro k hk
    apply Classical.byContradiction
    intro ha
    have := notReady (k + 1) (by omega)
    have hstep : (readAt f (k + 1)).2.rd.rready = (!(!decide ((readAt f k).2.fifo.level ≤ 12)) && (readAt f k).2.rd.active != 0) := by
      show (HpReader.step _ _).rready = _
      simp only [HpReader.step, notReady k hk]; rfl
    rw [hstep] at this
    simp [low k hk, ha] at this
  -- but a request is made
  have req : ∀ k, t1 ≤ k → (readAt f k).2.rd.arvalid = false := by
    intro k hk
    cases hr : (readAt f k).2.rd.arvalid
    · rfl
    · exfalso
      obtain ⟨k', hk', ha⟩ := hs.accept k
      have hacc : ∀ j, k ≤ j → (readAt f j).2.rd.arvalid = true → (f j).arready = false := by
        intro j hj hv
        cases hra : (f j).arready
        · rfl
        · exfalso
          have h0 := zero (j + 1) (by omega)
          have hz := zero j (by omega)
          have hrl : (f j).rlast = false := by
            rw [hs.last j]
            have hn := (inv j).active
            rw [hz] at hn
            have : (readAt f j).1 = 0 := by omega
            rw [this]
            cases (f j).rvalid <;> rfl
          have e : (readAt f (j + 1)).2.rd.active = 1 := by
            show (HpReader.step _ _).active = 1
            simp only [HpReader.step, HpReader.addrEn, hv, hra, hrl, hz]; rfl
          omega
      have stay : ∀ j, k ≤ j → (readAt f j).2.rd.arvalid = true := by
        apply stable_from (P := fun j => (readAt f j).2.rd.arvalid = true) hr
        intro j hj hv
        show (HpReader.step _ _).arvalid = true
        simp only [HpReader.step, hv, hacc j hj hv]; rfl
      rw [hacc k' hk' (stay k' hk')] at ha
      cases ha
  have h2 := req (t1 + 1) (by omega)
  have e : (readAt f (t1 + 1)).2.rd.arvalid = ((f t1).enable && !(f t1).addrEmpty && !Nat.testBit (readAt f t1).2.rd.active 3) := by
    show (HpReader.step _ _).arvalid = _
    simp only [HpReader.step, req t1 (Nat.le_refl _)]; rfl
  rw [e, zero t1 (Nat.le_refl _), (hen t1).1, (hen t1).2] at h2
  exact absurd h2 (by decide)

/-! ### Writer -/

/-- State along an infinite run. -/
def writeAt (f : Nat → WriteSideIn) : Nat → WriteSide
  | 0 => .init
  | t + 1 => (writeAt f t).step (f t)

/-- `writeAt` is the run of the finite theorems. -/
theorem writeAt_run (f : Nat → WriteSideIn) : ∀ t, writeAt f t = WriteSide.run .init ((List.range t).map f)
  | 0 => rfl
  | t + 1 => by
    have hr : ∀ (xs : List WriteSideIn) (s : WriteSide) (i : WriteSideIn), WriteSide.run s (xs ++ [i]) = (WriteSide.run s xs).step i := by
      intro xs
      induction xs with
      | nil => intros; rfl
      | cons x xs ih => intro s i; exact ih _ _
    rw [List.range_succ, List.map_append, List.map_cons, List.map_nil, hr, ← writeAt_run f t]
    rfl

/-- The AXI slave of an infinite run: requests and data are accepted again and again, a beat with `wlast` at once. -/
structure FairSink (f : Nat → WriteSideIn) : Prop where
  last : ∀ t, (writeAt f t).wr.wvalid = true → (writeAt f t).wr.wlast = true → (f t).wready = true
  accept : ∀ t, Later t fun t' => (f t').awready = true
  take : ∀ t, Later t fun t' => (f t').wready = true

theorem writeAt_inv {f : Nat → WriteSideIn} (h : FairSink f) : ∀ t, ∃ b a, WriteSide.Inv b a (writeAt f t)
  | 0 => ⟨0, 0, WriteSide.inv_init⟩
  | t + 1 => by
    obtain ⟨b, a, hi⟩ := writeAt_inv h t
    exact ⟨_, _, (WriteSide.inv_step hi (f t) (h.last t)).1⟩

/-- C42, progress: whenever the FIFO holds a burst (16 words), the writer is enabled and addresses are available, then with
a fair slave a further beat is transferred. -/
theorem C42_progress (f : Nat → WriteSideIn) (hs : FairSink f) (hen : ∀ t, (f t).enable = true ∧ (f t).addrEmpty = false)
    (t : Nat) (hfull : 16 ≤ (writeAt f t).fifo.level) :
    Later t fun t' => (writeAt f t').wr.wvalid = true ∧ (f t').wready = true := by
  apply Classical.byContradiction
  intro hno
  have no : ∀ k, t ≤ k → (writeAt f k).wr.wvalid = true → (f k).wready = false := by
    intro k hk hr
    cases hv : (f k).wready
    · rfl
    · exact absurd ⟨k, hk, hr, hv⟩ hno
  have hdata : ∀ k, t ≤ k → (writeAt f k).wr.dataEn (f k).wready = false := by
    intro k hk
    simp only [HpWriter.dataEn]
    cases hr : (writeAt f k).wr.wvalid
    · rfl
    · rw [no k hk hr]; rfl
  -- no word leaves the FIFO
  have full : ∀ k, t ≤ k → 16 ≤ (writeAt f k).fifo.level := by
    apply stable_from (P := fun k => 16 ≤ (writeAt f k).fifo.level) hfull
    intro k hk h
    have := WriteSide.fifo_level (writeAt f k).fifo (f k).push (HpFifo.word (f k).word (f k).endd) ((writeAt f k).wr.dataEn (f k).wready)
    rw [hdata k hk] at this
    show 16 ≤ (HpFifo.step _ _ _ _ _).level
    rw [hdata k hk]
    exact Nat.le_trans h this
  have notValid : ∀ k, t ≤ k → (writeAt f k).wr.wvalid = false := by
    intro k hk
    cases hr : (writeAt f k).wr.wvalid
    · rfl
    · exfalso
      have stay : ∀ j, k ≤ j → (writeAt f j).wr.wvalid = true := by
        apply stable_from (P := fun j => (writeAt f j).wr.wvalid = true) hr
        intro j hj hv
        have hl : (writeAt f j).wr.wlast = false := by
          cases hl : (writeAt f j).wr.wlast
          · rfl
          · have h1 := hs.last j hv hl
            rw [no j (by omega) hv] at h1; cases h1
        show (HpWriter.step _ _).wvalid = true
        simp only [HpWriter.step, hv, hl]; rfl
      obtain ⟨k', hk', hv⟩ := hs.take k
      rw [no k' (by omega) (stay k' hk')] at hv
      cases hv
  have notLast : ∀ k, t ≤ k → (writeAt f k).wr.wlast = false := by
    intro k hk
    obtain ⟨b, a, hi⟩ := writeAt_inv hs k
    have h1 := hi.idle (notValid k hk)
    rw [hi.count.2]
    rcases h1 with rfl | h1
    · rfl
    · rw [h1]; simp
  have zero : ∀ k, t ≤ k → (writeAt f k).wr.active = 0 := by
    intro k hk
    apply Classical.byContradiction
    intro ha
    have h1 := notValid (k + 1) (by omega)
    have e : (writeAt f (k + 1)).wr.wvalid = (!(!decide (16 ≤ (writeAt f k).fifo.level)) && (writeAt f k).wr.active != 0) := by
      show (HpWriter.step _ _).wvalid = _
      simp only [HpWriter.step, notValid k hk]; rfl
    rw [e] at h1
    simp [full k hk, ha] at h1
  have req : ∀ k, t ≤ k → (writeAt f k).wr.awvalid = false := by
    intro k hk
    cases hr : (writeAt f k).wr.awvalid
    · rfl
    · exfalso
      obtain ⟨k', hk', ha⟩ := hs.accept k
      have hacc : ∀ j, k ≤ j → (writeAt f j).wr.awvalid = true → (f j).awready = false := by
        intro j hj hv
        cases hra : (f j).awready
        · rfl
        · exfalso
          have h0 := zero (j + 1) (by omega)
          have e : (writeAt f (j + 1)).wr.active = 1 := by
            show (HpWriter.step _ _).active = 1
            simp only [HpWriter.step, HpWriter.addrEn, hv, hra, notLast j (by omega), zero j (by omega)]; rfl
          omega
      have stay : ∀ j, k ≤ j → (writeAt f j).wr.awvalid = true := by
        apply stable_from (P := fun j => (writeAt f j).wr.awvalid = true) hr
        intro j hj hv
        show (HpWriter.step _ _).awvalid = true
        simp only [HpWriter.step, hv, hacc j hj hv]; rfl
      rw [hacc k' hk' (stay k' hk')] at ha
      cases ha
  have h2 := req (t + 1) (by omega)
  have e : (writeAt f (t + 1)).wr.awvalid = ((f t).enable && !(f t).addrEmpty && !Nat.testBit (writeAt f t).wr.active 3) := by
    show (HpWriter.step _ _).awvalid = _
    simp only [HpWriter.step, req t (Nat.le_refl _)]; rfl
  rw [e, zero t (Nat.le_refl _), (hen t).1, (hen t).2] at h2
  exact absurd h2 (by decide)

/-- Write responses taken (`bvalid` and `bready`). -/
def WriteSide.responses : WriteSide → List WriteSideIn → Nat
  | _, [] => 0
  | s, i :: r => (if s.wr.bready && i.bvalid then 1 else 0) + WriteSide.responses (s.step i) r

/-- The response count of every run, up to its 4-bit width. -/
theorem unconf_run : ∀ (is : List WriteSideIn) (s : WriteSide), s.wr.unconf < 16 →
    (WriteSide.run s is).wr.unconf < 16 ∧
    ((WriteSide.run s is).wr.unconf + WriteSide.responses s is) % 16 = (s.wr.unconf + WriteSide.bursts s is) % 16
  | [], s, h => ⟨h, rfl⟩
  | i :: r, s, h => by
    have e : (s.step i).wr.unconf = (if s.wr.addrEn i.awready && !s.wr.respEn i.bvalid then (s.wr.unconf + 1) % 16
      else if !s.wr.addrEn i.awready && s.wr.respEn i.bvalid then (s.wr.unconf + 15) % 16 else s.wr.unconf) := rfl
    have hlt : (s.step i).wr.unconf < 16 := by
      rw [e]
      repeat' split
      all_goals omega
    obtain ⟨h1, h2⟩ := unconf_run r (s.step i) hlt
    refine ⟨h1, ?_⟩
    simp only [WriteSide.run, WriteSide.responses, WriteSide.bursts]
    simp only [HpWriter.addrEn, HpWriter.respEn] at e
    by_cases ha : (s.wr.awvalid && i.awready) = true <;> by_cases hr : (s.wr.bready && i.bvalid) = true <;>
      simp only [ha, hr, Bool.not_true, Bool.not_false, Bool.and_true, Bool.and_false, Bool.false_eq_true, if_true, if_false] at e ⊢ <;>
      omega

/-- C42: the writer's count of unconfirmed bursts is the number of bursts requested minus the number of responses
taken, as long as there are no more than 15 of them and the slave answers only what was requested. -/
theorem C42_unconfirmed (is : List WriteSideIn) (h1 : WriteSide.responses .init is ≤ WriteSide.bursts .init is)
    (h2 : WriteSide.bursts .init is ≤ WriteSide.responses .init is + 15) :
    (WriteSide.run .init is).wr.unconf = WriteSide.bursts .init is - WriteSide.responses .init is := by
  have h := unconf_run is .init (by decide)
  have e : (WriteSide.init).wr.unconf = 0 := rfl
  rw [e] at h
  omega

/-- C42: a response offered for two cycles is taken while the writer is enabled, in any state. -/
theorem C42_response_taken (s : WriteSide) (i j : WriteSideIn) (hen : i.enable = true) (hi : i.bvalid = true) (hj : j.bvalid = true) :
    1 ≤ WriteSide.responses s [i, j] := by
  simp only [WriteSide.responses, hi, hj, Bool.and_true]
  by_cases h : s.wr.bready = true
  · simp [h]
  · have : (s.step i).wr.bready = true := by
      show (HpWriter.step _ _).bready = true
      simp [HpWriter.step, h, hen]
    simp [this]

/-! ### The hypotheses can be met -/

/-- A consumer and a slave for the reader: everything accepted, data valid as soon as owed. -/
def readEager (n : Nat) : ReadSideIn := ⟨true, false, true, decide (0 < n), decide (0 < n) && n % 16 == 1, 7, true⟩

def eagerAt : Nat → Nat × ReadSide
  | 0 => (0, .init)
  | t + 1 => let (n, s) := eagerAt t
    let i := readEager n
    (n + (if s.rd.arvalid && i.arready then 16 else 0) - (if s.rd.rready && i.rvalid then 1 else 0), s.step i)

def eager (t : Nat) : ReadSideIn := readEager (eagerAt t).1

theorem eager_at : ∀ t, readAt eager t = eagerAt t
  | 0 => rfl
  | t + 1 => by
    have h := eager_at t
    simp only [readAt, eagerAt, h]; rfl

example : FairSlave eager ∧ (∀ t, (eager t).enable = true ∧ (eager t).addrEmpty = false) ∧ ∀ t, Later t fun t' => (eager t').pop = true := by
  refine ⟨⟨?_, ?_, ?_, ?_, fun t => ⟨t, Nat.le_refl t, rfl⟩⟩, fun t => ⟨rfl, rfl⟩, fun t => ⟨t, Nat.le_refl t, rfl⟩⟩
  · intro t h; rw [eager_at]; simpa [eager, readEager] using h
  · intro t; rw [eager_at]; rfl
  · intro t h hr
    rw [eager_at] at hr
    have h0 : 0 < (eagerAt t).1 := by simpa [eager, readEager] using h
    have : (eagerAt (t + 1)).1 = (eagerAt t).1 + (if (eagerAt t).2.rd.arvalid && true then 16 else 0) - 0 := by
      show _ + _ - (if (eagerAt t).2.rd.rready && _ then 1 else 0) = _
      rw [hr]; rfl
    have : 0 < (eagerAt (t + 1)).1 := by omega
    simpa [eager, readEager] using this
  · intro t h
    rw [eager_at] at h
    exact ⟨t, Nat.le_refl t, by simpa [eager, readEager] using h⟩

/-- A writer environment that always accepts and pushes a word in every cycle. -/
example : FairSink (fun k => wcyc true k) ∧ 16 ≤ (writeAt (fun k => wcyc true k) 16).fifo.level ∧
    (let is := List.replicate 8 (wcyc true 5) ++ List.replicate 3 { wcyc true 5 with bvalid := true }
     WriteSide.responses .init is = 3 ∧ WriteSide.bursts .init is = 5 ∧ (WriteSide.run .init is).wr.unconf = 2) :=
  ⟨⟨fun _ _ _ => rfl, fun t => ⟨t, Nat.le_refl t, rfl⟩, fun t => ⟨t, Nat.le_refl t, rfl⟩⟩, by decide +kernel, by decide +kernel⟩

end Props
