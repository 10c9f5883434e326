/- Property theorems C79: with a fair memory every started frame of the full-AXI design ends. -/
import Verif.Props.FullAxi
import Verif.Props.HpLive
import Verif.Props.BetaLive
import Verif.Props.NetFull

set_option autoImplicit false

namespace Props
open Spec Model

/-! ### Progress of reader and writer from any reachable state -/

/-- State and number of beats owed by the slave along an infinite run from `x`. -/
def readFrom (x : Nat × ReadSide) (f : Nat → ReadSideIn) : Nat → Nat × ReadSide
  | 0 => x
  | t + 1 => let (n, s) := readFrom x f t
    (n + (if s.rd.arvalid && (f t).arready then 16 else 0) - (if s.rd.rready && (f t).rvalid then 1 else 0), s.step (f t))

structure FairFrom (x : Nat × ReadSide) (f : Nat → ReadSideIn) : Prop where
  owed : ∀ t, (f t).rvalid = true → 0 < (readFrom x f t).1
  last : ∀ t, (f t).rlast = ((f t).rvalid && (readFrom x f t).1 % 16 == 1)
  come : ∀ t, 0 < (readFrom x f t).1 → Later t fun t' => (f t').rvalid = true
  accept : ∀ t, Later t fun t' => (f t').arready = true

theorem readFrom_inv {x : Nat × ReadSide} (h0 : ReadSide.Inv x.1 x.2) {f : Nat → ReadSideIn} (h : FairFrom x f) :
    ∀ t, ReadSide.Inv (readFrom x f t).1 (readFrom x f t).2
  | 0 => h0
  | t + 1 => (ReadSide.inv_step (readFrom_inv h0 h t) (f t) (h.owed t) (h.last t)).1

theorem read_live {x : Nat × ReadSide} (h0 : ReadSide.Inv x.1 x.2) (f : Nat → ReadSideIn) (hs : FairFrom x f)
    (hen : ∀ t, (f t).enable = true ∧ ((readFrom x f t).2.rd.arvalid = false → (f t).addrEmpty = false))
    (hpop : ∀ t, Later t fun t' => (f t').pop = true) (t : Nat) :
    Later t fun t' => (readFrom x f t').2.rd.rready = true ∧ (f t').rvalid = true := by
  apply Classical.byContradiction
  intro hno
  have no : ∀ k, t ≤ k → (readFrom x f k).2.rd.rready = true → (f k).rvalid = false := by
    intro k hk hr
    cases hv : (f k).rvalid
    · rfl
    · exact absurd ⟨k, hk, hr, hv⟩ hno
  have hdata : ∀ k, t ≤ k → (readFrom x f k).2.rd.dataEn (f k).rvalid = false := by
    intro k hk
    simp only [HpReader.dataEn]
    cases hr : (readFrom x f k).2.rd.rready
    · rfl
    · rw [no k hk hr]; rfl
  -- the FIFO is only read
  have hlev : ∀ k, t ≤ k → (readFrom x f (k + 1)).2.fifo.level ≤ (readFrom x f k).2.fifo.level ∧
      ((f k).pop = true → (readFrom x f k).2.fifo.level ≠ 0 → (readFrom x f (k + 1)).2.fifo.level + 1 ≤ (readFrom x f k).2.fifo.level) := by
    intro k hk
    have e : (readFrom x f (k + 1)).2.fifo = (readFrom x f k).2.fifo.step 32 false (HpFifo.word (f k).rdata false) (f k).pop := by
      show HpFifo.step _ _ _ _ _ = _
      rw [hdata k hk]; rfl
    rw [e]
    generalize (readFrom x f k).2.fifo = q
    simp only [SyncFifo.step, Bool.and_false, Bool.not_false, Bool.and_true, Bool.false_and, Bool.false_eq_true, if_false, SyncFifo.readable]
    refine ⟨by split <;> omega, fun hp hl => ?_⟩
    simp [hp, hl]; omega
  have hlow : ∀ m, Later t fun k => (readFrom x f k).2.fifo.level ≤ 12 ∨ (readFrom x f k).2.fifo.level + m ≤ (readFrom x f t).2.fifo.level := by
    intro m
    induction m with
    | zero => exact ⟨t, Nat.le_refl t, Or.inr (Nat.le_refl _)⟩
    | succ m ih =>
      obtain ⟨k, hk, h | h⟩ := ih
      · exact ⟨k, hk, Or.inl h⟩
      · obtain ⟨k', hk', hp⟩ := hpop k
        have hmono : ∀ j, k ≤ j → (readFrom x f j).2.fifo.level ≤ (readFrom x f k).2.fifo.level :=
          stable_from (P := fun j => (readFrom x f j).2.fifo.level ≤ (readFrom x f k).2.fifo.level) (Nat.le_refl _)
            (fun j hj h => Nat.le_trans (hlev j (by omega)).1 h)
        have h1 := hmono k' hk'
        by_cases h0 : (readFrom x f k').2.fifo.level = 0
        · exact ⟨k', by omega, Or.inl (by omega)⟩
        · have := (hlev k' (by omega)).2 hp h0
          exact ⟨k' + 1, by omega, Or.inr (by omega)⟩
  obtain ⟨t1, ht1, h1⟩ := hlow ((readFrom x f t).2.fifo.level + 1)
  have h1 : (readFrom x f t1).2.fifo.level ≤ 12 := by rcases h1 with h | h <;> omega
  have low : ∀ k, t1 ≤ k → (readFrom x f k).2.fifo.level ≤ 12 :=
    stable_from (P := fun j => (readFrom x f j).2.fifo.level ≤ 12) h1 (fun j hj h => Nat.le_trans (hlev j (by omega)).1 h)
  have inv := readFrom_inv h0 hs
  -- `rready` leads to a beat
  have notReady : ∀ k, t1 ≤ k → (readFrom x f k).2.rd.rready = false := by
    intro k hk
    cases hr : (readFrom x f k).2.rd.rready
    · rfl
    · exfalso
      have stay : ∀ j, k ≤ j → (readFrom x f j).2.rd.rready = true := by
        apply stable_from (P := fun j => (readFrom x f j).2.rd.rready = true) hr
        intro j hj hrj
        have hv := no j (by omega) hrj
        show (HpReader.step _ _).rready = true
        simp only [HpReader.step, hrj, hs.last j, hv]; rfl
      obtain ⟨k', hk', hv⟩ := hs.come k ((inv k).room hr).1
      rw [no k' (by omega) (stay k' hk')] at hv
      cases hv
  -- so nothing is owed
  have zero : ∀ k, t1 ≤ k → (readFrom x f k).2.rd.active = 0 := by
    intro k hk
    apply Classical.byContradiction
    intro ha
    have := notReady (k + 1) (by omega)
    have hstep : (readFrom x f (k + 1)).2.rd.rready = (!(!decide ((readFrom x f k).2.fifo.level ≤ 12)) && (readFrom x f k).2.rd.active != 0) := by
      show (HpReader.step _ _).rready = _
      simp only [HpReader.step, notReady k hk]; rfl
    rw [hstep] at this
    simp [low k hk, ha] at this
  -- but a request is made
  have req : ∀ k, t1 ≤ k → (readFrom x f k).2.rd.arvalid = false := by
    intro k hk
    cases hr : (readFrom x f k).2.rd.arvalid
    · rfl
    · exfalso
      obtain ⟨k', hk', ha⟩ := hs.accept k
      have hacc : ∀ j, k ≤ j → (readFrom x f j).2.rd.arvalid = true → (f j).arready = false := by
        intro j hj hv
        cases hra : (f j).arready
        · rfl
        · exfalso
          have h0 := zero (j + 1) (by omega)
          have hz := zero j (by omega)
          have hrl : (f j).rlast = false := by
            rw [hs.last j]
            have hn := (inv j).active
            rw [hz] at hn
            have : (readFrom x f j).1 = 0 := by omega
            rw [this]
            cases (f j).rvalid <;> rfl
          have e : (readFrom x f (j + 1)).2.rd.active = 1 := by
            show (HpReader.step _ _).active = 1
            simp only [HpReader.step, HpReader.addrEn, hv, hra, hrl, hz]; rfl
          omega
      have stay : ∀ j, k ≤ j → (readFrom x f j).2.rd.arvalid = true := by
        apply stable_from (P := fun j => (readFrom x f j).2.rd.arvalid = true) hr
        intro j hj hv
        show (HpReader.step _ _).arvalid = true
        simp only [HpReader.step, hv, hacc j hj hv]; rfl
      rw [hacc k' hk' (stay k' hk')] at ha
      cases ha
  have h2 := req (t1 + 1) (by omega)
  have e : (readFrom x f (t1 + 1)).2.rd.arvalid = ((f t1).enable && !(f t1).addrEmpty && !Nat.testBit (readFrom x f t1).2.rd.active 3) := by
    show (HpReader.step _ _).arvalid = _
    simp only [HpReader.step, req t1 (Nat.le_refl _)]; rfl
  rw [e, zero t1 (Nat.le_refl _), (hen t1).1, (hen t1).2 (req t1 (Nat.le_refl _))] at h2
  exact absurd h2 (by decide)

/-- State along an infinite run from `x`. -/
def writeFrom (x : WriteSide) (f : Nat → WriteSideIn) : Nat → WriteSide
  | 0 => x
  | t + 1 => (writeFrom x f t).step (f t)

structure SinkFrom (x : WriteSide) (f : Nat → WriteSideIn) : Prop where
  last : ∀ t, (writeFrom x f t).wr.wvalid = true → (writeFrom x f t).wr.wlast = true → (f t).wready = true
  accept : ∀ t, Later t fun t' => (f t').awready = true
  take : ∀ t, Later t fun t' => (f t').wready = true

theorem writeFrom_inv {x : WriteSide} {b a : Nat} (h0 : WriteSide.Inv b a x) {f : Nat → WriteSideIn} (h : SinkFrom x f) :
    ∀ t, ∃ b a, WriteSide.Inv b a (writeFrom x f t)
  | 0 => ⟨b, a, h0⟩
  | t + 1 => by
    obtain ⟨b, a, hi⟩ := writeFrom_inv h0 h t
    exact ⟨_, _, (WriteSide.inv_step hi (f t) (h.last t)).1⟩

theorem write_live {x : WriteSide} {b a : Nat} (hx : WriteSide.Inv b a x) (f : Nat → WriteSideIn) (hs : SinkFrom x f)
    (hen : ∀ t, (f t).enable = true ∧ ((writeFrom x f t).wr.awvalid = false → (f t).addrEmpty = false))
    (t : Nat) (hfull : 16 ≤ (writeFrom x f t).fifo.level) :
    Later t fun t' => (writeFrom x f t').wr.wvalid = true ∧ (f t').wready = true := by
  apply Classical.byContradiction
  intro hno
  have no : ∀ k, t ≤ k → (writeFrom x f k).wr.wvalid = true → (f k).wready = false := by
    intro k hk hr
    cases hv : (f k).wready
    · rfl
    · exact absurd ⟨k, hk, hr, hv⟩ hno
  have hdata : ∀ k, t ≤ k → (writeFrom x f k).wr.dataEn (f k).wready = false := by
    intro k hk
    simp only [HpWriter.dataEn]
    cases hr : (writeFrom x f k).wr.wvalid
    · rfl
    · rw [no k hk hr]; rfl
  -- no word leaves the FIFO
  have full : ∀ k, t ≤ k → 16 ≤ (writeFrom x f k).fifo.level := by
    apply stable_from (P := fun k => 16 ≤ (writeFrom x f k).fifo.level) hfull
    intro k hk h
    have := WriteSide.fifo_level (writeFrom x f k).fifo (f k).push (HpFifo.word (f k).word (f k).endd) ((writeFrom x f k).wr.dataEn (f k).wready)
    rw [hdata k hk] at this
    show 16 ≤ (HpFifo.step _ _ _ _ _).level
    rw [hdata k hk]
    exact Nat.le_trans h this
  have notValid : ∀ k, t ≤ k → (writeFrom x f k).wr.wvalid = false := by
    intro k hk
    cases hr : (writeFrom x f k).wr.wvalid
    · rfl
    · exfalso
      have stay : ∀ j, k ≤ j → (writeFrom x f j).wr.wvalid = true := by
        apply stable_from (P := fun j => (writeFrom x f j).wr.wvalid = true) hr
        intro j hj hv
        have hl : (writeFrom x f j).wr.wlast = false := by
          cases hl : (writeFrom x f j).wr.wlast
          · rfl
          · have h1 := hs.last j hv hl
            rw [no j (by omega) hv] at h1; cases h1
        show (HpWriter.step _ _).wvalid = true
        simp only [HpWriter.step, hv, hl]; rfl
      obtain ⟨k', hk', hv⟩ := hs.take k
      rw [no k' (by omega) (stay k' hk')] at hv
      cases hv
  have notLast : ∀ k, t ≤ k → (writeFrom x f k).wr.wlast = false := by
    intro k hk
    obtain ⟨b, a, hi⟩ := writeFrom_inv hx hs k
    have h1 := hi.idle (notValid k hk)
    rw [hi.count.2]
    rcases h1 with rfl | h1
    · rfl
    · rw [h1]; simp
  have zero : ∀ k, t ≤ k → (writeFrom x f k).wr.active = 0 := by
    intro k hk
    apply Classical.byContradiction
    intro ha
    have h1 := notValid (k + 1) (by omega)
    have e : (writeFrom x f (k + 1)).wr.wvalid = (!(!decide (16 ≤ (writeFrom x f k).fifo.level)) && (writeFrom x f k).wr.active != 0) := by
      show (HpWriter.step _ _).wvalid = _
      simp only [HpWriter.step, notValid k hk]; rfl
    rw [e] at h1
    simp [full k hk, ha] at h1
  have req : ∀ k, t ≤ k → (writeFrom x f k).wr.awvalid = false := by
    intro k hk
    cases hr : (writeFrom x f k).wr.awvalid
    · rfl
    · exfalso
      obtain ⟨k', hk', ha⟩ := hs.accept k
      have hacc : ∀ j, k ≤ j → (writeFrom x f j).wr.awvalid = true → (f j).awready = false := by
        intro j hj hv
        cases hra : (f j).awready
        · rfl
        · exfalso
          have h0 := zero (j + 1) (by omega)
          have e : (writeFrom x f (j + 1)).wr.active = 1 := by
            show (HpWriter.step _ _).active = 1
            simp only [HpWriter.step, HpWriter.addrEn, hv, hra, notLast j (by omega), zero j (by omega)]; rfl
          omega
      have stay : ∀ j, k ≤ j → (writeFrom x f j).wr.awvalid = true := by
        apply stable_from (P := fun j => (writeFrom x f j).wr.awvalid = true) hr
        intro j hj hv
        show (HpWriter.step _ _).awvalid = true
        simp only [HpWriter.step, hv, hacc j hj hv]; rfl
      rw [hacc k' hk' (stay k' hk')] at ha
      cases ha
  have h2 := req (t + 1) (by omega)
  have e : (writeFrom x f (t + 1)).wr.awvalid = ((f t).enable && !(f t).addrEmpty && !Nat.testBit (writeFrom x f t).wr.active 3) := by
    show (HpWriter.step _ _).awvalid = _
    simp only [HpWriter.step, req t (Nat.le_refl _)]; rfl
  rw [e, zero t (Nat.le_refl _), (hen t).1, (hen t).2 (req t (Nat.le_refl _))] at h2
  exact absurd h2 (by decide)


/-! ### Infinite runs of the design -/

/-- The state along an infinite run. -/
def fullAt (c : CoreCfg) (a : Nat) (s : FullAxi) (f : Nat → FullIn) : Nat → FullAxi
  | 0 => s
  | t + 1 => (fullAt c a s f t).step c a (f t)

/-- The number of beats the memory still owes to the read port: 16 for every burst accepted, minus the beats taken. -/
def owedAt (c : CoreCfg) (a : Nat) (s : FullAxi) (f : Nat → FullIn) : Nat → Nat
  | 0 => 0
  | t + 1 => owedAt c a s f t + (if (fullAt c a s f t).rd.arvalid && (f t).arready then 16 else 0) -
      (if (fullAt c a s f t).rd.rready && (f t).rvalid then 1 else 0)

/-- A fair memory. Read port: data only if owed, `rlast` exactly on the last beat of each burst of 16; owed data come at
some time; bursts are accepted again and again. Write port: bursts and data are accepted again and again, a beat with `wlast`
in the first cycle in which it is offered. -/
structure FairMem (c : CoreCfg) (a : Nat) (s : FullAxi) (f : Nat → FullIn) : Prop where
  owed : ∀ t, (f t).rvalid = true → 0 < owedAt c a s f t
  last : ∀ t, (f t).rlast = ((f t).rvalid && owedAt c a s f t % 16 == 1)
  come : ∀ t, 0 < owedAt c a s f t → Later t fun t' => (f t').rvalid = true
  arready : ∀ t, Later t fun t' => (f t').arready = true
  wlast : ∀ t, (fullAt c a s f t).wr.wvalid = true → (fullAt c a s f t).wr.wlast = true → (f t).wready = true
  awready : ∀ t, Later t fun t' => (f t').awready = true
  wready : ∀ t, Later t fun t' => (f t').wready = true

section
variable {c : CoreCfg} {a : Nat} {s : FullAxi} {f : Nat → FullIn}

theorem fullAt_run (t : Nat) : fullAt c a s f t = fullRun c a s ((List.range t).map f) := by
  induction t with
  | zero => rfl
  | succ t ih => rw [List.range_succ, List.map_append, fullRun_append, ← ih]; rfl

theorem coreWords_append (x y : List FullIn) : ∀ s : FullAxi,
    coreWords c a s (x ++ y) = coreWords c a s x ++ coreWords c a (fullRun c a s x) y := by
  induction x with
  | nil => intro s; rfl
  | cons i x ih => intro s; simp only [List.cons_append, coreWords, fullRun, ih, List.append_assoc]

/-- No word with the end flag is ever given. -/
def NeverEnds (c : CoreCfg) (a : Nat) (s : FullAxi) (f : Nat → FullIn) : Prop :=
  ∀ t, ∀ x ∈ coreWords c a s ((List.range t).map f), x.2 = false

theorem never_reset (h0 : s.cam.resetOut = false) (hn : NeverEnds c a s f) (t : Nat) :
    (fullAt c a s f t).cam.resetOut = false := by
  rw [fullAt_run]; exact (noReset_of _ h0 (hn t)).2

theorem never_step (h0 : s.cam.resetOut = false) (hn : NeverEnds c a s f) (t : Nat) :
    fullAt c a s f (t + 1) = (fullAt c a s f t).run1 c a (f t) := step_run1 (never_reset h0 hn t) (f t)

theorem never_readFrom (h0 : s.cam.resetOut = false) (hn : NeverEnds c a s f) (T k : Nat) :
    readFrom (owedAt c a s f T, rSide (fullAt c a s f T)) (fun k => rIn (fullAt c a s f (T + k)) (f (T + k))) k =
      (owedAt c a s f (T + k), rSide (fullAt c a s f (T + k))) := by
  induction k with
  | zero => rfl
  | succ k ih =>
    simp only [readFrom, ih]
    rw [show T + (k + 1) = (T + k) + 1 from rfl, never_step h0 hn]
    rfl

theorem never_writeFrom (h0 : s.cam.resetOut = false) (hn : NeverEnds c a s f) (T k : Nat) :
    writeFrom (wSide (fullAt c a s f T)) (fun k => wIn (fullAt c a s f (T + k)) (f (T + k))) k =
      wSide (fullAt c a s f (T + k)) := by
  induction k with
  | zero => rfl
  | succ k ih =>
    simp only [writeFrom, ih]
    rw [show T + (k + 1) = (T + k) + 1 from rfl, never_step h0 hn]
    rfl

theorem later_shift {P : Nat → Prop} (h : ∀ t, Later t P) (T t : Nat) : Later t fun k => P (T + k) := by
  obtain ⟨t', h1, h2⟩ := h (T + t)
  refine ⟨t' - T, by omega, ?_⟩
  show P (T + (t' - T))
  rw [show T + (t' - T) = t' by omega]; exact h2

theorem fair_read (h0 : s.cam.resetOut = false) (hn : NeverEnds c a s f) (hf : FairMem c a s f) (T : Nat) :
    FairFrom (owedAt c a s f T, rSide (fullAt c a s f T)) (fun k => rIn (fullAt c a s f (T + k)) (f (T + k))) := by
  constructor
  · intro t h; rw [never_readFrom h0 hn]; exact hf.owed _ h
  · intro t; rw [never_readFrom h0 hn]; exact hf.last _
  · intro t h
    rw [never_readFrom h0 hn] at h
    obtain ⟨t', h1, h2⟩ := hf.come _ h
    refine ⟨t' - T, by omega, ?_⟩
    show (f (T + (t' - T))).rvalid = true
    rw [show T + (t' - T) = t' by omega]; exact h2
  · intro t; exact later_shift hf.arready T t

theorem fair_write (h0 : s.cam.resetOut = false) (hn : NeverEnds c a s f) (hf : FairMem c a s f) (T : Nat) :
    SinkFrom (wSide (fullAt c a s f T)) (fun k => wIn (fullAt c a s f (T + k)) (f (T + k))) := by
  constructor
  · intro t; rw [never_writeFrom h0 hn]; exact hf.wlast _
  · intro t; exact later_shift hf.awready T t
  · intro t; exact later_shift hf.wready T t

theorem start_rInv (hs : FullAfterReset c s) : ReadSide.Inv 0 (rSide s) := by
  have er : s.rfifo = .reset s.rfifo.storage s.rfifo.dout := congrArg FullAxi.rfifo hs.clear
  have ed : s.rd = .init := congrArg FullAxi.rd hs.clear
  simp only [rSide]
  rw [er, ed]
  exact ⟨SyncFifo.inv_reset _ _ (by decide) hs.lens.rf, rfl, by simp [HpReader.init], by simp [HpReader.init], fun _ => rfl, by simp [HpReader.init], by simp [SyncFifo.reset]⟩

theorem start_wInv (hs : FullAfterReset c s) : WriteSide.Inv 0 0 (wSide s) := by
  have er : s.wfifo = .reset s.wfifo.storage s.wfifo.dout := congrArg FullAxi.wfifo hs.clear
  have ed : s.wr = .init := congrArg FullAxi.wr hs.clear
  simp only [wSide]
  rw [er, ed]
  exact ⟨SyncFifo.inv_reset _ _ (by decide) hs.lens.wf, by simp [WriteSide.Count, HpWriter.init], by simp,
   by simp [HpWriter.init], rfl, by simp [HpWriter.init], by simp [HpWriter.init]⟩

theorem never_rInv (hs : FullAfterReset c s) (hn : NeverEnds c a s f) (hf : FairMem c a s f) (T : Nat) :
    ReadSide.Inv (owedAt c a s f T) (rSide (fullAt c a s f T)) := by
  have h0 := afterReset_resetOut hs
  have := readFrom_inv (x := (owedAt c a s f 0, rSide (fullAt c a s f 0))) (start_rInv hs) (fair_read h0 hn hf 0) T
  rw [never_readFrom h0 hn, Nat.zero_add] at this
  exact this

theorem never_wInv (hs : FullAfterReset c s) (hn : NeverEnds c a s f) (hf : FairMem c a s f) (T : Nat) :
    ∃ b d, WriteSide.Inv b d (wSide (fullAt c a s f T)) := by
  have h0 := afterReset_resetOut hs
  have := writeFrom_inv (x := wSide (fullAt c a s f 0)) (start_wInv hs) (fair_write h0 hn hf 0) T
  rw [never_writeFrom h0 hn, Nat.zero_add] at this
  exact this

/-- After the first cycle the address generators offer an address. -/
theorem never_valid (hs : FullAfterReset c s) (hn : NeverEnds c a s f) (T : Nat) :
    (fullAt c a s f (T + 1)).agr.valid = true ∧ (fullAt c a s f (T + 1)).agw.valid = true := by
  have h0 := afterReset_resetOut hs
  have key : ∀ (g : AddrGen) (n : Nat) (i : AddrIn), (g.loop = true → g.valid = true) →
      (g.step n i).valid = true := by
    intro g n i h
    unfold AddrGen.step
    split
    · split <;> exact h ‹_›
    · split <;> rfl
  have inv : ∀ T, ((fullAt c a s f T).agr.loop = true → (fullAt c a s f T).agr.valid = true) ∧
      ((fullAt c a s f T).agw.loop = true → (fullAt c a s f T).agw.valid = true) := by
    intro T
    induction T with
    | zero =>
      have e1 : s.agr = .init := congrArg FullAxi.agr hs.clear
      have e2 : s.agw = .init := congrArg FullAxi.agw hs.clear
      simp only [fullAt]; rw [e1, e2]
      exact ⟨(by intro h; cases h), (by intro h; cases h)⟩
    | succ T ih =>
      rw [never_step h0 hn]
      exact ⟨fun _ => key _ _ _ ih.1, fun _ => key _ _ _ ih.2⟩
  rw [never_step h0 hn]
  exact ⟨key _ _ _ (inv T).1, key _ _ _ (inv T).2⟩

/-- After the first cycle the unpacker's invariant holds. -/
theorem never_unpack (hs : FullAfterReset c s) (hn : NeverEnds c a s f) : ∀ T,
    Unpack64Inv (fullAt c a s f (T + 1)).unpack := by
  have h0 := afterReset_resetOut hs
  intro T
  induction T with
  | zero =>
    obtain ⟨f1, _, _, f4⟩ := unpack_first hs.lens hs.clear (HpFifo.data s.rfifo) s.cam.nready
    rw [never_step h0 hn]
    show Unpack64Inv (s.unpack.step _ s.rfifo.readable _)
    rw [f4]; exact f1
  | succ T ih =>
    rw [never_step h0 hn]
    exact unpack64_inv_step ih ⟨HpFifo.data (fullAt c a s f (T + 1)).rfifo, (fullAt c a s f (T + 1)).rfifo.readable,
      (fullAt c a s f (T + 1)).cam.nready⟩

/-- After the first cycle the packer's invariant holds. -/
theorem never_pack (hs : FullAfterReset c s) (hn : NeverEnds c a s f) (T : Nat) :
    ∃ p, Pack64Inv (fullAt c a s f (T + 1)).pack p := by
  have h0 := afterReset_resetOut hs
  obtain ⟨e1, e2, _, _⟩ := afterReset_pack hs
  have hnr := (noReset_of (a := a) ((List.range (T + 1)).map f) h0 (hn (T + 1))).1
  rw [fullAt_run, fa_pack_run _ _ hnr, e1]
  have hd := pIn16 (c := c) (a := a) ((List.range (T + 1)).map f) s e2
  rw [List.range_succ_eq_map, List.map_cons] at hd ⊢
  simp only [observe] at hd ⊢
  exact (pack64_reach _ _ (fun i hi => hd i (List.mem_cons_of_mem _ hi))).imp fun _ h => h.1

/-- Pixels are offered to the core again and again. -/
theorem never_offered (hs : FullAfterReset c s) (hn : NeverEnds c a s f) (hf : FairMem c a s f) {T0 : Nat}
    (hen : ∀ t, T0 ≤ t → (fullAt c a s f t).dma.start = 0xFFFFFFFF) (n : Nat) :
    Later n fun m => (fullAt c a s f m).unpack.valid = true := by
  have h0 := afterReset_resetOut hs
  apply Classical.byContradiction
  intro hno
  have no : ∀ k, n ≤ k → (fullAt c a s f k).unpack.valid = false := by
    intro k hk
    cases hv : (fullAt c a s f k).unpack.valid
    · rfl
    · exact absurd ⟨k, hk, hv⟩ hno
  have inv : ∀ k, 1 ≤ k → Unpack64Inv (fullAt c a s f k).unpack := by
    intro k hk
    have := never_unpack hs hn (k - 1)
    rwa [show k - 1 + 1 = k by omega] at this
  -- nothing is inside
  have pend : ∀ (d k : Nat), n + 1 ≤ k → unpack64Dist (fullAt c a s f k).unpack ≤ d → unpack64Pend (fullAt c a s f k).unpack = [] := by
    intro d
    induction d with
    | zero =>
      intro k hk hd
      have := dist_le.2.2.2.2 (Nat.le_zero.1 hd)
      rw [show (fullAt c a s f k).unpack.f32.readable = false from no k (by omega)] at this
      cases this
    | succ d ih =>
      intro k hk hd
      apply Classical.byContradiction
      intro hp
      obtain ⟨h1, h2⟩ := unpack64_dist (inv k (by omega)) hp (uIn (fullAt c a s f k) (f k)) (by rw [no k (by omega)]; rfl)
      have e := ih (k + 1) (by omega) (by rw [never_step h0 hn]; exact Nat.le_trans h2 (by omega))
      rw [never_step h0 hn] at e
      exact h1 e
  have pend : ∀ k, n + 1 ≤ k → unpack64Pend (fullAt c a s f k).unpack = [] := fun k hk => pend _ k hk (Nat.le_refl _)
  -- nothing is taken
  have taken : ∀ k, n + 1 ≤ k → ((fullAt c a s f k).rfifo.readable && !(fullAt c a s f k).unpack.oBusy) = false := by
    intro k hk
    have h1 := unpack64_step (inv k (by omega)) (uIn (fullAt c a s f k) (f k))
    have h2 := pend (k + 1) (by omega)
    rw [never_step h0 hn] at h2
    rw [pend k hk, no k (by omega)] at h1
    cases hb : (fullAt c a s f k).rfifo.readable && !(fullAt c a s f k).unpack.oBusy
    · rfl
    · exfalso
      have e : ((uIn (fullAt c a s f k) (f k)).valid && !(fullAt c a s f k).unpack.oBusy) = true := hb
      rw [e] at h1
      rw [show (fullAt c a s f k).unpack.step (uIn (fullAt c a s f k) (f k)).data (uIn (fullAt c a s f k) (f k)).valid
        (uIn (fullAt c a s f k) (f k)).busy = ((fullAt c a s f k).run1 c a (f k)).unpack from rfl, h2] at h1
      simp [halves64] at h1
  -- so the unpacker waits
  have fill : ∀ k, n + 2 ≤ k → (fullAt c a s f k).unpack.fsm = .fill := by
    have hstep : ∀ k, n + 1 ≤ k → (fullAt c a s f (k + 1)).unpack.fsm = .fill := by
      intro k hk
      have hb := (inv k (by omega)).busy
      have ht := taken k hk
      have hp := pend k hk
      rw [never_step h0 hn]
      show (Unpack.stepOut _ (Unpack.stepIn _ _ (fullAt c a s f k).rfifo.readable)).fsm = _
      have e : ∀ r : Unpack, (Unpack.stepOut (fullAt c a s f k).unpack r).fsm = r.fsm := by
        intro r; unfold Unpack.stepOut; dsimp only; repeat' split
        all_goals rfl
      rw [e]
      cases hf : (fullAt c a s f k).unpack.fsm with
      | idle => simp [Unpack.stepIn, hf]
      | fill =>
        rw [hf] at hb
        rw [hb] at ht
        simp only [decide_true, Bool.not_true, Bool.not_false, Bool.and_true] at ht
        simp [Unpack.stepIn, hf, ht]
      | handleReg =>
        simp [unpack64Pend, unpack64Words, hf, halves64] at hp
    intro k hk
    have := hstep (k - 1) (by omega)
    rwa [show k - 1 + 1 = k by omega] at this
  have free : ∀ k, n + 2 ≤ k → (fullAt c a s f k).unpack.oBusy = false := by
    intro k hk
    rw [(inv k (by omega)).busy, fill k hk]; rfl
  -- but beats arrive
  have T : n + 2 ≤ n + 2 + T0 := by omega
  obtain ⟨t, _, ht⟩ := read_live (never_rInv hs hn hf (n + 2 + T0)) _ (fair_read h0 hn hf (n + 2 + T0)) (by
    intro t
    refine ⟨?_, ?_⟩
    · show (_ == _) = true
      rw [hen (n + 2 + T0 + t) (by omega)]; rfl
    · rw [never_readFrom h0 hn]
      intro hv
      have hv : (fullAt c a s f (n + 2 + T0 + t)).rd.arvalid = false := hv
      show (!(fullAt c a s f (n + 2 + T0 + t)).agr.valid || FullAxi.readEnd _ _) = false
      have := (never_valid hs hn (n + 2 + T0 + t - 1)).1
      rw [show n + 2 + T0 + t - 1 + 1 = n + 2 + T0 + t by omega] at this
      simp [this, FullAxi.readEnd, HpReader.addrEn, hv]) (by
    intro t
    refine ⟨t, Nat.le_refl _, ?_⟩
    show (!(fullAt c a s f (n + 2 + T0 + t)).unpack.oBusy) = true
    rw [free _ (by omega)]; rfl) 0
  rw [never_readFrom h0 hn] at ht
  have hb := taken (n + 2 + T0 + t + 1) (by omega)
  have hb0 := taken (n + 2 + T0 + t) (by omega)
  rw [free _ (by omega)] at hb hb0
  simp only [Bool.not_false, Bool.and_true] at hb hb0
  have hl := (never_rInv hs hn hf (n + 2 + T0 + t)).level
  rw [never_step h0 hn] at hb
  generalize fullAt c a s f (n + 2 + T0 + t) = q at ht hb hb0 hl
  have e : (q.run1 c a (f (n + 2 + T0 + t))).rfifo = HpFifo.step q.rfifo true (f (n + 2 + T0 + t)).rdata false (!q.unpack.oBusy) := by
    have : q.rd.dataEn (f (n + 2 + T0 + t)).rvalid = true := by
      simp only [HpReader.dataEn, Bool.and_eq_true]; exact ht
    show HpFifo.step _ (q.rd.dataEn (f (n + 2 + T0 + t)).rvalid) _ _ _ = _
    rw [this]
  rw [e] at hb
  have hl' : q.rfifo.level ≤ 28 := hl
  have hw : q.rfifo.writable 32 = true := by
    simp [SyncFifo.writable]; omega
  simp [HpFifo.step, SyncFifo.step, hw, hb0] at hb
  simp [SyncFifo.readable] at hb

/-- The packer is ready again and again. -/
theorem never_taken (hs : FullAfterReset c s) (hn : NeverEnds c a s f) (hf : FairMem c a s f) {T0 : Nat}
    (hen : ∀ t, T0 ≤ t → (fullAt c a s f t).dma.start = 0xFFFFFFFF) (n : Nat) :
    Later n fun m => (fullAt c a s f m).pack.oBusy = false := by
  have h0 := afterReset_resetOut hs
  apply Classical.byContradiction
  intro hno
  have no : ∀ k, n ≤ k → (fullAt c a s f k).pack.oBusy = true := by
    intro k hk
    cases hv : (fullAt c a s f k).pack.oBusy
    · exact absurd ⟨k, hk, hv⟩ hno
    · rfl
  have inv : ∀ k, 1 ≤ k → ∃ p, Pack64Inv (fullAt c a s f k).pack p := by
    intro k hk
    have := never_pack hs hn (k - 1)
    rwa [show k - 1 + 1 = k by omega] at this
  -- both buffers are full
  have full : ∀ k, n + 1 ≤ k → (fullAt c a s f k).pack.valid1 = true ∧ (fullAt c a s f k).pack.valid2 = true ∧
      (fullAt c a s f k).pack.chs = (fullAt c a s f k).pack.second ∧ (fullAt c a s f k).pack.fsm = .idle := by
    intro k hk
    obtain ⟨p, hi⟩ := inv k (by omega)
    have hfs : (fullAt c a s f k).pack.fsm = .idle := by
      have := hi.busy; rw [no k (by omega)] at this; simpa using this.symm
    have hb := no (k + 1) (by omega)
    rw [never_step h0 hn] at hb
    have hb : (Pack64.step _ _ _ _ _).oBusy = true := hb
    have h1 := hi.fst
    have h2 := hi.snd
    generalize (fullAt c a s f k).pack = P at *
    cases hsec : P.second
    · rcases h1 hsec with ⟨h, _⟩ | ⟨_, h, h', h''⟩
      · exfalso
        simp [Pack64.step, hsec, Pack64.stepFsm1, hfs, h] at hb
      · exact ⟨h, h', h'', hfs⟩
    · rcases h2 hsec with ⟨h, _⟩ | ⟨_, h, h', h''⟩
      · exfalso
        simp [Pack64.step, hsec, Pack64.stepFsm2, hfs, h] at hb
      · exact ⟨h, h', h'', hfs⟩
  -- nothing is given
  have stuck : ∀ k, n + 1 ≤ k → ((fullAt c a s f k).pack.valid && !(!(fullAt c a s f k).wfifo.writable 32)) = false := by
    intro k hk
    cases hg : (fullAt c a s f k).pack.valid && !(!(fullAt c a s f k).wfifo.writable 32)
    · rfl
    · exfalso
      obtain ⟨a1, a2, a3, a4⟩ := full k hk
      obtain ⟨b1, b2, _, _⟩ := full (k + 1) (by omega)
      rw [never_step h0 hn] at b1 b2
      have b1 : (Pack64.step _ _ _ _ (!(fullAt c a s f k).wfifo.writable 32)).valid1 = true := b1
      have b2 : (Pack64.step _ _ _ _ (!(fullAt c a s f k).wfifo.writable 32)).valid2 = true := b2
      generalize (fullAt c a s f k).pack = P at *
      generalize (!(fullAt c a s f k).wfifo.writable 32) = B at *
      cases hsec : P.second <;> rw [hsec] at a3
      · simp [Pack64.step, hsec, Pack64.stepFsm1, a1, a3, a4, Pack64.stepOut, hg] at b1
      · simp [Pack64.step, hsec, Pack64.stepFsm2, a2, a3, a4, Pack64.stepOut, hg] at b2
  have valid : ∀ k, n + 2 ≤ k → (fullAt c a s f k).pack.valid = true := by
    have hstep : ∀ k, n + 1 ≤ k → (fullAt c a s f (k + 1)).pack.valid = true := by
      intro k hk
      rw [never_step h0 hn]
      refine pack64_valid_next (i := pIn (fullAt c a s f k) (f k)) ?_ (stuck k hk)
      obtain ⟨a1, a2, _, _⟩ := full k hk
      simp only [pack64Queue, a1, a2]
      split <;> simp
    intro k hk
    have := hstep (k - 1) (by omega)
    rwa [show k - 1 + 1 = k by omega] at this
  have notw : ∀ k, n + 2 ≤ k → (fullAt c a s f k).wfifo.writable 32 = false := by
    intro k hk
    have := stuck k (by omega)
    rw [valid k hk] at this
    simpa using this
  obtain ⟨b, d, hw⟩ := never_wInv hs hn hf (n + 2 + T0)
  obtain ⟨t, _, ht⟩ := write_live hw _ (fair_write h0 hn hf (n + 2 + T0)) (by
    intro t
    refine ⟨?_, ?_⟩
    · show (_ == _) = true
      rw [hen (n + 2 + T0 + t) (by omega)]; rfl
    · rw [never_writeFrom h0 hn]
      intro hv
      have hv : (fullAt c a s f (n + 2 + T0 + t)).wr.awvalid = false := hv
      show (!(fullAt c a s f (n + 2 + T0 + t)).agw.valid || FullAxi.writeEnd _ _) = false
      have := (never_valid hs hn (n + 2 + T0 + t - 1)).2
      rw [show n + 2 + T0 + t - 1 + 1 = n + 2 + T0 + t by omega] at this
      simp [this, FullAxi.writeEnd, HpWriter.addrEn, hv]) 0 (by
    have := notw (n + 2 + T0) (by omega)
    simp [SyncFifo.writable] at this
    show 16 ≤ (fullAt c a s f (n + 2 + T0)).wfifo.level
    omega)
  rw [never_writeFrom h0 hn] at ht
  have hb := notw (n + 2 + T0 + t + 1) (by omega)
  have hb0 := notw (n + 2 + T0 + t) (by omega)
  rw [never_step h0 hn] at hb
  generalize fullAt c a s f (n + 2 + T0 + t) = q at ht hb hb0
  have e : (q.run1 c a (f (n + 2 + T0 + t))).wfifo = HpFifo.step q.wfifo q.pack.valid q.pack.data q.pack.endOut true := by
    have : q.wr.dataEn (f (n + 2 + T0 + t)).wready = true := by
      simp only [HpWriter.dataEn, Bool.and_eq_true]; exact ht
    show HpFifo.step _ _ _ _ (q.wr.dataEn (f (n + 2 + T0 + t)).wready) = _
    rw [this]
  rw [e] at hb
  have hr : q.wfifo.readable = true := by
    simp [SyncFifo.writable] at hb0
    simp [SyncFifo.readable, hb0]
  simp [HpFifo.step, SyncFifo.step, hb0, hr] at hb
  simp [SyncFifo.writable] at hb hb0
  omega

theorem frame_ends {T : Table} (h : CamSetup c T) (hps : c.int1.ps = 2) (hbd : c.int1.bd = 12) (ha : a < 2 ^ 24)
    (hs : FullAfterReset c s) (hf : FairMem c a s f) {T0 : Nat}
    (hen : ∀ t, T0 ≤ t → (∀ x ∈ coreWords c a s ((List.range t).map f), x.2 = false) → (fullAt c a s f t).dma.start = 0xFFFFFFFF) :
    ∃ t w, (w, true) ∈ coreWords c a s ((List.range t).map f) := by
  apply Classical.byContradiction
  intro hcon
  have hn : NeverEnds c a s f := by
    rintro t ⟨w, e⟩ hx
    cases e with
    | false => rfl
    | true => exact absurd ⟨t, w, hx⟩ hcon
  have hen : ∀ t, T0 ≤ t → (fullAt c a s f t).dma.start = 0xFFFFFFFF := fun t ht => hen t ht (hn t)
  obtain ⟨t, w, hw⟩ := C50_always_ends h ha hs.cam (fun t => (fullAt c a s f t).camIn)
    (by
      intro t _
      rw [hps, hbd]
      refine ⟨rfl, ?_⟩
      intro x hx
      simp only [FullAxi.camIn, List.mem_cons, List.not_mem_nil, or_false] at hx
      rcases hx with rfl | rfl
      · exact slice_lt _ 0 12
      · exact slice_lt _ 12 24)
    (fun n => never_offered hs hn hf hen n) (fun n => never_taken hs hn hf hen n)
  have e : ∀ t, observe c a cIn s ((List.range t).map f) = (List.range t).map fun t => (fullAt c a s f t).camIn := by
    intro t
    induction t with
    | zero => rfl
    | succ t ih =>
      rw [List.range_succ, List.map_append, observe_append, ih, ← fullAt_run, List.map_append]
      rfl
  rw [← e t, ← cam_words] at hw
  exact hcon ⟨t, w, hw⟩

end

/-! ### The environment, in terms of the ports -/

/-- The number of beats the memory still owes to the read port: 16 for every burst accepted, minus the beats taken. -/
def owed (p : Nat → FullPorts) (f : Nat → FullIn) : Nat → Nat
  | 0 => 0
  | t + 1 => owed p f t + (if (p t).arvalid && (f t).arready then 16 else 0) - (if (p t).rready && (f t).rvalid then 1 else 0)

/-- A fair memory behind the ports `p` with the inputs `f`. Read port: data only if owed, `rlast` exactly on the last beat of
each burst of 16; owed data come at some time; bursts are accepted again and again. Write port: bursts and data are accepted
again and again, a beat with `wlast` in the first cycle in which it is offered. -/
structure FairMemory (p : Nat → FullPorts) (f : Nat → FullIn) : Prop where
  owed : ∀ t, (f t).rvalid = true → 0 < owed p f t
  last : ∀ t, (f t).rlast = ((f t).rvalid && Props.owed p f t % 16 == 1)
  come : ∀ t, 0 < Props.owed p f t → ∃ t', t ≤ t' ∧ (f t').rvalid = true
  arready : ∀ t, ∃ t', t ≤ t' ∧ (f t').arready = true
  wlast : ∀ t, (p t).wvalid = true → (p t).wlast = true → (f t).wready = true
  awready : ∀ t, ∃ t', t ≤ t' ∧ (f t').awready = true
  wready : ∀ t, ∃ t', t ≤ t' ∧ (f t').wready = true

/-- Software has started a frame: a well-behaved master on the register bus; the transfers of the first `n` cycles end with a
write of the start command FFFFFFFF to the start register (word 2); afterwards nothing is written. -/
structure Started (p : Nat → FullPorts) (f : Nat → FullIn) (n : Nat) : Prop where
  master : ∀ t, MasterNext (p t).lite (f t).lite (f (t + 1)).lite
  command : ∃ pre addr code, DmaWord addr 2 ∧
    (List.range n).flatMap (fun t => liteEvents (p t).lite (f t).lite) = pre ++ [.aw addr, .w 0xFFFFFFFF 15, .b code]
  quiet : ∀ t, n ≤ t → ∀ x, .aw x ∉ liteEvents (p t).lite (f t).lite

section
variable {c : CoreCfg} {a : Nat} {s : FullAxi} {f : Nat → FullIn}

theorem owedAt_eq (t : Nat) : owedAt c a s f t = owed (fun t => mdPorts (fullAt c a s f t)) f t := by
  induction t with
  | zero => rfl
  | succ t ih => simp only [owedAt, owed, ih]; rfl

theorem fairMem_of (h : FairMemory (fun t => mdPorts (fullAt c a s f t)) f) : FairMem c a s f := by
  constructor
  · intro t; rw [owedAt_eq]; exact h.owed t
  · intro t; rw [owedAt_eq]; exact h.last t
  · intro t; rw [owedAt_eq]; exact h.come t
  · exact h.arready
  · exact h.wlast
  · exact h.awready
  · exact h.wready

theorem busEvents_range (t : Nat) : busEvents c a s ((List.range t).map f) =
    (List.range t).flatMap (fun t => liteEvents (fullAt c a s f t).dma.out (f t).lite) := by
  have app : ∀ (x y : List FullIn) (s : FullAxi), busEvents c a s (x ++ y) = busEvents c a s x ++ busEvents c a (fullRun c a s x) y := by
    intro x
    induction x with
    | nil => intro y s; rfl
    | cons i x ih => intro y s; simp only [List.cons_append, busEvents, fullRun, ih, List.append_assoc]
  induction t with
  | zero => rfl
  | succ t ih =>
    rw [List.range_succ, List.map_append, app, ih, List.flatMap_append, ← fullAt_run]
    simp [busEvents]

theorem busMaster_range (h : ∀ t, MasterNext (fullAt c a s f t).dma.out (f t).lite (f (t + 1)).lite) (t : Nat) :
    BusMaster c a s ((List.range t).map f) := by
  induction t generalizing s f with
  | zero => trivial
  | succ t ih =>
    rw [List.range_succ_eq_map, List.map_cons, List.map_map]
    have e : ∀ k, fullAt c a (s.step c a (f 0)) (f ∘ Nat.succ) k = fullAt c a s f (k + 1) := by
      intro k
      induction k with
      | zero => rfl
      | succ k ih => simp only [fullAt, ih, Function.comp]
    have h2 := ih (s := s.step c a (f 0)) (f := f ∘ Nat.succ) (fun k => by rw [e]; exact h (k + 1))
    cases t with
    | zero => trivial
    | succ t =>
      rw [List.range_succ_eq_map, List.map_cons] at h2 ⊢
      exact ⟨h 0, h2⟩

theorem started_reg (hs : FullAfterReset c s) {n : Nat} (h : Started (fun t => mdPorts (fullAt c a s f t)) f n) (t : Nat) (ht : n ≤ t)
    (hno : ∀ x ∈ coreWords c a s ((List.range t).map f), x.2 = false) : (fullAt c a s f t).dma.start = 0xFFFFFFFF := by
  have hnr := (noReset_of (a := a) ((List.range t).map f) (afterReset_resetOut hs) hno).1
  obtain ⟨e1, e2⟩ := dma_run_obs (c := c) (a := a) _ s hnr
  have hm := busMaster_obs _ _ hnr (busMaster_range h.master t)
  have ed : s.dma = .init := congrArg FullAxi.dma hs.clear
  rw [ed] at e1 e2 hm
  obtain ⟨pre, addr, code, ha, hev⟩ := h.command
  have hne : observe c a dIn s ((List.range t).map f) ≠ [] := by
    intro h0
    have : 0 < t := by
      cases n with
      | zero => simp at hev
      | succ n => omega
    rw [show t = t - 1 + 1 by omega, List.range_succ_eq_map, List.map_cons] at h0
    cases h0
  obtain ⟨g, q, k1, k2⟩ := C39_bus_refines_register_map _ (fun _ => 0) hne hm
  obtain ⟨k3, k4⟩ := busRun_accepted k1
  have hsplit : dmaTransfers .init (observe c a dIn s ((List.range t).map f)) =
      pre ++ [.aw addr, .w 0xFFFFFFFF 15, .b code] ++ ((List.range (t - n)).map (· + n)).flatMap
        (fun t => liteEvents (fullAt c a s f t).dma.out (f t).lite) := by
    rw [← e2, busEvents_range]
    have : List.range t = List.range n ++ (List.range (t - n)).map (· + n) := by
      conv => lhs; rw [show t = n + (t - n) by omega, List.range_add]
      congr 1
      apply List.map_congr_left
      intro x _; exact Nat.add_comm _ _
    rw [this, List.flatMap_append]
    congr 1
  generalize hmid : ((List.range (t - n)).map (· + n)).flatMap (fun t => liteEvents (fullAt c a s f t).dma.out (f t).lite) = mid at hsplit
  have hq : ∀ x, .aw x ∉ mid := by
    intro x hx
    rw [← hmid, List.mem_flatMap] at hx
    obtain ⟨k, hk, hx⟩ := hx
    obtain ⟨j, _, rfl⟩ := List.mem_map.1 hk
    exact h.quiet _ (Nat.le_add_left ..) x hx
  have k3 : Accepted dmaMap (⟨0, 0, 0⟩, .idle) (dmaTransfers .init (observe c a dIn s ((List.range t).map f))) := k3
  have k4 : (g, q) = regsAfter dmaMap (⟨0, 0, 0⟩, .idle) (dmaTransfers .init (observe c a dIn s ((List.range t).map f))) := k4
  rw [hsplit] at k3 k4
  obtain ⟨g0, _, _, w3⟩ := accepted_write k3
  rw [regsAfter_append, w3] at k4
  have phase : ∀ (es : List BusEv) (g : DmaRegs) (q : BusPhase), (∀ x, .aw x ∉ es) → (q = .idle ∨ ∃ a, q = .read a) →
      ((regsAfter dmaMap (g, q) es).2 = .idle ∨ ∃ a, (regsAfter dmaMap (g, q) es).2 = .read a) := by
    intro es
    induction es with
    | nil => intro g q _ h; exact h
    | cons e es ih =>
      intro g q hx hq
      have hx' : ∀ x, BusEv.aw x ∉ es := fun x hh => hx x (List.mem_cons_of_mem _ hh)
      rcases hq with rfl | ⟨b, rfl⟩ <;> cases e <;> simp only [regsAfter] <;>
        first
        | exact absurd (List.mem_cons_self ..) (hx _)
        | exact ih _ _ hx' (Or.inl rfl)
        | exact ih _ _ hx' (Or.inr ⟨_, rfl⟩)
  have o := regsAfter_obs (m := dmaMap) (dmaReg 2) (fun _ => False) (fun _ _ _ _ h => h.elim) mid
    (dmaMap.write g0 addr 0xFFFFFFFF 15).1 .idle (fun x hx => hq x hx) (by intro _ h; cases h)
  have ph := phase mid (dmaMap.write g0 addr 0xFFFFFFFF 15).1 .idle hq (Or.inl rfl)
  rw [← k4] at o ph
  rw [fullAt_run, e1, (k2 ph).2.2]
  rw [(dmaMap_write (by decide) ha).1] at o
  have o : g.start = strobed (dmaReg 2 g0) 0xFFFFFFFF 15 := o
  rw [o]
  generalize dmaReg 2 g0 = v
  have t0 : (15 : Nat).testBit 0 = true ∧ (15 : Nat).testBit 1 = true ∧ (15 : Nat).testBit 2 = true ∧ (15 : Nat).testBit 3 = true := by decide
  simp only [strobed, t0.1, t0.2.1, t0.2.2.1, t0.2.2.2, if_true]
  decide

/-- C79: with a fair memory every frame that software has started ends: from a reset on, after the start command on the register
bus the core gives a word with the end flag. -/
theorem C79_started_frame_ends {T : Table} (h : CamSetup c T) (hps : c.int1.ps = 2) (hbd : c.int1.bd = 12) (ha : a < 2 ^ 24)
    (hs : FullAfterReset c s) {n : Nat} (hf : FairMemory (fun t => mdPorts (fullAt c a s f t)) f)
    (hst : Started (fun t => mdPorts (fullAt c a s f t)) f n) :
    ∃ t w, (w, true) ∈ coreWords c a s ((List.range t).map f) :=
  frame_ends h hps hbd ha hs (fairMem_of hf) (T0 := n) (fun t ht hno => started_reg hs hst t ht hno)

end

/-- C79: the same for the shipped netlist, from power-up and from any external or internal reset on. -/
theorem C79_netlist_frame_ends (s : Netlist.BetaFull.top.S) (hs : FxStart s) (f : Nat → FullIn) (hi : ∀ t, FullIn.Ok (f t)) {n : Nat}
    (hf : FairMemory (fun t => fxPorts (fxGo s ((List.range t).map f))) f)
    (hst : Started (fun t => fxPorts (fxGo s ((List.range t).map f))) f n) :
    ∃ t w, (w, true) ∈ fxWords s ((List.range t).map f) := by
  obtain ⟨m, k1, k2⟩ := fxStart_sim hs
  have hok : ∀ t, ∀ i ∈ (List.range t).map f, FullIn.Ok i := by
    intro t i h
    obtain ⟨k, _, rfl⟩ := List.mem_map.1 h
    exact hi k
  have e : (fun t => fxPorts (fxGo s ((List.range t).map f))) = fun t => mdPorts (fullAt betaCore 6666000 m f t) := by
    funext t
    rw [fullAt_run]
    exact fx_ports (fx_run _ k2 (hok t)).1
  rw [e] at hf hst
  obtain ⟨t, w, h⟩ := C79_started_frame_ends beta_setup rfl rfl (by decide) k1 hf hst
  refine ⟨t, w, ?_⟩
  rw [(fx_run _ k2 (hok t)).2.2.2.2.2.2.1]
  exact h

/-! ### The hypotheses are met -/

section
variable (c : CoreCfg) (a : Nat) (l : Nat → LiteIn)

/-- The inputs of a cycle: a memory that owes `n` beats and answers at once. -/
def promptIn (n : Nat) (x : LiteIn) : FullIn :=
  ⟨x, true, decide (0 < n), decide (0 < n) && n % 16 == 1, 0x123456789ABCDEF0, true, true, true, 0, 0⟩

/-- State and number of owed beats of the system with that memory. -/
def promptAt (s : FullAxi) : Nat → FullAxi × Nat
  | 0 => (s, 0)
  | t + 1 =>
    let x := promptAt s t
    let i := promptIn x.2 (l t)
    (x.1.step c a i, x.2 + (if x.1.rd.arvalid && i.arready then 16 else 0) - (if x.1.rd.rready && i.rvalid then 1 else 0))

def promptIns (s : FullAxi) (t : Nat) : FullIn := promptIn (promptAt c a l s t).2 (l t)

theorem prompt_state (s : FullAxi) (t : Nat) : fullAt c a s (promptIns c a l s) t = (promptAt c a l s t).1 := by
  induction t with
  | zero => rfl
  | succ t ih => simp only [fullAt, ih]; rfl

theorem prompt_owed (s : FullAxi) (t : Nat) :
    owed (fun t => mdPorts (fullAt c a s (promptIns c a l s) t)) (promptIns c a l s) t = (promptAt c a l s t).2 := by
  induction t with
  | zero => rfl
  | succ t ih => rw [owed, ih, prompt_state]; rfl

theorem prompt_fair (s : FullAxi) : FairMemory (fun t => mdPorts (fullAt c a s (promptIns c a l s) t)) (promptIns c a l s) := by
  constructor
  · intro t h; rw [prompt_owed]; exact of_decide_eq_true h
  · intro t; rw [prompt_owed]; rfl
  · intro t h; rw [prompt_owed] at h; exact ⟨t, Nat.le_refl _, decide_eq_true h⟩
  · exact fun t => ⟨t, Nat.le_refl _, rfl⟩
  · exact fun _ _ _ => rfl
  · exact fun t => ⟨t, Nat.le_refl _, rfl⟩
  · exact fun t => ⟨t, Nat.le_refl _, rfl⟩

end

/-- Software writes the two addresses and the start command and is quiet afterwards. -/
def startLite (t : Nat) : LiteIn :=
  (statusWrite 0 0x1000 ++ statusWrite 1 0x2000 ++ statusWrite 2 0xFFFFFFFF).getD t { liteIdle with rready := true, bready := true }

theorem startLite_quiet (t : Nat) (h : 15 ≤ t) : startLite t = { liteIdle with rready := true, bready := true } := by
  unfold startLite
  rw [List.getD_eq_getElem?_getD, List.getElem?_eq_none (by simpa [statusWrite] using h)]
  rfl

theorem prompt_quiet (c : CoreCfg) (a : Nat) (s : FullAxi) (t : Nat) (h : 15 ≤ t) :
    (promptIns c a startLite s t).lite = { liteIdle with rready := true, bready := true } := startLite_quiet t h

theorem started_of_first {c : CoreCfg} {a : Nat} {s : FullAxi}
    (first : (∀ t < 15, MasterNext (mdPorts (fullAt c a s (promptIns c a startLite s) t)).lite
        (promptIns c a startLite s t).lite (promptIns c a startLite s (t + 1)).lite) ∧
      (List.range 15).flatMap (fun t => liteEvents (mdPorts (fullAt c a s (promptIns c a startLite s) t)).lite
        (promptIns c a startLite s t).lite) =
      [.aw 0x1000, .w 0x1000 15, .b 0, .aw 0x1004, .w 0x2000 15, .b 0] ++ [.aw 0x1008, .w 0xFFFFFFFF 15, .b 0]) :
    Started (fun t => mdPorts (fullAt c a s (promptIns c a startLite s) t)) (promptIns c a startLite s) 15 := by
  refine ⟨?_, ⟨_, 0x1008, 0, ⟨by decide, by decide⟩, first.2⟩, ?_⟩
  · intro t
    by_cases h : t < 15
    · exact first.1 t h
    · rw [prompt_quiet _ _ _ t (by omega), prompt_quiet _ _ _ (t + 1) (by omega)]
      constructor <;> intro h1 <;> first | (cases h1; done) | exact fun _ => rfl
  · intro t h x
    rw [prompt_quiet _ _ _ t h]
    simp [liteEvents, liteIdle]

-- The hypotheses of C79_started_frame_ends: a memory that answers at once; the start command is complete after 15 cycles.
set_option maxRecDepth 40000 in
example : CamSetup tinyStream defaultTable ∧ FullAfterReset tinyStream (.init tinyStream) ∧
    FairMemory (fun t => mdPorts (fullAt tinyStream 1000 (.init tinyStream) (promptIns tinyStream 1000 startLite (.init tinyStream)) t))
      (promptIns tinyStream 1000 startLite (.init tinyStream)) ∧
    Started (fun t => mdPorts (fullAt tinyStream 1000 (.init tinyStream) (promptIns tinyStream 1000 startLite (.init tinyStream)) t))
      (promptIns tinyStream 1000 startLite (.init tinyStream)) 15 :=
  ⟨⟨default_setup (by decide) rfl, rfl, default_long _ (by decide)⟩,
   (C54_every_reset (a := 1000) ⟨default_setup (by decide) rfl, rfl, default_long _ (by decide)⟩ rfl rfl).1, prompt_fair ..,
   started_of_first (by decide +kernel)⟩

-- The hypotheses of C79_netlist_frame_ends, for the netlist at power-up and the same memory.
set_option maxRecDepth 100000 in
example : let s := Netlist.BetaFull.top.powerUp
    let f := promptIns betaCore 6666000 startLite (.init betaCore)
    FxStart s ∧ (∀ t, FullIn.Ok (f t)) ∧ FairMemory (fun t => fxPorts (fxGo s ((List.range t).map f))) f ∧
    Started (fun t => fxPorts (fxGo s ((List.range t).map f))) f 15 := by
  intro s f
  have hi : ∀ t, FullIn.Ok (f t) := by
    intro t
    show (0x123456789ABCDEF0 : Nat) < 2 ^ 64
    decide
  have e : (fun t => fxPorts (fxGo s ((List.range t).map f))) = fun t => mdPorts (fullAt betaCore 6666000 (.init betaCore) f t) := by
    funext t
    rw [fullAt_run]
    refine fx_ports (fx_run _ (full_init Netlist.BetaFull.top.powerUp_init) ?_).1
    intro i h
    obtain ⟨k, _, rfl⟩ := List.mem_map.1 h
    exact hi k
  rw [e]
  exact ⟨⟨_, [], Netlist.BetaFull.top.powerUp_init, by simp, rfl, Or.inl rfl⟩, hi, prompt_fair .., started_of_first (by decide +kernel)⟩

end Props
