/- Property C54, the status word (register word 3) and error responses. -/
import Verif.Props.FullAxiStatus

set_option autoImplicit false

namespace Props
open Model Spec

theorem rd_range {x : HpReader} (h : x.active < 16) (i : HpReadIn) : (x.step i).active < 16 := by
  simp only [HpReader.step]
  repeat' split
  all_goals omega

theorem wr_range {x : HpWriter} (h : x.active < 16 ∧ x.unconf < 16 ∧ x.counter < 16) (i : HpWriteIn) :
    (x.step i).active < 16 ∧ (x.step i).unconf < 16 ∧ (x.step i).counter < 16 := by
  obtain ⟨h1, h2, h3⟩ := h
  simp only [HpWriter.step]
  refine ⟨?_, ?_, ?_⟩ <;> (repeat' split) <;> omega

section
variable {c : CoreCfg} {a : Nat}

/-- Cycles in which the write port shows `wlast`. -/
def wlastCycles (c : CoreCfg) (a : Nat) : FullAxi → List FullIn → Nat
  | _, [] => 0
  | s, i :: r => (if s.wr.wlast then 1 else 0) + wlastCycles c a (s.step c a i) r

/-- Write responses taken (`bready` and `bvalid`). -/
def responses (c : CoreCfg) (a : Nat) : FullAxi → List FullIn → Nat
  | _, [] => 0
  | s, i :: r => (if s.wr.bready && i.bvalid then 1 else 0) + responses c a (s.step c a i) r

/-- Cycles with `rlast`. -/
def rlastCycles (ins : List FullIn) : Nat := ins.countP (·.rlast)

theorem updown (a n : Nat) (u d : Bool) :
    ((if u && !d then (a + 1) % 16 else if !u && d then (a + 15) % 16 else a) + (n + if d then 1 else 0)) % 16 =
      ((a + n) % 16 + (if u then 1 else 0)) % 16 := by
  cases u <;> cases d <;> simp <;> omega

/-- The counters of bursts in flight. -/
structure InFlight (s : FullAxi) (nr nw rl wl rs : Nat) : Prop where
  act : s.rd.active < 16 ∧ s.wr.active < 16 ∧ s.wr.unconf < 16 ∧ s.wr.counter < 16
  r : (s.rd.active + rl) % 16 = nr % 16
  w : (s.wr.active + wl) % 16 = nw % 16
  u : (s.wr.unconf + rs) % 16 = nw % 16

theorem inFlight_step {s : FullAxi} {nr nw rl wl rs : Nat} (h : InFlight s nr nw rl wl rs) (i : FullIn) (hr : s.cam.resetOut = false) :
    InFlight (s.step c a i) (nr + if s.rd.arvalid && i.arready then 1 else 0) (nw + if s.wr.awvalid && i.awready then 1 else 0)
      (rl + if i.rlast then 1 else 0) (wl + if s.wr.wlast then 1 else 0) (rs + if s.wr.bready && i.bvalid then 1 else 0) := by
  obtain ⟨⟨h1, h2, h3, h4⟩, h5, h6, h7⟩ := h
  rw [step_run1 hr]
  have e1 := updown s.rd.active rl (s.rd.arvalid && i.arready) i.rlast
  have e2 := updown s.wr.active wl (s.wr.awvalid && i.awready) s.wr.wlast
  have e3 := updown s.wr.unconf rs (s.wr.awvalid && i.awready) (s.wr.bready && i.bvalid)
  refine ⟨⟨rd_range h1 _, wr_range ⟨h2, h3, h4⟩ _⟩, ?_, ?_, ?_⟩
  · refine Eq.trans e1 ?_; rw [h5]; omega
  · refine Eq.trans e2 ?_; rw [h6]; omega
  · refine Eq.trans e3 ?_; rw [h7]; omega

theorem inFlight_run : ∀ (ins : List FullIn) {s : FullAxi} {nr nw rl wl rs : Nat}, InFlight s nr nw rl wl rs → NoReset c a s ins →
    InFlight (fullRun c a s ins) (nr + (readBursts c a s ins).length) (nw + (writeBursts c a s ins).length) (rl + rlastCycles ins)
      (wl + wlastCycles c a s ins) (rs + responses c a s ins)
  | [], _, _, _, _, _, _, h, _ => by simpa [fullRun, readBursts, writeBursts, rlastCycles, wlastCycles, responses] using h
  | i :: r, s, nr, nw, rl, wl, rs, h, ⟨h1, h2⟩ => by
    have k := inFlight_run r (inFlight_step (c := c) (a := a) h i h1) h2
    have e1 : (readBursts c a s (i :: r)).length = (if s.rd.arvalid && i.arready then 1 else 0) + (readBursts c a (s.step c a i) r).length := by
      rw [readBursts]; split <;> simp
      omega
    have e2 : (writeBursts c a s (i :: r)).length = (if s.wr.awvalid && i.awready then 1 else 0) + (writeBursts c a (s.step c a i) r).length := by
      rw [writeBursts]; split <;> simp
      omega
    have e3 : rlastCycles (i :: r) = (if i.rlast then 1 else 0) + rlastCycles r := by
      unfold rlastCycles; rw [List.countP_cons]; omega
    rw [e1, e2, e3, wlastCycles, responses, ← Nat.add_assoc, ← Nat.add_assoc, ← Nat.add_assoc, ← Nat.add_assoc, ← Nat.add_assoc]
    exact k

/-- C54, status word: when software reads word 3 over the register bus (address phase in cycle `x`, data in cycle `j`), it sees
of cycle `x`: bit 9 a write response taken with an error code, bit 10 a read beat taken with an error code, bit 4 a beat
written; bits 11 to 14, 15 to 18 and 19 to 22 the numbers, modulo 16, of write bursts whose last beat has not been shown, of
read bursts whose last beat has not come and of write bursts not acknowledged since the reset; bits 7 and 8 that there are none. -/
theorem C54_status_word {s : FullAxi} (hs : FullAfterReset c s) (ins : List FullIn) (x j : FullIn)
    (hnr : NoReset c a s (ins ++ [x] ++ [j])) (hm : BusMaster c a s (ins ++ [x] ++ [j])) {pre : List BusEv} {addr d code : Nat}
    (ha : DmaWord addr 3) (hev : busEvents c a s (ins ++ [x]) = pre ++ [.ar addr])
    (hr : liteEvents (fullRun c a s (ins ++ [x])).dma.out j.lite = [.r d code]) :
    let t := fullRun c a s ins
    code = 0 ∧ d < 2 ^ 23 ∧
    d.testBit 9 = (t.wr.bready && x.bvalid && x.bresp != 0) ∧
    d.testBit 10 = (t.rd.rready && x.rvalid && x.rresp != 0) ∧
    d.testBit 4 = (t.wr.wvalid && x.wready) ∧
    (d / 2 ^ 11 % 16 + wlastCycles c a s ins) % 16 = (writeBursts c a s ins).length % 16 ∧
    (d / 2 ^ 15 % 16 + rlastCycles ins) % 16 = (readBursts c a s ins).length % 16 ∧
    (d / 2 ^ 19 % 16 + responses c a s ins) % 16 = (writeBursts c a s ins).length % 16 ∧
    (d.testBit 7 = true ↔ d / 2 ^ 15 % 16 = 0) ∧
    (d.testBit 8 = true ↔ d / 2 ^ 11 % 16 = 0 ∧ d / 2 ^ 19 % 16 = 0) := by
  intro t
  have hpre : ∀ (p q : List FullIn) (s : FullAxi), NoReset c a s (p ++ q) → NoReset c a s p := by
    intro p
    induction p with
    | nil => intro q s _; trivial
    | cons i p ih => rintro q s ⟨h1, h2⟩; exact ⟨h1, ih _ _ h2⟩
  have h1 := hpre _ _ _ hnr
  have h0 := hpre _ _ _ h1
  have hd : s.dma = .init := congrArg FullAxi.dma hs.clear
  obtain ⟨e1, e2⟩ := dma_run_obs _ _ h1
  have hm' := busMaster_obs _ _ hnr hm
  rw [e2, hd] at hev
  rw [e1, hd] at hr
  rw [hd, observe_append] at hm'
  have key := C39_status_read (observe c a dIn s (ins ++ [x])) (dIn (fullRun c a s (ins ++ [x])) j) 3 addr d code hm' ⟨by decide, by decide⟩ ha
    (is' := observe c a dIn s ins) (i := dIn (fullRun c a s ins) x) (observe_append dIn ins [x] s) hev hr
  obtain ⟨k1, k2⟩ := key
  have k1 : d = t.status x := k1
  have hf0 : InFlight s 0 0 0 0 0 := by
    rw [hs.clear]
    exact ⟨(show HpReader.init.active < 16 ∧ HpWriter.init.active < 16 ∧ HpWriter.init.unconf < 16 ∧ HpWriter.init.counter < 16 by decide),
      rfl, rfl, rfl⟩
  have hf := inFlight_run ins hf0 h0
  simp only [Nat.zero_add] at hf
  obtain ⟨⟨f1, f2, f3, _⟩, f4, f5, f6⟩ := hf
  unfold FullAxi.status at k1
  have f1 : t.rd.active < 16 := f1
  have f2 : t.wr.active < 16 := f2
  have f3 : t.wr.unconf < 16 := f3
  have b1 : ∀ b : Bool, b.toNat ≤ 1 := fun b => by cases b <;> decide
  have c0 := b1 t.pack.endOut
  have c1 := b1 t.pack.valid
  have c2 := b1 (HpFifo.endd t.wfifo)
  have c3 := b1 t.wfifo.readable
  have c4 := b1 (t.wr.dataEn x.wready)
  have c5 := b1 (t.readEnd x)
  have c6 := b1 (t.writeEnd x)
  have c7 := b1 (t.rd.active == 0)
  have c8 := b1 (t.wr.active == 0 && t.wr.unconf == 0)
  have c9 := b1 (t.wr.respEn x.bvalid && x.bresp != 0)
  have c10 := b1 (t.rd.dataEn x.rvalid && x.rresp != 0)
  have g11 : d / 2 ^ 11 % 16 = t.wr.active := by omega
  have g15 : d / 2 ^ 15 % 16 = t.rd.active := by omega
  have g19 : d / 2 ^ 19 % 16 = t.wr.unconf := by omega
  have tb : ∀ k (b : Bool), d / 2 ^ k % 2 = b.toNat → d.testBit k = b := by
    intro k b h
    rw [Nat.testBit_eq_decide_div_mod_eq, h]
    cases b <;> rfl
  have t7 : d.testBit 7 = (t.rd.active == 0) := tb 7 _ (by omega)
  have t8 : d.testBit 8 = (t.wr.active == 0 && t.wr.unconf == 0) := tb 8 _ (by omega)
  refine ⟨k2, by omega, tb 9 _ (by rw [show (t.wr.bready && x.bvalid && x.bresp != 0) = (t.wr.respEn x.bvalid && x.bresp != 0) from rfl]; omega),
    tb 10 _ (by rw [show (t.rd.rready && x.rvalid && x.rresp != 0) = (t.rd.dataEn x.rvalid && x.rresp != 0) from rfl]; omega),
    tb 4 _ (by rw [show (t.wr.wvalid && x.wready) = t.wr.dataEn x.wready from rfl]; omega), ?_, ?_, ?_, ?_, ?_⟩
  · rw [g11]; exact f5
  · rw [g15]; exact f4
  · rw [g19]; exact f6
  · rw [t7, g15]; simp
  · rw [t8, g11, g19]; simp

/-! ### Errors -/

/-- The same signals with other error codes on the read and the write port. -/
def SameInput (i j : FullIn) : Prop := ∃ p q, j = { i with rresp := p, bresp := q }

/-- The signals of a cycle without the error codes. -/
def noCodes (i : FullIn) : FullIn := { i with rresp := 0, bresp := 0 }

theorem same_of_noCodes {i j : FullIn} (h : noCodes i = noCodes j) : SameInput i j := by
  obtain ⟨i1, i2, i3, i4, i5, i6, i7, i8, i9, i10⟩ := i
  obtain ⟨j1, j2, j3, j4, j5, j6, j7, j8, j9, j10⟩ := j
  simp only [noCodes, FullIn.mk.injEq] at h
  obtain ⟨rfl, rfl, rfl, rfl, rfl, rfl, rfl, rfl, _, _⟩ := h
  exact ⟨j9, j10, rfl⟩

/-- Two states that differ at most in the data register of the register bus. -/
def SameState (s t : FullAxi) : Prop := ∃ d, t = { s with dma := { s.dma with rdata := d } }

theorem sameState_step {s t : FullAxi} (h : SameState s t) {i j : FullIn} (hi : SameInput i j) : SameState (s.step c a i) (t.step c a j) := by
  obtain ⟨d, rfl⟩ := h
  obtain ⟨p, q, rfl⟩ := hi
  obtain ⟨d', hd⟩ := dma_rdata s.dma d i.lite (s.regs i)
    (FullAxi.regs { s with dma := { s.dma with rdata := d } } { i with rresp := p, bresp := q })
  have hr : SameState (s.run1 c a i) (FullAxi.run1 c a { s with dma := { s.dma with rdata := d } } { i with rresp := p, bresp := q }) := by
    refine ⟨d', ?_⟩
    unfold FullAxi.run1
    dsimp only
    rw [hd]
    rfl
  unfold FullAxi.step
  by_cases h : s.cam.resetOut = true
  · rw [if_pos h, if_pos (show _ = true from h)]
    obtain ⟨d', e⟩ := hr
    rw [e]
    exact ⟨0, rfl⟩
  · rw [if_neg h, if_neg (show ¬ _ from h)]
    exact hr

/-- C54 (limit of the code): error responses of the memory are ignored. Whatever error codes come with the read beats and the
write responses, the bursts requested, the beats transferred and the words given are the same. -/
theorem C54_errors_ignored_limit (s : FullAxi) (ins ins' : List FullIn) (h : ins'.map noCodes = ins.map noCodes) :
    readBursts c a s ins' = readBursts c a s ins ∧ writeBursts c a s ins' = writeBursts c a s ins ∧
    readBeats c a s ins' = readBeats c a s ins ∧ memBeats c a s ins' = memBeats c a s ins ∧
    coreWords c a s ins' = coreWords c a s ins := by
  have key : ∀ (ins ins' : List FullIn), ins'.map noCodes = ins.map noCodes → ∀ s t : FullAxi, SameState s t →
      readBursts c a t ins' = readBursts c a s ins ∧ writeBursts c a t ins' = writeBursts c a s ins ∧
      readBeats c a t ins' = readBeats c a s ins ∧ memBeats c a t ins' = memBeats c a s ins ∧
      coreWords c a t ins' = coreWords c a s ins := by
    intro ins
    induction ins with
    | nil => intro ins' h s t _; rw [List.map_eq_nil_iff.1 h]; exact ⟨rfl, rfl, rfl, rfl, rfl⟩
    | cons i l ih =>
      intro ins' h s t hs
      cases ins' with
      | nil => cases h
      | cons j l' =>
        have hi := same_of_noCodes (List.cons.inj h).1.symm
        obtain ⟨e1, e2, e3, e4, e5⟩ := ih l' (List.cons.inj h).2 _ _ (sameState_step (c := c) (a := a) hs hi)
        obtain ⟨_, rfl⟩ := hs
        obtain ⟨p, q, rfl⟩ := hi
        simp only [readBursts, writeBursts, readBeats, memBeats, coreWords, e1, e2, e3, e4, e5, true_and]
        rfl
  exact key ins ins' h s s ⟨s.dma.rdata, rfl⟩

end

/-- The registers are programmed, word 3 is read; all read beats come with an error code. -/
def errorIns : List FullIn :=
  (memSystem tinyStream 1000 midPixel 0 0 (.init tinyStream) (statusWrite 0 0x1000 ++ statusWrite 1 0x2000 ++ statusWrite 2 0xFFFFFFFF ++
    List.replicate 8 { liteIdle with rready := true, bready := true } ++
    List.replicate 4 { liteIdle with arvalid := true, araddr := 0x1000 + 4 * 3, rready := true, bready := true })).map ({ · with rresp := 2 })

-- The hypotheses of C54_status_word: the address is taken in cycle 25, the data in cycle 26: read error, 6 read and 6 write bursts
-- in flight.
set_option maxRecDepth 40000 in
example : let s := FullAxi.init tinyStream
    let cyc := fun k => errorIns.getD k ⟨liteIdle, false, false, false, 0, false, false, false, 0, 0⟩
    let ins := errorIns.take 25
    NoReset tinyStream 1000 s (ins ++ [cyc 25] ++ [cyc 26]) ∧ BusMaster tinyStream 1000 s (ins ++ [cyc 25] ++ [cyc 26]) ∧
    (busEvents tinyStream 1000 s (ins ++ [cyc 25])).drop 9 = [.ar (0x1000 + 4 * 3)] ∧
    liteEvents (fullRun tinyStream 1000 s (ins ++ [cyc 25])).dma.out (cyc 26).lite = [.r (2 ^ 10 + 6 * 2 ^ 11 + 6 * 2 ^ 15) 0] ∧
    errorIns.map noCodes ≠ errorIns := by decide +kernel

end Props
