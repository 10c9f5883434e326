/- Property C54, the status registers: what software reads from the DMA registers while a frame is processed. -/
import Verif.Props.FullAxi
import Verif.Props.DmaLite
import Verif.Props.Driver

set_option autoImplicit false

namespace Props
open Model Spec

section
variable {c : CoreCfg} {a : Nat}

/-- Transfers on the register bus in a run. -/
def busEvents (c : CoreCfg) (a : Nat) : FullAxi → List FullIn → List BusEv
  | _, [] => []
  | s, i :: r => liteEvents s.dma.out i.lite ++ busEvents c a (s.step c a i) r

/-- The bus master behaves in every pair of consecutive cycles. -/
def BusMaster (c : CoreCfg) (a : Nat) : FullAxi → List FullIn → Prop
  | s, i :: j :: r => MasterNext s.dma.out i.lite j.lite ∧ BusMaster c a (s.step c a i) (j :: r)
  | _, _ => True

def dIn (s : FullAxi) (i : FullIn) : DmaIn := ⟨i.lite, s.regs i⟩

theorem dma_run_obs (ins : List FullIn) : ∀ s : FullAxi, NoReset c a s ins →
    (fullRun c a s ins).dma = dmaRun s.dma (observe c a dIn s ins) ∧
    busEvents c a s ins = dmaTransfers s.dma (observe c a dIn s ins) := by
  induction ins with
  | nil => intro s _; exact ⟨rfl, rfl⟩
  | cons i r ih =>
    rintro s ⟨h, hr⟩
    obtain ⟨e1, e2⟩ := ih _ hr
    have e : (s.step c a i).dma = s.dma.cyc (dIn s i) := by rw [step_run1 h]; rfl
    refine ⟨?_, ?_⟩
    · simp only [fullRun, observe, dmaRun]
      rw [e1, e]
    · simp only [busEvents, observe, dmaTransfers, dmaTrace, List.flatMap_cons]
      rw [e2, e]; rfl

theorem busMaster_obs : ∀ (ins : List FullIn) (s : FullAxi), NoReset c a s ins → BusMaster c a s ins → DmaMaster s.dma (observe c a dIn s ins)
  | [], _, _, _ => trivial
  | [_], _, _, _ => trivial
  | i :: j :: r, s, ⟨h, hr⟩, ⟨h1, h2⟩ => by
    refine ⟨h1, ?_⟩
    have := busMaster_obs (j :: r) _ hr h2
    have e : (s.step c a i).dma = s.dma.cyc (dIn s i) := by rw [step_run1 h]; rfl
    rw [e] at this
    exact this

/-- The burst counters and address registers after the read bursts `l` and the write bursts `m`. -/
structure Counts (s : FullAxi) (l m : List Nat) : Prop where
  cntR : s.cntR = min l.length 196608
  cntW : s.cntW = min m.length 131072
  arv : s.rd.arvalid = true → s.agr.valid = true
  awv : s.wr.awvalid = true → s.agw.valid = true
  nextR : ∀ b, l.getLast? = some b → s.agr.addr = (b + 128) % 2 ^ 32 ∧ s.agr.loop = true
  nextW : ∀ b, m.getLast? = some b → s.agw.addr = (b + 128) % 2 ^ 32 ∧ s.agw.loop = true

theorem addr_next (g : AddrGen) (st : Nat) (latch : Bool) (l : List Nat)
    (h : ∀ b, l.getLast? = some b → g.addr = (b + 128) % 2 ^ 32 ∧ g.loop = true) :
    ∀ b, (l ++ if latch then [g.addr] else []).getLast? = some b →
      (g.step 0x80 ⟨st, latch⟩).addr = (b + 128) % 2 ^ 32 ∧ (g.step 0x80 ⟨st, latch⟩).loop = true := by
  intro b hb
  cases latch with
  | true =>
    simp only [if_true, List.getLast?_append, List.getLast?_singleton, Option.some_or, Option.some.injEq] at hb
    subst hb
    unfold AddrGen.step
    split <;> simp
    rename_i hl; simpa using hl
  | false =>
    simp only [Bool.false_eq_true, if_false, List.append_nil] at hb
    obtain ⟨h1, h2⟩ := h b hb
    unfold AddrGen.step
    simp [h1, h2]

theorem addr_valid1 (g : AddrGen) (i : AddrIn) (h : g.valid = true) : (g.step 0x80 i).valid = true := by
  unfold AddrGen.step
  repeat' split
  all_goals first | exact h | rfl

theorem counts_step {s : FullAxi} {l m : List Nat} (h : Counts s l m) (i : FullIn) (hr : s.cam.resetOut = false) :
    Counts (s.step c a i) (l ++ if s.rd.arvalid && i.arready then [s.agr.addr] else [])
      (m ++ if s.wr.awvalid && i.awready then [s.agw.addr] else []) := by
  rw [step_run1 hr]
  obtain ⟨h1, h2, h3, h4, h5, h6⟩ := h
  have p32 : (2 : Nat) ^ 32 = 4294967296 := by decide
  refine ⟨?_, ?_, ?_, ?_, addr_next s.agr _ _ l h5, addr_next s.agw _ _ m h6⟩
  · simp only [FullAxi.run1, HpReader.addrEn]
    by_cases hc : (s.rd.arvalid && i.arready) = true
    · have hv : s.agr.valid = true := h3 (by simp at hc; exact hc.1)
      simp only [hc, hv, Bool.true_and, if_true, List.length_append, List.length_singleton, h1]
      rw [p32]
      by_cases hlt : l.length < 196608
      · rw [if_pos (by simp; omega)]; omega
      · rw [if_neg (by simp; omega)]; omega
    · simp [hc, h1]
  · simp only [FullAxi.run1, HpWriter.addrEn]
    by_cases hc : (s.wr.awvalid && i.awready) = true
    · have hv : s.agw.valid = true := h4 (by simp at hc; exact hc.1)
      simp only [hc, hv, Bool.true_and, if_true, List.length_append, List.length_singleton, h2]
      rw [p32]
      by_cases hlt : m.length < 131072
      · rw [if_pos (by simp; omega)]; omega
      · rw [if_neg (by simp; omega)]; omega
    · simp [hc, h2]
  · intro hv
    apply addr_valid1
    by_cases ha : s.rd.arvalid = true
    · exact h3 ha
    · have : (s.enable && !(!s.agr.valid || s.readEnd i) && !s.rd.active.testBit 3) = true := by
        have e : (s.run1 c a i).rd.arvalid = (if !s.rd.arvalid then s.enable && !(!s.agr.valid || s.readEnd i) && !s.rd.active.testBit 3 else !i.arready) := rfl
        rw [e] at hv
        simpa only [ha, Bool.not_false, if_true] using hv
      simp at this
      exact this.1.2.1
  · intro hv
    apply addr_valid1
    by_cases ha : s.wr.awvalid = true
    · exact h4 ha
    · have : (s.enable && !(!s.agw.valid || s.writeEnd i) && !s.wr.active.testBit 3) = true := by
        have e : (s.run1 c a i).wr.awvalid = (if !s.wr.awvalid then s.enable && !(!s.agw.valid || s.writeEnd i) && !s.wr.active.testBit 3 else !i.awready) := rfl
        rw [e] at hv
        simpa only [ha, Bool.not_false, if_true] using hv
      simp at this
      exact this.1.2.1

theorem counts_run : ∀ (ins : List FullIn) {s : FullAxi} {l m : List Nat}, Counts s l m → NoReset c a s ins →
    Counts (fullRun c a s ins) (l ++ readBursts c a s ins) (m ++ writeBursts c a s ins)
  | [], _, _, _, h, _ => by simpa [fullRun, readBursts, writeBursts] using h
  | i :: r, s, l, m, h, ⟨h1, h2⟩ => by
    have := counts_run r (counts_step (c := c) (a := a) h i h1) h2
    simpa [fullRun, readBursts, writeBursts, List.append_assoc] using this

/-- C54, status registers: when software reads a status word over the register bus (address phase in cycle `x`, data in
cycle `j`), word 6 is the number of read bursts requested since the reset (up to 196608), word 7 that of the write bursts
(up to 131072), and words 4 and 5 are the addresses the next read and write burst will have, once there has been one. -/
theorem C54_status_registers {s : FullAxi} (hs : FullAfterReset c s) (ins : List FullIn) (x j : FullIn)
    (hnr : NoReset c a s (ins ++ [x] ++ [j])) (hm : BusMaster c a s (ins ++ [x] ++ [j])) {pre : List BusEv} {addr k d code : Nat}
    (hk : 3 ≤ k ∧ k < 12) (ha : DmaWord addr k) (hev : busEvents c a s (ins ++ [x]) = pre ++ [.ar addr])
    (hr : liteEvents (fullRun c a s (ins ++ [x])).dma.out j.lite = [.r d code]) :
    code = 0 ∧
    (k = 6 → d = min (readBursts c a s ins).length 196608) ∧
    (k = 7 → d = min (writeBursts c a s ins).length 131072) ∧
    (k = 4 → ∀ b, (readBursts c a s ins).getLast? = some b → d = (b + 128) % 2 ^ 32) ∧
    (k = 5 → ∀ b, (writeBursts c a s ins).getLast? = some b → d = (b + 128) % 2 ^ 32) := by
  have hpre : ∀ (p q : List FullIn) (s : FullAxi), NoReset c a s (p ++ q) → NoReset c a s p := by
    intro p
    induction p with
    | nil => intro q s _; trivial
    | cons i p ih => rintro q s ⟨h1, h2⟩; exact ⟨h1, ih _ _ h2⟩
  have h1 := hpre _ _ _ hnr
  have h0 := hpre _ _ _ h1
  have hd : s.dma = .init := congrArg FullAxi.dma hs.clear
  obtain ⟨e1, e2⟩ := dma_run_obs _ _ h1
  have hm' := busMaster_obs _ _ hnr hm
  rw [e2, hd] at hev
  rw [e1, hd] at hr
  rw [hd, observe_append] at hm'
  have key := C39_status_read (observe c a dIn s (ins ++ [x])) (dIn (fullRun c a s (ins ++ [x])) j) k addr d code hm' hk ha
    (is' := observe c a dIn s ins) (i := dIn (fullRun c a s ins) x) (observe_append dIn ins [x] s) hev hr
  obtain ⟨k1, k2⟩ := key
  have hc0 : Counts s [] [] := by
    rw [hs.clear]
    exact ⟨rfl, rfl, (fun h => by cases h), (fun h => by cases h), (fun b h => by cases h), (fun b h => by cases h)⟩
  have hc := counts_run ins hc0 h0
  simp only [List.nil_append] at hc
  refine ⟨k2, ?_, ?_, ?_, ?_⟩
  · rintro rfl; rw [k1]; exact hc.cntR
  · rintro rfl; rw [k1]; exact hc.cntW
  · rintro rfl b hb; rw [k1]; exact (hc.nextR b hb).1
  · rintro rfl b hb; rw [k1]; exact (hc.nextW b hb).1

instance decBusMaster (c : CoreCfg) (a : Nat) : ∀ (s : FullAxi) (is : List FullIn), Decidable (BusMaster c a s is)
  | _, [] => isTrue trivial
  | _, [_] => isTrue trivial
  | s, i :: j :: r =>
    have := decBusMaster c a (s.step c a i) (j :: r)
    by unfold BusMaster; exact inferInstance

end

/-- A bus write by a well-behaved master. -/
def statusWrite (k d : Nat) : List LiteIn :=
  let quiet : LiteIn := { liteIdle with rready := true, bready := true }
  List.replicate 3 { quiet with awvalid := true, awaddr := 0x1000 + 4 * k, wvalid := true, wdata := d, wstrb := 15 } ++
    [{ quiet with wvalid := true, wdata := d, wstrb := 15 }, quiet]

/-- The registers are programmed, then word 6 is read. -/
def statusIns : List FullIn :=
  memSystem tinyStream 1000 midPixel 0 0 (.init tinyStream) (statusWrite 0 0x1000 ++ statusWrite 1 0x2000 ++ statusWrite 2 0xFFFFFFFF ++
    List.replicate 8 { liteIdle with rready := true, bready := true } ++
    List.replicate 4 { liteIdle with arvalid := true, araddr := 0x1000 + 4 * 6, rready := true, bready := true })

-- The hypotheses of C54_status_registers: the address is taken in cycle 25, the data (six bursts so far) in cycle 26.
set_option maxRecDepth 40000 in
example : let s := FullAxi.init tinyStream
    let cyc := fun k => statusIns.getD k ⟨liteIdle, false, false, false, 0, false, false, false, 0, 0⟩
    let ins := statusIns.take 25
    NoReset tinyStream 1000 s (ins ++ [cyc 25] ++ [cyc 26]) ∧ BusMaster tinyStream 1000 s (ins ++ [cyc 25] ++ [cyc 26]) ∧
    (busEvents tinyStream 1000 s (ins ++ [cyc 25])).drop 9 = [.ar (0x1000 + 4 * 6)] ∧
    liteEvents (fullRun tinyStream 1000 s (ins ++ [cyc 25])).dma.out (cyc 26).lite = [.r 6 0] ∧
    (readBursts tinyStream 1000 s ins).length = 6 := by decide +kernel

end Props
