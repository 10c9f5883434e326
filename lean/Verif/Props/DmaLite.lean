/- Property theorems C39: the DMA registers over AXI-lite. -/
import Verif.Props.Lite
import Verif.Model.DmaAxiLite
import Verif.Spec.DmaRegs

set_option autoImplicit false

namespace Props
open Model Spec Proof

/-- Master signals and status inputs in one cycle. -/
structure DmaIn where
  bus : LiteIn
  ins : Nat → Nat

def _root_.Model.DmaLite.cyc (s : DmaLite) (i : DmaIn) : DmaLite := s.step i.bus i.ins

def dmaRun : DmaLite → List DmaIn → DmaLite
  | s, [] => s
  | s, i :: r => dmaRun (s.cyc i) r

/-- The history a bus analyser records. -/
def dmaTrace : DmaLite → List DmaIn → List ((Nat → Nat) × List BusEv)
  | _, [] => []
  | s, i :: r => (i.ins, liteEvents s.out i.bus) :: dmaTrace (s.cyc i) r

/-- The master behaves in every pair of consecutive cycles. -/
def DmaMaster : DmaLite → List DmaIn → Prop
  | s, i :: j :: r => MasterNext s.out i.bus j.bus ∧ DmaMaster (s.cyc i) (j :: r)
  | _, _ => True

structure DmaSynced (s : DmaLite) (g : DmaRegs) : Prop where
  rd : s.readAddr = g.readAddr
  wr : s.writeAddr = g.writeAddr
  st : s.start = g.start

structure DmaRegsOk (g : DmaRegs) : Prop where
  rd : g.readAddr < 2 ^ 32
  wr : g.writeAddr < 2 ^ 32
  st : g.start < 2 ^ 32

def DmaInv (s : DmaLite) (i : LiteIn) (live : Nat → Nat) (g : DmaRegs) (p : BusPhase) : Prop :=
  DmaRegsOk g ∧ (s.fsm ≠ .rdData → s.arready = false) ∧ (s.fsm ≠ .wrData → s.awready = false) ∧
  (s.fsm ≠ .idle → s.rvalid = false ∧ s.bvalid = false) ∧
  (s.fsm ≠ .wrData → s.fsm ≠ .wrResp → s.wready = false) ∧ (s.fsm ≠ .wrResp → DmaSynced s g) ∧
  match s.fsm with
  | .idle =>
    if s.rvalid then s.bvalid = false ∧ i.rready = true ∧ ∃ a, p = .read a ∧ s.rresp = (dmaMap.read g live a).2 ∧
        ∀ v ∈ (dmaMap.read g live a).1, s.rdata = v
    else if s.bvalid then i.bready = true ∧ p = .resp s.bresp
    else p = .idle
  | .rdAddr => p = .idle ∧ i.arvalid = true
  | .rdData => if s.arready then p = .idle ∧ i.arvalid = true ∧ s.addr = i.araddr / 4 else ∃ a, p = .read a ∧ s.addr = a / 4
  | .wrAddr => p = .idle ∧ i.awvalid = true
  | .wrData =>
    if s.awready then s.wready = false ∧ p = .idle ∧ i.awvalid = true ∧ s.addr = i.awaddr / 4
    else ∃ a, p = .write a ∧ s.addr = a / 4
  | .wrResp =>
    (s.wready = true ∧ i.wvalid = true ∧ ∃ a, p = .write a ∧ s.bresp = (dmaMap.write g a i.wdata i.wstrb).2 ∧
      DmaSynced s (dmaMap.write g a i.wdata i.wstrb).1) ∨
    ((s.wready = true → i.wvalid = false) ∧ p = .resp s.bresp ∧ DmaSynced s g)

theorem dmaRegsOk_write {g : DmaRegs} (h : DmaRegsOk g) (a d st : Nat) : DmaRegsOk (dmaMap.write g a d st).1 := by
  simp only [dmaMap]
  split
  · split
    · exact ⟨strobed_lt _ _ _, h.wr, h.st⟩
    · exact ⟨h.rd, strobed_lt _ _ _, h.st⟩
    · exact ⟨h.rd, h.wr, strobed_lt _ _ _⟩
    · exact h
  · exact h

theorem strb_any (s : Nat) : (s.testBit 0 || s.testBit 1 || s.testBit 2 || s.testBit 3) = decide (s % 16 ≠ 0) := by
  have h : s % 16 < 16 := Nat.mod_lt _ (by decide)
  have e : ∀ k, k < 4 → s.testBit k = (s % 16).testBit k := by
    intro k hk
    rw [show (16 : Nat) = 2 ^ 4 from rfl, Nat.testBit_mod_two_pow]
    simp [hk]
  rw [e 0 (by decide), e 1 (by decide), e 2 (by decide), e 3 (by decide)]
  revert h
  generalize s % 16 = n
  intro h
  have : ∀ n : Fin 16, (n.val.testBit 0 || n.val.testBit 1 || n.val.testBit 2 || n.val.testBit 3) = decide (n.val ≠ 0) := by decide
  exact this ⟨n, h⟩

theorem dmaRead_spec {s r : DmaLite} {g : DmaRegs} {a : Nat} (h1 : s.addr = a / 4) (h2 : DmaSynced s g) (ins : Nat → Nat) :
    ∃ x y, s.readData r ins = { r with rdata := x, rresp := y } ∧ y = (dmaMap.read g ins a).2 ∧
      ∀ v ∈ (dmaMap.read g ins a).1, x = v := by
  have e : s.enable = inDma a := by rw [DmaLite.enable, h1, div4_testBit]; rfl
  have ei : s.index = a / 4 % 16 := by rw [DmaLite.index, h1]
  simp only [DmaLite.readData, dmaMap, e, ei]
  by_cases hd : inDma a = true
  · simp only [hd, if_true]
    generalize a / 4 % 16 = n
    match n with
    | 0 => exact ⟨_, _, rfl, rfl, by simp [h2.rd]⟩
    | 1 => exact ⟨_, _, rfl, rfl, by simp [h2.wr]⟩
    | 2 => exact ⟨_, _, rfl, rfl, by simp [h2.st]⟩
    | n + 3 =>
      by_cases hn : n < 9
      · exact ⟨ins n, 0, by simp [hn], rfl, by simp [hn, show n + 3 < 12 by omega]⟩
      · exact ⟨r.rdata, 0, by simp [hn], rfl, by simp [show ¬ n + 3 < 12 by omega]⟩
  · simp only [hd, Bool.false_eq_true, if_false]
    exact ⟨_, _, rfl, rfl, by simp⟩

theorem dmaWrite_spec {s r : DmaLite} {g : DmaRegs} {a : Nat} {i : LiteIn} (hg : DmaRegsOk g) (h1 : s.addr = a / 4)
    (h2 : DmaSynced s g) (h3 : DmaSynced r g) :
    DmaSynced (s.writeData r i) (dmaMap.write g a i.wdata i.wstrb).1 ∧
    (s.writeData r i).bresp = (dmaMap.write g a i.wdata i.wstrb).2 ∧
    (s.writeData r i).arready = r.arready ∧ (s.writeData r i).awready = r.awready ∧ (s.writeData r i).rvalid = r.rvalid ∧
    (s.writeData r i).bvalid = r.bvalid ∧ (s.writeData r i).wready = r.wready := by
  have e : s.enable = inDma a := by rw [DmaLite.enable, h1, div4_testBit]; rfl
  have ei : s.index = a / 4 % 16 := by rw [DmaLite.index, h1]
  simp only [DmaLite.writeData, dmaMap, e, ei, strb_any]
  by_cases hd : inDma a = true
  · simp only [hd, if_true]
    generalize a / 4 % 16 = n
    match n with
    | 0 => exact ⟨⟨by rw [h2.rd]; exact putBytes4 _ _ hg.rd, h3.wr, h3.st⟩, rfl, rfl, rfl, rfl, rfl, rfl⟩
    | 1 => exact ⟨⟨h3.rd, by rw [h2.wr]; exact putBytes4 _ _ hg.wr, h3.st⟩, rfl, rfl, rfl, rfl, rfl, rfl⟩
    | 2 => exact ⟨⟨h3.rd, h3.wr, by rw [h2.st]; exact putBytes4 _ _ hg.st⟩, rfl, rfl, rfl, rfl, rfl, rfl⟩
    | n + 3 =>
      by_cases hn : n < 9 ∧ i.wstrb % 16 ≠ 0
      · have : n + 3 < 12 ∧ i.wstrb % 16 ≠ 0 := ⟨by omega, hn.2⟩
        simp [hn, this]
        exact ⟨h3.rd, h3.wr, h3.st⟩
      · have : ¬ (n + 3 < 12 ∧ i.wstrb % 16 ≠ 0) := fun h => hn ⟨by omega, h.2⟩
        have hn' : ¬ ((decide (n < 9) && decide (i.wstrb % 16 ≠ 0)) = true) := by
          simpa only [Bool.and_eq_true, decide_eq_true_eq] using hn
        simp only [if_neg hn', if_neg this, and_true]
        exact ⟨h3.rd, h3.wr, h3.st⟩
  · simp only [hd, Bool.false_eq_true, if_false, and_true]
    exact ⟨h3.rd, h3.wr, h3.st⟩

theorem dma_step {s : DmaLite} {i : DmaIn} {live : Nat → Nat} {g : DmaRegs} {p : BusPhase} (h : DmaInv s i.bus live g p) :
    ∃ g' p', busEvs dmaMap live (g, p) (liteEvents s.out i.bus) = some (g', p') ∧
      ∀ j, MasterNext s.out i.bus j → DmaInv (s.cyc i) j i.ins g' p' := by
  obtain ⟨fsm, addr, arready, rvalid, awready, wready, bvalid, rdata, rresp, bresp, ra, wa, sta⟩ := s
  obtain ⟨⟨arv, ara, rr, awv, awa, wv, wd, ws, br⟩, ins⟩ := i
  obtain ⟨h1, h2, h3, h5, h6, h7, h8⟩ := h
  dsimp only at h2 h3 h5 h6 h8
  cases fsm with
  | idle =>
    obtain rfl := h2 (by decide)
    obtain rfl := h3 (by decide)
    obtain rfl := h6 (by decide) (by decide)
    have sy := h7 (by simp)
    dsimp only at h8
    have main : ∀ q j, q = BusPhase.idle → MasterNext ⟨false, rvalid, rdata, rresp, false, false, bvalid, bresp⟩
        ⟨arv, ara, rr, awv, awa, wv, wd, ws, br⟩ j → DmaInv (DmaLite.cyc
          ⟨.idle, addr, false, rvalid, false, false, bvalid, rdata, rresp, bresp, ra, wa, sta⟩
          ⟨⟨arv, ara, rr, awv, awa, wv, wd, ws, br⟩, ins⟩) j ins g q := by
      rintro q j rfl hm
      have sy' : ∀ f, DmaSynced ⟨f, addr, false, false, false, false, false, rdata, rresp, bresp, ra, wa, sta⟩ g :=
        fun f => ⟨sy.rd, sy.wr, sy.st⟩
      by_cases ha : arv = true
      · subst ha
        have := hm.ar rfl rfl
        simp [DmaLite.cyc, DmaLite.step, DmaInv, h1, this, sy']
      · obtain rfl : arv = false := by simpa using ha
        by_cases hb : awv = true
        · subst hb
          have := hm.aw rfl rfl
          simp [DmaLite.cyc, DmaLite.step, DmaInv, h1, this, sy']
        · obtain rfl : awv = false := by simpa using hb
          simp [DmaLite.cyc, DmaLite.step, DmaInv, h1, sy']
    by_cases hr : rvalid = true
    · subst hr
      rw [if_pos rfl] at h8
      obtain ⟨rfl, rfl, a, rfl, e1, e2⟩ := h8
      refine ⟨g, .idle, ?_, fun j hj => main _ j rfl hj⟩
      simp [liteEvents, DmaLite.out, busEvs, busEv, e1]
      simpa using e2
    · obtain rfl : rvalid = false := by simpa using hr
      rw [if_neg (by decide)] at h8
      by_cases hb : bvalid = true
      · subst hb
        rw [if_pos rfl] at h8
        obtain ⟨rfl, rfl⟩ := h8
        refine ⟨g, .idle, ?_, fun j hj => main _ j rfl hj⟩
        simp [liteEvents, DmaLite.out, busEvs, busEv]
      · obtain rfl : bvalid = false := by simpa using hb
        rw [if_neg (by decide)] at h8
        subst h8
        exact ⟨g, .idle, by simp [liteEvents, DmaLite.out, busEvs], fun j hj => main _ j rfl hj⟩
  | rdAddr =>
    obtain rfl := h2 (by decide)
    obtain rfl := h3 (by decide)
    obtain rfl := h6 (by decide) (by decide)
    obtain ⟨rfl, rfl⟩ := h5 (by decide)
    have sy := h7 (by simp)
    obtain ⟨rfl, e⟩ := h8
    obtain rfl : arv = true := e
    refine ⟨g, .idle, by simp [liteEvents, DmaLite.out, busEvs], fun j hm => ?_⟩
    have := hm.ar rfl rfl
    refine ⟨h1, fun h => absurd rfl h, fun _ => rfl, fun _ => ⟨rfl, rfl⟩, fun _ _ => rfl, fun _ => ⟨sy.rd, sy.wr, sy.st⟩, ?_⟩
    exact ⟨rfl, this.1, by rw [this.2]; rfl⟩
  | rdData =>
    obtain rfl := h3 (by decide)
    obtain rfl := h6 (by decide) (by decide)
    obtain ⟨rfl, rfl⟩ := h5 (by decide)
    have sy := h7 (by simp)
    dsimp only at h8
    have key : ∃ a, busEvs dmaMap live (g, p) (liteEvents (DmaLite.out
        ⟨.rdData, addr, arready, false, false, false, false, rdata, rresp, bresp, ra, wa, sta⟩)
        ⟨arv, ara, rr, awv, awa, wv, wd, ws, br⟩) = some (g, .read a) ∧ addr = a / 4 := by
      by_cases ha : arready = true
      · rw [if_pos ha] at h8
        obtain ⟨rfl, e1, e2⟩ := h8
        obtain rfl : arv = true := e1
        exact ⟨ara, by simp [liteEvents, DmaLite.out, busEvs, busEv, ha], e2⟩
      · rw [if_neg ha] at h8
        obtain ⟨a, rfl, e⟩ := h8
        exact ⟨a, by simp [liteEvents, DmaLite.out, busEvs, ha], e⟩
    obtain ⟨a, k1, k2⟩ := key
    refine ⟨g, .read a, k1, fun j hm => ?_⟩
    obtain ⟨x, y, hxy, hy, hv⟩ := dmaRead_spec (r := ⟨.rdData, addr, false, false, false, false, false, rdata, rresp, bresp, ra, wa, sta⟩)
      (s := ⟨.rdData, addr, arready, false, false, false, false, rdata, rresp, bresp, ra, wa, sta⟩) k2 sy ins
    by_cases hr : rr = true
    · subst hr
      have := hm.r rfl rfl
      simp only [DmaLite.cyc, DmaLite.step, hxy, if_true]
      exact ⟨h1, fun _ => rfl, fun _ => rfl, fun h => absurd rfl h, fun _ _ => rfl, fun _ => ⟨sy.rd, sy.wr, sy.st⟩,
        rfl, this, a, rfl, hy, hv⟩
    · obtain rfl : rr = false := by simpa using hr
      simp only [DmaLite.cyc, DmaLite.step, hxy, Bool.false_eq_true, if_false]
      exact ⟨h1, fun h => absurd rfl h, fun _ => rfl, fun _ => ⟨rfl, rfl⟩, fun _ _ => rfl, fun _ => ⟨sy.rd, sy.wr, sy.st⟩,
        a, rfl, k2⟩
  | wrAddr =>
    obtain rfl := h2 (by decide)
    obtain rfl := h3 (by decide)
    obtain rfl := h6 (by decide) (by decide)
    obtain ⟨rfl, rfl⟩ := h5 (by decide)
    have sy := h7 (by simp)
    obtain ⟨rfl, e⟩ := h8
    obtain rfl : awv = true := e
    refine ⟨g, .idle, by simp [liteEvents, DmaLite.out, busEvs], fun j hm => ?_⟩
    have := hm.aw rfl rfl
    refine ⟨h1, fun _ => rfl, fun h => absurd rfl h, fun _ => ⟨rfl, rfl⟩, fun h => absurd rfl h, fun _ => ⟨sy.rd, sy.wr, sy.st⟩, ?_⟩
    exact ⟨rfl, rfl, this.1, by rw [this.2]; rfl⟩
  | wrData =>
    obtain rfl := h2 (by decide)
    obtain ⟨rfl, rfl⟩ := h5 (by decide)
    have sy := h7 (by simp)
    dsimp only at h8
    have key : ∃ a q g', addr = a / 4 ∧ busEvs dmaMap live (g, p) (liteEvents (DmaLite.out
        ⟨.wrData, addr, false, false, awready, wready, false, rdata, rresp, bresp, ra, wa, sta⟩)
        ⟨arv, ara, rr, awv, awa, wv, wd, ws, br⟩) = some (g', q) ∧ (if (wv && wready) = true
          then q = .resp (dmaMap.write g a wd ws).2 ∧ g' = (dmaMap.write g a wd ws).1 else q = .write a ∧ g' = g) := by
      by_cases ha : awready = true
      · rw [if_pos ha] at h8
        obtain ⟨rfl, rfl, e1, e2⟩ := h8
        obtain rfl : awv = true := e1
        exact ⟨awa, .write awa, g, e2, by simp [liteEvents, DmaLite.out, busEvs, busEv, ha], by simp⟩
      · rw [if_neg ha] at h8
        obtain ⟨a, rfl, e⟩ := h8
        by_cases hw : (wv && wready) = true
        · refine ⟨a, _, _, e, ?_, by rw [if_pos hw]; exact ⟨rfl, rfl⟩⟩
          simp only [Bool.and_eq_true] at hw
          simp [liteEvents, DmaLite.out, busEvs, busEv, ha, hw]
        · refine ⟨a, _, _, e, ?_, by rw [if_neg hw]; exact ⟨rfl, rfl⟩⟩
          simp only [liteEvents, DmaLite.out, busEvs, ha, hw]
          simp
    obtain ⟨a, q, g', k1, k2, k3⟩ := key
    refine ⟨g', q, k2, fun j hm => ?_⟩
    obtain ⟨w1, w2, w3, w4, w5, w6, w7⟩ := dmaWrite_spec (i := ⟨arv, ara, rr, awv, awa, wv, wd, ws, br⟩)
      (r := ⟨.wrData, addr, false, false, false, true, false, rdata, rresp, bresp, ra, wa, sta⟩)
      (s := ⟨.wrData, addr, false, false, awready, wready, false, rdata, rresp, bresp, ra, wa, sta⟩) h1 k1 sy ⟨sy.rd, sy.wr, sy.st⟩
    dsimp only at w1 w2 w3 w4 w5 w6 w7
    by_cases hw : wv = true
    · subst hw
      simp only [DmaLite.cyc, DmaLite.step, if_true]
      have frame : ∀ g q, DmaRegsOk g → (((true = true ∧ j.wvalid = true ∧ ∃ a, q = .write a ∧
          bresp = bresp ∧ (DmaLite.writeData ⟨.wrData, addr, false, false, awready, wready, false, rdata, rresp, bresp, ra, wa, sta⟩
            ⟨.wrData, addr, false, false, false, true, false, rdata, rresp, bresp, ra, wa, sta⟩
            ⟨arv, ara, rr, awv, awa, true, wd, ws, br⟩).bresp = (dmaMap.write g a j.wdata j.wstrb).2 ∧
          DmaSynced (DmaLite.writeData ⟨.wrData, addr, false, false, awready, wready, false, rdata, rresp, bresp, ra, wa, sta⟩
            ⟨.wrData, addr, false, false, false, true, false, rdata, rresp, bresp, ra, wa, sta⟩
            ⟨arv, ara, rr, awv, awa, true, wd, ws, br⟩) (dmaMap.write g a j.wdata j.wstrb).1) ∨
          (j.wvalid = false ∧ q = .resp (DmaLite.writeData ⟨.wrData, addr, false, false, awready, wready, false, rdata, rresp, bresp, ra, wa, sta⟩
            ⟨.wrData, addr, false, false, false, true, false, rdata, rresp, bresp, ra, wa, sta⟩
            ⟨arv, ara, rr, awv, awa, true, wd, ws, br⟩).bresp ∧
            DmaSynced (DmaLite.writeData ⟨.wrData, addr, false, false, awready, wready, false, rdata, rresp, bresp, ra, wa, sta⟩
            ⟨.wrData, addr, false, false, false, true, false, rdata, rresp, bresp, ra, wa, sta⟩
            ⟨arv, ara, rr, awv, awa, true, wd, ws, br⟩) g))) →
          DmaInv { DmaLite.writeData ⟨.wrData, addr, false, false, awready, wready, false, rdata, rresp, bresp, ra, wa, sta⟩
            ⟨.wrData, addr, false, false, false, true, false, rdata, rresp, bresp, ra, wa, sta⟩
            ⟨arv, ara, rr, awv, awa, true, wd, ws, br⟩ with fsm := .wrResp } j ins g q := by
        intro g q hg hh
        refine ⟨hg, fun _ => w3, fun _ => w4, fun _ => ⟨w5, w6⟩, fun _ h => absurd rfl h, fun h => absurd rfl h, ?_⟩
        rcases hh with ⟨_, v1, b, v2, _, v3, v4⟩ | ⟨v1, v2, v3⟩
        · exact Or.inl ⟨w7, v1, b, v2, v3, v4.rd, v4.wr, v4.st⟩
        · exact Or.inr ⟨fun _ => v1, v2, v3.rd, v3.wr, v3.st⟩
      by_cases hwr : wready = true
      · subst hwr
        rw [if_pos (by rfl)] at k3
        obtain ⟨rfl, rfl⟩ := k3
        exact frame _ _ (dmaRegsOk_write h1 a wd ws) (Or.inr ⟨hm.w1 rfl rfl, by rw [w2], w1⟩)
      · obtain rfl : wready = false := by simpa using hwr
        rw [if_neg (by decide)] at k3
        obtain ⟨rfl, rfl⟩ := k3
        obtain ⟨m1, m2, m3⟩ := hm.w rfl rfl
        dsimp only at m2 m3
        exact frame _ _ h1 (Or.inl ⟨rfl, m1, a, rfl, rfl, by rw [m2, m3]; exact w2, by rw [m2, m3]; exact w1⟩)
    · obtain rfl : wv = false := by simpa using hw
      rw [if_neg (by simp)] at k3
      obtain ⟨rfl, rfl⟩ := k3
      refine ⟨h1, fun _ => rfl, fun h => absurd rfl h, fun _ => ⟨rfl, rfl⟩, fun h => absurd rfl h, fun _ => ⟨sy.rd, sy.wr, sy.st⟩, ?_⟩
      exact ⟨a, rfl, k1⟩
  | wrResp =>
    obtain rfl := h2 (by decide)
    obtain rfl := h3 (by decide)
    obtain ⟨rfl, rfl⟩ := h5 (by decide)
    dsimp only at h8
    have key : ∃ g', busEvs dmaMap live (g, p) (liteEvents (DmaLite.out
        ⟨.wrResp, addr, false, false, false, wready, false, rdata, rresp, bresp, ra, wa, sta⟩)
        ⟨arv, ara, rr, awv, awa, wv, wd, ws, br⟩) = some (g', .resp bresp) ∧ DmaRegsOk g' ∧
        DmaSynced ⟨.wrResp, addr, false, false, false, wready, false, rdata, rresp, bresp, ra, wa, sta⟩ g' := by
      rcases h8 with ⟨rfl, rfl, a, rfl, e1, e2⟩ | ⟨e1, rfl, e2⟩
      · refine ⟨_, ?_, dmaRegsOk_write h1 a wd ws, e2⟩
        simp [liteEvents, DmaLite.out, busEvs, busEv, e1]
      · refine ⟨g, ?_, h1, e2⟩
        cases wready
        · simp [liteEvents, DmaLite.out, busEvs]
        · obtain rfl := e1 rfl
          simp [liteEvents, DmaLite.out, busEvs]
    obtain ⟨g', k1, k2, k3⟩ := key
    refine ⟨g', .resp bresp, k1, fun j hm => ?_⟩
    have sy : ∀ f bv, DmaSynced ⟨f, addr, false, false, false, false, bv, rdata, rresp, bresp, ra, wa, sta⟩ g' :=
      fun f bv => ⟨k3.rd, k3.wr, k3.st⟩
    by_cases hb : br = true
    · subst hb
      have := hm.b rfl rfl
      simp [DmaLite.cyc, DmaLite.step, DmaInv, k2, this, sy]
    · obtain rfl : br = false := by simpa using hb
      simp [DmaLite.cyc, DmaLite.step, DmaInv, k2, sy]

theorem dma_run : ∀ (is : List DmaIn) (s : DmaLite) (live : Nat → Nat)
    (g : DmaRegs) (p : BusPhase), (∀ i r, is = i :: r → DmaInv s i.bus live g p) → DmaMaster s is → is ≠ [] →
    ∃ g' p', busRun dmaMap live (g, p) (dmaTrace s is) = some (g', p') ∧
      ((p' = .idle ∨ ∃ a, p' = .read a) → DmaSynced (dmaRun s is) g') := by
  intro is
  induction is with
  | nil => intro s live g p _ _ h; exact absurd rfl h
  | cons i r ih =>
    intro s live g p hi hm _
    obtain ⟨g1, p1, e1, e2⟩ := dma_step (hi i r rfl)
    cases r with
    | nil =>
      refine ⟨g1, p1, by simp [dmaTrace, busRun, e1], fun hp => ?_⟩
      let j : LiteIn := { i.bus with wvalid := i.bus.wvalid && !s.wready }
      have hj : MasterNext s.out i.bus j := by
        refine ⟨fun h _ => ⟨h, rfl⟩, fun h _ => ⟨h, rfl⟩, fun h h' => ⟨?_, rfl, rfl⟩, fun h h' => ?_, fun h _ => h, fun h _ => h⟩
        · have : s.wready = false := h'
          simp [j, h, this]
        · have : s.wready = true := h'
          simp [j, this]
      obtain ⟨_, _, _, _, _, k7, k8⟩ := e2 j hj
      refine k7 ?_
      intro hf
      rw [hf] at k8
      rcases k8 with ⟨_, _, a, q, _⟩ | ⟨_, q, _⟩ <;> subst q <;> simp at hp
    | cons j r =>
      obtain ⟨g2, p2, e3, e4⟩ := ih _ i.ins g1 p1 (by rintro _ _ ⟨⟩; exact e2 _ hm.1) hm.2 (by simp)
      refine ⟨g2, p2, ?_, e4⟩
      rw [dmaTrace, busRun, e1]
      exact e3

/-- C39: for every well-behaved master and every history, the transfers are those of the register map
of `Spec.dmaMap`, and whenever no write is in progress the addresses and the start command given to
the DMA are those of the register map. -/
theorem C39_bus_refines_register_map (is : List DmaIn) (live : Nat → Nat) (hne : is ≠ []) (hm : DmaMaster .init is) :
    ∃ g p, busRun dmaMap live (⟨0, 0, 0⟩, .idle) (dmaTrace .init is) = some (g, p) ∧
      ((p = .idle ∨ ∃ a, p = .read a) →
        (dmaRun .init is).readAddr = g.readAddr ∧ (dmaRun .init is).writeAddr = g.writeAddr ∧ (dmaRun .init is).start = g.start) := by
  obtain ⟨g, p, e1, e2⟩ := dma_run is .init live ⟨0, 0, 0⟩ .idle (fun i r _ =>
    ⟨⟨by decide, by decide, by decide⟩, fun _ => rfl, fun _ => rfl, fun _ => ⟨rfl, rfl⟩, fun _ _ => rfl, fun _ => ⟨rfl, rfl, rfl⟩, rfl⟩)
    hm hne
  exact ⟨g, p, e1, fun hp => ⟨(e2 hp).rd, (e2 hp).wr, (e2 hp).st⟩⟩

/-- All transfers of a run, in order. -/
def dmaTransfers (s : DmaLite) (is : List DmaIn) : List BusEv := (dmaTrace s is).flatMap (·.2)

theorem dma_accepted (is : List DmaIn) (hm : DmaMaster .init is) :
    Accepted dmaMap (⟨0, 0, 0⟩, .idle) (dmaTransfers .init is) := by
  cases is with
  | nil => trivial
  | cons i r =>
    obtain ⟨g, p, e, _⟩ := C39_bus_refines_register_map (i :: r) (fun _ => 0) (by simp) hm
    exact (busRun_accepted e).1

/-- Byte addresses of register `k`. -/
def DmaWord (a k : Nat) : Prop := inDma a = true ∧ a / 4 % 16 = k

def dmaReg (k : Nat) (g : DmaRegs) : Nat := if k = 0 then g.readAddr else if k = 1 then g.writeAddr else g.start

theorem dmaMap_read {g : DmaRegs} {l : Nat → Nat} {a k : Nat} (hk : k < 3) (h : DmaWord a k) :
    dmaMap.read g l a = (some (dmaReg k g), 0) := by
  have : k = 0 ∨ k = 1 ∨ k = 2 := by omega
  simp only [dmaMap, h.1, h.2, if_true]
  rcases this with rfl | rfl | rfl <;> rfl

theorem dmaMap_write {g : DmaRegs} {a d s k : Nat} (hk : k < 3) (h : DmaWord a k) :
    dmaReg k (dmaMap.write g a d s).1 = strobed (dmaReg k g) d s ∧ (dmaMap.write g a d s).2 = 0 := by
  have : k = 0 ∨ k = 1 ∨ k = 2 := by omega
  simp only [dmaMap, h.1, h.2, if_true]
  rcases this with rfl | rfl | rfl <;> exact ⟨rfl, rfl⟩

theorem dmaMap_obs {k : Nat} (hk : k < 3) (g : DmaRegs) (a d s : Nat) (h : ¬ DmaWord a k) :
    dmaReg k (dmaMap.write g a d s).1 = dmaReg k g := by
  have : k = 0 ∨ k = 1 ∨ k = 2 := by omega
  simp only [dmaMap]
  by_cases hd : inDma a = true
  · have hn : a / 4 % 16 ≠ k := fun hh => h ⟨hd, hh⟩
    simp only [hd, if_true]
    split <;> first | rfl | (rename_i e; rw [e] at hn; rcases this with rfl | rfl | rfl <;> first | rfl | exact absurd rfl hn)
  · simp only [hd, Bool.false_eq_true, if_false]

/-- C39: registers 0 to 2 are read/write with byte strobes: of two reads around a write, the second
returns the written bytes where the strobe was set and the bytes of the first elsewhere, whatever
other registers are read or written in between. -/
theorem C39_register_strobes (is : List DmaIn) (hm : DmaMaster .init is) {k : Nat} (hk : k < 3)
    {pre mid1 mid2 post : List BusEv} {a0 d0 c0 a d s c a1 d1 c1 : Nat}
    (ha0 : DmaWord a0 k) (ha : DmaWord a k) (ha1 : DmaWord a1 k)
    (h : dmaTransfers .init is =
      pre ++ [.ar a0, .r d0 c0] ++ mid1 ++ [.aw a, .w d s, .b c] ++ mid2 ++ [.ar a1, .r d1 c1] ++ post)
    (h1 : ∀ x, .aw x ∈ mid1 → ¬ DmaWord x k) (h2 : ∀ x, .aw x ∈ mid2 → ¬ DmaWord x k) :
    c0 = 0 ∧ c = 0 ∧ c1 = 0 ∧ d1 < 2 ^ 32 ∧ ∀ i, i < 4 → byteAt d1 i = if s.testBit i then byteAt d i else byteAt d0 i := by
  have hacc := dma_accepted is hm
  rw [h] at hacc
  obtain ⟨g0, g, g1, l0, l1, k1, k2, k3, k4, k5, k6, k7⟩ := accepted_rwr (dmaReg k) (fun x => ¬ DmaWord x k) (dmaMap_obs hk) hacc h1 h2
  rw [dmaMap_read hk ha0] at k1 k2
  rw [dmaMap_read hk ha1] at k6 k7
  rw [(dmaMap_write hk ha).2] at k4
  rw [(dmaMap_write hk ha).1] at k5
  have e0 : d0 = dmaReg k g0 := k2 _ rfl
  have e1 : d1 = dmaReg k g1 := k7 _ rfl
  refine ⟨k1, k4, k6, by rw [e1, k5]; exact strobed_lt _ _ _, fun i hi => ?_⟩
  rw [e1, k5, byte_strobed _ _ _ _ hi, e0, k3]

/-- C39: a write to a status word (register 3 to 11) with a strobe is answered with SLVERR and changes no
register. -/
theorem C39_read_only (is : List DmaIn) (hm : DmaMaster .init is) {k k' : Nat} (hk : k < 3) (hk' : 3 ≤ k' ∧ k' < 12)
    {pre mid1 mid2 post : List BusEv} {a0 d0 c0 a d s c a1 d1 c1 : Nat}
    (ha0 : DmaWord a0 k) (ha : DmaWord a k') (ha1 : DmaWord a1 k) (hs : s % 16 ≠ 0)
    (h : dmaTransfers .init is =
      pre ++ [.ar a0, .r d0 c0] ++ mid1 ++ [.aw a, .w d s, .b c] ++ mid2 ++ [.ar a1, .r d1 c1] ++ post)
    (h1 : ∀ x, .aw x ∈ mid1 → ¬ DmaWord x k) (h2 : ∀ x, .aw x ∈ mid2 → ¬ DmaWord x k) :
    c = 2 ∧ d1 = d0 := by
  have hacc := dma_accepted is hm
  rw [h] at hacc
  obtain ⟨g0, g, g1, l0, l1, k1, k2, k3, k4, k5, k6, k7⟩ := accepted_rwr (dmaReg k) (fun x => ¬ DmaWord x k) (dmaMap_obs hk) hacc h1 h2
  rw [dmaMap_read hk ha0] at k1 k2
  rw [dmaMap_read hk ha1] at k6 k7
  have hn : ¬ DmaWord a k := fun hh => by have := hh.2; have := ha.2; omega
  rw [dmaMap_obs hk _ _ _ _ hn] at k5
  refine ⟨?_, by rw [k2 _ rfl, k7 _ rfl, k5, k3]⟩
  rw [k4]
  simp only [dmaMap, ha.1, if_true, ha.2]
  have : k' = 3 ∨ k' = 4 ∨ k' = 5 ∨ k' = 6 ∨ k' = 7 ∨ k' = 8 ∨ k' = 9 ∨ k' = 10 ∨ k' = 11 := by omega
  rcases this with rfl | rfl | rfl | rfl | rfl | rfl | rfl | rfl | rfl <;> simp [hs]

/-- C39: accesses outside the window are answered with DECERR and change nothing. -/
theorem C39_unmapped (is : List DmaIn) (hm : DmaMaster .init is) {k : Nat} (hk : k < 3)
    {pre mid1 mid2 post : List BusEv} {a0 d0 c0 a d s c a1 d1 c1 : Nat}
    (ha0 : DmaWord a0 k) (ha : inDma a = false) (ha1 : DmaWord a1 k)
    (h : dmaTransfers .init is =
      pre ++ [.ar a0, .r d0 c0] ++ mid1 ++ [.aw a, .w d s, .b c] ++ mid2 ++ [.ar a1, .r d1 c1] ++ post)
    (h1 : ∀ x, .aw x ∈ mid1 → ¬ DmaWord x k) (h2 : ∀ x, .aw x ∈ mid2 → ¬ DmaWord x k) :
    c = 3 ∧ d1 = d0 := by
  have hacc := dma_accepted is hm
  rw [h] at hacc
  obtain ⟨g0, g, g1, l0, l1, k1, k2, k3, k4, k5, k6, k7⟩ := accepted_rwr (dmaReg k) (fun x => ¬ DmaWord x k) (dmaMap_obs hk) hacc h1 h2
  rw [dmaMap_read hk ha0] at k1 k2
  rw [dmaMap_read hk ha1] at k6 k7
  have hn : ¬ DmaWord a k := fun hh => by have := hh.1; rw [ha] at this; cases this
  rw [dmaMap_obs hk _ _ _ _ hn] at k5
  refine ⟨?_, by rw [k2 _ rfl, k7 _ rfl, k5, k3]⟩
  rw [k4]
  simp [dmaMap, ha]

/-- C39: a read of a status word returns the live input of the cycle before the transfer. -/
theorem C39_status_read (is : List DmaIn) (j : DmaIn) (k a d c : Nat) (hm : DmaMaster .init (is ++ [j])) (hk : 3 ≤ k ∧ k < 12)
    (ha : DmaWord a k) {pre : List BusEv} {i : DmaIn} {is' : List DmaIn} (hi : is = is' ++ [i])
    (h : dmaTransfers .init is = pre ++ [.ar a]) (hr : liteEvents (dmaRun .init is).out j.bus = [.r d c]) :
    d = i.ins (k - 3) ∧ c = 0 := by
  obtain ⟨g, p, e1, _⟩ := C39_bus_refines_register_map (is ++ [j]) (fun _ => 0) (by simp) hm
  -- split the run before the last cycle
  have split : ∀ (xs : List DmaIn) (s : DmaLite), dmaTrace s (xs ++ [j]) = dmaTrace s xs ++ [(j.ins, liteEvents (dmaRun s xs).out j.bus)] := by
    intro xs
    induction xs with
    | nil => intro s; rfl
    | cons x xs ih => intro s; simp only [List.cons_append, dmaTrace, dmaRun, ih]
  have lastLive : ∀ (xs : List DmaIn) (s : DmaLite) (live : Nat → Nat) (st : DmaRegs × BusPhase) (es : List BusEv) (l : Nat → Nat) (fin : DmaRegs × BusPhase),
      busRun dmaMap live st (dmaTrace s (xs ++ [i]) ++ [(l, es)]) = some fin →
      ∃ st1, st1 = regsAfter dmaMap st (dmaTransfers s (xs ++ [i])) ∧ busEvs dmaMap i.ins st1 es = some fin := by
    intro xs
    induction xs with
    | nil =>
      intro s live st es l fin hh
      simp only [List.nil_append, dmaTrace, List.cons_append, busRun, Option.bind_eq_some_iff] at hh
      obtain ⟨s1, h1, s2, h2, h3⟩ := hh
      have := (busEvs_accepted h1).2
      refine ⟨s1, by simp [dmaTransfers, dmaTrace, this], ?_⟩
      rw [h2]; exact h3
    | cons x xs ih =>
      intro s live st es l fin hh
      simp only [List.cons_append, dmaTrace, busRun, Option.bind_eq_some_iff] at hh
      obtain ⟨s1, h1, h2⟩ := hh
      obtain ⟨st1, e1, e2⟩ := ih _ _ _ _ _ _ h2
      refine ⟨st1, ?_, e2⟩
      rw [e1, (busEvs_accepted h1).2, ← regsAfter_append]
      simp [dmaTransfers, dmaTrace]
  subst hi
  rw [split, hr] at e1
  obtain ⟨st1, e2, e3⟩ := lastLive is' .init _ _ _ _ _ e1
  rw [h, regsAfter_append] at e2
  have hacc := dma_accepted (is' ++ [i]) (by
    have : ∀ (xs : List DmaIn) (s : DmaLite), DmaMaster s (xs ++ [j]) → DmaMaster s xs := by
      intro xs
      induction xs with
      | nil => intros; trivial
      | cons x xs ih =>
        intro s hh
        cases xs with
        | nil => trivial
        | cons y ys => exact ⟨hh.1, ih _ hh.2⟩
    exact this _ _ hm)
  rw [h, accepted_append] at hacc
  obtain ⟨_, ⟨l1, s1, e4⟩, _⟩ := hacc
  generalize regsAfter dmaMap (⟨0, 0, 0⟩, .idle) pre = st0 at *
  obtain ⟨g0, p0⟩ := st0
  cases p0 <;> simp [busEv] at e4
  simp only [regsAfter] at e2
  subst e2
  have e5 := (busEvs_accepted e3)
  simp only [busEvs, List.foldlM_cons, List.foldlM_nil, busEv, Option.bind_eq_bind, Option.bind_eq_some_iff] at e3
  obtain ⟨s2, e6, _⟩ := e3
  split at e6
  · rename_i hc
    obtain ⟨hc1, hc2⟩ := hc
    have hread : dmaMap.read g0 i.ins a = (some (i.ins (k - 3)), 0) := by
      simp only [dmaMap, ha.1, if_true, ha.2]
      have : k = 3 ∨ k = 4 ∨ k = 5 ∨ k = 6 ∨ k = 7 ∨ k = 8 ∨ k = 9 ∨ k = 10 ∨ k = 11 := by omega
      rcases this with rfl | rfl | rfl | rfl | rfl | rfl | rfl | rfl | rfl <;> rfl
    rw [hread] at hc1 hc2
    exact ⟨hc2 _ rfl, hc1⟩
  · cases e6

/-- Witness: write the start register (byte address 4104) and read it back, then read status word 4. -/
def dmaDemo : List DmaIn :=
  let quiet : LiteIn := ⟨false, 0, true, false, 0, false, 0, 0, true⟩
  (List.replicate 3 { quiet with awvalid := true, awaddr := 4104, wvalid := true, wdata := 0xFFFFFFFF, wstrb := 15 } ++
   [{ quiet with wvalid := true, wdata := 0xFFFFFFFF, wstrb := 15 }, quiet] ++
   List.replicate 3 { quiet with arvalid := true, araddr := 4104 } ++ [quiet] ++
   List.replicate 3 { quiet with arvalid := true, araddr := 4112 } ++ [quiet]).map (⟨·, fun n => 100 + n⟩)

example : dmaTransfers .init dmaDemo =
    [.aw 4104, .w 0xFFFFFFFF 15, .b 0, .ar 4104, .r 0xFFFFFFFF 0, .ar 4112, .r 101 0] ∧ (dmaRun .init dmaDemo).start = 0xFFFFFFFF := by
  decide +kernel

end Props
