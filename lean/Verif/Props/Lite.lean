/- Property theorems C37, C38: register and table access over AXI-lite. -/
import Verif.Proof.Lite

set_option autoImplicit false

namespace Props
open Model Spec Proof

/-- Transfers in one cycle: on every channel, valid and ready together. -/
def liteEvents (o : LiteOut) (i : LiteIn) : List BusEv :=
  (if i.arvalid && o.arready then [.ar i.araddr] else []) ++ (if o.rvalid && i.rready then [.r o.rdata o.rresp] else []) ++
  (if i.awvalid && o.awready then [.aw i.awaddr] else []) ++ (if i.wvalid && o.wready then [.w i.wdata i.wstrb] else []) ++
  (if o.bvalid && i.bready then [.b o.bresp] else [])

/-- What the master must respect between one cycle (outputs `o`, inputs `i`) and the next (inputs
`j`): addresses and data are held until accepted; a ready for a response is not withdrawn before the
response; write data are not offered in the cycle right after a write data transfer. -/
structure MasterNext (o : LiteOut) (i j : LiteIn) : Prop where
  ar : i.arvalid = true → o.arready = false → j.arvalid = true ∧ j.araddr = i.araddr
  aw : i.awvalid = true → o.awready = false → j.awvalid = true ∧ j.awaddr = i.awaddr
  w : i.wvalid = true → o.wready = false → j.wvalid = true ∧ j.wdata = i.wdata ∧ j.wstrb = i.wstrb
  w1 : i.wvalid = true → o.wready = true → j.wvalid = false
  r : i.rready = true → o.rvalid = false → j.rready = true
  b : i.bready = true → o.bvalid = false → j.bready = true

/-- Master signals and debug registers in one cycle. -/
structure CoreLiteIn where
  bus : LiteIn
  dbg : Nat → Nat

def _root_.Model.CoreLite.cyc (bd : Nat) (debug : Bool) (s : CoreLite) (i : CoreLiteIn) : CoreLite :=
  s.step bd debug false i.bus i.dbg

def coreLiteRun (bd : Nat) (debug : Bool) : CoreLite → List CoreLiteIn → CoreLite
  | s, [] => s
  | s, i :: r => coreLiteRun bd debug (s.cyc bd debug i) r

/-- The history a bus analyser records. -/
def coreLiteTrace (bd : Nat) (debug : Bool) : CoreLite → List CoreLiteIn → List ((Nat → Nat) × List BusEv)
  | _, [] => []
  | s, i :: r => (i.dbg, liteEvents s.out i.bus) :: coreLiteTrace bd debug (s.cyc bd debug i) r

/-- The master behaves in every pair of consecutive cycles. -/
def CoreLiteMaster (bd : Nat) (debug : Bool) : CoreLite → List CoreLiteIn → Prop
  | s, i :: j :: r => MasterNext s.out i.bus j.bus ∧ CoreLiteMaster bd debug (s.cyc bd debug i) (j :: r)
  | _, _ => True

/-- The memory after a write in progress. -/
def memNext (s : CoreLite) : Nat → Nat := if s.wpEn then fun k => if k = s.wpAddr then s.wpData else s.mem k else s.mem

/-- The registers hold the specified values. -/
structure Synced (s : CoreLite) (g : CoreRegs) : Prop where
  hw : s.hw = g.hw
  allowed : s.allowed = g.allowed
  table : memNext s = g.table

structure RegsOk (bd : Nat) (g : CoreRegs) : Prop where
  hw : g.hw < 2 ^ 32
  allowed : g.allowed < 2 ^ 24
  table : ∀ k, g.table k < 2 ^ (bd + 21)

/-- Invariant on the state, the current master signals `i`, the previous debug registers `live` and
the specification state. -/
def CoreLiteInv (bd : Nat) (debug : Bool) (s : CoreLite) (i : LiteIn) (live : Nat → Nat) (g : CoreRegs) (p : BusPhase) :
    Prop :=
  RegsOk bd g ∧ s.arready = decide (s.fsm = .rdDelay1) ∧ s.awready = decide (s.fsm = .wrDelay1) ∧
  (s.fsm ≠ .wrResp → s.wpEn = false) ∧ (s.fsm ≠ .idle → s.rvalid = false ∧ s.bvalid = false) ∧
  (s.fsm ≠ .wrData → s.fsm ≠ .wrResp → s.wready = false) ∧ (s.fsm ≠ .wrResp → Synced s g) ∧
  match s.fsm with
  | .idle =>
    if s.rvalid then s.bvalid = false ∧ i.rready = true ∧ ∃ a, p = .read a ∧ s.rresp = ((coreMap bd debug).read g live a).2 ∧
        ∀ v ∈ ((coreMap bd debug).read g live a).1, s.rdata = v
    else if s.bvalid then i.bready = true ∧ p = .resp s.bresp
    else p = .idle
  | .rdAddr => p = .idle ∧ i.arvalid = true
  | .rdDelay1 => p = .idle ∧ i.arvalid = true ∧ s.addr = i.araddr / 4 ∧ s.rpAddr = i.araddr / 8 % 32
  | .rdDelay2 => ∃ a, p = .read a ∧ s.addr = a / 4 ∧ s.rpAddr = a / 8 % 32 ∧ s.rpLatch = a / 8 % 32
  | .rdData => ∃ a, p = .read a ∧ s.addr = a / 4 ∧ s.rpAddr = a / 8 % 32 ∧ s.rpLatch = a / 8 % 32
  | .wrAddr => p = .idle ∧ i.awvalid = true
  | .wrDelay1 => p = .idle ∧ i.awvalid = true ∧ s.addr = i.awaddr / 4 ∧ s.rpAddr = i.awaddr / 8 % 32
  | .wrDelay2 => ∃ a, p = .write a ∧ s.addr = a / 4 ∧ s.rpAddr = a / 8 % 32 ∧ s.rpLatch = a / 8 % 32
  | .wrData => ∃ a, p = .write a ∧ s.addr = a / 4 ∧ s.rpAddr = a / 8 % 32 ∧ s.rpLatch = a / 8 % 32
  | .wrResp =>
    (s.wready = true ∧ i.wvalid = true ∧ ∃ a, p = .write a ∧ s.bresp = ((coreMap bd debug).write g a i.wdata i.wstrb).2 ∧
      Synced s ((coreMap bd debug).write g a i.wdata i.wstrb).1) ∨
    ((s.wready = true → i.wvalid = false) ∧ p = .resp s.bresp ∧ Synced s g)

theorem regsOk_write {bd : Nat} {debug : Bool} {g : CoreRegs} (h : RegsOk bd g) (a d st : Nat) :
    RegsOk bd ((coreMap bd debug).write g a d st).1 := by
  simp only [coreMap]
  split
  · refine ⟨h.hw, h.allowed, ?_⟩
    intro k
    dsimp only
    split
    · simp only [tableWrite]
      split <;> exact Nat.mod_lt _ (Nat.two_pow_pos _)
    · exact h.table k
  · split
    · split
      · exact ⟨strobed_lt _ _ _, h.allowed, h.table⟩
      · exact ⟨h.hw, Nat.mod_lt _ (by decide), h.table⟩
    · split <;> exact h

/-- The data loaded in READ_DATA. -/
theorem readData_spec {bd : Nat} {debug : Bool} {s : CoreLite} {g : CoreRegs} {a : Nat} (hbd : bd ≤ 16) (hg : RegsOk bd g)
    (h1 : s.addr = a / 4) (h2 : s.rpLatch = a / 8 % 32) (h3 : Synced s g) (h4 : s.wpEn = false) (r : CoreLite)
    (dbg : Nat → Nat) :
    (s.readData bd debug r dbg).rresp = ((coreMap bd debug).read g dbg a).2 ∧
    (∀ v ∈ ((coreMap bd debug).read g dbg a).1, (s.readData bd debug r dbg).rdata = v) := by
  obtain ⟨d1, d2, d3, d4, d5, d6, d7⟩ := lite_decode (bd := bd) h1
  have hm : s.mem = g.table := by have := h3.table; rwa [memNext, h4] at this
  have hlt : g.table (a / 8 % 32) / 2 ^ 32 < 2 ^ 32 := by
    have h := hg.table (a / 8 % 32)
    have : (2 : Nat) ^ (bd + 21) ≤ 2 ^ 37 := Nat.pow_le_pow_right (by decide) (by omega)
    omega
  simp only [CoreLite.readData, coreMap, d1, d2, d3, d4, d6, d7, CoreLite.rpData, hm, h2, h3.hw, h3.allowed]
  by_cases e1 : inTable bd a = true
  · simp [e1, Nat.mod_eq_of_lt hlt]
  · by_cases e2 : inHw a = true
    · simp [e1, e2]
    · by_cases e3 : (debug && inDebug a) = true
      · simp only [e1, e2, e3]; simp
      · simp only [e1, e2, e3]; simp

/-- The updates made in WRITE_DATA. -/
theorem writeData_spec {bd : Nat} {debug : Bool} {s r : CoreLite} {g : CoreRegs} {a : Nat} {i : LiteIn} (hbd : bd ≤ 16) (hg : RegsOk bd g)
    (h1 : s.addr = a / 4) (h2 : s.rpLatch = a / 8 % 32) (h3 : Synced s g) (h4 : s.wpEn = false)
    (hr : r.hw = s.hw ∧ r.allowed = s.allowed ∧ r.mem = s.mem ∧ r.wpEn = false) :
    Synced (s.writeData bd debug r i) ((coreMap bd debug).write g a i.wdata i.wstrb).1 ∧
    (s.writeData bd debug r i).bresp = ((coreMap bd debug).write g a i.wdata i.wstrb).2 := by
  obtain ⟨d1, d2, d3, d4, d5, d6, d7⟩ := lite_decode (bd := bd) h1
  obtain ⟨r1, r2, r3, r4⟩ := hr
  have hm : s.mem = g.table := by have := h3.table; rwa [memNext, h4] at this
  have hlt : ∀ k, g.table k / 2 ^ 32 < 2 ^ 32 := by
    intro k
    have h := hg.table k
    have : (2 : Nat) ^ (bd + 21) ≤ 2 ^ 37 := Nat.pow_le_pow_right (by decide) (by omega)
    omega
  have sy : Synced r g := ⟨by rw [r1, h3.hw], by rw [r2, h3.allowed], by simp [memNext, r4, r3, hm]⟩
  simp only [CoreLite.writeData, coreMap, d1, d2, d3, d5, d6]
  by_cases e1 : inTable bd a = true
  · simp only [e1, if_true]
    refine ⟨⟨sy.hw, sy.allowed, ?_⟩, trivial⟩
    funext k
    simp only [memNext, if_true, r3, hm]
    by_cases hk : k = a / 8 % 32
    · subst hk
      simp only [if_true, CoreLite.rpDataIn, CoreLite.rpData, hm, h2, d4, tableWrite]
      split
      · rw [putBytes4 _ _ (Nat.mod_lt _ (by decide))]
      · rw [putBytes4 _ _ (Nat.mod_lt _ (by decide)), Nat.mod_eq_of_lt (hlt _)]
    · simp only [if_neg hk]
  · by_cases e2 : inHw a = true
    · simp only [e1, e2, if_true, Bool.false_eq_true, if_false]
      split
      · exact ⟨⟨by rw [h3.hw]; exact putBytes4 _ _ hg.hw, sy.allowed, sy.table⟩, rfl⟩
      · exact ⟨⟨sy.hw, by rw [h3.allowed]; exact putBytes3 _ _ hg.allowed, sy.table⟩, rfl⟩
    · by_cases e3 : (debug && inDebug a) = true
      · simp only [e1, e2, e3, if_true, Bool.false_eq_true, if_false]; exact ⟨⟨sy.hw, sy.allowed, sy.table⟩, trivial⟩
      · simp only [e1, e2, e3, Bool.false_eq_true, if_false]; exact ⟨⟨sy.hw, sy.allowed, sy.table⟩, trivial⟩

theorem writeData_frame (bd : Nat) (debug : Bool) (s r : CoreLite) (i : LiteIn) :
    (s.writeData bd debug r i).arready = r.arready ∧ (s.writeData bd debug r i).awready = r.awready ∧
    (s.writeData bd debug r i).rvalid = r.rvalid ∧ (s.writeData bd debug r i).bvalid = r.bvalid ∧
    (s.writeData bd debug r i).wready = r.wready := by
  simp only [CoreLite.writeData]
  repeat' split
  all_goals exact ⟨rfl, rfl, rfl, rfl, rfl⟩

theorem readData_frame (bd : Nat) (debug : Bool) (s r : CoreLite) (d : Nat → Nat) :
    ∃ x y, s.readData bd debug r d = { r with rdata := x, rresp := y } := by
  simp only [CoreLite.readData]
  repeat' split
  all_goals exact ⟨_, _, rfl⟩

theorem synced_of_eq {s t : CoreLite} {g : CoreRegs} (h : Synced s g) (h1 : t.hw = s.hw) (h2 : t.allowed = s.allowed)
    (h3 : memNext t = memNext s) : Synced t g := ⟨by rw [h1, h.hw], by rw [h2, h.allowed], by rw [h3, h.table]⟩

theorem coreLite_step {bd : Nat} {debug : Bool} (hbd : bd ≤ 16) {s : CoreLite} {i : CoreLiteIn} {live : Nat → Nat}
    {g : CoreRegs} {p : BusPhase} (h : CoreLiteInv bd debug s i.bus live g p) :
    ∃ g' p', busEvs (coreMap bd debug) live (g, p) (liteEvents s.out i.bus) = some (g', p') ∧
      ∀ j, MasterNext s.out i.bus j → CoreLiteInv bd debug (s.cyc bd debug i) j i.dbg g' p' := by
  obtain ⟨fsm, addr, arready, rvalid, awready, wready, bvalid, rdata, rresp, bresp, hw, allowed, rpAddr, wpAddr, wpData,
    wpEn, rpLatch, mem⟩ := s
  obtain ⟨⟨arv, ara, rr, awv, awa, wv, wd, ws, br⟩, dbg⟩ := i
  obtain ⟨h1, h2, h3, h4, h5, h6, h7, h8⟩ := h
  dsimp only at h2 h3 h4 h5 h6 h8
  replace h2 : arready = decide (fsm = .rdDelay1) := h2
  replace h3 : awready = decide (fsm = .wrDelay1) := h3
  subst h2; subst h3
  cases fsm with
  | idle =>
    obtain rfl := h4 (by decide)
    obtain rfl := h6 (by decide) (by decide)
    have sy := h7 (by simp)
    dsimp only at h8
    have main : ∀ q j, q = BusPhase.idle → MasterNext
        ⟨decide (LiteFsm.idle = .rdDelay1), rvalid, rdata, rresp, decide (LiteFsm.idle = .wrDelay1), false, bvalid, bresp⟩
        ⟨arv, ara, rr, awv, awa, wv, wd, ws, br⟩ j → CoreLiteInv bd debug (CoreLite.cyc bd debug
          ⟨.idle, addr, decide (LiteFsm.idle = .rdDelay1), rvalid, decide (LiteFsm.idle = .wrDelay1), false, bvalid, rdata, rresp, bresp, hw, allowed, rpAddr,
            wpAddr, wpData, false, rpLatch, mem⟩ ⟨⟨arv, ara, rr, awv, awa, wv, wd, ws, br⟩, dbg⟩) j dbg g q := by
      rintro q j rfl hm
      have sy' : ∀ f, Synced ⟨f, addr, false, false, false, false, false, rdata, rresp, bresp, hw, allowed, rpAddr,
            wpAddr, wpData, false, rpAddr, mem⟩ g := fun f => synced_of_eq sy rfl rfl rfl
      by_cases ha : arv = true
      · subst ha
        have := hm.ar rfl rfl
        simp [CoreLite.cyc, CoreLite.step, CoreLite.stepFsm, CoreLite.stepMem, CoreLiteInv, h1, this, sy']
      · obtain rfl : arv = false := by simpa using ha
        by_cases hb : awv = true
        · subst hb
          have := hm.aw rfl rfl
          simp [CoreLite.cyc, CoreLite.step, CoreLite.stepFsm, CoreLite.stepMem, CoreLiteInv, h1, this, sy']
        · obtain rfl : awv = false := by simpa using hb
          simp [CoreLite.cyc, CoreLite.step, CoreLite.stepFsm, CoreLite.stepMem, CoreLiteInv, h1, sy']
    by_cases hr : rvalid = true
    · subst hr
      rw [if_pos rfl] at h8
      obtain ⟨rfl, rfl, a, rfl, e1, e2⟩ := h8
      refine ⟨g, .idle, ?_, fun j hj => main _ j rfl hj⟩
      simp [liteEvents, CoreLite.out, busEvs, busEv, e1]
      simpa using e2
    · obtain rfl : rvalid = false := by simpa using hr
      rw [if_neg (by decide)] at h8
      by_cases hb : bvalid = true
      · subst hb
        rw [if_pos rfl] at h8
        obtain ⟨rfl, rfl⟩ := h8
        refine ⟨g, .idle, ?_, fun j hj => main _ j rfl hj⟩
        simp [liteEvents, CoreLite.out, busEvs, busEv]
      · obtain rfl : bvalid = false := by simpa using hb
        rw [if_neg (by decide)] at h8
        subst h8
        exact ⟨g, .idle, by simp [liteEvents, CoreLite.out, busEvs], fun j hj => main _ j rfl hj⟩
  | rdAddr =>
    obtain rfl := h4 (by decide)
    obtain rfl := h6 (by decide) (by decide)
    obtain ⟨rfl, rfl⟩ := h5 (by decide)
    have sy := h7 (by simp)
    obtain ⟨rfl, e⟩ := h8
    obtain rfl : arv = true := e
    refine ⟨g, .idle, by simp [liteEvents, CoreLite.out, busEvs], fun j hm => ?_⟩
    have := hm.ar rfl rfl
    refine ⟨h1, rfl, rfl, fun _ => rfl, fun _ => ⟨rfl, rfl⟩, fun _ _ => rfl, fun _ => synced_of_eq sy rfl rfl rfl, ?_⟩
    exact ⟨rfl, this.1, by rw [this.2]; rfl, by rw [this.2]; rfl⟩
  | rdDelay1 =>
    obtain rfl := h4 (by decide)
    obtain rfl := h6 (by decide) (by decide)
    obtain ⟨rfl, rfl⟩ := h5 (by decide)
    have sy := h7 (by simp)
    obtain ⟨rfl, e, e1, e2⟩ := h8
    obtain rfl : arv = true := e
    refine ⟨g, .read ara, by simp [liteEvents, CoreLite.out, busEvs, busEv], fun j hm => ?_⟩
    refine ⟨h1, rfl, rfl, fun _ => rfl, fun _ => ⟨rfl, rfl⟩, fun _ _ => rfl, fun _ => synced_of_eq sy rfl rfl rfl, ?_⟩
    exact ⟨ara, rfl, e1, e2, e2⟩
  | rdDelay2 =>
    obtain rfl := h4 (by decide)
    obtain rfl := h6 (by decide) (by decide)
    obtain ⟨rfl, rfl⟩ := h5 (by decide)
    have sy := h7 (by simp)
    obtain ⟨a, rfl, e1, e2, e3⟩ := h8
    refine ⟨g, .read a, by simp [liteEvents, CoreLite.out, busEvs], fun j hm => ?_⟩
    refine ⟨h1, rfl, rfl, fun _ => rfl, fun _ => ⟨rfl, rfl⟩, fun _ _ => rfl, fun _ => synced_of_eq sy rfl rfl rfl, ?_⟩
    exact ⟨a, rfl, e1, e2, e2⟩
  | rdData =>
    obtain rfl := h4 (by decide)
    obtain rfl := h6 (by decide) (by decide)
    obtain ⟨rfl, rfl⟩ := h5 (by decide)
    have sy := h7 (by simp)
    obtain ⟨a, rfl, e1, e2, e3⟩ := h8
    refine ⟨g, .read a, by simp [liteEvents, CoreLite.out, busEvs], fun j hm => ?_⟩
    have hd := readData_spec (debug := debug) hbd h1 e1 e3 sy rfl (CoreLite.stepMem
      ⟨.rdData, addr, decide (LiteFsm.rdData = .rdDelay1), false, decide (LiteFsm.rdData = .wrDelay1), false, false, rdata, rresp, bresp, hw, allowed, rpAddr,
        wpAddr, wpData, false, rpLatch, mem⟩) dbg
    obtain ⟨x, y, hxy⟩ := readData_frame bd debug
      ⟨.rdData, addr, decide (LiteFsm.rdData = .rdDelay1), false, decide (LiteFsm.rdData = .wrDelay1), false, false, rdata, rresp, bresp, hw, allowed, rpAddr,
        wpAddr, wpData, false, rpLatch, mem⟩ (CoreLite.stepMem
      ⟨.rdData, addr, decide (LiteFsm.rdData = .rdDelay1), false, decide (LiteFsm.rdData = .wrDelay1), false, false, rdata, rresp, bresp, hw, allowed, rpAddr,
        wpAddr, wpData, false, rpLatch, mem⟩) dbg
    rw [hxy] at hd
    by_cases hr : rr = true
    · subst hr
      have := hm.r rfl rfl
      simp only [CoreLite.cyc, CoreLite.step, CoreLite.stepFsm, hxy, if_true]
      refine ⟨h1, rfl, rfl, fun _ => rfl, fun h => absurd rfl h, fun _ _ => rfl, fun _ => synced_of_eq sy rfl rfl rfl, ?_⟩
      exact ⟨rfl, this, a, rfl, hd⟩
    · obtain rfl : rr = false := by simpa using hr
      simp only [CoreLite.cyc, CoreLite.step, CoreLite.stepFsm, hxy, Bool.false_eq_true, if_false]
      refine ⟨h1, rfl, rfl, fun _ => rfl, fun _ => ⟨rfl, rfl⟩, fun _ _ => rfl, fun _ => synced_of_eq sy rfl rfl rfl, ?_⟩
      exact ⟨a, rfl, e1, e2, e2⟩
  | wrAddr =>
    obtain rfl := h4 (by decide)
    obtain rfl := h6 (by decide) (by decide)
    obtain ⟨rfl, rfl⟩ := h5 (by decide)
    have sy := h7 (by simp)
    obtain ⟨rfl, e⟩ := h8
    obtain rfl : awv = true := e
    refine ⟨g, .idle, by simp [liteEvents, CoreLite.out, busEvs], fun j hm => ?_⟩
    have := hm.aw rfl rfl
    refine ⟨h1, rfl, rfl, fun _ => rfl, fun _ => ⟨rfl, rfl⟩, fun _ _ => rfl, fun _ => synced_of_eq sy rfl rfl rfl, ?_⟩
    exact ⟨rfl, this.1, by rw [this.2]; rfl, by rw [this.2]; rfl⟩
  | wrDelay1 =>
    obtain rfl := h4 (by decide)
    obtain rfl := h6 (by decide) (by decide)
    obtain ⟨rfl, rfl⟩ := h5 (by decide)
    have sy := h7 (by simp)
    obtain ⟨rfl, e, e1, e2⟩ := h8
    obtain rfl : awv = true := e
    refine ⟨g, .write awa, by simp [liteEvents, CoreLite.out, busEvs, busEv], fun j hm => ?_⟩
    refine ⟨h1, rfl, rfl, fun _ => rfl, fun _ => ⟨rfl, rfl⟩, fun _ _ => rfl, fun _ => synced_of_eq sy rfl rfl rfl, ?_⟩
    exact ⟨awa, rfl, e1, e2, e2⟩
  | wrDelay2 =>
    obtain rfl := h4 (by decide)
    obtain rfl := h6 (by decide) (by decide)
    obtain ⟨rfl, rfl⟩ := h5 (by decide)
    have sy := h7 (by simp)
    obtain ⟨a, rfl, e1, e2, e3⟩ := h8
    refine ⟨g, .write a, by simp [liteEvents, CoreLite.out, busEvs], fun j hm => ?_⟩
    refine ⟨h1, rfl, rfl, fun _ => rfl, fun _ => ⟨rfl, rfl⟩, fun _ _ => rfl, fun _ => synced_of_eq sy rfl rfl rfl, ?_⟩
    exact ⟨a, rfl, e1, e2, e2⟩
  | wrData =>
    obtain rfl := h4 (by decide)
    obtain ⟨rfl, rfl⟩ := h5 (by decide)
    have sy := h7 (by simp)
    obtain ⟨a, rfl, e1, e2, e3⟩ := h8
    by_cases hw' : wv = true
    · subst hw'
      generalize hs : (⟨.wrData, addr, decide (LiteFsm.wrData = .rdDelay1), false, decide (LiteFsm.wrData = .wrDelay1), wready, false, rdata, rresp, bresp, hw, allowed, rpAddr,
        wpAddr, wpData, false, rpLatch, mem⟩ : CoreLite) = s at *
      have hr : { s.stepMem with wready := true } = ({ s with wready := true, rpLatch := s.rpAddr } : CoreLite) := by
        subst hs; rfl
      have hf := writeData_frame bd debug s { s.stepMem with wready := true } ⟨arv, ara, rr, awv, awa, true, wd, ws, br⟩
      have hd := writeData_spec (debug := debug) (s := s) (r := { s.stepMem with wready := true }) (i := ⟨arv, ara, rr, awv, awa, true, wd, ws, br⟩) (a := a)
        hbd h1 (by subst hs; exact e1) (by subst hs; exact e3) sy (by subst hs; rfl) (by subst hs; exact ⟨rfl, rfl, rfl, rfl⟩)
      have hc : s.cyc bd debug ⟨⟨arv, ara, rr, awv, awa, true, wd, ws, br⟩, dbg⟩ =
          { s.writeData bd debug { s.stepMem with wready := true } ⟨arv, ara, rr, awv, awa, true, wd, ws, br⟩ with fsm := .wrResp } := by
        subst hs; rfl
      dsimp only at hd
      have hwd := regsOk_write (debug := debug) h1 a wd ws
      have hs2 : s.wready = wready ∧ s.arready = false ∧ s.awready = false ∧ s.rvalid = false ∧ s.bvalid = false := by
        subst hs; exact ⟨rfl, rfl, rfl, rfl, rfl⟩
      cases wready with
      | false =>
        refine ⟨g, .write a, ?_, fun j hm => ?_⟩
        · simp [liteEvents, CoreLite.out, busEvs, hs2]
        · obtain ⟨m1, m2, m3⟩ := hm.w rfl hs2.1
          dsimp only at m1 m2 m3
          rw [hc]
          refine ⟨h1, ?_, ?_, fun h => absurd rfl h, fun _ => ?_, fun _ h => absurd rfl h, fun h => absurd rfl h, ?_⟩
          · simp only [hf.1]; simp [CoreLite.stepMem, hs2]
          · simp only [hf.2.1]; simp [CoreLite.stepMem, hs2]
          · simp only [hf.2.2.1, hf.2.2.2.1]; simp [CoreLite.stepMem, hs2]
          · refine Or.inl ⟨by simp only [hf.2.2.2.2], m1, a, rfl, ?_, ?_⟩
            · rw [m2, m3]; exact hd.2
            · rw [m2, m3]; exact synced_of_eq hd.1 rfl rfl rfl
      | true =>
        refine ⟨((coreMap bd debug).write g a wd ws).1, .resp ((coreMap bd debug).write g a wd ws).2, ?_, fun j hm => ?_⟩
        · simp [liteEvents, CoreLite.out, busEvs, hs2, busEv]
        · have m1 := hm.w1 rfl hs2.1
          rw [hc]
          refine ⟨hwd, ?_, ?_, fun h => absurd rfl h, fun _ => ?_, fun _ h => absurd rfl h, fun h => absurd rfl h, ?_⟩
          · simp only [hf.1]; simp [CoreLite.stepMem, hs2]
          · simp only [hf.2.1]; simp [CoreLite.stepMem, hs2]
          · simp only [hf.2.2.1, hf.2.2.2.1]; simp [CoreLite.stepMem, hs2]
          · exact Or.inr ⟨fun _ => m1, by rw [← hd.2], synced_of_eq hd.1 rfl rfl rfl⟩
    · obtain rfl : wv = false := by simpa using hw'
      refine ⟨g, .write a, by simp [liteEvents, CoreLite.out, busEvs], fun j hm => ?_⟩
      refine ⟨h1, rfl, rfl, fun _ => rfl, fun _ => ⟨rfl, rfl⟩, fun h => absurd rfl h, fun _ => synced_of_eq sy rfl rfl rfl, ?_⟩
      exact ⟨a, rfl, e1, e2, e2⟩
  | wrResp =>
    obtain ⟨rfl, rfl⟩ := h5 (by decide)
    dsimp only at h8
    have key : ∃ g', busEvs (coreMap bd debug) live (g, p) (liteEvents (CoreLite.out ⟨.wrResp, addr, decide (LiteFsm.wrResp = .rdDelay1), false, decide (LiteFsm.wrResp = .wrDelay1), wready, false, rdata, rresp, bresp, hw, allowed, rpAddr,
        wpAddr, wpData, wpEn, rpLatch, mem⟩) ⟨arv, ara, rr, awv, awa, wv, wd, ws, br⟩) = some (g', .resp bresp) ∧ RegsOk bd g' ∧
        Synced ⟨.wrResp, addr, decide (LiteFsm.wrResp = .rdDelay1), false, decide (LiteFsm.wrResp = .wrDelay1), wready, false, rdata, rresp, bresp, hw, allowed, rpAddr,
        wpAddr, wpData, wpEn, rpLatch, mem⟩ g' := by
      rcases h8 with ⟨rfl, rfl, a, rfl, e1, e2⟩ | ⟨e1, rfl, e2⟩
      · refine ⟨_, ?_, regsOk_write (debug := debug) h1 a wd ws, e2⟩
        simp [liteEvents, CoreLite.out, busEvs, busEv, e1]
      · refine ⟨g, ?_, h1, e2⟩
        cases wready
        · simp [liteEvents, CoreLite.out, busEvs]
        · obtain rfl := e1 rfl
          simp [liteEvents, CoreLite.out, busEvs]
    obtain ⟨g', k1, k2, k3⟩ := key
    refine ⟨g', .resp bresp, k1, fun j hm => ?_⟩
    have sy : ∀ f bv, Synced ⟨f, addr, false, false, false, false, bv, rdata, rresp, bresp, hw, allowed, rpAddr,
        wpAddr, wpData, false, rpAddr, if wpEn then fun k => if k = wpAddr then wpData else mem k else mem⟩ g' :=
      fun f bv => synced_of_eq k3 rfl rfl rfl
    by_cases hb : br = true
    · subst hb
      have := hm.b rfl rfl
      simp [CoreLite.cyc, CoreLite.step, CoreLite.stepFsm, CoreLite.stepMem, CoreLiteInv, k2, this, sy]
    · obtain rfl : br = false := by simpa using hb
      simp [CoreLite.cyc, CoreLite.step, CoreLite.stepFsm, CoreLite.stepMem, CoreLiteInv, k2, sy]

theorem coreLite_run {bd : Nat} {debug : Bool} (hbd : bd ≤ 16) : ∀ (is : List CoreLiteIn) (s : CoreLite) (live : Nat → Nat)
    (g : CoreRegs) (p : BusPhase), (∀ i r, is = i :: r → CoreLiteInv bd debug s i.bus live g p) →
    CoreLiteMaster bd debug s is → is ≠ [] →
    ∃ g' p', busRun (coreMap bd debug) live (g, p) (coreLiteTrace bd debug s is) = some (g', p') ∧
      ((p' = .idle ∨ ∃ a, p' = .read a) → (coreLiteRun bd debug s is).hw = g'.hw ∧
        (coreLiteRun bd debug s is).allowed = g'.allowed ∧ (coreLiteRun bd debug s is).mem = g'.table) := by
  intro is
  induction is with
  | nil => intro s live g p _ _ h; exact absurd rfl h
  | cons i r ih =>
    intro s live g p hi hm _
    obtain ⟨g1, p1, e1, e2⟩ := coreLite_step hbd (hi i r rfl)
    cases r with
    | nil =>
      refine ⟨g1, p1, by simp [coreLiteTrace, busRun, e1], fun hp => ?_⟩
      -- a continuation of the master exists: hold everything
      let o := s.out
      let j : LiteIn := { i.bus with wvalid := i.bus.wvalid && !s.wready }
      have hj : MasterNext s.out i.bus j := by
        refine ⟨fun h _ => ⟨h, rfl⟩, fun h _ => ⟨h, rfl⟩, fun h h' => ⟨?_, rfl, rfl⟩, fun h h' => ?_, fun h _ => h, fun h _ => h⟩
        · have : s.wready = false := h'
          simp [j, h, this]
        · have : s.wready = true := h'
          simp [j, this]
      obtain ⟨_, _, _, k4, _, _, k7, k8⟩ := e2 j hj
      simp only [coreLiteRun]
      have hf : (s.cyc bd debug i).fsm ≠ .wrResp := by
        intro hf
        rw [hf] at k8
        rcases k8 with ⟨_, _, a, q, _⟩ | ⟨_, q, _⟩ <;> subst q <;> simp at hp
      have sy := k7 hf
      exact ⟨sy.hw, sy.allowed, by have := sy.table; rwa [memNext, k4 hf] at this⟩
    | cons j r =>
      obtain ⟨g2, p2, e3, e4⟩ := ih _ i.dbg g1 p1 (by rintro _ _ ⟨⟩; exact e2 _ hm.1) hm.2 (by simp)
      refine ⟨g2, p2, ?_, e4⟩
      rw [coreLiteTrace, busRun, e1]
      exact e3

/-- The registers after reset: everything zero, the table as initialised. -/
def resetRegs (table : Nat → Nat) : CoreRegs := ⟨0, 0, table⟩

/-- C37: for every well-behaved master and every history, the transfers on the bus are those of the
register map of `Spec.coreMap` — every read returns the value of the last writes, byte strobes are
respected, every transaction gets exactly one response with the specified code — and whenever no
write is in progress the height, width, cycle budget and table used by the core are those of the
register map. -/
theorem C37_bus_refines_register_map {bd : Nat} (hbd : bd ≤ 16) (debug : Bool) (table : Nat → Nat)
    (ht : ∀ k, table k < 2 ^ (bd + 21)) (is : List CoreLiteIn) (live : Nat → Nat) (hne : is ≠ [])
    (hm : CoreLiteMaster bd debug (.init table) is) :
    ∃ g p, busRun (coreMap bd debug) live (resetRegs table, .idle) (coreLiteTrace bd debug (.init table) is) = some (g, p) ∧
      ((p = .idle ∨ ∃ a, p = .read a) →
        (coreLiteRun bd debug (.init table) is).height = g.hw % 2 ^ 16 ∧
        (coreLiteRun bd debug (.init table) is).width = g.hw / 2 ^ 16 % 2 ^ 16 ∧
        (coreLiteRun bd debug (.init table) is).allowed = g.allowed ∧
        (coreLiteRun bd debug (.init table) is).mem = g.table) := by
  obtain ⟨g, p, e1, e2⟩ := coreLite_run hbd is (.init table) live (resetRegs table) .idle (fun i r _ =>
    ⟨⟨Nat.two_pow_pos _, Nat.two_pow_pos _, ht⟩, rfl, rfl, fun _ => rfl, fun _ => ⟨rfl, rfl⟩, fun _ _ => rfl, fun _ => ⟨rfl, rfl, rfl⟩, rfl⟩)
    hm hne
  refine ⟨g, p, e1, fun hp => ?_⟩
  obtain ⟨h1, h2, h3⟩ := e2 hp
  exact ⟨by rw [CoreLite.height, h1], by rw [CoreLite.width, h1], h2, h3⟩

/-! ### Consequences for one register -/

/-- All transfers of a run, in order. -/
def coreLiteTransfers (bd : Nat) (debug : Bool) (s : CoreLite) (is : List CoreLiteIn) : List BusEv :=
  (coreLiteTrace bd debug s is).flatMap (·.2)

/-- The specification state after a list of accepted transfers. -/
def regsAfter {R L : Type} (m : RegMap R L) : R × BusPhase → List BusEv → R × BusPhase
  | st, [] => st
  | (g, p), e :: r => regsAfter m (match p, e with
      | .idle, .ar a => (g, .read a)
      | .read _, .r _ _ => (g, .idle)
      | .idle, .aw a => (g, .write a)
      | .write a, .w d s => ((m.write g a d s).1, .resp (m.write g a d s).2)
      | .resp _, .b _ => (g, .idle)
      | p, _ => (g, p)) r

theorem regsAfter_append {R L : Type} (m : RegMap R L) : ∀ (xs ys : List BusEv) (st : R × BusPhase),
    regsAfter m st (xs ++ ys) = regsAfter m (regsAfter m st xs) ys
  | [], _, _ => rfl
  | _ :: xs, ys, (_, _) => regsAfter_append m xs ys _

/-- An accepted list of transfers, with some live inputs for each of them. -/
def Accepted {R L : Type} (m : RegMap R L) : R × BusPhase → List BusEv → Prop
  | _, [] => True
  | st, e :: r => (∃ live st', busEv m live st e = some st') ∧ Accepted m (regsAfter m st [e]) r

theorem busEv_after {R L : Type} {m : RegMap R L} {live : L} {st st' : R × BusPhase} {e : BusEv}
    (h : busEv m live st e = some st') : st' = regsAfter m st [e] := by
  obtain ⟨g, p⟩ := st
  cases p <;> cases e <;> simp_all [busEv, regsAfter]

theorem accepted_append {R L : Type} (m : RegMap R L) : ∀ (xs ys : List BusEv) (st : R × BusPhase),
    Accepted m st (xs ++ ys) ↔ Accepted m st xs ∧ Accepted m (regsAfter m st xs) ys
  | [], ys, st => by simp [Accepted, regsAfter]
  | x :: xs, ys, (g, p) => by
    simp only [List.cons_append, Accepted, accepted_append m xs ys, and_assoc]
    rfl

theorem busEvs_accepted {R L : Type} {m : RegMap R L} {live : L} : ∀ {es : List BusEv} {st st' : R × BusPhase},
    busEvs m live st es = some st' → Accepted m st es ∧ st' = regsAfter m st es
  | [], st, st', h => by
    simp only [busEvs, List.foldlM_nil, Option.pure_def, Option.some.injEq] at h
    exact ⟨trivial, h.symm⟩
  | e :: es, (g, p), st', h => by
    simp only [busEvs, List.foldlM_cons, Option.bind_eq_bind, Option.bind_eq_some_iff] at h
    obtain ⟨s1, h1, h2⟩ := h
    obtain ⟨a1, a2⟩ := busEvs_accepted (m := m) (live := live) (es := es) h2
    have := busEv_after h1
    subst this
    exact ⟨⟨⟨live, _, h1⟩, a1⟩, a2⟩

theorem busRun_accepted {R L : Type} {m : RegMap R L} : ∀ {tr : List (L × List BusEv)} {live : L} {st st' : R × BusPhase},
    busRun m live st tr = some st' → Accepted m st (tr.flatMap (·.2)) ∧ st' = regsAfter m st (tr.flatMap (·.2))
  | [], _, st, st', h => by
    simp only [busRun, Option.some.injEq] at h
    exact ⟨trivial, h.symm⟩
  | (l, es) :: tr, live, st, st', h => by
    simp only [busRun, Option.bind_eq_some_iff] at h
    obtain ⟨s1, h1, h2⟩ := h
    obtain ⟨a1, a2⟩ := busEvs_accepted h1
    obtain ⟨b1, b2⟩ := busRun_accepted (m := m) h2
    subst a2
    simp only [List.flatMap_cons]
    rw [accepted_append, regsAfter_append]
    exact ⟨⟨a1, b1⟩, b2⟩

/-- A read accepted between two points of a history returns what the register map holds. -/
theorem accepted_read {R L : Type} {m : RegMap R L} {st : R × BusPhase} {xs ys : List BusEv} {a d c : Nat}
    (h : Accepted m st (xs ++ [.ar a, .r d c] ++ ys)) :
    ∃ g live, regsAfter m st xs = (g, .idle) ∧ c = (m.read g live a).2 ∧ ∀ v ∈ (m.read g live a).1, d = v := by
  rw [accepted_append, accepted_append] at h
  obtain ⟨⟨_, h, _⟩, _⟩ := h
  generalize regsAfter m st xs = st1 at *
  obtain ⟨g, p⟩ := st1
  obtain ⟨⟨l1, s1, e1⟩, ⟨l2, s2, e2⟩, -⟩ : _ ∧ _ ∧ True := ⟨h, by assumption⟩
  cases p <;> simp [busEv] at e1
  simp only [regsAfter, busEv] at e2
  split at e2
  · rename_i hh; exact ⟨g, l2, rfl, hh⟩
  · cases e2

theorem accepted_write {R L : Type} {m : RegMap R L} {st : R × BusPhase} {xs ys : List BusEv} {a d s c : Nat}
    (h : Accepted m st (xs ++ [.aw a, .w d s, .b c] ++ ys)) :
    ∃ g, regsAfter m st xs = (g, .idle) ∧ c = (m.write g a d s).2 ∧
      regsAfter m st (xs ++ [.aw a, .w d s, .b c]) = ((m.write g a d s).1, .idle) := by
  rw [accepted_append, accepted_append] at h
  obtain ⟨⟨_, h, _, h3, _⟩, _⟩ := h
  rw [regsAfter_append]
  generalize regsAfter m st xs = st1 at *
  obtain ⟨g, p⟩ := st1
  obtain ⟨l1, s1, e1⟩ := h
  obtain ⟨l3, s3, e3⟩ := h3
  cases p <;> simp [busEv] at e1
  simp only [regsAfter, busEv] at e3
  split at e3
  · rename_i hh; exact ⟨g, rfl, hh, rfl⟩
  · cases e3

/-- An observation that no write to the addresses in the history changes. -/
theorem regsAfter_obs {R L α : Type} {m : RegMap R L} (obs : R → α) (P : Nat → Prop)
    (hP : ∀ g a d s, P a → obs (m.write g a d s).1 = obs g) : ∀ (es : List BusEv) (g : R) (p : BusPhase),
    (∀ a, .aw a ∈ es → P a) → (∀ a, p = .write a → P a) → obs (regsAfter m (g, p) es).1 = obs g := by
  intro es
  induction es with
  | nil => intros; rfl
  | cons e es ih =>
    intro g p h1 h2
    have h1' : ∀ a, BusEv.aw a ∈ es → P a := fun a h => h1 a (List.mem_cons_of_mem _ h)
    cases p <;> cases e <;> simp only [regsAfter] <;>
      first
      | exact ih _ _ h1' h2
      | (refine ih _ _ h1' ?_; intro b hb; cases hb; done)
      | (refine ih _ _ h1' ?_; intro b hb; injection hb with hb; subst hb; exact h1 _ (List.mem_cons_self ..))
      | (refine (ih _ _ h1' ?_).trans (hP _ _ _ _ (h2 _ rfl)); intro b hb; cases hb)

/-- Two reads of `a` around one write, no other write disturbing the observation. -/
theorem accepted_rwr {R L α : Type} {m : RegMap R L} (obs : R → α) (P : Nat → Prop)
    (hP : ∀ g a d s, P a → obs (m.write g a d s).1 = obs g) {st : R × BusPhase} {pre mid1 mid2 post : List BusEv}
    {a0 d0 c0 a d s c a1 d1 c1 : Nat}
    (h : Accepted m st (pre ++ [.ar a0, .r d0 c0] ++ mid1 ++ [.aw a, .w d s, .b c] ++ mid2 ++ [.ar a1, .r d1 c1] ++ post))
    (h1 : ∀ x, .aw x ∈ mid1 → P x) (h2 : ∀ x, .aw x ∈ mid2 → P x) :
    ∃ g0 g g1 l0 l1, c0 = (m.read g0 l0 a0).2 ∧ (∀ v ∈ (m.read g0 l0 a0).1, d0 = v) ∧ obs g = obs g0 ∧
      c = (m.write g a d s).2 ∧ obs g1 = obs (m.write g a d s).1 ∧
      c1 = (m.read g1 l1 a1).2 ∧ (∀ v ∈ (m.read g1 l1 a1).1, d1 = v) := by
  have hr1 := h
  rw [show pre ++ [.ar a0, .r d0 c0] ++ mid1 ++ [.aw a, .w d s, .b c] ++ mid2 ++ [.ar a1, .r d1 c1] ++ post =
    pre ++ [.ar a0, .r d0 c0] ++ (mid1 ++ [.aw a, .w d s, .b c] ++ mid2 ++ [.ar a1, .r d1 c1] ++ post) by simp] at hr1
  obtain ⟨g0, l0, e0, r0, v0⟩ := accepted_read hr1
  have hw := h
  rw [show pre ++ [.ar a0, .r d0 c0] ++ mid1 ++ [.aw a, .w d s, .b c] ++ mid2 ++ [.ar a1, .r d1 c1] ++ post =
    (pre ++ [.ar a0, .r d0 c0] ++ mid1) ++ [.aw a, .w d s, .b c] ++ (mid2 ++ [.ar a1, .r d1 c1] ++ post) by simp] at hw
  obtain ⟨g, e1, r1, e2⟩ := accepted_write hw
  obtain ⟨g1, l1, e3, r2, v2⟩ := accepted_read h
  have k0 : regsAfter m st (pre ++ [.ar a0, .r d0 c0]) = (g0, .idle) := by rw [regsAfter_append, e0]; rfl
  have o1 : obs g = obs g0 := by
    have := regsAfter_obs obs P hP mid1 g0 .idle h1 (by simp)
    rw [← k0, ← regsAfter_append, e1] at this
    exact this
  have o2 : obs g1 = obs (m.write g a d s).1 := by
    have := regsAfter_obs obs P hP mid2 (m.write g a d s).1 .idle h2 (by simp)
    rw [← e2, ← regsAfter_append, e3] at this
    exact this
  exact ⟨g0, g, g1, l0, l1, r0, v0, o1, r1, o2, r2, v2⟩

/-- A write and a later read, no other write disturbing the observation. -/
theorem accepted_wr {R L α : Type} {m : RegMap R L} (obs : R → α) (P : Nat → Prop)
    (hP : ∀ g a d s, P a → obs (m.write g a d s).1 = obs g) {st : R × BusPhase} {pre mid post : List BusEv}
    {a d s c a1 d1 c1 : Nat}
    (h : Accepted m st (pre ++ [.aw a, .w d s, .b c] ++ mid ++ [.ar a1, .r d1 c1] ++ post))
    (h1 : ∀ x, .aw x ∈ mid → P x) :
    ∃ g g1 l, c = (m.write g a d s).2 ∧ obs g1 = obs (m.write g a d s).1 ∧
      c1 = (m.read g1 l a1).2 ∧ (∀ v ∈ (m.read g1 l a1).1, d1 = v) := by
  have hw := h
  rw [show pre ++ [.aw a, .w d s, .b c] ++ mid ++ [.ar a1, .r d1 c1] ++ post =
    pre ++ [.aw a, .w d s, .b c] ++ (mid ++ [.ar a1, .r d1 c1] ++ post) by simp] at hw
  obtain ⟨g, _, e1, e2⟩ := accepted_write hw
  obtain ⟨g1, l, e3, e4, e5⟩ := accepted_read h
  refine ⟨g, g1, l, e1, ?_, e4, e5⟩
  have := regsAfter_obs obs P hP mid (m.write g a d s).1 .idle h1 (by simp)
  rw [← e2, ← regsAfter_append, e3] at this
  exact this

/-- Classes of byte addresses. -/
def HwWord (bd a : Nat) : Prop := inTable bd a = false ∧ inHw a = true ∧ a / 4 % 2 = 0
def CyclesWord (bd a : Nat) : Prop := inTable bd a = false ∧ inHw a = true ∧ a / 4 % 2 = 1
def TableWord (bd a entry word : Nat) : Prop := inTable bd a = true ∧ a / 8 % 32 = entry ∧ a / 4 % 2 = word
def Unmapped (bd : Nat) (debug : Bool) (a : Nat) : Prop :=
  inTable bd a = false ∧ inHw a = false ∧ (debug && inDebug a) = false

theorem coreLite_accepted {bd : Nat} (hbd : bd ≤ 16) (debug : Bool) (table : Nat → Nat)
    (ht : ∀ k, table k < 2 ^ (bd + 21)) (is : List CoreLiteIn) (hm : CoreLiteMaster bd debug (.init table) is) :
    Accepted (coreMap bd debug) (resetRegs table, .idle) (coreLiteTransfers bd debug (.init table) is) := by
  cases is with
  | nil => trivial
  | cons i r =>
    obtain ⟨g, p, e, _⟩ := C37_bus_refines_register_map hbd debug table ht (i :: r) (fun _ => 0) (by simp) hm
    exact (busRun_accepted e).1

theorem byte_strobed (old new strb i : Nat) (hi : i < 4) :
    byteAt (strobed old new strb) i = if strb.testBit i then byteAt new i else byteAt old i := by
  have hp : ∀ i, (if strb.testBit i then byteAt new i else byteAt old i) < 256 := by
    intro i; split <;> exact byteAt_lt _ _
  have h0 := hp 0; have h1 := hp 1; have h2 := hp 2; have h3 := hp 3
  have hi : i = 0 ∨ i = 1 ∨ i = 2 ∨ i = 3 := by omega
  rcases hi with rfl | rfl | rfl | rfl <;> simp only [strobed, byteAt] at * <;> omega

/-- C37: a write with byte strobes to the height/width word changes exactly the strobed bytes: of two
reads around it, the second returns the written bytes where the strobe was set and the bytes of the
first elsewhere, all with response OKAY, whatever else is read or written in between (except that
word). -/
theorem C37_height_width_strobes {bd : Nat} (hbd : bd ≤ 16) (debug : Bool) (table : Nat → Nat)
    (ht : ∀ k, table k < 2 ^ (bd + 21)) (is : List CoreLiteIn) (hm : CoreLiteMaster bd debug (.init table) is)
    {pre mid1 mid2 post : List BusEv} {a0 d0 c0 a d s c a1 d1 c1 : Nat}
    (ha0 : HwWord bd a0) (ha : HwWord bd a) (ha1 : HwWord bd a1)
    (h : coreLiteTransfers bd debug (.init table) is =
      pre ++ [.ar a0, .r d0 c0] ++ mid1 ++ [.aw a, .w d s, .b c] ++ mid2 ++ [.ar a1, .r d1 c1] ++ post)
    (h1 : ∀ x, .aw x ∈ mid1 → ¬ HwWord bd x) (h2 : ∀ x, .aw x ∈ mid2 → ¬ HwWord bd x) :
    c0 = 0 ∧ c = 0 ∧ c1 = 0 ∧ d1 < 2 ^ 32 ∧ ∀ i, i < 4 → byteAt d1 i = if s.testBit i then byteAt d i else byteAt d0 i := by
  have hacc := coreLite_accepted hbd debug table ht is hm
  rw [h] at hacc
  obtain ⟨g0, g, g1, l0, l1, k1, k2, k3, k4, k5, k6, k7⟩ := accepted_rwr (CoreRegs.hw) (fun x => ¬ HwWord bd x) (by
    intro g a d s hn
    simp only [coreMap]
    repeat' split
    all_goals first | rfl | skip
    rename_i q1 q2 q3
    exact absurd ⟨by simpa using q1, q2, q3⟩ hn) hacc h1 h2
  simp only [coreMap, ha0.1, ha0.2.1, ha0.2.2, ha.1, ha.2.1, ha.2.2, ha1.1, ha1.2.1, ha1.2.2, Bool.false_eq_true, if_false,
    if_true, Option.mem_def, Option.some.injEq, forall_eq'] at k1 k2 k4 k5 k6 k7
  refine ⟨k1, k4, k6, by rw [k7, k5]; exact strobed_lt _ _ _, fun i hi => ?_⟩
  rw [k7, k5, byte_strobed _ _ _ _ hi, k2, k3]

/-- C37: the same for the 24-bit cycle budget (byte 3 always reads zero). -/
theorem C37_allowed_cycles_strobes {bd : Nat} (hbd : bd ≤ 16) (debug : Bool) (table : Nat → Nat)
    (ht : ∀ k, table k < 2 ^ (bd + 21)) (is : List CoreLiteIn) (hm : CoreLiteMaster bd debug (.init table) is)
    {pre mid1 mid2 post : List BusEv} {a0 d0 c0 a d s c a1 d1 c1 : Nat}
    (ha0 : CyclesWord bd a0) (ha : CyclesWord bd a) (ha1 : CyclesWord bd a1)
    (h : coreLiteTransfers bd debug (.init table) is =
      pre ++ [.ar a0, .r d0 c0] ++ mid1 ++ [.aw a, .w d s, .b c] ++ mid2 ++ [.ar a1, .r d1 c1] ++ post)
    (h1 : ∀ x, .aw x ∈ mid1 → ¬ CyclesWord bd x) (h2 : ∀ x, .aw x ∈ mid2 → ¬ CyclesWord bd x) :
    c0 = 0 ∧ c = 0 ∧ c1 = 0 ∧ d1 < 2 ^ 24 ∧ ∀ i, i < 3 → byteAt d1 i = if s.testBit i then byteAt d i else byteAt d0 i := by
  have hacc := coreLite_accepted hbd debug table ht is hm
  rw [h] at hacc
  obtain ⟨g0, g, g1, l0, l1, k1, k2, k3, k4, k5, k6, k7⟩ := accepted_rwr (CoreRegs.allowed) (fun x => ¬ CyclesWord bd x) (by
    intro g a d s hn
    simp only [coreMap]
    repeat' split
    all_goals first | rfl | skip
    rename_i q1 q2 q3
    exact absurd ⟨by simpa using q1, q2, by omega⟩ hn) hacc h1 h2
  simp only [coreMap, ha0.1, ha0.2.1, ha0.2.2, ha.1, ha.2.1, ha.2.2, ha1.1, ha1.2.1, ha1.2.2, Bool.false_eq_true, if_false,
    if_true, Option.mem_def, Option.some.injEq, forall_eq', Nat.succ_ne_self, Nat.one_ne_zero] at k1 k2 k4 k5 k6 k7
  have hb : ∀ n i, i < 3 → byteAt (n % 2 ^ 24) i = byteAt n i := by
    intro n i hi
    have hi : i = 0 ∨ i = 1 ∨ i = 2 := by omega
    rcases hi with rfl | rfl | rfl <;> simp only [byteAt] <;> omega
  refine ⟨k1, k4, k6, by rw [k7, k5]; exact Nat.mod_lt _ (by decide), fun i hi => ?_⟩
  rw [k7, k5, hb _ _ hi, byte_strobed _ _ _ _ (by omega), k2, k3]

/-- C37: reads and writes of unmapped addresses are answered with DECERR, and a write there changes
nothing: height, width, cycles and table read the same before and after. -/
theorem C37_unmapped {bd : Nat} (hbd : bd ≤ 16) (debug : Bool) (table : Nat → Nat)
    (ht : ∀ k, table k < 2 ^ (bd + 21)) (is : List CoreLiteIn) (hm : CoreLiteMaster bd debug (.init table) is)
    {pre mid1 mid2 post : List BusEv} {a0 d0 c0 a d s c d1 c1 : Nat}
    (ha0 : inTable bd a0 = true ∨ inHw a0 = true) (ha : Unmapped bd debug a)
    (h : coreLiteTransfers bd debug (.init table) is =
      pre ++ [.ar a0, .r d0 c0] ++ mid1 ++ [.aw a, .w d s, .b c] ++ mid2 ++ [.ar a0, .r d1 c1] ++ post)
    (h1 : ∀ x, .aw x ∈ mid1 → Unmapped bd debug x) (h2 : ∀ x, .aw x ∈ mid2 → Unmapped bd debug x) :
    c = 3 ∧ d1 = d0 ∧ c1 = c0 := by
  have hacc := coreLite_accepted hbd debug table ht is hm
  rw [h] at hacc
  have hu : ∀ g a d s, Unmapped bd debug a → (coreMap bd debug).write g a d s = (g, 3) := by
    intro g a d s hu
    simp only [coreMap, hu.1, hu.2.1, hu.2.2, Bool.false_eq_true, if_false]
  obtain ⟨g0, g, g1, l0, l1, k1, k2, k3, k4, k5, k6, k7⟩ := accepted_rwr id (Unmapped bd debug) (by
    intro g a d s hn
    rw [hu _ _ _ _ hn]) hacc h1 h2
  rw [hu _ _ _ _ ha] at k4 k5
  simp only [id_eq] at k3 k5
  subst k3; subst k5
  refine ⟨k4, ?_, ?_⟩
  · by_cases e1 : inTable bd a0 = true
    · simp only [coreMap, e1, if_true, Option.mem_def, Option.some.injEq, forall_eq'] at k2 k7; rw [k2, k7]
    · have e2 := ha0.resolve_left e1
      simp only [coreMap, e1, e2, if_true, Option.mem_def, Option.some.injEq, forall_eq', Bool.false_eq_true, if_false] at k2 k7
      rw [k2, k7]
  · by_cases e1 : inTable bd a0 = true
    · simp only [coreMap, e1, if_true] at k1 k6; rw [k1, k6]
    · have e2 := ha0.resolve_left e1
      simp only [coreMap, e1, e2, if_true, Bool.false_eq_true, if_false] at k1 k6
      rw [k1, k6]

/-- C37: a read of an unmapped address is answered with DECERR. -/
theorem C37_unmapped_read {bd : Nat} (hbd : bd ≤ 16) (debug : Bool) (table : Nat → Nat)
    (ht : ∀ k, table k < 2 ^ (bd + 21)) (is : List CoreLiteIn) (hm : CoreLiteMaster bd debug (.init table) is)
    {pre post : List BusEv} {a d c : Nat} (ha : Unmapped bd debug a)
    (h : coreLiteTransfers bd debug (.init table) is = pre ++ [.ar a, .r d c] ++ post) : c = 3 := by
  have hacc := coreLite_accepted hbd debug table ht is hm
  rw [h] at hacc
  obtain ⟨g, l, _, k, _⟩ := accepted_read hacc
  simpa only [coreMap, ha.1, ha.2.1, ha.2.2, Bool.false_eq_true, if_false] using k

theorem table_obs {bd : Nat} {debug : Bool} {k : Nat} (g : CoreRegs) (a d s : Nat) (hn : ∀ w, ¬ TableWord bd a k w) :
    ((coreMap bd debug).write g a d s).1.table k = g.table k := by
  simp only [coreMap]
  repeat' split
  all_goals first | rfl | skip
  rename_i q1
  dsimp only
  rw [if_neg]
  intro hk
  exact hn _ ⟨q1, hk.symm, rfl⟩

/-- C38: a write of the low word of a table entry with all strobes is read back (truncated to the
width of the table), whatever else happens in between that is not a write to that entry. -/
theorem C38_low_word_read_back {bd : Nat} (hbd : bd ≤ 16) (debug : Bool) (table : Nat → Nat)
    (ht : ∀ k, table k < 2 ^ (bd + 21)) (is : List CoreLiteIn) (hm : CoreLiteMaster bd debug (.init table) is)
    {pre mid post : List BusEv} {a d c a1 d1 c1 k : Nat} (ha : TableWord bd a k 0) (ha1 : TableWord bd a1 k 0) (hd : d < 2 ^ 32)
    (h : coreLiteTransfers bd debug (.init table) is = pre ++ [.aw a, .w d 15, .b c] ++ mid ++ [.ar a1, .r d1 c1] ++ post)
    (h1 : ∀ x w, .aw x ∈ mid → ¬ TableWord bd x k w) : c = 0 ∧ c1 = 0 ∧ d1 = d % 2 ^ (bd + 21) := by
  have hacc := coreLite_accepted hbd debug table ht is hm
  rw [h] at hacc
  obtain ⟨g, g1, l, e1, this, e4, e5⟩ := accepted_wr (fun g : CoreRegs => g.table k) (fun x => ∀ w, ¬ TableWord bd x k w)
    table_obs hacc (fun x hx w => h1 x w hx)
  simp only [coreMap, ha.1, ha.2.1, ha.2.2, ha1.1, ha1.2.1, ha1.2.2, if_true, tableWrite, Option.mem_def, Option.some.injEq,
    forall_eq'] at e1 e4 e5 this
  have hs : ∀ o, strobed o d 15 = d := by
    intro o
    have : Nat.testBit 15 0 = true ∧ Nat.testBit 15 1 = true ∧ Nat.testBit 15 2 = true ∧ Nat.testBit 15 3 = true := by decide
    simp only [strobed, this, if_true, byteAt]
    omega
  refine ⟨e1, e4, ?_⟩
  rw [e5, this, hs]
  exact Nat.mod_eq_of_lt (Nat.lt_of_le_of_lt (Nat.mod_le _ _) hd)

/-- C38: a write to one entry of the table changes no other entry: two reads of a word of another entry
around it return the same. -/
theorem C38_other_entries_kept {bd : Nat} (hbd : bd ≤ 16) (debug : Bool) (table : Nat → Nat)
    (ht : ∀ k, table k < 2 ^ (bd + 21)) (is : List CoreLiteIn) (hm : CoreLiteMaster bd debug (.init table) is)
    {pre mid1 mid2 post : List BusEv} {a0 d0 c0 a d s c d1 c1 k w : Nat} (ha0 : TableWord bd a0 k w)
    (ha : ∀ w, ¬ TableWord bd a k w)
    (h : coreLiteTransfers bd debug (.init table) is =
      pre ++ [.ar a0, .r d0 c0] ++ mid1 ++ [.aw a, .w d s, .b c] ++ mid2 ++ [.ar a0, .r d1 c1] ++ post)
    (h1 : ∀ x w, .aw x ∈ mid1 → ¬ TableWord bd x k w) (h2 : ∀ x w, .aw x ∈ mid2 → ¬ TableWord bd x k w) :
    c0 = 0 ∧ c1 = 0 ∧ d1 = d0 := by
  have hacc := coreLite_accepted hbd debug table ht is hm
  rw [h] at hacc
  obtain ⟨g0, g, g1, l0, l1, k1, k2, k3, k4, k5, k6, k7⟩ := accepted_rwr (fun g : CoreRegs => g.table k)
    (fun x => ∀ w, ¬ TableWord bd x k w) table_obs hacc (fun x hx w => h1 x w hx) (fun x hx w => h2 x w hx)
  rw [table_obs _ _ _ _ ha, k3] at k5
  simp only [coreMap, ha0.1, ha0.2.1, ha0.2.2, if_true, Option.mem_def, Option.some.injEq, forall_eq'] at k1 k2 k6 k7
  refine ⟨k1, k6, ?_⟩
  rw [k7, k2, k5]

/-- C38 (limit of the code): a write of the high word of an entry never stores the data — with all
strobes the word reads back as zero — and it clears the low word. -/
theorem C38_high_word_write_lost {bd : Nat} (hbd : bd ≤ 16) (debug : Bool) (table : Nat → Nat)
    (ht : ∀ k, table k < 2 ^ (bd + 21)) (is : List CoreLiteIn) (hm : CoreLiteMaster bd debug (.init table) is)
    {pre mid post : List BusEv} {a d c a1 d1 c1 k w : Nat} (ha : TableWord bd a k 1) (ha1 : TableWord bd a1 k w)
    (h : coreLiteTransfers bd debug (.init table) is = pre ++ [.aw a, .w d 15, .b c] ++ mid ++ [.ar a1, .r d1 c1] ++ post)
    (h1 : ∀ x w, .aw x ∈ mid → ¬ TableWord bd x k w) : c = 0 ∧ c1 = 0 ∧ d1 = 0 := by
  have hacc := coreLite_accepted hbd debug table ht is hm
  rw [h] at hacc
  obtain ⟨g, g1, l, e1, this, e4, e5⟩ := accepted_wr (fun g : CoreRegs => g.table k) (fun x => ∀ w, ¬ TableWord bd x k w)
    table_obs hacc (fun x hx w => h1 x w hx)
  have hs : ∀ o, strobed o 0 15 = 0 := by
    intro o
    have : Nat.testBit 15 0 = true ∧ Nat.testBit 15 1 = true ∧ Nat.testBit 15 2 = true ∧ Nat.testBit 15 3 = true := by decide
    simp only [strobed, this, if_true, byteAt]
  simp only [coreMap, ha.1, ha.2.1, ha.2.2, ha1.1, ha1.2.1, ha1.2.2, if_true, tableWrite, Option.mem_def, Option.some.injEq,
    forall_eq', Nat.one_ne_zero, if_false, hs, Nat.mul_zero, Nat.zero_mod] at e1 e4 e5 this
  refine ⟨e1, e4, ?_⟩
  rw [e5, this]
  simp

/-- C38 (limit of the code): a write of the low word clears the high word. -/
theorem C38_low_word_write_clears_high {bd : Nat} (hbd : bd ≤ 16) (debug : Bool) (table : Nat → Nat)
    (ht : ∀ k, table k < 2 ^ (bd + 21)) (is : List CoreLiteIn) (hm : CoreLiteMaster bd debug (.init table) is)
    {pre mid post : List BusEv} {a d s c a1 d1 c1 k : Nat} (ha : TableWord bd a k 0) (ha1 : TableWord bd a1 k 1)
    (h : coreLiteTransfers bd debug (.init table) is = pre ++ [.aw a, .w d s, .b c] ++ mid ++ [.ar a1, .r d1 c1] ++ post)
    (h1 : ∀ x w, .aw x ∈ mid → ¬ TableWord bd x k w) : d1 = 0 := by
  have hacc := coreLite_accepted hbd debug table ht is hm
  rw [h] at hacc
  obtain ⟨g, g1, l, e1, this, e4, e5⟩ := accepted_wr (fun g : CoreRegs => g.table k) (fun x => ∀ w, ¬ TableWord bd x k w)
    table_obs hacc (fun x hx w => h1 x w hx)
  simp only [coreMap, ha.1, ha.2.1, ha.2.2, ha1.1, ha1.2.1, ha1.2.2, if_true, tableWrite, Option.mem_def, Option.some.injEq,
    forall_eq', Nat.one_ne_zero, if_false] at e5 this
  rw [e5, this]
  have := strobed_lt (g.table k % 2 ^ 32) d s
  exact Nat.div_eq_of_lt (Nat.lt_of_le_of_lt (Nat.mod_le _ _) this)

end Props
