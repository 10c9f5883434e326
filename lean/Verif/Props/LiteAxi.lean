/- Property C93: what the two register buses do to a master that uses all the freedom AXI gives it. C37 and C39 ask more of
the master than AXI does (`MasterNext`); each of the extra conditions is needed. -/
import Verif.Props.LiteLive
import Verif.Props.DmaLive

set_option autoImplicit false
set_option linter.unusedSimpArgs false

namespace Props.LiteAxi
open Model Spec Proof Props

/-- What AXI asks of a master between one cycle (slave outputs `o`, master outputs `i`) and the next (`j`): an address or
data word that is offered and not accepted is offered again unchanged. AXI lets a master withdraw a ready, offer data
before the address and offer the next data in the cycle after a transfer. -/
structure AxiNext (o : LiteOut) (i j : LiteIn) : Prop where
  ar : i.arvalid = true → o.arready = false → j.arvalid = true ∧ j.araddr = i.araddr
  aw : i.awvalid = true → o.awready = false → j.awvalid = true ∧ j.awaddr = i.awaddr
  w : i.wvalid = true → o.wready = false → j.wvalid = true ∧ j.wdata = i.wdata ∧ j.wstrb = i.wstrb

theorem axiNext_iff (o : LiteOut) (i j : LiteIn) : AxiNext o i j ↔
    (i.arvalid = true → o.arready = false → j.arvalid = true ∧ j.araddr = i.araddr) ∧
    (i.awvalid = true → o.awready = false → j.awvalid = true ∧ j.awaddr = i.awaddr) ∧
    (i.wvalid = true → o.wready = false → j.wvalid = true ∧ j.wdata = i.wdata ∧ j.wstrb = i.wstrb) :=
  ⟨fun h => ⟨h.ar, h.aw, h.w⟩, fun h => ⟨h.1, h.2.1, h.2.2⟩⟩

instance (o : LiteOut) (i j : LiteIn) : Decidable (AxiNext o i j) := decidable_of_iff _ (axiNext_iff o i j).symm

/-- The master of the core's register bus keeps the rules of AXI in every pair of consecutive cycles. -/
def CoreAxi (bd : Nat) (debug : Bool) : CoreLite → List CoreLiteIn → Prop
  | s, i :: j :: r => AxiNext s.out i.bus j.bus ∧ CoreAxi bd debug (s.cyc bd debug i) (j :: r)
  | _, _ => True

/-- The same for the DMA's register bus. -/
def DmaAxi : DmaLite → List DmaIn → Prop
  | s, i :: j :: r => AxiNext s.out i.bus j.bus ∧ DmaAxi (s.cyc i) (j :: r)
  | _, _ => True

instance instDmaAxi : ∀ (s : DmaLite) (is : List DmaIn), Decidable (DmaAxi s is)
  | _, [] => isTrue trivial
  | _, [_] => isTrue trivial
  | s, i :: j :: r =>
    have := instDmaAxi (s.cyc i) (j :: r)
    inferInstanceAs (Decidable (_ ∧ _))

/-- A master that is well-behaved in the sense of C37 keeps the rules of AXI, not the other way round. -/
theorem stricter {o : LiteOut} {i j : LiteIn} (h : MasterNext o i j) : AxiNext o i j := ⟨h.ar, h.aw, h.w⟩

/-! ### The core's bus -/

/-- No address is offered. -/
def NoAddr (b : LiteIn) : Prop := b.arvalid = false ∧ b.awvalid = false

/-- In the idle state, with nothing offered to the master, nothing happens until an address is offered. -/
theorem core_quiet (bd : Nat) (debug : Bool) : ∀ (is : List CoreLiteIn) (s : CoreLite), s.fsm = .idle → s.arready = false →
    s.awready = false → s.wready = false → s.rvalid = false → s.bvalid = false → (∀ i ∈ is, NoAddr i.bus) →
    coreLiteTransfers bd debug s is = []
  | [], _, _, _, _, _, _, _, _ => rfl
  | i :: is, s, h1, h2, h3, h4, h5, h6, h => by
    obtain ⟨n1, n2⟩ := h i (List.mem_cons_self ..)
    have ih := core_quiet bd debug is (s.cyc bd debug i) (by simp [CoreLite.cyc, CoreLite.step, CoreLite.stepFsm, CoreLite.stepMem, h1, n1, n2])
      (by simp [CoreLite.cyc, CoreLite.step, CoreLite.stepFsm, CoreLite.stepMem, h1, n1, n2, h2])
      (by simp [CoreLite.cyc, CoreLite.step, CoreLite.stepFsm, CoreLite.stepMem, h1, n1, n2, h3])
      (by simp [CoreLite.cyc, CoreLite.step, CoreLite.stepFsm, CoreLite.stepMem, h1, n1, n2, h4])
      (by simp [CoreLite.cyc, CoreLite.step, CoreLite.stepFsm, CoreLite.stepMem, h1, n1, n2])
      (by simp [CoreLite.cyc, CoreLite.step, CoreLite.stepFsm, CoreLite.stepMem, h1, n1, n2])
      (fun j hj => h j (List.mem_cons_of_mem _ hj))
    rw [coreLiteTransfers] at ih
    rw [coreLiteTransfers, coreLiteTrace, List.flatMap_cons, ih]
    simp [liteEvents, CoreLite.out, h2, h3, h4, h5, h6]

/-- Waiting for write data, with nothing else offered to the master, nothing happens until data are offered. -/
theorem core_waits (bd : Nat) (debug : Bool) : ∀ (is : List CoreLiteIn) (s : CoreLite), s.fsm = .wrData → s.arready = false →
    s.awready = false → s.rvalid = false → s.bvalid = false → (∀ i ∈ is, i.bus.wvalid = false) →
    coreLiteTransfers bd debug s is = []
  | [], _, _, _, _, _, _, _ => rfl
  | i :: is, s, h1, h2, h3, h5, h6, h => by
    have n1 := h i (List.mem_cons_self ..)
    have ih := core_waits bd debug is (s.cyc bd debug i) (by simp [CoreLite.cyc, CoreLite.step, CoreLite.stepFsm, CoreLite.stepMem, h1, n1])
      (by simp [CoreLite.cyc, CoreLite.step, CoreLite.stepFsm, CoreLite.stepMem, h1, n1, h2])
      (by simp [CoreLite.cyc, CoreLite.step, CoreLite.stepFsm, CoreLite.stepMem, h1, n1, h3])
      (by simp [CoreLite.cyc, CoreLite.step, CoreLite.stepFsm, CoreLite.stepMem, h1, n1, h5])
      (by simp [CoreLite.cyc, CoreLite.step, CoreLite.stepFsm, CoreLite.stepMem, h1, n1, h6])
      (fun j hj => h j (List.mem_cons_of_mem _ hj))
    rw [coreLiteTransfers] at ih
    rw [coreLiteTransfers, coreLiteTrace, List.flatMap_cons, ih]
    simp [liteEvents, CoreLite.out, h2, h3, n1, h5, h6]

theorem transfers_append (bd : Nat) (debug : Bool) : ∀ (xs ys : List CoreLiteIn) (s : CoreLite),
    coreLiteTransfers bd debug s (xs ++ ys) = coreLiteTransfers bd debug s xs ++ coreLiteTransfers bd debug (coreLiteRun bd debug s xs) ys
  | [], _, _ => rfl
  | x :: xs, ys, s => by
    have := transfers_append bd debug xs ys (s.cyc bd debug x)
    simp only [coreLiteTransfers, List.cons_append, coreLiteTrace, List.flatMap_cons, List.append_assoc] at *
    rw [this]
    rfl

/-- A master that offers nothing and is not ready. -/
def busy : LiteIn := ⟨false, 0, false, false, 0, false, 0, 0, false⟩

/-- Bus signals with debug registers of zero. -/
def core (l : List LiteIn) : List CoreLiteIn := l.map (⟨·, fun _ => 0⟩)

/-- A write of the height/width word by a master that is ready for the response for one cycle only. -/
def oneReady : List CoreLiteIn := core
  (List.replicate 3 { busy with awvalid := true, awaddr := 8192, wvalid := true, wdata := 0x01000200, wstrb := 15 } ++
   List.replicate 2 { busy with wvalid := true, wdata := 0x01000200, wstrb := 15 } ++
   [{ busy with wvalid := true, wdata := 0x01000200, wstrb := 15, bready := true }, busy])

/-- A read of the height/width word by a master that is ready for the data for one cycle only. -/
def oneReadyR : List CoreLiteIn := core
  (List.replicate 3 { busy with arvalid := true, araddr := 8192 } ++ [busy, { busy with rready := true }, busy])

/-- Two writes; the data of the second (to the cycle budget) are offered right after the data of the first, before their
address. -/
def earlyData : List CoreLiteIn := core
  (List.replicate 3 { busy with awvalid := true, awaddr := 8192, bready := true } ++
   List.replicate 2 { busy with bready := true } ++
   [{ busy with wvalid := true, wdata := 0x01000200, wstrb := 15, bready := true },
    { busy with wvalid := true, wdata := 0x1234, wstrb := 15, bready := true }] ++
   List.replicate 3 { busy with awvalid := true, awaddr := 8196, bready := true } ++ [{ busy with bready := true }])

theorem tbits : Nat.testBit 2048 10 = false ∧ Nat.testBit 2048 11 = true ∧ Nat.testBit 15 0 = true ∧ Nat.testBit 15 1 = true ∧
    Nat.testBit 15 2 = true ∧ Nat.testBit 15 3 = true := by decide

/-- Where these masters leave the bus. -/
theorem oneReady_end (table : Nat → Nat) : let s := coreLiteRun 12 false (.init table) oneReady
    s.fsm = .idle ∧ s.arready = false ∧ s.awready = false ∧ s.rvalid = false ∧ s.bvalid = false ∧ s.wready = false ∧ s.height = 0x200 := by
  simp [coreLiteRun, oneReady, core, busy, CoreLite.init, CoreLite.cyc, CoreLite.step, CoreLite.stepFsm, CoreLite.stepMem, CoreLite.writeData,
    CoreLite.readData, CoreLite.isSsss, CoreLite.isHw, CoreLite.hwIndex, CoreLite.putBytes, setSlice, CoreLite.height, List.replicate, tbits]

theorem oneReadyR_end (table : Nat → Nat) : let s := coreLiteRun 12 false (.init table) oneReadyR
    s.fsm = .idle ∧ s.arready = false ∧ s.awready = false ∧ s.rvalid = false ∧ s.bvalid = false ∧ s.wready = false ∧ s.wready = false := by
  simp [coreLiteRun, oneReadyR, core, busy, CoreLite.init, CoreLite.cyc, CoreLite.step, CoreLite.stepFsm, CoreLite.stepMem, CoreLite.writeData,
    CoreLite.readData, CoreLite.isSsss, CoreLite.isHw, CoreLite.hwIndex, CoreLite.putBytes, setSlice, CoreLite.height, List.replicate, tbits]

theorem earlyData_end (table : Nat → Nat) : let s := coreLiteRun 12 false (.init table) earlyData
    s.fsm = .wrData ∧ s.arready = false ∧ s.awready = false ∧ s.rvalid = false ∧ s.bvalid = false ∧ s.allowed = 0 := by
  simp [coreLiteRun, earlyData, core, busy, CoreLite.init, CoreLite.cyc, CoreLite.step, CoreLite.stepFsm, CoreLite.stepMem, CoreLite.writeData,
    CoreLite.readData, CoreLite.isSsss, CoreLite.isHw, CoreLite.hwIndex, CoreLite.putBytes, setSlice, CoreLite.height, List.replicate, tbits]

/-- C93 (limit of the code): a write response is offered for a single cycle. A master that keeps the rules of AXI but is
ready for the response only for one cycle (here the cycle before the response) never gets it: the write is carried out, and whatever the
master does, as long as it does not start another transaction, nothing more is transferred. -/
theorem C93_write_response_lost (table : Nat → Nat) (rest : List CoreLiteIn) (hr : ∀ i ∈ rest, NoAddr i.bus) :
    CoreAxi 12 false (.init table) oneReady ∧ (coreLiteRun 12 false (.init table) oneReady).height = 0x200 ∧
    coreLiteTransfers 12 false (.init table) (oneReady ++ rest) = [.aw 8192, .w 0x01000200 15] := by
  obtain ⟨e1, e2, e3, e4, e5, e6, e7⟩ := oneReady_end table
  refine ⟨?_, e7, ?_⟩
  · simp [CoreAxi, axiNext_iff, CoreLite.out, oneReady, core, busy, CoreLite.init, CoreLite.cyc, CoreLite.step, CoreLite.stepFsm, CoreLite.stepMem,
      CoreLite.writeData, CoreLite.readData, CoreLite.isSsss, CoreLite.isHw, CoreLite.hwIndex, CoreLite.putBytes, setSlice, List.replicate, tbits]
  · rw [transfers_append, core_quiet _ _ rest _ e1 e2 e3 e6 e4 e5 hr]
    simp [coreLiteTransfers, coreLiteTrace, liteEvents, CoreLite.out, oneReady, core, busy, CoreLite.init, CoreLite.cyc, CoreLite.step, CoreLite.stepFsm, CoreLite.stepMem, CoreLite.writeData,
    CoreLite.readData, CoreLite.isSsss, CoreLite.isHw, CoreLite.hwIndex, CoreLite.putBytes, setSlice, CoreLite.height, List.replicate, tbits]

/-- C93 (limit of the code): the same for the data of a read. -/
theorem C93_read_data_lost (table : Nat → Nat) (rest : List CoreLiteIn) (hr : ∀ i ∈ rest, NoAddr i.bus) :
    CoreAxi 12 false (.init table) oneReadyR ∧
    coreLiteTransfers 12 false (.init table) (oneReadyR ++ rest) = [.ar 8192] := by
  obtain ⟨e1, e2, e3, e4, e5, e6, _⟩ := oneReadyR_end table
  refine ⟨?_, ?_⟩
  · simp [CoreAxi, axiNext_iff, CoreLite.out, oneReadyR, core, busy, CoreLite.init, CoreLite.cyc, CoreLite.step, CoreLite.stepFsm, CoreLite.stepMem,
      CoreLite.writeData, CoreLite.readData, CoreLite.isSsss, CoreLite.isHw, CoreLite.hwIndex, CoreLite.putBytes, setSlice, List.replicate, tbits]
  · rw [transfers_append, core_quiet _ _ rest _ e1 e2 e3 e6 e4 e5 hr]
    simp [coreLiteTransfers, coreLiteTrace, liteEvents, CoreLite.out, oneReadyR, core, busy, CoreLite.init, CoreLite.cyc, CoreLite.step, CoreLite.stepFsm, CoreLite.stepMem, CoreLite.writeData,
    CoreLite.readData, CoreLite.isSsss, CoreLite.isHw, CoreLite.hwIndex, CoreLite.putBytes, setSlice, CoreLite.height, List.replicate, tbits]

/-- C93 (limit of the code): data offered right after the data of the previous write, before their own address (which AXI
allows), are accepted and thrown away. Their write has no effect and never gets a response, for as long as no more data are
offered. -/
theorem C93_early_data_lost (table : Nat → Nat) (rest : List CoreLiteIn) (hr : ∀ i ∈ rest, i.bus.wvalid = false) :
    CoreAxi 12 false (.init table) earlyData ∧ (coreLiteRun 12 false (.init table) earlyData).allowed = 0 ∧
    coreLiteTransfers 12 false (.init table) (earlyData ++ rest) =
      [.aw 8192, .w 0x01000200 15, .w 0x1234 15, .b 0, .aw 8196] := by
  obtain ⟨e1, e2, e3, e4, e5, e6⟩ := earlyData_end table
  refine ⟨?_, e6, ?_⟩
  · simp [CoreAxi, axiNext_iff, CoreLite.out, earlyData, core, busy, CoreLite.init, CoreLite.cyc, CoreLite.step, CoreLite.stepFsm, CoreLite.stepMem,
      CoreLite.writeData, CoreLite.readData, CoreLite.isSsss, CoreLite.isHw, CoreLite.hwIndex, CoreLite.putBytes, setSlice, List.replicate, tbits]
  · rw [transfers_append, core_waits _ _ rest _ e1 e2 e3 e4 e5 hr]
    simp [coreLiteTransfers, coreLiteTrace, liteEvents, CoreLite.out, earlyData, core, busy, CoreLite.init, CoreLite.cyc, CoreLite.step, CoreLite.stepFsm, CoreLite.stepMem, CoreLite.writeData,
    CoreLite.readData, CoreLite.isSsss, CoreLite.isHw, CoreLite.hwIndex, CoreLite.putBytes, setSlice, CoreLite.height, List.replicate, tbits]

/-- The state after a run in which the core may also reset itself (as it does at the end of every frame). -/
def coreRunRst (bd : Nat) (debug : Bool) : CoreLite → List (Bool × CoreLiteIn) → CoreLite
  | s, [] => s
  | s, (rst, i) :: r => coreRunRst bd debug (s.step bd debug rst i.bus i.dbg) r

theorem coreRunRst_append (bd : Nat) (debug : Bool) : ∀ (xs ys : List (Bool × CoreLiteIn)) (s : CoreLite),
    coreRunRst bd debug s (xs ++ ys) = coreRunRst bd debug (coreRunRst bd debug s xs) ys
  | [], _, _ => rfl
  | (rst, x) :: xs, ys, s => coreRunRst_append bd debug xs ys (s.step bd debug rst x.bus x.dbg)

/-- What holds for every master: a response is only offered in the idle state. -/
structure CoreAny (s : CoreLite) : Prop where
  r : s.rvalid = true → s.fsm = .idle
  b : s.bvalid = true → s.fsm = .idle

theorem core_any_step (bd : Nat) (debug rst : Bool) {s : CoreLite} (h : CoreAny s) (i : CoreLiteIn) :
    let t := s.step bd debug rst i.bus i.dbg
    CoreAny t ∧ t.rvalid = (decide (s.fsm = .rdData) && i.bus.rready) ∧ t.bvalid = (decide (s.fsm = .wrResp) && i.bus.bready) := by
  have hw := writeData_frame bd debug s { s.stepMem with wready := true } i.bus
  obtain ⟨x, y, hxy⟩ := readData_frame bd debug s s.stepMem i.dbg
  have hr : s.fsm ≠ .idle → s.rvalid = false := fun hn => by cases hv : s.rvalid; rfl; exact absurd (h.r hv) hn
  have hb : s.fsm ≠ .idle → s.bvalid = false := fun hn => by cases hv : s.bvalid; rfl; exact absurd (h.b hv) hn
  have key : (s.step bd debug false i.bus i.dbg).rvalid = (decide (s.fsm = .rdData) && i.bus.rready) ∧
      (s.step bd debug false i.bus i.dbg).bvalid = (decide (s.fsm = .wrResp) && i.bus.bready) ∧
      ((s.fsm = .rdData ∧ i.bus.rready = true ∨ s.fsm = .wrResp ∧ i.bus.bready = true) → (s.step bd debug false i.bus i.dbg).fsm = .idle) := by
    cases hf : s.fsm <;> simp only [hf, ne_eq, reduceCtorEq, not_false_eq_true, not_true_eq_false, forall_const, false_implies] at hr hb <;>
      simp [CoreLite.step, CoreLite.stepFsm, hf, hxy]
    · split
      · exact ⟨rfl, rfl⟩
      · split <;> exact ⟨rfl, rfl⟩
    all_goals first | exact ⟨hr, hb⟩ | skip
    · cases i.bus.rready <;> simp [CoreLite.stepMem, hr, hb]
    · split
      · exact ⟨hw.2.2.1.trans hr, hw.2.2.2.1.trans hb⟩
      · exact ⟨hr, hb⟩
    · cases i.bus.bready <;> simp [CoreLite.stepMem, hr, hb]
  obtain ⟨k1, k2, k3⟩ := key
  have e1 : (s.step bd debug rst i.bus i.dbg).rvalid = (s.step bd debug false i.bus i.dbg).rvalid := by cases rst <;> rfl
  have e2 : (s.step bd debug rst i.bus i.dbg).bvalid = (s.step bd debug false i.bus i.dbg).bvalid := by cases rst <;> rfl
  have e3 : (s.step bd debug false i.bus i.dbg).fsm = .idle → (s.step bd debug rst i.bus i.dbg).fsm = .idle := by
    cases rst
    · exact id
    · exact fun _ => rfl
  dsimp only
  rw [e1, e2]
  refine ⟨⟨?_, ?_⟩, k1, k2⟩
  · rw [e1, k1]; intro hh; exact e3 (k3 (.inl (by simpa using hh)))
  · rw [e2, k2]; intro hh; exact e3 (k3 (.inr (by simpa using hh)))

theorem core_any (bd : Nat) (debug : Bool) : ∀ (is : List (Bool × CoreLiteIn)) (s : CoreLite), CoreAny s → CoreAny (coreRunRst bd debug s is)
  | [], _, h => h
  | (rst, i) :: is, _, h => core_any bd debug is _ (core_any_step bd debug rst h i).1

/-- C93 (limit of the code), for every history (resets at the end of frames included) and every master: a response that is
offered in one cycle is withdrawn in the next, taken or not. -/
theorem C93_response_single_cycle (bd : Nat) (debug : Bool) (table : Nat → Nat) (is : List (Bool × CoreLiteIn)) (i : Bool × CoreLiteIn) :
    ((coreRunRst bd debug (.init table) is).rvalid = true → (coreRunRst bd debug (.init table) (is ++ [i])).rvalid = false) ∧
    ((coreRunRst bd debug (.init table) is).bvalid = true → (coreRunRst bd debug (.init table) (is ++ [i])).bvalid = false) := by
  have h := core_any bd debug is (.init table) ⟨fun h => (by cases h), fun h => (by cases h)⟩
  obtain ⟨rst, i⟩ := i
  rw [coreRunRst_append]
  obtain ⟨_, k1, k2⟩ := core_any_step bd debug rst h i
  exact ⟨fun hv => by show (CoreLite.step _ _ _ _ i.bus i.dbg).rvalid = false; rw [k1, h.r hv]; rfl,
    fun hv => by show (CoreLite.step _ _ _ _ i.bus i.dbg).bvalid = false; rw [k2, h.b hv]; rfl⟩

/-- C93 (limit of the code): a master that waits for `rvalid` before it asserts `rready`, or for `bvalid` before it asserts
`bready`, as AXI allows, waits for ever. -/
theorem C93_waits_for_ready (bd : Nat) (debug : Bool) (table : Nat → Nat) (is : List (Bool × CoreLiteIn)) :
    ((∀ i ∈ is, i.2.bus.rready = false) → (coreRunRst bd debug (.init table) is).rvalid = false) ∧
    ((∀ i ∈ is, i.2.bus.bready = false) → (coreRunRst bd debug (.init table) is).bvalid = false) := by
  suffices hs : ∀ (is : List (Bool × CoreLiteIn)) (s : CoreLite), CoreAny s →
      (s.rvalid = false → (∀ i ∈ is, i.2.bus.rready = false) → (coreRunRst bd debug s is).rvalid = false) ∧
      (s.bvalid = false → (∀ i ∈ is, i.2.bus.bready = false) → (coreRunRst bd debug s is).bvalid = false) by
    have := hs is (.init table) ⟨fun h => (by cases h), fun h => (by cases h)⟩
    exact ⟨this.1 rfl, this.2 rfl⟩
  intro is
  induction is with
  | nil => intro s _; exact ⟨fun h _ => h, fun h _ => h⟩
  | cons i r ih =>
    intro s hs
    obtain ⟨rst, i⟩ := i
    obtain ⟨k0, k1, k2⟩ := core_any_step bd debug rst hs i
    exact ⟨fun _ hi => (ih _ k0).1 (by rw [k1, hi (rst, i) (List.mem_cons_self ..), Bool.and_false]) (fun j hj => hi j (List.mem_cons_of_mem _ hj)),
      fun _ hi => (ih _ k0).2 (by rw [k2, hi (rst, i) (List.mem_cons_self ..), Bool.and_false]) (fun j hj => hi j (List.mem_cons_of_mem _ hj))⟩

/-- C93 (limit of the code): reads have priority without limit. For as long as a read address is on offer in every cycle, no
write address is accepted, however long it has been on offer. -/
theorem C93_reads_starve_writes (bd : Nat) (debug : Bool) (table : Nat → Nat) (is : List (Bool × CoreLiteIn)) (h : ∀ i ∈ is, i.2.bus.arvalid = true) :
    (coreRunRst bd debug (.init table) is).awready = false ∧ ∀ a, BusEv.aw a ∉ (coreLiteTraceRst bd debug (.init table) is).flatMap (·.2) := by
  suffices hs : ∀ (is : List (Bool × CoreLiteIn)) (s : CoreLite), s.awready = false → (s.fsm = .idle ∨ s.fsm = .rdAddr ∨ s.fsm = .rdDelay1 ∨ s.fsm = .rdDelay2 ∨ s.fsm = .rdData) →
      (∀ i ∈ is, i.2.bus.arvalid = true) →
      (coreRunRst bd debug s is).awready = false ∧ ∀ a, BusEv.aw a ∉ (coreLiteTraceRst bd debug s is).flatMap (·.2) from hs is _ rfl (.inl rfl) h
  intro is
  induction is with
  | nil => intro s h _ _; exact ⟨h, fun a => by simp [coreLiteTraceRst]⟩
  | cons i r ih =>
    intro s h hf hi
    obtain ⟨rst, i⟩ := i
    have ha : i.bus.arvalid = true := hi (rst, i) (List.mem_cons_self ..)
    obtain ⟨x, y, hxy⟩ := readData_frame bd debug s s.stepMem i.dbg
    have := ih (s.step bd debug rst i.bus i.dbg)
      (by cases rst <;> rcases hf with hf | hf | hf | hf | hf <;> simp [CoreLite.step, CoreLite.stepFsm, hf, ha, hxy] <;> first | exact h | (split <;> exact h))
      (by
        cases rst
        · rcases hf with hf | hf | hf | hf | hf <;> simp [CoreLite.step, CoreLite.stepFsm, hf, ha, hxy]
          split
          · simp
          · simp [CoreLite.stepMem, hf]
        · exact .inl rfl)
      (fun j hj => hi j (List.mem_cons_of_mem _ hj))
    refine ⟨this.1, fun a => ?_⟩
    rw [coreLiteTraceRst, List.flatMap_cons, List.mem_append]
    rintro (hh | hh)
    · revert hh
      simp only [liteEvents, CoreLite.out, h, Bool.and_false, Bool.false_eq_true, if_false, List.append_nil, List.mem_append]
      repeat' split
      all_goals simp
    · exact this.2 a hh

/-! ### The DMA's bus -/

structure DmaAny (s : DmaLite) : Prop where
  r : s.rvalid = true → s.fsm = .idle
  b : s.bvalid = true → s.fsm = .idle

theorem dma_any_step {s : DmaLite} (h : DmaAny s) (i : DmaIn) :
    DmaAny (s.cyc i) ∧ (s.cyc i).rvalid = (decide (s.fsm = .rdData) && i.bus.rready) ∧
    (s.cyc i).bvalid = (decide (s.fsm = .wrResp) && i.bus.bready) := by
  obtain ⟨x, y, hxy⟩ := dmaRead_frame s { s with arready := false } i.ins
  obtain ⟨x', y', z', w', hw⟩ := dmaWrite_frame s { s with awready := false, wready := true } i.bus
  have hr : s.fsm ≠ .idle → s.rvalid = false := fun hn => by cases hv : s.rvalid; rfl; exact absurd (h.r hv) hn
  have hb : s.fsm ≠ .idle → s.bvalid = false := fun hn => by cases hv : s.bvalid; rfl; exact absurd (h.b hv) hn
  have key : (s.cyc i).rvalid = (decide (s.fsm = .rdData) && i.bus.rready) ∧ (s.cyc i).bvalid = (decide (s.fsm = .wrResp) && i.bus.bready) ∧
      ((s.fsm = .rdData ∧ i.bus.rready = true ∨ s.fsm = .wrResp ∧ i.bus.bready = true) → (s.cyc i).fsm = .idle) := by
    obtain ⟨fsm, addr, arready, rvalid, awready, wready, bvalid, rdata, rresp, bresp, ra, wa, sta⟩ := s
    dsimp only at hr hb hxy hw
    cases fsm <;> simp only [ne_eq, reduceCtorEq, not_false_eq_true, not_true_eq_false, forall_const, false_implies] at hr hb <;>
      simp only [DmaLite.cyc, DmaLite.step, hxy, hw]
    · cases i.bus.arvalid <;> cases i.bus.awvalid <;> simp
    · simp [hr, hb]
    · cases i.bus.rready <;> simp [hr, hb]
    · simp [hr, hb]
    · cases i.bus.wvalid <;> simp [hr, hb]
    · cases i.bus.bready <;> simp [hr, hb]
  obtain ⟨k1, k2, k3⟩ := key
  refine ⟨⟨?_, ?_⟩, k1, k2⟩
  · rw [k1]; intro hh; exact k3 (.inl (by simpa using hh))
  · rw [k2]; intro hh; exact k3 (.inr (by simpa using hh))

theorem dma_any : ∀ (is : List DmaIn) (s : DmaLite), DmaAny s → DmaAny (dmaRun s is)
  | [], _, h => h
  | i :: is, _, h => dma_any is _ (dma_any_step h i).1

/-- C93 (limit of the code), for every history and every master of the DMA's register bus: a response that is offered in one
cycle is withdrawn in the next, taken or not. -/
theorem C93_dma_response_single_cycle (is : List DmaIn) (i : DmaIn) :
    ((dmaRun .init is).rvalid = true → (dmaRun .init (is ++ [i])).rvalid = false) ∧
    ((dmaRun .init is).bvalid = true → (dmaRun .init (is ++ [i])).bvalid = false) := by
  have h := dma_any is .init ⟨fun h => (by cases h), fun h => (by cases h)⟩
  rw [dmaRun_append]
  obtain ⟨_, k1, k2⟩ := dma_any_step h i
  exact ⟨fun hv => by show (DmaLite.cyc _ i).rvalid = false; rw [k1, h.r hv]; rfl,
    fun hv => by show (DmaLite.cyc _ i).bvalid = false; rw [k2, h.b hv]; rfl⟩

/-- C93 (limit of the code): on the DMA's register bus too, no response is offered before the master is ready for it. -/
theorem C93_dma_waits_for_ready (is : List DmaIn) :
    ((∀ i ∈ is, i.bus.rready = false) → (dmaRun .init is).rvalid = false) ∧
    ((∀ i ∈ is, i.bus.bready = false) → (dmaRun .init is).bvalid = false) := by
  suffices hs : ∀ (is : List DmaIn) (s : DmaLite), DmaAny s →
      (s.rvalid = false → (∀ i ∈ is, i.bus.rready = false) → (dmaRun s is).rvalid = false) ∧
      (s.bvalid = false → (∀ i ∈ is, i.bus.bready = false) → (dmaRun s is).bvalid = false) by
    have := hs is .init ⟨fun h => (by cases h), fun h => (by cases h)⟩
    exact ⟨this.1 rfl, this.2 rfl⟩
  intro is
  induction is with
  | nil => intro s _; exact ⟨fun h _ => h, fun h _ => h⟩
  | cons i r ih =>
    intro s hs
    obtain ⟨k0, k1, k2⟩ := dma_any_step hs i
    exact ⟨fun _ hi => (ih _ k0).1 (by rw [k1, hi i (List.mem_cons_self ..), Bool.and_false]) (fun j hj => hi j (List.mem_cons_of_mem _ hj)),
      fun _ hi => (ih _ k0).2 (by rw [k2, hi i (List.mem_cons_self ..), Bool.and_false]) (fun j hj => hi j (List.mem_cons_of_mem _ hj))⟩

/-- C93 (limit of the code): on the DMA's register bus too, reads have priority without limit. -/
theorem C93_dma_reads_starve_writes (is : List DmaIn) (h : ∀ i ∈ is, i.bus.arvalid = true) :
    (dmaRun .init is).awready = false ∧ ∀ a, BusEv.aw a ∉ dmaTransfers .init is := by
  suffices hs : ∀ (is : List DmaIn) (s : DmaLite), s.awready = false → (s.fsm = .idle ∨ s.fsm = .rdAddr ∨ s.fsm = .rdData) →
      (∀ i ∈ is, i.bus.arvalid = true) → (dmaRun s is).awready = false ∧ ∀ a, BusEv.aw a ∉ dmaTransfers s is from hs is _ rfl (.inl rfl) h
  intro is
  induction is with
  | nil => intro s h _ _; exact ⟨h, fun a => by simp [dmaTransfers, dmaTrace]⟩
  | cons i r ih =>
    intro s h hf hi
    have ha := hi i (List.mem_cons_self ..)
    obtain ⟨x, y, hxy⟩ := dmaRead_frame s { s with arready := false } i.ins
    have hc : (s.cyc i).awready = false ∧ ((s.cyc i).fsm = .idle ∨ (s.cyc i).fsm = .rdAddr ∨ (s.cyc i).fsm = .rdData) := by
      obtain ⟨fsm, addr, arready, rvalid, awready, wready, bvalid, rdata, rresp, bresp, ra, wa, sta⟩ := s
      dsimp only at hxy h hf
      subst h
      rcases hf with rfl | rfl | rfl <;> simp only [DmaLite.cyc, DmaLite.step, ha, hxy]
      · simp
      · simp
      · cases i.bus.rready <;> simp
    have := ih (s.cyc i) hc.1 hc.2
      (fun j hj => hi j (List.mem_cons_of_mem _ hj))
    refine ⟨this.1, fun a => ?_⟩
    rw [show dmaTransfers s (i :: r) = liteEvents s.out i.bus ++ dmaTransfers (s.cyc i) r by
      simp [dmaTransfers, dmaTrace], List.mem_append]
    rintro (hh | hh)
    · revert hh
      simp only [liteEvents, DmaLite.out, h, Bool.and_false, Bool.false_eq_true, if_false, List.append_nil, List.mem_append]
      repeat' split
      all_goals simp
    · exact this.2 a hh

/-- Waiting for write data, nothing happens until data are offered. -/
theorem dma_waits : ∀ (is : List DmaIn) (s : DmaLite), s.fsm = .wrData → s.arready = false →
    s.awready = false → s.rvalid = false → s.bvalid = false → (∀ i ∈ is, i.bus.wvalid = false) → dmaTransfers s is = []
  | [], _, _, _, _, _, _, _ => rfl
  | i :: is, s, h1, h2, h3, h5, h6, h => by
    have n1 := h i (List.mem_cons_self ..)
    have ih := dma_waits is (s.cyc i) (by simp [DmaLite.cyc, DmaLite.step, h1, n1]) (by simp [DmaLite.cyc, DmaLite.step, h1, n1, h2])
      (by simp [DmaLite.cyc, DmaLite.step, h1, n1]) (by simp [DmaLite.cyc, DmaLite.step, h1, n1, h5])
      (by simp [DmaLite.cyc, DmaLite.step, h1, n1, h6]) (fun j hj => h j (List.mem_cons_of_mem _ hj))
    rw [dmaTransfers] at ih
    rw [dmaTransfers, dmaTrace, List.flatMap_cons, ih]
    simp [liteEvents, DmaLite.out, h2, h3, n1, h5, h6]

/-- Two writes to the DMA: the read address, then the start command, whose data are offered right after the first data. -/
def dmaEarly : List DmaIn :=
  (List.replicate 3 { busy with awvalid := true, awaddr := 4096, bready := true } ++
   [{ busy with bready := true }, { busy with wvalid := true, wdata := 0x10000000, wstrb := 15, bready := true },
    { busy with wvalid := true, wdata := 1, wstrb := 15, bready := true }] ++
   List.replicate 3 { busy with awvalid := true, awaddr := 4104, bready := true } ++ [{ busy with bready := true }]).map (⟨·, fun _ => 0⟩)

/-- C93 (limit of the code): on the DMA's register bus too, data offered right after the data of the previous write are
accepted and thrown away: here the start command never reaches the DMA, and its write never ends. -/
theorem C93_dma_early_data_lost (rest : List DmaIn) (hr : ∀ i ∈ rest, i.bus.wvalid = false) :
    DmaAxi .init dmaEarly ∧ (dmaRun .init dmaEarly).readAddr = 0x10000000 ∧ (dmaRun .init dmaEarly).start = 0 ∧
    dmaTransfers .init (dmaEarly ++ rest) = [.aw 4096, .w 0x10000000 15, .w 1 15, .b 0, .aw 4104] := by
  refine ⟨by decide +kernel, by decide +kernel, by decide +kernel, ?_⟩
  rw [dmaTransfers_append, dma_waits rest _ (by decide +kernel) (by decide +kernel) (by decide +kernel) (by decide +kernel) (by decide +kernel) hr]
  decide +kernel

/-! ### The hypotheses can be met -/

/-- After the lost response the master is quiet and ready. -/
example : ∀ i ∈ core (List.replicate 20 quietLite), NoAddr i.bus := by
  intro i hi
  simp only [core, List.mem_map, List.mem_replicate] at hi
  obtain ⟨b, ⟨_, rfl⟩, rfl⟩ := hi
  exact ⟨rfl, rfl⟩

/-- A master that reads the height/width word again and again, with a write to it on offer all the time. -/
def reader : List CoreLiteIn := core (List.replicate 11 { quietLite with arvalid := true, araddr := 8192, awvalid := true, awaddr := 8192 })

example : (∀ i ∈ reader.map (false, ·), i.2.bus.arvalid = true) ∧ CoreAxi 12 false (.init fun _ => 0) reader ∧
    (coreLiteTraceRst 12 false (.init fun _ => 0) (reader.map (false, ·))).flatMap (·.2) = [.ar 8192, .r 0 0, .ar 8192, .r 0 0] := by
  refine ⟨?_, ?_, by decide +kernel⟩
  · intro i hi
    simp only [reader, core, List.mem_map, List.mem_replicate] at hi
    obtain ⟨_, ⟨b, ⟨_, rfl⟩, rfl⟩, rfl⟩ := hi
    rfl
  · simp [CoreAxi, axiNext_iff, reader, core, quietLite, List.replicate]

/-- A response is offered after the first five of these cycles. -/
example : (coreRunRst 12 false (.init fun _ => 0) ((reader.take 5).map (false, ·))).rvalid = true ∧
    (dmaRun .init (List.replicate 3 ⟨{ quietLite with arvalid := true, araddr := 4096 }, fun _ => 0⟩)).rvalid = true := by decide +kernel

end Props.LiteAxi
