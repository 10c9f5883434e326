/- Property theorems C37 (progress), C53: AXI-lite transactions complete, and the effect of a core reset on them. -/
import Verif.Props.Lite

set_option autoImplicit false

namespace Props
open Model Spec Proof

theorem coreLiteRun_append (bd : Nat) (debug : Bool) : ∀ (xs ys : List CoreLiteIn) (s : CoreLite),
    coreLiteRun bd debug s (xs ++ ys) = coreLiteRun bd debug (coreLiteRun bd debug s xs) ys
  | [], _, _ => rfl
  | _ :: xs, ys, _ => coreLiteRun_append bd debug xs ys _

theorem coreLiteTransfers_append (bd : Nat) (debug : Bool) : ∀ (xs ys : List CoreLiteIn) (s : CoreLite),
    coreLiteTransfers bd debug s (xs ++ ys) =
      coreLiteTransfers bd debug s xs ++ coreLiteTransfers bd debug (coreLiteRun bd debug s xs) ys
  | [], _, _ => rfl
  | x :: xs, ys, s => by
    have := coreLiteTransfers_append bd debug xs ys (s.cyc bd debug x)
    simp only [coreLiteTransfers, List.cons_append, coreLiteTrace, List.flatMap_cons, List.append_assoc] at *
    rw [this]
    rfl

theorem coreLiteMaster_left (bd : Nat) (debug : Bool) : ∀ (xs ys : List CoreLiteIn) (s : CoreLite),
    CoreLiteMaster bd debug s (xs ++ ys) → CoreLiteMaster bd debug s xs
  | [], _, _, _ => trivial
  | [_], _, _, _ => trivial
  | _ :: y :: xs, ys, _, h => ⟨h.1, coreLiteMaster_left bd debug (y :: xs) ys _ h.2⟩

/-- The invariant before the last cycle of a run. -/
theorem coreLite_inv_last {bd : Nat} {debug : Bool} (hbd : bd ≤ 16) : ∀ (is : List CoreLiteIn) (q : CoreLiteIn) (s : CoreLite)
    (live : Nat → Nat) (g : CoreRegs) (p : BusPhase), (∀ i r, is ++ [q] = i :: r → CoreLiteInv bd debug s i.bus live g p) →
    CoreLiteMaster bd debug s (is ++ [q]) →
    ∃ live', CoreLiteInv bd debug (coreLiteRun bd debug s is) q.bus live'
      (regsAfter (coreMap bd debug) (g, p) (coreLiteTransfers bd debug s is)).1
      (regsAfter (coreMap bd debug) (g, p) (coreLiteTransfers bd debug s is)).2
  | [], q, s, live, g, p, hi, _ => ⟨live, hi q [] rfl⟩
  | i :: r, q, s, live, g, p, hi, hm => by
    obtain ⟨g1, p1, e1, e2⟩ := coreLite_step hbd (hi i _ rfl)
    obtain ⟨j, r', hr⟩ : ∃ j r', r ++ [q] = j :: r' := by cases r <;> simp
    have hm' : MasterNext s.out i.bus j.bus ∧ CoreLiteMaster bd debug (s.cyc bd debug i) (j :: r') := by
      rw [List.cons_append, hr] at hm; exact hm
    obtain ⟨l, hl⟩ := coreLite_inv_last (debug := debug) hbd r q (s.cyc bd debug i) i.dbg g1 p1
      (by rintro a b hab; rw [hr] at hab; injection hab with h1 h2; subst h1; exact e2 _ hm'.1) (by rw [hr]; exact hm'.2)
    refine ⟨l, ?_⟩
    have := (busEvs_accepted e1).2
    rw [show coreLiteTransfers bd debug s (i :: r) = liteEvents s.out i.bus ++ coreLiteTransfers bd debug (s.cyc bd debug i) r by
      simp [coreLiteTransfers, coreLiteTrace], regsAfter_append, ← this]
    exact hl

/-- No transaction is in progress: every transaction of the history has got its response, and the
master starts none in the last cycle `q`. -/
structure QuietAfter (bd : Nat) (debug : Bool) (table : Nat → Nat) (is : List CoreLiteIn) (q : CoreLiteIn) : Prop where
  master : CoreLiteMaster bd debug (.init table) (is ++ [q])
  noAr : q.bus.arvalid = false
  noAw : q.bus.awvalid = false
  answered : (regsAfter (coreMap bd debug) (resetRegs table, .idle)
    (coreLiteTransfers bd debug (.init table) (is ++ [q]))).2 = .idle

theorem quiet_idle {bd : Nat} {debug : Bool} (hbd : bd ≤ 16) {table : Nat → Nat} (ht : ∀ k, table k < 2 ^ (bd + 21))
    {is : List CoreLiteIn} {q : CoreLiteIn} (h : QuietAfter bd debug table is q) :
    (coreLiteRun bd debug (.init table) (is ++ [q])).fsm = .idle ∧
    (coreLiteRun bd debug (.init table) (is ++ [q])).wpEn = false ∧
    (coreLiteRun bd debug (.init table) (is ++ [q])).arready = false ∧
    (coreLiteRun bd debug (.init table) (is ++ [q])).awready = false ∧
    (coreLiteRun bd debug (.init table) (is ++ [q])).wready = false ∧
    (coreLiteRun bd debug (.init table) (is ++ [q])).rvalid = false ∧
    (coreLiteRun bd debug (.init table) (is ++ [q])).bvalid = false := by
  obtain ⟨l, hl⟩ := coreLite_inv_last hbd is q (.init table) (fun _ => 0) (resetRegs table) .idle (fun i r _ =>
    ⟨⟨Nat.two_pow_pos _, Nat.two_pow_pos _, ht⟩, rfl, rfl, fun _ => rfl, fun _ => ⟨rfl, rfl⟩, fun _ _ => rfl, fun _ => ⟨rfl, rfl, rfl⟩, rfl⟩)
    h.master
  have ha := h.answered
  rw [coreLiteTransfers_append, regsAfter_append] at ha
  rw [coreLiteRun_append]
  generalize coreLiteRun bd debug (.init table) is = s at *
  generalize regsAfter (coreMap bd debug) (resetRegs table, .idle) (coreLiteTransfers bd debug (.init table) is) = st at *
  obtain ⟨g, p⟩ := st
  obtain ⟨g1, p1, e1, e2⟩ := coreLite_step hbd hl
  have hp := (busEvs_accepted e1).2
  rw [show coreLiteTransfers bd debug s [q] = liteEvents s.out q.bus by simp [coreLiteTransfers, coreLiteTrace]] at ha
  have hp1 : p1 = .idle := by
    have := congrArg Prod.snd hp
    simp only at this
    rw [this]; exact ha
  subst hp1
  have h1 := h.noAr
  have h2 := h.noAw
  let j : LiteIn := { q.bus with wvalid := q.bus.wvalid && !s.wready }
  have hj : MasterNext s.out q.bus j := by
    refine ⟨fun h _ => ⟨h, rfl⟩, fun h _ => ⟨h, rfl⟩, fun h h' => ⟨?_, rfl, rfl⟩, fun h h' => ?_, fun h _ => h, fun h _ => h⟩
    · have : s.wready = false := h'
      simp [j, h, this]
    · have : s.wready = true := h'
      simp [j, this]
  have hk := e2 j hj
  simp only [coreLiteRun]
  have hf : (s.cyc bd debug q).fsm = .idle := by
    have hjar : j.arvalid = false := h1
    have hjaw : j.awvalid = false := h2
    obtain ⟨_, _, _, _, _, _, _, k⟩ := hk
    generalize (s.cyc bd debug q) = t at k
    cases ht : t.fsm <;> rw [ht] at k <;> simp [hjar, hjaw] at k ⊢
  obtain ⟨_, k1, k2, k5, _, k3, _, k4⟩ := hk
  rw [hf] at k1 k2 k3 k4 k5
  refine ⟨hf, k5 (by decide), k1, k2, k3 (by decide) (by decide), ?_⟩
  generalize s.cyc bd debug q = t at *
  dsimp only at k4
  by_cases hr : t.rvalid = true
  · rw [if_pos hr] at k4
    obtain ⟨_, _, a, k, _⟩ := k4
    cases k
  · rw [if_neg hr] at k4
    by_cases hb : t.bvalid = true
    · rw [if_pos hb] at k4
      cases k4.2
    · simp [hr, hb]

/-- C37: a read offered when no transaction is in progress completes: the address is accepted in the
third cycle and the data are delivered in the sixth, if the master is ready for them. -/
theorem C37_read_completes {bd : Nat} {debug : Bool} (hbd : bd ≤ 16) {table : Nat → Nat} (ht : ∀ k, table k < 2 ^ (bd + 21))
    {is : List CoreLiteIn} {q : CoreLiteIn} (h : QuietAfter bd debug table is q) (a : Nat) (i0 i1 i2 i3 i4 i5 : CoreLiteIn)
    (h0 : i0.bus.arvalid = true ∧ i0.bus.araddr = a) (h1 : i1.bus.arvalid = true ∧ i1.bus.araddr = a)
    (h2 : i2.bus.arvalid = true ∧ i2.bus.araddr = a) (hr4 : i4.bus.rready = true) (hr5 : i5.bus.rready = true) :
    ∃ d c, coreLiteTransfers bd debug (.init table) (is ++ [q] ++ [i0, i1, i2, i3, i4, i5]) =
      coreLiteTransfers bd debug (.init table) (is ++ [q]) ++ [.ar a, .r d c] := by
  rw [coreLiteTransfers_append]
  obtain ⟨e1, e7, e2, e3, e4, e5, e6⟩ := quiet_idle hbd ht h
  generalize coreLiteRun bd debug (.init table) (is ++ [q]) = s at *
  obtain ⟨fsm, addr, arready, rvalid, awready, wready, bvalid, rdata, rresp, bresp, hw, allowed, rpAddr, wpAddr, wpData,
    wpEn, rpLatch, mem⟩ := s
  obtain rfl : fsm = .idle := e1
  obtain rfl : wpEn = false := e7
  obtain rfl : arready = false := e2
  obtain rfl : awready = false := e3
  obtain rfl : wready = false := e4
  obtain rfl : rvalid = false := e5
  obtain rfl : bvalid = false := e6
  obtain ⟨⟨arv0, ara0, rr0, awv0, awa0, wv0, wd0, ws0, br0⟩, dbg0⟩ := i0
  obtain ⟨⟨arv1, ara1, rr1, awv1, awa1, wv1, wd1, ws1, br1⟩, dbg1⟩ := i1
  obtain ⟨⟨arv2, ara2, rr2, awv2, awa2, wv2, wd2, ws2, br2⟩, dbg2⟩ := i2
  obtain ⟨⟨arv4, ara4, rr4, awv4, awa4, wv4, wd4, ws4, br4⟩, dbg4⟩ := i4
  obtain ⟨⟨arv5, ara5, rr5, awv5, awa5, wv5, wd5, ws5, br5⟩, dbg5⟩ := i5
  obtain ⟨rfl, rfl⟩ : arv0 = true ∧ ara0 = a := h0
  obtain ⟨rfl, rfl⟩ : arv1 = true ∧ ara1 = ara0 := h1
  obtain ⟨rfl, rfl⟩ : arv2 = true ∧ ara2 = ara1 := h2
  obtain rfl : rr4 = true := hr4
  obtain rfl : rr5 = true := hr5
  obtain ⟨x, y, hxy⟩ := readData_frame bd debug
    ⟨.rdData, ara2 / 4, false, false, false, false, false, rdata, rresp, bresp, hw, allowed, ara2 / 8 % 32, wpAddr, wpData,
      false, ara2 / 8 % 32, mem⟩
    (CoreLite.stepMem ⟨.rdData, ara2 / 4, false, false, false, false, false, rdata, rresp, bresp, hw, allowed, ara2 / 8 % 32, wpAddr, wpData,
      false, ara2 / 8 % 32, mem⟩) dbg4
  refine ⟨x, y, ?_⟩
  congr 1
  simp only [CoreLite.stepMem, Bool.false_eq_true, if_false] at hxy
  simp [coreLiteTransfers, coreLiteTrace, CoreLite.cyc, CoreLite.step, CoreLite.stepFsm, CoreLite.stepMem, liteEvents, CoreLite.out, hxy]

/-- C37: a write offered when no transaction is in progress completes: the address is accepted in the
third cycle, the data in the sixth and the response is delivered in the seventh, if the master is
ready for it. -/
theorem C37_write_completes {bd : Nat} {debug : Bool} (hbd : bd ≤ 16) {table : Nat → Nat} (ht : ∀ k, table k < 2 ^ (bd + 21))
    {is : List CoreLiteIn} {q : CoreLiteIn} (h : QuietAfter bd debug table is q) (a d st : Nat) (i0 i1 i2 i3 i4 i5 i6 : CoreLiteIn)
    (hr : i0.bus.arvalid = false)
    (h0 : i0.bus.awvalid = true ∧ i0.bus.awaddr = a) (h1 : i1.bus.awvalid = true ∧ i1.bus.awaddr = a)
    (h2 : i2.bus.awvalid = true ∧ i2.bus.awaddr = a)
    (h4 : i4.bus.wvalid = true ∧ i4.bus.wdata = d ∧ i4.bus.wstrb = st) (h5 : i5.bus.wvalid = true ∧ i5.bus.wdata = d ∧ i5.bus.wstrb = st)
    (hr5 : i5.bus.bready = true) (hr6 : i6.bus.bready = true) :
    ∃ c, coreLiteTransfers bd debug (.init table) (is ++ [q] ++ [i0, i1, i2, i3, i4, i5, i6]) =
      coreLiteTransfers bd debug (.init table) (is ++ [q]) ++ [.aw a, .w d st, .b c] := by
  rw [coreLiteTransfers_append]
  obtain ⟨e1, e7, e2, e3, e4, e5, e6⟩ := quiet_idle hbd ht h
  generalize coreLiteRun bd debug (.init table) (is ++ [q]) = s at *
  obtain ⟨fsm, addr, arready, rvalid, awready, wready, bvalid, rdata, rresp, bresp, hw, allowed, rpAddr, wpAddr, wpData,
    wpEn, rpLatch, mem⟩ := s
  obtain rfl : fsm = .idle := e1
  obtain rfl : wpEn = false := e7
  obtain rfl : arready = false := e2
  obtain rfl : awready = false := e3
  obtain rfl : wready = false := e4
  obtain rfl : rvalid = false := e5
  obtain rfl : bvalid = false := e6
  obtain ⟨⟨arv0, ara0, rr0, awv0, awa0, wv0, wd0, ws0, br0⟩, dbg0⟩ := i0
  obtain ⟨⟨arv1, ara1, rr1, awv1, awa1, wv1, wd1, ws1, br1⟩, dbg1⟩ := i1
  obtain ⟨⟨arv2, ara2, rr2, awv2, awa2, wv2, wd2, ws2, br2⟩, dbg2⟩ := i2
  obtain ⟨⟨arv4, ara4, rr4, awv4, awa4, wv4, wd4, ws4, br4⟩, dbg4⟩ := i4
  obtain ⟨⟨arv5, ara5, rr5, awv5, awa5, wv5, wd5, ws5, br5⟩, dbg5⟩ := i5
  obtain ⟨⟨arv6, ara6, rr6, awv6, awa6, wv6, wd6, ws6, br6⟩, dbg6⟩ := i6
  obtain rfl : arv0 = false := hr
  obtain ⟨rfl, rfl⟩ : awv0 = true ∧ awa0 = a := h0
  obtain ⟨rfl, rfl⟩ : awv1 = true ∧ awa1 = awa0 := h1
  obtain ⟨rfl, rfl⟩ : awv2 = true ∧ awa2 = awa1 := h2
  obtain ⟨rfl, rfl, rfl⟩ : wv4 = true ∧ wd4 = d ∧ ws4 = st := h4
  obtain ⟨rfl, rfl, rfl⟩ : wv5 = true ∧ wd5 = wd4 ∧ ws5 = ws4 := h5
  obtain rfl : br5 = true := hr5
  obtain rfl : br6 = true := hr6
  have hf := writeData_frame bd debug
    ⟨.wrData, awa2 / 4, false, false, false, false, false, rdata, rresp, bresp, hw, allowed, awa2 / 8 % 32, wpAddr, wpData,
      false, awa2 / 8 % 32, mem⟩
    ⟨.wrData, awa2 / 4, false, false, false, true, false, rdata, rresp, bresp, hw, allowed, awa2 / 8 % 32, wpAddr, wpData,
      false, awa2 / 8 % 32, mem⟩ ⟨arv4, ara4, rr4, awv4, awa4, true, wd5, ws5, br4⟩
  generalize hg : CoreLite.writeData bd debug
    ⟨.wrData, awa2 / 4, false, false, false, false, false, rdata, rresp, bresp, hw, allowed, awa2 / 8 % 32, wpAddr, wpData,
      false, awa2 / 8 % 32, mem⟩
    ⟨.wrData, awa2 / 4, false, false, false, true, false, rdata, rresp, bresp, hw, allowed, awa2 / 8 % 32, wpAddr, wpData,
      false, awa2 / 8 % 32, mem⟩ ⟨arv4, ara4, rr4, awv4, awa4, true, wd5, ws5, br4⟩ = r at hf
  refine ⟨r.bresp, ?_⟩
  congr 1
  simp [coreLiteTransfers, coreLiteTrace, CoreLite.cyc, CoreLite.step, CoreLite.stepFsm, CoreLite.stepMem, liteEvents, CoreLite.out, hg, hf]

/-- C37 (limit of the code): the read response is not offered before the master is ready for it. A
master that waits for `rvalid` before it asserts `rready`, as AXI allows, waits for ever. -/
theorem C37_read_waits_for_ready (bd : Nat) (debug : Bool) (table : Nat → Nat) (is : List CoreLiteIn)
    (h : ∀ i ∈ is, i.bus.rready = false) : (coreLiteRun bd debug (.init table) is).rvalid = false := by
  suffices hs : ∀ (is : List CoreLiteIn) (s : CoreLite), s.rvalid = false → (∀ i ∈ is, i.bus.rready = false) →
      (coreLiteRun bd debug s is).rvalid = false from hs is _ rfl h
  intro is
  induction is with
  | nil => intro s h _; exact h
  | cons i r ih =>
    intro s h hi
    refine ih _ ?_ (fun j hj => hi j (List.mem_cons_of_mem _ hj))
    have hr := hi i (List.mem_cons_self ..)
    have hw := writeData_frame bd debug s { s.stepMem with wready := true } i.bus
    obtain ⟨x, y, hxy⟩ := readData_frame bd debug s s.stepMem i.dbg
    cases hf : s.fsm <;> simp [CoreLite.cyc, CoreLite.step, CoreLite.stepFsm, hf, hr, hxy]
    · split
      · rfl
      · split <;> rfl
    all_goals first | exact h | skip
    · split
      · exact hw.2.2.1.trans h
      · exact h
    · split <;> exact h

/-- One cycle with the reset of the core (asserted at the end of every frame) as an input. -/
def coreLiteTraceRst (bd : Nat) (debug : Bool) : CoreLite → List (Bool × CoreLiteIn) → List ((Nat → Nat) × List BusEv)
  | _, [] => []
  | s, (rst, i) :: r => (i.dbg, liteEvents s.out i.bus) :: coreLiteTraceRst bd debug (s.step bd debug rst i.bus i.dbg) r

/-- The master behaves, with the reset as an input. -/
def CoreLiteMasterRst (bd : Nat) (debug : Bool) : CoreLite → List (Bool × CoreLiteIn) → Prop
  | s, (rst, i) :: (rst', j) :: r =>
    MasterNext s.out i.bus j.bus ∧ CoreLiteMasterRst bd debug (s.step bd debug rst i.bus i.dbg) ((rst', j) :: r)
  | _, _ => True

theorem coreLiteTraceRst_false (bd : Nat) (debug : Bool) : ∀ (is : List CoreLiteIn) (s : CoreLite),
    coreLiteTraceRst bd debug s (is.map (false, ·)) = coreLiteTrace bd debug s is
  | [], _ => rfl
  | i :: is, s => by
    rw [List.map_cons, coreLiteTraceRst, coreLiteTrace, coreLiteTraceRst_false bd debug is]
    rfl

/-- A quiet master. -/
def quietLite : LiteIn := ⟨false, 0, true, false, 0, false, 0, 0, true⟩

/-- The hypotheses of the theorems above are met: write the height/width word (byte address 8192),
read it back, be quiet for a cycle. -/
def liteDemo : List CoreLiteIn :=
  (List.replicate 3 { quietLite with awvalid := true, awaddr := 8192, wvalid := true, wdata := 0x01000200, wstrb := 15 } ++
   List.replicate 3 { quietLite with wvalid := true, wdata := 0x01000200, wstrb := 15 } ++ [quietLite] ++
   List.replicate 3 { quietLite with arvalid := true, araddr := 8192 } ++ List.replicate 3 quietLite).map (⟨·, fun _ => 0⟩)

example : coreLiteTransfers 12 false (.init fun _ => 0) liteDemo =
    [.aw 8192, .w 0x01000200 15, .b 0, .ar 8192, .r 0x01000200 0] := by decide +kernel

example : HwWord 12 8192 ∧ CyclesWord 12 8196 ∧ TableWord 12 4096 0 0 ∧ TableWord 12 4108 1 1 ∧ Unmapped 12 false 0 := by
  refine ⟨⟨?_, ?_, ?_⟩, ⟨?_, ?_, ?_⟩, ⟨?_, ?_, ?_⟩, ⟨?_, ?_, ?_⟩, ⟨?_, ?_, ?_⟩⟩ <;> decide

/-- Read the height/width word while a frame ends: the core is reset in the second cycle. -/
def resetDemo : List (Bool × CoreLiteIn) :=
  [(false, { quietLite with arvalid := true, araddr := 8192 }), (true, { quietLite with arvalid := true, araddr := 8192 }),
   (false, { quietLite with arvalid := true, araddr := 8192 }), (false, quietLite), (false, quietLite), (false, quietLite),
   (false, quietLite), (false, quietLite)].map fun p => (p.1, ⟨p.2, fun _ => 0⟩)

/-- C53: C37 does not survive the reset the core gives itself at the end of a frame. With a
well-behaved master, a read of the height/width word that is under way when the frame ends is
answered with the data of another address (here with a decode error): no history of the register map
explains the transfers. -/
theorem C53_reset_breaks_reads : ∃ (is : List (Bool × CoreLiteIn)),
    CoreLiteMasterRst 12 false (.init fun _ => 0) is ∧
    (coreLiteTraceRst 12 false (.init fun _ => 0) is).flatMap (·.2) = [.ar 8192, .r 0 3] ∧
    ∀ live, busRun (coreMap 12 false) live (resetRegs fun _ => 0, .idle) (coreLiteTraceRst 12 false (.init fun _ => 0) is) = none := by
  have hn : ∀ {o : LiteOut} {i j : LiteIn}, (i.arvalid = true → o.arready = false → j.arvalid = true ∧ j.araddr = i.araddr) →
      i.awvalid = false → i.wvalid = false → j.rready = true → j.bready = true → MasterNext o i j := by
    intro o i j h1 h2 h3 h4 h5
    exact ⟨h1, fun h => by simp [h2] at h, fun h => by simp [h3] at h, fun h => by simp [h3] at h, fun _ _ => h4, fun _ _ => h5⟩
  refine ⟨resetDemo, ?_, by decide +kernel, ?_⟩
  · refine ⟨hn ?_ rfl rfl rfl rfl, hn ?_ rfl rfl rfl rfl, hn ?_ rfl rfl rfl rfl, hn ?_ rfl rfl rfl rfl, hn ?_ rfl rfl rfl rfl,
      hn ?_ rfl rfl rfl rfl, hn ?_ rfl rfl rfl rfl, trivial⟩ <;> decide
  · intro live
    cases hb : busRun (coreMap 12 false) live (resetRegs fun _ => 0, .idle)
      (coreLiteTraceRst 12 false (.init fun _ => 0) resetDemo) with
    | none => rfl
    | some st =>
      have h := (busRun_accepted hb).1
      rw [show (coreLiteTraceRst 12 false (.init fun _ => 0) resetDemo).flatMap (·.2) = [] ++ [.ar 8192, .r 0 3] ++ [] by
        decide +kernel] at h
      obtain ⟨g, l, _, h1, _⟩ := accepted_read h
      have e1 : inTable 12 8192 = false := by decide
      have e2 : inHw 8192 = true := by decide
      simp only [coreMap, e1, e2, Bool.false_eq_true, if_false, if_true] at h1
      cases h1

end Props
