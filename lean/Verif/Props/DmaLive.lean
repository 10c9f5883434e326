/- Property C39, progress: transactions on the DMA register bus complete. -/
import Verif.Props.DmaLite

set_option autoImplicit false

namespace Props
open Model Spec Proof

theorem dmaRun_append : ∀ (xs ys : List DmaIn) (s : DmaLite), dmaRun s (xs ++ ys) = dmaRun (dmaRun s xs) ys
  | [], _, _ => rfl
  | _ :: xs, ys, _ => dmaRun_append xs ys _

theorem dmaTransfers_append : ∀ (xs ys : List DmaIn) (s : DmaLite),
    dmaTransfers s (xs ++ ys) = dmaTransfers s xs ++ dmaTransfers (dmaRun s xs) ys
  | [], _, _ => rfl
  | x :: xs, ys, s => by
    have := dmaTransfers_append xs ys (s.cyc x)
    simp only [dmaTransfers, List.cons_append, dmaTrace, List.flatMap_cons, List.append_assoc] at *
    rw [this]
    rfl

/-- The invariant before the last cycle of a run. -/
theorem dma_inv_last : ∀ (is : List DmaIn) (q : DmaIn) (s : DmaLite) (live : Nat → Nat) (g : DmaRegs) (p : BusPhase),
    (∀ i r, is ++ [q] = i :: r → DmaInv s i.bus live g p) → DmaMaster s (is ++ [q]) →
    ∃ live', DmaInv (dmaRun s is) q.bus live' (regsAfter dmaMap (g, p) (dmaTransfers s is)).1
      (regsAfter dmaMap (g, p) (dmaTransfers s is)).2
  | [], q, s, live, g, p, hi, _ => ⟨live, hi q [] rfl⟩
  | i :: r, q, s, live, g, p, hi, hm => by
    obtain ⟨g1, p1, e1, e2⟩ := dma_step (hi i _ rfl)
    obtain ⟨j, r', hr⟩ : ∃ j r', r ++ [q] = j :: r' := by cases r <;> simp
    have hm' : MasterNext s.out i.bus j.bus ∧ DmaMaster (s.cyc i) (j :: r') := by
      rw [List.cons_append, hr] at hm; exact hm
    obtain ⟨l, hl⟩ := dma_inv_last r q (s.cyc i) i.ins g1 p1
      (by rintro a b hab; rw [hr] at hab; injection hab with h1 h2; subst h1; exact e2 _ hm'.1) (by rw [hr]; exact hm'.2)
    refine ⟨l, ?_⟩
    have := (busEvs_accepted e1).2
    rw [show dmaTransfers s (i :: r) = liteEvents s.out i.bus ++ dmaTransfers (s.cyc i) r by
      simp [dmaTransfers, dmaTrace], regsAfter_append, ← this]
    exact hl

/-- No transaction is in progress: every transaction of the history has got its response, and the master starts none in
the last cycle `q`. -/
structure DmaQuiet (is : List DmaIn) (q : DmaIn) : Prop where
  master : DmaMaster .init (is ++ [q])
  noAr : q.bus.arvalid = false
  noAw : q.bus.awvalid = false
  answered : (regsAfter dmaMap (⟨0, 0, 0⟩, .idle) (dmaTransfers .init (is ++ [q]))).2 = .idle

theorem dmaQuiet_idle {is : List DmaIn} {q : DmaIn} (h : DmaQuiet is q) :
    (dmaRun .init (is ++ [q])).fsm = .idle ∧ (dmaRun .init (is ++ [q])).arready = false ∧
    (dmaRun .init (is ++ [q])).awready = false ∧ (dmaRun .init (is ++ [q])).wready = false ∧
    (dmaRun .init (is ++ [q])).rvalid = false ∧ (dmaRun .init (is ++ [q])).bvalid = false := by
  obtain ⟨l, hl⟩ := dma_inv_last is q .init (fun _ => 0) ⟨0, 0, 0⟩ .idle (fun i r _ =>
    ⟨⟨by decide, by decide, by decide⟩, fun _ => rfl, fun _ => rfl, fun _ => ⟨rfl, rfl⟩, fun _ _ => rfl, fun _ => ⟨rfl, rfl, rfl⟩, rfl⟩)
    h.master
  have ha := h.answered
  rw [dmaTransfers_append, regsAfter_append] at ha
  rw [dmaRun_append]
  generalize dmaRun .init is = s at *
  generalize regsAfter dmaMap (⟨0, 0, 0⟩, .idle) (dmaTransfers .init is) = st at *
  obtain ⟨g, p⟩ := st
  obtain ⟨g1, p1, e1, e2⟩ := dma_step hl
  have hp := (busEvs_accepted e1).2
  rw [show dmaTransfers s [q] = liteEvents s.out q.bus by simp [dmaTransfers, dmaTrace]] at ha
  have hp1 : p1 = .idle := by
    have := congrArg Prod.snd hp
    simp only at this
    rw [this]; exact ha
  subst hp1
  have h1 := h.noAr
  have h2 := h.noAw
  let j : LiteIn := { q.bus with wvalid := q.bus.wvalid && !s.wready }
  have hj : MasterNext s.out q.bus j := by
    refine ⟨fun h _ => ⟨h, rfl⟩, fun h _ => ⟨h, rfl⟩, fun h h' => ⟨?_, rfl, rfl⟩, fun h h' => ?_, fun h _ => h, fun h _ => h⟩
    · have : s.wready = false := h'
      simp [j, h, this]
    · have : s.wready = true := h'
      simp [j, this]
  have hk := e2 j hj
  simp only [dmaRun]
  have hf : (s.cyc q).fsm = .idle := by
    have hjar : j.arvalid = false := h1
    have hjaw : j.awvalid = false := h2
    obtain ⟨_, _, _, _, _, _, k⟩ := hk
    generalize (s.cyc q) = t at k
    cases ht : t.fsm <;> rw [ht] at k <;> simp [hjar, hjaw] at k ⊢
  obtain ⟨_, k1, k2, _, k3, _, k4⟩ := hk
  rw [hf] at k1 k2 k3 k4
  refine ⟨hf, k1 (by decide), k2 (by decide), k3 (by decide) (by decide), ?_⟩
  generalize s.cyc q = t at *
  dsimp only at k4
  by_cases hr : t.rvalid = true
  · rw [if_pos hr] at k4
    obtain ⟨_, _, a, k, _⟩ := k4
    cases k
  · rw [if_neg hr] at k4
    by_cases hb : t.bvalid = true
    · rw [if_pos hb] at k4
      cases k4.2
    · simp [hr, hb]

theorem dmaRead_frame (s r : DmaLite) (ins : Nat → Nat) : ∃ x y, s.readData r ins = { r with rdata := x, rresp := y } := by
  unfold DmaLite.readData
  split
  · split
    · exact ⟨_, _, rfl⟩
    · exact ⟨_, _, rfl⟩
    · exact ⟨_, _, rfl⟩
    · split
      · exact ⟨_, _, rfl⟩
      · exact ⟨r.rdata, _, rfl⟩
  · exact ⟨r.rdata, _, rfl⟩

theorem dmaWrite_frame (s r : DmaLite) (i : LiteIn) : ∃ x y z w, s.writeData r i = { r with bresp := x, readAddr := y, writeAddr := z, start := w } := by
  unfold DmaLite.writeData
  split
  · split
    · exact ⟨_, _, r.writeAddr, r.start, rfl⟩
    · exact ⟨_, r.readAddr, _, r.start, rfl⟩
    · exact ⟨_, r.readAddr, r.writeAddr, _, rfl⟩
    · split
      · exact ⟨_, r.readAddr, r.writeAddr, r.start, rfl⟩
      · exact ⟨_, r.readAddr, r.writeAddr, r.start, rfl⟩
  · exact ⟨_, r.readAddr, r.writeAddr, r.start, rfl⟩

/-- C39: a read offered when no transaction is in progress completes: the address is accepted in the third cycle and the
data are delivered in the fourth, if the master is ready for them. -/
theorem C39_read_completes {is : List DmaIn} {q : DmaIn} (h : DmaQuiet is q) (a : Nat) (i0 i1 i2 i3 : DmaIn)
    (h0 : i0.bus.arvalid = true) (h1 : i1.bus.arvalid = true ∧ i1.bus.araddr = a)
    (h2 : i2.bus.arvalid = true ∧ i2.bus.araddr = a) (hr2 : i2.bus.rready = true) (hr3 : i3.bus.rready = true) :
    ∃ d c, dmaTransfers .init (is ++ [q] ++ [i0, i1, i2, i3]) = dmaTransfers .init (is ++ [q]) ++ [.ar a, .r d c] := by
  rw [dmaTransfers_append]
  obtain ⟨e1, e2, e3, e4, e5, e6⟩ := dmaQuiet_idle h
  generalize dmaRun .init (is ++ [q]) = s at *
  obtain ⟨fsm, addr, arready, rvalid, awready, wready, bvalid, rdata, rresp, bresp, ra, wa, sta⟩ := s
  obtain rfl : fsm = .idle := e1
  obtain rfl : arready = false := e2
  obtain rfl : awready = false := e3
  obtain rfl : wready = false := e4
  obtain rfl : rvalid = false := e5
  obtain rfl : bvalid = false := e6
  obtain ⟨⟨arv0, ara0, rr0, awv0, awa0, wv0, wd0, ws0, br0⟩, dbg0⟩ := i0
  obtain ⟨⟨arv1, ara1, rr1, awv1, awa1, wv1, wd1, ws1, br1⟩, dbg1⟩ := i1
  obtain ⟨⟨arv2, ara2, rr2, awv2, awa2, wv2, wd2, ws2, br2⟩, dbg2⟩ := i2
  obtain ⟨⟨arv3, ara3, rr3, awv3, awa3, wv3, wd3, ws3, br3⟩, dbg3⟩ := i3
  obtain rfl : arv0 = true := h0
  obtain ⟨rfl, rfl⟩ : arv1 = true ∧ ara1 = a := h1
  obtain ⟨rfl, rfl⟩ : arv2 = true ∧ ara2 = ara1 := h2
  obtain rfl : rr2 = true := hr2
  obtain rfl : rr3 = true := hr3
  obtain ⟨x, y, hxy⟩ := dmaRead_frame
    ⟨.rdData, ara2 / 4, true, false, false, false, false, rdata, rresp, bresp, ra, wa, sta⟩
    ⟨.rdData, ara2 / 4, false, false, false, false, false, rdata, rresp, bresp, ra, wa, sta⟩ dbg2
  refine ⟨x, y, ?_⟩
  congr 1
  simp [dmaTransfers, dmaTrace, DmaLite.cyc, DmaLite.step, liteEvents, DmaLite.out, hxy]

/-- C39: a write offered when no transaction is in progress completes: the address is accepted in the third cycle, the data
in the fourth and the response is delivered in the fifth, if the master is ready for it. -/
theorem C39_write_completes {is : List DmaIn} {q : DmaIn} (h : DmaQuiet is q) (a d st : Nat) (i0 i1 i2 i3 i4 : DmaIn)
    (hr : i0.bus.arvalid = false) (h0 : i0.bus.awvalid = true) (h1 : i1.bus.awvalid = true ∧ i1.bus.awaddr = a)
    (h2 : i2.bus.awvalid = true ∧ i2.bus.awaddr = a) (hw2 : i2.bus.wvalid = true ∧ i2.bus.wdata = d ∧ i2.bus.wstrb = st)
    (hw3 : i3.bus.wvalid = true ∧ i3.bus.wdata = d ∧ i3.bus.wstrb = st) (hr3 : i3.bus.bready = true) (hr4 : i4.bus.bready = true) :
    ∃ c, dmaTransfers .init (is ++ [q] ++ [i0, i1, i2, i3, i4]) = dmaTransfers .init (is ++ [q]) ++ [.aw a, .w d st, .b c] := by
  rw [dmaTransfers_append]
  obtain ⟨e1, e2, e3, e4, e5, e6⟩ := dmaQuiet_idle h
  generalize dmaRun .init (is ++ [q]) = s at *
  obtain ⟨fsm, addr, arready, rvalid, awready, wready, bvalid, rdata, rresp, bresp, ra, wa, sta⟩ := s
  obtain rfl : fsm = .idle := e1
  obtain rfl : arready = false := e2
  obtain rfl : awready = false := e3
  obtain rfl : wready = false := e4
  obtain rfl : rvalid = false := e5
  obtain rfl : bvalid = false := e6
  obtain ⟨⟨arv0, ara0, rr0, awv0, awa0, wv0, wd0, ws0, br0⟩, dbg0⟩ := i0
  obtain ⟨⟨arv1, ara1, rr1, awv1, awa1, wv1, wd1, ws1, br1⟩, dbg1⟩ := i1
  obtain ⟨⟨arv2, ara2, rr2, awv2, awa2, wv2, wd2, ws2, br2⟩, dbg2⟩ := i2
  obtain ⟨⟨arv3, ara3, rr3, awv3, awa3, wv3, wd3, ws3, br3⟩, dbg3⟩ := i3
  obtain ⟨⟨arv4, ara4, rr4, awv4, awa4, wv4, wd4, ws4, br4⟩, dbg4⟩ := i4
  obtain rfl : arv0 = false := hr
  obtain rfl : awv0 = true := h0
  obtain ⟨rfl, rfl⟩ : awv1 = true ∧ awa1 = a := h1
  obtain ⟨rfl, rfl⟩ : awv2 = true ∧ awa2 = awa1 := h2
  obtain ⟨rfl, rfl, rfl⟩ : wv2 = true ∧ wd2 = d ∧ ws2 = st := hw2
  obtain ⟨rfl, rfl, rfl⟩ : wv3 = true ∧ wd3 = wd2 ∧ ws3 = ws2 := hw3
  obtain rfl : br3 = true := hr3
  obtain rfl : br4 = true := hr4
  obtain ⟨x, y, z, w, hxy⟩ := dmaWrite_frame
    ⟨.wrData, awa2 / 4, false, false, true, false, false, rdata, rresp, bresp, ra, wa, sta⟩
    ⟨.wrData, awa2 / 4, false, false, false, true, false, rdata, rresp, bresp, ra, wa, sta⟩
    ⟨arv2, ara2, rr2, true, awa2, true, wd3, ws3, br2⟩
  refine ⟨x, ?_⟩
  congr 1
  simp [dmaTransfers, dmaTrace, DmaLite.cyc, DmaLite.step, liteEvents, DmaLite.out, hxy]

/-- The hypotheses are met: after the transactions of `dmaDemo` the bus is quiet. -/
example : DmaQuiet dmaDemo ⟨⟨false, 0, true, false, 0, false, 0, 0, true⟩, fun _ => 0⟩ where
  master := by
    have hn : ∀ {o : LiteOut} {i j : LiteIn}, (i.arvalid = true → o.arready = false → j.arvalid = true ∧ j.araddr = i.araddr) →
        (i.awvalid = true → o.awready = false → j.awvalid = true ∧ j.awaddr = i.awaddr) →
        (i.wvalid = true → o.wready = false → j.wvalid = true ∧ j.wdata = i.wdata ∧ j.wstrb = i.wstrb) →
        (i.wvalid = true → o.wready = true → j.wvalid = false) → j.rready = true → j.bready = true → MasterNext o i j :=
      fun h1 h2 h3 h4 h5 h6 => ⟨h1, h2, h3, h4, fun _ _ => h5, fun _ _ => h6⟩
    simp only [dmaDemo, List.replicate, List.cons_append, List.nil_append, List.map_cons, List.map_nil, DmaMaster]
    refine ⟨?_, ?_, ?_, ?_, ?_, ?_, ?_, ?_, ?_, ?_, ?_, ?_, ?_, trivial⟩ <;> refine hn ?_ ?_ ?_ ?_ rfl rfl <;> decide +kernel
  noAr := rfl
  noAw := rfl
  answered := by decide +kernel

end Props
