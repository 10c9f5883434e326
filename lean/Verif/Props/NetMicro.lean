/- The shipped Verilog netlist of the micro core between two AXI streams, with its AXI-lite registers
(verilog_src/micro_integration_axistream.v): C80. -/
import Verif.Netlist.MTop
import Verif.Props.MicroCfg

set_option autoImplicit false

namespace Props
open Spec Model Netlist

/-! ### The ports -/

/-- The input ports in one cycle: external reset, slave stream, `m_tready`, register bus.  (The ports `end_in` and
`end_in$1`, which the source leaves undriven, are low.) -/
structure MicroNetIn where
  rst : Bool
  data : Nat
  valid : Bool
  last : Bool
  ready : Bool
  bus : LiteIn

/-- The output ports in one cycle: `s_tready`, master stream, register bus. -/
structure MicroPorts where
  sReady : Bool
  mValid : Bool
  mData : Nat
  mLast : Bool
  bus : LiteOut
deriving DecidableEq

/-- One clock edge of the netlist. -/
def mnStep (s : MicroAxis.top.S) (i : MicroNetIn) : MicroAxis.top.S :=
  MicroAxis.top.step s i.data i.last i.valid i.rst i.bus.arvalid i.bus.awvalid i.bus.araddr i.bus.rready i.bus.awaddr i.bus.wvalid
    i.bus.wdata i.bus.wstrb i.bus.bready false false i.ready

/-- The output ports of the netlist. -/
def mnPorts (s : MicroAxis.top.S) (ready : Bool) : MicroPorts :=
  { sReady := MicroAxis.top.s_tready s, mValid := MicroAxis.top.m_tvalid s ready, mData := MicroAxis.top.m_tdata s ready
    mLast := MicroAxis.top.m_tlast s ready
    bus := ⟨MicroAxis.top.s_axi_ro__arready s, MicroAxis.top.s_axi_ro__rvalid s, MicroAxis.top.s_axi_ro__rdata s,
      MicroAxis.top.s_axi_ro__rresp s, MicroAxis.top.s_axi_wo__awready s, MicroAxis.top.s_axi_wo__wready s,
      MicroAxis.top.s_axi_wo__bvalid s, MicroAxis.top.s_axi_wo__bresp s⟩ }

/-- The outputs of the netlist, cycle by cycle. -/
def mnOuts : MicroAxis.top.S → List MicroNetIn → List MicroPorts
  | _, [] => []
  | s, i :: r => mnPorts s i.ready :: mnOuts (mnStep s i) r

/-- The state after some cycles. -/
def mnRun : MicroAxis.top.S → List MicroNetIn → MicroAxis.top.S
  | s, [] => s
  | s, i :: r => mnRun (mnStep s i) r

/-- One clock edge of the model of the Python source. -/
def msStep (m : LiteCam) (i : MicroNetIn) : LiteCam :=
  m.microFull microCore i.rst ⟨streamMicroIn i.data i.valid i.ready, i.bus⟩

/-- The output ports of the model (micro_integration_axistream.py:50-61). -/
def msPorts (m : LiteCam) (ready : Bool) : MicroPorts :=
  { sReady := !m.cam.nready, mValid := (m.cam.out (!ready)).valid, mData := (m.cam.out (!ready)).data
    mLast := (m.cam.out (!ready)).endd, bus := m.lite.out }

/-- The outputs of the model, cycle by cycle. -/
def msOuts : LiteCam → List MicroNetIn → List MicroPorts
  | _, [] => []
  | m, i :: r => msPorts m i.ready :: msOuts (msStep m i) r

/-- The initial content of the table memory (encode.py:195). -/
def microTable : Nat → Nat := fun k => (initHuffTable 12).getD k 0

/-! ### The model does not depend on what the memories hold -/

/-- Two states of the model that differ at most in memory words nobody will look at. -/
structure LcSim (s t : LiteCam) : Prop where
  cam : CamSim microCore s.cam t.cam
  left : SizeOk microCore s.cam
  right : SizeOk microCore t.cam
  lite : s.lite = t.lite

theorem microSim_regs {c : CoreCfg} {W H : Nat} {mem : List Nat} {a b : Cam} (h : CamSim c a b) : CamSim (c.withRegs W H mem) a b :=
  ⟨⟨h.core.int1, h.core.pfifo, h.core.conv, h.core.cfifo, h.core.ctl, h.core.vbits⟩, h.rest⟩

theorem microSim_unregs {c : CoreCfg} {W H : Nat} {mem : List Nat} {a b : Cam} (h : CamSim (c.withRegs W H mem) a b) : CamSim c a b :=
  ⟨⟨h.core.int1, h.core.pfifo, h.core.conv, h.core.cfifo, h.core.ctl, h.core.vbits⟩, h.rest⟩

theorem microCore_ps : microCore.int1.ps = 1 ∨ microCore.int1.ps = 2 ∨ microCore.int1.ps = 4 := Or.inl rfl

theorem lcSim_step {s t : LiteCam} (h : LcSim s t) (full : Bool) (i : LiteCamIn) (hi : i.cam.pixels.length = 1) :
    LcSim (s.microFull microCore full i) (t.microFull microCore full i) := by
  obtain ⟨h1, h2, h3, h4⟩ := h
  have hv : i.cam.valid = true → i.cam.pixels.length = microCore.int1.ps := fun _ => hi
  let d : DynIn := ⟨t.lite.width, t.lite.height, (List.range (microCore.int1.bd + 1)).map t.lite.stepMem.mem, t.lite.allowed, i.cam⟩
  have k1 : SizeOk microCore (s.cam.microRun (LiteCam.cfg microCore t.lite) t.lite.allowed i.cam) := MicroCfg.sizeOk_run h2 d hv
  have k2 : SizeOk microCore (t.cam.microRun (LiteCam.cfg microCore t.lite) t.lite.allowed i.cam) := MicroCfg.sizeOk_run h3 d hv
  have r1 := sizeOk_kept k1
  have r2 := sizeOk_kept k2
  cases full
  · simp only [LiteCam.microFull, Bool.false_eq_true, if_false, LiteCam.microStep, h4]
    have hr : s.cam.resetOut = t.cam.resetOut := h1.rest.2.2.2.2
    refine ⟨?_, ?_, ?_, by simp only [hr]⟩
    · simp only [Cam.microStep, hr]
      cases t.cam.resetOut
      · exact microSim_unregs (microSim_run (microSim_regs h1) _ _)
      · exact camSim_reset (by decide) (by decide) r1 r2
    · exact (MicroCfg.sizeOk_step microCore_ps h2 d hv).1
    · exact (MicroCfg.sizeOk_step microCore_ps h3 d hv).1
  · simp only [LiteCam.microFull, if_true, h4]
    exact ⟨camSim_reset (by decide) (by decide) r1 r2, sizeOk_reset microCore_ps r1, sizeOk_reset microCore_ps r2, rfl⟩

theorem lcSim_ports {s t : LiteCam} (h : LcSim s t) (ready : Bool) : msPorts s ready = msPorts t ready := by
  have := camSim_out h.cam (!ready)
  simp only [msPorts, this.1, this.2, h.lite]

/-! ### The netlist is the source -/

theorem mn_step (s : MicroAxis.top.S) (i : MicroNetIn) :
    (mnStep s i).u_top_module = MicroAxis.topStep s.u_top_module i.rst (!i.ready) (slc i.data 0 12) i.valid i.bus := by
  show MicroAxis.top_module.step _ _ (i.ready == false) _ _ _ _ _ _ _ _ _ _ _ _ _ = _
  rw [show (i.ready == false) = !i.ready by cases i.ready <;> rfl]
  rfl

/-- The netlist and the model in states that show the same. -/
def MnSim (s : MicroAxis.top.S) (m : LiteCam) : Prop := ∃ m', MicroAxis.MSim s.u_top_module m' ∧ LcSim m' m

theorem mn_sim_step {s : MicroAxis.top.S} {m : LiteCam} (h : MnSim s m) (i : MicroNetIn) : MnSim (mnStep s i) (msStep m i) := by
  obtain ⟨m', h1, h2⟩ := h
  have hx : slc i.data 0 12 < 4096 := Nat.mod_lt _ (by decide)
  refine ⟨_, ?_, lcSim_step h2 i.rst ⟨streamMicroIn i.data i.valid i.ready, i.bus⟩ rfl⟩
  rw [mn_step]
  exact MicroAxis.m_step h1 4096 3072 (initHuffTable 12) _ _ _ _ _ hx

theorem mn_sim_ports {s : MicroAxis.top.S} {m : LiteCam} (h : MnSim s m) (ready : Bool) : mnPorts s ready = msPorts m ready := by
  obtain ⟨m', h1, h2⟩ := h
  rw [← lcSim_ports h2]
  have hb : (ready == false) = !ready := by cases ready <;> rfl
  obtain ⟨o, ho⟩ := MicroAxis.top_out s.u_top_module (!ready) h1.wf
  have hn := MicroAxis.top_nready s.u_top_module
  have hl := MicroAxis.lite_out h1.lite
  have e1 : MicroAxis.top.s_tready s = !MicroAxis.top_module.nready s.u_top_module := by
    show (MicroAxis.top_module.nready s.u_top_module == false) = _
    cases MicroAxis.top_module.nready s.u_top_module <;> rfl
  have e2 : MicroAxis.top.m_tvalid s ready = MicroAxis.top_module.valid_out s.u_top_module (!ready) := by
    show MicroAxis.top_module.valid_out _ (ready == false) = _
    rw [hb]
  have e3 : MicroAxis.top.m_tdata s ready = MicroAxis.top_module.data_out s.u_top_module (!ready) := by
    show MicroAxis.top_module.data_out _ (ready == false) = _
    rw [hb]
  have e4 : MicroAxis.top.m_tlast s ready = MicroAxis.top_module.end_out s.u_top_module (!ready) := by
    show MicroAxis.top_module.end_out _ (ready == false) = _
    rw [hb]
  simp only [msPorts, mnPorts, h1.cam, ← ho, hl, e1, e2, e3, e4, hn]
  rfl

theorem mn_outs (l : List MicroNetIn) : ∀ {s : MicroAxis.top.S} {m : LiteCam}, MnSim s m → mnOuts s l = msOuts m l := by
  induction l with
  | nil => intro s m _; rfl
  | cons i r ih => intro s m h; rw [mnOuts, msOuts, ih (mn_sim_step h i), mn_sim_ports h]

theorem mn_init {s : MicroAxis.top.S} (h : MicroAxis.top.Init s) : MnSim s (LiteCam.init microCore microTable) := by
  have h1 := MicroAxis.m_init s.u_top_module h 4096 3072 (initHuffTable 12)
  have hk := MicroAxis.m_kept h1.wf 4096 3072 (initHuffTable 12)
  obtain ⟨m, hm, he⟩ := init_afterReset microCore
  refine ⟨_, h1, ?_, sizeOk_reset microCore_ps hk, ?_, rfl⟩
  · show CamSim microCore (Cam.reset microCore _) (Cam.init microCore)
    rw [he]
    exact camSim_reset (by decide) (by decide) hk hm
  · show SizeOk microCore (Cam.init microCore)
    rw [he]
    exact sizeOk_reset microCore_ps hm

/-- C80: for all inputs on all ports over any number of cycles, from every state with the initial values of the netlist,
the shipped netlist shows on all its output ports, in every cycle, what the model of the Python source shows. -/
theorem C80_netlist_is_source (s : MicroAxis.top.S) (h : MicroAxis.top.Init s) (l : List MicroNetIn) :
    mnOuts s l = msOuts (LiteCam.init microCore microTable) l := mn_outs l (mn_init h)

example : MicroAxis.top.Init MicroAxis.top.powerUp := MicroAxis.top.powerUp_init

/-! ### What the netlist does -/

/-- Words transferred on the slave stream: `s_tvalid` and `s_tready`. -/
def mnMoved : MicroAxis.top.S → List MicroNetIn → List Nat
  | _, [] => []
  | s, i :: r => (if i.valid && (mnPorts s i.ready).sReady then [i.data] else []) ++ mnMoved (mnStep s i) r

/-- Words transferred on the master stream: `m_tvalid` and `m_tready`, with `m_tlast`. -/
def mnGiven : MicroAxis.top.S → List MicroNetIn → List (Nat × Bool)
  | _, [] => []
  | s, i :: r => (if (mnPorts s i.ready).mValid && i.ready then [((mnPorts s i.ready).mData, (mnPorts s i.ready).mLast)] else []) ++
      mnGiven (mnStep s i) r

/-- Transfers on the register bus. -/
def mnEvents : MicroAxis.top.S → List MicroNetIn → List BusEv
  | _, [] => []
  | s, i :: r => liteEvents (mnPorts s i.ready).bus i.bus ++ mnEvents (mnStep s i) r

/-- A word with `m_tlast` is transferred in this cycle. -/
def mnEnded (s : MicroAxis.top.S) (i : MicroNetIn) : Bool := (mnPorts s i.ready).mValid && i.ready && (mnPorts s i.ready).mLast

/-- The bus master keeps the rules of `MasterNext` and has no transaction open and no request up in the cycle after the
last word of a frame (`ended`), in which the core resets itself.  `st` are the registers and the bus phase according to
the transfers so far. -/
def MnMaster : Bool → CoreRegs × BusPhase → MicroAxis.top.S → List MicroNetIn → Prop
  | _, _, _, [] => True
  | ended, st, s, i :: r => (ended = true → st.2 = .idle ∧ i.bus.arvalid = false ∧ i.bus.awvalid = false) ∧
      (∀ j ∈ r.head?, MasterNext (mnPorts s i.ready).bus i.bus j.bus) ∧
      MnMaster (mnEnded s i) (regsAfter (coreMap 12 false) st (liteEvents (mnPorts s i.ready).bus i.bus)) (mnStep s i) r

/-- The states after power-up and any number of cycles with the external reset. -/
def MnStart (s : MicroAxis.top.S) : Prop :=
  ∃ s0 pre, MicroAxis.top.Init s0 ∧ (∀ i ∈ pre, i.rst = true) ∧ s = mnRun s0 pre

/-- From the state `s`, the cycles `hist` consist of `n` frames, each up to its last word and followed by one more cycle,
in which the core resets itself. -/
inductive MnFrames (s : MicroAxis.top.S) : Nat → List MicroNetIn → Prop
  | zero : MnFrames s 0 []
  | next {n : Nat} {hist ins : List MicroNetIn} {i r : MicroNetIn} (h : MnFrames s n hist)
      (hno : ∀ x ∈ mnGiven (mnRun s hist) ins, x.2 = false)
      (hw : mnEnded (mnRun s (hist ++ ins)) i = true) :
      MnFrames s (n + 1) (hist ++ (ins ++ [i]) ++ [r])

/-- The registers and the bus phase after the transfers of some cycles from a start state. -/
def mnRegs (s : MicroAxis.top.S) (l : List MicroNetIn) : CoreRegs × BusPhase :=
  regsAfter (coreMap 12 false) (resetRegs microTable, .idle) (mnEvents s l)

/-- A run of the netlist from a start state without external reset, cut into the frames before (`n` of them), cycles in
which software may write the registers and no word is taken, and cycles in which no write is requested. -/
structure MnProgrammed (s : MicroAxis.top.S) (n : Nat) (hist quiet frame : List MicroNetIn) : Prop where
  start : MnStart s
  noRst : ∀ i ∈ hist ++ quiet ++ frame, i.rst = false
  master : MnMaster false (resetRegs microTable, .idle) s (hist ++ quiet ++ frame)
  before : MnFrames s n hist
  idle : mnMoved (mnRun s hist) quiet = []
  written : NoWrite (mnRegs s (hist ++ quiet)).2
  kept : ∀ i ∈ frame, i.bus.awvalid = false

/-- The cycle of the core. -/
def MicroNetIn.lc (i : MicroNetIn) : LiteCamIn := ⟨streamMicroIn i.data i.valid i.ready, i.bus⟩

theorem ms_step (m : LiteCam) (i : MicroNetIn) (h : i.rst = false) : msStep m i = m.microStep microCore i.lc := by
  simp [msStep, LiteCam.microFull, h, MicroNetIn.lc]

theorem mn_given1 {s : MicroAxis.top.S} {m : LiteCam} (h : MnSim s m) (i : MicroNetIn) :
    (if (mnPorts s i.ready).mValid && i.ready then [((mnPorts s i.ready).mData, (mnPorts s i.ready).mLast)] else []) =
    (if (m.cam.out i.lc.cam.busy).valid && !i.lc.cam.busy then [((m.cam.out i.lc.cam.busy).data, (m.cam.out i.lc.cam.busy).endd)] else []) := by
  rw [mn_sim_ports h]
  simp [msPorts, MicroNetIn.lc, streamMicroIn]

theorem moved_map (v r : Bool) (d : Nat) :
    (if v && r then [d] else []).map (fun w => w % 4096) = if v && r then [slice d 0 12] else [] := by
  cases v <;> cases r <;> simp [slice]

theorem mn_run (l : List MicroNetIn) : ∀ {s : MicroAxis.top.S} {m : LiteCam}, MnSim s m → (∀ i ∈ l, i.rst = false) →
    MnSim (mnRun s l) (MicroCfg.lcRun microCore m (l.map MicroNetIn.lc)) ∧
    mnGiven s l = MicroCfg.lcGiven microCore m (l.map MicroNetIn.lc) ∧
    (mnMoved s l).map (fun w => w % 4096) = MicroCfg.lcAccepted microCore m (l.map MicroNetIn.lc) ∧
    mnEvents s l = MicroCfg.lcEvents microCore m (l.map MicroNetIn.lc) := by
  induction l with
  | nil => intro s m h _; exact ⟨h, rfl, rfl, rfl⟩
  | cons i r ih =>
    intro s m h hr
    have hs := mn_sim_step h i
    rw [ms_step m i (hr i (by simp))] at hs
    obtain ⟨k1, k2, k3, k4⟩ := ih hs (fun j hj => hr j (by simp [hj]))
    refine ⟨k1, ?_, ?_, ?_⟩
    · rw [mnGiven, List.map_cons, MicroCfg.lcGiven, k2, mn_given1 h]
    · rw [mnMoved, List.map_append, List.map_cons, MicroCfg.lcAccepted, k3, mn_sim_ports h]
      congr 1
      exact moved_map i.valid (!m.cam.nready) i.data
    · rw [mnEvents, List.map_cons, MicroCfg.lcEvents, k4, mn_sim_ports h]
      rfl

theorem mn_ended {s : MicroAxis.top.S} {m : LiteCam} (h : MnSim s m) (i : MicroNetIn) :
    mnEnded s i = ((m.cam.out i.lc.cam.busy).valid && !i.lc.cam.busy && (m.cam.out i.lc.cam.busy).endd) := by
  rw [mnEnded, mn_sim_ports h]
  simp [msPorts, MicroNetIn.lc, streamMicroIn]

theorem mn_master (l : List MicroNetIn) : ∀ {s : MicroAxis.top.S} {m : LiteCam} {e : Bool} {st : CoreRegs × BusPhase}, MnSim s m →
    (∀ i ∈ l, i.rst = false) → (m.cam.resetOut = true → e = true) → MnMaster e st s l → MicroCfg.LcMaster microCore st m (l.map MicroNetIn.lc) := by
  induction l with
  | nil => intro _ _ _ _ _ _ _ _; trivial
  | cons i r ih =>
    intro s m e st h hr he hm
    obtain ⟨h1, h2, h3⟩ := hm
    have hs := mn_sim_step h i
    rw [ms_step m i (hr i (by simp))] at hs
    rw [mn_sim_ports h] at h2 h3
    refine ⟨fun hm => h1 (he hm), ?_, ?_⟩
    · intro j hj
      cases r with
      | nil => simp at hj
      | cons k r =>
        have e : j = k.lc := by simpa using hj.symm
        rw [e]
        exact h2 k (by simp)
    · refine ih hs (fun j hj => hr j (by simp [hj])) ?_ h3
      intro hre
      cases h0 : m.cam.resetOut with
      | true =>
        exfalso
        have : (m.microStep microCore i.lc).cam.resetOut = false := by
          simp [LiteCam.microStep, Cam.microStep, h0, Cam.reset]
        rw [this] at hre; cases hre
      | false =>
        have := micro_reset_flag (LiteCam.cfg microCore m.lite) m.lite.allowed m.cam i.lc.cam h0
        rw [mn_ended h i, ← this]
        exact hre

theorem mn_start {s : MicroAxis.top.S} (h : MnStart s) : MnSim s (LiteCam.init microCore microTable) := by
  obtain ⟨s0, pre, h0, hp, rfl⟩ := h
  have key : ∀ (l : List MicroNetIn) (s : MicroAxis.top.S), (∀ i ∈ l, i.rst = true) →
      (∃ k : Kept, k.Ok microCore ∧ MicroAxis.MSim s.u_top_module ⟨Cam.reset microCore k, .init microTable⟩) →
      ∃ k : Kept, k.Ok microCore ∧ MicroAxis.MSim (mnRun s l).u_top_module ⟨Cam.reset microCore k, .init microTable⟩ := by
    intro l
    induction l with
    | nil => intro s _ h; exact h
    | cons i r ih =>
      rintro s hl ⟨k, hk, h⟩
      refine ih _ (fun j hj => hl j (by simp [hj]))
        ⟨((Cam.reset microCore k).microRun (LiteCam.cfg microCore (.init microTable)) 0 i.lc.cam).core.int2.kept, ?_, ?_⟩
      · exact sizeOk_kept (MicroCfg.sizeOk_run (sizeOk_reset microCore_ps hk) ⟨0, 0, (List.range 13).map microTable, 0, i.lc.cam⟩ (fun _ => rfl))
      · have := MicroAxis.m_step h 4096 3072 (initHuffTable 12) (slc i.data 0 12) i.valid (!i.ready) i.rst i.bus (Nat.mod_lt _ (by decide))
        rw [mn_step]
        rw [hl i (by simp)] at this ⊢
        exact this
  have h1 := MicroAxis.m_init s0.u_top_module h0 4096 3072 (initHuffTable 12)
  obtain ⟨k, hk, h2⟩ := key pre s0 hp ⟨_, MicroAxis.m_kept h1.wf 4096 3072 (initHuffTable 12), h1⟩
  obtain ⟨m, hm, he⟩ := init_afterReset microCore
  refine ⟨_, h2, ?_, sizeOk_reset microCore_ps hk, ?_, rfl⟩
  · show CamSim microCore (Cam.reset microCore _) (Cam.init microCore)
    rw [he]
    exact camSim_reset (by decide) (by decide) hk hm
  · show SizeOk microCore (Cam.init microCore)
    rw [he]
    exact sizeOk_reset microCore_ps hm

theorem mnRun_append (x y : List MicroNetIn) : ∀ s, mnRun s (x ++ y) = mnRun (mnRun s x) y := by
  induction x with
  | nil => intro s; rfl
  | cons i x ih => intro s; exact ih _

/-- While no last word of a frame is given the core does not reset itself. -/
theorem mn_noReset (l : List MicroNetIn) : ∀ {s : MicroAxis.top.S} {m : LiteCam}, MnSim s m → (∀ i ∈ l, i.rst = false) →
    m.cam.resetOut = false → (∀ x ∈ mnGiven s l, x.2 = false) → (MicroCfg.lcRun microCore m (l.map MicroNetIn.lc)).cam.resetOut = false := by
  induction l with
  | nil => intro s m _ _ h _; exact h
  | cons i r ih =>
    intro s m h hr h0 hg
    have hs := mn_sim_step h i
    rw [ms_step m i (hr i (by simp))] at hs
    refine ih hs (fun j hj => hr j (by simp [hj])) ?_ (fun x hx => hg x (by rw [mnGiven]; exact List.mem_append_right _ hx))
    have := micro_reset_flag (LiteCam.cfg microCore m.lite) m.lite.allowed m.cam i.lc.cam h0
    have e : (m.microStep microCore i.lc).cam.resetOut = mnEnded s i := by rw [mn_ended h i, ← this]; rfl
    rw [e]
    cases he : mnEnded s i with
    | false => rfl
    | true =>
      have hv := he
      simp only [mnEnded, Bool.and_eq_true] at hv
      have hc : ((mnPorts s i.ready).mValid && i.ready) = true := by rw [hv.1.1, hv.1.2]; rfl
      have := hg ((mnPorts s i.ready).mData, (mnPorts s i.ready).mLast) (by rw [mnGiven, if_pos hc]; simp)
      simp only at this
      rw [hv.2] at this
      cases this

/-- After `n` frames the core has just reset itself. -/
theorem mn_frames {s : MicroAxis.top.S} (hs : MnStart s) {n : Nat} {hist : List MicroNetIn} (h : MnFrames s n hist)
    (hr : ∀ i ∈ hist, i.rst = false) :
    (MicroCfg.lcRun microCore (LiteCam.init microCore microTable) (hist.map MicroNetIn.lc)).cam.resetOut = false ∧
    (hist.map MicroNetIn.lc = [] ∨
      (MicroCfg.lcRun microCore (LiteCam.init microCore microTable) (hist.map MicroNetIn.lc).dropLast).cam.resetOut = true) := by
  induction h with
  | zero => exact ⟨rfl, Or.inl rfl⟩
  | @next n hist ins i r h hno hw ih =>
    have hr1 : ∀ j ∈ hist, j.rst = false := fun j hj => hr j (by simp [hj])
    obtain ⟨k1, _⟩ := ih hr1
    have m1 := (mn_run hist (mn_start hs) hr1).1
    have m2 := (mn_run (hist ++ ins) (mn_start hs) (fun j hj => hr j (by
      simp only [List.mem_append] at hj ⊢; rcases hj with hj | hj <;> simp [hj]))).1
    have h0 := mn_noReset ins m1 (fun j hj => hr j (by simp [hj])) k1 hno
    rw [← MicroCfg.lcRun_append, ← List.map_append] at h0
    have hi := mn_ended m2 i
    rw [hw] at hi
    generalize hS : MicroCfg.lcRun microCore (LiteCam.init microCore microTable) ((hist ++ ins).map MicroNetIn.lc) = S at *
    have h1 : (S.microStep microCore i.lc).cam.resetOut = true := by
      rw [hi]; exact micro_reset_flag (LiteCam.cfg microCore S.lite) S.lite.allowed S.cam i.lc.cam h0
    have e : (hist ++ (ins ++ [i]) ++ [r]).map MicroNetIn.lc = (hist ++ ins).map MicroNetIn.lc ++ [i.lc, r.lc] := by simp
    have e2 : ((hist ++ (ins ++ [i]) ++ [r]).map MicroNetIn.lc).dropLast = (hist ++ ins).map MicroNetIn.lc ++ [i.lc] := by
      rw [e, show [i.lc, r.lc] = [i.lc] ++ [r.lc] from rfl, ← List.append_assoc, List.dropLast_concat]
    refine ⟨?_, Or.inr ?_⟩
    · rw [e, MicroCfg.lcRun_append, hS]
      show ((S.microStep microCore i.lc).microStep microCore r.lc).cam.resetOut = false
      generalize S.microStep microCore i.lc = S' at *
      simp [LiteCam.microStep, Cam.microStep, h1, Cam.reset]
    · rw [e2, MicroCfg.lcRun_append, hS]
      exact h1

/-- The run of the netlist as a run of the model. -/
theorem mn_programmed {s : MicroAxis.top.S} {n : Nat} {hist quiet frame : List MicroNetIn} (h : MnProgrammed s n hist quiet frame) :
    MicroCfg.ProgrammedRun microCore microTable (hist.map MicroNetIn.lc) (quiet.map MicroNetIn.lc) (frame.map MicroNetIn.lc) := by
  obtain ⟨h1, h2, h3, h4, h5, h6, h7⟩ := h
  have hs := mn_start h1
  have hr1 : ∀ i ∈ hist, i.rst = false := fun i hi => h2 i (by simp [hi])
  have hr2 : ∀ i ∈ quiet, i.rst = false := fun i hi => h2 i (by simp [hi])
  have hr3 : ∀ i ∈ hist ++ quiet, i.rst = false := fun i hi => h2 i (by rw [List.mem_append]; exact Or.inl hi)
  have m1 := mn_run hist hs hr1
  have m2 := mn_run quiet m1.1 hr2
  have m3 := mn_run (hist ++ quiet) hs hr3
  refine ⟨?_, ?_, (mn_frames h1 h4 hr1).2, ?_, ?_, ?_, ?_⟩
  · intro k
    by_cases hk : k < 13
    · exact (show ∀ k, k < 13 → microTable k < 2 ^ (microCore.int1.bd + 21) by decide +kernel) k hk
    · have : microTable k = 0 := by
        unfold microTable
        rw [List.getD_eq_getElem?_getD, List.getElem?_eq_none (by rw [show (initHuffTable 12).length = 13 by decide +kernel]; omega)]
        rfl
      rw [this]; decide
  · have := mn_master _ hs h2 (fun h => by cases h) h3
    simpa using this
  · intro i hi
    rw [← List.map_append, ← List.map_append, List.map_map] at hi
    obtain ⟨j, _, rfl⟩ := List.mem_map.1 hi
    intro _
    refine ⟨rfl, ?_⟩
    intro p hp
    have : p = slice j.data 0 12 := by simpa [MicroNetIn.lc, streamMicroIn] using hp
    rw [this]
    exact Nat.mod_lt _ (by decide)
  · rw [← m2.2.2.1, h5]; rfl
  · rw [← List.map_append, ← m3.2.2.2]; exact h6
  · intro i hi
    obtain ⟨j, hj, rfl⟩ := List.mem_map.1 hi
    exact h7 j hj

theorem mn_regs {s : MicroAxis.top.S} {n : Nat} {hist quiet frame : List MicroNetIn} (h : MnProgrammed s n hist quiet frame) :
    (mnRegs s (hist ++ quiet)).1 = MicroCfg.regsOf microCore microTable (hist.map MicroNetIn.lc ++ quiet.map MicroNetIn.lc) := by
  have := (mn_run (hist ++ quiet) (mn_start h.start) (fun i hi => h.noRst i (by rw [List.mem_append]; exact Or.inl hi))).2.2.2
  rw [mnRegs, this, List.map_append]
  rfl

theorem mn_traffic {s : MicroAxis.top.S} {n : Nat} {hist quiet frame : List MicroNetIn} (h : MnProgrammed s n hist quiet frame)
    {l : List MicroNetIn} (hl : l <+: quiet ++ frame) :
    mnGiven (mnRun s hist) l = MicroCfg.lcGiven microCore (MicroCfg.lcRun microCore (LiteCam.init microCore microTable) (hist.map MicroNetIn.lc))
      (l.map MicroNetIn.lc) ∧
    (mnMoved (mnRun s hist) l).map (fun w => w % 4096) =
      MicroCfg.lcAccepted microCore (MicroCfg.lcRun microCore (LiteCam.init microCore microTable) (hist.map MicroNetIn.lc)) (l.map MicroNetIn.lc) := by
  have m1 := (mn_run hist (mn_start h.start) (fun i hi => h.noRst i (by simp [hi]))).1
  have m2 := mn_run l m1 (fun i hi => h.noRst i (by
    have := hl.subset hi
    simp only [List.mem_append] at this ⊢
    rcases this with h | h <;> simp [h]))
  exact ⟨m2.2.1, m2.2.2.1⟩

/-- C80, the frames: software writes frame size and Huffman table over the register bus of the shipped netlist; then the
netlist gives on its stream the start marker, data words and the forced end marker.  The data words continue, after one
to ten `lost` words, the byte-stuffed code of the transferred pixels in lines of the written width by the written table;
if the last code word is repeated up to the forced end, the number of pixels transferred is the written width times the
written height.  For the first frame after power-up and for every later one. -/
theorem C80_programmed_frame {T : Table} {s : MicroAxis.top.S} {n : Nat} {hist quiet frame : List MicroNetIn} {last : MicroNetIn}
    (h : MnProgrammed s n hist quiet (frame ++ [last]))
    (hset : CamSetup (programmed microCore (mnRegs s (hist ++ quiet)).1) T)
    (hno : ∀ x ∈ mnGiven (mnRun s hist) (quiet ++ frame), x.2 = false)
    {w : Nat} (hw : (w, true) ∈ mnGiven (mnRun s hist) (quiet ++ frame ++ [last])) :
    let W := (mnRegs s (hist ++ quiet)).1.hw / 2 ^ 16 % 2 ^ 16
    let H := (mnRegs s (hist ++ quiet)).1.hw % 2 ^ 16
    let words := mnGiven (mnRun s hist) (quiet ++ frame ++ [last])
    let pixels := (mnMoved (mnRun s hist) (quiet ++ frame ++ [last])).map fun w => w % 4096
    ∃ lost body, words = startMark ++ body ++ endMark 0xFFFE ∧
      (∀ x ∈ body, x.2 = false) ∧ 1 ≤ lost.length ∧ lost.length ≤ 10 ∧
      ∃ (code : List (Nat × Bool)) (n lastWord : Nat),
        wordBytes (lost ++ body) <+: stuff (wordBytes (code ++ List.replicate n (lastWord, false))) ∧
        ((n = 0 ∧ wordBits 16 code <+: encode T 12 W pixels) ∨
         (pixels.length = W * H ∧ code.getLast? = some (lastWord, false) ∧
          ∃ j, j < 16 ∧ wordBits 16 code = encode T 12 W pixels ++ List.replicate j false)) := by
  intro W H words pixels
  have hp := mn_programmed h
  have hr := mn_regs h
  have t1 := mn_traffic h (l := quiet ++ frame) (by rw [← List.append_assoc]; exact List.prefix_append _ _)
  have t2 := mn_traffic h (l := quiet ++ frame ++ [last]) (by rw [List.append_assoc]; exact List.prefix_refl _)
  have e1 : (quiet ++ frame).map MicroNetIn.lc = quiet.map MicroNetIn.lc ++ frame.map MicroNetIn.lc := List.map_append
  have e2 : (quiet ++ frame ++ [last]).map MicroNetIn.lc = quiet.map MicroNetIn.lc ++ frame.map MicroNetIn.lc ++ [last.lc] := by simp
  rw [e1] at t1
  rw [e2] at t2
  rw [List.map_append] at hp
  have := C69_programmed_frame hp (T := T) (w := w) (by rw [← hr]; exact hset) (by rw [← t1.1]; exact hno) (by
    show _ ∈ MicroCfg.lcGiven _ _ (_ ++ _ ++ [last.lc]); rw [← t2.1]; exact hw)
  rw [← t2.1, ← t2.2, ← hr] at this
  exact this

/-- C80, cycle budget: the netlist ends a frame only if a pixel of it had been transferred more than the written budget
(plus 10) cycles before. -/
theorem C80_written_budget {s : MicroAxis.top.S} {n : Nat} {hist quiet frame : List MicroNetIn} {last : MicroNetIn}
    (h : MnProgrammed s n hist quiet (frame ++ [last]))
    (hl : CoreLegal (programmed microCore (mnRegs s (hist ++ quiet)).1))
    (hno : ∀ x ∈ mnGiven (mnRun s hist) (quiet ++ frame), x.2 = false)
    {w : Nat} (hw : (w, true) ∈ mnGiven (mnRun s hist) (quiet ++ frame ++ [last])) :
    ∃ early late, quiet ++ frame = early ++ late ∧ (mnRegs s (hist ++ quiet)).1.allowed + 10 ≤ late.length ∧
      mnMoved (mnRun s hist) early ≠ [] := by
  have hp := mn_programmed h
  have hr := mn_regs h
  have t1 := mn_traffic h (l := quiet ++ frame) (by rw [← List.append_assoc]; exact List.prefix_append _ _)
  have t2 := mn_traffic h (l := quiet ++ frame ++ [last]) (by rw [List.append_assoc]; exact List.prefix_refl _)
  have e1 : (quiet ++ frame).map MicroNetIn.lc = quiet.map MicroNetIn.lc ++ frame.map MicroNetIn.lc := List.map_append
  have e2 : (quiet ++ frame ++ [last]).map MicroNetIn.lc = quiet.map MicroNetIn.lc ++ frame.map MicroNetIn.lc ++ [last.lc] := by simp
  rw [e1] at t1
  rw [e2] at t2
  rw [List.map_append] at hp
  obtain ⟨early, late, k1, k2, k3⟩ := C69_written_budget hp (w := w) (by rw [← hr]; exact hl) (by rw [← t1.1]; exact hno) (by
    show _ ∈ MicroCfg.lcGiven _ _ (_ ++ _ ++ [last.lc]); rw [← t2.1]; exact hw)
  have hlen := congrArg List.length k1
  simp only [List.length_append, List.length_map] at hlen
  have e3 : ((quiet ++ frame).take early.length).map MicroNetIn.lc = early := by
    rw [List.map_take, e1, k1, List.take_left' rfl]
  have t3 := mn_traffic h (l := (quiet ++ frame).take early.length)
    ((List.take_prefix _ _).trans (by rw [← List.append_assoc]; exact List.prefix_append _ _))
  refine ⟨(quiet ++ frame).take early.length, (quiet ++ frame).drop early.length, (List.take_append_drop _ _).symm, ?_, ?_⟩
  · rw [hr, List.length_drop, List.length_append]
    omega
  · intro h0
    rw [e3, h0] at t3
    exact k3 t3.2.symm

/-- C80, liveness: when pixels are offered and the consumer is ready infinitely often, the netlist ends the frame. -/
theorem C80_always_ends {T : Table} {s : MicroAxis.top.S} {n : Nat} {hist quiet : List MicroNetIn} (u : Nat → MicroNetIn)
    (h : ∀ k, MnProgrammed s n hist quiet ((List.range k).map u))
    (hset : CamSetup (programmed microCore (mnRegs s (hist ++ quiet)).1) T)
    (hprod : ∀ n, ∃ m, n ≤ m ∧ (u m).valid = true) (hcons : ∀ n, ∃ m, n ≤ m ∧ (u m).ready = true) :
    ∃ t, (0xFFFE, true) ∈ mnGiven (mnRun s hist) (quiet ++ (List.range t).map u) := by
  have hr := mn_regs (h 0)
  obtain ⟨t, ht⟩ := C69_always_ends (c := microCore) (T := T) (table := microTable) (hist := hist.map MicroNetIn.lc)
    (quiet := quiet.map MicroNetIn.lc) (fun k => (u k).lc) (fun k => by
      have := mn_programmed (h k)
      rwa [List.map_map] at this) (by rw [← hr]; exact hset) hprod (fun k => by
      obtain ⟨m, h1, h2⟩ := hcons k
      exact ⟨m, h1, by simp [MicroNetIn.lc, streamMicroIn, h2]⟩)
  refine ⟨t, ?_⟩
  rw [(mn_traffic (h t) (List.prefix_refl _)).1, List.map_append, List.map_map]
  exact ht

/-! ### Examples -/

instance decMnMaster : ∀ (e : Bool) (st : CoreRegs × BusPhase) (s : MicroAxis.top.S) (l : List MicroNetIn), Decidable (MnMaster e st s l)
  | _, _, _, [] => isTrue trivial
  | e, st, s, i :: r =>
    have := decMnMaster (mnEnded s i) (regsAfter (coreMap 12 false) st (liteEvents (mnPorts s i.ready).bus i.bus)) (mnStep s i) r
    match r, this with
    | [], h =>
      if k : e = true → st.2 = .idle ∧ i.bus.arvalid = false ∧ i.bus.awvalid = false then
        isTrue ⟨k, by simp, trivial⟩
      else isFalse fun q => k q.1
    | j :: r, h =>
      if k : (e = true → st.2 = .idle ∧ i.bus.arvalid = false ∧ i.bus.awvalid = false) ∧ MasterNext (mnPorts s i.ready).bus i.bus j.bus then
        match h with
        | isTrue h => isTrue ⟨k.1, fun x hx => by
            have e : x = j := by simpa using hx.symm
            rw [e]; exact k.2, h⟩
        | isFalse h => isFalse fun q => h q.2.2
      else isFalse fun q => k ⟨q.1, q.2.1 j (by simp)⟩

/-- Frame size 4096x3072 and cycle budget 1000 are written. -/
def mnProgram : List MicroNetIn :=
  (busWrite 0x2000 0x10000C00 ++ busWrite 0x2004 1000).map fun b => ⟨false, 0, false, false, true, b⟩

def mnIdleBus : LiteIn := ⟨false, 0, true, false, 0, false, 0, 0, true⟩

/-- A pixel offered and the consumer ready, or neither. -/
def mnPixel (n : Nat) : MicroNetIn := ⟨false, n, n % 3 == 0, false, n % 2 == 0, mnIdleBus⟩

set_option maxRecDepth 40000 in
theorem mnProgram_events : mnEvents MicroAxis.top.powerUp mnProgram = [.aw 0x2000, .w 0x10000C00 15, .b 0, .aw 0x2004, .w 1000 15, .b 0] := by
  decide +kernel

/-- A bus master that asks for nothing keeps the rules. -/
theorem mn_idle_master : ∀ (l : List MicroNetIn) (e : Bool) (g : CoreRegs) (s : MicroAxis.top.S), (∀ i ∈ l, i.bus = mnIdleBus) →
    MnMaster e (g, .idle) s l := by
  intro l
  induction l with
  | nil => intro _ _ _ _; trivial
  | cons i r ih =>
    intro e g s hl
    have hi := hl i (by simp)
    refine ⟨fun _ => ⟨rfl, by rw [hi]; rfl, by rw [hi]; rfl⟩, ?_, ?_⟩
    · intro j hj
      have := hl j (by simp [List.mem_of_mem_head? hj])
      rw [hi, this]
      exact ⟨by simp [mnIdleBus], by simp [mnIdleBus], by simp [mnIdleBus], by simp [mnIdleBus], fun h _ => h, fun h _ => h⟩
    · have e : regsAfter (coreMap 12 false) (g, .idle) (liteEvents (mnPorts s i.ready).bus i.bus) = (g, .idle) := by
        rw [hi]
        simp only [liteEvents, mnIdleBus, Bool.false_and, Bool.false_eq_true, if_false, List.nil_append]
        cases (mnPorts s i.ready).bus.rvalid <;> cases (mnPorts s i.ready).bus.bvalid <;> rfl
      rw [e]
      exact ih _ g _ fun j hj => hl j (by simp [hj])

theorem mn_master_append (a : List MicroNetIn) (j : MicroNetIn) (r : List MicroNetIn) :
    ∀ (e : Bool) (st : CoreRegs × BusPhase) (s : MicroAxis.top.S), MnMaster e st s (a ++ [j]) →
    (∀ e, MnMaster e (regsAfter (coreMap 12 false) st (mnEvents s a)) (mnRun s a) (j :: r)) → MnMaster e st s (a ++ j :: r) := by
  induction a with
  | nil => intro e st s _ h; simpa [mnEvents, mnRun, regsAfter] using h e
  | cons i a ih =>
    intro e st s h h'
    obtain ⟨h1, h2, h3⟩ := h
    refine ⟨h1, ?_, ih _ _ _ h3 ?_⟩
    · intro k hk
      apply h2 k
      cases a <;> simpa using hk
    · intro e
      have := h' e
      rw [mnEvents, regsAfter_append] at this
      exact this

-- The hypotheses of the C80 theorems: two register writes after power-up, then pixels for ever.
set_option maxRecDepth 40000 in
theorem mnProgram_ok (n : Nat) : MnProgrammed MicroAxis.top.powerUp 0 [] mnProgram ((List.range n).map mnPixel) where
  start := ⟨_, [], MicroAxis.top.powerUp_init, by simp, rfl⟩
  noRst := by
    have h1 : ∀ i ∈ mnProgram, i.rst = false := by decide +kernel
    intro i hi
    rw [List.nil_append, List.mem_append] at hi
    rcases hi with hi | hi
    · exact h1 i hi
    · obtain ⟨_, _, rfl⟩ := List.mem_map.1 hi
      rfl
  master := by
    cases n with
    | zero => decide +kernel
    | succ n =>
      rw [List.range_succ_eq_map, List.map_cons]
      refine mn_master_append _ _ _ _ _ _ (by decide +kernel) fun e => ?_
      rw [List.nil_append, mnProgram_events]
      refine mn_idle_master _ _ _ _ ?_
      intro i hi
      rcases List.mem_cons.1 hi with rfl | hi
      · rfl
      · obtain ⟨_, _, rfl⟩ := List.mem_map.1 hi
        rfl
  before := .zero
  idle := by decide +kernel
  written := Or.inl (by rw [List.nil_append, mnRegs, mnProgram_events]; rfl)
  kept := by
    intro i hi
    obtain ⟨_, _, rfl⟩ := List.mem_map.1 hi
    rfl

set_option maxRecDepth 40000 in
theorem mnProgram_regs : programmed microCore (mnRegs MicroAxis.top.powerUp ([] ++ mnProgram)).1 = microCore ∧
    (mnRegs MicroAxis.top.powerUp ([] ++ mnProgram)).1.allowed = 1000 := by
  rw [List.nil_append, mnRegs, mnProgram_events]
  refine ⟨?_, by decide +kernel⟩
  have h1 : (regsAfter (coreMap 12 false) (resetRegs microTable, BusPhase.idle)
      [.aw 0x2000, .w 0x10000C00 15, .b 0, .aw 0x2004, .w 1000 15, .b 0]).1.hw = 0x10000C00 := by decide +kernel
  have h2 : (List.range (microCore.int1.bd + 1)).map (regsAfter (coreMap 12 false) (resetRegs microTable, BusPhase.idle)
      [.aw 0x2000, .w 0x10000C00 15, .b 0, .aw 0x2004, .w 1000 15, .b 0]).1.table = initHuffTable 12 := by decide +kernel
  rw [programmed, h1, h2]
  rfl

/-- The frame is ended by FFFE. -/
example : ∃ t, (0xFFFE, true) ∈ mnGiven (mnRun MicroAxis.top.powerUp []) (mnProgram ++ (List.range t).map mnPixel) := by
  refine C80_always_ends (T := defaultTable) (n := 0) (hist := []) mnPixel mnProgram_ok ?_ ?_ ?_
  · rw [mnProgram_regs.1]; exact microCore_setup
  · intro n; exact ⟨3 * n, by omega, by simp [mnPixel]⟩
  · intro n; exact ⟨2 * n, by omega, by simp [mnPixel]⟩

/-- So there are cycles that meet the hypotheses of the other C80 theorems. -/
example : ∃ t w, (∀ x ∈ mnGiven (mnRun MicroAxis.top.powerUp []) (mnProgram ++ (List.range t).map mnPixel), x.2 = false) ∧
    (w, true) ∈ mnGiven (mnRun MicroAxis.top.powerUp []) (mnProgram ++ (List.range t).map mnPixel ++ [mnPixel t]) := by
  apply Classical.byContradiction
  intro hcon
  have hno : ∀ t, ∀ x ∈ mnGiven (mnRun MicroAxis.top.powerUp []) (mnProgram ++ (List.range t).map mnPixel), x.2 = false := by
    intro t
    induction t with
    | zero => decide +kernel
    | succ t ih =>
      intro x hx
      cases hx2 : x.2 with
      | false => rfl
      | true =>
        exfalso
        refine hcon ⟨t, x.1, ih, ?_⟩
        rw [List.range_succ, List.map_append, ← List.append_assoc] at hx
        rw [← hx2]
        exact hx
  obtain ⟨t, ht⟩ := C80_always_ends (T := defaultTable) (n := 0) (hist := []) mnPixel mnProgram_ok (by
      rw [mnProgram_regs.1]; exact microCore_setup)
    (fun n => ⟨3 * n, by omega, by simp [mnPixel]⟩) (fun n => ⟨2 * n, by omega, by simp [mnPixel]⟩)
  have := hno t _ ht
  cases this

end Props
