/- The netlist of the micro core (verilog_src/micro_integration_axistream.v) against the model of micro_integration.py. -/
import Verif.Netlist.MBack
import Verif.Netlist.Top

set_option autoImplicit false

namespace Netlist.MicroAxis
open Netlist Model

/-! ### The AXI-lite slave with the table memory -/

/-- The state of the slave in the netlist (`n`, with the table memory in `e`) and in the model.  The latch of the read port
(four bits in the netlist, with the five bits of `rp_addr` cut) counts only when a read or write of the table uses it. -/
structure LiteSim (n : core_axi_lite.S) (e : encode.S) (l : CoreLite) : Prop where
  eq : l = absLite n (fun k => e.mem.getD k 0) l.rpLatch
  addr : n.rp_addr = n.addr_v / 2 % 32
  latch : n.fsm_state = 4 ∨ n.fsm_state = 5 ∨ n.fsm_state = 7 ∨ n.fsm_state = 8 → l.rpLatch = n.rp_addr ∧ e.r_1_ = slc n.rp_addr 0 4
  len : e.mem.length = 13
  wp : n.wp_addr < 13
  fsm : n.fsm_state < 10

theorem stepMem_eq {n : core_axi_lite.S} {e : encode.S} {l : CoreLite} (h : LiteSim n e l) :
    l.stepMem.mem = fun k => (nextMem e n.wp_en (slc n.wp_addr 0 4) n.wp_data).getD k 0 := by
  have hw := h.wp
  have hl := h.len
  rw [h.eq]
  have e1 : slc n.wp_addr 0 4 = n.wp_addr := by simp only [slc]; omega
  funext k
  rw [e1]
  cases he : n.wp_en
  · simp [absLite, CoreLite.stepMem, nextMem, he]
  · simp only [absLite, CoreLite.stepMem, nextMem, he, if_true, List.getD_eq_getElem?_getD]
    by_cases hk : k = n.wp_addr
    · rw [if_pos hk, hk, List.getElem?_set_self (by omega)]; rfl
    · rw [if_neg hk, List.getElem?_set_ne (fun q => hk q.symm)]

/-- One clock edge of the slave. -/
def liteNext (n : core_axi_lite.S) (i : LiteIn) (full rst : Bool) (rp : Nat) : core_axi_lite.S :=
  core_axi_lite.step n i.arvalid i.awvalid i.araddr i.rready i.awaddr i.wvalid i.wdata i.wstrb i.bready full rst rp

theorem liteNext_addr (n : core_axi_lite.S) (i : LiteIn) (full rst : Bool) (rp : Nat) (h : n.rp_addr = n.addr_v / 2 % 32) :
    (liteNext n i full rst rp).rp_addr = (liteNext n i full rst rp).addr_v / 2 % 32 := by
  by_cases h1 : n.fsm_state = 1
  · cases full <;> simp [liteNext, netlist, h1, slc]; omega
  · by_cases h2 : n.fsm_state = 2
    · cases full <;> simp [liteNext, netlist, h2, slc]; omega
    · cases full <;> simp [liteNext, netlist, h1, h2, slc]; omega

theorem liteNext_wp (n : core_axi_lite.S) (i : LiteIn) (full rst : Bool) (rp : Nat) (h : n.wp_addr < 13) :
    (liteNext n i full rst rp).wp_addr < 13 := by
  by_cases h1 : n.fsm_state = 8 <;> by_cases h2 : n.addr_v % 64 < 26 <;> cases hv : i.wvalid <;> cases hb : n.addr_v.testBit 10 <;>
    cases full <;> simp [liteNext, netlist, h1, h2, hv, hb, slc] <;> omega

theorem liteNext_fsm (n : core_axi_lite.S) (i : LiteIn) (full rst : Bool) (rp : Nat) (h : n.fsm_state < 10) :
    (liteNext n i full rst rp).fsm_state < 10 := by
  show core_axi_lite.next_fsm_state _ _ _ _ _ _ _ < 10
  simp only [netlist]
  repeat' apply Beta.ite_lt
  all_goals omega

theorem liteNext_latch (n : core_axi_lite.S) (i : LiteIn) (full rst : Bool) (rp : Nat) (hf : full = true → rst = true)
    (h : (liteNext n i full rst rp).fsm_state = 4 ∨ (liteNext n i full rst rp).fsm_state = 5 ∨ (liteNext n i full rst rp).fsm_state = 7 ∨
      (liteNext n i full rst rp).fsm_state = 8) : (liteNext n i full rst rp).rp_addr = n.rp_addr := by
  cases rst
  · have : full = false := by cases full <;> simp_all
    subst this
    by_cases h1 : n.fsm_state = 1
    · exfalso; simp [liteNext, netlist, h1] at h
    · by_cases h2 : n.fsm_state = 2
      · exfalso; simp [liteNext, netlist, h2] at h
      · simp [liteNext, netlist, h1, h2]
  · exfalso; simp [liteNext, netlist] at h

theorem lite_sim {n : core_axi_lite.S} {e : encode.S} {l : CoreLite} (h : LiteSim n e l) (i : LiteIn) (rst : Bool) (e' : encode.S)
    (hm : e'.mem = nextMem e n.wp_en (slc n.wp_addr 0 4) n.wp_data) (hr : e'.r_1_ = slc n.rp_addr 0 4) :
    LiteSim (liteNext n i false rst (e.mem.getD e.r_1_ 0)) e' (l.step 12 false rst i (fun _ => 0)) := by
  have hs := stepMem_eq h
  have key := lite_step n (fun k => e.mem.getD k 0) l.rpLatch (e.mem.getD e.r_1_ 0) i rst h.fsm (by
    intro hf _ ha
    have hl := h.latch (by omega)
    have hq := h.addr
    have : slc n.rp_addr 0 4 = n.rp_addr := by simp only [slc]; omega
    show e.mem.getD l.rpLatch 0 = _
    rw [hl.1, hl.2, this])
  rw [← h.eq, hs, ← hm] at key
  have hlat : (l.step 12 false rst i (fun _ => 0)).rpLatch = n.rp_addr := by rw [← key]; rfl
  refine ⟨?_, liteNext_addr _ _ _ _ _ h.addr, ?_, ?_, liteNext_wp _ _ _ _ _ h.wp, liteNext_fsm _ _ _ _ _ h.fsm⟩
  · rw [hlat, ← key]; rfl
  · intro hf
    rw [hlat, hr, liteNext_latch _ _ _ _ _ (by simp) hf]
    exact ⟨rfl, rfl⟩
  · rw [hm, nextMem]; split <;> simp [h.len]

/-- With the external reset, which also resets the domain `sync`. -/
theorem lite_full {n : core_axi_lite.S} {e : encode.S} {l : CoreLite} (h : LiteSim n e l) (i : LiteIn) (e' : encode.S)
    (hm : e'.mem = nextMem e n.wp_en (slc n.wp_addr 0 4) n.wp_data) :
    LiteSim (liteNext n i true true (e.mem.getD e.r_1_ 0)) e' l.clear := by
  have hs := stepMem_eq h
  refine ⟨?_, liteNext_addr _ _ _ _ _ h.addr, ?_, ?_, liteNext_wp _ _ _ _ _ h.wp, liteNext_fsm _ _ _ _ _ h.fsm⟩
  · rw [CoreLite.clear, hs, ← hm]
    simp [liteNext, netlist, absLite, CoreLite.init, liteFsm]
  · intro hf; exfalso; simp [liteNext, netlist] at hf
  · rw [hm, nextMem]; split <;> simp [h.len]

theorem lite_init {n : core_axi_lite.S} {e : encode.S} (h : core_axi_lite.Init n) (he : e.mem = initHuffTable 12) :
    LiteSim n e (.init fun k => (initHuffTable 12).getD k 0) := by
  obtain ⟨h1, h2, h3, h4, h5, h6, h7, h8, h9, h10, h11, h12, h13, h14, h15, h16⟩ := h
  refine ⟨?_, ?_, ?_, ?_, ?_, ?_⟩
  · simp [absLite, CoreLite.init, liteFsm, he, *]
  · simp [h12, h13]
  · intro hf; omega
  · rw [he]; decide
  · omega
  · omega

/-- The bus outputs. -/
theorem lite_out {n : core_axi_lite.S} {e : encode.S} {l : CoreLite} (h : LiteSim n e l) :
    l.out = ⟨core_axi_lite.s_axi_ro__arready n, core_axi_lite.s_axi_ro__rvalid n, core_axi_lite.s_axi_ro__rdata n,
      core_axi_lite.s_axi_ro__rresp n, core_axi_lite.s_axi_wo__awready n, core_axi_lite.s_axi_wo__wready n,
      core_axi_lite.s_axi_wo__bvalid n, core_axi_lite.s_axi_wo__bresp n⟩ := by
  rw [h.eq]; rfl

/-! ### The core -/

/-- The slave of the netlist. -/
def liteOf (s : top_module.S) : core_axi_lite.S := s.u_integration_3.u_integration_2.u_integration_1.u_core_axi_lite

/-- The encoder stage of the netlist with the table memory. -/
def encOf (s : top_module.S) : encode.S := s.u_integration_3.u_integration_2.u_integration_1.u_encode

/-- The force-end counter of the netlist. -/
def fendOf (s : top_module.S) : Beta.force_end.S := s.u_integration_3.u_integration_2.u_integration_1.u_force_end

/-- The registers of the netlist as registers of the model. -/
def absCam (s : top_module.S) : Cam :=
  { core := absInt3 s.u_integration_3, fend := Beta.absForceEnd (fendOf s), fix1 := absFix1 s.u_fix_0xff
    fix2 := Beta.absFix2 s.u_fix_0xff2, marks := absMarkers s.u_markers, resetOut := s.u_auto_reset.reset_out }

/-- Register ranges. -/
def WfTop (s : top_module.S) : Prop :=
  WfInt3 s.u_integration_3 ∧ WfFix1 s.u_fix_0xff ∧ Beta.WfFix2 s.u_fix_0xff2 ∧ WfMarkers s.u_markers

/-- One clock edge of the core; the two `end_in` ports, which the source leaves undriven, are low. -/
def topStep (s : top_module.S) (full b : Bool) (x : Nat) (v : Bool) (i : LiteIn) : top_module.S :=
  top_module.step s full b x v i.arvalid i.awvalid i.araddr i.rready i.awaddr i.wvalid i.wdata i.wstrb i.bready false false

/-- The combinational outputs. -/
theorem top_out (s : top_module.S) (b : Bool) (h : WfTop s) :
    ∃ o, MarkOut.mk (top_module.data_out s b) (top_module.valid_out s b) (top_module.end_out s b) o = (absCam s).out b :=
  ⟨_, markers_out s.u_markers s.u_fix_0xff2.valid_out s.u_fix_0xff2.end_out (fendOf s).fend s.u_fix_0xff2.data_out b h.2.2.2⟩

theorem top_nready (s : top_module.S) : top_module.nready s = (absCam s).nready := int2_nready s.u_integration_3.u_integration_2

theorem w46_eq (s : integration_2.S) (v : Bool) : integration_2.w46 s v = (v && !(absInt2 s).nready) := by
  rw [← int2_nready]; simp only [integration_2.w46, integration_2.w42, integration_2.w44]
  show (v == true && integration_2.nready s == false) = _
  cases v <;> cases integration_2.nready s <;> rfl

/-- The reset of the `sync` domain. -/
theorem top_rst (s : top_module.S) (full : Bool) : top_module.integration_3_rst s full = (s.u_auto_reset.reset_out || full) := by
  show (s.u_auto_reset.reset_out == true || full == true) = _
  cases s.u_auto_reset.reset_out <;> cases full <;> rfl

theorem top_run (s : top_module.S) (x : Nat) (v b : Bool) (i : LiteIn) (h : WfTop s) (hr : s.u_auto_reset.reset_out = false) :
    absCam (topStep s false b x v i) =
      (absCam s).microRun (cfgOf3 s.u_integration_3) (liteOf s).allowed_cycles ⟨[x], v, b⟩ := by
  have hr' : top_module.integration_3_rst s false = false := by rw [top_rst, hr]; rfl
  obtain ⟨o, ho⟩ := top_out s b h
  obtain ⟨h1, h2, h3, h4⟩ := h
  unfold topStep top_module.step
  rw [hr']
  apply Beta.cam_ext
  · exact int3_step s.u_integration_3 x i v s.u_fix_0xff.o_busy false h1
  · refine (Beta.force_end_step (fendOf s) _ _ h1.1.1.2.2.1).trans ?_
    show (Beta.absForceEnd (fendOf s)).step _ (integration_2.w46 s.u_integration_3.u_integration_2 v) = _
    rw [w46_eq]; rfl
  · exact fix1_step _ _ _ _ _ h2 h1.2.2
  · exact Beta.fix2_step _ _ _ _ _ _ h3
  · exact markers_step _ _ _ _ _ _ h4
  · show (if (top_module.valid_out s b == true && (b == false) == true && top_module.end_out s b == true) = true then true
      else s.u_auto_reset.reset_out) = AutoReset.next s.u_auto_reset.reset_out ((absCam s).out b).valid (!b) ((absCam s).out b).endd
    rw [← ho]
    show _ = AutoReset.next s.u_auto_reset.reset_out (top_module.valid_out s b) (!b) (top_module.end_out s b)
    generalize top_module.valid_out s b = p
    generalize top_module.end_out s b = q
    cases p <;> cases q <;> cases b <;> simp [AutoReset.next]

/-- A clock edge with the reset of the `sync` domain high. -/
theorem top_reset (s : top_module.S) (x : Nat) (v b full : Bool) (i : LiteIn) (h : WfTop s)
    (hr : (s.u_auto_reset.reset_out || full) = true) :
    absCam (topStep s full b x v i) = Cam.reset (cfgOf3 s.u_integration_3)
      ((absCam s).microRun (cfgOf3 s.u_integration_3) (liteOf s).allowed_cycles ⟨[x], v, b⟩).core.int2.kept := by
  have hr' : top_module.integration_3_rst s full = true := by rw [top_rst, hr]
  obtain ⟨h1, h2, h3, h4⟩ := h
  unfold topStep top_module.step
  rw [hr']
  apply Beta.cam_ext
  · exact int3_rst s.u_integration_3 x i v s.u_fix_0xff.o_busy full h1
  · exact Beta.force_end_rst _ _ _
  · exact fix1_rst _ _ _ _ _
  · exact Beta.fix2_rst _ _ _ _ _ _
  · exact markers_rst _ _ _ _ s.u_fix_0xff2.data_out _
  · rfl

theorem top_wf (s : top_module.S) (x : Nat) (v b full : Bool) (i : LiteIn) (h : WfTop s) (hx : x < 4096) :
    WfTop (topStep s full b x v i) :=
  ⟨int3_wf _ _ _ _ _ _ _ h.1 hx, fix1_wf _ _ _ _ _ _, Beta.fix2_wf _ _ _ _ _ _ _ h.2.2.1,
    markers_wf _ _ _ _ s.u_fix_0xff2.data_out _ _ h.2.2.2⟩

/-- The configuration the model works with is the one of the netlist. -/
theorem cfg_eq {s : top_module.S} {l : CoreLite} (h : LiteSim (liteOf s) (encOf s) l) (W H : Nat) (m : List Nat) :
    LiteCam.cfg (coreCfg W H m) l = cfgOf3 s.u_integration_3 := by
  have h1 : l.width = slc (liteOf s).height_width 16 16 := by rw [h.eq]; rfl
  have h2 : l.height = slc (liteOf s).height_width 0 16 := by rw [h.eq]; simp [CoreLite.height, absLite, slc]
  have h3 : (List.range 13).map l.stepMem.mem = memOf s.u_integration_3.u_integration_2.u_integration_1 := by
    rw [stepMem_eq h]
    show _ = nextMem (encOf s) (liteOf s).wp_en (slc (liteOf s).wp_addr 0 4) (liteOf s).wp_data
    have hlen : (nextMem (encOf s) (liteOf s).wp_en (slc (liteOf s).wp_addr 0 4) (liteOf s).wp_data).length = 13 := by
      rw [nextMem]; split <;> simp [h.len]
    apply List.ext_getElem
    · simp [hlen]
    · intro k hk hk'
      simp [List.getD_eq_getElem?_getD, hk']
  show CoreCfg.withRegs _ _ _ ((List.range 13).map l.stepMem.mem) = _
  rw [h1, h2, h3]
  rfl

/-- The netlist state and the model state. -/
structure MSim (s : top_module.S) (m : LiteCam) : Prop where
  wf : WfTop s
  cam : m.cam = absCam s
  lite : LiteSim (liteOf s) (encOf s) m.lite

theorem allowed_eq {n : core_axi_lite.S} {e : encode.S} {l : CoreLite} (h : LiteSim n e l) : l.allowed = n.allowed_cycles := by
  rw [h.eq]; rfl

/-- One clock edge. -/
theorem m_step {s : top_module.S} {m : LiteCam} (h : MSim s m) (W H : Nat) (t : List Nat) (x : Nat) (v b full : Bool) (i : LiteIn)
    (hx : x < 4096) : MSim (topStep s full b x v i) (m.microFull (coreCfg W H t) full ⟨⟨[x], v, b⟩, i⟩) := by
  have hc := cfg_eq h.lite W H t
  have ha := allowed_eq h.lite
  have hrst := top_rst s full
  have hl : liteOf (topStep s full b x v i) =
      liteNext (liteOf s) i full (s.u_auto_reset.reset_out || full) ((encOf s).mem.getD (encOf s).r_1_ 0) := by
    rw [← hrst]; rfl
  have he : (encOf (topStep s full b x v i)).mem = nextMem (encOf s) (liteOf s).wp_en (slc (liteOf s).wp_addr 0 4) (liteOf s).wp_data ∧
      (encOf (topStep s full b x v i)).r_1_ = slc (liteOf s).rp_addr 0 4 := ⟨rfl, rfl⟩
  have hres : m.cam.resetOut = s.u_auto_reset.reset_out := by rw [h.cam]; rfl
  cases full
  · refine ⟨top_wf s x v b false i h.wf hx, ?_, ?_⟩
    · show m.cam.microStep (LiteCam.cfg (coreCfg W H t) m.lite) m.lite.allowed ⟨[x], v, b⟩ = _
      rw [hc, ha, Cam.microStep, hres, h.cam]
      by_cases hr : s.u_auto_reset.reset_out = true
      · rw [if_pos hr, top_reset s x v b false i h.wf (by rw [hr]; rfl)]
      · rw [if_neg hr, top_run s x v b i h.wf (by simpa using hr)]
    · show LiteSim _ _ (m.lite.step 12 false m.cam.resetOut i (fun _ => 0))
      rw [hl, hres, Bool.or_false]
      exact lite_sim h.lite i _ _ he.1 he.2
  · refine ⟨top_wf s x v b true i h.wf hx, ?_, ?_⟩
    · show Cam.reset (coreCfg W H t) (m.cam.microRun (LiteCam.cfg (coreCfg W H t) m.lite) m.lite.allowed ⟨[x], v, b⟩).core.int2.kept = _
      rw [hc, ha, h.cam, top_reset s x v b true i h.wf (by simp)]
      rfl
    · show LiteSim _ _ m.lite.clear
      rw [hl, Bool.or_true]
      exact lite_full h.lite i _ he.1

/-- The memories have the right size. -/
theorem m_kept {s : top_module.S} (h : WfTop s) (W H : Nat) (t : List Nat) : (absCam s).core.int2.kept.Ok (coreCfg W H t) :=
  ⟨h.1.1.2.1.2.2.2, h.1.1.2.2.2.2.2.2, rfl⟩

theorem m_init (s : top_module.S) (h : top_module.Init s) (W H : Nat) (t : List Nat) :
    MSim s { cam := Cam.reset (coreCfg W H t) (absCam s).core.int2.kept, lite := .init fun k => (initHuffTable 12).getD k 0 } := by
  obtain ⟨h1, h2, h3, h4, h5⟩ := h
  obtain ⟨i1, i2, i3, i4, i5, i6⟩ := int3_init _ h4
  obtain ⟨f1, f2, f3, f4, f5, f6, f7, f8, f9, f10, f11⟩ := h2
  obtain ⟨g1, g2, g3, g4, g5, g6, g7, g8, g9, g10, g11⟩ := h3
  obtain ⟨m1, m2, m3⟩ := h5
  refine ⟨⟨i1, ⟨f11, f10⟩, ⟨?_, ?_, ?_, ?_, ?_⟩, ?_, ?_⟩, ?_, lite_init i4 i6⟩
  · omega
  · omega
  · omega
  · omega
  · intro _; rw [g2, g9]
  · omega
  · omega
  · symm
    apply Beta.cam_ext
    · exact i2
    · exact i5
    · simp [absCam, absFix1, Cam.reset, Fix1.init, f1, f2, f3, f4, f5, f6, f7, f8, f9]
    · simp [absCam, Beta.absFix2, Cam.reset, Fix2.init, Beta.fix2Fsm, g1, g2, g3, g4, g5, g6, g7, g8, g9, g10, g11]
    · simp [absCam, absMarkers, Cam.reset, Markers.init, Beta.markFsm, m1, m2, m3]
    · exact h1

end Netlist.MicroAxis
