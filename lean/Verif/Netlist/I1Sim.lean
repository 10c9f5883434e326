/- The shipped netlist integration_1.v against the model of migen_src/integration_1.py. -/
import Verif.Netlist.I1
import Verif.Netlist.MTop
import Verif.Model.CoreTop

set_option autoImplicit false
set_option maxHeartbeats 4000000

namespace Netlist.I1
open Netlist Model

/-- The state of `core_axi_lite` in integration_1.v as a state of that module in micro_integration_axistream.v. -/
def upLite (s : core_axi_lite.S) : MicroAxis.core_axi_lite.S :=
  { allowed_cycles := s.allowed_cycles, height_width := s.height_width, bresp_v := s.bresp_v, wp_en := s.wp_en, wp_data := s.wp_data,
    wp_addr := s.wp_addr, wready_v := s.wready_v, awready_v := s.awready_v, rresp_v := s.rresp_v, rdata_v := s.rdata_v,
    arready_v := s.arready_v, rp_addr := s.rp_addr, addr_v := s.addr_v, fsm_state := s.fsm_state, bvalid_v := s.bvalid_v,
    rvalid_v := s.rvalid_v }

/-- A clock edge of the slave. -/
def liteNext (s : core_axi_lite.S) (i : LiteIn) (full rst : Bool) (rp : Nat) : core_axi_lite.S :=
  core_axi_lite.step s rp i.arvalid i.awvalid i.araddr i.rready i.awaddr i.wvalid i.wdata i.wstrb i.bready full rst

theorem upLite_next (s : core_axi_lite.S) (i : LiteIn) (full rst : Bool) (rp : Nat) :
    upLite (liteNext s i full rst rp) = MicroAxis.liteNext (upLite s) i full rst rp := rfl

/-! ### encode -/

/-- The registers of the netlist as registers of the model; the netlist registers the read addresses. -/
def absEncode (s : encode.S) : Encode :=
  { ssssLate := [s.u_w13.ssss_late, s.u_w22.ssss_late], valLate := [s.u_w13.val_in_late, s.u_w22.val_in_late]
    rpData := [s.mem.getD s.r_1_ 0, s.mem.getD s.r_0_ 0]
    validLate := s.u_w13.valid_late, endLate := s.u_w13.end_late
    encOut := [s.u_w13.enc_out, s.u_w22.enc_out], encCtr := [s.u_w13.enc_ctr, s.u_w22.enc_ctr]
    valid := s.u_w13.valid_out, endd := s.u_w13.end_out }

/-- Both encoders of the netlist have the same valid bits. -/
def WfEncode (s : encode.S) : Prop := s.u_w22.valid_late = s.u_w13.valid_late

/-- The table memory after the clock edge. -/
def nextMem (m : List Nat) (we : Bool) (wa wd : Nat) : List Nat := if we then m.set wa wd else m

theorem encode_step (s : encode.S) (e v : Bool) (ss x' ss' ra : Nat) (we : Bool) (wa wd x : Nat) (h : WfEncode s) (h1 : ss < 16)
    (h2 : ss' < 16) :
    absEncode (encode.step s e v ss x' ss' false ra we wa wd x) =
      (absEncode s).step 12 (nextMem s.mem we wa wd) [x, x'] [ss, ss'] v e := by
  have e1 : ss % 2 ^ 4 = ss := by omega
  have e2 : ss' % 2 ^ 4 = ss' := by omega
  unfold WfEncode at h
  cases hv : s.u_w13.valid_late <;> rw [hv] at h <;> cases we <;>
    simp [netlist, absEncode, Encode.step, Encode.encVal, Encode.encLen, singleCtr, h, hv, Beta.slc_testBit, e1, e2, nextMem]

theorem encode_rst (s : encode.S) (e v : Bool) (ss x' ss' ra : Nat) (we : Bool) (wa wd x : Nat) (h1 : ss < 16) (h2 : ss' < 16) :
    absEncode (encode.step s e v ss x' ss' true ra we wa wd x) =
      Encode.reset 2 ((absEncode s).step 12 (nextMem s.mem we wa wd) [x, x'] [ss, ss'] v e).rpData := by
  have e1 : ss % 2 ^ 4 = ss := by omega
  have e2 : ss' % 2 ^ 4 = ss' := by omega
  cases we <;> simp [netlist, absEncode, Encode.step, Encode.reset, Beta.slc_zero, e1, e2, nextMem]

theorem encode_wf (s : encode.S) (e v rst : Bool) (ss x' ss' ra : Nat) (we : Bool) (wa wd x : Nat) :
    WfEncode (encode.step s e v ss x' ss' rst ra we wa wd x) := by
  cases rst <;> simp [netlist, WfEncode]

/-! ### The slave -/

/-- The slave and the table memory of the netlist and the slave of the model. The address latches need to agree only when
they are used. -/
structure LiteSim (n : core_axi_lite.S) (e : encode.S) (l : CoreLite) : Prop where
  eq : l = MicroAxis.absLite (upLite n) (fun k => e.mem.getD k 0) l.rpLatch
  addr : n.rp_addr = n.addr_v / 2 % 32
  latch : n.fsm_state = 4 ∨ n.fsm_state = 5 ∨ n.fsm_state = 7 ∨ n.fsm_state = 8 → n.addr_v.testBit 10 = true →
    l.rpLatch = n.rp_addr ∧ e.r_2_ = slc n.rp_addr 0 4
  len : e.mem.length = 13
  wp : n.wp_addr < 13
  fsm : n.fsm_state < 10

theorem stepMem_eq {n : core_axi_lite.S} {e : encode.S} {l : CoreLite} (h : LiteSim n e l) :
    l.stepMem.mem = fun k => (nextMem e.mem n.wp_en (slc n.wp_addr 0 4) n.wp_data).getD k 0 := by
  have hw := h.wp
  have hl := h.len
  rw [h.eq]
  have e1 : slc n.wp_addr 0 4 = n.wp_addr := by simp only [slc]; omega
  funext k
  rw [e1]
  cases he : n.wp_en
  · simp [MicroAxis.absLite, upLite, CoreLite.stepMem, nextMem, he]
  · simp only [MicroAxis.absLite, upLite, CoreLite.stepMem, nextMem, he, if_true, List.getD_eq_getElem?_getD]
    by_cases hk : k = n.wp_addr
    · rw [if_pos hk, hk, List.getElem?_set_self (by omega)]; rfl
    · rw [if_neg hk, List.getElem?_set_ne (fun q => hk q.symm)]

theorem lite_sim {n : core_axi_lite.S} {e : encode.S} {l : CoreLite} (h : LiteSim n e l) (i : LiteIn) (rst full : Bool) (e' : encode.S)
    (hm : e'.mem = nextMem e.mem n.wp_en (slc n.wp_addr 0 4) n.wp_data) (hr : e'.r_2_ = slc n.rp_addr 0 4) :
    LiteSim (liteNext n i full rst (e.mem.getD e.r_2_ 0)) e' (Core1.stepLite 12 l rst full i) := by
  have hs := stepMem_eq h
  have key := MicroAxis.lite_step (upLite n) (fun k => e.mem.getD k 0) l.rpLatch (e.mem.getD e.r_2_ 0) i rst h.fsm (by
    intro hf hb ha
    have hb : n.addr_v.testBit 10 = true := hb
    have hf : n.fsm_state = 5 ∨ n.fsm_state = 8 := hf
    have ha : n.addr_v % 64 < 26 := ha
    have hl := h.latch (by omega) hb
    have hq := h.addr
    have : slc n.rp_addr 0 4 = n.rp_addr := by simp only [slc]; omega
    show e.mem.getD l.rpLatch 0 = _
    rw [hl.1, hl.2, this])
  rw [← h.eq, hs, ← hm] at key
  have hlat : (l.step 12 false rst i (fun _ => 0)).rpLatch = n.rp_addr := by rw [← key]; rfl
  have g1 := MicroAxis.liteNext_addr (upLite n) i full rst (e.mem.getD e.r_2_ 0) h.addr
  have g2 := MicroAxis.liteNext_wp (upLite n) i full rst (e.mem.getD e.r_2_ 0) h.wp
  have g3 := MicroAxis.liteNext_fsm (upLite n) i full rst (e.mem.getD e.r_2_ 0) h.fsm
  have hlen : e'.mem.length = 13 := by rw [hm, nextMem]; split <;> simp [h.len]
  cases full
  · refine ⟨?_, g1, ?_, hlen, g2, g3⟩
    · show l.step 12 false rst i (fun _ => 0) = MicroAxis.absLite _ _ (l.step 12 false rst i (fun _ => 0)).rpLatch
      rw [hlat, ← key]; rfl
    · intro hf _
      show (l.step 12 false rst i (fun _ => 0)).rpLatch = _ ∧ _
      rw [hlat, hr, show (liteNext n i false rst (e.mem.getD e.r_2_ 0)).rp_addr = n.rp_addr from
        MicroAxis.liteNext_latch (upLite n) i false rst (e.mem.getD e.r_2_ 0) (by simp) hf]
      exact ⟨rfl, rfl⟩
  · refine ⟨?_, g1, ?_, hlen, g2, g3⟩
    · have hfsm : (l.step 12 false rst i (fun _ => 0)).fsm = MicroAxis.liteFsm (liteNext n i true rst (e.mem.getD e.r_2_ 0)).fsm_state := by
        rw [← key]; rfl
      have hla : l.rpAddr = n.rp_addr := by rw [h.eq]; rfl
      simp only [Core1.stepLite, if_true]
      rw [hfsm, hs, ← hm]
      simp [liteNext, netlist, upLite, MicroAxis.absLite, CoreLite.init]
    · intro _ hb; exfalso; simp [liteNext, netlist] at hb

theorem lite_init {n : core_axi_lite.S} {e : encode.S} (h : core_axi_lite.Init n) (he : e.mem = initHuffTable 12) :
    LiteSim n e (.init fun k => (initHuffTable 12).getD k 0) := by
  simp only [core_axi_lite.Init] at h
  refine ⟨?_, ?_, ?_, ?_, ?_, ?_⟩
  · simp [upLite, MicroAxis.absLite, CoreLite.init, MicroAxis.liteFsm, he, h]
  · simp [h]
  · intro hf; exfalso; simp [h] at hf
  · rw [he]; decide
  · simp [h]
  · simp [h]

/-! ### The pipeline -/

/-- The registers of the pipeline of the netlist as registers of the model. -/
def absInt1 (s : top.S) : Int1 :=
  { signals := Beta.absSignals s.u_signals, predictor := .pix12 (Beta.absPredictor s.u_predictor)
    difference := Beta.absDifference s.u_difference, normalize := Beta.absNormalize s.u_normalize
    encode := absEncode s.u_encode, merge := [[Beta.absMerge s.u_merge]] }

/-- Ranges of the registers of the pipeline. -/
def WfInt1 (s : top.S) : Prop :=
  Beta.WfSignals s.u_signals ∧ Beta.WfPredictor s.u_predictor ∧ WfEncode s.u_encode ∧ Beta.WfForceEnd s.u_force_end ∧
  s.u_normalize.u_w10.ssss ≤ 12 ∧ s.u_normalize.u_w17.ssss ≤ 12

/-- The configuration the pipeline of the netlist works with. -/
def int1Cfg (s : top.S) : Int1Cfg :=
  { bd := 12, ps := 2, W := slc s.u_core_axi_lite.height_width 16 16, H := slc s.u_core_axi_lite.height_width 0 16
    mem := nextMem s.u_encode.mem s.u_core_axi_lite.wp_en (slc s.u_core_axi_lite.wp_addr 0 4) s.u_core_axi_lite.wp_data }

/-- One clock edge of the netlist. -/
def topStep (s : top.S) (x x' : Nat) (rst : Bool) (i : LiteIn) (full v : Bool) : top.S :=
  top.step s x x' rst i.arvalid i.awvalid i.araddr i.rready i.awaddr i.wvalid i.wdata i.wstrb i.bready full v

theorem int1_step (s : top.S) (x x' : Nat) (i : LiteIn) (full v : Bool) (h : WfInt1 s) :
    absInt1 (topStep s x x' false i full v) = (absInt1 s).step (int1Cfg s) [x, x'] v := by
  obtain ⟨h1, h2, h3, h4, h5, h6⟩ := h
  have a1 := Beta.signals_step s.u_signals (slc s.u_core_axi_lite.height_width 16 16) (slc s.u_core_axi_lite.height_width 0 16) v h1
    (Beta.slc_lt ..) (Beta.slc_lt ..)
  have a2 := Beta.predictor_step s.u_predictor s.u_signals.new_row x x' s.u_signals.end_of_frame v
  obtain ⟨-, -, -, -, -, -, -, -, p1, p2, p3, p4⟩ := h2
  have a3 := Beta.difference_step s.u_difference s.u_predictor.pixel_out s.u_predictor.predic_out s.u_predictor.pixel_out_2
    s.u_predictor.predic_out_3 s.u_predictor.end_out s.u_predictor.valid_out p1 p3 p2 p4
  have a4 := Beta.normalize_step s.u_normalize s.u_difference.valid_out s.u_difference.end_out s.u_difference.val_out_4
    s.u_difference.val_out_3 s.u_difference.val_out_5 s.u_difference.val_out
  have a5 := encode_step s.u_encode s.u_normalize.u_w10.end_out s.u_normalize.u_w10.valid_o s.u_normalize.u_w10.ssss
    s.u_normalize.u_w17.val_out s.u_normalize.u_w17.ssss
    (slc s.u_core_axi_lite.rp_addr 0 4) s.u_core_axi_lite.wp_en (slc s.u_core_axi_lite.wp_addr 0 4) s.u_core_axi_lite.wp_data
    s.u_normalize.u_w10.val_out h3 (by omega) (by omega)
  have a6 := Beta.merge_step s.u_merge s.u_encode.u_w13.enc_ctr s.u_encode.u_w13.valid_out s.u_encode.u_w13.end_out
    s.u_encode.u_w22.enc_out s.u_encode.u_w22.enc_ctr s.u_encode.u_w13.enc_out
  simp only [absInt1, Int1.step]
  congr 1
  · exact congrArg Predictor.pix12 a2
  · exact congrArg (fun m => [[m]]) a6

theorem int1_rst (s : top.S) (x x' : Nat) (i : LiteIn) (full v : Bool) (h : WfInt1 s) :
    absInt1 (topStep s x x' true i full v) =
      Int1.reset (int1Cfg s) ((absInt1 s).step (int1Cfg s) [x, x'] v).encode.rpData := by
  obtain ⟨h1, h2, h3, h4, h5, h6⟩ := h
  have a5 := encode_rst s.u_encode s.u_normalize.u_w10.end_out s.u_normalize.u_w10.valid_o s.u_normalize.u_w10.ssss
    s.u_normalize.u_w17.val_out s.u_normalize.u_w17.ssss
    (slc s.u_core_axi_lite.rp_addr 0 4) s.u_core_axi_lite.wp_en (slc s.u_core_axi_lite.wp_addr 0 4) s.u_core_axi_lite.wp_data
    s.u_normalize.u_w10.val_out (by omega) (by omega)
  simp only [absInt1, Int1.reset, Int1.step]
  congr 1
  · exact congrArg Predictor.pix12 (Beta.predictor_rst ..)

theorem int1_wf (s : top.S) (x x' : Nat) (rst : Bool) (i : LiteIn) (full v : Bool) (h : WfInt1 s) (hx : x < 4096) (hx' : x' < 4096) :
    WfInt1 (topStep s x x' rst i full v) := by
  obtain ⟨h1, h2, h3, h4, h5, h6⟩ := h
  have hn : ∀ (n : Beta.normalize.S) (v e rst : Bool) (m x' m' x : Nat), n.u_w10.ssss ≤ 12 → n.u_w17.ssss ≤ 12 →
      (Beta.normalize.step n v e m x' m' rst x).u_w10.ssss ≤ 12 ∧ (Beta.normalize.step n v e m x' m' rst x).u_w17.ssss ≤ 12 := by
    intro n v e rst m x' m' x k1 k2
    cases rst
    · cases v
      · exact ⟨k1, k2⟩
      · refine ⟨?_, ?_⟩
        · rw [show (Beta.normalize.step n true e m x' m' false x).u_w10.ssss = Beta.anonymous.next_ssss n.u_w10 x m false true from rfl,
            Beta.single_norm_ssss]; exact Beta.normSsss_le _ _
        · rw [show (Beta.normalize.step n true e m x' m' false x).u_w17.ssss = Beta.anonymous_1.next_ssss n.u_w17 x' m' false true from rfl,
            (Beta.single_norm' _ _ _).2]; exact Beta.normSsss_le _ _
    · exact ⟨Nat.zero_le _, Nat.zero_le _⟩
  have n := hn s.u_normalize s.u_difference.valid_out s.u_difference.end_out rst s.u_difference.val_out_4
    s.u_difference.val_out_3 s.u_difference.val_out_5 s.u_difference.val_out h5 h6
  exact ⟨Beta.signals_wf _ _ _ _ _ h1 (Beta.slc_lt ..), Beta.predictor_wf _ _ _ _ _ _ _ h2 hx hx', encode_wf .., Beta.force_end_wf _ _ _ _ h4,
    n.1, n.2⟩

theorem int1_init (s : top.S) (h : top.Init s) : WfInt1 s ∧
    absInt1 s = Int1.reset (int1Cfg s) (absInt1 s).encode.rpData ∧ core_axi_lite.Init s.u_core_axi_lite ∧
    Beta.absForceEnd s.u_force_end = ForceEnd.init ∧ s.u_encode.mem = initHuffTable 12 := by
  obtain ⟨h0, h1, h2, h3, h4, h5, h6, h7⟩ := h
  refine ⟨?_, ?_, h0, ?_, ?_⟩
  · obtain ⟨-, e1, e2⟩ := h2
    simp only [Beta.anonymous_2.Init, Beta.anonymous_3.Init, Beta.normalize.Init, Beta.anonymous.Init, Beta.anonymous_1.Init,
      Beta.predictor.Init, Beta.signals.Init, Beta.force_end.Init] at e1 e2 h5 h6 h7 h3
    simp [WfInt1, Beta.WfSignals, Beta.WfPredictor, Beta.WfForceEnd, WfEncode, e1, e2, h5, h6, h7, h3]
  · obtain ⟨-, e1, e2⟩ := h2
    simp only [Beta.anonymous_2.Init, Beta.anonymous_3.Init, Beta.normalize.Init, Beta.anonymous.Init, Beta.anonymous_1.Init,
      Beta.predictor.Init, Beta.signals.Init, Beta.difference.Init, Beta.merge.Init, Beta.anonymous_4.Init] at e1 e2 h5 h6 h7 h1 h4
    rw [absInt1, Int1.reset, show levels (int1Cfg s).ps = 1 from (by decide : levels 2 = 1)]
    simp [int1Cfg, Beta.absSignals, Beta.absPredictor, Beta.absDifference, Beta.absNormalize, absEncode, Beta.absMerge,
      Signals.init, Predictor.init, Pix12.init, Difference.init, Normalize.init, Encode.reset, Pix12.gb, Beta.sigFsm,
      Merge.initLevels, Merger.init, e1, e2, h5, h1, h6, h7, h4]
  · obtain ⟨f1, f2, f3⟩ := h3
    simp [Beta.absForceEnd, ForceEnd.init, Beta.fendFsm, f1, f2, f3]
  · rw [h2.1]; decide

/-! ### The whole netlist -/

/-- The configuration of integration_1.v but for what the slave gives. -/
def cfg1 : Int1Cfg := { bd := 12, ps := 2, W := 0, H := 0, mem := initHuffTable 12 }

/-- The netlist state and the model state. -/
structure Sim (s : top.S) (m : Core1) : Prop where
  wf : WfInt1 s
  int1 : m.int1 = absInt1 s
  fend : m.fend = Beta.absForceEnd s.u_force_end
  lite : LiteSim s.u_core_axi_lite s.u_encode m.lite

/-- The configuration the model works with is the one of the netlist. -/
theorem cfg_eq {s : top.S} {l : CoreLite} (h : LiteSim s.u_core_axi_lite s.u_encode l) : Core1.cfg cfg1 l = int1Cfg s := by
  have h1 : l.width = slc s.u_core_axi_lite.height_width 16 16 := by rw [h.eq]; rfl
  have h2 : l.height = slc s.u_core_axi_lite.height_width 0 16 := by rw [h.eq]; simp [CoreLite.height, MicroAxis.absLite, upLite, slc]
  have h3 : (List.range 13).map l.stepMem.mem = (int1Cfg s).mem := by
    rw [stepMem_eq h]
    show _ = nextMem s.u_encode.mem s.u_core_axi_lite.wp_en (slc s.u_core_axi_lite.wp_addr 0 4) s.u_core_axi_lite.wp_data
    have hlen : (nextMem s.u_encode.mem s.u_core_axi_lite.wp_en (slc s.u_core_axi_lite.wp_addr 0 4) s.u_core_axi_lite.wp_data).length = 13 := by
      rw [nextMem]; split <;> simp [h.len]
    apply List.ext_getElem
    · simp [hlen]
    · intro k hk hk'
      simp [List.getD_eq_getElem?_getD, hk']
  simp only [Core1.cfg, cfg1]
  rw [h1, h2, show 12 + 1 = 13 from rfl, h3]
  rfl

theorem sim_step {s : top.S} {m : Core1} (h : Sim s m) (x x' : Nat) (rst : Bool) (i : LiteIn) (full v : Bool) (hx : x < 4096) (hx' : x' < 4096) :
    Sim (topStep s x x' rst i full v) (m.step cfg1 rst full [x, x'] v i) := by
  have hc := cfg_eq h.lite
  have ha : m.lite.allowed = s.u_core_axi_lite.allowed_cycles := by rw [h.lite.eq]; rfl
  refine ⟨int1_wf s x x' rst i full v h.wf hx hx', ?_, ?_, lite_sim h.lite i rst full _ rfl rfl⟩
  · simp only [Core1.step, hc, h.int1]
    cases rst
    · rw [int1_step s x x' i full v h.wf]; rfl
    · rw [int1_rst s x x' i full v h.wf]; rfl
  · simp only [Core1.step, ha, h.fend]
    cases rst
    · exact (Beta.force_end_step s.u_force_end _ v h.wf.2.2.2.1).symm
    · exact (Beta.force_end_rst s.u_force_end _ v).symm

theorem sim_init (s : top.S) (h : top.Init s) :
    Sim s (.init cfg1 (absInt1 s).encode.rpData fun k => (initHuffTable 12).getD k 0) := by
  obtain ⟨h1, h2, h3, h4, h5⟩ := int1_init s h
  refine ⟨h1, ?_, h4.symm, lite_init h3 h5⟩
  exact h2.symm

end Netlist.I1
