/- The shipped Verilog netlist of the core between two AXI streams (verilog_src/integration_3_axi_stream.v): C81. -/
import Verif.Netlist.I3Int3
import Verif.Model.Stream64
import Verif.Props.Config
import Verif.Props.Liveness
import Verif.Props.Stream32

set_option autoImplicit false

namespace Props.Net64
open Spec Model Netlist Proof Props

/-- The input ports in one cycle. -/
structure In where
  rst : Bool
  fullRst : Bool
  data : Nat
  valid : Bool
  last : Bool
  ready : Bool

/-- The output ports in one cycle: `s_tready`, `m_tvalid`, `m_tlast`, `m_tdata`. -/
structure Out where
  sReady : Bool
  mValid : Bool
  mLast : Bool
  mData : Nat
deriving DecidableEq

/-- A clock edge of the netlist. -/
def step (s : I3Axis.top.S) (i : In) : I3Axis.top.S :=
  I3Axis.top.step s i.data i.last i.valid i.rst i.fullRst i.ready

/-- The netlist's output ports. -/
def out (s : I3Axis.top.S) : Out := ⟨I3Axis.top.s_tready s, I3Axis.top.m_tvalid s, I3Axis.top.m_tlast s, I3Axis.top.m_tdata s⟩

/-- The outputs of the netlist, cycle by cycle. -/
def outs : I3Axis.top.S → List In → List Out
  | _, [] => []
  | s, i :: r => out s :: outs (step s i) r

/-- The outputs of the model of integration_3_axi_stream.py, cycle by cycle. -/
def modelOuts (c : CoreCfg) : Stream64 → List In → List Out
  | _, [] => []
  | s, i :: r => ⟨s.sReady, s.mValid, s.mLast, s.mData⟩ ::
      modelOuts c (s.step c i.rst i.fullRst i.data i.valid i.ready) r

/-- The configuration of integration_3_axi_stream.py:11-23 with the frame of the register file (register_file.py:53-57). -/
def core64 : CoreCfg :=
  { int1 := { bd := 12, ps := 4, W := 4096, H := 3072, mem := initHuffTable 12 }
    depth := 128, conv := 48, cdepth := 256, out := 32, buf := 144 }

theorem core64_setup : CoreSetup core64 defaultTable := default_setup (by decide) rfl

/-! ### The netlist and the model -/

/-- The state of the netlist as a state of the model. -/
def abs (s : I3Axis.top.S) : Stream64 :=
  let r := s.u_top_module.u_integration_2.u_integration_1.u_register_file
  { core := I3Axis.absInt3 s.u_top_module, regs := ⟨r.width_reg, r.height_reg, r.allowed_cycles_reg⟩ }

def Wf (s : I3Axis.top.S) : Prop := I3Axis.WfInt3 s.u_top_module

theorem step_eq (s : I3Axis.top.S) (i : In) : (step s i).u_top_module =
    I3Axis.top_module.step s.u_top_module (slice i.data 12 24) (slice i.data 24 36) (slice i.data 36 48) i.valid (!i.ready)
      i.rst i.fullRst (slice i.data 0 12) := by
  obtain ⟨r, f, d, v, l, m⟩ := i
  cases m <;> rfl

theorem abs_step (s : I3Axis.top.S) (i : In) (h : Wf s) :
    abs (step s i) = (abs s).step (I3Axis.coreCfg 0 0) i.rst i.fullRst i.data i.valid i.ready := by
  have hr : (abs (step s i)).regs = ((abs s).step (I3Axis.coreCfg 0 0) i.rst i.fullRst i.data i.valid i.ready).regs := by
    obtain ⟨r, f, d, v, l, m⟩ := i
    cases f <;> rfl
  have hc : (abs (step s i)).core = ((abs s).step (I3Axis.coreCfg 0 0) i.rst i.fullRst i.data i.valid i.ready).core := by
    show I3Axis.absInt3 (step s i).u_top_module = _
    rw [step_eq]
    obtain ⟨r, f, d, v, l, m⟩ := i
    cases r
    · exact I3Axis.int3_step _ _ _ _ _ _ _ _ h
    · exact I3Axis.int3_rst _ _ _ _ _ _ _ _ h
  generalize abs (step s i) = a at *
  generalize (abs s).step (I3Axis.coreCfg 0 0) i.rst i.fullRst i.data i.valid i.ready = b at *
  obtain ⟨a1, a2⟩ := a
  obtain ⟨b1, b2⟩ := b
  cases hr; cases hc; rfl

theorem wf_step (s : I3Axis.top.S) (i : In) (h : Wf s) : Wf (step s i) := by
  show I3Axis.WfInt3 (step s i).u_top_module
  rw [step_eq]
  exact I3Axis.int3_wf _ _ _ _ _ _ _ _ _ h (Nat.mod_lt _ (by decide)) (Nat.mod_lt _ (by decide)) (Nat.mod_lt _ (by decide))
    (Nat.mod_lt _ (by decide))

theorem out_eq (s : I3Axis.top.S) : out s = ⟨(abs s).sReady, (abs s).mValid, (abs s).mLast, (abs s).mData⟩ := by
  have h : I3Axis.top.s_tready s = (abs s).sReady := by
    show (I3Axis.integration_2.nready s.u_top_module.u_integration_2 == false) = !(I3Axis.absInt2 s.u_top_module.u_integration_2).nready
    rw [I3Axis.int2_nready]
    cases (I3Axis.absInt2 s.u_top_module.u_integration_2).nready <;> rfl
  unfold out
  rw [h]
  rfl

theorem kept_ok {s : I3Axis.top.S} (h : Wf s) : (abs s).core.int2.kept.Ok (I3Axis.coreCfg 0 0) :=
  ⟨h.1.2.1.2.2.2, h.1.2.2.2.1.2.2.2, rfl⟩

/-- Sizes of the core's memories and lists. -/
structure Size (c : CoreCfg) (s : Int3) : Prop where
  pred : PredOk c.int1.ps s.int2.int1.predictor
  lens : Lens c.int1.ps s.int2.int1
  pm : s.int2.pfifo.inner.storage.length = c.depth - 1
  cm : s.int2.cfifo.inner.storage.length = c.cdepth - 1

theorem size_reset {c : CoreCfg} (hps : c.int1.ps = 1 ∨ c.int1.ps = 2 ∨ c.int1.ps = 4) {m : Kept} (hm : m.Ok c) :
    Size c (Int3.reset c m) := by
  have := sizeOk_reset hps hm
  exact ⟨this.pred, this.lens, this.pm, this.cm⟩

theorem size_step {c : CoreCfg} {s : Int3} (h : Size c s) (W H : Nat) (mem : List Nat) (px : List Nat) (v b : Bool)
    (hv : v = true → px.length = c.int1.ps) : Size c (s.step (c.withRegs W H mem) px v b) := by
  obtain ⟨h1, h2, h3, h4⟩ := h
  have hp := pred_step h1 h2.a h2.b px s.int2.int1.signals.newRow (v && !s.int2.nready)
    s.int2.int1.signals.endOfFrame (fun h => hv (by simp at h; exact h.1))
  refine ⟨hp.1, ?_, ?_, ?_⟩
  · exact lens_step (c := (c.withRegs W H mem).int1) h2 hp.2.1 hp.2.2
  · simp only [Int3.step, Int2.step, fifo_storage, h3]
  · simp only [Int3.step, Int2.step, fifo_storage, h4]

theorem size_kept {c : CoreCfg} {s : Int3} (h : Size c s) : s.int2.kept.Ok c := ⟨h.pm, h.cm, h.lens.i⟩

theorem sim_regs {W H W' H' : Nat} {a b : Int3} (h : Int3.Sim (I3Axis.coreCfg W H) a b) : Int3.Sim (I3Axis.coreCfg W' H') a b :=
  ⟨h.int1, h.pfifo, h.conv, h.cfifo, h.ctl, h.vbits⟩

/-- A model state that agrees with the netlist's state on everything in use. -/
structure Sim (s : I3Axis.top.S) (t : Stream64) : Prop where
  core : Int3.Sim (I3Axis.coreCfg 0 0) (abs s).core t.core
  regs : (abs s).regs = t.regs
  size : Size (I3Axis.coreCfg 0 0) t.core

theorem sim_step {s : I3Axis.top.S} {t : Stream64} (h : Sim s t) (hs : Wf s) (i : In) :
    Sim (step s i) (t.step (I3Axis.coreCfg 0 0) i.rst i.fullRst i.data i.valid i.ready) := by
  have ws := kept_ok (wf_step s i hs)
  have es := abs_step s i hs
  have hreg := h.regs
  have hz := size_step h.size t.regs.width t.regs.height (I3Axis.coreCfg 0 0).int1.mem
    (stream64In i.data i.valid i.ready).pixels i.valid (!i.ready) (fun _ => rfl)
  have hk := size_kept hz
  have hsim := Int3.sim_step (sim_regs (W' := t.regs.width) (H' := t.regs.height) h.core)
    (stream64In i.data i.valid i.ready).pixels i.valid (!i.ready)
  rw [es] at ws
  rw [show (abs s).step (I3Axis.coreCfg 0 0) i.rst i.fullRst i.data i.valid i.ready = _ from rfl] at es
  obtain ⟨r, f, d, v, l, m⟩ := i
  refine ⟨?_, ?_, ?_⟩
  · rw [es]
    simp only [Stream64.step] at ws ⊢
    rw [hreg] at ws ⊢
    cases r
    · exact sim_regs hsim
    · exact Int3.sim_reset (c := I3Axis.coreCfg 0 0) (by decide) (by decide) ws hk
  · rw [es]
    simp only [Stream64.step, hreg]
  · simp only [Stream64.step]
    cases r
    · exact hz
    · exact size_reset (c := I3Axis.coreCfg 0 0) (by decide) hk

theorem sim_outs (l : List In) : ∀ s t, Sim s t → Wf s → outs s l = modelOuts (I3Axis.coreCfg 0 0) t l := by
  induction l with
  | nil => intro s t _ _; rfl
  | cons i r ih =>
    intro s t h hs
    obtain ⟨h1, h2, h3, h4⟩ := Int3.sim_out h.core
    rw [outs, modelOuts, out_eq s, ih _ _ (sim_step h hs i) (wf_step s i hs)]
    simp only [Stream64.sReady, Stream64.mValid, Stream64.mLast, Stream64.mData, h1, h2, h3, h4]

theorem modelOuts_cfg (l : List In) : ∀ t, modelOuts core64 t l = modelOuts (I3Axis.coreCfg 0 0) t l := by
  induction l with
  | nil => intro t; rfl
  | cons i r ih =>
    intro t
    rw [modelOuts, modelOuts, ih]
    rfl

theorem init_abs {s : I3Axis.top.S} (hs : I3Axis.top.Init s) : Wf s ∧
    (abs s).core = Int3.reset (I3Axis.coreCfg 0 0) (abs s).core.int2.kept ∧ (abs s).core.int2.kept.Ok (I3Axis.coreCfg 0 0) ∧
    (abs s).regs = RegFile.init := by
  obtain ⟨h1, h2, h3, h4⟩ := I3Axis.int3_init _ hs
  exact ⟨h1, h2, h3, by simp only [abs, h4]; rfl⟩

/-- C81: from power-up, whatever the registers without an initial value hold, and for every sequence of inputs, both
resets included, the output ports of the netlist show in every cycle exactly what the model of
migen_src/integration_3_axi_stream.py shows. -/
theorem C81_netlist_is_source (s : I3Axis.top.S) (hs : I3Axis.top.Init s) (l : List In) :
    outs s l = modelOuts core64 (Stream64.init core64) l := by
  rw [modelOuts_cfg]
  show _ = modelOuts (I3Axis.coreCfg 0 0) (Stream64.init (I3Axis.coreCfg 0 0)) l
  obtain ⟨h1, h2, h3, h4⟩ := init_abs hs
  obtain ⟨m, hm, he⟩ := afterReset_init (I3Axis.coreCfg 0 0)
  refine sim_outs l _ _ ⟨?_, h4, ?_⟩ h1
  · rw [h2, Stream64.init, he]
    exact Int3.sim_reset (by decide) (by decide) h3 hm
  · rw [Stream64.init, he]
    exact size_reset (by decide) hm

-- Power-up states exist.
example : I3Axis.top.Init I3Axis.top.powerUp := I3Axis.top.powerUp_init

/-! ### What the netlist does -/

/-- The state after a sequence of clock edges. -/
def run : I3Axis.top.S → List In → I3Axis.top.S
  | s, [] => s
  | s, i :: r => run (step s i) r

/-- Words transferred on the slave stream: `s_tvalid` and `s_tready`. -/
def moved : I3Axis.top.S → List In → List Nat
  | _, [] => []
  | s, i :: r => (if i.valid && (out s).sReady then [i.data] else []) ++ moved (step s i) r

/-- Words transferred on the master stream: `m_tvalid` and `m_tready`, with `m_tlast`. -/
def given : I3Axis.top.S → List In → List (Nat × Bool)
  | _, [] => []
  | s, i :: r => (if (out s).mValid && i.ready then [((out s).mData, (out s).mLast)] else []) ++ given (step s i) r

/-- The states after power-up and after a cycle with `rst`, whatever happened before it. -/
def Start (s : I3Axis.top.S) : Prop :=
  ∃ s0 pre, I3Axis.top.Init s0 ∧ s = run s0 pre ∧ (pre = [] ∨ ∃ p b, pre = p ++ [b] ∧ b.rst = true)

/-- No reset. -/
def Quiet (l : List In) : Prop := ∀ i ∈ l, i.rst = false ∧ i.fullRst = false

theorem run_append (l m : List In) : ∀ s, run s (l ++ m) = run (run s l) m := by
  induction l with
  | nil => intro s; rfl
  | cons i r ih => intro s; exact ih _

theorem wf_run (l : List In) : ∀ s, Wf s → Wf (run s l) := by
  induction l with
  | nil => intro s h; exact h
  | cons i r ih => intro s h; exact ih _ (wf_step s i h)

def In.axis (i : In) : AxisIn := ⟨i.data, i.valid, i.ready⟩

/-- The state at the start of a frame. -/
def Fresh (s : I3Axis.top.S) : Prop :=
  Wf s ∧ ∃ m, m.Ok core64 ∧ (abs s).core = Int3.reset core64 m ∧
    ((abs s).regs = RegFile.init ∨ (abs s).regs = ⟨4096, 3072, 6666000⟩)

theorem kept_core64 {m : Kept} (h : m.Ok (I3Axis.coreCfg 0 0)) : m.Ok core64 := ⟨h.pm, h.cm, h.rp⟩

theorem fresh_of_start {s : I3Axis.top.S} (h : Start s) : Fresh s := by
  obtain ⟨s0, pre, h0, rfl, h⟩ := h
  obtain ⟨h1, h2, h3, h4⟩ := init_abs h0
  rcases h with rfl | ⟨p, b, rfl, hb⟩
  · exact ⟨h1, _, kept_core64 h3, h2, Or.inl h4⟩
  · rw [run_append]
    have hw := wf_run p _ h1
    have hw' := wf_step _ b hw
    have hk := kept_ok hw'
    have he := abs_step _ b hw
    show Fresh (step (run s0 p) b)
    generalize step (run s0 p) b = t at *
    refine ⟨hw', (abs t).core.int2.kept, kept_core64 hk, ?_, ?_⟩
    · rw [he]; simp only [Stream64.step, hb, if_true]; rfl
    · rw [he]
      simp only [Stream64.step]
      cases b.fullRst
      · exact Or.inr rfl
      · exact Or.inl rfl

/-- The core at the end of the cycles `l`, with the frame size of the register file. -/
theorem core_run (l : List In) : ∀ s, Wf s → Quiet l → (abs s).regs = ⟨4096, 3072, 6666000⟩ →
    (abs (run s l)).core = Int3.run core64 (abs s).core (axisCore (l.map In.axis)) ∧
    moved s l = axis64Moved core64 (abs s).core (l.map In.axis) ∧
    given s l = Int3.delivered core64 (abs s).core (axisCore (l.map In.axis)) := by
  induction l with
  | nil => intro s _ _ _; exact ⟨rfl, rfl, rfl⟩
  | cons i r ih =>
    intro s h hq hr
    have e : abs (step s i) = ⟨(abs s).core.step core64 (stream64In i.data i.valid i.ready).pixels i.valid (!i.ready), ⟨4096, 3072, 6666000⟩⟩ := by
      rw [abs_step s i h, Stream64.step, (hq i (by simp)).1, (hq i (by simp)).2, hr]
      rfl
    obtain ⟨e1, e2, e3⟩ := ih _ (wf_step s i h) (fun j hj => hq j (by simp [hj])) (by rw [e])
    rw [e] at e1 e2 e3
    refine ⟨e1, ?_, ?_⟩
    · rw [moved, e2, out_eq]; rfl
    · rw [given, e3, out_eq]
      show _ ++ _ = (if ((abs s).core.valid && !(!i.ready)) = true then _ else _) ++ _
      rw [Bool.not_not]
      rfl

/-- The first cycle of a frame, in which the register file may show 0. -/
theorem fresh_step (m : Kept) (r : RegFile) (i : In) (hi : i.rst = false ∧ i.fullRst = false)
    (hr : r = RegFile.init ∨ r = ⟨4096, 3072, 6666000⟩) :
    Stream64.step (I3Axis.coreCfg 0 0) ⟨Int3.reset core64 m, r⟩ i.rst i.fullRst i.data i.valid i.ready =
      ⟨(Int3.reset core64 m).step core64 (stream64In i.data i.valid i.ready).pixels i.valid (!i.ready), ⟨4096, 3072, 6666000⟩⟩ := by
  rw [hi.1, hi.2]
  rcases hr with rfl | rfl
  · have hn2 : (Int3.reset core64 m).int2.nready = true := rfl
    have hs : (Int3.reset core64 m).int2.int1.signals.fsm = .idle := rfl
    simp only [Stream64.step, Bool.false_eq_true, if_false, Int3.step, Int2.step, hn2, Bool.not_true, Bool.and_false, Int1.step, Signals.step, hs]
    rfl
  · rfl

/-- From the start of a frame, what the netlist takes and gives is what the model takes and gives. -/
theorem fresh_run {s : I3Axis.top.S} (hs : Start s) : ∃ a, AfterReset core64 a ∧ ∀ l, Quiet l →
    (abs (run s l)).core = Int3.run core64 a (axisCore (l.map In.axis)) ∧
    moved s l = axis64Moved core64 a (l.map In.axis) ∧
    given s l = Int3.delivered core64 a (axisCore (l.map In.axis)) := by
  obtain ⟨h1, m, hm, hc, hr⟩ := fresh_of_start hs
  refine ⟨_, ⟨m, hm, rfl⟩, ?_⟩
  intro l hq
  cases l with
  | nil => exact ⟨hc, rfl, rfl⟩
  | cons i r =>
    have e : abs (step s i) = _ := abs_step s i h1
    rw [show abs s = ⟨Int3.reset core64 m, (abs s).regs⟩ by rw [← hc], fresh_step m _ i (hq i (by simp)) hr] at e
    obtain ⟨e1, e2, e3⟩ := core_run r _ (wf_step s i h1) (fun j hj => hq j (by simp [hj])) (by rw [e])
    rw [e] at e1 e2 e3
    refine ⟨e1, ?_, ?_⟩
    · rw [moved, e2, out_eq, Stream64.sReady, hc]; rfl
    · rw [given, e3, out_eq, Stream64.mValid, Stream64.mData, Stream64.mLast, hc]
      rfl

/-- C81, what is given is code: at every moment of a frame the bits of the words given before the one with `m_tlast`
are a prefix of the T.81 code of the pixels in the words taken so far. -/
theorem C81_output_is_prefix (s : I3Axis.top.S) (hs : Start s) (l : List In) (hq : Quiet l) :
    wordBits 32 (beforeEnd (given s l)) <+: encode defaultTable 12 4096 ((moved s l).flatMap pixels64) := by
  obtain ⟨a, ha, h⟩ := fresh_run hs
  obtain ⟨_, h2, h3⟩ := h l hq
  rw [h2, h3, ← axis64_accepted]
  exact C16_output_is_prefix_of_code core64_setup ha _ (axisCore_wf rfl rfl _)

/-- C81, the frame: when a word with `m_tlast` has been given, 4096 x 3072 pixels were taken, the words up to it are the
code of them filled up with fewer than 32 zero bits, and a T.81 decoder with the default table reads them back. -/
theorem C81_frame (s : I3Axis.top.S) (hs : Start s) (l : List In) (hq : Quiet l) (w : Nat) (hw : (w, true) ∈ given s l) :
    let pixels := (moved s l).flatMap pixels64
    pixels.length = 4096 * 3072 ∧
    (∃ j, j < 32 ∧ wordBits 32 (upToEnd (given s l)) = encode defaultTable 12 4096 pixels ++ List.replicate j false) ∧
    ∃ pad, decode defaultTable 13 12 4096 (4096 * 3072) [] (wordBits 32 (upToEnd (given s l))) = some (pixels, pad) := by
  intro pixels
  obtain ⟨a, ha, h⟩ := fresh_run hs
  obtain ⟨_, h2, h3⟩ := h l hq
  have hp : pixels = Int3.accepted core64 a (axisCore (l.map In.axis)) := by
    rw [axis64_accepted, ← h2]
  rw [hp]
  rw [h3] at hw ⊢
  have c1 := C17_complete_at_end core64_setup ha _ (axisCore_wf rfl rfl _) w hw
  exact ⟨c1.1, c1.2.1, C18_image_recovered core64_setup (by decide) ha _ (axisCore_wf rfl rfl _) w hw⟩

/-- C81: no more than a frame is taken. -/
theorem C81_no_pixel_after_frame (s : I3Axis.top.S) (hs : Start s) (l : List In) (hq : Quiet l) :
    ((moved s l).flatMap pixels64).length ≤ 4096 * 3072 ∧
    (((moved s l).flatMap pixels64).length = 4096 * 3072 → (out (run s l)).sReady = false) := by
  obtain ⟨a, ha, h⟩ := fresh_run hs
  obtain ⟨h1, h2, h3⟩ := h l hq
  have := C19_no_pixel_after_frame core64_setup ha _ (axisCore_wf rfl rfl (l.map In.axis))
  rw [axis64_accepted, ← h2] at this
  refine ⟨this.1, fun he => ?_⟩
  rw [out_eq]
  show (!(abs (run s l)).core.nready) = false
  rw [h1, this.2 he]
  rfl

/-- C81, AXI-stream rule: a word that is not taken stays on the master stream unchanged. -/
theorem C81_word_stable (s : I3Axis.top.S) (hs : Start s) (l : List In) (i : In) (hq : Quiet (l ++ [i])) (hr : i.ready = false)
    (hv : (out (run s l)).mValid = true) :
    (out (run s (l ++ [i]))).mValid = true ∧ (out (run s (l ++ [i]))).mData = (out (run s l)).mData ∧
    (out (run s (l ++ [i]))).mLast = (out (run s l)).mLast := by
  obtain ⟨a, ha, h⟩ := fresh_run hs
  obtain ⟨h1, _, _⟩ := h l (fun j hj => hq j (by simp [hj]))
  obtain ⟨g1, _, _⟩ := h _ hq
  have e : axisCore ((l ++ [i]).map In.axis) = axisCore (l.map In.axis) ++ [stream64In i.data i.valid i.ready] := by
    simp [axisCore, In.axis]
  rw [e, Model.run_append] at g1
  rw [out_eq] at hv ⊢
  rw [out_eq]
  simp only [Stream64.mValid, Stream64.mData, Stream64.mLast, h1, g1] at hv ⊢
  have := C20_word_stable core64 ha (axisCore (l.map In.axis)) (stream64In i.data i.valid i.ready).pixels i.valid hv
  simp only [Int3.run, show (stream64In i.data i.valid i.ready).busy = true by rw [stream64In, hr]; rfl]
  exact this

/-- C81, progress: if words are offered again and again and the receiver is ready again and again, the frame ends. -/
theorem C81_always_ends (s : I3Axis.top.S) (hs : Start s) (u : Nat → In) (hu : ∀ t, (u t).rst = false ∧ (u t).fullRst = false)
    (hprod : ∀ n, ∃ m, n ≤ m ∧ (u m).valid = true) (hcons : ∀ n, ∃ m, n ≤ m ∧ (u m).ready = true) :
    ∃ t w, (w, true) ∈ given s ((List.range t).map u) := by
  obtain ⟨a, ha, h⟩ := fresh_run hs
  obtain ⟨t, w, hw⟩ := C21_no_deadlock core64_setup ha (fun n => stream64In (u n).data (u n).valid (u n).ready)
    (fun t hv => axisCore_wf (c := core64) rfl rfl [(u t).axis] _ (List.mem_singleton.2 rfl) hv) hprod
    (fun n => by obtain ⟨m, hm, hr⟩ := hcons n; exact ⟨m, hm, by simp [stream64In, hr]⟩)
  refine ⟨t, w, ?_⟩
  rw [(h _ (by intro i hi; obtain ⟨k, _, rfl⟩ := List.mem_map.1 hi; exact hu k)).2.2]
  simpa [axisCore, In.axis, Function.comp_def] using hw

theorem endd_done {c : CoreCfg} (ins : List CoreIn) : ∀ s : Int3, (s.vbits.endd = true → s.vbits.ofsm = .done ∧ s.vbits.valid = true) →
    ((Int3.run c s ins).vbits.endd = true → (Int3.run c s ins).vbits.ofsm = .done ∧ (Int3.run c s ins).vbits.valid = true) := by
  induction ins with
  | nil => intro s h; exact h
  | cons i r ih =>
    intro s h
    apply ih
    simp only [Int3.step, VBits.step, VBits.outStep]
    split
    · rename_i hd
      split
      · simp
      · intro he
        have := (h he).1
        simp [VBits.doOutput, this] at hd
    · cases hf : s.vbits.ofsm with
      | output => intro he; rw [hf] at h; cases (h he).1
      | burst => cases i.busy <;> (intro he; rw [hf] at h; cases (h he).1)
      | done => intro he; exact ⟨rfl, (h he).2⟩

theorem done_stays {c : CoreCfg} (ins : List CoreIn) : ∀ s : Int3, s.vbits.ofsm = .done →
    (Int3.run c s ins).vbits.valid = s.vbits.valid ∧ (Int3.run c s ins).vbits.data = s.vbits.data ∧
    (Int3.run c s ins).vbits.endd = s.vbits.endd := by
  induction ins with
  | nil => intro s _; exact ⟨rfl, rfl, rfl⟩
  | cons i r ih =>
    intro s h
    have e : (s.step c i.pixels i.valid i.busy).vbits.ofsm = .done ∧
        (s.step c i.pixels i.valid i.busy).vbits.valid = s.vbits.valid ∧
        (s.step c i.pixels i.valid i.busy).vbits.data = s.vbits.data ∧
        (s.step c i.pixels i.valid i.busy).vbits.endd = s.vbits.endd := by
      simp [Int3.step, VBits.step, VBits.outStep, VBits.doOutput, h]
    obtain ⟨e1, e2, e3⟩ := ih _ e.1
    exact ⟨e1.trans e.2.1, e2.trans e.2.2.1, e3.trans e.2.2.2⟩

/-- C81, the limit of this wrapper: once a word with `m_tlast` is up, the outputs never change again without `rst`: it is
offered and given again and again, also after it has been taken, and no pixel is taken any more. -/
theorem C81_one_frame_per_reset (s : I3Axis.top.S) (hs : Start s) (l k : List In) (hq : Quiet (l ++ k))
    (he : (out (run s l)).mLast = true) :
    (out (run s (l ++ k))) = ⟨false, true, true, (out (run s l)).mData⟩ ∧
    given s (l ++ k) = given s l ++ (k.filter (·.ready)).map fun _ => ((out (run s l)).mData, true) := by
  obtain ⟨a, ha, h⟩ := fresh_run hs
  have hql : Quiet l := fun j hj => hq j (by simp [hj])
  obtain ⟨h1, h2, h3⟩ := h l hql
  have key : ∀ k, Quiet (l ++ k) → out (run s (l ++ k)) = ⟨false, true, true, (out (run s l)).mData⟩ := by
    intro k hq
    obtain ⟨g1, g2, g3⟩ := h _ hq
    have e : axisCore ((l ++ k).map In.axis) = axisCore (l.map In.axis) ++ axisCore (k.map In.axis) := by
      simp [axisCore]
    rw [e, Model.run_append, ← h1] at g1
    have hd : (abs (run s l)).core.vbits.ofsm = .done ∧ (abs (run s l)).core.vbits.valid = true := by
      rw [h1]
      refine endd_done _ a ?_ ?_
      · obtain ⟨m, _, rfl⟩ := ha; intro hx; cases hx
      · rw [← h1]; rw [out_eq] at he; exact he
    obtain ⟨d1, d2, d3⟩ := done_stays (c := core64) (axisCore (k.map In.axis)) _ hd.1
    rw [← g1] at d1 d2 d3
    have hend : (abs (run s (l ++ k))).core.vbits.endd = true := by rw [d3]; rw [out_eq] at he; exact he
    have hval : (abs (run s (l ++ k))).core.vbits.valid = true := by rw [d1]; exact hd.2
    -- no pixel is taken: the end word could be given in the next cycle
    let i : In := ⟨false, false, 0, false, false, true⟩
    have hqi : Quiet (l ++ k ++ [i]) := by
      intro j hj
      rcases List.mem_append.1 hj with hj | hj
      · exact hq j hj
      · rw [List.mem_singleton.1 hj]; exact ⟨rfl, rfl⟩
    have mem : ∀ (l : List In) (s : I3Axis.top.S), (out (run s l)).mLast = true → (out (run s l)).mValid = true →
        ((out (run s l)).mData, true) ∈ given s (l ++ [i]) := by
      intro l
      induction l with
      | nil => intro s a b; simp only [run] at a b; simp [given, run, a, b, i]
      | cons j r ih => intro s a b; rw [List.cons_append, given]; exact List.mem_append_right _ (ih _ a b)
    have moved_i : ∀ (l : List In) (s : I3Axis.top.S), moved s (l ++ [i]) = moved s l := by
      intro l
      induction l with
      | nil => intro s; simp [moved, i]
      | cons j r ih => intro s; rw [List.cons_append, moved, moved, ih]
    have hm := mem (l ++ k) s (by rw [out_eq]; exact hend) (by rw [out_eq]; exact hval)
    have hlen := (C81_frame s hs _ hqi _ hm).1
    rw [moved_i] at hlen
    have hr := (C81_no_pixel_after_frame s hs _ hq).2 hlen
    have hdat : (out (run s (l ++ k))).mData = (out (run s l)).mData := by rw [out_eq, out_eq]; exact d2
    have hval' : (out (run s (l ++ k))).mValid = true := by rw [out_eq]; exact hval
    have hend' : (out (run s (l ++ k))).mLast = true := by rw [out_eq]; exact hend
    generalize out (run s (l ++ k)) = o at *
    obtain ⟨o1, o2, o3, o4⟩ := o
    cases hr; cases hval'; cases hend'; cases hdat; rfl
  refine ⟨key k hq, ?_⟩
  have app : ∀ (x y : List In) (s : I3Axis.top.S), given s (x ++ y) = given s x ++ given (run s x) y := by
    intro x
    induction x with
    | nil => intro y s; rfl
    | cons i r ih => intro y s; rw [List.cons_append, given, given, ih, List.append_assoc]; rfl
  rw [app]
  congr 1
  have gen : ∀ (k p : List In), Quiet (l ++ (p ++ k)) →
      given (run s (l ++ p)) k = (k.filter (·.ready)).map fun _ => ((out (run s l)).mData, true) := by
    intro k
    induction k with
    | nil => intro p _; rfl
    | cons i r ih =>
      intro p hq
      have o := key p (fun j hj => hq j (by
        rcases List.mem_append.1 hj with hj | hj
        · simp [hj]
        · simp [hj]))
      have := ih (p ++ [i]) (by simpa using hq)
      rw [← List.append_assoc, run_append _ [i]] at this
      rw [given, o]
      show _ ++ given (step (run s (l ++ p)) i) r = _
      rw [show step (run s (l ++ p)) i = run (run s (l ++ p)) [i] from rfl, this]
      by_cases hr : i.ready = true <;> simp [hr]
  have := gen k [] (by simpa using hq)
  simpa using this

/-- The hypotheses of the theorems above are met: every start of a frame is followed by a frame. -/
theorem C81_frames_occur (s : I3Axis.top.S) (hs : Start s) : ∃ l w, Quiet l ∧ (w, true) ∈ given s l := by
  obtain ⟨t, w, h⟩ := C81_always_ends s hs (fun n => ⟨false, false, n, true, false, true⟩) (fun _ => ⟨rfl, rfl⟩)
    (fun n => ⟨n, Nat.le_refl _, rfl⟩) (fun n => ⟨n, Nat.le_refl _, rfl⟩)
  exact ⟨_, w, by intro i hi; obtain ⟨k, _, rfl⟩ := List.mem_map.1 hi; exact ⟨rfl, rfl⟩, h⟩

example : Start I3Axis.top.powerUp := ⟨_, [], I3Axis.top.powerUp_init, rfl, Or.inl rfl⟩
example : Start (run I3Axis.top.powerUp [⟨false, false, 5, true, false, true⟩, ⟨true, true, 5, true, false, true⟩]) :=
  ⟨_, _, I3Axis.top.powerUp_init, rfl, Or.inr ⟨[⟨false, false, 5, true, false, true⟩], ⟨true, true, 5, true, false, true⟩, rfl, rfl⟩⟩

end Props.Net64
