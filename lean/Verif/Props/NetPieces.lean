/- The shipped Verilog netlist of the core without its packer (verilog_src/integration_2.v): C89. -/
import Verif.Netlist.I3Top
import Verif.Netlist.Int1
import Verif.Model.CoreTop
import Verif.Props.NetInt3
import Verif.Props.Markers
import Verif.Props.Pieces

set_option autoImplicit false

namespace Props.Pieces
open Spec Model Netlist Proof Props

/-- The input ports in one cycle: the two resets, the four pixels, `valid_in` and `latch_output`. -/
structure In where
  rst : Bool
  fullRst : Bool
  p0 : Nat
  p1 : Nat
  p2 : Nat
  p3 : Nat
  valid : Bool
  latch : Bool

/-- The pixel ports are 12 bits wide. -/
def Ports (l : List In) : Prop := ∀ i ∈ l, i.p0 < 4096 ∧ i.p1 < 4096 ∧ i.p2 < 4096 ∧ i.p3 < 4096

/-- The output ports in one cycle: `nready`, `valid_out`, `enc_out`, `enc_out_ctr`, `fend_out` (the end flag is no port). -/
structure Out where
  nready : Bool
  valid : Bool
  enc : Nat
  ctr : Nat
  fend : Bool
deriving DecidableEq

/-- A clock edge of the netlist. -/
def step (s : I2.top.S) (i : In) : I2.top.S := I2.top.step s i.p0 i.p1 i.p2 i.p3 i.latch i.rst i.fullRst i.valid

/-- The netlist's output ports. -/
def out (s : I2.top.S) : Out :=
  ⟨I2.top.nready s, I2.top.valid_out s, I2.top.enc_out s, I2.top.enc_out_ctr s, I2.top.fend_out s⟩

/-- The outputs of the netlist, cycle by cycle. -/
def outs : I2.top.S → List In → List Out
  | _, [] => []
  | s, i :: r => out s :: outs (step s i) r

/-- A clock edge of the model. -/
def In.step (c : CoreCfg) (t : Core2) (i : In) : Core2 := t.step c i.rst i.fullRst [i.p0, i.p1, i.p2, i.p3] i.valid i.latch

/-- The outputs of the model of integration_2.py, cycle by cycle. -/
def modelOuts (c : CoreCfg) : Core2 → List In → List Out
  | _, [] => []
  | s, i :: r => ⟨s.core.nready, s.core.valid, (s.core.out c).enc, (s.core.out c).ctr, s.fend.fend⟩ :: modelOuts c (i.step c s) r

/-- The state after a sequence of clock edges. -/
def run : I2.top.S → List In → I2.top.S
  | s, [] => s
  | s, i :: r => run (step s i) r

/-- Pixels taken: those shown in cycles with `valid_in` high and `nready` low. -/
def taken : I2.top.S → List In → List Nat
  | _, [] => []
  | s, i :: r => (if i.valid && !(out s).nready then [i.p0, i.p1, i.p2, i.p3] else []) ++ taken (step s i) r

/-- Pieces read: `enc_out_ctr` and `enc_out` in cycles with `valid_out` and `latch_output` high. -/
def given : I2.top.S → List In → List (Nat × Nat)
  | _, [] => []
  | s, i :: r => (if i.latch && (out s).valid then [((out s).ctr, (out s).enc)] else []) ++ given (step s i) r

/-- The states after power-up and after a cycle with `rst`, whatever happened before it. -/
def Start (s : I2.top.S) : Prop :=
  ∃ s0 pre, I2.top.Init s0 ∧ Ports pre ∧ s = run s0 pre ∧ (pre = [] ∨ ∃ p b, pre = p ++ [b] ∧ b.rst = true)

/-- No reset. -/
def Quiet (l : List In) : Prop := ∀ i ∈ l, i.rst = false ∧ i.fullRst = false

/-! ### The netlist and the model -/

/-- The state of the netlist as a state of the model. -/
def abs (s : I2.top.S) : Core2 :=
  let r := s.u_integration_1.u_register_file
  { core := I3Axis.absInt2 (I3.upI2 s), regs := ⟨r.width_reg, r.height_reg, r.allowed_cycles_reg⟩
    fend := Beta.absForceEnd s.u_integration_1.u_force_end }

/-- Register ranges. -/
def Wf (s : I2.top.S) : Prop := I3Axis.WfInt2 (I3.upI2 s) ∧ Beta.WfForceEnd s.u_integration_1.u_force_end

theorem core2_ext {a b : Core2} (h1 : a.core = b.core) (h2 : a.regs = b.regs) (h3 : a.fend = b.fend) : a = b := by
  cases a; cases b; simp_all

theorem fend_next (s : I2.top.S) (i : In) (h : Beta.WfForceEnd s.u_integration_1.u_force_end) :
    Beta.absForceEnd (step s i).u_integration_1.u_force_end = (if i.rst then ForceEnd.init else
      (Beta.absForceEnd s.u_integration_1.u_force_end).step s.u_integration_1.u_register_file.allowed_cycles_reg
        (i.valid && !I2.top.nready s)) ∧ Beta.WfForceEnd (step s i).u_integration_1.u_force_end := by
  have e : (step s i).u_integration_1.u_force_end = Beta.force_end.step s.u_integration_1.u_force_end
      s.u_integration_1.u_register_file.allowed_cycles_reg i.rst (i.valid && !I2.top.nready s) := by
    have hv : I2.top.integration_1_valid_in s i.valid = (i.valid && !I2.top.nready s) := by
      show ((i.valid == true) && (I2.top.nready s == false)) = _
      cases i.valid <;> cases I2.top.nready s <;> rfl
    rw [← hv]
    rfl
  rw [e]
  refine ⟨?_, Beta.force_end_wf _ _ _ _ h⟩
  cases i.rst
  · exact Beta.force_end_step _ _ _ h
  · exact Beta.force_end_rst _ _ _

theorem nready_eq (s : I2.top.S) : I2.top.nready s = (abs s).core.nready := by
  rw [show I2.top.nready s = I3Axis.integration_2.nready (I3.upI2 s) from rfl, I3Axis.int2_nready]
  rfl

theorem abs_step (s : I2.top.S) (i : In) (h : Wf s) : abs (step s i) = i.step (I3Axis.coreCfg 0 0) (abs s) := by
  apply core2_ext
  · show I3Axis.absInt2 (I3.upI2 (step s i)) = _
    rw [show I3.upI2 (step s i) = I3Axis.integration_2.step (I3.upI2 s) i.p0 i.p1 i.p2 i.p3 i.latch i.rst i.fullRst i.valid from rfl]
    obtain ⟨r, f, p0, p1, p2, p3, v, l⟩ := i
    cases r
    · exact I3Axis.int2_step _ _ _ _ _ _ _ _ h.1
    · exact I3Axis.int2_rst _ _ _ _ _ _ _ _ h.1
  · obtain ⟨r, f, p0, p1, p2, p3, v, l⟩ := i
    cases f <;> rfl
  · have := (fend_next s i h.2).1
    rw [nready_eq] at this
    exact this

theorem wf_step (s : I2.top.S) (i : In) (h : Wf s) (hp : i.p0 < 4096 ∧ i.p1 < 4096 ∧ i.p2 < 4096 ∧ i.p3 < 4096) :
    Wf (step s i) :=
  ⟨I3Axis.int2_wf _ _ _ _ _ _ _ _ _ h.1 hp.1 hp.2.1 hp.2.2.1 hp.2.2.2, (fend_next s i h.2).2⟩

theorem out_eq (s : I2.top.S) : out s = ⟨(abs s).core.nready, (abs s).core.valid, ((abs s).core.out (I3Axis.coreCfg 0 0)).enc,
    ((abs s).core.out (I3Axis.coreCfg 0 0)).ctr, (abs s).fend.fend⟩ := by
  unfold out
  rw [nready_eq]
  have hb : bitsFor 48 = 6 := by decide
  rw [Out.mk.injEq]
  refine ⟨rfl, rfl, ?_, ?_, rfl⟩
  · show slc _ 0 48 = _ % 2 ^ 48
    rw [Beta.slc_zero]; rfl
  · show slc _ 48 6 = _ / 2 ^ 48 % 2 ^ bitsFor 48
    rw [hb]; rfl

theorem abs_outs (l : List In) : ∀ s, Wf s → Ports l → outs s l = modelOuts (I3Axis.coreCfg 0 0) (abs s) l := by
  induction l with
  | nil => intro s _ _; rfl
  | cons i r ih =>
    intro s h hp
    rw [outs, modelOuts, out_eq, ih _ (wf_step s i h (hp i (by simp))) (fun j hj => hp j (by simp [hj])), abs_step s i h]

theorem modelOuts_cfg (l : List In) : ∀ t, modelOuts Net64.core64 t l = modelOuts (I3Axis.coreCfg 0 0) t l := by
  induction l with
  | nil => intro t; rfl
  | cons i r ih =>
    intro t
    rw [modelOuts, modelOuts, ih]
    rfl

theorem init_abs {s : I2.top.S} (hs : I2.top.Init s) : Wf s ∧
    ∃ m : Kept, m.Ok Net64.core64 ∧ abs s = Core2.reset Net64.core64 m RegFile.init := by
  obtain ⟨h1, h2, h3, h4⟩ := I3Axis.int2_init _ (I3.upI2_init hs)
  obtain ⟨_, _, _, _, _, _, ⟨_, _, ⟨f1, f2, f3⟩, _⟩, _⟩ := hs
  refine ⟨⟨h1, ?_⟩, _, Net64.kept_core64 h3, ?_⟩
  · simp only [Beta.WfForceEnd, f3]; omega
  · apply core2_ext
    · exact h2
    · have h4 : s.u_integration_1.u_register_file = ⟨0, 0, 0⟩ := h4
      simp only [abs, h4]; rfl
    · simp only [abs, Beta.absForceEnd, f1, f2, f3, Beta.fendFsm, Core2.reset, ForceEnd.init]

/-- C89: for every power-up state of verilog_src/integration_2.v there are contents of the uninitialised memories and read
registers with which the model of migen_src/integration_2.py shows, for every sequence of inputs, both resets included,
exactly the same outputs in every cycle. -/
theorem C89_netlist_is_source (s : I2.top.S) (hs : I2.top.Init s) :
    ∃ m : Kept, m.Ok Net64.core64 ∧ ∀ l, Ports l → outs s l = modelOuts Net64.core64 (Core2.reset Net64.core64 m RegFile.init) l := by
  obtain ⟨h1, m, hm, he⟩ := init_abs hs
  refine ⟨m, hm, fun l hp => ?_⟩
  rw [modelOuts_cfg, ← he]
  exact abs_outs l s h1 hp

/-! ### What the netlist does -/

theorem run_append (l m : List In) : ∀ s, run s (l ++ m) = run (run s l) m := by
  induction l with
  | nil => intro s; rfl
  | cons i r ih => intro s; exact ih _

theorem wf_run (l : List In) : ∀ s, Wf s → Ports l → Wf (run s l) := by
  induction l with
  | nil => intro s h _; exact h
  | cons i r ih => intro s h hp; exact ih _ (wf_step s i h (hp i (by simp))) (fun j hj => hp j (by simp [hj]))

theorem kept_ok {s : I2.top.S} (h : Wf s) : (abs s).core.kept.Ok Net64.core64 := ⟨h.1.2.1.2.2.2, h.1.2.2.2.1.2.2.2, rfl⟩

theorem fresh_of_start {s : I2.top.S} (h : Start s) : Wf s ∧ ∃ (m : Kept) (r : RegFile), m.Ok Net64.core64 ∧
    abs s = Core2.reset Net64.core64 m r ∧ (r = RegFile.init ∨ r = ⟨4096, 3072, 6666000⟩) := by
  obtain ⟨s0, pre, h0, hp, rfl, h⟩ := h
  obtain ⟨h1, m, hm, he⟩ := init_abs h0
  rcases h with rfl | ⟨p, b, rfl, hb⟩
  · exact ⟨h1, m, _, hm, he, Or.inl rfl⟩
  · rw [run_append]
    have hw := wf_run p _ h1 (fun j hj => hp j (by simp [hj]))
    have hw' := wf_step _ b hw (hp b (by simp))
    have hk := kept_ok hw'
    have he := abs_step _ b hw
    show Wf (step (run s0 p) b) ∧ ∃ (m : Kept) (r : RegFile), m.Ok Net64.core64 ∧ abs (step (run s0 p) b) = _ ∧ _
    generalize step (run s0 p) b = t at *
    refine ⟨hw', (abs t).core.kept, (abs t).regs, hk, ?_, ?_⟩
    · rw [he]; simp only [In.step, Core2.step, hb, if_true]; rfl
    · rw [he]
      simp only [In.step, Core2.step]
      cases b.fullRst
      · exact Or.inr rfl
      · exact Or.inl rfl

/-- The inputs of the model. -/
def In.plain (i : In) : Int2In := ⟨[i.p0, i.p1, i.p2, i.p3], i.valid, i.latch⟩

/-- Whether pixels are taken, cycle by cycle. -/
def takes : I2.top.S → List In → List Bool
  | _, [] => []
  | s, i :: r => (i.valid && !(out s).nready) :: takes (step s i) r

theorem core_run (l : List In) : ∀ s, Wf s → Ports l → Quiet l → (abs s).regs = ⟨4096, 3072, 6666000⟩ →
    (abs (run s l)).core = Int2.run Net64.core64 (abs s).core (l.map In.plain) ∧
    taken s l = Int2.taken Net64.core64 (abs s).core (l.map In.plain) ∧
    given s l = (Int2.pieces Net64.core64 (abs s).core (l.map In.plain)).map sized ∧
    (abs (run s l)).fend = runForce 6666000 (abs s).fend (takes s l) := by
  induction l with
  | nil => intro s _ _ _ _; exact ⟨rfl, rfl, rfl, rfl⟩
  | cons i r ih =>
    intro s h hp hq hr
    have e : abs (step s i) = ⟨(abs s).core.step Net64.core64 [i.p0, i.p1, i.p2, i.p3] i.valid i.latch, ⟨4096, 3072, 6666000⟩,
        (abs s).fend.step 6666000 (i.valid && !(abs s).core.nready)⟩ := by
      rw [abs_step s i h, In.step, Core2.step, (hq i (by simp)).1, (hq i (by simp)).2, hr]
      rfl
    obtain ⟨e1, e2, e3, e4⟩ := ih _ (wf_step s i h (hp i (by simp))) (fun j hj => hp j (by simp [hj]))
      (fun j hj => hq j (by simp [hj])) (by rw [e])
    rw [e] at e1 e2 e3 e4
    refine ⟨e1, ?_, ?_, ?_⟩
    · rw [taken, e2, out_eq]; rfl
    · rw [given, e3, out_eq, List.map_cons, Int2.pieces, List.map_append]
      congr 1
      show (if (i.latch && (abs s).core.valid) = true then _ else _) = List.map sized (if (i.latch && (abs s).core.valid) = true then _ else _)
      split <;> rfl
    · rw [run, e4, takes, out_eq]
      rfl

/-- The first cycle of a frame, in which the register file may show 0. -/
theorem fresh_step (m : Kept) (r : RegFile) (i : In) (hi : i.rst = false ∧ i.fullRst = false)
    (hr : r = RegFile.init ∨ r = ⟨4096, 3072, 6666000⟩) :
    i.step (I3Axis.coreCfg 0 0) (Core2.reset Net64.core64 m r) =
      ⟨(Int2.reset Net64.core64 m).step Net64.core64 [i.p0, i.p1, i.p2, i.p3] i.valid i.latch, ⟨4096, 3072, 6666000⟩, .init⟩ := by
  have hn2 : (Int2.reset Net64.core64 m).nready = true := rfl
  have hf : ∀ n, ForceEnd.init.step n false = ForceEnd.init := fun n => rfl
  unfold In.step
  rw [hi.1, hi.2]
  simp only [Core2.step, Core2.reset, hn2, Bool.not_true, Bool.and_false, Bool.false_eq_true, if_false, hf]
  rcases hr with rfl | rfl
  · have hs : (Int2.reset Net64.core64 m).int1.signals.fsm = .idle := rfl
    simp only [Int2.step, hn2, Bool.not_true, Bool.and_false, Int1.step, Signals.step, hs]
    rfl
  · rfl

/-- From the start of a frame, what the netlist takes and gives is what the model takes and gives. -/
theorem fresh_run {s : I2.top.S} (hs : Start s) : ∃ a, Start2 Net64.core64 a ∧ ∀ l, Ports l → Quiet l →
    (abs (run s l)).core = Int2.run Net64.core64 a (l.map In.plain) ∧
    taken s l = Int2.taken Net64.core64 a (l.map In.plain) ∧
    given s l = (Int2.pieces Net64.core64 a (l.map In.plain)).map sized ∧
    (out (run s l)).fend = (runForce 6666000 .init (takes s l)).fend := by
  obtain ⟨h1, m, rg, hm, hc, hr⟩ := fresh_of_start hs
  refine ⟨_, ⟨m, hm, rfl⟩, ?_⟩
  intro l hp hq
  have hcc : (abs s).core = Int2.reset Net64.core64 m := by rw [hc]; rfl
  cases l with
  | nil => exact ⟨hcc, rfl, rfl, by rw [out_eq, run, hc]; rfl⟩
  | cons i r =>
    have e : abs (step s i) = _ := abs_step s i h1
    rw [hc, fresh_step m _ i (hq i (by simp)) hr] at e
    obtain ⟨e1, e2, e3, e4⟩ := core_run r _ (wf_step s i h1 (hp i (by simp))) (fun j hj => hp j (by simp [hj]))
      (fun j hj => hq j (by simp [hj])) (by rw [e])
    rw [e] at e1 e2 e3 e4
    have hn : (Int2.reset Net64.core64 m).nready = true := rfl
    have hv : (Int2.reset Net64.core64 m).valid = false := rfl
    refine ⟨e1, ?_, ?_, ?_⟩
    · rw [taken, e2, out_eq, hcc]; rfl
    · rw [given, e3, out_eq, hcc, List.map_cons, Int2.pieces, List.map_append, hv]
      simp only [Bool.and_false, Bool.false_eq_true, if_false]
      rfl
    · rw [run, out_eq, e4, takes, out_eq, hcc, hn]
      simp only [Bool.not_true, Bool.and_false]
      rfl

theorem wf_plain {l : List In} (hp : Ports l) : Int2.Wf Net64.core64 (l.map In.plain) := by
  intro i hi _
  obtain ⟨j, hj, rfl⟩ := List.mem_map.1 hi
  obtain ⟨a, b, c, d⟩ := hp j hj
  refine ⟨rfl, ?_⟩
  intro x hx
  have hx : x ∈ [j.p0, j.p1, j.p2, j.p3] := hx
  simp only [List.mem_cons, List.not_mem_nil, or_false] at hx
  show x < 2 ^ 12
  omega

/-- C89, what is given is code: at every moment of a frame the bits of the pieces read so far are a prefix of the T.81 code
of the pixels taken so far, and every piece has between 1 and 48 bits. -/
theorem C89_netlist_pieces_are_prefix (s : I2.top.S) (hs : Start s) (l : List In) (hp : Ports l) (hq : Quiet l) :
    pieceBits (given s l) <+: encode defaultTable 12 4096 (taken s l) ∧
    ∀ p ∈ given s l, 1 ≤ p.1 ∧ p.1 ≤ 48 ∧ p.2 < 2 ^ p.1 := by
  obtain ⟨a, ha, h⟩ := fresh_run hs
  obtain ⟨_, e2, e3, _⟩ := h l hp hq
  rw [e2, e3]
  refine ⟨C89_pieces_are_prefix Net64.core64_setup a ha _ (wf_plain hp), ?_⟩
  intro p hp'
  obtain ⟨q, hq', rfl⟩ := List.mem_map.1 hp'
  exact C89_piece_size Net64.core64_setup a ha _ (wf_plain hp) q hq'

/-- C89: no more than a frame is taken. -/
theorem C89_netlist_no_pixel_after_frame (s : I2.top.S) (hs : Start s) (l : List In) (hp : Ports l) (hq : Quiet l) :
    (taken s l).length ≤ 4096 * 3072 ∧ ((taken s l).length = 4096 * 3072 → (out (run s l)).nready = true) := by
  obtain ⟨a, ha, h⟩ := fresh_run hs
  obtain ⟨e1, e2, _, _⟩ := h l hp hq
  rw [e2, out_eq, e1]
  exact C89_no_pixel_after_frame Net64.core64_setup a ha _ (wf_plain hp)

/-- C89: a piece that is shown and not read stays unchanged on the output ports. -/
theorem C89_netlist_piece_stable (s : I2.top.S) (hs : Start s) (l : List In) (i : In) (hp : Ports (l ++ [i]))
    (hq : Quiet (l ++ [i])) (hl : i.latch = false) (hv : (out (run s l)).valid = true) :
    (out (run s (l ++ [i]))).valid = true ∧ (out (run s (l ++ [i]))).ctr = (out (run s l)).ctr ∧
    (out (run s (l ++ [i]))).enc = (out (run s l)).enc := by
  obtain ⟨a, ha, h⟩ := fresh_run hs
  obtain ⟨e1, _, _, _⟩ := h l (fun j hj => hp j (by simp [hj])) (fun j hj => hq j (by simp [hj]))
  obtain ⟨f1, _, _, _⟩ := h _ hp hq
  have hw := wf_plain hp
  rw [out_eq] at hv
  rw [out_eq, out_eq, e1, f1]
  rw [List.map_append] at hw ⊢
  obtain ⟨g1, g2⟩ := C89_piece_stable Net64.core64_setup a ha (l.map In.plain) i.plain hw hl (by rw [← e1]; exact hv)
  have g2 : Int2.out (I3Axis.coreCfg 0 0) _ = Int2.out (I3Axis.coreCfg 0 0) _ := g2
  exact ⟨g1, congrArg Code.ctr g2, congrArg Code.enc g2⟩

/-- C89, the frame: if pixels are offered again and again and pieces are read again and again, there is a moment from which
on exactly the 4096 x 3072 pixels of a frame have been taken and the pieces read are exactly their code, bit for bit and
with nothing added; a T.81 decoder with the default table reads the pixels back. -/
theorem C89_netlist_frame (s : I2.top.S) (hs : Start s) (u : Nat → In) (hu : ∀ t, (u t).rst = false ∧ (u t).fullRst = false)
    (hx : ∀ t, (u t).p0 < 4096 ∧ (u t).p1 < 4096 ∧ (u t).p2 < 4096 ∧ (u t).p3 < 4096)
    (hprod : ∀ n, ∃ m, n ≤ m ∧ (u m).valid = true) (hcons : ∀ n, ∃ m, n ≤ m ∧ (u m).latch = true) :
    ∃ px bits, px.length = 4096 * 3072 ∧ bits = encode defaultTable 12 4096 px ∧
      decode defaultTable 13 12 4096 (4096 * 3072) [] bits = some (px, []) ∧
      ∃ t, ∀ t', t ≤ t' → taken s ((List.range t').map u) = px ∧ pieceBits (given s ((List.range t').map u)) = bits := by
  obtain ⟨a, ha, h⟩ := fresh_run hs
  have hp : ∀ t, Ports ((List.range t).map u) := by
    intro t i hi; obtain ⟨k, _, rfl⟩ := List.mem_map.1 hi; exact hx k
  have hq : ∀ t, Quiet ((List.range t).map u) := by
    intro t i hi; obtain ⟨k, _, rfl⟩ := List.mem_map.1 hi; exact hu k
  obtain ⟨t, p, hpm, hpe⟩ := C89_always_ends Net64.core64_setup a ha (fun n => (u n).plain)
    (fun n _ => by
      have := wf_plain (hp (n + 1)) (u n).plain (List.mem_map.2 ⟨u n, List.mem_map.2 ⟨n, by simp, rfl⟩, rfl⟩)
      by_cases hv : (u n).valid = true
      · exact this hv
      · exfalso; apply hv; assumption) hprod hcons
  have hmap : ∀ t, (List.range t).map (fun n => (u n).plain) = ((List.range t).map u).map In.plain := by
    intro t; simp
  rw [hmap] at hpm
  obtain ⟨_, e2, e3, _⟩ := h _ (hp t) (hq t)
  obtain ⟨x, y, hxy⟩ := List.append_of_mem hpm
  obtain ⟨_, f2, f3, f4⟩ := C89_frame Net64.core64_setup (by decide) a ha _ (wf_plain (hp t)) p hpm hpe
  rw [← e2, ← e3] at f3
  rw [← e2] at f2
  rw [← e2, ← e3] at f4
  refine ⟨taken s ((List.range t).map u), _, f2, f3, f4, t, ?_⟩
  intro t' ht
  obtain ⟨n, rfl⟩ := Nat.le.dest ht
  obtain ⟨_, g2, g3, _⟩ := h _ (hp (t + n)) (hq (t + n))
  have hr : ((List.range (t + n)).map u).map In.plain = ((List.range t).map u).map In.plain ++
      ((List.range n).map fun j => u (t + j)).map In.plain := by
    simp [List.range_add, Function.comp_def]
  have hw := wf_plain (hp (t + n))
  rw [hr] at g2 g3 hw
  have hpm' : p ∈ Int2.pieces Net64.core64 a (((List.range t).map u).map In.plain ++
      ((List.range n).map fun j => u (t + j)).map In.plain) := by
    rw [Int2.pieces_append]; exact List.mem_append_left _ hpm
  obtain ⟨_, k2, k3, _⟩ := C89_frame Net64.core64_setup (by decide) a ha _ hw p hpm' hpe
  rw [← g2, ← g3] at k3
  rw [← g2] at k2
  have ht2 : taken s ((List.range (t + n)).map u) = taken s ((List.range t).map u) := by
    have hl := k2
    rw [g2, Int2.taken_append, ← e2] at hl ⊢
    rw [List.length_append, f2] at hl
    have : (Int2.taken Net64.core64 (Int2.run Net64.core64 a (((List.range t).map u).map In.plain))
      (((List.range n).map fun j => u (t + j)).map In.plain)).length = 0 := by
      show _ = 0
      have hz : (4096 * 3072 : Nat) + (Int2.taken Net64.core64 (Int2.run Net64.core64 a (((List.range t).map u).map In.plain))
        (((List.range n).map fun j => u (t + j)).map In.plain)).length = 4096 * 3072 := hl
      omega
    rw [List.length_eq_zero_iff.1 this, List.append_nil]
  exact ⟨ht2, by rw [k3, ht2, ← f3]⟩

theorem takes_append (l m : List In) : ∀ s, takes s (l ++ m) = takes s l ++ takes (run s l) m := by
  induction l with
  | nil => intro s; rfl
  | cons i r ih => intro s; rw [List.cons_append, takes, takes, ih]; rfl

theorem takes_length (l : List In) : ∀ s, (takes s l).length = l.length := by
  induction l with
  | nil => intro s; rfl
  | cons i r ih => intro s; rw [takes, List.length_cons, ih, List.length_cons]

theorem takes_none (l : List In) : ∀ s, taken s l = [] → takes s l = List.replicate l.length false := by
  induction l with
  | nil => intro s _; rfl
  | cons i r ih =>
    intro s h
    rw [taken] at h
    obtain ⟨h1, h2⟩ := List.append_eq_nil_iff.1 h
    rw [takes, ih _ h2, List.length_cons, List.replicate_succ]
    congr 1
    cases hx : (i.valid && !(out s).nready)
    · rfl
    · rw [hx] at h1; cases h1

/-- C89, the budget: `fend_out` is low as long as no pixel has been taken; counted from the cycle in which the first
pixels are taken it is low for 6666002 more cycles and high ever after, until a reset. -/
theorem C89_netlist_forced_end (s : I2.top.S) (hs : Start s) (pre : List In) (hpre : taken s pre = []) :
    (Ports pre → Quiet pre → (out (run s pre)).fend = false) ∧
    ∀ i post, Ports (pre ++ i :: post) → Quiet (pre ++ i :: post) → i.valid = true → (out (run s pre)).nready = false →
      (out (run s (pre ++ i :: post))).fend = decide (6666002 ≤ post.length) := by
  obtain ⟨a, ha, h⟩ := fresh_run hs
  refine ⟨fun hp hq => ?_, fun i post hp hq hv hn => ?_⟩
  · rw [(h _ hp hq).2.2.2, takes_none _ _ hpre]
    exact C27_never_without_input _ _
  · rw [(h _ hp hq).2.2.2, takes_append, takes_none _ _ hpre, takes, hv, hn]
    show (runForce 6666000 .init (List.replicate pre.length false ++ true :: takes (step (run s pre) i) post)).fend = _
    have := C27_fires_exactly 6666000 (by decide) pre.length (takes (step (run s pre) i) post)
      (pre.length + 1 + post.length) (by rw [takes_length]; exact Nat.le_refl _)
    rw [List.take_of_length_le (by simp [takes_length]; omega)] at this
    rw [this]
    congr 1
    apply propext
    omega

example : Start I2.top.powerUp := ⟨_, [], I2.top.powerUp_init, (fun i h => by cases h), rfl, Or.inl rfl⟩

end Props.Pieces
