/- The shipped Verilog netlists of the stream wrappers (verilog_src/beta_integration_axistream.v and
verilog_src/beta_integration_fifo_axistream.v): C72, C73. -/
import Verif.Netlist.BetaAxis
import Verif.Netlist.BetaFifo
import Verif.Props.Netlist
import Verif.Props.Stream32

set_option autoImplicit false

namespace Props
open Spec Model Netlist

/-! ### The core inside the wrappers -/

def netOf (x : Bool × MarkOut) : NetOut := ⟨x.1, x.2.data, x.2.valid, x.2.endd⟩

/-- From `s` on, without external reset, the netlist of the core shows what the model of the core shows from `a` on. -/
def Behaves (s : Beta.top.S) (a : Cam) : Prop :=
  ∀ l : List NetIn, (∀ i ∈ l, i.Ok) → (∀ i ∈ l, i.fullRst = false) →
    netOuts s l = (camOutputs betaCore 6666000 a (l.map NetIn.cam)).map netOf

theorem behaves_out {s : Beta.top.S} {a : Cam} (h : Behaves s a) (b : Bool) : netOut s b = netOf (a.nready, a.out b) := by
  have := h [⟨false, b, 0, 0, false⟩] (fun i hi => by rw [List.mem_singleton.1 hi]; exact ⟨show 0 < 4096 by decide, show 0 < 4096 by decide⟩)
    (fun i hi => by rw [List.mem_singleton.1 hi])
  exact (List.cons.inj this).1

theorem behaves_step {s : Beta.top.S} {a : Cam} (h : Behaves s a) (i : NetIn) (hi : i.Ok) (hf : i.fullRst = false) :
    Behaves (netStep s i) (a.betaStep betaCore 6666000 i.cam) := by
  intro l hl hlf
  have := h (i :: l) (fun j hj => (List.mem_cons.1 hj).elim (fun e => e ▸ hi) (hl j))
    (fun j hj => (List.mem_cons.1 hj).elim (fun e => e ▸ hf) (hlf j))
  exact (List.cons.inj this).2

theorem netOuts_const (l : List NetIn) : ∀ s, Beta.WfTop s → (∀ i ∈ l, i.Ok) → (∀ i ∈ l, i.fullRst = false) →
    (Beta.absTop s).regs = ⟨4096, 3072, 6666000⟩ →
    netOuts s l = (camOutputs betaCore 6666000 (Beta.absTop s).cam (l.map NetIn.cam)).map netOf := by
  induction l with
  | nil => intro s _ _ _ _; rfl
  | cons i r ih =>
    intro s h hl hf hr
    have e : Beta.absTop (netStep s i) = RegCam.mk ((Beta.absTop s).cam.betaStep betaCore 6666000 i.cam) ⟨4096, 3072, 6666000⟩ := by
      rw [net_step s i h, RegCam.stepFull, hf i (by simp)]
      simp only [Bool.false_eq_true, if_false, RegCam.step, hr]
      rfl
    have e1 := ih _ (net_wf s i h (hl i (by simp))) (fun j hj => hl j (by simp [hj])) (fun j hj => hf j (by simp [hj]))
      (by rw [e])
    rw [e] at e1
    rw [netOuts, e1, net_out s _ h]; rfl

theorem behaves_of_fresh {s : Beta.top.S} (hs : FreshState s) : Behaves s (Cam.init betaCore) := by
  obtain ⟨h1, m, hm, hc, hr⟩ := hs
  intro l hl hf
  rw [← C29_outputs_as_from_power_up beta_setup 6666000 ⟨m, hm, rfl⟩ _ (netCam_wf l hl)]
  cases l with
  | nil => rfl
  | cons i r =>
    have e : Beta.absTop (netStep s i) = RegCam.mk ((Cam.reset betaCore m).betaStep betaCore 6666000 i.cam) ⟨4096, 3072, 6666000⟩ := by
      rw [net_step s i h1, RegCam.stepFull, hf i (by simp)]
      have := fresh_step m _ i.cam hr
      rw [← hc] at this
      simp only [Bool.false_eq_true, if_false]
      rw [← hc, ← this]
      rfl
    have e1 := netOuts_const r _ (net_wf s i h1 (hl i (by simp))) (fun j hj => hl j (by simp [hj])) (fun j hj => hf j (by simp [hj]))
      (by rw [e])
    rw [e] at e1
    rw [netOuts, e1, net_out s _ h1, hc]; rfl

/-- The core of a wrapper after power-up or after an external reset. -/
theorem behaves_start {s : Beta.top.S} (hs : Beta.top.Init s) (hist : List NetIn) (hl : ∀ i ∈ hist, i.Ok)
    (h : hist = [] ∨ ∃ p b, hist = p ++ [b] ∧ b.fullRst = true) : Behaves (netRun s hist) (Cam.init betaCore) := by
  apply behaves_of_fresh
  rcases h with rfl | ⟨p, b, rfl, hb⟩
  · exact fresh_of_start s hs _ hl .powerUp
  · exact fresh_of_start s hs _ hl (.reset p b hb)

/-! ### C72 the 32-bit AXI stream wrapper -/

/-- The input ports in one cycle. -/
structure AxNetIn where
  rst : Bool
  data : Nat
  valid : Bool
  last : Bool
  ready : Bool

def axNetStep (s : BetaAxis.top.S) (i : AxNetIn) : BetaAxis.top.S :=
  BetaAxis.top.step s i.data i.last i.valid i.rst i.ready

def axNetRun : BetaAxis.top.S → List AxNetIn → BetaAxis.top.S
  | s, [] => s
  | s, i :: r => axNetRun (axNetStep s i) r

/-- Words transferred on the slave stream: `s_tvalid` and `s_tready`. -/
def axNetMoved : BetaAxis.top.S → List AxNetIn → List Nat
  | _, [] => []
  | s, i :: r => (if i.valid && BetaAxis.top.s_tready s then [i.data] else []) ++ axNetMoved (axNetStep s i) r

/-- Words transferred on the master stream: `m_tvalid` and `m_tready`, with `m_tlast`. -/
def axNetGiven : BetaAxis.top.S → List AxNetIn → List (Nat × Bool)
  | _, [] => []
  | s, i :: r => (if BetaAxis.top.m_tvalid s i.ready && i.ready then
      [(BetaAxis.top.m_tdata s i.ready, BetaAxis.top.m_tlast s i.ready)] else []) ++ axNetGiven (axNetStep s i) r

/-- From the state `s`, the cycles `hist` consist of `n` frames ended by FFFF, each followed by one more cycle, in which
the core resets itself. -/
inductive AxNetFrames (s : BetaAxis.top.S) : Nat → List AxNetIn → Prop
  | zero : AxNetFrames s 0 []
  | next {n : Nat} {hist ins : List AxNetIn} {i r : AxNetIn} (h : AxNetFrames s n hist)
      (hno : ∀ x ∈ axNetGiven (axNetRun s hist) ins, x.2 = false)
      (hw : (0xFFFF, true) ∈ axNetGiven (axNetRun s hist) (ins ++ [i])) :
      AxNetFrames s (n + 1) (hist ++ (ins ++ [i]) ++ [r])

/-- The states after power-up and after an external reset, whatever happened before it. -/
def AxStart (s : BetaAxis.top.S) : Prop :=
  ∃ s0 pre, BetaAxis.top.Init s0 ∧ s = axNetRun s0 pre ∧ (pre = [] ∨ ∃ p b, pre = p ++ [b] ∧ b.rst = true)

def AxNetIn.net (i : AxNetIn) : NetIn := ⟨i.rst, !i.ready, slc i.data 20 12, slc i.data 8 12, i.valid⟩
def AxNetIn.axis (i : AxNetIn) : AxisIn := ⟨i.data, i.valid, i.ready⟩

theorem axNet_ok (i : AxNetIn) : i.net.Ok := ⟨Nat.mod_lt _ (by decide), Nat.mod_lt _ (by decide)⟩

theorem not_eq_false (b : Bool) : (b == false) = !b := by cases b <;> rfl

theorem axNet_step (s : BetaAxis.top.S) (i : AxNetIn) : (axNetStep s i).u_top_module = netStep s.u_top_module i.net := by
  show Beta.top.step _ _ (i.ready == false) _ _ _ = _
  rw [not_eq_false]; rfl

theorem axNet_run (l : List AxNetIn) : ∀ s, (axNetRun s l).u_top_module = netRun s.u_top_module (l.map AxNetIn.net) := by
  induction l with
  | nil => intro s; rfl
  | cons i r ih => intro s; rw [axNetRun, ih, axNet_step]; rfl

theorem axStart_behaves {s : BetaAxis.top.S} (h : AxStart s) : Behaves s.u_top_module (Cam.init betaCore) := by
  obtain ⟨s0, pre, h0, rfl, hp⟩ := h
  rw [axNet_run]
  refine behaves_start h0 _ (fun j hj => ?_) ?_
  · obtain ⟨k, _, rfl⟩ := List.mem_map.1 hj
    exact axNet_ok k
  · rcases hp with rfl | ⟨p, b, rfl, hb⟩
    · exact Or.inl rfl
    · exact Or.inr ⟨p.map AxNetIn.net, b.net, by simp, hb⟩

theorem axNet_cam (i : AxNetIn) : i.net.cam = streamIn i.axis.data i.axis.valid i.axis.ready := rfl

theorem axNet_given (l : List AxNetIn) : ∀ (s : BetaAxis.top.S) (a : Cam), Behaves s.u_top_module a → (∀ i ∈ l, i.rst = false) →
    axNetGiven s l = camGiven betaCore 6666000 a (axisCam (l.map AxNetIn.axis)) ∧
    axNetMoved s l = axisMoved betaCore 6666000 a (l.map AxNetIn.axis) ∧
    Behaves (axNetRun s l).u_top_module (camRun betaCore 6666000 a (axisCam (l.map AxNetIn.axis))) := by
  induction l with
  | nil => intro s a h _; exact ⟨rfl, rfl, h⟩
  | cons i r ih =>
    intro s a h hl
    have hs := behaves_step h i.net (axNet_ok i) (hl i (by simp))
    rw [← axNet_step, axNet_cam] at hs
    obtain ⟨i1, i2, i3⟩ := ih _ _ hs (fun j hj => hl j (by simp [hj]))
    have ho := behaves_out h (!i.ready)
    have hd : BetaAxis.top.m_tdata s i.ready = (a.out (!i.ready)).data := by
      have := congrArg NetOut.data ho
      show Beta.top.data_out _ (i.ready == false) = _
      rw [not_eq_false]; exact this
    have hv : BetaAxis.top.m_tvalid s i.ready = (a.out (!i.ready)).valid := by
      have := congrArg NetOut.valid ho
      show Beta.top.valid_out _ (i.ready == false) = _
      rw [not_eq_false]; exact this
    have he : BetaAxis.top.m_tlast s i.ready = (a.out (!i.ready)).endd := by
      have := congrArg NetOut.endd ho
      show Beta.top.end_out _ (i.ready == false) = _
      rw [not_eq_false]; exact this
    have hn : BetaAxis.top.s_tready s = !a.nready := by
      have := congrArg NetOut.nready ho
      show (Beta.top.nready _ == false) = _
      rw [not_eq_false]; exact congrArg not this
    refine ⟨?_, ?_, i3⟩
    · rw [axNetGiven, hd, hv, he, i1]
      simp only [axisCam, List.map_cons, camGiven, streamIn, AxNetIn.axis, Bool.not_not]
    · rw [axNetMoved, hn, i2]
      rfl

theorem axNet_frames {s : BetaAxis.top.S} (hs : AxStart s) {n : Nat} {hist : List AxNetIn} (h : AxNetFrames s n hist)
    (hl : ∀ i ∈ hist, i.rst = false) : NormalFrames betaCore 6666000 n (axisCam (hist.map AxNetIn.axis)) := by
  induction h with
  | zero => exact .zero
  | @next n hist ins i r h hno hw ih =>
    have l1 : ∀ i ∈ hist, i.rst = false := fun j hj => hl j (by simp [hj])
    have hb := (axNet_given hist s _ (axStart_behaves hs) l1).2.2
    rw [(axNet_given ins _ _ hb (fun j hj => hl j (by simp [hj]))).1] at hno
    rw [(axNet_given (ins ++ [i]) _ _ hb (fun j hj => hl j (by
      simp only [List.mem_append] at hj ⊢
      exact Or.inl (Or.inr hj)))).1] at hw
    have := NormalFrames.next (r := streamIn r.data r.valid r.ready) (i := streamIn i.data i.valid i.ready) (ih l1) hno
      (by simpa [axisCam, AxNetIn.axis] using hw)
    simpa [axisCam, AxNetIn.axis] using this

/-- C72: the netlist of the 32-bit stream wrapper, after power-up or any external reset, over any number of frames and
any schedule on both streams: after `n` normally ended frames, when the next end marker FFFF is transferred,
`(n+1)*4096*3072` pixels have been transferred, and the words since the last end decode to the last 4096x3072 of them. -/
theorem C72_netlist_stream_end_to_end (s : BetaAxis.top.S) (hs : AxStart s) {n : Nat} {hist : List AxNetIn}
    (hn : AxNetFrames s n hist) (ins : List AxNetIn) (i : AxNetIn) (hl : ∀ j ∈ hist ++ (ins ++ [i]), j.rst = false)
    (hno : ∀ x ∈ axNetGiven (axNetRun s hist) ins, x.2 = false)
    (hw : (0xFFFF, true) ∈ axNetGiven (axNetRun s hist) (ins ++ [i])) :
    let words := axNetGiven (axNetRun s hist) (ins ++ [i])
    let pixels := (axNetMoved s (hist ++ (ins ++ [i]))).flatMap pixels32
    pixels.length = (n + 1) * (4096 * 3072) ∧
    ∃ pad, decode defaultTable 13 12 4096 (4096 * 3072) []
      (byteBits (unstuff (wordBytes ((words.drop 8).take (words.length - 16))))) =
        some (pixels.drop (n * (4096 * 3072)), pad) := by
  intro words pixels
  have l1 : ∀ i ∈ hist, i.rst = false := fun j hj => hl j (by simp [hj])
  have l2 : ∀ j ∈ ins ++ [i], j.rst = false := fun j hj => hl j (List.mem_append_right _ hj)
  have hb0 := axStart_behaves hs
  have hb := (axNet_given hist s _ hb0 l1).2.2
  have ew := (axNet_given (ins ++ [i]) _ _ hb l2).1
  rw [(axNet_given ins _ _ hb (fun j hj => l2 j (by simp [hj]))).1] at hno
  rw [ew] at hw
  have em : (ins ++ [i]).map AxNetIn.axis = ins.map AxNetIn.axis ++ [i.axis] := by simp
  have ep : pixels = (axisMoved betaCore 6666000 (Cam.init betaCore)
      (hist.map AxNetIn.axis ++ (ins.map AxNetIn.axis ++ [i.axis]))).flatMap pixels32 := by
    have := (axNet_given _ s _ hb0 hl).2.1
    simp only [pixels]
    rw [this]; simp
  rw [em] at hw ew
  have := C55_stream32_end_to_end beta_setup rfl rfl 6666000 (axNet_frames hs hn l1) _ _ hno hw
  rw [← ep, ← ew] at this
  exact this

/-- C72, progress: if words are offered again and again and `m_tready` is high again and again, the frame after `n`
normally ended ones ends. -/
theorem C72_netlist_stream_always_ends (s : BetaAxis.top.S) (hs : AxStart s) {n : Nat} {hist : List AxNetIn}
    (hn : AxNetFrames s n hist) (hl : ∀ j ∈ hist, j.rst = false) (u : Nat → AxNetIn)
    (hu : ∀ t, (u t).rst = false) (hprod : ∀ n, ∃ m, n ≤ m ∧ (u m).valid = true)
    (hcons : ∀ n, ∃ m, n ≤ m ∧ (u m).ready = true) :
    ∃ t w, (w, true) ∈ axNetGiven (axNetRun s hist) ((List.range t).map u) := by
  have hb := (axNet_given hist s _ (axStart_behaves hs) hl).2.2
  have hr := (frames_state beta_setup 6666000 (axNet_frames hs hn hl) (axisCam_wf rfl rfl _)).1
  obtain ⟨t, w, hw⟩ := C50_always_ends beta_setup (allowed := 6666000) (by decide) hr
    (fun n => streamIn (u n).data (u n).valid (u n).ready)
    (fun t hv => axisCam_wf rfl rfl [(u t).axis] _ (List.mem_singleton.2 rfl) hv) hprod
    (fun n => by obtain ⟨m, hm, hr⟩ := hcons n; exact ⟨m, hm, by simp [streamIn, hr]⟩)
  refine ⟨t, w, ?_⟩
  have e : axisCam (((List.range t).map u).map AxNetIn.axis) =
      (List.range t).map fun n => streamIn (u n).data (u n).valid (u n).ready := by
    rw [axisCam, List.map_map, List.map_map]; rfl
  rw [(axNet_given _ _ _ hb (fun j hj => by
    obtain ⟨k, _, rfl⟩ := List.mem_map.1 hj
    exact hu k)).1, e]
  exact hw

-- The states of the theorems exist; schedules as in the last theorem exist as well.
example : AxStart BetaAxis.top.powerUp := ⟨_, [], BetaAxis.top.powerUp_init, rfl, Or.inl rfl⟩
example (i : AxNetIn) (h : i.rst = true) : AxStart (axNetRun BetaAxis.top.powerUp [i]) :=
  ⟨_, [i], BetaAxis.top.powerUp_init, rfl, Or.inr ⟨[], i, rfl, h⟩⟩

/-! ### C73 the 64-bit FIFO stream wrapper -/

/-- The input ports in one cycle. -/
structure FnIn where
  rst : Bool
  data : Nat
  valid : Bool
  ready : Bool

def fnStep (s : BetaFifo.top.S) (i : FnIn) : BetaFifo.top.S := BetaFifo.top.step s i.data i.valid i.rst i.ready

def fnRun : BetaFifo.top.S → List FnIn → BetaFifo.top.S
  | s, [] => s
  | s, i :: r => fnRun (fnStep s i) r

/-- The states after power-up and after an external reset, whatever happened before it. -/
def FnStart (s : BetaFifo.top.S) : Prop :=
  ∃ s0 pre, BetaFifo.top.Init s0 ∧ s = fnRun s0 pre ∧ (pre = [] ∨ ∃ p b, pre = p ++ [b] ∧ b.rst = true)

/-- The netlist with its source FIFO `q`, which shows its first word until `s_tready`. -/
structure FnSys where
  net : BetaFifo.top.S
  q : List Nat

def FnSys.step (s : FnSys) (i : StreamIn) : FnSys :=
  { net := fnStep s.net ⟨false, s.q.headD 0, !s.q.isEmpty, i.ready⟩
    q := (if BetaFifo.top.s_tready s.net then s.q.tail else s.q) ++ i.arrive }

def fnSysRun : FnSys → List StreamIn → FnSys
  | s, [] => s
  | s, i :: r => fnSysRun (s.step i) r

/-- Words transferred on the master stream: `m_tvalid` and `m_tready`, with `m_tlast`. -/
def fnGiven : FnSys → List StreamIn → List (Nat × Bool)
  | _, [] => []
  | s, i :: r => (if BetaFifo.top.m_tvalid s.net i.ready && i.ready then
      [(BetaFifo.top.m_tdata s.net i.ready, BetaFifo.top.m_tlast s.net i.ready)] else []) ++ fnGiven (s.step i) r

/-- From the state `s`, the cycles `hist` consist of `n` frames ended by FFFF, each followed by one more cycle, in which
the core resets itself. -/
inductive FnFrames (s : FnSys) : Nat → List StreamIn → Prop
  | zero : FnFrames s 0 []
  | next {n : Nat} {hist ins : List StreamIn} {i r : StreamIn} (h : FnFrames s n hist)
      (hno : ∀ x ∈ fnGiven (fnSysRun s hist) ins, x.2 = false)
      (hw : (0xFFFF, true) ∈ fnGiven (fnSysRun s hist) (ins ++ [i])) :
      FnFrames s (n + 1) (hist ++ (ins ++ [i]) ++ [r])

/-- Registers of the netlist's unpacker as those of the model. -/
def absUnpack (s : BetaFifo.b64_b32.S) : Unpack2 :=
  { data := s.data_out, valid := s.valid_out, oBusy := s.o_busy, reg := s.reg, regValid := s.reg_valid, half := s.half_latched }

theorem unpack_net (s : BetaFifo.b64_b32.S) (d : Nat) (b v : Bool) :
    absUnpack (BetaFifo.b64_b32.step s d b false v) = (absUnpack s).step d v b := by
  obtain ⟨h, o, dat, rv, r, ob⟩ := s
  unfold absUnpack Unpack2.step Unpack2.take Unpack2.tobeInvalid
  cases h <;> cases o <;> cases rv <;> cases b <;> cases v <;> simp [netlist, slc, slice]

theorem unpack_net_rst (s : BetaFifo.b64_b32.S) (d : Nat) (b v : Bool) :
    absUnpack (BetaFifo.b64_b32.step s d b true v) = Unpack2.init := by
  simp [absUnpack, netlist, Unpack2.init]

def FnIn.net (i : FnIn) (s : BetaFifo.top.S) : NetIn :=
  ⟨i.rst, !i.ready, slc s.u_b64_b32.data_out 12 12, slc s.u_b64_b32.data_out 0 12, s.u_b64_b32.valid_out⟩

theorem fn_ok (i : FnIn) (s : BetaFifo.top.S) : (i.net s).Ok := ⟨Nat.mod_lt _ (by decide), Nat.mod_lt _ (by decide)⟩

theorem fn_step_core (s : BetaFifo.top.S) (i : FnIn) : (fnStep s i).u_top_module = netStep s.u_top_module (i.net s) := by
  show Beta.top.step _ _ (i.ready == false) _ _ _ = _
  rw [not_eq_false]; rfl

def fnNets : BetaFifo.top.S → List FnIn → List NetIn
  | _, [] => []
  | s, i :: r => i.net s :: fnNets (fnStep s i) r

theorem fn_run_core (l : List FnIn) : ∀ s, (fnRun s l).u_top_module = netRun s.u_top_module (fnNets s l) := by
  induction l with
  | nil => intro s; rfl
  | cons i r ih => intro s; rw [fnRun, ih, fn_step_core]; rfl

theorem fnNets_ok (l : List FnIn) : ∀ s, ∀ i ∈ fnNets s l, i.Ok := by
  induction l with
  | nil => intro s i hi; cases hi
  | cons i r ih =>
    intro s j hj
    rcases List.mem_cons.1 hj with rfl | hj
    · exact fn_ok i s
    · exact ih _ j hj

theorem fnNets_append (l m : List FnIn) : ∀ s, fnNets s (l ++ m) = fnNets s l ++ fnNets (fnRun s l) m := by
  induction l with
  | nil => intro s; rfl
  | cons i r ih => intro s; simp [fnNets, fnRun, ih]

theorem fnRun_append (l m : List FnIn) : ∀ s, fnRun s (l ++ m) = fnRun (fnRun s l) m := by
  induction l with
  | nil => intro s; rfl
  | cons i r ih => intro s; exact ih _

/-- The netlist with its source behaves like the model with its source. -/
structure FnRel (s : FnSys) (t : StreamSys) : Prop where
  core : Behaves s.net.u_top_module t.sys.cam
  unpack : absUnpack s.net.u_b64_b32 = t.sys.unpack
  q : s.q = t.q

theorem fnStart_rel {s : BetaFifo.top.S} (h : FnStart s) (q : List Nat) : FnRel ⟨s, q⟩ ⟨.init betaCore, q⟩ := by
  obtain ⟨s0, pre, ⟨hu, h0⟩, rfl, hp⟩ := h
  refine ⟨?_, ?_, rfl⟩
  · show Behaves (fnRun s0 pre).u_top_module _
    rw [fn_run_core]
    refine behaves_start h0 _ (fnNets_ok pre s0) ?_
    rcases hp with rfl | ⟨p, b, rfl, hb⟩
    · exact Or.inl rfl
    · exact Or.inr ⟨fnNets s0 p, b.net (fnRun s0 p), by rw [fnNets_append]; rfl, hb⟩
  · show absUnpack (fnRun s0 pre).u_b64_b32 = Unpack2.init
    rcases hp with rfl | ⟨p, b, rfl, hb⟩
    · obtain ⟨h1, h2, h3, h4, h5, h6⟩ := hu
      simp [absUnpack, Unpack2.init, fnRun, h1, h2, h3, h4, h5, h6]
    · rw [fnRun_append]
      obtain ⟨r, d, v, m⟩ := b
      have : r = true := hb
      subst this
      exact unpack_net_rst _ _ _ _

theorem fnRel_step {s : FnSys} {t : StreamSys} (h : FnRel s t) (i : StreamIn) :
    FnRel (s.step i) (t.step betaCore 6666000 i) := by
  obtain ⟨hc, hu, hq⟩ := h
  obtain ⟨⟨tu, tc⟩, tq⟩ := t
  obtain ⟨sn, sq⟩ := s
  have hq : sq = tq := hq
  subst hq
  have hu : absUnpack sn.u_b64_b32 = tu := hu
  subst hu
  have hc : Behaves sn.u_top_module tc := hc
  have hn : Beta.top.nready sn.u_top_module = tc.nready := congrArg NetOut.nready (behaves_out hc false)
  refine ⟨?_, ?_, ?_⟩
  · have := behaves_step hc (FnIn.net ⟨false, sq.headD 0, !sq.isEmpty, i.ready⟩ sn) (fn_ok _ _) rfl
    rw [← fn_step_core] at this
    exact this
  · show absUnpack (BetaFifo.b64_b32.step sn.u_b64_b32 (sq.headD 0) (Beta.top.nready sn.u_top_module) false (!sq.isEmpty)) = _
    rw [unpack_net, hn]
    rfl
  · show (if (sn.u_b64_b32.o_busy == false) = true then sq.tail else sq) ++ _ = (if (!sn.u_b64_b32.o_busy) = true then sq.tail else sq) ++ _
    rw [not_eq_false]

theorem fnRel_run (l : List StreamIn) : ∀ {s : FnSys} {t : StreamSys}, FnRel s t →
    FnRel (fnSysRun s l) (streamRun betaCore 6666000 t l) ∧ fnGiven s l = streamGiven betaCore 6666000 t l := by
  induction l with
  | nil => intro s t h; exact ⟨h, rfl⟩
  | cons i r ih =>
    intro s t h
    obtain ⟨h1, h2⟩ := ih (fnRel_step h i)
    refine ⟨h1, ?_⟩
    have ho := behaves_out h.core (!i.ready)
    have hd : BetaFifo.top.m_tdata s.net i.ready = (t.sys.out i.ready).data := by
      have := congrArg NetOut.data ho
      show Beta.top.data_out _ (i.ready == false) = _
      rw [not_eq_false]; exact this
    have hv : BetaFifo.top.m_tvalid s.net i.ready = (t.sys.out i.ready).valid := by
      have := congrArg NetOut.valid ho
      show Beta.top.valid_out _ (i.ready == false) = _
      rw [not_eq_false]; exact this
    have he : BetaFifo.top.m_tlast s.net i.ready = (t.sys.out i.ready).endd := by
      have := congrArg NetOut.endd ho
      show Beta.top.end_out _ (i.ready == false) = _
      rw [not_eq_false]; exact this
    rw [fnGiven, streamGiven, hd, hv, he, h2]

theorem fn_frames {s : BetaFifo.top.S} (hs : FnStart s) {q : List Nat} {n : Nat} {hist : List StreamIn}
    (h : FnFrames ⟨s, q⟩ n hist) : StreamFrames betaCore 6666000 q n hist := by
  induction h with
  | zero => exact .zero
  | @next n hist ins i r h hno hw ih =>
    have hr := (fnRel_run hist (fnStart_rel hs q)).1
    rw [(fnRel_run _ hr).2] at hno hw
    exact .next ih hno hw

/-- C73: the netlist of the 64-bit FIFO stream wrapper, after power-up or any external reset, over any number of frames
and any schedule on both sides: after `n` normally ended frames, when the next end marker FFFF is transferred, the words
since the last end decode to the pixels number `n*4096*3072` to `(n+1)*4096*3072-1` of those in the 64-bit words of the
source. -/
theorem C73_netlist_fifo_end_to_end (s : BetaFifo.top.S) (hs : FnStart s) (q : List Nat) {n : Nat} {hist : List StreamIn}
    (hn : FnFrames ⟨s, q⟩ n hist) (ins : List StreamIn) (i : StreamIn)
    (hno : ∀ x ∈ fnGiven (fnSysRun ⟨s, q⟩ hist) ins, x.2 = false)
    (hw : (0xFFFF, true) ∈ fnGiven (fnSysRun ⟨s, q⟩ hist) (ins ++ [i])) :
    let words := fnGiven (fnSysRun ⟨s, q⟩ hist) (ins ++ [i])
    let stream := (q ++ (hist ++ (ins ++ [i])).flatMap (·.arrive)).flatMap wordPixels
    ∃ pad, decode defaultTable 13 12 4096 (4096 * 3072) []
      (byteBits (unstuff (wordBytes ((words.drop 8).take (words.length - 16))))) =
        some ((stream.drop (n * (4096 * 3072))).take (4096 * 3072), pad) := by
  intro words stream
  have hr := (fnRel_run hist (fnStart_rel hs q)).1
  rw [(fnRel_run _ hr).2] at hno hw
  have ew : words = _ := (fnRel_run (ins ++ [i]) hr).2
  rw [ew]
  exact C52_stream_end_to_end beta_setup rfl rfl 6666000 q (fn_frames hs hn) ins i hno hw

/-- C73, progress: if words arrive again and again and `m_tready` is high again and again, the frame after `n` normally
ended ones ends. -/
theorem C73_netlist_fifo_always_ends (s : BetaFifo.top.S) (hs : FnStart s) (q : List Nat) {n : Nat} {hist : List StreamIn}
    (hn : FnFrames ⟨s, q⟩ n hist) (u : Nat → StreamIn)
    (hprod : ∀ n, ∃ m, n ≤ m ∧ (u m).arrive ≠ []) (hcons : ∀ n, ∃ m, n ≤ m ∧ (u m).ready = true) :
    ∃ t w, (w, true) ∈ fnGiven (fnSysRun ⟨s, q⟩ hist) ((List.range t).map u) := by
  obtain ⟨t, w, h⟩ := C52_stream_every_frame_ends beta_setup rfl rfl (allowed := 6666000) (by decide) q (fn_frames hs hn) u hprod hcons
  exact ⟨t, w, by rw [(fnRel_run _ (fnRel_run hist (fnStart_rel hs q)).1).2]; exact h⟩

example : FnStart BetaFifo.top.powerUp := ⟨_, [], BetaFifo.top.powerUp_init, rfl, Or.inl rfl⟩

end Props
