/- The shipped Verilog netlist of the encoder core on its own (verilog_src/integration_3.v): C88. -/
import Verif.Netlist.I3Top
import Verif.Netlist.Int1
import Verif.Model.CoreTop
import Verif.Props.NetInt3
import Verif.Props.Markers

set_option autoImplicit false

namespace Props.Core3
open Spec Model Netlist Proof Props

/-- The input ports in one cycle: the two resets, the four pixels, `valid_in` and `busy_in`. -/
structure In where
  rst : Bool
  fullRst : Bool
  p0 : Nat
  p1 : Nat
  p2 : Nat
  p3 : Nat
  valid : Bool
  busy : Bool

/-- The pixel ports are 12 bits wide. -/
def Ports (l : List In) : Prop := ∀ i ∈ l, i.p0 < 4096 ∧ i.p1 < 4096 ∧ i.p2 < 4096 ∧ i.p3 < 4096

/-- The output ports in one cycle: `nready`, `valid_out`, `end_out`, `data_out`, `fend_out`. -/
structure Out where
  nready : Bool
  valid : Bool
  last : Bool
  data : Nat
  fend : Bool
deriving DecidableEq

/-- A clock edge of the netlist. -/
def step (s : I3.top.S) (i : In) : I3.top.S := I3.top.step s i.p1 i.p2 i.p3 i.valid i.busy i.rst i.fullRst i.p0

/-- The netlist's output ports. -/
def out (s : I3.top.S) : Out :=
  ⟨I3.top.nready s, I3.top.valid_out s, I3.top.end_out s, I3.top.data_out s, I3.top.fend_out s⟩

/-- The outputs of the netlist, cycle by cycle. -/
def outs : I3.top.S → List In → List Out
  | _, [] => []
  | s, i :: r => out s :: outs (step s i) r

/-- The outputs of the model of integration_3.py, cycle by cycle. -/
def modelOuts (c : CoreCfg) : Core3 → List In → List Out
  | _, [] => []
  | s, i :: r => ⟨s.core.nready, s.core.valid, s.core.endd, s.core.data, s.fend.fend⟩ ::
      modelOuts c (s.step c i.rst i.fullRst [i.p0, i.p1, i.p2, i.p3] i.valid i.busy) r

/-- The state after a sequence of clock edges. -/
def run : I3.top.S → List In → I3.top.S
  | s, [] => s
  | s, i :: r => run (step s i) r

/-- Pixels taken: those shown in cycles with `valid_in` high and `nready` low. -/
def taken : I3.top.S → List In → List Nat
  | _, [] => []
  | s, i :: r => (if i.valid && !(out s).nready then [i.p0, i.p1, i.p2, i.p3] else []) ++ taken (step s i) r

/-- Words given: those shown with `valid_out` in cycles with `busy_in` low, with `end_out`. -/
def given : I3.top.S → List In → List (Nat × Bool)
  | _, [] => []
  | s, i :: r => (if (out s).valid && !i.busy then [((out s).data, (out s).last)] else []) ++ given (step s i) r

/-- The states after power-up and after a cycle with `rst`, whatever happened before it. -/
def Start (s : I3.top.S) : Prop :=
  ∃ s0 pre, I3.top.Init s0 ∧ Ports pre ∧ s = run s0 pre ∧ (pre = [] ∨ ∃ p b, pre = p ++ [b] ∧ b.rst = true)

/-- No reset. -/
def Quiet (l : List In) : Prop := ∀ i ∈ l, i.rst = false ∧ i.fullRst = false

/-! ### The core inside the AXI-stream wrapper -/

/-- The same state inside the wrapper's netlist. -/
def up (s : I3.top.S) : I3Axis.top.S := ⟨I3.up3 s⟩

/-- The same inputs at the wrapper's ports. -/
def In.up (i : In) : Net64.In :=
  ⟨i.rst, i.fullRst, i.p0 + i.p1 * 2 ^ 12 + i.p2 * 2 ^ 24 + i.p3 * 2 ^ 36, i.valid, false, !i.busy⟩

theorem pack_pixels {i : In} (h : i.p0 < 4096 ∧ i.p1 < 4096 ∧ i.p2 < 4096 ∧ i.p3 < 4096) :
    pixels64 i.up.data = [i.p0, i.p1, i.p2, i.p3] := by
  obtain ⟨h0, h1, h2, h3⟩ := h
  simp only [pixels64, In.up]
  rw [List.cons.injEq, List.cons.injEq, List.cons.injEq, List.cons.injEq]
  refine ⟨?_, ?_, ?_, ?_, rfl⟩ <;> omega

theorem slices_eq (d : Nat) : [slice d 0 12, slice d 12 24, slice d 24 36, slice d 36 48] = pixels64 d := by
  simp [slice, pixels64]

theorem up_step {s : I3.top.S} {i : In} (h : i.p0 < 4096 ∧ i.p1 < 4096 ∧ i.p2 < 4096 ∧ i.p3 < 4096) :
    up (step s i) = Net64.step (up s) i.up := by
  have e := pack_pixels h
  rw [← slices_eq] at e
  simp only [List.cons.injEq, and_true] at e
  obtain ⟨e0, e1, e2, e3⟩ := e
  have := Net64.step_eq (up s) i.up
  rw [e0, e1, e2, e3] at this
  show I3Axis.top.S.mk (I3.up3 (step s i)) = _
  rw [show I3.up3 (step s i) = I3Axis.top_module.step (I3.up3 s) i.p1 i.p2 i.p3 i.valid i.busy i.rst i.fullRst i.p0 from rfl]
  have hb : (!i.up.ready) = i.busy := by simp [In.up]
  rw [hb] at this
  exact congrArg I3Axis.top.S.mk this.symm

theorem up_run (l : List In) : ∀ s, Ports l → up (run s l) = Net64.run (up s) (l.map In.up) := by
  induction l with
  | nil => intro s _; rfl
  | cons i r ih =>
    intro s h
    rw [run, ih _ (fun j hj => h j (by simp [hj])), up_step (h i (by simp))]
    rfl

theorem out_up (s : I3.top.S) : Net64.out (up s) = ⟨!(out s).nready, (out s).valid, (out s).last, (out s).data⟩ := by
  have h : I3Axis.top.s_tready (up s) = !(out s).nready := by
    show (I3.top.nready s == false) = !I3.top.nready s
    cases I3.top.nready s <;> rfl
  unfold Net64.out
  rw [h]
  rfl

theorem taken_up (l : List In) : ∀ s, Ports l → (Net64.moved (up s) (l.map In.up)).flatMap pixels64 = taken s l := by
  induction l with
  | nil => intro s _; rfl
  | cons i r ih =>
    intro s h
    have hi := h i (by simp)
    rw [List.map_cons, Net64.moved, taken, ← up_step hi, List.flatMap_append, ih _ (fun j hj => h j (by simp [hj])), out_up]
    congr 1
    show (if (i.valid && !(out s).nready) = true then [i.up.data] else []).flatMap pixels64 = _
    split
    · simp [pack_pixels hi]
    · rfl

theorem given_up (l : List In) : ∀ s, Ports l → Net64.given (up s) (l.map In.up) = given s l := by
  induction l with
  | nil => intro s _; rfl
  | cons i r ih =>
    intro s h
    rw [List.map_cons, Net64.given, given, ← up_step (h i (by simp)), ih _ (fun j hj => h j (by simp [hj])), out_up]
    rfl

theorem quiet_up {l : List In} (h : Quiet l) : Net64.Quiet (l.map In.up) := by
  intro i hi
  obtain ⟨j, hj, rfl⟩ := List.mem_map.1 hi
  exact h j hj

theorem start_up {s : I3.top.S} (h : Start s) : Net64.Start (up s) := by
  obtain ⟨s0, pre, h0, hp, rfl, h⟩ := h
  refine ⟨up s0, pre.map In.up, I3.up3_init h0, up_run _ _ hp, ?_⟩
  rcases h with rfl | ⟨p, b, rfl, hb⟩
  · exact Or.inl rfl
  · exact Or.inr ⟨p.map In.up, b.up, by simp, hb⟩

/-! ### The forced-end counter -/

/-- The counter's registers. -/
def fendOf (s : I3.top.S) : Beta.force_end.S := s.u_integration_2.u_integration_1.u_force_end

theorem fend_next (s : I3.top.S) (i : In) (h : Beta.WfForceEnd (fendOf s)) :
    Beta.absForceEnd (fendOf (step s i)) = (if i.rst then ForceEnd.init else
      (Beta.absForceEnd (fendOf s)).step s.u_integration_2.u_integration_1.u_register_file.allowed_cycles_reg
        (i.valid && !(out s).nready)) ∧ Beta.WfForceEnd (fendOf (step s i)) := by
  have e : fendOf (step s i) = Beta.force_end.step (fendOf s) s.u_integration_2.u_integration_1.u_register_file.allowed_cycles_reg
      i.rst (i.valid && !(out s).nready) := by
    have hv : I3.integration_2.integration_1_valid_in s.u_integration_2 i.valid = (i.valid && !(out s).nready) := by
      show ((i.valid == true) && (I3.integration_2.nready s.u_integration_2 == false)) = (i.valid && !I3.integration_2.nready s.u_integration_2)
      cases i.valid <;> cases I3.integration_2.nready s.u_integration_2 <;> rfl
    rw [← hv]
    rfl
  rw [e]
  refine ⟨?_, Beta.force_end_wf _ _ _ _ h⟩
  cases i.rst
  · exact Beta.force_end_step _ _ _ h
  · exact Beta.force_end_rst _ _ _

theorem init_fend {s : I3.top.S} (h : I3.top.Init s) :
    Beta.absForceEnd (fendOf s) = ForceEnd.init ∧ Beta.WfForceEnd (fendOf s) := by
  obtain ⟨_, _, _, _, _, _, ⟨_, _, ⟨h1, h2, h3⟩, _⟩, _⟩ := h.1
  refine ⟨?_, ?_⟩
  · simp only [Beta.absForceEnd, fendOf, h1, h2, h3, Beta.fendFsm, ForceEnd.init]
  · simp only [Beta.WfForceEnd, fendOf, h3]; omega

/-! ### The theorems -/

/-- What the netlist and the model agree on. -/
structure Sim (s : I3.top.S) (t : Core3) : Prop where
  wf : Net64.Wf (up s)
  core : Net64.Sim (up s) ⟨t.core, t.regs⟩
  fend : Beta.absForceEnd (fendOf s) = t.fend
  fwf : Beta.WfForceEnd (fendOf s)

theorem sim_out {s : I3.top.S} {t : Core3} (h : Sim s t) :
    out s = ⟨t.core.nready, t.core.valid, t.core.endd, t.core.data, t.fend.fend⟩ := by
  obtain ⟨h1, h2, h3, h4⟩ := Int3.sim_out h.core.core
  have e := out_up s
  rw [Net64.out_eq] at e
  simp only [Stream64.sReady, Stream64.mValid, Stream64.mLast, Stream64.mData, Net64.Out.mk.injEq, h1, h2, h3, h4] at e
  obtain ⟨e1, e2, e3, e4⟩ := e
  have e1' : t.core.nready = (out s).nready := by
    cases hn : t.core.nready <;> cases hm : (out s).nready <;> simp_all
  rw [e1', e2, e3, e4, ← h.fend]
  rfl

theorem sim_step {s : I3.top.S} {t : Core3} (h : Sim s t) {i : In} (hi : i.p0 < 4096 ∧ i.p1 < 4096 ∧ i.p2 < 4096 ∧ i.p3 < 4096) :
    Sim (step s i) (t.step (I3Axis.coreCfg 0 0) i.rst i.fullRst [i.p0, i.p1, i.p2, i.p3] i.valid i.busy) := by
  have f := fend_next s i h.fwf
  have hr : s.u_integration_2.u_integration_1.u_register_file.allowed_cycles_reg = t.regs.allowed :=
    congrArg RegFile.allowed h.core.regs
  have hn : (out s).nready = t.core.nready := by rw [sim_out h]
  rw [h.fend, hr, hn] at f
  have e := up_step (s := s) hi
  have w := Net64.wf_step (up s) i.up h.wf
  have c := Net64.sim_step h.core h.wf i.up
  rw [← e] at w c
  refine ⟨w, ?_, f.1, f.2⟩
  have hp : (stream64In i.up.data i.up.valid i.up.ready).pixels = [i.p0, i.p1, i.p2, i.p3] := by
    rw [← pack_pixels hi, ← slices_eq]
    rfl
  have hb : (stream64In i.up.data i.up.valid i.up.ready).busy = i.busy := by simp [stream64In, In.up]
  have hv : (stream64In i.up.data i.up.valid i.up.ready).valid = i.valid := rfl
  simp only [Stream64.step, hp, hb, hv] at c
  exact c

theorem sim_outs (l : List In) : ∀ s t, Sim s t → Ports l → outs s l = modelOuts (I3Axis.coreCfg 0 0) t l := by
  induction l with
  | nil => intro s t _ _; rfl
  | cons i r ih =>
    intro s t h hp
    rw [outs, modelOuts, sim_out h, ih _ _ (sim_step h (hp i (by simp))) (fun j hj => hp j (by simp [hj]))]

theorem modelOuts_cfg (l : List In) : ∀ t, modelOuts Net64.core64 t l = modelOuts (I3Axis.coreCfg 0 0) t l := by
  induction l with
  | nil => intro t; rfl
  | cons i r ih =>
    intro t
    rw [modelOuts, modelOuts, ih]
    rfl

/-- C88: from power-up, whatever the registers without an initial value hold, and for every sequence of inputs, both
resets included, the output ports of verilog_src/integration_3.v, `fend_out` among them, show in every cycle exactly what
the model of migen_src/integration_3.py shows. -/
theorem C88_netlist_is_source (s : I3.top.S) (hs : I3.top.Init s) (l : List In) (hp : Ports l) :
    outs s l = modelOuts Net64.core64 (Core3.init Net64.core64) l := by
  rw [modelOuts_cfg]
  show _ = modelOuts (I3Axis.coreCfg 0 0) (Core3.init (I3Axis.coreCfg 0 0)) l
  obtain ⟨h1, h2, h3, h4⟩ := Net64.init_abs (s := up s) (I3.up3_init hs)
  obtain ⟨m, hm, he⟩ := afterReset_init (I3Axis.coreCfg 0 0)
  obtain ⟨f1, f2⟩ := init_fend hs
  refine sim_outs l _ _ ⟨h1, ⟨?_, h4, ?_⟩, f1, f2⟩ hp
  · rw [h2, Core3.init, he]
    exact Int3.sim_reset (by decide) (by decide) h3 hm
  · rw [Core3.init, he]
    exact Net64.size_reset (by decide) hm

/-- C88, what is given is code: at every moment of a frame the bits of the words given before the one with `end_out` are a
prefix of the T.81 code of the pixels taken so far. -/
theorem C88_output_is_prefix (s : I3.top.S) (hs : Start s) (l : List In) (hp : Ports l) (hq : Quiet l) :
    wordBits 32 (beforeEnd (given s l)) <+: encode defaultTable 12 4096 (taken s l) := by
  have := Net64.C81_output_is_prefix (up s) (start_up hs) _ (quiet_up hq)
  rwa [given_up l s hp, taken_up l s hp] at this

/-- C88, the frame: when a word with `end_out` has been given, 4096 x 3072 pixels were taken, the words up to it are the
code of them filled up with fewer than 32 zero bits, and a T.81 decoder with the default table reads them back. -/
theorem C88_frame (s : I3.top.S) (hs : Start s) (l : List In) (hp : Ports l) (hq : Quiet l) (w : Nat) (hw : (w, true) ∈ given s l) :
    (taken s l).length = 4096 * 3072 ∧
    (∃ j, j < 32 ∧ wordBits 32 (upToEnd (given s l)) = encode defaultTable 12 4096 (taken s l) ++ List.replicate j false) ∧
    ∃ pad, decode defaultTable 13 12 4096 (4096 * 3072) [] (wordBits 32 (upToEnd (given s l))) = some (taken s l, pad) := by
  have := Net64.C81_frame (up s) (start_up hs) _ (quiet_up hq) w (by rw [given_up l s hp]; exact hw)
  rwa [given_up l s hp, taken_up l s hp] at this

/-- C88: no more than a frame is taken. -/
theorem C88_no_pixel_after_frame (s : I3.top.S) (hs : Start s) (l : List In) (hp : Ports l) (hq : Quiet l) :
    (taken s l).length ≤ 4096 * 3072 ∧ ((taken s l).length = 4096 * 3072 → (out (run s l)).nready = true) := by
  have := Net64.C81_no_pixel_after_frame (up s) (start_up hs) _ (quiet_up hq)
  rw [taken_up l s hp, ← up_run l s hp, out_up] at this
  exact ⟨this.1, fun h => by simpa using this.2 h⟩

theorem ports_append {l m : List In} (h : Ports (l ++ m)) : Ports l ∧ Ports m :=
  ⟨fun i hi => h i (by simp [hi]), fun i hi => h i (by simp [hi])⟩

/-- C88: a word that is not taken because of `busy_in` stays unchanged on the output ports. -/
theorem C88_word_stable (s : I3.top.S) (hs : Start s) (l : List In) (i : In) (hp : Ports (l ++ [i])) (hq : Quiet (l ++ [i]))
    (hr : i.busy = true) (hv : (out (run s l)).valid = true) :
    (out (run s (l ++ [i]))).valid = true ∧ (out (run s (l ++ [i]))).data = (out (run s l)).data ∧
    (out (run s (l ++ [i]))).last = (out (run s l)).last := by
  have hl := (ports_append hp).1
  have hq' : Net64.Quiet (l.map In.up ++ [i.up]) := by
    have := quiet_up hq
    rwa [List.map_append, List.map_singleton] at this
  have := Net64.C81_word_stable (up s) (start_up hs) (l.map In.up) i.up hq' (by simp [In.up, hr]) (by
    rw [← up_run l s hl, out_up]; exact hv)
  rw [← up_run l s hl, show l.map In.up ++ [i.up] = (l ++ [i]).map In.up by simp, ← up_run _ s hp, out_up, out_up] at this
  exact this

/-- C88, progress: if pixels are offered again and again and `busy_in` is low again and again, the frame ends. -/
theorem C88_always_ends (s : I3.top.S) (hs : Start s) (u : Nat → In) (hu : ∀ t, (u t).rst = false ∧ (u t).fullRst = false)
    (hx : ∀ t, (u t).p0 < 4096 ∧ (u t).p1 < 4096 ∧ (u t).p2 < 4096 ∧ (u t).p3 < 4096)
    (hprod : ∀ n, ∃ m, n ≤ m ∧ (u m).valid = true) (hcons : ∀ n, ∃ m, n ≤ m ∧ (u m).busy = false) :
    ∃ t w, (w, true) ∈ given s ((List.range t).map u) := by
  obtain ⟨t, w, h⟩ := Net64.C81_always_ends (up s) (start_up hs) (fun n => (u n).up) hu hprod (fun n => by
    obtain ⟨m, hm, hb⟩ := hcons n
    exact ⟨m, hm, by simp [In.up, hb]⟩)
  refine ⟨t, w, ?_⟩
  rw [show (List.range t).map (fun n => (u n).up) = ((List.range t).map u).map In.up by simp, given_up _ _ (by
    intro i hi; obtain ⟨k, _, rfl⟩ := List.mem_map.1 hi; exact hx k)] at h
  exact h

/-- C88, the limit of this core: once a word with `end_out` is up, the first four outputs never change again without
`rst`: it is given again in every cycle in which `busy_in` is low, and no pixel is taken any more. -/
theorem C88_one_frame_per_reset (s : I3.top.S) (hs : Start s) (l k : List In) (hp : Ports (l ++ k)) (hq : Quiet (l ++ k))
    (he : (out (run s l)).last = true) :
    (out (run s (l ++ k))).nready = true ∧ (out (run s (l ++ k))).valid = true ∧ (out (run s (l ++ k))).last = true ∧
    (out (run s (l ++ k))).data = (out (run s l)).data ∧
    given s (l ++ k) = given s l ++ (k.filter (!·.busy)).map fun _ => ((out (run s l)).data, true) := by
  have hl := (ports_append hp).1
  have hq' : Net64.Quiet (l.map In.up ++ k.map In.up) := by
    have := quiet_up hq
    rwa [List.map_append] at this
  have := Net64.C81_one_frame_per_reset (up s) (start_up hs) (l.map In.up) (k.map In.up) hq' (by
    rw [← up_run l s hl, out_up]; exact he)
  rw [← List.map_append, ← up_run l s hl, ← up_run _ s hp, given_up _ s hp, given_up l s hl, out_up, out_up] at this
  obtain ⟨h1, h2⟩ := this
  rw [Net64.Out.mk.injEq] at h1
  obtain ⟨a, b, c, d⟩ := h1
  refine ⟨by simpa using a, b, c, d, ?_⟩
  rw [h2, List.filter_map, List.map_map]
  rfl

/-! ### `fend_out` -/

/-- Whether pixels are taken, cycle by cycle. -/
def takes : I3.top.S → List In → List Bool
  | _, [] => []
  | s, i :: r => (i.valid && !(out s).nready) :: takes (step s i) r

theorem fend_run (l : List In) : ∀ s, Beta.WfForceEnd (fendOf s) → Quiet l →
    s.u_integration_2.u_integration_1.u_register_file.allowed_cycles_reg = 6666000 →
    Beta.absForceEnd (fendOf (run s l)) = runForce 6666000 (Beta.absForceEnd (fendOf s)) (takes s l) := by
  induction l with
  | nil => intro s _ _ _; rfl
  | cons i r ih =>
    intro s h hq ha
    obtain ⟨f1, f2⟩ := fend_next s i h
    rw [(hq i (by simp)).1, ha] at f1
    rw [run, ih _ f2 (fun j hj => hq j (by simp [hj])) ?_, f1]
    · rfl
    · show I3Axis.register_file.next_allowed_cycles_reg s.u_integration_2.u_integration_1.u_register_file i.fullRst = _
      rw [(hq i (by simp)).2]
      rfl

theorem start_fend {s : I3.top.S} (h : Start s) : Beta.absForceEnd (fendOf s) = ForceEnd.init ∧ Beta.WfForceEnd (fendOf s) ∧
    (out s).nready = true := by
  have hn : (out s).nready = true := by
    obtain ⟨_, m, _, hc, _⟩ := Net64.fresh_of_start (start_up h)
    have e := out_up s
    rw [Net64.out_eq, Stream64.sReady, hc] at e
    have := congrArg Net64.Out.sReady e
    cases hx : (out s).nready
    · rw [hx] at this; cases this
    · rfl
  obtain ⟨s0, pre, h0, hp, rfl, h⟩ := h
  obtain ⟨i1, i2⟩ := init_fend h0
  have wf : ∀ (l : List In) (s : I3.top.S), Beta.WfForceEnd (fendOf s) → Beta.WfForceEnd (fendOf (run s l)) := by
    intro l
    induction l with
    | nil => intro s h; exact h
    | cons i r ih => intro s h; exact ih _ (fend_next s i h).2
  rcases h with rfl | ⟨p, b, rfl, hb⟩
  · exact ⟨i1, i2, hn⟩
  · have e : run s0 (p ++ [b]) = step (run s0 p) b := by
      have : ∀ (l : List In) (s : I3.top.S), run s (l ++ [b]) = step (run s l) b := by
        intro l
        induction l with
        | nil => intro s; rfl
        | cons i r ih => intro s; exact ih _
      exact this _ _
    have f := fend_next (run s0 p) b (wf p s0 i2)
    rw [← e, hb] at f
    exact ⟨f.1, f.2, hn⟩

theorem fend_takes {s : I3.top.S} (hs : Start s) (l : List In) (hq : Quiet l) :
    (out (run s l)).fend = (runForce 6666000 .init (takes s l)).fend := by
  obtain ⟨h1, h2, h3⟩ := start_fend hs
  show (Beta.absForceEnd (fendOf (run s l))).fend = _
  cases l with
  | nil => rw [run, h1]; rfl
  | cons i r =>
    obtain ⟨f1, f2⟩ := fend_next s i h2
    rw [(hq i (by simp)).1, h1, h3] at f1
    rw [run, fend_run r _ f2 (fun j hj => hq j (by simp [hj])) ?_, f1, takes, h3, Bool.not_true, Bool.and_false]
    · rfl
    · show I3Axis.register_file.next_allowed_cycles_reg s.u_integration_2.u_integration_1.u_register_file i.fullRst = _
      rw [(hq i (by simp)).2]
      rfl

theorem takes_append (l m : List In) : ∀ s, takes s (l ++ m) = takes s l ++ takes (run s l) m := by
  induction l with
  | nil => intro s; rfl
  | cons i r ih => intro s; rw [List.cons_append, takes, takes, ih]; rfl

theorem takes_length (l : List In) : ∀ s, (takes s l).length = l.length := by
  induction l with
  | nil => intro s; rfl
  | cons i r ih => intro s; rw [takes, List.length_cons, ih, List.length_cons]

theorem takes_none (l : List In) : ∀ s, taken s l = [] → takes s l = List.replicate l.length false := by
  induction l with
  | nil => intro s _; rfl
  | cons i r ih =>
    intro s h
    rw [taken] at h
    obtain ⟨h1, h2⟩ := List.append_eq_nil_iff.1 h
    rw [takes, ih _ h2, List.length_cons, List.replicate_succ]
    congr 1
    cases hx : (i.valid && !(out s).nready)
    · rfl
    · rw [hx] at h1; cases h1

/-- C88, the budget: `fend_out` is low as long as no pixel has been taken; counted from the cycle in which the first
pixels are taken it is low for 6666002 more cycles and high ever after, until a reset. -/
theorem C88_forced_end (s : I3.top.S) (hs : Start s) (pre : List In) (hpre : taken s pre = []) :
    (Quiet pre → (out (run s pre)).fend = false) ∧
    ∀ i post, Quiet (pre ++ i :: post) → i.valid = true → (out (run s pre)).nready = false →
      (out (run s (pre ++ i :: post))).fend = decide (6666002 ≤ post.length) := by
  refine ⟨fun hq => ?_, fun i post hq hv hn => ?_⟩
  · rw [fend_takes hs _ hq, takes_none _ _ hpre]
    exact C27_never_without_input _ _
  · rw [fend_takes hs _ hq, takes_append, takes_none _ _ hpre, takes, hv, hn]
    show (runForce 6666000 .init (List.replicate pre.length false ++ true :: takes (step (run s pre) i) post)).fend = _
    have := C27_fires_exactly 6666000 (by decide) pre.length (takes (step (run s pre) i) post)
      (pre.length + 1 + post.length) (by rw [takes_length]; exact Nat.le_refl _)
    rw [List.take_of_length_le (by simp [takes_length]; omega)] at this
    rw [this]
    congr 1
    apply propext
    omega

/-- The hypotheses are met: every start of a frame is followed by a frame. -/
theorem C88_frames_occur (s : I3.top.S) (hs : Start s) : ∃ l w, Ports l ∧ Quiet l ∧ (w, true) ∈ given s l := by
  obtain ⟨t, w, h⟩ := C88_always_ends s hs (fun n => ⟨false, false, n % 7, 1, 2, 3, true, false⟩) (fun _ => ⟨rfl, rfl⟩)
    (fun n => ⟨by show n % 7 < 4096; omega, by show (1 : Nat) < 4096; decide, by show (2 : Nat) < 4096; decide, by show (3 : Nat) < 4096; decide⟩)
    (fun n => ⟨n, Nat.le_refl _, rfl⟩) (fun n => ⟨n, Nat.le_refl _, rfl⟩)
  exact ⟨_, w, by
    intro i hi; obtain ⟨k, _, rfl⟩ := List.mem_map.1 hi
    exact ⟨by show k % 7 < 4096; omega, by show (1 : Nat) < 4096; decide, by show (2 : Nat) < 4096; decide, by show (3 : Nat) < 4096; decide⟩, by
    intro i hi; obtain ⟨k, _, rfl⟩ := List.mem_map.1 hi; exact ⟨rfl, rfl⟩, h⟩

example : Start I3.top.powerUp :=
  ⟨_, [], I3.top.powerUp_init, (fun i h => by cases h), rfl, Or.inl rfl⟩

end Props.Core3
