/- The shipped Verilog netlist of the micro core without AXI streams (verilog_src/micro_integration.v): C90. -/
import Verif.Netlist.MicroTop
import Verif.Props.NetMicro

set_option autoImplicit false

namespace Props.MicroCore
open Spec Model Netlist Proof Props

/-- The input ports in one cycle: external reset, `pixel_in`, `valid_in`, `busy_in`, register bus.  (The ports `end_in` and
`end_in$1`, which the source leaves undriven, are low.) -/
structure In where
  rst : Bool
  pixel : Nat
  valid : Bool
  busy : Bool
  bus : LiteIn

/-- The pixel port is 12 bits wide. -/
def Ports (l : List In) : Prop := ∀ i ∈ l, i.pixel < 4096

/-- The output ports in one cycle: `nready`, `valid_out`, `end_out`, `data_out`.  The register bus has no output ports. -/
structure Out where
  nready : Bool
  valid : Bool
  last : Bool
  data : Nat
deriving DecidableEq

/-- A clock edge of the netlist. -/
def step (s : Micro.top.S) (i : In) : Micro.top.S :=
  Micro.top.step s i.rst i.busy i.pixel i.valid i.bus.arvalid i.bus.awvalid i.bus.araddr i.bus.rready i.bus.awaddr i.bus.wvalid
    i.bus.wdata i.bus.wstrb i.bus.bready false false

/-- The netlist's output ports, which depend on `busy_in`. -/
def out (s : Micro.top.S) (busy : Bool) : Out :=
  ⟨Micro.top.nready s, Micro.top.valid_out s busy, Micro.top.end_out s busy, Micro.top.data_out s busy⟩

/-- The outputs of the netlist, cycle by cycle. -/
def outs : Micro.top.S → List In → List Out
  | _, [] => []
  | s, i :: r => out s i.busy :: outs (step s i) r

/-- The outputs of the model of micro_integration.py, cycle by cycle. -/
def modelOuts : LiteCam → List In → List Out
  | _, [] => []
  | m, i :: r => ⟨m.cam.nready, (m.cam.out i.busy).valid, (m.cam.out i.busy).endd, (m.cam.out i.busy).data⟩ ::
      modelOuts (m.microFull microCore i.rst ⟨⟨[i.pixel], i.valid, i.busy⟩, i.bus⟩) r

/-- The state after a sequence of clock edges. -/
def run : Micro.top.S → List In → Micro.top.S
  | s, [] => s
  | s, i :: r => run (step s i) r

/-- Pixels taken: those shown in cycles with `valid_in` high and `nready` low. -/
def taken : Micro.top.S → List In → List Nat
  | _, [] => []
  | s, i :: r => (if i.valid && !(out s i.busy).nready then [i.pixel] else []) ++ taken (step s i) r

/-- Words given: those shown with `valid_out` in cycles with `busy_in` low, with `end_out`. -/
def given : Micro.top.S → List In → List (Nat × Bool)
  | _, [] => []
  | s, i :: r => (if (out s i.busy).valid && !i.busy then [((out s i.busy).data, (out s i.busy).last)] else []) ++ given (step s i) r

/-- The states after power-up and any number of cycles with the external reset. -/
def Start (s : Micro.top.S) : Prop := ∃ s0 pre, Micro.top.Init s0 ∧ Ports pre ∧ (∀ i ∈ pre, i.rst = true) ∧ s = run s0 pre

/-! ### The core inside the AXI-stream wrapper -/

/-- The same state inside the wrapper's netlist. -/
def up (s : Micro.top.S) : MicroAxis.top.S := ⟨Micro.upTop s⟩

/-- The same inputs at the wrapper's ports. -/
def In.up (i : In) : MicroNetIn := ⟨i.rst, i.pixel, i.valid, false, !i.busy, i.bus⟩

theorem low12 {x : Nat} (h : x < 4096) : slc x 0 12 = x := by
  simp only [slc, Nat.pow_zero, Nat.div_one]
  exact Nat.mod_eq_of_lt h

theorem up_step {s : Micro.top.S} {i : In} (h : i.pixel < 4096) : up (step s i) = mnStep (up s) i.up := by
  have e := mn_step (up s) i.up
  have hb : (!i.up.ready) = i.busy := by simp [In.up]
  rw [hb, show slc i.up.data 0 12 = i.pixel from low12 h] at e
  exact congrArg MicroAxis.top.S.mk e.symm

theorem up_run (l : List In) : ∀ s, Ports l → up (run s l) = mnRun (up s) (l.map In.up) := by
  induction l with
  | nil => intro s _; rfl
  | cons i r ih =>
    intro s h
    rw [run, ih _ (fun j hj => h j (by simp [hj])), up_step (h i (by simp))]
    rfl

theorem ports_up (s : Micro.top.S) (b : Bool) :
    (mnPorts (up s) (!b)).sReady = !(out s b).nready ∧ (mnPorts (up s) (!b)).mValid = (out s b).valid ∧
    (mnPorts (up s) (!b)).mLast = (out s b).last ∧ (mnPorts (up s) (!b)).mData = (out s b).data := by
  cases b
  · refine ⟨?_, rfl, rfl, rfl⟩
    show (Micro.top.nready s == false) = !Micro.top.nready s
    cases Micro.top.nready s <;> rfl
  · refine ⟨?_, rfl, rfl, rfl⟩
    show (Micro.top.nready s == false) = !Micro.top.nready s
    cases Micro.top.nready s <;> rfl

theorem taken_up (l : List In) : ∀ s, Ports l → mnMoved (up s) (l.map In.up) = taken s l := by
  induction l with
  | nil => intro s _; rfl
  | cons i r ih =>
    intro s h
    rw [List.map_cons, mnMoved, taken, ← up_step (h i (by simp)), ih _ (fun j hj => h j (by simp [hj])),
      show (mnPorts (up s) i.up.ready).sReady = _ from (ports_up s i.busy).1]
    rfl

theorem taken_lt (l : List In) : ∀ s, Ports l → ∀ x ∈ taken s l, x < 4096 := by
  induction l with
  | nil => intro s _ x hx; cases hx
  | cons i r ih =>
    intro s h x hx
    rw [taken, List.mem_append] at hx
    rcases hx with hx | hx
    · split at hx
      · have : x = i.pixel := by simpa using hx
        rw [this]; exact h i (by simp)
      · cases hx
    · exact ih _ (fun j hj => h j (by simp [hj])) x hx

theorem taken_map (l : List In) (s : Micro.top.S) (h : Ports l) : (taken s l).map (fun w => w % 4096) = taken s l := by
  have := taken_lt l s h
  generalize taken s l = t at this
  induction t with
  | nil => rfl
  | cons x t ih =>
    rw [List.map_cons, ih (fun y hy => this y (by simp [hy])), Nat.mod_eq_of_lt (this x (by simp))]

theorem given_up (l : List In) : ∀ s, Ports l → mnGiven (up s) (l.map In.up) = given s l := by
  induction l with
  | nil => intro s _; rfl
  | cons i r ih =>
    intro s h
    obtain ⟨_, h2, h3, h4⟩ := ports_up s i.busy
    rw [List.map_cons, mnGiven, given, ← up_step (h i (by simp)), ih _ (fun j hj => h j (by simp [hj])),
      show i.up.ready = !i.busy from rfl, h2, h3, h4]

theorem start_up {s : Micro.top.S} (h : Start s) : MnStart (up s) := by
  obtain ⟨s0, pre, h0, hp, hr, rfl⟩ := h
  refine ⟨up s0, pre.map In.up, Micro.upTop_init h0, ?_, up_run _ _ hp⟩
  intro i hi
  obtain ⟨j, hj, rfl⟩ := List.mem_map.1 hi
  exact hr j hj

/-! ### The netlist is the source -/

theorem modelOuts_eq (l : List In) : ∀ m, Ports l →
    (msOuts m (l.map In.up)).map (fun o => (⟨!o.sReady, o.mValid, o.mLast, o.mData⟩ : Out)) = modelOuts m l := by
  induction l with
  | nil => intro m _; rfl
  | cons i r ih =>
    intro m h
    have e : msStep m i.up = m.microFull microCore i.rst ⟨⟨[i.pixel], i.valid, i.busy⟩, i.bus⟩ := by
      have hs : slice i.pixel 0 12 = i.pixel := by
        simp only [slice, Nat.pow_zero, Nat.div_one]
        exact Nat.mod_eq_of_lt (h i (by simp))
      simp only [msStep, In.up, streamMicroIn, hs, Bool.not_not]
    rw [List.map_cons, msOuts, List.map_cons, modelOuts, e, ih _ (fun j hj => h j (by simp [hj]))]
    simp [msPorts, In.up]

theorem outs_eq (l : List In) : ∀ s, Ports l →
    (mnOuts (up s) (l.map In.up)).map (fun o => (⟨!o.sReady, o.mValid, o.mLast, o.mData⟩ : Out)) = outs s l := by
  induction l with
  | nil => intro s _; rfl
  | cons i r ih =>
    intro s h
    obtain ⟨h1, h2, h3, h4⟩ := ports_up s i.busy
    rw [List.map_cons, mnOuts, List.map_cons, outs, ← up_step (h i (by simp)), ih _ (fun j hj => h j (by simp [hj])),
      show i.up.ready = !i.busy from rfl, h1, h2, h3, h4, Bool.not_not]

/-- C90: from power-up, whatever the registers without an initial value hold, and for every sequence of inputs on the
pixel port, the register bus and the external reset, the output ports of verilog_src/micro_integration.v show in every
cycle exactly what the model of migen_src/micro_integration.py shows. -/
theorem C90_netlist_is_source (s : Micro.top.S) (hs : Micro.top.Init s) (l : List In) (hp : Ports l) :
    outs s l = modelOuts (LiteCam.init microCore microTable) l := by
  rw [← outs_eq l s hp, C80_netlist_is_source (up s) (Micro.upTop_init hs), modelOuts_eq l _ hp]

/-! ### Programming a bus without responses -/

/-- The bus in cycles in which nothing is asked. -/
def idleBus : LiteIn := ⟨false, 0, true, false, 0, false, 0, 0, true⟩

/-- A write of `d` at address `a` in seven cycles, without looking at any response: the address is shown for three cycles,
the data for six. -/
def blindWrite (a d : Nat) : List LiteIn :=
  let f := fun (aw w : Bool) => (⟨false, 0, false, aw, a, w, d, 15, true⟩ : LiteIn)
  [f true true, f true true, f true true, f false true, f false true, f false true, f false false]

/-- Frame size and cycle budget are written, while no pixel is offered and no word taken. -/
def program (W H B : Nat) : List In :=
  (blindWrite 0x2000 (W * 2 ^ 16 + H) ++ blindWrite 0x2004 B).map fun b => ⟨false, 0, false, true, b⟩

/-- From the state `s`, the cycles `hist` consist of `n` frames, each up to its last word and followed by one more cycle,
in which the core resets itself. -/
inductive Frames (s : Micro.top.S) : Nat → List In → Prop
  | zero : Frames s 0 []
  | next {n : Nat} {hist ins : List In} {i r : In} (h : Frames s n hist)
      (hno : ∀ x ∈ given (run s hist) ins, x.2 = false)
      (hw : (out (run s (hist ++ ins)) i.busy).valid = true ∧ i.busy = false ∧ (out (run s (hist ++ ins)) i.busy).last = true) :
      Frames s (n + 1) (hist ++ (ins ++ [i]) ++ [r])

/-- No reset and nothing asked on the bus. -/
def Quiet (l : List In) : Prop := ∀ i ∈ l, i.rst = false ∧ i.bus = idleBus

/-- The register bus on its own. -/
def liteRun : CoreLite → List LiteIn → CoreLite
  | s, [] => s
  | s, i :: r => liteRun (s.step 12 false false i (fun _ => 0)) r

def liteEvs : CoreLite → List LiteIn → List BusEv
  | _, [] => []
  | s, i :: r => liteEvents s.out i ++ liteEvs (s.step 12 false false i (fun _ => 0)) r

/-- The bus master keeps the rules, seen from the register bus. -/
def LiteMaster : CoreLite → List LiteIn → Prop
  | _, [] => True
  | s, i :: r => (∀ j ∈ r.head?, MasterNext s.out i j) ∧ LiteMaster (s.step 12 false false i (fun _ => 0)) r

/-- Cycles in which no word is taken: the register bus runs on its own. -/
theorem bus_alone (l : List MicroNetIn) : ∀ {s : MicroAxis.top.S} {m : LiteCam}, MnSim s m → m.cam.resetOut = false →
    (∀ i ∈ l, i.rst = false ∧ i.ready = false ∧ i.valid = false) →
    (∃ m', MnSim (mnRun s l) m' ∧ m'.cam.resetOut = false ∧ m'.lite = liteRun m.lite (l.map (·.bus))) ∧
    mnEvents s l = liteEvs m.lite (l.map (·.bus)) ∧ mnMoved s l = [] ∧ mnGiven s l = [] ∧
    ∀ st rest, LiteMaster m.lite (l.map (·.bus) ++ [idleBus]) → (∀ i ∈ rest, i.bus = idleBus) →
      MnMaster false (regsAfter (coreMap 12 false) st (mnEvents s l)) (mnRun s l) rest → MnMaster false st s (l ++ rest) := by
  induction l with
  | nil => intro s m h h0 _; exact ⟨⟨m, h, h0, rfl⟩, rfl, rfl, rfl, fun _ _ _ _ h => h⟩
  | cons i r ih =>
    intro s m h h0 hl
    obtain ⟨hr, hy, hv⟩ := hl i (by simp)
    have hs := mn_sim_step h i
    rw [ms_step m i hr] at hs
    have hp := mn_sim_ports h i.ready
    have hf := micro_reset_flag (LiteCam.cfg microCore m.lite) m.lite.allowed m.cam i.lc.cam h0
    have hb : i.lc.cam.busy = true := by simp [MicroNetIn.lc, streamMicroIn, hy]
    rw [hb] at hf
    have h0' : (m.microStep microCore i.lc).cam.resetOut = false := by
      have : (m.microStep microCore i.lc).cam.resetOut = (m.cam.microStep (LiteCam.cfg microCore m.lite) m.lite.allowed i.lc.cam).resetOut := rfl
      rw [this, hf]; simp
    have hlite : (m.microStep microCore i.lc).lite = m.lite.step 12 false false i.bus (fun _ => 0) := by
      simp [LiteCam.microStep, h0, MicroNetIn.lc, microCore]
    have hbus : (mnPorts s i.ready).bus = m.lite.out := by rw [hp]; rfl
    obtain ⟨⟨m', k1, k2, k3⟩, k4, k5, k6, k7⟩ := ih hs h0' (fun j hj => hl j (by simp [hj]))
    rw [hlite] at k3 k4 k7
    refine ⟨⟨m', k1, k2, k3⟩, ?_, ?_, ?_, ?_⟩
    · rw [mnEvents, k4, hbus]; rfl
    · rw [mnMoved, k5, hv]; rfl
    · rw [mnGiven, k6, hy]; simp
    · intro st rest ⟨q1, q2⟩ q3 q4
      refine ⟨fun h => (by cases h), ?_, ?_⟩
      · intro j hj
        rw [hbus]
        refine q1 j.bus ?_
        cases r with
        | nil =>
          have := q3 j (List.mem_of_mem_head? hj)
          simp [this]
        | cons k r =>
          have : k = j := by simpa using hj
          simp [this]
      · have he : mnEnded s i = false := by simp [mnEnded, hy]
        rw [mnEvents, regsAfter_append] at q4
        rw [he]
        exact k7 _ rest q2 q3 q4

theorem program_bus (W H B : Nat) : ((program W H B).map In.up).map (·.bus) = blindWrite 0x2000 (W * 2 ^ 16 + H) ++ blindWrite 0x2004 B := rfl

/-- A write of a whole word at an address in the frame size window, from an idle bus. -/
theorem write_run (L : CoreLite) (a d : Nat) (hf : L.fsm = .idle) (hw : L.wready = false) (ha : L.awready = false) (hr : L.arready = false)
    (hv : L.rvalid = false) (hb : L.bvalid = false) (hp : L.wpEn = false) (h1 : (a / 4).testBit 10 = false) (h2 : (a / 4).testBit 11 = true) :
    liteEvs L (blindWrite a d) = [.aw a, .w d 15, .b 0] ∧
    (∀ r, LiteMaster (liteRun L (blindWrite a d)) r → LiteMaster L (blindWrite a d ++ r)) ∧
    (liteRun L (blindWrite a d)).fsm = .idle ∧ (liteRun L (blindWrite a d)).wready = false ∧ (liteRun L (blindWrite a d)).awready = false ∧
    (liteRun L (blindWrite a d)).arready = false ∧ (liteRun L (blindWrite a d)).rvalid = false ∧
    (liteRun L (blindWrite a d)).bvalid = false ∧ (liteRun L (blindWrite a d)).wpEn = false := by
  obtain ⟨fsm, addr, arready, rvalid, awready, wready, bvalid, rdata, rresp, bresp, hw, allowed, rpAddr, wpAddr, wpData,
    wpEn, rpLatch, mem⟩ := L
  dsimp only at hf hw ha hr hv hb hp
  subst hf hw ha hr hv hb hp
  have hx : ∀ L : CoreLite, L.addr = a / 4 → L.isSsss 12 = false := fun L h => by simp [CoreLite.isSsss, h, h1]
  have hy : ∀ L : CoreLite, L.addr = a / 4 → L.isHw = true := fun L h => by simp [CoreLite.isHw, h, h2]
  by_cases h3 : a / 4 % 2 = 0
  · simp [liteEvs, LiteMaster, liteRun, blindWrite, CoreLite.step, CoreLite.stepFsm, CoreLite.stepMem, CoreLite.writeData, hx, hy,
      CoreLite.hwIndex, h3, liteEvents, CoreLite.out]
    intro r hr
    refine ⟨?_, ?_, ?_, ?_, ?_, hr⟩ <;> first | (constructor <;> simp; done) | (intro j _; constructor <;> simp)
  · simp [liteEvs, LiteMaster, liteRun, blindWrite, CoreLite.step, CoreLite.stepFsm, CoreLite.stepMem, CoreLite.writeData, hx, hy,
      CoreLite.hwIndex, h3, liteEvents, CoreLite.out]
    intro r hr
    refine ⟨?_, ?_, ?_, ?_, ?_, hr⟩ <;> first | (constructor <;> simp; done) | (intro j _; constructor <;> simp)

theorem liteEvs_append (a b : List LiteIn) : ∀ L, liteEvs L (a ++ b) = liteEvs L a ++ liteEvs (liteRun L a) b := by
  induction a with
  | nil => intro L; rfl
  | cons i a ih => intro L; simp [liteEvs, liteRun, ih]

theorem program_lite (W H B : Nat) :
    liteEvs (.init microTable) (blindWrite 0x2000 (W * 2 ^ 16 + H) ++ blindWrite 0x2004 B) =
      [.aw 0x2000, .w (W * 2 ^ 16 + H) 15, .b 0, .aw 0x2004, .w B 15, .b 0] ∧
    LiteMaster (.init microTable) (blindWrite 0x2000 (W * 2 ^ 16 + H) ++ blindWrite 0x2004 B ++ [idleBus]) := by
  obtain ⟨e1, m1, a1, a2, a3, a4, a5, a6, a7⟩ := write_run (.init microTable) 0x2000 (W * 2 ^ 16 + H) rfl rfl rfl rfl rfl rfl rfl
    (by decide) (by decide)
  obtain ⟨e2, m2, b1, b2, b3, b4, b5, b6, b7⟩ := write_run (liteRun (.init microTable) (blindWrite 0x2000 (W * 2 ^ 16 + H))) 0x2004 B
    a1 a2 a3 a4 a5 a6 a7 (by decide) (by decide)
  refine ⟨by rw [liteEvs_append, e1, e2]; rfl, ?_⟩
  rw [List.append_assoc]
  exact m1 _ (m2 _ ⟨fun j hj => (by cases hj), trivial⟩)

theorem strobed_all (o d : Nat) : strobed o d 15 = d % 2 ^ 32 := by
  have h0 : (15 : Nat).testBit 0 = true := by decide
  have h1 : (15 : Nat).testBit 1 = true := by decide
  have h2 : (15 : Nat).testBit 2 = true := by decide
  have h3 : (15 : Nat).testBit 3 = true := by decide
  simp only [strobed, h0, h1, h2, h3, if_true, byteAt]
  omega

/-- The registers after the two writes. -/
theorem program_regs (W H B : Nat) (hW : W < 65536) (hH : H < 65536) (hB : B < 2 ^ 24) :
    let g := regsAfter (coreMap 12 false) (resetRegs microTable, .idle)
      [.aw 0x2000, .w (W * 2 ^ 16 + H) 15, .b 0, .aw 0x2004, .w B 15, .b 0]
    g.1.hw = W * 2 ^ 16 + H ∧ g.1.allowed = B ∧ g.1.table = microTable ∧ g.2 = .idle := by
  have e : regsAfter (coreMap 12 false) (resetRegs microTable, .idle)
      [.aw 0x2000, .w (W * 2 ^ 16 + H) 15, .b 0, .aw 0x2004, .w B 15, .b 0] =
      ({ hw := strobed 0 (W * 2 ^ 16 + H) 15, allowed := strobed 0 B 15 % 2 ^ 24, table := microTable }, .idle) := by
    generalize W * 2 ^ 16 + H = d
    have w1 : ∀ g : CoreRegs, (coreMap 12 false).write g 0x2000 d 15 = ({ g with hw := strobed g.hw d 15 }, 0) := fun g => by
      simp only [coreMap, show inTable 12 0x2000 = false by decide, show inHw 0x2000 = true by decide, Bool.false_eq_true, if_false, if_true, Nat.reduceDiv, Nat.reduceMod]
    have w2 : ∀ g : CoreRegs, (coreMap 12 false).write g 0x2004 B 15 = ({ g with allowed := strobed g.allowed B 15 % 2 ^ 24 }, 0) := fun g => by
      simp only [coreMap, show inTable 12 0x2004 = false by decide, show inHw 0x2004 = true by decide, Bool.false_eq_true, if_false, if_true]
      rfl
    simp only [regsAfter, w1, w2, resetRegs]
  intro g
  rw [strobed_all, strobed_all] at e
  rw [show g = _ from e]
  refine ⟨?_, ?_, rfl, rfl⟩
  · show (W * 2 ^ 16 + H) % 2 ^ 32 = _
    omega
  · show B % 2 ^ 32 % 2 ^ 24 = _
    omega

theorem run_append (x y : List In) : ∀ s, run s (x ++ y) = run (run s x) y := by
  induction x with
  | nil => intro s; rfl
  | cons i x ih => intro s; exact ih _

theorem given_append (x y : List In) : ∀ s, given s (x ++ y) = given s x ++ given (run s x) y := by
  induction x with
  | nil => intro s; rfl
  | cons i x ih => intro s; simp [given, run, ih]

theorem taken_append (x y : List In) : ∀ s, taken s (x ++ y) = taken s x ++ taken (run s x) y := by
  induction x with
  | nil => intro s; rfl
  | cons i x ih => intro s; simp [taken, run, ih]

theorem ports_append {l m : List In} : Ports (l ++ m) ↔ Ports l ∧ Ports m :=
  ⟨fun h => ⟨fun i hi => h i (by simp [hi]), fun i hi => h i (by simp [hi])⟩,
   fun h i hi => (List.mem_append.1 hi).elim (h.1 i) (h.2 i)⟩

theorem program_ports (W H B : Nat) : Ports (program W H B) := by
  intro i hi
  obtain ⟨b, _, rfl⟩ := List.mem_map.1 hi
  show (0 : Nat) < 4096
  decide

/-- The two writes on the netlist. -/
theorem program_run {s : Micro.top.S} (hs : Start s) (W H B : Nat) :
    mnEvents (up s) ((program W H B).map In.up) = [.aw 0x2000, .w (W * 2 ^ 16 + H) 15, .b 0, .aw 0x2004, .w B 15, .b 0] ∧
    taken s (program W H B) = [] ∧ given s (program W H B) = [] ∧
    ∀ st rest, (∀ i ∈ rest, i.bus = idleBus) →
      MnMaster false (regsAfter (coreMap 12 false) st (mnEvents (up s) ((program W H B).map In.up))) (mnRun (up s) ((program W H B).map In.up)) rest →
      MnMaster false st (up s) ((program W H B).map In.up ++ rest) := by
  have h := bus_alone ((program W H B).map In.up) (mn_start (start_up hs)) rfl (by
    intro i hi
    obtain ⟨j, hj, rfl⟩ := List.mem_map.1 hi
    obtain ⟨b, _, rfl⟩ := List.mem_map.1 hj
    exact ⟨rfl, rfl, rfl⟩)
  rw [program_bus, show (LiteCam.init microCore microTable).lite = .init microTable from rfl, (program_lite W H B).1] at h
  obtain ⟨_, h2, h3, h4, h5⟩ := h
  rw [taken_up _ _ (program_ports W H B)] at h3
  rw [given_up _ _ (program_ports W H B)] at h4
  exact ⟨h2, h3, h4, fun st rest h6 h7 => h5 st rest (program_lite W H B).2 h6 h7⟩

theorem frames_up {s : Micro.top.S} (P : List In) (hP : Ports P) (hg : given s P = []) {n : Nat} {hist : List In}
    (h : Frames (run s P) n hist) (hp : Ports hist) :
    (n = 0 ∧ hist = []) ∨ (hist ≠ [] ∧ MnFrames (up s) n ((P ++ hist).map In.up)) := by
  induction h with
  | zero => exact Or.inl ⟨rfl, rfl⟩
  | @next n hist ins i r h hno hw ih =>
    have p1 := (ports_append.1 (ports_append.1 hp).1)
    have p2 := (ports_append.1 p1.2)
    refine Or.inr ⟨by simp, ?_⟩
    have hw' : mnEnded (up (run s (P ++ (hist ++ ins)))) i.up = true := by
      rw [run_append]
      obtain ⟨_, q2, q3, _⟩ := ports_up (run (run s P) (hist ++ ins)) i.busy
      rw [mnEnded, show i.up.ready = !i.busy from rfl, q2, q3, hw.1, hw.2.2, hw.2.1]
      rfl
    rcases ih p1.1 with ⟨rfl, rfl⟩ | ⟨_, ih⟩
    · have := MnFrames.next (ins := (P ++ ins).map In.up) (i := i.up) (r := r.up) (MnFrames.zero (s := up s)) ?_ ?_
      · simpa using this
      · show ∀ x ∈ mnGiven (up s) _, _
        rw [given_up _ _ (ports_append.2 ⟨hP, p2.1⟩), given_append, hg]
        exact hno
      · rw [List.nil_append, ← up_run _ _ (ports_append.2 ⟨hP, p2.1⟩)]
        exact hw'
    · have := MnFrames.next (ins := ins.map In.up) (i := i.up) (r := r.up) ih ?_ ?_
      · simpa using this
      · rw [← up_run _ _ (ports_append.2 ⟨hP, p1.1⟩), given_up _ _ p2.1, run_append]
        exact hno
      · rw [← List.map_append, List.append_assoc, ← up_run _ _ (ports_append.2 ⟨hP, ports_append.2 ⟨p1.1, p2.1⟩⟩)]
        exact hw'

theorem idle_regs (l : List MicroNetIn) : ∀ (g : CoreRegs) (s : MicroAxis.top.S), (∀ i ∈ l, i.bus = idleBus) →
    regsAfter (coreMap 12 false) (g, .idle) (mnEvents s l) = (g, .idle) := by
  induction l with
  | nil => intro _ _ _; rfl
  | cons i r ih =>
    intro g s hl
    have e : regsAfter (coreMap 12 false) (g, .idle) (liteEvents (mnPorts s i.ready).bus i.bus) = (g, .idle) := by
      rw [hl i (by simp)]
      simp only [liteEvents, idleBus, Bool.false_and, Bool.false_eq_true, if_false, List.nil_append]
      cases (mnPorts s i.ready).bus.rvalid <;> cases (mnPorts s i.ready).bus.bvalid <;> rfl
    rw [mnEvents, regsAfter_append, e]
    exact ih g _ fun j hj => hl j (by simp [hj])

theorem mnEvents_append (a b : List MicroNetIn) : ∀ s, mnEvents s (a ++ b) = mnEvents s a ++ mnEvents (mnRun s a) b := by
  induction a with
  | nil => intro s; rfl
  | cons i a ih => intro s; simp [mnEvents, mnRun, ih]

/-- A blindly programmed run is a programmed run of the AXI netlist. -/
theorem programmed_up {s : Micro.top.S} (hs : Start s) {W H B : Nat} (hW : W < 65536) (hH : H < 65536) (hB : B < 2 ^ 24)
    {n : Nat} {hist frame : List In} (hf : Frames (run s (program W H B)) n hist) (hp : Ports (hist ++ frame)) (hq : Quiet (hist ++ frame)) :
    ∃ h0 q0, h0 ++ q0 = program W H B ++ hist ∧
      (h0, q0) = (if hist.isEmpty then ([], program W H B) else (program W H B ++ hist, [])) ∧
      MnProgrammed (up s) n (h0.map In.up) (q0.map In.up) (frame.map In.up) ∧
      given (run s h0) q0 = [] ∧ taken (run s h0) q0 = [] ∧
      (mnRegs (up s) (h0.map In.up ++ q0.map In.up)).1.hw = W * 2 ^ 16 + H ∧
      (mnRegs (up s) (h0.map In.up ++ q0.map In.up)).1.allowed = B ∧
      (mnRegs (up s) (h0.map In.up ++ q0.map In.up)).1.table = microTable := by
  obtain ⟨e1, e2, e3, e4⟩ := program_run hs W H B
  obtain ⟨g1, g2, g3, g4⟩ := program_regs W H B hW hH hB
  have hP := program_ports W H B
  obtain ⟨p1, p2⟩ := ports_append.1 hp
  have hidle : ∀ (l : List In), (∀ i ∈ l, i ∈ hist ++ frame) → ∀ i ∈ l.map In.up, i.bus = idleBus := by
    intro l hl i hi
    obtain ⟨j, hj, rfl⟩ := List.mem_map.1 hi
    exact (hq j (hl j hj)).2
  have hrst : ∀ i ∈ (program W H B ++ hist ++ frame).map In.up, i.rst = false := by
    intro i hi
    obtain ⟨j, hj, rfl⟩ := List.mem_map.1 hi
    rw [List.append_assoc, List.mem_append] at hj
    rcases hj with hj | hj
    · obtain ⟨b, _, rfl⟩ := List.mem_map.1 hj
      rfl
    · exact (hq j hj).1
  have hm : MnMaster false (resetRegs microTable, .idle) (up s) ((program W H B ++ hist ++ frame).map In.up) := by
    rw [List.append_assoc, List.map_append]
    refine e4 _ _ (hidle _ fun _ h => h) ?_
    rw [e1]
    generalize regsAfter (coreMap 12 false) (resetRegs microTable, BusPhase.idle) _ = g at g4
    obtain ⟨g, p⟩ := g
    dsimp only at g4
    subst g4
    exact mn_idle_master _ _ _ _ (hidle _ fun _ h => h)
  have hr : ∀ l : List In, (∀ i ∈ l, i ∈ hist ++ frame) → mnRegs (up s) ((program W H B ++ l).map In.up) =
      regsAfter (coreMap 12 false) (resetRegs microTable, .idle) [.aw 0x2000, .w (W * 2 ^ 16 + H) 15, .b 0, .aw 0x2004, .w B 15, .b 0] := by
    intro l hl
    rw [mnRegs, List.map_append, mnEvents_append, regsAfter_append, e1]
    generalize regsAfter (coreMap 12 false) (resetRegs microTable, BusPhase.idle) _ = g at g4
    obtain ⟨g, p⟩ := g
    dsimp only at g4
    subst g4
    exact idle_regs _ _ _ (hidle l hl)
  have hkept : ∀ i ∈ frame.map In.up, i.bus.awvalid = false := by
    intro i hi
    rw [hidle frame (fun j hj => by simp [hj]) i hi]
    rfl
  rcases frames_up _ hP e3 hf p1 with ⟨rfl, rfl⟩ | ⟨hne, h⟩
  · have hr0 := hr [] (fun _ h => by cases h)
    rw [List.append_nil] at hr0
    refine ⟨[], program W H B, by simp, rfl, ⟨start_up hs, ?_, ?_, .zero, ?_, ?_, hkept⟩, e3, e2, ?_, ?_, ?_⟩
    · simpa using hrst
    · simpa using hm
    · show mnMoved (up s) _ = []
      rw [taken_up _ _ hP, e2]
    · exact Or.inl (by rw [List.map_nil, List.nil_append, hr0]; exact g4)
    · rw [List.map_nil, List.nil_append, hr0]; exact g1
    · rw [List.map_nil, List.nil_append, hr0]; exact g2
    · rw [List.map_nil, List.nil_append, hr0]; exact g3
  · have hr0 := hr hist (fun _ h => by simp [h])
    refine ⟨program W H B ++ hist, [], by simp, by simp [hne], ⟨start_up hs, ?_, ?_, h, rfl, ?_, hkept⟩, rfl, rfl, ?_, ?_, ?_⟩
    · simpa using hrst
    · simpa using hm
    · exact Or.inl (by rw [List.map_nil, List.append_nil, hr0]; exact g4)
    · rw [List.map_nil, List.append_nil, hr0]; exact g1
    · rw [List.map_nil, List.append_nil, hr0]; exact g2
    · rw [List.map_nil, List.append_nil, hr0]; exact g3

/-! ### The frames -/

/-- A frame size the core can code: at least four pixels in a line, at least five in the frame. -/
structure SizeOk (W H : Nat) : Prop where
  w : 4 ≤ W
  w16 : W < 65536
  h : 1 ≤ H
  h16 : H < 65536
  size : 5 ≤ W * H

/-- The core with this frame size. -/
theorem setup_of (W H : Nat) (h : SizeOk W H) {g : CoreRegs} (h1 : g.hw = W * 2 ^ 16 + H) (h3 : g.table = microTable) :
    CamSetup (programmed microCore g) defaultTable := by
  have a := h.w16
  have b := h.h16
  have e1 : g.hw / 2 ^ 16 % 2 ^ 16 = W := by rw [h1]; omega
  have e2 : g.hw % 2 ^ 16 = H := by rw [h1]; omega
  have e3 : (List.range (microCore.int1.bd + 1)).map g.table = initHuffTable 12 := by rw [h3]; decide +kernel
  rw [programmed, e1, e2, e3]
  have hlen := h.size
  have hl : CoreLegal microCore := by decide
  refine ⟨default_setup ⟨⟨Or.inl rfl, hl.frame.bd2, hl.frame.bd16, ?_, h.w, ?_, a, h.h, b, ?_⟩, hl.depth, hl.conv1, hl.convT, hl.cdepth,
    hl.out, hl.buf⟩ rfl, rfl, default_long _ hlen⟩
  · exact Nat.one_dvd _
  · have := h.w; show 2 * 1 ≤ W; omega
  · have := h.w; show 2 ≤ H ∨ 3 * 1 ≤ W; omega

/-- The traffic of the netlist and of the AXI netlist. -/
theorem traffic {s : Micro.top.S} {W H B : Nat} {hist frame h0 q0 : List In} {last : In}
    (k1 : h0 ++ q0 = program W H B ++ hist) (hp : Ports (hist ++ (frame ++ [last]))) :
    mnGiven (mnRun (up s) (h0.map In.up)) (q0.map In.up ++ frame.map In.up) = given (run s h0) (q0 ++ frame) ∧
    mnGiven (mnRun (up s) (h0.map In.up)) (q0.map In.up ++ frame.map In.up ++ [last.up]) = given (run s h0) (q0 ++ frame ++ [last]) ∧
    (mnMoved (mnRun (up s) (h0.map In.up)) (q0.map In.up ++ frame.map In.up ++ [last.up])).map (fun w => w % 4096) =
      taken (run s h0) (q0 ++ frame ++ [last]) ∧
    ∀ k, mnMoved (mnRun (up s) (h0.map In.up)) (((q0 ++ frame).take k).map In.up) = taken (run s h0) ((q0 ++ frame).take k) := by
  have p0 : Ports (h0 ++ q0) := by rw [k1]; exact ports_append.2 ⟨program_ports W H B, (ports_append.1 hp).1⟩
  have p1 := ports_append.1 p0
  have p2 := ports_append.1 (ports_append.1 hp).2
  have p3 := ports_append.2 ⟨p1.2, p2.1⟩
  have p4 := ports_append.2 ⟨p3, p2.2⟩
  rw [← up_run _ _ p1.1]
  refine ⟨?_, ?_, ?_, ?_⟩
  · rw [← List.map_append, given_up _ _ p3]
  · rw [← given_up _ _ p4]; simp
  · rw [← taken_map _ _ p4, ← taken_up _ _ p4]; simp
  · intro k
    exact taken_up _ _ fun i hi => p3 i (List.mem_of_mem_take hi)

/-- C90, the frames: after a reset, two writes of frame size and budget, made without looking at the bus, program the core
for that frame and all later ones: it gives the start marker, data words and the forced end marker; the data words
continue, after one to ten `lost` words, the byte-stuffed T.81 code of the pixels taken, in lines of width `W`; if the
last code word is repeated up to the forced end, `W * H` pixels were taken. -/
theorem C90_programmed_frame (s : Micro.top.S) (hs : Start s) (W H B : Nat) (hWH : SizeOk W H) (hB : B < 2 ^ 24)
    (n : Nat) (hist frame : List In) (last : In) (hf : Frames (run s (program W H B)) n hist)
    (hp : Ports (hist ++ (frame ++ [last]))) (hq : Quiet (hist ++ (frame ++ [last])))
    (hno : ∀ x ∈ given (run s (program W H B ++ hist)) frame, x.2 = false)
    (w : Nat) (hw : (w, true) ∈ given (run s (program W H B ++ hist)) (frame ++ [last])) :
    let words := given (run s (program W H B ++ hist)) (frame ++ [last])
    let pixels := taken (run s (program W H B ++ hist)) (frame ++ [last])
    ∃ lost body, words = startMark ++ body ++ endMark 0xFFFE ∧
      (∀ x ∈ body, x.2 = false) ∧ 1 ≤ lost.length ∧ lost.length ≤ 10 ∧
      ∃ (code : List (Nat × Bool)) (n lastWord : Nat),
        wordBytes (lost ++ body) <+: stuff (wordBytes (code ++ List.replicate n (lastWord, false))) ∧
        ((n = 0 ∧ wordBits 16 code <+: encode defaultTable 12 W pixels) ∨
         (pixels.length = W * H ∧ code.getLast? = some (lastWord, false) ∧
          ∃ j, j < 16 ∧ wordBits 16 code = encode defaultTable 12 W pixels ++ List.replicate j false)) := by
  intro words pixels
  obtain ⟨h0, q0, k1, _, k2, k3, k4, k5, k6, k7⟩ := programmed_up hs hWH.w16 hWH.h16 hB hf hp hq
  have hset := setup_of W H hWH k5 k7
  have e1 : (mnRegs (up s) (h0.map In.up ++ q0.map In.up)).1.hw / 2 ^ 16 % 2 ^ 16 = W := by
    have := hWH.w16; have := hWH.h16; rw [k5]; omega
  have e2 : (mnRegs (up s) (h0.map In.up ++ q0.map In.up)).1.hw % 2 ^ 16 = H := by
    have := hWH.w16; have := hWH.h16; rw [k5]; omega
  have hw1 : given (run s h0) (q0 ++ frame) = given (run s (program W H B ++ hist)) frame := by
    rw [given_append, k3, ← run_append, k1]; rfl
  have hw2 : given (run s h0) (q0 ++ frame ++ [last]) = words := by
    rw [List.append_assoc, given_append, k3, ← run_append, k1]; rfl
  have hw3 : taken (run s h0) (q0 ++ frame ++ [last]) = pixels := by
    rw [List.append_assoc, taken_append, k4, ← run_append, k1]; rfl
  obtain ⟨x1, x2, x3, x4⟩ := traffic k1 hp
  have := C80_programmed_frame (T := defaultTable) (n := n) (w := w) (hist := h0.map In.up) (quiet := q0.map In.up) (frame := frame.map In.up)
    (last := last.up) (by simpa using k2) hset (by rw [x1, hw1]; exact hno) (by rw [x2, hw2]; exact hw)
  dsimp only at this
  rw [e1, e2, x2, x3, hw2, hw3] at this
  exact this

/-- C90, cycle budget: a frame is ended only if a pixel of it had been taken more than the written budget (plus 10) cycles
before. -/
theorem C90_written_budget (s : Micro.top.S) (hs : Start s) (W H B : Nat) (hWH : SizeOk W H) (hB : B < 2 ^ 24)
    (n : Nat) (hist frame : List In) (last : In) (hf : Frames (run s (program W H B)) n hist)
    (hp : Ports (hist ++ (frame ++ [last]))) (hq : Quiet (hist ++ (frame ++ [last])))
    (hno : ∀ x ∈ given (run s (program W H B ++ hist)) frame, x.2 = false)
    (w : Nat) (hw : (w, true) ∈ given (run s (program W H B ++ hist)) (frame ++ [last])) :
    ∃ early late, frame = early ++ late ∧ B + 10 ≤ late.length ∧ taken (run s (program W H B ++ hist)) early ≠ [] := by
  obtain ⟨h0, q0, k1, _, k2, k3, k4, k5, k6, k7⟩ := programmed_up hs hWH.w16 hWH.h16 hB hf hp hq
  have hset := setup_of W H hWH k5 k7
  have hw1 : given (run s h0) (q0 ++ frame) = given (run s (program W H B ++ hist)) frame := by
    rw [given_append, k3, ← run_append, k1]; rfl
  have hw2 : given (run s h0) (q0 ++ frame ++ [last]) = given (run s (program W H B ++ hist)) (frame ++ [last]) := by
    rw [List.append_assoc, given_append, k3, ← run_append, k1]; rfl
  obtain ⟨x1, x2, x3, x4⟩ := traffic k1 hp
  obtain ⟨early, late, y1, y2, y3⟩ := C80_written_budget (n := n) (w := w) (hist := h0.map In.up) (quiet := q0.map In.up) (frame := frame.map In.up)
    (last := last.up) (by simpa using k2) hset.core.legal (by rw [x1, hw1]; exact hno) (by rw [x2, hw2]; exact hw)
  rw [k6] at y2
  rw [← List.map_append] at y1
  have hlen := congrArg List.length y1
  simp only [List.length_append, List.length_map] at hlen
  have ee : early = ((q0 ++ frame).take early.length).map In.up := by rw [List.map_take, y1, List.take_left' rfl]
  rw [ee, x4] at y3
  have hlong : q0.length < early.length := by
    apply Classical.byContradiction
    intro hc
    apply y3
    rw [List.take_append_of_le_length (by omega)]
    have := taken_append (q0.take early.length) (q0.drop early.length) (run s h0)
    rw [List.take_append_drop, k4] at this
    exact (List.append_eq_nil_iff.1 this.symm).1
  refine ⟨frame.take (early.length - q0.length), frame.drop (early.length - q0.length), (List.take_append_drop _ _).symm, ?_, ?_⟩
  · rw [List.length_drop]; omega
  · rw [List.take_append, List.take_of_length_le (by omega), taken_append, k4, ← run_append, k1] at y3
    exact y3

/-- C90, progress: if pixels are offered again and again and `busy_in` is low again and again, the frame ends. -/
theorem C90_always_ends (s : Micro.top.S) (hs : Start s) (W H B : Nat) (hWH : SizeOk W H) (hB : B < 2 ^ 24)
    (n : Nat) (hist : List In) (hf : Frames (run s (program W H B)) n hist) (hp : Ports hist) (hq : Quiet hist)
    (u : Nat → In) (hu : ∀ t, (u t).pixel < 4096 ∧ (u t).rst = false ∧ (u t).bus = idleBus)
    (hprod : ∀ n, ∃ m, n ≤ m ∧ (u m).valid = true) (hcons : ∀ n, ∃ m, n ≤ m ∧ (u m).busy = false) :
    ∃ t, (0xFFFE, true) ∈ given (run s (program W H B ++ hist)) ((List.range t).map u) := by
  have key : ∀ k, Ports (hist ++ (List.range k).map u) ∧ Quiet (hist ++ (List.range k).map u) := by
    intro k
    constructor
    · refine ports_append.2 ⟨hp, ?_⟩
      intro i hi
      obtain ⟨t, _, rfl⟩ := List.mem_map.1 hi
      exact (hu t).1
    · intro i hi
      rcases List.mem_append.1 hi with hi | hi
      · exact hq i hi
      · obtain ⟨t, _, rfl⟩ := List.mem_map.1 hi
        exact (hu t).2
  obtain ⟨h0, q0, k1, kd, _, k3, k4, k5, k6, k7⟩ := programmed_up hs hWH.w16 hWH.h16 hB hf (key 0).1 (key 0).2
  have hset := setup_of W H hWH k5 k7
  obtain ⟨t, ht⟩ := C80_always_ends (T := defaultTable) (n := n) (hist := h0.map In.up) (quiet := q0.map In.up) (fun k => (u k).up) (by
      intro k
      obtain ⟨h1, q1, _, kd1, m1, _⟩ := programmed_up hs hWH.w16 hWH.h16 hB hf (key k).1 (key k).2
      rw [← kd] at kd1
      obtain ⟨rfl, rfl⟩ := Prod.mk.inj kd1
      simpa [Function.comp_def] using m1) hset hprod (fun k => by
      obtain ⟨m, y1, y2⟩ := hcons k
      exact ⟨m, y1, by simp [In.up, y2]⟩)
  refine ⟨t, ?_⟩
  have p0 : Ports (h0 ++ q0) := by rw [k1]; exact ports_append.2 ⟨program_ports W H B, hp⟩
  have p1 := ports_append.1 p0
  have p2 := ports_append.2 ⟨p1.2, (ports_append.1 (key t).1).2⟩
  have e : (List.range t).map (fun k => (u k).up) = ((List.range t).map u).map In.up := by simp [Function.comp_def]
  rw [e, ← List.map_append, ← up_run _ _ p1.1, given_up _ _ p2, given_append, k3, ← run_append, k1] at ht
  exact ht

/-! ### Examples -/

-- A state the theorems speak about, and a frame size.
example : Start Micro.top.powerUp := ⟨_, [], Micro.top.powerUp_init, fun _ h => (by cases h), fun _ h => (by cases h), rfl⟩

example : SizeOk 6 4 := ⟨by decide, by decide, by decide, by decide, by decide⟩

/-- A pixel offered and the consumer ready, or neither. -/
def pixelAt (n : Nat) : In := ⟨false, n % 4096, n % 3 == 0, n % 2 == 1, idleBus⟩

theorem powerUp_start : Start Micro.top.powerUp :=
  ⟨_, [], Micro.top.powerUp_init, fun _ h => (by cases h), fun _ h => (by cases h), rfl⟩

/-- The first frame of 6 x 4 pixels is ended by FFFE. -/
theorem example_ends : ∃ t, (0xFFFE, true) ∈ given (run Micro.top.powerUp (program 6 4 1000 ++ [])) ((List.range t).map pixelAt) := by
  refine C90_always_ends _ powerUp_start 6 4 1000 ⟨by decide, by decide, by decide, by decide, by decide⟩ (by decide) 0 [] .zero
    (fun _ h => by cases h) (fun _ h => by cases h) pixelAt ?_ ?_ ?_
  · intro t
    exact ⟨Nat.mod_lt _ (by decide), rfl, rfl⟩
  · intro n; exact ⟨3 * n, by omega, by simp [pixelAt]⟩
  · intro n; exact ⟨2 * n, by omega, by simp [pixelAt]⟩

/-- So there are cycles that meet the hypotheses of the other theorems. -/
example : ∃ t w, (∀ x ∈ given (run Micro.top.powerUp (program 6 4 1000 ++ [])) ((List.range t).map pixelAt), x.2 = false) ∧
    (w, true) ∈ given (run Micro.top.powerUp (program 6 4 1000 ++ [])) ((List.range t).map pixelAt ++ [pixelAt t]) := by
  apply Classical.byContradiction
  intro hcon
  have hno : ∀ t, ∀ x ∈ given (run Micro.top.powerUp (program 6 4 1000 ++ [])) ((List.range t).map pixelAt), x.2 = false := by
    intro t
    induction t with
    | zero => intro x hx; cases hx
    | succ t ih =>
      intro x hx
      cases hx2 : x.2 with
      | false => rfl
      | true =>
        exfalso
        refine hcon ⟨t, x.1, ih, ?_⟩
        rw [List.range_succ, List.map_append] at hx
        rw [← hx2]
        exact hx
  obtain ⟨t, ht⟩ := example_ends
  have := hno t _ ht
  cases this

-- Without programming nothing of the frame size is known: after power-up the frame size is 0 x 0.
example : Micro.top.powerUp.u_integration_3.u_integration_2.u_integration_1.u_core_axi_lite.height_width = 0 := rfl

end Props.MicroCore
