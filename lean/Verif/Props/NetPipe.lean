/- The encoding pipeline on its own and its shipped Verilog netlist (verilog_src/integration_1.v): C91. -/
import Verif.Netlist.I1Sim
import Verif.Props.Pipeline
import Verif.Props.Markers
import Verif.Props.Pieces
import Verif.Props.NetMicroCore

set_option autoImplicit false

namespace Props.Pipe
open Spec Model Netlist Props
open Props.Pieces (pieceBits)
open Props.MicroCore (idleBus blindWrite strobed_all)

/-- The input ports in one cycle: the two resets, the two pixels, `valid_in`, the register bus. -/
structure In where
  rst : Bool
  fullRst : Bool
  p0 : Nat
  p1 : Nat
  valid : Bool
  bus : LiteIn

/-- The pixel ports are 12 bits wide. -/
def Ports (l : List In) : Prop := ∀ i ∈ l, i.p0 < 4096 ∧ i.p1 < 4096

/-- The output ports in one cycle: `enc_out`, `enc_out_ctr`, `valid_out`, `end_out`, `fend_out`. -/
structure Out where
  enc : Nat
  ctr : Nat
  valid : Bool
  last : Bool
  fend : Bool
deriving DecidableEq

/-- A clock edge of the netlist. -/
def step (s : I1.top.S) (i : In) : I1.top.S :=
  I1.top.step s i.p0 i.p1 i.rst i.bus.arvalid i.bus.awvalid i.bus.araddr i.bus.rready i.bus.awaddr i.bus.wvalid i.bus.wdata i.bus.wstrb
    i.bus.bready i.fullRst i.valid

/-- The netlist's output ports. -/
def out (s : I1.top.S) : Out := ⟨I1.top.enc_out s, I1.top.enc_out_ctr s, I1.top.valid_out s, I1.top.end_out s, I1.top.fend_out s⟩

/-- The state after a sequence of clock edges. -/
def run : I1.top.S → List In → I1.top.S
  | s, [] => s
  | s, i :: r => run (step s i) r

/-- The outputs of the netlist, cycle by cycle. -/
def outs : I1.top.S → List In → List Out
  | _, [] => []
  | s, i :: r => out s :: outs (step s i) r

/-- The output ports of the model of integration_1.py. -/
def modelOut (m : Core1) : Out :=
  ⟨(m.int1.out I1.cfg1).enc, (m.int1.out I1.cfg1).ctr, (m.int1.out I1.cfg1).valid, (m.int1.out I1.cfg1).endd, m.fend.fend⟩

/-- A clock edge of the model. -/
def modelStep (m : Core1) (i : In) : Core1 := m.step I1.cfg1 i.rst i.fullRst [i.p0, i.p1] i.valid i.bus

/-- The outputs of the model, cycle by cycle. -/
def modelOuts : Core1 → List In → List Out
  | _, [] => []
  | m, i :: r => modelOut m :: modelOuts (modelStep m i) r

/-- The pixels given with `valid_in`. -/
def taken (l : List In) : List Nat := l.flatMap fun i => if i.valid then [i.p0, i.p1] else []

/-- The pieces of code shown with `valid_out`: number of bits and bits. -/
def given (s : I1.top.S) (l : List In) : List (Nat × Nat) :=
  (outs s l).flatMap fun o => if o.valid then [(o.ctr, o.enc)] else []

/-- The states after power-up and any number of cycles with both resets. -/
def Start (s : I1.top.S) : Prop :=
  ∃ s0 pre, I1.top.Init s0 ∧ Ports pre ∧ (∀ i ∈ pre, i.rst = true ∧ i.fullRst = true) ∧ s = run s0 pre

/-- The word of the code of class `k` in a table: 28 bits for the code, shifted by the number of bits that follow it, and
above them the length of the code. -/
def entry (T : Table) (k : Nat) : Nat := (T k).length * 2 ^ 28 + ofBits (T k) * 2 ^ k

/-- The codes of the classes `ks` of the table `T` are written, then the frame size and the cycle budget, while no pixel is
offered. -/
def program (ks : List Nat) (T : Table) (W H B : Nat) : List In :=
  (ks.flatMap (fun k => blindWrite (0x1000 + 8 * k) (entry T k)) ++ blindWrite 0x2000 (W * 2 ^ 16 + H) ++ blindWrite 0x2004 B).map
    fun b => ⟨false, false, 0, 0, false, b⟩

/-- The table in force after that: the default one with the classes `ks` replaced. -/
def tableOf (ks : List Nat) (T : Table) : Table := fun k => if k ∈ ks then T k else defaultTable k

/-- Nothing is asked on the bus and the registers are not reset. -/
def NoBus (l : List In) : Prop := ∀ i ∈ l, i.fullRst = false ∧ i.bus = idleBus

/-- Any cycles, the last of which has the reset; or none. -/
def Ended (l : List In) : Prop := l = [] ∨ ∃ h i, l = h ++ [i] ∧ i.rst = true

/-- Cycles without reset. -/
def Running (l : List In) : Prop := ∀ i ∈ l, i.rst = false

/-! ### The netlist is the source -/

theorem sim_out {s : I1.top.S} {m : Core1} (h : I1.Sim s m) : out s = modelOut m := by
  have : m.int1.out I1.cfg1 = Beta.absMerge s.u_merge := by rw [h.int1]; rfl
  rw [modelOut, this, h.fend]
  rfl

/-- The state of the model after a sequence of clock edges. -/
def modelRun : Core1 → List In → Core1
  | m, [] => m
  | m, i :: r => modelRun (modelStep m i) r

theorem sim_run (l : List In) : ∀ {s m}, I1.Sim s m → Ports l → I1.Sim (run s l) (modelRun m l) := by
  induction l with
  | nil => intro s m h _; exact h
  | cons i r ih =>
    intro s m h hp
    exact ih (I1.sim_step h i.p0 i.p1 i.rst i.bus i.fullRst i.valid (hp i (by simp)).1 (hp i (by simp)).2) (fun j hj => hp j (by simp [hj]))

theorem sim_outs (l : List In) : ∀ {s m}, I1.Sim s m → Ports l → outs s l = modelOuts m l := by
  induction l with
  | nil => intro s m _ _; rfl
  | cons i r ih =>
    intro s m h hp
    rw [outs, modelOuts, sim_out h]
    congr 1
    exact ih (I1.sim_step h i.p0 i.p1 i.rst i.bus i.fullRst i.valid (hp i (by simp)).1 (hp i (by simp)).2) (fun j hj => hp j (by simp [hj]))

/-- C91: for every power-up state of verilog_src/integration_1.v there are contents of the uninitialised read registers of
the table memory with which the model of migen_src/integration_1.py shows, for every sequence of inputs on the pixel ports
and the register bus and for both resets in any combination, exactly the same outputs in every cycle. -/
theorem C91_netlist_is_source (s : I1.top.S) (hs : I1.top.Init s) :
    ∃ rp : List Nat, rp.length = 2 ∧ ∀ l, Ports l →
      outs s l = modelOuts (.init I1.cfg1 rp fun k => (initHuffTable 12).getD k 0) l :=
  ⟨_, rfl, fun l hp => sim_outs l (I1.sim_init s hs) hp⟩

/-! ### The registers -/

/-- The slave is at rest with these contents. -/
structure Holds (L : CoreLite) (hw al : Nat) (mem : Nat → Nat) : Prop where
  fsm : L.fsm = .idle
  en : L.wpEn = false
  hw : L.hw = hw
  al : L.allowed = al
  mem : L.mem = mem

/-- A run of the slave. -/
def busRun : CoreLite → List LiteIn → CoreLite
  | s, [] => s
  | s, i :: r => busRun (s.step 12 false false i (fun _ => 0)) r

theorem busRun_append (a b : List LiteIn) : ∀ L, busRun L (a ++ b) = busRun (busRun L a) b := by
  induction a with
  | nil => intro L; rfl
  | cons i a ih => intro L; exact ih _

theorem write_size {L : CoreLite} {hw al : Nat} {mem : Nat → Nat} (h : Holds L hw al mem) (hh : hw < 2 ^ 32) (d : Nat) (hd : d < 2 ^ 32) :
    Holds (busRun L (blindWrite 0x2000 d)) d al mem := by
  obtain ⟨fsm, addr, arready, rvalid, awready, wready, bvalid, rdata, rresp, bresp, hw', allowed, rpAddr, wpAddr, wpData,
    wpEn, rpLatch, mem'⟩ := L
  obtain ⟨h1, h2, h3, h4, h5⟩ := h
  dsimp only at h1 h2 h3 h4 h5
  subst h1 h2 h3 h4 h5
  have e : CoreLite.putBytes 4 hw' d 15 = d := by
    rw [Proof.putBytes4 d 15 hh, strobed_all]; omega
  constructor <;>
    simp [busRun, blindWrite, CoreLite.step, CoreLite.stepFsm, CoreLite.stepMem, CoreLite.writeData, CoreLite.isSsss, CoreLite.isHw,
      CoreLite.hwIndex, e, show Nat.testBit 2048 10 = false by decide, show Nat.testBit 2048 11 = true by decide]

theorem write_budget {L : CoreLite} {hw al : Nat} {mem : Nat → Nat} (h : Holds L hw al mem) (ha : al < 2 ^ 24) (d : Nat) (hd : d < 2 ^ 24) :
    Holds (busRun L (blindWrite 0x2004 d)) hw d mem := by
  obtain ⟨fsm, addr, arready, rvalid, awready, wready, bvalid, rdata, rresp, bresp, hw', allowed, rpAddr, wpAddr, wpData,
    wpEn, rpLatch, mem'⟩ := L
  obtain ⟨h1, h2, h3, h4, h5⟩ := h
  dsimp only at h1 h2 h3 h4 h5
  subst h1 h2 h3 h4 h5
  have e : CoreLite.putBytes 3 allowed d 15 = d := by
    rw [Proof.putBytes3 d 15 ha, strobed_all]; omega
  constructor <;>
    simp [busRun, blindWrite, CoreLite.step, CoreLite.stepFsm, CoreLite.stepMem, CoreLite.writeData, CoreLite.isSsss, CoreLite.isHw,
      CoreLite.hwIndex, e, show Nat.testBit 2049 10 = false by decide, show Nat.testBit 2049 11 = true by decide]

theorem write_code {L : CoreLite} {hw al : Nat} {mem : Nat → Nat} (h : Holds L hw al mem) (k : Nat) (hk : k ≤ 12) (d : Nat) (hd : d < 2 ^ 32) :
    Holds (busRun L (blindWrite (0x1000 + 8 * k) d)) hw al (fun j => if j = k then d else mem j) := by
  obtain ⟨fsm, addr, arready, rvalid, awready, wready, bvalid, rdata, rresp, bresp, hw', allowed, rpAddr, wpAddr, wpData,
    wpEn, rpLatch, mem'⟩ := L
  obtain ⟨h1, h2, h3, h4, h5⟩ := h
  dsimp only at h1 h2 h3 h4 h5
  subst h1 h2 h3 h4 h5
  have e : ∀ o, CoreLite.putBytes 4 (o % 4294967296) d 15 % 8589934592 = d := fun o => by
    rw [Proof.putBytes4 d 15 (Nat.mod_lt _ (by decide)), strobed_all]; omega
  have a1 : (4096 + 8 * k) / 4 = 1024 + 2 * k := by omega
  have a2 : (1024 + 2 * k) % 64 = 2 * k := by omega
  have a3 : (1024 + 2 * k).testBit 10 = true := by
    have : ∀ k : Fin 13, (1024 + 2 * k.1).testBit 10 = true := by decide
    exact this ⟨k, by omega⟩
  have a4 : 2 * k < 26 := by omega
  have a5 : 2 * k % 2 = 0 := by omega
  have a6 : 2 * k / 2 = k := by omega
  constructor <;>
    simp [busRun, blindWrite, CoreLite.step, CoreLite.stepFsm, CoreLite.stepMem, CoreLite.writeData, CoreLite.isSsss,
      CoreLite.ssssIndex, CoreLite.rpDataIn, e, a1, a2, a3, a4, a6]

theorem write_codes (T : Table) (ks : List Nat) (hk : ∀ k ∈ ks, k ≤ 12) (ht : ∀ k ∈ ks, entry T k < 2 ^ 32) :
    ∀ {L : CoreLite} {hw al : Nat} {mem : Nat → Nat}, Holds L hw al mem →
      Holds (busRun L (ks.flatMap fun k => blindWrite (0x1000 + 8 * k) (entry T k))) hw al
        (fun j => if j ∈ ks then entry T j else mem j) := by
  induction ks with
  | nil => intro L hw al mem h; simpa [busRun] using h
  | cons k r ih =>
    intro L hw al mem h
    have h1 := ih (fun j hj => hk j (by simp [hj])) (fun j hj => ht j (by simp [hj])) (write_code h k (hk k (by simp)) _ (ht k (by simp)))
    rw [List.flatMap_cons, busRun_append]
    refine ⟨h1.fsm, h1.en, h1.hw, h1.al, ?_⟩
    rw [h1.mem]
    funext j
    by_cases hj : j ∈ r
    · simp [hj]
    · by_cases hjk : j = k
      · subst hjk; simp [hj]
      · simp [hj, hjk]

theorem entry_lt {T : Table} {k : Nat} (hk : k ≤ 12) (hl : (T k).length ≤ 15) : entry T k < 2 ^ 32 := by
  have h1 : ofBits (T k) < 2 ^ (T k).length := ofBits_lt (T k)
  have h2 : 2 ^ (T k).length ≤ 2 ^ 15 := Nat.pow_le_pow_right (by decide) hl
  have h3 : 2 ^ k ≤ 2 ^ 12 := Nat.pow_le_pow_right (by decide) hk
  have h4 : ofBits (T k) * 2 ^ k ≤ 2 ^ 15 * 2 ^ 12 := Nat.mul_le_mul (by omega) h3
  unfold entry
  omega

theorem entry_eq {T : Table} {k : Nat} (hk : k ≤ 12) (hl : (T k).length ≤ 15) :
    entry T k = huffEntry 12 k (ofBits (T k), (T k).length) := by
  have h1 : ofBits (T k) < 2 ^ (T k).length := ofBits_lt (T k)
  have h2 : 2 ^ (T k).length ≤ 2 ^ 15 := Nat.pow_le_pow_right (by decide) hl
  have h3 : 2 ^ k ≤ 2 ^ 12 := Nat.pow_le_pow_right (by decide) hk
  have h4 : ofBits (T k) * 2 ^ k ≤ 2 ^ 15 * 2 ^ 12 := Nat.mul_le_mul (by omega) h3
  have h5 : ofBits (T k) <<< k < 2 ^ 28 := by rw [Nat.shiftLeft_eq]; omega
  rw [huffEntry, if_neg (by omega)]
  show _ = (T k).length <<< 28 ||| _
  rw [← Nat.shiftLeft_add_eq_or_of_lt h5, entry, Nat.shiftLeft_eq, Nat.shiftLeft_eq]

/-- The table memory after programming holds the table. -/
theorem table_rep (T : Table) (ks : List Nat) (hl : ∀ k ∈ ks, (T k).length ≤ 15) :
    MemRep 12 ((List.range 13).map fun j => if j ∈ ks then entry T j else (initHuffTable 12).getD j 0) (tableOf ks T) := by
  intro k hk
  have hd := default_table_loaded 12 (by decide) k hk
  have e : ((List.range 13).map fun j => if j ∈ ks then entry T j else (initHuffTable 12).getD j 0).getD k 0 =
      if k ∈ ks then entry T k else (initHuffTable 12).getD k 0 := by
    rw [List.getD_eq_getElem?_getD, List.getElem?_map, List.getElem?_range (by omega)]
    rfl
  rw [e]
  by_cases h : k ∈ ks
  · have := hl k h
    simp only [tableOf, if_pos h]
    exact ⟨by omega, entry_eq hk this⟩
  · simp only [tableOf, if_neg h]
    exact hd

/-! ### A frame -/

/-- The state of the model between frames: the pipeline reset, the slave at rest. -/
structure Fresh (m : Core1) (hw al : Nat) (mem : Nat → Nat) : Prop where
  int1 : ∃ c rp, c.bd = 12 ∧ c.ps = 2 ∧ rp.length = 2 ∧ m.int1 = Int1.reset c rp
  fend : m.fend = .init
  lite : Holds m.lite hw al mem

/-- With no pixel the reset pipeline stays reset, whatever the configuration. -/
theorem reset_idle (c : Int1Cfg) (c' : Int1Cfg) (rp : List Nat) (px : List Nat) (h1 : c.bd = 12) (h2 : c.ps = 2) (h1' : c'.bd = 12)
    (h2' : c'.ps = 2) : ∃ rp', rp'.length = 2 ∧ (Int1.reset c rp).step c' px false = Int1.reset c' rp' := by
  obtain ⟨bd, ps, W, H, mem⟩ := c
  obtain ⟨bd', ps', W', H', mem'⟩ := c'
  dsimp only at h1 h2 h1' h2'
  subst h1 h2 h1' h2'
  exact ⟨[mem'.getD 0 0, mem'.getD 0 0], rfl, rfl⟩

/-- What the read registers hold at reset does not matter. -/
theorem reset_step (c : Int1Cfg) (rp rp' : List Nat) (px : List Nat) (v : Bool) :
    (Int1.reset c rp).step c px v = (Int1.reset c rp').step c px v := rfl

theorem reset_cfg (c c' : Int1Cfg) (rp : List Nat) (h1 : c.bd = c'.bd) (h2 : c.ps = c'.ps) : Int1.reset c rp = Int1.reset c' rp := by
  simp only [Int1.reset, h1, h2]

theorem modelRun_append (a b : List In) : ∀ m, modelRun m (a ++ b) = modelRun (modelRun m a) b := by
  induction a with
  | nil => intro m; rfl
  | cons i a ih => intro m; exact ih _

theorem run_append (a b : List In) : ∀ s, run s (a ++ b) = run (run s a) b := by
  induction a with
  | nil => intro m; rfl
  | cons i a ih => intro m; exact ih _

/-- Bus cycles without pixels. -/
theorem program_run (bs : List LiteIn) : ∀ (m : Core1), (∃ c rp, c.bd = 12 ∧ c.ps = 2 ∧ rp.length = 2 ∧ m.int1 = Int1.reset c rp) → m.fend = .init →
    let m' := modelRun m (bs.map fun b => ⟨false, false, 0, 0, false, b⟩)
    (∃ c rp, c.bd = 12 ∧ c.ps = 2 ∧ rp.length = 2 ∧ m'.int1 = Int1.reset c rp) ∧ m'.fend = .init ∧ m'.lite = busRun m.lite bs := by
  induction bs with
  | nil => intro m h1 h2; exact ⟨h1, h2, rfl⟩
  | cons b r ih =>
    intro m h1 h2
    obtain ⟨c, rp, k1, k2, k3, k4⟩ := h1
    obtain ⟨rp', g1, g2⟩ := reset_idle c (Core1.cfg I1.cfg1 m.lite) rp [0, 0] k1 k2 rfl rfl
    refine ih (modelStep m ⟨false, false, 0, 0, false, b⟩) ⟨Core1.cfg I1.cfg1 m.lite, rp', rfl, rfl, g1, ?_⟩ ?_
    · show m.int1.step _ [0, 0] false = _
      rw [k4, g2]
    · show m.fend.step _ false = _
      rw [h2]; rfl

/-- Cycles with an idle bus leave the registers alone. -/
theorem holds_idle {L : CoreLite} {hw al : Nat} {mem : Nat → Nat} (h : Holds L hw al mem) (rst : Bool) :
    Holds (Core1.stepLite 12 L rst false idleBus) hw al mem := by
  obtain ⟨h1, h2, h3, h4, h5⟩ := h
  constructor <;> cases rst <;> simp [Core1.stepLite, CoreLite.step, CoreLite.stepFsm, CoreLite.stepMem, idleBus, h1, h2, h3, h4, h5]

theorem holds_run (l : List In) : ∀ {m : Core1} {hw al : Nat} {mem : Nat → Nat}, Holds m.lite hw al mem → NoBus l →
    Holds (modelRun m l).lite hw al mem := by
  induction l with
  | nil => intro m hw al mem h _; exact h
  | cons i r ih =>
    intro m hw al mem h hb
    refine ih (m := modelStep m i) ?_ (fun j hj => hb j (by simp [hj]))
    show Holds (Core1.stepLite 12 m.lite i.rst i.fullRst i.bus) _ _ _
    rw [(hb i (by simp)).1, (hb i (by simp)).2]
    exact holds_idle h i.rst

/-- A cycle with the reset. -/
theorem fresh_rst {m : Core1} {hw al : Nat} {mem : Nat → Nat} (h : Holds m.lite hw al mem) (hn : m.int1.normalize.ssss.length = 2) (i : In)
    (hi : i.rst = true) (hb : i.fullRst = false ∧ i.bus = idleBus) : Fresh (modelStep m i) hw al mem := by
  refine ⟨⟨Core1.cfg I1.cfg1 m.lite, (m.int1.step (Core1.cfg I1.cfg1 m.lite) [i.p0, i.p1] i.valid).encode.rpData, rfl, rfl, ?_, ?_⟩, ?_, ?_⟩
  · simp [Int1.step, Encode.step, hn]
  · simp [modelStep, Core1.step, hi]
  · simp [modelStep, Core1.step, hi]
  · exact holds_run [i] h (by simpa [NoBus] using hb)

theorem sim_two {s : I1.top.S} {m : Core1} (h : I1.Sim s m) : m.int1.normalize.ssss.length = 2 := by rw [h.int1]; rfl

/-- After power-up and resets. -/
theorem start_fresh {s : I1.top.S} (hs : Start s) :
    ∃ m, I1.Sim s m ∧ Fresh m 0 0 (fun k => (initHuffTable 12).getD k 0) := by
  obtain ⟨s0, pre, h0, hp, hr, rfl⟩ := hs
  have key : ∀ (l : List In) (s : I1.top.S) (m : Core1), I1.Sim s m → Ports l → (∀ i ∈ l, i.rst = true ∧ i.fullRst = true) →
      Fresh m 0 0 (fun k => (initHuffTable 12).getD k 0) → ∃ m, I1.Sim (run s l) m ∧ Fresh m 0 0 (fun k => (initHuffTable 12).getD k 0) := by
    intro l
    induction l with
    | nil => intro s m h _ _ hf; exact ⟨m, h, hf⟩
    | cons i r ih =>
      intro s m h hp hr hf
      obtain ⟨r1, r2⟩ := hr i (by simp)
      refine ih (step s i) (modelStep m i) (sim_run [i] h (fun j hj => hp j (by simp at hj; simp [hj]))) (fun j hj => hp j (by simp [hj]))
        (fun j hj => hr j (by simp [hj])) ?_
      refine ⟨⟨Core1.cfg I1.cfg1 m.lite, (m.int1.step (Core1.cfg I1.cfg1 m.lite) [i.p0, i.p1] i.valid).encode.rpData, rfl, rfl, ?_, ?_⟩, ?_, ?_⟩
      · simp [Int1.step, Encode.step, sim_two h]
      · simp [modelStep, Core1.step, r1]
      · simp [modelStep, Core1.step, r1]
      · obtain ⟨q1, q2, q3, q4, q5⟩ := hf.lite
        constructor <;> simp [modelStep, Core1.step, Core1.stepLite, CoreLite.init, CoreLite.step, CoreLite.stepMem, r1, r2, q2, q5]
  refine key pre s0 _ (I1.sim_init s0 h0) hp hr ⟨⟨I1.cfg1, _, rfl, rfl, rfl, rfl⟩, rfl, ⟨rfl, rfl, rfl, rfl, rfl⟩⟩

/-- The configuration of the frame. -/
def frameCfg (ks : List Nat) (T : Table) (W H : Nat) : Int1Cfg :=
  { bd := 12, ps := 2, W := W, H := H
    mem := (List.range 13).map fun j => if j ∈ ks then entry T j else (initHuffTable 12).getD j 0 }

/-- What the netlist and the model share when a frame begins. -/
theorem frame_start {s : I1.top.S} (hs : Start s) (ks : List Nat) (T : Table) (W H B : Nat) (hk : ∀ k ∈ ks, k ≤ 12 ∧ (T k).length ≤ 15)
    (hW : W < 65536) (hH : H < 65536) (hB : B < 2 ^ 24) (hist : List In) (hp : Ports hist) (hb : NoBus hist) (he : Ended hist) :
    ∃ m, I1.Sim (run s (program ks T W H B ++ hist)) m ∧
      Fresh m (W * 2 ^ 16 + H) B (fun j => if j ∈ ks then entry T j else (initHuffTable 12).getD j 0) := by
  obtain ⟨m, h1, h2⟩ := start_fresh hs
  have hpp : Ports (program ks T W H B) := by
    intro i hi
    obtain ⟨b, _, rfl⟩ := List.mem_map.1 hi
    exact ⟨by show (0 : Nat) < 4096; decide, by show (0 : Nat) < 4096; decide⟩
  obtain ⟨g1, g2, g3⟩ := program_run (ks.flatMap (fun k => blindWrite (0x1000 + 8 * k) (entry T k)) ++ blindWrite 0x2000 (W * 2 ^ 16 + H) ++
    blindWrite 0x2004 B) m h2.int1 h2.fend
  rw [busRun_append, busRun_append] at g3
  have q1 := write_codes T ks (fun k h => (hk k h).1) (fun k h => entry_lt (hk k h).1 (hk k h).2) h2.lite
  have q2 := write_size q1 (by decide) (W * 2 ^ 16 + H) (by omega)
  have q3 := write_budget q2 (by decide) B hB
  rw [← g3] at q3
  have hsim := sim_run _ h1 hpp
  have hf : Fresh (modelRun m (program ks T W H B)) (W * 2 ^ 16 + H) B (fun j => if j ∈ ks then entry T j else (initHuffTable 12).getD j 0) :=
    ⟨g1, g2, q3⟩
  rcases he with rfl | ⟨h, i, rfl, hi⟩
  · rw [List.append_nil]
    exact ⟨_, hsim, hf⟩
  · rw [run_append]
    refine ⟨_, sim_run _ hsim hp, ?_⟩
    rw [modelRun_append]
    have hb1 : NoBus h := fun j hj => hb j (by simp [hj])
    have hp1 : Ports h := fun j hj => hp j (by simp [hj])
    exact fresh_rst (holds_run h q3 hb1) (sim_two (sim_run h hsim hp1)) i hi (hb i (by simp))

/-- The inputs of the pipeline. -/
def In.plain (i : In) : StepIn := ⟨[i.p0, i.p1], i.valid⟩

theorem frame_cfg {L : CoreLite} {ks : List Nat} {T : Table} {W H B : Nat} (hW : W < 65536) (hH : H < 65536)
    (h : Holds L (W * 2 ^ 16 + H) B (fun j => if j ∈ ks then entry T j else (initHuffTable 12).getD j 0)) :
    Core1.cfg I1.cfg1 L = frameCfg ks T W H := by
  have e1 : L.width = W := by rw [CoreLite.width, h.hw]; omega
  have e2 : L.height = H := by rw [CoreLite.height, h.hw]; omega
  have e3 : L.stepMem.mem = fun j => if j ∈ ks then entry T j else (initHuffTable 12).getD j 0 := by
    rw [CoreLite.stepMem, h.en, ← h.mem]; rfl
  simp only [Core1.cfg, e1, e2, e3]
  rfl

/-- A frame in the model. -/
theorem frame_run {ks : List Nat} {T : Table} {W H B : Nat} (hW : W < 65536) (hH : H < 65536) (l : List In) :
    ∀ (m : Core1), Holds m.lite (W * 2 ^ 16 + H) B (fun j => if j ∈ ks then entry T j else (initHuffTable 12).getD j 0) →
      NoBus l → Running l →
      (modelRun m l).int1 = (l.map In.plain).foldl (fun s i => s.step (frameCfg ks T W H) i.pixels i.valid) m.int1 ∧
      (modelRun m l).fend = runForce B m.fend (l.map (·.valid)) := by
  induction l with
  | nil => intro m _ _ _; exact ⟨rfl, rfl⟩
  | cons i r ih =>
    intro m h hb hr
    have hi := hr i (by simp)
    have hc := frame_cfg hW hH h
    obtain ⟨g1, g2⟩ := ih (modelStep m i) (holds_run [i] h (fun j hj => hb j (by simp at hj; simp [hj]))) (fun j hj => hb j (by simp [hj]))
      (fun j hj => hr j (by simp [hj]))
    refine ⟨?_, ?_⟩
    · rw [modelRun, g1, List.map_cons, List.foldl_cons]
      simp [modelStep, Core1.step, hi, hc, In.plain]
    · rw [modelRun, g2, List.map_cons, runForce]
      simp [modelStep, Core1.step, hi, h.al]

/-- A frame from the fresh state is a run from the power-up state. -/
theorem fresh_out {ks : List Nat} {T : Table} {W H B : Nat} (hW : W < 65536) (hH : H < 65536) (l : List In) {m : Core1}
    (h : Fresh m (W * 2 ^ 16 + H) B (fun j => if j ∈ ks then entry T j else (initHuffTable 12).getD j 0)) (hb : NoBus l) (hr : Running l) :
    (modelRun m l).int1.out I1.cfg1 = (runInt1 (frameCfg ks T W H) (l.map In.plain)).out (frameCfg ks T W H) := by
  rw [(frame_run hW hH l m h.lite hb hr).1]
  obtain ⟨c, rp, k1, k2, -, k4⟩ := h.int1
  rw [k4, reset_cfg c (frameCfg ks T W H) rp k1 k2]
  cases l with
  | nil => rfl
  | cons i r => rfl

theorem taken_eq (l : List In) : acceptedPixels (l.map In.plain) = taken l := by
  simp only [acceptedPixels, taken, List.flatMap_map, In.plain]
  rfl

theorem taken_append (a b : List In) : taken (a ++ b) = taken a ++ taken b := by simp [taken]

theorem taken_lt (l : List In) (hp : Ports l) : ∀ x ∈ taken l, x < 2 ^ 12 := by
  intro x hx
  obtain ⟨i, hi, hx⟩ := List.mem_flatMap.1 hx
  have := hp i hi
  split at hx
  · simp at hx; rcases hx with rfl | rfl
    · exact this.1
    · exact this.2
  · cases hx

theorem wf_plain (ks : List Nat) (T : Table) (W H : Nat) {l : List In} (hp : Ports l) : WfIns (frameCfg ks T W H) (l.map In.plain) := by
  intro i hi _
  obtain ⟨j, hj, rfl⟩ := List.mem_map.1 hi
  refine ⟨rfl, fun x hx => ?_⟩
  have := hp j hj
  have hx : x ∈ [j.p0, j.p1] := hx
  simp at hx
  show x < 4096
  rcases hx with rfl | rfl
  · exact this.1
  · exact this.2

/-- Everything the theorems on frames assume: the netlist has been started, the frame size, the budget and the codes of
the classes `ks` have been written, any history has been ended by a reset, and the cycles `l` have no reset and leave
the bus alone; no more pixels are given than the frame has. -/
structure Case (s : I1.top.S) (ks : List Nat) (T : Table) (W H B : Nat) (hist l : List In) : Prop where
  start : Start s
  table : ∀ k ∈ ks, k ≤ 12 ∧ (T k).length ≤ 15
  size : Legal 12 2 W H
  budget : B < 2 ^ 24
  ports : Ports (hist ++ l)
  bus : NoBus (hist ++ l)
  ended : Ended hist
  running : Running l

/-- The state at the beginning of the frame. -/
def ready (s : I1.top.S) (ks : List Nat) (T : Table) (W H B : Nat) (hist : List In) : I1.top.S := run s (program ks T W H B ++ hist)

theorem case_sim {s : I1.top.S} {ks : List Nat} {T : Table} {W H B : Nat} {hist l : List In} (h : Case s ks T W H B hist l) :
    ∃ m, I1.Sim (ready s ks T W H B hist) m ∧
      Fresh m (W * 2 ^ 16 + H) B (fun j => if j ∈ ks then entry T j else (initHuffTable 12).getD j 0) :=
  frame_start h.start ks T W H B h.table h.size.W16 h.size.H16 h.budget hist (fun i hi => h.ports i (by simp [hi]))
    (fun i hi => h.bus i (by simp [hi])) h.ended

theorem case_out {s : I1.top.S} {ks : List Nat} {T : Table} {W H B : Nat} {hist l : List In} (h : Case s ks T W H B hist l) :
    let m := (runInt1 (frameCfg ks T W H) (l.map In.plain)).out (frameCfg ks T W H)
    (out (run (ready s ks T W H B hist) l)).enc = m.enc ∧ (out (run (ready s ks T W H B hist) l)).ctr = m.ctr ∧
    (out (run (ready s ks T W H B hist) l)).valid = m.valid ∧ (out (run (ready s ks T W H B hist) l)).last = m.endd ∧
    (out (run (ready s ks T W H B hist) l)).fend = (runForce B .init (l.map (·.valid))).fend := by
  obtain ⟨m, h1, h2⟩ := case_sim h
  have hp : Ports l := fun i hi => h.ports i (by simp [hi])
  have hb : NoBus l := fun i hi => h.bus i (by simp [hi])
  have e := sim_out (sim_run l h1 hp)
  have g := (frame_run h.size.W16 h.size.H16 l m h2.lite hb h.running).2
  rw [h2.fend] at g
  rw [e, modelOut, fresh_out h.size.W16 h.size.H16 l h2 hb h.running, g]
  exact ⟨rfl, rfl, rfl, rfl, rfl⟩

/-- C91, latency: what the output ports show after the cycles `l` of a frame belongs to the cycle six cycles earlier: it
is valid exactly if that cycle was, it ends the frame exactly if that cycle completed it, and it has at most 56 bits.
Nothing is valid before. -/
theorem C91_fixed_latency {s : I1.top.S} {ks : List Nat} {T : Table} {W H B : Nat} {hist l : List In} (h : Case s ks T W H B hist l)
    (hlen : (taken l).length ≤ W * H) :
    let o := out (run (ready s ks T W H B hist) l)
    (l.length < 6 → o.valid = false) ∧
    ∀ n i, n + 6 = l.length → l[n]? = some i →
      o.valid = i.valid ∧ (i.valid = true → o.ctr ≤ 56 ∧ (o.last = true ↔ (taken (l.take (n + 1))).length = W * H)) := by
  obtain ⟨e1, e2, e3, e4, _⟩ := case_out h
  have hp : Ports l := fun i hi => h.ports i (by simp [hi])
  obtain ⟨g1, g2⟩ := C10_fixed_latency (frameCfg ks T W H) (tableOf ks T) h.size (table_rep T ks fun k hk => (h.table k hk).2)
    (l.map In.plain) (wf_plain ks T W H hp) (by rw [taken_eq]; exact hlen)
  intro o
  have hlv : 5 + levels (frameCfg ks T W H).ps = 6 := (by decide : 5 + levels 2 = 6)
  rw [hlv] at g1 g2
  refine ⟨fun hl => ?_, fun n i hn hi => ?_⟩
  · rw [show o.valid = _ from e3]
    exact g1 (by simpa using hl)
  · obtain ⟨k1, k2⟩ := g2 n i.plain (by simpa using hn) (by simp [hi])
    rw [show o.valid = _ from e3]
    refine ⟨k1, fun hv => ?_⟩
    obtain ⟨_, k3, k4⟩ := k2 hv
    rw [← List.map_take, taken_eq] at k4
    rw [show o.ctr = _ from e2, show o.last = _ from e4]
    exact ⟨k3, k4⟩

theorem outs_snoc (l : List In) (i : In) : ∀ s, outs s (l ++ [i]) = outs s l ++ [out (run s l)] := by
  induction l with
  | nil => intro s; rfl
  | cons j r ih => intro s; rw [List.cons_append, outs, outs, ih]; rfl

theorem case_prefix {s : I1.top.S} {ks : List Nat} {T : Table} {W H B : Nat} {hist l : List In} {i : In}
    (h : Case s ks T W H B hist (l ++ [i])) : Case s ks T W H B hist l :=
  ⟨h.start, h.table, h.size, h.budget, fun j hj => h.ports j (by simp at hj ⊢; rcases hj with q | q <;> simp [q]),
    fun j hj => h.bus j (by simp at hj ⊢; rcases hj with q | q <;> simp [q]), h.ended, fun j hj => h.running j (by simp [hj])⟩

/-- C91, the code: the bits of the pieces shown in the cycles `l` of a frame are exactly the T.81 code of the pixels given
in these cycles but the last six, with nothing added and nothing lost. -/
theorem C91_code {s : I1.top.S} {ks : List Nat} {T : Table} {W H B : Nat} {hist l : List In} (h : Case s ks T W H B hist l)
    (hlen : (taken l).length ≤ W * H) :
    pieceBits (given (ready s ks T W H B hist) l) = encode (tableOf ks T) 12 W (taken (l.take (l.length - 6))) := by
  induction l using snoc_induction with
  | h0 => rfl
  | h1 l x ih =>
    have hc := case_prefix h
    have hl' : (taken l).length ≤ W * H := by
      rw [taken_append, List.length_append] at hlen; omega
    have ih := ih hc hl'
    obtain ⟨e1, e2, e3, _, _⟩ := case_out hc
    have hp : Ports l := fun i hi => hc.ports i (by simp [hi])
    obtain ⟨g1, g2⟩ := C10_fixed_latency (frameCfg ks T W H) (tableOf ks T) h.size (table_rep T ks fun k hk => (h.table k hk).2)
      (l.map In.plain) (wf_plain ks T W H hp) (by rw [taken_eq]; exact hl')
    have hlv : 5 + levels (frameCfg ks T W H).ps = 6 := (by decide : 5 + levels 2 = 6)
    rw [hlv] at g1 g2
    have hg : pieceBits (given (ready s ks T W H B hist) (l ++ [x])) = pieceBits (given (ready s ks T W H B hist) l) ++
        if (out (run (ready s ks T W H B hist) l)).valid then
          toBits (out (run (ready s ks T W H B hist) l)).ctr (out (run (ready s ks T W H B hist) l)).enc else [] := by
      rw [given, outs_snoc, List.flatMap_append, pieceBits, List.flatMap_append]
      congr 1
      rw [List.flatMap_singleton]
      split <;> simp
    rw [hg, ih, e1, e2, e3]
    by_cases hs : l.length < 6
    · rw [g1 (by simpa using hs), show l.length - 6 = 0 by omega, show (l ++ [x]).length - 6 = 0 by simp; omega]
      simp
    · obtain ⟨n, hn⟩ : ∃ n, n + 6 = l.length := ⟨l.length - 6, by omega⟩
      have hnl : n < l.length := by omega
      obtain ⟨k1, k2⟩ := g2 n (l[n]).plain (by simpa using hn) (by simp [hnl])
      rw [k1, show l.length - 6 = n by omega, show (l ++ [x]).length - 6 = n + 1 by simp; omega,
        List.take_append_of_le_length (by omega : n + 1 ≤ l.length)]
      by_cases hv : (l[n]).valid = true
      · obtain ⟨k3, _⟩ := k2 hv
        rw [← List.map_take, ← List.map_take, taken_eq, taken_eq] at k3
        show encode (tableOf ks T) 12 W (taken (l.take n)) ++ (if (l[n]).valid = true then _ else _) = _
        rw [if_pos hv]
        exact k3.symm
      · have htake : l.take (n + 1) = l.take n ++ [l[n]] := by rw [List.take_add_one]; simp [hnl]
        show encode (tableOf ks T) 12 W (taken (l.take n)) ++ (if (l[n]).valid = true then _ else _) = _
        rw [if_neg hv, htake, taken_append]
        simp [taken, hv]

/-- C91, the frame: once its pixels have been given and six more cycles have passed, the pieces shown are the code of the
frame, and a T.81 decoder with the table in force reads the pixels back. -/
theorem C91_frame {s : I1.top.S} {ks : List Nat} {T : Table} {W H B : Nat} {hist l : List In} (h : Case s ks T W H B hist l)
    (hT : PrefixFree (tableOf ks T) 13) (hlen : (taken l).length = W * H) (hdone : taken (l.drop (l.length - 6)) = []) :
    pieceBits (given (ready s ks T W H B hist) l) = encode (tableOf ks T) 12 W (taken l) ∧
    decode (tableOf ks T) 13 12 W (W * H) [] (pieceBits (given (ready s ks T W H B hist) l)) = some (taken l, []) := by
  have hc := C91_code h (Nat.le_of_eq hlen)
  have ht : taken (l.take (l.length - 6)) = taken l := by
    have := taken_append (l.take (l.length - 6)) (l.drop (l.length - 6))
    rw [List.take_append_drop, hdone, List.append_nil] at this
    exact this.symm
  rw [ht] at hc
  refine ⟨hc, ?_⟩
  have := decode_encode (n := 13) (bd := 12) (W := W) hT (by decide) (by decide) (by decide) h.size.W4 (taken l)
    (taken_lt l fun i hi => h.ports i (by simp [hi])) []
  rw [hlen, List.append_nil] at this
  rw [hc, this]

/-- C91, the budget: `fend_out` is low as long as no pixel has been given; counted from the first pixels it is low for
`B + 2` more cycles and high ever after, until a reset. -/
theorem C91_forced_end {s : I1.top.S} {ks : List Nat} {T : Table} {W H B : Nat} {hist l : List In} (h : Case s ks T W H B hist l) :
    (taken l = [] → (out (run (ready s ks T W H B hist) l)).fend = false) ∧
    ∀ pre i post, l = pre ++ i :: post → taken pre = [] → i.valid = true →
      (out (run (ready s ks T W H B hist) l)).fend = decide (B + 2 ≤ post.length) := by
  obtain ⟨_, _, _, _, e5⟩ := case_out h
  have none : ∀ l : List In, taken l = [] → l.map (·.valid) = List.replicate l.length false := by
    intro l
    induction l with
    | nil => intro _; rfl
    | cons i r ih =>
      intro hl
      rw [show i :: r = [i] ++ r from rfl, taken_append] at hl
      obtain ⟨h1, h2⟩ := List.append_eq_nil_iff.1 hl
      rw [List.map_cons, ih h2, List.length_cons, List.replicate_succ]
      congr 1
      cases hv : i.valid
      · rfl
      · rw [taken] at h1; simp [hv] at h1
  refine ⟨fun hl => ?_, fun pre i post hl hpre hv => ?_⟩
  · rw [e5, none l hl]
    exact C27_never_without_input _ _
  · rw [e5, hl, List.map_append, List.map_cons, none pre hpre, hv]
    have := C27_fires_exactly B h.budget pre.length (post.map (·.valid)) (pre.length + 1 + post.length) (by simp)
    rw [List.take_of_length_le (by simp; omega)] at this
    rw [this]
    congr 1
    apply propext
    omega

/-! ### Non-vacuity -/

/-- The code of class 3 gets one bit more. -/
def myTable : Table := fun k => if k = 3 then [false, true, false, true] else []

/-- Two rows of four pixels, after a frame cut short by a reset. -/
def myHist : List In := [⟨false, false, 7, 9, true, idleBus⟩, ⟨true, false, 1, 1, true, idleBus⟩]

def myFrame : List In :=
  [⟨false, false, 1, 2, true, idleBus⟩, ⟨false, false, 300, 4000, true, idleBus⟩, ⟨false, false, 0, 0, false, idleBus⟩,
   ⟨false, false, 5, 6, true, idleBus⟩, ⟨false, false, 4095, 0, true, idleBus⟩] ++ List.replicate 6 ⟨false, false, 0, 0, false, idleBus⟩

example : Case I1.top.powerUp [3] myTable 4 2 9 myHist myFrame where
  start := ⟨_, [], I1.top.powerUp_init, fun _ h => (by cases h), fun _ h => (by cases h), rfl⟩
  table := by decide
  size := by decide
  budget := by decide
  ports := by intro i hi; revert i; decide
  bus := by
    intro i hi
    simp only [myHist, myFrame, List.replicate, List.mem_append, List.mem_cons, List.not_mem_nil, or_false] at hi
    rcases hi with (rfl | rfl) | ((rfl | rfl | rfl | rfl | rfl) | (rfl | rfl | rfl | rfl | rfl | rfl)) <;> exact ⟨rfl, rfl⟩
  ended := Or.inr ⟨[⟨false, false, 7, 9, true, idleBus⟩], ⟨true, false, 1, 1, true, idleBus⟩, rfl, rfl⟩
  running := by intro i hi; revert i; decide

example : (taken myFrame).length = 4 * 2 ∧ taken (myFrame.drop (myFrame.length - 6)) = [] ∧ PrefixFree (tableOf [3] myTable) 13 := by
  refine ⟨rfl, rfl, ?_⟩
  have h : ∀ i, i < 13 → ∀ j, j < 13 → (tableOf [3] myTable i).isPrefixOf (tableOf [3] myTable j) = true → i = j := by decide
  intro i j hi hj hij
  exact h i hi j hj (List.isPrefixOf_iff_prefix.2 hij)

/-- The netlist run on this frame. -/
example : (given (ready I1.top.powerUp [3] myTable 4 2 9 myHist) myFrame).length = 4 := by decide +kernel

end Props.Pipe
