/- Property theorems C83: the stand-alone netlists verilog_src/{delayer,reverser,debug_module,address_generator,axi_lite,
b64_b32_2,b16_b40,core_axi_lite}.v.  Every theorem speaks about the generated netlist itself, started in the state of its
initial values; `C83_reset` says that a cycle with the reset input on leads back to exactly that state. -/
import Verif.Netlist.Alone.Small
import Verif.Netlist.Alone.CoreLite
import Verif.Props.Small
import Verif.Props.Unpack
import Verif.Props.Pack40
import Verif.Props.Bridge
import Verif.Props.Lite

set_option autoImplicit false

namespace Props.NetSmall
open Model Spec Netlist

/-! ### Reset -/

/-- C83: a cycle with the reset input(s) on leads from any state to the initial one, whatever the other inputs are. -/
theorem C83_reset :
    (∀ s i, DelayerV.top.step s true i = DelayerV.top.powerUp) ∧
    (∀ s en, DebugV.top.step s en true = DebugV.top.powerUp) ∧
    (∀ s l a, AddrGenV.top.step s l true a = AddrGenV.top.powerUp) ∧
    (∀ s v d b, Unpack2V.top.step s v d b true = Unpack2V.top.powerUp) ∧
    (∀ s b v d, Pack40V.top.step s b v d true true = Pack40V.top.powerUp) ∧
    (∀ s rp av wv aa rr wa dv d m br en,
      CoreLiteV.top.step s rp av wv aa rr wa dv d m br true true en = CoreLiteV.top.powerUp) := by
  refine ⟨?_, ?_, ?_, ?_, ?_, ?_⟩ <;> intros <;>
    simp [netlist, DelayerV.top.powerUp, DebugV.top.powerUp, AddrGenV.top.powerUp, Unpack2V.top.powerUp, Pack40V.top.powerUp,
      CoreLiteV.top.powerUp, CoreLiteV.debug_module.powerUp]

/-! ### delayer.v: eight stages -/

def delayNet (is : List Bool) : DelayerV.top.S := is.foldl (fun s i => DelayerV.top.step s false i) DelayerV.top.powerUp

theorem delay_net : ∀ (is : List Bool) (s : DelayerV.top.S), s.timer < 8 →
    absDelayer (is.foldl (fun s i => DelayerV.top.step s false i) s) = delayRun 3 (absDelayer s) is
  | [], _, _ => rfl
  | i :: r, s, h => by
    obtain ⟨h1, h2⟩ := delayer_step s i h
    rw [List.foldl_cons, delay_net r _ h2, h1, delayRun]

/-- C83: the output is on after the inputs `is` exactly when an input was on at least eight cycles ago. -/
theorem C83_delayer (is : List Bool) :
    DelayerV.top.out_sig (delayNet is) = true ↔ ∃ k, k + 8 ≤ is.length ∧ is[k]? = some true := by
  rw [← C43_delay 3 8 (by decide) (by decide) is]
  have h := delay_net is DelayerV.top.powerUp (by decide)
  rw [show (Delayer.init 3 8) = absDelayer DelayerV.top.powerUp from rfl, ← h]
  rfl

example : DelayerV.top.out_sig (delayNet [false, true, false, false, false, false, false, false, false]) = true ∧
    DelayerV.top.out_sig (delayNet [false, true, false, false, false, false, false, false]) = false := by decide

/-! ### reverser.v: 32 bits -/

/-- C83: bit `j` of the output is bit `31 - j` of the input, and there are no other bits. -/
theorem C83_reverser (s : ReverserV.top.S) (x j : Nat) :
    (ReverserV.top.data_out s x).testBit j = (decide (j < 32) && x.testBit (31 - j)) := reverser_bits s x j

example : ReverserV.top.data_out ReverserV.top.powerUp 0x80000001 = 0x80000001 ∧
    ReverserV.top.data_out ReverserV.top.powerUp 6 = 0x60000000 := by decide +kernel

/-! ### debug_module.v -/

def debugNet (ens : List Nat) : DebugV.top.S := ens.foldl (fun s en => DebugV.top.step s en false) DebugV.top.powerUp

theorem debug_net (k : Nat) (hk : k < 8) : ∀ (ens : List Nat) (s : DebugV.top.S) (c : Nat → Nat), debugCounter s k = c k →
    debugCounter (ens.foldl (fun s en => DebugV.top.step s en false) s) k = debugRun c (ens.map fun en i => en.testBit i) k
  | [], _, _, h => h
  | en :: r, s, c, h => by
    rw [List.foldl_cons, List.map_cons, debugRun]
    apply debug_net k hk r
    rw [debug_step s en k hk]
    simp only [debugStep, h]

/-- C83: output `k` of the eight is the number of cycles in which enable bit `k` was on, modulo 2^32. -/
theorem C83_debug (ens : List Nat) :
    let s := debugNet ens
    [s.r_signal, s.r_signal_1, s.r_signal_2, s.r_signal_3, s.r_signal_4, s.r_signal_5, s.r_signal_6, s.r_signal_7] =
      (List.range 8).map fun k => ens.countP (·.testBit k) % 2 ^ 32 := by
  intro s
  have h : ∀ k, k < 8 → debugCounter s k = ens.countP (·.testBit k) % 2 ^ 32 := by
    intro k hk
    have e0 : debugCounter DebugV.top.powerUp k = 0 := by
      rcases k with _ | _ | _ | _ | _ | _ | _ | _ | _ <;> rfl
    rw [show debugCounter s k = _ from debug_net k hk ens _ (fun _ => 0) e0, C47_counts, List.countP_map]
    rfl
  have e : (List.range 8).map (fun k => ens.countP (·.testBit k) % 2 ^ 32) = (List.range 8).map (debugCounter s) :=
    List.map_congr_left fun k hk => (h k (List.mem_range.1 hk)).symm
  rw [e]; rfl

example : (debugNet [8, 12, 255]).r_signal_3 = 3 ∧ (debugNet [8, 12, 255]).r_signal_2 = 2 := by decide

/-! ### address_generator.v: steps of 16 -/

def addrNet (is : List AddrIn) : AddrGenV.top.S := is.foldl (fun s i => AddrGenV.top.step s i.latch false i.start) AddrGenV.top.powerUp

/-- The addresses taken: the address output in each cycle with `address_latch`. -/
def addrNetTaken : AddrGenV.top.S → List AddrIn → List Nat
  | _, [] => []
  | s, i :: r => (if i.latch then [s.address_o] else []) ++ addrNetTaken (AddrGenV.top.step s i.latch false i.start) r

theorem addr_net : ∀ (is : List AddrIn) (s : AddrGenV.top.S), (∀ i ∈ is, i.start < 2 ^ 32) →
    (s.fsm_state = true → s.address_valid = true) →
    absAddr (is.foldl (fun s i => AddrGenV.top.step s i.latch false i.start) s) = addrRun 16 (absAddr s) is ∧
    addrNetTaken s is = addrTaken 16 (absAddr s) is
  | [], _, _, _ => ⟨rfl, rfl⟩
  | i :: r, s, hi, hv => by
    obtain ⟨h1, h2⟩ := addr_step s i (hi i (List.mem_cons_self ..)) hv
    obtain ⟨h3, h4⟩ := addr_net r _ (fun j hj => hi j (List.mem_cons_of_mem _ hj)) h2
    rw [List.foldl_cons, h3, addrNetTaken, addrTaken, h4, h1, addrRun]
    exact ⟨rfl, rfl⟩

/-- C83: the addresses taken are base, base + 16, base + 32, … modulo 2^32, where the base is the input of the cycle before
the first is taken; `address_valid` is on from the second cycle on. -/
theorem C83_address (pre rest : List AddrIn) (x l : AddrIn) (hx : x.latch = false) (hl : l.latch = true)
    (hpre : ∀ i ∈ pre, i.latch = false) (hs : ∀ i ∈ pre ++ [x] ++ l :: rest, i.start < 2 ^ 32) :
    addrNetTaken AddrGenV.top.powerUp (pre ++ [x] ++ l :: rest) =
      (List.range ((l :: rest).countP (·.latch))).map fun k => (x.start + k * 16) % 2 ^ 32 := by
  rw [(addr_net _ _ hs (by simp [AddrGenV.top.powerUp])).2, ← C40_addresses 16 pre rest x l hx hl hpre]
  rfl

theorem C83_address_valid (is : List AddrIn) (hs : ∀ i ∈ is, i.start < 2 ^ 32) :
    (addrNet is).address_valid = true ↔ is ≠ [] := by
  rw [← C40_valid 16 is]
  have := (addr_net is AddrGenV.top.powerUp hs (by simp [AddrGenV.top.powerUp])).1
  rw [show AddrGen.init = absAddr AddrGenV.top.powerUp from rfl, ← this]
  rfl

example : addrNetTaken AddrGenV.top.powerUp [⟨0x1000, false⟩, ⟨0x1000, true⟩, ⟨7, false⟩, ⟨9, true⟩] = [0x1000, 0x1010] := by decide

/-! ### b64_b32_2.v -/

/-- The unpacker with its source (see `UnpackSys`). -/
structure UnpackNet where
  u : Unpack2V.top.S
  q : List Nat

def UnpackNet.step (s : UnpackNet) (i : UnpackIn) : UnpackNet :=
  { u := Unpack2V.top.step s.u (!s.q.isEmpty) (s.q.headD 0) i.busy false
    q := (if s.u.o_busy then s.q else s.q.tail) ++ i.arrive }

def unpackNetRun (s : UnpackNet) (ins : List UnpackIn) : UnpackNet := ins.foldl UnpackNet.step s

/-- Values transferred on the output: `valid_out` and not busy. -/
def unpackNetGiven : UnpackNet → List UnpackIn → List Nat
  | _, [] => []
  | s, i :: r => (if s.u.valid_out && !i.busy then [s.u.data_out] else []) ++ unpackNetGiven (s.step i) r

theorem unpack_net : ∀ (ins : List UnpackIn) (s : UnpackNet),
    unpackRun ⟨absUnpack2 s.u, s.q⟩ ins = ⟨absUnpack2 (unpackNetRun s ins).u, (unpackNetRun s ins).q⟩ ∧
    unpackNetGiven s ins = unpackGiven ⟨absUnpack2 s.u, s.q⟩ ins
  | [], _ => ⟨rfl, rfl⟩
  | i :: r, s => by
    have e : UnpackSys.step ⟨absUnpack2 s.u, s.q⟩ i = ⟨absUnpack2 (s.step i).u, (s.step i).q⟩ := by
      unfold UnpackSys.step UnpackNet.step
      dsimp only
      rw [unpack2_step]; rfl
    obtain ⟨h1, h2⟩ := unpack_net r (s.step i)
    rw [unpackRun, e, h1, unpackNetGiven, unpackGiven, e, h2]
    exact ⟨rfl, rfl⟩

/-- C83: the values given by the unpacker are, at every moment of every schedule, a prefix of the two halves of each word of
the source, in order. -/
theorem C83_unpacker (q : List Nat) (ins : List UnpackIn) :
    unpackNetGiven ⟨Unpack2V.top.powerUp, q⟩ ins <+: (q ++ arrived ins).flatMap twoHalves := by
  rw [(unpack_net ins _).2]
  exact C33_in_order q ins

/-- C83: and when one of them is missing, the next is given at the first ready cycle after two more cycles. -/
theorem C83_unpacker_progress (q : List Nat) (past ins : List UnpackIn) (i : UnpackIn)
    (hp : (unpackNetGiven ⟨Unpack2V.top.powerUp, q⟩ past).length < ((q ++ arrived past).flatMap twoHalves).length)
    (hl : 2 ≤ ins.length) (hb : i.busy = false) :
    unpackNetGiven (unpackNetRun ⟨Unpack2V.top.powerUp, q⟩ past) (ins ++ [i]) ≠ [] := by
  rw [(unpack_net past _).2] at hp
  have h := C33_progress q past ins i hp hl hb
  rw [(unpack_net _ _).2, ← (unpack_net past _).1]
  exact h

example : unpackNetGiven ⟨Unpack2V.top.powerUp, [0x1122334455667788, 0x99AABBCCDDEEFF00]⟩ (List.replicate 8 ⟨[], false⟩) =
    [0x112233, 0x445566, 0x99AABB, 0xCCDDEE] := by decide

/-! ### b16_b40.v -/

/-- Bytes of the 16-bit words transferred to the packer (`valid_in` and not `o_busy`), first the upper. -/
def pack40NetTaken : Pack40V.top.S → List Pack40In → List Nat
  | _, [] => []
  | s, i :: r => (if i.valid && !s.o_busy then [i.data / 2 ^ 8, i.data % 2 ^ 8] else []) ++
      pack40NetTaken (Pack40V.top.step s i.busy i.valid i.data false false) r

/-- 40-bit words transferred by the packer: `valid_out` and not `i_busy`. -/
def pack40NetGiven : Pack40V.top.S → List Pack40In → List Nat
  | _, [] => []
  | s, i :: r => (if s.valid_out && !i.busy then [Pack40V.top.data_out s] else []) ++
      pack40NetGiven (Pack40V.top.step s i.busy i.valid i.data false false) r

theorem pack40_net : ∀ (ins : List Pack40In) (s : Pack40V.top.S), s.fsm_state < 7 →
    pack40NetTaken s ins = pack40Taken (absPack40 s) ins ∧ pack40NetGiven s ins = pack40Given (absPack40 s) ins
  | [], _, _ => ⟨rfl, rfl⟩
  | i :: r, s, h => by
    obtain ⟨h1, h2⟩ := Netlist.pack40_step s i.valid i.busy false i.data h
    obtain ⟨h3, h4⟩ := pack40_net r _ h2
    have e : Pack40V.top.data_out s = (absPack40 s).data := by
      obtain ⟨t, b2, b1, f, ob, v2, v1, ch, vo⟩ := s
      cases ch <;> rfl
    rw [pack40NetTaken, pack40NetGiven, pack40Taken, pack40Given, h3, h4, h1, e]
    exact ⟨rfl, rfl⟩

/-- C83: with a consumer that is always ready, the 40-bit words given are a prefix of the five-byte groups of the accepted
bytes, and at most two groups are missing. `i0` is the first cycle after reset, in which nothing may be offered. -/
theorem C83_packer40 (i0 : Pack40In) (ins : List Pack40In) (h0 : i0.valid = false) (hd : ∀ i ∈ ins, i.data < 2 ^ 16)
    (hb : ∀ i ∈ ins, i.busy = false) :
    pack40NetGiven Pack40V.top.powerUp (i0 :: ins) <+: groups5 (pack40NetTaken Pack40V.top.powerUp (i0 :: ins)) ∧
    (groups5 (pack40NetTaken Pack40V.top.powerUp (i0 :: ins))).length ≤
      (pack40NetGiven Pack40V.top.powerUp (i0 :: ins)).length + 2 := by
  obtain ⟨h1, h2⟩ := pack40_net (i0 :: ins) Pack40V.top.powerUp (by decide)
  rw [h1, h2]
  have h := C36_lossless_when_always_ready i0 ins hd hb
  have e : pack40Taken (absPack40 Pack40V.top.powerUp) (i0 :: ins) = pack40Taken (Pack40.init.cyc i0) ins := by
    rw [pack40Taken, h0]; rfl
  rw [e]
  exact h

/-- C83 (limit of the code): with a consumer that is not always ready, the netlist loses bits: two histories with the same
handshakes in which different bytes are accepted are indistinguishable for ever after. -/
theorem C83_packer40_loses_bits : ∃ a b : List Pack40In,
    a.map (fun i => (i.valid, i.busy)) = b.map (fun i => (i.valid, i.busy)) ∧
    (∀ i ∈ a ++ b, i.data < 2 ^ 16) ∧
    pack40NetTaken Pack40V.top.powerUp a ≠ pack40NetTaken Pack40V.top.powerUp b ∧
    (∀ rest, pack40NetGiven Pack40V.top.powerUp (a ++ rest) = pack40NetGiven Pack40V.top.powerUp (b ++ rest)) := by
  obtain ⟨a, b, h1, h2, h3, h4⟩ := C36_loses_bits
  refine ⟨a, b, h1, h2, ?_, fun rest => ?_⟩
  · rw [(pack40_net a _ (by decide)).1, (pack40_net b _ (by decide)).1]; exact h3
  · rw [(pack40_net _ _ (by decide)).2, (pack40_net _ _ (by decide)).2]; exact h4 rest

example : pack40NetGiven Pack40V.top.powerUp [⟨0, false, false⟩, ⟨0x0102, true, false⟩, ⟨0x0304, true, false⟩, ⟨0x0506, true, false⟩,
    ⟨0x0708, true, false⟩, ⟨0x090a, true, false⟩, ⟨0, false, false⟩, ⟨0, false, false⟩, ⟨0, false, false⟩] =
    [0x0102030405, 0x060708090a] := by decide

/-! ### axi_lite.v -/

/-- All inputs of the bridge except clock and reset: the AXI3 master's requests (`bus`, with protection bits) and the
answers of the AXI-lite slave. -/
structure BridgeNetIn where
  bus : BridgeIn
  arprot : Nat
  awprot : Nat
  slave : LiteOut

def bridgeNetStep (s : AxiLiteV.top.S) (i : BridgeNetIn) (aclk areset_n : Bool) (rst : Bool) : AxiLiteV.top.S :=
  AxiLiteV.top.step s i.bus.arid i.bus.lite.awvalid i.bus.awid aclk areset_n i.slave.arready i.slave.rdata i.slave.rresp
    i.slave.rvalid i.bus.lite.araddr i.arprot i.bus.lite.rready i.slave.awready i.slave.wready i.slave.bresp i.slave.bvalid
    i.bus.lite.awaddr i.awprot i.bus.lite.wdata i.bus.lite.wstrb i.bus.lite.wvalid i.bus.lite.bready rst i.bus.lite.arvalid

theorem bridge_net (s : AxiLiteV.top.S) (i : BridgeNetIn) (a b : Bool) :
    absBridge (bridgeNetStep s i a b false) = (absBridge s).step i.bus := by
  obtain ⟨x, y, z⟩ := s
  simp [bridgeNetStep, netlist, absBridge, Bridge.step]

def bridgeNet (is : List (BridgeNetIn × Bool × Bool)) : AxiLiteV.top.S :=
  is.foldl (fun s i => bridgeNetStep s i.1 i.2.1 i.2.2 false) AxiLiteV.top.powerUp

theorem bridge_net_run : ∀ (is : List (BridgeNetIn × Bool × Bool)) (s : AxiLiteV.top.S),
    absBridge (is.foldl (fun s i => bridgeNetStep s i.1 i.2.1 i.2.2 false) s) = bridgeRun (absBridge s) (is.map (·.1.bus))
  | [], _ => rfl
  | i :: r, s => by rw [List.foldl_cons, bridge_net_run r, bridge_net, List.map_cons, bridgeRun]

/-- C83: in every cycle the ids on both response channels are the id of the last request that was on the bus at least two
cycles before. -/
theorem C83_bridge_ids (is : List (BridgeNetIn × Bool × Bool)) (i : BridgeNetIn × Bool × Bool) :
    (bridgeNet (is ++ [i])).s_axi_ro__rid = lastId 0 (is.map (·.1.bus)) ∧
    (bridgeNet (is ++ [i])).s_axi_wo__bid = lastId 0 (is.map (·.1.bus)) := by
  have h := bridge_net_run (is ++ [i]) AxiLiteV.top.powerUp
  have k := C48_id_of_last_request (is.map (·.1.bus)) i.1.bus i.1.slave
  rw [List.map_append, List.map_cons, List.map_nil, show absBridge AxiLiteV.top.powerUp = Bridge.init from rfl] at h
  rw [← h] at k
  exact k

/-- C83: a reset cycle clears the ids. -/
theorem C83_bridge_reset (s : AxiLiteV.top.S) (i : BridgeNetIn) (a b : Bool) : bridgeNetStep s i a b true = AxiLiteV.top.powerUp := by
  simp [bridgeNetStep, netlist, AxiLiteV.top.powerUp]

/-- C83: every other signal passes unchanged, in both directions and in the same cycle; `rlast` is always on. -/
theorem C83_bridge_wires (s : AxiLiteV.top.S) (b : Bool) (x : Nat) :
    (AxiLiteV.top.m_axi_ro__arvalid s b = b ∧ AxiLiteV.top.m_axi_ro__rready s b = b ∧ AxiLiteV.top.m_axi_wo__awvalid s b = b ∧
      AxiLiteV.top.m_axi_wo__wvalid s b = b ∧ AxiLiteV.top.m_axi_wo__bready s b = b ∧ AxiLiteV.top.m_axi_ro__araddr s x = x ∧
      AxiLiteV.top.m_axi_ro__arprot s x = x ∧ AxiLiteV.top.m_axi_wo__awaddr s x = x ∧ AxiLiteV.top.m_axi_wo__awprot s x = x ∧
      AxiLiteV.top.m_axi_wo__wdata s x = x ∧ AxiLiteV.top.m_axi_wo__wstrb s x = x) ∧
    (AxiLiteV.top.s_axi_ro__arready s b = b ∧ AxiLiteV.top.s_axi_ro__rvalid s b = b ∧ AxiLiteV.top.s_axi_ro__rdata s x = x ∧
      AxiLiteV.top.s_axi_ro__rresp s x = x ∧ AxiLiteV.top.s_axi_wo__awready s b = b ∧ AxiLiteV.top.s_axi_wo__wready s b = b ∧
      AxiLiteV.top.s_axi_wo__bvalid s b = b ∧ AxiLiteV.top.s_axi_wo__bresp s x = x ∧ AxiLiteV.top.s_axi_ro__rlast s = true) ∧
    AxiLiteV.top.m_axi_aclk s b = b ∧ AxiLiteV.top.m_axi_areset_n s b = b :=
  ⟨⟨rfl, rfl, rfl, rfl, rfl, rfl, rfl, rfl, rfl, rfl, rfl⟩, ⟨rfl, rfl, rfl, rfl, rfl, rfl, rfl, rfl, rfl⟩, rfl, rfl⟩

/-- A read request with id 5, held, then nothing: the response id is 5 from the third cycle on. -/
example : (bridgeNet (List.replicate 2 (⟨⟨⟨true, 4096, true, false, 0, false, 0, 0, true⟩, 5, 0⟩, 0, 0, ⟨false, false, 0, 0, false, false, false, 0⟩⟩, false, true))).s_axi_ro__rid = 5 := by
  decide

/-! ### core_axi_lite.v with its debug counters, next to the table memory -/

/-- One cycle: the bus master's signals and the enable bits of the debug counters. -/
structure SlaveNetIn where
  bus : LiteIn
  en : Nat

/-- The netlist with the memory it is connected to (migen_src/encode.py:195-201): content and the latched address of the
read port. -/
structure SlaveNet where
  s : CoreLiteV.top.S
  mem : Nat → Nat
  latch : Nat

def SlaveNet.start (table : Nat → Nat) : SlaveNet := ⟨CoreLiteV.top.powerUp, table, 0⟩

def SlaveNet.step (n : SlaveNet) (i : SlaveNetIn) : SlaveNet :=
  { s := CoreLiteV.top.step n.s (n.mem n.latch) i.bus.arvalid i.bus.awvalid i.bus.araddr i.bus.rready i.bus.awaddr i.bus.wvalid
      i.bus.wdata i.bus.wstrb i.bus.bready false false i.en
    mem := fun k => if n.s.wp_en = true ∧ k = n.s.wp_addr then n.s.wp_data else n.mem k
    latch := n.s.rp_addr }

/-- The bus outputs of the netlist. -/
def SlaveNet.out (n : SlaveNet) : LiteOut :=
  { arready := CoreLiteV.top.s_axi_ro__arready n.s, rvalid := CoreLiteV.top.s_axi_ro__rvalid n.s,
    rdata := CoreLiteV.top.s_axi_ro__rdata n.s, rresp := CoreLiteV.top.s_axi_ro__rresp n.s,
    awready := CoreLiteV.top.s_axi_wo__awready n.s, wready := CoreLiteV.top.s_axi_wo__wready n.s,
    bvalid := CoreLiteV.top.s_axi_wo__bvalid n.s, bresp := CoreLiteV.top.s_axi_wo__bresp n.s }

def slaveNetRun (n : SlaveNet) (is : List SlaveNetIn) : SlaveNet := is.foldl SlaveNet.step n

/-- What a bus analyser records, next to it the number of cycles so far in which each event was on (`past` are the
cycles before). -/
def slaveNetTrace : SlaveNet → List SlaveNetIn → List SlaveNetIn → List ((Nat → Nat) × List BusEv)
  | _, _, [] => []
  | n, past, i :: r => (fun k => past.countP (·.en.testBit k) % 2 ^ 32, liteEvents n.out i.bus) :: slaveNetTrace (n.step i) (past ++ [i]) r

/-- The master behaves in every pair of consecutive cycles. -/
def SlaveNetMaster : SlaveNet → List SlaveNetIn → Prop
  | n, i :: j :: r => MasterNext n.out i.bus j.bus ∧ SlaveNetMaster (n.step i) (j :: r)
  | _, _ => True

/-- The netlist as the model's state. -/
def SlaveNet.abs (n : SlaveNet) : CoreLite := CoreLiteV.absLite n.s n.mem n.latch

theorem dbg_congr (bd : Nat) (debug rst : Bool) (s : CoreLite) (i : LiteIn) (d e : Nat → Nat) (h : ∀ k, k < 8 → d k = e k) :
    s.step bd debug rst i d = s.step bd debug rst i e := by
  have : d s.debugIndex = e s.debugIndex := h _ (Nat.mod_lt _ (by decide))
  unfold CoreLite.step CoreLite.stepFsm CoreLite.readData
  rw [this]

/-- Invariant of the simulation. -/
structure SlaveNet.Ok (n : SlaveNet) (past : List SlaveNetIn) : Prop where
  fsm : n.s.fsm_state < 10
  dbg : ∀ k, k < 8 → CoreLiteV.coreDbg n.s k = past.countP (·.en.testBit k) % 2 ^ 32

theorem slave_dbg (n : SlaveNet) (i : SlaveNetIn) (k : Nat) (hk : k < 8) :
    CoreLiteV.coreDbg (n.step i).s k = if i.en.testBit k then (CoreLiteV.coreDbg n.s k + 1) % 2 ^ 32 else CoreLiteV.coreDbg n.s k := by
  have e : ∀ x, (x + 1) % 8589934592 % 4294967296 = (x + 1) % 4294967296 := by intro x; omega
  have : k = 0 ∨ k = 1 ∨ k = 2 ∨ k = 3 ∨ k = 4 ∨ k = 5 ∨ k = 6 ∨ k = 7 := by omega
  rcases this with rfl | rfl | rfl | rfl | rfl | rfl | rfl | rfl <;> simp [SlaveNet.step, CoreLiteV.coreDbg, netlist, slc, e]

theorem slave_step (n : SlaveNet) (past : List SlaveNetIn) (h : n.Ok past) (i : SlaveNetIn) :
    (n.step i).Ok (past ++ [i]) ∧
    (n.step i).abs = n.abs.cyc 12 true ⟨i.bus, fun k => past.countP (·.en.testBit k) % 2 ^ 32⟩ := by
  obtain ⟨h1, h2⟩ := h
  refine ⟨⟨?_, fun k hk => ?_⟩, ?_⟩
  · show CoreLiteV.top.next_fsm_state n.s i.bus.arvalid i.bus.awvalid i.bus.rready i.bus.wvalid i.bus.bready false < 10
    unfold CoreLiteV.top.next_fsm_state
    simp only [Bool.false_eq_true, if_false]
    repeat' split
    all_goals omega
  · rw [slave_dbg n i k hk, h2 k hk, List.countP_append]
    by_cases he : i.en.testBit k = true
    · simp [he]
    · simp [he]
  · have := CoreLiteV.lite_step n.s n.mem n.latch (n.mem n.latch) i.bus false i.en h1 (fun _ _ => rfl)
    have e : (n.step i).mem = ((CoreLiteV.absLite n.s n.mem n.latch).stepMem).mem := by
      funext k
      unfold SlaveNet.step CoreLite.stepMem CoreLiteV.absLite
      dsimp only
      by_cases hw : n.s.wp_en = true <;> simp [hw]
    unfold CoreLite.cyc
    rw [← dbg_congr 12 true false n.abs i.bus _ _ h2]
    unfold SlaveNet.abs
    rw [← this, e]
    rfl

theorem slave_run : ∀ (is : List SlaveNetIn) (n : SlaveNet) (past : List SlaveNetIn), n.Ok past →
    ∃ ms : List CoreLiteIn, ms.length = is.length ∧ slaveNetTrace n past is = coreLiteTrace 12 true n.abs ms ∧
      (slaveNetRun n is).abs = coreLiteRun 12 true n.abs ms ∧ (SlaveNetMaster n is → CoreLiteMaster 12 true n.abs ms) ∧
      ms.head?.map (·.bus) = is.head?.map (·.bus)
  | [], _, _, _ => ⟨[], rfl, rfl, rfl, fun _ => trivial, rfl⟩
  | i :: r, n, past, h => by
    obtain ⟨h1, h2⟩ := slave_step n past h i
    obtain ⟨ms, g0, g1, g2, g3, g4⟩ := slave_run r _ _ h1
    refine ⟨⟨i.bus, fun k => past.countP (·.en.testBit k) % 2 ^ 32⟩ :: ms, by simp [g0], ?_, ?_, ?_, rfl⟩
    · rw [slaveNetTrace, coreLiteTrace, ← h2, g1]; rfl
    · rw [coreLiteRun, ← h2, ← g2]; rfl
    · intro hm
      cases r with
      | nil =>
        cases ms with
        | nil => trivial
        | cons => simp at g0
      | cons j r =>
        cases ms with
        | nil => simp at g0
        | cons m ms =>
          have e : m.bus = j.bus := by simpa using g4
          refine ⟨?_, ?_⟩
          · have := hm.1
            rw [← e] at this
            exact this
          · rw [← h2]; exact g3 hm.2

/-- C83: for every well-behaved master and every history of events, the transfers on the bus of the netlist are those of the
register map of `Spec.coreMap` for 12-bit pixels with debug registers, where debug register `k` holds the number of cycles up to
the read in which enable bit `k` was on, modulo 2^32; and whenever no write is in progress the outputs height, width and
allowed cycles and the table memory are those of the register map. -/
theorem C83_slave_register_map (table : Nat → Nat) (ht : ∀ k, table k < 2 ^ 33) (is : List SlaveNetIn) (hne : is ≠ [])
    (hm : SlaveNetMaster (.start table) is) :
    ∃ g p, busRun (coreMap 12 true) (fun _ => 0) (resetRegs table, .idle) (slaveNetTrace (.start table) [] is) = some (g, p) ∧
      ((p = .idle ∨ ∃ a, p = .read a) →
        CoreLiteV.top.height (slaveNetRun (.start table) is).s = g.hw % 2 ^ 16 ∧
        CoreLiteV.top.width (slaveNetRun (.start table) is).s = g.hw / 2 ^ 16 % 2 ^ 16 ∧
        (slaveNetRun (.start table) is).s.allowed_cycles = g.allowed ∧
        (slaveNetRun (.start table) is).mem = g.table) := by
  have h0 : (SlaveNet.start table).Ok [] := ⟨show 0 < 10 by decide, fun k hk => by
    have : k = 0 ∨ k = 1 ∨ k = 2 ∨ k = 3 ∨ k = 4 ∨ k = 5 ∨ k = 6 ∨ k = 7 := by omega
    rcases this with rfl | rfl | rfl | rfl | rfl | rfl | rfl | rfl <;> rfl⟩
  obtain ⟨ms, g0, g1, g2, g3, _⟩ := slave_run is _ [] h0
  have hne' : ms ≠ [] := by rintro rfl; exact hne (List.length_eq_zero_iff.1 g0.symm)
  obtain ⟨g, p, e1, e2⟩ := C37_bus_refines_register_map (bd := 12) (by decide) true table ht ms (fun _ => 0) hne' (g3 hm)
  refine ⟨g, p, by rw [g1]; exact e1, fun hp => ?_⟩
  obtain ⟨k1, k2, k3, k4⟩ := e2 hp
  rw [show CoreLite.init table = (SlaveNet.start table).abs from rfl, ← g2] at k1 k2 k3 k4
  refine ⟨?_, ?_, k3, k4⟩
  · rw [← k1]; simp [netlist, slc, CoreLite.height, SlaveNet.abs, CoreLiteV.absLite]
  · rw [← k2]; simp [netlist, slc, CoreLite.width, SlaveNet.abs, CoreLiteV.absLite]

instance decMasterNext (o : LiteOut) (i j : LiteIn) : Decidable (MasterNext o i j) :=
  decidable_of_iff ((i.arvalid = true → o.arready = false → j.arvalid = true ∧ j.araddr = i.araddr) ∧
    (i.awvalid = true → o.awready = false → j.awvalid = true ∧ j.awaddr = i.awaddr) ∧
    (i.wvalid = true → o.wready = false → j.wvalid = true ∧ j.wdata = i.wdata ∧ j.wstrb = i.wstrb) ∧
    (i.wvalid = true → o.wready = true → j.wvalid = false) ∧
    (i.rready = true → o.rvalid = false → j.rready = true) ∧ (i.bready = true → o.bvalid = false → j.bready = true))
    ⟨fun ⟨a, b, c, d, e, f⟩ => ⟨a, b, c, d, e, f⟩, fun ⟨a, b, c, d, e, f⟩ => ⟨a, b, c, d, e, f⟩⟩

instance decSlaveMaster : ∀ (is : List SlaveNetIn) (n : SlaveNet), Decidable (SlaveNetMaster n is)
  | [], _ => .isTrue trivial
  | [_], _ => .isTrue trivial
  | i :: j :: r, n => @instDecidableAnd _ _ _ (decSlaveMaster (j :: r) (n.step i))

/-- A master reads debug register 3, with its event on in every cycle and the event of register 2 never. -/
def slaveDemo : List SlaveNetIn :=
  List.replicate 3 ⟨⟨true, 0x400c, true, false, 0, false, 0, 0, true⟩, 8⟩ ++
  List.replicate 5 ⟨⟨false, 0, true, false, 0, false, 0, 0, true⟩, 8⟩

/-- The hypotheses are met, and the register read holds the number of cycles before the one that reads it, four. -/
example : SlaveNetMaster (.start fun _ => 0) slaveDemo ∧ slaveDemo ≠ [] ∧
    (slaveNetTrace (.start fun _ => 0) [] slaveDemo).flatMap (·.2) = [.ar 0x400c, .r 4 0] := by decide +kernel

end Props.NetSmall
