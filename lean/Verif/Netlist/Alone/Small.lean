/- The stand-alone netlists of the small blocks against the models of their sources: one clock edge each. -/
import Verif.Netlist.Alone.AxiLite
import Verif.Netlist.Alone.Delayer
import Verif.Netlist.Alone.Reverser
import Verif.Netlist.Alone.DebugModule
import Verif.Netlist.Alone.AddressGenerator
import Verif.Netlist.Alone.B64B32_2
import Verif.Netlist.Alone.B16B40
import Verif.Model.AxiBridge
import Verif.Model.Delayer
import Verif.Model.Reverser
import Verif.Model.Debug
import Verif.Model.AddressGenerator
import Verif.Model.B64B32_2
import Verif.Model.B16B40

set_option autoImplicit false

namespace Netlist
open Model

/-! ### delayer.v -/

def absDelayer (s : DelayerV.top.S) : Delayer := ⟨s.timer, s.timer_start, s.out_val⟩

theorem delayer_step (s : DelayerV.top.S) (i : Bool) (h : s.timer < 8) :
    absDelayer (DelayerV.top.step s false i) = (absDelayer s).step 3 i ∧ (DelayerV.top.step s false i).timer < 8 := by
  obtain ⟨o, t, st⟩ := s
  dsimp only at h
  have e : ((16 + t - 1) % 16) % 8 = (t + 7) % 8 := by omega
  cases st <;> cases i <;> simp [absDelayer, netlist, Delayer.step, slc, h] <;> omega

theorem delayer_rst (s : DelayerV.top.S) (i : Bool) :
    absDelayer (DelayerV.top.step s true i) = .init 3 8 ∧ (DelayerV.top.step s true i).timer < 8 := by
  constructor <;> simp [absDelayer, netlist, Delayer.init]

/-! ### reverser.v -/

theorem testBit_put (x l w v i : Nat) :
    (put x l w v).testBit i = if i < l then x.testBit i else if i < l + w then v.testBit (i - l) else x.testBit i := by
  unfold put
  have e1 : x / 2 ^ (l + w) * 2 ^ (l + w) + v % 2 ^ w * 2 ^ l + x % 2 ^ l =
      2 ^ l * (2 ^ w * (x / 2 ^ (l + w)) + v % 2 ^ w) + x % 2 ^ l := by
    rw [Nat.mul_add, ← Nat.mul_assoc, ← Nat.pow_add, Nat.mul_comm (2 ^ (l + w)), Nat.mul_comm (2 ^ l)]
  rw [e1, Nat.testBit_two_pow_mul_add _ (Nat.mod_lt _ (Nat.two_pow_pos l)), Nat.testBit_two_pow_mul_add _ (Nat.mod_lt _ (Nat.two_pow_pos w))]
  simp only [Nat.testBit_mod_two_pow, Nat.testBit_div_two_pow]
  by_cases h : i < l
  · simp [h]
  · by_cases h2 : i < l + w
    · have : i - l < w := by omega
      simp [h, h2, this]
    · have : ¬ i - l < w := by omega
      simp only [h, h2, this, if_false]
      rw [show i - l - w + (l + w) = i by omega]

theorem testBit_put_bit (x l i : Nat) (b : Bool) : (put x l 1 b.toNat).testBit i = if i = l then b else x.testBit i := by
  rw [testBit_put]
  by_cases h : i = l
  · subst h; cases b <;> simp
  · by_cases h1 : i < l
    · simp [h, h1]
    · have : ¬ i < l + 1 := by omega
      simp [h, h1, this]

theorem reverser_bits (s : ReverserV.top.S) (x j : Nat) :
    (ReverserV.top.data_out s x).testBit j = (decide (j < 32) && x.testBit (31 - j)) := by
  simp only [netlist, testBit_put_bit, Nat.zero_testBit]
  by_cases h : j < 32
  · have : j = 0 ∨ j = 1 ∨ j = 2 ∨ j = 3 ∨ j = 4 ∨ j = 5 ∨ j = 6 ∨ j = 7 ∨ j = 8 ∨ j = 9 ∨ j = 10 ∨ j = 11 ∨ j = 12 ∨ j = 13 ∨ j = 14 ∨
        j = 15 ∨ j = 16 ∨ j = 17 ∨ j = 18 ∨ j = 19 ∨ j = 20 ∨ j = 21 ∨ j = 22 ∨ j = 23 ∨ j = 24 ∨ j = 25 ∨ j = 26 ∨ j = 27 ∨ j = 28 ∨
        j = 29 ∨ j = 30 ∨ j = 31 := by omega
    rcases this with rfl | rfl | rfl | rfl | rfl | rfl | rfl | rfl | rfl | rfl | rfl | rfl | rfl | rfl | rfl | rfl | rfl | rfl | rfl |
      rfl | rfl | rfl | rfl | rfl | rfl | rfl | rfl | rfl | rfl | rfl | rfl | rfl <;> simp
  · have : ∀ k, k < 32 → j ≠ k := by intro k hk; omega
    simp [h, this]

/-! ### debug_module.v -/

/-- The eight counters. -/
def debugCounter (s : DebugV.top.S) : Nat → Nat
  | 0 => s.r_signal
  | 1 => s.r_signal_1
  | 2 => s.r_signal_2
  | 3 => s.r_signal_3
  | 4 => s.r_signal_4
  | 5 => s.r_signal_5
  | 6 => s.r_signal_6
  | 7 => s.r_signal_7
  | _ => 0

theorem debug_step (s : DebugV.top.S) (en k : Nat) (hk : k < 8) :
    debugCounter (DebugV.top.step s en false) k = debugStep (debugCounter s) (fun i => en.testBit i) k := by
  have e : ∀ x, (x + 1) % 8589934592 % 4294967296 = (x + 1) % 4294967296 := by intro x; omega
  have : k = 0 ∨ k = 1 ∨ k = 2 ∨ k = 3 ∨ k = 4 ∨ k = 5 ∨ k = 6 ∨ k = 7 := by omega
  rcases this with rfl | rfl | rfl | rfl | rfl | rfl | rfl | rfl <;> simp [debugCounter, debugStep, netlist, slc, e]

theorem debug_rst (s : DebugV.top.S) (en k : Nat) : debugCounter (DebugV.top.step s en true) k = 0 := by
  rcases k with _ | _ | _ | _ | _ | _ | _ | _ | _ <;> simp [debugCounter, netlist]

/-! ### address_generator.v -/

def absAddr (s : AddrGenV.top.S) : AddrGen := ⟨s.address_o, s.address_valid, s.fsm_state⟩

theorem addr_step (s : AddrGenV.top.S) (i : AddrIn) (h : i.start < 2 ^ 32) (hv : s.fsm_state = true → s.address_valid = true) :
    absAddr (AddrGenV.top.step s i.latch false i.start) = (absAddr s).step 16 i ∧
    ((AddrGenV.top.step s i.latch false i.start).fsm_state = true → (AddrGenV.top.step s i.latch false i.start).address_valid = true) := by
  obtain ⟨f, v, a⟩ := s
  obtain ⟨st, l⟩ := i
  have e : ∀ x, (x + 16) % 8589934592 % 4294967296 = (x + 16) % 4294967296 := by intro x; omega
  dsimp only at h hv
  cases f <;> cases l <;> simp_all [absAddr, netlist, AddrGen.step, slc] <;> omega

theorem addr_rst (s : AddrGenV.top.S) (i : AddrIn) :
    absAddr (AddrGenV.top.step s i.latch true i.start) = .init ∧
    ((AddrGenV.top.step s i.latch true i.start).fsm_state = true → (AddrGenV.top.step s i.latch true i.start).address_valid = true) := by
  constructor <;> simp [absAddr, netlist, AddrGen.init]

/-! ### b64_b32_2.v -/

def absUnpack2 (s : Unpack2V.top.S) : Unpack2 := ⟨s.data_out, s.valid_out, s.o_busy, s.reg, s.reg_valid, s.half_latched⟩

theorem unpack2_step (s : Unpack2V.top.S) (v b : Bool) (d : Nat) :
    absUnpack2 (Unpack2V.top.step s v d b false) = (absUnpack2 s).step d v b := by
  obtain ⟨hl, vo, dd, rv, r, ob⟩ := s
  cases hl <;> cases vo <;> cases rv <;> cases v <;> cases b <;>
    simp [absUnpack2, netlist, Unpack2.step, Unpack2.take, Unpack2.tobeInvalid, slc, slice]

theorem unpack2_rst (s : Unpack2V.top.S) (v b : Bool) (d : Nat) : absUnpack2 (Unpack2V.top.step s v d b true) = .init := by
  simp [absUnpack2, netlist, Unpack2.init]

/-! ### b16_b40.v -/

def absFsm40 : Nat → Pack40Fsm
  | 0 => .idle1
  | 1 => .fill11
  | 2 => .fill12
  | 3 => .fill13
  | 4 => .fill21
  | 5 => .idle2
  | _ => .fill22

def absPack40 (s : Pack40V.top.S) : Pack40 :=
  ⟨s.buffer1, s.buffer1_valid, s.buffer2, s.buffer2_valid, s.buff_chs, s.temp_8.toNat, s.valid_out, s.o_busy, absFsm40 s.fsm_state⟩

theorem put_eq (x l w v : Nat) : put x l w v = setSlice x l (l + w) v := by
  unfold put setSlice
  rw [Nat.add_sub_cancel_left, Nat.mul_comm (2 ^ l), Nat.mul_comm (2 ^ (l + w))]
  omega

theorem setSlice_mod (x l w v : Nat) : setSlice x l (l + w) (v % 2 ^ w) = setSlice x l (l + w) v := by
  unfold setSlice
  rw [Nat.add_sub_cancel_left, Nat.mod_mod]

set_option maxHeartbeats 4000000 in
theorem pack40_step (s : Pack40V.top.S) (v b r : Bool) (d : Nat) (h : s.fsm_state < 7) :
    absPack40 (Pack40V.top.step s b v d false r) = (absPack40 s).step d v b r ∧ (Pack40V.top.step s b v d false r).fsm_state < 7 := by
  have e1 : ∀ x, put x 32 8 (slc d 0 8) = setSlice x 32 40 d := by
    intro x; rw [put_eq, slc, Nat.pow_zero, Nat.div_one, setSlice_mod]
  have e2 : ∀ x, put x 0 8 (slc d 8 8) = setSlice x 0 8 (d / 2 ^ 8) := by
    intro x; rw [put_eq, slc, setSlice_mod]
  have e3 : ∀ x v, put x 32 8 v = setSlice x 32 40 v := fun x v => put_eq x 32 8 v
  have e4 : ∀ x v, put x 16 16 v = setSlice x 16 32 v := fun x v => put_eq x 16 16 v
  have e5 : ∀ x v, put x 0 16 v = setSlice x 0 16 v := fun x v => put_eq x 0 16 v
  have e6 : ∀ x v, put x 24 16 v = setSlice x 24 40 v := fun x v => put_eq x 24 16 v
  have e7 : ∀ x v, put x 8 16 v = setSlice x 8 24 v := fun x v => put_eq x 8 16 v
  have e8 : (decide (d % 2 = 1)).toNat = d % 2 := by
    by_cases h : d % 2 = 1
    · simp [h]
    · simp [h]; omega
  obtain ⟨t, b2, b1, f, ob, v2, v1, ch, vo⟩ := s
  have : f = 0 ∨ f = 1 ∨ f = 2 ∨ f = 3 ∨ f = 4 ∨ f = 5 ∨ f = 6 := by dsimp only at h; omega
  clear h
  rcases this with rfl | rfl | rfl | rfl | rfl | rfl | rfl <;> cases v <;> cases v1 <;> cases v2 <;> cases r <;> cases ch <;> cases vo <;> cases b <;>
    simp [absPack40, netlist, Pack40.step, Pack40.stepFsm, Pack40.stepOut, absFsm40, e1, e2, e3, e4, e5, e6, e7, e8]

theorem pack40_rst (s : Pack40V.top.S) (v b : Bool) (d : Nat) : absPack40 (Pack40V.top.step s b v d true true) = .init := by
  simp [absPack40, netlist, Pack40.init, absFsm40]

/-! ### axi_lite.v -/

def absBridge (s : AxiLiteV.top.S) : Bridge := ⟨s.rwid, s.s_axi_ro__rid, s.s_axi_wo__bid⟩

end Netlist
