/- The AXI-lite slave of the netlist of the micro core against the model of migen_src/core_axi_lite.py. -/
import Verif.Netlist.MicroAxis
import Verif.Model.MicroAxis

set_option autoImplicit false

namespace Netlist.MicroAxis
open Netlist Model

theorem testBit_slc (x l w i : Nat) : (slc x l w).testBit i = (decide (i < w) && x.testBit (l + i)) := by
  rw [slc, Nat.testBit_mod_two_pow, Nat.testBit_div_two_pow, Nat.add_comm]

theorem testBit_setSlice (x l w v i : Nat) :
    (setSlice x l (l + w) v).testBit i = if i < l then x.testBit i else if i < l + w then v.testBit (i - l) else x.testBit i := by
  unfold setSlice
  rw [Nat.add_sub_cancel_left]
  have e1 : x % 2 ^ l + 2 ^ l * (v % 2 ^ w) + 2 ^ (l + w) * (x / 2 ^ (l + w)) =
      2 ^ l * (2 ^ w * (x / 2 ^ (l + w)) + v % 2 ^ w) + x % 2 ^ l := by
    rw [Nat.mul_add, ← Nat.mul_assoc, ← Nat.pow_add]; omega
  rw [e1, Nat.testBit_two_pow_mul_add _ (Nat.mod_lt _ (Nat.two_pow_pos l)), Nat.testBit_two_pow_mul_add _ (Nat.mod_lt _ (Nat.two_pow_pos w))]
  simp only [Nat.testBit_mod_two_pow, Nat.testBit_div_two_pow]
  by_cases h : i < l
  · simp [h]
  · by_cases h2 : i < l + w
    · have : i - l < w := by omega
      simp [h, h2, this]
    · have : ¬ i - l < w := by omega
      simp only [h, h2, this, if_false]
      rw [show i - l - w + (l + w) = i by omega]

theorem put_eq (x l w v : Nat) : put x l w v = setSlice x l (l + w) v := by
  unfold put setSlice
  rw [Nat.add_sub_cancel_left, Nat.mul_comm (2 ^ l), Nat.mul_comm (2 ^ (l + w))]
  omega

theorem testBit_put (x l w v i : Nat) :
    (put x l w v).testBit i = if i < l then x.testBit i else if i < l + w then v.testBit (i - l) else x.testBit i := by
  rw [put_eq, testBit_setSlice]

/-- Byte `k` of the merged word. -/
theorem testBit_putBytes (n x d m i : Nat) :
    (CoreLite.putBytes n x d m).testBit i = if i < 8 * n ∧ m.testBit (i / 8) = true then d.testBit i else x.testBit i := by
  induction n with
  | zero => simp [CoreLite.putBytes]
  | succ n ih =>
    simp only [CoreLite.putBytes]
    by_cases hm : m.testBit n = true
    · rw [if_pos hm, testBit_setSlice, ih, Nat.testBit_div_two_pow]
      by_cases h1 : i < 8 * n
      · have : i < 8 * (n + 1) := by omega
        simp [h1, this]
      · by_cases h2 : i < 8 * n + 8
        · have e : i / 8 = n := by omega
          have : i < 8 * (n + 1) := by omega
          rw [if_neg h1, if_pos h2, e, if_pos ⟨this, hm⟩, show i - 8 * n + 8 * n = i by omega]
        · have : ¬ i < 8 * (n + 1) := by omega
          simp [h1, h2, this]
    · rw [if_neg hm, ih]
      by_cases h1 : i < 8 * n
      · have : i < 8 * (n + 1) := by omega
        simp [h1, this]
      · by_cases h2 : i < 8 * (n + 1)
        · have e : i / 8 = n := by omega
          simp [h1, h2, e, hm]
        · simp [h1, h2]

/-- The four bytes written into the low half of the 64-bit word. -/
theorem low_half (r d m : Nat) :
    (let e1 := if m.testBit 0 = true then put 0 0 8 (slc d 0 8) else put 0 0 8 (slc r 0 8)
     let e2 := if m.testBit 1 = true then put e1 8 8 (slc d 8 8) else put e1 8 8 (slc r 8 8)
     let e3 := if m.testBit 2 = true then put e2 16 8 (slc d 16 8) else put e2 16 8 (slc r 16 8)
     if m.testBit 3 = true then put e3 24 8 (slc d 24 8) else put e3 24 8 (slc r 24 8)) = CoreLite.putBytes 4 (r % 2 ^ 32) d m := by
  apply Nat.eq_of_testBit_eq
  intro i
  rw [testBit_putBytes, Nat.testBit_mod_two_pow]
  by_cases h0 : i < 8
  · have e : i / 8 = 0 := by omega
    have h : i < 32 := by omega
    cases b0 : m.testBit 0 <;> cases m.testBit 1 <;> cases m.testBit 2 <;> cases m.testBit 3 <;>
      simp [testBit_put, testBit_slc, h0, e, h, b0, show i < 16 by omega, show i < 24 by omega]
  · by_cases h1 : i < 16
    · have e : i / 8 = 1 := by omega
      have h : i < 32 := by omega
      cases m.testBit 0 <;> cases b0 : m.testBit 1 <;> cases m.testBit 2 <;> cases m.testBit 3 <;>
        simp [testBit_put, testBit_slc, h0, h1, e, h, b0, show i < 24 by omega, show 8 + (i - 8) = i by omega, show i - 8 < 8 by omega]
    · by_cases h2 : i < 24
      · have e : i / 8 = 2 := by omega
        have h : i < 32 := by omega
        cases m.testBit 0 <;> cases m.testBit 1 <;> cases b0 : m.testBit 2 <;> cases m.testBit 3 <;>
          simp [testBit_put, testBit_slc, h0, h1, h2, e, h, b0, show 16 + (i - 16) = i by omega, show i - 16 < 8 by omega]
      · by_cases h : i < 32
        · have e : i / 8 = 3 := by omega
          cases m.testBit 0 <;> cases m.testBit 1 <;> cases m.testBit 2 <;> cases b0 : m.testBit 3 <;>
            simp [testBit_put, testBit_slc, h0, h1, h2, e, h, b0, show 24 + (i - 24) = i by omega, show i - 24 < 8 by omega]
        · cases m.testBit 0 <;> cases m.testBit 1 <;> cases m.testBit 2 <;> cases m.testBit 3 <;>
            simp [testBit_put, h0, h1, h2, h]

/-- The four bytes written into the high half of the 64-bit word. -/
theorem high_half (r m : Nat) :
    (let e1 := if m.testBit 0 = true then put 0 32 8 0 else put 0 32 8 (slc r 32 8)
     let e2 := if m.testBit 1 = true then put e1 40 8 0 else put e1 40 8 (slc r 40 8)
     let e3 := if m.testBit 2 = true then put e2 48 8 0 else put e2 48 8 (slc r 48 8)
     if m.testBit 3 = true then put e3 56 8 0 else put e3 56 8 (slc r 56 8)) =
    2 ^ 32 * CoreLite.putBytes 4 (r / 2 ^ 32 % 2 ^ 32) 0 m := by
  apply Nat.eq_of_testBit_eq
  intro i
  rw [Nat.testBit_two_pow_mul]
  by_cases h32 : i < 32
  · cases m.testBit 0 <;> cases m.testBit 1 <;> cases m.testBit 2 <;> cases m.testBit 3 <;>
      simp [testBit_put, h32, show i < 40 by omega, show i < 48 by omega, show i < 56 by omega, show ¬ 32 ≤ i by omega]
  rw [testBit_putBytes, Nat.testBit_mod_two_pow, Nat.testBit_div_two_pow, show i - 32 + 32 = i by omega]
  by_cases h0 : i < 40
  · have e : (i - 32) / 8 = 0 := by omega
    cases b0 : m.testBit 0 <;> cases m.testBit 1 <;> cases m.testBit 2 <;> cases m.testBit 3 <;>
      simp [testBit_put, testBit_slc, h32, h0, e, b0, show i < 48 by omega, show i < 56 by omega, show 32 + (i - 32) = i by omega,
        show i - 32 < 8 by omega, show i - 32 < 32 by omega, show 32 ≤ i by omega]
  · by_cases h1 : i < 48
    · have e : (i - 32) / 8 = 1 := by omega
      cases m.testBit 0 <;> cases b0 : m.testBit 1 <;> cases m.testBit 2 <;> cases m.testBit 3 <;>
        simp [testBit_put, testBit_slc, h0, h1, e, b0, show i < 56 by omega, show 40 + (i - 40) = i by omega,
          show i - 40 < 8 by omega, show i - 32 < 32 by omega, show 32 ≤ i by omega]
    · by_cases h2 : i < 56
      · have e : (i - 32) / 8 = 2 := by omega
        cases m.testBit 0 <;> cases m.testBit 1 <;> cases b0 : m.testBit 2 <;> cases m.testBit 3 <;>
          simp [testBit_put, testBit_slc, h1, h2, e, b0, show 48 + (i - 48) = i by omega,
            show i - 48 < 8 by omega, show i - 32 < 32 by omega, show 32 ≤ i by omega]
      · by_cases h : i < 64
        · have e : (i - 32) / 8 = 3 := by omega
          cases m.testBit 0 <;> cases m.testBit 1 <;> cases m.testBit 2 <;> cases b0 : m.testBit 3 <;>
            simp [testBit_put, testBit_slc, h2, h, e, b0, show 56 + (i - 56) = i by omega,
              show i - 56 < 8 by omega, show i - 32 < 32 by omega, show 32 ≤ i by omega]
        · cases m.testBit 0 <;> cases m.testBit 1 <;> cases m.testBit 2 <;> cases m.testBit 3 <;>
            simp [testBit_put, h32, h0, h1, h2, h, show ¬ i - 32 < 32 by omega]

theorem put_slc (x l d : Nat) : put x l 8 (slc d l 8) = setSlice x l (l + 8) (d / 2 ^ l) := by
  rw [put_eq]
  unfold setSlice slc
  rw [Nat.add_sub_cancel_left, Nat.mod_mod]

/-- The four bytes written into a register. -/
theorem reg_bytes (x d m : Nat) :
    (let e1 := if m.testBit 0 = true then put x 0 8 (slc d 0 8) else x
     let e2 := if m.testBit 1 = true then put e1 8 8 (slc d 8 8) else e1
     let e3 := if m.testBit 2 = true then put e2 16 8 (slc d 16 8) else e2
     (if m.testBit 3 = true then put e3 24 8 (slc d 24 8) else e3, e3)) =
    (CoreLite.putBytes 4 x d m, CoreLite.putBytes 3 x d m) := by
  simp only [put_slc]
  rfl

/-! ### The slave -/

/-- FSM encoding of the netlist. -/
def liteFsm : Nat → LiteFsm
  | 0 => .idle | 1 => .rdAddr | 2 => .wrAddr | 3 => .rdDelay1 | 4 => .rdDelay2 | 5 => .rdData
  | 6 => .wrDelay1 | 7 => .wrDelay2 | 8 => .wrData | _ => .wrResp

/-- The registers of the netlist as registers of the model; `mem` is the table memory, `latch` the address latch of its
read port. -/
def absLite (s : core_axi_lite.S) (mem : Nat → Nat) (latch : Nat) : CoreLite :=
  { fsm := liteFsm s.fsm_state, addr := s.addr_v, arready := s.arready_v, rvalid := s.rvalid_v, awready := s.awready_v,
    wready := s.wready_v, bvalid := s.bvalid_v, rdata := s.rdata_v, rresp := s.rresp_v, bresp := s.bresp_v,
    hw := s.height_width, allowed := s.allowed_cycles, rpAddr := s.rp_addr, wpAddr := s.wp_addr, wpData := s.wp_data,
    wpEn := s.wp_en, rpLatch := latch, mem := mem }

theorem idx2 (a : Nat) : (slc a 0 6).testBit 0 = false ↔ a % 64 % 2 = 0 := by
  have : (slc a 0 6).testBit 0 = decide (a % 64 % 2 = 1) := by simp [slc, Nat.testBit_zero]
  rw [this, decide_eq_false_iff_not]; omega

/-- The table window is addressed. -/
theorem idx_ssss (s : core_axi_lite.S) : core_axi_lite.w35 s = (s.addr_v.testBit 10 && decide (s.addr_v % 64 < 26)) := by
  simp [netlist, slc]

theorem lite_hw (s : core_axi_lite.S) (v : Bool) (d m : Nat) (h : s.fsm_state = 8) :
    core_axi_lite.next_height_width s v d m false =
      if v = true ∧ (s.addr_v.testBit 10 && decide (s.addr_v % 64 < 26)) = false ∧ s.addr_v.testBit 11 = true ∧ s.addr_v % 2 = 0 then
        CoreLite.putBytes 4 s.height_width d m else s.height_width := by
  have e := reg_bytes s.height_width d m
  simp only [Prod.mk.injEq] at e
  rw [← e.1]
  have h0 : s.addr_v.testBit 0 = decide (s.addr_v % 2 = 1) := by simp [Nat.testBit_zero]
  cases v
  · simp [netlist, h]
  by_cases h1 : s.addr_v.testBit 10 = true <;> by_cases h2 : s.addr_v % 64 < 26 <;> by_cases h3 : s.addr_v.testBit 11 = true <;>
    by_cases h4 : s.addr_v % 2 = 1 <;> simp [netlist, h, h0, h1, h2, h3, h4, slc] <;> (try simp at h2 h3) <;>
    simp_all [slc]

theorem lite_allowed (s : core_axi_lite.S) (v : Bool) (d m : Nat) (h : s.fsm_state = 8) :
    core_axi_lite.next_allowed_cycles s v d m false =
      if v = true ∧ (s.addr_v.testBit 10 && decide (s.addr_v % 64 < 26)) = false ∧ s.addr_v.testBit 11 = true ∧ ¬ s.addr_v % 2 = 0 then
        CoreLite.putBytes 3 s.allowed_cycles d m else s.allowed_cycles := by
  have e := reg_bytes s.allowed_cycles d m
  simp only [Prod.mk.injEq] at e
  rw [← e.2]
  have h0 : s.addr_v.testBit 0 = decide (s.addr_v % 2 = 1) := by simp [Nat.testBit_zero]
  cases v
  · simp [netlist, h]
  by_cases h1 : s.addr_v.testBit 10 = true <;> by_cases h2 : s.addr_v % 64 < 26 <;> by_cases h3 : s.addr_v.testBit 11 = true <;>
    by_cases h4 : s.addr_v % 2 = 1 <;> simp [netlist, h, h0, h1, h2, h3, h4, slc] <;> (try simp at h2 h3) <;>
    simp_all [slc]

theorem lite_data (s : core_axi_lite.S) (v : Bool) (d m rp : Nat) (h : s.fsm_state = 8) :
    core_axi_lite.next_wp_data s v d m false rp =
      if v = true ∧ (s.addr_v.testBit 10 && decide (s.addr_v % 64 < 26)) = true then
        (if s.addr_v % 64 % 2 = 0 then CoreLite.putBytes 4 (rp % 2 ^ 32) d m
          else 2 ^ 32 * CoreLite.putBytes 4 (rp / 2 ^ 32 % 2 ^ 32) 0 m) % 2 ^ 33 else s.wp_data := by
  cases v
  · simp [netlist, h]
  by_cases h1 : (s.addr_v.testBit 10 && decide (s.addr_v % 64 < 26)) = true
  · have g : ∀ f : Nat → Nat, core_axi_lite.w70 s = true := fun _ => by rw [← h1, ← idx_ssss]; rfl
    have g7 : core_axi_lite.w7 s = true := by rw [← h1, ← idx_ssss]; rfl
    have w : core_axi_lite.wstrb_v s true m = m := by simp [netlist, h]
    have w2 : core_axi_lite.wdata_v s true d = d := by simp [netlist, h]
    rw [if_pos ⟨rfl, h1⟩]
    have key : core_axi_lite.rp_data64_in s true d m rp = (if s.addr_v % 64 % 2 = 0 then CoreLite.putBytes 4 (rp % 2 ^ 32) d m
          else 2 ^ 32 * CoreLite.putBytes 4 (rp / 2 ^ 32 % 2 ^ 32) 0 m) := by
      rw [core_axi_lite.rp_data64_in, core_axi_lite.next_rp_data64_in, if_pos h, if_pos rfl, if_pos g7, w, w2, ← low_half, ← high_half]
      have i := idx2 s.addr_v
      by_cases hp : s.addr_v % 64 % 2 = 0
      · rw [if_pos hp, if_pos (show core_axi_lite.w11 s = true from by
          rw [show core_axi_lite.w11 s = ((slc s.addr_v 0 6).testBit 0 == false) from rfl, i.mpr hp]; rfl)]
        rfl
      · rw [if_neg hp, if_neg (show ¬ core_axi_lite.w11 s = true from by
          rw [show core_axi_lite.w11 s = ((slc s.addr_v 0 6).testBit 0 == false) from rfl]; simpa using fun q => hp (i.mp q))]
        rfl
    rw [core_axi_lite.next_wp_data, if_pos h, if_pos rfl, if_pos (g id), key]
    simp [slc]
  · have g : ¬ core_axi_lite.w70 s = true := by rw [show core_axi_lite.w70 s = core_axi_lite.w35 s from rfl, idx_ssss]; exact h1
    rw [if_neg (fun q => h1 q.2), core_axi_lite.next_wp_data, if_pos h, if_pos rfl, if_neg g]
    rfl

set_option maxHeartbeats 4000000 in
theorem lite_step (s : core_axi_lite.S) (mem : Nat → Nat) (latch rp : Nat) (i : LiteIn) (rst : Bool) (h : s.fsm_state < 10)
    (hrp : (s.fsm_state = 5 ∨ s.fsm_state = 8) → s.addr_v.testBit 10 = true → s.addr_v % 64 < 26 → mem latch = rp) :
    absLite (core_axi_lite.step s i.arvalid i.awvalid i.araddr i.rready i.awaddr i.wvalid i.wdata i.wstrb i.bready false rst rp)
      ((absLite s mem latch).stepMem).mem s.rp_addr = (absLite s mem latch).step 12 false rst i (fun _ => 0) := by
  have lh := lite_hw s i.wvalid i.wdata i.wstrb
  have la := lite_allowed s i.wvalid i.wdata i.wstrb
  have ld := lite_data s i.wvalid i.wdata i.wstrb rp
  obtain ⟨al, hw, br, wen, wd, wa, wr, awr, rr, rd, arr, ra, ad, st, bv, rv⟩ := s
  have h : st < 10 := h
  have h10 : st = 0 ∨ st = 1 ∨ st = 2 ∨ st = 3 ∨ st = 4 ∨ st = 5 ∨ st = 6 ∨ st = 7 ∨ st = 8 ∨ st = 9 := by omega
  obtain ⟨iav, iaa, irr, iaw, iawa, iwv, iwd, iws, ibr⟩ := i
  dsimp only at hrp lh la ld
  have s6 : slc ad 0 6 = ad % 64 := by simp [slc]
  have h0 : ad.testBit 0 = decide (ad % 2 = 1) := by simp [Nat.testBit_zero]
  have h00 : (ad % 64).testBit 0 = decide (ad % 2 = 1) := by simp [Nat.testBit_zero]
  have hp : ad % 2 = 0 ∨ ad % 2 = 1 := by omega
  have m2 : ad % 64 % 2 = ad % 2 := by omega
  rcases h10 with rfl | rfl | rfl | rfl | rfl | rfl | rfl | rfl | rfl | rfl
  · cases iav <;> cases iaw <;> cases rst <;> simp [absLite, liteFsm, CoreLite.step, CoreLite.stepFsm, CoreLite.stepMem, netlist]
  · cases rst <;> simp [absLite, liteFsm, CoreLite.step, CoreLite.stepFsm, CoreLite.stepMem, netlist, slc]
  · cases rst <;> simp [absLite, liteFsm, CoreLite.step, CoreLite.stepFsm, CoreLite.stepMem, netlist, slc]
  · cases rst <;> simp [absLite, liteFsm, CoreLite.step, CoreLite.stepFsm, CoreLite.stepMem, netlist]
  · cases rst <;> simp [absLite, liteFsm, CoreLite.step, CoreLite.stepFsm, CoreLite.stepMem, netlist]
  · by_cases h1 : ad.testBit 10 = true <;> by_cases h2 : ad % 64 < 26 <;> by_cases h3 : ad.testBit 11 = true <;>
      rcases hp with h4 | h4 <;> cases irr <;> cases rst <;>
      simp [absLite, liteFsm, CoreLite.step, CoreLite.stepFsm, CoreLite.stepMem, netlist, s6, h0, h00, h1, h2, h3, h4, m2,
        CoreLite.readData, CoreLite.isSsss, CoreLite.ssssIndex, CoreLite.isHw, CoreLite.hwIndex, CoreLite.rpData, slc] <;>
      (try rw [hrp (Or.inl rfl) h1 h2]) <;> (try omega)
  · cases rst <;> simp [absLite, liteFsm, CoreLite.step, CoreLite.stepFsm, CoreLite.stepMem, netlist]
  · cases rst <;> simp [absLite, liteFsm, CoreLite.step, CoreLite.stepFsm, CoreLite.stepMem, netlist]
  · have lh := lh rfl
    have la := la rfl
    have ld := ld rfl
    generalize e1 : core_axi_lite.next_height_width ⟨al, hw, br, wen, wd, wa, wr, awr, rr, rd, arr, ra, ad, 8, bv, rv⟩ iwv iwd iws false = x1 at lh
    generalize e2 : core_axi_lite.next_allowed_cycles ⟨al, hw, br, wen, wd, wa, wr, awr, rr, rd, arr, ra, ad, 8, bv, rv⟩ iwv iwd iws false = x2 at la
    generalize e3 : core_axi_lite.next_wp_data ⟨al, hw, br, wen, wd, wa, wr, awr, rr, rd, arr, ra, ad, 8, bv, rv⟩ iwv iwd iws false rp = x3 at ld
    unfold core_axi_lite.step
    rw [e1, e2, e3]
    clear e1 e2 e3
    subst lh la ld
    cases iwv
    · cases rst <;> simp [absLite, liteFsm, CoreLite.step, CoreLite.stepFsm, CoreLite.stepMem, netlist]
    by_cases h1 : ad.testBit 10 = true <;> by_cases h2 : ad % 64 < 26 <;> by_cases h3 : ad.testBit 11 = true <;>
      rcases hp with h4 | h4 <;> cases rst <;>
      simp [absLite, liteFsm, CoreLite.step, CoreLite.stepFsm, CoreLite.stepMem, netlist, s6, h0, h00, h1, h2, h3, h4, m2,
        CoreLite.writeData, CoreLite.isSsss, CoreLite.ssssIndex, CoreLite.isHw, CoreLite.hwIndex, CoreLite.rpData, CoreLite.rpDataIn, slc] <;>
      (try rw [hrp (Or.inr rfl) h1 h2]) <;> (try omega)
  · cases ibr <;> cases rst <;> simp [absLite, liteFsm, CoreLite.step, CoreLite.stepFsm, CoreLite.stepMem, netlist]

end Netlist.MicroAxis
