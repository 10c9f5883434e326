/- The stand-alone netlist of the AXI-lite slave with its debug counters against the model of migen_src/core_axi_lite.py. -/
import Verif.Netlist.Alone.CoreAxiLite
import Verif.Netlist.MLite
import Verif.Model.Debug

set_option autoImplicit false
set_option linter.unusedSimpArgs false

namespace Netlist.CoreLiteV
open Netlist Model
open Netlist.MicroAxis (low_half high_half reg_bytes liteFsm)

/-- The counters of the debug module of the slave. -/
def coreDbg (s : top.S) (k : Nat) : Nat :=
  if k = 0 then s.u_debug_module.r_signal else if k = 1 then s.u_debug_module.r_signal_1
  else if k = 2 then s.u_debug_module.r_signal_2 else if k = 3 then s.u_debug_module.r_signal_3
  else if k = 4 then s.u_debug_module.r_signal_4 else if k = 5 then s.u_debug_module.r_signal_5
  else if k = 6 then s.u_debug_module.r_signal_6 else s.u_debug_module.r_signal_7

/-- The registers of the netlist as registers of the model; `mem` is the table memory, `latch` the address latch of its
read port. -/
def absLite (s : top.S) (mem : Nat → Nat) (latch : Nat) : CoreLite :=
  { fsm := liteFsm s.fsm_state, addr := s.addr_v, arready := s.arready_v, rvalid := s.rvalid_v, awready := s.awready_v,
    wready := s.wready_v, bvalid := s.bvalid_v, rdata := s.rdata_v, rresp := s.rresp_v, bresp := s.bresp_v,
    hw := s.height_width, allowed := s.allowed_cycles, rpAddr := s.rp_addr, wpAddr := s.wp_addr, wpData := s.wp_data,
    wpEn := s.wp_en, rpLatch := latch, mem := mem }

theorem idx2 (a : Nat) : (slc a 0 6).testBit 0 = false ↔ a % 64 % 2 = 0 := by
  have : (slc a 0 6).testBit 0 = decide (a % 64 % 2 = 1) := by simp [slc, Nat.testBit_zero]
  rw [this, decide_eq_false_iff_not]; omega

/-- The table window is addressed. -/
theorem idx_ssss (s : top.S) : top.w102 s = (s.addr_v.testBit 10 && decide (s.addr_v % 64 < 26)) := by
  simp [netlist, slc]

theorem lite_hw (s : top.S) (v : Bool) (d m : Nat) (h : s.fsm_state = 8) :
    top.next_height_width s v d m false =
      if v = true ∧ (s.addr_v.testBit 10 && decide (s.addr_v % 64 < 26)) = false ∧ s.addr_v.testBit 11 = true ∧ s.addr_v % 2 = 0 then
        CoreLite.putBytes 4 s.height_width d m else s.height_width := by
  have e := reg_bytes s.height_width d m
  simp only [Prod.mk.injEq] at e
  rw [← e.1]
  have h0 : s.addr_v.testBit 0 = decide (s.addr_v % 2 = 1) := by simp [Nat.testBit_zero]
  cases v
  · simp [netlist, h]
  by_cases h1 : s.addr_v.testBit 10 = true <;> by_cases h2 : s.addr_v % 64 < 26 <;> by_cases h3 : s.addr_v.testBit 11 = true <;>
    by_cases h4 : s.addr_v % 2 = 1 <;> simp [netlist, h, h0, h1, h2, h3, h4, slc] <;> (try simp at h2 h3) <;>
    simp_all [slc]

theorem lite_allowed (s : top.S) (v : Bool) (d m : Nat) (h : s.fsm_state = 8) :
    top.next_allowed_cycles s v d m false =
      if v = true ∧ (s.addr_v.testBit 10 && decide (s.addr_v % 64 < 26)) = false ∧ s.addr_v.testBit 11 = true ∧ ¬ s.addr_v % 2 = 0 then
        CoreLite.putBytes 3 s.allowed_cycles d m else s.allowed_cycles := by
  have e := reg_bytes s.allowed_cycles d m
  simp only [Prod.mk.injEq] at e
  rw [← e.2]
  have h0 : s.addr_v.testBit 0 = decide (s.addr_v % 2 = 1) := by simp [Nat.testBit_zero]
  cases v
  · simp [netlist, h]
  by_cases h1 : s.addr_v.testBit 10 = true <;> by_cases h2 : s.addr_v % 64 < 26 <;> by_cases h3 : s.addr_v.testBit 11 = true <;>
    by_cases h4 : s.addr_v % 2 = 1 <;> simp [netlist, h, h0, h1, h2, h3, h4, slc] <;> (try simp at h2 h3) <;>
    simp_all [slc]

theorem lite_data (s : top.S) (v : Bool) (d m rp : Nat) (h : s.fsm_state = 8) :
    top.next_wp_data s rp v d m false =
      if v = true ∧ (s.addr_v.testBit 10 && decide (s.addr_v % 64 < 26)) = true then
        (if s.addr_v % 64 % 2 = 0 then CoreLite.putBytes 4 (rp % 2 ^ 32) d m
          else 2 ^ 32 * CoreLite.putBytes 4 (rp / 2 ^ 32 % 2 ^ 32) 0 m) % 2 ^ 33 else s.wp_data := by
  cases v
  · simp [netlist, h]
  by_cases h1 : (s.addr_v.testBit 10 && decide (s.addr_v % 64 < 26)) = true
  · have g : ∀ f : Nat → Nat, top.w92 s = true := fun _ => by rw [← h1, ← idx_ssss]; rfl
    have g7 : top.w21 s = true := by rw [← h1, ← idx_ssss]; rfl
    have w : top.wstrb_v s true m = m := by simp [netlist, h]
    have w2 : top.wdata_v s true d = d := by simp [netlist, h]
    rw [if_pos ⟨rfl, h1⟩]
    have key : top.rp_data64_in s rp true d m = (if s.addr_v % 64 % 2 = 0 then CoreLite.putBytes 4 (rp % 2 ^ 32) d m
          else 2 ^ 32 * CoreLite.putBytes 4 (rp / 2 ^ 32 % 2 ^ 32) 0 m) := by
      rw [top.rp_data64_in, top.next_rp_data64_in, if_pos h, if_pos rfl, if_pos g7, w, w2, ← low_half, ← high_half]
      have i := idx2 s.addr_v
      by_cases hp : s.addr_v % 64 % 2 = 0
      · rw [if_pos hp, if_pos (show top.w27 s = true from by
          rw [show top.w27 s = ((slc s.addr_v 0 6).testBit 0 == false) from rfl, i.mpr hp]; rfl)]
        rfl
      · rw [if_neg hp, if_neg (show ¬ top.w27 s = true from by
          rw [show top.w27 s = ((slc s.addr_v 0 6).testBit 0 == false) from rfl]; simpa using fun q => hp (i.mp q))]
        rfl
    rw [top.next_wp_data, if_pos h, if_pos rfl, if_pos (g id), key]
    simp [slc]
  · have g : ¬ top.w92 s = true := by rw [show top.w92 s = top.w102 s from rfl, idx_ssss]; exact h1
    rw [if_neg (fun q => h1 q.2), top.next_wp_data, if_pos h, if_pos rfl, if_neg g]
    rfl

set_option maxHeartbeats 4000000 in
theorem lite_step (s : top.S) (mem : Nat → Nat) (latch rp : Nat) (i : LiteIn) (rst : Bool) (en : Nat) (h : s.fsm_state < 10)
    (hrp : (s.fsm_state = 5 ∨ s.fsm_state = 8) → s.addr_v % 64 < 26 → mem latch = rp) :
    absLite (top.step s rp i.arvalid i.awvalid i.araddr i.rready i.awaddr i.wvalid i.wdata i.wstrb i.bready false rst en)
      ((absLite s mem latch).stepMem).mem s.rp_addr = (absLite s mem latch).step 12 true rst i (coreDbg s) := by
  have lh := lite_hw s i.wvalid i.wdata i.wstrb
  have la := lite_allowed s i.wvalid i.wdata i.wstrb
  have ld := lite_data s i.wvalid i.wdata i.wstrb rp
  obtain ⟨al, rd, arr, ra, ad, st, bv, rv, hw, br, wen, wd, wa, wr, awr, rr, db⟩ := s
  have h : st < 10 := h
  have h10 : st = 0 ∨ st = 1 ∨ st = 2 ∨ st = 3 ∨ st = 4 ∨ st = 5 ∨ st = 6 ∨ st = 7 ∨ st = 8 ∨ st = 9 := by omega
  obtain ⟨iav, iaa, irr, iaw, iawa, iwv, iwd, iws, ibr⟩ := i
  dsimp only at hrp lh la ld
  have s3 : slc ad 0 3 = ad % 8 := by simp [slc]
  have s6 : slc ad 0 6 = ad % 64 := by simp [slc]
  have h0 : ad.testBit 0 = decide (ad % 2 = 1) := by simp [Nat.testBit_zero]
  have h00 : (ad % 64).testBit 0 = decide (ad % 2 = 1) := by simp [Nat.testBit_zero]
  have hp : ad % 2 = 0 ∨ ad % 2 = 1 := by omega
  have m2 : ad % 64 % 2 = ad % 2 := by omega
  rcases h10 with rfl | rfl | rfl | rfl | rfl | rfl | rfl | rfl | rfl | rfl
  · cases iav <;> cases iaw <;> cases rst <;> simp [absLite, liteFsm, CoreLite.step, CoreLite.stepFsm, CoreLite.stepMem, netlist]
  · cases rst <;> simp [absLite, liteFsm, CoreLite.step, CoreLite.stepFsm, CoreLite.stepMem, netlist, slc]
  · cases rst <;> simp [absLite, liteFsm, CoreLite.step, CoreLite.stepFsm, CoreLite.stepMem, netlist, slc]
  · cases rst <;> simp [absLite, liteFsm, CoreLite.step, CoreLite.stepFsm, CoreLite.stepMem, netlist]
  · cases rst <;> simp [absLite, liteFsm, CoreLite.step, CoreLite.stepFsm, CoreLite.stepMem, netlist]
  · by_cases h1 : ad.testBit 10 = true <;> by_cases h2 : ad % 64 < 26 <;> by_cases h3 : ad.testBit 11 = true <;> by_cases h5 : ad.testBit 12 = true <;>
      rcases hp with h4 | h4 <;> cases irr <;> cases rst <;>
      simp [absLite, liteFsm, CoreLite.step, CoreLite.stepFsm, CoreLite.stepMem, netlist, s6, h0, h00, h1, h2, h3, h4, h5, m2, s3, coreDbg,
        CoreLite.readData, CoreLite.isSsss, CoreLite.ssssIndex, CoreLite.isHw, CoreLite.hwIndex, CoreLite.rpData, CoreLite.isDebug, CoreLite.debugIndex, slc] <;>
      (try rw [hrp (Or.inl rfl) h2]) <;> (try omega)
  · cases rst <;> simp [absLite, liteFsm, CoreLite.step, CoreLite.stepFsm, CoreLite.stepMem, netlist]
  · cases rst <;> simp [absLite, liteFsm, CoreLite.step, CoreLite.stepFsm, CoreLite.stepMem, netlist]
  · have lh := lh rfl
    have la := la rfl
    have ld := ld rfl
    generalize e1 : top.next_height_width ⟨al, rd, arr, ra, ad, 8, bv, rv, hw, br, wen, wd, wa, wr, awr, rr, db⟩ iwv iwd iws false = x1 at lh
    generalize e2 : top.next_allowed_cycles ⟨al, rd, arr, ra, ad, 8, bv, rv, hw, br, wen, wd, wa, wr, awr, rr, db⟩ iwv iwd iws false = x2 at la
    generalize e3 : top.next_wp_data ⟨al, rd, arr, ra, ad, 8, bv, rv, hw, br, wen, wd, wa, wr, awr, rr, db⟩ rp iwv iwd iws false = x3 at ld
    unfold top.step
    rw [e1, e2, e3]
    clear e1 e2 e3
    subst lh la ld
    cases iwv
    · cases rst <;> simp [absLite, liteFsm, CoreLite.step, CoreLite.stepFsm, CoreLite.stepMem, netlist]
    by_cases h1 : ad.testBit 10 = true <;> by_cases h2 : ad % 64 < 26 <;> by_cases h3 : ad.testBit 11 = true <;> by_cases h5 : ad.testBit 12 = true <;>
      rcases hp with h4 | h4 <;> cases rst <;>
      simp [absLite, liteFsm, CoreLite.step, CoreLite.stepFsm, CoreLite.stepMem, netlist, s6, h0, h00, h1, h2, h3, h4, h5, m2, s3, coreDbg,
        CoreLite.writeData, CoreLite.isSsss, CoreLite.ssssIndex, CoreLite.isHw, CoreLite.hwIndex, CoreLite.rpData, CoreLite.rpDataIn, CoreLite.isDebug, slc] <;>
      (try rw [hrp (Or.inr rfl) h2]) <;> (try omega)
  · cases ibr <;> cases rst <;> simp [absLite, liteFsm, CoreLite.step, CoreLite.stepFsm, CoreLite.stepMem, netlist]

end Netlist.CoreLiteV
