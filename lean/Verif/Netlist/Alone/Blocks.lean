/- The stand-alone netlists of the pipeline blocks (16-bit pixels) against the model of migen_src. -/
import Verif.Netlist.Alone.Difference
import Verif.Netlist.Alone.Normalize
import Verif.Netlist.Alone.Encode
import Verif.Netlist.Alone.Merge
import Verif.Netlist.Alone.Px4
import Verif.Netlist.Alone.Pix12
import Verif.Netlist.Int1

set_option autoImplicit false

/-! ### difference.v -/

namespace Netlist.DiffV
open Netlist Model Netlist.Beta

/-- The registers of the netlist as registers of the model.  The ports `val_out$4`, `val_out$5` are
`vals_out` (difference.py:61), `val_out`, `val_out$3` are `vals_out_mns` (difference.py:64). -/
def abs (s : top.S) : Difference :=
  { vals := [s.val_out_4, s.val_out_5], mns := [s.val_out, s.val_out_3], valid := s.valid_out, endd := s.end_out }

theorem rst (s : top.S) (x p x' p' : Nat) (e v : Bool) : abs (top.step s x p x' p' e true v) = Difference.init 2 := by
  simp [netlist, abs, Difference.init]

theorem diffVal_eq (x p : Nat) (hx : x < 65536) (hp : p < 65536) :
    (2 ^ 17 + x - p) % 2 ^ 17 = Difference.diffVal 16 x p := by
  simp only [Difference.diffVal]; omega

theorem diffMns_eq (x p : Nat) (_hx : x < 65536) (_hp : p < 65536) :
    (2 ^ 18 + Difference.diffVal 16 x p - 1) % 2 ^ 18 % 2 ^ 17 = Difference.diffMns 16 x p := by
  simp only [Difference.diffMns, Difference.diffVal]; omega

theorem step (s : top.S) (x p x' p' : Nat) (e v : Bool) (hx : x < 65536) (hp : p < 65536)
    (hx' : x' < 65536) (hp' : p' < 65536) :
    abs (top.step s x p x' p' e false v) = (abs s).step 16 [x, x'] [p, p'] v e := by
  have h1 := diffVal_eq x p hx hp
  have h2 := diffVal_eq x' p' hx' hp'
  have h3 := diffMns_eq x p hx hp
  have h4 := diffMns_eq x' p' hx' hp'
  cases v <;> simp only [netlist, abs, Difference.step, slc_zero, h1, h2, h3, h4] <;> simp

end Netlist.DiffV

/-! ### normalize.v -/

namespace Netlist.NormV
open Netlist Model Netlist.Beta

/-- The registers of the netlist as registers of the model. -/
def abs (s : top.S) : Normalize :=
  { vals := [s.u_w6.val_out], ssss := [s.u_w6.ssss], valid := s.u_w6.valid_o, endd := s.u_w6.end_out }

theorem rst (s : top.S) (v e : Bool) (m x : Nat) : abs (top.step s v e m true x) = Normalize.init 1 := by
  simp [netlist, abs, Normalize.init]

theorem negTree_16 (m : Nat) : Normalize.negTree 16 m 0 15 =
    if Normalize.negTest 16 m 7 then
      if Normalize.negTest 16 m 3 then
        if Normalize.negTest 16 m 1 then (if Normalize.negTest 16 m 0 then 0 else 1)
        else (if Normalize.negTest 16 m 2 then 2 else 3)
      else if Normalize.negTest 16 m 5 then (if Normalize.negTest 16 m 4 then 4 else 5)
        else (if Normalize.negTest 16 m 6 then 6 else 7)
    else if Normalize.negTest 16 m 11 then
      if Normalize.negTest 16 m 9 then (if Normalize.negTest 16 m 8 then 8 else 9)
      else (if Normalize.negTest 16 m 10 then 10 else 11)
    else if Normalize.negTest 16 m 13 then (if Normalize.negTest 16 m 12 then 12 else 13)
      else (if Normalize.negTest 16 m 14 then 14 else 15) := by
  have leaf : ∀ a, Normalize.negTree 16 m a a = a := by intro a; rw [Normalize.negTree]; simp
  have pair : ∀ a, Normalize.negTree 16 m a (a + 1) = if Normalize.negTest 16 m a then a else a + 1 := by
    intro a
    rw [Normalize.negTree]
    rw [dif_neg (by omega), if_pos rfl]
  have p0 := pair 0; have p2 := pair 2; have p4 := pair 4; have p6 := pair 6
  have p8 := pair 8; have p10 := pair 10; have p12 := pair 12; have p14 := pair 14
  simp only [Nat.reduceAdd] at p0 p2 p4 p6 p8 p10 p12 p14
  have q : ∀ a b, (¬ b ≤ a) → b ≠ a + 1 → Normalize.negTree 16 m a b =
      if Normalize.negTest 16 m ((a + b) / 2) then Normalize.negTree 16 m a ((a + b) / 2)
      else Normalize.negTree 16 m ((a + b) / 2 + 1) b := by
    intro a b h1 h2
    rw [Normalize.negTree, dif_neg h1, if_neg h2]; rw [Nat.add_comm a b]
  rw [q 0 15 (by omega) (by omega)]
  simp only [Nat.reduceAdd, Nat.reduceDiv]
  rw [q 0 7 (by omega) (by omega), q 8 15 (by omega) (by omega)]
  simp only [Nat.reduceAdd, Nat.reduceDiv]
  rw [q 0 3 (by omega) (by omega), q 4 7 (by omega) (by omega), q 8 11 (by omega) (by omega), q 12 15 (by omega) (by omega)]
  simp only [Nat.reduceAdd, Nat.reduceDiv, p0, p2, p4, p6, p8, p10, p12, p14]

theorem negTest_slc (m i : Nat) : Normalize.negTest 16 m i = (slc m (1 + i) (16 - i) == 2 ^ (16 - i) - 1) := by
  simp only [Normalize.negTest, slc, Nat.shiftRight_eq_div_pow]

theorem norm_val (s : anonymous.S) (x m : Nat) :
    anonymous.next_val_out s x m false true = Normalize.normVal 16 x m := by
  simp only [netlist, Normalize.normVal, Nat.reduceSub, negTree_16, negTest_slc, slc_zero]
  by_cases hb : x.testBit 16 = true
  · simp only [hb, Nat.reduceAdd, Nat.reduceSub, Nat.reducePow, beq_true, if_true, Bool.false_eq_true, if_false]
    repeat' split
    all_goals first | omega | (exfalso; simp_all; done)
  · simp [hb]

theorem norm_ssss (s : anonymous.S) (x m : Nat) :
    anonymous.next_ssss s x m false true = Normalize.normSsss 16 x m := by
  simp only [netlist, Normalize.normSsss, Nat.reduceSub, negTree_16, negTest_slc]
  by_cases hb : x.testBit 16 = true
  · simp only [hb, beq_true, if_true, Bool.false_eq_true, if_false, ite_add_one, ite_mod, Nat.reduceAdd, Nat.reduceSub, Nat.reducePow, Nat.reduceMod]
    rfl
  · simp only [hb, Normalize.posTree, Bool.false_eq_true, if_false, if_true, beq_true, ite_mod, Nat.reduceAdd, Nat.reduceMod,
      Nat.reducePow]

theorem step (s : top.S) (v e : Bool) (m x : Nat) :
    abs (top.step s v e m false x) = (abs s).step 16 [x] [m] v e := by
  cases v
  · simp [netlist, abs, Normalize.step]
  · have h1 := norm_val s.u_w6 x m
    have h2 := norm_ssss s.u_w6 x m
    simp only [abs, Normalize.step, List.zipWith_cons_cons, List.zipWith_nil_left, if_true, ← h1, ← h2]
    rfl

end Netlist.NormV

/-! ### encode.v -/

namespace Netlist.EncV
open Netlist Model Netlist.Beta

/-- The registers of the netlist as registers of the model; the netlist registers the read address. -/
def abs (s : top.S) : Encode :=
  { ssssLate := [s.u_w9.ssss_late], valLate := [s.u_w9.val_in_late], rpData := [s.mem.getD s.r_0_ 0]
    validLate := s.u_w9.valid_late, endLate := s.u_w9.end_late, encOut := [s.u_w9.enc_out], encCtr := [s.u_w9.enc_ctr]
    valid := s.u_w9.valid_out, endd := s.u_w9.end_out }

theorem step (s : top.S) (e v : Bool) (ss x : Nat) :
    abs (top.step s e v ss false x) = (abs s).step 16 s.mem [x] [ss] v e := by
  obtain ⟨r, mem, u1, u2, u3, u4, u5, u6, u7, vl⟩ := s
  cases vl <;> by_cases h : u4 = 16 <;>
    simp [netlist, abs, Encode.step, Encode.encVal, Encode.encLen, singleCtr, h, slc_testBit]

theorem rst (s : top.S) (e v : Bool) (ss x : Nat) :
    abs (top.step s e v ss true x) = Encode.reset 1 ((abs s).step 16 s.mem [x] [ss] v e).rpData := by
  simp [netlist, abs, Encode.step, Encode.reset]

theorem mem_kept (s : top.S) (e v r : Bool) (ss x : Nat) : (top.step s e v ss r x).mem = s.mem := rfl

theorem table (s : top.S) (h : top.Init s) : s.mem = initHuffTable 16 := by
  rw [h.1]; decide

end Netlist.EncV

/-! ### merge.v -/

namespace Netlist.MergeV
open Netlist Model Netlist.Beta

/-- The registers of the netlist as registers of the model. -/
def abs (s : top.S) : Merger :=
  { enc := s.u_w9.enc_out, ctr := s.u_w9.enc_out_ctr, valid := s.u_w9.valid_out, endd := s.u_w9.end_out }

theorem rst (s : top.S) (c : Nat) (v e : Bool) (x' c' x : Nat) : abs (top.step s c v e x' c' true x) = Merger.init := by
  simp [netlist, abs, Merger.init]

theorem step (s : top.S) (c : Nat) (v e : Bool) (x' c' x : Nat) (hx : x' < 2 ^ 31) :
    abs (top.step s c v e x' c' false x) = (abs s).step (singleCtr 16) ⟨x, c, v, e⟩ ⟨x', c', v, e⟩ := by
  have hb : bitsFor (singleCtr 16 * 2) = 6 := by decide
  have h62 : singleCtr 16 * 2 = 62 := by decide
  cases v
  · simp [netlist, abs, Merger.step]
  · simp only [netlist, abs, Merger.step, if_true, Bool.false_eq_true, if_false, hb]
    congr 1
    rw [h62, or_mod_pow, Nat.shiftLeft_eq, Nat.mod_eq_of_lt (a := x') (by omega)]

end Netlist.MergeV

/-! ### predictor_p1_c4_px4.v, predictor_p1_c4_pix1_2.v -/

namespace Netlist.Px4V
open Netlist Model Netlist.Beta

/-- The registers of the netlist as registers of the model. -/
def abs (s : top.S) : Px4 :=
  { buffs := [s.buff, s.buff_11, s.buff_13, s.buff_15], lbuffs := [s.lbuff, s.lbuff_10, s.lbuff_12, s.lbuff_14]
    pixelsOut := [s.pixel_out, s.pixel_out_7, s.pixel_out_8, s.pixel_out_9]
    predicsOut := [s.predic_out, s.predic_out_4, s.predic_out_5, s.predic_out_6]
    valid := s.valid_out, endd := s.end_out }

theorem rst (s : top.S) (x0 x1 x2 x3 : Nat) (nr e v : Bool) : abs (top.step s x0 x1 x2 x3 nr e true v) = Px4.init 16 := by
  simp [netlist, abs, Px4.init, List.replicate]

theorem step (s : top.S) (x0 x1 x2 x3 : Nat) (nr e v : Bool) :
    abs (top.step s x0 x1 x2 x3 nr e false v) = (abs s).step [x0, x1, x2, x3] nr v e := by
  cases nr <;> cases v <;> simp [netlist, abs, Px4.step]

end Netlist.Px4V

namespace Netlist.Pix12V
open Netlist Model Netlist.Beta

/-- The registers of the netlist as registers of the model. -/
def abs (s : top.S) : Pix12 :=
  { buffs := [[s.buff, s.buff_24], [s.buff_25, s.buff_26]]
    lbuffs := [[s.lbuff, s.lbuff_30], [s.lbuff_31, s.lbuff_32]]
    buffCtr := s.buff_ctr.toNat, lbuffCtr := s.lbuff_ctr.toNat, newRowReg := s.new_row_reg
    pixelsOut := [s.pixel_out, s.pixel_out_2], predicsOut := [s.predic_out, s.predic_out_3]
    valid := s.valid_out, endd := s.end_out, debugCounter := s.debug_counter }

theorem rst (s : top.S) (nr : Bool) (x x' : Nat) (e v : Bool) : abs (top.step s nr x x' e true v) = Pix12.init 16 2 := by
  simp [netlist, abs, Pix12.init, Pix12.gb, List.replicate]

theorem step (s : top.S) (nr : Bool) (x x' : Nat) (e v : Bool) :
    abs (top.step s nr x x' e false v) = (abs s).step 2 [x, x'] nr v e := by
  have he : (s.debug_counter + 1) % 2 ^ 33 % 2 ^ 32 = (s.debug_counter + 1) % 2 ^ 32 := by omega
  obtain ⟨s1, s2, s3, s4, s5, bc, s7, s8, s9, nrr, s11, s12, s13, s14, s15, s16, s17, lc⟩ := s
  dsimp only at he
  simp only [netlist, slc_zero, abs, he, Pix12.step, Pix12.gb]
  cases bc <;> cases lc <;> cases nrr <;> cases nr <;> cases v <;> simp

end Netlist.Pix12V
