/- Byte strobes and the AXI-lite slave of the core. -/
import Verif.Model.CoreAxiLite
import Verif.Spec.CoreRegs

set_option autoImplicit false

namespace Proof
open Model Spec

/-- A word from its four bytes. -/
def word4 (a b c d : Nat) : Nat := a + 256 * b + 256 ^ 2 * c + 256 ^ 3 * d

theorem word4_bytes {n : Nat} (h : n < 2 ^ 32) : n = word4 (byteAt n 0) (byteAt n 1) (byteAt n 2) (byteAt n 3) := by
  simp only [word4, byteAt]; omega

theorem set0 {a b c d x : Nat} (ha : a < 256) : setSlice (word4 a b c d) 0 8 x = word4 (x % 256) b c d := by
  simp only [setSlice, word4]; omega
theorem set1 {a b c d x : Nat} (ha : a < 256) (hb : b < 256) :
    setSlice (word4 a b c d) 8 16 x = word4 a (x % 256) c d := by
  simp only [setSlice, word4]; omega
theorem set2 {a b c d x : Nat} (ha : a < 256) (hb : b < 256) (hc : c < 256) :
    setSlice (word4 a b c d) 16 24 x = word4 a b (x % 256) d := by
  simp only [setSlice, word4]; omega
theorem set3 {a b c d x : Nat} (ha : a < 256) (hb : b < 256) (hc : c < 256) (hd : d < 256) :
    setSlice (word4 a b c d) 24 32 x = word4 a b c (x % 256) := by
  simp only [setSlice, word4]; omega

theorem byteAt_lt (n i : Nat) : byteAt n i < 256 := Nat.mod_lt _ (by decide)

theorem putBytes_word {a b c d : Nat} (new strb : Nat) (ha : a < 256) (hb : b < 256) (hc : c < 256) (hd : d < 256) :
    CoreLite.putBytes 3 (word4 a b c d) new strb =
      word4 (if strb.testBit 0 then byteAt new 0 else a) (if strb.testBit 1 then byteAt new 1 else b)
        (if strb.testBit 2 then byteAt new 2 else c) d ∧
    CoreLite.putBytes 4 (word4 a b c d) new strb =
      word4 (if strb.testBit 0 then byteAt new 0 else a) (if strb.testBit 1 then byteAt new 1 else b)
        (if strb.testBit 2 then byteAt new 2 else c) (if strb.testBit 3 then byteAt new 3 else d) := by
  have e0 : CoreLite.putBytes 1 (word4 a b c d) new strb = word4 (if strb.testBit 0 then byteAt new 0 else a) b c d := by
    simp only [CoreLite.putBytes]
    split
    · exact set0 ha
    · rfl
  have h0 : (if strb.testBit 0 then byteAt new 0 else a) < 256 := by split; exact byteAt_lt _ _; exact ha
  have e1 : CoreLite.putBytes 2 (word4 a b c d) new strb =
      word4 (if strb.testBit 0 then byteAt new 0 else a) (if strb.testBit 1 then byteAt new 1 else b) c d := by
    rw [CoreLite.putBytes, e0]
    split
    · exact set1 h0 hb
    · rfl
  have h1 : (if strb.testBit 1 then byteAt new 1 else b) < 256 := by split; exact byteAt_lt _ _; exact hb
  have e2 : CoreLite.putBytes 3 (word4 a b c d) new strb =
      word4 (if strb.testBit 0 then byteAt new 0 else a) (if strb.testBit 1 then byteAt new 1 else b)
        (if strb.testBit 2 then byteAt new 2 else c) d := by
    rw [CoreLite.putBytes, e1]
    split
    · exact set2 h0 h1 hc
    · rfl
  have h2 : (if strb.testBit 2 then byteAt new 2 else c) < 256 := by split; exact byteAt_lt _ _; exact hc
  refine ⟨e2, ?_⟩
  rw [CoreLite.putBytes, e2]
  split
  · exact set3 h0 h1 h2 hd
  · rfl

theorem putBytes4 {old : Nat} (new strb : Nat) (h : old < 2 ^ 32) :
    CoreLite.putBytes 4 old new strb = strobed old new strb := by
  rw [word4_bytes h, (putBytes_word new strb (byteAt_lt _ _) (byteAt_lt _ _) (byteAt_lt _ _) (byteAt_lt _ _)).2,
    ← word4_bytes h]
  rfl

theorem putBytes3 {old : Nat} (new strb : Nat) (h : old < 2 ^ 24) :
    CoreLite.putBytes 3 old new strb = strobed old new strb % 2 ^ 24 := by
  have h' : old < 2 ^ 32 := by omega
  have h3 : byteAt old 3 = 0 := by simp only [byteAt]; omega
  have hp : ∀ i, (if strb.testBit i then byteAt new i else byteAt old i) < 256 := by
    intro i; split <;> exact byteAt_lt _ _
  have := hp 0; have := hp 1; have := hp 2; have := hp 3
  rw [word4_bytes h', (putBytes_word new strb (byteAt_lt _ _) (byteAt_lt _ _) (byteAt_lt _ _) (byteAt_lt _ _)).1,
    ← word4_bytes h', h3]
  simp only [word4, strobed]
  omega

theorem strobed_lt (old new strb : Nat) : strobed old new strb < 2 ^ 32 := by
  have hb : ∀ n i, byteAt n i < 256 := fun n i => Nat.mod_lt _ (by decide)
  have hp : ∀ i, (if strb.testBit i then byteAt new i else byteAt old i) < 256 := by
    intro i; split <;> exact hb _ _
  have := hp 0; have := hp 1; have := hp 2; have := hp 3
  simp only [strobed]
  omega

theorem div4_testBit (a k : Nat) : (a / 4).testBit k = a.testBit (2 + k) := by
  rw [show (4 : Nat) = 2 ^ 2 from rfl, Nat.testBit_div_two_pow, Nat.add_comm]

/-- The address decoder agrees with the register map. -/
theorem lite_decode {bd : Nat} {s : CoreLite} {a : Nat} (h : s.addr = a / 4) :
    s.isSsss bd = inTable bd a ∧ s.isHw = inHw a ∧ s.isDebug = inDebug a ∧ s.ssssIndex % 2 = a / 4 % 2 ∧
    s.ssssIndex / 2 = a / 8 % 32 ∧ s.hwIndex = a / 4 % 2 ∧ s.debugIndex = a / 4 % 8 := by
  simp only [CoreLite.isSsss, CoreLite.isHw, CoreLite.isDebug, CoreLite.ssssIndex, CoreLite.hwIndex,
    CoreLite.debugIndex, h, inTable, inHw, inDebug, div4_testBit, true_and, and_true]
  refine ⟨by omega, by omega⟩

end Proof
