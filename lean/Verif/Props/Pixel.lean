/-
Property theorems C01-C04: coding of one pixel.
`Model.*` is the hardware, `Spec.*` the T.81 specification.
-/
import Verif.Proof.Pixel

set_option autoImplicit false

namespace Props
open Spec Model

/-- What the stages difference, normalize and encode compute for one pixel `x` with
prediction `p` and table memory `mem`: `(enc_out, enc_ctr)`.
(The cycle-accurate pipeline delivering exactly this is the subject of C10.) -/
def hwPixel (bd : Nat) (mem : List Nat) (x p : Nat) : Nat × Nat :=
  let val := Difference.diffVal bd x p
  let mns := Difference.diffMns bd x p
  let v := Normalize.normVal bd val mns
  let s := Normalize.normSsss bd val mns
  let rp := mem.getD s 0
  (Encode.encVal bd s v rp, Encode.encLen bd s rp)

/-- The code bits: the `enc_ctr` low bits of `enc_out`. -/
def hwBits (bd : Nat) (mem : List Nat) (x p : Nat) : List Bool :=
  toBits (hwPixel bd mem x p).2 (hwPixel bd mem x p).1

theorem hwBits_eq {bd : Nat} {mem : List Nat} {T : Table} (h0 : 0 < bd) (h16 : bd ≤ 16)
    (hm : MemRep bd mem T) {x p : Nat} (hx : x < 2 ^ bd) (hp : p < 2 ^ bd) :
    hwBits bd mem x p = pixelBits T x p := by
  unfold hwBits hwPixel
  simp only [normSsss_eq h0 h16 hx hp, normVal_eq h0 hx hp]
  exact (enc_pixel h0 h16 hm hx hp).1

/-- C01.  Losslessness of one pixel for depths 2..15: whatever bits follow, the decoder with
the default table reads back exactly the pixel and leaves exactly what follows. -/
theorem C01_pixel_lossless (bd x p : Nat) (h2 : 2 ≤ bd) (h15 : bd ≤ 15) (hx : x < 2 ^ bd)
    (hp : p < 2 ^ bd) (rest : List Bool) :
    decodePixel defaultTable 17 p (hwBits bd (initHuffTable bd) x p ++ rest) = some (x, rest) := by
  rw [hwBits_eq (by omega) (by omega) (initHuffTable_rep (by omega)) hx hp]
  exact decodePixel_pixelBits defaultTable_prefixFree (by omega) hx hp (Or.inl h15) rest

example : decodePixel defaultTable 17 2048 (hwBits 12 (initHuffTable 12) 17 2048 ++ [true, false])
    = some (17, [true, false]) :=
  C01_pixel_lossless 12 17 2048 (by omega) (by omega) (by omega) (by omega) _

/-- C01, any prefix-free table with codes of at most 16 bits (the table can be reprogrammed
over AXI-lite). -/
theorem C01_pixel_lossless_any_table (T : Table) (mem : List Nat) (bd x p : Nat) (h2 : 2 ≤ bd)
    (h15 : bd ≤ 15) (hm : MemRep bd mem T) (hT : PrefixFree T (bd + 1))
    (hx : x < 2 ^ bd) (hp : p < 2 ^ bd) (rest : List Bool) :
    decodePixel T (bd + 1) p (hwBits bd mem x p ++ rest) = some (x, rest) := by
  rw [hwBits_eq (by omega) (by omega) hm hx hp]
  exact decodePixel_pixelBits hT (by omega) hx hp (Or.inl h15) rest

example : MemRep 12 (initHuffTable 12) defaultTable ∧ PrefixFree defaultTable 13 :=
  ⟨initHuffTable_rep (by omega), defaultTable_prefixFree.mono (by omega)⟩

/-- The code word never needs more than `min(16+bd, 31)` bits and always fits its length. -/
theorem C01_code_size (bd x p : Nat) (h2 : 2 ≤ bd) (h16 : bd ≤ 16) (hx : x < 2 ^ bd)
    (hp : p < 2 ^ bd) :
    (hwPixel bd (initHuffTable bd) x p).2 ≤ min (16 + bd) 31 ∧
    (hwPixel bd (initHuffTable bd) x p).1 < 2 ^ (hwPixel bd (initHuffTable bd) x p).2 := by
  have := enc_pixel (by omega) h16 (initHuffTable_rep (bd := bd) h16) hx hp
  unfold hwPixel
  simp only [normSsss_eq (by omega : 0 < bd) h16 hx hp, normVal_eq (by omega : 0 < bd) hx hp]
  exact ⟨this.2.2, this.2.1⟩

/-- C02.  At 16 bits losslessness fails: two different pixels share all code bits. -/
theorem C02_16bit_lossy :
    ¬ ∀ x x' p, x < 2 ^ 16 → x' < 2 ^ 16 → p < 2 ^ 16 →
      hwBits 16 (initHuffTable 16) x p = hwBits 16 (initHuffTable 16) x' p → x = x' := by
  intro h
  have := h 40000 50000 0 (by omega) (by omega) (by omega) (by decide +kernel)
  omega

/-- C02, what is still guaranteed at 16 bits: a pixel at most 32768 away from its prediction
is decoded exactly. -/
theorem C02_16bit_lossless_near (x p : Nat) (hx : x < 2 ^ 16) (hp : p < 2 ^ 16)
    (hd : ((x : Int) - p).natAbs ≤ 32768) (rest : List Bool) :
    decodePixel defaultTable 17 p (hwBits 16 (initHuffTable 16) x p ++ rest) = some (x, rest) := by
  rw [hwBits_eq (by omega) (by omega) (initHuffTable_rep (by omega)) hx hp]
  exact decodePixel_pixelBits defaultTable_prefixFree (by omega) hx hp (Or.inr ⟨rfl, hd⟩) rest

example : ((60000 : Nat) : Int) - (40000 : Nat) = 20000 ∧ (60000 : Nat) < 2 ^ 16 := by decide

/-- C02, sharp: every pixel further than 32768 from its prediction is decoded to a wrong
value. -/
theorem C02_16bit_wrong_far (x p : Nat) (hx : x < 2 ^ 16) (hp : p < 2 ^ 16)
    (hd : 32768 < ((x : Int) - p).natAbs) (rest : List Bool) :
    decodePixel defaultTable 17 p (hwBits 16 (initHuffTable 16) x p ++ rest) ≠ some (x, rest) := by
  rw [hwBits_eq (by omega) (by omega) (initHuffTable_rep (by omega)) hx hp]
  have hb := diff_bound hx hp
  have hc : cls ((x : Int) - p) = 16 :=
    cls_eq (s := 15) (by have : 2 ^ 15 = 32768 := rfl; omega) hb
  unfold decodePixel pixelBits
  rw [decodeDiff_diffBits16 defaultTable_prefixFree (by omega) hc]
  simp only [Option.map_some, ne_eq, Option.some.injEq, Prod.mk.injEq, and_true]
  omega

/-- The default table as the generator writes it: value and length pairs of `get_ssss`
are the code words of the specification's table. -/
theorem C03_table_is_default (s : Nat) (h : s ≤ 16) :
    toBits (getSsss.getD s (0, 0)).2 (getSsss.getD s (0, 0)).1 = defaultTable s := by
  have : ∀ s, s ≤ 16 → toBits (getSsss.getD s (0, 0)).2 (getSsss.getD s (0, 0)).1 = defaultTable s := by
    decide
  exact this s h

/-- C03.  Class boundaries are unambiguous: if the same bit string starts with the code
words of classes `i` and `j` of the generated table, then `i = j`. -/
theorem C03_prefix_code (i j : Nat) (hi : i ≤ 16) (hj : j ≤ 16) (r r' : List Bool)
    (h : toBits (getSsss.getD i (0, 0)).2 (getSsss.getD i (0, 0)).1 ++ r =
         toBits (getSsss.getD j (0, 0)).2 (getSsss.getD j (0, 0)).1 ++ r') : i = j := by
  rw [C03_table_is_default i hi, C03_table_is_default j hj] at h
  have h1 : defaultTable i <+: defaultTable j ++ r' := ⟨r, h⟩
  rcases List.prefix_or_prefix_of_prefix h1 (List.prefix_append _ r') with hp | hp
  · exact defaultTable_prefixFree _ _ (by omega) (by omega) hp
  · exact (defaultTable_prefixFree _ _ (by omega) (by omega) hp).symm

/-- C04.  The normalize stage reports the T.81 class: `2^(s-1) <= |d| < 2^s` (0 for 0), and
its value output is `d` for `d >= 0` and `d - 1 + 2^s` for `d < 0`. -/
theorem C04_class_and_value (bd x p : Nat) (h2 : 2 ≤ bd) (h16 : bd ≤ 16) (hx : x < 2 ^ bd)
    (hp : p < 2 ^ bd) :
    let d : Int := (x : Int) - p
    let s := Normalize.normSsss bd (Difference.diffVal bd x p) (Difference.diffMns bd x p)
    let v := Normalize.normVal bd (Difference.diffVal bd x p) (Difference.diffMns bd x p)
    (d = 0 → s = 0) ∧ (d ≠ 0 → 0 < s ∧ 2 ^ (s - 1) ≤ d.natAbs ∧ d.natAbs < 2 ^ s) ∧
    (0 ≤ d → (v : Int) = d) ∧ (d < 0 → (v : Int) = d - 1 + 2 ^ s) ∧ s ≤ bd := by
  intro d s v
  have hs : s = cls d := normSsss_eq (by omega) h16 hx hp
  have hv : v = extra d := normVal_eq (by omega) hx hp
  rw [hs, hv]
  refine ⟨fun h => by simp [h, cls], fun h => ⟨cls_pos h, cls_bounds d h⟩, ?_, ?_,
    cls_le (diff_bound hx hp)⟩
  · intro h; unfold extra; rw [if_pos h]; omega
  · intro h
    unfold extra
    rw [if_neg (by omega)]
    have := (cls_bounds d (by omega)).2
    have hcast : ((2 ^ cls d : Nat) : Int) = 2 ^ cls d := by simp
    omega

example : Normalize.normSsss 12 (Difference.diffVal 12 17 2048) (Difference.diffMns 12 17 2048) = 11 := by
  have := C04_class_and_value 12 17 2048 (by omega) (by omega) (by omega) (by omega)
  rw [normSsss_eq (by omega) (by omega) (by omega) (by omega)]
  decide

end Props
