/- Property theorems C60, C61: the host test program. -/
import Verif.Spec.Raw12
import Verif.Model.HostTool
import Verif.Props.Stream
import Verif.Props.Stream32

set_option autoImplicit false

namespace Props
open Spec Model Model.Host

/-! ### The pixels of a raw12 file -/

theorem fileBit_at (file : Nat → Nat) (k j t : Nat) (hj : j < 8) (ht : t = 8 * k + j) :
    fileBit file t = (file k).testBit (7 - j) := by
  unfold fileBit
  rw [show t / 8 = k by omega, show t % 8 = j by omega]

theorem raw12_even (file : Nat → Nat) (m : Nat) (h0 : file (3 * m) < 256) (h1 : file (3 * m + 1) < 256) :
    raw12Pixel file (2 * m) = file (3 * m) * 16 + file (3 * m + 1) / 16 := by
  have e : (List.range 12).map (fun j => fileBit file (12 * (2 * m) + j)) =
      toBits 8 (file (3 * m)) ++ toBits 4 (file (3 * m + 1) / 16) := by
    have r : List.range 12 = [0, 1, 2, 3, 4, 5, 6, 7, 8, 9, 10, 11] := rfl
    rw [r]
    simp only [List.map_cons, List.map_nil, toBits, List.cons_append, List.nil_append]
    rw [fileBit_at file (3 * m) 0 _ (by omega) (by omega), fileBit_at file (3 * m) 1 _ (by omega) (by omega),
      fileBit_at file (3 * m) 2 _ (by omega) (by omega), fileBit_at file (3 * m) 3 _ (by omega) (by omega),
      fileBit_at file (3 * m) 4 _ (by omega) (by omega), fileBit_at file (3 * m) 5 _ (by omega) (by omega),
      fileBit_at file (3 * m) 6 _ (by omega) (by omega), fileBit_at file (3 * m) 7 _ (by omega) (by omega),
      fileBit_at file (3 * m + 1) 0 _ (by omega) (by omega), fileBit_at file (3 * m + 1) 1 _ (by omega) (by omega),
      fileBit_at file (3 * m + 1) 2 _ (by omega) (by omega), fileBit_at file (3 * m + 1) 3 _ (by omega) (by omega)]
    rw [show (16 : Nat) = 2 ^ 4 by rfl]
    simp only [Nat.testBit_div_two_pow]
  unfold raw12Pixel
  rw [e, ofBits_append, ofBits_toBits, ofBits_toBits, toBits_length]
  omega

theorem raw12_odd (file : Nat → Nat) (m : Nat) (h2 : file (3 * m + 2) < 256) :
    raw12Pixel file (2 * m + 1) = file (3 * m + 1) % 16 * 256 + file (3 * m + 2) := by
  have e : (List.range 12).map (fun j => fileBit file (12 * (2 * m + 1) + j)) =
      toBits 4 (file (3 * m + 1)) ++ toBits 8 (file (3 * m + 2)) := by
    have r : List.range 12 = [0, 1, 2, 3, 4, 5, 6, 7, 8, 9, 10, 11] := rfl
    rw [r]
    simp only [List.map_cons, List.map_nil, toBits, List.cons_append, List.nil_append]
    rw [fileBit_at file (3 * m + 1) 4 _ (by omega) (by omega), fileBit_at file (3 * m + 1) 5 _ (by omega) (by omega),
      fileBit_at file (3 * m + 1) 6 _ (by omega) (by omega), fileBit_at file (3 * m + 1) 7 _ (by omega) (by omega),
      fileBit_at file (3 * m + 2) 0 _ (by omega) (by omega), fileBit_at file (3 * m + 2) 1 _ (by omega) (by omega),
      fileBit_at file (3 * m + 2) 2 _ (by omega) (by omega), fileBit_at file (3 * m + 2) 3 _ (by omega) (by omega),
      fileBit_at file (3 * m + 2) 4 _ (by omega) (by omega), fileBit_at file (3 * m + 2) 5 _ (by omega) (by omega),
      fileBit_at file (3 * m + 2) 6 _ (by omega) (by omega), fileBit_at file (3 * m + 2) 7 _ (by omega) (by omega)]
  unfold raw12Pixel
  rw [e, ofBits_append, ofBits_toBits, ofBits_toBits, toBits_length]
  omega

theorem nib_hi : ∀ b, b < 256 → (b &&& 0xF0) >>> 4 = b / 16 := by decide +kernel
theorem nib_lo (b : Nat) : b &&& 0x0F = b % 16 := Nat.and_two_pow_sub_one_eq_mod b 4

theorem pixA_eq {base : Nat → Nat} (hb : ∀ k, base k < 256) (m : Nat) : pixA base (3 * m) = raw12Pixel base (2 * m) := by
  rw [raw12_even base m (hb _) (hb _)]
  unfold pixA
  rw [nib_hi _ (hb _)]
  have := hb (3 * m + 1)
  rw [← Nat.shiftLeft_add_eq_or_of_lt (by omega), Nat.shiftLeft_eq]

theorem pixB_eq {base : Nat → Nat} (hb : ∀ k, base k < 256) (m : Nat) : pixB base (3 * m) = raw12Pixel base (2 * m + 1) := by
  rw [raw12_odd base m (hb _)]
  unfold pixB
  rw [nib_lo, ← Nat.shiftLeft_add_eq_or_of_lt (hb _), Nat.shiftLeft_eq]

theorem raw12_lt (file : Nat → Nat) (k : Nat) : raw12Pixel file k < 4096 := by
  have := ofBits_lt ((List.range 12).map fun j => fileBit file (12 * k + j))
  simpa [raw12Pixel] using this

/-- Shifted pixels side by side. -/
theorem shl_or (x b s : Nat) (hb : b < 4096) : (x <<< (12 + s)) ||| (b <<< s) = (x * 4096 + b) <<< s := by
  rw [Nat.shiftLeft_add, ← Nat.shiftLeft_or_distrib]
  congr 1
  rw [← Nat.shiftLeft_add_eq_or_of_lt (by exact hb), Nat.shiftLeft_eq]

theorem pack64 {a b c d : Nat} (ha : a < 4096) (hb : b < 4096) (hc : c < 4096) (hd : d < 4096) :
    ((a <<< 52) ||| (b <<< 40) ||| (c <<< 28) ||| (d <<< 16)) % 2 ^ 64 = a * 2 ^ 52 + b * 2 ^ 40 + c * 2 ^ 28 + d * 2 ^ 16 := by
  rw [shl_or a b 40 hb, shl_or _ c 28 hc, shl_or _ d 16 hd, Nat.shiftLeft_eq]
  omega

theorem pack32 {a b : Nat} (ha : a < 4096) (hb : b < 4096) :
    ((a <<< 20) ||| (b <<< 8)) % 2 ^ 32 = a * 2 ^ 20 + b * 2 ^ 8 := by
  rw [shl_or a b 8 hb, Nat.shiftLeft_eq]
  omega

/-- What the 64-bit loop leaves: one word per four pixels. -/
theorem loop64_at {base : Nat → Nat} (hb : ∀ k, base k < 256) (n i j : Nat) (dst : Nat → Nat) (hi : i = 4 * j) (k : Nat) :
    loop64 base n i (6 * j) j dst k = if j ≤ k ∧ 4 * k < n then
      raw12Pixel base (4 * k) * 2 ^ 52 + raw12Pixel base (4 * k + 1) * 2 ^ 40 + raw12Pixel base (4 * k + 2) * 2 ^ 28 +
        raw12Pixel base (4 * k + 3) * 2 ^ 16 else dst k := by
  unfold loop64
  by_cases h : i < n
  · rw [if_pos h]
    have ih := loop64_at hb n (i + 4) (j + 1) (upd dst j (((pixA base (6 * j) <<< 52) ||| (pixB base (6 * j) <<< 40) |||
      (pixA base (6 * j + 3) <<< 28) ||| (pixB base (6 * j + 3) <<< 16)) % 2 ^ 64)) (by omega) k
    show loop64 base n (i + 4) (6 * j + 6) (j + 1) _ k = _
    rw [show 6 * j + 6 = 6 * (j + 1) by omega, ih]
    by_cases hk : k = j
    · subst hk
      rw [if_neg (by omega), if_pos (by omega)]
      simp only [upd, if_true]
      rw [show 6 * k = 3 * (2 * k) by omega, show 3 * (2 * k) + 3 = 3 * (2 * k + 1) by omega, pixA_eq hb, pixB_eq hb, pixA_eq hb, pixB_eq hb,
        pack64 (raw12_lt ..) (raw12_lt ..) (raw12_lt ..) (raw12_lt ..)]
      rw [show 2 * (2 * k) = 4 * k by omega, show 2 * (2 * k + 1) = 4 * k + 2 by omega]
    · by_cases hc : j + 1 ≤ k ∧ 4 * k < n
      · rw [if_pos hc, if_pos (by omega)]
      · rw [if_neg hc, if_neg (by omega)]
        simp [upd, hk]
  · rw [if_neg h, if_neg (by omega)]
termination_by n - i

theorem loop32_at {base : Nat → Nat} (hb : ∀ k, base k < 256) (n i j : Nat) (dst : Nat → Nat) (hi : i = 2 * j) (k : Nat) :
    loop32 base n i (3 * j) j dst k = if j ≤ k ∧ 2 * k < n then
      raw12Pixel base (2 * k) * 2 ^ 20 + raw12Pixel base (2 * k + 1) * 2 ^ 8 else dst k := by
  unfold loop32
  by_cases h : i < n
  · rw [if_pos h]
    have ih := loop32_at hb n (i + 2) (j + 1) (upd dst j (((pixA base (3 * j) <<< 20) ||| (pixB base (3 * j) <<< 8)) % 2 ^ 32)) (by omega) k
    show loop32 base n (i + 2) (3 * j + 3) (j + 1) _ k = _
    rw [show 3 * j + 3 = 3 * (j + 1) by omega, ih]
    by_cases hk : k = j
    · subst hk
      rw [if_neg (by omega), if_pos (by omega)]
      simp only [upd, if_true]
      rw [pixA_eq hb, pixB_eq hb, pack32 (raw12_lt ..) (raw12_lt ..)]
    · by_cases hc : j + 1 ≤ k ∧ 2 * k < n
      · rw [if_pos hc, if_pos (by omega)]
      · rw [if_neg hc, if_neg (by omega)]
        simp [upd, hk]
  · rw [if_neg h, if_neg (by omega)]
termination_by n - i

/-! ### C60 preparing the input -/

/-- C60: after `re_order_set_raw12_64bits` word `k` of the source region holds pixels `4k` to `4k+3` of the raw12 file
where the 64-bit integrations look for them, and nothing behind the image is written. -/
theorem C60_words64 {file : Nat → Nat} (hb : ∀ k, file k < 256) (dst : Nat → Nat) (k : Nat) :
    (k < 4096 * 3072 / 4 → reOrder64 file dst k < 2 ^ 64 ∧ wordPixels (reOrder64 file dst k) =
      [raw12Pixel file (4 * k), raw12Pixel file (4 * k + 1), raw12Pixel file (4 * k + 2), raw12Pixel file (4 * k + 3)]) ∧
    (4096 * 3072 / 4 ≤ k → reOrder64 file dst k = dst k) := by
  have h := loop64_at hb (4096 * 3072) 0 0 dst rfl k
  unfold reOrder64
  rw [show 6 * 0 = 0 by rfl] at h
  rw [h]
  have h0 := raw12_lt file (4 * k)
  have h1 := raw12_lt file (4 * k + 1)
  have h2 := raw12_lt file (4 * k + 2)
  have h3 := raw12_lt file (4 * k + 3)
  constructor
  · intro hk
    rw [if_pos (by omega)]
    refine ⟨by omega, ?_⟩
    simp only [wordPixels, List.cons.injEq, and_true]
    refine ⟨?_, ?_, ?_, ?_⟩ <;> omega
  · intro hk
    rw [if_neg (by omega)]

/-- C60: the same for `re_order_set_raw12_32bits`, two pixels per 32-bit word. -/
theorem C60_words32 {file : Nat → Nat} (hb : ∀ k, file k < 256) (dst : Nat → Nat) (k : Nat) :
    (k < 4096 * 3072 / 2 → reOrder32 file dst k < 2 ^ 32 ∧ pixels32 (reOrder32 file dst k) =
      [raw12Pixel file (2 * k), raw12Pixel file (2 * k + 1)]) ∧
    (4096 * 3072 / 2 ≤ k → reOrder32 file dst k = dst k) := by
  have h := loop32_at hb (4096 * 3072) 0 0 dst rfl k
  unfold reOrder32
  rw [show 3 * 0 = 0 by rfl] at h
  rw [h]
  have h0 := raw12_lt file (2 * k)
  have h1 := raw12_lt file (2 * k + 1)
  constructor
  · intro hk
    rw [if_pos (by omega)]
    refine ⟨by omega, ?_⟩
    simp only [pixels32, List.cons.injEq, and_true]
    refine ⟨?_, ?_⟩ <;> omega
  · intro hk
    rw [if_neg (by omega)]

theorem flat4 (f : Nat → Nat) (g : Nat → List Nat) (n : Nat)
    (h : ∀ k, k < n → g k = [f (4 * k), f (4 * k + 1), f (4 * k + 2), f (4 * k + 3)]) :
    (List.range n).flatMap g = (List.range (4 * n)).map f := by
  induction n with
  | zero => rfl
  | succ n ih =>
    rw [List.range_succ, List.flatMap_append, ih (fun k hk => h k (by omega)), show 4 * (n + 1) = 4 * n + 1 + 1 + 1 + 1 by omega]
    simp only [List.range_succ, List.map_append, List.flatMap_cons, List.flatMap_nil, h n (by omega), List.map_cons, List.map_nil,
      List.append_assoc, List.append_nil, List.cons_append, List.nil_append]

theorem flat2 (f : Nat → Nat) (g : Nat → List Nat) (n : Nat) (h : ∀ k, k < n → g k = [f (2 * k), f (2 * k + 1)]) :
    (List.range n).flatMap g = (List.range (2 * n)).map f := by
  induction n with
  | zero => rfl
  | succ n ih =>
    rw [List.range_succ, List.flatMap_append, ih (fun k hk => h k (by omega)), show 2 * (n + 1) = 2 * n + 1 + 1 by omega]
    simp only [List.range_succ, List.map_append, List.flatMap_cons, List.flatMap_nil, h n (by omega), List.map_cons, List.map_nil,
      List.append_assoc, List.append_nil, List.cons_append, List.nil_append]

/-- C60: from the raw12 file to the compressed scan: when the words prepared by the program are fed to the 64-bit
AXI-stream core configured for 4096 x 3072, the first frame that ends normally decodes to the pixels of the file. -/
theorem C60_file_to_scan {c : CoreCfg} {T : Table} (h : CamSetup c T) (hps : c.int1.ps = 2) (hbd : c.int1.bd = 12)
    (hW : c.int1.W = 4096) (hH : c.int1.H = 3072) (allowed : Nat) {file : Nat → Nat} (hb : ∀ k, file k < 256) (dst : Nat → Nat)
    (ins : List StreamIn) (i : StreamIn) :
    let source := (List.range (4096 * 3072 / 4)).map (reOrder64 file dst)
    let words := streamGiven c allowed ⟨.init c, source⟩ (ins ++ [i])
    (∀ x ∈ streamGiven c allowed ⟨.init c, source⟩ ins, x.2 = false) → (0xFFFF, true) ∈ words →
    ∃ pad, decode T 13 12 4096 (4096 * 3072) []
      (byteBits (unstuff (wordBytes ((words.drop 8).take (words.length - 16))))) =
        some ((List.range (4096 * 3072)).map (raw12Pixel file), pad) := by
  intro source words hno hw
  obtain ⟨pad, hd⟩ := C52_stream_end_to_end h hps hbd allowed source (hist := []) .zero ins i hno hw
  refine ⟨pad, ?_⟩
  rw [hW, hH] at hd
  have e : source.flatMap wordPixels = (List.range (4096 * 3072)).map (raw12Pixel file) := by
    have := flat4 (raw12Pixel file) (fun k => wordPixels (reOrder64 file dst k)) (4096 * 3072 / 4)
      (fun k hk => ((C60_words64 hb dst k).1 hk).2)
    rw [show 4 * (4096 * 3072 / 4) = 4096 * 3072 by rfl] at this
    rw [← this]
    simp only [source, List.flatMap_map]
  have e2 : (((source ++ ([] ++ (ins ++ [i])).flatMap StreamIn.arrive).flatMap wordPixels).drop (0 * (4096 * 3072))).take (4096 * 3072) =
      (List.range (4096 * 3072)).map (raw12Pixel file) := by
    rw [Nat.zero_mul, List.drop_zero, List.flatMap_append, e]
    exact List.take_left' (by rw [List.length_map, List.length_range])
  rw [← e2]
  exact hd

/-- C60: the same over the 32-bit AXI-stream core. -/
theorem C60_file_to_scan32 {c : CoreCfg} {T : Table} (h : CamSetup c T) (hps : c.int1.ps = 2) (hbd : c.int1.bd = 12)
    (hW : c.int1.W = 4096) (hH : c.int1.H = 3072) (allowed : Nat) {file : Nat → Nat} (hb : ∀ k, file k < 256) (dst : Nat → Nat)
    (ins : List AxisIn) (i : AxisIn)
    (hsrc : axisMoved c allowed (Cam.init c) (ins ++ [i]) <+: (List.range (4096 * 3072 / 2)).map (reOrder32 file dst))
    (hno : ∀ x ∈ camGiven c allowed (Cam.init c) (axisCam ins), x.2 = false)
    (hw : (0xFFFF, true) ∈ camGiven c allowed (Cam.init c) (axisCam (ins ++ [i]))) :
    let words := camGiven c allowed (Cam.init c) (axisCam (ins ++ [i]))
    ∃ pad, decode T 13 12 4096 (4096 * 3072) []
      (byteBits (unstuff (wordBytes ((words.drop 8).take (words.length - 16))))) =
        some ((List.range (4096 * 3072)).map (raw12Pixel file), pad) := by
  intro words
  obtain ⟨hl, pad, hd⟩ := C55_stream32_end_to_end h hps hbd allowed (n := 0) (hist := []) .zero ins i hno hw
  refine ⟨pad, ?_⟩
  rw [hW, hH] at hd hl
  have e : ((List.range (4096 * 3072 / 2)).map (reOrder32 file dst)).flatMap pixels32 =
      (List.range (4096 * 3072)).map (raw12Pixel file) := by
    have := flat2 (raw12Pixel file) (fun k => pixels32 (reOrder32 file dst k)) (4096 * 3072 / 2)
      (fun k hk => ((C60_words32 hb dst k).1 hk).2)
    rw [show 2 * (4096 * 3072 / 2) = 4096 * 3072 by rfl] at this
    rw [← this, List.flatMap_map]
  have e2 : (axisMoved c allowed (Cam.init c) ([] ++ (ins ++ [i]))).flatMap pixels32 = (List.range (4096 * 3072)).map (raw12Pixel file) := by
    obtain ⟨z, hz⟩ := hsrc
    rw [← hz, List.flatMap_append] at e
    rw [← e]
    have := congrArg List.length e
    rw [List.length_append, List.length_map, List.length_range] at this
    have hl' : ((axisMoved c allowed (Cam.init c) (ins ++ [i])).flatMap pixels32).length = (0 + 1) * (4096 * 3072) := hl
    have : (z.flatMap pixels32).length = 0 := by omega
    rw [List.eq_nil_of_length_eq_zero this, List.append_nil]
    rfl
  rw [e2] at hd
  rw [Nat.zero_mul, List.drop_zero] at hd
  exact hd

-- Bytes 12 34 56 are the pixels 123, 456; the configuration of beta_integration.py meets the hypotheses of
-- C60_file_to_scan (that a frame end comes is C52_stream_always_ends).
example : raw12Pixel (fun k => [0x12, 0x34, 0x56].getD k 0) 0 = 0x123 ∧ raw12Pixel (fun k => [0x12, 0x34, 0x56].getD k 0) 1 = 0x456 := by
  decide

example : CamSetup betaCore defaultTable ∧ betaCore.int1.ps = 2 ∧ betaCore.int1.bd = 12 ∧ betaCore.int1.W = 4096 ∧ betaCore.int1.H = 3072 :=
  ⟨⟨default_setup (by decide) rfl, rfl, default_long _ (by decide)⟩, rfl, rfl, rfl, rfl⟩

end Props
