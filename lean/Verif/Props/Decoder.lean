/- Property C46: the decoder shipped with the core (liblj92) reads back what the core produces. -/
import Verif.Proof.Lj92Open
import Verif.Props.Beta

set_option autoImplicit false

namespace Props
open Spec Model Model.Lj92

/-- C46, any encoder: a file made of a header that states precision, lines, samples and the Huffman table `T`, followed
by the stuffed bytes of the code of the samples `acc` and by anything else, is opened by `lj92_open` with the right
dimensions, and `lj92_decode` writes exactly the samples, row by row with `skip` values left alone after each row.
`d` is the memory (bytes after the file are arbitrary), `mem` the memory the look-up table is allocated in, `ub` the
value of an undefined shift. -/
theorem C46_decoder_inverts {counts vals comps sels tail bytes acc : List Nat} {T : Table} {bd W H : Nat} {pad : List Bool}
    (hD : Describes counts vals T (bd + 1)) (hbd1 : 1 ≤ bd) (hbd : bd ≤ 15) (hW4 : W % 4 = 0) (hW16 : 16 ≤ W) (hW : W < 4 * 65536)
    (hH : H < 65536) (hcomps : comps.length = 12) (hsels : sels.length = 8)
    (hlen : acc.length = W * H) (hacc : ∀ x ∈ acc, x < 2 ^ bd) (hbits : byteBits bytes = encode T bd W acc ++ pad)
    {d : Nat → Nat} (hd : ∀ k, d k < 256)
    (hfile : At d 0 (jpegHeader bd H (W / 4) comps counts vals sels ++ (stuff bytes ++ tail)))
    (mem target : Nat → Nat) (ub : Int) (skip : Nat) :
    ∃ s img, open' d (jpegHeader bd H (W / 4) comps counts vals sels ++ (stuff bytes ++ tail)).length mem = some s ∧
      s.x = W / 4 ∧ s.y = H ∧ s.bits = bd ∧ s.components = 4 ∧ Lj92.decode ub s target skip = some img ∧
      (∀ r q, r < H → q < W → img (r * (W + skip) + q) = acc.getD (r * W + q) 0) ∧
      (∀ k, (∀ r q, r < H → q < W → k ≠ r * (W + skip) + q) → img k = target k) := by
  obtain ⟨s, h1, h2, h3, h4, h5, h6, h7, h8, h9, h10, h11⟩ := open_header hD hcomps hsels hH (by omega) hfile mem
  have hrep : Rep d (0, 0, s.scanstart + beh d s.scanstart) (encode T bd W acc) :=
    ⟨by simp, bytes, h11.left, by rw [hbits]; exact List.prefix_append ..⟩
  let s0 : Ljp := { s with image := target, skiplen := skip, ix := s.scanstart + beh s.data s.scanstart, cnt := 0, b := 0 }
  have hready : ScanReady s0 T bd :=
    { bytes := by show ∀ k, s.data k < 256; rw [h2]; exact hd
      comps := h6
      x4 := by show 4 ≤ s.x; omega
      bits := h5
      bd1 := hbd1
      bd15 := hbd
      hb := h7
      lut := fun t ht => h8 t (by omega) }
  have hx : s0.x * 4 = W := by show s.x * 4 = W; omega
  obtain ⟨v, v1, v2⟩ := scan_run ub hready hx (by show acc.length = W * s.y; rw [h4]; exact hlen) hacc
    (by show Rep s.data (0, 0, s.scanstart + beh s.data s.scanstart) _; rw [h2]; exact hrep) (by show 0 ≤ 31; omega)
  have hy : s0.y = H := h4
  have lt : ∀ r q, q < W → (r * W + q < H * W + 0 ↔ r < H) := by
    intro r q hq
    constructor
    · intro hlt
      apply Nat.lt_of_not_le
      intro hge
      have := Nat.mul_le_mul_right W hge
      omega
    · intro hlt
      have : (r + 1) * W ≤ H * W := Nat.mul_le_mul_right W hlt
      rw [Nat.add_mul] at this
      omega
  refine ⟨s, v.1.image, h1, h3, h4, h5, h6, ?_, ?_, ?_⟩
  · unfold Lj92.decode parseScan
    dsimp only
    rw [h2, h9, h10, if_neg (by decide), ← h2]
    rw [v1]
    rfl
  · intro r q hr hq
    exact v2.image r q hq (by rw [hy]; exact (lt r q hq).2 hr)
  · intro k hk
    apply v2.gaps k
    intro r q hq hlt
    rw [hy] at hlt
    exact hk r q ((lt r q hq).1 hlt) hq

/-- C46: the table segment that describes the core's default table. -/
theorem C46_default_table : Describes defaultCounts defaultVals defaultTable 17 where
  len := by decide
  num := by decide
  bytes := by decide
  total := by decide
  fit := by decide
  word := by
    intro t ht
    have key : ∀ t : Fin 17, ∃ k : Fin 17, defaultVals[k.1]? = some t.1 ∧
        ((huffCodes 0 0 (huffSizes (defaultCounts.getD · 0) 16))[k.1]?).any (fun e => defaultTable t.1 == toBits e.1 e.2) = true := by decide
    obtain ⟨k, h1, h2⟩ := key ⟨t, ht⟩
    cases he : (huffCodes 0 0 (huffSizes (defaultCounts.getD · 0) 16))[k.1]? with
    | none => rw [he] at h2; simp at h2
    | some e => rw [he] at h2; exact ⟨k.1, e, h1, he, by simpa using h2⟩

/-- C46, the core: a completely transferred frame (end word FFFF) of the camera integration, markers (eight words on
each side) stripped, the words put down most significant byte first behind a header, is decoded to the accepted image. -/
theorem C46_core_file {c : CoreCfg} {T : Table} (h : CamSetup c T) (hbd : c.int1.bd ≤ 15) (allowed : Nat)
    {s : Cam} (hs : CamAfterReset c s) (ins : List CamIn) (i : CamIn) (hwf : CamWf c (ins ++ [i]))
    (hno : ∀ x ∈ camGiven c allowed s ins, x.2 = false)
    (hw : (0xFFFF, true) ∈ camGiven c allowed s (ins ++ [i]))
    {counts vals comps sels tail : List Nat} (hD : Describes counts vals T (c.int1.bd + 1))
    (hW4 : c.int1.W % 4 = 0) (hW16 : 16 ≤ c.int1.W) (hW : c.int1.W < 4 * 65536) (hH : c.int1.H < 65536)
    (hcomps : comps.length = 12) (hsels : sels.length = 8) {d : Nat → Nat} (hd : ∀ k, d k < 256) (file : List Nat)
    (hfile : file = jpegHeader c.int1.bd c.int1.H (c.int1.W / 4) comps counts vals sels ++
      (wordBytes (((camGiven c allowed s (ins ++ [i])).drop 8).take ((camGiven c allowed s (ins ++ [i])).length - 16)) ++ tail))
    (hmem : At d 0 file) (mem target : Nat → Nat) (ub : Int) (skip : Nat) :
    ∃ l img, open' d file.length mem = some l ∧ l.x * l.components = c.int1.W ∧ l.y = c.int1.H ∧ l.bits = c.int1.bd ∧
      Lj92.decode ub l target skip = some img ∧
      ∀ r q, r < c.int1.H → q < c.int1.W →
        img (r * (c.int1.W + skip) + q) = (camAccepted c allowed s (ins ++ [i])).getD (r * c.int1.W + q) 0 := by
  obtain ⟨body, hg, _, hb⟩ := C30_frame h allowed hs ins i hwf hno 0xFFFF hw
  have hbody : ((camGiven c allowed s (ins ++ [i])).drop 8).take ((camGiven c allowed s (ins ++ [i])).length - 16) = body := by
    rw [hg, List.append_assoc, List.drop_left' (by simp [startMark])]
    rw [show (startMark ++ (body ++ endMark 0xFFFF)).length - 16 = body.length by
      simp [startMark, endMark]]
    exact List.take_left' rfl
  rw [hbody] at hfile
  rcases hb with ⟨_, hl, bytes, k, j, hk, hj, hb1, hb2⟩ | ⟨hx, _⟩
  · rw [hb1, List.append_assoc] at hfile
    obtain ⟨D, P, M, forced, hi⟩ := frame_run_last h allowed ins i hs hwf hno
    obtain ⟨kk, hc⟩ := hi.core
    have hbd2 := h.core.legal.frame.bd2
    subst hfile
    obtain ⟨l, img, a1, a2, a3, a4, a5, a6, a7, _⟩ := C46_decoder_inverts hD (by omega) hbd hW4 hW16 hW hH hcomps hsels hl
      (Int3.inv_bound hc) hb2 hd hmem mem target ub skip
    exact ⟨l, img, a1, by rw [a2, a5]; omega, a3, a4, a6, a7⟩
  · simp at hx


/-! ### A limit: narrow images -/

/-- A table segment with three codes of two bits for the classes 0, 1 and 2. -/
def nCounts : List Nat := [0, 3, 0, 0, 0, 0, 0, 0, 0, 0, 0, 0, 0, 0, 0, 0]
def nTable : Table := fun s => [[false, false], [false, true], [true, false]].getD s []

theorem nDescribes : Describes nCounts [0, 1, 2] nTable 3 where
  len := by decide
  num := by decide
  bytes := by decide
  total := by decide
  fit := by decide
  word := by
    intro t ht
    obtain rfl | rfl | rfl : t = 0 ∨ t = 1 ∨ t = 2 := by omega
    · exact ⟨0, (2, 0), rfl, by decide, by decide⟩
    · exact ⟨1, (2, 1), rfl, by decide, by decide⟩
    · exact ⟨2, (2, 2), rfl, by decide, by decide⟩

def nFile (W : Nat) (bytes : List Nat) : List Nat :=
  jpegHeader 2 2 (W / 4) (List.replicate 12 0) nCounts [0, 1, 2] (List.replicate 8 0) ++ (stuff bytes ++ [0xFF, 0xD9])

/-- C46, a limit of the decoder: with one sample per line and component the two row buffers overlap (they start `x`
values apart and hold `4 * x`), and a legal file of an image of four samples per line is decoded wrongly: the
second sample of the second row does not come out as 0. -/
theorem C46_narrow_limit : ∃ bytes acc pad, acc.length = 4 * 2 ∧ (∀ x ∈ acc, x < 2 ^ 2) ∧ byteBits bytes = encode nTable 2 4 acc ++ pad ∧
    ∃ s img, open' ((nFile 4 bytes).getD · 0) (nFile 4 bytes).length (fun _ => 0) = some s ∧
      Lj92.decode 0 s (fun _ => 0) 0 = some img ∧ acc.getD 5 0 = 0 ∧ img 5 ≠ 0 := by
  refine ⟨[0x53, 0x32, 0x00], [1, 0, 0, 0, 1, 0, 0, 0], [false], rfl, by decide, by decide, ?_⟩
  have key : ((open' ((nFile 4 [0x53, 0x32, 0x00]).getD · 0) (nFile 4 [0x53, 0x32, 0x00]).length (fun _ => 0)).bind fun s =>
      (Lj92.decode 0 s (fun _ => 0) 0).map fun img => img 5) = some 1 := by decide +kernel
  cases h1 : open' ((nFile 4 [0x53, 0x32, 0x00]).getD · 0) (nFile 4 [0x53, 0x32, 0x00]).length (fun _ => 0) with
  | none => rw [h1] at key; simp at key
  | some s =>
    cases h2 : Lj92.decode 0 s (fun _ => 0) 0 with
    | none => rw [h1] at key; simp [h2] at key
    | some img =>
      rw [h1] at key
      simp only [Option.bind_some, h2, Option.map_some, Option.some.injEq] at key
      exact ⟨s, img, rfl, h2, rfl, by omega⟩

/-! ### The hypotheses can be met -/

def wAcc : List Nat := [1, 0, 3, 2, 2, 0, 1, 0, 1, 1, 1, 1, 3, 3, 2, 2, 0, 1, 1, 0, 1, 1, 2, 2, 3, 3, 3, 2, 1, 2, 2, 1]

def wBytes : List Nat := [82, 198, 76, 166, 58, 166, 211, 153, 99, 170, 166, 74, 72]

-- The hypotheses of C46_decoder_inverts on a 16x2 image.
example : wAcc.length = 16 * 2 ∧ (∀ x ∈ wAcc, x < 2 ^ 2) ∧ ∃ pad, byteBits wBytes = encode nTable 2 16 wAcc ++ pad :=
  ⟨by decide, by decide, [false, false], by decide +kernel⟩

example : (∀ k, (fun k => (nFile 16 wBytes).getD k 0) k < 256) ∧ At ((nFile 16 wBytes).getD · 0) 0 (nFile 16 wBytes) := by
  refine ⟨?_, fun k hk => by simp⟩
  intro k
  by_cases hk : k < (nFile 16 wBytes).length
  · have : ∀ x ∈ nFile 16 wBytes, x < 256 := by decide +kernel
    dsimp only
    rw [List.getD_eq_getElem?_getD, List.getElem?_eq_getElem hk]
    exact this _ (List.getElem_mem hk)
  · dsimp only
    rw [List.getD_eq_getElem?_getD, List.getElem?_eq_none (by omega)]
    decide

-- The decoder run itself on that file (three values left alone after each row).
example : ((open' ((nFile 16 wBytes).getD · 0) (nFile 16 wBytes).length (fun _ => 9)).bind fun s =>
      (Lj92.decode 7 s (fun _ => 99) 3).map fun img => (List.range 38).map img) =
    some (wAcc.take 16 ++ [99, 99, 99] ++ wAcc.drop 16 ++ [99, 99, 99]) := by decide +kernel

/-- A beta core with a 16x1 frame of 4-bit pixels. -/
def wideCam : CoreCfg :=
  { int1 := { bd := 4, ps := 1, W := 16, H := 1, mem := initHuffTable 4 }
    depth := 25, conv := 10, cdepth := 12, out := 16, buf := 26 }

example : CamSetup wideCam defaultTable ∧ Describes defaultCounts defaultVals defaultTable (wideCam.int1.bd + 1) :=
  ⟨⟨default_setup (by decide) rfl, rfl, default_long _ (by decide)⟩,
    { C46_default_table with word := fun t ht => C46_default_table.word t (Nat.lt_of_lt_of_le ht (by decide)) }⟩

-- The run hypotheses of C46_core_file: the end-flagged word FFFF comes in the 52nd cycle.
set_option maxRecDepth 20000 in
example : (∀ x ∈ camGiven wideCam 1000 (Cam.init wideCam) (List.replicate 51 ⟨[5], true, false⟩), x.2 = false) ∧
    (0xFFFF, true) ∈ camGiven wideCam 1000 (Cam.init wideCam) (List.replicate 51 ⟨[5], true, false⟩ ++ [⟨[5], true, false⟩]) := by
  decide +kernel

-- The configuration of beta_integration.py meets the conditions on the frame size.
example : betaCore.int1.bd ≤ 15 ∧ betaCore.int1.W % 4 = 0 ∧ 16 ≤ betaCore.int1.W ∧ betaCore.int1.W < 4 * 65536 ∧ betaCore.int1.H < 65536 := by
  decide

end Props
