/- Properties C62-C64: the software codec (liblj92): its encoder, and its decoder on what the encoder writes. -/
import Verif.Proof.Lj92Encode
import Verif.Proof.Lj92Pred6

set_option autoImplicit false

namespace Props
open Spec Model.Lj92

/-- What `lj92_encode` is called with: an image of `acc`, groups of `readLength` samples with `skipLength` values left out
between them, no delinearization, sizes that the header can state and that do not overflow an `int`. -/
structure EncArgs (a : Enc.Args) (acc : List Nat) : Prop where
  w1 : 1 ≤ a.width
  h1 : 1 ≤ a.height
  w16 : a.width < 65536
  h16 : a.height < 65536
  int : a.width * a.height * 3 + 200 < 2 ^ 31
  bd : a.bitdepth < 256
  group : 1 ≤ a.readLength
  plain : a.delinearize = none
  len : acc.length = a.width * a.height
  image : ∀ n, n < acc.length → a.image (strided a.readLength a.skipLength n) = acc.getD n 0

/-- C62: `lj92_encode` writes a complete, legal file of the image (of at most four bytes more than it allocated), or it
reports an encoder error, and that only if the file is longer than what it allocated. It never fails otherwise. -/
theorem C62_encode {a : Enc.Args} {acc : List Nat} (h : EncArgs a acc) :
    ∃ F, IsFile6 a.bitdepth a.height a.width acc F ∧
      ((Enc.encode a = .ok F ∧ F.length ≤ 3 * (a.width * a.height) + 204) ∨
       (Enc.encode a = .error .encoder ∧ 3 * (a.width * a.height) + 202 ≤ F.length)) := by
  obtain ⟨counts, vals, T, bytes, h1, h2, h3, h4⟩ := Enc.encode_spec h.w1 h.h1 h.w16 h.h16 h.int h.bd h.group h.plain h.len h.image
  exact ⟨_, ⟨counts, vals, T, bytes, h1, h2, h3, rfl⟩, h4⟩

/-- C62: what is written is a file of the image. -/
theorem C62_file {a : Enc.Args} {acc F : List Nat} (h : EncArgs a acc) (hF : Enc.encode a = .ok F) : IsFile6 a.bitdepth a.height a.width acc F := by
  obtain ⟨F', h1, h2⟩ := C62_encode h
  rcases h2 with ⟨h2, _⟩ | ⟨h2, _⟩
  · rw [hF] at h2; injection h2 with h2; rw [h2]; exact h1
  · rw [hF] at h2; simp at h2

/-- C62: between the scan header and the end of image no marker occurs. -/
theorem C62_no_marker {a : Enc.Args} {acc F : List Nat} (h : EncArgs a acc) (hF : Enc.encode a = .ok F) :
    ∃ head scan, F = head ++ scan ++ [0xFF, 0xD9] ∧ MarkerFree scan ∧ head.drop (head.length - 10) = [0xFF, 0xDA, 0, 8, 1, 0, 0, 6, 0, 0] := by
  obtain ⟨counts, vals, T, bytes, h1, h2, h3, h4⟩ := C62_file h hF
  refine ⟨_, _, h4, ?_, ?_⟩
  · clear h3 h4
    induction bytes with
    | nil => simp [stuff, MarkerFree]
    | cons b l ih =>
      have := ih (fun x hx => h2 x (List.mem_cons_of_mem _ hx))
      unfold stuff
      split
      · exact ⟨fun _ => ⟨_, rfl⟩, fun h => by simp at h, this⟩
      · rename_i hb; exact ⟨fun h => absurd h hb, this⟩
  · have : (header6 a.bitdepth a.height a.width counts vals) =
        ([0xFF, 0xD8] ++ ([0xFF, 0xC4] ++ be16 (19 + vals.length) ++ [0] ++ counts ++ vals) ++
        ([0xFF, 0xC3] ++ be16 11 ++ [a.bitdepth] ++ be16 a.height ++ be16 a.width ++ [1, 0, 0x11, 0])) ++ [0xFF, 0xDA, 0, 8, 1, 0, 0, 6, 0, 0] := rfl
    rw [this, List.length_append]
    exact List.drop_left' (by simp)

/-! ### The code is the code of T.81 -/

theorem pred6_bounds {bd W : Nat} {acc : List Nat} (hbd : 1 ≤ bd) (hacc : ∀ x ∈ acc, x < 2 ^ bd) (i : Nat) :
    -(2 ^ bd : Nat) < 2 * pred6 bd W acc i + 1 ∧ 2 * pred6 bd W acc i < 3 * (2 ^ bd : Nat) := by
  have hb : ∀ k, acc.getD k 0 < 2 ^ bd := by
    intro k
    by_cases hk : k < acc.length
    · rw [List.getD_eq_getElem?_getD, List.getElem?_eq_getElem hk]; exact hacc _ (List.getElem_mem hk)
    · rw [List.getD_eq_getElem?_getD, List.getElem?_eq_none (by omega)]; exact Nat.two_pow_pos _
  have hp : (2 : Int) ^ (bd - 1) * 2 = (2 ^ bd : Nat) := by
    rw [← Int.pow_succ, Nat.succ_eq_add_one, Nat.sub_add_cancel hbd]; simp
  have hp2 : (0 : Int) < 2 ^ (bd - 1) := Int.pow_pos (by decide)
  unfold pred6
  have a1 := hb (i - 1)
  have a2 := hb (i - W)
  have a3 := hb (i - W - 1)
  generalize 2 ^ bd = M at *
  split
  · omega
  · split
    · omega
    · split
      · omega
      · omega

/-- C63: for samples of `bd` bits the classes go up to `bd + 1`, and the differences are not reduced. -/
theorem C63_classes {bd W : Nat} {acc : List Nat} (hbd : 1 ≤ bd) (hbd15 : bd ≤ 15) (hacc : ∀ x ∈ acc, x < 2 ^ bd) {i : Nat} (hi : i < acc.length) :
    diff6 bd W acc i = (acc.getD i 0 : Int) - pred6 bd W acc i ∧ cls (diff6 bd W acc i) ≤ bd + 1 := by
  obtain ⟨p1, p2⟩ := pred6_bounds (W := W) hbd hacc i
  have hx : acc.getD i 0 < 2 ^ bd := by
    rw [List.getD_eq_getElem?_getD, List.getElem?_eq_getElem hi]; exact hacc _ (List.getElem_mem hi)
  have hM : 2 ^ bd ≤ 2 ^ 15 := Nat.pow_le_pow_right (by decide) hbd15
  have hd : diff6 bd W acc i = (acc.getD i 0 : Int) - pred6 bd W acc i := by
    unfold diff6
    generalize pred6 bd W acc i = p at *
    generalize acc.getD i 0 = x at *
    generalize 2 ^ bd = M at *
    rcases Int.le_total 0 ((x : Int) - p) with h | h
    · exact Int.tmod_eq_of_lt h (by omega)
    · have : ((x : Int) - p) = -(p - x) := by omega
      rw [this, Int.neg_tmod, Int.tmod_eq_of_lt (by omega) (by omega)]
  refine ⟨hd, ?_⟩
  rw [hd]
  apply cls_le
  rw [Nat.pow_succ]
  generalize pred6 bd W acc i = p at *
  generalize acc.getD i 0 = x at *
  generalize 2 ^ bd = M at *
  omega

/-- C63: for up to fourteen bits the scan is the code of T.81 (annex H) for the differences to the predictions: class 16 does
not occur. -/
theorem C63_t81 {T : Table} {bd W : Nat} {acc : List Nat} (hbd : 1 ≤ bd) (hbd14 : bd ≤ 14) (hacc : ∀ x ∈ acc, x < 2 ^ bd) :
    encode6 T bd W acc = (List.range acc.length).flatMap fun i => diffBits T ((acc.getD i 0 : Int) - pred6 bd W acc i) := by
  unfold encode6
  have : ∀ i ∈ List.range acc.length, wideBits T (diff6 bd W acc i) = diffBits T ((acc.getD i 0 : Int) - pred6 bd W acc i) := by
    intro i hi
    rw [List.mem_range] at hi
    obtain ⟨h1, h2⟩ := C63_classes (W := W) hbd (by omega) hacc hi
    unfold wideBits diffBits
    rw [h1] at h2 ⊢
    rw [if_neg (by omega)]
  simp only [List.flatMap_def]
  rw [List.map_congr_left this]

/-! ### Decoding -/

theorem describes_small {bd W : Nat} {acc counts vals : List Nat} {T : Table} (hD : DescribesFor counts vals T (fun t => 0 < classCount bd W acc t)) :
    vals.length ≤ 17 ∧ ∀ x, x ∈ counts ++ vals → x < 255 := by
  have hv : ∀ v ∈ vals, v < 17 := by
    intro v hv
    have := (hD.mem v).1 hv
    apply Classical.byContradiction
    intro hge
    rw [Enc.classCount_big _ _ _ _ (by omega)] at this
    omega
  have hl : vals.length ≤ 17 := by
    have h1 : vals ⊆ List.range 17 := fun v h => List.mem_range.2 (hv v h)
    have h2 := List.Nodup.length_le_of_subset hD.nodup h1
    simpa using h2
  refine ⟨hl, ?_⟩
  intro x hx
  rw [List.mem_append] at hx
  rcases hx with hx | hx
  · obtain ⟨s, r, rfl⟩ := List.append_of_mem hx
    have := hD.num
    rw [List.sum_append, List.sum_cons] at this
    omega
  · have := hv x hx; omega

theorem word_pos {bd W : Nat} {acc counts vals : List Nat} {T : Table} (hD : DescribesFor counts vals T (fun t => 0 < classCount bd W acc t))
    {n : Nat} (hn : n < acc.length) : 1 ≤ (T (cls (diff6 bd W acc n))).length := by
  obtain ⟨k, hk⟩ := List.getElem?_of_mem ((hD.mem _).2 (Enc.classCount_pos (bd := bd) (W := W) hn))
  obtain ⟨e, h1, h2⟩ := hD.word k _ hk
  have := huffSizes_le _ 16 _ (Enc.huffCodes_size_mem (List.mem_of_getElem? h1))
  rw [h2]
  simp only [toBits_length]
  exact this.1

/-- C64, any encoder: a file of an image of at least 32 by 2 samples of up to fourteen bits is opened by `lj92_open` with the
right dimensions, and `lj92_decode` writes exactly the samples (through the linearization table, if one is given that covers
them), in groups of `group` with `skip` values left alone after each. `d` is the memory (bytes after the file are arbitrary),
`mem` the memory the look-up table is allocated in, `ub` the value of an undefined shift. -/
theorem C64_decoder_inverts {bd H W : Nat} {acc F : List Nat} (hF : IsFile6 bd H W acc F) (hbd1 : 1 ≤ bd) (hbd : bd ≤ 14) (hW32 : 32 ≤ W) (hW : W < 65536)
    (hH2 : 2 ≤ H) (hH : H < 65536) (hlen : acc.length = W * H) (hacc : ∀ x ∈ acc, x < 2 ^ bd) {d : Nat → Nat} (hd : ∀ k, d k < 256)
    (hfile : At d 0 F) (lin : Option Lin) (hlin : ∀ l, lin = some l → ∀ x ∈ acc, x ≤ l.len) (mem target : Nat → Nat) (ub : Int) {group : Nat} (hg : 2 ≤ group) (skip : Nat) :
    ∃ s img, open' d F.length mem = some s ∧ s.x = W ∧ s.y = H ∧ s.bits = bd ∧ s.components = 1 ∧ decodeAny ub s target group skip lin = some img ∧
      (∀ n, n < W * H → img (strided group skip n) = linear lin (acc.getD n 0)) ∧
      (∀ k, (∀ n, n < W * H → k ≠ strided group skip n) → img k = target k) := by
  obtain ⟨counts, vals, T, bytes, hD, hb, hbits, rfl⟩ := hF
  rw [List.append_assoc] at hfile ⊢
  obtain ⟨hvl, hby⟩ := describes_small hD
  obtain ⟨s, o1, o2, o3, o4, o5, o6, o7, o8, o9, o10, o11, o12, o13⟩ := open_header6 hD hby (by omega) hH hW (by simp) hfile mem
  have hget : ∀ n, acc.getD n 0 < 2 ^ bd := by
    intro k
    by_cases hk : k < acc.length
    · rw [List.getD_eq_getElem?_getD, List.getElem?_eq_getElem hk]; exact hacc _ (List.getElem_mem hk)
    · rw [List.getD_eq_getElem?_getD, List.getElem?_eq_none (by omega)]; exact Nat.two_pow_pos _
  have hM : 2 ^ bd ≤ 2 ^ 14 := Nat.pow_le_pow_right (by decide) hbd
  let s0 : Ljp := { s with image := target, skiplen := skip }
  have hr : Ready6 s0 T bd W acc lin (s.scanstart + beh d s.scanstart + (stuff bytes).length) :=
    { bytes := by show ∀ k, s.data k < 256; rw [o2]; exact hd
      x := o4
      bits := o6
      hb := o8
      lut := fun n hn => o9 _ (Enc.classCount_pos hn)
      word := fun n hn => word_pos hD hn
      cls15 := fun n hn => by have := (C63_classes (W := W) hbd1 (by omega) hacc hn).2; omega
      lt := fun n => by have := hget n; omega
      lin := fun n hn => by
        unfold beyond
        cases lin with
        | none => rfl
        | some l =>
          have : acc.getD n 0 ∈ acc := by
            rw [List.getD_eq_getElem?_getD, List.getElem?_eq_getElem hn]; exact List.getElem_mem hn
          have := hlin l rfl _ this
          simp only [decide_eq_false_iff_not]
          omega
      ends := by
        show _ < s.datalen
        rw [o3, o12]
        simp only [List.length_append, List.length_cons, List.length_nil]
        omega }
  have hrep : RepE s0.data (s.scanstart + beh d s.scanstart + (stuff bytes).length) (0, 0, s0.scanstart + beh s0.data s0.scanstart) (encode6 T bd W acc) := by
    show RepE s.data _ (0, 0, s.scanstart + beh s.data s.scanstart) _
    rw [o2]
    exact ⟨by simp, bytes, o13.left, by rw [hbits]; exact List.prefix_append .., Or.inl rfl⟩
  obtain ⟨s', r1, r2, r3⟩ := parsePred6_run ub (s := s0) hg hW32 (by show 2 ≤ s.y; rw [o5]; exact hH2) (by show acc.length = W * s.y; rw [o5]; exact hlen) hr hrep
  refine ⟨s, s'.image, o1, o4, o5, o6, o7, ?_, ?_, ?_⟩
  · unfold decodeAny parseAny
    dsimp only
    rw [o2, o10, o11, if_pos rfl]
    have r1' : parsePred6 ub lin group { s with image := target, skiplen := skip } = some s' := r1
    rw [← o2, r1']
    rfl
  · intro n hn
    exact r2 n (by omega)
  · intro k hk
    exact r3 k (fun m hm => hk m (by omega))

/-- C64: what `lj92_encode` writes is read back by `lj92_open` and `lj92_decode`. -/
theorem C64_round_trip {a : Enc.Args} {acc F : List Nat} (h : EncArgs a acc) (hF : Enc.encode a = .ok F) (hbd1 : 1 ≤ a.bitdepth) (hbd : a.bitdepth ≤ 14)
    (hacc : ∀ x ∈ acc, x < 2 ^ a.bitdepth) (hW : 32 ≤ a.width) (hH : 2 ≤ a.height) {d : Nat → Nat} (hd : ∀ k, d k < 256)
    (hfile : At d 0 F) (mem target : Nat → Nat) (ub : Int) {group : Nat} (hg : 2 ≤ group) (skip : Nat) :
    ∃ s img, open' d F.length mem = some s ∧ s.x = a.width ∧ s.y = a.height ∧ s.bits = a.bitdepth ∧ s.components = 1 ∧
      decodeAny ub s target group skip none = some img ∧
      (∀ n, n < a.width * a.height → img (strided group skip n) = a.image (strided a.readLength a.skipLength n)) ∧
      (∀ k, (∀ n, n < a.width * a.height → k ≠ strided group skip n) → img k = target k) := by
  obtain ⟨s, img, h1, h2, h3, h4, h5, h6, h7, h8⟩ := C64_decoder_inverts (C62_file h hF) hbd1 hbd hW h.w16 hH h.h16 h.len hacc hd hfile none
    (fun l hl => by simp at hl) mem target ub hg skip
  refine ⟨s, img, h1, h2, h3, h4, h5, h6, ?_, h8⟩
  intro n hn
  rw [h7 n hn, h.image n (by rw [h.len]; exact hn)]
  rfl

/-! ### Limits -/

/-- `lj92_encode` on a list of samples without gaps. -/
def encList (l : List Nat) (w h bd : Nat) : Enc.Args := ⟨(l.getD · 0), w, h, bd, w * h, 0, none⟩

/-- Bytes of a file with zeros behind them. -/
def fileMem (F : List Nat) : Nat → Nat := (F.getD · 0)

/-- What happens to an image sent through encoder and decoder: nothing if one of the calls fails. -/
def throughCodec (a : Enc.Args) (group skip count : Nat) : Option (List Nat × Option (List Nat)) :=
  match Enc.encode a with
  | .error _ => none
  | .ok F => (open' (fileMem F) F.length fun _ => 0).map fun s => (F, (decodeAny 0 s (fun _ => 99) group skip none).map fun img => (List.range count).map img)

theorem throughCodec_fails {a : Enc.Args} {group skip count : Nat} (h : (throughCodec a group skip count).map (·.2) = some none) :
    ∃ F s, Enc.encode a = .ok F ∧ open' (fileMem F) F.length (fun _ => 0) = some s ∧ decodeAny 0 s (fun _ => 99) group skip none = none := by
  unfold throughCodec at h
  cases h1 : Enc.encode a with
  | error e => rw [h1] at h; simp at h
  | ok F =>
    rw [h1] at h
    dsimp only at h
    cases h2 : open' (fileMem F) F.length (fun _ => 0) with
    | none => rw [h2] at h; simp at h
    | some s =>
      rw [h2] at h
      simp only [Option.map_some, Option.some.injEq, Option.map_eq_none_iff] at h
      exact ⟨F, s, rfl, h2, h⟩

/-- The image of one row of 64 samples. -/
def rowImage : List Nat := (List.range 64).map fun i => i * i % 16

/-- C64, a limit: the file of a legal image of one row is refused by the decoder (it reports corruption when its reading
position reaches the end of the file, although the missing samples are in its buffer). -/
theorem C64_one_row_limit : ∃ F s, EncArgs (encList rowImage 64 1 4) rowImage ∧ (∀ x ∈ rowImage, x < 2 ^ 4) ∧ Enc.encode (encList rowImage 64 1 4) = .ok F ∧
    open' (fileMem F) F.length (fun _ => 0) = some s ∧ decodeAny 0 s (fun _ => 99) 64 0 none = none := by
  obtain ⟨F, s, h1, h2, h3⟩ := throughCodec_fails (a := encList rowImage 64 1 4) (group := 64) (skip := 0) (count := 0) (by decide +kernel)
  refine ⟨F, s, ?_, by decide, h1, h2, h3⟩
  exact ⟨by decide, by decide, by decide, by decide, by decide, by decide, by decide, rfl, by decide, by decide +kernel⟩

/-- The image of two rows of six samples. -/
def narrowImage : List Nat := [0, 1, 0, 0, 0, 0, 0, 0, 0, 0, 0, 0]

/-- C64, a limit: the same for an image of two rows that is too narrow. -/
theorem C64_narrow_limit : ∃ F s, EncArgs (encList narrowImage 6 2 2) narrowImage ∧ (∀ x ∈ narrowImage, x < 2 ^ 2) ∧ Enc.encode (encList narrowImage 6 2 2) = .ok F ∧
    open' (fileMem F) F.length (fun _ => 0) = some s ∧ decodeAny 0 s (fun _ => 99) 6 0 none = none := by
  obtain ⟨F, s, h1, h2, h3⟩ := throughCodec_fails (a := encList narrowImage 6 2 2) (group := 6) (skip := 0) (count := 0) (by decide +kernel)
  refine ⟨F, s, ?_, by decide, h1, h2, h3⟩
  exact ⟨by decide, by decide, by decide, by decide, by decide, by decide, by decide, rfl, by decide, by decide +kernel⟩

/-- An image of two rows of 32 samples. -/
def wideImage : List Nat := (List.range 64).map fun i => i * i % 16

/-- C64, a limit: with groups of one sample nothing is left out (the first sample is counted without a look whether the
group is complete): sample 1 comes to index 1, not to index 4. -/
theorem C64_group_one_limit : ∃ F img, throughCodec (encList wideImage 32 2 4) 1 3 5 = some (F, some img) ∧ wideImage.getD 1 0 = 1 ∧
    strided 1 3 1 = 4 ∧ img.getD 1 0 = 1 ∧ img.getD 4 0 = wideImage.getD 4 0 := by
  have h : ((throughCodec (encList wideImage 32 2 4) 1 3 5).map fun v => v.2) = some (some [0, 1, 4, 9, 0]) := by decide +kernel
  cases hc : throughCodec (encList wideImage 32 2 4) 1 3 5 with
  | none => rw [hc] at h; simp at h
  | some v =>
    rw [hc] at h
    obtain ⟨F, o⟩ := v
    simp only [Option.map_some, Option.some.injEq] at h
    subst h
    exact ⟨F, _, rfl, by decide, by decide, by decide, by decide⟩

/-- Samples to be delinearized. -/
def delinImage : Enc.Args := ⟨fun k => k % 2, 32, 2, 4, 64, 0, some fun x => 4 * x⟩

/-- C62, a limit: with a delinearization table the frequencies are counted before the table is applied; classes that only occur
after it have no code and the code of another class is written for them. Here the sample at index 1 (delinearized: 4) is
decoded to 15. -/
theorem C62_delinearize_limit : ∃ F img, throughCodec delinImage 64 0 2 = some (F, some img) ∧ delinImage.value 1 = 4 ∧ img.getD 1 0 ≠ 4 := by
  have h : ((throughCodec delinImage 64 0 2).bind fun v => v.2).any (fun img => img.getD 1 0 != 4) = true := by decide +kernel
  cases hc : throughCodec delinImage 64 0 2 with
  | none => rw [hc] at h; simp at h
  | some v =>
    obtain ⟨F, o⟩ := v
    rw [hc] at h
    cases o with
    | none => simp at h
    | some img => exact ⟨F, img, rfl, by decide, by simpa using h⟩

/-! ### The hypotheses can be met -/

/-- The image in memory: two groups of 32 samples, three values between them. -/
def gapArgs : Enc.Args := ⟨fun k => if k < 32 then wideImage.getD k 0 else wideImage.getD (k - 3) 0, 32, 2, 4, 32, 3, none⟩

theorem gapArgs_ok : EncArgs gapArgs wideImage := by
  refine ⟨by decide, by decide, by decide, by decide, by decide, by decide, by decide, rfl, by decide, ?_⟩
  have : ∀ n : Fin 64, gapArgs.image (strided gapArgs.readLength gapArgs.skipLength n.1) = wideImage.getD n.1 0 := by decide +kernel
  intro n hn
  exact this ⟨n, hn⟩

/-- The file. -/
def gapFile : List Nat :=
  [255, 216, 255, 196, 0, 24, 0, 1, 1, 0, 3, 0, 0, 0, 0, 0, 0, 0, 0, 0, 0, 0, 0, 0, 1, 2, 3, 4, 255, 195, 0, 11, 4,
   0, 2, 0, 32, 1, 0, 17, 0, 255, 218, 0, 8, 1, 0, 0, 6, 0, 0, 231, 185, 237, 230, 233, 213, 132, 185, 237, 230, 233,
   213, 132, 185, 237, 230, 233, 213, 132, 185, 237, 230, 233, 213, 128, 0, 0, 0, 0, 255, 217]

theorem gapFile_ok : Enc.encode gapArgs = .ok gapFile := by
  have h : (Enc.encode gapArgs).toOption = some gapFile := by decide +kernel
  cases hc : Enc.encode gapArgs with
  | error e => rw [hc] at h; simp [Except.toOption] at h
  | ok F => rw [hc] at h; simp only [Except.toOption, Option.some.injEq] at h; rw [h]

-- C62, C64: arguments, a successful run, sizes, memory.
example : EncArgs gapArgs wideImage ∧ Enc.encode gapArgs = .ok gapFile ∧ (∀ x ∈ wideImage, x < 2 ^ gapArgs.bitdepth) ∧
    1 ≤ gapArgs.bitdepth ∧ gapArgs.bitdepth ≤ 14 ∧ 32 ≤ gapArgs.width ∧ 2 ≤ gapArgs.height :=
  ⟨gapArgs_ok, gapFile_ok, by decide, by decide, by decide, by decide, by decide⟩

example : (∀ k, fileMem gapFile k < 256) ∧ At (fileMem gapFile) 0 gapFile := by
  refine ⟨?_, fun k hk => by simp [fileMem]⟩
  intro k
  by_cases hk : k < gapFile.length
  · have : ∀ x ∈ gapFile, x < 256 := by decide
    unfold fileMem
    rw [List.getD_eq_getElem?_getD, List.getElem?_eq_getElem hk]
    exact this _ (List.getElem_mem hk)
  · unfold fileMem
    rw [List.getD_eq_getElem?_getD, List.getElem?_eq_none (by omega)]
    decide

-- The run itself: groups of eight, two values left alone after each.
example : (throughCodec gapArgs 8 2 20).map (·.2) = some (some [0, 1, 4, 9, 0, 9, 4, 1, 99, 99, 0, 1, 4, 9, 0, 9, 4, 1, 99, 99]) := by decide +kernel

-- C64 with a linearization table: the condition on the table.
example : ∀ l, some (⟨fun x => x + 100, 15⟩ : Lin) = some l → ∀ x ∈ wideImage, x ≤ l.len := by
  intro l h; injection h with h; subst h; decide

end Props
