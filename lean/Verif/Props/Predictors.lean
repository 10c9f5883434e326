/- Property C67: the decoder of liblj92 with any predictor. -/
import Verif.Proof.Lj92Preds
import Verif.Props.Encoder

set_option autoImplicit false

namespace Props
open Spec Model.Lj92

theorem predP_bounds {p bd W : Nat} {acc : List Nat} (hp : 1 ≤ p) (hp7 : p ≤ 7) (hbd : 1 ≤ bd) (hacc : ∀ x ∈ acc, x < 2 ^ bd) (i : Nat) :
    -(2 ^ bd : Nat) < predP p bd W acc i ∧ predP p bd W acc i + 1 < 2 * (2 ^ bd : Nat) := by
  have hb : ∀ k, acc.getD k 0 < 2 ^ bd := by
    intro k
    by_cases hk : k < acc.length
    · rw [List.getD_eq_getElem?_getD, List.getElem?_eq_getElem hk]; exact hacc _ (List.getElem_mem hk)
    · rw [List.getD_eq_getElem?_getD, List.getElem?_eq_none (by omega)]; exact Nat.two_pow_pos _
  have hq : (2 : Int) ^ (bd - 1) * 2 = (2 ^ bd : Nat) := by
    rw [← Int.pow_succ, Nat.succ_eq_add_one, Nat.sub_add_cancel hbd]; simp
  have hq2 : (0 : Int) < 2 ^ (bd - 1) := Int.pow_pos (by decide)
  unfold predP
  have a1 := hb (i - 1)
  have a2 := hb (i - W)
  have a3 := hb (i - W - 1)
  have hM : 2 ≤ 2 ^ bd := by
    have := Nat.pow_le_pow_right (show 0 < 2 by decide) hbd
    omega
  generalize 2 ^ bd = M at *
  split
  · omega
  · split
    · omega
    · split
      · omega
      · generalize acc.getD (i - 1) 0 = a at *
        generalize acc.getD (i - W) 0 = b at *
        generalize acc.getD (i - W - 1) 0 = c at *
        obtain rfl | rfl | rfl | rfl | rfl | rfl | rfl : p = 1 ∨ p = 2 ∨ p = 3 ∨ p = 4 ∨ p = 5 ∨ p = 6 ∨ p = 7 := by omega
        all_goals (simp only [tableH1]; omega)

/-- C67: with any predictor the classes of the differences of samples of `bd` bits go up to `bd + 1`. -/
theorem C67_classes {p bd W : Nat} {acc : List Nat} (hp : 1 ≤ p) (hp7 : p ≤ 7) (hbd : 1 ≤ bd) (hacc : ∀ x ∈ acc, x < 2 ^ bd) {i : Nat} (hi : i < acc.length) :
    cls (diffP p bd W acc i) ≤ bd + 1 := by
  obtain ⟨p1, p2⟩ := predP_bounds (W := W) hp hp7 hbd hacc i
  have hx : acc.getD i 0 < 2 ^ bd := by
    rw [List.getD_eq_getElem?_getD, List.getElem?_eq_getElem hi]; exact hacc _ (List.getElem_mem hi)
  unfold diffP
  apply cls_le
  rw [Nat.pow_succ]
  generalize predP p bd W acc i = q at *
  generalize acc.getD i 0 = x at *
  generalize 2 ^ bd = M at *
  omega

theorem describes_small' {counts vals : List Nat} {T : Table} {P : Nat → Prop} (hD : DescribesFor counts vals T P) (hv : ∀ t ∈ vals, t ≤ 16) :
    vals.length ≤ 17 ∧ ∀ x, x ∈ counts ++ vals → x < 255 := by
  have hl : vals.length ≤ 17 := by
    have h1 : vals ⊆ List.range 17 := fun v h => List.mem_range.2 (by have := hv v h; omega)
    have h2 := List.Nodup.length_le_of_subset hD.nodup h1
    simpa using h2
  refine ⟨hl, ?_⟩
  intro x hx
  rw [List.mem_append] at hx
  rcases hx with hx | hx
  · obtain ⟨s, r, rfl⟩ := List.append_of_mem hx
    have := hD.num
    simp only [List.sum_append, List.sum_cons] at this
    omega
  · have := hv x hx; omega

theorem diff6_eq {bd W : Nat} {acc : List Nat} (hbd : 1 ≤ bd) (hbd14 : bd ≤ 14) (hacc : ∀ x ∈ acc, x < 2 ^ bd) {i : Nat} (hi : i < acc.length) :
    diff6 bd W acc i = diffP 6 bd W acc i := by
  rw [(C63_classes (W := W) hbd (by omega) hacc hi).1]
  rfl

/-- C67: a file of an image of one component with samples of up to fourteen bits, coded with any of the seven predictors and
any legal Huffman table, is opened by `lj92_open` with the right dimensions, and `lj92_decode` writes exactly the samples
(through the linearization table, if one is given that covers them), row by row with `skip` values left alone after each row.
Only for predictor 6 the group length must be given as the row length and the image must have at least 32 by 2 samples.
`d` is the memory (bytes after the file are arbitrary), `mem` the memory the look-up table is allocated in, `ub` the value of
an undefined shift. -/
theorem C67_decoder_inverts {p bd H W : Nat} {acc F : List Nat} (hF : IsFileP p bd H W acc F) (hp : 1 ≤ p) (hp7 : p ≤ 7) (hbd1 : 1 ≤ bd) (hbd : bd ≤ 14)
    (hW : W < 65536) (hH : H < 65536) (hlen : acc.length = W * H) (hacc : ∀ x ∈ acc, x < 2 ^ bd) {d : Nat → Nat} (hd : ∀ k, d k < 256)
    (hfile : At d 0 F) (lin : Option Lin) (hlin : ∀ l, lin = some l → ∀ x ∈ acc, x ≤ l.len) (mem target : Nat → Nat) (ub : Int) (group skip : Nat)
    (h6 : p = 6 → 32 ≤ W ∧ 2 ≤ H ∧ group = W) :
    ∃ s img, open' d F.length mem = some s ∧ s.x = W ∧ s.y = H ∧ s.bits = bd ∧ s.components = 1 ∧ decodeAny ub s target group skip lin = some img ∧
      (∀ n, n < W * H → img (strided W skip n) = linear lin (acc.getD n 0)) ∧
      (∀ k, (∀ n, n < W * H → k ≠ strided W skip n) → img k = target k) := by
  obtain ⟨comp, sel, pt, counts, vals, T, bytes, pad, tail, hD, hv, hcl, hc3, hs2, hp2, hbits, htail, rfl⟩ := hF
  obtain ⟨hvl, hby⟩ := describes_small' hD hv
  obtain ⟨s, o1, o2, o3, o4, o5, o6, o7, o8, o9, o10, o11, o12, o13⟩ := open_headerP hc3 hs2 hp2 hD hby (by omega) hH hW
    (by rw [List.length_append]; omega) hfile mem
  have hget : ∀ n, acc.getD n 0 < 2 ^ bd := by
    intro k
    by_cases hk : k < acc.length
    · rw [List.getD_eq_getElem?_getD, List.getElem?_eq_getElem hk]; exact hacc _ (List.getElem_mem hk)
    · rw [List.getD_eq_getElem?_getD, List.getElem?_eq_none (by omega)]; exact Nat.two_pow_pos _
  have hM : 2 ^ bd ≤ 2 ^ 14 := Nat.pow_le_pow_right (by decide) hbd
  have hbeyond : ∀ n, n < acc.length → beyond lin (acc.getD n 0) = false := by
    intro n hn
    unfold beyond
    cases lin with
    | none => rfl
    | some l =>
      have : acc.getD n 0 ∈ acc := by
        rw [List.getD_eq_getElem?_getD, List.getElem?_eq_getElem hn]; exact List.getElem_mem hn
      have := hlin l rfl _ this
      simp only [decide_eq_false_iff_not]
      omega
  let s0 : Ljp := { s with image := target, skiplen := skip }
  by_cases e6 : p = 6
  · subst e6
    obtain ⟨hW32, hH2, rfl⟩ := h6 rfl
    have hdd : ∀ n, n < acc.length → diff6 bd group acc n = diffP 6 bd group acc n := fun n hn => diff6_eq hbd1 hbd hacc hn
    have hr : Ready6 s0 T bd group acc lin (s.scanstart + beh d s.scanstart + (stuff bytes).length) :=
      { bytes := by show ∀ k, s.data k < 256; rw [o2]; exact hd
        x := o4
        bits := o6
        hb := o8
        lut := fun n hn => by rw [hdd n hn]; exact o9 _ (hcl n hn)
        word := fun n hn => by
          rw [hdd n hn]
          obtain ⟨k, hk⟩ := List.getElem?_of_mem (hcl n hn)
          obtain ⟨e, h1, h2⟩ := hD.word k _ hk
          have := huffSizes_le _ 16 _ (Enc.huffCodes_size_mem (List.mem_of_getElem? h1))
          rw [h2, toBits_length]
          exact this.1
        cls15 := fun n hn => by have := (C63_classes (W := group) hbd1 (by omega) hacc hn).2; omega
        lt := fun n => by have := hget n; omega
        lin := hbeyond
        ends := by
          show _ < s.datalen
          rw [o3, o12]
          simp only [List.length_append]
          omega }
    have henc : encodeP 6 T bd group acc = encode6 T bd group acc := by
      rw [C63_t81 hbd1 hbd hacc]
      rfl
    have hrep : RepE s0.data (s.scanstart + beh d s.scanstart + (stuff bytes).length) (0, 0, s0.scanstart + beh s0.data s0.scanstart) (encode6 T bd group acc) := by
      show RepE s.data _ (0, 0, s.scanstart + beh s.data s.scanstart) _
      rw [o2]
      exact ⟨by simp, bytes, o13.left, by rw [hbits, henc]; exact List.prefix_append .., Or.inl rfl⟩
    obtain ⟨s', r1, r2, r3⟩ := parsePred6_run ub (s := s0) (wl := group) (by omega) hW32 (by show 2 ≤ s.y; rw [o5]; exact hH2)
      (by show acc.length = group * s.y; rw [o5]; exact hlen) hr hrep
    refine ⟨s, s'.image, o1, o4, o5, o6, o7, ?_, fun n hn => r2 n (by omega), fun k hk => r3 k (fun m hm => hk m (by omega))⟩
    unfold decodeAny parseAny
    dsimp only
    rw [o2, o10, o11, if_pos rfl]
    have r1' : parsePred6 ub lin group { s with image := target, skiplen := skip } = some s' := r1
    rw [← o2, r1']
    rfl
  · have hr : ReadyP s0 p T bd W acc lin :=
      { bytes := by show ∀ k, s.data k < 256; rw [o2]; exact hd
        x := o4
        comps := o7
        bits := o6
        hb := o8
        lut := fun n hn => o9 _ (hcl n hn)
        cls15 := fun n hn => by have := C67_classes (W := W) hp hp7 hbd1 hacc hn; omega
        lt := fun n => by have := hget n; omega
        lin := hbeyond }
    have hrep : Rep s0.data (0, 0, s0.scanstart + beh s0.data s0.scanstart) (encodeP p T bd W acc) := by
      show Rep s.data (0, 0, s.scanstart + beh s.data s.scanstart) _
      rw [o2]
      exact ⟨by simp, bytes, o13.left, by rw [hbits]; exact List.prefix_append ..⟩
    have hpred : s0.data (s0.scanstart + 3 + 2 * s0.data (s0.scanstart + 2)) = p := by
      show s.data (s.scanstart + 3 + 2 * s.data (s.scanstart + 2)) = p
      rw [o2, o10, o11]
    obtain ⟨s', r1, r2, r3⟩ := parseScan_run ub (s := s0) hp hp7 e6 hr (by show acc.length = W * s.y; rw [o5]; exact hlen) hpred hrep
    refine ⟨s, s'.image, o1, o4, o5, o6, o7, ?_, fun n hn => r2 n (by omega), fun k hk => r3 k (fun m hm => hk m (by omega))⟩
    unfold decodeAny parseAny
    dsimp only
    rw [o2, o10, o11, if_neg e6]
    have r1' : parseScan ub lin { s with image := target, skiplen := skip } = some s' := r1
    rw [← o2, r1']
    rfl

/-! ### A limit: several components -/

/-- A table segment for the classes 0 to 3. -/
def pCounts : List Nat := [0, 3, 1, 0, 0, 0, 0, 0, 0, 0, 0, 0, 0, 0, 0, 0]
def pTable : Table := fun s => [[false, false], [false, true], [true, false], [true, true, false]].getD s []

theorem pDescribes : DescribesFor pCounts [0, 1, 2, 3] pTable (· ∈ [0, 1, 2, 3]) where
  len := by decide
  num := by decide
  nodup := by decide
  mem := fun t => Iff.rfl
  fit := by decide
  word := by
    intro k t h
    obtain ⟨hk, h⟩ := List.getElem?_eq_some_iff.1 h
    simp only [List.length_cons, List.length_nil] at hk
    obtain rfl | rfl | rfl | rfl : k = 0 ∨ k = 1 ∨ k = 2 ∨ k = 3 := by omega
    · subst h; exact ⟨(2, 0), by decide, rfl⟩
    · subst h; exact ⟨(2, 1), by decide, rfl⟩
    · subst h; exact ⟨(2, 2), by decide, rfl⟩
    · subst h; exact ⟨(3, 6), by decide, rfl⟩

/-- A file of two components with three samples per line and component, two lines. -/
def pFile2 (p : Nat) (bytes : List Nat) : List Nat :=
  headerPC p 2 2 3 2 [0, 0x11, 0, 1, 0x11, 0] [0, 0, 1, 0] pCounts [0, 1, 2, 3] ++ (stuff bytes ++ [0xFF, 0xD9])

/-- An image of two components (3 by 2 samples each). -/
def pAcc2 : List Nat := [0, 0, 1, 1, 1, 0, 2, 3, 1, 0, 0, 0]

/-- What the decoder makes of the file of `pAcc2`. -/
def pRun2 (p : Nat) (bytes : List Nat) : Option (List Nat) :=
  (open' ((pFile2 p bytes).getD · 0) (pFile2 p bytes).length (fun _ => 0)).bind fun s =>
    if s.components = 2 then (decodeAny 0 s (fun _ => 0) 6 0 none).map fun img => (List.range 12).map img else none

theorem pRun2_some {p : Nat} {bytes l : List Nat} (h : pRun2 p bytes = some l) (hl : ∃ n, n < 12 ∧ l.getD n 0 ≠ pAcc2.getD n 0) :
    ∃ s img, open' ((pFile2 p bytes).getD · 0) (pFile2 p bytes).length (fun _ => 0) = some s ∧ s.components = 2 ∧
      decodeAny 0 s (fun _ => 0) 6 0 none = some img ∧ ∃ n, n < 12 ∧ img n ≠ pAcc2.getD n 0 := by
  unfold pRun2 at h
  cases h1 : open' ((pFile2 p bytes).getD · 0) (pFile2 p bytes).length (fun _ => 0) with
  | none => rw [h1] at h; simp at h
  | some s =>
    rw [h1, Option.bind_some] at h
    by_cases hc : s.components = 2
    · rw [if_pos hc] at h
      cases h2 : decodeAny 0 s (fun _ => 0) 6 0 none with
      | none => rw [h2] at h; simp at h
      | some img =>
        rw [h2, Option.map_some, Option.some.injEq] at h
        subst h
        obtain ⟨n, hn, hl⟩ := hl
        refine ⟨s, img, rfl, hc, h2, n, hn, ?_⟩
        rw [List.getD_eq_getElem?_getD, List.getElem?_map, List.getElem?_range hn] at hl
        exact hl
    · rw [if_neg hc] at h; simp at h

theorem pad_of {bytes : List Nat} {l : List Bool} (h : (byteBits bytes).take l.length = l) : byteBits bytes = l ++ (byteBits bytes).drop l.length := by
  rw [← List.take_append_drop l.length (byteBits bytes), h, List.drop_left]

/-- C67, a limit: the decoder is wrong for images with more than one component and any predictor but 1: the two row buffers
overlap, and "left" is the sample before, which belongs to another component. For each of these predictors a legal file with two
components is decoded without an error to something else. -/
theorem C67_components_limit (p : Nat) (hp : 2 ≤ p) (hp7 : p ≤ 7) : ∃ bytes pad, byteBits bytes = encodePC p pTable 2 2 6 pAcc2 ++ pad ∧
    ∃ s img, open' ((pFile2 p bytes).getD · 0) (pFile2 p bytes).length (fun _ => 0) = some s ∧ s.components = 2 ∧
      decodeAny 0 s (fun _ => 0) 6 0 none = some img ∧ ∃ n, n < 12 ∧ img n ≠ pAcc2.getD n 0 := by
  obtain rfl | rfl | rfl | rfl | rfl | rfl : p = 2 ∨ p = 3 ∨ p = 4 ∨ p = 5 ∨ p = 6 ∨ p = 7 := by omega
  · exact ⟨[153, 108, 85, 98, 71], _, pad_of (by decide +kernel), pRun2_some (l := [0, 0, 1, 1, 1, 0, 2, 3, 1, 1, 2, 1]) (by decide +kernel) ⟨9, by decide, by decide⟩⟩
  · exact ⟨[153, 108, 85, 108, 75], _, pad_of (by decide +kernel), pRun2_some (l := [0, 0, 1, 1, 1, 0, 2, 3, 1, 0, 0, 1]) (by decide +kernel) ⟨11, by decide, by decide⟩⟩
  · exact ⟨[153, 108, 85, 115, 154, 127], _, pad_of (by decide +kernel), pRun2_some (l := [0, 0, 1, 1, 1, 0, 2, 3, 2, 0, 1, 2]) (by decide +kernel) ⟨8, by decide, by decide⟩⟩
  · exact ⟨[153, 108, 85, 106, 19], _, pad_of (by decide +kernel), pRun2_some (l := [0, 0, 1, 1, 1, 0, 2, 3, 2, 0, 0, 1]) (by decide +kernel) ⟨8, by decide, by decide⟩⟩
  · exact ⟨[153, 108, 85, 106, 83], _, pad_of (by decide +kernel), pRun2_some (l := [0, 65534, 65535, 1, 65534, 65534, 0, 0, 0, 0, 0, 0]) (by decide +kernel) ⟨1, by decide, by decide⟩⟩
  · exact ⟨[153, 108, 85, 100, 163], _, pad_of (by decide +kernel), pRun2_some (l := [0, 0, 1, 1, 1, 0, 2, 3, 2, 0, 0, 1]) (by decide +kernel) ⟨8, by decide, by decide⟩⟩

/-! ### The hypotheses can be met -/

/-- An image of 4 by 3 samples of two bits. -/
def pAcc : List Nat := [0, 1, 3, 2, 2, 1, 0, 1, 3, 3, 1, 2]

/-- Its file with predictor `p`. -/
def pFile (p : Nat) (bytes : List Nat) : List Nat :=
  headerP p 2 3 4 [0, 0x11, 0] [0, 0] [0, 0] pCounts [0, 1, 2, 3] ++ (stuff bytes ++ [0xFF, 0xD9])

/-- The bytes of its code. -/
def pBytes (p : Nat) : List Nat :=
  match p with
  | 1 => [151, 74, 146, 108, 151]
  | 2 => [151, 74, 136, 78, 155]
  | 3 => [151, 74, 154, 150, 202]
  | 4 => [151, 74, 166, 41, 180, 127]
  | 5 => [151, 74, 148, 211, 105, 255]
  | _ => [151, 74, 137, 27, 31]

-- C67: a file for every predictor but 6, sizes, memory.
example (p : Nat) (hp : 1 ≤ p) (hp7 : p ≤ 7) (h6 : p ≠ 6) : IsFileP p 2 3 4 pAcc (pFile p (pBytes p)) ∧ pAcc.length = 4 * 3 ∧ (∀ x ∈ pAcc, x < 2 ^ 2) ∧
    (∀ k, fileMem (pFile p (pBytes p)) k < 256) ∧ At (fileMem (pFile p (pBytes p))) 0 (pFile p (pBytes p)) := by
  have key : ((byteBits (pBytes p)).take (encodeP p pTable 2 4 pAcc).length = encodeP p pTable 2 4 pAcc ∧
      ∀ i : Fin 12, cls (diffP p 2 4 pAcc i.1) ∈ [0, 1, 2, 3]) ∧ ∀ x ∈ pFile p (pBytes p), x < 256 := by
    obtain rfl | rfl | rfl | rfl | rfl | rfl : p = 1 ∨ p = 2 ∨ p = 3 ∨ p = 4 ∨ p = 5 ∨ p = 7 := by omega
    all_goals decide +kernel
  refine ⟨⟨[0, 0x11, 0], [0, 0], [0, 0], pCounts, [0, 1, 2, 3], pTable, pBytes p, _, [0xFF, 0xD9], pDescribes, by decide,
    fun i hi => key.1.2 ⟨i, hi⟩, rfl, rfl, rfl, pad_of key.1.1, by decide, rfl⟩, rfl, by decide, ?_, fun k hk => by simp [fileMem]⟩
  intro k
  unfold fileMem
  by_cases hk : k < (pFile p (pBytes p)).length
  · rw [List.getD_eq_getElem?_getD, List.getElem?_eq_getElem hk]
    exact key.2 _ (List.getElem_mem hk)
  · rw [List.getD_eq_getElem?_getD, List.getElem?_eq_none (by omega)]
    decide

-- The run itself with predictor 5, two values left alone after each row, and a linearization table.
example : ((open' (fileMem (pFile 5 (pBytes 5))) (pFile 5 (pBytes 5)).length (fun _ => 9)).bind fun s =>
      (decodeAny 7 s (fun _ => 99) 4 2 (some ⟨fun x => 10 * x, 3⟩)).map fun img => (List.range 18).map img) =
    some [0, 10, 30, 20, 99, 99, 20, 10, 0, 10, 99, 99, 30, 30, 10, 20, 99, 99] := by decide +kernel

-- C67 with predictor 6: what the encoder writes is such a file (`gapFile`, 32 by 2 samples).
example : ∃ acc F, IsFileP 6 4 2 32 acc F ∧ acc.length = 32 * 2 ∧ ∀ x ∈ acc, x < 2 ^ 4 := by
  obtain ⟨counts, vals, T, bytes, h1, h2, h3, h4⟩ := C62_file gapArgs_ok gapFile_ok
  have hmem : ∀ i, i < wideImage.length → cls (diffP 6 4 32 wideImage i) ∈ vals := by
    intro i hi
    rw [← diff6_eq (W := 32) (by decide) (by decide) (by decide) hi]
    exact (h1.mem _).2 (Enc.classCount_pos hi)
  have hv : ∀ t ∈ vals, t ≤ 16 := by
    intro t ht
    have := (h1.mem t).1 ht
    apply Classical.byContradiction
    intro hge
    rw [Enc.classCount_big _ _ _ _ (by omega)] at this
    omega
  have henc : encodeP 6 T 4 32 wideImage = encode6 T 4 32 wideImage := by
    rw [C63_t81 (by decide) (by decide) (by decide)]
    rfl
  refine ⟨wideImage, gapFile, ⟨[0, 0x11, 0], [0, 0], [0, 0], counts, vals, T, bytes,
    List.replicate ((8 - (encode6 T 4 32 wideImage).length % 8) % 8) false, [0xFF, 0xD9],
    ⟨h1.len, h1.num, h1.nodup, fun t => Iff.rfl, h1.fit, h1.word⟩, hv, hmem, rfl, rfl, rfl, ?_, by decide, ?_⟩, rfl, by decide⟩
  · rw [h3, henc]; rfl
  · rw [h4, List.append_assoc]; rfl

end Props
