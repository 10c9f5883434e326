/- Property C95: files with several components and with their segments in any order. -/
import Verif.Proof.Lj92Comps
import Verif.Props.Predictors
import Verif.Props.Decoder

set_option autoImplicit false

namespace Props.Segs
open Spec Model Model.Lj92 Model.Lj92.Seg Props

theorem getD_lt {bd : Nat} {acc : List Nat} (hacc : ∀ x ∈ acc, x < 2 ^ bd) (k : Nat) : acc.getD k 0 < 2 ^ bd := by
  by_cases hk : k < acc.length
  · rw [List.getD_eq_getElem?_getD, List.getElem?_eq_getElem hk]; exact hacc _ (List.getElem_mem hk)
  · rw [List.getD_eq_getElem?_getD, List.getElem?_eq_none (by omega)]; exact Nat.two_pow_pos _

theorem beyond_false {lin : Option Lin} {acc : List Nat} (hlin : ∀ l, lin = some l → ∀ x ∈ acc, x ≤ l.len) (n : Nat) (hn : n < acc.length) :
    beyond lin (acc.getD n 0) = false := by
  unfold beyond
  cases lin with
  | none => rfl
  | some l =>
    have : acc.getD n 0 ∈ acc := by
      rw [List.getD_eq_getElem?_getD, List.getElem?_eq_getElem hn]; exact List.getElem_mem hn
    have := hlin l rfl _ this
    simp only [decide_eq_false_iff_not]
    omega

/-- C95: with predictor 1 and any number of components the classes of the differences of samples of `bd` bits go up to `bd`. -/
theorem C95_classes {bd C W : Nat} {acc : List Nat} (hbd : 1 ≤ bd) (hacc : ∀ x ∈ acc, x < 2 ^ bd) (i : Nat) :
    cls ((acc.getD i 0 : Int) - predPC 1 bd C W acc i) ≤ bd := by
  have hb := getD_lt hacc
  have hq : (2 : Int) ^ (bd - 1) * 2 = (2 ^ bd : Nat) := by
    rw [← Int.pow_succ, Nat.succ_eq_add_one, Nat.sub_add_cancel hbd]; simp
  have hq2 : (0 : Int) < 2 ^ (bd - 1) := Int.pow_pos (by decide)
  apply cls_le
  have a0 := hb i
  have a1 := hb (i - C)
  have a2 := hb (i - W)
  unfold predPC
  generalize 2 ^ bd = M at *
  split
  · omega
  · split
    · omega
    · split
      · omega
      · simp only [tableH1]; omega

/-- C95: a file of an image of any number of components, with at least as many samples per line and component as components, of up to
fifteen bits, coded with predictor 1 and any legal Huffman table, its segments in any order and with any application data and comments, is
opened by `lj92_open` with the right dimensions, and `lj92_decode` writes exactly the samples (through the linearization table, if one is
given that covers them), row by row with `skip` values left alone after each row.
`d` is the memory (bytes after the file are arbitrary), `mem` the memory the look-up table is allocated in, `ub` the value of an undefined
shift. -/
theorem C95_decoder_inverts {bd H X C : Nat} {acc F : List Nat} (hF : IsFileS 1 bd H X C acc F) (hC : 1 ≤ C) (hC256 : C < 256) (hCX : C ≤ X)
    (hbd1 : 1 ≤ bd) (hbd : bd ≤ 15) (hX : X < 65536) (hH : H < 65536) (hlen : acc.length = C * X * H) (hacc : ∀ x ∈ acc, x < 2 ^ bd)
    {d : Nat → Nat} (hd : ∀ k, d k < 256) (hfile : At d 0 F) (lin : Option Lin) (hlin : ∀ l, lin = some l → ∀ x ∈ acc, x ≤ l.len)
    (mem target : Nat → Nat) (ub : Int) (group skip : Nat) :
    ∃ s img, open' d F.length mem = some s ∧ s.x = X ∧ s.y = H ∧ s.bits = bd ∧ s.components = C ∧ decodeAny ub s target group skip lin = some img ∧
      (∀ n, n < C * X * H → img (strided (C * X) skip n) = linear lin (acc.getD n 0)) ∧
      (∀ k, (∀ n, n < C * X * H → k ≠ strided (C * X) skip n) → img k = target k) := by
  obtain ⟨segs, sels, counts, vals, T, bytes, pad, tail, hD, hv, hcl, hsegs, htab, hfr, hsels, hbits, htail, rfl⟩ := hF
  obtain ⟨hvl, hby⟩ := describes_small' hD hv
  obtain ⟨s, o1, o⟩ := open_segs hd hD hby (by omega) hH hX hC256 hsegs htab hfr hsels hfile mem
  have hM : 2 ^ bd ≤ 2 ^ 15 := Nat.pow_le_pow_right (by decide) hbd
  let s0 : Ljp := { s with image := target, skiplen := skip }
  have hr : ReadyC s0 T bd C X acc lin :=
    { bytes := o.bytes
      x := o.x
      comps := o.comps
      wide := hCX
      bits := o.bits
      hb := o.hb
      lut := fun n hn => o.lut _ (hcl n hn)
      cls15 := fun n _ => Nat.le_trans (C95_classes hbd1 hacc n) hbd
      lt := fun n => by have := getD_lt hacc n; omega
      lin := beyond_false hlin }
  have hrep : Rep s0.data (0, 0, s0.scanstart + beh s0.data s0.scanstart) (encodePC 1 T bd C (C * X) acc) :=
    ⟨by simp, bytes, o.at'.left, by rw [hbits]; exact List.prefix_append ..⟩
  have hpred : s0.data (s0.scanstart + 3 + 2 * s0.data (s0.scanstart + 2)) = 1 := by
    show s.data (s.scanstart + 3 + 2 * s.data (s.scanstart + 2)) = 1
    rw [o.count, o.pred]
  obtain ⟨s', r1, r2, r3⟩ := parseScanC_run ub (s := s0) hr (by omega) (by show acc.length = C * X * s.y; rw [o.y]; exact hlen) hpred hrep
  refine ⟨s, s'.image, o1, o.x, o.y, o.bits, o.comps, ?_, fun n hn => r2 n (by omega), fun k hk => r3 k (fun m hm => hk m (by omega))⟩
  unfold decodeAny parseAny
  dsimp only
  rw [o.count, o.pred, if_neg (by decide)]
  have r1' : parseScan ub lin { s with image := target, skiplen := skip } = some s' := r1
  rw [r1']
  rfl

theorem predPC_one (p bd W : Nat) (l : List Nat) (i : Nat) : predPC p bd 1 W l i = predP p bd W l i := by
  unfold predPC predP
  by_cases h0 : i = 0
  · simp [h0]
  · rw [if_neg (by omega), if_neg h0]
    by_cases h1 : i < W
    · rw [if_pos h1, if_pos h1]
    · rw [if_neg h1, if_neg h1]
      by_cases h2 : i % W = 0
      · rw [if_pos (by omega), if_pos h2]
      · rw [if_neg (by omega), if_neg h2]

/-- C95, one component, any of the seven predictors (up to fourteen bits), segments in any order. Only for predictor 6 the group length must be
given as the row length and the image must have at least 32 by 2 samples. -/
theorem C95_one_component {p bd H W : Nat} {acc F : List Nat} (hF : IsFileS p bd H W 1 acc F) (hp : 1 ≤ p) (hp7 : p ≤ 7) (hbd1 : 1 ≤ bd) (hbd : bd ≤ 14)
    (hW : W < 65536) (hH : H < 65536) (hlen : acc.length = W * H) (hacc : ∀ x ∈ acc, x < 2 ^ bd) {d : Nat → Nat} (hd : ∀ k, d k < 256)
    (hfile : At d 0 F) (lin : Option Lin) (hlin : ∀ l, lin = some l → ∀ x ∈ acc, x ≤ l.len) (mem target : Nat → Nat) (ub : Int) (group skip : Nat)
    (h6 : p = 6 → 32 ≤ W ∧ 2 ≤ H ∧ group = W) :
    ∃ s img, open' d F.length mem = some s ∧ s.x = W ∧ s.y = H ∧ s.bits = bd ∧ s.components = 1 ∧ decodeAny ub s target group skip lin = some img ∧
      (∀ n, n < W * H → img (strided W skip n) = linear lin (acc.getD n 0)) ∧
      (∀ k, (∀ n, n < W * H → k ≠ strided W skip n) → img k = target k) := by
  obtain ⟨segs, sels, counts, vals, T, bytes, pad, tail, hD, hv, hcl, hsegs, htab, hfr, hsels, hbits, htail, rfl⟩ := hF
  rw [Nat.one_mul] at hcl hbits
  simp only [predPC_one] at hcl
  have henc1 : encodePC p T bd 1 W acc = encodeP p T bd W acc := by
    simp only [encodePC, encodeP, predPC_one, diffP]
  rw [henc1] at hbits
  obtain ⟨hvl, hby⟩ := describes_small' hD hv
  obtain ⟨s, o1, o⟩ := open_segs hd hD hby (by omega) hH hW (by decide) hsegs htab hfr hsels hfile mem
  have hget := getD_lt hacc
  have hM : 2 ^ bd ≤ 2 ^ 14 := Nat.pow_le_pow_right (by decide) hbd
  have hbeyond := beyond_false hlin
  let s0 : Ljp := { s with image := target, skiplen := skip }
  by_cases e6 : p = 6
  · subst e6
    obtain ⟨hW32, hH2, rfl⟩ := h6 rfl
    have hdd : ∀ n, n < acc.length → diff6 bd group acc n = diffP 6 bd group acc n := fun n hn => diff6_eq hbd1 hbd hacc hn
    have hr : Ready6 s0 T bd group acc lin (s.scanstart + beh s.data s.scanstart + (stuff bytes).length) :=
      { bytes := o.bytes
        x := o.x
        bits := o.bits
        hb := o.hb
        lut := fun n hn => by rw [hdd n hn]; exact o.lut _ (hcl n hn)
        word := fun n hn => by
          rw [hdd n hn]
          obtain ⟨k, hk⟩ := List.getElem?_of_mem (hcl n hn)
          obtain ⟨e, h1, h2⟩ := hD.word k _ hk
          have := huffSizes_le _ 16 _ (Enc.huffCodes_size_mem (List.mem_of_getElem? h1))
          unfold diffP
          rw [h2, toBits_length]
          exact this.1
        cls15 := fun n hn => by have := (C63_classes (W := group) hbd1 (by omega) hacc hn).2; omega
        lt := fun n => by have := hget n; omega
        lin := hbeyond
        ends := by
          show _ < s.datalen
          rw [← o.ends, List.length_append]
          omega }
    have henc : encodeP 6 T bd group acc = encode6 T bd group acc := by
      rw [C63_t81 hbd1 hbd hacc]
      rfl
    have hrep : RepE s0.data (s.scanstart + beh s.data s.scanstart + (stuff bytes).length) (0, 0, s0.scanstart + beh s0.data s0.scanstart) (encode6 T bd group acc) :=
      ⟨by simp, bytes, o.at'.left, by rw [hbits, henc]; exact List.prefix_append .., Or.inl rfl⟩
    obtain ⟨s', r1, r2, r3⟩ := parsePred6_run ub (s := s0) (wl := group) (by omega) hW32 (by show 2 ≤ s.y; rw [o.y]; exact hH2)
      (by show acc.length = group * s.y; rw [o.y]; exact hlen) hr hrep
    refine ⟨s, s'.image, o1, o.x, o.y, o.bits, o.comps, ?_, fun n hn => r2 n (by omega), fun k hk => r3 k (fun m hm => hk m (by omega))⟩
    unfold decodeAny parseAny
    dsimp only
    rw [o.count, o.pred, if_pos rfl]
    have r1' : parsePred6 ub lin group { s with image := target, skiplen := skip } = some s' := r1
    rw [r1']
    rfl
  · have hr : ReadyP s0 p T bd W acc lin :=
      { bytes := o.bytes
        x := o.x
        comps := o.comps
        bits := o.bits
        hb := o.hb
        lut := fun n hn => o.lut _ (hcl n hn)
        cls15 := fun n hn => by have := C67_classes (W := W) hp hp7 hbd1 hacc hn; omega
        lt := fun n => by have := hget n; omega
        lin := hbeyond }
    have hrep : Rep s0.data (0, 0, s0.scanstart + beh s0.data s0.scanstart) (encodeP p T bd W acc) :=
      ⟨by simp, bytes, o.at'.left, by rw [hbits]; exact List.prefix_append ..⟩
    have hpred : s0.data (s0.scanstart + 3 + 2 * s0.data (s0.scanstart + 2)) = p := by
      show s.data (s.scanstart + 3 + 2 * s.data (s.scanstart + 2)) = p
      rw [o.count, o.pred]
    obtain ⟨s', r1, r2, r3⟩ := parseScan_run ub (s := s0) hp hp7 e6 hr (by show acc.length = W * s.y; rw [o.y]; exact hlen) hpred hrep
    refine ⟨s, s'.image, o1, o.x, o.y, o.bits, o.comps, ?_, fun n hn => r2 n (by omega), fun k hk => r3 k (fun m hm => hk m (by omega))⟩
    unfold decodeAny parseAny
    dsimp only
    rw [o.count, o.pred, if_neg e6]
    have r1' : parseScan ub lin { s with image := target, skiplen := skip } = some s' := r1
    rw [r1']
    rfl

/-! ### Files of the core -/

theorem predPC_four {bd W : Nat} (hW : 4 ≤ W) (l : List Nat) (i : Nat) : predPC 1 bd 4 W l i = (pred bd W l i : Nat) := by
  unfold predPC pred
  by_cases h0 : i < 4
  · rw [if_pos h0, Nat.mod_eq_of_lt (by omega), if_pos h0, if_pos (by omega)]; simp
  · rw [if_neg h0]
    by_cases h1 : i < W
    · rw [if_pos h1, Nat.mod_eq_of_lt h1, if_neg h0]
    · rw [if_neg h1]
      by_cases h2 : i % W < 4
      · rw [if_pos h2, if_pos h2, if_neg h1]
      · rw [if_neg h2, if_neg h2]; rfl

/-- The file made from a completely transferred frame is a file of the accepted image. -/
theorem core_isFile {c : CoreCfg} {T : Table} (h : CamSetup c T) (hbd : c.int1.bd ≤ 15) (allowed : Nat)
    {s : Cam} (hs : CamAfterReset c s) (ins : List CamIn) (i : CamIn) (hwf : CamWf c (ins ++ [i]))
    (hno : ∀ x ∈ camGiven c allowed s ins, x.2 = false) (hw : (0xFFFF, true) ∈ camGiven c allowed s (ins ++ [i]))
    {X : Nat} (hX : c.int1.W = 4 * X) (hX4 : 4 ≤ X)
    {segs : List Segment} {counts vals sels tail : List Nat} (hD : DescribesFor counts vals T (· ∈ vals)) (hv : ∀ t ∈ vals, t ≤ 16)
    (hcl : ∀ t, t ≤ c.int1.bd → t ∈ vals) (hsegs : ∀ g ∈ segs, Segment.Legal c.int1.bd c.int1.H X 4 counts vals g)
    (htab : ∃ th, Segment.table th counts vals ∈ segs) (hfr : ∃ comps, Segment.frame c.int1.bd c.int1.H X 4 comps ∈ segs)
    (hsels : sels.length = 8) (htail : 1 ≤ tail.length) (file : List Nat)
    (hfile : file = [0xFF, 0xD8] ++ segs.flatMap Segment.bytes ++ scanHeader 1 4 sels ++
      (wordBytes (((camGiven c allowed s (ins ++ [i])).drop 8).take ((camGiven c allowed s (ins ++ [i])).length - 16)) ++ tail)) :
    IsFileS 1 c.int1.bd c.int1.H X 4 (camAccepted c allowed s (ins ++ [i])) file ∧ (camAccepted c allowed s (ins ++ [i])).length = c.int1.W * c.int1.H ∧
      ∀ x ∈ camAccepted c allowed s (ins ++ [i]), x < 2 ^ c.int1.bd := by
  obtain ⟨body, hg, _, hb⟩ := C30_frame h allowed hs ins i hwf hno 0xFFFF hw
  have hbody : ((camGiven c allowed s (ins ++ [i])).drop 8).take ((camGiven c allowed s (ins ++ [i])).length - 16) = body := by
    rw [hg, List.append_assoc, List.drop_left' (by simp [startMark])]
    rw [show (startMark ++ (body ++ endMark 0xFFFF)).length - 16 = body.length by
      simp [startMark, endMark]]
    exact List.take_left' rfl
  rw [hbody] at hfile
  rcases hb with ⟨_, hl, bytes, k, j, hk, hj, hb1, hb2⟩ | ⟨hx, _⟩
  · rw [hb1, List.append_assoc (stuff bytes)] at hfile
    obtain ⟨D, P, M, forced, hi⟩ := frame_run_last h allowed ins i hs hwf hno
    obtain ⟨kk, hc⟩ := hi.core
    have hbd2 := h.core.legal.frame.bd2
    have hacc := Int3.inv_bound hc
    generalize camAccepted c allowed s (ins ++ [i]) = acc at *
    have henc : encode T c.int1.bd c.int1.W acc = encodePC 1 T c.int1.bd 4 (4 * X) acc := by
      rw [← hX]
      unfold encodePC encode
      simp only [predPC_four (show 4 ≤ c.int1.W by omega)]
      rfl
    rw [henc] at hb2
    exact ⟨⟨segs, sels, counts, vals, T, bytes, _, _, hD, hv, fun n _ => hcl _ (C95_classes (by omega) hacc n), hsegs, htab, hfr, hsels, hb2,
        by rw [List.length_append]; omega, hfile⟩, hl, hacc⟩
  · simp at hx

/-- C95, the core: C46 for headers with their segments in any order: a completely transferred frame (end word FFFF), markers stripped, behind any
legal header that states four components and the table, is decoded to the accepted image, through the linearization table if one is given. -/
theorem C95_core_file {c : CoreCfg} {T : Table} (h : CamSetup c T) (hbd : c.int1.bd ≤ 15) (allowed : Nat)
    {s : Cam} (hs : CamAfterReset c s) (ins : List CamIn) (i : CamIn) (hwf : CamWf c (ins ++ [i]))
    (hno : ∀ x ∈ camGiven c allowed s ins, x.2 = false) (hw : (0xFFFF, true) ∈ camGiven c allowed s (ins ++ [i]))
    {X : Nat} (hX : c.int1.W = 4 * X) (hX4 : 4 ≤ X) (hX64 : X < 65536) (hH : c.int1.H < 65536)
    {segs : List Segment} {counts vals sels tail : List Nat} (hD : DescribesFor counts vals T (· ∈ vals)) (hv : ∀ t ∈ vals, t ≤ 16)
    (hcl : ∀ t, t ≤ c.int1.bd → t ∈ vals) (hsegs : ∀ g ∈ segs, Segment.Legal c.int1.bd c.int1.H X 4 counts vals g)
    (htab : ∃ th, Segment.table th counts vals ∈ segs) (hfr : ∃ comps, Segment.frame c.int1.bd c.int1.H X 4 comps ∈ segs)
    (hsels : sels.length = 8) (htail : 1 ≤ tail.length) {d : Nat → Nat} (hd : ∀ k, d k < 256) (file : List Nat)
    (hfile : file = [0xFF, 0xD8] ++ segs.flatMap Segment.bytes ++ scanHeader 1 4 sels ++
      (wordBytes (((camGiven c allowed s (ins ++ [i])).drop 8).take ((camGiven c allowed s (ins ++ [i])).length - 16)) ++ tail))
    (hmem : At d 0 file) (lin : Option Lin) (hlin : ∀ l, lin = some l → 2 ^ c.int1.bd ≤ l.len + 1) (mem target : Nat → Nat) (ub : Int) (group skip : Nat) :
    ∃ l img, open' d file.length mem = some l ∧ l.x = X ∧ l.components = 4 ∧ l.y = c.int1.H ∧ l.bits = c.int1.bd ∧
      decodeAny ub l target group skip lin = some img ∧
      (∀ n, n < c.int1.W * c.int1.H → img (strided c.int1.W skip n) = linear lin ((camAccepted c allowed s (ins ++ [i])).getD n 0)) ∧
      (∀ k, (∀ n, n < c.int1.W * c.int1.H → k ≠ strided c.int1.W skip n) → img k = target k) := by
  obtain ⟨hF, hl, hacc⟩ := core_isFile h hbd allowed hs ins i hwf hno hw hX hX4 hD hv hcl hsegs htab hfr hsels htail file hfile
  have hbd2 := h.core.legal.frame.bd2
  have := C95_decoder_inverts hF (by decide) (by decide) hX4 (by omega) hbd hX64 hH (by rw [← hX]; exact hl) hacc hd hmem lin
    (fun l hl' x hx => by have := hacc x hx; have := hlin l hl'; omega) mem target ub group skip
  rw [← hX] at this
  obtain ⟨l, img, a1, a2, a3, a4, a5, a6, a7, a8⟩ := this
  exact ⟨l, img, a1, a2, a5, a3, a4, a6, a7, a8⟩

/-! ### Limits -/

/-- C95, a limit: T.81 B.1.1.2 allows fill bytes FF before every marker; a file with one is refused. -/
theorem C95_fill_limit : ∃ (a b : List Nat), open' ((a ++ b).getD · 0) (a ++ b).length (fun _ => 0) ≠ none ∧
    open' ((a ++ [0xFF] ++ b).getD · 0) (a ++ [0xFF] ++ b).length (fun _ => 0) = none :=
  ⟨[0xFF, 0xD8], (pFile 1 (pBytes 1)).drop 2, by
    intro h
    have : ((open' (([0xFF, 0xD8] ++ (pFile 1 (pBytes 1)).drop 2).getD · 0) ([0xFF, 0xD8] ++ (pFile 1 (pBytes 1)).drop 2).length (fun _ => 0)).map (·.x)) = some 4 := by
      decide +kernel
    rw [h] at this
    simp at this, by
    have : (open' (([0xFF, 0xD8] ++ [0xFF] ++ (pFile 1 (pBytes 1)).drop 2).getD · 0) ([0xFF, 0xD8] ++ [0xFF] ++ (pFile 1 (pBytes 1)).drop 2).length (fun _ => 0)).isNone = true := by
      decide +kernel
    exact Option.isNone_iff_eq_none.1 this⟩

/-- Another table for the classes 0 to 3. -/
def qCounts : List Nat := [1, 1, 1, 1, 0, 0, 0, 0, 0, 0, 0, 0, 0, 0, 0, 0]
def qTable : Table := fun s => [[false], [true, false], [true, true, false], [true, true, true, false]].getD s []

theorem qDescribes : DescribesFor qCounts [0, 1, 2, 3] qTable (· ∈ [0, 1, 2, 3]) where
  len := by decide
  num := by decide
  nodup := by decide
  mem := fun t => Iff.rfl
  fit := by decide
  word := by
    intro k t h
    obtain ⟨hk, h⟩ := List.getElem?_eq_some_iff.1 h
    simp only [List.length_cons, List.length_nil] at hk
    obtain rfl | rfl | rfl | rfl : k = 0 ∨ k = 1 ∨ k = 2 ∨ k = 3 := by omega
    · subst h; exact ⟨(1, 0), by decide, rfl⟩
    · subst h; exact ⟨(2, 2), by decide, rfl⟩
    · subst h; exact ⟨(3, 6), by decide, rfl⟩
    · subst h; exact ⟨(4, 14), by decide, rfl⟩

/-- The code of an image of two components (six samples of both per line) with a table for each. -/
def encode2 (T0 T1 : Table) (l : List Nat) : List Bool :=
  (List.range l.length).flatMap fun i => diffBits (if i % 2 = 0 then T0 else T1) ((l.getD i 0 : Int) - predPC 1 2 2 6 l i)

/-- A file of two components with the table 0 for the first and the table 1 for the second. -/
def twoFile (bytes : List Nat) : List Nat :=
  [0xFF, 0xD8] ++ (Segment.table 0 pCounts [0, 1, 2, 3]).bytes ++ (Segment.table 1 qCounts [0, 1, 2, 3]).bytes ++
    (Segment.frame 2 2 3 2 [0, 0x11, 0, 1, 0x11, 0]).bytes ++ scanHeader 1 2 [0, 0x00, 1, 0x10] ++ (stuff bytes ++ [0xFF, 0xD9])

/-- What the decoder makes of it. -/
def twoRun (bytes : List Nat) : Option (List Nat) :=
  (open' ((twoFile bytes).getD · 0) (twoFile bytes).length (fun _ => 0)).bind fun s =>
    if s.components = 2 then (decodeAny 0 s (fun _ => 0) 6 0 none).map fun img => (List.range 12).map img else none

/-- C95, a limit: a legal file in which the components have different Huffman tables is decoded, without an error, with the last table only, to
something else. -/
theorem C95_tables_limit : ∃ bytes pad, byteBits bytes = encode2 pTable qTable pAcc2 ++ pad ∧
    ∃ s img, open' ((twoFile bytes).getD · 0) (twoFile bytes).length (fun _ => 0) = some s ∧ s.components = 2 ∧
      decodeAny 0 s (fun _ => 0) 6 0 none = some img ∧ ∃ n, n < 12 ∧ img n ≠ pAcc2.getD n 0 := by
  refine ⟨[156, 186, 74, 218, 194, 0], _, pad_of (by decide +kernel), ?_⟩
  have h : twoRun [156, 186, 74, 218, 194, 0] = some [1, 65533, 5, 65532, 6, 65532, 4, 65533, 5, 65532, 5, 65532] := by decide +kernel
  unfold twoRun at h
  generalize twoFile [156, 186, 74, 218, 194, 0] = F at *
  cases h1 : open' (F.getD · 0) F.length (fun _ => 0) with
  | none => rw [h1] at h; simp at h
  | some s =>
    rw [h1, Option.bind_some] at h
    by_cases hc : s.components = 2
    · rw [if_pos hc] at h
      cases h2 : decodeAny 0 s (fun _ => 0) 6 0 none with
      | none => rw [h2] at h; simp at h
      | some img =>
        rw [h2, Option.map_some, Option.some.injEq] at h
        refine ⟨s, img, rfl, hc, h2, 0, by decide, ?_⟩
        have h3 := congrArg (fun l : List Nat => l.getD 0 0) h
        have h4 : img 0 = 1 := by simpa [List.range_succ] using h3
        rw [h4]; decide
    · rw [if_neg hc] at h; simp at h

/-! ### The hypotheses can be met -/

/-- A header with a comment (that contains a marker), the frame header before two copies of the table, application data. -/
def segsEx : List Segment :=
  [.other 0xE0 [0x4A, 0x46, 0x49, 0x46], .frame 2 2 3 2 [0, 0x11, 0, 1, 0x11, 0], .other 0xFE [0xFF, 0xDA, 0xFF, 0xC4], .table 0 pCounts [0, 1, 2, 3],
   .table 0x11 pCounts [0, 1, 2, 3], .other 0xEF []]

def fileEx : List Nat := [0xFF, 0xD8] ++ segsEx.flatMap Segment.bytes ++ scanHeader 1 2 [0, 0, 1, 0x10] ++ (stuff [153, 108, 85, 106, 16] ++ [0xFF, 0xD9])

-- C95_decoder_inverts: two components of 3 by 2 samples.
example : IsFileS 1 2 2 3 2 pAcc2 fileEx ∧ pAcc2.length = 2 * 3 * 2 ∧ (∀ x ∈ pAcc2, x < 2 ^ 2) ∧ (∀ x ∈ fileEx, x < 256) := by
  refine ⟨⟨segsEx, [0, 0, 1, 0x10], pCounts, [0, 1, 2, 3], pTable, [153, 108, 85, 106, 16], _, [0xFF, 0xD9], pDescribes, by decide, ?_, ?_,
    ⟨0, by simp [segsEx]⟩, ⟨_, by simp [segsEx]; rfl⟩, rfl, pad_of (by decide +kernel), by decide, rfl⟩, rfl, by decide, by decide⟩
  · have : ∀ i : Fin 12, cls ((pAcc2.getD i.1 0 : Int) - predPC 1 2 2 (2 * 3) pAcc2 i.1) ∈ [0, 1, 2, 3] := by decide +kernel
    exact fun i hi => this ⟨i, hi⟩
  · intro g hg
    simp only [segsEx, List.mem_cons, List.not_mem_nil, or_false] at hg
    rcases hg with rfl | rfl | rfl | rfl | rfl | rfl <;> simp [Segment.Legal]

-- The run itself, one value left alone after each row.
example : ((open' (fileMem fileEx) fileEx.length (fun _ => 9)).bind fun s =>
      (decodeAny 7 s (fun _ => 99) 6 1 none).map fun img => (List.range 14).map img) = some (pAcc2.take 6 ++ [99] ++ pAcc2.drop 6 ++ [99]) := by
  decide +kernel

-- C95_core_file: the default table as a legal table with a code for every class.
theorem default_describes : DescribesFor defaultCounts defaultVals defaultTable (· ∈ defaultVals) where
  len := by decide
  num := by decide
  nodup := by decide
  mem := fun t => Iff.rfl
  fit := by decide
  word := by
    intro k t h
    have key : ∀ k : Fin 17, ∃ e, (huffCodes 0 0 (huffSizes (defaultCounts.getD · 0) 16))[k.1]? = some e ∧ defaultTable (defaultVals.getD k.1 0) = toBits e.1 e.2 := by
      intro k
      have h1 : ∀ k : Fin 17, ((huffCodes 0 0 (huffSizes (defaultCounts.getD · 0) 16))[k.1]?).any
          (fun e => defaultTable (defaultVals.getD k.1 0) == toBits e.1 e.2) = true := by decide
      have h2 := h1 k
      cases he : (huffCodes 0 0 (huffSizes (defaultCounts.getD · 0) 16))[k.1]? with
      | none => rw [he] at h2; simp at h2
      | some e => rw [he] at h2; exact ⟨e, rfl, by simpa using h2⟩
    obtain ⟨hk, h⟩ := List.getElem?_eq_some_iff.1 h
    obtain ⟨e, h1, h2⟩ := key ⟨k, hk⟩
    refine ⟨e, h1, ?_⟩
    rw [← h2, ← h, List.getD_eq_getElem?_getD, List.getElem?_eq_getElem hk]
    rfl

example : DescribesFor defaultCounts defaultVals defaultTable (· ∈ defaultVals) ∧ (∀ t ∈ defaultVals, t ≤ 16) ∧
    (∀ t, t ≤ betaCore.int1.bd → t ∈ defaultVals) ∧ betaCore.int1.W = 4 * 1024 :=
  ⟨default_describes, by decide, fun t ht => by
    have : ∀ t : Fin 13, t.1 ∈ defaultVals := by decide
    exact this ⟨t, Nat.lt_succ_of_le ht⟩, rfl⟩

end Props.Segs
