/- Property C100: the decoder compiled with SLOW_HUFF does the same as the one compiled without. -/
import Verif.Proof.Lj92SlowOpen
import Verif.Props.Segments

set_option autoImplicit false

namespace Props.SlowHuff
open Spec Model Model.Lj92 Model.Lj92.Seg Props Props.Segs

theorem getD_append_range {α : Type} (f : Nat → α) (n : Nat) : ((List.range n).map f).length = n := by simp

/-- The differences of an image. -/
def diffs (p bd C W : Nat) (acc : List Nat) : List Int := (List.range acc.length).map fun i => (acc.getD i 0 : Int) - predPC p bd C W acc i

theorem encode_codeOf {p bd C W : Nat} {T : Table} {acc : List Nat}
    (h15 : ∀ i, i < acc.length → cls ((acc.getD i 0 : Int) - predPC p bd C W acc i) ≤ 15) :
    encodePC p T bd C W acc = Slow.codeOf T (diffs p bd C W acc) := by
  unfold encodePC Slow.codeOf diffs
  rw [List.flatMap_map]
  have key : ∀ l : List Nat, (∀ i ∈ l, i < acc.length) → l.flatMap (fun i => diffBits T ((acc.getD i 0 : Int) - predPC p bd C W acc i)) =
      l.flatMap fun i => wideBits T ((acc.getD i 0 : Int) - predPC p bd C W acc i) := by
    intro l
    induction l with
    | nil => intro _; rfl
    | cons i l ih =>
      intro h
      rw [List.flatMap_cons, List.flatMap_cons, ih (fun j hj => h j (List.mem_cons_of_mem _ hj))]
      have := h15 i (h i (List.mem_cons_self ..))
      rw [diffBits, if_neg (by omega)]
      rfl
  exact key _ (fun i hi => List.mem_range.1 hi)

theorem tabs_ok {counts vals : List Nat} {T : Table} (hD : DescribesFor counts vals T (· ∈ vals)) :
    Slow.Tabs T (counts.getD · 0) (vals.getD · 0) vals.length (fun t => t ∈ vals ∧ t ≤ 15) where
  num := by rw [huffSizes_length counts 16 hD.len, ← hD.num]
  word := by
    intro t ht
    obtain ⟨k, hk⟩ := List.getElem?_of_mem ht.1
    obtain ⟨e, h1, h2⟩ := hD.word k t hk
    have hfit := hD.fit e (List.mem_of_getElem? h1)
    have hpw : (0 :: huffSizes (counts.getD · 0) 16).Pairwise (· ≤ ·) := by
      rw [List.pairwise_cons]; exact ⟨fun a _ => Nat.zero_le a, huffSizes_mono _ 16⟩
    have hlt : k < (huffSizes (counts.getD · 0) 16).length := by
      have := (List.getElem?_eq_some_iff.1 h1).1
      rwa [huffCodes_length] at this
    obtain ⟨e', a1, a2, _⟩ := huffCodes_start 16 (huffSizes (counts.getD · 0) 16) 0 0 k hpw (fun x hx => (huffSizes_le _ 16 x hx).2) hlt (Nat.zero_le _)
    rw [h1] at a1
    injection a1 with a1
    subst a1
    have hc : Slow.codeAt (counts.getD · 0) k = e.2 := by
      unfold Slow.codeAt
      rw [List.getD_eq_getElem?_getD, h1]; rfl
    exact ⟨k, e.1, a2, by show vals.getD k 0 = t; rw [List.getD_eq_getElem?_getD, hk]; rfl, by rw [hc]; exact h2, by rw [hc]; omega⟩

/-- C100: the two builds of the decoder agree. A file of an image that is not empty, of any number of components, coded with any predictor, with
difference classes up to fifteen, its segments in any order, is opened by both with the same dimensions, and `lj92_decode` gives the same result,
the same values written or the same failure, for every linearization table, row gap and group length. Only for predictor 6 the image must have one
component and 32 by 2 samples or more. The slow build's result also says that it stayed inside the arrays of its tables. -/
theorem C100_builds_agree {p bd H X C : Nat} {acc F : List Nat} (hF : IsFileS p bd H X C acc F) (hC256 : C < 256) (hX : X < 65536) (hH : H < 65536)
    (hne : acc ≠ []) (hlen : acc.length = C * X * H) (h15 : ∀ i, i < acc.length → cls ((acc.getD i 0 : Int) - predPC p bd C (C * X) acc i) ≤ 15)
    {d : Nat → Nat} (hd : ∀ k, d k < 256) (hfile : At d 0 F) (mem : Nat → Nat) (h6 : p = 6 → C = 1 ∧ 32 ≤ X ∧ 2 ≤ H) :
    ∃ f s t, open' d F.length mem = some f ∧ Slow.open' d F.length = some (s, t) ∧
      s.x = X ∧ s.y = H ∧ s.bits = bd ∧ s.components = C ∧ f.x = X ∧ f.y = H ∧ f.bits = bd ∧ f.components = C ∧
      ∀ (ub : Int) (target : Nat → Nat) (group skip : Nat) (lin : Option Lin),
        Slow.decodeAny ub (s, t) target group skip lin = decodeAny ub f target group skip lin := by
  obtain ⟨segs, sels, counts, vals, T, bytes, pad, tail, hD, hv, hcl, hsegs, htab, hfr, hsels, hbits, htail, rfl⟩ := hF
  obtain ⟨hvl, hby⟩ := describes_small' hD hv
  have hpos : 0 < acc.length := List.length_pos_iff.2 hne
  have hv1 : 1 ≤ vals.length := List.length_pos_iff.2 (by intro h; have := hcl 0 hpos; rw [h] at this; simp at this)
  obtain ⟨f, o1, o⟩ := open_segs hd hD hby (by omega) hH hX hC256 hsegs htab hfr hsels hfile mem
  obtain ⟨s, t, q1, q⟩ := Slow.slowOpen_segs hd hD.len hD.num hv1 (by omega) hH hX hC256 hsegs htab hfr hsels hfile
  refine ⟨f, s, t, o1, q1, q.x, q.y, q.bits, q.comps, o.x, o.y, o.bits, o.comps, ?_⟩
  intro ub target group skip lin
  obtain ⟨u, rfl, hu⟩ := q.tab
  have hrc : s.rowcache = f.rowcache := by rw [Slow.open_rowcache o1, Slow.slowOpen_rowcache q1]
  rw [encode_codeOf h15] at hbits
  have hdl : (diffs p bd C (C * X) acc).length = C * X * H := by rw [diffs, getD_append_range, hlen]
  let f0 : Ljp := { f with image := target, skiplen := skip, ix := f.scanstart + beh f.data f.scanstart, cnt := 0, b := 0 }
  let s0 : Ljp := { s with image := target, skiplen := skip, ix := s.scanstart + beh s.data s.scanstart, cnt := 0, b := 0 }
  have hset : Slow.Setup T (counts.getD · 0) (vals.getD · 0) vals.length (fun t => t ∈ vals ∧ t ≤ 15) u f0 s0 :=
    { tabs := tabs_ok hD
      ok := hu
      bytes := o.bytes
      bytes' := q.bytes
      hb := o.hb
      lut := fun t ht => o.lut t ht.1
      small := fun t ht => ht.2 }
  have hends := o.ends
  have hends' := q.ends
  rw [List.length_append] at hends hends'
  let E := f.scanstart + beh f.data f.scanstart + (stuff bytes).length
  let E' := s.scanstart + beh s.data s.scanstart + (stuff bytes).length
  have hpre : Slow.codeOf T (diffs p bd C (C * X) acc) <+: byteBits bytes := by rw [hbits]; exact List.prefix_append ..
  have hrel : Slow.Rel T f0 s0 E E' (fun t => t ∈ vals ∧ t ≤ 15) (diffs p bd C (C * X) acc) f0 s0 :=
    { classes := by
        intro x hx
        simp only [diffs, List.mem_map, List.mem_range] at hx
        obtain ⟨i, hi, rfl⟩ := hx
        exact ⟨hcl i hi, h15 i hi⟩
      fast := ⟨by show 0 < 2 ^ 0; decide, bytes, o.at'.left, by simpa [f0, toBits] using hpre, .inl rfl⟩
      slow := ⟨by show 0 ≤ 8; decide, bytes, q.at'.left, by simpa [s0] using hpre, rfl⟩
      cnt := by show 0 ≤ 31; decide
      b := by show 0 < 256; decide
      data := rfl
      data' := rfl
      lut := rfl
      hb := rfl
      dl := rfl
      dl' := rfl
      x := q.x.trans o.x.symm
      y := q.y.trans o.y.symm
      bits := q.bits.trans o.bits.symm
      components := q.comps.trans o.comps.symm
      skiplen := rfl
      image := rfl
      rowcache := hrc }
  have hboth : Slow.Both (fun a b => b.image = a.image) (parseAny ub lin group { f with image := target, skiplen := skip })
      (Slow.parseAny ub (some u) lin group { s with image := target, skiplen := skip }) := by
    unfold parseAny Slow.parseAny
    dsimp only
    rw [o.count, o.pred, q.count, q.pred]
    by_cases e6 : p = 6
    · rw [if_pos e6, if_pos e6]
      obtain ⟨rfl, hX32, hH2⟩ := h6 e6
      refine Slow.pred6_both ub (s0 := f0) (t0 := s0) (E := E) (E' := E') rfl rfl hset hrel lin group (by show 32 ≤ f.x; rw [o.x]; exact hX32)
        (by show 2 ≤ f.y; rw [o.y]; exact hH2) (by show _ = f.y * f.x; rw [hdl, o.x, o.y, Nat.one_mul, Nat.mul_comm])
        (by show f.scanstart + beh f.data f.scanstart + (stuff bytes).length < f.datalen; omega)
        (by show s.scanstart + beh s.data s.scanstart + (stuff bytes).length < s.datalen; omega)
    · rw [if_neg e6, if_neg e6]
      unfold parseScan Slow.parseScan
      dsimp only
      rw [o.count, o.pred, q.count, q.pred]
      by_cases e7 : p > 7 ∨ p = 6
      · rw [if_pos e7, if_pos e7]; exact .inl ⟨rfl, rfl⟩
      · rw [if_neg e7, if_neg e7]
        have := Slow.loops_both ub hset (v := (f0, 0)) (w := (s0, 0)) hrel rfl lin p f.components f.x f.y
          (by rw [hdl, o.comps, o.x, o.y]; exact Nat.le_refl _)
        have ex : s.x = f.x := q.x.trans o.x.symm
        have ey : s.y = f.y := q.y.trans o.y.symm
        have ec : s.components = f.components := q.comps.trans o.comps.symm
        rw [← ex, ← ey, ← ec] at this
        refine Slow.both_map (R := fun v w => w.1.image = v.1.image) ?_ (fun _ _ h => h)
        rcases this with ⟨a, b⟩ | ⟨v, w, a, b, h1, _⟩
        · left
          refine ⟨?_, b⟩
          rw [ex, ey, ec] at a
          exact a
        · right
          refine ⟨v, w, ?_, b, h1.image⟩
          rw [ex, ey, ec] at a
          exact a
  unfold decodeAny Slow.decodeAny
  dsimp only
  rcases hboth with ⟨a, b⟩ | ⟨v, w, a, b, h⟩
  · rw [a, b]
  · rw [a, b]; exact congrArg some h

theorem nonempty_of {acc : List Nat} {n : Nat} (h : acc.length = n) (hn : 0 < n) : acc ≠ [] := by
  intro he; rw [he] at h; simp at h; omega

/-- C100: C95 for the slow build. A file of an image of any number of components, of up to fifteen bits, coded with predictor 1 and any legal Huffman
table, is opened with the right dimensions, and decoding writes exactly the samples (through the linearization table, if there is one). -/
theorem C100_decoder_inverts {bd H X C : Nat} {acc F : List Nat} (hF : IsFileS 1 bd H X C acc F) (hC : 1 ≤ C) (hC256 : C < 256) (hCX : C ≤ X)
    (hbd1 : 1 ≤ bd) (hbd : bd ≤ 15) (hX : X < 65536) (hH : H < 65536) (hH1 : 1 ≤ H) (hlen : acc.length = C * X * H) (hacc : ∀ x ∈ acc, x < 2 ^ bd)
    {d : Nat → Nat} (hd : ∀ k, d k < 256) (hfile : At d 0 F) (lin : Option Lin) (hlin : ∀ l, lin = some l → ∀ x ∈ acc, x ≤ l.len)
    (target : Nat → Nat) (ub : Int) (group skip : Nat) :
    ∃ s t img, Slow.open' d F.length = some (s, t) ∧ s.x = X ∧ s.y = H ∧ s.bits = bd ∧ s.components = C ∧
      Slow.decodeAny ub (s, t) target group skip lin = some img ∧
      (∀ n, n < C * X * H → img (strided (C * X) skip n) = linear lin (acc.getD n 0)) ∧
      (∀ k, (∀ n, n < C * X * H → k ≠ strided (C * X) skip n) → img k = target k) := by
  have hpos : 0 < C * X * H := Nat.mul_pos (Nat.mul_pos (by omega) (by omega)) (by omega)
  obtain ⟨f, img, a1, _, _, _, _, a2, a3, a4⟩ := C95_decoder_inverts hF hC hC256 hCX hbd1 hbd hX hH hlen hacc hd hfile lin hlin (fun _ => 0) target ub group skip
  obtain ⟨f', s, t, b1, b2, b3, b4, b5, b6, _, _, _, _, b7⟩ := C100_builds_agree hF hC256 hX hH (nonempty_of hlen hpos) hlen
    (fun i _ => Nat.le_trans (C95_classes hbd1 hacc i) hbd) hd hfile (fun _ => 0) (fun e => absurd e (by decide))
  rw [a1] at b1
  injection b1 with b1
  subst b1
  exact ⟨s, t, img, b2, b3, b4, b5, b6, by rw [b7]; exact a2, a3, a4⟩

/-- C100, one component, any of the seven predictors, up to fourteen bits; for predictor 6 with the row length as the group length and at least 32 by 2
samples. -/
theorem C100_one_component {p bd H W : Nat} {acc F : List Nat} (hF : IsFileS p bd H W 1 acc F) (hp : 1 ≤ p) (hp7 : p ≤ 7) (hbd1 : 1 ≤ bd) (hbd : bd ≤ 14)
    (hW : W < 65536) (hH : H < 65536) (hW1 : 1 ≤ W) (hH1 : 1 ≤ H) (hlen : acc.length = W * H) (hacc : ∀ x ∈ acc, x < 2 ^ bd) {d : Nat → Nat}
    (hd : ∀ k, d k < 256) (hfile : At d 0 F) (lin : Option Lin) (hlin : ∀ l, lin = some l → ∀ x ∈ acc, x ≤ l.len) (target : Nat → Nat) (ub : Int)
    (group skip : Nat) (h6 : p = 6 → 32 ≤ W ∧ 2 ≤ H ∧ group = W) :
    ∃ s t img, Slow.open' d F.length = some (s, t) ∧ s.x = W ∧ s.y = H ∧ s.bits = bd ∧ s.components = 1 ∧
      Slow.decodeAny ub (s, t) target group skip lin = some img ∧
      (∀ n, n < W * H → img (strided W skip n) = linear lin (acc.getD n 0)) ∧
      (∀ k, (∀ n, n < W * H → k ≠ strided W skip n) → img k = target k) := by
  have hpos : 0 < W * H := Nat.mul_pos (by omega) (by omega)
  obtain ⟨f, img, a1, _, _, _, _, a2, a3, a4⟩ := C95_one_component hF hp hp7 hbd1 hbd hW hH hlen hacc hd hfile lin hlin (fun _ => 0) target ub group skip h6
  obtain ⟨f', s, t, b1, b2, b3, b4, b5, b6, _, _, _, _, b7⟩ := C100_builds_agree hF (by decide) hW hH (nonempty_of hlen hpos) (by rw [Nat.one_mul]; exact hlen)
    (fun i hi => by
      rw [Nat.one_mul, predPC_one]
      have : cls ((acc.getD i 0 : Int) - predP p bd W acc i) ≤ bd + 1 := C67_classes hp hp7 hbd1 hacc hi
      omega) hd hfile (fun _ => 0) (fun e => ⟨rfl, (h6 e).1, (h6 e).2.1⟩)
  rw [a1] at b1
  injection b1 with b1
  subst b1
  exact ⟨s, t, img, b2, b3, b4, b5, b6, by rw [b7]; exact a2, a3, a4⟩

/-- C100, the core: a completely transferred frame of the camera core (end word FFFF), without its markers, behind any legal header that states four
components and the table, is decoded by the slow build to the accepted image. -/
theorem C100_core_file {c : CoreCfg} {T : Table} (h : CamSetup c T) (hbd : c.int1.bd ≤ 15) (allowed : Nat)
    {s : Cam} (hs : CamAfterReset c s) (ins : List CamIn) (i : CamIn) (hwf : CamWf c (ins ++ [i]))
    (hno : ∀ x ∈ camGiven c allowed s ins, x.2 = false) (hw : (0xFFFF, true) ∈ camGiven c allowed s (ins ++ [i]))
    {X : Nat} (hX : c.int1.W = 4 * X) (hX4 : 4 ≤ X) (hX64 : X < 65536) (hH : c.int1.H < 65536) (hH1 : 1 ≤ c.int1.H)
    {segs : List Segment} {counts vals sels tail : List Nat} (hD : DescribesFor counts vals T (· ∈ vals)) (hv : ∀ t ∈ vals, t ≤ 16)
    (hcl : ∀ t, t ≤ c.int1.bd → t ∈ vals) (hsegs : ∀ g ∈ segs, Segment.Legal c.int1.bd c.int1.H X 4 counts vals g)
    (htab : ∃ th, Segment.table th counts vals ∈ segs) (hfr : ∃ comps, Segment.frame c.int1.bd c.int1.H X 4 comps ∈ segs)
    (hsels : sels.length = 8) (htail : 1 ≤ tail.length) {d : Nat → Nat} (hd : ∀ k, d k < 256) (file : List Nat)
    (hfile : file = [0xFF, 0xD8] ++ segs.flatMap Segment.bytes ++ scanHeader 1 4 sels ++
      (wordBytes (((camGiven c allowed s (ins ++ [i])).drop 8).take ((camGiven c allowed s (ins ++ [i])).length - 16)) ++ tail))
    (hmem : At d 0 file) (lin : Option Lin) (hlin : ∀ l, lin = some l → 2 ^ c.int1.bd ≤ l.len + 1) (target : Nat → Nat) (ub : Int) (group skip : Nat) :
    ∃ l t img, Slow.open' d file.length = some (l, t) ∧ l.x = X ∧ l.y = c.int1.H ∧ l.bits = c.int1.bd ∧ l.components = 4 ∧
      Slow.decodeAny ub (l, t) target group skip lin = some img ∧
      (∀ n, n < c.int1.W * c.int1.H → img (strided c.int1.W skip n) = linear lin ((camAccepted c allowed s (ins ++ [i])).getD n 0)) ∧
      (∀ k, (∀ n, n < c.int1.W * c.int1.H → k ≠ strided c.int1.W skip n) → img k = target k) := by
  obtain ⟨hF, hl, hacc⟩ := core_isFile h hbd allowed hs ins i hwf hno hw hX hX4 hD hv hcl hsegs htab hfr hsels htail file hfile
  have := C100_decoder_inverts hF (by decide) (by decide) hX4 (by have := h.core.legal.frame.bd2; omega) hbd hX64 hH hH1 (by rw [← hX]; exact hl) hacc hd hmem lin
    (fun l hl' x hx => by have := hacc x hx; have := hlin l hl'; omega) target ub group skip
  rw [← hX] at this
  exact this

/-! ### Limits -/

/-- A legal file of an image without lines (its table has no codes). -/
def emptyFile : List Nat := [0xFF, 0xD8] ++ [Segment.table 0 (List.replicate 16 0) [], .frame 2 0 3 1 [0, 0x11, 0]].flatMap Segment.bytes ++ scanHeader 1 1 [0, 0] ++ [0xFF, 0xD9]

/-- C100, a limit: an image without samples needs no codes; the file is legal and the normal build opens it, but with an empty table the slow build reads
behind the end of the array of the code lengths. -/
theorem C100_empty_limit : IsFileS 1 2 0 3 1 [] emptyFile ∧ (open' (fileMem emptyFile) emptyFile.length (fun _ => 0)).isSome = true ∧
    (Slow.open' (fileMem emptyFile) emptyFile.length).isNone = true := by
  refine ⟨⟨_, [0, 0], List.replicate 16 0, [], fun _ => [], [], [], [0xFF, 0xD9], ?_, by decide, fun i hi => absurd hi (by simp), ?_, ⟨0, List.mem_cons_self ..⟩,
    ⟨_, List.mem_cons_of_mem _ (List.mem_cons_self ..)⟩, rfl, rfl, by decide, rfl⟩, by decide +kernel, by decide +kernel⟩
  · exact { len := by decide, num := by decide, nodup := by decide, mem := fun t => Iff.rfl, fit := by decide, word := fun k t h => by simp at h }
  · intro g hg
    simp only [List.mem_cons, List.not_mem_nil, or_false] at hg
    rcases hg with rfl | rfl <;> simp [Segment.Legal]

/-- C100, a limit: if the data are not a code, the builds differ. After a bit sequence that begins no code word the normal build goes on as if the class were 0,
without an error; the slow build reads behind the end of `maxcode`. -/
theorem C100_invalid_limit : ∃ F : List Nat, (((open' (fileMem F) F.length (fun _ => 0)).bind fun s => decodeAny 0 s (fun _ => 0) 4 0 none).isSome = true) ∧
    (Slow.open' (fileMem F) F.length).isSome = true ∧
    (((Slow.open' (fileMem F) F.length).bind fun v => Slow.decodeAny 0 v (fun _ => 0) 4 0 none).isNone = true) :=
  ⟨pFile 1 (List.replicate 40 0xFF), by decide +kernel, by decide +kernel, by decide +kernel⟩

/-! ### The hypotheses can be met -/

-- C100_builds_agree, C100_decoder_inverts: the file `fileEx` of Props.Segs (two components, 3 by 2 samples; IsFileS is shown there), run by the slow build.
example : pAcc2 ≠ [] ∧ (∀ i : Fin 12, cls ((pAcc2.getD i.1 0 : Int) - predPC 1 2 2 (2 * 3) pAcc2 i.1) ≤ 15) ∧
    ((Slow.open' (fileMem fileEx) fileEx.length).bind fun v =>
      (Slow.decodeAny 7 v (fun _ => 99) 6 1 none).map fun img => (List.range 14).map img) = some (pAcc2.take 6 ++ [99] ++ pAcc2.drop 6 ++ [99]) := by
  decide +kernel

-- C100_one_component: the files of Props.Predictors (4 by 3 samples), every predictor but 6.
example : ∀ p : Fin 8, p.1 ≠ 0 → p.1 ≠ 6 → ((Slow.open' (fileMem (pFile p.1 (pBytes p.1))) (pFile p.1 (pBytes p.1)).length).bind fun v =>
      (Slow.decodeAny (-3) v (fun _ => 0) 4 0 none).map fun img => (List.range 12).map img) =
    ((open' (fileMem (pFile p.1 (pBytes p.1))) (pFile p.1 (pBytes p.1)).length (fun _ => 0)).bind fun s =>
      (decodeAny (-3) s (fun _ => 0) 4 0 none).map fun img => (List.range 12).map img) := by
  decide +kernel

end Props.SlowHuff
