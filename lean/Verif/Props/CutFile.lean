/- Property C97: what the decoder of liblj92 makes of a file whose code ends early or is damaged. -/
import Verif.Proof.Lj92Cut
import Verif.Props.Segments
import Verif.Props.AnyFrames
import Verif.Props.Size
import Verif.Props.Decoder
import Verif.Props.DecoderMem

set_option autoImplicit false

namespace Props.Cut
open Spec Model Model.Lj92 Model.Lj92.Seg Props Props.Segs

/-- C97: a file (predictor 1, any number of components, segments in any order) that states `C * X * H` samples, but whose code is only right for the
first samples `acc` - what follows may be damaged, cut, or no code at all -: `lj92_open` opens it with the stated dimensions, `lj92_decode` ends without
an error, the first `acc.length` samples are right, and nothing outside the rows of the image is changed. (With a linearization table: if it covers
all 16-bit values, since what follows may be anything.) The program does not look at the length of the file: the memory
behind it, read here as `d`, must be readable. In the model of the C program a look-up table entry that no
code word fills holds what was in the memory before (`mem`; `malloc` leaves it undefined in C); if the damaged code reaches such an entry, the
class and the length found there are arbitrary and shifts by negative amounts or by 32 or more can follow, for which C promises nothing: the
model goes on with truncated subtraction. Before that point nothing of the kind happens. See also `C97_histogram_limit`. -/
theorem C97_decoder_keeps {bd H X C : Nat} {acc F : List Nat} (hF : IsFileS 1 bd H X C acc F) (hC : 1 ≤ C) (hC256 : C < 256) (hCX : C ≤ X)
    (hbd1 : 1 ≤ bd) (hbd : bd ≤ 15) (hX : X < 65536) (hH : H < 65536) (hlen : acc.length ≤ C * X * H) (hacc : ∀ x ∈ acc, x < 2 ^ bd)
    {d : Nat → Nat} (hd : ∀ k, d k < 256) (hfile : At d 0 F) (lin : Option Lin) (hlin : ∀ l, lin = some l → 65535 ≤ l.len)
    (mem target : Nat → Nat) (ub : Int) (group skip : Nat) :
    ∃ s img, open' d F.length mem = some s ∧ s.x = X ∧ s.y = H ∧ s.bits = bd ∧ s.components = C ∧ decodeAny ub s target group skip lin = some img ∧
      (∀ n, n < acc.length → img (strided (C * X) skip n) = linear lin (acc.getD n 0)) ∧
      (∀ k, (∀ n, n < C * X * H → k ≠ strided (C * X) skip n) → img k = target k) := by
  obtain ⟨segs, sels, counts, vals, T, bytes, pad, tail, hD, hv, hcl, hsegs, htab, hfr, hsels, hbits, htail, rfl⟩ := hF
  obtain ⟨hvl, hby⟩ := describes_small' hD hv
  obtain ⟨s, o1, o⟩ := open_segs hd hD hby (by omega) hH hX hC256 hsegs htab hfr hsels hfile mem
  have hM : 2 ^ bd ≤ 2 ^ 15 := Nat.pow_le_pow_right (by decide) hbd
  let s0 : Ljp := { s with image := target, skiplen := skip }
  have hr : ReadyC s0 T bd C X acc lin :=
    { bytes := o.bytes
      x := o.x
      comps := o.comps
      wide := hCX
      bits := o.bits
      hb := o.hb
      lut := fun n hn => o.lut _ (hcl n hn)
      cls15 := fun n _ => Nat.le_trans (C95_classes hbd1 hacc n) hbd
      lt := fun n => by have := getD_lt hacc n; omega
      lin := beyond_false (fun l hl x hx => by have := hlin l hl; have := hacc x hx; omega) }
  have hrep : Rep s0.data (0, 0, s0.scanstart + beh s0.data s0.scanstart) (encodePC 1 T bd C (C * X) acc) :=
    ⟨by simp, bytes, o.at'.left, by rw [hbits]; exact List.prefix_append ..⟩
  have hpred : s0.data (s0.scanstart + 3 + 2 * s0.data (s0.scanstart + 2)) = 1 := by
    show s.data (s.scanstart + 3 + 2 * s.data (s.scanstart + 2)) = 1
    rw [o.count, o.pred]
  obtain ⟨s', r1, r2, r3⟩ := parseScanC_cut ub (s := s0) hr hlin (by omega) (by show acc.length ≤ C * X * s.y; rw [o.y]; exact hlen) hpred hrep
  refine ⟨s, s'.image, o1, o.x, o.y, o.bits, o.comps, ?_, r2, fun k hk => r3 k (fun m hm => hk m (by
    have : m < C * X * s.y := hm
    rw [o.y] at this; exact this))⟩
  unfold decodeAny parseAny
  dsimp only
  rw [o.count, o.pred, if_neg (by decide)]
  have r1' : parseScan ub lin { s with image := target, skiplen := skip } = some s' := r1
  rw [r1']
  rfl

/-- C97: what is cut from a stuffed string still contains the stuffed string of some bytes, up to its last byte. -/
theorem C97_whole_bytes : ∀ (bytes p : List Nat), p <+: stuff bytes → ∃ bs, bs <+: bytes ∧ stuff bs <+: p ∧ p.length ≤ (stuff bs).length + 1
  | [], p, h => by
    have : p = [] := by simpa [stuff] using h
    subst this; exact ⟨[], List.prefix_refl _, List.prefix_refl _, by simp⟩
  | b :: l, [], _ => ⟨[], List.nil_prefix, List.prefix_refl _, by simp⟩
  | b :: l, [x], h => ⟨[], List.nil_prefix, List.nil_prefix, by simp [stuff]⟩
  | b :: l, x :: y :: p, h => by
    unfold stuff at h
    by_cases hb : b = 255
    · rw [if_pos hb] at h
      obtain ⟨rfl, h2⟩ := List.cons_prefix_cons.1 h
      obtain ⟨rfl, hp⟩ := List.cons_prefix_cons.1 h2
      obtain ⟨bs, h1, h2, h3⟩ := C97_whole_bytes l p hp
      refine ⟨b :: bs, List.cons_prefix_cons.2 ⟨rfl, h1⟩, ?_, ?_⟩
      · rw [stuff, if_pos hb]
        exact List.cons_prefix_cons.2 ⟨rfl, List.cons_prefix_cons.2 ⟨rfl, h2⟩⟩
      · rw [stuff, if_pos hb]; simp only [List.length_cons]; omega
    · rw [if_neg hb] at h
      obtain ⟨rfl, hp⟩ := List.cons_prefix_cons.1 h
      obtain ⟨bs, h1, h2, h3⟩ := C97_whole_bytes l (y :: p) hp
      refine ⟨x :: bs, List.cons_prefix_cons.2 ⟨rfl, h1⟩, ?_, ?_⟩
      · rw [stuff, if_neg hb]
        exact List.cons_prefix_cons.2 ⟨rfl, h2⟩
      · rw [stuff, if_neg hb]; simp only [List.length_cons] at h3 ⊢; omega

/-- C97, the core: a frame of the beta core that was ended by force (end word FFFE), its markers stripped, behind any legal header that states four
components, the full size and the table, and before anything (at least one byte): the shipped decoder reads it without an error, and for every `k` such
that the code of the first `k` accepted pixels fits into whole stuffed bytes `bs` of the frame, the first `k` pixels of the result are the accepted ones. -/
theorem C97_forced_frame {c : CoreCfg} {T : Table} (h : CamSetup c T) (hbd : c.int1.bd ≤ 15) (allowed : Nat)
    {s : Cam} (hs : CamAfterReset c s) (ins : List CamIn) (i : CamIn) (hwf : CamWf c (ins ++ [i]))
    (hno : ∀ x ∈ camGiven c allowed s ins, x.2 = false) (hw : (0xFFFE, true) ∈ camGiven c allowed s (ins ++ [i]))
    {X : Nat} (hX : c.int1.W = 4 * X) (hX4 : 4 ≤ X) (hX64 : X < 65536) (hH : c.int1.H < 65536)
    {segs : List Segment} {counts vals sels tail : List Nat} (hD : DescribesFor counts vals T (· ∈ vals)) (hv : ∀ t ∈ vals, t ≤ 16)
    (hcl : ∀ t, t ≤ c.int1.bd → t ∈ vals) (hsegs : ∀ g ∈ segs, Segment.Legal c.int1.bd c.int1.H X 4 counts vals g)
    (htab : ∃ th, Segment.table th counts vals ∈ segs) (hfr : ∃ comps, Segment.frame c.int1.bd c.int1.H X 4 comps ∈ segs)
    (hsels : sels.length = 8) (htail : 1 ≤ tail.length) {d : Nat → Nat} (hd : ∀ k, d k < 256)
    (data : List Nat) (hdata : data = wordBytes (((camGiven c allowed s (ins ++ [i])).drop 8).take ((camGiven c allowed s (ins ++ [i])).length - 16)))
    (file : List Nat) (hfile : file = [0xFF, 0xD8] ++ segs.flatMap Segment.bytes ++ scanHeader 1 4 sels ++ (data ++ tail)) (hmem : At d 0 file)
    (bs : List Nat) (hbs : stuff bs <+: data) (k : Nat) (hk : k ≤ (camAccepted c allowed s (ins ++ [i])).length)
    (hfit : (encode T c.int1.bd c.int1.W ((camAccepted c allowed s (ins ++ [i])).take k)).length ≤ 8 * bs.length)
    (lin : Option Lin) (hlin : ∀ l, lin = some l → 65535 ≤ l.len) (mem target : Nat → Nat) (ub : Int) (group skip : Nat) :
    ∃ l img, open' d file.length mem = some l ∧ l.x = X ∧ l.components = 4 ∧ l.y = c.int1.H ∧ l.bits = c.int1.bd ∧
      decodeAny ub l target group skip lin = some img ∧
      (∀ n, n < k → img (strided c.int1.W skip n) = linear lin ((camAccepted c allowed s (ins ++ [i])).getD n 0)) ∧
      (∀ j, (∀ n, n < c.int1.W * c.int1.H → j ≠ strided c.int1.W skip n) → img j = target j) := by
  obtain ⟨body, hg, _, hb⟩ := C30_frame h allowed hs ins i hwf hno 0xFFFE hw
  have hbody : ((camGiven c allowed s (ins ++ [i])).drop 8).take ((camGiven c allowed s (ins ++ [i])).length - 16) = body := by
    rw [hg, List.append_assoc, List.drop_left' (by simp [startMark])]
    rw [show (startMark ++ (body ++ endMark 0xFFFE)).length - 16 = body.length by
      simp [startMark, endMark]]
    exact List.take_left' rfl
  rw [hbody] at hdata
  subst hdata
  have hpre : ∃ rest j, wordBytes body = stuff bs ++ rest ∧
      byteBits bs <+: encode T c.int1.bd c.int1.W (camAccepted c allowed s (ins ++ [i])) ++ List.replicate j false := by
    obtain ⟨rest, hrest⟩ := hbs
    have hby : ∀ bytes, wordBytes body <+: stuff bytes → byteBits bs <+: byteBits bytes := by
      intro bytes hp
      obtain ⟨t, ht⟩ := Forced.unstuff_prefix bytes (stuff bs) (List.IsPrefix.trans ⟨rest, hrest⟩ hp)
      rw [unstuff_stuff] at ht
      exact ⟨byteBits t, by rw [← ht]; simp [byteBits]⟩
    rcases hb with ⟨hx, _⟩ | ⟨_, bytes, hp, hb | ⟨_, j, _, hb⟩⟩
    · simp at hx
    · exact ⟨rest, 0, hrest.symm, by simpa using (hby bytes hp).trans hb⟩
    · exact ⟨rest, j, hrest.symm, by rw [← hb]; exact hby bytes hp⟩
  obtain ⟨rest, j, hrest, hpre⟩ := hpre
  have hbd2 := h.core.legal.frame.bd2
  have hW4 := h.core.legal.frame.W4
  obtain ⟨hsize, hacc⟩ := Size.accepted_bounds h allowed hs ins i hwf hno
  generalize camAccepted c allowed s (ins ++ [i]) = acc at *
  have henc : encode T c.int1.bd c.int1.W (acc.take k) <+: encode T c.int1.bd c.int1.W acc ++ List.replicate j false := by
    have := encode_append (T := T) (bd := c.int1.bd) hW4 (acc.drop k) (acc.take k)
    rw [List.take_append_drop] at this
    rw [this, List.append_assoc]
    exact List.prefix_append _ _
  have hbits : (byteBits bs).length = 8 * bs.length := Model.Lj92.Enc.byteBits_length bs
  obtain ⟨pad, hpad⟩ := List.prefix_of_prefix_length_le henc hpre (by rw [hbits]; exact hfit)
  have hacc' : ∀ x ∈ acc.take k, x < 2 ^ c.int1.bd := fun x hx => hacc x (List.mem_of_mem_take hx)
  have henc2 : encode T c.int1.bd c.int1.W (acc.take k) = encodePC 1 T c.int1.bd 4 (4 * X) (acc.take k) := by
    rw [← hX]
    unfold encodePC encode
    simp only [predPC_four (show 4 ≤ c.int1.W by omega)]
    rfl
  rw [henc2] at hpad
  rw [hrest, List.append_assoc (stuff bs)] at hfile
  have hF : IsFileS 1 c.int1.bd c.int1.H X 4 (acc.take k) file :=
    ⟨segs, sels, counts, vals, T, bs, _, _, hD, hv, fun n _ => hcl _ (C95_classes (by omega) hacc' n), hsegs, htab, hfr, hsels, hpad.symm,
      by rw [List.length_append]; omega, hfile⟩
  have hlen : (acc.take k).length = k := by rw [List.length_take]; omega
  have := C97_decoder_keeps hF (by decide) (by decide) hX4 (by omega) hbd hX64 hH (by rw [hlen, ← hX]; omega) hacc' hd hmem lin hlin mem target ub group skip
  rw [← hX, hlen] at this
  obtain ⟨l, img, a1, a2, a3, a4, a5, a6, a7, a8⟩ := this
  refine ⟨l, img, a1, a2, a5, a3, a4, a6, fun n hn => ?_, a8⟩
  rw [a7 n hn]
  congr 1
  simp [List.getD_eq_getElem?_getD, hn]

/-- C97, a limit: the decoder counts classes in an array of sixteen entries without a test. In a file of twelve-bit samples with the default table (which
has a code for class 16) whose code is damaged after the fourth sample, the array is written at index 16. -/
theorem C97_histogram_limit : .hist 16 ∈ decodeAccs (jpegHeader 12 1 4 (List.replicate 12 0) defaultCounts defaultVals (List.replicate 8 0) ++
      (stuff [0xEE, 0xEE, 255, 247, 255, 191] ++ [0xFF, 0xD9, 0, 0])) 16 0 none ∧
    byteBits [0xEE, 0xEE] = encode defaultTable 12 16 (List.replicate 4 2048) := by decide +kernel

/-! ### Cases -/

/-- The file of `fileEx` whose code is cut after three bytes; behind it the marker EOI. -/
def cutFile : List Nat := [0xFF, 0xD8] ++ segsEx.flatMap Segment.bytes ++ scanHeader 1 2 [0, 0, 1, 0x10] ++ (stuff [153, 108, 85] ++ [0xFF, 0xD9])

-- The hypotheses of C97_decoder_keeps: six of the twelve samples are left.
example : IsFileS 1 2 2 3 2 (pAcc2.take 6) cutFile ∧ (∀ x ∈ pAcc2, x < 2 ^ 2) := by
  refine ⟨⟨segsEx, [0, 0, 1, 0x10], pCounts, [0, 1, 2, 3], pTable, [153, 108, 85], _, [0xFF, 0xD9], pDescribes, by decide, ?_, ?_,
    ⟨0, by simp [segsEx]⟩, ⟨_, by simp [segsEx]; rfl⟩, rfl, pad_of (by decide +kernel), by decide, rfl⟩, by decide⟩
  · have : ∀ i : Fin 6, cls (((pAcc2.take 6).getD i.1 0 : Int) - predPC 1 2 2 (2 * 3) (pAcc2.take 6) i.1) ∈ [0, 1, 2, 3] := by decide +kernel
    exact fun i hi => this ⟨i, hi⟩
  · intro g hg
    simp only [segsEx, List.mem_cons, List.not_mem_nil, or_false] at hg
    rcases hg with rfl | rfl | rfl | rfl | rfl | rfl <;> simp [Segment.Legal]

-- The run: the first row is right, the second is not, the values behind the rows are left alone.
example : ((open' (fileMem cutFile) cutFile.length (fun _ => 9)).bind fun s =>
      (decodeAny 7 s (fun _ => 99) 6 1 none).map fun img => ((List.range 6).map img, decide ((List.range 14).map img = pAcc2.take 6 ++ [99] ++ pAcc2.drop 6 ++ [99]),
        img 6, img 13)) = some (pAcc2.take 6, false, 99, 99) := by
  decide +kernel

-- C97_whole_bytes: a cut inside the pair 255 0.
example : [1, 255] <+: stuff [1, 255, 2] ∧ stuff [1] <+: [1, 255] := by decide

/-- Six pixels of the 16×1 image of `wideCam`, then a producer that stops. -/
def cutIns : List CamIn := List.replicate 8 ⟨[0], false, false⟩ ++ [⟨[0], true, false⟩, ⟨[15], true, false⟩, ⟨[1], true, false⟩,
  ⟨[14], true, false⟩, ⟨[2], true, false⟩, ⟨[2], true, false⟩] ++ List.replicate 65 ⟨[0], false, false⟩

-- C97_forced_frame: the frame is ended by force, it holds two data words, and these the code of five of the six accepted pixels.
set_option maxRecDepth 40000 in
example : CamSetup wideCam defaultTable ∧ CamAfterReset wideCam (Cam.init wideCam) ∧ CamWf wideCam (cutIns ++ [⟨[3], false, false⟩]) :=
  ⟨⟨default_setup (by decide) rfl, rfl, default_long _ (by decide)⟩, init_afterReset _, fun i hi _ => by
    revert i; decide⟩
set_option maxRecDepth 40000 in
example : (∀ x ∈ camGiven wideCam 60 (Cam.init wideCam) cutIns, x.2 = false) ∧
    (0xFFFE, true) ∈ camGiven wideCam 60 (Cam.init wideCam) (cutIns ++ [⟨[3], false, false⟩]) ∧
    wordBytes (((camGiven wideCam 60 (Cam.init wideCam) (cutIns ++ [⟨[3], false, false⟩])).drop 8).take 2) = [0x6E, 0xBA, 0x0B, 0x19] ∧
    (camGiven wideCam 60 (Cam.init wideCam) (cutIns ++ [⟨[3], false, false⟩])).length = 18 ∧
    camAccepted wideCam 60 (Cam.init wideCam) (cutIns ++ [⟨[3], false, false⟩]) = [0, 15, 1, 14, 2, 2] ∧
    (encode defaultTable 4 16 [0, 15, 1, 14, 2]).length ≤ 32 := by
  decide +kernel

end Props.Cut
