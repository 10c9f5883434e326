/- Property C101: from pixels through the shipped Verilog and the decoder of liblj92 back to pixels. -/
import Verif.Props.SlowHuff
import Verif.Props.CutFile
import Verif.Props.FullFrames
import Verif.Props.Netlist

set_option autoImplicit false

namespace Props.ToFile
open Spec Model Model.Lj92 Model.Lj92.Seg Props Props.Segs Props.FullFrames
open Props.Size (AtLeast default_atLeast)

/-- `head` is everything up to the code of a file of four components with `X` samples per line and component, `H` lines, `bd` bits, coded with predictor 1 and the
Huffman table described by `counts` and `vals`: start of image, legal segments in any order, scan header. -/
def Header (bd H X : Nat) (counts vals head : List Nat) : Prop :=
  ∃ (segs : List Segment) (sels : List Nat), (∀ g ∈ segs, Segment.Legal bd H X 4 counts vals g) ∧ (∃ th, Segment.table th counts vals ∈ segs) ∧
    (∃ comps, Segment.frame bd H X 4 comps ∈ segs) ∧ sels.length = 8 ∧ head = [0xFF, 0xD8] ++ segs.flatMap Segment.bytes ++ scanHeader 1 4 sels

/-- The bytes of a 64-bit beat, the most significant first (the first word of the core is in the upper bits). -/
def beatBytes (d : Nat) : List Nat := (List.range 8).map fun j => d / 2 ^ (56 - 8 * j) % 256

theorem wordBytes_beat (d : Nat) : wordBytes (beatWords d) = beatBytes d := by
  have h : List.range 8 = [0, 1, 2, 3, 4, 5, 6, 7] := by decide
  simp only [wordBytes, beatWords, beatBytes, h, List.map_cons, List.map_nil, List.flatMap_cons, List.flatMap_nil, bytesOf, List.cons_append, List.nil_append, List.append_nil,
    List.cons.injEq, and_true]
  omega

theorem wordBytes_beats (l : List Nat) : wordBytes (l.flatMap beatWords) = l.flatMap beatBytes := by
  induction l with
  | nil => rfl
  | cons d l ih => rw [List.flatMap_cons, Fix2.wordBytes_append, wordBytes_beat, ih, List.flatMap_cons]

theorem wordBytes_drop : ∀ (n : Nat) (l : List (Nat × Bool)), wordBytes (l.drop n) = (wordBytes l).drop (2 * n)
  | 0, _ => rfl
  | n + 1, [] => by simp [wordBytes]
  | n + 1, w :: l => by
    rw [List.drop_succ_cons, wordBytes_drop n l, Nat.mul_add, Nat.add_comm (2 * n)]
    show _ = ((bytesOf 2 w.1) ++ wordBytes l).drop (2 * 1 + 2 * n)
    rw [← List.drop_drop, List.drop_left' (by simp [bytesOf])]

theorem wordBytes_take (n : Nat) (l : List (Nat × Bool)) : wordBytes (l.take n) = (wordBytes l).take (2 * n) := by
  have h := congrArg wordBytes (List.take_append_drop n l)
  rw [Fix2.wordBytes_append, wordBytes_drop] at h
  have h2 := List.take_append_drop (2 * n) (wordBytes l)
  have hl : (wordBytes (l.take n)).length = ((wordBytes l).take (2 * n)).length := by
    have h3 : ∀ l : List (Nat × Bool), (wordBytes l).length = 2 * l.length := by
      intro l
      induction l with
      | nil => rfl
      | cons w l ih => show (bytesOf 2 w.1 ++ wordBytes l).length = _; rw [List.length_append, ih]; simp [bytesOf]; omega
    rw [h3, List.length_take, List.length_take, h3]; omega
  exact (List.append_inj (h.trans h2.symm) hl).1

theorem encode_four {T : Table} {bd X : Nat} (hX : 4 ≤ 4 * X) (l : List Nat) : encode T bd (4 * X) l = encodePC 1 T bd 4 (4 * X) l := by
  unfold encodePC encode
  simp only [predPC_four hX]
  rfl

/-- Bytes of which the unstuffed contents begin with the code of `pix` and are at least a byte longer, if they are the begin of a stuffed string: behind a header they
are a file of `pix`. -/
theorem part_isFile {T : Table} {bd H X : Nat} {counts vals pix p more head tail file : List Nat} (hbd : 1 ≤ bd) (hX : 1 ≤ X) (hst : ∃ bytes, p <+: stuff bytes)
    (henc : encode T bd (4 * X) pix <+: byteBits (unstuff p)) (hfit : (encode T bd (4 * X) pix).length + 8 ≤ (byteBits (unstuff p)).length)
    (hpix : ∀ x ∈ pix, x < 2 ^ bd) (hD : DescribesFor counts vals T (· ∈ vals)) (hv : ∀ t ∈ vals, t ≤ 16) (hcl : ∀ t, t ≤ bd → t ∈ vals)
    (hh : Header bd H X counts vals head) (htail : 1 ≤ tail.length) (hfile : file = head ++ (p ++ more ++ tail)) : IsFileS 1 bd H X 4 pix file := by
  obtain ⟨segs, sels, hsegs, htab, hfr, hsels, rfl⟩ := hh
  obtain ⟨bytes, hst⟩ := hst
  obtain ⟨bs, _, ⟨rest, hb⟩, hlen⟩ := Cut.C97_whole_bytes bytes p hst
  have hu : bs <+: unstuff p := by
    have := unstuff_prefix (stuff bs) rest
    rwa [unstuff_stuff, hb] at this
  have hl : (unstuff p).length ≤ bs.length + 1 := by
    have := unstuff_cut (stuff bs) rest
    rw [hb, unstuff_stuff] at this
    have h2 := congrArg List.length hb
    rw [List.length_append] at h2
    omega
  obtain ⟨u, hu⟩ := hu
  have hbits : byteBits bs <+: byteBits (unstuff p) := ⟨byteBits u, by rw [← hu]; simp [byteBits]⟩
  obtain ⟨pad, hpad⟩ := List.prefix_of_prefix_length_le henc hbits (by rw [byteBits_length] at hfit ⊢; omega)
  rw [encode_four (by omega)] at hpad
  refine ⟨segs, sels, counts, vals, T, bs, pad, rest ++ more ++ tail, hD, hv, fun n _ => hcl _ (C95_classes hbd hpix n), hsegs, htab, hfr, hsels, hpad.symm, ?_, ?_⟩
  · rw [List.length_append]; omega
  · rw [hfile, ← hb]; simp

/-- What the decoder of liblj92 does with such a file. -/
theorem part_decoded {T : Table} {bd H X : Nat} {counts vals pix p more head tail file : List Nat} (hbd1 : 1 ≤ bd) (hbd : bd ≤ 15) (hX4 : 4 ≤ X) (hX : X < 65536) (hH : H < 65536)
    (hst : ∃ bytes, p <+: stuff bytes) (henc : encode T bd (4 * X) pix <+: byteBits (unstuff p))
    (hfit : (encode T bd (4 * X) pix).length + 8 ≤ (byteBits (unstuff p)).length) (hlen : pix.length ≤ 4 * X * H)
    (hpix : ∀ x ∈ pix, x < 2 ^ bd) (hD : DescribesFor counts vals T (· ∈ vals)) (hv : ∀ t ∈ vals, t ≤ 16) (hcl : ∀ t, t ≤ bd → t ∈ vals)
    (hh : Header bd H X counts vals head) (htail : 1 ≤ tail.length) (hfile : file = head ++ (p ++ more ++ tail)) {d : Nat → Nat} (hd : ∀ k, d k < 256)
    (hmem : At d 0 file) (lin : Option Lin) (hlin : ∀ l, lin = some l → 65535 ≤ l.len) (mem target : Nat → Nat) (ub : Int) (group skip : Nat) :
    ∃ l img, open' d file.length mem = some l ∧ l.x = X ∧ l.y = H ∧ l.bits = bd ∧ l.components = 4 ∧ decodeAny ub l target group skip lin = some img ∧
      (∀ n, n < pix.length → img (strided (4 * X) skip n) = linear lin (pix.getD n 0)) ∧
      (∀ j, (∀ n, n < 4 * X * H → j ≠ strided (4 * X) skip n) → img j = target j) :=
  Cut.C97_decoder_keeps (part_isFile hbd1 (by omega) hst henc hfit hpix hD hv hcl hh htail hfile) (by decide) (by decide) hX4 hbd1 hbd hX hH hlen hpix hd hmem lin hlin
    mem target ub group skip

theorem default_classes (t : Nat) (ht : t ≤ 12) : t ∈ defaultVals := by
  have : ∀ t : Fin 13, t.1 ∈ defaultVals := by decide
  exact this ⟨t, Nat.lt_succ_of_le ht⟩

/-! ### The camera core -/

open Netlist in
/-- C101, beta_integration.v and lj92.c: from every start of a frame of the netlist to the first word with the end flag, if this is FFFF, 4096 × 3072 pixels have been
accepted, and the words between the markers, as bytes behind any legal header that states four components of 1024 × 3072 samples of 12 bits and the default table, and before
anything, are opened by `lj92_open` with these dimensions and decoded by `lj92_decode` to exactly the accepted pixels (through the linearization table, if there is one),
in both builds of lj92.c. -/
theorem C101_netlist_frame_decoded (s : Beta.top.S) (hs : Beta.top.Init s) (hist : List NetIn) (hst : FrameStart s hist)
    (ins : List NetIn) (i : NetIn) (hok : ∀ j ∈ hist ++ (ins ++ [i]), j.Ok) (hf : ∀ j ∈ ins ++ [i], j.fullRst = false)
    (hno : ∀ x ∈ netGiven (netRun s hist) ins, x.2 = false) (hw : (0xFFFF, true) ∈ netGiven (netRun s hist) (ins ++ [i]))
    {head tail : List Nat} (hh : Header 12 3072 1024 defaultCounts defaultVals head) (htail : 1 ≤ tail.length) {d : Nat → Nat} (hd : ∀ k, d k < 256) (file : List Nat)
    (hfile : file = head ++ (wordBytes (((netGiven (netRun s hist) (ins ++ [i])).drop 8).take ((netGiven (netRun s hist) (ins ++ [i])).length - 16)) ++ tail))
    (hmem : At d 0 file) (lin : Option Lin) (hlin : ∀ l, lin = some l → 2 ^ 12 ≤ l.len + 1) (mem target : Nat → Nat) (ub : Int) (group skip : Nat) :
    let pixels := netAccepted (netRun s hist) (ins ++ [i])
    let Right := fun img : Nat → Nat => (∀ n, n < 4096 * 3072 → img (strided 4096 skip n) = linear lin (pixels.getD n 0)) ∧
      (∀ k, (∀ n, n < 4096 * 3072 → k ≠ strided 4096 skip n) → img k = target k)
    pixels.length = 4096 * 3072 ∧
    (∃ l img, open' d file.length mem = some l ∧ l.x = 1024 ∧ l.y = 3072 ∧ l.bits = 12 ∧ l.components = 4 ∧
      decodeAny ub l target group skip lin = some img ∧ Right img) ∧
    (∃ l t img, Slow.open' d file.length = some (l, t) ∧ l.x = 1024 ∧ l.y = 3072 ∧ l.bits = 12 ∧ l.components = 4 ∧
      Slow.decodeAny ub (l, t) target group skip lin = some img ∧ Right img) := by
  intro pixels Right
  obtain ⟨a, ha, hwf, e0, e1, e2⟩ := net_frame hs hst hok hf
  obtain ⟨segs, sels, hsegs, htab, hfr, hsels, rfl⟩ := hh
  rw [e0] at hno
  rw [e2] at hw hfile
  have hv : ∀ t ∈ defaultVals, t ≤ 16 := by decide
  have hcl : ∀ t, t ≤ betaCore.int1.bd → t ∈ defaultVals := default_classes
  have hp : pixels = _ := e1
  obtain ⟨_, hl, _⟩ := core_isFile beta_setup (by decide) 6666000 ha _ _ hwf hno hw (X := 1024) rfl (by decide) default_describes hv hcl hsegs htab hfr hsels htail file hfile
  obtain ⟨l, img, a1, a2, a3, a4, a5, a6, a7, a8⟩ := C95_core_file beta_setup (by decide) 6666000 ha _ _ hwf hno hw (X := 1024) rfl (by decide) (by decide) (by decide)
    default_describes hv hcl hsegs htab hfr hsels htail hd file hfile hmem lin hlin mem target ub group skip
  obtain ⟨l', t, img', b1, b2, b3, b4, b5, b6, b7, b8⟩ := SlowHuff.C100_core_file beta_setup (by decide) 6666000 ha _ _ hwf hno hw (X := 1024) rfl (by decide) (by decide) (by decide)
    (by decide) default_describes hv hcl hsegs htab hfr hsels htail hd file hfile hmem lin hlin target ub group skip
  rw [← hp] at a7 b7 hl
  exact ⟨hl, ⟨l, img, a1, a2, a4, a5, a3, a6, a7, a8⟩, l', t, img', b1, b2, b3, b4, b5, b6, b7, b8⟩

open Netlist in
/-- C101, a frame that the netlist ended by force (FFFE): the words between its markers behind such a header are decoded without an error, and for every `k` such that the
code of the first `k` accepted pixels fits into whole stuffed bytes `bs` of the frame, the first `k` pixels of the result are the accepted ones. -/
theorem C101_netlist_forced_decoded (s : Beta.top.S) (hs : Beta.top.Init s) (hist : List NetIn) (hst : FrameStart s hist)
    (ins : List NetIn) (i : NetIn) (hok : ∀ j ∈ hist ++ (ins ++ [i]), j.Ok) (hf : ∀ j ∈ ins ++ [i], j.fullRst = false)
    (hno : ∀ x ∈ netGiven (netRun s hist) ins, x.2 = false) (hw : (0xFFFE, true) ∈ netGiven (netRun s hist) (ins ++ [i]))
    {head tail : List Nat} (hh : Header 12 3072 1024 defaultCounts defaultVals head) (htail : 1 ≤ tail.length) {d : Nat → Nat} (hd : ∀ k, d k < 256) (data file : List Nat)
    (hdata : data = wordBytes (((netGiven (netRun s hist) (ins ++ [i])).drop 8).take ((netGiven (netRun s hist) (ins ++ [i])).length - 16)))
    (hfile : file = head ++ (data ++ tail)) (hmem : At d 0 file) (bs : List Nat) (hbs : stuff bs <+: data) (k : Nat)
    (hk : k ≤ (netAccepted (netRun s hist) (ins ++ [i])).length)
    (hfit : (encode defaultTable 12 4096 ((netAccepted (netRun s hist) (ins ++ [i])).take k)).length ≤ 8 * bs.length)
    (lin : Option Lin) (hlin : ∀ l, lin = some l → 65535 ≤ l.len) (mem target : Nat → Nat) (ub : Int) (group skip : Nat) :
    ∃ l img, open' d file.length mem = some l ∧ l.x = 1024 ∧ l.y = 3072 ∧ l.bits = 12 ∧ l.components = 4 ∧ decodeAny ub l target group skip lin = some img ∧
      (∀ n, n < k → img (strided 4096 skip n) = linear lin ((netAccepted (netRun s hist) (ins ++ [i])).getD n 0)) ∧
      (∀ j, (∀ n, n < 4096 * 3072 → j ≠ strided 4096 skip n) → img j = target j) := by
  obtain ⟨a, ha, hwf, e0, e1, e2⟩ := net_frame hs hst hok hf
  obtain ⟨segs, sels, hsegs, htab, hfr, hsels, rfl⟩ := hh
  rw [e0] at hno
  rw [e2] at hw hdata
  rw [e1] at hk hfit ⊢
  have hv : ∀ t ∈ defaultVals, t ≤ 16 := by decide
  have hcl : ∀ t, t ≤ betaCore.int1.bd → t ∈ defaultVals := default_classes
  obtain ⟨l, img, a1, a2, a3, a4, a5, a6, a7, a8⟩ := Cut.C97_forced_frame beta_setup (by decide) 6666000 ha _ _ hwf hno hw (X := 1024) rfl (by decide) (by decide) (by decide)
    default_describes hv hcl hsegs htab hfr hsels htail hd data hdata file hfile hmem bs hbs k hk hfit lin hlin mem target ub group skip
  exact ⟨l, img, a1, a2, a4, a5, a3, a6, a7, a8⟩

/-! ### The design with memory reader and writer -/

section
variable {c : CoreCfg} {a : Nat}

theorem memory_decoded {T : Table} (h : CamSetup c T) (hps : c.int1.ps = 2) (hbd : c.int1.bd = 12)
    {s : FullAxi} (hs : FullAfterReset c s) (ins : List FullIn) (i r : FullIn) (hsl : ReadSlave c a 0 s (ins ++ [i]))
    (hsw : WriteSlave c a s (ins ++ [i] ++ [r])) (hdat : ∀ j ∈ ins ++ [i], j.rdata < 2 ^ 64)
    (hno : ∀ x ∈ coreWords c a s ins, x.2 = false) {w : Nat} (hw : (w, true) ∈ coreWords c a s (ins ++ [i]))
    {X : Nat} (hX : c.int1.W = 4 * X) (hX4 : 4 ≤ X) (hX64 : X < 65536) (hH : c.int1.H < 65536)
    {counts vals head tail : List Nat} (hD : DescribesFor counts vals T (· ∈ vals)) (hv : ∀ t ∈ vals, t ≤ 16) (hcl : ∀ t, t ≤ 12 → t ∈ vals)
    (hh : Header 12 c.int1.H X counts vals head) (htail : 1 ≤ tail.length) :
    let mem := memBeats c a s (ins ++ [i] ++ [r])
    let pixels := (readBeats c a s (ins ++ [i])).flatMap beatPixels
    ∃ beats, (beats = mem ∨ 16 < mem.length ∧ beats = mem.eraseIdx 16) ∧
      let bytes := (beats.flatMap beatBytes).drop 16
      let file := head ++ (bytes ++ tail)
      (w = 0xFFFF → c.int1.W * c.int1.H ≤ pixels.length ∧ (encode T 12 c.int1.W (pixels.take (c.int1.W * c.int1.H))).length ≤
          (byteBits (unstuff (bytes.take (2 * ((coreWords c a s (ins ++ [i])).length - 16))))).length + 2112) ∧
      ∀ k, k ≤ c.int1.W * c.int1.H → k ≤ pixels.length →
        (encode T 12 c.int1.W (pixels.take k)).length + 8 ≤
          (byteBits (unstuff (bytes.take (2 * ((coreWords c a s (ins ++ [i])).length - 16))))).length →
        ∀ (d : Nat → Nat), (∀ k, d k < 256) → At d 0 file → ∀ lin : Option Lin, (∀ l, lin = some l → 65535 ≤ l.len) →
        ∀ (buf target : Nat → Nat) (ub : Int) (group skip : Nat),
        ∃ l img, open' d file.length buf = some l ∧ l.x = X ∧ l.y = c.int1.H ∧ l.bits = 12 ∧ l.components = 4 ∧ decodeAny ub l target group skip lin = some img ∧
          (∀ n, n < k → img (strided c.int1.W skip n) = linear lin (pixels.getD n 0)) ∧
          (∀ j, (∀ n, n < c.int1.W * c.int1.H → j ≠ strided c.int1.W skip n) → img j = target j) := by
  intro mem pixels
  obtain ⟨beats, hbt, part, hpre, hst, hpart, h1, h2⟩ := memory_part h hps hbd hs ins i r hsl hsw hdat hno hw
  refine ⟨beats, hbt, ?_⟩
  intro bytes file
  have hbytes : wordBytes ((beats.flatMap beatWords).drop 8) = bytes := by rw [wordBytes_drop, wordBytes_beats]
  have hp : wordBytes part = bytes.take (2 * ((coreWords c a s (ins ++ [i])).length - 16)) := by rw [hpart, wordBytes_take, hbytes]
  rw [← hp]
  refine ⟨h2, ?_⟩
  intro k hkN hk hfit d hd hmem lin hlin buf target ub group skip
  obtain ⟨henc, _⟩ := h1 k hkN hk (Nat.le_trans (Nat.le_add_right _ 8) hfit)
  have hlt := beatPixels_lt (l := readBeats c a s (ins ++ [i]))
  have hlen : (pixels.take k).length = k := by rw [List.length_take]; omega
  rw [hX] at henc hfit hkN ⊢
  obtain ⟨l, img, a1, a2, a3, a4, a5, a6, a7, a8⟩ := part_decoded (p := wordBytes part) (pix := pixels.take k) (file := file) (more := bytes.drop (2 * ((coreWords c a s (ins ++ [i])).length - 16)))
    (by decide) (by decide) hX4 hX64 hH hst henc hfit (by rw [hlen]; exact hkN) (fun x hx => hlt x (List.mem_of_mem_take hx)) hD hv hcl hh htail
    (by rw [hp, List.take_append_drop]) hd hmem lin hlin buf target ub group skip
  rw [hlen] at a7
  refine ⟨l, img, a1, a2, a3, a4, a5, a6, fun n hn => ?_, a8⟩
  rw [a7 n hn]
  congr 1
  simp [List.getD_eq_getElem?_getD, hn]

/-- C101, from memory to memory to an image: a frame of the full-AXI design, ended normally or by force, as its memory has it after the reset cycle (without the beat number
16 if there is an additional one), its bytes behind the start marker put behind any legal header: `lj92_decode` gives the first `k` pixels of the beats read, for every `k`
whose code, and a byte more, fits into the part of these bytes that lies before the end marker. -/
theorem C101_memory_decoded {T : Table} (h : CamSetup c T) (hps : c.int1.ps = 2) (hbd : c.int1.bd = 12)
    {s : FullAxi} (hs : FullAfterReset c s) (ins : List FullIn) (i r : FullIn) (hsl : ReadSlave c a 0 s (ins ++ [i]))
    (hsw : WriteSlave c a s (ins ++ [i] ++ [r])) (hdat : ∀ j ∈ ins ++ [i], j.rdata < 2 ^ 64)
    (hno : ∀ x ∈ coreWords c a s ins, x.2 = false) {w : Nat} (hw : (w, true) ∈ coreWords c a s (ins ++ [i]))
    {X : Nat} (hX : c.int1.W = 4 * X) (hX4 : 4 ≤ X) (hX64 : X < 65536) (hH : c.int1.H < 65536)
    {counts vals head tail : List Nat} (hD : DescribesFor counts vals T (· ∈ vals)) (hv : ∀ t ∈ vals, t ≤ 16) (hcl : ∀ t, t ≤ 12 → t ∈ vals)
    (hh : Header 12 c.int1.H X counts vals head) (htail : 1 ≤ tail.length) :
    let mem := memBeats c a s (ins ++ [i] ++ [r])
    let pixels := (readBeats c a s (ins ++ [i])).flatMap beatPixels
    ∃ beats, (beats = mem ∨ 16 < mem.length ∧ beats = mem.eraseIdx 16) ∧
      let bytes := (beats.flatMap beatBytes).drop 16
      let file := head ++ (bytes ++ tail)
      ∀ k, k ≤ c.int1.W * c.int1.H → k ≤ pixels.length →
        (encode T 12 c.int1.W (pixels.take k)).length + 8 ≤
          (byteBits (unstuff (bytes.take (2 * ((coreWords c a s (ins ++ [i])).length - 16))))).length →
        ∀ (d : Nat → Nat), (∀ k, d k < 256) → At d 0 file → ∀ lin : Option Lin, (∀ l, lin = some l → 65535 ≤ l.len) →
        ∀ (buf target : Nat → Nat) (ub : Int) (group skip : Nat),
        ∃ l img, open' d file.length buf = some l ∧ l.x = X ∧ l.y = c.int1.H ∧ l.bits = 12 ∧ l.components = 4 ∧ decodeAny ub l target group skip lin = some img ∧
          (∀ n, n < k → img (strided c.int1.W skip n) = linear lin (pixels.getD n 0)) ∧
          (∀ j, (∀ n, n < c.int1.W * c.int1.H → j ≠ strided c.int1.W skip n) → img j = target j) := by
  intro mem pixels
  obtain ⟨beats, hbt, h1⟩ := memory_decoded h hps hbd hs ins i r hsl hsw hdat hno hw hX hX4 hX64 hH hD hv hcl hh htail
  exact ⟨beats, hbt, h1.2⟩

/-- C101, a frame that ended normally: if every code has at least `m` bits, `lj92_decode` gives all but the last `2120 / m` pixels (rounded up) of the image from what is in
memory after the reset cycle (if the image is larger than that). -/
theorem C101_memory_image_decoded {T : Table} (h : CamSetup c T) (hps : c.int1.ps = 2) (hbd : c.int1.bd = 12) {m : Nat} (hm : AtLeast T 12 m)
    {s : FullAxi} (hs : FullAfterReset c s) (ins : List FullIn) (i r : FullIn) (hsl : ReadSlave c a 0 s (ins ++ [i]))
    (hsw : WriteSlave c a s (ins ++ [i] ++ [r])) (hdat : ∀ j ∈ ins ++ [i], j.rdata < 2 ^ 64)
    (hno : ∀ x ∈ coreWords c a s ins, x.2 = false) (hw : (0xFFFF, true) ∈ coreWords c a s (ins ++ [i]))
    {X : Nat} (hX : c.int1.W = 4 * X) (hX4 : 4 ≤ X) (hX64 : X < 65536) (hH : c.int1.H < 65536)
    {counts vals head tail : List Nat} (hD : DescribesFor counts vals T (· ∈ vals)) (hv : ∀ t ∈ vals, t ≤ 16) (hcl : ∀ t, t ≤ 12 → t ∈ vals)
    (hh : Header 12 c.int1.H X counts vals head) (htail : 1 ≤ tail.length) (hbig : 2120 ≤ m * (c.int1.W * c.int1.H)) :
    let mem := memBeats c a s (ins ++ [i] ++ [r])
    let pixels := (readBeats c a s (ins ++ [i])).flatMap beatPixels
    c.int1.W * c.int1.H ≤ pixels.length ∧
    ∃ beats, (beats = mem ∨ 16 < mem.length ∧ beats = mem.eraseIdx 16) ∧
      let file := head ++ ((beats.flatMap beatBytes).drop 16 ++ tail)
      ∀ (d : Nat → Nat), (∀ k, d k < 256) → At d 0 file → ∀ lin : Option Lin, (∀ l, lin = some l → 65535 ≤ l.len) →
      ∀ (buf target : Nat → Nat) (ub : Int) (group skip : Nat),
      ∃ l img, open' d file.length buf = some l ∧ l.x = X ∧ l.y = c.int1.H ∧ l.bits = 12 ∧ l.components = 4 ∧ decodeAny ub l target group skip lin = some img ∧
        (∀ n, n < c.int1.W * c.int1.H → 2120 ≤ m * (c.int1.W * c.int1.H - (n + 1)) → img (strided c.int1.W skip n) = linear lin (pixels.getD n 0)) ∧
        (∀ j, (∀ n, n < c.int1.W * c.int1.H → j ≠ strided c.int1.W skip n) → img j = target j) := by
  intro mem pixels
  obtain ⟨beats, hbt, h1, h2⟩ := memory_decoded h hps hbd hs ins i r hsl hsw hdat hno hw hX hX4 hX64 hH hD hv hcl hh htail
  obtain ⟨h3, h4⟩ := h1 rfl
  refine ⟨h3, beats, hbt, ?_⟩
  intro file d hd hmem lin hlin buf target ub group skip
  have hm0 : 0 < m := Nat.pos_of_ne_zero (by intro h0; rw [h0, Nat.zero_mul] at hbig; omega)
  have key : ∀ r, 2120 ≤ m * r ↔ 2119 / m < r := fun r => by rw [Nat.div_lt_iff_lt_mul hm0, Nat.mul_comm]; omega
  have hq := (key _).1 hbig
  generalize 2119 / m = q at key hq
  have hk : c.int1.W * c.int1.H - (q + 1) ≤ c.int1.W * c.int1.H := Nat.sub_le _ _
  have h5 := encode_take_le h.core.legal.frame.W4 (N := c.int1.W * c.int1.H) (by decide) hm (beatPixels_lt (l := readBeats c a s (ins ++ [i]))) hk h3
  have h6 := (key (c.int1.W * c.int1.H - (c.int1.W * c.int1.H - (q + 1)))).2 (by omega)
  obtain ⟨l, img, a1, a2, a3, a4, a5, a6, a7, a8⟩ := h2 _ hk (Nat.le_trans hk h3) (by
    generalize (encode T 12 c.int1.W (((readBeats c a s (ins ++ [i])).flatMap beatPixels).take (c.int1.W * c.int1.H))).length = e1 at *
    generalize (encode T 12 c.int1.W (((readBeats c a s (ins ++ [i])).flatMap beatPixels).take (c.int1.W * c.int1.H - (q + 1)))).length = e2 at *
    omega) d hd hmem lin hlin buf target ub group skip
  refine ⟨l, img, a1, a2, a3, a4, a5, a6, fun n hn hn2 => a7 n ?_, a8⟩
  have := (key _).1 hn2
  omega

end

/-! ### The shipped netlist -/

open Netlist in
/-- C101, beta_integration_fullaxi.v and lj92.c: from memory to memory to pixels, for frames ended normally or by force. -/
theorem C101_netlist_memory_decoded (s : BetaFull.top.S) (hs : FxStart s) (ins : List FullIn) (i r : FullIn)
    (hi : ∀ j ∈ ins ++ [i] ++ [r], FullIn.Ok j) (hsl : FxReadSlave 0 s (ins ++ [i])) (hsw : FxWriteSlave s (ins ++ [i] ++ [r]))
    (hno : ∀ x ∈ fxWords s ins, x.2 = false) {w : Nat} (hw : (w, true) ∈ fxWords s (ins ++ [i]))
    {head tail : List Nat} (hh : Header 12 3072 1024 defaultCounts defaultVals head) (htail : 1 ≤ tail.length) :
    let mem := fxMemBeats s (ins ++ [i] ++ [r])
    let pixels := (fxReadBeats s (ins ++ [i])).flatMap beatPixels
    ∃ beats, (beats = mem ∨ 16 < mem.length ∧ beats = mem.eraseIdx 16) ∧
      let bytes := (beats.flatMap beatBytes).drop 16
      let file := head ++ (bytes ++ tail)
      ∀ k, k ≤ 4096 * 3072 → k ≤ pixels.length →
        (encode defaultTable 12 4096 (pixels.take k)).length + 8 ≤
          (byteBits (unstuff (bytes.take (2 * ((fxWords s (ins ++ [i])).length - 16))))).length →
        ∀ (d : Nat → Nat), (∀ k, d k < 256) → At d 0 file → ∀ lin : Option Lin, (∀ l, lin = some l → 65535 ≤ l.len) →
        ∀ (buf target : Nat → Nat) (ub : Int) (group skip : Nat),
        ∃ l img, open' d file.length buf = some l ∧ l.x = 1024 ∧ l.y = 3072 ∧ l.bits = 12 ∧ l.components = 4 ∧ decodeAny ub l target group skip lin = some img ∧
          (∀ n, n < k → img (strided 4096 skip n) = linear lin (pixels.getD n 0)) ∧
          (∀ j, (∀ n, n < 4096 * 3072 → j ≠ strided 4096 skip n) → img j = target j) := by
  intro mem pixels
  obtain ⟨t, k1, k2⟩ := fxStart_sim hs
  have hi1 : ∀ j ∈ ins ++ [i], FullIn.Ok j := fun j hj => hi j (List.mem_append_left _ hj)
  obtain ⟨_, _, e2, _, _, _, e6, _, e8, _, _⟩ := fx_run (ins ++ [i]) k2 hi1
  obtain ⟨_, _, _, _, _, e5, _, _, _, e9, _⟩ := fx_run _ k2 hi
  have e6' := (fx_run ins k2 (fun j hj => hi1 j (List.mem_append_left _ hj))).2.2.2.2.2.2.1
  have := C101_memory_decoded (a := 6666000) beta_setup rfl rfl k1 ins i r ((e8 0).1 hsl) (e9.1 hsw) hi1 (e6' ▸ hno) (e6 ▸ hw) (X := 1024) rfl
    (by decide) (by decide) (by decide) default_describes (by decide) default_classes hh htail
  rw [← e6, ← e2, ← e5] at this
  exact this

open Netlist in
/-- C101, beta_integration_fullaxi.v and lj92.c: when a frame has ended normally, `lj92_decode` gives at least all but the last 530 of its 4096 × 3072 pixels, as they were read from
memory, from what the design has written to memory. -/
theorem C101_netlist_memory_image_decoded (s : BetaFull.top.S) (hs : FxStart s) (ins : List FullIn) (i r : FullIn)
    (hi : ∀ j ∈ ins ++ [i] ++ [r], FullIn.Ok j) (hsl : FxReadSlave 0 s (ins ++ [i])) (hsw : FxWriteSlave s (ins ++ [i] ++ [r]))
    (hno : ∀ x ∈ fxWords s ins, x.2 = false) (hw : (0xFFFF, true) ∈ fxWords s (ins ++ [i]))
    {head tail : List Nat} (hh : Header 12 3072 1024 defaultCounts defaultVals head) (htail : 1 ≤ tail.length) :
    let mem := fxMemBeats s (ins ++ [i] ++ [r])
    let pixels := (fxReadBeats s (ins ++ [i])).flatMap beatPixels
    4096 * 3072 ≤ pixels.length ∧
    ∃ beats, (beats = mem ∨ 16 < mem.length ∧ beats = mem.eraseIdx 16) ∧
      let file := head ++ ((beats.flatMap beatBytes).drop 16 ++ tail)
      ∀ (d : Nat → Nat), (∀ k, d k < 256) → At d 0 file → ∀ lin : Option Lin, (∀ l, lin = some l → 65535 ≤ l.len) →
      ∀ (buf target : Nat → Nat) (ub : Int) (group skip : Nat),
      ∃ l img, open' d file.length buf = some l ∧ l.x = 1024 ∧ l.y = 3072 ∧ l.bits = 12 ∧ l.components = 4 ∧ decodeAny ub l target group skip lin = some img ∧
        (∀ n, n + 530 < 4096 * 3072 → img (strided 4096 skip n) = linear lin (pixels.getD n 0)) ∧
        (∀ j, (∀ n, n < 4096 * 3072 → j ≠ strided 4096 skip n) → img j = target j) := by
  intro mem pixels
  obtain ⟨t, k1, k2⟩ := fxStart_sim hs
  have hi1 : ∀ j ∈ ins ++ [i], FullIn.Ok j := fun j hj => hi j (List.mem_append_left _ hj)
  obtain ⟨_, _, e2, _, _, _, e6, _, e8, _, _⟩ := fx_run (ins ++ [i]) k2 hi1
  obtain ⟨_, _, _, _, _, e5, _, _, _, e9, _⟩ := fx_run _ k2 hi
  have e6' := (fx_run ins k2 (fun j hj => hi1 j (List.mem_append_left _ hj))).2.2.2.2.2.2.1
  have := C101_memory_image_decoded (a := 6666000) beta_setup rfl rfl (default_atLeast (bd := 12) (by decide)) k1 ins i r ((e8 0).1 hsl) (e9.1 hsw) hi1
    (e6' ▸ hno) (e6 ▸ hw) (X := 1024) rfl (by decide) (by decide) (by decide) default_describes (by decide) default_classes hh htail (by decide)
  rw [← e2, ← e5] at this
  obtain ⟨h1, beats, hb, h2⟩ := this
  refine ⟨h1, beats, hb, ?_⟩
  intro file d hd hmem lin hlin buf target ub group skip
  obtain ⟨l, img, a1, a2, a3, a4, a5, a6, a7, a8⟩ := h2 d hd hmem lin hlin buf target ub group skip
  refine ⟨l, img, a1, a2, a3, a4, a5, a6, fun n hn => a7 n ?_ ?_, a8⟩
  · show n < 4096 * 3072; omega
  · show 2120 ≤ 4 * (4096 * 3072 - (n + 1)); omega

/-! ### The hypotheses can be met -/

/-- A header with the table before the frame header and a comment. -/
def headEx (H X : Nat) : List Nat :=
  [0xFF, 0xD8] ++ [.table 0 defaultCounts defaultVals, .frame 12 H X 4 [0, 0x11, 0, 1, 0x11, 0, 2, 0x11, 0, 3, 0x11, 0], .other 0xFE [1, 2, 3]].flatMap Segment.bytes ++
    scanHeader 1 4 [0, 0, 1, 0, 2, 0, 3, 0]

theorem headEx_header (H X : Nat) : Header 12 H X defaultCounts defaultVals (headEx H X) := by
  refine ⟨_, _, ?_, ⟨0, List.mem_cons_self ..⟩, ⟨_, List.mem_cons_of_mem _ (List.mem_cons_self ..)⟩, rfl, rfl⟩
  intro g hg
  simp only [List.mem_cons, List.not_mem_nil, or_false] at hg
  rcases hg with rfl | rfl | rfl <;> simp [Segment.Legal]

-- C101_netlist_frame_decoded, C101_netlist_memory_image_decoded: the header for the shipped size; frames of the netlists are shown in Props.Netlist (C71_netlist_frames_occur) and Props.NetFull.
example : Header 12 3072 1024 defaultCounts defaultVals (headEx 3072 1024) := headEx_header ..

-- C101_memory_decoded: the frame ended by force after 100 cycles of Props.FullFrames; from the 17 beats in memory the decoder gives the first 20 pixels.
set_option maxRecDepth 100000 in
example :
    let mem := memBeats midCfg 100 (FullAxi.init midCfg) cutIns
    let bytes := (mem.flatMap beatBytes).drop 16
    let file := headEx midCfg.int1.H 4 ++ (bytes ++ [0xFF, 0xD9])
    (encode defaultTable 12 16 ((List.range 20).map midPixel)).length + 8 ≤ (byteBits (unstuff (bytes.take (2 * (90 - 16))))).length ∧
    ((open' (fileMem file) file.length (fun _ => 0)).bind fun l =>
      (decodeAny 0 l (fun _ => 7) 16 0 none).map fun img => (List.range 20).map img) = some ((List.range 20).map midPixel) := by decide +kernel

end Props.ToFile
