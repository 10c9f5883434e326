/- Property C101, continued: the shipped netlists with stream interfaces, joined to the decoder of liblj92. -/
import Verif.Props.ToFile
import Verif.Props.NetLvdsAll

set_option autoImplicit false

namespace Props.ToFile
open Spec Model Model.Lj92 Model.Lj92.Seg Props Props.Segs Netlist

/-- Both builds of lj92.c open the file of `len` bytes at `d` as an image of four components of 1024 × 3072 samples of 12 bits, and decode it into `target` (groups of `group`
samples, `skip` samples between the lines, linearization `lin`) to `pixels`, without touching anything else. `buf` and `ub` are the contents of memory that was not set. -/
def BothDecode (d : Nat → Nat) (len : Nat) (lin : Option Lin) (buf target : Nat → Nat) (ub : Int) (group skip : Nat) (pixels : List Nat) : Prop :=
  let Right := fun img : Nat → Nat => (∀ n, n < 4096 * 3072 → img (strided 4096 skip n) = linear lin (pixels.getD n 0)) ∧
    (∀ k, (∀ n, n < 4096 * 3072 → k ≠ strided 4096 skip n) → img k = target k)
  (∃ l img, open' d len buf = some l ∧ l.x = 1024 ∧ l.y = 3072 ∧ l.bits = 12 ∧ l.components = 4 ∧ decodeAny ub l target group skip lin = some img ∧ Right img) ∧
  (∃ l t img, Slow.open' d len = some (l, t) ∧ l.x = 1024 ∧ l.y = 3072 ∧ l.bits = 12 ∧ l.components = 4 ∧
    Slow.decodeAny ub (l, t) target group skip lin = some img ∧ Right img)

/-- A frame of the core, of which the words between the markers are known to decode to `img` by T.81. -/
theorem frame_both {a : Cam} (ha : CamAfterReset betaCore a) (ins : List CamIn) (i : CamIn) (hwf : CamWf betaCore (ins ++ [i]))
    (hno : ∀ x ∈ camGiven betaCore 6666000 a ins, x.2 = false) (hw : (0xFFFF, true) ∈ camGiven betaCore 6666000 a (ins ++ [i]))
    {words : List (Nat × Bool)} (hwords : words = camGiven betaCore 6666000 a (ins ++ [i])) {img : List Nat}
    (hdec : ∃ pad, decode defaultTable 13 12 4096 (4096 * 3072) [] (byteBits (unstuff (wordBytes ((words.drop 8).take (words.length - 16))))) = some (img, pad))
    {head tail : List Nat} (hh : Header 12 3072 1024 defaultCounts defaultVals head) (htail : 1 ≤ tail.length) {d : Nat → Nat} (hd : ∀ k, d k < 256) (file : List Nat)
    (hfile : file = head ++ (wordBytes ((words.drop 8).take (words.length - 16)) ++ tail))
    (hmem : At d 0 file) (lin : Option Lin) (hlin : ∀ l, lin = some l → 2 ^ 12 ≤ l.len + 1) (buf target : Nat → Nat) (ub : Int) (group skip : Nat) :
    img.length = 4096 * 3072 ∧ BothDecode d file.length lin buf target ub group skip img := by
  obtain ⟨pad, hdec⟩ := hdec
  obtain ⟨segs, sels, hsegs, htab, hfr, hsels, rfl⟩ := hh
  subst hwords
  obtain ⟨pad', hrec⟩ := C30_image_recovered beta_setup (by decide) 6666000 ha ins i hwf hno hw
  have he : img = camAccepted betaCore 6666000 a (ins ++ [i]) := by
    have h := hrec.symm.trans hdec
    exact (Prod.mk.inj (Option.some.inj h)).1.symm
  have hv : ∀ t ∈ defaultVals, t ≤ 16 := by decide
  have hcl : ∀ t, t ≤ betaCore.int1.bd → t ∈ defaultVals := default_classes
  obtain ⟨_, hl, _⟩ := core_isFile beta_setup (by decide) 6666000 ha _ _ hwf hno hw (X := 1024) rfl (by decide) default_describes hv hcl hsegs htab hfr hsels htail file hfile
  obtain ⟨l, img1, a1, a2, a3, a4, a5, a6, a7, a8⟩ := C95_core_file beta_setup (by decide) 6666000 ha _ _ hwf hno hw (X := 1024) rfl (by decide) (by decide) (by decide)
    default_describes hv hcl hsegs htab hfr hsels htail hd file hfile hmem lin hlin buf target ub group skip
  obtain ⟨l', t, img', b1, b2, b3, b4, b5, b6, b7, b8⟩ := SlowHuff.C100_core_file beta_setup (by decide) 6666000 ha _ _ hwf hno hw (X := 1024) rfl (by decide) (by decide) (by decide)
    (by decide) default_describes hv hcl hsegs htab hfr hsels htail hd file hfile hmem lin hlin target ub group skip
  rw [← he] at a7 b7 hl
  exact ⟨hl, ⟨l, img1, a1, a2, a4, a5, a3, a6, a7, a8⟩, l', t, img', b1, b2, b3, b4, b5, b6, b7, b8⟩

/-- C101, beta_integration_axistream.v and lj92.c: after power-up or any external reset and `n` normally ended frames, when the next end marker FFFF is transferred on the
32-bit stream: the words of this frame between the markers, behind any legal header, are decoded by both builds of lj92.c to the pixels number `n*4096*3072` to
`(n+1)*4096*3072-1` of those in the words that were transferred into the core. -/
theorem C101_netlist_stream_decoded (s : BetaAxis.top.S) (hs : AxStart s) {n : Nat} {hist : List AxNetIn}
    (hn : AxNetFrames s n hist) (ins : List AxNetIn) (i : AxNetIn) (hl : ∀ j ∈ hist ++ (ins ++ [i]), j.rst = false)
    (hno : ∀ x ∈ axNetGiven (axNetRun s hist) ins, x.2 = false) (hw : (0xFFFF, true) ∈ axNetGiven (axNetRun s hist) (ins ++ [i]))
    {head tail : List Nat} (hh : Header 12 3072 1024 defaultCounts defaultVals head) (htail : 1 ≤ tail.length) {d : Nat → Nat} (hd : ∀ k, d k < 256) (file : List Nat)
    (hfile : file = head ++ (wordBytes (((axNetGiven (axNetRun s hist) (ins ++ [i])).drop 8).take ((axNetGiven (axNetRun s hist) (ins ++ [i])).length - 16)) ++ tail))
    (hmem : At d 0 file) (lin : Option Lin) (hlin : ∀ l, lin = some l → 2 ^ 12 ≤ l.len + 1) (buf target : Nat → Nat) (ub : Int) (group skip : Nat) :
    let pixels := ((axNetMoved s (hist ++ (ins ++ [i]))).flatMap pixels32).drop (n * (4096 * 3072))
    pixels.length = 4096 * 3072 ∧ BothDecode d file.length lin buf target ub group skip pixels := by
  intro pixels
  obtain ⟨_, hdec⟩ := C72_netlist_stream_end_to_end s hs hn ins i hl hno hw
  have l1 : ∀ i ∈ hist, i.rst = false := fun j hj => hl j (by simp [hj])
  have l2 : ∀ j ∈ ins ++ [i], j.rst = false := fun j hj => hl j (List.mem_append_right _ hj)
  have hb := (axNet_given hist s _ (axStart_behaves hs) l1).2.2
  have ha := (frames_state beta_setup 6666000 (axNet_frames hs hn l1) (axisCam_wf rfl rfl _)).1
  have ew := (axNet_given (ins ++ [i]) _ _ hb l2).1
  have em : axisCam ((ins ++ [i]).map AxNetIn.axis) = axisCam (ins.map AxNetIn.axis) ++ [streamIn i.data i.valid i.ready] := by simp [axisCam, AxNetIn.axis]
  rw [(axNet_given ins _ _ hb (fun j hj => l2 j (by simp [hj]))).1] at hno
  have hw' := hw
  rw [ew, em] at hw'
  rw [em] at ew
  refine frame_both ha _ _ ?_ hno hw' ew hdec hh htail hd file hfile hmem lin hlin buf target ub group skip
  rw [← em]; exact axisCam_wf rfl rfl _

/-- C101, beta_integration_fifo_axistream.v and lj92.c: the same for the netlist with the 64-bit FIFO, for the pixels in the words that arrived in its source. -/
theorem C101_netlist_fifo_decoded (s : BetaFifo.top.S) (hs : FnStart s) (q : List Nat) {n : Nat} {hist : List StreamIn}
    (hn : FnFrames ⟨s, q⟩ n hist) (ins : List StreamIn) (i : StreamIn)
    (hno : ∀ x ∈ fnGiven (fnSysRun ⟨s, q⟩ hist) ins, x.2 = false) (hw : (0xFFFF, true) ∈ fnGiven (fnSysRun ⟨s, q⟩ hist) (ins ++ [i]))
    {head tail : List Nat} (hh : Header 12 3072 1024 defaultCounts defaultVals head) (htail : 1 ≤ tail.length) {d : Nat → Nat} (hd : ∀ k, d k < 256) (file : List Nat)
    (hfile : file = head ++ (wordBytes (((fnGiven (fnSysRun ⟨s, q⟩ hist) (ins ++ [i])).drop 8).take ((fnGiven (fnSysRun ⟨s, q⟩ hist) (ins ++ [i])).length - 16)) ++ tail))
    (hmem : At d 0 file) (lin : Option Lin) (hlin : ∀ l, lin = some l → 2 ^ 12 ≤ l.len + 1) (buf target : Nat → Nat) (ub : Int) (group skip : Nat) :
    let stream := (q ++ (hist ++ (ins ++ [i])).flatMap (·.arrive)).flatMap wordPixels
    let pixels := (stream.drop (n * (4096 * 3072))).take (4096 * 3072)
    pixels.length = 4096 * 3072 ∧ BothDecode d file.length lin buf target ub group skip pixels := by
  intro stream pixels
  have hdec := C73_netlist_fifo_end_to_end s hs q hn ins i hno hw
  have hf := stream_frames (fn_frames hs hn)
  have hr := (fnRel_run hist (fnStart_rel hs q)).1
  have ew := (fnRel_run (ins ++ [i]) hr).2
  rw [(fnRel_run _ hr).2] at hno
  have ha := (frames_state beta_setup 6666000 hf (camIns_wf rfl rfl 6666000 _ _)).1
  have e : camRun betaCore 6666000 (Cam.init betaCore) (camIns betaCore 6666000 ⟨.init betaCore, q⟩ hist) =
      (streamRun betaCore 6666000 ⟨.init betaCore, q⟩ hist).sys.cam := camRun_camIns betaCore 6666000 hist ⟨.init betaCore, q⟩
  rw [e] at ha
  have g1 := camGiven_camIns betaCore 6666000 ins (streamRun betaCore 6666000 ⟨.init betaCore, q⟩ hist)
  have g2 := camGiven_camIns betaCore 6666000 (ins ++ [i]) (streamRun betaCore 6666000 ⟨.init betaCore, q⟩ hist)
  have hwf := camIns_wf (c := betaCore) rfl rfl 6666000 (ins ++ [i]) (streamRun betaCore 6666000 ⟨.init betaCore, q⟩ hist)
  rw [camIns_append] at g2 hwf
  rw [← g1] at hno
  have hw' := hw
  rw [ew, ← g2] at hw'
  exact frame_both ha _ _ hwf hno hw' (ew.trans g2.symm) hdec hh htail hd file hfile hmem lin hlin buf target ub group skip

/-- C101, beta_integration_fifo_lvds.v and lj92.c: with a receiver that is ready in every cycle, the bytes that the receiver of the 40-bit link takes from the words of frame
number `n` (its reset cycle included), behind any legal header, are decoded by both builds of lj92.c to the pixels of that frame. -/
theorem C101_netlist_lvds_decoded (s : BetaLvds.top.S) (hs : LvStart s) (q : List Nat) {n : Nat} {hist : List StreamIn}
    (hn : LvNetFrames ⟨s, q⟩ n hist) (ins : List StreamIn) (i r : StreamIn) (hready : ∀ j ∈ hist ++ (ins ++ [i]), j.ready = true)
    (hno : ∀ x ∈ lvNetWords (lvSysRun ⟨s, q⟩ hist) ins, x.2 = false)
    (hw : (0xFFFF, true) ∈ lvNetWords (lvSysRun ⟨s, q⟩ hist) (ins ++ [i]))
    {head tail : List Nat} (hh : Header 12 3072 1024 defaultCounts defaultVals head) (htail : 1 ≤ tail.length) {d : Nat → Nat} (hd : ∀ k, d k < 256) (file : List Nat)
    (hfile : file = head ++ (receive40 (lvNetGiven (lvSysRun ⟨s, q⟩ hist) (ins ++ [i] ++ [r])) ++ tail))
    (hmem : At d 0 file) (lin : Option Lin) (hlin : ∀ l, lin = some l → 2 ^ 12 ≤ l.len + 1) (buf target : Nat → Nat) (ub : Int) (group skip : Nat) :
    let stream := (q ++ (hist ++ (ins ++ [i])).flatMap (·.arrive)).flatMap wordPixels
    let pixels := (stream.drop (n * (4096 * 3072))).take (4096 * 3072)
    pixels.length = 4096 * 3072 ∧ BothDecode d file.length lin buf target ub group skip pixels := by
  intro stream pixels
  have hdec := C74_netlist_lvds_core_words s hs q hn ins i hno hw
  have hr := (lvRel_run hist (lvStart_rel hs q)).1
  have hf := lvNet_frames hs hn
  have ew := (lvRel_run (ins ++ [i]) hr).2.2
  rw [(lvRel_run _ hr).2.2] at hno
  rw [(lvRel_run (ins ++ [i] ++ [r]) hr).2.1, LvdsAll.receiver_bytes beta_setup rfl rfl q hf ins i r hready hno (by rw [← ew]; exact hw), ← ew] at hfile
  have ha := LvdsAll.lvds_fresh beta_setup rfl rfl hf
  have g1 := camGiven_camIns betaCore 6666000 (asStream betaCore 6666000 (lvdsRun betaCore 6666000 ⟨.init betaCore, q⟩ hist) ins)
    (fsOf (lvdsRun betaCore 6666000 ⟨.init betaCore, q⟩ hist))
  have g2 := camGiven_camIns betaCore 6666000 (asStream betaCore 6666000 (lvdsRun betaCore 6666000 ⟨.init betaCore, q⟩ hist) (ins ++ [i]))
    (fsOf (lvdsRun betaCore 6666000 ⟨.init betaCore, q⟩ hist))
  have hwf := camIns_wf (c := betaCore) rfl rfl 6666000 (asStream betaCore 6666000 (lvdsRun betaCore 6666000 ⟨.init betaCore, q⟩ hist) (ins ++ [i]))
    (fsOf (lvdsRun betaCore 6666000 ⟨.init betaCore, q⟩ hist))
  rw [← fs_words] at g1 g2
  rw [asStream_append, camIns_append] at g2 hwf
  rw [← g1] at hno
  have hw' := hw
  rw [ew, ← g2] at hw'
  exact frame_both (a := (fsOf (lvdsRun betaCore 6666000 ⟨.init betaCore, q⟩ hist)).sys.cam) ha _ _ hwf hno hw' (ew.trans g2.symm) hdec hh htail hd file hfile hmem lin hlin
    buf target ub group skip

-- The start states, histories and headers exist (that a frame ends on every fair schedule is C72, C73 and C56); the header for the shipped size:
example (q : List Nat) : AxStart BetaAxis.top.powerUp ∧ AxNetFrames BetaAxis.top.powerUp 0 [] ∧ FnStart BetaFifo.top.powerUp ∧ FnFrames ⟨BetaFifo.top.powerUp, q⟩ 0 [] ∧
    LvStart BetaLvds.top.powerUp ∧ LvNetFrames ⟨BetaLvds.top.powerUp, q⟩ 0 [] ∧ Header 12 3072 1024 defaultCounts defaultVals (headEx 3072 1024) :=
  ⟨⟨_, [], BetaAxis.top.powerUp_init, rfl, Or.inl rfl⟩, .zero, ⟨_, [], BetaFifo.top.powerUp_init, rfl, Or.inl rfl⟩, .zero,
    ⟨_, [], BetaLvds.top.powerUp_init, rfl, Or.inl rfl⟩, .zero, headEx_header ..⟩

end Props.ToFile
