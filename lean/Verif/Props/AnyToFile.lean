/- Property C101, continued: the stream netlists joined to lj92.c, after frames ended normally or by force. -/
import Verif.Props.StreamToFile
import Verif.Props.LvdsForced

set_option autoImplicit false

namespace Props.ToFile
open Spec Model Model.Lj92 Model.Lj92.Seg Props Props.Segs Netlist

/-- `words` are the words of a frame of the model of the core, `before` those up to its last cycle, `pixels` the accepted ones. -/
def CamFrame (before words : List (Nat × Bool)) (pixels : List Nat) : Prop :=
  ∃ (a : Cam) (ins : List CamIn) (i : CamIn), CamAfterReset betaCore a ∧ CamWf betaCore (ins ++ [i]) ∧ camGiven betaCore 6666000 a ins = before ∧
    camGiven betaCore 6666000 a (ins ++ [i]) = words ∧ camAccepted betaCore 6666000 a (ins ++ [i]) = pixels

section
variable {before words : List (Nat × Bool)} {pixels : List Nat} {head tail : List Nat} {d : Nat → Nat}

theorem CamFrame.normal (h : CamFrame before words pixels) (hno : ∀ x ∈ before, x.2 = false) (hw : (0xFFFF, true) ∈ words)
    (hh : Header 12 3072 1024 defaultCounts defaultVals head) (htail : 1 ≤ tail.length) (hd : ∀ k, d k < 256) (file : List Nat)
    (hfile : file = head ++ (wordBytes ((words.drop 8).take (words.length - 16)) ++ tail))
    (hmem : At d 0 file) (lin : Option Lin) (hlin : ∀ l, lin = some l → 2 ^ 12 ≤ l.len + 1) (buf target : Nat → Nat) (ub : Int) (group skip : Nat) :
    pixels.length = 4096 * 3072 ∧ BothDecode d file.length lin buf target ub group skip pixels := by
  obtain ⟨a, ins, i, ha, hwf, rfl, rfl, rfl⟩ := h
  exact frame_both ha ins i hwf hno hw rfl (C30_image_recovered beta_setup (by decide) 6666000 ha ins i hwf hno hw) hh htail hd file hfile hmem lin hlin buf target ub group skip

/-- lj92.c opens the file as an image of the shipped size, decodes it without an error, writes only to its pixels, and the first `k` of them are right. -/
def FirstDecoded (d : Nat → Nat) (len : Nat) (lin : Option Lin) (buf target : Nat → Nat) (ub : Int) (group skip : Nat) (k : Nat) (pixels : List Nat) : Prop :=
  ∃ l img, open' d len buf = some l ∧ l.x = 1024 ∧ l.y = 3072 ∧ l.bits = 12 ∧ l.components = 4 ∧ decodeAny ub l target group skip lin = some img ∧
    (∀ n, n < k → img (strided 4096 skip n) = linear lin (pixels.getD n 0)) ∧ (∀ j, (∀ n, n < 4096 * 3072 → j ≠ strided 4096 skip n) → img j = target j)

theorem CamFrame.forced (h : CamFrame before words pixels) (hno : ∀ x ∈ before, x.2 = false) (hw : (0xFFFE, true) ∈ words)
    (hh : Header 12 3072 1024 defaultCounts defaultVals head) (htail : 1 ≤ tail.length) (hd : ∀ k, d k < 256) (data file : List Nat)
    (hdata : data = wordBytes ((words.drop 8).take (words.length - 16))) (hfile : file = head ++ (data ++ tail)) (hmem : At d 0 file)
    (bs : List Nat) (hbs : stuff bs <+: data) (k : Nat) (hk : k ≤ pixels.length) (hfit : (encode defaultTable 12 4096 (pixels.take k)).length ≤ 8 * bs.length)
    (lin : Option Lin) (hlin : ∀ l, lin = some l → 65535 ≤ l.len) (buf target : Nat → Nat) (ub : Int) (group skip : Nat) :
    FirstDecoded d file.length lin buf target ub group skip k pixels := by
  obtain ⟨a, ins, i, ha, hwf, rfl, rfl, rfl⟩ := h
  obtain ⟨segs, sels, hsegs, htab, hfr, hsels, rfl⟩ := hh
  have hv : ∀ t ∈ defaultVals, t ≤ 16 := by decide
  have hcl : ∀ t, t ≤ betaCore.int1.bd → t ∈ defaultVals := default_classes
  obtain ⟨l, img, a1, a2, a3, a4, a5, a6, a7, a8⟩ := Cut.C97_forced_frame beta_setup (by decide) 6666000 ha _ _ hwf hno hw (X := 1024) rfl (by decide) (by decide) (by decide)
    default_describes hv hcl hsegs htab hfr hsels htail hd data hdata file hfile hmem bs hbs k hk hfit lin hlin buf target ub group skip
  exact ⟨l, img, a1, a2, a4, a5, a3, a6, a7, a8⟩

end

/-! ### The netlists -/

theorem ax_frame {s : BetaAxis.top.S} (hs : AxStart s) {n : Nat} {hist : List AxNetIn} (hn : Forced.NetFrames s n hist)
    (ins : List AxNetIn) (i : AxNetIn) (hl : ∀ j ∈ hist ++ (ins ++ [i]), j.rst = false) :
    CamFrame (axNetGiven (axNetRun s hist) ins) (axNetGiven (axNetRun s hist) (ins ++ [i])) ((axNetMoved (axNetRun s hist) (ins ++ [i])).flatMap pixels32) := by
  have l1 : ∀ i ∈ hist, i.rst = false := fun j hj => hl j (by simp [hj])
  have l2 : ∀ j ∈ ins ++ [i], j.rst = false := fun j hj => hl j (List.mem_append_right _ hj)
  have hb := (axNet_given hist s _ (axStart_behaves hs) l1).2.2
  obtain ⟨ew, em, _⟩ := axNet_given (ins ++ [i]) _ _ hb l2
  have e0 := (axNet_given ins _ _ hb (fun j hj => l2 j (by simp [hj]))).1
  have e : axisCam ((ins ++ [i]).map AxNetIn.axis) = axisCam (ins.map AxNetIn.axis) ++ [streamIn i.data i.valid i.ready] := by simp [axisCam, AxNetIn.axis]
  refine ⟨_, axisCam (ins.map AxNetIn.axis), streamIn i.data i.valid i.ready,
    Forced.frames_fresh beta_setup 6666000 (Forced.net_frames hs hn l1) (axisCam_wf rfl rfl _), ?_, e0.symm, ?_, ?_⟩
  · rw [← e]; exact axisCam_wf rfl rfl _
  · rw [← e]; exact ew.symm
  · rw [em, ← e, axis_accepted]

theorem fn_frame {s : BetaFifo.top.S} (hs : FnStart s) {q : List Nat} {n : Nat} {hist : List StreamIn} (hn : ForcedFifo.NetFifoFrames ⟨s, q⟩ n hist)
    (ins : List StreamIn) (i : StreamIn) :
    CamFrame (fnGiven (fnSysRun ⟨s, q⟩ hist) ins) (fnGiven (fnSysRun ⟨s, q⟩ hist) (ins ++ [i])) (ForcedFifo.netPixels (fnSysRun ⟨s, q⟩ hist) (ins ++ [i])) := by
  have hr := (fnRel_run hist (fnStart_rel hs q)).1
  have hf := ForcedFifo.fifo_frames (ForcedFifo.net_fifo_frames hs hn)
  have ha := Forced.frames_fresh beta_setup 6666000 hf (camIns_wf rfl rfl 6666000 _ _)
  rw [show camRun betaCore 6666000 (Cam.init betaCore) (camIns betaCore 6666000 ⟨.init betaCore, q⟩ hist) =
      (streamRun betaCore 6666000 ⟨.init betaCore, q⟩ hist).sys.cam from camRun_camIns betaCore 6666000 hist ⟨.init betaCore, q⟩] at ha
  have g1 := camGiven_camIns betaCore 6666000 ins (streamRun betaCore 6666000 ⟨.init betaCore, q⟩ hist)
  have g2 := camGiven_camIns betaCore 6666000 (ins ++ [i]) (streamRun betaCore 6666000 ⟨.init betaCore, q⟩ hist)
  have g3 := ForcedFifo.streamPixels_eq betaCore 6666000 (ins ++ [i]) (streamRun betaCore 6666000 ⟨.init betaCore, q⟩ hist)
  have hwf := camIns_wf (c := betaCore) rfl rfl 6666000 (ins ++ [i]) (streamRun betaCore 6666000 ⟨.init betaCore, q⟩ hist)
  rw [(fnRel_run _ hr).2, (fnRel_run _ hr).2, ForcedFifo.net_pixels _ hr]
  rw [camIns_append] at g2 g3 hwf
  exact ⟨_, _, _, ha, hwf, g1, g2, g3.symm⟩

theorem lv_frame {s : BetaLvds.top.S} (hs : LvStart s) {q : List Nat} {n : Nat} {hist : List StreamIn} (hn : LvdsForced.NetLinkFrames ⟨s, q⟩ n hist)
    (ins : List StreamIn) (i : StreamIn) :
    CamFrame (lvNetWords (lvSysRun ⟨s, q⟩ hist) ins) (lvNetWords (lvSysRun ⟨s, q⟩ hist) (ins ++ [i])) (LvdsForced.lvNetPixels (lvSysRun ⟨s, q⟩ hist) (ins ++ [i])) := by
  have hr := (lvRel_run hist (lvStart_rel hs q)).1
  have ha := LvdsForced.link_fresh beta_setup rfl rfl (LvdsForced.net_link_frames hs hn)
  have g1 := camGiven_camIns betaCore 6666000 (asStream betaCore 6666000 (lvdsRun betaCore 6666000 ⟨.init betaCore, q⟩ hist) ins)
    (fsOf (lvdsRun betaCore 6666000 ⟨.init betaCore, q⟩ hist))
  have g2 := camGiven_camIns betaCore 6666000 (asStream betaCore 6666000 (lvdsRun betaCore 6666000 ⟨.init betaCore, q⟩ hist) (ins ++ [i]))
    (fsOf (lvdsRun betaCore 6666000 ⟨.init betaCore, q⟩ hist))
  have g3 := ForcedFifo.streamPixels_eq betaCore 6666000 (asStream betaCore 6666000 (lvdsRun betaCore 6666000 ⟨.init betaCore, q⟩ hist) (ins ++ [i]))
    (fsOf (lvdsRun betaCore 6666000 ⟨.init betaCore, q⟩ hist))
  have hwf := camIns_wf (c := betaCore) rfl rfl 6666000 (asStream betaCore 6666000 (lvdsRun betaCore 6666000 ⟨.init betaCore, q⟩ hist) (ins ++ [i]))
    (fsOf (lvdsRun betaCore 6666000 ⟨.init betaCore, q⟩ hist))
  rw [← fs_words] at g1 g2
  rw [← LvdsForced.fs_pixels] at g3
  rw [(lvRel_run _ hr).2.2, (lvRel_run _ hr).2.2, LvdsForced.net_pixels _ hr]
  rw [asStream_append, camIns_append] at g2 g3 hwf
  exact ⟨(fsOf (lvdsRun betaCore 6666000 ⟨.init betaCore, q⟩ hist)).sys.cam, _, _, ha, hwf, g1, g2, g3.symm⟩

/-! ### The theorems -/

section
variable {head tail : List Nat} {d : Nat → Nat}

/-- C101, beta_integration_axistream.v: after any number of frames, ended normally or by force, a frame that ends normally, behind any legal header, is decoded by both builds
of lj92.c to the 4096×3072 pixels in the words that were transferred since the last reset cycle. -/
theorem C101_netlist_stream_any_decoded (s : BetaAxis.top.S) (hs : AxStart s) {n : Nat} {hist : List AxNetIn} (hn : Forced.NetFrames s n hist)
    (ins : List AxNetIn) (i : AxNetIn) (hl : ∀ j ∈ hist ++ (ins ++ [i]), j.rst = false)
    (hno : ∀ x ∈ axNetGiven (axNetRun s hist) ins, x.2 = false) (hw : (0xFFFF, true) ∈ axNetGiven (axNetRun s hist) (ins ++ [i]))
    (hh : Header 12 3072 1024 defaultCounts defaultVals head) (htail : 1 ≤ tail.length) (hd : ∀ k, d k < 256) (file : List Nat)
    (hfile : file = head ++ (wordBytes (((axNetGiven (axNetRun s hist) (ins ++ [i])).drop 8).take ((axNetGiven (axNetRun s hist) (ins ++ [i])).length - 16)) ++ tail))
    (hmem : At d 0 file) (lin : Option Lin) (hlin : ∀ l, lin = some l → 2 ^ 12 ≤ l.len + 1) (buf target : Nat → Nat) (ub : Int) (group skip : Nat) :
    let pixels := (axNetMoved (axNetRun s hist) (ins ++ [i])).flatMap pixels32
    pixels.length = 4096 * 3072 ∧ BothDecode d file.length lin buf target ub group skip pixels :=
  (ax_frame hs hn ins i hl).normal hno hw hh htail hd file hfile hmem lin hlin buf target ub group skip

/-- C101, beta_integration_axistream.v: a frame that is ended by force is decoded without an error to its leading pixels, as many as have their code in whole stuffed bytes `bs`
of the frame. -/
theorem C101_netlist_stream_forced_decoded (s : BetaAxis.top.S) (hs : AxStart s) {n : Nat} {hist : List AxNetIn} (hn : Forced.NetFrames s n hist)
    (ins : List AxNetIn) (i : AxNetIn) (hl : ∀ j ∈ hist ++ (ins ++ [i]), j.rst = false)
    (hno : ∀ x ∈ axNetGiven (axNetRun s hist) ins, x.2 = false) (hw : (0xFFFE, true) ∈ axNetGiven (axNetRun s hist) (ins ++ [i]))
    (hh : Header 12 3072 1024 defaultCounts defaultVals head) (htail : 1 ≤ tail.length) (hd : ∀ k, d k < 256) (data file : List Nat)
    (hdata : data = wordBytes (((axNetGiven (axNetRun s hist) (ins ++ [i])).drop 8).take ((axNetGiven (axNetRun s hist) (ins ++ [i])).length - 16)))
    (hfile : file = head ++ (data ++ tail)) (hmem : At d 0 file) (bs : List Nat) (hbs : stuff bs <+: data) (k : Nat)
    (hk : k ≤ ((axNetMoved (axNetRun s hist) (ins ++ [i])).flatMap pixels32).length)
    (hfit : (encode defaultTable 12 4096 (((axNetMoved (axNetRun s hist) (ins ++ [i])).flatMap pixels32).take k)).length ≤ 8 * bs.length)
    (lin : Option Lin) (hlin : ∀ l, lin = some l → 65535 ≤ l.len) (buf target : Nat → Nat) (ub : Int) (group skip : Nat) :
    FirstDecoded d file.length lin buf target ub group skip k ((axNetMoved (axNetRun s hist) (ins ++ [i])).flatMap pixels32) :=
  (ax_frame hs hn ins i hl).forced hno hw hh htail hd data file hdata hfile hmem bs hbs k hk hfit lin hlin buf target ub group skip

/-- C101, beta_integration_fifo_axistream.v: the same for a frame that ends normally, for the pixels that have gone into the core since the last reset cycle. -/
theorem C101_netlist_fifo_any_decoded (s : BetaFifo.top.S) (hs : FnStart s) (q : List Nat) {n : Nat} {hist : List StreamIn}
    (hn : ForcedFifo.NetFifoFrames ⟨s, q⟩ n hist) (ins : List StreamIn) (i : StreamIn)
    (hno : ∀ x ∈ fnGiven (fnSysRun ⟨s, q⟩ hist) ins, x.2 = false) (hw : (0xFFFF, true) ∈ fnGiven (fnSysRun ⟨s, q⟩ hist) (ins ++ [i]))
    (hh : Header 12 3072 1024 defaultCounts defaultVals head) (htail : 1 ≤ tail.length) (hd : ∀ k, d k < 256) (file : List Nat)
    (hfile : file = head ++ (wordBytes (((fnGiven (fnSysRun ⟨s, q⟩ hist) (ins ++ [i])).drop 8).take ((fnGiven (fnSysRun ⟨s, q⟩ hist) (ins ++ [i])).length - 16)) ++ tail))
    (hmem : At d 0 file) (lin : Option Lin) (hlin : ∀ l, lin = some l → 2 ^ 12 ≤ l.len + 1) (buf target : Nat → Nat) (ub : Int) (group skip : Nat) :
    let pixels := ForcedFifo.netPixels (fnSysRun ⟨s, q⟩ hist) (ins ++ [i])
    pixels.length = 4096 * 3072 ∧ BothDecode d file.length lin buf target ub group skip pixels :=
  (fn_frame hs hn ins i).normal hno hw hh htail hd file hfile hmem lin hlin buf target ub group skip

/-- C101, beta_integration_fifo_axistream.v: the same for a frame that is ended by force. -/
theorem C101_netlist_fifo_forced_decoded (s : BetaFifo.top.S) (hs : FnStart s) (q : List Nat) {n : Nat} {hist : List StreamIn}
    (hn : ForcedFifo.NetFifoFrames ⟨s, q⟩ n hist) (ins : List StreamIn) (i : StreamIn)
    (hno : ∀ x ∈ fnGiven (fnSysRun ⟨s, q⟩ hist) ins, x.2 = false) (hw : (0xFFFE, true) ∈ fnGiven (fnSysRun ⟨s, q⟩ hist) (ins ++ [i]))
    (hh : Header 12 3072 1024 defaultCounts defaultVals head) (htail : 1 ≤ tail.length) (hd : ∀ k, d k < 256) (data file : List Nat)
    (hdata : data = wordBytes (((fnGiven (fnSysRun ⟨s, q⟩ hist) (ins ++ [i])).drop 8).take ((fnGiven (fnSysRun ⟨s, q⟩ hist) (ins ++ [i])).length - 16)))
    (hfile : file = head ++ (data ++ tail)) (hmem : At d 0 file) (bs : List Nat) (hbs : stuff bs <+: data) (k : Nat)
    (hk : k ≤ (ForcedFifo.netPixels (fnSysRun ⟨s, q⟩ hist) (ins ++ [i])).length)
    (hfit : (encode defaultTable 12 4096 ((ForcedFifo.netPixels (fnSysRun ⟨s, q⟩ hist) (ins ++ [i])).take k)).length ≤ 8 * bs.length)
    (lin : Option Lin) (hlin : ∀ l, lin = some l → 65535 ≤ l.len) (buf target : Nat → Nat) (ub : Int) (group skip : Nat) :
    FirstDecoded d file.length lin buf target ub group skip k (ForcedFifo.netPixels (fnSysRun ⟨s, q⟩ hist) (ins ++ [i])) :=
  (fn_frame hs hn ins i).forced hno hw hh htail hd data file hdata hfile hmem bs hbs k hk hfit lin hlin buf target ub group skip

/-- C101, beta_integration_fifo_lvds.v: after any number of frames, ended normally or by force and with any receiver, what a receiver that is ready in this frame and takes the
data from the first three consecutive words FFFFFFFFFF on gets of a frame that ends normally, behind any legal header, is decoded by both builds of lj92.c to the 4096×3072
pixels that have gone into the core in this frame. -/
theorem C101_netlist_lvds_any_decoded (s : BetaLvds.top.S) (hs : LvStart s) (q : List Nat) {n : Nat} {hist : List StreamIn}
    (hn : LvdsForced.NetLinkFrames ⟨s, q⟩ n hist) (ins : List StreamIn) (i : StreamIn) (hready : ∀ j ∈ ins ++ [i], j.ready = true)
    (hno : ∀ x ∈ lvNetWords (lvSysRun ⟨s, q⟩ hist) ins, x.2 = false) (hw : (0xFFFF, true) ∈ lvNetWords (lvSysRun ⟨s, q⟩ hist) (ins ++ [i]))
    (hh : Header 12 3072 1024 defaultCounts defaultVals head) (htail : 1 ≤ tail.length) (hd : ∀ k, d k < 256) (file : List Nat)
    (hfile : file = head ++ (receive40 (sync40 (lvNetGiven (lvSysRun ⟨s, q⟩ hist) (ins ++ [i]))) ++ tail))
    (hmem : At d 0 file) (lin : Option Lin) (hlin : ∀ l, lin = some l → 2 ^ 12 ≤ l.len + 1) (buf target : Nat → Nat) (ub : Int) (group skip : Nat) :
    let pixels := LvdsForced.lvNetPixels (lvSysRun ⟨s, q⟩ hist) (ins ++ [i])
    pixels.length = 4096 * 3072 ∧ BothDecode d file.length lin buf target ub group skip pixels := by
  have hr := (lvRel_run hist (lvStart_rel hs q)).1
  have h1 := hno
  have h2 := hw
  rw [(lvRel_run _ hr).2.2] at h1 h2
  have hb := LvdsForced.sync_bytes beta_setup rfl rfl q (LvdsForced.net_link_frames hs hn) ins i hready h1 h2
  dsimp only at hb
  rw [← (lvRel_run _ hr).2.1, ← (lvRel_run _ hr).2.2] at hb
  rw [hb] at hfile
  exact (lv_frame hs hn ins i).normal hno hw hh htail hd file hfile hmem lin hlin buf target ub group skip

/-- C101, beta_integration_fifo_lvds.v: of a frame that is ended by force such a receiver gets bytes that are decoded without an error to its leading pixels, as many as have
their code in whole stuffed bytes `bs` between the markers. -/
theorem C101_netlist_lvds_forced_decoded (s : BetaLvds.top.S) (hs : LvStart s) (q : List Nat) {n : Nat} {hist : List StreamIn}
    (hn : LvdsForced.NetLinkFrames ⟨s, q⟩ n hist) (ins : List StreamIn) (i : StreamIn) (hready : ∀ j ∈ ins ++ [i], j.ready = true)
    (hno : ∀ x ∈ lvNetWords (lvSysRun ⟨s, q⟩ hist) ins, x.2 = false) (hw : (0xFFFE, true) ∈ lvNetWords (lvSysRun ⟨s, q⟩ hist) (ins ++ [i]))
    (hh : Header 12 3072 1024 defaultCounts defaultVals head) (hd : ∀ k, d k < 256) (file : List Nat)
    (hfile : file = head ++ (receive40 (sync40 (lvNetGiven (lvSysRun ⟨s, q⟩ hist) (ins ++ [i]))) ++ tail)) (hmem : At d 0 file) (bs : List Nat)
    (hbs : stuff bs <+: wordBytes (((lvNetWords (lvSysRun ⟨s, q⟩ hist) (ins ++ [i])).drop 8).take ((lvNetWords (lvSysRun ⟨s, q⟩ hist) (ins ++ [i])).length - 16))) (k : Nat)
    (hk : k ≤ (LvdsForced.lvNetPixels (lvSysRun ⟨s, q⟩ hist) (ins ++ [i])).length)
    (hfit : (encode defaultTable 12 4096 ((LvdsForced.lvNetPixels (lvSysRun ⟨s, q⟩ hist) (ins ++ [i])).take k)).length ≤ 8 * bs.length)
    (lin : Option Lin) (hlin : ∀ l, lin = some l → 65535 ≤ l.len) (buf target : Nat → Nat) (ub : Int) (group skip : Nat) :
    FirstDecoded d file.length lin buf target ub group skip k (LvdsForced.lvNetPixels (lvSysRun ⟨s, q⟩ hist) (ins ++ [i])) := by
  have hr := (lvRel_run hist (lvStart_rel hs q)).1
  have h1 := hno
  have h2 := hw
  rw [(lvRel_run _ hr).2.2] at h1 h2
  obtain ⟨more, hb⟩ := LvdsForced.sync_bytes_forced beta_setup rfl rfl q (LvdsForced.net_link_frames hs hn) ins i hready h1 h2
  rw [← (lvRel_run _ hr).2.1, ← (lvRel_run _ hr).2.2] at hb
  rw [hb, List.append_assoc] at hfile
  exact (lv_frame hs hn ins i).forced hno hw hh (tail := [0xFF] ++ more ++ tail) (by simp) hd _ file rfl hfile hmem bs hbs k hk hfit lin hlin buf target ub group skip

end

-- The start states, histories and headers exist (that frame follows frame for ever on every fair schedule is C86, C94 and C98); the header for the shipped size:
example (q : List Nat) : AxStart BetaAxis.top.powerUp ∧ Forced.NetFrames BetaAxis.top.powerUp 0 [] ∧ FnStart BetaFifo.top.powerUp ∧
    ForcedFifo.NetFifoFrames ⟨BetaFifo.top.powerUp, q⟩ 0 [] ∧ LvStart BetaLvds.top.powerUp ∧ LvdsForced.NetLinkFrames ⟨BetaLvds.top.powerUp, q⟩ 0 [] ∧
    Header 12 3072 1024 defaultCounts defaultVals (headEx 3072 1024) :=
  ⟨⟨_, [], BetaAxis.top.powerUp_init, rfl, Or.inl rfl⟩, .zero, ⟨_, [], BetaFifo.top.powerUp_init, rfl, Or.inl rfl⟩, .zero,
    ⟨_, [], BetaLvds.top.powerUp_init, rfl, Or.inl rfl⟩, .zero, headEx_header ..⟩

end Props.ToFile
