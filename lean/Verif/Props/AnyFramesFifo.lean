/- Property C94: the 64-bit FIFO stream core and its shipped netlist over frames ended normally or by force. -/
import Verif.Props.AnyFramesNet
import Verif.Props.NetStream

set_option autoImplicit false

namespace Props.ForcedFifo
open Spec Model Netlist Props Props.Forced

/-- From power-up, with the words `q` in the source, the cycles `hist` consist of `n` frames, each ended normally or by
force and followed by its reset cycle. -/
inductive FifoFrames (c : CoreCfg) (a : Nat) (q : List Nat) : Nat → List StreamIn → Prop
  | zero : FifoFrames c a q 0 []
  | next {n : Nat} {hist ins : List StreamIn} {i r : StreamIn} {w : Nat} (h : FifoFrames c a q n hist)
      (hno : ∀ x ∈ streamGiven c a (streamRun c a ⟨.init c, q⟩ hist) ins, x.2 = false)
      (hw : (w, true) ∈ streamGiven c a (streamRun c a ⟨.init c, q⟩ hist) (ins ++ [i])) :
      FifoFrames c a q (n + 1) (hist ++ (ins ++ [i]) ++ [r])

/-- The pixels that go from the width converter into the core: its 24-bit word is valid and the core is not busy. -/
def streamPixels (c : CoreCfg) (a : Nat) : StreamSys → List StreamIn → List Nat
  | _, [] => []
  | s, i :: r => (if s.sys.unpack.valid && !s.sys.cam.nready then [s.sys.unpack.data / 2 ^ 12 % 2 ^ 12, s.sys.unpack.data % 2 ^ 12] else []) ++
      streamPixels c a (s.step c a i) r

theorem streamPixels_eq (c : CoreCfg) (a : Nat) (ins : List StreamIn) : ∀ s : StreamSys,
    streamPixels c a s ins = camAccepted c a s.sys.cam (camIns c a s ins) := by
  induction ins with
  | nil => intro s; rfl
  | cons i r ih =>
    intro s
    simp only [camAccepted, camIns, streamPixels]
    rw [show s.sys.cam.betaStep c a (s.sys.camIn i.ready) = (s.step c a i).sys.cam from rfl, ih]
    by_cases hv : (s.sys.unpack.valid && !s.sys.cam.nready) = true <;> simp [FifoStream.camIn, hv, slice]

theorem streamRun_append (c : CoreCfg) (a : Nat) (x y : List StreamIn) : ∀ s, streamRun c a s (x ++ y) = streamRun c a (streamRun c a s x) y := by
  induction x with
  | nil => intros; rfl
  | cons i x ih => intro s; exact ih _

theorem streamPixels_append (c : CoreCfg) (a : Nat) (x y : List StreamIn) : ∀ s,
    streamPixels c a s (x ++ y) = streamPixels c a s x ++ streamPixels c a (streamRun c a s x) y := by
  induction x with
  | nil => intro s; rfl
  | cons i x ih => intro s; simp [streamPixels, streamRun, ih]

theorem fifo_frames {c : CoreCfg} {a : Nat} {q : List Nat} {n : Nat} {hist : List StreamIn}
    (h : FifoFrames c a q n hist) : Frames c a n (camIns c a ⟨.init c, q⟩ hist) := by
  induction h with
  | zero => exact .zero
  | @next n hist ins i r w h hno hw ih =>
    rw [camIns_append, camIns_append, camIns_append]
    have e : camRun c a (Cam.init c) (camIns c a ⟨.init c, q⟩ hist) = (streamRun c a ⟨.init c, q⟩ hist).sys.cam :=
      camRun_camIns c a hist ⟨.init c, q⟩
    refine Frames.next (w := w) ih ?_ ?_
    · rw [e, camGiven_camIns]; exact hno
    · rw [e]
      have := camGiven_camIns c a (ins ++ [i]) (streamRun c a ⟨.init c, q⟩ hist)
      rw [camIns_append] at this
      simp only [camIns] at this ⊢
      rw [this]; exact hw

/-- What is inside the width converter and its source, in pixels. -/
theorem pend_length {s : UnpackSys} (h : UnpackInv s) :
    2 * s.q.length ≤ (unpackPend s).length ∧ (unpackPend s).length ≤ 2 * s.q.length + 3 := by
  obtain ⟨⟨data, valid, oBusy, reg, regValid, half⟩, q⟩ := s
  obtain ⟨h1, h2⟩ := h
  dsimp only at h1 h2
  have hf : ∀ l : List Nat, (l.flatMap twoHalves).length = 2 * l.length := by
    intro l
    induction l with
    | nil => rfl
    | cons x l ih => rw [List.flatMap_cons, List.length_append, ih, List.length_cons]; simp [twoHalves]; omega
  simp only [unpackPend, List.length_append, hf]
  cases oBusy
  · obtain ⟨e1, e2, e3⟩ := h2 rfl
    subst e1 e2
    cases q with
    | nil => simp at e3
    | cons x t => cases valid <;> simp [twoHalves] <;> omega
  · cases half
    · cases valid <;> cases regValid <;> simp [twoHalves] <;> omega
    · obtain ⟨e1, e2⟩ := h1 rfl
      subst e1 e2
      simp; omega

theorem unpackRun_ins (c : CoreCfg) (a : Nat) (ins : List StreamIn) : ∀ s : StreamSys,
    unpackRun ⟨s.sys.unpack, s.q⟩ (unpackIns c a s ins) = unpackPart (streamRun c a s ins) := by
  induction ins with
  | nil => intro s; rfl
  | cons i r ih =>
    intro s
    have := unpackPart_step c a s i
    simp only [unpackIns, unpackRun, streamRun]
    rw [show (UnpackSys.mk s.sys.unpack s.q) = unpackPart s from rfl, ← this]
    exact ih _

/-- C94: the pixels that have gone into the core are, at every moment of every run, in order and without gaps the first ones of the words of the
source, and all but at most six of those in the words taken from it: with `left` words still in the source, of all that were or came
there, at least `4*(all-left) - 6` and at most `4*(all-left)`. -/
theorem C94_pixels_in_order (c : CoreCfg) (a : Nat) (q : List Nat) (ins : List StreamIn) :
    let words := q ++ ins.flatMap (·.arrive)
    let left := (streamRun c a ⟨.init c, q⟩ ins).q.length
    let pixels := streamPixels c a ⟨.init c, q⟩ ins
    pixels <+: words.flatMap wordPixels ∧ pixels.length + 4 * left ≤ 4 * words.length ∧ 4 * words.length ≤ pixels.length + 4 * left + 6 := by
  intro words left pixels
  have e : pixels = camAccepted c a (Cam.init c) (camIns c a ⟨.init c, q⟩ ins) := streamPixels_eq c a ins ⟨.init c, q⟩
  have h := camAccepted_camIns c a ins ⟨.init c, q⟩
  obtain ⟨hi, hu⟩ := unpack_run (unpackIns c a ⟨.init c, q⟩ ins) (unpack_inv_init q)
  have er : unpackRun ⟨Unpack2.init, q⟩ (unpackIns c a ⟨.init c, q⟩ ins) = unpackPart (streamRun c a ⟨.init c, q⟩ ins) :=
    unpackRun_ins c a ins ⟨.init c, q⟩
  rw [er] at hi hu
  rw [unpackIns_arrived] at hu
  have hl := congrArg List.length hu
  have hf : ∀ l : List Nat, (l.flatMap twoHalves).length = 2 * l.length := by
    intro l
    induction l with
    | nil => rfl
    | cons x l ih => rw [List.flatMap_cons, List.length_append, ih, List.length_cons]; simp [twoHalves]; omega
  have hg : ∀ l : List Nat, (l.flatMap pix2).length = 2 * l.length := by
    intro l
    induction l with
    | nil => rfl
    | cons x l ih => rw [List.flatMap_cons, List.length_append, ih, List.length_cons]; simp [pix2]; omega
  have hp := pend_length hi
  have hp0 : (unpackPend ⟨Unpack2.init, q⟩).length = 2 * q.length := by simp [unpackPend, Unpack2.init, hf]
  rw [List.length_append, List.length_append, hp0, hf] at hl
  have hlen : pixels.length = 2 * (unpackGiven ⟨.init, q⟩ (unpackIns c a ⟨.init c, q⟩ ins)).length := by
    rw [e, show Cam.init c = (⟨.init c, q⟩ : StreamSys).sys.cam from rfl, h, hg]; rfl
  have hw : words.length = q.length + (ins.flatMap (·.arrive)).length := List.length_append
  have hq : (unpackPart (streamRun c a ⟨.init c, q⟩ ins)).q.length = left := rfl
  rw [hq] at hp
  refine ⟨e ▸ stream_accepted c a q ins, ?_, ?_⟩ <;> omega

/-- C94: after any number of frames, ended normally or by force, a frame that ends normally decodes to exactly the `W*H` pixels that have gone into
the core since the last reset cycle. -/
theorem C94_next_frame {c : CoreCfg} {T : Table} (h : CamSetup c T) (hps : c.int1.ps = 2) (hbd : c.int1.bd = 12)
    (allowed : Nat) (q : List Nat) {n : Nat} {hist : List StreamIn} (hn : FifoFrames c allowed q n hist)
    (ins : List StreamIn) (i : StreamIn)
    (hno : ∀ x ∈ streamGiven c allowed (streamRun c allowed ⟨.init c, q⟩ hist) ins, x.2 = false)
    (hw : (0xFFFF, true) ∈ streamGiven c allowed (streamRun c allowed ⟨.init c, q⟩ hist) (ins ++ [i])) :
    let words := streamGiven c allowed (streamRun c allowed ⟨.init c, q⟩ hist) (ins ++ [i])
    let pixels := streamPixels c allowed (streamRun c allowed ⟨.init c, q⟩ hist) (ins ++ [i])
    pixels.length = c.int1.W * c.int1.H ∧
    ∃ pad, decode T 13 12 c.int1.W (c.int1.W * c.int1.H) []
      (byteBits (unstuff (wordBytes ((words.drop 8).take (words.length - 16))))) = some (pixels, pad) := by
  intro words pixels
  have e : camRun c allowed (Cam.init c) (camIns c allowed ⟨.init c, q⟩ hist) =
      (streamRun c allowed ⟨.init c, q⟩ hist).sys.cam := camRun_camIns c allowed hist ⟨.init c, q⟩
  have g1 := camGiven_camIns c allowed ins (streamRun c allowed ⟨.init c, q⟩ hist)
  have g2 := camGiven_camIns c allowed (ins ++ [i]) (streamRun c allowed ⟨.init c, q⟩ hist)
  have ep : pixels = _ := streamPixels_eq c allowed (ins ++ [i]) _
  rw [← e] at g1 g2 ep
  have hc : camIns c allowed (streamRun c allowed ⟨.init c, q⟩ hist) (ins ++ [i]) =
      camIns c allowed (streamRun c allowed ⟨.init c, q⟩ hist) ins ++
        [(streamRun c allowed (streamRun c allowed ⟨.init c, q⟩ hist) ins).sys.camIn i.ready] := camIns_append ..
  have hh : camIns c allowed ⟨.init c, q⟩ (hist ++ (ins ++ [i])) =
      camIns c allowed ⟨.init c, q⟩ hist ++ camIns c allowed (streamRun c allowed ⟨.init c, q⟩ hist) (ins ++ [i]) := camIns_append ..
  rw [hc] at g2 ep hh
  obtain ⟨h1, pad, h2⟩ := C86_next_frame h (by omega) allowed (fifo_frames hn)
    (camIns c allowed (streamRun c allowed ⟨.init c, q⟩ hist) ins)
    ((streamRun c allowed (streamRun c allowed ⟨.init c, q⟩ hist) ins).sys.camIn i.ready)
    (by rw [← hh]; exact camIns_wf hps hbd allowed _ _) (by rw [g1]; exact hno) (by rw [g2]; exact hw)
  rw [camAccepted_append, List.length_append, ← ep] at h1
  rw [camAccepted_append, List.drop_left' rfl, ← ep, g2, hbd] at h2
  exact ⟨Nat.add_left_cancel h1, pad, h2⟩

/-- C94: a frame that is ended by force decodes to its leading pixels, as many as have their whole code in the data between the markers. -/
theorem C94_forced_frame {c : CoreCfg} {T : Table} (h : CamSetup c T) (hps : c.int1.ps = 2) (hbd : c.int1.bd = 12)
    (allowed : Nat) (q : List Nat) {n : Nat} {hist : List StreamIn} (hn : FifoFrames c allowed q n hist)
    (ins : List StreamIn) (i : StreamIn)
    (hno : ∀ x ∈ streamGiven c allowed (streamRun c allowed ⟨.init c, q⟩ hist) ins, x.2 = false)
    (hw : (0xFFFE, true) ∈ streamGiven c allowed (streamRun c allowed ⟨.init c, q⟩ hist) (ins ++ [i])) (k : Nat) :
    let words := streamGiven c allowed (streamRun c allowed ⟨.init c, q⟩ hist) (ins ++ [i])
    let pixels := streamPixels c allowed (streamRun c allowed ⟨.init c, q⟩ hist) (ins ++ [i])
    let data := byteBits (unstuff (wordBytes ((words.drop 8).take (words.length - 16))))
    k ≤ pixels.length → (encode T 12 c.int1.W (pixels.take k)).length ≤ data.length →
    ∃ pad, decode T 13 12 c.int1.W k [] data = some (pixels.take k, pad) := by
  intro words pixels data
  have e : camRun c allowed (Cam.init c) (camIns c allowed ⟨.init c, q⟩ hist) =
      (streamRun c allowed ⟨.init c, q⟩ hist).sys.cam := camRun_camIns c allowed hist ⟨.init c, q⟩
  have g1 := camGiven_camIns c allowed ins (streamRun c allowed ⟨.init c, q⟩ hist)
  have g2 := camGiven_camIns c allowed (ins ++ [i]) (streamRun c allowed ⟨.init c, q⟩ hist)
  have ep : pixels = _ := streamPixels_eq c allowed (ins ++ [i]) _
  rw [← e] at g1 g2 ep
  have hc : camIns c allowed (streamRun c allowed ⟨.init c, q⟩ hist) (ins ++ [i]) =
      camIns c allowed (streamRun c allowed ⟨.init c, q⟩ hist) ins ++
        [(streamRun c allowed (streamRun c allowed ⟨.init c, q⟩ hist) ins).sys.camIn i.ready] := camIns_append ..
  have hh : camIns c allowed ⟨.init c, q⟩ (hist ++ (ins ++ [i])) =
      camIns c allowed ⟨.init c, q⟩ hist ++ camIns c allowed (streamRun c allowed ⟨.init c, q⟩ hist) (ins ++ [i]) := camIns_append ..
  rw [hc] at g2 ep hh
  have h2 := C86_forced_frame h (by omega) allowed (fifo_frames hn)
    (camIns c allowed (streamRun c allowed ⟨.init c, q⟩ hist) ins)
    ((streamRun c allowed (streamRun c allowed ⟨.init c, q⟩ hist) ins).sys.camIn i.ready)
    (by rw [← hh]; exact camIns_wf hps hbd allowed _ _) (by rw [g1]; exact hno) (by rw [g2]; exact hw) k
  rw [camAccepted_append, List.drop_left' rfl, ← ep, g2, hbd] at h2
  exact h2

/-- C94: no pixel goes into the core in the reset cycle after a normal end, so that the next frame goes on with the next pixel of the source. -/
theorem C94_reset_cycle {c : CoreCfg} {T : Table} (h : CamSetup c T) (hps : c.int1.ps = 2) (hbd : c.int1.bd = 12)
    (allowed : Nat) (q : List Nat) {n : Nat} {hist : List StreamIn} (hn : FifoFrames c allowed q n hist)
    (ins : List StreamIn) (i r : StreamIn)
    (hno : ∀ x ∈ streamGiven c allowed (streamRun c allowed ⟨.init c, q⟩ hist) ins, x.2 = false)
    (hw : (0xFFFF, true) ∈ streamGiven c allowed (streamRun c allowed ⟨.init c, q⟩ hist) (ins ++ [i])) :
    streamPixels c allowed ⟨.init c, q⟩ (hist ++ (ins ++ [i]) ++ [r]) = streamPixels c allowed ⟨.init c, q⟩ (hist ++ (ins ++ [i])) := by
  have e : camRun c allowed (Cam.init c) (camIns c allowed ⟨.init c, q⟩ hist) =
      (streamRun c allowed ⟨.init c, q⟩ hist).sys.cam := camRun_camIns c allowed hist ⟨.init c, q⟩
  have g1 := camGiven_camIns c allowed ins (streamRun c allowed ⟨.init c, q⟩ hist)
  have g2 := camGiven_camIns c allowed (ins ++ [i]) (streamRun c allowed ⟨.init c, q⟩ hist)
  rw [← e] at g1 g2
  have hc : camIns c allowed (streamRun c allowed ⟨.init c, q⟩ hist) (ins ++ [i]) =
      camIns c allowed (streamRun c allowed ⟨.init c, q⟩ hist) ins ++
        [(streamRun c allowed (streamRun c allowed ⟨.init c, q⟩ hist) ins).sys.camIn i.ready] := camIns_append ..
  have hh : camIns c allowed ⟨.init c, q⟩ (hist ++ (ins ++ [i])) =
      camIns c allowed ⟨.init c, q⟩ hist ++ camIns c allowed (streamRun c allowed ⟨.init c, q⟩ hist) (ins ++ [i]) := camIns_append ..
  rw [hc] at g2 hh
  rw [streamPixels_eq, streamPixels_eq, camIns_append, hh]
  exact C86_reset_cycle h allowed (fifo_frames hn) _ _ _ (by rw [← hh]; exact camIns_wf hps hbd allowed _ _)
    (by rw [g1]; exact hno) (by rw [g2]; exact hw)

/-- C94, progress: whatever ended the earlier frames, if words arrive and are taken again and again the next frame ends. -/
theorem C94_next_frame_ends {c : CoreCfg} {T : Table} (h : CamSetup c T) (hps : c.int1.ps = 2) (hbd : c.int1.bd = 12)
    {allowed : Nat} (ha : allowed < 2 ^ 24) (q : List Nat) {n : Nat} {hist : List StreamIn} (hn : FifoFrames c allowed q n hist)
    (u : Nat → StreamIn) (hprod : ∀ n, ∃ m, n ≤ m ∧ (u m).arrive ≠ []) (hcons : ∀ n, ∃ m, n ≤ m ∧ (u m).ready = true) :
    ∃ t w, (w, true) ∈ streamGiven c allowed (streamRun c allowed ⟨.init c, q⟩ hist) ((List.range t).map u) := by
  have hr := frames_fresh h allowed (fifo_frames hn) (camIns_wf hps hbd allowed _ _)
  have e := camRun_camIns c allowed hist ⟨.init c, q⟩
  exact stream_always_ends h hps hbd ha (e ▸ hr) (unpackInv_run (s := ⟨.init c, q⟩) hist (unpack_inv_init q)) u hprod hcons

/-- C94: frame follows frame for ever. -/
theorem C94_frames_for_ever {c : CoreCfg} {T : Table} (h : CamSetup c T) (hps : c.int1.ps = 2) (hbd : c.int1.bd = 12)
    {allowed : Nat} (ha : allowed < 2 ^ 24) (q : List Nat)
    (u : Nat → StreamIn) (hprod : ∀ n, ∃ m, n ≤ m ∧ (u m).arrive ≠ []) (hcons : ∀ n, ∃ m, n ≤ m ∧ (u m).ready = true) (n : Nat) :
    ∃ t, FifoFrames c allowed q n ((List.range t).map u) := by
  induction n with
  | zero => exact ⟨0, .zero⟩
  | succ n ih =>
    obtain ⟨t, ht⟩ := ih
    obtain ⟨t', w, hw⟩ := C94_next_frame_ends h hps hbd ha q ht (fun j => u (t + j))
      (fun m => by obtain ⟨k, h1, h2⟩ := hprod (t + m); exact ⟨k - t, by omega, by rw [show t + (k - t) = k by omega]; exact h2⟩)
      (fun m => by obtain ⟨k, h1, h2⟩ := hcons (t + m); exact ⟨k - t, by omega, by rw [show t + (k - t) = k by omega]; exact h2⟩)
    obtain ⟨k, w', h1, h2⟩ := first_end (streamGiven c allowed (streamRun c allowed ⟨.init c, q⟩ ((List.range t).map u))) rfl _ hw
    refine ⟨t + (k + 1) + 1, ?_⟩
    have e : (List.range (t + (k + 1) + 1)).map u = (List.range t).map u ++ ((List.range k).map (fun j => u (t + j)) ++ [u (t + k)]) ++
        [u (t + (k + 1))] := by
      rw [List.range_succ, List.map_append, range_shift, List.range_succ, List.map_append]; rfl
    rw [e]
    exact .next ht h1 h2

/-! ### The shipped netlist -/

/-- From the state `s` of the netlist, the cycles `hist` consist of `n` frames, each ended normally or by force and followed by one more
cycle, in which the core resets itself. -/
inductive NetFifoFrames (s : FnSys) : Nat → List StreamIn → Prop
  | zero : NetFifoFrames s 0 []
  | next {n : Nat} {hist ins : List StreamIn} {i r : StreamIn} {w : Nat} (h : NetFifoFrames s n hist)
      (hno : ∀ x ∈ fnGiven (fnSysRun s hist) ins, x.2 = false)
      (hw : (w, true) ∈ fnGiven (fnSysRun s hist) (ins ++ [i])) :
      NetFifoFrames s (n + 1) (hist ++ (ins ++ [i]) ++ [r])

/-- The pixels that go from the netlist's width converter into its core. -/
def netPixels : FnSys → List StreamIn → List Nat
  | _, [] => []
  | s, i :: r => (if BetaFifo.top.top_module_valid_in s.net && !BetaFifo.top.top_module_nready s.net then
      [BetaFifo.top.top_module_pixel_in1 s.net, BetaFifo.top.top_module_pixel_in2 s.net] else []) ++ netPixels (s.step i) r

theorem net_pixels (l : List StreamIn) : ∀ {s : FnSys} {t : StreamSys}, FnRel s t →
    netPixels s l = streamPixels betaCore 6666000 t l := by
  induction l with
  | nil => intros; rfl
  | cons i r ih =>
    intro s t h
    rw [netPixels, streamPixels, ih (fnRel_step h i)]
    have hn : BetaFifo.top.top_module_nready s.net = t.sys.cam.nready := congrArg NetOut.nready (behaves_out h.core false)
    have hu := h.unpack
    have hv : BetaFifo.top.top_module_valid_in s.net = t.sys.unpack.valid := by rw [← hu]; rfl
    have h1 : BetaFifo.top.top_module_pixel_in1 s.net = t.sys.unpack.data / 2 ^ 12 % 2 ^ 12 := by rw [← hu]; rfl
    have h2 : BetaFifo.top.top_module_pixel_in2 s.net = t.sys.unpack.data % 2 ^ 12 := by
      rw [← hu]
      show slc s.net.u_b64_b32.data_out 0 12 = s.net.u_b64_b32.data_out % 2 ^ 12
      simp [slc]
    rw [hn, hv, h1, h2]

theorem net_fifo_frames {s : BetaFifo.top.S} (hs : FnStart s) {q : List Nat} {n : Nat} {hist : List StreamIn}
    (h : NetFifoFrames ⟨s, q⟩ n hist) : FifoFrames betaCore 6666000 q n hist := by
  induction h with
  | zero => exact .zero
  | @next n hist ins i r w h hno hw ih =>
    have hr := (fnRel_run hist (fnStart_rel hs q)).1
    rw [(fnRel_run _ hr).2] at hno hw
    exact .next ih hno hw

/-- C94 for the netlist: the pixels that have gone into the core are in order and without gaps the first ones of the words of the source. -/
theorem C94_netlist_pixels_in_order (s : BetaFifo.top.S) (hs : FnStart s) (q : List Nat) (ins : List StreamIn) :
    let words := q ++ ins.flatMap (·.arrive)
    let left := (fnSysRun ⟨s, q⟩ ins).q.length
    let pixels := netPixels ⟨s, q⟩ ins
    pixels <+: words.flatMap wordPixels ∧ pixels.length + 4 * left ≤ 4 * words.length ∧ 4 * words.length ≤ pixels.length + 4 * left + 6 := by
  have hr := (fnRel_run ins (fnStart_rel hs q)).1
  have := C94_pixels_in_order betaCore 6666000 q ins
  dsimp only at this ⊢
  rw [net_pixels ins (fnStart_rel hs q), hr.q]
  exact this

/-- C94 for the netlist: after power-up or any external reset and any number of frames, ended normally or by force, when FFFF with `m_tlast` is
transferred, exactly 4096x3072 pixels have gone into the core since the last reset cycle, and the words since then decode to them. -/
theorem C94_netlist_next_frame (s : BetaFifo.top.S) (hs : FnStart s) (q : List Nat) {n : Nat} {hist : List StreamIn}
    (hn : NetFifoFrames ⟨s, q⟩ n hist) (ins : List StreamIn) (i : StreamIn)
    (hno : ∀ x ∈ fnGiven (fnSysRun ⟨s, q⟩ hist) ins, x.2 = false)
    (hw : (0xFFFF, true) ∈ fnGiven (fnSysRun ⟨s, q⟩ hist) (ins ++ [i])) :
    let words := fnGiven (fnSysRun ⟨s, q⟩ hist) (ins ++ [i])
    let pixels := netPixels (fnSysRun ⟨s, q⟩ hist) (ins ++ [i])
    pixels.length = 4096 * 3072 ∧
    ∃ pad, decode defaultTable 13 12 4096 (4096 * 3072) []
      (byteBits (unstuff (wordBytes ((words.drop 8).take (words.length - 16))))) = some (pixels, pad) := by
  intro words pixels
  have hr := (fnRel_run hist (fnStart_rel hs q)).1
  rw [(fnRel_run _ hr).2] at hno hw
  have ew : words = _ := (fnRel_run (ins ++ [i]) hr).2
  have ep : pixels = _ := net_pixels (ins ++ [i]) hr
  rw [ew, ep]
  exact C94_next_frame beta_setup rfl rfl 6666000 q (net_fifo_frames hs hn) ins i hno hw

/-- C94 for the netlist: a frame that is ended by force decodes to its leading pixels. -/
theorem C94_netlist_forced_frame (s : BetaFifo.top.S) (hs : FnStart s) (q : List Nat) {n : Nat} {hist : List StreamIn}
    (hn : NetFifoFrames ⟨s, q⟩ n hist) (ins : List StreamIn) (i : StreamIn)
    (hno : ∀ x ∈ fnGiven (fnSysRun ⟨s, q⟩ hist) ins, x.2 = false)
    (hw : (0xFFFE, true) ∈ fnGiven (fnSysRun ⟨s, q⟩ hist) (ins ++ [i])) (k : Nat) :
    let words := fnGiven (fnSysRun ⟨s, q⟩ hist) (ins ++ [i])
    let pixels := netPixels (fnSysRun ⟨s, q⟩ hist) (ins ++ [i])
    let data := byteBits (unstuff (wordBytes ((words.drop 8).take (words.length - 16))))
    k ≤ pixels.length → (encode defaultTable 12 4096 (pixels.take k)).length ≤ data.length →
    ∃ pad, decode defaultTable 13 12 4096 k [] data = some (pixels.take k, pad) := by
  intro words pixels data
  have hr := (fnRel_run hist (fnStart_rel hs q)).1
  rw [(fnRel_run _ hr).2] at hno hw
  have ew : words = _ := (fnRel_run (ins ++ [i]) hr).2
  have ep : pixels = _ := net_pixels (ins ++ [i]) hr
  have ed : data = byteBits (unstuff (wordBytes ((words.drop 8).take (words.length - 16)))) := rfl
  rw [ed, ew, ep]
  exact C94_forced_frame beta_setup rfl rfl 6666000 q (net_fifo_frames hs hn) ins i hno hw k

/-- C94 for the netlist: with words arriving and taken again and again, frame follows frame for ever. -/
theorem C94_netlist_frames_for_ever (s : BetaFifo.top.S) (hs : FnStart s) (q : List Nat)
    (u : Nat → StreamIn) (hprod : ∀ n, ∃ m, n ≤ m ∧ (u m).arrive ≠ []) (hcons : ∀ n, ∃ m, n ≤ m ∧ (u m).ready = true) (n : Nat) :
    ∃ t, NetFifoFrames ⟨s, q⟩ n ((List.range t).map u) := by
  obtain ⟨t, ht⟩ := C94_frames_for_ever beta_setup rfl rfl (allowed := 6666000) (by decide) q u hprod hcons n
  refine ⟨t, ?_⟩
  generalize (List.range t).map u = hist at ht
  induction ht with
  | zero => exact .zero
  | @next n hist ins i r w h hno hw ih =>
    have hr := (fnRel_run hist (fnStart_rel hs q)).1
    rw [← (fnRel_run _ hr).2] at hno hw
    exact .next ih hno hw

-- The hypotheses are met: four words in the source, a limit of 32 cycles; the first frame is ended by force in the 52nd cycle and so is the
-- second, which decodes to its first five pixels, those of the source after the eight of the first frame.
set_option maxRecDepth 40000 in
example : FifoFrames tinyStream 32 tinyWords 1 ([] ++ (tinyReady 51 ++ [⟨[], true⟩]) ++ [⟨[], true⟩]) := by
  refine FifoFrames.next (w := 0xFFFE) .zero ?_ ?_ <;> decide +kernel

set_option maxRecDepth 40000 in
example : let s := streamRun tinyStream 32 ⟨.init tinyStream, tinyWords⟩ ([] ++ (tinyReady 51 ++ [⟨[], true⟩]) ++ [⟨[], true⟩])
    let words := streamGiven tinyStream 32 s (tinyReady 51 ++ [⟨[], true⟩])
    let pixels := streamPixels tinyStream 32 s (tinyReady 51 ++ [⟨[], true⟩])
    let data := byteBits (unstuff (wordBytes ((words.drop 8).take (words.length - 16))))
    (∀ x ∈ streamGiven tinyStream 32 s (tinyReady 51), x.2 = false) ∧ (0xFFFE, true) ∈ words ∧
    pixels = [1, 2, 3, 4, 291, 1110, 1929, 18] ∧ (encode defaultTable 12 4 (pixels.take 5)).length ≤ data.length ∧
    (decode defaultTable 13 12 4 5 [] data).map (·.1) = some [1, 2, 3, 4, 291] := by
  refine ⟨?_, ?_, ?_, ?_, ?_⟩ <;> decide +kernel

-- Such schedules exist: a word in every third cycle, the receiver ready in every fifth; and the netlist starts as required.
example : (let u : Nat → StreamIn := fun n => ⟨if n % 3 = 0 then [n] else [], n % 5 == 0⟩
    (∀ n, ∃ m, n ≤ m ∧ (u m).arrive ≠ []) ∧ (∀ n, ∃ m, n ≤ m ∧ (u m).ready = true)) ∧ FnStart BetaFifo.top.powerUp :=
  ⟨⟨fun n => ⟨3 * n, by omega, by simp⟩, fun n => ⟨5 * n, by omega, by simp⟩⟩, _, [], BetaFifo.top.powerUp_init, rfl, Or.inl rfl⟩

end Props.ForcedFifo
