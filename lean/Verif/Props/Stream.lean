/- Property theorems C52: the beta core between AXI streams, end to end. -/
import Verif.Model.AxiStream
import Verif.Props.Frames
import Verif.Props.Unpack
import Verif.Props.BetaLive

set_option autoImplicit false

namespace Props
open Spec Model

/-- One cycle of the environment: 64-bit words that become available at the source FIFO after this cycle, and
`m_tready`. -/
structure StreamIn where
  arrive : List Nat
  ready : Bool

/-- The integration with its source FIFO `q` (the interface "MUST BE FIFO", beta_integration_fifo_axistream.py:18):
the source shows its first word until it is taken. -/
structure StreamSys where
  sys : FifoStream
  q : List Nat

def StreamSys.step (c : CoreCfg) (a : Nat) (s : StreamSys) (i : StreamIn) : StreamSys :=
  { sys := s.sys.step c a (s.q.headD 0) (!s.q.isEmpty) i.ready
    q := (if s.sys.sReady then s.q.tail else s.q) ++ i.arrive }

def streamRun (c : CoreCfg) (a : Nat) : StreamSys → List StreamIn → StreamSys
  | s, [] => s
  | s, i :: r => streamRun c a (s.step c a i) r

/-- Words given on the output stream: `m_tvalid` and `m_tready`, with `m_tlast`. -/
def streamGiven (c : CoreCfg) (a : Nat) : StreamSys → List StreamIn → List (Nat × Bool)
  | _, [] => []
  | s, i :: r => (if (s.sys.out i.ready).valid && i.ready then [((s.sys.out i.ready).data, (s.sys.out i.ready).endd)] else []) ++
      streamGiven c a (s.step c a i) r

/-- Specification: the four 12-bit pixels of a 64-bit word, bits 63..52, 51..40, 39..28, 27..16. -/
def wordPixels (w : Nat) : List Nat :=
  [w / 2 ^ 52 % 2 ^ 12, w / 2 ^ 40 % 2 ^ 12, w / 2 ^ 28 % 2 ^ 12, w / 2 ^ 16 % 2 ^ 12]

/-- The run `hist` of the integration from power-up, with the words `q` in the source, consists of `n` normally
ended frames, each followed by its reset cycle. -/
inductive StreamFrames (c : CoreCfg) (a : Nat) (q : List Nat) : Nat → List StreamIn → Prop
  | zero : StreamFrames c a q 0 []
  | next {n : Nat} {hist ins : List StreamIn} {i r : StreamIn} (h : StreamFrames c a q n hist)
      (hno : ∀ x ∈ streamGiven c a (streamRun c a ⟨.init c, q⟩ hist) ins, x.2 = false)
      (hw : (0xFFFF, true) ∈ streamGiven c a (streamRun c a ⟨.init c, q⟩ hist) (ins ++ [i])) :
      StreamFrames c a q (n + 1) (hist ++ (ins ++ [i]) ++ [r])

/-! ### Projections -/

/-- What the core sees. -/
def camIns (c : CoreCfg) (a : Nat) : StreamSys → List StreamIn → List CamIn
  | _, [] => []
  | s, i :: r => s.sys.camIn i.ready :: camIns c a (s.step c a i) r

/-- What the unpacker sees. -/
def unpackIns (c : CoreCfg) (a : Nat) : StreamSys → List StreamIn → List UnpackIn
  | _, [] => []
  | s, i :: r => ⟨i.arrive, s.sys.cam.nready⟩ :: unpackIns c a (s.step c a i) r

theorem camIns_append (c : CoreCfg) (a : Nat) (x y : List StreamIn) : ∀ s,
    camIns c a s (x ++ y) = camIns c a s x ++ camIns c a (streamRun c a s x) y := by
  induction x with
  | nil => intro s; rfl
  | cons i x ih => intro s; simp [camIns, streamRun, ih]

theorem camRun_camIns (c : CoreCfg) (a : Nat) (ins : List StreamIn) : ∀ s : StreamSys,
    camRun c a s.sys.cam (camIns c a s ins) = (streamRun c a s ins).sys.cam := by
  induction ins with
  | nil => intro s; rfl
  | cons i r ih => intro s; exact ih (s.step c a i)

theorem camGiven_camIns (c : CoreCfg) (a : Nat) (ins : List StreamIn) : ∀ s : StreamSys,
    camGiven c a s.sys.cam (camIns c a s ins) = streamGiven c a s ins := by
  induction ins with
  | nil => intro s; rfl
  | cons i r ih =>
    intro s
    simp only [camGiven, camIns, streamGiven]
    rw [show s.sys.cam.betaStep c a (s.sys.camIn i.ready) = (s.step c a i).sys.cam from rfl, ih]
    simp [FifoStream.camIn, FifoStream.out]

theorem unpackIns_arrived (c : CoreCfg) (a : Nat) (ins : List StreamIn) : ∀ s : StreamSys,
    arrived (unpackIns c a s ins) = ins.flatMap (·.arrive) := by
  induction ins with
  | nil => intro s; rfl
  | cons i r ih =>
    intro s
    have := ih (s.step c a i)
    unfold arrived at this ⊢
    simp [unpackIns, this]

/-- Pixels of a 24-bit value. -/
def pix2 (d : Nat) : List Nat := [slice d 12 24, slice d 0 12]

theorem camAccepted_camIns (c : CoreCfg) (a : Nat) (ins : List StreamIn) : ∀ s : StreamSys,
    camAccepted c a s.sys.cam (camIns c a s ins) =
      (unpackGiven ⟨s.sys.unpack, s.q⟩ (unpackIns c a s ins)).flatMap pix2 := by
  induction ins with
  | nil => intro s; rfl
  | cons i r ih =>
    intro s
    simp only [camAccepted, camIns, unpackGiven, unpackIns, List.flatMap_append]
    rw [show s.sys.cam.betaStep c a (s.sys.camIn i.ready) = (s.step c a i).sys.cam from rfl, ih]
    have e : (UnpackSys.step ⟨s.sys.unpack, s.q⟩ ⟨i.arrive, s.sys.cam.nready⟩ : UnpackSys) =
        ⟨(s.step c a i).sys.unpack, (s.step c a i).q⟩ := by
      simp only [UnpackSys.step, StreamSys.step, FifoStream.step, FifoStream.sReady]
      congr 1
      by_cases hb : s.sys.unpack.oBusy = true <;> simp [hb]
    rw [e]
    congr 1
    by_cases hv : (s.sys.unpack.valid && !s.sys.cam.nready) = true <;>
      simp only [FifoStream.camIn, hv, if_true, Bool.false_eq_true, if_false] <;> simp [pix2]

theorem camIns_wf {c : CoreCfg} (hps : c.int1.ps = 2) (hbd : c.int1.bd = 12) (a : Nat) (ins : List StreamIn) :
    ∀ s : StreamSys, CamWf c (camIns c a s ins) := by
  induction ins with
  | nil => intro s i hi; cases hi
  | cons i r ih =>
    intro s j hj hv
    simp only [camIns, List.mem_cons] at hj
    rcases hj with rfl | hj
    · rw [hps, hbd]
      refine ⟨rfl, ?_⟩
      intro x hx
      simp only [FifoStream.camIn, List.mem_cons, List.not_mem_nil, or_false] at hx
      rcases hx with rfl | rfl <;> exact Nat.mod_lt _ (by decide)
    · exact ih _ j hj hv

theorem pix2_halves (w : Nat) : (twoHalves w).flatMap pix2 = wordPixels w := by
  simp only [twoHalves, pix2, wordPixels, slice, List.flatMap_cons, List.flatMap_nil, List.append_nil,
    List.cons_append, List.nil_append, List.cons.injEq]
  refine ⟨?_, ?_, ?_, ?_, trivial⟩ <;> omega

theorem flatMap_prefix {α β : Type} (f : α → List β) {x y : List α} (h : x <+: y) : x.flatMap f <+: y.flatMap f := by
  obtain ⟨t, rfl⟩ := h
  exact ⟨t.flatMap f, by rw [List.flatMap_append]⟩

theorem stream_accepted (c : CoreCfg) (a : Nat) (q : List Nat) (ins : List StreamIn) :
    camAccepted c a (Cam.init c) (camIns c a ⟨.init c, q⟩ ins) <+:
      (q ++ ins.flatMap (·.arrive)).flatMap wordPixels := by
  have h := camAccepted_camIns c a ins ⟨.init c, q⟩
  have h2 := C33_in_order q (unpackIns c a ⟨.init c, q⟩ ins)
  rw [unpackIns_arrived] at h2
  have h3 := flatMap_prefix pix2 h2
  rw [List.flatMap_assoc] at h3
  simp only [pix2_halves] at h3
  exact h ▸ h3

theorem stream_frames {c : CoreCfg} {a : Nat} {q : List Nat} {n : Nat} {hist : List StreamIn}
    (h : StreamFrames c a q n hist) : NormalFrames c a n (camIns c a ⟨.init c, q⟩ hist) := by
  induction h with
  | zero => exact .zero
  | @next n hist ins i r h hno hw ih =>
    rw [camIns_append, camIns_append, camIns_append]
    have e : camRun c a (Cam.init c) (camIns c a ⟨.init c, q⟩ hist) = (streamRun c a ⟨.init c, q⟩ hist).sys.cam :=
      camRun_camIns c a hist ⟨.init c, q⟩
    refine NormalFrames.next ih ?_ ?_
    · rw [e, camGiven_camIns]; exact hno
    · rw [e]
      have := camGiven_camIns c a (ins ++ [i]) (streamRun c a ⟨.init c, q⟩ hist)
      rw [camIns_append] at this
      simp only [camIns] at this ⊢
      rw [this]; exact hw

/-- C52: the FIFO AXI-stream core, end to end and over any number of frames and any schedule on both streams: after
`n` normally ended frames, when the next end marker FFFF is given, the words given since the last reset decode (strip
eight marker words on both sides, drop the byte after every FF, decode the T.81 code) to exactly the pixels number
`n*W*H` to `(n+1)*W*H-1` of the pixel stream contained in the 64-bit words that arrived. -/
theorem C52_stream_end_to_end {c : CoreCfg} {T : Table} (h : CamSetup c T) (hps : c.int1.ps = 2) (hbd : c.int1.bd = 12)
    (allowed : Nat) (q : List Nat) {n : Nat} {hist : List StreamIn} (hn : StreamFrames c allowed q n hist)
    (ins : List StreamIn) (i : StreamIn)
    (hno : ∀ x ∈ streamGiven c allowed (streamRun c allowed ⟨.init c, q⟩ hist) ins, x.2 = false)
    (hw : (0xFFFF, true) ∈ streamGiven c allowed (streamRun c allowed ⟨.init c, q⟩ hist) (ins ++ [i])) :
    let words := streamGiven c allowed (streamRun c allowed ⟨.init c, q⟩ hist) (ins ++ [i])
    let stream := (q ++ (hist ++ (ins ++ [i])).flatMap (·.arrive)).flatMap wordPixels
    ∃ pad, decode T 13 12 c.int1.W (c.int1.W * c.int1.H) []
      (byteBits (unstuff (wordBytes ((words.drop 8).take (words.length - 16))))) =
        some ((stream.drop (n * (c.int1.W * c.int1.H))).take (c.int1.W * c.int1.H), pad) := by
  intro words stream
  have e : camRun c allowed (Cam.init c) (camIns c allowed ⟨.init c, q⟩ hist) =
      (streamRun c allowed ⟨.init c, q⟩ hist).sys.cam := camRun_camIns c allowed hist ⟨.init c, q⟩
  have g1 := camGiven_camIns c allowed ins (streamRun c allowed ⟨.init c, q⟩ hist)
  have g2 := camGiven_camIns c allowed (ins ++ [i]) (streamRun c allowed ⟨.init c, q⟩ hist)
  rw [← e] at g1 g2
  rw [camIns_append] at g2
  simp only [camIns] at g2
  have hh : camIns c allowed ⟨.init c, q⟩ (hist ++ (ins ++ [i])) =
      camIns c allowed ⟨.init c, q⟩ hist ++ (camIns c allowed (streamRun c allowed ⟨.init c, q⟩ hist) ins ++
        [(streamRun c allowed (streamRun c allowed ⟨.init c, q⟩ hist) ins).sys.camIn i.ready]) := by
    rw [camIns_append, camIns_append]; rfl
  obtain ⟨h1, pad, h2⟩ := C51_nth_frame h (by omega) allowed (stream_frames hn)
    (camIns c allowed (streamRun c allowed ⟨.init c, q⟩ hist) ins)
    ((streamRun c allowed (streamRun c allowed ⟨.init c, q⟩ hist) ins).sys.camIn i.ready)
    (by rw [← hh]; exact camIns_wf hps hbd allowed _ _) (by rw [g1]; exact hno) (by rw [g2]; exact hw)
  rw [g2, ← hh, hbd] at h2
  rw [← hh] at h1
  obtain ⟨t, ht⟩ := stream_accepted c allowed q (hist ++ (ins ++ [i]))
  refine ⟨pad, h2.trans ?_⟩
  congr 2
  show _ = ((q ++ (hist ++ (ins ++ [i])).flatMap (·.arrive)).flatMap wordPixels |>.drop _).take _
  rw [← ht]
  rw [List.drop_append_of_le_length (by rw [h1, Nat.add_mul]; omega)]
  rw [List.take_append_of_le_length (by rw [List.length_drop, h1, Nat.add_mul]; omega)]
  rw [List.take_of_length_le (by rw [List.length_drop, h1, Nat.add_mul]; omega)]

/-! ### Liveness -/

/-- State after `t` cycles of an infinite schedule. -/
def streamAt (c : CoreCfg) (a : Nat) (s : StreamSys) (u : Nat → StreamIn) : Nat → StreamSys
  | 0 => s
  | t + 1 => (streamAt c a s u t).step c a (u t)

theorem streamAt_run (c : CoreCfg) (a : Nat) (s : StreamSys) (u : Nat → StreamIn) (t : Nat) :
    streamAt c a s u t = streamRun c a s ((List.range t).map u) := by
  have happ : ∀ (x y : List StreamIn) (s : StreamSys), streamRun c a s (x ++ y) = streamRun c a (streamRun c a s x) y := by
    intro x
    induction x with
    | nil => intros; rfl
    | cons i x ih => intro y s; exact ih _ _
  induction t with
  | zero => rfl
  | succ t ih => rw [List.range_succ, List.map_append, happ, ← ih]; rfl

theorem camIns_range (c : CoreCfg) (a : Nat) (s : StreamSys) (u : Nat → StreamIn) (t : Nat) :
    camIns c a s ((List.range t).map u) =
      (List.range t).map (fun n => (streamAt c a s u n).sys.camIn (u n).ready) := by
  induction t with
  | zero => rfl
  | succ t ih =>
    rw [List.range_succ, List.map_append, camIns_append, ih, List.map_append, ← streamAt_run]
    rfl

/-- The unpacker's part of a state. -/
def unpackPart (s : StreamSys) : UnpackSys := ⟨s.sys.unpack, s.q⟩

theorem unpackPart_step (c : CoreCfg) (a : Nat) (s : StreamSys) (i : StreamIn) :
    unpackPart (s.step c a i) = (unpackPart s).step ⟨i.arrive, s.sys.cam.nready⟩ := by
  simp only [unpackPart, UnpackSys.step, StreamSys.step, FifoStream.step, FifoStream.sReady]
  congr 1
  by_cases hb : s.sys.unpack.oBusy = true <;> simp [hb]

theorem stream_always_ends {c : CoreCfg} {T : Table} (h : CamSetup c T) (hps : c.int1.ps = 2) (hbd : c.int1.bd = 12)
    {allowed : Nat} (ha : allowed < 2 ^ 24) {s0 : StreamSys} (h0 : CamAfterReset c s0.sys.cam)
    (hu0 : UnpackInv (unpackPart s0)) (u : Nat → StreamIn)
    (hprod : ∀ n, ∃ m, n ≤ m ∧ (u m).arrive ≠ [])
    (hcons : ∀ n, ∃ m, n ≤ m ∧ (u m).ready = true) :
    ∃ t w, (w, true) ∈ streamGiven c allowed s0 ((List.range t).map u) := by
  have hinv : ∀ t, UnpackInv (unpackPart (streamAt c allowed s0 u t)) := by
    intro t
    induction t with
    | zero => exact hu0
    | succ t ih =>
      simp only [streamAt]
      rw [unpackPart_step]
      exact (unpack_step ih _).1
  have hvalid : ∀ n, ∃ m, n ≤ m ∧ (streamAt c allowed s0 u m).sys.unpack.valid = true := by
    intro n
    apply Classical.byContradiction
    intro hcon
    have hno : ∀ m, n ≤ m → (streamAt c allowed s0 u m).sys.unpack.valid = false := by
      intro m hm
      cases hv : (streamAt c allowed s0 u m).sys.unpack.valid with
      | false => rfl
      | true => exact absurd ⟨m, hm, hv⟩ hcon
    obtain ⟨m, hm, harr⟩ := hprod n
    have hp0 : unpackPend (unpackPart (streamAt c allowed s0 u (m + 1))) ≠ [] := by
      have h2 := (unpack_step (hinv m) ⟨(u m).arrive, (streamAt c allowed s0 u m).sys.cam.nready⟩).2
      rw [← unpackPart_step] at h2
      have hv : (unpackPart (streamAt c allowed s0 u m)).u.valid = false := hno m hm
      rw [hv] at h2
      simp only [Bool.false_and, Bool.false_eq_true, if_false, List.nil_append] at h2
      simp only [streamAt]
      rw [h2]
      cases hq : (u m).arrive with
      | nil => exact absurd hq harr
      | cons w r => simp [twoHalves]
    have hstep : ∀ k, n ≤ k → unpackPend (unpackPart (streamAt c allowed s0 u k)) ≠ [] →
        unpackPend (unpackPart (streamAt c allowed s0 u (k + 1))) ≠ [] ∧
        unpackDist (unpackPart (streamAt c allowed s0 u (k + 1))).u ≤
          unpackDist (unpackPart (streamAt c allowed s0 u k)).u - 1 := by
      intro k hk hp
      have := unpack_dist (hinv k) hp ⟨(u k).arrive, (streamAt c allowed s0 u k).sys.cam.nready⟩
        (by rw [show (unpackPart (streamAt c allowed s0 u k)).u.valid = false from hno k hk]; rfl)
      rw [← unpackPart_step] at this
      exact this
    obtain ⟨p1, d1⟩ := hstep (m + 1) (by omega) hp0
    obtain ⟨p2, d2⟩ := hstep (m + 2) (by omega) p1
    have hle : ∀ v : Unpack2, unpackDist v ≤ 2 := by intro v; unfold unpackDist; split <;> (try split) <;> omega
    have h0 := hle (unpackPart (streamAt c allowed s0 u (m + 1))).u
    have hz : unpackDist (unpackPart (streamAt c allowed s0 u (m + 3))).u = 0 := by
      rw [show m + 1 + 1 = m + 2 from rfl] at d1
      rw [show m + 2 + 1 = m + 3 from rfl] at d2
      omega
    have hv : (unpackPart (streamAt c allowed s0 u (m + 3))).u.valid = false := hno (m + 3) (by omega)
    unfold unpackDist at hz
    rw [hv] at hz
    simp only [Bool.false_eq_true, if_false] at hz
    split at hz <;> omega
  obtain ⟨t, w, hw⟩ := C50_always_ends h ha h0
    (fun n => (streamAt c allowed s0 u n).sys.camIn (u n).ready)
    (by
      intro t hv
      rw [hps, hbd]
      refine ⟨rfl, ?_⟩
      intro x hx
      simp only [FifoStream.camIn, List.mem_cons, List.not_mem_nil, or_false] at hx
      rcases hx with rfl | rfl <;> exact Nat.mod_lt _ (by decide))
    hvalid
    (by
      intro n
      obtain ⟨m, hm, hr⟩ := hcons n
      exact ⟨m, hm, by simp [FifoStream.camIn, hr]⟩)
  refine ⟨t, w, ?_⟩
  rw [← camIns_range] at hw
  rw [← camGiven_camIns]
  exact hw

/-- C52, liveness: if words arrive infinitely often and `m_tready` is high infinitely often, then a frame end
(`m_tlast`) is given after finitely many cycles from power-up. -/
theorem C52_stream_always_ends {c : CoreCfg} {T : Table} (h : CamSetup c T) (hps : c.int1.ps = 2) (hbd : c.int1.bd = 12)
    {allowed : Nat} (ha : allowed < 2 ^ 24) (q : List Nat) (u : Nat → StreamIn)
    (hprod : ∀ n, ∃ m, n ≤ m ∧ (u m).arrive ≠ [])
    (hcons : ∀ n, ∃ m, n ≤ m ∧ (u m).ready = true) :
    ∃ t w, (w, true) ∈ streamGiven c allowed ⟨.init c, q⟩ ((List.range t).map u) :=
  stream_always_ends (s0 := ⟨.init c, q⟩) h hps hbd ha (init_afterReset c) (unpack_inv_init q) u hprod hcons

theorem unpackInv_run {c : CoreCfg} {a : Nat} (l : List StreamIn) : ∀ {s : StreamSys}, UnpackInv (unpackPart s) →
    UnpackInv (unpackPart (streamRun c a s l)) := by
  induction l with
  | nil => intro s h; exact h
  | cons i r ih => intro s h; exact ih (by rw [unpackPart_step]; exact (unpack_step h _).1)

/-- C52, liveness of every frame: the same for the frame after `n` normally ended ones. -/
theorem C52_stream_every_frame_ends {c : CoreCfg} {T : Table} (h : CamSetup c T) (hps : c.int1.ps = 2) (hbd : c.int1.bd = 12)
    {allowed : Nat} (ha : allowed < 2 ^ 24) (q : List Nat) {n : Nat} {hist : List StreamIn}
    (hn : StreamFrames c allowed q n hist) (u : Nat → StreamIn)
    (hprod : ∀ n, ∃ m, n ≤ m ∧ (u m).arrive ≠ [])
    (hcons : ∀ n, ∃ m, n ≤ m ∧ (u m).ready = true) :
    ∃ t w, (w, true) ∈ streamGiven c allowed (streamRun c allowed ⟨.init c, q⟩ hist) ((List.range t).map u) := by
  have hr := (frames_state h allowed (stream_frames hn) (camIns_wf hps hbd allowed _ _)).1
  have e := camRun_camIns c allowed hist ⟨.init c, q⟩
  exact stream_always_ends h hps hbd ha (e ▸ hr) (unpackInv_run (s := ⟨.init c, q⟩) hist (unpack_inv_init q)) u hprod hcons

/-- A small configuration with the port widths of the beta core. -/
def tinyStream : CoreCfg :=
  { int1 := { bd := 12, ps := 2, W := 4, H := 2, mem := initHuffTable 12 }
    depth := 32, conv := 30, cdepth := 16, out := 16, buf := 77 }

example : CamSetup tinyStream defaultTable ∧ tinyStream.int1.ps = 2 ∧ tinyStream.int1.bd = 12 :=
  ⟨⟨default_setup (by decide) rfl, rfl, default_long _ (by decide)⟩, rfl, rfl⟩

def tinyWords : List Nat := [0x1234567890120000, 0x1000200030040000, 0x0010020030040000, 0x1234567890120000]

def tinyReady (n : Nat) : List StreamIn := List.replicate n ⟨[], true⟩

-- The hypotheses of C52_stream_end_to_end are met: four words in the source, two frames; the first ends in the 55th
-- cycle, the second in the 112th.
set_option maxRecDepth 40000 in
example : StreamFrames tinyStream 1000 tinyWords 1 ([] ++ (tinyReady 54 ++ [⟨[], true⟩]) ++ [⟨[], true⟩]) ∧
    (∀ x ∈ streamGiven tinyStream 1000 (streamRun tinyStream 1000 ⟨.init tinyStream, tinyWords⟩
      ([] ++ (tinyReady 54 ++ [⟨[], true⟩]) ++ [⟨[], true⟩])) (tinyReady 55), x.2 = false) ∧
    (0xFFFF, true) ∈ streamGiven tinyStream 1000 (streamRun tinyStream 1000 ⟨.init tinyStream, tinyWords⟩
      ([] ++ (tinyReady 54 ++ [⟨[], true⟩]) ++ [⟨[], true⟩])) (tinyReady 55 ++ [⟨[], true⟩]) := by
  refine ⟨StreamFrames.next .zero ?_ ?_, ?_, ?_⟩ <;> decide +kernel

end Props
