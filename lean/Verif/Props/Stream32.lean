/- Property theorems C55: the AXI-stream wrappers without a width converter. -/
import Verif.Props.Frames
import Verif.Props.BetaLive
import Verif.Props.Stream
import Verif.Model.AxiStream

set_option autoImplicit false

namespace Props
open Spec Model

/-- One cycle on both AXI streams: `s_tdata`, `s_tvalid`, `m_tready`. -/
structure AxisIn where
  data : Nat
  valid : Bool
  ready : Bool
deriving DecidableEq

/-- The two 12-bit pixels of a 32-bit stream word: bits 31..20 first, then bits 19..8. -/
def pixels32 (w : Nat) : List Nat := [w / 2 ^ 20 % 2 ^ 12, w / 2 ^ 8 % 2 ^ 12]

/-- The four 12-bit pixels of a 64-bit stream word, from bit 0 on; bits 63..48 are not used. -/
def pixels64 (w : Nat) : List Nat := [w % 2 ^ 12, w / 2 ^ 12 % 2 ^ 12, w / 2 ^ 24 % 2 ^ 12, w / 2 ^ 36 % 2 ^ 12]

/-- Cycles of `BetaIntegrationAxiStream` as cycles of its core. -/
def axisCam (ins : List AxisIn) : List CamIn := ins.map fun i => streamIn i.data i.valid i.ready

/-- Words transferred on the slave stream (`s_tvalid` and `s_tready`, which is the negation of `nready`,
beta_integration_axistream.py:51). -/
def axisMoved (c : CoreCfg) (a : Nat) : Cam → List AxisIn → List Nat
  | _, [] => []
  | s, i :: r => (if i.valid && !s.nready then [i.data] else []) ++
      axisMoved c a (s.betaStep c a (streamIn i.data i.valid i.ready)) r

theorem axis_accepted (c : CoreCfg) (a : Nat) : ∀ (ins : List AxisIn) (s : Cam),
    camAccepted c a s (axisCam ins) = (axisMoved c a s ins).flatMap pixels32
  | [], _ => rfl
  | i :: r, s => by
    have ih := axis_accepted c a r (s.betaStep c a (streamIn i.data i.valid i.ready))
    simp only [axisCam, List.map_cons, camAccepted, axisMoved, List.flatMap_append] at ih ⊢
    rw [ih]
    congr 1
    by_cases hv : (i.valid && !s.nready) = true <;>
      simp only [streamIn, hv, if_true, Bool.false_eq_true, if_false] <;> simp [pixels32, slice]

theorem axisCam_wf {c : CoreCfg} (hps : c.int1.ps = 2) (hbd : c.int1.bd = 12) (ins : List AxisIn) :
    CamWf c (axisCam ins) := by
  intro j hj _
  obtain ⟨i, _, rfl⟩ := List.mem_map.1 hj
  rw [hps, hbd]
  refine ⟨rfl, ?_⟩
  intro x hx
  simp only [streamIn, List.mem_cons, List.not_mem_nil, or_false] at hx
  rcases hx with rfl | rfl <;> exact Nat.mod_lt _ (by decide)

/-- C55: the 32-bit AXI-stream core over any number of frames and any schedule on both streams: after `n` normally
ended frames, when the next end marker FFFF is given, exactly `(n+1)*W*H` pixels have been transferred, and the words
given since the last reset decode to the pixels number `n*W*H` to `(n+1)*W*H-1` of those in the transferred words. -/
theorem C55_stream32_end_to_end {c : CoreCfg} {T : Table} (h : CamSetup c T) (hps : c.int1.ps = 2) (hbd : c.int1.bd = 12)
    (allowed : Nat) {n : Nat} {hist : List AxisIn} (hn : NormalFrames c allowed n (axisCam hist))
    (ins : List AxisIn) (i : AxisIn)
    (hno : ∀ x ∈ camGiven c allowed (camRun c allowed (Cam.init c) (axisCam hist)) (axisCam ins), x.2 = false)
    (hw : (0xFFFF, true) ∈ camGiven c allowed (camRun c allowed (Cam.init c) (axisCam hist)) (axisCam (ins ++ [i]))) :
    let words := camGiven c allowed (camRun c allowed (Cam.init c) (axisCam hist)) (axisCam (ins ++ [i]))
    let pixels := (axisMoved c allowed (Cam.init c) (hist ++ (ins ++ [i]))).flatMap pixels32
    pixels.length = (n + 1) * (c.int1.W * c.int1.H) ∧
    ∃ pad, decode T 13 12 c.int1.W (c.int1.W * c.int1.H) []
      (byteBits (unstuff (wordBytes ((words.drop 8).take (words.length - 16))))) =
        some (pixels.drop (n * (c.int1.W * c.int1.H)), pad) := by
  intro words pixels
  have e : axisCam (ins ++ [i]) = axisCam ins ++ [streamIn i.data i.valid i.ready] := by simp [axisCam]
  have e2 : axisCam (hist ++ (ins ++ [i])) = axisCam hist ++ (axisCam ins ++ [streamIn i.data i.valid i.ready]) := by
    simp [axisCam]
  have hp : pixels = camAccepted c allowed (Cam.init c) (axisCam (hist ++ (ins ++ [i]))) :=
    (axis_accepted c allowed _ _).symm
  have := C51_nth_frame h (by omega) allowed hn (axisCam ins) (streamIn i.data i.valid i.ready)
    (by rw [← e2]; exact axisCam_wf hps hbd _) hno (by rw [← e]; exact hw)
  rw [← e2, ← hp, ← e] at this
  rw [hbd] at this
  exact this

/-- C55, liveness: if words are offered infinitely often and `m_tready` is high infinitely often, a frame end is given
after finitely many cycles from power-up. -/
theorem C55_stream32_always_ends {c : CoreCfg} {T : Table} (h : CamSetup c T) (hps : c.int1.ps = 2) (hbd : c.int1.bd = 12)
    {allowed : Nat} (ha : allowed < 2 ^ 24) (u : Nat → AxisIn) (hprod : ∀ n, ∃ m, n ≤ m ∧ (u m).valid = true)
    (hcons : ∀ n, ∃ m, n ≤ m ∧ (u m).ready = true) :
    ∃ t w, (w, true) ∈ camGiven c allowed (Cam.init c) (axisCam ((List.range t).map u)) := by
  have hwf := axisCam_wf hps hbd
  obtain ⟨t, w, hw⟩ := C50_always_ends h ha (init_afterReset c) (fun n => streamIn (u n).data (u n).valid (u n).ready)
    (fun t hv => hwf [u t] _ (List.mem_singleton.2 rfl) hv) hprod
    (fun n => by obtain ⟨m, hm, hr⟩ := hcons n; exact ⟨m, hm, by simp [streamIn, hr]⟩)
  exact ⟨t, w, by simpa [axisCam, Function.comp_def] using hw⟩

/-! ### The core of the thesis configuration between two streams -/

/-- Cycles of `Integration3AxiStream` as cycles of its core. -/
def axisCore (ins : List AxisIn) : List CoreIn := ins.map fun i => stream64In i.data i.valid i.ready

/-- Words transferred on the slave stream. -/
def axis64Moved (c : CoreCfg) : Int3 → List AxisIn → List Nat
  | _, [] => []
  | s, i :: r => (if i.valid && !s.nready then [i.data] else []) ++
      axis64Moved c (s.step c (stream64In i.data i.valid i.ready).pixels i.valid (!i.ready)) r

theorem axis64_accepted (c : CoreCfg) : ∀ (ins : List AxisIn) (s : Int3),
    Int3.accepted c s (axisCore ins) = (axis64Moved c s ins).flatMap pixels64
  | [], _ => rfl
  | i :: r, s => by
    have ih := axis64_accepted c r (s.step c (stream64In i.data i.valid i.ready).pixels i.valid (!i.ready))
    simp only [axisCore, List.map_cons, Int3.accepted, axis64Moved, List.flatMap_append] at ih ⊢
    rw [show (stream64In i.data i.valid i.ready).valid = i.valid from rfl,
      show (stream64In i.data i.valid i.ready).busy = !i.ready from rfl, ih]
    congr 1
    by_cases hv : (i.valid && !s.nready) = true <;>
      simp only [stream64In, hv, if_true, Bool.false_eq_true, if_false] <;> simp [pixels64, slice]

theorem axisCore_wf {c : CoreCfg} (hps : c.int1.ps = 4) (hbd : c.int1.bd = 12) (ins : List AxisIn) :
    Int3.Wf c (axisCore ins) := by
  intro j hj _
  obtain ⟨i, _, rfl⟩ := List.mem_map.1 hj
  rw [hps, hbd]
  refine ⟨rfl, ?_⟩
  intro x hx
  simp only [stream64In, List.mem_cons, List.not_mem_nil, or_false] at hx
  rcases hx with rfl | rfl | rfl | rfl <;> exact Nat.mod_lt _ (by decide)

/-- C55: the 64-bit AXI-stream core: when an end-flagged word (`m_tlast`) has been transferred, exactly `W*H` pixels
came in, and the words up to it decode to the pixels of the transferred 64-bit words. -/
theorem C55_stream64_end_to_end {c : CoreCfg} {T : Table} (h : CoreSetup c T) (hps : c.int1.ps = 4) (hbd : c.int1.bd = 12)
    {s : Int3} (hs : AfterReset c s) (ins : List AxisIn) (w : Nat) (hw : (w, true) ∈ Int3.delivered c s (axisCore ins)) :
    let pixels := (axis64Moved c s ins).flatMap pixels64
    pixels.length = c.int1.W * c.int1.H ∧
    ∃ pad, decode T 13 12 c.int1.W (c.int1.W * c.int1.H) []
      (wordBits c.out (upToEnd (Int3.delivered c s (axisCore ins)))) = some (pixels, pad) := by
  intro pixels
  have hp : pixels = Int3.accepted c s (axisCore ins) := (axis64_accepted c ins s).symm
  have h1 := (C17_complete_at_end h hs _ (axisCore_wf hps hbd ins) w hw).1
  have h2 := C18_image_recovered h (by omega) hs _ (axisCore_wf hps hbd ins) w hw
  rw [hp]
  rw [hbd] at h2
  exact ⟨h1, h2⟩

/-! ### The hypotheses are met -/

/-- 32-bit words at every cycle, the consumer always ready. -/
def tinyAxis (n : Nat) : List AxisIn := (List.range n).map fun k => ⟨0x12345600 + 0x10100 * k, true, true⟩

-- One frame and its reset cycle, then a second frame.
set_option maxRecDepth 40000 in
example : NormalFrames tinyStream 1000 1 (axisCam ([] ++ (tinyAxis 54 ++ [⟨7, true, true⟩]) ++ [⟨7, true, true⟩])) ∧
    (∀ x ∈ camGiven tinyStream 1000 (camRun tinyStream 1000 (Cam.init tinyStream)
      (axisCam ([] ++ (tinyAxis 54 ++ [⟨7, true, true⟩]) ++ [⟨7, true, true⟩]))) (axisCam (tinyAxis 54)), x.2 = false) ∧
    (0xFFFF, true) ∈ camGiven tinyStream 1000 (camRun tinyStream 1000 (Cam.init tinyStream)
      (axisCam ([] ++ (tinyAxis 54 ++ [⟨7, true, true⟩]) ++ [⟨7, true, true⟩]))) (axisCam (tinyAxis 54 ++ [⟨7, true, true⟩])) := by
  refine ⟨NormalFrames.next (hist := []) (ins := axisCam (tinyAxis 54)) (i := streamIn 7 true true) (r := streamIn 7 true true)
    .zero ?_ ?_, ?_, ?_⟩ <;> decide +kernel

/-- An 8x2 frame with four pixels per step. -/
def tinyCore4 : CoreCfg :=
  { int1 := { bd := 12, ps := 4, W := 8, H := 2, mem := initHuffTable 12 }
    depth := 32, conv := 48, cdepth := 32, out := 32, buf := 144 }

set_option maxRecDepth 40000 in
example : CoreSetup tinyCore4 defaultTable ∧ tinyCore4.int1.ps = 4 ∧ tinyCore4.int1.bd = 12 ∧
    ∃ w, (w, true) ∈ Int3.delivered tinyCore4 (.init tinyCore4)
      (axisCore ((List.range 60).map fun k => ⟨0x123456789abc + 0x10100 * k, true, true⟩)) := by
  refine ⟨default_setup (by decide) rfl, rfl, rfl, ?_⟩
  have : ((Int3.delivered tinyCore4 (.init tinyCore4)
      (axisCore ((List.range 60).map fun k => ⟨0x123456789abc + 0x10100 * k, true, true⟩))).any (·.2)) = true := by decide +kernel
  obtain ⟨⟨w, e⟩, hw, he⟩ := List.any_eq_true.1 this
  exact ⟨w, by rw [show e = true from he] at hw; exact hw⟩

end Props
