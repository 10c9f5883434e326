/- Property theorems C56: the beta core with a 40-bit output stream. -/
import Verif.Model.Lvds
import Verif.Props.Stream
import Verif.Props.Pack40
import Verif.Props.FullAxi

set_option autoImplicit false

namespace Props
open Spec Model

/-- The integration with its source FIFO `q`, as in `StreamSys`. -/
structure LvdsSys where
  sys : Lvds
  q : List Nat

def LvdsSys.step (c : CoreCfg) (a : Nat) (s : LvdsSys) (i : StreamIn) : LvdsSys :=
  { sys := s.sys.step c a (s.q.headD 0) (!s.q.isEmpty) i.ready
    q := (if s.sys.fs.sReady then s.q.tail else s.q) ++ i.arrive }

def lvdsRun (c : CoreCfg) (a : Nat) : LvdsSys → List StreamIn → LvdsSys
  | s, [] => s
  | s, i :: r => lvdsRun c a (s.step c a i) r

/-- 40-bit words given on the output stream: `m_tvalid` and `m_tready`. -/
def lvdsGiven (c : CoreCfg) (a : Nat) : LvdsSys → List StreamIn → List Nat
  | _, [] => []
  | s, i :: r => (if s.sys.mValid && i.ready then [s.sys.mData] else []) ++ lvdsGiven c a (s.step c a i) r

/-- 16-bit words the core gives to the packer, with their end flags. -/
def lvdsWords (c : CoreCfg) (a : Nat) : LvdsSys → List StreamIn → List (Nat × Bool)
  | _, [] => []
  | s, i :: r => (if s.sys.camOut.valid && !s.sys.pack.oBusy then [(s.sys.camOut.data, s.sys.camOut.endd)] else []) ++
      lvdsWords c a (s.step c a i) r

/-- The run `hist` from power-up, with the words `q` in the source, consists of `n` normally ended frames, each followed by
its reset cycle. -/
inductive LvdsFrames (c : CoreCfg) (a : Nat) (q : List Nat) : Nat → List StreamIn → Prop
  | zero : LvdsFrames c a q 0 []
  | next {n : Nat} {hist ins : List StreamIn} {i r : StreamIn} (h : LvdsFrames c a q n hist)
      (hno : ∀ x ∈ lvdsWords c a (lvdsRun c a ⟨.init c, q⟩ hist) ins, x.2 = false)
      (hw : (0xFFFF, true) ∈ lvdsWords c a (lvdsRun c a ⟨.init c, q⟩ hist) (ins ++ [i])) :
      LvdsFrames c a q (n + 1) (hist ++ (ins ++ [i]) ++ [r])

/-! ### Projections -/

/-- Unpacker and core as a 16-bit stream whose consumer is the packer. -/
def asStream (c : CoreCfg) (a : Nat) : LvdsSys → List StreamIn → List StreamIn
  | _, [] => []
  | s, i :: r => ⟨i.arrive, !s.sys.pack.oBusy⟩ :: asStream c a (s.step c a i) r

def fsOf (s : LvdsSys) : StreamSys := ⟨s.sys.fs, s.q⟩

section
variable {c : CoreCfg} {a : Nat}

theorem fs_run (ins : List StreamIn) : ∀ s : LvdsSys, fsOf (lvdsRun c a s ins) = streamRun c a (fsOf s) (asStream c a s ins) := by
  induction ins with
  | nil => intro s; rfl
  | cons i r ih => intro s; exact ih _

theorem fs_words (ins : List StreamIn) : ∀ s : LvdsSys, lvdsWords c a s ins = streamGiven c a (fsOf s) (asStream c a s ins) := by
  induction ins with
  | nil => intro s; rfl
  | cons i r ih => intro s; simp only [lvdsWords, asStream, streamGiven]; rw [ih]; rfl

theorem asStream_append (x y : List StreamIn) : ∀ s, asStream c a s (x ++ y) = asStream c a s x ++ asStream c a (lvdsRun c a s x) y := by
  induction x with
  | nil => intro s; rfl
  | cons i r ih => intro s; simp [asStream, lvdsRun, ih]

theorem asStream_arrive (x : List StreamIn) : ∀ s, (asStream c a s x).flatMap (·.arrive) = x.flatMap (·.arrive) := by
  induction x with
  | nil => intro s; rfl
  | cons i r ih => intro s; simp [asStream, ih]

theorem lvdsRun_append (x y : List StreamIn) : ∀ s, lvdsRun c a s (x ++ y) = lvdsRun c a (lvdsRun c a s x) y := by
  induction x with
  | nil => intro s; rfl
  | cons i r ih => intro s; exact ih _

theorem lvds_frames {q : List Nat} {n : Nat} {hist : List StreamIn} (h : LvdsFrames c a q n hist) :
    StreamFrames c a q n (asStream c a ⟨.init c, q⟩ hist) := by
  induction h with
  | zero => exact .zero
  | @next n hist ins i r h hno hw ih =>
    rw [asStream_append, asStream_append, asStream_append]
    have e := fs_run (c := c) (a := a) hist ⟨.init c, q⟩
    refine StreamFrames.next ih ?_ ?_
    · have := fs_words (c := c) (a := a) ins (lvdsRun c a ⟨.init c, q⟩ hist)
      rw [e] at this
      change ∀ x ∈ streamGiven c a (streamRun c a (fsOf ⟨.init c, q⟩) _) _, x.2 = false
      rw [← this]; exact hno
    · have := fs_words (c := c) (a := a) (ins ++ [i]) (lvdsRun c a ⟨.init c, q⟩ hist)
      rw [e, asStream_append] at this
      change _ ∈ streamGiven c a (streamRun c a (fsOf ⟨.init c, q⟩) _) (_ ++ asStream c a _ [i])
      rw [← this]; exact hw

/-- C56: whatever happens on both streams, after `n` normally ended frames the 16-bit words the core gives to the packer
up to the next end marker FFFF decode to the pixels number `n*W*H` to `(n+1)*W*H-1` of those in the words that arrived. -/
theorem C56_core_words {T : Table} (h : CamSetup c T) (hps : c.int1.ps = 2) (hbd : c.int1.bd = 12)
    (q : List Nat) {n : Nat} {hist : List StreamIn} (hn : LvdsFrames c a q n hist) (ins : List StreamIn) (i : StreamIn)
    (hno : ∀ x ∈ lvdsWords c a (lvdsRun c a ⟨.init c, q⟩ hist) ins, x.2 = false)
    (hw : (0xFFFF, true) ∈ lvdsWords c a (lvdsRun c a ⟨.init c, q⟩ hist) (ins ++ [i])) :
    let words := lvdsWords c a (lvdsRun c a ⟨.init c, q⟩ hist) (ins ++ [i])
    let stream := (q ++ (hist ++ (ins ++ [i])).flatMap (·.arrive)).flatMap wordPixels
    ∃ pad, decode T 13 12 c.int1.W (c.int1.W * c.int1.H) []
      (byteBits (unstuff (wordBytes ((words.drop 8).take (words.length - 16))))) =
        some ((stream.drop (n * (c.int1.W * c.int1.H))).take (c.int1.W * c.int1.H), pad) := by
  intro words stream
  have e := fs_run (c := c) (a := a) hist ⟨.init c, q⟩
  have e1 := fs_words (c := c) (a := a) ins (lvdsRun c a ⟨.init c, q⟩ hist)
  have e2 := fs_words (c := c) (a := a) (ins ++ [i]) (lvdsRun c a ⟨.init c, q⟩ hist)
  rw [e] at e1 e2
  rw [asStream_append] at e2
  rw [e1] at hno
  rw [e2] at hw
  have := C52_stream_end_to_end h hps hbd a q (lvds_frames hn) _ _ hno hw
  have ew : words = _ := e2
  rw [ew]
  have es : stream = (q ++ (asStream c a ⟨.init c, q⟩ hist ++ (asStream c a (lvdsRun c a ⟨.init c, q⟩ hist) ins ++
      asStream c a (lvdsRun c a (lvdsRun c a ⟨.init c, q⟩ hist) ins) [i])).flatMap (·.arrive)).flatMap wordPixels := by
    simp only [stream, List.flatMap_append, asStream_arrive]
  rw [es]
  exact this

/-- What the packer sees. -/
def lpIn (s : LvdsSys) (i : StreamIn) : Pack40In := ⟨s.sys.camOut.data, s.sys.camOut.valid, !i.ready⟩

def lpIns (c : CoreCfg) (a : Nat) : LvdsSys → List StreamIn → List Pack40In
  | _, [] => []
  | s, i :: r => lpIn s i :: lpIns c a (s.step c a i) r

/-- No cycle of the run is a reset cycle. -/
def LNoReset (c : CoreCfg) (a : Nat) : LvdsSys → List StreamIn → Prop
  | _, [] => True
  | s, i :: r => s.sys.fs.cam.resetOut = false ∧ LNoReset c a (s.step c a i) r

theorem lnoReset_of (ins : List StreamIn) : ∀ {s : LvdsSys}, s.sys.fs.cam.resetOut = false → (∀ x ∈ lvdsWords c a s ins, x.2 = false) →
    LNoReset c a s ins ∧ (lvdsRun c a s ins).sys.fs.cam.resetOut = false := by
  induction ins with
  | nil => intro s h _; exact ⟨trivial, h⟩
  | cons i r ih =>
    intro s h hno
    have h1 : (s.step c a i).sys.fs.cam.resetOut = false := by
      change (s.sys.fs.cam.betaStep c a (s.sys.fs.camIn (!s.sys.pack.oBusy))).resetOut = false
      cases hb : (s.sys.fs.cam.betaStep c a (s.sys.fs.camIn (!s.sys.pack.oBusy))).resetOut with
      | false => rfl
      | true =>
        obtain ⟨_, h2, h3, h4⟩ := (C28_reset_pulse c a s.sys.fs.cam _).1 hb
        have := hno (s.sys.camOut.data, s.sys.camOut.endd) (by
          have hc : (s.sys.camOut.valid && !s.sys.pack.oBusy) = true := by
            rw [Bool.and_eq_true]
            refine ⟨h2, ?_⟩
            have h3' : (!(!s.sys.pack.oBusy)) = false := h3
            simpa using h3'
          simp only [lvdsWords, hc, if_true, List.mem_append]
          exact Or.inl (List.mem_singleton.2 rfl))
        rw [show s.sys.camOut.endd = true from h4] at this
        cases this
    obtain ⟨h2, h3⟩ := ih h1 (fun x hx => hno x (by simp only [lvdsWords, List.mem_append]; exact Or.inr hx))
    exact ⟨⟨h, h2⟩, h3⟩

theorem lnoReset_append (x y : List StreamIn) : ∀ {s : LvdsSys}, LNoReset c a s x → LNoReset c a (lvdsRun c a s x) y →
    LNoReset c a s (x ++ y) := by
  induction x with
  | nil => intro s _ h; exact h
  | cons i r ih => rintro s ⟨h1, h2⟩ h3; exact ⟨h1, ih h2 h3⟩

theorem lp_given (ins : List StreamIn) : ∀ s : LvdsSys, LNoReset c a s ins →
    lvdsGiven c a s ins = pack40Given s.sys.pack (lpIns c a s ins) := by
  induction ins with
  | nil => intro s _; rfl
  | cons i r ih =>
    rintro s ⟨h, hr⟩
    have := ih _ hr
    simp only [lvdsGiven, lpIns, pack40Given]
    have e : (s.step c a i).sys.pack = s.sys.pack.cyc (lpIn s i) := by
      show Pack40.step _ _ _ _ s.sys.fs.cam.resetOut = _
      rw [h]; rfl
    rw [this, e]
    simp [lpIn, Lvds.mValid, Lvds.mData]

theorem lp_taken (ins : List StreamIn) : ∀ s : LvdsSys, LNoReset c a s ins → Fix16 s.sys.fs.cam.fix2 →
    pack40Taken s.sys.pack (lpIns c a s ins) = wordBytes (lvdsWords c a s ins) ∧ ∀ j ∈ lpIns c a s ins, j.data < 2 ^ 16 := by
  induction ins with
  | nil => intro s _ _; exact ⟨rfl, fun j hj => by cases hj⟩
  | cons i r ih =>
    rintro s ⟨h, hr⟩ h16
    obtain ⟨this, t2⟩ := ih _ hr (cam16_step (c := c) (a := a) h16 _)
    have e : (s.step c a i).sys.pack = s.sys.pack.cyc (lpIn s i) := by
      show Pack40.step _ _ _ _ s.sys.fs.cam.resetOut = _
      rw [h]; rfl
    have hlt : s.sys.camOut.data < 2 ^ 16 := cam16_out h16 _
    constructor
    · simp only [lpIns, pack40Taken, lvdsWords, wordBytes, List.flatMap_append]
      rw [e] at this
      rw [this]
      by_cases hv : (s.sys.camOut.valid && !s.sys.pack.oBusy) = true
      · simp only [lpIn, hv, if_true, List.flatMap_cons, List.flatMap_nil, List.append_nil, wordBytes]
        have : bytesOf 2 s.sys.camOut.data = [s.sys.camOut.data / 2 ^ 8, s.sys.camOut.data % 2 ^ 8] := by
          simp [bytesOf]; omega
        rw [this]
      · simp [lpIn, hv, wordBytes]
    · intro j hj
      simp only [lpIns, List.mem_cons] at hj
      rcases hj with rfl | hj
      · exact hlt
      · exact t2 j hj

end

/-- C56: with a receiver that is ready in every cycle, the 40-bit words given in the first frame — up to the cycle in which
the core gives the marker FFFF with the end flag — are, in order, the five-byte groups of the bytes of
the core's words, except at most two complete groups that are still inside and the bytes of an incomplete last group; and
the core's words decode to the first `W*H` pixels of those in the words that arrived. -/
theorem C56_first_frame {c : CoreCfg} {a : Nat} {T : Table} (h : CamSetup c T) (hps : c.int1.ps = 2) (hbd : c.int1.bd = 12)
    (q : List Nat) (ins : List StreamIn) (i : StreamIn) (hready : ∀ j ∈ ins ++ [i], j.ready = true)
    (hno : ∀ x ∈ lvdsWords c a ⟨.init c, q⟩ ins, x.2 = false)
    (hw : (0xFFFF, true) ∈ lvdsWords c a ⟨.init c, q⟩ (ins ++ [i])) :
    let words := lvdsWords c a ⟨.init c, q⟩ (ins ++ [i])
    let out := lvdsGiven c a ⟨.init c, q⟩ (ins ++ [i])
    out <+: groups5 (wordBytes words) ∧ (groups5 (wordBytes words)).length ≤ out.length + 2 ∧
    ∃ pad, decode T 13 12 c.int1.W (c.int1.W * c.int1.H) []
      (byteBits (unstuff (wordBytes ((words.drop 8).take (words.length - 16))))) =
        some (((q ++ (ins ++ [i]).flatMap (·.arrive)).flatMap wordPixels).take (c.int1.W * c.int1.H), pad) := by
  intro words out
  obtain ⟨n1, n2⟩ := lnoReset_of (c := c) (a := a) ins (s := ⟨.init c, q⟩) rfl hno
  have hnr := lnoReset_append ins [i] n1 ⟨n2, trivial⟩
  have e1 : out = _ := lp_given (ins ++ [i]) ⟨.init c, q⟩ hnr
  obtain ⟨e2, e3⟩ := lp_taken (ins ++ [i]) ⟨.init c, q⟩ hnr ⟨by simp [Lvds.init, FifoStream.init, Cam.init, Cam.reset, Fix2.init],
    by simp [Lvds.init, FifoStream.init, Cam.init, Cam.reset, Fix2.init]⟩
  have hb : ∀ (l : List StreamIn) (s : LvdsSys), (∀ j ∈ l, j.ready = true) → ∀ j ∈ lpIns c a s l, j.busy = false := by
    intro l
    induction l with
    | nil => intro s _ j hj; cases hj
    | cons x l ih =>
      intro s hl j hj
      simp only [lpIns, List.mem_cons] at hj
      rcases hj with rfl | hj
      · simp [lpIn, hl x (List.mem_cons_self ..)]
      · exact ih _ (fun y hy => hl y (List.mem_cons_of_mem _ hy)) j hj
  have hb := hb (ins ++ [i]) ⟨.init c, q⟩ hready
  have hp := C56_core_words (a := a) h hps hbd q .zero ins i hno hw
  have hfirst : out <+: groups5 (wordBytes words) ∧ (groups5 (wordBytes words)).length ≤ out.length + 2 := by
    rw [e1]
    change _ ∧ (groups5 (wordBytes (lvdsWords c a ⟨.init c, q⟩ (ins ++ [i])))).length ≤ _
    show _ <+: groups5 (wordBytes (lvdsWords c a ⟨.init c, q⟩ (ins ++ [i]))) ∧ _
    rw [← e2]
    cases hl : ins ++ [i] with
    | nil => simp at hl
    | cons j r =>
      rw [hl] at e3 hb
      simp only [lpIns] at e3 hb ⊢
      have := C36_lossless_when_always_ready (lpIn ⟨.init c, q⟩ j) (lpIns c a (LvdsSys.step c a ⟨.init c, q⟩ j) r)
        (fun k hk => e3 k (List.mem_cons_of_mem _ hk)) (fun k hk => hb k (List.mem_cons_of_mem _ hk))
      exact this
  refine ⟨hfirst.1, hfirst.2, ?_⟩
  simp only [Nat.zero_mul, List.drop_zero, List.nil_append] at hp
  exact hp

-- The hypotheses are met: two frames of a 4×2 image, the receiver always ready; the first ends in the 57th cycle. Of its
-- nine complete groups eight are already given then.
set_option maxRecDepth 40000 in
example : let s0 : LvdsSys := ⟨.init tinyStream, tinyWords⟩
    LvdsFrames tinyStream 1000 tinyWords 1 ([] ++ (tinyReady 56 ++ [⟨[], true⟩]) ++ [⟨[], true⟩]) ∧
    (∀ x ∈ lvdsWords tinyStream 1000 (lvdsRun tinyStream 1000 s0 ([] ++ (tinyReady 56 ++ [⟨[], true⟩]) ++ [⟨[], true⟩])) (tinyReady 57), x.2 = false) ∧
    (0xFFFF, true) ∈ lvdsWords tinyStream 1000 (lvdsRun tinyStream 1000 s0 ([] ++ (tinyReady 56 ++ [⟨[], true⟩]) ++ [⟨[], true⟩]))
      (tinyReady 57 ++ [⟨[], true⟩]) ∧
    lvdsGiven tinyStream 1000 s0 (tinyReady 57) = [0xFFFFFFFFFF, 0xFFFFFFFFFF, 0xFFFFFFFFFF, 0xFFFE245F85, 0x5C23F808D7, 0x3F9E4FF079,
      0x6200FFFFFF, 0xFFFFFFFFFF] := by
  refine ⟨LvdsFrames.next .zero ?_ ?_, ?_, ?_, ?_⟩ <;> decide +kernel

-- C56 (limit of the code): with a receiver that is ready in every fifth cycle only, bytes of the code are replaced in the packer:
-- here FF by 01 and F4 by 00.
set_option maxRecDepth 40000 in
theorem C56_slow_receiver_limit :
    let s0 : LvdsSys := ⟨.init tinyStream, [0x1230004560000000, 0x0012312341230000]⟩
    let ins : List StreamIn := (List.range 79).map fun k => ⟨[], k % 5 == 0⟩
    (0xFFFF, true) ∈ lvdsWords tinyStream 1000 s0 ins ∧
    groups5 (wordBytes (lvdsWords tinyStream 1000 s0 ins)) = [0xFFFFFFFFFF, 0xFFFFFFFFFF, 0xFFFFFFFFFF, 0xFFFE245FE7, 0xFF00FC2AFF,
      0x009FFF00E6, 0xEFE8C7F3BB, 0xF48C00FFFF, 0xFFFFFFFFFF, 0xFFFFFFFFFF] ∧
    lvdsGiven tinyStream 1000 s0 ins = [0xFFFFFFFFFF, 0xFFFFFFFFFF, 0xFFFFFFFFFF, 0x01FE245FE7, 0xFF00FC2AFF,
      0x009FFF00E6, 0xEFE8C7F3BB, 0x008C00FFFF, 0xFFFFFFFFFF] := by decide +kernel

end Props
