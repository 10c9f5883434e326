/- Property theorems C56, continued: the 40-bit output stream over any number of frames. -/
import Verif.Props.Lvds
import Verif.Proof.PackFrames
import Verif.Proof.Receiver40

set_option autoImplicit false

namespace Props.LvdsAll
open Spec Model Props

/-! ### The core is silent in the first cycles of a frame -/

/-- `k` cycles after the reset. -/
def QuietCam (s : Cam) (k : Nat) : Prop :=
  s.resetOut = false ∧ s.marks.fsm = .idle ∧ (k ≤ 3 → s.fix2 = .init) ∧ (k ≤ 2 → s.fix1.valid = false ∧ s.fix1.regValid = false) ∧
  (k ≤ 1 → s.core.vbits.valid = false) ∧ (k = 0 → s.core.vbits = .init)

theorem quiet_reset {c : CoreCfg} {s : Cam} (h : CamAfterReset c s) : QuietCam s 0 := by
  obtain ⟨m, _, rfl⟩ := h
  exact ⟨rfl, rfl, fun _ => rfl, fun _ => ⟨rfl, rfl⟩, fun _ => rfl, fun _ => rfl⟩

theorem quiet_out {s : Cam} {k : Nat} (h : QuietCam s k) (b : Bool) : (s.out b).valid = false := by
  simp [Cam.out, Markers.out, h.2.1]

theorem quiet_step {c : CoreCfg} {a : Nat} (hout : 0 < c.out) {s : Cam} {k : Nat} (hk : k ≤ 3) (h : QuietCam s k) (i : CamIn) :
    QuietCam (s.betaStep c a i) (k + 1) := by
  have ho := quiet_out h i.busy
  obtain ⟨h0, h1, h2, h3, h4, h5⟩ := h
  have h2 := h2 hk
  have e : s.betaStep c a i = s.betaRun c a i := by simp [Cam.betaStep, h0]
  rw [e]
  have hr : s.resetNext i.busy = false := by simp [Cam.resetNext, AutoReset.next, ho, h0]
  refine ⟨hr, ?_, ?_, ?_, ?_, by omega⟩
  · simp [Cam.betaRun, Markers.step, h1, Cam.markIn, h2, Fix2.init]
  · intro hk
    obtain ⟨f1, f2⟩ := h3 (by omega)
    simp only [Cam.betaRun, h2, f1]
    cases (s.out i.busy).oBusy <;> rfl
  · intro hk
    obtain ⟨f1, f2⟩ := h3 (by omega)
    have f3 := h4 (by omega)
    simp only [Cam.betaRun, h2, Int3.valid, f3]
    show (Fix1.step s.fix1 _ false _ Fix2.init.oBusy).valid = false ∧ (Fix1.step s.fix1 _ false _ Fix2.init.oBusy).regValid = false
    simp only [Fix1.step, Fix1.main, Fix2.init, Bool.not_false, if_true, f2]
    split <;> exact ⟨rfl, rfl⟩
  · intro hk
    have h5 := h5 (by omega)
    have hnot : ¬ c.out ≤ 0 := by omega
    simp [Cam.betaRun, Int3.step, h5, VBits.step, VBits.outStep, VBits.doOutput, VBits.init, hnot]

section
variable {c : CoreCfg} {a : Nat}

theorem quiet_ins (hout : 0 < c.out) (l : List StreamIn) : ∀ {s : LvdsSys} {k : Nat}, QuietCam s.sys.fs.cam k → k + l.length ≤ 5 →
    ∀ j ∈ lpIns c a s l, j.valid = false := by
  induction l with
  | nil => intro s k _ _ j hj; cases hj
  | cons i r ih =>
    intro s k h hl j hj
    simp only [lpIns, List.mem_cons] at hj
    rcases hj with rfl | hj
    · exact quiet_out h _
    · simp only [List.length_cons] at hl
      cases r with
      | nil => cases hj
      | cons i' r' =>
        simp only [List.length_cons] at hl
        exact ih (k := k + 1) (quiet_step hout (by omega) h _) (by simp only [List.length_cons]; omega) j hj

theorem lpIns_append (x y : List StreamIn) : ∀ s : LvdsSys, lpIns c a s (x ++ y) = lpIns c a s x ++ lpIns c a (lvdsRun c a s x) y := by
  induction x with
  | nil => intro s; rfl
  | cons i r ih => intro s; simp [lpIns, lvdsRun, ih]

theorem lpIns_length (x : List StreamIn) : ∀ s : LvdsSys, (lpIns c a s x).length = x.length := by
  induction x with
  | nil => intro s; rfl
  | cons i r ih => intro s; simp [lpIns, ih]

theorem lpIns_busy (l : List StreamIn) : ∀ s : LvdsSys, (∀ j ∈ l, j.ready = true) → ∀ j ∈ lpIns c a s l, j.busy = false := by
  induction l with
  | nil => intro s _ j hj; cases hj
  | cons x l ih =>
    intro s hl j hj
    simp only [lpIns, List.mem_cons] at hj
    rcases hj with rfl | hj
    · simp [lpIn, hl x (List.mem_cons_self ..)]
    · exact ih _ (fun y hy => hl y (List.mem_cons_of_mem _ hy)) j hj

theorem lp_run (ins : List StreamIn) : ∀ s : LvdsSys, LNoReset c a s ins →
    (lvdsRun c a s ins).sys.pack = pack40Run s.sys.pack (lpIns c a s ins) := by
  induction ins with
  | nil => intro s _; rfl
  | cons i r ih =>
    rintro s ⟨h, hr⟩
    have e : (s.step c a i).sys.pack = s.sys.pack.cyc (lpIn s i) := by
      show Pack40.step _ _ _ _ s.sys.fs.cam.resetOut = _
      rw [h]; rfl
    simp only [lvdsRun, lpIns, pack40Run]
    rw [ih _ hr, e]

theorem lp_words (ins : List StreamIn) : ∀ s : LvdsSys, LNoReset c a s ins →
    pack40Words s.sys.pack (lpIns c a s ins) = (lvdsWords c a s ins).map (·.1) := by
  induction ins with
  | nil => intro s _; rfl
  | cons i r ih =>
    rintro s ⟨h, hr⟩
    have e : (s.step c a i).sys.pack = s.sys.pack.cyc (lpIn s i) := by
      show Pack40.step _ _ _ _ s.sys.fs.cam.resetOut = _
      rw [h]; rfl
    simp only [lvdsWords, lpIns, pack40Words, List.map_append]
    rw [← ih _ hr, e]
    congr 1
    by_cases hv : (s.sys.camOut.valid && !s.sys.pack.oBusy) = true <;> simp [lpIn, hv]

/-- After the end-flagged word FFFF the marker stage keeps FFFF on its output. -/
theorem end_next {s : Cam} {i : CamIn} (hr : s.resetOut = false) (hb : i.busy = false) (he : (s.out i.busy).endd = true)
    (hd : (s.out i.busy).data = 0xFFFF) (b : Bool) : ((s.betaStep c a i).out b).data = 0xFFFF := by
  have e : s.betaStep c a i = s.betaRun c a i := by simp [Cam.betaStep, hr]
  rw [e]
  have : (s.betaRun c a i).marks.fsm = .doneNormal := by
    simp only [Cam.betaRun]
    simp only [Cam.out, Markers.out, Cam.markIn, hb] at he hd
    cases hf : s.marks.fsm <;> simp [hf] at he hd <;> simp [Markers.step, hf, Cam.markIn, hb, he]
    · split at he <;> simp at he
    · split at he
      · simp at he
      · split at he <;> simp at he
  simp [Cam.out, Markers.out, this]

/-- The state of the core after `n` normally ended frames. -/
theorem lvds_fresh {T : Table} (h : CamSetup c T) (hps : c.int1.ps = 2) (hbd : c.int1.bd = 12) {q : List Nat} {n : Nat} {hist : List StreamIn}
    (hn : LvdsFrames c a q n hist) : CamAfterReset c (lvdsRun c a ⟨.init c, q⟩ hist).sys.fs.cam := by
  have h1 := stream_frames (lvds_frames hn)
  have h2 := (frames_state h a h1 (camIns_wf hps hbd a _ _)).1
  have h3 := camRun_camIns c a (asStream c a ⟨.init c, q⟩ hist) ⟨.init c, q⟩
  have h4 := fs_run (c := c) (a := a) hist ⟨.init c, q⟩
  have h5 : (lvdsRun c a ⟨.init c, q⟩ hist).sys.fs.cam = (fsOf (lvdsRun c a ⟨.init c, q⟩ hist)).sys.cam := rfl
  rw [h5, h4]
  exact h3 ▸ h2

/-- The words of a frame: eight words FFFF, the code, eight words FFFF. -/
theorem lvds_shape {T : Table} (h : CamSetup c T) (hps : c.int1.ps = 2) (hbd : c.int1.bd = 12) {s : LvdsSys}
    (hs : CamAfterReset c s.sys.fs.cam) (ins : List StreamIn) (i : StreamIn)
    (hno : ∀ x ∈ lvdsWords c a s ins, x.2 = false) (hw : (0xFFFF, true) ∈ lvdsWords c a s (ins ++ [i])) :
    ∃ body bytes k, lvdsWords c a s (ins ++ [i]) = startMark ++ body ++ endMark 0xFFFF ∧ k ≤ 1 ∧ wordBytes body = stuff bytes ++ List.replicate k 0 := by
  have g1 := camGiven_camIns c a (asStream c a s ins) (fsOf s)
  have g2 := camGiven_camIns c a (asStream c a s (ins ++ [i])) (fsOf s)
  rw [← fs_words] at g1 g2
  have hlast : camIns c a (fsOf s) (asStream c a s (ins ++ [i])) = camIns c a (fsOf s) (asStream c a s ins) ++
      [(streamRun c a (fsOf s) (asStream c a s ins)).sys.camIn (!(lvdsRun c a s ins).sys.pack.oBusy)] := by
    rw [asStream_append, camIns_append]
    rfl
  rw [hlast] at g2
  have hwf : CamWf c (camIns c a (fsOf s) (asStream c a s ins) ++
      [(streamRun c a (fsOf s) (asStream c a s ins)).sys.camIn (!(lvdsRun c a s ins).sys.pack.oBusy)]) := by
    rw [← hlast]; exact camIns_wf hps hbd a _ _
  obtain ⟨body, hb, _, hx⟩ := C30_frame h a (s := (fsOf s).sys.cam) hs _ _ hwf (by rw [g1]; exact hno) 0xFFFF (by rw [g2]; exact hw)
  rw [g2] at hb
  rcases hx with ⟨_, _, bytes, k, j, hk, _, hx, _⟩ | ⟨hx, _⟩
  · exact ⟨body, bytes, k, hb, hk, hx⟩
  · simp at hx

theorem lvdsWords_append (x y : List StreamIn) : ∀ s : LvdsSys, lvdsWords c a s (x ++ y) = lvdsWords c a s x ++ lvdsWords c a (lvdsRun c a s x) y := by
  induction x with
  | nil => intro s; rfl
  | cons j r ih => intro s; simp only [List.cons_append, lvdsWords, lvdsRun, ih, List.append_assoc]

/-- After the cycle with the end-flagged word: the core is being reset and FFFF is on its output. -/
theorem end_word {s : LvdsSys} {ins : List StreamIn} {i : StreamIn} (n2 : (lvdsRun c a s ins).sys.fs.cam.resetOut = false)
    (hno : ∀ x ∈ lvdsWords c a s ins, x.2 = false) (hw : (0xFFFF, true) ∈ lvdsWords c a s (ins ++ [i])) :
    (lvdsRun c a s (ins ++ [i])).sys.camOut.data = 0xFFFF ∧ (lvdsRun c a s (ins ++ [i])).sys.fs.cam.resetOut = true := by
  rw [lvdsRun_append]
  have hmem : (0xFFFF, true) ∈ lvdsWords c a (lvdsRun c a s ins) [i] := by
    rw [lvdsWords_append, List.mem_append] at hw
    rcases hw with hw | hw
    · have := hno _ hw; cases this
    · exact hw
  generalize lvdsRun c a s ins = t at hmem n2
  have hmem : (0xFFFF, true) ∈ (if t.sys.camOut.valid && !t.sys.pack.oBusy then [(t.sys.camOut.data, t.sys.camOut.endd)] else []) := by
    simpa only [lvdsWords, List.append_nil] using hmem
  by_cases hv : (t.sys.camOut.valid && !t.sys.pack.oBusy) = true
  · rw [if_pos hv, List.mem_singleton, Prod.mk.injEq] at hmem
    rw [Bool.and_eq_true] at hv
    have hob : t.sys.pack.oBusy = false := by simpa using hv.2
    have hbz : (t.sys.fs.camIn (!t.sys.pack.oBusy)).busy = false := by simp [FifoStream.camIn, hob]
    exact ⟨end_next (c := c) (a := a) (s := t.sys.fs.cam) (i := t.sys.fs.camIn (!t.sys.pack.oBusy)) n2 hbz hmem.2.symm hmem.1.symm _,
      (C28_reset_pulse c a t.sys.fs.cam (t.sys.fs.camIn (!t.sys.pack.oBusy))).2 ⟨n2, hv.1, hbz, hmem.2.symm⟩⟩
  · rw [if_neg hv] at hmem; cases hmem

/-- One frame, the packer being at a boundary or at power-up. -/
theorem lvds_frame {T : Table} (h : CamSetup c T) (hps : c.int1.ps = 2) (hbd : c.int1.bd = 12) {s : LvdsSys}
    (hs : CamAfterReset c s.sys.fs.cam) (hB : Boundary s.sys.pack ∨ s.sys.pack = .init) (ins : List StreamIn) (i : StreamIn)
    (hready : ∀ j ∈ ins ++ [i], j.ready = true)
    (hno : ∀ x ∈ lvdsWords c a s ins, x.2 = false) (hw : (0xFFFF, true) ∈ lvdsWords c a s (ins ++ [i])) :
    (∃ d o e, d ≤ 3 ∧ e ≤ 2 ∧ lvdsGiven c a s (ins ++ [i]) = List.replicate d ff40 ++ o ∧
      o ++ List.replicate e ff40 = groups5 (wordBytes (lvdsWords c a s (ins ++ [i])))) ∧
    ∀ r : StreamIn, Boundary (lvdsRun c a s (ins ++ [i] ++ [r])).sys.pack ∧ (lvdsRun c a s (ins ++ [i])).sys.mData = ff40 := by
  have hq := quiet_reset hs
  obtain ⟨n1, n2⟩ := lnoReset_of (c := c) (a := a) ins (s := s) hq.1 hno
  have hnr := lnoReset_append ins [i] n1 ⟨n2, trivial⟩
  obtain ⟨body, hshape⟩ : ∃ body, (lvdsWords c a s (ins ++ [i])).map (·.1) = List.replicate 8 0xFFFF ++ body ++ List.replicate 8 0xFFFF := by
    obtain ⟨body, _, _, hb, _, _⟩ := lvds_shape h hps hbd hs ins i hno hw
    exact ⟨body.map (·.1), by rw [hb, List.map_append, List.map_append]; rfl⟩
  have hf16 : Fix16 s.sys.fs.cam.fix2 := by
    rw [hq.2.2.1 (by decide)]
    exact ⟨by simp [Fix2.init], by simp [Fix2.init]⟩
  obtain ⟨e2, e3⟩ := lp_taken (ins ++ [i]) s hnr hf16
  have e4 := lp_words (ins ++ [i]) s hnr
  have e1 := lp_given (ins ++ [i]) s hnr
  have e5 := lp_run (ins ++ [i]) s hnr
  have hb := lpIns_busy (c := c) (a := a) (ins ++ [i]) s hready
  have hout : 0 < c.out := by rw [h.out]; decide
  have hlen : 5 ≤ (ins ++ [i]).length := by
    apply Classical.byContradiction
    intro hlt
    have hz := quiet_ins (c := c) (a := a) hout (ins ++ [i]) hq (by omega)
    have hempty : ∀ (l : List Pack40In) (p : Pack40), (∀ j ∈ l, j.valid = false) → pack40Words p l = [] := by
      intro l
      induction l with
      | nil => intros; rfl
      | cons j r ih =>
        intro p hj
        simp only [pack40Words, hj j (List.mem_cons_self ..), Bool.false_and, Bool.false_eq_true, if_false, List.nil_append]
        exact ih _ (fun k hk => hj k (List.mem_cons_of_mem _ hk))
    rw [hempty _ _ hz, hshape] at e4
    have := congrArg List.length e4
    simp at this
  have hsplit : ins ++ [i] = (ins ++ [i]).take 5 ++ (ins ++ [i]).drop 5 := (List.take_append_drop 5 _).symm
  have hl5 : ((ins ++ [i]).take 5).length = 5 := by rw [List.length_take]; omega
  have hins : lpIns c a s (ins ++ [i]) = lpIns c a s ((ins ++ [i]).take 5) ++ lpIns c a (lvdsRun c a s ((ins ++ [i]).take 5)) ((ins ++ [i]).drop 5) := by
    rw [← lpIns_append, ← hsplit]
  have hpf := pack_frame hB (lpIns c a s ((ins ++ [i]).take 5)) (lpIns c a (lvdsRun c a s ((ins ++ [i]).take 5)) ((ins ++ [i]).drop 5))
    (by rw [lpIns_length]; exact hl5) (quiet_ins hout _ hq (by omega)) (by rw [← hins]; exact hb) (by rw [← hins]; exact e3)
    (B := body) (by rw [← hins, e4]; exact hshape)
  rw [← hins] at hpf
  obtain ⟨⟨d, o, e, d1, d2, d3, d4⟩, f1, f2, f3, f4⟩ := hpf
  refine ⟨⟨d, o, e, d1, d2, by rw [e1]; exact d3, ?_⟩, ?_⟩
  · rw [d4, ← taken_words, e2]
  · intro r
    rw [← e5] at f1 f2 f3 f4
    -- the word on the core's output in the reset cycle
    obtain ⟨hd, hrst⟩ := end_word n2 hno hw
    rw [lvdsRun_append]
    generalize lvdsRun c a s (ins ++ [i]) = t at *
    have := reset_boundary f1 f2 f3 f4 t.sys.camOut.data t.sys.camOut.valid (!r.ready) (fun _ => hd)
    refine ⟨?_, this.2⟩
    have e : (lvdsRun c a t [r]).sys.pack = t.sys.pack.step t.sys.camOut.data t.sys.camOut.valid (!r.ready) true := by
      show Pack40.step _ _ _ _ t.sys.fs.cam.resetOut = _
      rw [hrst]
    rw [e]
    exact this.1

/-- With a receiver that is always ready the packer is at a boundary after every frame. -/
theorem lvds_boundary {T : Table} (h : CamSetup c T) (hps : c.int1.ps = 2) (hbd : c.int1.bd = 12) {q : List Nat} {n : Nat} {hist : List StreamIn}
    (hn : LvdsFrames c a q n hist) (hready : ∀ j ∈ hist, j.ready = true) :
    Boundary (lvdsRun c a ⟨.init c, q⟩ hist).sys.pack ∨ (lvdsRun c a ⟨.init c, q⟩ hist).sys.pack = .init := by
  induction hn with
  | zero => exact Or.inr rfl
  | @next n hist ins i r hf hno hw ih =>
    have hr : ∀ j ∈ hist, j.ready = true := fun j hj => hready j (by simp [hj])
    have := (lvds_frame h hps hbd (lvds_fresh h hps hbd hf) (ih hr) ins i (fun j hj => hready j (by
      simp only [List.mem_append] at hj ⊢; exact Or.inl (Or.inr hj))) hno hw).2 r
    left
    rw [List.append_assoc, lvdsRun_append]
    exact this.1

end

/-- C56: with a receiver that is ready in every cycle, any number of frames: after `n` normally ended frames, the 40-bit words given
until the core gives the next end marker FFFF with the end flag are at most three words FFFFFFFFFF followed by the
five-byte groups of the bytes of the core's words of this frame, in order, of which at most two — FFFFFFFFFF, part of the end marker — are
still inside; what is given in the reset cycle can only be another FFFFFFFFFF; and the core's words decode to the pixels number `n*W*H` to
`(n+1)*W*H-1` of those in the words that arrived. -/
theorem C56_every_frame {c : CoreCfg} {a : Nat} {T : Table} (h : CamSetup c T) (hps : c.int1.ps = 2) (hbd : c.int1.bd = 12)
    (q : List Nat) {n : Nat} {hist : List StreamIn} (hn : LvdsFrames c a q n hist) (ins : List StreamIn) (i r : StreamIn)
    (hready : ∀ j ∈ hist ++ (ins ++ [i]), j.ready = true)
    (hno : ∀ x ∈ lvdsWords c a (lvdsRun c a ⟨.init c, q⟩ hist) ins, x.2 = false)
    (hw : (0xFFFF, true) ∈ lvdsWords c a (lvdsRun c a ⟨.init c, q⟩ hist) (ins ++ [i])) :
    let words := lvdsWords c a (lvdsRun c a ⟨.init c, q⟩ hist) (ins ++ [i])
    let out := lvdsGiven c a (lvdsRun c a ⟨.init c, q⟩ hist) (ins ++ [i])
    let stream := (q ++ (hist ++ (ins ++ [i])).flatMap (·.arrive)).flatMap wordPixels
    (∃ d o e, d ≤ 3 ∧ e ≤ 2 ∧ out = List.replicate d 0xFFFFFFFFFF ++ o ∧
      o ++ List.replicate e 0xFFFFFFFFFF = groups5 (wordBytes words)) ∧
    (∀ x ∈ lvdsGiven c a (lvdsRun c a (lvdsRun c a ⟨.init c, q⟩ hist) (ins ++ [i])) [r], x = 0xFFFFFFFFFF) ∧
    ∃ pad, decode T 13 12 c.int1.W (c.int1.W * c.int1.H) []
      (byteBits (unstuff (wordBytes ((words.drop 8).take (words.length - 16))))) =
        some ((stream.drop (n * (c.int1.W * c.int1.H))).take (c.int1.W * c.int1.H), pad) := by
  intro words out stream
  have hb := lvds_boundary h hps hbd hn (fun j hj => hready j (List.mem_append_left _ hj))
  obtain ⟨h1, h2⟩ := lvds_frame h hps hbd (lvds_fresh h hps hbd hn) hb ins i (fun j hj => hready j (List.mem_append_right _ hj)) hno hw
  refine ⟨h1, ?_, C56_core_words h hps hbd q hn ins i hno hw⟩
  intro x hx
  simp only [lvdsGiven, List.append_nil] at hx
  split at hx
  · rw [List.mem_singleton] at hx
    rw [hx]
    exact (h2 r).2
  · cases hx

theorem lvdsGiven_append {c : CoreCfg} {a : Nat} (x y : List StreamIn) : ∀ s : LvdsSys, lvdsGiven c a s (x ++ y) = lvdsGiven c a s x ++ lvdsGiven c a (lvdsRun c a s x) y := by
  induction x with
  | nil => intro s; rfl
  | cons j r ih => intro s; simp only [List.cons_append, lvdsGiven, lvdsRun, ih, List.append_assoc]

/-- C56, for a receiver: the 40-bit words other than FFFFFFFFFF received in a frame, its reset cycle included, are exactly those
of the five-byte groups of the core's words, in order: nothing is lost, doubled or reordered at a frame boundary. -/
theorem C56_every_frame_content {c : CoreCfg} {a : Nat} {T : Table} (h : CamSetup c T) (hps : c.int1.ps = 2) (hbd : c.int1.bd = 12)
    (q : List Nat) {n : Nat} {hist : List StreamIn} (hn : LvdsFrames c a q n hist) (ins : List StreamIn) (i r : StreamIn)
    (hready : ∀ j ∈ hist ++ (ins ++ [i]), j.ready = true)
    (hno : ∀ x ∈ lvdsWords c a (lvdsRun c a ⟨.init c, q⟩ hist) ins, x.2 = false)
    (hw : (0xFFFF, true) ∈ lvdsWords c a (lvdsRun c a ⟨.init c, q⟩ hist) (ins ++ [i])) :
    (lvdsGiven c a (lvdsRun c a ⟨.init c, q⟩ hist) (ins ++ [i] ++ [r])).filter (· != 0xFFFFFFFFFF) =
      (groups5 (wordBytes (lvdsWords c a (lvdsRun c a ⟨.init c, q⟩ hist) (ins ++ [i])))).filter (· != 0xFFFFFFFFFF) := by
  obtain ⟨⟨d, o, e, _, _, h1, h2⟩, h3, _⟩ := C56_every_frame h hps hbd q hn ins i r hready hno hw
  have hz : ∀ (l : List Nat), (∀ x ∈ l, x = 0xFFFFFFFFFF) → l.filter (· != 0xFFFFFFFFFF) = [] := by
    intro l hl
    rw [List.filter_eq_nil_iff]
    intro x hx
    simp [hl x hx]
  rw [← h2, lvdsGiven_append, h1]
  simp only [List.filter_append]
  rw [hz _ h3, hz (List.replicate d _) (fun x hx => List.eq_of_mem_replicate hx), hz (List.replicate e _) (fun x hx => List.eq_of_mem_replicate hx)]
  simp

theorem wordBytes_even (l : List (Nat × Bool)) : (wordBytes l).length % 2 = 0 ∧ ∀ x ∈ wordBytes l, x < 256 := by
  induction l with
  | nil => exact ⟨rfl, fun x hx => by cases hx⟩
  | cons w l ih =>
    have e : wordBytes (w :: l) = w.1 / 256 % 256 :: w.1 % 256 :: wordBytes l := by simp [wordBytes, bytesOf]
    rw [e]
    refine ⟨by simp only [List.length_cons]; omega, ?_⟩
    intro x hx
    simp only [List.mem_cons] at hx
    rcases hx with rfl | rfl | hx
    · exact Nat.mod_lt _ (by decide)
    · exact Nat.mod_lt _ (by decide)
    · exact ih.2 x hx

/-- What `receive40` makes of the 40-bit words of a frame are the bytes between the markers. -/
theorem receiver_bytes {c : CoreCfg} {a : Nat} {T : Table} (h : CamSetup c T) (hps : c.int1.ps = 2) (hbd : c.int1.bd = 12)
    (q : List Nat) {n : Nat} {hist : List StreamIn} (hn : LvdsFrames c a q n hist) (ins : List StreamIn) (i r : StreamIn)
    (hready : ∀ j ∈ hist ++ (ins ++ [i]), j.ready = true)
    (hno : ∀ x ∈ lvdsWords c a (lvdsRun c a ⟨.init c, q⟩ hist) ins, x.2 = false)
    (hw : (0xFFFF, true) ∈ lvdsWords c a (lvdsRun c a ⟨.init c, q⟩ hist) (ins ++ [i])) :
    let words := lvdsWords c a (lvdsRun c a ⟨.init c, q⟩ hist) (ins ++ [i])
    receive40 (lvdsGiven c a (lvdsRun c a ⟨.init c, q⟩ hist) (ins ++ [i] ++ [r])) = wordBytes ((words.drop 8).take (words.length - 16)) := by
  intro words
  obtain ⟨⟨d, o, e, _, _, h1, h2⟩, h3, _⟩ := C56_every_frame h hps hbd q hn ins i r hready hno hw
  obtain ⟨body, bytes, k, hb, hk, hx⟩ := lvds_shape h hps hbd (lvds_fresh h hps hbd hn) ins i hno hw
  have hbody : ((lvdsWords c a (lvdsRun c a ⟨.init c, q⟩ hist) (ins ++ [i])).drop 8).take
      ((lvdsWords c a (lvdsRun c a ⟨.init c, q⟩ hist) (ins ++ [i])).length - 16) = body := by
    rw [hb, List.append_assoc, List.drop_left' (by simp [startMark])]
    rw [show (startMark ++ (body ++ endMark 0xFFFF)).length - 16 = body.length by simp [startMark, endMark]]
    exact List.take_left' rfl
  show _ = wordBytes (((lvdsWords c a (lvdsRun c a ⟨.init c, q⟩ hist) (ins ++ [i])).drop 8).take
      ((lvdsWords c a (lvdsRun c a ⟨.init c, q⟩ hist) (ins ++ [i])).length - 16))
  rw [hbody]
  have hr : ∃ m, lvdsGiven c a (lvdsRun c a (lvdsRun c a ⟨.init c, q⟩ hist) (ins ++ [i])) [r] = List.replicate m 0xFFFFFFFFFF :=
    ⟨_, List.eq_replicate_of_mem h3⟩
  obtain ⟨m, hm⟩ := hr
  show receive40 (lvdsGiven c a (lvdsRun c a ⟨.init c, q⟩ hist) (ins ++ [i] ++ [r])) = _
  rw [lvdsGiven_append, h1, hm, drop_back, drop_front, ← drop_back o e, h2, hb]
  have hw2 : wordBytes (startMark ++ body ++ endMark 0xFFFF) = List.replicate 16 0xFF ++ wordBytes body ++ List.replicate 16 0xFF := by
    simp only [wordBytes, List.flatMap_append]
    rfl
  rw [hw2]
  obtain ⟨ev, lt⟩ := wordBytes_even body
  apply receive40_groups _ lt
  · rw [hx] at ev ⊢
    rcases Nat.le_one_iff_eq_zero_or_eq_one.1 hk with rfl | rfl
    · cases bytes with
      | nil => exact Or.inl rfl
      | cons x l =>
        right
        unfold stuff at ev ⊢
        split
        · exact ⟨255, 0, _, rfl, by decide⟩
        · rename_i hne
          rw [if_neg hne] at ev
          cases hs : stuff l with
          | nil => rw [hs] at ev; simp at ev
          | cons y t => exact ⟨x, y, _, rfl, fun hc => hne hc.1⟩
    · cases bytes with
      | nil => simp [stuff] at ev
      | cons x l =>
        right
        unfold stuff
        split
        · exact ⟨255, 0, _, rfl, by decide⟩
        · rename_i hne
          cases hs : stuff l with
          | nil => exact ⟨x, 0, [], rfl, by simp [hne]⟩
          | cons y t => exact ⟨x, y, _, rfl, fun hc => hne hc.1⟩
  · rw [hx]
    rcases Nat.le_one_iff_eq_zero_or_eq_one.1 hk with rfl | rfl
    · simp [stripFF_stuff]
    · exact stripFF_zero _

/-- C56, the link end to end over any number of frames: with a receiver that is ready in every cycle, what `receive40` makes of the 40-bit words
given in frame number `n` (its reset cycle included) is exactly the bytes between the frame markers, and they decode — drop
the byte after every FF, decode the T.81 code — to the pixels number `n*W*H` to `(n+1)*W*H-1` of those in the words that arrived. -/
theorem C56_receiver {c : CoreCfg} {a : Nat} {T : Table} (h : CamSetup c T) (hps : c.int1.ps = 2) (hbd : c.int1.bd = 12)
    (q : List Nat) {n : Nat} {hist : List StreamIn} (hn : LvdsFrames c a q n hist) (ins : List StreamIn) (i r : StreamIn)
    (hready : ∀ j ∈ hist ++ (ins ++ [i]), j.ready = true)
    (hno : ∀ x ∈ lvdsWords c a (lvdsRun c a ⟨.init c, q⟩ hist) ins, x.2 = false)
    (hw : (0xFFFF, true) ∈ lvdsWords c a (lvdsRun c a ⟨.init c, q⟩ hist) (ins ++ [i])) :
    let out := lvdsGiven c a (lvdsRun c a ⟨.init c, q⟩ hist) (ins ++ [i] ++ [r])
    let stream := (q ++ (hist ++ (ins ++ [i])).flatMap (·.arrive)).flatMap wordPixels
    ∃ pad, decode T 13 12 c.int1.W (c.int1.W * c.int1.H) [] (byteBits (unstuff (receive40 out))) =
        some ((stream.drop (n * (c.int1.W * c.int1.H))).take (c.int1.W * c.int1.H), pad) := by
  intro out stream
  obtain ⟨_, _, pad, h4⟩ := C56_every_frame h hps hbd q hn ins i r hready hno hw
  refine ⟨pad, ?_⟩
  rw [show receive40 out = _ from receiver_bytes h hps hbd q hn ins i r hready hno hw]
  exact h4

-- The hypotheses are met: two frames of a 4×2 image, the receiver always ready. The second frame starts with
-- words FFFFFFFFFF left from the first.
set_option maxRecDepth 40000 in
example : let s0 : LvdsSys := ⟨.init tinyStream, tinyWords⟩
    let h : List StreamIn := [] ++ (tinyReady 56 ++ [⟨[], true⟩]) ++ [⟨[], true⟩]
    LvdsFrames tinyStream 1000 tinyWords 1 h ∧
    (∀ j ∈ h ++ (tinyReady 57 ++ [⟨[], true⟩]), j.ready = true) ∧
    (∀ x ∈ lvdsWords tinyStream 1000 (lvdsRun tinyStream 1000 s0 h) (tinyReady 57), x.2 = false) ∧
    (0xFFFF, true) ∈ lvdsWords tinyStream 1000 (lvdsRun tinyStream 1000 s0 h) (tinyReady 57 ++ [⟨[], true⟩]) ∧
    lvdsGiven tinyStream 1000 (lvdsRun tinyStream 1000 s0 h) (tinyReady 57 ++ [⟨[], true⟩]) = [0xFFFFFFFFFF, 0xFFFFFFFFFF, 0xFFFFFFFFFF,
      0xFFFFFFFFFF, 0xFFFE001FC0, 0x07F8017F00, 0x3FA45FD153, 0xFBC33E00FF, 0xFFFFFFFFFF, 0xFFFFFFFFFF] ∧
    groups5 (wordBytes (lvdsWords tinyStream 1000 (lvdsRun tinyStream 1000 s0 h) (tinyReady 57 ++ [⟨[], true⟩]))) = [0xFFFFFFFFFF, 0xFFFFFFFFFF,
      0xFFFFFFFFFF, 0xFFFE001FC0, 0x07F8017F00, 0x3FA45FD153, 0xFBC33E00FF, 0xFFFFFFFFFF, 0xFFFFFFFFFF, 0xFFFFFFFFFF] := by
  refine ⟨LvdsFrames.next .zero ?_ ?_, ?_, ?_, ?_, ?_, ?_⟩ <;> decide +kernel

end Props.LvdsAll
