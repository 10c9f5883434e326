/- Property C98: the 40-bit stream core over frames ended normally or by force. -/
import Verif.Props.LvdsFrames
import Verif.Props.LvdsLive
import Verif.Props.NetLvdsAll
import Verif.Props.AnyFramesFifo
import Verif.Props.HostCheck
import Verif.Proof.PackForced
import Verif.Spec.Sync40

set_option autoImplicit false
set_option linter.unusedSimpArgs false

namespace Props.LvdsForced
open Spec Model Props Props.LvdsAll Props.ForcedFifo Netlist

/-- From power-up, with the words `q` in the source, the cycles `hist` consist of `n` frames, each ended normally or by
force and followed by its reset cycle. -/
inductive LinkFrames (c : CoreCfg) (a : Nat) (q : List Nat) : Nat → List StreamIn → Prop
  | zero : LinkFrames c a q 0 []
  | next {n : Nat} {hist ins : List StreamIn} {i r : StreamIn} {w : Nat} (h : LinkFrames c a q n hist)
      (hno : ∀ x ∈ lvdsWords c a (lvdsRun c a ⟨.init c, q⟩ hist) ins, x.2 = false)
      (hw : (w, true) ∈ lvdsWords c a (lvdsRun c a ⟨.init c, q⟩ hist) (ins ++ [i])) :
      LinkFrames c a q (n + 1) (hist ++ (ins ++ [i]) ++ [r])

/-- The pixels that go from the width converter into the core: its 24-bit word is valid and the core is not busy. -/
def lvdsPixels (c : CoreCfg) (a : Nat) : LvdsSys → List StreamIn → List Nat
  | _, [] => []
  | s, i :: r => (if s.sys.fs.unpack.valid && !s.sys.fs.cam.nready then
      [s.sys.fs.unpack.data / 2 ^ 12 % 2 ^ 12, s.sys.fs.unpack.data % 2 ^ 12] else []) ++ lvdsPixels c a (s.step c a i) r

section
variable {c : CoreCfg} {a : Nat}

theorem fs_pixels (ins : List StreamIn) : ∀ s : LvdsSys, lvdsPixels c a s ins = streamPixels c a (fsOf s) (asStream c a s ins) := by
  induction ins with
  | nil => intro s; rfl
  | cons i r ih => intro s; simp only [lvdsPixels, asStream, streamPixels]; rw [ih]; rfl

theorem link_frames {q : List Nat} {n : Nat} {hist : List StreamIn} (h : LinkFrames c a q n hist) :
    FifoFrames c a q n (asStream c a ⟨.init c, q⟩ hist) := by
  induction h with
  | zero => exact .zero
  | @next n hist ins i r w h hno hw ih =>
    rw [asStream_append, asStream_append, asStream_append]
    have e := fs_run (c := c) (a := a) hist ⟨.init c, q⟩
    refine FifoFrames.next (w := w) ih ?_ ?_
    · have := fs_words (c := c) (a := a) ins (lvdsRun c a ⟨.init c, q⟩ hist)
      rw [e] at this
      change ∀ x ∈ streamGiven c a (streamRun c a (fsOf ⟨.init c, q⟩) _) _, x.2 = false
      rw [← this]; exact hno
    · have := fs_words (c := c) (a := a) (ins ++ [i]) (lvdsRun c a ⟨.init c, q⟩ hist)
      rw [e, asStream_append] at this
      change _ ∈ streamGiven c a (streamRun c a (fsOf ⟨.init c, q⟩) _) (_ ++ asStream c a _ [i])
      rw [← this]; exact hw

theorem link_fresh {T : Table} (h : CamSetup c T) (hps : c.int1.ps = 2) (hbd : c.int1.bd = 12) {q : List Nat} {n : Nat} {hist : List StreamIn}
    (hn : LinkFrames c a q n hist) : CamAfterReset c (lvdsRun c a ⟨.init c, q⟩ hist).sys.fs.cam := by
  have h2 := Forced.frames_fresh h a (fifo_frames (link_frames hn)) (camIns_wf hps hbd a _ _)
  have h3 := camRun_camIns c a (asStream c a ⟨.init c, q⟩ hist) ⟨.init c, q⟩
  have h4 := fs_run (c := c) (a := a) hist ⟨.init c, q⟩
  have h5 : (lvdsRun c a ⟨.init c, q⟩ hist).sys.fs.cam = (fsOf (lvdsRun c a ⟨.init c, q⟩ hist)).sys.cam := rfl
  rw [h5, h4]
  exact h3 ▸ h2

/-! ### The packer over any run -/

def Sizes (s : Pack40) : Prop := s.buffer1 < 2 ^ 40 ∧ s.buffer2 < 2 ^ 40 ∧ s.temp8 < 2

theorem sizes_init : Sizes Pack40.init := ⟨by decide, by decide, by decide⟩

theorem sizes_step {s : Pack40} (h : Sizes s) (d : Nat) (v b r : Bool) (hd : d < 2 ^ 16) : Sizes (s.step d v b r) := by
  cases r with
  | true =>
    have := reset_bound h.1 h.2.1 h.2.2 d v b hd
    exact ⟨this.1, this.2.1, this.2.2.2⟩
  | false =>
    obtain ⟨h1, h2, h3⟩ := h
    obtain ⟨b1, v1, b2, v2, chs, t, valid, ob, fsm⟩ := s
    dsimp only at h1 h2 h3
    obtain ⟨p11, p12, p13, p14, p15, p16⟩ := @setSlice40_lt b1 d h1 hd
    obtain ⟨p21, p22, p23, p24, p25, p26⟩ := @setSlice40_lt b2 d h2 hd
    obtain ⟨p31, p32, p33, p34, p35, p36⟩ := @setSlice40_lt b2 t h2 (by omega)
    have hB : ∀ b1 v1 b2 v2 chs t valid ob f, b1 < 2 ^ 40 → b2 < 2 ^ 40 → t < 2 → Sizes ⟨b1, v1, b2, v2, chs, t, valid, ob, f⟩ :=
      fun _ _ _ _ _ _ _ _ _ k1 k2 ht => ⟨k1, k2, ht⟩
    cases fsm <;> cases v <;> cases v1 <;> cases v2 <;> cases chs <;> cases valid <;> cases b <;>
      simp only [Pack40.step, Pack40.stepFsm, Pack40.stepOut, if_true, if_false, Bool.false_eq_true, Bool.not_true, Bool.not_false,
        Bool.and_true, Bool.and_false, Bool.true_and, Bool.false_and, Bool.or_false, Bool.or_true] <;>
      exact hB _ _ _ _ _ _ _ _ _ (by assumption) (by assumption) (by omega)

theorem sizes_run (l : List StreamIn) : ∀ {s : LvdsSys}, Sizes s.sys.pack → Fix16 s.sys.fs.cam.fix2 →
    Sizes (lvdsRun c a s l).sys.pack ∧ Fix16 (lvdsRun c a s l).sys.fs.cam.fix2 := by
  induction l with
  | nil => intro s h1 h2; exact ⟨h1, h2⟩
  | cons i r ih =>
    intro s h1 h2
    exact ih (s := s.step c a i) (sizes_step h1 _ _ _ _ (cam16_out h2 _)) (cam16_step (c := c) (a := a) h2 _)

/-- After the cycle with the end-flagged word the core is being reset. -/
theorem end_reset {s : LvdsSys} {ins : List StreamIn} {i : StreamIn} {w : Nat} (n2 : (lvdsRun c a s ins).sys.fs.cam.resetOut = false)
    (hno : ∀ x ∈ lvdsWords c a s ins, x.2 = false) (hw : (w, true) ∈ lvdsWords c a s (ins ++ [i])) :
    (lvdsRun c a s (ins ++ [i])).sys.fs.cam.resetOut = true := by
  rw [lvdsRun_append]
  have hmem : (w, true) ∈ lvdsWords c a (lvdsRun c a s ins) [i] := by
    rw [lvdsWords_append, List.mem_append] at hw
    rcases hw with hw | hw
    · have := hno _ hw; cases this
    · exact hw
  generalize lvdsRun c a s ins = t at hmem n2
  have hmem : (w, true) ∈ (if t.sys.camOut.valid && !t.sys.pack.oBusy then [(t.sys.camOut.data, t.sys.camOut.endd)] else []) := by
    simpa only [lvdsWords, List.append_nil] using hmem
  by_cases hv : (t.sys.camOut.valid && !t.sys.pack.oBusy) = true
  · rw [if_pos hv, List.mem_singleton, Prod.mk.injEq] at hmem
    rw [Bool.and_eq_true] at hv
    have hob : t.sys.pack.oBusy = false := by simpa using hv.2
    have hbz : (t.sys.fs.camIn (!t.sys.pack.oBusy)).busy = false := by simp [FifoStream.camIn, hob]
    exact (C28_reset_pulse c a t.sys.fs.cam (t.sys.fs.camIn (!t.sys.pack.oBusy))).2 ⟨n2, hv.1, hbz, hmem.2.symm⟩
  · rw [if_neg hv] at hmem; cases hmem

/-- At the begin of every frame, whatever the receiver did and whatever ended the frames before. -/
theorem link_bound {T : Table} (h : CamSetup c T) (hps : c.int1.ps = 2) (hbd : c.int1.bd = 12) {q : List Nat} {n : Nat} {hist : List StreamIn}
    (hn : LinkFrames c a q n hist) : Bound (lvdsRun c a ⟨.init c, q⟩ hist).sys.pack := by
  cases hn with
  | zero => exact bound_init
  | @next n hist ins i r w hf hno hw =>
    have hq := quiet_reset (link_fresh h hps hbd hf)
    obtain ⟨_, n2⟩ := lnoReset_of (c := c) (a := a) ins hq.1 hno
    have hr := end_reset n2 hno hw
    obtain ⟨g1, g2⟩ := sizes_run (c := c) (a := a) (hist ++ (ins ++ [i])) (s := ⟨.init c, q⟩) sizes_init
      ⟨by simp [Lvds.init, FifoStream.init, Cam.init, Cam.reset, Fix2.init], by simp [Lvds.init, FifoStream.init, Cam.init, Cam.reset, Fix2.init]⟩
    rw [lvdsRun_append]
    rw [← lvdsRun_append] at hr
    generalize lvdsRun c a ⟨.init c, q⟩ (hist ++ (ins ++ [i])) = t at *
    have e : (lvdsRun c a t [r]).sys.pack = t.sys.pack.step t.sys.camOut.data t.sys.camOut.valid (!r.ready) true := by
      show Pack40.step _ _ _ _ t.sys.fs.cam.resetOut = _
      rw [hr]
    rw [e]
    exact reset_bound g1.1 g1.2.1 g1.2.2 _ _ _ (cam16_out g2 _)

/-- The words of a frame. -/
theorem link_shape {T : Table} (h : CamSetup c T) (hps : c.int1.ps = 2) (hbd : c.int1.bd = 12) {s : LvdsSys}
    (hs : CamAfterReset c s.sys.fs.cam) (ins : List StreamIn) (i : StreamIn) {w : Nat}
    (hno : ∀ x ∈ lvdsWords c a s ins, x.2 = false) (hw : (w, true) ∈ lvdsWords c a s (ins ++ [i])) :
    ∃ body, lvdsWords c a s (ins ++ [i]) = startMark ++ body ++ endMark w ∧
      ((w = 0xFFFF ∧ ∃ bytes k, k ≤ 1 ∧ wordBytes body = stuff bytes ++ List.replicate k 0) ∨
       (w = 0xFFFE ∧ ∃ bytes, wordBytes body <+: stuff bytes)) := by
  have g1 := camGiven_camIns c a (asStream c a s ins) (fsOf s)
  have g2 := camGiven_camIns c a (asStream c a s (ins ++ [i])) (fsOf s)
  rw [← fs_words] at g1 g2
  have hlast : camIns c a (fsOf s) (asStream c a s (ins ++ [i])) = camIns c a (fsOf s) (asStream c a s ins) ++
      [(streamRun c a (fsOf s) (asStream c a s ins)).sys.camIn (!(lvdsRun c a s ins).sys.pack.oBusy)] := by
    rw [asStream_append, camIns_append]
    rfl
  rw [hlast] at g2
  have hwf : CamWf c (camIns c a (fsOf s) (asStream c a s ins) ++
      [(streamRun c a (fsOf s) (asStream c a s ins)).sys.camIn (!(lvdsRun c a s ins).sys.pack.oBusy)]) := by
    rw [← hlast]; exact camIns_wf hps hbd a _ _
  obtain ⟨body, hb, _, hx⟩ := C30_frame h a (s := (fsOf s).sys.cam) hs _ _ hwf (by rw [g1]; exact hno) w (by rw [g2]; exact hw)
  rw [g2] at hb
  refine ⟨body, hb, ?_⟩
  rcases hx with ⟨e, _, bytes, k, j, hk, _, hx, _⟩ | ⟨e, bytes, hx, _⟩
  · exact Or.inl ⟨e, bytes, k, hk, hx⟩
  · exact Or.inr ⟨e, bytes, hx⟩

/-- One frame, whatever the packer holds. -/
theorem link_frame {T : Table} (h : CamSetup c T) (hps : c.int1.ps = 2) (hbd : c.int1.bd = 12) {s : LvdsSys}
    (hs : CamAfterReset c s.sys.fs.cam) (hB : Bound s.sys.pack) (ins : List StreamIn) (i : StreamIn) {w : Nat}
    (hready : ∀ j ∈ ins ++ [i], j.ready = true)
    (hno : ∀ x ∈ lvdsWords c a s ins, x.2 = false) (hw : (w, true) ∈ lvdsWords c a s (ins ++ [i])) :
    ∃ old o rest, old.length ≤ 3 ∧ rest.length ≤ 2 ∧ lvdsGiven c a s (ins ++ [i]) = old ++ o ∧
      o ++ rest = groups5 (wordBytes (lvdsWords c a s (ins ++ [i]))) := by
  have hq := quiet_reset hs
  obtain ⟨n1, n2⟩ := lnoReset_of (c := c) (a := a) ins (s := s) hq.1 hno
  have hnr := lnoReset_append ins [i] n1 ⟨n2, trivial⟩
  obtain ⟨body, hshape⟩ : ∃ body, (lvdsWords c a s (ins ++ [i])).map (·.1) = List.replicate 8 0xFFFF ++ body := by
    obtain ⟨body, hb, _⟩ := link_shape h hps hbd hs ins i hno hw
    exact ⟨(body ++ endMark w).map (·.1), by rw [hb, List.append_assoc, List.map_append]; rfl⟩
  have hf16 : Fix16 s.sys.fs.cam.fix2 := by
    rw [hq.2.2.1 (by decide)]
    exact ⟨by simp [Fix2.init], by simp [Fix2.init]⟩
  obtain ⟨e2, e3⟩ := lp_taken (ins ++ [i]) s hnr hf16
  have e4 := lp_words (ins ++ [i]) s hnr
  have e1 := lp_given (ins ++ [i]) s hnr
  have hb := lpIns_busy (c := c) (a := a) (ins ++ [i]) s hready
  have hout : 0 < c.out := by rw [h.out]; decide
  have hlen : 5 ≤ (ins ++ [i]).length := by
    apply Classical.byContradiction
    intro hlt
    have hz := quiet_ins (c := c) (a := a) hout (ins ++ [i]) hq (by omega)
    have hempty : ∀ (l : List Pack40In) (p : Pack40), (∀ j ∈ l, j.valid = false) → pack40Words p l = [] := by
      intro l
      induction l with
      | nil => intros; rfl
      | cons j r ih =>
        intro p hj
        simp only [pack40Words, hj j (List.mem_cons_self ..), Bool.false_and, Bool.false_eq_true, if_false, List.nil_append]
        exact ih _ (fun k hk => hj k (List.mem_cons_of_mem _ hk))
    rw [hempty _ _ hz, hshape] at e4
    have := congrArg List.length e4
    simp at this
  have hsplit : ins ++ [i] = (ins ++ [i]).take 5 ++ (ins ++ [i]).drop 5 := (List.take_append_drop 5 _).symm
  have hl5 : ((ins ++ [i]).take 5).length = 5 := by rw [List.length_take]; omega
  have hins : lpIns c a s (ins ++ [i]) = lpIns c a s ((ins ++ [i]).take 5) ++ lpIns c a (lvdsRun c a s ((ins ++ [i]).take 5)) ((ins ++ [i]).drop 5) := by
    rw [← lpIns_append, ← hsplit]
  have hpf := pack_frame_any hB (lpIns c a s ((ins ++ [i]).take 5)) (lpIns c a (lvdsRun c a s ((ins ++ [i]).take 5)) ((ins ++ [i]).drop 5))
    (by rw [lpIns_length]; exact hl5) (quiet_ins hout _ hq (by omega)) (by rw [← hins]; exact hb) (by rw [← hins]; exact e3)
    (B := body) (by rw [← hins, e4]; exact hshape)
  rw [← hins] at hpf
  obtain ⟨⟨old, o, rest, d1, d2, d3, d4⟩, _⟩ := hpf
  exact ⟨old, o, rest, d1, d2, by rw [e1]; exact d3, by rw [d4, ← taken_words, e2]⟩

/-! ### What a receiver gets -/

theorem sync_all (old g : List Nat) (h : old.length ≤ 3) : ∃ d, sync40 (old ++ 0xFFFFFFFFFF :: 0xFFFFFFFFFF :: 0xFFFFFFFFFF :: g) =
    List.replicate d 0xFFFFFFFFFF ++ 0xFFFFFFFFFF :: 0xFFFFFFFFFF :: 0xFFFFFFFFFF :: g := by
  match old, h with
  | [], _ => exact ⟨0, by simp [sync40]⟩
  | [x], _ =>
    by_cases hx : x = 0xFFFFFFFFFF
    · subst hx; exact ⟨1, by simp [sync40]⟩
    · exact ⟨0, by simp [sync40, hx]⟩
  | [x, y], _ =>
    by_cases hy : y = 0xFFFFFFFFFF
    · subst hy
      by_cases hx : x = 0xFFFFFFFFFF
      · subst hx; exact ⟨2, by simp [sync40]⟩
      · exact ⟨1, by simp [sync40, hx]⟩
    · exact ⟨0, by simp [sync40, hy]⟩
  | [x, y, z], _ =>
    by_cases hz : z = 0xFFFFFFFFFF
    · subst hz
      by_cases hy : y = 0xFFFFFFFFFF
      · subst hy
        by_cases hx : x = 0xFFFFFFFFFF
        · subst hx; exact ⟨3, by simp [sync40]⟩
        · exact ⟨2, by simp [sync40, hx]⟩
      · exact ⟨1, by simp [sync40, hy]⟩
    · exact ⟨0, by simp [sync40, hz]⟩
  | _ :: _ :: _ :: _ :: _, h => simp at h

theorem groups5_length : ∀ l : List Nat, (groups5 l).length = l.length / 5
  | a :: b :: c :: d :: e :: r => by
    have := groups5_length r
    simp only [groups5, List.length_cons, this]
    omega
  | [] => rfl
  | [_] => by simp [groups5]
  | [_, _] => by simp [groups5]
  | [_, _, _] => by simp [groups5]
  | [_, _, _, _] => by simp [groups5]

/-- The words after the stale ones start with three words FFFFFFFFFF; what follows is all but at most 14 bytes of the rest of the frame. -/
theorem given_start {old o rest : List Nat} {body : List (Nat × Bool)} {w : Nat} (h1 : old.length ≤ 3) (h2 : rest.length ≤ 2)
    (h3 : o ++ rest = groups5 (wordBytes (startMark ++ body ++ endMark w))) :
    ∃ d g, sync40 (old ++ o) = List.replicate d 0xFFFFFFFFFF ++ g ∧
      g ++ rest = groups5 (0xFF :: (wordBytes body ++ wordBytes (endMark w))) := by
  have hw2 : wordBytes (startMark ++ body ++ endMark w) = List.replicate 15 0xFF ++ 0xFF :: (wordBytes body ++ wordBytes (endMark w)) := by
    simp only [wordBytes, List.flatMap_append, List.append_assoc]
    rfl
  have h4 : groups5 (wordBytes (startMark ++ body ++ endMark w)) = 0xFFFFFFFFFF :: 0xFFFFFFFFFF :: 0xFFFFFFFFFF ::
      groups5 (0xFF :: (wordBytes body ++ wordBytes (endMark w))) := by
    rw [hw2]; rfl
  have hl : 3 ≤ (groups5 (0xFF :: (wordBytes body ++ wordBytes (endMark w)))).length := by
    rw [groups5_length]
    have : (wordBytes (endMark w)).length = 16 := rfl
    simp only [List.length_cons, List.length_append]
    omega
  rw [h4] at h3
  generalize groups5 (0xFF :: (wordBytes body ++ wordBytes (endMark w))) = G at *
  match o, h3 with
  | [], h3 => have := congrArg List.length h3; simp at this; omega
  | [_], h3 => have := congrArg List.length h3; simp at this; omega
  | [_, _], h3 => have := congrArg List.length h3; simp at this; omega
  | x :: y :: z :: g, h3 =>
    simp only [List.cons_append, List.cons.injEq] at h3
    obtain ⟨rfl, rfl, rfl, h3⟩ := h3
    obtain ⟨d, hd⟩ := sync_all old g h1
    exact ⟨d + 3, g, by rw [hd, ← List.replicate_append_replicate, List.append_assoc]; rfl, h3⟩

theorem groups5_lt : ∀ (l : List Nat), (∀ x ∈ l, x < 256) → ∀ w ∈ groups5 l, w < 2 ^ 40
  | a :: b :: c :: d :: e :: r, h, w, hw => by
    simp only [groups5, List.mem_cons] at hw
    have ha := h a (by simp)
    have hb := h b (by simp)
    have hc := h c (by simp)
    have hd := h d (by simp)
    have he := h e (by simp)
    rcases hw with rfl | hw
    · omega
    · exact groups5_lt r (fun x hx => h x (by simp [hx])) w hw
  | [], _, _, hw => by simp [groups5] at hw
  | [_], _, _, hw => by simp [groups5] at hw
  | [_, _], _, _, hw => by simp [groups5] at hw
  | [_, _, _], _, _, hw => by simp [groups5] at hw
  | [_, _, _, _], _, _, hw => by simp [groups5] at hw

/-- The bytes given after the start marker. -/
theorem given_bytes {g rest b E : List Nat} (hb : ∀ x ∈ b, x < 256) (hE : ∀ x ∈ E, x < 256) (hl : E.length = 16) (h2 : rest.length ≤ 2)
    (h : g ++ rest = groups5 (0xFF :: (b ++ E))) : ∃ E' E'', E = E' ++ E'' ∧ 2 ≤ E'.length ∧ g.flatMap (bytesOf 5) = 0xFF :: (b ++ E') ∧
      ∃ r, rest.flatMap (bytesOf 5) ++ r = E'' := by
  obtain ⟨r, e1, e2⟩ := bytes_groups (0xFF :: (b ++ E)) (by
    intro x hx
    simp only [List.mem_cons, List.mem_append] at hx
    rcases hx with rfl | hx | hx
    · decide
    · exact hb x hx
    · exact hE x hx)
  rw [← h, List.flatMap_append, List.append_assoc] at e1
  have hn : (rest.flatMap (bytesOf 5)).length ≤ 10 := by
    match rest, h2 with
    | [], _ => simp
    | [_], _ => simp [bytesOf]
    | [_, _], _ => simp [bytesOf]
    | _ :: _ :: _ :: _, h2 => simp at h2
  have hk : (rest.flatMap (bytesOf 5) ++ r).length ≤ 14 := by rw [List.length_append]; omega
  generalize hT : rest.flatMap (bytesOf 5) ++ r = T at *
  have hs : E = E.take (16 - T.length) ++ E.drop (16 - T.length) := (List.take_append_drop _ _).symm
  rw [hs, ← List.append_assoc, ← List.cons_append] at e1
  obtain ⟨k1, k2⟩ := List.append_inj' e1 (by rw [List.length_drop]; omega)
  exact ⟨_, _, hs, by rw [List.length_take]; omega, k1, r, hT.trans k2⟩

theorem stuff_start {bytes : List Nat} {x y : Nat} {r : List Nat} (h : x :: y :: r <+: stuff bytes) : ¬ (x = 255 ∧ y = 255) := by
  rintro ⟨rfl, rfl⟩
  cases bytes with
  | nil => simp [stuff] at h
  | cons b l =>
    unfold stuff at h
    split at h
    · obtain ⟨t, ht⟩ := h; simp at ht
    · rename_i hne
      obtain ⟨t, ht⟩ := h
      simp only [List.cons_append, List.cons.injEq] at ht
      exact hne ht.1.symm

theorem stripFF_keep (a t : List Nat) {x : Nat} (hx : x ≠ 0xFF) : ∃ t', stripFF (a ++ x :: t) = a ++ x :: t' := by
  have key : ∀ u v : List Nat, ∃ u', (u ++ x :: v).dropWhile (· == 0xFF) = u' ++ x :: v := by
    intro u v
    induction u with
    | nil => exact ⟨[], by rw [List.nil_append, List.dropWhile_cons_of_neg (by simpa using hx)]⟩
    | cons y u ih =>
      by_cases hy : y = 0xFF
      · subst hy
        obtain ⟨u', e⟩ := ih
        exact ⟨u', by rw [List.cons_append, List.dropWhile_cons_of_pos (by rfl), e]⟩
      · exact ⟨y :: u, by rw [List.cons_append, List.dropWhile_cons_of_neg (by simpa using hy)]⟩
  obtain ⟨u', e⟩ := key t.reverse a.reverse
  refine ⟨u'.reverse, ?_⟩
  unfold stripFF
  rw [List.reverse_append, List.reverse_cons, List.append_assoc, List.singleton_append, e]
  simp

end

/-- C98: the pixels that have gone into the core are, at every moment of every run with any receiver, in order and without gaps the first ones of
the words of the source, and all but at most six of those in the words taken from it. -/
theorem C98_pixels_in_order (c : CoreCfg) (a : Nat) (q : List Nat) (ins : List StreamIn) :
    let words := q ++ ins.flatMap (·.arrive)
    let left := (lvdsRun c a ⟨.init c, q⟩ ins).q.length
    let pixels := lvdsPixels c a ⟨.init c, q⟩ ins
    pixels <+: words.flatMap wordPixels ∧ pixels.length + 4 * left ≤ 4 * words.length ∧ 4 * words.length ≤ pixels.length + 4 * left + 6 := by
  have h := C94_pixels_in_order c a q (asStream c a ⟨.init c, q⟩ ins)
  have e := fs_run (c := c) (a := a) ins ⟨.init c, q⟩
  dsimp only at h ⊢
  rw [asStream_arrive] at h
  rw [fs_pixels, show (lvdsRun c a ⟨.init c, q⟩ ins).q = (fsOf (lvdsRun c a ⟨.init c, q⟩ ins)).q from rfl, e]
  exact h

/-- C98: after any number of frames, ended normally or by force and with any receiver, the 40-bit words given in a frame to a receiver that is ready
in every cycle of this frame are at most three old words, followed by the five-byte groups of the bytes of the core's words of this
frame, in order, of which at most two are still inside. -/
theorem C98_every_frame {c : CoreCfg} {a : Nat} {T : Table} (h : CamSetup c T) (hps : c.int1.ps = 2) (hbd : c.int1.bd = 12)
    (q : List Nat) {n : Nat} {hist : List StreamIn} (hn : LinkFrames c a q n hist) (ins : List StreamIn) (i : StreamIn) {w : Nat}
    (hready : ∀ j ∈ ins ++ [i], j.ready = true)
    (hno : ∀ x ∈ lvdsWords c a (lvdsRun c a ⟨.init c, q⟩ hist) ins, x.2 = false)
    (hw : (w, true) ∈ lvdsWords c a (lvdsRun c a ⟨.init c, q⟩ hist) (ins ++ [i])) :
    let words := lvdsWords c a (lvdsRun c a ⟨.init c, q⟩ hist) (ins ++ [i])
    let out := lvdsGiven c a (lvdsRun c a ⟨.init c, q⟩ hist) (ins ++ [i])
    (w = 0xFFFF ∨ w = 0xFFFE) ∧ (∃ body, words = startMark ++ body ++ endMark w) ∧
    ∃ old o rest, old.length ≤ 3 ∧ rest.length ≤ 2 ∧ out = old ++ o ∧ o ++ rest = groups5 (wordBytes words) := by
  intro words out
  obtain ⟨body, hb, hx⟩ := link_shape h hps hbd (link_fresh h hps hbd hn) ins i hno hw
  exact ⟨hx.imp (·.1) (·.1), ⟨body, hb⟩, link_frame h hps hbd (link_fresh h hps hbd hn) (link_bound h hps hbd hn) ins i hready hno hw⟩

section
variable {c : CoreCfg} {a : Nat} {q : List Nat} {hist ins : List StreamIn} {i : StreamIn}

theorem as_words (l : List StreamIn) : lvdsWords c a (lvdsRun c a ⟨.init c, q⟩ hist) l =
    streamGiven c a (streamRun c a ⟨.init c, q⟩ (asStream c a ⟨.init c, q⟩ hist)) (asStream c a (lvdsRun c a ⟨.init c, q⟩ hist) l) := by
  rw [fs_words, fs_run]; rfl

theorem as_pixels (l : List StreamIn) : lvdsPixels c a (lvdsRun c a ⟨.init c, q⟩ hist) l =
    streamPixels c a (streamRun c a ⟨.init c, q⟩ (asStream c a ⟨.init c, q⟩ hist)) (asStream c a (lvdsRun c a ⟨.init c, q⟩ hist) l) := by
  rw [fs_pixels, fs_run]; rfl

theorem as_last (s : LvdsSys) : ∃ j, asStream c a s (ins ++ [i]) = asStream c a s ins ++ [j] :=
  ⟨_, by rw [asStream_append]; rfl⟩

end

/-- C98: whatever the receiver does, a frame that ends normally decodes to exactly the `W*H` pixels that have gone into the core since the last
reset cycle. -/
theorem C98_next_frame {c : CoreCfg} {a : Nat} {T : Table} (h : CamSetup c T) (hps : c.int1.ps = 2) (hbd : c.int1.bd = 12)
    (q : List Nat) {n : Nat} {hist : List StreamIn} (hn : LinkFrames c a q n hist) (ins : List StreamIn) (i : StreamIn)
    (hno : ∀ x ∈ lvdsWords c a (lvdsRun c a ⟨.init c, q⟩ hist) ins, x.2 = false)
    (hw : (0xFFFF, true) ∈ lvdsWords c a (lvdsRun c a ⟨.init c, q⟩ hist) (ins ++ [i])) :
    let words := lvdsWords c a (lvdsRun c a ⟨.init c, q⟩ hist) (ins ++ [i])
    let pixels := lvdsPixels c a (lvdsRun c a ⟨.init c, q⟩ hist) (ins ++ [i])
    pixels.length = c.int1.W * c.int1.H ∧
    ∃ pad, decode T 13 12 c.int1.W (c.int1.W * c.int1.H) []
      (byteBits (unstuff (wordBytes ((words.drop 8).take (words.length - 16))))) = some (pixels, pad) := by
  intro words pixels
  obtain ⟨j, hj⟩ := as_last (c := c) (a := a) (ins := ins) (i := i) (lvdsRun c a ⟨.init c, q⟩ hist)
  have ew : words = _ := as_words (ins ++ [i])
  have ep : pixels = _ := as_pixels (ins ++ [i])
  rw [as_words] at hno hw
  rw [hj] at hw ew ep
  rw [ew, ep]
  exact C94_next_frame h hps hbd a q (link_frames hn) _ j hno hw

/-- C98: a frame that is ended by force decodes to its leading pixels, as many as have their whole code in the data between the markers. -/
theorem C98_forced_frame {c : CoreCfg} {a : Nat} {T : Table} (h : CamSetup c T) (hps : c.int1.ps = 2) (hbd : c.int1.bd = 12)
    (q : List Nat) {n : Nat} {hist : List StreamIn} (hn : LinkFrames c a q n hist) (ins : List StreamIn) (i : StreamIn)
    (hno : ∀ x ∈ lvdsWords c a (lvdsRun c a ⟨.init c, q⟩ hist) ins, x.2 = false)
    (hw : (0xFFFE, true) ∈ lvdsWords c a (lvdsRun c a ⟨.init c, q⟩ hist) (ins ++ [i])) (k : Nat) :
    let words := lvdsWords c a (lvdsRun c a ⟨.init c, q⟩ hist) (ins ++ [i])
    let pixels := lvdsPixels c a (lvdsRun c a ⟨.init c, q⟩ hist) (ins ++ [i])
    let data := byteBits (unstuff (wordBytes ((words.drop 8).take (words.length - 16))))
    k ≤ pixels.length → (encode T 12 c.int1.W (pixels.take k)).length ≤ data.length →
    ∃ pad, decode T 13 12 c.int1.W k [] data = some (pixels.take k, pad) := by
  intro words pixels data
  obtain ⟨j, hj⟩ := as_last (c := c) (a := a) (ins := ins) (i := i) (lvdsRun c a ⟨.init c, q⟩ hist)
  have ew : words = _ := as_words (ins ++ [i])
  have ep : pixels = _ := as_pixels (ins ++ [i])
  have ed : data = byteBits (unstuff (wordBytes ((words.drop 8).take (words.length - 16)))) := rfl
  rw [as_words] at hno hw
  rw [hj] at hw ew ep
  rw [ed, ew, ep]
  exact C94_forced_frame h hps hbd a q (link_frames hn) _ j hno hw k

theorem body_of {words : List (Nat × Bool)} {body : List (Nat × Bool)} {w : Nat} (hb : words = startMark ++ body ++ endMark w) :
    (words.drop 8).take (words.length - 16) = body := by
  subst hb
  rw [List.append_assoc, List.drop_left' (by simp [startMark])]
  rw [show (startMark ++ (body ++ endMark w)).length - 16 = body.length by simp [startMark, endMark]]
  exact List.take_left' rfl

/-- What such a receiver gets of a frame that ends normally are the bytes between the markers. -/
theorem sync_bytes {c : CoreCfg} {a : Nat} {T : Table} (h : CamSetup c T) (hps : c.int1.ps = 2) (hbd : c.int1.bd = 12)
    (q : List Nat) {n : Nat} {hist : List StreamIn} (hn : LinkFrames c a q n hist) (ins : List StreamIn) (i : StreamIn)
    (hready : ∀ j ∈ ins ++ [i], j.ready = true)
    (hno : ∀ x ∈ lvdsWords c a (lvdsRun c a ⟨.init c, q⟩ hist) ins, x.2 = false)
    (hw : (0xFFFF, true) ∈ lvdsWords c a (lvdsRun c a ⟨.init c, q⟩ hist) (ins ++ [i])) :
    let words := lvdsWords c a (lvdsRun c a ⟨.init c, q⟩ hist) (ins ++ [i])
    let out := lvdsGiven c a (lvdsRun c a ⟨.init c, q⟩ hist) (ins ++ [i])
    receive40 (sync40 out) = wordBytes ((words.drop 8).take (words.length - 16)) := by
  intro words out
  obtain ⟨body, hb, hx⟩ := link_shape h hps hbd (link_fresh h hps hbd hn) ins i hno hw
  obtain ⟨old, o, rest, h1, h2, h3, h4⟩ := link_frame h hps hbd (link_fresh h hps hbd hn) (link_bound h hps hbd hn) ins i hready hno hw
  show _ = wordBytes (((lvdsWords c a (lvdsRun c a ⟨.init c, q⟩ hist) (ins ++ [i])).drop 8).take
    ((lvdsWords c a (lvdsRun c a ⟨.init c, q⟩ hist) (ins ++ [i])).length - 16))
  rw [body_of hb]
  rw [hb] at h4
  obtain ⟨d, g, g1, g2⟩ := given_start h1 h2 h4
  obtain ⟨ev, lt⟩ := wordBytes_even body
  have hE : wordBytes (endMark 0xFFFF) = List.replicate 16 0xFF := by decide
  rw [hE] at g2
  obtain ⟨E', E'', k1, k2, k3, r, k4⟩ := given_bytes lt (fun x hx => by rw [List.eq_of_mem_replicate hx]; decide) (by simp) h2 g2
  have hrest : rest = List.replicate rest.length 0xFFFFFFFFFF := by
    rw [List.eq_replicate_iff]
    refine ⟨rfl, ?_⟩
    intro x hx
    have hxl : x < 2 ^ 40 := groups5_lt (0xFF :: (wordBytes body ++ List.replicate 16 0xFF)) (by
      intro y hy
      simp only [List.mem_cons, List.mem_append] at hy
      rcases hy with rfl | hy | hy
      · decide
      · exact lt y hy
      · rw [List.eq_of_mem_replicate hy]; decide) x (by rw [← g2]; exact List.mem_append_right _ hx)
    have hby : ∀ y ∈ bytesOf 5 x, y = 255 := by
      intro y hy
      have : y ∈ List.replicate 16 0xFF := by
        rw [k1, ← k4]
        exact List.mem_append_right _ (List.mem_append_left _ (List.mem_flatMap.2 ⟨x, hx, hy⟩))
      exact List.eq_of_mem_replicate this
    simp only [bytesOf, List.mem_cons, List.not_mem_nil, or_false, forall_eq_or_imp, forall_eq] at hby
    omega
  rw [show out = _ from h3, g1, drop_front, ← drop_back g rest.length, ← hrest, g2, ← drop_front 3]
  rw [show List.replicate 3 0xFFFFFFFFFF ++ groups5 (0xFF :: (wordBytes body ++ List.replicate 16 0xFF)) =
    groups5 (List.replicate 16 0xFF ++ wordBytes body ++ List.replicate 16 0xFF) by rw [List.append_assoc]; rfl]
  rcases hx with ⟨_, bytes, k, hk, hx⟩ | ⟨e, _⟩
  · apply receive40_groups _ lt
    · match hbb : wordBytes body, ev with
      | [], _ => exact Or.inl rfl
      | [_], ev => simp at ev
      | x :: y :: t, _ =>
        refine Or.inr ⟨x, y, t, rfl, ?_⟩
        rw [hbb] at hx
        rcases Nat.le_one_iff_eq_zero_or_eq_one.1 hk with rfl | rfl
        · exact stuff_start (bytes := bytes) (r := t) ⟨[], by simpa using hx⟩
        · cases t with
          | nil =>
            have := congrArg List.getLast? hx
            simp at this
            omega
          | cons z t => exact stuff_start (bytes := bytes) (r := []) (by
              have hlen := congrArg List.length hx
              simp only [List.length_append, List.length_replicate, List.length_cons] at hlen
              have h2 := congrArg (List.take 2) hx
              rw [List.take_append_of_le_length (by omega)] at h2
              have h2 : [x, y] = (stuff bytes).take 2 := h2
              rw [h2]
              exact List.take_prefix _ _)
    · rw [hx]
      rcases Nat.le_one_iff_eq_zero_or_eq_one.1 hk with rfl | rfl
      · simp [stripFF_stuff]
      · exact stripFF_zero _
  · simp at e

/-- C98, the link end to end: after any number of frames, ended normally or by force and with any receiver, a receiver that is ready in every cycle
of this frame and takes the data from the first three consecutive words FFFFFFFFFF on gets exactly the bytes between the markers of a
frame that ends normally, and they decode to the `W*H` pixels that have gone into the core in this frame. -/
theorem C98_receiver {c : CoreCfg} {a : Nat} {T : Table} (h : CamSetup c T) (hps : c.int1.ps = 2) (hbd : c.int1.bd = 12)
    (q : List Nat) {n : Nat} {hist : List StreamIn} (hn : LinkFrames c a q n hist) (ins : List StreamIn) (i : StreamIn)
    (hready : ∀ j ∈ ins ++ [i], j.ready = true)
    (hno : ∀ x ∈ lvdsWords c a (lvdsRun c a ⟨.init c, q⟩ hist) ins, x.2 = false)
    (hw : (0xFFFF, true) ∈ lvdsWords c a (lvdsRun c a ⟨.init c, q⟩ hist) (ins ++ [i])) :
    let out := lvdsGiven c a (lvdsRun c a ⟨.init c, q⟩ hist) (ins ++ [i])
    let pixels := lvdsPixels c a (lvdsRun c a ⟨.init c, q⟩ hist) (ins ++ [i])
    pixels.length = c.int1.W * c.int1.H ∧
    ∃ pad, decode T 13 12 c.int1.W (c.int1.W * c.int1.H) [] (byteBits (unstuff (receive40 (sync40 out)))) = some (pixels, pad) := by
  intro out pixels
  obtain ⟨hl, pad, hd⟩ := C98_next_frame h hps hbd q hn ins i hno hw
  refine ⟨hl, pad, ?_⟩
  rw [show receive40 (sync40 out) = _ from sync_bytes h hps hbd q hn ins i hready hno hw]
  exact hd

/-- What such a receiver gets of a frame that is ended by force are the bytes between the markers and some more. -/
theorem sync_bytes_forced {c : CoreCfg} {a : Nat} {T : Table} (h : CamSetup c T) (hps : c.int1.ps = 2) (hbd : c.int1.bd = 12)
    (q : List Nat) {n : Nat} {hist : List StreamIn} (hn : LinkFrames c a q n hist) (ins : List StreamIn) (i : StreamIn)
    (hready : ∀ j ∈ ins ++ [i], j.ready = true)
    (hno : ∀ x ∈ lvdsWords c a (lvdsRun c a ⟨.init c, q⟩ hist) ins, x.2 = false)
    (hw : (0xFFFE, true) ∈ lvdsWords c a (lvdsRun c a ⟨.init c, q⟩ hist) (ins ++ [i])) :
    let words := lvdsWords c a (lvdsRun c a ⟨.init c, q⟩ hist) (ins ++ [i])
    let out := lvdsGiven c a (lvdsRun c a ⟨.init c, q⟩ hist) (ins ++ [i])
    ∃ more, receive40 (sync40 out) = wordBytes ((words.drop 8).take (words.length - 16)) ++ ([0xFF] ++ more) := by
  intro words out
  obtain ⟨body, hb, hx⟩ := link_shape h hps hbd (link_fresh h hps hbd hn) ins i hno hw
  obtain ⟨old, o, rest, h1, h2, h3, h4⟩ := link_frame h hps hbd (link_fresh h hps hbd hn) (link_bound h hps hbd hn) ins i hready hno hw
  rw [hb] at h4
  obtain ⟨d, g, g1, g2⟩ := given_start h1 h2 h4
  obtain ⟨ev, lt⟩ := wordBytes_even body
  obtain ⟨_, lt'⟩ := wordBytes_even (endMark 0xFFFE)
  obtain ⟨E', E'', k1, k2, k3, _⟩ := given_bytes lt lt' (by rfl) h2 g2
  obtain ⟨bytes, hx⟩ : ∃ bytes, wordBytes body <+: stuff bytes := by
    rcases hx with ⟨e, _⟩ | ⟨_, hx⟩
    · simp at e
    · exact hx
  obtain ⟨t, rfl⟩ : ∃ t, E' = 0xFF :: 0xFE :: t := by
    have hE : wordBytes (endMark 0xFFFE) = [0xFF, 0xFE, 0xFF, 0xFE, 0xFF, 0xFE, 0xFF, 0xFE, 0xFF, 0xFE, 0xFF, 0xFE, 0xFF, 0xFE, 0xFF, 0xFE] := by decide
    rw [hE] at k1
    match E', k2, k1 with
    | [], k2, _ => simp at k2
    | [_], k2, _ => simp at k2
    | x :: y :: t, _, k1 =>
      simp only [List.cons_append, List.cons.injEq] at k1
      obtain ⟨rfl, rfl, _⟩ := k1
      exact ⟨t, rfl⟩
  have hw : g.dropWhile (· == 0xFFFFFFFFFF) = g := by
    cases g with
    | nil => rfl
    | cons x g =>
      apply List.dropWhile_cons_of_neg
      intro hxx
      have hxx : x = 0xFFFFFFFFFF := by simpa using hxx
      subst hxx
      rw [List.flatMap_cons, bytesFF] at k3
      match hbb : wordBytes body, ev with
      | [], _ => rw [hbb] at k3; simp [List.replicate_succ] at k3
      | [_], ev => simp at ev
      | x :: y :: t, _ =>
        rw [hbb] at k3 hx
        simp only [List.replicate_succ, List.cons_append, List.cons.injEq] at k3
        have := stuff_start hx
        omega
  have hrec : receive40 (sync40 out) = stripFF (wordBytes body ++ 0xFF :: 0xFE :: t) := by
    rw [show out = _ from h3, g1, drop_front]
    unfold receive40
    rw [hw, k3]; rfl
  obtain ⟨t', ht⟩ := stripFF_keep (wordBytes body ++ [0xFF]) t (x := 0xFE) (by decide)
  rw [List.append_assoc, List.append_assoc] at ht
  rw [hrec, show wordBytes body ++ 0xFF :: 0xFE :: t = wordBytes body ++ ([0xFF] ++ 0xFE :: t) from rfl, ht]
  refine ⟨0xFE :: t', ?_⟩
  show _ = wordBytes (((lvdsWords c a (lvdsRun c a ⟨.init c, q⟩ hist) (ins ++ [i])).drop 8).take
    ((lvdsWords c a (lvdsRun c a ⟨.init c, q⟩ hist) (ins ++ [i])).length - 16)) ++ _
  rw [body_of hb]

/-- C98, the link end to end for a frame that is ended by force: what such a receiver gets decodes to the leading pixels of the frame, as many as
have their whole code in the data between the markers. -/
theorem C98_receiver_forced {c : CoreCfg} {a : Nat} {T : Table} (h : CamSetup c T) (hps : c.int1.ps = 2) (hbd : c.int1.bd = 12)
    (q : List Nat) {n : Nat} {hist : List StreamIn} (hn : LinkFrames c a q n hist) (ins : List StreamIn) (i : StreamIn)
    (hready : ∀ j ∈ ins ++ [i], j.ready = true)
    (hno : ∀ x ∈ lvdsWords c a (lvdsRun c a ⟨.init c, q⟩ hist) ins, x.2 = false)
    (hw : (0xFFFE, true) ∈ lvdsWords c a (lvdsRun c a ⟨.init c, q⟩ hist) (ins ++ [i])) (k : Nat) :
    let words := lvdsWords c a (lvdsRun c a ⟨.init c, q⟩ hist) (ins ++ [i])
    let out := lvdsGiven c a (lvdsRun c a ⟨.init c, q⟩ hist) (ins ++ [i])
    let pixels := lvdsPixels c a (lvdsRun c a ⟨.init c, q⟩ hist) (ins ++ [i])
    let data := byteBits (unstuff (wordBytes ((words.drop 8).take (words.length - 16))))
    k ≤ pixels.length → (encode T 12 c.int1.W (pixels.take k)).length ≤ data.length →
    ∃ pad, decode T 13 12 c.int1.W k [] (byteBits (unstuff (receive40 (sync40 out)))) = some (pixels.take k, pad) := by
  intro words out pixels data hk hlen
  obtain ⟨pad, hd⟩ := C98_forced_frame h hps hbd q hn ins i hno hw k hk hlen
  obtain ⟨t', ht⟩ := sync_bytes_forced h hps hbd q hn ins i hready hno hw
  obtain ⟨more, hm⟩ := Props.unstuff_prefix (wordBytes ((words.drop 8).take (words.length - 16))) ([0xFF] ++ t')
  rw [show receive40 (sync40 out) = _ from ht, ← hm,
    show ∀ b : List Nat, byteBits (b ++ more) = byteBits b ++ byteBits more from fun b => by simp [byteBits]]
  have := decode_more (show PrefixFree T 13 by have := h.core.table; rwa [hbd] at this) (byteBits more) k [] _ hd
  exact ⟨_, this⟩

/-- C98, progress: if words arrive infinitely often and the receiver is ready infinitely often, the next frame ends, whatever ended the earlier
ones and whatever the packer was left with. -/
theorem C98_next_frame_ends {c : CoreCfg} {T : Table} (h : CamSetup c T) (hps : c.int1.ps = 2) (hbd : c.int1.bd = 12)
    {a : Nat} (ha : a < 2 ^ 24) (q : List Nat) {n : Nat} {hist : List StreamIn} (hn : LinkFrames c a q n hist) (u : Nat → StreamIn)
    (hprod : ∀ n, ∃ m, n ≤ m ∧ (u m).arrive ≠ []) (hcons : ∀ n, ∃ m, n ≤ m ∧ (u m).ready = true) :
    ∃ t w, (w, true) ∈ lvdsWords c a (lvdsRun c a ⟨.init c, q⟩ hist) ((List.range t).map u) := by
  have hf := link_fresh h hps hbd hn
  have hp : ∀ {s : LvdsSys}, s = lvdsRun c a ⟨.init c, q⟩ hist → (s.sys.pack.oBusy = true → isIdle s.sys.pack.fsm = true) := by
    rintro s rfl
    exact run_idle hist (s := ⟨.init c, q⟩) (fun h => by cases h)
  have hu : UnpackInv (unpackPart (fsOf (lvdsRun c a ⟨.init c, q⟩ hist))) := by
    rw [fs_run]
    exact unpackInv_run (s := ⟨.init c, q⟩) _ (unpack_inv_init q)
  generalize hs : lvdsRun c a ⟨.init c, q⟩ hist = s at hf hu
  have hp := hp hs.symm
  clear hs
  let R : PackRun :=
    { p := fun m => (lvdsAt c a s u m).sys.pack
      d := fun m => (lvdsAt c a s u m).sys.camOut.data
      v := fun m => (lvdsAt c a s u m).sys.camOut.valid
      b := fun m => !(u m).ready
      r := fun m => (lvdsAt c a s u m).sys.fs.cam.resetOut
      next := fun m => rfl
      start := hp
      ready := fun m => by obtain ⟨k, h1, h2⟩ := hcons m; exact ⟨k, h1, by simp [h2]⟩ }
  obtain ⟨t, w, hw⟩ := stream_always_ends h hps hbd ha (s0 := fsOf s) hf hu
    (fun m => ⟨(u m).arrive, !(lvdsAt c a s u m).sys.pack.oBusy⟩) hprod
    (fun m => by obtain ⟨k, h1, h2⟩ := R.free m; exact ⟨k, h1, by simpa using h2⟩)
  refine ⟨t, w, ?_⟩
  rw [fs_words, asStream_range]
  exact hw

/-- C98: frame follows frame for ever. -/
theorem C98_frames_for_ever {c : CoreCfg} {T : Table} (h : CamSetup c T) (hps : c.int1.ps = 2) (hbd : c.int1.bd = 12)
    {a : Nat} (ha : a < 2 ^ 24) (q : List Nat)
    (u : Nat → StreamIn) (hprod : ∀ n, ∃ m, n ≤ m ∧ (u m).arrive ≠ []) (hcons : ∀ n, ∃ m, n ≤ m ∧ (u m).ready = true) (n : Nat) :
    ∃ t, LinkFrames c a q n ((List.range t).map u) := by
  induction n with
  | zero => exact ⟨0, .zero⟩
  | succ n ih =>
    obtain ⟨t, ht⟩ := ih
    obtain ⟨t', w, hw⟩ := C98_next_frame_ends h hps hbd ha q ht (fun j => u (t + j))
      (fun m => by obtain ⟨k, h1, h2⟩ := hprod (t + m); exact ⟨k - t, by omega, by rw [show t + (k - t) = k by omega]; exact h2⟩)
      (fun m => by obtain ⟨k, h1, h2⟩ := hcons (t + m); exact ⟨k - t, by omega, by rw [show t + (k - t) = k by omega]; exact h2⟩)
    obtain ⟨k, w', h1, h2⟩ := Forced.first_end (lvdsWords c a (lvdsRun c a ⟨.init c, q⟩ ((List.range t).map u))) rfl _ hw
    refine ⟨t + (k + 1) + 1, ?_⟩
    have e : (List.range (t + (k + 1) + 1)).map u = (List.range t).map u ++ ((List.range k).map (fun j => u (t + j)) ++ [u (t + k)]) ++
        [u (t + (k + 1))] := by
      rw [List.range_succ, List.map_append, Forced.range_shift, List.range_succ, List.map_append]; rfl
    rw [e]
    exact .next ht h1 h2

/-! ### The shipped netlist -/

/-- From the state `s` of the netlist, the cycles `hist` consist of `n` frames, each ended normally or by force and followed by one more
cycle, in which the core resets itself. -/
inductive NetLinkFrames (s : LvNet) : Nat → List StreamIn → Prop
  | zero : NetLinkFrames s 0 []
  | next {n : Nat} {hist ins : List StreamIn} {i r : StreamIn} {w : Nat} (h : NetLinkFrames s n hist)
      (hno : ∀ x ∈ lvNetWords (lvSysRun s hist) ins, x.2 = false)
      (hw : (w, true) ∈ lvNetWords (lvSysRun s hist) (ins ++ [i])) :
      NetLinkFrames s (n + 1) (hist ++ (ins ++ [i]) ++ [r])

/-- The pixels that go from the netlist's width converter into its core. -/
def lvNetPixels : LvNet → List StreamIn → List Nat
  | _, [] => []
  | s, i :: r => (if BetaLvds.top.top_module_valid_in s.net && !BetaLvds.top.top_module_nready s.net then
      [BetaLvds.top.top_module_pixel_in1 s.net, BetaLvds.top.top_module_pixel_in2 s.net] else []) ++ lvNetPixels (s.step i) r

theorem net_pixels (l : List StreamIn) : ∀ {s : LvNet} {t : LvdsSys}, LvRel s t →
    lvNetPixels s l = lvdsPixels betaCore 6666000 t l := by
  induction l with
  | nil => intros; rfl
  | cons i r ih =>
    intro s t h
    rw [lvNetPixels, lvdsPixels, ih (lvRel_step h i)]
    have hn : BetaLvds.top.top_module_nready s.net = t.sys.fs.cam.nready := congrArg NetOut.nready (behaves_out h.core false)
    have hu := h.unpack
    have hv : BetaLvds.top.top_module_valid_in s.net = t.sys.fs.unpack.valid := by rw [← hu]; rfl
    have h1 : BetaLvds.top.top_module_pixel_in1 s.net = t.sys.fs.unpack.data / 2 ^ 12 % 2 ^ 12 := by rw [← hu]; rfl
    have h2 : BetaLvds.top.top_module_pixel_in2 s.net = t.sys.fs.unpack.data % 2 ^ 12 := by
      rw [← hu]
      show slc s.net.u_b64_b32.data_out 0 12 = s.net.u_b64_b32.data_out % 2 ^ 12
      simp [slc]
    rw [hn, hv, h1, h2]

theorem net_link_frames {s : BetaLvds.top.S} (hs : LvStart s) {q : List Nat} {n : Nat} {hist : List StreamIn}
    (h : NetLinkFrames ⟨s, q⟩ n hist) : LinkFrames betaCore 6666000 q n hist := by
  induction h with
  | zero => exact .zero
  | @next n hist ins i r w h hno hw ih =>
    have hr := (lvRel_run hist (lvStart_rel hs q)).1
    rw [(lvRel_run _ hr).2.2] at hno hw
    exact .next ih hno hw

/-- C98 for the netlist: the pixels that have gone into the core are in order and without gaps the first ones of the words of the source. -/
theorem C98_netlist_pixels_in_order (s : BetaLvds.top.S) (hs : LvStart s) (q : List Nat) (ins : List StreamIn) :
    let words := q ++ ins.flatMap (·.arrive)
    let left := (lvSysRun ⟨s, q⟩ ins).q.length
    let pixels := lvNetPixels ⟨s, q⟩ ins
    pixels <+: words.flatMap wordPixels ∧ pixels.length + 4 * left ≤ 4 * words.length ∧ 4 * words.length ≤ pixels.length + 4 * left + 6 := by
  have hr := (lvRel_run ins (lvStart_rel hs q)).1
  have := C98_pixels_in_order betaCore 6666000 q ins
  dsimp only at this ⊢
  rw [net_pixels ins (lvStart_rel hs q), hr.q]
  exact this

/-- C98 for the netlist: after power-up or any external reset and any number of frames, ended normally or by force and with any receiver, what a
receiver that is ready in every cycle of this frame gets of a frame that ends normally decodes to the 4096x3072 pixels that have gone
into the core in this frame. -/
theorem C98_netlist_receiver (s : BetaLvds.top.S) (hs : LvStart s) (q : List Nat) {n : Nat} {hist : List StreamIn}
    (hn : NetLinkFrames ⟨s, q⟩ n hist) (ins : List StreamIn) (i : StreamIn) (hready : ∀ j ∈ ins ++ [i], j.ready = true)
    (hno : ∀ x ∈ lvNetWords (lvSysRun ⟨s, q⟩ hist) ins, x.2 = false)
    (hw : (0xFFFF, true) ∈ lvNetWords (lvSysRun ⟨s, q⟩ hist) (ins ++ [i])) :
    let out := lvNetGiven (lvSysRun ⟨s, q⟩ hist) (ins ++ [i])
    let pixels := lvNetPixels (lvSysRun ⟨s, q⟩ hist) (ins ++ [i])
    pixels.length = 4096 * 3072 ∧
    ∃ pad, decode defaultTable 13 12 4096 (4096 * 3072) [] (byteBits (unstuff (receive40 (sync40 out)))) = some (pixels, pad) := by
  intro out pixels
  have hr := (lvRel_run hist (lvStart_rel hs q)).1
  rw [(lvRel_run _ hr).2.2] at hno hw
  have eo : out = _ := (lvRel_run (ins ++ [i]) hr).2.1
  have ep : pixels = _ := net_pixels (ins ++ [i]) hr
  rw [eo, ep]
  exact C98_receiver beta_setup rfl rfl q (net_link_frames hs hn) ins i hready hno hw

/-- C98 for the netlist: of a frame that is ended by force such a receiver gets the leading pixels. -/
theorem C98_netlist_receiver_forced (s : BetaLvds.top.S) (hs : LvStart s) (q : List Nat) {n : Nat} {hist : List StreamIn}
    (hn : NetLinkFrames ⟨s, q⟩ n hist) (ins : List StreamIn) (i : StreamIn) (hready : ∀ j ∈ ins ++ [i], j.ready = true)
    (hno : ∀ x ∈ lvNetWords (lvSysRun ⟨s, q⟩ hist) ins, x.2 = false)
    (hw : (0xFFFE, true) ∈ lvNetWords (lvSysRun ⟨s, q⟩ hist) (ins ++ [i])) (k : Nat) :
    let words := lvNetWords (lvSysRun ⟨s, q⟩ hist) (ins ++ [i])
    let out := lvNetGiven (lvSysRun ⟨s, q⟩ hist) (ins ++ [i])
    let pixels := lvNetPixels (lvSysRun ⟨s, q⟩ hist) (ins ++ [i])
    let data := byteBits (unstuff (wordBytes ((words.drop 8).take (words.length - 16))))
    k ≤ pixels.length → (encode defaultTable 12 4096 (pixels.take k)).length ≤ data.length →
    ∃ pad, decode defaultTable 13 12 4096 k [] (byteBits (unstuff (receive40 (sync40 out)))) = some (pixels.take k, pad) := by
  intro words out pixels data
  have hr := (lvRel_run hist (lvStart_rel hs q)).1
  rw [(lvRel_run _ hr).2.2] at hno hw
  have ew : words = _ := (lvRel_run (ins ++ [i]) hr).2.2
  have eo : out = _ := (lvRel_run (ins ++ [i]) hr).2.1
  have ep : pixels = _ := net_pixels (ins ++ [i]) hr
  have ed : data = byteBits (unstuff (wordBytes ((words.drop 8).take (words.length - 16)))) := rfl
  rw [ed, ew, eo, ep]
  exact C98_receiver_forced beta_setup rfl rfl q (net_link_frames hs hn) ins i hready hno hw k

/-- C98 for the netlist: with words arriving and the receiver ready again and again, frame follows frame for ever. -/
theorem C98_netlist_frames_for_ever (s : BetaLvds.top.S) (hs : LvStart s) (q : List Nat)
    (u : Nat → StreamIn) (hprod : ∀ n, ∃ m, n ≤ m ∧ (u m).arrive ≠ []) (hcons : ∀ n, ∃ m, n ≤ m ∧ (u m).ready = true) (n : Nat) :
    ∃ t, NetLinkFrames ⟨s, q⟩ n ((List.range t).map u) := by
  obtain ⟨t, ht⟩ := C98_frames_for_ever beta_setup rfl rfl (a := 6666000) (by decide) q u hprod hcons n
  refine ⟨t, ?_⟩
  generalize (List.range t).map u = hist at ht
  induction ht with
  | zero => exact .zero
  | @next n hist ins i r w h hno hw ih =>
    have hr := (lvRel_run hist (lvStart_rel hs q)).1
    rw [← (lvRel_run _ hr).2.2] at hno hw
    exact .next ih hno hw

-- The hypotheses are met, with a limit of 33 cycles: the first frame is ended by force in the 54th cycle, and so is the second, whose words
-- come after two old ones with the end marker of the first; the receiver of C98 gets its bytes, which decode to its first pixels.
set_option maxRecDepth 40000 in
example : let s := lvdsRun tinyStream 33 ⟨.init tinyStream, tinyWords⟩ ([] ++ (tinyReady 53 ++ [⟨[], true⟩]) ++ [⟨[], true⟩])
    let words := lvdsWords tinyStream 33 s (tinyReady 53 ++ [⟨[], true⟩])
    let out := lvdsGiven tinyStream 33 s (tinyReady 53 ++ [⟨[], true⟩])
    let pixels := lvdsPixels tinyStream 33 s (tinyReady 53 ++ [⟨[], true⟩])
    let data := byteBits (unstuff (wordBytes ((words.drop 8).take (words.length - 16))))
    LinkFrames tinyStream 33 tinyWords 1 ([] ++ (tinyReady 53 ++ [⟨[], true⟩]) ++ [⟨[], true⟩]) ∧
    (∀ x ∈ lvdsWords tinyStream 33 s (tinyReady 53), x.2 = false) ∧ (0xFFFE, true) ∈ words ∧ (∀ j ∈ tinyReady 53 ++ [⟨[], true⟩], j.ready = true) ∧
    pixels.take 3 = [1, 2, 3] ∧ (encode defaultTable 12 4 (pixels.take 3)).length ≤ data.length ∧
    out = [0xFFFEFFFEFF, 0xFFFFFFFFFE, 0xFFFFFFFFFF, 0xFFFFFFFFFF, 0xFFFFFFFFFF, 0xFFFE001FC0, 0x07F8017FFF, 0xFEFFFEFFFE, 0xFFFEFFFEFF] ∧
    (decode defaultTable 13 12 4 3 [] (byteBits (unstuff (receive40 (sync40 out))))).map (·.1) = some [1, 2, 3] := by
  refine ⟨LinkFrames.next (w := 0xFFFE) .zero ?_ ?_, ?_, ?_, ?_, ?_, ?_, ?_, ?_⟩ <;> decide +kernel

-- A normally ended frame meets them too: a limit of 1000 cycles, a receiver that is not always ready in the first frame.
set_option maxRecDepth 40000 in
example : let slow : List StreamIn := (List.range 56).map fun k => ⟨[], k != 34⟩
    let s := lvdsRun tinyStream 1000 ⟨.init tinyStream, tinyWords⟩ ([] ++ (slow ++ [⟨[], true⟩]) ++ [⟨[], true⟩])
    LinkFrames tinyStream 1000 tinyWords 1 ([] ++ (slow ++ [⟨[], true⟩]) ++ [⟨[], true⟩]) ∧
    (∀ j ∈ tinyReady 57 ++ [⟨[], true⟩], j.ready = true) ∧
    (∀ x ∈ lvdsWords tinyStream 1000 s (tinyReady 57), x.2 = false) ∧ (0xFFFF, true) ∈ lvdsWords tinyStream 1000 s (tinyReady 57 ++ [⟨[], true⟩]) := by
  refine ⟨LinkFrames.next (w := 0xFFFF) .zero ?_ ?_, ?_, ?_, ?_⟩ <;> decide +kernel

-- Such schedules exist, and the netlist starts as required.
example : (let u : Nat → StreamIn := fun n => ⟨if n % 3 = 0 then [n] else [], n % 5 == 0⟩
    (∀ n, ∃ m, n ≤ m ∧ (u m).arrive ≠ []) ∧ (∀ n, ∃ m, n ≤ m ∧ (u m).ready = true)) ∧ LvStart BetaLvds.top.powerUp :=
  ⟨⟨fun n => ⟨3 * n, by omega, by simp⟩, fun n => ⟨5 * n, by omega, by simp⟩⟩, _, [], BetaLvds.top.powerUp_init, rfl, Or.inl rfl⟩

-- C98 (limit of the code): the packer is not emptied at a forced end; the first words of the next frame may belong to the end marker of the
-- one before, and a receiver that only skips leading words FFFFFFFFFF takes them for data.
set_option maxRecDepth 40000 in
theorem C98_stale_words_limit :
    let s := lvdsRun tinyStream 33 ⟨.init tinyStream, tinyWords⟩ (tinyReady 55)
    let out := lvdsGiven tinyStream 33 s (tinyReady 54)
    LinkFrames tinyStream 33 tinyWords 1 (tinyReady 55) ∧ (0xFFFE, true) ∈ lvdsWords tinyStream 33 s (tinyReady 54) ∧
    out.take 5 = [0xFFFEFFFEFF, 0xFFFFFFFFFE, 0xFFFFFFFFFF, 0xFFFFFFFFFF, 0xFFFFFFFFFF] ∧
    (receive40 out).take 4 = [0xFE, 0xFF, 0xFE, 0xFF] ∧ (receive40 (sync40 out)).take 4 = [0xFE, 0x00, 0x1F, 0xC0] := by
  refine ⟨show LinkFrames tinyStream 33 tinyWords 1 ([] ++ (tinyReady 53 ++ [⟨[], true⟩]) ++ [⟨[], true⟩]) from
    LinkFrames.next (w := 0xFFFE) .zero ?_ ?_, ?_, ?_, ?_⟩ <;> decide +kernel

end Props.LvdsForced
