/- Property theorems C86: what follows a forced end. -/
import Verif.Props.Frames

set_option autoImplicit false

namespace Props.Forced
open Spec Model Props

/-- The run `hist` from power-up consists of `n` frames, each ended normally or by force and followed by its reset
cycle. Within a frame no end-flagged word is given before its last cycle. -/
inductive Frames (c : CoreCfg) (allowed : Nat) : Nat → List CamIn → Prop
  | zero : Frames c allowed 0 []
  | next {n : Nat} {hist ins : List CamIn} {i r : CamIn} {w : Nat} (h : Frames c allowed n hist)
      (hno : ∀ x ∈ camGiven c allowed (camRun c allowed (Cam.init c) hist) ins, x.2 = false)
      (hw : (w, true) ∈ camGiven c allowed (camRun c allowed (Cam.init c) hist) (ins ++ [i])) :
      Frames c allowed (n + 1) (hist ++ (ins ++ [i]) ++ [r])

theorem frames_fresh {c : CoreCfg} {T : Table} (h : CamSetup c T) (allowed : Nat) {n : Nat} {hist : List CamIn}
    (hn : Frames c allowed n hist) (hwf : CamWf c hist) : CamAfterReset c (camRun c allowed (Cam.init c) hist) := by
  induction hn with
  | zero => exact init_afterReset c
  | @next n hist ins i r w hf hno hw ih =>
    have h1 := ih (fun j hj => hwf j (by simp [hj]))
    have hwf1 : CamWf c (ins ++ [i]) := fun j hj => hwf j (by
      simp only [List.mem_append] at hj ⊢; exact Or.inl (Or.inr hj))
    obtain ⟨D, P, M, forced, hi⟩ := frame_run_last h allowed ins i h1 hwf1 hno
    have hr : (camRun c allowed (camRun c allowed (Cam.init c) hist) (ins ++ [i])).resetOut = true :=
      ((C28_first_pulse c allowed h1 ins hno).2 i).2 ⟨_, hw⟩
    rw [camRun_append, camRun_append]
    exact (reach_step h allowed ⟨_, _, _, _, _, _, hi⟩ r (hwf r (by simp))).2 hr

/-- Dropping the byte after every FF of a prefix of a stuffed string gives a prefix of the string. -/
theorem unstuff_prefix : ∀ (bytes p : List Nat), p <+: stuff bytes → unstuff p <+: bytes
  | [], p, h => by
    have : p = [] := by simpa [stuff] using h
    subst this; exact List.prefix_refl _
  | b :: l, [], _ => List.nil_prefix
  | b :: l, [x], h => by
    have : x = b := by
      unfold stuff at h
      split at h <;> obtain ⟨t, ht⟩ := h <;> simp at ht <;> simp_all
    subst this
    exact ⟨l, rfl⟩
  | b :: l, x :: y :: p, h => by
    unfold stuff at h
    by_cases hb : b = 255
    · rw [if_pos hb] at h
      have hx := (List.cons_prefix_cons.1 h)
      have hy := (List.cons_prefix_cons.1 hx.2)
      obtain ⟨rfl, _⟩ := hx
      obtain ⟨rfl, hp⟩ := hy
      rw [hb]
      simp only [unstuff, if_true]
      exact List.cons_prefix_cons.2 ⟨rfl, unstuff_prefix l p hp⟩
    · rw [if_neg hb] at h
      obtain ⟨rfl, hp⟩ := List.cons_prefix_cons.1 h
      simp only [unstuff, if_neg hb]
      exact List.cons_prefix_cons.2 ⟨rfl, unstuff_prefix l (y :: p) hp⟩

/-- C86: after any number of frames, ended normally or by force, a frame that ends normally holds exactly the `W*H` pixels accepted since the
last reset cycle: the pixels number `m` to `m+W*H-1` of all accepted ones if `m` were accepted before. In particular the core
does not wait for the begin of an image: after a forced end `m` need not be a multiple of `W*H`. -/
theorem C86_next_frame {c : CoreCfg} {T : Table} (h : CamSetup c T) (hbd : c.int1.bd ≤ 15) (allowed : Nat) {n : Nat}
    {hist : List CamIn} (hn : Frames c allowed n hist) (ins : List CamIn) (i : CamIn) (hwf : CamWf c (hist ++ (ins ++ [i])))
    (hno : ∀ x ∈ camGiven c allowed (camRun c allowed (Cam.init c) hist) ins, x.2 = false)
    (hw : (0xFFFF, true) ∈ camGiven c allowed (camRun c allowed (Cam.init c) hist) (ins ++ [i])) :
    let words := camGiven c allowed (camRun c allowed (Cam.init c) hist) (ins ++ [i])
    let all := camAccepted c allowed (Cam.init c) (hist ++ (ins ++ [i]))
    let m := (camAccepted c allowed (Cam.init c) hist).length
    all.length = m + c.int1.W * c.int1.H ∧
    ∃ pad, decode T (c.int1.bd + 1) c.int1.bd c.int1.W (c.int1.W * c.int1.H) []
      (byteBits (unstuff (wordBytes ((words.drop 8).take (words.length - 16))))) = some (all.drop m, pad) := by
  intro words all m
  have h1 := frames_fresh h allowed hn (fun j hj => hwf j (by simp [hj]))
  have hwf1 : CamWf c (ins ++ [i]) := fun j hj => hwf j (by
    simp only [List.mem_append] at hj ⊢; exact Or.inr hj)
  have e : all = camAccepted c allowed (Cam.init c) hist ++
      camAccepted c allowed (camRun c allowed (Cam.init c) hist) (ins ++ [i]) := camAccepted_append ..
  obtain ⟨body, _, _, hb⟩ := C30_frame h allowed h1 ins i hwf1 hno 0xFFFF hw
  have hlen : (camAccepted c allowed (camRun c allowed (Cam.init c) hist) (ins ++ [i])).length = c.int1.W * c.int1.H := by
    rcases hb with ⟨_, hl, _⟩ | ⟨hx, _⟩
    · exact hl
    · simp at hx
  refine ⟨by rw [e, List.length_append, hlen], ?_⟩
  rw [e, List.drop_left' rfl]
  exact C30_image_recovered h hbd allowed h1 ins i hwf1 hno hw

/-- C86: a frame that is ended by force (marker FFFE) still shows the begin of its image: for every `k`, if the codes of the first `k` pixels
accepted since the last reset cycle fit into the data between the markers, then these data decode to exactly these pixels. -/
theorem C86_forced_frame {c : CoreCfg} {T : Table} (h : CamSetup c T) (hbd : c.int1.bd ≤ 15) (allowed : Nat) {n : Nat}
    {hist : List CamIn} (hn : Frames c allowed n hist) (ins : List CamIn) (i : CamIn) (hwf : CamWf c (hist ++ (ins ++ [i])))
    (hno : ∀ x ∈ camGiven c allowed (camRun c allowed (Cam.init c) hist) ins, x.2 = false)
    (hw : (0xFFFE, true) ∈ camGiven c allowed (camRun c allowed (Cam.init c) hist) (ins ++ [i])) (k : Nat) :
    let words := camGiven c allowed (camRun c allowed (Cam.init c) hist) (ins ++ [i])
    let image := (camAccepted c allowed (Cam.init c) (hist ++ (ins ++ [i]))).drop (camAccepted c allowed (Cam.init c) hist).length
    let data := byteBits (unstuff (wordBytes ((words.drop 8).take (words.length - 16))))
    k ≤ image.length → (encode T c.int1.bd c.int1.W (image.take k)).length ≤ data.length →
    ∃ pad, decode T (c.int1.bd + 1) c.int1.bd c.int1.W k [] data = some (image.take k, pad) := by
  intro words image data hk hfit
  have h1 := frames_fresh h allowed hn (fun j hj => hwf j (by simp [hj]))
  have hwf1 : CamWf c (ins ++ [i]) := fun j hj => hwf j (by
    simp only [List.mem_append] at hj ⊢; exact Or.inr hj)
  have e : image = camAccepted c allowed (camRun c allowed (Cam.init c) hist) (ins ++ [i]) := by
    show (camAccepted c allowed (Cam.init c) (hist ++ (ins ++ [i]))).drop _ = _
    rw [camAccepted_append, List.drop_left' rfl]
  obtain ⟨body, hg, _, hb⟩ := C30_frame h allowed h1 ins i hwf1 hno 0xFFFE hw
  have hbody : (words.drop 8).take (words.length - 16) = body := by
    show (List.drop 8 (camGiven c allowed (camRun c allowed (Cam.init c) hist) (ins ++ [i]))).take
      ((camGiven c allowed (camRun c allowed (Cam.init c) hist) (ins ++ [i])).length - 16) = body
    rw [hg, List.append_assoc, List.drop_left' (by simp [startMark])]
    rw [show (startMark ++ (body ++ endMark 0xFFFE)).length - 16 = body.length by
      simp [startMark, endMark]]
    exact List.take_left' rfl
  have hdata : data = byteBits (unstuff (wordBytes body)) := by
    show byteBits (unstuff (wordBytes ((words.drop 8).take (words.length - 16)))) = _
    rw [hbody]
  have hpre : ∃ j, data <+: encode T c.int1.bd c.int1.W image ++ List.replicate j false := by
    rw [hdata, e]
    have hby : ∀ bytes, wordBytes body <+: stuff bytes → byteBits (unstuff (wordBytes body)) <+: byteBits bytes := by
      intro bytes hp
      obtain ⟨t, ht⟩ := unstuff_prefix bytes _ hp
      exact ⟨byteBits t, by rw [← ht]; simp [byteBits]⟩
    rcases hb with ⟨hx, _⟩ | ⟨_, bytes, hp, hb | ⟨_, j, _, hb⟩⟩
    · simp at hx
    · exact ⟨0, by simpa using (hby bytes hp).trans hb⟩
    · exact ⟨j, by rw [← hb]; exact hby bytes hp⟩
  obtain ⟨j, hpre⟩ := hpre
  have hbd2 := h.core.legal.frame.bd2
  have hW4 := h.core.legal.frame.W4
  have henc : encode T c.int1.bd c.int1.W (image.take k) <+: encode T c.int1.bd c.int1.W image ++ List.replicate j false := by
    have := encode_append (T := T) (bd := c.int1.bd) hW4 (image.drop k) (image.take k)
    rw [List.take_append_drop] at this
    rw [this, List.append_assoc]
    exact List.prefix_append _ _
  obtain ⟨pad, hpad⟩ := List.prefix_of_prefix_length_le henc hpre hfit
  refine ⟨pad, ?_⟩
  have hlt : ∀ x ∈ image.take k, x < 2 ^ c.int1.bd := by
    intro x hx
    have hx := List.mem_of_mem_take hx
    rw [e] at hx
    obtain ⟨D, P, M, forced, hi⟩ := frame_run_last h allowed ins i h1 hwf1 hno
    obtain ⟨kk, hc⟩ := hi.core
    exact Int3.inv_bound hc x hx
  have := decode_encode h.core.table (n := c.int1.bd + 1) (by omega) (by omega) hbd hW4 (image.take k) hlt pad
  rw [hpad, List.length_take, Nat.min_eq_left hk] at this
  exact this

/-- C86: the pixels accepted in the reset cycle belong to no frame. After a normal end there are none. -/
theorem C86_reset_cycle {c : CoreCfg} {T : Table} (h : CamSetup c T) (allowed : Nat) {n : Nat}
    {hist : List CamIn} (hn : Frames c allowed n hist) (ins : List CamIn) (i r : CamIn) (hwf : CamWf c (hist ++ (ins ++ [i])))
    (hno : ∀ x ∈ camGiven c allowed (camRun c allowed (Cam.init c) hist) ins, x.2 = false)
    (hw : (0xFFFF, true) ∈ camGiven c allowed (camRun c allowed (Cam.init c) hist) (ins ++ [i])) :
    camAccepted c allowed (Cam.init c) (hist ++ (ins ++ [i]) ++ [r]) = camAccepted c allowed (Cam.init c) (hist ++ (ins ++ [i])) := by
  have h1 := frames_fresh h allowed hn (fun j hj => hwf j (by simp [hj]))
  have hwf1 : CamWf c (ins ++ [i]) := fun j hj => hwf j (by
    simp only [List.mem_append] at hj ⊢; exact Or.inr hj)
  obtain ⟨D, P, M, forced, hi⟩ := frame_run_last h allowed ins i h1 hwf1 hno
  obtain ⟨body, _, _, hb⟩ := C30_frame h allowed h1 ins i hwf1 hno 0xFFFF hw
  have hlen : (camAccepted c allowed (camRun c allowed (Cam.init c) hist) (ins ++ [i])).length = c.int1.W * c.int1.H := by
    rcases hb with ⟨_, hl, _⟩ | ⟨hx, _⟩
    · exact hl
    · simp at hx
  have hnr := full_not_ready h hi hlen
  rw [camAccepted_append, camRun_append]
  simp [camAccepted, hnr]

/-! ### No end without data -/

theorem fix2_empty {s : Fix2} {sent : List (Nat × Bool)} (h : s.Inv sent []) : s.valid = false := by
  rcases h with h | ⟨g, extra, hg, ⟨l, x, hl, _⟩, _⟩
  · have hs := h.stream
    cases hv : s.valid with
    | false => rfl
    | true =>
      have : s.queue = (s.data, s.endd) :: (if s.regValid then [(s.regData, s.regEnd)] else []) := by
        unfold Fix2.queue
        rcases h.fsm with ⟨hf, _⟩ | ⟨hf, _⟩ <;> rw [hf] <;> simp [hv]
      rw [this] at hs
      simp [wordBytes, bytesOf, Fix2.packetBytes] at hs
  · rw [hl] at hg
    simp at hg

/-- C86: the forced end does not fire before there is data: as long as the codes of the pixels accepted since the reset cycle are
shorter than one output word and the frame is not complete, nothing at all is given — no marker and no end — however many
cycles pass and whatever the cycle limit is. -/
theorem C86_no_end_without_data {c : CoreCfg} {T : Table} (h : CamSetup c T) (allowed : Nat) {s : Cam} (hs : CamAfterReset c s) :
    ∀ (ins : List CamIn), CamWf c ins → (camAccepted c allowed s ins).length < c.int1.W * c.int1.H →
    (encode T c.int1.bd c.int1.W (camAccepted c allowed s ins)).length < 16 → camGiven c allowed s ins = [] := by
  have key : ∀ (ins : List CamIn), CamWf c ins → (camAccepted c allowed s ins).length < c.int1.W * c.int1.H →
      (encode T c.int1.bd c.int1.W (camAccepted c allowed s ins)).length < 16 →
      camGiven c allowed s ins = [] ∧ (camRun c allowed s ins).marks.fsm = .idle := by
    intro ins
    induction ins using snoc_induction with
    | h0 =>
      intro _ _ _
      obtain ⟨m, _, rfl⟩ := hs
      exact ⟨rfl, rfl⟩
    | h1 ins i ih =>
      intro hwf hlen hcode
      rw [camAccepted_append] at hlen hcode
      rw [List.length_append] at hlen
      rw [encode_append h.core.legal.frame.W4, List.length_append] at hcode
      obtain ⟨g, f⟩ := ih (fun j hj => hwf j (List.mem_append_left _ hj)) (by omega) (by omega)
      have hs2 := hs
      obtain ⟨m, hm, rfl⟩ := hs2
      obtain ⟨⟨D, P, M, forced, hi⟩, hr⟩ := frame_run h allowed ins (Cam.inv_reset h.core hm) rfl
        (fun j hj => hwf j (List.mem_append_left _ hj)) (by rw [g]; intro x hx; cases hx)
      obtain ⟨k, hc⟩ := hi.core
      obtain ⟨f1, f2⟩ := Cam.core_facts h.core hc
      rw [List.nil_append] at f1 f2
      have hD : D = [] := by
        cases hD : D with
        | nil => rfl
        | cons x D' =>
          rw [hD] at f1 f2
          cases hx : x.2 with
          | true =>
            have := (f2 x.1 (by rw [← hx]; exact List.mem_cons_self ..)).1
            omega
          | false =>
            have hb : beforeEnd (x :: D') = x :: beforeEnd D' := by simp [beforeEnd, hx]
            rw [hb] at f1
            have := f1.length_le
            rw [h.out] at this
            have hle : 16 ≤ (wordBits 16 (x :: beforeEnd D')).length := by
              simp [wordBits]
            omega
      have hP : P = [] := by
        have := hi.packets
        rw [hD] at this
        simp at this
        exact this.1
      have hv : (camRun c allowed (Cam.reset c m) ins).fix2.valid = false := fix2_empty (hP ▸ hi.fix2)
      rw [camGiven_append, camRun_append, g]
      generalize camRun c allowed (Cam.reset c m) ins = t at *
      have ho : (t.out i.busy).valid = false := by simp [Cam.out, Markers.out, f]
      refine ⟨by simp [camGiven, ho], ?_⟩
      show (t.betaStep c allowed i).marks.fsm = .idle
      simp [Cam.betaStep, hr, Cam.betaRun, Markers.step, f, Cam.markIn, hv]
  exact fun ins h1 h2 h3 => (key ins h1 h2 h3).1

/-! ### A run -/

/-- Five pixels of a 4×2 image, then a producer that stops. -/
def stopIns : List CamIn := List.replicate 8 ⟨[0], false, false⟩ ++ [⟨[0], true, false⟩, ⟨[15], true, false⟩, ⟨[1], true, false⟩,
  ⟨[14], true, false⟩, ⟨[2], true, false⟩] ++ List.replicate 66 ⟨[0], false, false⟩

/-- The rest of the image and the begin of the next. -/
def restIns : List CamIn := List.replicate 8 ⟨[13], true, false⟩ ++ [⟨[13], true, false⟩, ⟨[4], true, false⟩, ⟨[9], true, false⟩,
  ⟨[8], true, false⟩, ⟨[7], true, false⟩, ⟨[6], true, false⟩, ⟨[5], true, false⟩, ⟨[12], true, false⟩] ++ List.replicate 32 ⟨[11], true, false⟩

-- C86 (limit of the code): a producer sends the image 0 15 1 14 2 3 13 4 and then 9 8 7 6 5 12 ..., pausing after the fifth pixel.
-- The frame is ended by force; the sixth pixel, 3, is accepted in the reset cycle and lost; the next frame ends normally and holds the
-- last two pixels of the first image and the first six of the second.
set_option maxRecDepth 40000 in
theorem C86_no_resynchronisation :
    let h : List CamIn := [] ++ (stopIns ++ [⟨[3], false, false⟩]) ++ [⟨[3], true, false⟩]
    let s := camRun tinyCam 60 (Cam.init tinyCam) h
    let words := camGiven tinyCam 60 s (restIns ++ [⟨[11], true, false⟩])
    Frames tinyCam 60 1 h ∧ (0xFFFE, true) ∈ camGiven tinyCam 60 (Cam.init tinyCam) (stopIns ++ [⟨[3], false, false⟩]) ∧
    camAccepted tinyCam 60 (Cam.init tinyCam) h = [0, 15, 1, 14, 2, 3] ∧
    (∀ x ∈ camGiven tinyCam 60 s restIns, x.2 = false) ∧ (0xFFFF, true) ∈ words ∧
    (decode defaultTable 5 4 4 8 [] (byteBits (unstuff (wordBytes ((words.drop 8).take (words.length - 16)))))).map (·.1) =
      some [13, 4, 9, 8, 7, 6, 5, 12] := by
  refine ⟨Frames.next .zero ?_ (w := 0xFFFE) ?_, ?_, ?_, ?_, ?_, ?_⟩ <;> decide +kernel

-- The forced frame of this run has one word of data, and the codes of the first two pixels fit into it, those of three do not.
set_option maxRecDepth 40000 in
example : let words := camGiven tinyCam 60 (Cam.init tinyCam) (stopIns ++ [⟨[3], false, false⟩])
    let data := byteBits (unstuff (wordBytes ((words.drop 8).take (words.length - 16))))
    data.length = 16 ∧ (encode defaultTable 4 4 [0, 15]).length ≤ 16 ∧ (decode defaultTable 5 4 4 2 [] data).map (·.1) = some [0, 15] := by
  decide +kernel

-- C86_no_end_without_data: two pixels, 110 cycles, limit 10.
set_option maxRecDepth 40000 in
example : let ins : List CamIn := List.replicate 8 ⟨[0], false, false⟩ ++ [⟨[8], true, false⟩, ⟨[8], true, false⟩] ++ List.replicate 100 ⟨[0], false, false⟩
    camAccepted tinyCam 10 (Cam.init tinyCam) ins = [8, 8] ∧ (encode defaultTable 4 4 [8, 8]).length < 16 ∧ CamAfterReset tinyCam (Cam.init tinyCam) := by
  refine ⟨?_, ?_, init_afterReset _⟩ <;> decide +kernel

end Props.Forced
