/- Property theorems C68: what a frame of the micro core contains. -/
import Verif.Props.Micro
import Verif.Props.Forced

set_option autoImplicit false

namespace Props
open Spec Model

/-- Words (without end flags) of a word list. -/
abbrev unflag (l : List (Nat × Bool)) : List (Nat × Bool) := Markers.plain l

/-- Where the words that the second stuffing stage has given went: `lost` before the start marker was out, `got` into
the frame, `rest` after the forced end. -/
def Share (s : Cam) (lost rest : List (Nat × Bool)) : Prop :=
  match s.marks.fsm with
  | .idle => lost = [] ∧ rest = []
  | .startMarker => lost.length + s.marks.counter ≤ 9 ∧ (lost = [] → s.fix2.valid = true ∧ s.marks.counter = 8) ∧ rest = []
  | .frame => 1 ≤ lost.length ∧ lost.length ≤ 10 ∧ rest = []
  | _ => 1 ≤ lost.length ∧ lost.length ≤ 10

/-- Invariant of the micro core between resets: `acc` pixels accepted, `D` words from the core, `P` packets from the
first stuffing stage, `lost ++ got ++ rest` words from the second one, `G` words given. -/
structure MicroInv (c : CoreCfg) (T : Table) (s : Cam) (acc : List Nat) (D : List (Nat × Bool)) (P : List Packet)
    (lost got rest G : List (Nat × Bool)) (forced : Prop) : Prop where
  core : ∃ k, Int3.Inv c (c.int1.W / c.int1.ps) T acc k s.core D
  fix1 : s.fix1.Inv
  packets : P ++ s.fix1.queue = (unflag D).map packetOf
  fix2 : s.fix2.Inv (lost ++ got ++ rest) P
  marks : s.marks.Inv G got forced
  share : Share s lost rest
  noEnd : NoEnd s

theorem microInv_reset {c : CoreCfg} {T : Table} (h : CoreSetup c T) {m : Kept} (hm : m.Ok c) :
    MicroInv c T (Cam.reset c m) [] [] [] [] [] [] [] False :=
  ⟨⟨0, Int3.inv_reset h.ok hm⟩, Fix1.inv_init, rfl, Fix2.inv_init, Markers.inv_init _, ⟨rfl, rfl⟩, noEnd_reset c m⟩

/-- The share of the words after a cycle. -/
theorem share_step {s : Cam} {lost got rest G : List (Nat × Bool)} {forced : Prop} (h : Share s lost rest) (hne : NoEnd s)
    (hm : s.marks.Inv G got forced) (i : CamIn) {s' : Cam} (h1 : s'.marks = s.marks.step (s.markIn i.busy))
    (h2 : i.busy = true → s.fix2.valid = true → s'.fix2.valid = true) :
    ∃ lost' rest', Share s' lost' rest' ∧
      lost' ++ (got ++ s.marks.taken (s.markIn i.busy)) ++ rest' = lost ++ got ++ rest ++ s.fix2.transfer i.busy := by
  obtain ⟨he, hx, hy⟩ := hne.mks
  unfold Share at h
  unfold Markers.Inv at hm
  have hfe := hne.f2.1
  cases hf : s.marks.fsm with
  | idle =>
    rw [hf] at h hm
    obtain ⟨rfl, rfl⟩ := h
    obtain ⟨rfl, rfl⟩ := hm
    refine ⟨s.fix2.transfer i.busy, [], ?_, ?_⟩
    · unfold Share
      rw [h1]
      simp only [Markers.step, hf, Cam.markIn, Fix2.transfer]
      by_cases hv : s.fix2.valid = true
      · cases hb : i.busy with
        | false => simp [hv]
        | true => simpa [hv] using h2 hb hv
      · simp [hv]
    · simp [Markers.taken, Markers.out, hf]
  | startMarker =>
    rw [hf] at h hm
    obtain ⟨ha, hb, rfl⟩ := h
    obtain ⟨rfl, -, -, -⟩ := hm
    have ht : s.marks.taken (s.markIn i.busy) = [] := by
      simp only [Markers.taken, Markers.out, hf]
      by_cases hc : (!(s.markIn i.busy).busy && decide (s.marks.counter = 0)) = true <;> simp [hc]
    refine ⟨lost ++ s.fix2.transfer i.busy, [], ?_, by rw [ht]; simp⟩
    unfold Share
    rw [h1]
    have hl : (s.fix2.transfer i.busy).length ≤ 1 := by
      unfold Fix2.transfer; split <;> simp
    cases hbz : i.busy with
    | true =>
      simp only [Markers.step, hf, Cam.markIn, Fix2.transfer, Bool.not_true, Bool.and_false, Bool.false_eq_true, if_false,
        List.append_nil]
      refine ⟨ha, ?_, trivial⟩
      intro h0
      exact ⟨h2 hbz (hb h0).1, (hb h0).2⟩
    | false =>
      have hn : lost ++ s.fix2.transfer false ≠ [] := by
        intro h0
        rw [List.append_eq_nil_iff] at h0
        have := (hb h0.1).1
        simp [Fix2.transfer, this] at h0
      have hpos : 1 ≤ (lost ++ s.fix2.transfer false).length := List.length_pos_iff.2 hn
      rw [hbz] at hl
      simp only [Markers.step, hf, Cam.markIn, Bool.not_false, if_true]
      by_cases hc : s.marks.counter = 0
      · simp only [hc, if_true]
        refine ⟨hpos, ?_, trivial⟩
        simp only [List.length_append]; omega
      · simp only [if_neg hc]
        have hd : Markers.dec s.marks.counter = s.marks.counter - 1 := by unfold Markers.dec; omega
        refine ⟨?_, fun h0 => absurd h0 hn, trivial⟩
        simp only [List.length_append, hd]; omega
  | frame =>
    rw [hf] at h hm
    obtain ⟨ha, hb, rfl⟩ := h
    cases hfo : s.fend.fend with
    | false =>
      refine ⟨lost, [], ?_, ?_⟩
      · unfold Share
        rw [h1]
        simp only [Markers.step, hf, Cam.markIn, he, hfo, Bool.false_eq_true, if_false]
        exact ⟨ha, hb, trivial⟩
      · have ht : s.marks.taken (s.markIn i.busy) = s.fix2.transfer i.busy := by
          simp only [Markers.taken, Markers.out, hf, Cam.markIn, he, hfo, Bool.false_eq_true, if_false, Fix2.transfer]
        rw [ht]; simp
    | true =>
      refine ⟨lost, s.fix2.transfer i.busy, ?_, ?_⟩
      · unfold Share
        rw [h1]
        simp only [Markers.step, hf, Cam.markIn, he, hfo, Bool.false_eq_true, if_false, if_true]
        exact ⟨ha, hb⟩
      · simp [Markers.taken, Markers.out, hf, Cam.markIn, he, hfo]
  | endMarker => exact absurd hf hx
  | doneNormal => exact absurd hf hy
  | forceMarker =>
    rw [hf] at h
    refine ⟨lost, rest ++ s.fix2.transfer i.busy, ?_, by simp [Markers.taken, Markers.out, hf]⟩
    unfold Share
    rw [h1]
    have hfs : (s.marks.step (s.markIn i.busy)).fsm = .doneForce ∨ (s.marks.step (s.markIn i.busy)).fsm = .forceMarker := by
      simp only [Markers.step, hf]
      repeat' split
      all_goals simp
    rcases hfs with hfs | hfs <;> rw [hfs] <;> exact h
  | doneForce =>
    rw [hf] at h
    refine ⟨lost, rest ++ s.fix2.transfer i.busy, ?_, by simp [Markers.taken, Markers.out, hf]⟩
    unfold Share
    rw [h1]
    simp only [Markers.step, hf]
    exact h

theorem micro_step_ok {c : CoreCfg} {T : Table} (h : CoreSetup c T) (allowed : Nat) {s : Cam} {acc : List Nat}
    {D : List (Nat × Bool)} {P : List Packet} {lost got rest G : List (Nat × Bool)} {forced : Prop}
    (hi : MicroInv c T s acc D P lost got rest G forced) (hr : s.resetOut = false) (i : CamIn)
    (hwf : i.valid = true → i.pixels.length = c.int1.ps ∧ ∀ x ∈ i.pixels, x < 2 ^ c.int1.bd) :
    ∃ D' P' lost' got' rest', MicroInv c T (s.microRun c allowed i)
      (acc ++ if i.valid && !s.nready then i.pixels else []) D' P' lost' got' rest'
      (G ++ if (s.out i.busy).valid && !i.busy then [((s.out i.busy).data, (s.out i.busy).endd)] else [])
      (forced ∨ s.fend.fend = true) := by
  have hne' := noEnd_step (c := c) hi.noEnd allowed i
  simp only [Cam.microStep, hr, Bool.false_eq_true, if_false] at hne'
  obtain ⟨⟨k, hc⟩, h1, hp, h2, hm, hsh, hne⟩ := hi
  have hout : s.fix1.out = ⟨s.fix1.data, s.fix1.ctr, false⟩ := by
    simp [Fix1.out, hne.f1.1]
  have hctr : s.fix1.valid = true → 2 ≤ s.fix1.out.ctr ∧ s.fix1.out.ctr ≤ 4 := by
    intro hv
    have hmem : s.fix1.out ∈ (unflag D).map packetOf := by
      rw [← hp]; simp [Fix1.queue, hv]
    obtain ⟨w, _, hw⟩ := List.mem_map.1 hmem
    rw [← hw]
    have := fixLogic_ctr w.1
    simpa [packetOf] using this
  obtain ⟨g1, g2⟩ := Fix1.step_ok h1 s.core.data s.core.valid false s.fix2.oBusy
  have g3 := Fix2.step_ok h2 (p := s.fix1.out) (v := s.fix1.valid) i.busy hctr
  obtain ⟨lost', rest', hs', hsplit⟩ := share_step hsh hne hm i (s' := s.microRun c allowed i) rfl (by
    intro hb hv
    simp only [Cam.microRun, hb]
    exact (Fix2.stable s.fix2 hv _ _).1)
  refine ⟨_, P ++ if s.fix1.valid && !s.fix2.oBusy then [s.fix1.out] else [], lost', got ++ s.marks.taken (s.markIn i.busy), rest',
    ⟨_, Int3.step_ok h.ok hc ⟨i.pixels, i.valid, s.fix1.oBusy⟩ hwf⟩, g1, ?_, ?_, ?_, hs', hne'⟩
  · rw [List.append_assoc, unflag, Markers.plain, List.map_append, List.map_append]
    have hp' : P ++ s.fix1.queue = (D.map fun w => (w.1, false)).map packetOf := hp
    rw [← hp', List.append_assoc]
    congr 1
    show _ ++ (s.fix1.step s.core.data s.core.valid false s.fix2.oBusy).queue = _
    rw [g2]
    congr 1
    split <;> rfl
  · rw [hsplit]
    rw [hout] at g3
    rw [hout]
    exact g3
  · exact Markers.step_ok hm (s.markIn i.busy) (by intro _ _; exact hne.f2.1)

theorem micro_reset_flag (c : CoreCfg) (a : Nat) (s : Cam) (i : CamIn) (h : s.resetOut = false) :
    (s.microStep c a i).resetOut = ((s.out i.busy).valid && !i.busy && (s.out i.busy).endd) := by
  simp only [Cam.microStep, h, Bool.false_eq_true, if_false, Cam.microRun, Cam.resetNext, AutoReset.next]
  cases (s.out i.busy).valid <;> cases (s.out i.busy).endd <;> cases i.busy <;> simp

theorem micro_frame_run {c : CoreCfg} {T : Table} (h : CoreSetup c T) (a : Nat) (ins : List CamIn) :
    ∀ {s : Cam} {acc : List Nat} {D : List (Nat × Bool)} {P : List Packet} {lost got rest G : List (Nat × Bool)}
      {forced : Prop},
    MicroInv c T s acc D P lost got rest G forced → s.resetOut = false → CamWf c ins →
    (∀ x ∈ microGiven c a s ins, x.2 = false) →
    (∃ D' P' lost' got' rest' forced', MicroInv c T (microRuns c a s ins) (acc ++ microAccepted c a s ins) D' P'
      lost' got' rest' (G ++ microGiven c a s ins) forced') ∧ (microRuns c a s ins).resetOut = false := by
  induction ins with
  | nil =>
    intro s acc D P lost got rest G forced hi hr _ _
    exact ⟨⟨D, P, lost, got, rest, forced, by simpa [microAccepted, microGiven, microRuns] using hi⟩, hr⟩
  | cons i r ih =>
    intro s acc D P lost got rest G forced hi hr hwf hg
    obtain ⟨D', P', l', g', r', hi'⟩ := micro_step_ok h a hi hr i (hwf i (by simp))
    have hs : s.microStep c a i = s.microRun c a i := by simp [Cam.microStep, hr]
    have hr' : (s.microStep c a i).resetOut = false := by
      rw [micro_reset_flag c a s i hr]
      cases hv : (s.out i.busy).valid && !i.busy with
      | false => rfl
      | true =>
        have := hg ((s.out i.busy).data, (s.out i.busy).endd) (by simp [microGiven, hv])
        simpa using this
    rw [← hs] at hi'
    have := ih hi' hr' (fun j hj => hwf j (by simp [hj])) (fun x hx => hg x (by
      simp only [microGiven, List.mem_append]; exact Or.inr hx))
    simpa only [microAccepted, microGiven, microRuns, List.append_assoc] using this

theorem microAccepted_append (c : CoreCfg) (a : Nat) (x y : List CamIn) :
    ∀ s, microAccepted c a s (x ++ y) = microAccepted c a s x ++ microAccepted c a (microRuns c a s x) y := by
  induction x with
  | nil => intro s; rfl
  | cons i x ih => intro s; simp [microAccepted, microRuns, ih]

theorem micro_frame_run_last {c : CoreCfg} {T : Table} (h : CoreSetup c T) (a : Nat) (ins : List CamIn) (i : CamIn)
    {s : Cam} (hs : CamAfterReset c s) (hwf : CamWf c (ins ++ [i]))
    (hg : ∀ x ∈ microGiven c a s ins, x.2 = false) :
    ∃ D P lost got rest forced, MicroInv c T (microRuns c a s (ins ++ [i])) (microAccepted c a s (ins ++ [i])) D P
      lost got rest (microGiven c a s (ins ++ [i])) forced := by
  obtain ⟨m, hm, rfl⟩ := hs
  obtain ⟨⟨D, P, lost, got, rest, forced, hi⟩, hr⟩ := micro_frame_run h a ins (microInv_reset h hm) rfl
    (fun j hj => hwf j (by simp [hj])) hg
  obtain ⟨D', P', l', g', r', hi'⟩ := micro_step_ok h a hi hr i (hwf i (by simp))
  refine ⟨D', P', l', g', r', forced ∨ (microRuns c a (Cam.reset c m) ins).fend.fend = true, ?_⟩
  rw [microRuns_append, microAccepted_append, microGiven_append]
  simp only [microRuns, microAccepted, microGiven, List.append_nil, Cam.microStep, hr, Bool.false_eq_true, if_false]
  simpa using hi'

/-- What the second stuffing stage has given: a prefix of the stuffed code words, followed, once the frame is coded
completely, by repetitions of the last word. -/
theorem micro_stream {c : CoreCfg} {T : Table} (h : CamSetup c T) {s : Cam} {acc : List Nat}
    {D : List (Nat × Bool)} {P : List Packet} {lost got rest G : List (Nat × Bool)} {forced : Prop}
    (hi : MicroInv c T s acc D P lost got rest G forced) :
    (∀ x ∈ lost ++ got ++ rest, x.2 = false) ∧
    ∃ (code : List (Nat × Bool)) (n : Nat) (last : Nat), wordBytes (lost ++ got ++ rest) <+: stuff (wordBytes (code ++ List.replicate n (last, false))) ∧
      ((n = 0 ∧ wordBits 16 code <+: encode T c.int1.bd c.int1.W acc) ∨
       (acc.length = c.int1.W * c.int1.H ∧ code.getLast? = some (last, false) ∧
        ∃ j, j < 16 ∧ wordBits 16 code = encode T c.int1.bd c.int1.W acc ++ List.replicate j false)) := by
  obtain ⟨k, hc⟩ := hi.core
  obtain ⟨f1, f2⟩ := fix2_facts hi.fix2
  have hPn : ∀ p ∈ P, p.endd = false := by
    intro p hp
    have : p ∈ (unflag D).map packetOf := by rw [← hi.packets]; exact List.mem_append_left _ hp
    obtain ⟨x, hx, rfl⟩ := List.mem_map.1 this
    obtain ⟨y, _, rfl⟩ := List.mem_map.1 hx
    rfl
  have hMn : ∀ x ∈ lost ++ got ++ rest, x.2 = false := by
    intro x hx
    cases hx2 : x.2 with
    | false => rfl
    | true =>
      obtain ⟨⟨p, hp, hpe⟩, _⟩ := f2 x.1 (by rw [← hx2]; exact hx)
      rw [hPn p hp] at hpe; cases hpe
  refine ⟨hMn, ?_⟩
  rw [noEnd_upToEnd hMn, framePackets_none hPn] at f1
  have hPD : bytesOfPackets P <+: stuff (wordBytes D) := by
    rw [← wordBytes_plain, ← bytesOfPackets_map]
    exact bytesOfPackets_prefix ⟨_, hi.packets⟩
  have hst := f1.trans hPD
  obtain ⟨g1, g2⟩ := Int3.facts h.core.ok hc
  rw [h.out] at g1 g2
  by_cases he : ∃ w, (w, true) ∈ D
  · obtain ⟨w0, hw0⟩ := he
    have hne : (D.dropWhile fun x => !x.2) ≠ [] := by
      intro h0
      have h1 := List.takeWhile_append_dropWhile (p := fun x : Nat × Bool => !x.2) (l := D)
      rw [h0, List.append_nil] at h1
      have h2 := List.all_takeWhile (l := D) (p := fun x : Nat × Bool => !x.2)
      rw [h1, List.all_eq_true] at h2
      have := h2 _ hw0
      simp at this
    obtain ⟨⟨w, f⟩, r, hxr⟩ := List.exists_cons_of_ne_nil hne
    have hx : f = true := by
      have := List.head?_dropWhile_not (fun x : Nat × Bool => !x.2) D
      rw [hxr] at this
      simpa using this
    subst hx
    have hw : (w, true) ∈ D := List.dropWhile_sublist _ |>.subset (by rw [hxr]; simp)
    have hlast : (upToEnd D).getLast? = some (w, true) := by simp [upToEnd, hxr]
    obtain ⟨hk, j, hj, hb, n, hn⟩ := g2 w hw
    have hl := (Cam.core_facts h.core hc).2 w hw
    refine ⟨unflag (upToEnd D), n, w, ?_, Or.inr ⟨hl.1, ?_, j, hj, ?_⟩⟩
    · rw [hn] at hst
      refine hst.trans ?_
      rw [← wordBytes_plain]
      simp [unflag, Markers.plain]
    · simp [unflag, Markers.plain, hlast]
    · rw [← hb]; simp [wordBits, unflag, Markers.plain, List.flatMap_map]
  · have hn : ∀ x ∈ D, x.2 = false := by
      intro x hx
      cases hx2 : x.2 with
      | false => rfl
      | true => exact absurd ⟨x.1, by rw [← hx2]; exact hx⟩ he
    refine ⟨D, 0, 0, by simpa using hst, Or.inl ⟨rfl, ?_⟩⟩
    rwa [noEnd_upToEnd hn] at g1

/-- C68: from a reset to the first end-flagged word the micro core gives the start marker, data words and the forced
end marker FFFE.  The data words continue, without a gap, at least one and at most ten words `lost` at the beginning of
the byte-stuffed code; what is missing at the end is what the forced end cut off.  If the frame was coded completely
before, the last code word is repeated up to the forced end. -/
theorem C68_frame {c : CoreCfg} {T : Table} (h : CamSetup c T) (allowed : Nat) {s : Cam} (hs : CamAfterReset c s)
    (ins : List CamIn) (i : CamIn) (hwf : CamWf c (ins ++ [i]))
    (hno : ∀ x ∈ microGiven c allowed s ins, x.2 = false)
    (w : Nat) (hw : (w, true) ∈ microGiven c allowed s (ins ++ [i])) :
    let acc := microAccepted c allowed s (ins ++ [i])
    ∃ lost body, microGiven c allowed s (ins ++ [i]) = startMark ++ body ++ endMark 0xFFFE ∧
      (∀ x ∈ body, x.2 = false) ∧ 1 ≤ lost.length ∧ lost.length ≤ 10 ∧
      ∃ (code : List (Nat × Bool)) (n last : Nat),
        wordBytes (lost ++ body) <+: stuff (wordBytes (code ++ List.replicate n (last, false))) ∧
        ((n = 0 ∧ wordBits 16 code <+: encode T c.int1.bd c.int1.W acc) ∨
         (acc.length = c.int1.W * c.int1.H ∧ code.getLast? = some (last, false) ∧
          ∃ j, j < 16 ∧ wordBits 16 code = encode T c.int1.bd c.int1.W acc ++ List.replicate j false)) := by
  intro acc
  obtain ⟨D, P, lost, got, rest, forced, hi⟩ := micro_frame_run_last h.core allowed ins i hs hwf hno
  have hm := hi.marks
  have hone : ∀ pre n, microGiven c allowed s (ins ++ [i]) = pre ++ List.replicate (n + 1) (0xFFFE, true) → n = 0 := by
    intro pre n hp
    have happ := microGiven_append c allowed ins [i] s
    rw [happ] at hp
    apply Nat.eq_zero_of_not_pos
    intro hn
    have hle : (microGiven c allowed (microRuns c allowed s ins) [i]).length ≤ 1 := by
      simp only [microGiven, List.append_nil]; split <;> simp
    have hcount := congrArg (List.countP fun x => x.2) hp
    simp only [List.countP_append] at hcount
    have h0 : (microGiven c allowed s ins).countP (fun x => x.2) = 0 := by
      rw [List.countP_eq_zero]; intro x hx; simp [hno x hx]
    have h1 : (List.replicate (n + 1) (0xFFFE, true)).countP (fun x => x.2) = n + 1 := by
      rw [List.countP_replicate]; simp
    have h2 := List.countP_le_length (p := fun x : Nat × Bool => x.2)
      (l := microGiven c allowed (microRuns c allowed s ins) [i])
    omega
  obtain ⟨hMn, code, n, last, hst, hcode⟩ := micro_stream h hi
  generalize hG : microGiven c allowed s (ins ++ [i]) = G at *
  have hplain : ∀ x ∈ Markers.plain got, x.2 = false := by
    intro x hx
    obtain ⟨y, _, rfl⟩ := List.mem_map.1 hx
    rfl
  have hnot : ∀ {A B : List (Nat × Bool)} {k m : Nat}, (w, true) ∈ A ++ Markers.plain B ++ List.replicate k (m, false) →
      (∀ x ∈ A, x.2 = false) → False := by
    intro A B k m hmem hA
    simp only [List.mem_append, List.mem_map, Markers.plain] at hmem
    rcases hmem with (hx | ⟨y, _, hy⟩) | hx
    · have := hA _ hx; simp at this
    · simp at hy
    · have := List.eq_of_mem_replicate hx; simp at this
  have hsh := hi.share
  obtain ⟨_, hx, hy⟩ := hi.noEnd.mks
  unfold Markers.Inv at hm
  unfold Share at hsh
  cases hf : (microRuns c allowed s (ins ++ [i])).marks.fsm with
  | idle => rw [hf] at hm; rw [hm.1] at hw; simp at hw
  | startMarker =>
    rw [hf] at hm; rw [hm.2.2.2] at hw; have := List.eq_of_mem_replicate hw; simp at this
  | frame =>
    rw [hf] at hm
    rw [hm.2.1] at hw
    exact absurd (hnot (A := List.replicate 8 (0xFFFF, false)) (k := 0) (m := 0) (by simpa using hw) noEnd_replicate) id
  | endMarker => exact absurd hf hx
  | doneNormal => exact absurd hf hy
  | forceMarker =>
    rw [hf] at hm
    rw [hm.2.2.2.2] at hw
    exact absurd (hnot hw noEnd_replicate) id
  | doneForce =>
    rw [hf] at hm hsh
    obtain ⟨_, _, n', hsent⟩ := hm
    have hn := hone _ n' hsent
    subst hn
    refine ⟨lost, Markers.plain got, ?_, hplain, hsh.1, hsh.2, code, n, last, ?_, hcode⟩
    · rw [hsent]; simp [startMark, endMark]
    · refine List.IsPrefix.trans ?_ hst
      rw [Fix2.wordBytes_append, Fix2.wordBytes_append, Fix2.wordBytes_append, Markers.plain, wordBytes_plain]
      exact List.prefix_append _ _

/-- C68: the cycle after the end-flagged word resets the core: the next frame starts from a reset state, to which
`C68_frame` applies again.  So every frame of every history has that form. -/
theorem C68_next_frame {c : CoreCfg} {T : Table} (h : CamSetup c T) (allowed : Nat) {s : Cam} (hs : CamAfterReset c s)
    (ins : List CamIn) (i r : CamIn) (hwf : CamWf c (ins ++ [i] ++ [r]))
    (hno : ∀ x ∈ microGiven c allowed s ins, x.2 = false)
    (w : Nat) (hw : (w, true) ∈ microGiven c allowed s (ins ++ [i])) :
    CamAfterReset c (microRuns c allowed s (ins ++ [i] ++ [r])) := by
  obtain ⟨D, P, lost, got, rest, forced, hi⟩ := micro_frame_run_last h.core allowed ins i hs
    (fun j hj => hwf j (List.mem_append_left _ hj)) hno
  have hr : (microRuns c allowed s (ins ++ [i])).resetOut = true := by
    obtain ⟨m, hm, rfl⟩ := hs
    have h0 := (micro_frame_run h.core allowed ins (microInv_reset h.core hm) rfl
      (fun j hj => hwf j (by simp [hj])) hno).2
    rw [microGiven_append] at hw
    rcases List.mem_append.1 hw with hw | hw
    · have := hno _ hw; cases this
    · simp only [microGiven, List.append_nil] at hw
      split at hw
      · rename_i hv
        rw [microRuns_append]
        simp only [microRuns]
        rw [micro_reset_flag _ _ _ _ h0, hv]
        have e := List.mem_singleton.1 hw
        rw [Prod.mk.injEq] at e
        simp [← e.2]
      · cases hw
  rw [microRuns_append]
  generalize microRuns c allowed s (ins ++ [i]) = q at *
  obtain ⟨k, hc⟩ := hi.core
  have hk := Int3.step_ok h.core.ok hc ⟨r.pixels, r.valid, q.fix1.oBusy⟩ (hwf r (by simp))
  obtain ⟨its, recv, hj, _⟩ := hk
  simp only [microRuns, Cam.microStep, hr, if_true]
  exact ⟨_, ⟨hj.pinv.len, hj.cinv.len, hj.int1.lens.i⟩, rfl⟩

/-- What the environment of the micro core sees in each cycle. -/
def microOutputs (c : CoreCfg) (allowed : Nat) : Cam → List CamIn → List (Bool × MarkOut)
  | _, [] => []
  | s, i :: r => (s.nready, s.out i.busy) :: microOutputs c allowed (s.microStep c allowed i) r

theorem microSim_run {c : CoreCfg} {a b : Cam} (h : CamSim c a b) (allowed : Nat) (i : CamIn) :
    CamSim c (a.microRun c allowed i) (b.microRun c allowed i) := by
  obtain ⟨h0, ho⟩ := camSim_out h i.busy
  obtain ⟨h1, h2, h3, h4, h5, h6⟩ := h
  obtain ⟨e1, e2, e3, e4⟩ := Int3.sim_out h1
  refine ⟨?_, ?_, ?_, ?_, ?_, ?_⟩
  · simp only [Cam.microRun, h3]; exact Int3.sim_step h1 _ _ _
  · simp only [Cam.microRun, h2, e1]
  · simp only [Cam.microRun, h3, h4, e2, e3]
  · simp only [Cam.microRun, h3, h4]
  · simp only [Cam.microRun, h2, h4, h5, Cam.markIn]
  · simp only [Cam.microRun, Cam.resetNext, ho, h6]

/-- All that the simulation needs of a reachable state: the core's invariant. -/
def CoreReach (c : CoreCfg) (T : Table) (s : Cam) : Prop :=
  ∃ acc k D, Int3.Inv c (c.int1.W / c.int1.ps) T acc k s.core D

theorem coreReach_step {c : CoreCfg} {T : Table} (h : CoreSetup c T) (allowed : Nat) {s : Cam} (hs : CoreReach c T s)
    (i : CamIn) (hwf : i.valid = true → i.pixels.length = c.int1.ps ∧ ∀ x ∈ i.pixels, x < 2 ^ c.int1.bd) :
    CoreReach c T (s.microStep c allowed i) ∧ (s.resetOut = true → CamAfterReset c (s.microStep c allowed i)) := by
  obtain ⟨acc, k, D, hi⟩ := hs
  have hk := Int3.step_ok h.ok hi ⟨i.pixels, i.valid, s.fix1.oBusy⟩ hwf
  have hko : (s.microRun c allowed i).core.int2.kept.Ok c := by
    obtain ⟨its, recv, hj, _⟩ := hk
    exact ⟨hj.pinv.len, hj.cinv.len, hj.int1.lens.i⟩
  unfold Cam.microStep
  cases hr : s.resetOut with
  | true =>
    simp only [if_true]
    exact ⟨⟨_, _, _, Int3.inv_reset h.ok hko⟩, fun _ => ⟨_, hko, rfl⟩⟩
  | false => exact ⟨⟨_, _, _, hk⟩, by simp⟩

/-- C68: in every state right after a reset the micro core produces in every cycle of every further schedule, over any
number of further frames, exactly the outputs it produces from power-up: nothing of earlier frames is left. -/
theorem C68_no_memory_of_earlier_frames {c : CoreCfg} {T : Table} (h : CamSetup c T) (allowed : Nat) {s : Cam}
    (hs : CamAfterReset c s) (ins : List CamIn) (hwf : CamWf c ins) :
    microOutputs c allowed s ins = microOutputs c allowed (Cam.init c) ins := by
  have hd := h.core.legal.depth
  have hcd := h.core.legal.cdepth
  have hdp : 1 < c.depth := by omega
  have hcp : 1 < c.cdepth := by omega
  have key : ∀ (ins : List CamIn) (a b : Cam), CoreReach c T a → CoreReach c T b → CamSim c a b → CamWf c ins →
      microOutputs c allowed a ins = microOutputs c allowed b ins := by
    intro ins
    induction ins with
    | nil => intro a b _ _ _ _; rfl
    | cons i r ih =>
      intro a b ha hb hab hwf
      obtain ⟨h1, h2⟩ := camSim_out hab i.busy
      have ra := coreReach_step h.core allowed ha i (hwf i (by simp))
      have rb := coreReach_step h.core allowed hb i (hwf i (by simp))
      have hsim : CamSim c (a.microStep c allowed i) (b.microStep c allowed i) := by
        have hr : a.resetOut = b.resetOut := hab.rest.2.2.2.2
        cases hrb : b.resetOut with
        | true =>
          obtain ⟨m, hm, e1⟩ := ra.2 (hr.trans hrb)
          obtain ⟨m', hm', e2⟩ := rb.2 hrb
          rw [e1, e2]
          exact camSim_reset hdp hcp hm hm'
        | false =>
          have hra : a.resetOut = false := hr.trans hrb
          simp only [Cam.microStep, hra, hrb, Bool.false_eq_true, if_false]
          exact microSim_run hab allowed i
      simp only [microOutputs, h1, h2]
      rw [ih _ _ ra.1 rb.1 hsim (fun j hj => hwf j (by simp [hj]))]
  obtain ⟨m, hm, rfl⟩ := hs
  obtain ⟨m', hm', e⟩ := init_afterReset c
  rw [e]
  exact key ins _ _ ⟨_, _, _, Int3.inv_reset h.core.ok hm⟩ ⟨_, _, _, Int3.inv_reset h.core.ok hm'⟩
    (camSim_reset hdp hcp hm hm') hwf

/-! ### The hypotheses are met -/

set_option maxRecDepth 40000 in
example : CamSetup tinyCam defaultTable ∧ CamAfterReset tinyCam (Cam.init tinyCam) ∧
    CamWf tinyCam (List.replicate 69 ⟨[5], true, false⟩ ++ [⟨[5], true, false⟩]) ∧
    (∀ x ∈ microGiven tinyCam 50 (Cam.init tinyCam) (List.replicate 69 ⟨[5], true, false⟩), x.2 = false) ∧
    microGiven tinyCam 50 (Cam.init tinyCam) (List.replicate 69 ⟨[5], true, false⟩ ++ [⟨[5], true, false⟩]) =
      startMark ++ List.replicate 23 (57344, false) ++ endMark 0xFFFE := by
  refine ⟨⟨default_setup (by decide) rfl, rfl, default_long _ (by decide)⟩, init_afterReset _, ?_, ?_, ?_⟩
  · intro i hi _
    rw [show i = (⟨[5], true, false⟩ : CamIn) by
      rcases List.mem_append.1 hi with hi | hi
      · exact List.eq_of_mem_replicate hi
      · exact List.mem_singleton.1 hi]
    decide
  · decide +kernel
  · decide +kernel

end Props
