/- Property theorems C86, continued: the shipped netlist of the 32-bit stream core after forced ends. -/
import Verif.Props.AnyFrames
import Verif.Props.NetStream

set_option autoImplicit false

namespace Props.Forced
open Spec Model Props Netlist

/-- C86, progress: after any number of frames, ended normally or by force, the next one ends, if pixels are offered and the receiver is
ready again and again. -/
theorem C86_next_frame_ends {c : CoreCfg} {T : Table} (h : CamSetup c T) {allowed : Nat} (ha : allowed < 2 ^ 24) {n : Nat}
    {hist : List CamIn} (hn : Frames c allowed n hist) (hwf : CamWf c hist) (u : Nat → CamIn)
    (hu : ∀ t, (u t).valid = true → (u t).pixels.length = c.int1.ps ∧ ∀ x ∈ (u t).pixels, x < 2 ^ c.int1.bd)
    (hprod : ∀ n, ∃ m, n ≤ m ∧ (u m).valid = true) (hcons : ∀ n, ∃ m, n ≤ m ∧ (u m).busy = false) :
    ∃ t w, (w, true) ∈ camGiven c allowed (camRun c allowed (Cam.init c) hist) ((List.range t).map u) :=
  C50_always_ends h ha (frames_fresh h allowed hn hwf) u hu hprod hcons

/-- From the state `s` the cycles `hist` consist of `n` frames, each ended by a word with `m_tlast` and followed by one
more cycle, in which the core resets itself. -/
inductive NetFrames (s : BetaAxis.top.S) : Nat → List AxNetIn → Prop
  | zero : NetFrames s 0 []
  | next {n : Nat} {hist ins : List AxNetIn} {i r : AxNetIn} {w : Nat} (h : NetFrames s n hist)
      (hno : ∀ x ∈ axNetGiven (axNetRun s hist) ins, x.2 = false)
      (hw : (w, true) ∈ axNetGiven (axNetRun s hist) (ins ++ [i])) :
      NetFrames s (n + 1) (hist ++ (ins ++ [i]) ++ [r])

theorem net_frames {s : BetaAxis.top.S} (hs : AxStart s) {n : Nat} {hist : List AxNetIn} (h : NetFrames s n hist)
    (hl : ∀ i ∈ hist, i.rst = false) : Frames betaCore 6666000 n (axisCam (hist.map AxNetIn.axis)) := by
  induction h with
  | zero => exact .zero
  | @next n hist ins i r w h hno hw ih =>
    have l1 : ∀ i ∈ hist, i.rst = false := fun j hj => hl j (by simp [hj])
    have hb := (axNet_given hist s _ (axStart_behaves hs) l1).2.2
    rw [(axNet_given ins _ _ hb (fun j hj => hl j (by simp [hj]))).1] at hno
    rw [(axNet_given (ins ++ [i]) _ _ hb (fun j hj => hl j (by
      simp only [List.mem_append] at hj ⊢
      exact Or.inl (Or.inr hj)))).1] at hw
    have := Frames.next (r := streamIn r.data r.valid r.ready) (i := streamIn i.data i.valid i.ready) (ih l1) hno
      (by simpa [axisCam, AxNetIn.axis] using hw)
    simpa [axisCam, AxNetIn.axis] using this

/-- C86 for the netlist of the 32-bit stream core: after power-up or any external reset and any number of frames, ended normally or
by force, when FFFF with `m_tlast` is transferred, exactly 4096x3072 pixels were transferred since the last reset cycle, and the words
since then decode to them. -/
theorem C86_netlist_next_frame (s : BetaAxis.top.S) (hs : AxStart s) {n : Nat} {hist : List AxNetIn} (hn : NetFrames s n hist)
    (ins : List AxNetIn) (i : AxNetIn) (hl : ∀ j ∈ hist ++ (ins ++ [i]), j.rst = false)
    (hno : ∀ x ∈ axNetGiven (axNetRun s hist) ins, x.2 = false)
    (hw : (0xFFFF, true) ∈ axNetGiven (axNetRun s hist) (ins ++ [i])) :
    let words := axNetGiven (axNetRun s hist) (ins ++ [i])
    let pixels := (axNetMoved (axNetRun s hist) (ins ++ [i])).flatMap pixels32
    pixels.length = 4096 * 3072 ∧
    ∃ pad, decode defaultTable 13 12 4096 (4096 * 3072) []
      (byteBits (unstuff (wordBytes ((words.drop 8).take (words.length - 16))))) = some (pixels, pad) := by
  intro words pixels
  have l1 : ∀ i ∈ hist, i.rst = false := fun j hj => hl j (by simp [hj])
  have l2 : ∀ j ∈ ins ++ [i], j.rst = false := fun j hj => hl j (List.mem_append_right _ hj)
  have hb := (axNet_given hist s _ (axStart_behaves hs) l1).2.2
  obtain ⟨ew, em, _⟩ := axNet_given (ins ++ [i]) _ _ hb l2
  rw [(axNet_given ins _ _ hb (fun j hj => l2 j (by simp [hj]))).1] at hno
  have e : axisCam ((ins ++ [i]).map AxNetIn.axis) = axisCam (ins.map AxNetIn.axis) ++ [streamIn i.data i.valid i.ready] := by
    simp [axisCam, AxNetIn.axis]
  rw [e] at ew
  rw [ew] at hw
  have ep : pixels = camAccepted betaCore 6666000 (camRun betaCore 6666000 (Cam.init betaCore) (axisCam (hist.map AxNetIn.axis)))
      (axisCam (ins.map AxNetIn.axis) ++ [streamIn i.data i.valid i.ready]) := by
    show (axNetMoved (axNetRun s hist) (ins ++ [i])).flatMap pixels32 = _
    rw [em, ← e, axis_accepted]
  have hwf : CamWf betaCore (axisCam (hist.map AxNetIn.axis) ++ (axisCam (ins.map AxNetIn.axis) ++ [streamIn i.data i.valid i.ready])) := by
    rw [← e]
    have := axisCam_wf (c := betaCore) rfl rfl (hist.map AxNetIn.axis ++ (ins ++ [i]).map AxNetIn.axis)
    simpa [axisCam] using this
  obtain ⟨h1, h2⟩ := C86_next_frame beta_setup (by decide) 6666000 (net_frames hs hn l1) _ _ hwf hno hw
  rw [camAccepted_append, List.length_append, ← ep] at h1
  rw [camAccepted_append, List.drop_left' rfl, ← ep, ← ew] at h2
  exact ⟨Nat.add_left_cancel h1, h2⟩

/-- C86 for the netlist: if the next frame is ended by force, its data show the begin of the pixels transferred since the last reset cycle:
the first `k` of them, if the codes of these fit into the data. -/
theorem C86_netlist_forced_frame (s : BetaAxis.top.S) (hs : AxStart s) {n : Nat} {hist : List AxNetIn} (hn : NetFrames s n hist)
    (ins : List AxNetIn) (i : AxNetIn) (hl : ∀ j ∈ hist ++ (ins ++ [i]), j.rst = false)
    (hno : ∀ x ∈ axNetGiven (axNetRun s hist) ins, x.2 = false)
    (hw : (0xFFFE, true) ∈ axNetGiven (axNetRun s hist) (ins ++ [i])) (k : Nat) :
    let words := axNetGiven (axNetRun s hist) (ins ++ [i])
    let pixels := (axNetMoved (axNetRun s hist) (ins ++ [i])).flatMap pixels32
    let data := byteBits (unstuff (wordBytes ((words.drop 8).take (words.length - 16))))
    k ≤ pixels.length → (encode defaultTable 12 4096 (pixels.take k)).length ≤ data.length →
    ∃ pad, decode defaultTable 13 12 4096 k [] data = some (pixels.take k, pad) := by
  intro words pixels data
  have l1 : ∀ i ∈ hist, i.rst = false := fun j hj => hl j (by simp [hj])
  have l2 : ∀ j ∈ ins ++ [i], j.rst = false := fun j hj => hl j (List.mem_append_right _ hj)
  have hb := (axNet_given hist s _ (axStart_behaves hs) l1).2.2
  obtain ⟨ew, em, _⟩ := axNet_given (ins ++ [i]) _ _ hb l2
  rw [(axNet_given ins _ _ hb (fun j hj => l2 j (by simp [hj]))).1] at hno
  have e : axisCam ((ins ++ [i]).map AxNetIn.axis) = axisCam (ins.map AxNetIn.axis) ++ [streamIn i.data i.valid i.ready] := by
    simp [axisCam, AxNetIn.axis]
  rw [e] at ew
  rw [ew] at hw
  have ep : pixels = camAccepted betaCore 6666000 (camRun betaCore 6666000 (Cam.init betaCore) (axisCam (hist.map AxNetIn.axis)))
      (axisCam (ins.map AxNetIn.axis) ++ [streamIn i.data i.valid i.ready]) := by
    show (axNetMoved (axNetRun s hist) (ins ++ [i])).flatMap pixels32 = _
    rw [em, ← e, axis_accepted]
  have hwf : CamWf betaCore (axisCam (hist.map AxNetIn.axis) ++ (axisCam (ins.map AxNetIn.axis) ++ [streamIn i.data i.valid i.ready])) := by
    rw [← e]
    have := axisCam_wf (c := betaCore) rfl rfl (hist.map AxNetIn.axis ++ (ins ++ [i]).map AxNetIn.axis)
    simpa [axisCam] using this
  have h2 := C86_forced_frame beta_setup (by decide) 6666000 (net_frames hs hn l1) _ _ hwf hno hw k
  dsimp only at h2
  rw [camAccepted_append, List.drop_left' rfl, ← ep, ← ew] at h2
  exact h2

/-- C86 for the netlist, progress. -/
theorem C86_netlist_next_frame_ends (s : BetaAxis.top.S) (hs : AxStart s) {n : Nat} {hist : List AxNetIn}
    (hn : NetFrames s n hist) (hl : ∀ j ∈ hist, j.rst = false) (u : Nat → AxNetIn)
    (hu : ∀ t, (u t).rst = false) (hprod : ∀ n, ∃ m, n ≤ m ∧ (u m).valid = true)
    (hcons : ∀ n, ∃ m, n ≤ m ∧ (u m).ready = true) :
    ∃ t w, (w, true) ∈ axNetGiven (axNetRun s hist) ((List.range t).map u) := by
  have hb := (axNet_given hist s _ (axStart_behaves hs) hl).2.2
  obtain ⟨t, w, hw⟩ := C86_next_frame_ends beta_setup (allowed := 6666000) (by decide) (net_frames hs hn hl) (axisCam_wf rfl rfl _)
    (fun n => streamIn (u n).data (u n).valid (u n).ready)
    (fun t hv => axisCam_wf rfl rfl [(u t).axis] _ (List.mem_singleton.2 rfl) hv) hprod
    (fun n => by obtain ⟨m, hm, hr⟩ := hcons n; exact ⟨m, hm, by simp [streamIn, hr]⟩)
  refine ⟨t, w, ?_⟩
  have e : axisCam (((List.range t).map u).map AxNetIn.axis) =
      (List.range t).map fun n => streamIn (u n).data (u n).valid (u n).ready := by
    rw [axisCam, List.map_map, List.map_map]; rfl
  rw [(axNet_given _ _ _ hb (fun j hj => by
    obtain ⟨k, _, rfl⟩ := List.mem_map.1 hj
    exact hu k)).1, e]
  exact hw

-- The hypotheses: a start state and the empty history; by the last theorem a frame follows, and after its reset cycle the next.
example : AxStart BetaAxis.top.powerUp ∧ NetFrames BetaAxis.top.powerUp 0 [] :=
  ⟨⟨_, [], BetaAxis.top.powerUp_init, rfl, Or.inl rfl⟩, .zero⟩

/-! ### Frame after frame -/

/-- The first cycle of a schedule in which a word with a property is given. -/
theorem first_end {α : Type} (g : List α → List (Nat × Bool)) (h0 : g [] = [])
    (u : Nat → α) {t w : Nat} (h : (w, true) ∈ g ((List.range t).map u)) :
    ∃ k w', (∀ x ∈ g ((List.range k).map u), x.2 = false) ∧ (w', true) ∈ g ((List.range k).map u ++ [u k]) := by
  induction t generalizing w with
  | zero => rw [List.range_zero, List.map_nil, h0] at h; cases h
  | succ t ih =>
    by_cases hx : ∀ x ∈ g ((List.range t).map u), x.2 = false
    · exact ⟨t, w, hx, by rw [List.range_succ, List.map_append] at h; exact h⟩
    · obtain ⟨x, hx⟩ := Classical.not_forall.1 hx
      obtain ⟨hx, hx2⟩ := Classical.not_imp.1 hx
      exact ih (w := x.1) (by
        have : x.2 = true := by simpa using hx2
        rw [← this]; exact hx)

theorem range_shift {α : Type} (u : Nat → α) (t k : Nat) :
    (List.range (t + k)).map u = (List.range t).map u ++ (List.range k).map (fun j => u (t + j)) := by
  rw [List.range_add, List.map_append, List.map_map]; rfl

/-- C86: with pixels offered and the receiver ready again and again, frame follows frame for ever, whatever the schedule: for every `n` the
schedule begins with `n` complete frames (each ended normally or by force, and followed by its reset cycle). -/
theorem C86_frames_for_ever {c : CoreCfg} {T : Table} (h : CamSetup c T) {allowed : Nat} (ha : allowed < 2 ^ 24) (u : Nat → CamIn)
    (hu : ∀ t, (u t).valid = true → (u t).pixels.length = c.int1.ps ∧ ∀ x ∈ (u t).pixels, x < 2 ^ c.int1.bd)
    (hprod : ∀ n, ∃ m, n ≤ m ∧ (u m).valid = true) (hcons : ∀ n, ∃ m, n ≤ m ∧ (u m).busy = false) (n : Nat) :
    ∃ t, Frames c allowed n ((List.range t).map u) := by
  induction n with
  | zero => exact ⟨0, .zero⟩
  | succ n ih =>
    obtain ⟨t, ht⟩ := ih
    have hwf : CamWf c ((List.range t).map u) := by
      intro j hj hv
      obtain ⟨k, _, rfl⟩ := List.mem_map.1 hj
      exact hu k hv
    obtain ⟨t', w, hw⟩ := C86_next_frame_ends h ha ht hwf (fun j => u (t + j)) (fun j => hu (t + j))
      (fun m => by obtain ⟨k, h1, h2⟩ := hprod (t + m); exact ⟨k - t, by omega, by rw [show t + (k - t) = k by omega]; exact h2⟩)
      (fun m => by obtain ⟨k, h1, h2⟩ := hcons (t + m); exact ⟨k - t, by omega, by rw [show t + (k - t) = k by omega]; exact h2⟩)
    obtain ⟨k, w', h1, h2⟩ := first_end (camGiven c allowed (camRun c allowed (Cam.init c) ((List.range t).map u))) rfl _ hw
    refine ⟨t + (k + 1) + 1, ?_⟩
    have e : (List.range (t + (k + 1) + 1)).map u = (List.range t).map u ++ ((List.range k).map (fun j => u (t + j)) ++ [u (t + k)]) ++
        [u (t + (k + 1))] := by
      rw [List.range_succ, List.map_append, range_shift, List.range_succ, List.map_append]; rfl
    rw [e]
    exact .next ht h1 h2

/-- C86 for the netlist: the same, after power-up or any external reset. -/
theorem C86_netlist_frames_for_ever (s : BetaAxis.top.S) (hs : AxStart s) (u : Nat → AxNetIn)
    (hu : ∀ t, (u t).rst = false) (hprod : ∀ n, ∃ m, n ≤ m ∧ (u m).valid = true)
    (hcons : ∀ n, ∃ m, n ≤ m ∧ (u m).ready = true) (n : Nat) : ∃ t, NetFrames s n ((List.range t).map u) := by
  induction n with
  | zero => exact ⟨0, .zero⟩
  | succ n ih =>
    obtain ⟨t, ht⟩ := ih
    obtain ⟨t', w, hw⟩ := C86_netlist_next_frame_ends s hs ht (fun j hj => by
        obtain ⟨k, _, rfl⟩ := List.mem_map.1 hj
        exact hu k) (fun j => u (t + j)) (fun j => hu (t + j))
      (fun m => by obtain ⟨k, h1, h2⟩ := hprod (t + m); exact ⟨k - t, by omega, by rw [show t + (k - t) = k by omega]; exact h2⟩)
      (fun m => by obtain ⟨k, h1, h2⟩ := hcons (t + m); exact ⟨k - t, by omega, by rw [show t + (k - t) = k by omega]; exact h2⟩)
    obtain ⟨k, w', h1, h2⟩ := first_end (axNetGiven (axNetRun s ((List.range t).map u))) rfl _ hw
    refine ⟨t + (k + 1) + 1, ?_⟩
    have e : (List.range (t + (k + 1) + 1)).map u = (List.range t).map u ++ ((List.range k).map (fun j => u (t + j)) ++ [u (t + k)]) ++
        [u (t + (k + 1))] := by
      rw [List.range_succ, List.map_append, range_shift, List.range_succ, List.map_append]; rfl
    rw [e]
    exact .next ht h1 h2

-- Such schedules exist: a word in every third cycle, the receiver ready in every fifth.
example : let u : Nat → AxNetIn := fun n => ⟨false, 4096 * n, n % 3 == 0, false, n % 5 == 0⟩
    (∀ t, (u t).rst = false) ∧ (∀ n, ∃ m, n ≤ m ∧ (u m).valid = true) ∧ (∀ n, ∃ m, n ≤ m ∧ (u m).ready = true) := by
  refine ⟨fun _ => rfl, fun n => ⟨3 * n, by omega, by simp⟩, fun n => ⟨5 * n, by omega, by simp⟩⟩

end Props.Forced
