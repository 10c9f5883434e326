/-
Property theorems C28-C31: the beta core, from pixels to marked and stuffed words, with its
automatic reset.
-/
import Verif.Proof.Fresh

set_option autoImplicit false

namespace Props
open Spec Model

/-- State of the beta core after the given cycles. -/
def camRun (c : CoreCfg) (allowed : Nat) : Cam → List CamIn → Cam
  | s, [] => s
  | s, i :: r => camRun c allowed (s.betaStep c allowed i) r

/-- Pixels taken: `valid_in` and not `nready`. -/
def camAccepted (c : CoreCfg) (allowed : Nat) : Cam → List CamIn → List Nat
  | _, [] => []
  | s, i :: r => (if i.valid && !s.nready then i.pixels else []) ++ camAccepted c allowed (s.betaStep c allowed i) r

/-- Words given: `valid_out` and not `busy_in`, with `end_out`. -/
def camGiven (c : CoreCfg) (allowed : Nat) : Cam → List CamIn → List (Nat × Bool)
  | _, [] => []
  | s, i :: r => (if (s.out i.busy).valid && !i.busy then [((s.out i.busy).data, (s.out i.busy).endd)] else []) ++
      camGiven c allowed (s.betaStep c allowed i) r

/-- Every valid cycle carries `ps` pixels of `bd` bits (the widths of the input ports). -/
def CamWf (c : CoreCfg) (ins : List CamIn) : Prop :=
  ∀ i ∈ ins, i.valid = true → i.pixels.length = c.int1.ps ∧ ∀ x ∈ i.pixels, x < 2 ^ c.int1.bd

/-- A state right after power-up or a reset. -/
def CamAfterReset (c : CoreCfg) (s : Cam) : Prop := ∃ m : Kept, m.Ok c ∧ s = Cam.reset c m

/-- Assumptions on a beta configuration: legal, table `T` loaded, 16-bit output words, and a frame
code of more than one word. -/
structure CamSetup (c : CoreCfg) (T : Table) : Prop where
  core : CoreSetup c T
  out : c.out = 16
  long : Long c T

theorem camGiven_append (c : CoreCfg) (a : Nat) (x y : List CamIn) :
    ∀ s, camGiven c a s (x ++ y) = camGiven c a s x ++ camGiven c a (camRun c a s x) y := by
  induction x with
  | nil => intro s; rfl
  | cons i x ih => intro s; simp [camGiven, camRun, ih]

theorem camAccepted_append (c : CoreCfg) (a : Nat) (x y : List CamIn) :
    ∀ s, camAccepted c a s (x ++ y) = camAccepted c a s x ++ camAccepted c a (camRun c a s x) y := by
  induction x with
  | nil => intro s; rfl
  | cons i x ih => intro s; simp [camAccepted, camRun, ih]

theorem camRun_append (c : CoreCfg) (a : Nat) (x y : List CamIn) :
    ∀ s, camRun c a s (x ++ y) = camRun c a (camRun c a s x) y := by
  induction x with
  | nil => intro s; rfl
  | cons i x ih => intro s; exact ih _

/-! ### Default table: frames are long enough -/

theorem default_code_length (d : Int) : 4 ≤ (diffBits defaultTable d).length := by
  unfold diffBits
  generalize hs : cls d = s
  by_cases h16 : s = 16
  · subst h16
    have : 4 ≤ (defaultTable 16).length := by decide
    rw [List.length_append]; omega
  · rw [if_neg h16, List.length_append, toBits_length]
    have : ∀ s, s < 17 → 4 ≤ (defaultTable s).length + s := by decide
    by_cases h17 : s < 17
    · exact this s h17
    · omega

theorem default_long (c : CoreCfg) (h : 5 ≤ c.int1.W * c.int1.H) : Long c defaultTable := by
  intro l hl
  have : ∀ (f : Nat → List Bool) (n : Nat), (∀ i, 4 ≤ (f i).length) →
      4 * n ≤ ((List.range n).flatMap f).length := by
    intro f n hf
    induction n with
    | zero => simp
    | succ n ih =>
      rw [List.range_succ, List.flatMap_append, List.length_append]
      have := hf n
      simp only [List.flatMap_cons, List.flatMap_nil, List.append_nil]; omega
  have h2 := this (fun i => pixelBits defaultTable (l.getD i 0) (pred c.int1.bd c.int1.W l i)) l.length
    (fun i => default_code_length _)
  unfold encode
  omega

/-! ### The run up to the first end-flagged word -/

theorem reset_flag (c : CoreCfg) (a : Nat) (s : Cam) (i : CamIn) (h : s.resetOut = false) :
    (s.betaStep c a i).resetOut = ((s.out i.busy).valid && !i.busy && (s.out i.busy).endd) := by
  simp only [Cam.betaStep, h, Bool.false_eq_true, if_false, Cam.betaRun, Cam.resetNext, AutoReset.next]
  cases (s.out i.busy).valid <;> cases (s.out i.busy).endd <;> cases i.busy <;> simp

theorem frame_run {c : CoreCfg} {T : Table} (h : CamSetup c T) (a : Nat) (ins : List CamIn) :
    ∀ {s : Cam} {acc : List Nat} {D : List (Nat × Bool)} {P : List Packet} {M G : List (Nat × Bool)} {forced : Prop},
    Cam.Inv c T s acc D P M G forced → s.resetOut = false → CamWf c ins →
    (∀ x ∈ camGiven c a s ins, x.2 = false) →
    (∃ D' P' M' forced', Cam.Inv c T (camRun c a s ins) (acc ++ camAccepted c a s ins) D' P' M'
      (G ++ camGiven c a s ins) forced') ∧ (camRun c a s ins).resetOut = false := by
  induction ins with
  | nil =>
    intro s acc D P M G forced hi hr _ _
    exact ⟨⟨D, P, M, forced, by simpa [camAccepted, camGiven, camRun] using hi⟩, hr⟩
  | cons i r ih =>
    intro s acc D P M G forced hi hr hwf hg
    obtain ⟨D', P', M', hi'⟩ := Cam.step_ok h.core h.out h.long a hi i (hwf i (by simp))
    have hs : s.betaStep c a i = s.betaRun c a i := by simp [Cam.betaStep, hr]
    have hr' : (s.betaStep c a i).resetOut = false := by
      rw [reset_flag c a s i hr]
      cases hv : (s.out i.busy).valid && !i.busy with
      | false => rfl
      | true =>
        have := hg ((s.out i.busy).data, (s.out i.busy).endd) (by simp [camGiven, hv])
        simpa using this
    rw [← hs] at hi'
    have := ih hi' hr' (fun j hj => hwf j (by simp [hj])) (fun x hx => hg x (by
      simp only [camGiven, List.mem_append]; exact Or.inr hx))
    simpa only [camAccepted, camGiven, camRun, List.append_assoc] using this

/-- The same including the cycle in which the first end-flagged word is given. -/
theorem frame_run_last {c : CoreCfg} {T : Table} (h : CamSetup c T) (a : Nat) (ins : List CamIn) (i : CamIn)
    {s : Cam} (hs : CamAfterReset c s) (hwf : CamWf c (ins ++ [i]))
    (hg : ∀ x ∈ camGiven c a s ins, x.2 = false) :
    ∃ D P M forced, Cam.Inv c T (camRun c a s (ins ++ [i])) (camAccepted c a s (ins ++ [i])) D P M
      (camGiven c a s (ins ++ [i])) forced := by
  obtain ⟨m, hm, rfl⟩ := hs
  obtain ⟨⟨D, P, M, forced, hi⟩, hr⟩ := frame_run h a ins (Cam.inv_reset h.core hm) rfl
    (fun j hj => hwf j (by simp [hj])) hg
  obtain ⟨D', P', M', hi'⟩ := Cam.step_ok h.core h.out h.long a hi i (hwf i (by simp))
  refine ⟨D', P', M', forced ∨ (camRun c a (Cam.reset c m) ins).fend.fend = true, ?_⟩
  rw [camRun_append, camAccepted_append, camGiven_append]
  simp only [camRun, camAccepted, camGiven, List.append_nil, Cam.betaStep, hr, Bool.false_eq_true, if_false]
  simpa using hi'

/-! ### C30 -/

/-- The eight words of the start marker and of the two end markers. -/
def startMark : List (Nat × Bool) := List.replicate 8 (0xFFFF, false)
def endMark (m : Nat) : List (Nat × Bool) := List.replicate 7 (m, false) ++ [(m, true)]

theorem whole_last {M : List (Nat × Bool)} (h : Markers.Whole M) : ∃ w, (w, true) ∈ M ∧ upToEnd M = M := by
  obtain ⟨g, w, rfl, hg⟩ := h
  refine ⟨w, by simp, ?_⟩
  have := (Int3.upToEnd_pre (d := w) (n := 1) hg).2 (by omega)
  simpa using this

theorem wordBytes_plain (l : List (Nat × Bool)) : wordBytes (l.map fun w => (w.1, false)) = wordBytes l := by
  simp [wordBytes, List.flatMap_map]

theorem noEnd_upToEnd {M : List (Nat × Bool)} (h : ∀ x ∈ M, x.2 = false) : beforeEnd M = M :=
  Int3.beforeEnd_none h

/-- What the bytes between the markers are, from the invariant: always a prefix of a stuffed byte
string whose bits extend the code by at most zero padding. -/
theorem body_prefix {c : CoreCfg} {T : Table} (h : CamSetup c T) {s : Cam} {acc : List Nat}
    {D : List (Nat × Bool)} {P : List Packet} {M G : List (Nat × Bool)} {forced : Prop}
    (hi : Cam.Inv c T s acc D P M G forced) :
    ∃ bytes, wordBytes (beforeEnd M) <+: stuff bytes ∧
      (byteBits bytes <+: encode T c.int1.bd c.int1.W acc ∨
       acc.length = c.int1.W * c.int1.H ∧ ∃ j, j < 16 ∧
         byteBits bytes = encode T c.int1.bd c.int1.W acc ++ List.replicate j false) := by
  obtain ⟨k, hc⟩ := hi.core
  obtain ⟨f1, f2⟩ := stuffing_chain hi.packets hi.fix2
  obtain ⟨g1, g2⟩ := Cam.core_facts h.core hc
  rw [h.out] at g1 g2
  refine ⟨_, f1, ?_⟩
  rw [byteBits_wordBytes]
  by_cases he : ∃ w, (w, true) ∈ D
  · obtain ⟨w, hw⟩ := he
    exact Or.inr (g2 w hw)
  · left
    have hn : ∀ x ∈ D, x.2 = false := by
      intro x hx
      cases hx2 : x.2 with
      | false => rfl
      | true => exact absurd ⟨x.1, by rw [← hx2]; exact hx⟩ he
    have h1 : beforeEnd D = D := noEnd_upToEnd hn
    have h2 : upToEnd D = D := by
      unfold upToEnd
      rw [h1]
      have := List.dropWhile_append_of_pos (l₁ := D) (l₂ := []) (p := fun x : Nat × Bool => !x.2)
        (by intro x hx; simp [hn x hx])
      simp only [List.append_nil] at this
      rw [this]; simp
    rw [h2]
    rw [h1] at g1
    exact g1

/-- C30: from a reset to the first end-flagged word the beta core gives: the start marker, data
words, and an end marker.  If the end marker is FFFF, a whole frame of `W*H` pixels was accepted
and the data words are the bytes of its T.81 code, zero-padded to 16 bits, byte-stuffed, plus at
most one zero byte.  Otherwise the end marker is FFFE (the forced end fired) and the data bytes
are a prefix of such a byte string. -/
theorem C30_frame {c : CoreCfg} {T : Table} (h : CamSetup c T) (allowed : Nat) {s : Cam} (hs : CamAfterReset c s)
    (ins : List CamIn) (i : CamIn) (hwf : CamWf c (ins ++ [i]))
    (hno : ∀ x ∈ camGiven c allowed s ins, x.2 = false)
    (w : Nat) (hw : (w, true) ∈ camGiven c allowed s (ins ++ [i])) :
    let acc := camAccepted c allowed s (ins ++ [i])
    ∃ body, camGiven c allowed s (ins ++ [i]) = startMark ++ body ++ endMark w ∧ (∀ x ∈ body, x.2 = false) ∧
      ((w = 0xFFFF ∧ acc.length = c.int1.W * c.int1.H ∧
          ∃ bytes k j, k ≤ 1 ∧ j < 16 ∧ wordBytes body = stuff bytes ++ List.replicate k 0 ∧
            byteBits bytes = encode T c.int1.bd c.int1.W acc ++ List.replicate j false) ∨
       (w = 0xFFFE ∧ ∃ bytes, wordBytes body <+: stuff bytes ∧
          (byteBits bytes <+: encode T c.int1.bd c.int1.W acc ∨
            acc.length = c.int1.W * c.int1.H ∧ ∃ j, j < 16 ∧
              byteBits bytes = encode T c.int1.bd c.int1.W acc ++ List.replicate j false))) := by
  intro acc
  obtain ⟨D, P, M, forced, hi⟩ := frame_run_last h allowed ins i hs hwf hno
  have hm := hi.marks
  -- only the last word given is end-flagged
  have hone : ∀ pre n, camGiven c allowed s (ins ++ [i]) = pre ++ List.replicate (n + 1) (w, true) → n = 0 := by
    intro pre n hp
    have happ := camGiven_append c allowed ins [i] s
    have hle : (camGiven c allowed (camRun c allowed s ins) [i]).length ≤ 1 := by
      simp only [camGiven, List.append_nil]; split <;> simp
    rw [happ] at hp
    apply Nat.eq_zero_of_not_pos
    intro hn
    have hcount := congrArg (List.countP fun x => x.2) hp
    simp only [List.countP_append] at hcount
    have h0 : (camGiven c allowed s ins).countP (fun x => x.2) = 0 := by
      rw [List.countP_eq_zero]; intro x hx; simp [hno x hx]
    have h1 : (List.replicate (n + 1) (w, true)).countP (fun x => x.2) = n + 1 := by
      rw [List.countP_replicate]; simp
    have h2 := List.countP_le_length (p := fun x : Nat × Bool => x.2)
      (l := camGiven c allowed (camRun c allowed s ins) [i])
    omega
  generalize hG : camGiven c allowed s (ins ++ [i]) = G at *
  have hplain : ∀ x ∈ Markers.plain M, x.2 = false := by
    intro x hx
    obtain ⟨y, _, rfl⟩ := List.mem_map.1 hx
    rfl
  have hend : (camRun c allowed s (ins ++ [i])).marks.fsm = .doneNormal ∨
      (camRun c allowed s (ins ++ [i])).marks.fsm = .doneForce := by
    unfold Markers.Inv at hm
    have hnot : ∀ {A B : List (Nat × Bool)} {k m : Nat}, (w, true) ∈ A ++ Markers.plain B ++ List.replicate k (m, false) →
        (∀ x ∈ A, x.2 = false) → False := by
      intro A B k m hmem hA
      simp only [List.mem_append, List.mem_map, Markers.plain] at hmem
      rcases hmem with (hx | ⟨y, _, hy⟩) | hx
      · have := hA _ hx; simp at this
      · simp at hy
      · have := List.eq_of_mem_replicate hx; simp at this
    split at hm
    · rw [hm.1] at hw; simp at hw
    · rw [hm.2.2.2] at hw; have := List.eq_of_mem_replicate hw; simp at this
    · exfalso
      rw [hm.2.1] at hw
      exact hnot (A := List.replicate 8 (0xFFFF, false)) (k := 0) (m := 0) (by simpa using hw) noEnd_replicate
    · exfalso
      rw [hm.2.2.2] at hw
      exact hnot hw noEnd_replicate
    · exfalso
      rw [hm.2.2.2.2] at hw
      exact hnot hw noEnd_replicate
    · exact Or.inl ‹_›
    · exact Or.inr ‹_›
  rcases hend with hf | hf
  · unfold Markers.Inv at hm
    rw [hf] at hm
    obtain ⟨hwhole, n, hsent⟩ := hm
    have hwv : w = 0xFFFF := by
      rw [hsent] at hw
      simp only [List.mem_append] at hw
      rcases hw with ((hx | hx) | hx) | hx
      · have := noEnd_replicate _ hx; simp at this
      · have := hplain _ hx; simp at this
      · have := noEnd_replicate _ hx; simp at this
      · have := List.eq_of_mem_replicate hx
        simpa using this
    subst hwv
    have hn := hone _ n hsent
    subst hn
    obtain ⟨w0, hw0, hup⟩ := whole_last hwhole
    obtain ⟨k, hc⟩ := hi.core
    obtain ⟨f1, f2⟩ := stuffing_chain hi.packets hi.fix2
    obtain ⟨⟨w', hw'⟩, ⟨kk, hk, hb⟩, _⟩ := f2 w0 hw0
    obtain ⟨g1, g2⟩ := Cam.core_facts h.core hc
    rw [h.out] at g1 g2
    obtain ⟨hl, j, hj, hb2⟩ := g2 w' hw'
    refine ⟨Markers.plain M, ?_, hplain, Or.inl ⟨rfl, hl, wordBytes (upToEnd D), kk, j, hk, hj, ?_, ?_⟩⟩
    · rw [hsent]; simp [startMark, endMark]
    · rw [Markers.plain, wordBytes_plain, ← hb, hup]
    · rw [byteBits_wordBytes, hb2]
  · unfold Markers.Inv at hm
    rw [hf] at hm
    obtain ⟨_, hM, n, hsent⟩ := hm
    have hwv : w = 0xFFFE := by
      rw [hsent] at hw
      simp only [List.mem_append] at hw
      rcases hw with ((hx | hx) | hx) | hx
      · have := noEnd_replicate _ hx; simp at this
      · have := hplain _ hx; simp at this
      · have := noEnd_replicate _ hx; simp at this
      · have := List.eq_of_mem_replicate hx
        simpa using this
    subst hwv
    have hn := hone _ n hsent
    subst hn
    obtain ⟨bytes, hb1, hb2⟩ := body_prefix h hi
    refine ⟨Markers.plain M, ?_, hplain, Or.inr ⟨rfl, bytes, ?_, hb2⟩⟩
    · rw [hsent]; simp [startMark, endMark]
    · rw [Markers.plain, wordBytes_plain]
      rw [noEnd_upToEnd hM] at hb1
      exact hb1

/-- C30, what a receiver does: strip the markers (eight words on each side), take the bytes, drop the
byte after every FF, decode.  With an FFFF end marker this gives back the accepted image. -/
theorem C30_image_recovered {c : CoreCfg} {T : Table} (h : CamSetup c T) (hbd : c.int1.bd ≤ 15) (allowed : Nat)
    {s : Cam} (hs : CamAfterReset c s) (ins : List CamIn) (i : CamIn) (hwf : CamWf c (ins ++ [i]))
    (hno : ∀ x ∈ camGiven c allowed s ins, x.2 = false)
    (hw : (0xFFFF, true) ∈ camGiven c allowed s (ins ++ [i])) :
    let words := camGiven c allowed s (ins ++ [i])
    ∃ pad, decode T (c.int1.bd + 1) c.int1.bd c.int1.W (c.int1.W * c.int1.H) []
      (byteBits (unstuff (wordBytes ((words.drop 8).take (words.length - 16))))) =
        some (camAccepted c allowed s (ins ++ [i]), pad) := by
  intro words
  obtain ⟨body, hg, _, hb⟩ := C30_frame h allowed hs ins i hwf hno 0xFFFF hw
  have hbody : (words.drop 8).take (words.length - 16) = body := by
    show (List.drop 8 (camGiven c allowed s (ins ++ [i]))).take ((camGiven c allowed s (ins ++ [i])).length - 16) = body
    rw [hg, List.append_assoc, List.drop_left' (by simp [startMark])]
    rw [show (startMark ++ (body ++ endMark 0xFFFF)).length - 16 = body.length by
      simp [startMark, endMark]]
    exact List.take_left' rfl
  rcases hb with ⟨_, hl, bytes, k, j, hk, hj, hb1, hb2⟩ | ⟨hx, _⟩
  · rw [hbody, hb1, unstuff_stuff_append]
    have hz : unstuff (List.replicate k 0) = List.replicate k 0 := by
      rcases Nat.le_one_iff_eq_zero_or_eq_one.1 hk with rfl | rfl <;> rfl
    rw [hz]
    have hb3 : byteBits (bytes ++ List.replicate k 0) =
        encode T c.int1.bd c.int1.W (camAccepted c allowed s (ins ++ [i])) ++
          (List.replicate j false ++ byteBits (List.replicate k 0)) := by
      rw [← List.append_assoc, ← hb2]; simp [byteBits]
    refine ⟨List.replicate j false ++ byteBits (List.replicate k 0), ?_⟩
    rw [hb3, ← hl]
    obtain ⟨D, P, M, forced, hi⟩ := frame_run_last h allowed ins i hs hwf hno
    obtain ⟨kk, hc⟩ := hi.core
    have hbd2 := h.core.legal.frame.bd2
    exact decode_encode h.core.table (by omega) (by omega) hbd h.core.legal.frame.W4 _ (Int3.inv_bound hc) _
  · simp at hx

/-! ### C28 the reset pulse -/

/-- C28: `reset_out` is high in a cycle exactly if in the cycle before an end-flagged word was
transferred and that cycle was not itself a reset cycle: one pulse of one cycle per end-flagged word. -/
theorem C28_reset_pulse (c : CoreCfg) (allowed : Nat) (s : Cam) (i : CamIn) :
    (s.betaStep c allowed i).resetOut = true ↔
      s.resetOut = false ∧ (s.out i.busy).valid = true ∧ i.busy = false ∧ (s.out i.busy).endd = true := by
  cases hr : s.resetOut with
  | true => simp [Cam.betaStep, hr, Cam.reset]
  | false =>
    rw [reset_flag c allowed s i hr]
    simp only [Bool.and_eq_true, Bool.not_eq_true', true_and, and_assoc]

/-- C28 over runs: from a reset, the first reset pulse comes in the cycle right after the first
end-flagged word was given, and not earlier. -/
theorem C28_first_pulse (c : CoreCfg) (allowed : Nat) {s : Cam} (hs : CamAfterReset c s) (ins : List CamIn)
    (hno : ∀ x ∈ camGiven c allowed s ins, x.2 = false) :
    (camRun c allowed s ins).resetOut = false ∧
    ∀ i, (camRun c allowed s (ins ++ [i])).resetOut = true ↔
      ∃ w, (w, true) ∈ camGiven c allowed s (ins ++ [i]) := by
  have h1 : ∀ (ins : List CamIn) (s : Cam), s.resetOut = false → (∀ x ∈ camGiven c allowed s ins, x.2 = false) →
      (camRun c allowed s ins).resetOut = false := by
    intro ins
    induction ins with
    | nil => intro s h _; exact h
    | cons i r ih =>
      intro s h hg
      apply ih
      · cases hb : (s.betaStep c allowed i).resetOut with
        | false => rfl
        | true =>
          obtain ⟨_, h2, h3, h4⟩ := (C28_reset_pulse c allowed s i).1 hb
          have := hg ((s.out i.busy).data, (s.out i.busy).endd) (by
            have hc : ((s.out i.busy).valid && !i.busy) = true := by
              rw [Bool.and_eq_true]; exact ⟨h2, by rw [h3]; rfl⟩
            simp only [camGiven, List.mem_append]
            left; rw [if_pos hc]; exact List.mem_singleton.2 rfl)
          rw [h4] at this; cases this
      · intro x hx; exact hg x (by simp only [camGiven, List.mem_append]; exact Or.inr hx)
  obtain ⟨m, _, rfl⟩ := hs
  have h2 := h1 ins _ rfl hno
  refine ⟨h2, ?_⟩
  intro i
  rw [camRun_append, camGiven_append]
  simp only [camRun, camGiven, List.append_nil]
  rw [C28_reset_pulse, h2]
  constructor
  · rintro ⟨_, a, b, d⟩
    refine ⟨((camRun c allowed (Cam.reset c m) ins).out i.busy).data, ?_⟩
    rw [List.mem_append]; right
    have hc : (((camRun c allowed (Cam.reset c m) ins).out i.busy).valid && !i.busy) = true := by
      rw [Bool.and_eq_true]; exact ⟨a, by rw [b]; rfl⟩
    rw [if_pos hc, List.mem_singleton, Prod.mk.injEq]
    exact ⟨rfl, d.symm⟩
  · rintro ⟨w, hw⟩
    rw [List.mem_append] at hw
    rcases hw with hw | hw
    · have := hno _ hw; simp at this
    · split at hw
      · rename_i hc
        simp only [Bool.and_eq_true, Bool.not_eq_true'] at hc
        simp only [List.mem_singleton, Prod.mk.injEq] at hw
        exact ⟨rfl, hc.1, hc.2, hw.2.symm⟩
      · simp at hw

/-! ### C29 a reset starts afresh -/

/-- What the environment sees in each cycle: `nready`, and `data_out`, `valid_out`, `end_out`, with the
marker stage's `o_busy`. -/
def camOutputs (c : CoreCfg) (allowed : Nat) : Cam → List CamIn → List (Bool × MarkOut)
  | _, [] => []
  | s, i :: r => (s.nready, s.out i.busy) :: camOutputs c allowed (s.betaStep c allowed i) r

/-- Beta core states that agree on everything in use. -/
structure CamSim (c : CoreCfg) (a b : Cam) : Prop where
  core : Int3.Sim c a.core b.core
  rest : a.fend = b.fend ∧ a.fix1 = b.fix1 ∧ a.fix2 = b.fix2 ∧ a.marks = b.marks ∧ a.resetOut = b.resetOut

theorem camSim_out {c : CoreCfg} {a b : Cam} (h : CamSim c a b) (busy : Bool) :
    a.nready = b.nready ∧ a.out busy = b.out busy := by
  obtain ⟨h1, h2, h3, h4, h5, h6⟩ := h
  refine ⟨(Int3.sim_out h1).1, ?_⟩
  simp [Cam.out, Cam.markIn, h2, h4, h5]

theorem camSim_run {c : CoreCfg} {a b : Cam} (h : CamSim c a b) (allowed : Nat) (i : CamIn) :
    CamSim c (a.betaRun c allowed i) (b.betaRun c allowed i) := by
  obtain ⟨h0, ho⟩ := camSim_out h i.busy
  obtain ⟨h1, h2, h3, h4, h5, h6⟩ := h
  obtain ⟨e1, e2, e3, e4⟩ := Int3.sim_out h1
  refine ⟨?_, ?_, ?_, ?_, ?_, ?_⟩
  · simp only [Cam.betaRun, h3]; exact Int3.sim_step h1 _ _ _
  · simp only [Cam.betaRun, h2, e1]
  · simp only [Cam.betaRun, h3, h4, e2, e3, e4]
  · simp only [Cam.betaRun, h3, h4, ho]
  · simp only [Cam.betaRun, h2, h4, h5, Cam.markIn]
  · simp only [Cam.betaRun, Cam.resetNext, ho, h6]

theorem camSim_reset {c : CoreCfg} (hd : 1 < c.depth) (hcd : 1 < c.cdepth) {m m' : Kept} (hm : m.Ok c)
    (hm' : m'.Ok c) : CamSim c (.reset c m) (.reset c m') :=
  ⟨Int3.sim_reset hd hcd hm hm', rfl, rfl, rfl, rfl, rfl⟩

/-- What the core's invariant says about the memories a reset keeps. -/
theorem kept_ok {c : CoreCfg} {T : Table} {s : Cam} {acc : List Nat} {D : List (Nat × Bool)} {P : List Packet}
    {M G : List (Nat × Bool)} {forced : Prop} (h : Cam.Inv c T s acc D P M G forced) : s.core.int2.kept.Ok c := by
  obtain ⟨k, its, recv, hi, _⟩ := h.core
  exact ⟨hi.pinv.len, hi.cinv.len, hi.int1.lens.i⟩

/-- Every reachable state of the beta core satisfies the invariant. -/
def CamReach (c : CoreCfg) (T : Table) (s : Cam) : Prop :=
  ∃ acc D P M G forced, Cam.Inv c T s acc D P M G forced

theorem reach_step {c : CoreCfg} {T : Table} (h : CamSetup c T) (allowed : Nat) {s : Cam} (hs : CamReach c T s)
    (i : CamIn) (hwf : i.valid = true → i.pixels.length = c.int1.ps ∧ ∀ x ∈ i.pixels, x < 2 ^ c.int1.bd) :
    CamReach c T (s.betaStep c allowed i) ∧ (s.resetOut = true → CamAfterReset c (s.betaStep c allowed i)) := by
  obtain ⟨acc, D, P, M, G, forced, hi⟩ := hs
  obtain ⟨D', P', M', hi'⟩ := Cam.step_ok h.core h.out h.long allowed hi i hwf
  unfold Cam.betaStep
  cases hr : s.resetOut with
  | true =>
    simp only [if_true]
    exact ⟨⟨_, _, _, _, _, _, Cam.inv_reset h.core (kept_ok hi')⟩, fun _ => ⟨_, kept_ok hi', rfl⟩⟩
  | false => exact ⟨⟨_, D', P', M', _, _, hi'⟩, by simp⟩

theorem init_afterReset (c : CoreCfg) : CamAfterReset c (Cam.init c) :=
  ⟨_, ⟨by simp, by simp, by simp⟩, rfl⟩

theorem reach_run {c : CoreCfg} {T : Table} (h : CamSetup c T) (allowed : Nat) (ins : List CamIn) :
    ∀ {s : Cam}, CamReach c T s → CamWf c ins → CamReach c T (camRun c allowed s ins) := by
  induction ins with
  | nil => intro s hs _; exact hs
  | cons i r ih =>
    intro s hs hwf
    exact ih (reach_step h allowed hs i (hwf i (by simp))).1 (fun j hj => hwf j (by simp [hj]))

/-- C29: in every state right after a reset, whatever is left in the memories, the core produces in
every cycle of every further schedule exactly the outputs it produces from power-up. -/
theorem C29_outputs_as_from_power_up {c : CoreCfg} {T : Table} (h : CamSetup c T) (allowed : Nat) {s : Cam}
    (hs : CamAfterReset c s) (ins : List CamIn) (hwf : CamWf c ins) :
    camOutputs c allowed s ins = camOutputs c allowed (Cam.init c) ins := by
  have hd := h.core.legal.depth
  have hcd := h.core.legal.cdepth
  have hdp : 1 < c.depth := by omega
  have hcp : 1 < c.cdepth := by omega
  have key : ∀ (ins : List CamIn) (a b : Cam), CamReach c T a → CamReach c T b → CamSim c a b → CamWf c ins →
      camOutputs c allowed a ins = camOutputs c allowed b ins := by
    intro ins
    induction ins with
    | nil => intro a b _ _ _ _; rfl
    | cons i r ih =>
      intro a b ha hb hab hwf
      obtain ⟨h1, h2⟩ := camSim_out hab i.busy
      have ra := reach_step h allowed ha i (hwf i (by simp))
      have rb := reach_step h allowed hb i (hwf i (by simp))
      have hsim : CamSim c (a.betaStep c allowed i) (b.betaStep c allowed i) := by
        have hr : a.resetOut = b.resetOut := hab.rest.2.2.2.2
        cases hrb : b.resetOut with
        | true =>
          obtain ⟨m, hm, e1⟩ := ra.2 (hr.trans hrb)
          obtain ⟨m', hm', e2⟩ := rb.2 hrb
          rw [e1, e2]
          exact camSim_reset hdp hcp hm hm'
        | false =>
          have hra : a.resetOut = false := hr.trans hrb
          simp only [Cam.betaStep, hra, hrb, Bool.false_eq_true, if_false]
          exact camSim_run hab allowed i
      simp only [camOutputs, h1, h2]
      rw [ih _ _ ra.1 rb.1 hsim (fun j hj => hwf j (by simp [hj]))]
  obtain ⟨m, hm, rfl⟩ := hs
  obtain ⟨m', hm', e⟩ := init_afterReset c
  rw [e]
  exact key ins _ _ ⟨_, _, _, _, _, _, Cam.inv_reset h.core hm⟩ ⟨_, _, _, _, _, _, Cam.inv_reset h.core hm'⟩
    (camSim_reset hdp hcp hm hm') hwf

/-- C29 for histories: after any run from power-up that ends with a reset cycle, all further outputs
are those of a core that was just powered up: nothing of the earlier frames is left. -/
theorem C29_no_memory_of_earlier_frames {c : CoreCfg} {T : Table} (h : CamSetup c T) (allowed : Nat)
    (hist : List CamIn) (i : CamIn) (hwf : CamWf c (hist ++ [i]))
    (hr : (camRun c allowed (Cam.init c) hist).resetOut = true) (ins : List CamIn) (hwf2 : CamWf c ins) :
    camOutputs c allowed (camRun c allowed (Cam.init c) (hist ++ [i])) ins =
      camOutputs c allowed (Cam.init c) ins := by
  apply C29_outputs_as_from_power_up h allowed _ ins hwf2
  obtain ⟨m, hm, e⟩ := init_afterReset c
  have h0 : CamReach c T (Cam.init c) := by rw [e]; exact ⟨_, _, _, _, _, _, Cam.inv_reset h.core hm⟩
  have h1 := reach_run h allowed hist h0 (fun j hj => hwf j (by simp [hj]))
  rw [camRun_append]
  exact (reach_step h allowed h1 i (hwf i (by simp))).2 hr

/-! ### C31 an extra end-flagged word -/

/-- C31: whenever the beta core gives an end-flagged word outside a reset cycle and the consumer is
still ready in the following cycle (the reset cycle), it gives the same end-flagged word a second time. -/
theorem C31_extra_end_word {c : CoreCfg} (allowed : Nat) (s : Cam) (hr : s.resetOut = false) (i : CamIn)
    (hb : i.busy = false) (hv : (s.out i.busy).valid = true) (he : (s.out i.busy).endd = true) (j : CamIn)
    (hj : j.busy = false) :
    camGiven c allowed s [i, j] = [((s.out i.busy).data, true), ((s.out i.busy).data, true)] := by
  have hm : (s.betaStep c allowed i).marks = s.marks.step (s.markIn i.busy) := by
    simp [Cam.betaStep, hr, Cam.betaRun]
  have key : ((s.betaStep c allowed i).out j.busy).valid = true ∧
      ((s.betaStep c allowed i).out j.busy).data = (s.out i.busy).data ∧
      ((s.betaStep c allowed i).out j.busy).endd = true := by
    simp only [Cam.out] at hv he ⊢
    rw [hm]
    generalize (s.betaStep c allowed i).markIn j.busy = mj
    have hmi : (s.markIn i.busy).busy = false := hb
    generalize s.markIn i.busy = mi at *
    cases hf : s.marks.fsm <;> simp only [Markers.out, hf, hmi] at hv he ⊢
    · simp at hv
    · split at he <;> simp at he
    · simp only [Bool.not_false, Bool.true_and, decide_eq_true_eq] at he
      simp [Markers.step, hf, hmi, he]
    · simp only [Bool.not_false, Bool.true_and, decide_eq_true_eq] at he
      simp [Markers.step, hf, hmi, he]
    · split at he
      · simp at he
      · split at he <;> simp at he
    · simp [Markers.step, hf]
    · simp [Markers.step, hf]
  simp only [camGiven, hv, he, hb, hj, Bool.not_false, Bool.and_self, if_true, List.append_nil]
  obtain ⟨k1, k2, k3⟩ := key
  rw [hb, hj] at *
  simp [hv, he, k1, k2, k3]

/-! ### Examples -/

/-- A small beta core: 1 pixel per step, 4x2 frame of 4-bit pixels, 16-bit words. -/
def tinyCam : CoreCfg :=
  { int1 := { bd := 4, ps := 1, W := 4, H := 2, mem := initHuffTable 4 }
    depth := 25, conv := 10, cdepth := 12, out := 16, buf := 26 }

example : CamSetup tinyCam defaultTable :=
  ⟨default_setup (by decide) rfl, rfl, default_long _ (by decide)⟩

/-- The configuration of beta_integration.py:17-29 with the register file's frame size. -/
example : CamSetup betaCore defaultTable :=
  ⟨default_setup (by decide) rfl, rfl, default_long _ (by decide)⟩

def tinyCamIns : List CamIn := List.replicate 49 ⟨[5], true, false⟩

example : CamWf tinyCam tinyCamIns := by
  intro i hi _
  rw [List.eq_of_mem_replicate hi]; decide

-- The hypotheses of C30, C28 and C31 on a run: nothing end-flagged in 49 cycles, then the end-flagged
-- word in the 50th, and again in the 51st.
set_option maxRecDepth 20000 in
example : (∀ x ∈ camGiven tinyCam 1000 (Cam.init tinyCam) tinyCamIns, x.2 = false) ∧
    (0xFFFF, true) ∈ camGiven tinyCam 1000 (Cam.init tinyCam) (tinyCamIns ++ [⟨[5], true, false⟩]) := by
  decide +kernel

set_option maxRecDepth 20000 in
example : (((camGiven tinyCam 1000 (Cam.init tinyCam) (List.replicate 60 ⟨[5], true, false⟩)).filter (·.2)).length = 2) := by
  decide +kernel

-- The hypothesis of C29_no_memory_of_earlier_frames: the 51st cycle is a reset cycle.
set_option maxRecDepth 20000 in
example : (camRun tinyCam 1000 (Cam.init tinyCam) (tinyCamIns ++ [⟨[5], true, false⟩])).resetOut = true := by
  decide +kernel

end Props
