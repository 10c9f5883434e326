/- How long the stages behind the core hold it up, and how long they take to end a frame. -/
import Verif.Proof.Beta

set_option autoImplicit false

namespace Model
open Spec

namespace Back

/-- Cycles the second stuffing stage still needs before it takes packets. -/
def f2 (s : Fix2) : Nat := s.regValid.toNat + (if s.fsm = .clean then 1 else 0)

/-- Bytes it holds beyond what it is giving out. -/
def held (s : Fix2) : Nat := if s.fsm = .clean then s.count - 2 else s.count

theorem fix1_busy (s : Fix1) (din : Nat) (v e b : Bool) : (s.step din v e b).oBusy = true → b = true := by
  obtain ⟨d, c, va, en, ob, rd, rc, re, rv⟩ := s
  cases b <;> simp [Fix1.step, Fix1.main]
  cases ob <;> cases rv <;> simp

theorem fix2_busy {s : Fix2} {sent : List (Nat × Bool)} {got : List Packet} (h : s.Run sent got) {p : Packet} {v : Bool} (x : Bool)
    (hp : v = true → 2 ≤ p.ctr ∧ p.ctr ≤ 4) (he : (v && !s.oBusy) = true → p.endd = false) :
    2 * s.oBusy.toNat + 2 * f2 (s.step p v x) + held (s.step p v x) ≤
      2 * f2 s + 2 * (x && s.valid).toNat + held s + (if v && !s.oBusy then p.ctr - 2 else 0) := by
  obtain ⟨f, da, va, en, ob, bu, co, rd, re, rv, er⟩ := s
  obtain ⟨h1, h2, h3, h4, h5, h6, h7, h8⟩ := h
  simp only at h1 h2 h3 h4 h5 he ⊢
  subst h2 h4 h5
  rcases h1 with ⟨rfl, rfl, hc⟩ | ⟨rfl, rfl, rfl, hc1, hc2⟩
  · cases ob with
    | true =>
      have := h3 rfl
      subst this
      cases x <;> cases v <;> simp [Fix2.step, Fix2.stepNormal, f2, held]
    | false =>
      cases v with
      | false => cases x <;> cases va <;> simp [Fix2.step, Fix2.stepNormal, f2, held, Fix2.normalLogic]
      | true =>
        obtain ⟨hp1, hp2⟩ := hp rfl
        have he := he rfl
        obtain ⟨d, ct, e⟩ := p
        simp only at hp1 hp2 he
        subst he
        have hc' : ct = 2 ∨ ct = 3 ∨ ct = 4 := by omega
        have hk : co = 0 ∨ co = 1 := by omega
        rcases hk with rfl | rfl <;> rcases hc' with rfl | rfl | rfl <;> cases x <;> cases va <;>
          simp [Fix2.step, Fix2.stepNormal, f2, held, Fix2.normalLogic]
  · have hk : co = 2 ∨ co = 3 := by omega
    rcases hk with rfl | rfl <;> cases x <;> cases rv <;> simp [Fix2.step, Fix2.stepClean, Fix2.cleanLogic, f2, held]

/-- Cycles the marker stage still needs for the start marker. -/
def gm (m : Markers) : Nat :=
  match m.fsm with
  | .idle => 10
  | .startMarker => m.counter + 1
  | _ => 0

theorem mark_busy {m : Markers} {G M : List (Nat × Bool)} (h : m.Inv G M False) (hno : ∀ x ∈ M, x.2 = false) (i : MarkIn)
    (hf : i.force = false) : ((m.out i).oBusy && i.valid).toNat + gm (m.step i) ≤ gm m + i.busy.toNat := by
  have hw : ¬ Markers.Whole M := by
    rintro ⟨g, w, rfl, _⟩
    have := hno (w, true) (by simp)
    cases this
  obtain ⟨f, n, e⟩ := m
  obtain ⟨d, v, en, fo, b⟩ := i
  simp only at hf
  subst hf
  cases f <;> simp only [Markers.Inv] at h
  · cases v <;> cases b <;> simp [Markers.out, Markers.step, gm]
  · obtain ⟨_, hn, _, _⟩ := h
    cases b
    · by_cases h0 : n = 0
      · subst h0
        cases v <;> simp [Markers.out, Markers.step, gm]
      · have hd : Markers.dec n = n - 1 := by simp only [Markers.dec]; omega
        cases v <;> simp [Markers.out, Markers.step, gm, h0, hd] <;> omega
    · cases v <;> simp [Markers.out, Markers.step, gm]; omega
  · exact absurd h.2.2.1 hw
  · exact absurd h.1 (by simp)
  · rcases h.2.2 with ⟨rfl, _⟩ | ⟨_, hh⟩
    · cases v <;> cases b <;> simp [Markers.out, Markers.step, gm]
    · exact absurd hh hw
  · exact absurd h.1 hw
  · exact absurd h.1 (by simp)

/-- FF bytes in a list of packets. -/
def ffs (l : List Packet) : Nat := (l.map fun p => p.ctr - 2).sum

theorem ffs_append (a b : List Packet) : ffs (a ++ b) = ffs a + ffs b := by simp [ffs]

theorem stuff_length (l : List Nat) : (stuff l).length = l.length + l.count 255 := by
  induction l with
  | nil => rfl
  | cons b l ih =>
    simp only [stuff]
    by_cases hb : b = 255
    · subst hb; simp [ih]; omega
    · rw [if_neg hb]
      simp [ih, hb]; omega

theorem ffs_packets (D : List (Nat × Bool)) : ffs (D.map packetOf) = (wordBytes D).count 255 := by
  induction D with
  | nil => rfl
  | cons w D ih =>
    have h1 := congrArg List.length (fixLogic_bytes w.1)
    rw [stuff_length] at h1
    have h2 : ∀ k n, (bytesOf k n).length = k := by
      intro k n
      induction k with
      | zero => rfl
      | succ k ih => simp [bytesOf, ih]
    rw [h2, h2] at h1
    simp only [ffs, List.map_cons, List.sum_cons, wordBytes, List.flatMap_cons, List.count_append] at ih ⊢
    rw [ih]
    simp only [packetOf]
    omega

/-- Everything the core can still be charged for what is behind it. -/
def psi (s : Cam) : Nat := 2 * s.fix1.oBusy.toNat + 2 * f2 s.fix2 + 2 * gm s.marks + held s.fix2

/-! ### After the last word of the core -/

/-- How far the stuffing stages are from presenting the last word. -/
def fmu (s1 : Fix1) (s2 : Fix2) : Nat :=
  match s2.fsm with
  | .normal => 10 + (if s1.valid && s1.endd then 0 else 3) + s2.regValid.toNat
  | .clean => if s2.endReg then 4 + s2.regValid.toNat + (if s2.count = 3 then 1 else 0)
      else 11 + (if s1.valid && s1.endd then 0 else 3) + s2.regValid.toNat
  | .preEnd => 3 + s2.regValid.toNat
  | .fin => 2

/-- How far the marker stage is from done, once all data are there. -/
def mmu (m : Markers) : Nat :=
  match m.fsm with
  | .idle => 40
  | .startMarker => 20 + m.counter
  | .frame => if m.endCond then 10 else 15
  | .endMarker => m.counter
  | _ => 0

theorem fix_mu {s1 : Fix1} {s2 : Fix2} {M : List (Nat × Bool)} {P : List Packet} (h1 : s1.Inv) (h2 : s2.Inv M P)
    (hend : ∃ p ∈ P ++ s1.queue, p.endd = true) (hp : s1.valid = true → 2 ≤ s1.out.ctr ∧ s1.out.ctr ≤ 4) (din : Nat) (v e x : Bool) :
    fmu (s1.step din v e s2.oBusy) (s2.step s1.out s1.valid x) ≤ fmu s1 s2 ∧
    (x = false → s2.fsm ≠ .fin → fmu (s1.step din v e s2.oBusy) (s2.step s1.out s1.valid x) < fmu s1 s2) ∧
    (s2.valid = false → fmu (s1.step din v e s2.oBusy) (s2.step s1.out s1.valid x) < fmu s1 s2) := by
  rcases h2 with h2 | ⟨g, extra, _, _, h2 | h2⟩
  · have hq : ∃ p ∈ s1.queue, p.endd = true := by
      obtain ⟨p, hp, he⟩ := hend
      rcases List.mem_append.1 hp with hp | hp
      · have := h2.gotOk p hp; rw [this] at he; cases he
      · exact ⟨p, hp, he⟩
    obtain ⟨f, da, va, en, ob, bu, co, rd, re, rv, er⟩ := s2
    obtain ⟨g1, g2, g3, g4, g5, _, _, _⟩ := h2
    simp only at g1 g2 g3 g4 g5 ⊢
    subst g2 g4 g5
    obtain ⟨d, ct, va1, en1, ob1, rd1, rc1, re1, rv1⟩ := s1
    obtain ⟨i1, i2⟩ := h1
    simp only at i1 i2 hp ⊢
    subst i1
    have hva1 : va1 = true := by
      cases va1 with
      | true => rfl
      | false =>
        cases ob1 with
        | true => exact i2 rfl
        | false => simp [Fix1.queue] at hq
    subst hva1
    obtain ⟨hp1, hp2⟩ := hp rfl
    simp only [Fix1.out] at hp1 hp2
    have hE : en1 = true ∨ (en1 = false ∧ ob1 = true ∧ re1 = true) := by
      cases en1 with
      | true => exact Or.inl rfl
      | false =>
        right
        cases ob1 <;> simp [Fix1.queue, Fix1.out] at hq
        exact ⟨rfl, rfl, hq⟩
    rcases g1 with ⟨rfl, rfl, hc⟩ | ⟨rfl, rfl, rfl, hc1, hc2⟩
    · cases ob with
      | true =>
        have hva : va = true := g3 rfl
        subst hva
        rcases hE with rfl | ⟨rfl, ho, rfl⟩ <;> cases x <;> cases ob1 <;> cases v <;>
          first | (cases ho; done) | simp [Fix2.step, Fix2.stepNormal, fmu, Fix1.step, Fix1.main]
      | false =>
        have hc' : ct = 2 ∨ ct = 3 ∨ ct = 4 := by omega
        have hk : co = 0 ∨ co = 1 := by omega
        rcases hE with rfl | ⟨rfl, ho, rfl⟩ <;> rcases hk with rfl | rfl <;> rcases hc' with rfl | rfl | rfl <;> cases x <;> cases va <;>
          cases ob1 <;> first | (cases ho; done) | simp [Fix2.step, Fix2.stepNormal, fmu, Fix2.normalLogic, Fix1.step, Fix1.main, Fix1.out]
    · have hk : co = 2 ∨ co = 3 := by omega
      rcases hE with rfl | ⟨rfl, ho, rfl⟩ <;> rcases hk with rfl | rfl <;> cases x <;> cases rv <;> cases ob1 <;> cases v <;>
        first | (cases ho; done) | simp [Fix2.step, Fix2.stepClean, Fix2.cleanLogic, fmu, Fix1.step, Fix1.main]
  · obtain ⟨f, da, va, en, ob, bu, co, rd, re, rv, er⟩ := s2
    obtain ⟨g1, g2, g3, g4, g5, g6, g7, _, _⟩ := h2
    simp only at g1 g2 g3 g4 g5 g6 g7 ⊢
    subst g1 g2 g3 g4 g6 g7
    have hk : co = 1 ∨ co = 2 ∨ co = 3 := by omega
    rcases hk with rfl | rfl | rfl <;> cases x <;> cases rv <;> simp [Fix2.step, Fix2.stepClean, Fix2.cleanLogic, fmu]
  · obtain ⟨f, da, va, en, ob, bu, co, rd, re, rv, er⟩ := s2
    obtain ⟨g1, g2, _, _⟩ := h2
    simp only at g1 g2 ⊢
    subst g2
    rcases g1 with rfl | rfl
    · cases x <;> cases rv <;> simp [Fix2.step, Fix2.stepPreEnd, fmu]
    · simp [Fix2.step, fmu]

theorem final_end {s : Fix2} {M : List (Nat × Bool)} {P : List Packet} (h : s.Inv M P) (hf : s.fsm = .fin) :
    s.valid = true ∧ s.endd = true := by
  rcases h with h | ⟨g, extra, _, _, h | h⟩
  · rcases h.fsm with hh | hh <;> (rw [hf] at hh; simp at hh)
  · have := h.fsm; rw [hf] at this; cases this
  · refine ⟨h.valid, ?_⟩
    obtain ⟨pre, n, d, k, _, h2, _⟩ := h.words
    simp [Fix2.queue, hf] at h2
    exact h2.2

theorem fmu_le (s1 : Fix1) (s2 : Fix2) : fmu s1 s2 ≤ 15 := by
  have := Bool.toNat_le s2.regValid
  unfold fmu
  repeat' split
  all_goals omega

variable {c : CoreCfg} {T : Table} {s : Cam} {acc : List Nat} {D : List (Nat × Bool)} {P : List Packet} {M G : List (Nat × Bool)}

/-- One cycle without reset, with the words and packets that move. -/
theorem step_exact (h : Props.CoreSetup c T) (h16 : c.out = 16) (hlong : Long c T)
    (allowed : Nat) {forced : Prop} (hi : Cam.Inv c T s acc D P M G forced) (i : CamIn)
    (hwf : i.valid = true → i.pixels.length = c.int1.ps ∧ ∀ x ∈ i.pixels, x < 2 ^ c.int1.bd) :
    Cam.Inv c T (s.betaRun c allowed i) (acc ++ if i.valid && !s.nready then i.pixels else [])
      (D ++ if s.core.valid && !s.fix1.oBusy then [(s.core.data, s.core.endd)] else [])
      (P ++ if s.fix1.valid && !s.fix2.oBusy then [s.fix1.out] else [])
      (M ++ s.fix2.transfer (s.out i.busy).oBusy)
      (G ++ if (s.out i.busy).valid && !i.busy then [((s.out i.busy).data, (s.out i.busy).endd)] else [])
      (forced ∨ s.fend.fend = true) := by
  obtain ⟨⟨k, hc⟩, h1, hp, h2, hm⟩ := hi
  have hctr : s.fix1.valid = true → 2 ≤ s.fix1.out.ctr ∧ s.fix1.out.ctr ≤ 4 := by
    intro hv
    have hmem : s.fix1.out ∈ D.map packetOf := by
      rw [← hp]; simp [Fix1.queue, hv]
    obtain ⟨w, _, hw⟩ := List.mem_map.1 hmem
    rw [← hw]
    have := fixLogic_ctr w.1
    simpa [packetOf] using this
  obtain ⟨g1, g2⟩ := Fix1.step_ok h1 s.core.data s.core.valid s.core.endd s.fix2.oBusy
  have g3 := Fix2.step_ok h2 (p := s.fix1.out) (v := s.fix1.valid) (s.out i.busy).oBusy hctr
  refine ⟨⟨_, Int3.step_ok h.ok hc ⟨i.pixels, i.valid, s.fix1.oBusy⟩ hwf⟩, g1, ?_, g3, ?_⟩
  · rw [List.append_assoc, List.map_append, ← hp, List.append_assoc]
    congr 1
    show _ ++ (s.fix1.step s.core.data s.core.valid s.core.endd s.fix2.oBusy).queue = _
    rw [g2]
    congr 1
    split <;> rfl
  · have h5 := Markers.step_ok hm (s.markIn i.busy) (by
      intro hM hv
      subst hM
      exact Cam.two_words h h16 hlong ⟨⟨k, hc⟩, h1, hp, h2, hm⟩ hv)
    exact h5

theorem ctr_ok {forced : Prop} (hi : Cam.Inv c T s acc D P M G forced) :
    s.fix1.valid = true → 2 ≤ s.fix1.out.ctr ∧ s.fix1.out.ctr ≤ 4 := by
  intro hv
  have hmem : s.fix1.out ∈ D.map packetOf := by
    rw [← hi.packets]; simp [Fix1.queue, hv]
  obtain ⟨w, _, hw⟩ := List.mem_map.1 hmem
  rw [← hw]
  have := fixLogic_ctr w.1
  simpa [packetOf] using this

/-- A cycle before the core gives its last word. -/
theorem psi_step {allowed : Nat} (hi : Cam.Inv c T s acc D P M G False) (hno : ∀ x ∈ D, x.2 = false) (hf : s.fend.fend = false) (i : CamIn) :
    2 * s.fix1.oBusy.toNat + psi (s.betaRun c allowed i) ≤
      psi s + 2 * i.busy.toNat + ffs (if s.fix1.valid && !s.fix2.oBusy then [s.fix1.out] else []) := by
  have hD : ∀ p ∈ D.map packetOf, p.endd = false := by
    intro p hp
    obtain ⟨w, hw, rfl⟩ := List.mem_map.1 hp
    exact hno w hw
  have hP : ∀ p ∈ P ++ s.fix1.queue, p.endd = false := by rw [hi.packets]; exact hD
  have hrun : s.fix2.Run M P := by
    rcases hi.fix2 with h | ⟨g, extra, rfl, ⟨l, x, rfl, hx, _⟩, _⟩
    · exact h
    · have := hP x (by simp)
      rw [hx] at this; cases this
  have a1 := fix1_busy s.fix1 s.core.data s.core.valid s.core.endd s.fix2.oBusy
  have a2 := fix2_busy hrun (p := s.fix1.out) (v := s.fix1.valid) (s.out i.busy).oBusy (ctr_ok hi) (by
    intro hv
    apply hP
    simp only [Bool.and_eq_true] at hv
    simp [Fix1.queue, hv.1])
  have a3 := mark_busy hi.marks hrun.sentOk (s.markIn i.busy) hf
  have e : ((s.marks.out (s.markIn i.busy)).oBusy && (s.markIn i.busy).valid) = ((s.out i.busy).oBusy && s.fix2.valid) := rfl
  rw [e] at a3
  have e2 : (s.markIn i.busy).busy = i.busy := rfl
  rw [e2] at a3
  have e3 : ffs (if s.fix1.valid && !s.fix2.oBusy then [s.fix1.out] else []) = if s.fix1.valid && !s.fix2.oBusy then s.fix1.out.ctr - 2 else 0 := by
    split <;> simp [ffs]
  rw [e3]
  unfold psi
  have a4 : (s.betaRun c allowed i).fix1.oBusy.toNat ≤ s.fix2.oBusy.toNat := by
    show (s.fix1.step s.core.data s.core.valid s.core.endd s.fix2.oBusy).oBusy.toNat ≤ _
    cases hb : (s.fix1.step s.core.data s.core.valid s.core.endd s.fix2.oBusy).oBusy with
    | false => exact Nat.zero_le _
    | true => rw [a1 hb]; simp
  show 2 * s.fix1.oBusy.toNat + (2 * (s.betaRun c allowed i).fix1.oBusy.toNat + 2 * f2 (s.fix2.step s.fix1.out s.fix1.valid (s.out i.busy).oBusy) +
    2 * gm (s.marks.step (s.markIn i.busy)) + held (s.fix2.step s.fix1.out s.fix1.valid (s.out i.busy).oBusy)) ≤ _
  omega

/-- A cycle after the core gave its last word. -/
theorem mu_step {allowed : Nat} (hi : Cam.Inv c T s acc D P M G False) (hend : ∃ w, (w, true) ∈ D) (hf : s.fend.fend = false) (i : CamIn)
    (hG : ∀ x ∈ G, x.2 = false) (hne : (s.out i.busy).valid = true → i.busy = false → (s.out i.busy).endd = false) :
    fmu (s.betaRun c allowed i).fix1 (s.betaRun c allowed i).fix2 + mmu (s.betaRun c allowed i).marks + (!i.busy).toNat ≤
      fmu s.fix1 s.fix2 + mmu s.marks := by
  obtain ⟨b1, b2, b3⟩ := fix_mu hi.fix1 hi.fix2 (by
    rw [hi.packets]
    obtain ⟨w, hw⟩ := hend
    exact ⟨_, List.mem_map.2 ⟨_, hw, rfl⟩, rfl⟩) (ctr_ok hi) s.core.data s.core.valid s.core.endd (s.out i.busy).oBusy
  have hfin := final_end hi.fix2
  have hm := hi.marks
  show fmu (s.fix1.step s.core.data s.core.valid s.core.endd s.fix2.oBusy) (s.fix2.step s.fix1.out s.fix1.valid (s.out i.busy).oBusy) +
    mmu (s.marks.step (s.markIn i.busy)) + (!i.busy).toNat ≤ _
  generalize fmu (s.fix1.step s.core.data s.core.valid s.core.endd s.fix2.oBusy) (s.fix2.step s.fix1.out s.fix1.valid (s.out i.busy).oBusy) = X at *
  generalize fmu s.fix1 s.fix2 = Y at *
  have hmi : s.markIn i.busy = ⟨s.fix2.data, s.fix2.valid, s.fix2.endd, false, i.busy⟩ := by simp [Cam.markIn, hf]
  simp only [Cam.out, hmi] at b2 hne ⊢
  generalize s.fix2.valid = va at *
  generalize s.fix2.endd = en at *
  generalize i.busy = b at *
  generalize s.fix2.data = da at *
  generalize s.marks = m at *
  obtain ⟨f, n, e⟩ := m
  cases f <;> simp only [Markers.Inv] at hm
  · cases va
    · have := b3 rfl
      cases b <;> simp [Markers.step, mmu] <;> omega
    · cases b <;> simp [Markers.step, mmu] <;> omega
  · obtain ⟨_, hn, _, _⟩ := hm
    cases b
    · by_cases h0 : n = 0
      · subst h0
        have he : (Markers.step ⟨.startMarker, 0, e⟩ ⟨da, va, en, false, false⟩) = ⟨.frame, 8, va && en⟩ := by simp [Markers.step]
        rw [he]
        simp only [mmu]
        split <;> simp <;> omega
      · have hd : Markers.dec n = n - 1 := by simp only [Markers.dec]; omega
        simp [Markers.step, mmu, h0, hd]; omega
    · simp [Markers.step, mmu]; omega
  · obtain ⟨hn1, hn8, _, _⟩ := hm
    have hd : Markers.dec n = n - 1 := by simp only [Markers.dec]; omega
    cases b
    · have hn : n ≠ 1 := by
        intro h; simp [Markers.out, h] at hne
      simp [Markers.step, mmu, hn, hd]; omega
    · simp [Markers.step, mmu]; omega
  · exact absurd hm.1 (by simp)
  · cases e
    · cases b
      · by_cases hfn : s.fix2.fsm = .fin
        · obtain ⟨rfl, rfl⟩ := hfin hfn
          simp [Markers.step, mmu]; omega
        · have := b2 (by simp [Markers.out]) hfn
          simp only [Markers.step, mmu, Bool.false_eq_true, if_false, Bool.not_false]
          split <;> simp <;> omega
      · simp [Markers.step, mmu]; omega
    · cases b <;> simp [Markers.step, mmu, hm.1] <;> omega
  · obtain ⟨_, k, hk⟩ := hm
    have := hG (0xFFFF, true) (by rw [hk]; simp)
    cases this
  · exact absurd hm.1 (by simp)

end Back
end Model
