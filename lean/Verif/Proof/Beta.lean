/- Invariant of the whole beta core between two resets. -/
import Verif.Model.Beta
import Verif.Props.Stuff
import Verif.Props.Core
import Verif.Props.Markers

set_option autoImplicit false

namespace Model
open Spec Props

/-- The packet the first stuffing stage makes of a word. -/
def packetOf (w : Nat × Bool) : Packet := ⟨(fixLogic w.1).1, (fixLogic w.1).2, w.2⟩

theorem framePackets_cons (p : Packet) (l : List Packet) :
    framePackets (p :: l) = if p.endd then [p] else p :: framePackets l := by
  unfold framePackets
  cases h : p.endd <;> simp [h]

theorem upToEnd_cons (w : Nat × Bool) (l : List (Nat × Bool)) :
    upToEnd (w :: l) = if w.2 then [w] else w :: upToEnd l := by
  unfold upToEnd beforeEnd
  cases h : w.2 <;> simp [h]

theorem framePackets_map (D : List (Nat × Bool)) : framePackets (D.map packetOf) = (upToEnd D).map packetOf := by
  induction D with
  | nil => rfl
  | cons w D ih =>
    rw [List.map_cons, framePackets_cons, upToEnd_cons, ih]
    cases h : w.2 <;> simp [packetOf, h]

theorem framePackets_prefix {a b : List Packet} (h : a <+: b) :
    framePackets a <+: framePackets b ∧ ((∃ p ∈ a, p.endd = true) → framePackets a = framePackets b) := by
  induction a generalizing b with
  | nil => exact ⟨List.nil_prefix, by simp⟩
  | cons x a ih =>
    obtain ⟨t, rfl⟩ := h
    have := ih (List.prefix_append a t)
    rw [List.cons_append, framePackets_cons, framePackets_cons]
    cases hx : x.endd with
    | true => simp
    | false =>
      simp only [Bool.false_eq_true, if_false]
      refine ⟨(List.prefix_cons_inj x).2 this.1, ?_⟩
      rintro ⟨p, hp, he⟩
      rw [this.2]
      rcases List.mem_cons.1 hp with rfl | hp
      · rw [hx] at he; cases he
      · exact ⟨p, hp, he⟩

theorem bytesOfPackets_map (l : List (Nat × Bool)) :
    bytesOfPackets (l.map packetOf) = stuff (wordBytes l) := by
  induction l with
  | nil => rfl
  | cons w l ih =>
    simp only [bytesOfPackets, List.map_cons, List.flatMap_cons] at ih ⊢
    simp only [wordBytes, List.flatMap_cons, stuff_append] at ih ⊢
    rw [ih, packetOf, fixLogic_bytes]

theorem bytesOfPackets_prefix {a b : List Packet} (h : a <+: b) : bytesOfPackets a <+: bytesOfPackets b := by
  obtain ⟨t, rfl⟩ := h
  simp only [bytesOfPackets, List.flatMap_append]
  exact List.prefix_append _ _

/-- The two stuffing stages together. -/
theorem stuffing_chain {D M : List (Nat × Bool)} {P q : List Packet} {s : Fix2} (h1 : P ++ q = D.map packetOf)
    (h2 : s.Inv M P) :
    wordBytes (beforeEnd M) <+: stuff (wordBytes (upToEnd D)) ∧
    (∀ w, (w, true) ∈ M → (∃ w', (w', true) ∈ D) ∧ (∃ k, k ≤ 1 ∧
      wordBytes (upToEnd M) = stuff (wordBytes (upToEnd D)) ++ List.replicate k 0) ∧
      ∃ n, M = upToEnd M ++ List.replicate n (w, true)) := by
  have hp : P <+: D.map packetOf := ⟨q, h1⟩
  obtain ⟨f1, f2⟩ := fix2_facts h2
  obtain ⟨g1, g2⟩ := framePackets_prefix hp
  rw [framePackets_map] at g1 g2
  refine ⟨?_, ?_⟩
  · refine f1.trans ?_
    rw [← bytesOfPackets_map]
    exact bytesOfPackets_prefix g1
  · intro w hw
    obtain ⟨he, k, hk, hb, n, hn⟩ := f2 w hw
    refine ⟨?_, ⟨k, hk, ?_⟩, n, hn⟩
    · obtain ⟨p, hp1, hp2⟩ := he
      have hm : p ∈ D.map packetOf := hp.subset hp1
      obtain ⟨x, hx, rfl⟩ := List.mem_map.1 hm
      refine ⟨x.1, ?_⟩
      have : x.2 = true := hp2
      rw [← this]; exact hx
    · rw [hb, g2 he, bytesOfPackets_map]

theorem toBits_append (a b v : Nat) : toBits (a + b) v = toBits a (v / 2 ^ b) ++ toBits b v := by
  induction a with
  | zero => simp [toBits]
  | succ a ih =>
    rw [show a + 1 + b = (a + b) + 1 by omega]
    simp only [toBits, List.cons_append, ih]
    congr 1
    rw [Nat.testBit_div_two_pow, Nat.add_comm]

theorem toBits_mod (k n v : Nat) (h : k ≤ n) : toBits k (v % 2 ^ n) = toBits k v := by
  induction k with
  | zero => rfl
  | succ k ih =>
    simp only [toBits]
    rw [ih (by omega), Nat.testBit_mod_two_pow]
    simp; omega

/-- Bits of the bytes of 16-bit words. -/
theorem byteBits_wordBytes (l : List (Nat × Bool)) : byteBits (wordBytes l) = wordBits 16 l := by
  induction l with
  | nil => rfl
  | cons w l ih =>
    simp only [wordBytes, wordBits, byteBits, List.flatMap_cons, List.flatMap_append] at ih ⊢
    rw [ih]
    congr 1
    simp only [bytesOf, List.flatMap_cons, List.flatMap_nil, List.append_nil]
    have h1 := toBits_mod 8 8 (w.1 / 256 ^ 1) (Nat.le_refl 8)
    have h2 := toBits_mod 8 8 (w.1 / 256 ^ 0) (Nat.le_refl 8)
    rw [show (256 : Nat) = 2 ^ 8 from rfl, h1, h2]
    rw [show (16 : Nat) = 8 + 8 from rfl, toBits_append]
    simp

theorem stuff_length_ge (l : List Nat) : l.length ≤ (stuff l).length := by
  induction l with
  | nil => simp
  | cons b l ih => simp only [stuff]; split <;> simp <;> omega

theorem wordBytes_length (l : List (Nat × Bool)) : (wordBytes l).length = 2 * l.length := by
  induction l with
  | nil => rfl
  | cons w l ih =>
    simp only [wordBytes, List.flatMap_cons, List.length_append, List.length_cons] at ih ⊢
    rw [ih]; simp [bytesOf]; omega

/-- Every frame of the configuration has more than 16 code bits, so at least two output words. -/
def Long (c : CoreCfg) (T : Table) : Prop :=
  ∀ l : List Nat, l.length = c.int1.W * c.int1.H → 16 < (encode T c.int1.bd c.int1.W l).length

namespace Cam

/-- Invariant between resets: `acc` pixels accepted, `D` words from the core, `P` packets from the
first stuffing stage, `M` words from the second one, `G` words given. -/
structure Inv (c : CoreCfg) (T : Table) (s : Cam) (acc : List Nat) (D : List (Nat × Bool)) (P : List Packet)
    (M G : List (Nat × Bool)) (forced : Prop) : Prop where
  core : ∃ k, Int3.Inv c (c.int1.W / c.int1.ps) T acc k s.core D
  fix1 : s.fix1.Inv
  packets : P ++ s.fix1.queue = D.map packetOf
  fix2 : s.fix2.Inv M P
  marks : s.marks.Inv G M forced

theorem inv_reset {c : CoreCfg} {T : Table} (h : CoreSetup c T) {m : Kept} (hm : m.Ok c) :
    Inv c T (reset c m) [] [] [] [] [] False :=
  ⟨⟨0, Int3.inv_reset h.ok hm⟩, Fix1.inv_init, rfl, Fix2.inv_init, Markers.inv_init _⟩

/-- The core facts about the words it delivered. -/
theorem core_facts {c : CoreCfg} {T : Table} (h : CoreSetup c T) {acc : List Nat} {k : Nat} {s : Int3}
    {D : List (Nat × Bool)} (hi : Int3.Inv c (c.int1.W / c.int1.ps) T acc k s D) :
    wordBits c.out (beforeEnd D) <+: encode T c.int1.bd c.int1.W acc ∧
    (∀ w, (w, true) ∈ D → acc.length = c.int1.W * c.int1.H ∧ ∃ j, j < c.out ∧
      wordBits c.out (upToEnd D) = encode T c.int1.bd c.int1.W acc ++ List.replicate j false) := by
  obtain ⟨h1, h2⟩ := Int3.facts h.ok hi
  refine ⟨h1, ?_⟩
  intro w hw
  obtain ⟨hk, j, hj, hb, _⟩ := h2 w hw
  refine ⟨?_, j, hj, hb⟩
  rw [Int3.inv_len hi, hk, ← Nat.mul_assoc, Nat.mul_div_cancel' h.legal.frame.dvd]

/-- The marker stage is never offered an end-flagged first word. -/
theorem two_words {c : CoreCfg} {T : Table} (h : CoreSetup c T) (h16 : c.out = 16) (hlong : Long c T) {s : Cam}
    {acc : List Nat} {D : List (Nat × Bool)} {P : List Packet} {G : List (Nat × Bool)} {forced : Prop}
    (hi : Inv c T s acc D P [] G forced) (hv : s.fix2.valid = true) : s.fix2.endd = false := by
  cases he : s.fix2.endd with
  | false => rfl
  | true =>
    exfalso
    obtain ⟨k, hc⟩ := hi.core
    -- let the second stage hand over its word
    have h2 := Fix2.step_ok hi.fix2 (p := ⟨0, 2, false⟩) (v := false) false (by simp)
    simp only [Fix2.transfer, hv, he, Bool.not_false, Bool.and_self, if_true, List.nil_append, Bool.false_and,
      Bool.false_eq_true, if_false, List.append_nil] at h2
    obtain ⟨_, hch⟩ := stuffing_chain hi.packets h2
    obtain ⟨⟨w', hw'⟩, ⟨j, hj, hb⟩, _⟩ := hch s.fix2.data (by simp)
    obtain ⟨_, hcf⟩ := core_facts h hc
    obtain ⟨hl, j2, hj2, hb2⟩ := hcf w' hw'
    have hlen := hlong acc hl
    have e1 := congrArg List.length hb
    have e2 := congrArg List.length hb2
    have e3 := stuff_length_ge (wordBytes (upToEnd D))
    have e4 := wordBytes_length (upToEnd D)
    rw [h16, ← byteBits_wordBytes] at e2
    have e5 : (byteBits (wordBytes (upToEnd D))).length = 8 * (wordBytes (upToEnd D)).length := by
      generalize wordBytes (upToEnd D) = l
      induction l with
      | nil => rfl
      | cons b l ih =>
        simp only [byteBits, List.flatMap_cons, List.length_append, List.length_cons, toBits_length] at ih ⊢
        rw [ih]; omega
    have e6 : (wordBytes (upToEnd [(s.fix2.data, true)])).length = 2 := rfl
    simp only [List.length_append, List.length_replicate] at e1 e2
    omega

/-- One cycle without reset. -/
theorem step_ok {c : CoreCfg} {T : Table} (h : CoreSetup c T) (h16 : c.out = 16) (hlong : Long c T)
    (allowed : Nat) {s : Cam} {acc : List Nat} {D : List (Nat × Bool)} {P : List Packet}
    {M G : List (Nat × Bool)} {forced : Prop} (hi : Inv c T s acc D P M G forced) (i : CamIn)
    (hwf : i.valid = true → i.pixels.length = c.int1.ps ∧ ∀ x ∈ i.pixels, x < 2 ^ c.int1.bd) :
    ∃ D' P' M', Inv c T (s.betaRun c allowed i) (acc ++ if i.valid && !s.nready then i.pixels else []) D' P' M'
      (G ++ if (s.out i.busy).valid && !i.busy then [((s.out i.busy).data, (s.out i.busy).endd)] else [])
      (forced ∨ s.fend.fend = true) := by
  obtain ⟨⟨k, hc⟩, h1, hp, h2, hm⟩ := hi
  have hctr : s.fix1.valid = true → 2 ≤ s.fix1.out.ctr ∧ s.fix1.out.ctr ≤ 4 := by
    intro hv
    have hmem : s.fix1.out ∈ D.map packetOf := by
      rw [← hp]; simp [Fix1.queue, hv]
    obtain ⟨w, _, hw⟩ := List.mem_map.1 hmem
    rw [← hw]
    have := fixLogic_ctr w.1
    simpa [packetOf] using this
  obtain ⟨g1, g2⟩ := Fix1.step_ok h1 s.core.data s.core.valid s.core.endd s.fix2.oBusy
  have g3 := Fix2.step_ok h2 (p := s.fix1.out) (v := s.fix1.valid) (s.out i.busy).oBusy hctr
  refine ⟨_, _, _, ⟨_, Int3.step_ok h.ok hc ⟨i.pixels, i.valid, s.fix1.oBusy⟩ hwf⟩, g1, ?_, g3, ?_⟩
  · rw [List.append_assoc, List.map_append, ← hp, List.append_assoc]
    congr 1
    show _ ++ (s.fix1.step s.core.data s.core.valid s.core.endd s.fix2.oBusy).queue = _
    rw [g2]
    simp only [packetOf]
    congr 1
    split <;> rfl
  · have h5 := Markers.step_ok hm (s.markIn i.busy) (by
      intro hM hv
      subst hM
      exact two_words h h16 hlong ⟨⟨k, hc⟩, h1, hp, h2, hm⟩ hv)
    exact h5

end Cam
end Model
