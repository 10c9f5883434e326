/- Property theorems C76: how long the core makes the producer wait. -/
import Verif.Proof.Waits
import Verif.Props.Drain

set_option autoImplicit false

namespace Props
open Spec Model

variable {c : CoreCfg} {T : Table}

/-- State, acceptance and waiting. -/
theorem waits_run (h : CoreSetup c T) (hc : c.csteps + 7 ≤ c.cdepth) {s : Int3} (hs : AfterReset c s) {L : Nat} (hL : L ≤ c.out)
    (hLc : L ≤ c.conv) (hbuf : c.out + 2 * L ≤ c.buf + 1) {A : List Nat} (hA : Light T c.int1.bd c.int1.W c.int1.ps L A) (ins : List CoreIn) :
    Int3.Wf c ins → Int3.accepted c s ins <+: A →
    ∃ k its recv, Int2.Inv c (c.int1.W / c.int1.ps) T (Int3.accepted c s ins) k its (Int3.run c s ins).int2 recv ∧
      VBits.Inv c.out c.conv c.buf (Int3.run c s ins).vbits (Int3.delivered c s ins) recv ∧
      ((Int3.accepted c s ins).length < c.int1.W * c.int1.H → ins ≠ [] → ∃ S U, Waits.Paid c L (busyCycles ins) S U its (Int3.run c s ins) ∧
        (offered ins).length ≤ (Int3.accepted c s ins).length + c.int1.ps * S) ∧
      (ins = [] → its = List.replicate (5 + levels c.int1.ps) none) := by
  have hok := h.ok
  have hWH : c.int1.W / c.int1.ps * c.int1.H * c.int1.ps = c.int1.W * c.int1.H := by
    rw [Nat.mul_right_comm, Nat.div_mul_cancel h.legal.frame.dvd]
  have hps : 0 < c.int1.ps := by have := hok.int1.ps; omega
  induction ins using snoc_induction with
  | h0 =>
    intro _ _
    obtain ⟨m, hm, rfl⟩ := hs
    exact ⟨0, _, [], Int2.inv_reset hok hm, VBits.inv_init, fun _ hh => absurd rfl hh, fun _ => rfl⟩
  | h1 ins i ih =>
    intro hwf hpre
    have hwf1 : Int3.Wf c ins := fun j hj => hwf j (by simp [hj])
    have hwfi := hwf i (by simp)
    have hp1 : Int3.accepted c s ins <+: A := by
      refine List.IsPrefix.trans ?_ hpre
      rw [accepted_append]
      exact List.prefix_append _ _
    obtain ⟨k, its, recv, h1, h2, hf, hnil⟩ := ih hwf1 hp1
    have hlen := h1.int1.hlen
    have hcnt := reset_counter hs ins
    have hst := Int2.step_ok hok h1 (Int3.run c s ins).vbits.latch (px := i.pixels) (v := i.valid) hwfi
    have hin : (Int3.run c s ins).int2.valid = true → ((Int3.run c s ins).int2.out c).Ok c.conv := by
      intro hr
      apply h1.cok
      rw [Fifo.contents_readable hr]; simp
    have hw : WellMarked (recv ++ if (Int3.run c s ins).vbits.latch && (Int3.run c s ins).int2.valid then ((Int3.run c s ins).int2.out c).flat else []) := by
      have := hst.stream
      apply WellMarked.prefix (b := Int2.pend c ((Int3.run c s ins).int2.step c i.pixels i.valid (Int3.run c s ins).vbits.latch)
        ((Int2.newItem c (c.int1.W / c.int1.ps) T (Int3.accepted c s ins) k i.pixels (i.valid && !(Int3.run c s ins).int2.nready) :: its).dropLast))
      show WellMarked (recv ++ (if (Int3.run c s ins).vbits.latch && (Int3.run c s ins).int2.cfifo.readable then ((Int3.run c s ins).int2.out c).flat else []) ++ _)
      rw [this]
      exact wellMarked_marked _ _ _ _ _
    have hv2 := VBits.step_ok hok.out hok.buf h2 (busy := i.busy) hin hw
    refine ⟨k + (i.valid && !(Int3.run c s ins).int2.nready).toNat,
      (Int2.newItem c (c.int1.W / c.int1.ps) T (Int3.accepted c s ins) k i.pixels (i.valid && !(Int3.run c s ins).int2.nready) :: its).dropLast,
      recv ++ (if (Int3.run c s ins).vbits.latch && (Int3.run c s ins).int2.valid then ((Int3.run c s ins).int2.out c).flat else []),
      ?_, ?_, ?_, by intro hh; simp at hh⟩
    · rw [run_append, accepted_append]
      simp only [Int3.accepted, List.append_nil]
      exact hst
    · rw [run_append, delivered_append]
      simp only [Int3.delivered, List.append_nil]
      exact hv2
    · intro hlt _
      have hacc : Int3.accepted c s (ins ++ [i]) = Int3.accepted c s ins ++ if i.valid && !(Int3.run c s ins).nready then i.pixels else [] := by
        rw [accepted_append]
        simp only [Int3.accepted, List.append_nil]
      have hlt0 : (Int3.accepted c s ins).length < c.int1.W * c.int1.H := by
        rw [accepted_append, List.length_append] at hlt; omega
      have hks : k < c.int1.W / c.int1.ps * c.int1.H := by
        rw [hlen, ← hWH, Nat.mul_comm] at hlt0
        exact Nat.lt_of_mul_lt_mul_right hlt0
      have hnew : (i.valid && !(Int3.run c s ins).nready) = true →
          (encodeFrom T c.int1.bd c.int1.W (Int3.accepted c s ins) i.pixels).length ≤ L := by
        intro hcc
        rw [hcc, if_pos rfl] at hacc
        rw [hacc] at hpre
        obtain ⟨t, ht⟩ := hpre
        have hv : i.valid = true := by simp at hcc; exact hcc.1
        have hl := (hwfi hv).1
        have hal : (Int3.accepted c s ins ++ i.pixels).length = c.int1.ps * (k + 1) := by
          rw [List.length_append, hlen, hl, Nat.mul_add, Nat.mul_one]
        have := hA k (by rw [← ht, List.length_append, hal]; omega)
        rw [← ht, List.take_left' hal, List.append_assoc, List.take_left' hlen, encode_append hok.int1.W4, List.length_append] at this
        omega
      rw [run_append, busyCycles_append]
      simp only [Int3.run]
      by_cases hne : ins = []
      · subst hne
        obtain ⟨m, hm, rfl⟩ := hs
        have hi := hnil rfl
        have hf1 := Speed.fast_first (C := c.int1.W / c.int1.ps) hok L hm hbuf i
        have hb : busyCycles [] + i.busy.toNat = i.busy.toNat := by simp [busyCycles]
        rw [hb]
        refine ⟨0, 0, ⟨?_, ?_, ?_⟩, ?_⟩
        · have := (Waits.held_step hok hLc h1 (hi ▸ Waits.held_reset m L) i.pixels i.valid (Int3.run c (Int3.reset c m) []).vbits.latch hnew).1
          exact this
        · exact Waits.vfast_mono hf1.vb (Nat.zero_le _)
        · have := (Waits.held_step hok hLc h1 (hi ▸ Waits.held_reset m L) i.pixels i.valid (Int3.run c (Int3.reset c m) []).vbits.latch hnew).2
          have h0 : Waits.backlog its (Int3.run c (Int3.reset c m) []).int2 = 0 := hi ▸ Waits.backlog_reset m
          rw [h0] at this
          have := Bool.toNat_le (i.valid && !(Int3.run c (Int3.reset c m) []).int2.nready)
          show _ + max (Waits.backlog _ ((Int3.run c (Int3.reset c m) []).int2.step c i.pixels i.valid (Int3.run c (Int3.reset c m) []).vbits.latch)) _ ≤ _
          omega
        · simp [offered]
      · obtain ⟨S, U, hp, ho⟩ := hf hlt0 hne
        refine ⟨_, _, Waits.paid_step hok hc hL hLc hbuf h1 h2 hks hp i hnew, ?_⟩
        rw [offered_append, hacc, List.length_append, List.length_append]
        by_cases hv : 8 ≤ ins.length ∧ i.valid = true
        · rw [if_pos hv, (hwfi hv.2).1]
          have hnr : (Int3.run c s ins).nready = (Int3.run c s ins).int2.pFull := by
            unfold Int3.nready Int2.nready
            rw [hcnt.2, h1.endN]
            have : ¬ k = c.int1.W / c.int1.ps * c.int1.H := by omega
            simp [hv.1, this]
          rw [hnr, hv.2]
          cases (Int3.run c s ins).int2.pFull
          · simp [(hwfi hv.2).1]; omega
          · simp [Nat.mul_add]; omega
        · rw [if_neg hv]
          have : c.int1.ps * S ≤ c.int1.ps * (S + (Int3.run c s ins).int2.pFull.toNat) := Nat.mul_le_mul_left _ (by omega)
          simp only [List.length_nil]
          omega

/-- C76: if every group of pixels taken so far adds at most `L` bits to the code, `L` being at most the output width and the converter width
and small enough for the packer's buffer, then in any execution the number of groups that were offered (from the ninth cycle after
reset on) and not taken is at most one plus four for every cycle in which the receiver was busy, until the frame is complete: each busy
cycle makes the producer wait at most four cycles. -/
theorem C76_waits_bounded (h : CoreSetup c T) (hc : c.csteps + 7 ≤ c.cdepth) {s : Int3} (hs : AfterReset c s) {L : Nat} (hL : L ≤ c.out)
    (hLc : L ≤ c.conv) (hbuf : c.out + 2 * L ≤ c.buf + 1) (ins : List CoreIn) (hwf : Int3.Wf c ins)
    (hlight : Light T c.int1.bd c.int1.W c.int1.ps L (Int3.accepted c s ins)) :
    (Int3.accepted c s ins).length = c.int1.W * c.int1.H ∨
    (offered ins).length ≤ (Int3.accepted c s ins).length + c.int1.ps * (1 + 4 * busyCycles ins) := by
  obtain ⟨k, its, recv, h1, h2, hf, _⟩ := waits_run h hc hs hL hLc hbuf hlight ins hwf (List.prefix_refl _)
  have hWH : c.int1.W / c.int1.ps * c.int1.H * c.int1.ps = c.int1.W * c.int1.H := by
    rw [Nat.mul_right_comm, Nat.div_mul_cancel h.legal.frame.dvd]
  have hle : (Int3.accepted c s ins).length ≤ c.int1.W * c.int1.H := by
    rw [h1.int1.hlen, ← hWH, Nat.mul_comm]
    exact Nat.mul_le_mul_right _ h1.kle
  by_cases hlt : (Int3.accepted c s ins).length < c.int1.W * c.int1.H
  · right
    by_cases hne : ins = []
    · subst hne; simp [offered]
    · obtain ⟨S, U, hp, ho⟩ := hf hlt hne
      have h3 := hp.pay
      have h4 := Speed.vfast_le hp.vb
      have : c.int1.ps * S ≤ c.int1.ps * (1 + 4 * busyCycles ins) := Nat.mul_le_mul_left _ (by omega)
      omega
  · left; omega

/-- C76 for the shipped core of the Axiom Beta: with at most 16 bits per pair of pixels and a pair offered in every cycle, the frame has
been taken after 8 cycles, one per pair, one, and four for every cycle in which the receiver was busy. -/
theorem C76_beta {s : Int3} (hs : AfterReset betaCore s) (ins : List CoreIn) (hwf : Int3.Wf betaCore ins)
    (hlight : Light defaultTable 12 4096 2 16 (Int3.accepted betaCore s ins)) (hall : ∀ i ∈ ins, i.valid = true)
    (hlen : 8 + 4096 * 3072 / 2 + 1 + 4 * busyCycles ins ≤ ins.length) :
    (Int3.accepted betaCore s ins).length = 4096 * 3072 := by
  have := C76_waits_bounded (c := betaCore) (T := defaultTable) (L := 16) (default_setup (by decide) rfl) (by decide) hs (by decide) (by decide)
    (by decide) ins hwf hlight
  rcases this with h | h
  · exact h
  have h1 : (offered ins).length = 2 * (ins.length - 8) := by
    unfold offered
    rw [List.filter_eq_self.2 (fun i hi => hall i (List.mem_of_mem_drop hi)), ← List.length_drop]
    have : ∀ i ∈ ins.drop 8, i.pixels.length = 2 :=
      fun i hi => (hwf i (List.mem_of_mem_drop hi) (hall i (List.mem_of_mem_drop hi))).1
    generalize ins.drop 8 = l at this
    induction l with
    | nil => rfl
    | cons i l ih =>
      rw [List.flatMap_cons, List.length_append, this i (by simp), ih (fun j hj => this j (by simp [hj])), List.length_cons]
      omega
  have h2 : betaCore.int1.ps = 2 := rfl
  rw [h1, h2] at h
  obtain ⟨k, its, recv, g1, g2⟩ := run_from_reset (c := betaCore) (T := defaultTable) (default_setup (by decide) rfl).ok hs hwf
  have g3 := g1.int1.hlen
  have g4 := g1.kle
  have e1 : betaCore.int1.W / betaCore.int1.ps * betaCore.int1.H = 6291456 := by decide
  rw [e1] at g4
  rw [h2] at g3
  have e2 : 4096 * 3072 / 2 = 6291456 := by decide
  rw [e2] at hlen
  generalize busyCycles ins = B at *
  show _ = 12582912
  omega

/-! ### The hypotheses can be met -/

/-- A small core with a frame of 4 x 64 pixels. -/
def waitCore : CoreCfg := { tinyCore with int1 := { tinyCore.int1 with H := 64 } }

/-- A pixel in every cycle, the receiver busy for 90 cycles. -/
def waitIns : List CoreIn := (List.range 150).map fun n => ⟨[5], true, decide (n < 90)⟩

example : CoreSetup waitCore defaultTable ∧ waitCore.csteps + 7 ≤ waitCore.cdepth ∧ 5 ≤ waitCore.out ∧ 5 ≤ waitCore.conv ∧
    waitCore.out + 2 * 5 ≤ waitCore.buf + 1 := ⟨default_setup (by decide) rfl, by decide, by decide, by decide, by decide⟩

-- The producer is made to wait in 60 cycles; C76 allows 361.
set_option maxRecDepth 40000 in
example : (offered waitIns).length = 142 ∧ Int3.accepted waitCore (Int3.init waitCore) waitIns = List.replicate 82 5 ∧ busyCycles waitIns = 90 := by
  decide +kernel

set_option maxRecDepth 40000 in
example : ∀ k, k < 82 → (encode defaultTable 4 4 ((List.replicate 82 5).take (k + 1))).length ≤
    (encode defaultTable 4 4 ((List.replicate 82 5).take k)).length + 5 := by decide +kernel

end Props
