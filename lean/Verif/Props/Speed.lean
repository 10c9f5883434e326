/- Property theorems C66: throughput of the encoder core. -/
import Verif.Proof.Speed
import Verif.Props.Core

set_option autoImplicit false

namespace Props
open Spec Model

/-- The pixels the producer offers from the ninth cycle on. -/
def offered (ins : List CoreIn) : List Nat := ((ins.drop 8).filter (·.valid)).flatMap (·.pixels)

/-- Every group of `ps` pixels of the image adds at most `L` bits to the code. -/
def Light (T : Table) (bd W ps L : Nat) (img : List Nat) : Prop :=
  ∀ k, ps * (k + 1) ≤ img.length →
    (encode T bd W (img.take (ps * (k + 1)))).length ≤ (encode T bd W (img.take (ps * k))).length + L

/-- Cycles in which the receiver is busy. -/
def busyCycles (ins : List CoreIn) : Nat := ins.countP (·.busy)

theorem offered_append (ins : List CoreIn) (i : CoreIn) :
    offered (ins ++ [i]) = offered ins ++ if 8 ≤ ins.length ∧ i.valid = true then i.pixels else [] := by
  unfold offered
  by_cases h8 : 8 ≤ ins.length
  · rw [List.drop_append_of_le_length h8, List.filter_append, List.flatMap_append]
    cases hv : i.valid <;> simp [hv, h8]
  · rw [List.drop_eq_nil_of_le (by simp; omega), List.drop_eq_nil_of_le (by omega)]
    simp [h8]

theorem busyCycles_append (ins : List CoreIn) (i : CoreIn) : busyCycles (ins ++ [i]) = busyCycles ins + i.busy.toNat := by
  unfold busyCycles
  rw [List.countP_append, List.countP_singleton]
  cases i.busy <;> rfl

variable {c : CoreCfg} {T : Table}

theorem reset_counter {s : Int3} (hs : AfterReset c s) (ins : List CoreIn) :
    (Int3.run c s ins).int2.nreadyCtr = ins.length % 8 ∧ (Int3.run c s ins).int2.nreadyReset = decide (8 ≤ ins.length) := by
  induction ins using snoc_induction with
  | h0 => obtain ⟨m, _, rfl⟩ := hs; exact ⟨rfl, rfl⟩
  | h1 ins i ih =>
    rw [run_append]
    obtain ⟨h1, h2⟩ := ih
    simp only [Int3.run, Int3.step, Int2.step, h1, h2, List.length_append, List.length_singleton]
    refine ⟨by omega, ?_⟩
    by_cases h7 : ins.length % 8 = 7
    · rw [if_pos h7]; symm; simp; omega
    · rw [if_neg h7]; simp; omega

/-- State and acceptance at full speed. -/
theorem speed_run (h : CoreSetup c T) {s : Int3} (hs : AfterReset c s) {L : Nat} (hL : L ≤ c.out) (hLc : L ≤ c.conv)
    (hbuf : c.out + 2 * L ≤ c.buf + 1) {A : List Nat} (hA : Light T c.int1.bd c.int1.W c.int1.ps L A) (ins : List CoreIn) :
    Int3.Wf c ins → (offered ins).take (c.int1.W * c.int1.H) <+: A →
    4 * busyCycles ins + 2 + c.csteps < c.cdepth →
    Int3.accepted c s ins = (offered ins).take (c.int1.W * c.int1.H) ∧
    ∃ k its recv, Int2.Inv c (c.int1.W / c.int1.ps) T (Int3.accepted c s ins) k its (Int3.run c s ins).int2 recv ∧
      VBits.Inv c.out c.conv c.buf (Int3.run c s ins).vbits (Int3.delivered c s ins) recv ∧
      ((Int3.accepted c s ins).length < c.int1.W * c.int1.H → ins ≠ [] → Speed.Fast c L (busyCycles ins) its (Int3.run c s ins)) ∧
      (ins = [] → its = List.replicate (5 + levels c.int1.ps) none) := by
  have hok := h.ok
  have hWH : c.int1.W / c.int1.ps * c.int1.H * c.int1.ps = c.int1.W * c.int1.H := by
    rw [Nat.mul_right_comm, Nat.div_mul_cancel h.legal.frame.dvd]
  have hps : 0 < c.int1.ps := by have := hok.int1.ps; omega
  induction ins using snoc_induction with
  | h0 =>
    intro _ _ _
    obtain ⟨m, hm, rfl⟩ := hs
    exact ⟨by simp [Int3.accepted, offered], 0, _, [], Int2.inv_reset hok hm, VBits.inv_init, fun _ hh => absurd rfl hh, fun _ => rfl⟩
  | h1 ins i ih =>
    intro hwf hpre hB
    rw [busyCycles_append] at hB
    have hwf1 : Int3.Wf c ins := fun j hj => hwf j (by simp [hj])
    have hwfi := hwf i (by simp)
    have hp1 : (offered ins).take (c.int1.W * c.int1.H) <+: A := by
      refine List.IsPrefix.trans ?_ hpre
      rw [offered_append, List.take_append]
      exact List.prefix_append _ _
    obtain ⟨hacc, k, its, recv, h1, h2, hf, hnil⟩ := ih hwf1 hp1 (by omega)
    have hlen := h1.int1.hlen
    have hcnt := reset_counter hs ins
    have hst := Int2.step_ok hok h1 (Int3.run c s ins).vbits.latch (px := i.pixels) (v := i.valid) hwfi
    -- the ready flag
    have hnr : (Int3.run c s ins).nready = !(decide (8 ≤ ins.length) && decide ((Int3.accepted c s ins).length < c.int1.W * c.int1.H)) := by
      unfold Int3.nready Int2.nready
      rw [hcnt.2, h1.endN]
      by_cases h8 : 8 ≤ ins.length
      · by_cases hk : (Int3.accepted c s ins).length < c.int1.W * c.int1.H
        · have hpf := (hf hk (by intro hh; rw [hh] at h8; simp at h8)).pf
          rw [hpf]
          have : ¬ k = c.int1.W / c.int1.ps * c.int1.H := by
            intro hh; rw [hlen, hh, Nat.mul_comm, hWH] at hk; omega
          simp [h8, hk, this]
        · have : k = c.int1.W / c.int1.ps * c.int1.H := by
            have hle := h1.kle
            apply Nat.le_antisymm hle
            apply Classical.byContradiction
            intro hlt
            apply hk
            rw [hlen, ← hWH, Nat.mul_comm]
            exact Nat.mul_lt_mul_of_pos_right (by omega) hps
          simp [h8, hk, this]
      · simp [h8]
    have hcond : (i.valid && !(Int3.run c s ins).nready) = true ↔
        (8 ≤ ins.length ∧ i.valid = true) ∧ (Int3.accepted c s ins).length < c.int1.W * c.int1.H := by
      rw [hnr]
      cases i.valid <;> simp
    have hacc' : Int3.accepted c s (ins ++ [i]) = (offered (ins ++ [i])).take (c.int1.W * c.int1.H) := by
      rw [accepted_append, offered_append]
      simp only [Int3.accepted, List.append_nil]
      have hk := h1.kle
      have hol : (offered ins).length = (Int3.accepted c s ins).length ∨ c.int1.W * c.int1.H ≤ (offered ins).length := by
        rw [hacc, List.length_take]; omega
      by_cases hc : (i.valid && !(Int3.run c s ins).nready) = true
      · rw [if_pos hc]
        obtain ⟨hv, hlt⟩ := hcond.1 hc
        rw [if_pos hv]
        have hl := (hwfi hv.2).1
        have e : (offered ins).length = (Int3.accepted c s ins).length := by
          rcases hol with h | h
          · exact h
          · rw [hacc, List.length_take] at hlt; omega
        have hks : k < c.int1.W / c.int1.ps * c.int1.H := by
          rw [hlen, ← hWH, Nat.mul_comm] at hlt
          exact Nat.lt_of_mul_lt_mul_right hlt
        have hle : c.int1.ps * (k + 1) ≤ c.int1.W * c.int1.H := by
          rw [← hWH, Nat.mul_comm]; exact Nat.mul_le_mul_right _ hks
        rw [Nat.mul_add] at hle
        rw [List.take_of_length_le (by rw [List.length_append, e, hlen, hl]; omega), hacc,
          List.take_of_length_le (by rw [e, hlen]; omega)]
      · rw [if_neg hc]
        by_cases hv : 8 ≤ ins.length ∧ i.valid = true
        · have hlt : ¬ (Int3.accepted c s ins).length < c.int1.W * c.int1.H := fun hh => hc (hcond.2 ⟨hv, hh⟩)
          have : c.int1.W * c.int1.H ≤ (offered ins).length := by
            rcases hol with h | h
            · omega
            · exact h
          rw [if_pos hv, List.take_append_of_le_length this, List.append_nil, hacc]
        · rw [if_neg hv, List.append_nil, List.append_nil, hacc]
    -- the invariants after the cycle
    have hin : (Int3.run c s ins).int2.valid = true → ((Int3.run c s ins).int2.out c).Ok c.conv := by
      intro hr
      apply h1.cok
      rw [Fifo.contents_readable hr]; simp
    have hw : WellMarked (recv ++ if (Int3.run c s ins).vbits.latch && (Int3.run c s ins).int2.valid then ((Int3.run c s ins).int2.out c).flat else []) := by
      have := hst.stream
      apply WellMarked.prefix (b := Int2.pend c ((Int3.run c s ins).int2.step c i.pixels i.valid (Int3.run c s ins).vbits.latch)
        ((Int2.newItem c (c.int1.W / c.int1.ps) T (Int3.accepted c s ins) k i.pixels (i.valid && !(Int3.run c s ins).int2.nready) :: its).dropLast))
      show WellMarked (recv ++ (if (Int3.run c s ins).vbits.latch && (Int3.run c s ins).int2.cfifo.readable then ((Int3.run c s ins).int2.out c).flat else []) ++ _)
      rw [this]
      exact wellMarked_marked _ _ _ _ _
    have hv2 := VBits.step_ok hok.out hok.buf h2 (busy := i.busy) hin hw
    refine ⟨hacc', k + (i.valid && !(Int3.run c s ins).int2.nready).toNat,
      (Int2.newItem c (c.int1.W / c.int1.ps) T (Int3.accepted c s ins) k i.pixels (i.valid && !(Int3.run c s ins).int2.nready) :: its).dropLast,
      recv ++ (if (Int3.run c s ins).vbits.latch && (Int3.run c s ins).int2.valid then ((Int3.run c s ins).int2.out c).flat else []),
      ?_, ?_, ?_, by intro hh; simp at hh⟩
    · rw [run_append, accepted_append]
      simp only [Int3.accepted, List.append_nil]
      exact hst
    · rw [run_append, delivered_append]
      simp only [Int3.delivered, List.append_nil]
      exact hv2
    · intro hlt _
      have hlt0 : (Int3.accepted c s ins).length < c.int1.W * c.int1.H := by
        rw [accepted_append, List.length_append] at hlt; omega
      have hks : k < c.int1.W / c.int1.ps * c.int1.H := by
        rw [hlen, ← hWH, Nat.mul_comm] at hlt0
        exact Nat.lt_of_mul_lt_mul_right hlt0
      rw [run_append, busyCycles_append]
      simp only [Int3.run]
      by_cases hne : ins = []
      · subst hne
        obtain ⟨m, hm, rfl⟩ := hs
        have hi := hnil rfl
        have := Speed.fast_first hok L hm hbuf i
        have hb : busyCycles [] + i.busy.toNat = i.busy.toNat := by simp [busyCycles]
        rw [hb]
        have hnr0 : (i.valid && !(Int3.run c (Int3.reset c m) []).int2.nready) = false := by
          have : (i.valid && !(Int3.run c (Int3.reset c m) []).nready) = false := by rw [hnr]; simp
          exact this
        rw [hi, hnr0]
        simp only [Int2.newItem, Bool.false_eq_true, if_false]
        have e : (none :: List.replicate (5 + levels c.int1.ps) (none : Item)).dropLast = List.replicate (5 + levels c.int1.ps) none := by
          rw [← List.replicate_succ, List.dropLast_replicate, Nat.add_sub_cancel]
        rw [e]
        exact this
      · apply Speed.fast_step hok hL hLc hbuf h1 h2 hks (hf hlt0 hne) i ?_ (by omega)
        intro hc
        have hc' := hcond.1 hc
        have hap : Int3.accepted c s (ins ++ [i]) = Int3.accepted c s ins ++ i.pixels := by
          rw [accepted_append]
          simp only [Int3.accepted, List.append_nil]
          rw [if_pos hc]
        rw [← hacc', hap] at hpre
        obtain ⟨t, ht⟩ := hpre
        have hl := (hwfi hc'.1.2).1
        have hal : (Int3.accepted c s ins ++ i.pixels).length = c.int1.ps * (k + 1) := by
          rw [List.length_append, hlen, hl, Nat.mul_add, Nat.mul_one]
        have := hA k (by rw [← ht, List.length_append, hal]; omega)
        rw [← ht, List.take_left' hal, List.append_assoc, List.take_left' hlen, encode_append hok.int1.W4, List.length_append] at this
        omega

/-- C66: if every group of pixels needs at most `L` bits, `L` being at most the output width and the converter width and small
enough for the packer's buffer, and the receiver is busy in few cycles only, then the core takes every group that is offered
from the ninth cycle after reset on, whatever the producer's schedule: it never makes the producer wait, until the frame is
complete. -/
theorem C66_takes_every_group (h : CoreSetup c T) {s : Int3} (hs : AfterReset c s) {L : Nat} (hL : L ≤ c.out) (hLc : L ≤ c.conv)
    (hbuf : c.out + 2 * L ≤ c.buf + 1) (ins : List CoreIn) (hwf : Int3.Wf c ins)
    (hlight : Light T c.int1.bd c.int1.W c.int1.ps L ((offered ins).take (c.int1.W * c.int1.H)))
    (hbusy : 4 * busyCycles ins + 2 + c.csteps < c.cdepth) :
    Int3.accepted c s ins = (offered ins).take (c.int1.W * c.int1.H) :=
  (speed_run h hs hL hLc hbuf hlight ins hwf (List.prefix_refl _) hbusy).1

/-- C66: under the same conditions the core signals that it is ready in every cycle from the ninth on until the frame is complete. -/
theorem C66_always_ready (h : CoreSetup c T) {s : Int3} (hs : AfterReset c s) {L : Nat} (hL : L ≤ c.out) (hLc : L ≤ c.conv)
    (hbuf : c.out + 2 * L ≤ c.buf + 1) (ins : List CoreIn) (hwf : Int3.Wf c ins) (h8 : 8 ≤ ins.length)
    (hlight : Light T c.int1.bd c.int1.W c.int1.ps L ((offered ins).take (c.int1.W * c.int1.H)))
    (hbusy : 4 * busyCycles ins + 2 + c.csteps < c.cdepth) (hlt : (offered ins).length < c.int1.W * c.int1.H) :
    (Int3.run c s ins).nready = false := by
  obtain ⟨ha, k, its, recv, h1, h2, hf, _⟩ := speed_run h hs hL hLc hbuf hlight ins hwf (List.prefix_refl _) hbusy
  have hlt' : (Int3.accepted c s ins).length < c.int1.W * c.int1.H := by
    rw [ha, List.length_take]; omega
  have hpf := (hf hlt' (by intro hh; rw [hh] at h8; simp at h8)).pf
  unfold Int3.nready Int2.nready
  rw [hpf, (reset_counter hs ins).2, h1.endN]
  have hWH : c.int1.W / c.int1.ps * c.int1.H * c.int1.ps = c.int1.W * c.int1.H := by
    rw [Nat.mul_right_comm, Nat.div_mul_cancel h.legal.frame.dvd]
  have : ¬ k = c.int1.W / c.int1.ps * c.int1.H := by
    intro hh; rw [h1.int1.hlen, hh, Nat.mul_comm, hWH] at hlt'; omega
  simp [h8, this]

/-- C66 for the shipped core of the Axiom Beta: with at most 16 bits per pair of pixels and a receiver that is busy in at most
125 cycles, the core takes a pair of pixels in every cycle from the ninth on. -/
theorem C66_beta {s : Int3} (hs : AfterReset betaCore s) (ins : List CoreIn) (hwf : Int3.Wf betaCore ins)
    (hlight : Light defaultTable 12 4096 2 16 ((offered ins).take (4096 * 3072))) (hbusy : busyCycles ins ≤ 125)
    (hall : ∀ i ∈ ins, i.valid = true) :
    (Int3.accepted betaCore s ins).length = min (2 * (ins.length - 8)) (4096 * 3072) := by
  rw [C66_takes_every_group (c := betaCore) (T := defaultTable) (L := 16) (default_setup (by decide) rfl) hs (by decide) (by decide)
    (by decide) ins hwf hlight (by
      have : betaCore.csteps = 5 := by decide
      have e : betaCore.cdepth = 512 := rfl
      rw [this, e]; omega)]
  rw [List.length_take]
  have : (offered ins).length = 2 * (ins.length - 8) := by
    unfold offered
    rw [List.filter_eq_self.2 (fun i hi => hall i (List.mem_of_mem_drop hi)), ← List.length_drop]
    have : ∀ i ∈ ins.drop 8, i.pixels.length = 2 :=
      fun i hi => (hwf i (List.mem_of_mem_drop hi) (hall i (List.mem_of_mem_drop hi))).1
    generalize ins.drop 8 = l at this
    induction l with
    | nil => rfl
    | cons i l ih =>
      rw [List.flatMap_cons, List.length_append, this i (by simp), ih (fun j hj => this j (by simp [hj])), List.length_cons]
      omega
  rw [this]
  show min (4096 * 3072) _ = _
  omega

/-! ### The hypotheses can be met -/

set_option maxRecDepth 20000 in
example : 4 * busyCycles tinyIns + 2 + tinyCore.csteps < tinyCore.cdepth ∧ offered tinyIns = List.replicate 37 5 ∧
    Int3.accepted tinyCore (Int3.init tinyCore) tinyIns = List.replicate 8 5 := by decide +kernel

set_option maxRecDepth 20000 in
example : ∀ k, k < 8 → (encode defaultTable 4 4 ((List.replicate 8 5).take (k + 1))).length ≤
    (encode defaultTable 4 4 ((List.replicate 8 5).take k)).length + 5 := by decide +kernel

-- With a receiver that is busy all the time the core does stop the producer before the frame is complete.
set_option maxRecDepth 40000 in
example : (Int3.run { tinyCore with int1 := { tinyCore.int1 with H := 16 } } (Int3.init tinyCore) (List.replicate 50 ⟨[5], true, true⟩)).nready = true ∧
    (Int3.accepted { tinyCore with int1 := { tinyCore.int1 with H := 16 } } (Int3.init tinyCore) (List.replicate 50 ⟨[5], true, true⟩)).length < 42 := by
  decide +kernel

end Props
