/- Property theorem C77 for the shipped netlist of the beta core. -/
import Verif.Props.LightFrame
import Verif.Props.Netlist

set_option autoImplicit false

namespace Props
open Spec Model Netlist

theorem map_prefix {α β : Type} {f : α → β} {l : List α} {p : List β} (h : p <+: l.map f) : ∃ q, q <+: l ∧ p = q.map f := by
  refine ⟨l.take p.length, List.take_prefix _ _, ?_⟩
  rw [List.map_take]
  exact List.prefix_iff_eq_take.1 h

/-- C77 for the shipped Verilog: from every start of a frame, if the pixels taken are those of an image in which no sample differs by
more than 31 from its prediction and whose code contains at most `F` bytes FF, the producer pauses in at most `K` cycles (from the ninth
on) before the frame is taken and the receiver is busy in at most `B` cycles, then the frame ends with FFFF, after at most 6379270 cycles
plus one per pause, ten per busy cycle and nine per pair of FF bytes (if this is not over the time limit of 6666000 cycles). -/
theorem C77_netlist (s : Beta.top.S) (hs : Beta.top.Init s) (hist : List NetIn) (hst : FrameStart s hist) (hok0 : ∀ j ∈ hist, j.Ok)
    {A : List Nat} (hAl : A.length = 4096 * 3072) (hA : ∀ d ∈ diffs 12 4096 A, -31 ≤ d ∧ d ≤ 31) {F B K : Nat}
    (hF : onesBytes (encode defaultTable 12 4096 A) ≤ F) (ins : List NetIn) (hok : ∀ j ∈ ins, j.Ok) (hf : ∀ j ∈ ins, j.fullRst = false)
    (hB : ins.countP (·.busy) ≤ B)
    (hpix : ∀ p i, p ++ [i] <+: ins → (∀ x ∈ netGiven (netRun s hist) p, x.2 = false) → netAccepted (netRun s hist) (p ++ [i]) <+: A)
    (hK : ∀ p, p <+: ins → (∀ x ∈ netGiven (netRun s hist) p, x.2 = false) → netAccepted (netRun s hist) p ≠ A →
      (p.drop 8).countP (!·.valid) ≤ K)
    (hlen : 6379270 + K + 10 * B + 9 * (F / 2) ≤ ins.length) (hle : ins.length ≤ 6666000) :
    ∃ pre i post, ins = pre ++ i :: post ∧ (∀ x ∈ netGiven (netRun s hist) pre, x.2 = false) ∧
      (0xFFFF, true) ∈ netGiven (netRun s hist) (pre ++ [i]) ∧ netAccepted (netRun s hist) (pre ++ [i]) = A := by
  obtain ⟨m, hm, e1, e2⟩ := fresh_traffic (fresh_of_start s hs hist hok0 hst)
  have g1 : ∀ p, p <+: ins → netAccepted (netRun s hist) p = camAccepted betaCore 6666000 (Cam.reset betaCore m) (p.map NetIn.cam) :=
    fun p hp => e1 p (fun j hj => hok j (hp.subset hj)) (fun j hj => hf j (hp.subset hj))
  have g2 : ∀ p, p <+: ins → netGiven (netRun s hist) p = camGiven betaCore 6666000 (Cam.reset betaCore m) (p.map NetIn.cam) :=
    fun p hp => e2 p (fun j hj => hok j (hp.subset hj)) (fun j hj => hf j (hp.subset hj))
  have hcon : betaCore.int1.W * betaCore.int1.H / betaCore.int1.ps + 9 * 10 + drainCycles betaCore + 65 = 6379270 := by decide
  obtain ⟨pre, i, post, he, h1, h2, h3⟩ := C77_light_frame_ends beta_setup (by decide) (s := Cam.reset betaCore m) (a := 6666000) ⟨m, hm, rfl⟩ (L := 16)
    (by decide) (by decide) (by decide) hAl (light_of_diffs (by decide) hA) (F := F) (B := B) (K := K) hF (ins.map NetIn.cam) (netCam_wf _ hok)
    (by
      unfold camBusy
      rw [List.countP_map]
      exact hB)
    (by
      intro p i hp hno
      obtain ⟨q, hq, e⟩ := map_prefix hp
      cases q using snoc_induction with
      | h0 => simp at e
      | h1 q j _ =>
        rw [List.map_append] at e
        obtain ⟨rfl, e4⟩ := List.append_inj' e rfl
        have hq1 : q <+: ins := List.IsPrefix.trans (List.prefix_append _ _) hq
        have := hpix q j hq (by rw [g2 q hq1]; exact hno)
        rw [g1 _ hq, List.map_append] at this
        rw [e4]
        exact this)
    (by
      intro p hp hno hne
      obtain ⟨q, hq, rfl⟩ := map_prefix hp
      have := hK q hq (by rw [g2 q hq]; exact hno) (by rw [g1 q hq]; exact hne)
      unfold camIdle
      rw [← List.map_drop, List.countP_map]
      exact this)
    (by
      rw [List.length_map]
      omega)
    (by rw [List.length_map]; exact hle)
  have hpre : pre ++ [i] <+: ins.map NetIn.cam := ⟨post, by rw [he]; simp⟩
  obtain ⟨q, hq, e⟩ := map_prefix hpre
  cases q using snoc_induction with
  | h0 => simp at e
  | h1 q j _ =>
    rw [List.map_append] at e
    obtain ⟨rfl, e4⟩ := List.append_inj' e rfl
    have hq1 : q <+: ins := List.IsPrefix.trans (List.prefix_append _ _) hq
    obtain ⟨t, ht⟩ := hq
    have hq : q ++ [j] <+: ins := ⟨t, ht⟩
    refine ⟨q, j, t, by rw [← ht]; simp, by rw [g2 q hq1]; exact h1, ?_, ?_⟩
    · rw [g2 _ hq, List.map_append]; rw [e4] at h2; exact h2
    · rw [g1 _ hq, List.map_append]; rw [e4] at h3; exact h3

/-- The netlist coding a uniform grey frame, from every start of a frame: the end marker FFFF is given. -/
theorem C77_netlist_grey_frame (s : Beta.top.S) (hs : Beta.top.Init s) (hist : List NetIn) (hst : FrameStart s hist) (hok0 : ∀ j ∈ hist, j.Ok) :
    ∃ n, n < 6666000 ∧ (∀ x ∈ netGiven (netRun s hist) (List.replicate n ⟨false, false, 2048, 2048, true⟩), x.2 = false) ∧
      (0xFFFF, true) ∈ netGiven (netRun s hist) (List.replicate (n + 1) ⟨false, false, 2048, 2048, true⟩) := by
  obtain ⟨m, hm, e1, e2⟩ := fresh_traffic (fresh_of_start s hs hist hok0 hst)
  have hrep : ∀ N (p : List NetIn), p <+: List.replicate N ⟨false, false, 2048, 2048, true⟩ → p = List.replicate p.length ⟨false, false, 2048, 2048, true⟩ := by
    intro N p hp
    exact List.eq_replicate_of_mem fun j hj => List.eq_of_mem_replicate (hp.subset hj)
  have hacc : ∀ n, ∃ k, netAccepted (netRun s hist) (List.replicate n ⟨false, false, 2048, 2048, true⟩) = List.replicate k 2048 := by
    intro n
    generalize netRun s hist = s'
    induction n generalizing s' with
    | zero => exact ⟨0, rfl⟩
    | succ n ih =>
      rw [List.replicate_succ]
      obtain ⟨k, hk⟩ := ih (netStep s' ⟨false, false, 2048, 2048, true⟩)
      simp only [netAccepted, hk]
      split
      · exact ⟨k + 2, by rw [List.replicate_succ, List.replicate_succ]; rfl⟩
      · exact ⟨k, rfl⟩
  have hmain : ∀ N, N = 6666000 → ∃ pre i post, List.replicate N (⟨false, false, 2048, 2048, true⟩ : NetIn) = pre ++ i :: post ∧
      (∀ x ∈ netGiven (netRun s hist) pre, x.2 = false) ∧ (0xFFFF, true) ∈ netGiven (netRun s hist) (pre ++ [i]) ∧
      netAccepted (netRun s hist) (pre ++ [i]) = (List.range (4096 * 3072)).map fun _ => 2048 := by
    intro N hN
    have hd := grey_diffs 12 4096 (4096 * 3072)
    have hok : ∀ j ∈ List.replicate N (⟨false, false, 2048, 2048, true⟩ : NetIn), j.Ok := by
      intro j hj; rw [List.eq_of_mem_replicate hj]; exact ⟨by decide, by decide⟩
    have hfu : ∀ j ∈ List.replicate N (⟨false, false, 2048, 2048, true⟩ : NetIn), j.fullRst = false := by
      intro j hj; rw [List.eq_of_mem_replicate hj]
    refine C77_netlist s hs hist hst hok0 (A := (List.range (4096 * 3072)).map fun _ => 2048) (F := 0) (B := 0) (K := 0) (by simp) (fun d hdm => ?_) ?_
      (List.replicate N ⟨false, false, 2048, 2048, true⟩) hok hfu ?_ ?_ ?_ ?_ ?_
    · rw [hd d hdm]; decide
    · rw [calm_no_ff (fun d hdm => by rw [hd d hdm]; decide)]; exact Nat.le_refl 0
    · rw [Nat.le_zero, List.countP_eq_zero]
      intro j hj
      rw [List.eq_of_mem_replicate hj]; simp
    · intro p i hp hno
      have hp1 : p <+: List.replicate N ⟨false, false, 2048, 2048, true⟩ := List.IsPrefix.trans (List.prefix_append _ _) hp
      have hle : (netAccepted (netRun s hist) (p ++ [i])).length ≤ 4096 * 3072 := by
        rw [e1 _ (fun j hj => hok j (hp.subset hj)) (fun j hj => hfu j (hp.subset hj)), List.map_append]
        rw [e2 _ (fun j hj => hok j (hp1.subset hj)) (fun j hj => hfu j (hp1.subset hj))] at hno
        obtain ⟨D, P, M, forced, hi⟩ := frame_run_last beta_setup 6666000 (p.map NetIn.cam) i.cam ⟨m, hm, rfl⟩
          (by have := netCam_wf (p ++ [i]) (fun j hj => hok j (hp.subset hj)); rw [List.map_append] at this; exact this) hno
        obtain ⟨k, hc⟩ := hi.core
        have hlen := Int3.inv_len hc
        obtain ⟨its, recv, h1, h2⟩ := hc
        have := h1.kle
        rw [List.map_singleton, hlen]
        have e : betaCore.int1.W / betaCore.int1.ps * betaCore.int1.H = 2048 * 3072 := by decide
        have e2 : betaCore.int1.ps = 2 := rfl
        rw [e] at this
        rw [e2]
        omega
      rw [hrep N _ hp] at hle ⊢
      obtain ⟨k, hk⟩ := hacc (p ++ [i]).length
      rw [hk, List.length_replicate] at hle
      rw [hk, List.map_const', List.length_range]
      exact ⟨List.replicate (4096 * 3072 - k) 2048, by rw [List.replicate_append_replicate]; congr 1; omega⟩
    · intro p hp _ _
      rw [Nat.le_zero, List.countP_eq_zero]
      intro j hj
      rw [List.eq_of_mem_replicate (hp.subset (List.mem_of_mem_drop hj))]; simp
    · rw [List.length_replicate, hN]; decide
    · rw [List.length_replicate, hN]; exact Nat.le_refl _
  obtain ⟨pre, i, post, he, h1, h2, _⟩ := hmain _ rfl
  have hp : pre ++ [i] <+: List.replicate 6666000 ⟨false, false, 2048, 2048, true⟩ := ⟨post, by rw [he]; simp⟩
  have hp1 : pre <+: List.replicate 6666000 ⟨false, false, 2048, 2048, true⟩ := List.IsPrefix.trans (List.prefix_append _ _) hp
  refine ⟨pre.length, ?_, ?_, ?_⟩
  · have := congrArg List.length he
    rw [List.length_replicate, List.length_append, List.length_cons] at this
    omega
  · rw [← hrep _ _ hp1]; exact h1
  · have := hrep _ _ hp
    rw [List.length_append, List.length_singleton] at this
    rw [← this]; exact h2

end Props
