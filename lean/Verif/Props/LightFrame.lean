/- Property theorems C77: frames of bounded code rate end normally, within the time limit. -/
import Verif.Proof.BackEnd
import Verif.Props.Waits
import Verif.Props.Drain
import Verif.Props.Forced
import Verif.Props.Budget

set_option autoImplicit false

namespace Props
open Spec Model

/-- Number of bytes FF when the bits are cut into bytes from the start. -/
def onesBytes : List Bool → Nat
  | b0 :: b1 :: b2 :: b3 :: b4 :: b5 :: b6 :: b7 :: r => (if (b0 && b1 && b2 && b3 && b4 && b5 && b6 && b7) = true then 1 else 0) + onesBytes r
  | _ => 0

/-- Cycles in which the receiver of the beta core is busy. -/
def camBusy (ins : List CamIn) : Nat := ins.countP (·.busy)

/-- Cycles from the ninth on in which the producer offers nothing. -/
def camIdle (ins : List CamIn) : Nat := (ins.drop 8).countP (!·.valid)

theorem onesBytes_ge (bytes : List Nat) : ∀ t : List Bool, bytes.count 255 ≤ onesBytes (byteBits bytes ++ t) := by
  induction bytes with
  | nil => intro t; simp
  | cons b bytes ih =>
    intro t
    simp only [byteBits, List.flatMap_cons] at ih ⊢
    rw [List.append_assoc]
    have := ih t
    generalize bytes.flatMap (toBits 8) ++ t = r at *
    simp only [toBits, List.cons_append, List.nil_append, onesBytes]
    by_cases hb : b = 255
    · subst hb
      rw [List.count_cons_self, if_pos (by decide)]
      omega
    · rw [List.count_cons_of_ne hb]
      omega

/-- What the encoder core sees inside the beta core. -/
def camCore (c : CoreCfg) (allowed : Nat) : Cam → List CamIn → List CoreIn
  | _, [] => []
  | s, i :: r => ⟨i.pixels, i.valid, s.fix1.oBusy⟩ :: camCore c allowed (s.betaStep c allowed i) r

variable {c : CoreCfg} {T : Table}

theorem camCore_append (c : CoreCfg) (a : Nat) (x y : List CamIn) :
    ∀ s, camCore c a s (x ++ y) = camCore c a s x ++ camCore c a (camRun c a s x) y := by
  induction x with
  | nil => intro s; rfl
  | cons i x ih => intro s; simp [camCore, camRun, ih]

theorem camCore_length (c : CoreCfg) (a : Nat) (x : List CamIn) : ∀ s, (camCore c a s x).length = x.length := by
  induction x with
  | nil => intro s; rfl
  | cons i x ih => intro s; simp [camCore, ih]

theorem camCore_wf (a : Nat) {x : List CamIn} (hwf : CamWf c x) : ∀ s, Int3.Wf c (camCore c a s x) := by
  induction x with
  | nil => intro s i hi; simp [camCore] at hi
  | cons i x ih =>
    intro s j hj
    simp only [camCore, List.mem_cons] at hj
    rcases hj with rfl | hj
    · exact hwf i (by simp)
    · exact ih (fun k hk => hwf k (by simp [hk])) _ j hj

/-- The run up to the first end-flagged word, before the time limit. -/
structure Track (c : CoreCfg) (T : Table) (a : Nat) (s : Cam) (ins : List CamIn) : Prop where
  rst : (camRun c a s ins).resetOut = false
  core : (camRun c a s ins).core = Int3.run c s.core (camCore c a s ins)
  acc : camAccepted c a s ins = Int3.accepted c s.core (camCore c a s ins)
  inv : ∃ P M, Cam.Inv c T (camRun c a s ins) (camAccepted c a s ins) (Int3.delivered c s.core (camCore c a s ins)) P M (camGiven c a s ins) False ∧
    ((∀ x ∈ Int3.delivered c s.core (camCore c a s ins), x.2 = false) →
      2 * busyCycles (camCore c a s ins) + Back.psi (camRun c a s ins) ≤ 20 + 2 * camBusy ins + Back.ffs P)

theorem not_forced {a : Nat} {s : Cam} (hs : CamAfterReset c s) (ins : List CamIn) (hno : ∀ x ∈ camGiven c a s ins, x.2 = false)
    (hlen : ins.length ≤ a) : (camRun c a s ins).fend.fend = false := by
  obtain ⟨m, _, rfl⟩ := hs
  obtain ⟨_, ha⟩ := beta_aged a m _ ins rfl hno
  cases hf : (camRun c a (Cam.reset c m) ins).fend.fend with
  | false => rfl
  | true =>
    obtain ⟨p, j, q, e, _, _, hk⟩ := ha.fend hf
    have := congrArg List.length e
    simp at this
    omega

theorem track (h : CamSetup c T) {a : Nat} {s : Cam} (hs : CamAfterReset c s) (ins : List CamIn) : CamWf c ins →
    (∀ x ∈ camGiven c a s ins, x.2 = false) → ins.length ≤ a → Track c T a s ins := by
  induction ins using snoc_induction with
  | h0 =>
    intro _ _ _
    obtain ⟨m, hm, rfl⟩ := hs
    exact ⟨rfl, rfl, rfl, [], [], Cam.inv_reset h.core hm, fun _ => by
      simp [camCore, camRun, busyCycles, camBusy, Back.ffs, Back.psi, Cam.reset, Fix1.init, Fix2.init, Markers.init, Back.f2, Back.gm, Back.held]⟩
  | h1 ins i ih =>
    intro hwf hno hlen
    rw [camGiven_append] at hno
    rw [List.length_append, List.length_singleton] at hlen
    have hno1 : ∀ x ∈ camGiven c a s ins, x.2 = false := fun x hx => hno x (List.mem_append_left _ hx)
    have hwf1 : CamWf c ins := fun j hj => hwf j (by simp [hj])
    obtain ⟨h1, h2, h3, P, M, h4, h5⟩ := ih hwf1 hno1 (by omega)
    have hf := not_forced hs ins hno1 (by omega)
    have hst : (camRun c a s ins).betaStep c a i = (camRun c a s ins).betaRun c a i := by simp [Cam.betaStep, h1]
    have hx := Back.step_exact h.core h.out h.long a h4 i (hwf i (by simp))
    have hfp : (False ∨ (camRun c a s ins).fend.fend = true) = False := by simp [hf]
    rw [hfp] at hx
    have hrun : camRun c a s (ins ++ [i]) = (camRun c a s ins).betaRun c a i := by
      rw [camRun_append]; exact hst
    have hcc : camCore c a s (ins ++ [i]) = camCore c a s ins ++ [⟨i.pixels, i.valid, (camRun c a s ins).fix1.oBusy⟩] := by
      rw [camCore_append]; rfl
    have hacc : camAccepted c a s (ins ++ [i]) = camAccepted c a s ins ++ if i.valid && !(camRun c a s ins).nready then i.pixels else [] := by
      rw [camAccepted_append]; simp [camAccepted]
    have hgiv : camGiven c a s (ins ++ [i]) = camGiven c a s ins ++
        if ((camRun c a s ins).out i.busy).valid && !i.busy then [(((camRun c a s ins).out i.busy).data, ((camRun c a s ins).out i.busy).endd)] else [] := by
      rw [camGiven_append]; simp [camGiven]
    have hdel : Int3.delivered c s.core (camCore c a s (ins ++ [i])) = Int3.delivered c s.core (camCore c a s ins) ++
        if (camRun c a s ins).core.valid && !(camRun c a s ins).fix1.oBusy then [((camRun c a s ins).core.data, (camRun c a s ins).core.endd)] else [] := by
      rw [hcc, delivered_append, ← h2]; simp [Int3.delivered]
    refine ⟨?_, ?_, ?_, ?_⟩
    · rw [camRun_append]
      show ((camRun c a s ins).betaStep c a i).resetOut = false
      rw [reset_flag c a _ i h1]
      cases hv : ((camRun c a s ins).out i.busy).valid && !i.busy with
      | false => rfl
      | true =>
        have := hno (((camRun c a s ins).out i.busy).data, ((camRun c a s ins).out i.busy).endd) (by simp [camGiven, hv])
        simpa using this
    · rw [hrun, hcc, run_append, ← h2]; rfl
    · rw [hacc, hcc, accepted_append, ← h2, ← h3]
      simp [Int3.accepted, Cam.nready]
    · refine ⟨P ++ (if (camRun c a s ins).fix1.valid && !(camRun c a s ins).fix2.oBusy then [(camRun c a s ins).fix1.out] else []),
        M ++ (camRun c a s ins).fix2.transfer ((camRun c a s ins).out i.busy).oBusy, ?_, ?_⟩
      · rw [hrun, hacc, hdel, hgiv]; exact hx
      · intro hD
        rw [hdel] at hD
        have hD1 : ∀ x ∈ Int3.delivered c s.core (camCore c a s ins), x.2 = false := fun x hx => hD x (List.mem_append_left _ hx)
        have g1 := h5 hD1
        have g2 := Back.psi_step (allowed := a) h4 hD1 hf i
        rw [hcc, busyCycles_append, hrun, Back.ffs_append]
        have hb : camBusy (ins ++ [i]) = camBusy ins + i.busy.toNat := by
          unfold camBusy
          rw [List.countP_append, List.countP_singleton]
          cases i.busy <;> rfl
        rw [hb]
        show 2 * (busyCycles (camCore c a s ins) + (camRun c a s ins).fix1.oBusy.toNat) + _ ≤ _
        omega

theorem encode_mono (hW : 4 ≤ c.int1.W) {x y : List Nat} (h : x <+: y) : encode T c.int1.bd c.int1.W x <+: encode T c.int1.bd c.int1.W y := by
  obtain ⟨t, rfl⟩ := h
  rw [encode_append hW]
  exact List.prefix_append _ _

theorem light_prefix {bd W ps L : Nat} {x y : List Nat} (h : x <+: y) (hy : Light T bd W ps L y) : Light T bd W ps L x := by
  obtain ⟨t, rfl⟩ := h
  intro k hk
  have := hy k (by rw [List.length_append]; omega)
  rw [List.take_append_of_le_length hk, List.take_append_of_le_length (by
    have : ps * k ≤ ps * (k + 1) := Nat.mul_le_mul_left _ (by omega)
    omega)] at this
  exact this

/-- Busy cycles the encoder core sees, before its last word. -/
theorem core_busy (h : CamSetup c T) {a : Nat} {s : Cam} {ins : List CamIn} (ht : Track c T a s ins) {A : List Nat}
    (hA : camAccepted c a s ins <+: A) (hD : ∀ x ∈ Int3.delivered c s.core (camCore c a s ins), x.2 = false) :
    busyCycles (camCore c a s ins) ≤ 10 + camBusy ins + onesBytes (encode T c.int1.bd c.int1.W A) / 2 := by
  obtain ⟨_, _, _, P, M, h4, h5⟩ := ht
  have h6 := h5 hD
  obtain ⟨k, hk⟩ := h4.core
  obtain ⟨f1, _⟩ := Cam.core_facts h.core hk
  rw [noEnd_upToEnd hD, h.out, ← byteBits_wordBytes] at f1
  obtain ⟨t, ht⟩ := f1.trans (encode_mono h.core.legal.frame.W4 hA)
  have h7 := onesBytes_ge (wordBytes (Int3.delivered c s.core (camCore c a s ins))) t
  rw [ht, ← Back.ffs_packets, ← h4.packets, Back.ffs_append] at h7
  omega

theorem mmu_le {m : Markers} {G M : List (Nat × Bool)} (h : m.Inv G M False) : Back.mmu m ≤ 40 := by
  obtain ⟨f, n, e⟩ := m
  cases f <;> simp only [Markers.Inv, Back.mmu] at h ⊢
  · omega
  · obtain ⟨_, hn, _⟩ := h; omega
  · obtain ⟨_, hn, _⟩ := h; omega
  · omega
  · split <;> omega
  all_goals omega

/-- Once the encoder core gave its last word, the rest takes at most 55 cycles with a ready receiver. -/
theorem tail_run (h : CamSetup c T) {a : Nat} {s : Cam} (hs : CamAfterReset c s) (x : List CamIn)
    (hend : ∃ w, (w, true) ∈ Int3.delivered c s.core (camCore c a s x)) (y : List CamIn) : CamWf c (x ++ y) →
    (∀ z ∈ camGiven c a s (x ++ y), z.2 = false) → (x ++ y).length ≤ a →
    Back.fmu (camRun c a s (x ++ y)).fix1 (camRun c a s (x ++ y)).fix2 + Back.mmu (camRun c a s (x ++ y)).marks + y.length ≤ 55 + camBusy y := by
  induction y using snoc_induction with
  | h0 =>
    intro hwf hno hlen
    obtain ⟨_, _, _, P, M, h4, _⟩ := track h hs _ hwf hno hlen
    have := mmu_le h4.marks
    have := Back.fmu_le (camRun c a s (x ++ [])).fix1 (camRun c a s (x ++ [])).fix2
    simp only [List.length_nil]
    omega
  | h1 y i ih =>
    intro hwf hno hlen
    rw [← List.append_assoc] at hwf hno hlen ⊢
    rw [List.length_append, List.length_singleton] at hlen
    have hwf1 : CamWf c (x ++ y) := fun j hj => hwf j (List.mem_append_left _ hj)
    rw [camGiven_append] at hno
    have hno1 : ∀ z ∈ camGiven c a s (x ++ y), z.2 = false := fun z hz => hno z (List.mem_append_left _ hz)
    have g := ih hwf1 hno1 (by omega)
    obtain ⟨h1, _, _, P, M, h4, _⟩ := track h hs _ hwf1 hno1 (by omega)
    have hf := not_forced hs _ hno1 (by omega)
    have hm := Back.mu_step (allowed := a) h4 (by
      obtain ⟨w, hw⟩ := hend
      refine ⟨w, ?_⟩
      rw [camCore_append, delivered_append]
      exact List.mem_append_left _ hw) hf i hno1 (by
      intro hv hb
      have := hno ((((camRun c a s (x ++ y)).out i.busy).data), ((camRun c a s (x ++ y)).out i.busy).endd) (by
        rw [List.mem_append]
        right
        rw [hb] at hv
        simp [camGiven, hv, hb])
      exact this)
    have hb : camBusy (y ++ [i]) = camBusy y + i.busy.toNat := by
      unfold camBusy
      rw [List.countP_append, List.countP_singleton]
      cases i.busy <;> rfl
    have hrun : camRun c a s (x ++ y ++ [i]) = (camRun c a s (x ++ y)).betaRun c a i := by
      rw [camRun_append]
      show (camRun c a s (x ++ y)).betaStep c a i = _
      simp [Cam.betaStep, h1]
    rw [hrun, hb, List.length_append, List.length_singleton]
    cases hbz : i.busy <;> simp [hbz] at hm ⊢ <;> omega

theorem offered_core (a : Nat) (s : Cam) (p : List CamIn) (hwf : CamWf c p) :
    (offered (camCore c a s p)).length + c.int1.ps * camIdle p = c.int1.ps * (p.length - 8) := by
  induction p using snoc_induction with
  | h0 => simp [offered, camCore, camIdle]
  | h1 p i ih =>
    have ih := ih (fun j hj => hwf j (by simp [hj]))
    have hl := camCore_length c a p s
    rw [camCore_append]
    simp only [camCore]
    rw [offered_append, List.length_append, List.length_append, List.length_singleton, hl]
    have hid : camIdle (p ++ [i]) = camIdle p + if 8 ≤ p.length ∧ i.valid = false then 1 else 0 := by
      unfold camIdle
      by_cases h8 : 8 ≤ p.length
      · rw [List.drop_append_of_le_length h8, List.countP_append, List.countP_singleton]
        cases i.valid <;> simp [h8]
      · rw [List.drop_eq_nil_of_le (by simp; omega), List.drop_eq_nil_of_le (by omega)]
        simp [h8]
    rw [hid, Nat.mul_add]
    by_cases h8 : 8 ≤ p.length
    · rw [show p.length + 1 - 8 = p.length - 8 + 1 by omega, Nat.mul_add]
      cases hv : i.valid with
      | true => simp [h8, (hwf i (by simp) hv).1]; omega
      | false => simp [h8]; omega
    · simp [h8]
      rw [show p.length - 7 = p.length - 8 by omega]
      exact ih

/-- The first cycle in which something happens. -/
theorem first_prefix {α : Type} {P : List α → Prop} (l : List α) (h0 : ¬ P []) (hl : P l) :
    ∃ pre i post, l = pre ++ i :: post ∧ P (pre ++ [i]) ∧ ∀ q, q <+: pre → ¬ P q := by
  obtain ⟨n, ⟨hn, hp⟩, hmin⟩ := least (P := fun n => n ≤ l.length ∧ P (l.take n)) ⟨l.length, Nat.le_refl _, by rw [List.take_length]; exact hl⟩
  cases n with
  | zero => exact absurd hp (by simpa using h0)
  | succ n =>
    have hlt : n < l.length := by omega
    refine ⟨l.take n, l[n], l.drop (n + 1), ?_, ?_, ?_⟩
    · rw [← List.drop_eq_getElem_cons hlt, List.take_append_drop]
    · rw [List.take_append_getElem]; exact hp
    · intro q hq hP
      have h1 := hq.length_le
      rw [List.length_take] at h1
      refine hmin q.length (by omega) ⟨by omega, ?_⟩
      have : q = l.take q.length := List.prefix_iff_eq_take.1 (hq.trans (List.take_prefix _ _))
      rw [← this]; exact hP

/-- C77: let every group of `A` add at most `L` bits to the code (`L` as in C76) and let the code of `A` contain at most `F` bytes FF.
If the producer offers the pixels of `A` with at most `K` pauses, and the receiver is busy in at most `B` cycles, then the frame
ends normally, with FFFF, and all of `A` taken, within the number of cycles on the left of `hlen` (if the time limit is not shorter).
The bound is linear in pauses, busy cycles and FF bytes. -/
theorem C77_light_frame_ends (h : CamSetup c T) (hc : c.csteps + 7 ≤ c.cdepth) {a : Nat} {s : Cam} (hs : CamAfterReset c s) {L : Nat}
    (hL : L ≤ c.out) (hLc : L ≤ c.conv) (hbuf : c.out + 2 * L ≤ c.buf + 1) {A : List Nat} (hAl : A.length = c.int1.W * c.int1.H)
    (hA : Light T c.int1.bd c.int1.W c.int1.ps L A) {F B K : Nat} (hF : onesBytes (encode T c.int1.bd c.int1.W A) ≤ F)
    (ins : List CamIn) (hwf : CamWf c ins) (hB : camBusy ins ≤ B)
    (hpix : ∀ p i, p ++ [i] <+: ins → (∀ x ∈ camGiven c a s p, x.2 = false) → camAccepted c a s (p ++ [i]) <+: A)
    (hK : ∀ p, p <+: ins → (∀ x ∈ camGiven c a s p, x.2 = false) → camAccepted c a s p ≠ A → camIdle p ≤ K)
    (hlen : c.int1.W * c.int1.H / c.int1.ps + K + B + 9 * (10 + B + F / 2) + drainCycles c + 65 ≤ ins.length) (hle : ins.length ≤ a) :
    ∃ pre i post, ins = pre ++ i :: post ∧ (∀ x ∈ camGiven c a s pre, x.2 = false) ∧
      (0xFFFF, true) ∈ camGiven c a s (pre ++ [i]) ∧ camAccepted c a s (pre ++ [i]) = A := by
  have hps : 0 < c.int1.ps := by have := h.core.ok.int1.ps; omega
  have hWH : c.int1.ps * (c.int1.W * c.int1.H / c.int1.ps) = c.int1.W * c.int1.H :=
    Nat.mul_div_cancel' (Nat.dvd_trans h.core.legal.frame.dvd (Nat.dvd_mul_right _ _))
  have hpos : 0 < c.int1.W * c.int1.H := by
    have h4 := h.core.legal.frame.W4
    have h5 := h.core.legal.frame.H1
    exact Nat.mul_pos (by omega) (by omega)
  generalize hN : 10 + B + F / 2 = N at hlen
  -- pixels taken while nothing end-flagged was given
  have hpre : ∀ p, p <+: ins → (∀ x ∈ camGiven c a s p, x.2 = false) → camAccepted c a s p <+: A := by
    intro p hp hno
    cases p using snoc_induction with
    | h0 => exact List.nil_prefix
    | h1 p i _ =>
      refine hpix p i hp ?_
      intro x hx
      exact hno x (by rw [camGiven_append]; exact List.mem_append_left _ hx)
  have hbusy : ∀ p, p <+: ins → camBusy p ≤ B := by
    intro p hp
    obtain ⟨t, rfl⟩ := hp
    refine Nat.le_trans ?_ hB
    unfold camBusy
    rw [List.countP_append]
    omega
  have hwfp : ∀ p, p <+: ins → CamWf c p := fun p hp j hj => hwf j (hp.subset hj)
  -- some end-flagged word is given
  have hsome : ∃ w, (w, true) ∈ camGiven c a s ins := by
    apply Classical.byContradiction
    intro hcon
    have hno : ∀ x ∈ camGiven c a s ins, x.2 = false := by
      intro x hx
      cases hx2 : x.2 with
      | false => rfl
      | true => exact absurd ⟨x.1, by rw [← hx2]; exact hx⟩ hcon
    have hnop : ∀ p, p <+: ins → ∀ x ∈ camGiven c a s p, x.2 = false := by
      rintro p ⟨t, rfl⟩ x hx
      exact hno x (by rw [camGiven_append]; exact List.mem_append_left _ hx)
    have htr : ∀ p, p <+: ins → Track c T a s p := fun p hp =>
      track h hs p (hwfp p hp) (hnop p hp) (by have := hp.length_le; omega)
    -- the encoder core gave its last word in time
    have hD : ∃ w, (w, true) ∈ Int3.delivered c s.core (camCore c a s (ins.take (c.int1.W * c.int1.H / c.int1.ps + K + 9 * N + drainCycles c + 9))) := by
      have hq : ins.take (c.int1.W * c.int1.H / c.int1.ps + K + 9 * N + drainCycles c + 9) <+: ins := List.take_prefix _ _
      have hql : (ins.take (c.int1.W * c.int1.H / c.int1.ps + K + 9 * N + drainCycles c + 9)).length =
          c.int1.W * c.int1.H / c.int1.ps + K + 9 * N + drainCycles c + 9 := by
        rw [List.length_take]; omega
      generalize ins.take (c.int1.W * c.int1.H / c.int1.ps + K + 9 * N + drainCycles c + 9) = q at hq hql ⊢
      apply Classical.byContradiction
      intro hcon
      have hDq : ∀ x ∈ Int3.delivered c s.core (camCore c a s q), x.2 = false := by
        intro x hx
        cases hx2 : x.2 with
        | false => rfl
        | true => exact absurd ⟨x.1, by rw [← hx2]; exact hx⟩ hcon
      -- busy cycles of the core
      have hcb : busyCycles (camCore c a s q) ≤ N := by
        have := core_busy h (htr q hq) (hpre q hq (hnop q hq)) hDq
        have := hbusy q hq
        have : onesBytes (encode T c.int1.bd c.int1.W A) / 2 ≤ F / 2 := Nat.div_le_div_right hF
        omega
      -- prefixes that are not complete are short
      have hshort : ∀ p, p <+: q → (camAccepted c a s p).length ≠ c.int1.W * c.int1.H →
          p.length ≤ c.int1.W * c.int1.H / c.int1.ps + K + 4 * busyCycles (camCore c a s p) + 8 := by
        intro p hp hne
        have hpi := hp.trans hq
        have ht := htr p hpi
        have hap := hpre p hpi (hnop p hpi)
        have h76 := C76_waits_bounded h.core hc (core_afterReset hs) hL hLc hbuf (camCore c a s p) (camCore_wf a (hwfp p hpi) s)
          (by rw [← ht.acc]; exact light_prefix hap hA)
        rw [← ht.acc] at h76
        have hid := hK p hpi (hnop p hpi) (by intro he; rw [he] at hne; exact hne hAl)
        have hoff := offered_core a s p (hwfp p hpi)
        rcases h76 with h76 | h76
        · exact absurd h76 hne
        · obtain ⟨P, M, h4, _⟩ := ht.inv
          obtain ⟨k, hk⟩ := h4.core
          have hkl := Int3.inv_len hk
          have hal := hap.length_le
          rw [hAl] at hal
          have hlt : c.int1.ps * k < c.int1.ps * (c.int1.W * c.int1.H / c.int1.ps) := by
            rw [hWH, ← hkl]; omega
          have hlt := Nat.lt_of_mul_lt_mul_left hlt
          rw [hkl] at h76
          have hmul : c.int1.ps * (p.length - 8) ≤ c.int1.ps * (k + (1 + 4 * busyCycles (camCore c a s p)) + camIdle p) := by
            rw [Nat.mul_add, Nat.mul_add]; omega
          have := Nat.le_of_mul_le_mul_left hmul hps
          omega
      -- the first complete prefix
      have hqc : (camAccepted c a s q).length = c.int1.W * c.int1.H := by
        apply Classical.byContradiction
        intro hne
        have := hshort q (List.prefix_refl _) hne
        omega
      obtain ⟨pre, i, post, rfl, hP, hfirst⟩ := first_prefix (P := fun p => (camAccepted c a s p).length = c.int1.W * c.int1.H) q
        (by simp [camAccepted]; omega) hqc
      have hs1 := hshort pre (List.prefix_append _ _) (hfirst pre (List.prefix_refl _))
      have ht1 := htr (pre ++ [i]) (List.IsPrefix.trans ⟨post, by simp⟩ hq)
      have e1 : pre ++ i :: post = (pre ++ [i]) ++ post := by simp
      have hb1 : busyCycles (camCore c a s (pre ++ i :: post)) = busyCycles (camCore c a s (pre ++ [i])) +
          busyCycles (camCore c a (camRun c a s (pre ++ [i])) post) := by
        rw [e1, camCore_append]
        unfold busyCycles
        rw [List.countP_append]
      have hb2 : busyCycles (camCore c a s pre) ≤ busyCycles (camCore c a s (pre ++ [i])) := by
        rw [camCore_append]
        unfold busyCycles
        rw [List.countP_append]
        omega
      have h75 := C75_rest_in_bounded_time h.core (core_afterReset hs) (camCore c a s (pre ++ [i])) (camCore c a (camRun c a s (pre ++ [i])) post)
        (by rw [← camCore_append]; exact camCore_wf a (by rw [← e1]; exact hwfp _ hq) s) (by rw [← ht1.acc]; exact hP)
        (by
          rw [camCore_length]
          rw [List.length_append, List.length_cons] at hql
          omega)
      rw [← camCore_append, ← e1] at h75
      exact hcon h75
    -- and the rest followed
    have hcat := List.take_append_drop (c.int1.W * c.int1.H / c.int1.ps + K + 9 * N + drainCycles c + 9) ins
    have hdl : (ins.drop (c.int1.W * c.int1.H / c.int1.ps + K + 9 * N + drainCycles c + 9)).length =
        ins.length - (c.int1.W * c.int1.H / c.int1.ps + K + 9 * N + drainCycles c + 9) := List.length_drop
    have htail := tail_run h hs _ hD (ins.drop (c.int1.W * c.int1.H / c.int1.ps + K + 9 * N + drainCycles c + 9)) (by rw [hcat]; exact hwf)
      (by rw [hcat]; exact hno) (by rw [hcat]; exact hle)
    have hbt : camBusy (ins.drop (c.int1.W * c.int1.H / c.int1.ps + K + 9 * N + drainCycles c + 9)) ≤ B := by
      refine Nat.le_trans ?_ hB
      unfold camBusy
      exact (List.drop_sublist _ _).countP_le
    omega
  -- the first one
  obtain ⟨pre, i, post, e, ⟨w, hw⟩, hfirst⟩ := first_prefix (P := fun p => ∃ w, (w, true) ∈ camGiven c a s p) ins (by simp [camGiven]) hsome
  have hno : ∀ x ∈ camGiven c a s pre, x.2 = false := by
    intro x hx
    cases hx2 : x.2 with
    | false => rfl
    | true => exact absurd ⟨x.1, by rw [← hx2]; exact hx⟩ (hfirst pre (List.prefix_refl _))
  have hpi : pre ++ [i] <+: ins := ⟨post, by rw [e]; simp⟩
  obtain ⟨body, _, _, hcase⟩ := C30_frame h a hs pre i (hwfp _ hpi) hno w hw
  refine ⟨pre, i, post, e, hno, ?_⟩
  rcases hcase with ⟨rfl, hfull, _⟩ | ⟨rfl, _⟩
  · refine ⟨hw, ?_⟩
    exact (hpix pre i hpi hno).eq_of_length (by rw [hfull, hAl])
  · exfalso
    obtain ⟨p, j, q, e2, _, _, hq⟩ := C57_beta_forced_end_in_time c a hs pre i hno hw
    have h1 := congrArg List.length e
    have h2 := congrArg List.length e2
    simp only [List.length_append, List.length_cons] at h1 h2
    omega

/-! ### The shipped beta core -/

/-- The differences that are coded: every sample minus its prediction. -/
def diffs (bd W : Nat) (A : List Nat) : List Int := (List.range A.length).map fun i => (A.getD i 0 : Int) - (pred bd W A i : Int)

theorem encode_diffs (T : Table) (bd W : Nat) (A : List Nat) : encode T bd W A = (diffs bd W A).flatMap (diffBits T) := by
  unfold encode diffs pixelBits
  rw [List.flatMap_map]

theorem diffBits_31 (d : Int) (h1 : -31 ≤ d) (h2 : d ≤ 31) : (diffBits defaultTable d).length ≤ 8 := by
  have : ∀ n : Nat, n < 63 → (diffBits defaultTable ((n : Int) - 31)).length ≤ 8 := by decide +kernel
  have := this (d + 31).toNat (by omega)
  rwa [show (((d + 31).toNat : Int) - 31) = d by omega] at this

theorem diffs_take (bd : Nat) {W : Nat} (hW : 4 ≤ W) (A : List Nat) (n : Nat) : diffs bd W (A.take n) = (diffs bd W A).take n := by
  apply List.ext_getElem
  · simp [diffs]
  · intro i h1 h2
    simp only [diffs, List.length_map, List.length_range, List.length_take] at h1
    simp only [diffs, List.getElem_map, List.getElem_range, List.getElem_take]
    have hg : ∀ j, j ≤ i → (A.take n).getD j 0 = A.getD j 0 := by
      intro j hj
      simp only [List.getD_eq_getElem?_getD]
      rw [List.getElem?_take_of_lt (by omega)]
    have hp : pred bd W (A.take n) i = pred bd W A i := by
      unfold pred
      rw [hg _ (by omega), hg _ (by omega)]
    rw [hg i (Nat.le_refl _), hp]

/-- An image in which no sample differs by more than 31 from its prediction adds at most 16 bits per pair. -/
theorem light_of_diffs {bd W : Nat} (hW : 4 ≤ W) {A : List Nat} (h : ∀ d ∈ diffs bd W A, -31 ≤ d ∧ d ≤ 31) : Light defaultTable bd W 2 16 A := by
  intro k hk
  rw [encode_diffs, encode_diffs, diffs_take bd hW, diffs_take bd hW]
  have hl : (diffs bd W A).length = A.length := by simp [diffs]
  rw [← hl] at hk
  generalize diffs bd W A = D at *
  rw [show 2 * (k + 1) = 2 * k + 1 + 1 by omega, List.take_succ_eq_append_getElem (by omega), List.take_succ_eq_append_getElem (by omega)]
  simp only [List.flatMap_append, List.flatMap_cons, List.flatMap_nil, List.append_nil, List.length_append]
  have h1 := h D[2 * k] (List.getElem_mem _)
  have h2 := h D[2 * k + 1] (List.getElem_mem _)
  have := diffBits_31 _ h1.1 h1.2
  have := diffBits_31 _ h2.1 h2.2
  omega

/-- No eight ones in a row, `k` ones before. -/
def Few : Nat → List Bool → Prop
  | _, [] => True
  | k, true :: r => k + 1 < 8 ∧ Few (k + 1) r
  | _, false :: r => Few 0 r

theorem few_mono : ∀ (l : List Bool) {j k : Nat}, j ≤ k → Few k l → Few j l
  | [], _, _, _, _ => trivial
  | true :: r, _, _, hjk, h => ⟨Nat.lt_of_le_of_lt (by omega) h.1, few_mono r (by omega) h.2⟩
  | false :: _, _, _, _, h => h

theorem few_ones (l : List Bool) : ∀ k, Few k l → onesBytes l = 0 := by
  fun_induction onesBytes l with
  | case1 b0 b1 b2 b3 b4 b5 b6 b7 r ih =>
    intro k h
    have h := few_mono _ (Nat.zero_le k) h
    have hr : ∃ j, Few j r := by
      revert h
      cases b0 <;> cases b1 <;> cases b2 <;> cases b3 <;> cases b4 <;> cases b5 <;> cases b6 <;> cases b7 <;> simp only [Few] <;>
        intro h <;> exact ⟨_, by first | exact h | exact h.2 | exact h.2.2 | exact h.2.2.2 | exact h.2.2.2.2 | exact h.2.2.2.2.2 | exact h.2.2.2.2.2.2 | exact h.2.2.2.2.2.2.2 | exact h.2.2.2.2.2.2.2.2⟩
    obtain ⟨j, hj⟩ := hr
    rw [ih j hj, if_neg]
    intro hall
    simp only [Bool.and_eq_true] at hall
    obtain ⟨⟨⟨⟨⟨⟨⟨rfl, rfl⟩, rfl⟩, rfl⟩, rfl⟩, rfl⟩, rfl⟩, rfl⟩ := hall
    simp only [Few] at h
    omega
  | case2 => intro _ _; rfl

/-- What a code word does to the run of ones. -/
def runAfter : Nat → List Bool → Option Nat
  | k, [] => some k
  | k, true :: r => if k + 1 < 8 then runAfter (k + 1) r else none
  | _, false :: r => runAfter 0 r

theorem few_append : ∀ (a b : List Bool) (k j : Nat), runAfter k a = some j → Few j b → Few k (a ++ b)
  | [], b, k, j, h, hb => by simp only [runAfter, Option.some.injEq] at h; subst h; exact hb
  | true :: r, b, k, j, h, hb => by
    simp only [runAfter] at h
    split at h
    · rename_i hk; exact ⟨hk, few_append r b _ j h hb⟩
    · cases h
  | false :: r, b, k, j, h, hb => few_append r b 0 j h hb

/-- If no sample differs by more than 7 from its prediction there is no byte FF in the code. -/
theorem calm_no_ff {bd W : Nat} {A : List Nat} (h : ∀ d ∈ diffs bd W A, -7 ≤ d ∧ d ≤ 7) : onesBytes (encode defaultTable bd W A) = 0 := by
  rw [encode_diffs]
  generalize diffs bd W A = D at *
  apply few_ones _ 0
  have h7 : ∀ n : Nat, n < 15 → ∀ k, k < 4 → ∃ j, j < 4 ∧ runAfter k (diffBits defaultTable ((n : Int) - 7)) = some j := by decide +kernel
  have : ∀ k, k < 4 → Few k (D.flatMap (diffBits defaultTable)) := by
    induction D with
    | nil => intro k _; trivial
    | cons d D ih =>
      intro k hk
      rw [List.flatMap_cons]
      have hd := h d (by simp)
      obtain ⟨j, hj, he⟩ := h7 (d + 7).toNat (by omega) k hk
      rw [show (((d + 7).toNat : Int) - 7) = d by omega] at he
      exact few_append _ _ _ _ he (ih (fun e he => h e (by simp [he])) j hj)
  exact this 0 (by omega)

/-- C77 for the shipped core of the Axiom Beta: if no sample of the image differs by more than 31 from its prediction, the code contains at
most 63000 bytes FF, a pair of pixels is offered in every cycle until the frame is taken, and the receiver is always ready, then the
frame ends normally within the 6666000 cycles of the time limit. -/
theorem C77_beta {s : Cam} (hs : CamAfterReset betaCore s) {A : List Nat} (hAl : A.length = 4096 * 3072)
    (hA : ∀ d ∈ diffs 12 4096 A, -31 ≤ d ∧ d ≤ 31) (hF : onesBytes (encode defaultTable 12 4096 A) ≤ 63000)
    (ins : List CamIn) (hwf : CamWf betaCore ins) (hready : ∀ i ∈ ins, i.busy = false)
    (hpix : ∀ p i, p ++ [i] <+: ins → (∀ x ∈ camGiven betaCore 6666000 s p, x.2 = false) → camAccepted betaCore 6666000 s (p ++ [i]) <+: A)
    (hoffer : ∀ p i, p ++ [i] <+: ins → (∀ x ∈ camGiven betaCore 6666000 s p, x.2 = false) → camAccepted betaCore 6666000 s p ≠ A → i.valid = true)
    (hlen : ins.length = 6666000) :
    ∃ pre i post, ins = pre ++ i :: post ∧ (∀ x ∈ camGiven betaCore 6666000 s pre, x.2 = false) ∧
      (0xFFFF, true) ∈ camGiven betaCore 6666000 s (pre ++ [i]) ∧ camAccepted betaCore 6666000 s (pre ++ [i]) = A := by
  have hset : CamSetup betaCore defaultTable := ⟨default_setup (by decide) rfl, rfl, default_long _ (by decide)⟩
  have hcon : betaCore.int1.W * betaCore.int1.H / betaCore.int1.ps + 0 + 0 + 9 * (10 + 0 + 63000 / 2) + drainCycles betaCore + 65 ≤ 6666000 := by decide
  refine C77_light_frame_ends hset (by decide) hs (L := 16) (by decide) (by decide) (by decide) hAl (light_of_diffs (by decide) hA) (F := 63000)
    (B := 0) (K := 0) hF ins hwf ?_ hpix ?_ ?_ ?_
  · unfold camBusy
    rw [Nat.le_zero, List.countP_eq_zero]
    intro i hi
    rw [hready i hi]
    simp
  · intro p hp hno hne
    induction p using snoc_induction with
    | h0 => simp [camIdle]
    | h1 p i ih =>
      have hp1 : p <+: ins := List.IsPrefix.trans (List.prefix_append _ _) hp
      rw [camGiven_append] at hno
      have hno1 : ∀ x ∈ camGiven betaCore 6666000 s p, x.2 = false := fun x hx => hno x (List.mem_append_left _ hx)
      have hne1 : camAccepted betaCore 6666000 s p ≠ A := by
        intro he
        have h1 := (hpix p i hp hno1).length_le
        rw [← he] at h1
        have h2 : camAccepted betaCore 6666000 s p <+: camAccepted betaCore 6666000 s (p ++ [i]) := by
          rw [camAccepted_append]; exact List.prefix_append _ _
        exact hne ((h2.eq_of_length_le h1).symm.trans he)
      have := ih hp1 hno1 hne1
      have hv := hoffer p i hp hno1 hne1
      unfold camIdle at this ⊢
      by_cases h8 : 8 ≤ p.length
      · rw [List.drop_append_of_le_length h8, List.countP_append]
        simp [hv]
        simpa using this
      · rw [List.drop_eq_nil_of_le (by simp; omega)]; simp
  · rw [hlen]; exact hcon
  · rw [hlen]; exact Nat.le_refl _

/-- C77, no schedule assumed: a producer that offers the image as fast as the shipped core takes it, and a receiver that is always ready,
get the whole frame with the normal end marker, for every image in which no sample differs by more than 31 from its prediction and
whose code contains at most 63000 bytes FF. -/
theorem C77_every_light_image (img : Nat → Nat) (himg : ∀ k, img k < 4096)
    (hA : ∀ d ∈ diffs 12 4096 ((List.range (4096 * 3072)).map img), -31 ≤ d ∧ d ≤ 31)
    (hF : onesBytes (encode defaultTable 12 4096 ((List.range (4096 * 3072)).map img)) ≤ 63000) :
    ∃ ins i, ins.length < 6666000 ∧ CamWf betaCore (ins ++ [i]) ∧ (∀ j ∈ ins ++ [i], j.valid = true ∧ j.busy = false) ∧
      (∀ x ∈ camGiven betaCore 6666000 (Cam.init betaCore) ins, x.2 = false) ∧
      (0xFFFF, true) ∈ camGiven betaCore 6666000 (Cam.init betaCore) (ins ++ [i]) ∧
      camAccepted betaCore 6666000 (Cam.init betaCore) (ins ++ [i]) = (List.range (4096 * 3072)).map img := by
  let u : Nat → CamIn := fun t => offer img (feed img t).2
  have hset : CamSetup betaCore defaultTable := ⟨default_setup (by decide) rfl, rfl, default_long _ (by decide)⟩
  have hu : ∀ N, ∀ j ∈ (List.range N).map u, j.valid = true ∧ j.busy = false ∧ (j.pixels.length = betaCore.int1.ps ∧ ∀ x ∈ j.pixels, x < 2 ^ betaCore.int1.bd) := by
    intro N j hj
    obtain ⟨t, _, rfl⟩ := List.mem_map.1 hj
    refine ⟨rfl, rfl, rfl, ?_⟩
    intro x hx
    simp only [u, offer, List.mem_cons, List.not_mem_nil, or_false] at hx
    show x < 4096
    rcases hx with rfl | rfl <;> exact himg _
  have hpre : ∀ (N : Nat) (p : List CamIn), p <+: (List.range N).map u → p = (List.range p.length).map u := by
    intro N p hp
    have hl := hp.length_le
    rw [List.length_map, List.length_range] at hl
    have e := List.prefix_iff_eq_take.1 hp
    rw [← List.map_take, List.take_range, Nat.min_eq_left hl] at e
    exact e
  have hmain : ∀ N, N = 6666000 → ∃ pre i post, (List.range N).map u = pre ++ i :: post ∧
      (∀ x ∈ camGiven betaCore 6666000 (Cam.init betaCore) pre, x.2 = false) ∧
      (0xFFFF, true) ∈ camGiven betaCore 6666000 (Cam.init betaCore) (pre ++ [i]) ∧
      camAccepted betaCore 6666000 (Cam.init betaCore) (pre ++ [i]) = (List.range (4096 * 3072)).map img := by
    intro N hN
    refine C77_beta (init_afterReset _) (by simp) hA hF ((List.range N).map u) (fun j hj _ => (hu N j hj).2.2) (fun j hj => (hu N j hj).2.1) ?_ ?_ (by simp [hN])
    · intro p i hp hno
      have hwf' : CamWf betaCore (p ++ [i]) := fun j hj _ => (hu N j (hp.subset hj)).2.2
      obtain ⟨D, P, M, forced, hi⟩ := frame_run_last hset 6666000 p i (init_afterReset _) hwf' hno
      obtain ⟨k, hc⟩ := hi.core
      have hlen := Int3.inv_len hc
      obtain ⟨its, recv, h1, h2⟩ := hc
      have hle : (camAccepted betaCore 6666000 (Cam.init betaCore) (p ++ [i])).length ≤ 4096 * 3072 := by
        have := h1.kle
        rw [hlen]
        have e : betaCore.int1.W / betaCore.int1.ps * betaCore.int1.H = 2048 * 3072 := by decide
        have e2 : betaCore.int1.ps = 2 := rfl
        rw [e] at this
        rw [e2]
        omega
      rw [hpre N _ hp] at hle ⊢
      have e' : camAccepted betaCore 6666000 (Cam.init betaCore) ((List.range (p ++ [i]).length).map u) =
          (List.range (2 * (feed img (p ++ [i]).length).2)).map img := feed_accepted img _
      rw [e'] at hle ⊢
      rw [List.length_map, List.length_range] at hle
      have hpre : List.range (2 * (feed img (p ++ [i]).length).2) <+: List.range (4096 * 3072) := by
        generalize 2 * (feed img (p ++ [i]).length).2 = a at hle
        have : List.range (4096 * 3072) = List.range (a + (4096 * 3072 - a)) := by congr 1; omega
        rw [this, List.range_add]
        exact List.prefix_append ..
      exact hpre.map img
    · intro p i hp _ _
      exact (hu N i (hp.subset (by simp))).1
  obtain ⟨pre, i, post, e, h1, h2, h3⟩ := hmain _ rfl
  have hsub : ∀ j ∈ pre ++ [i], j ∈ (List.range 6666000).map u := by
    intro j hj
    rw [e]
    rcases List.mem_append.1 hj with hj | hj
    · exact List.mem_append_left _ hj
    · rw [List.mem_singleton] at hj; subst hj; simp
  refine ⟨pre, i, ?_, fun j hj _ => (hu _ j (hsub j hj)).2.2, fun j hj => ⟨(hu _ j (hsub j hj)).1, (hu _ j (hsub j hj)).2.1⟩, h1, h2, h3⟩
  have := congrArg List.length e
  rw [List.length_map, List.length_range, List.length_append, List.length_cons] at this
  omega

/-- C77: an image in which no sample differs by more than 7 from its prediction has no FF byte in its code, so it always comes out whole. -/
theorem C77_every_calm_image (img : Nat → Nat) (himg : ∀ k, img k < 4096)
    (hA : ∀ d ∈ diffs 12 4096 ((List.range (4096 * 3072)).map img), -7 ≤ d ∧ d ≤ 7) :
    ∃ ins i, ins.length < 6666000 ∧ CamWf betaCore (ins ++ [i]) ∧ (∀ j ∈ ins ++ [i], j.valid = true ∧ j.busy = false) ∧
      (∀ x ∈ camGiven betaCore 6666000 (Cam.init betaCore) ins, x.2 = false) ∧
      (0xFFFF, true) ∈ camGiven betaCore 6666000 (Cam.init betaCore) (ins ++ [i]) ∧
      camAccepted betaCore 6666000 (Cam.init betaCore) (ins ++ [i]) = (List.range (4096 * 3072)).map img :=
  C77_every_light_image img himg (fun d hd => ⟨by have := (hA d hd).1; omega, by have := (hA d hd).2; omega⟩) (by rw [calm_no_ff hA]; decide)

/-! ### The hypotheses can be met -/

/-- Differences of a uniform grey image. -/
theorem grey_diffs (bd W n : Nat) : ∀ d ∈ diffs bd W ((List.range n).map fun _ => 2 ^ (bd - 1)), d = 0 := by
  intro d hd
  simp only [diffs, List.mem_map, List.mem_range, List.length_map, List.length_range] at hd
  obtain ⟨i, hi, rfl⟩ := hd
  have hg : ∀ j, j < n → ((List.range n).map fun _ => 2 ^ (bd - 1)).getD j 0 = 2 ^ (bd - 1) := by
    intro j hj
    simp [List.getD_eq_getElem?_getD, List.getElem?_map, List.getElem?_range, hj]
  unfold pred
  rw [hg i hi, hg (i - W) (by omega), hg (i - 4) (by omega)]
  split <;> (try split) <;> omega

-- A frame of the shipped core that ends normally: uniform grey.
example : ∃ ins i, ins.length < 6666000 ∧ CamWf betaCore (ins ++ [i]) ∧ (∀ j ∈ ins ++ [i], j.valid = true ∧ j.busy = false) ∧
    (∀ x ∈ camGiven betaCore 6666000 (Cam.init betaCore) ins, x.2 = false) ∧
    (0xFFFF, true) ∈ camGiven betaCore 6666000 (Cam.init betaCore) (ins ++ [i]) ∧
    camAccepted betaCore 6666000 (Cam.init betaCore) (ins ++ [i]) = (List.range (4096 * 3072)).map fun _ => 2048 :=
  C77_every_calm_image (fun _ => 2048) (fun _ => by decide) (fun d hd => by rw [grey_diffs 12 4096 _ d hd]; decide)

end Props
