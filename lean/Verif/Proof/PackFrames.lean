/- The 16-to-40-bit packer over a frame boundary: what it holds after the frame markers, and how it gets in step again. -/
import Verif.Props.Pack40
import Verif.Proof.Run

set_option autoImplicit false

namespace Props.LvdsAll
open Model Props

/-- Words transferred to the packer. -/
def pack40Words : Pack40 → List Pack40In → List Nat
  | _, [] => []
  | s, i :: r => (if i.valid && !s.oBusy then [i.data] else []) ++ pack40Words (s.cyc i) r

def bytes2 (w : Nat) : List Nat := [w / 2 ^ 8, w % 2 ^ 8]

theorem taken_words : ∀ (ins : List Pack40In) (s : Pack40), pack40Taken s ins = (pack40Words s ins).flatMap bytes2
  | [], _ => rfl
  | i :: r, s => by
    simp only [pack40Taken, pack40Words, List.flatMap_append, taken_words r]
    congr 1
    split <;> simp [bytes2]

theorem words_append (x y : List Pack40In) : ∀ s, pack40Words s (x ++ y) = pack40Words s x ++ pack40Words (pack40Run s x) y := by
  induction x with
  | nil => intro s; rfl
  | cons i r ih => intro s; simp [pack40Words, pack40Run, ih]

theorem given40_append (x y : List Pack40In) : ∀ s, pack40Given s (x ++ y) = pack40Given s x ++ pack40Given (pack40Run s x) y := by
  induction x with
  | nil => intro s; rfl
  | cons i r ih => intro s; simp [pack40Given, pack40Run, ih]

theorem run40_append (x y : List Pack40In) : ∀ s, pack40Run s (x ++ y) = pack40Run (pack40Run s x) y := by
  induction x with
  | nil => intro s; rfl
  | cons i r ih => intro s; exact ih _

/-- The 40-bit word FF FF FF FF FF. -/
def ff40 : Nat := 0xFFFFFFFFFF

/-- State after the reset cycle of a frame end. -/
def Boundary (s : Pack40) : Prop := s.buffer1 = ff40 ∧ s.buffer2 = ff40 ∧ s.fsm = .idle1 ∧ s.temp8 < 2

/-- State after the drain: nothing inside; the output may look at the wrong buffer. -/
def Drained (s : Pack40) : Prop := s.temp8 < 2 ∧ s.buffer1 < 2 ^ 40 ∧ s.buffer2 < 2 ^ 40 ∧
  s.valid1 = false ∧ s.valid2 = false ∧ s.valid = false ∧ s.oBusy = false ∧ s.fsm = .fill11 ∧
  (s.chs = true → s.buffer1 = ff40 ∧ s.buffer2 = ff40)

theorem cyc_silent (s : Pack40) (d d' : Nat) : s.cyc ⟨d, false, false⟩ = s.cyc ⟨d', false, false⟩ := by
  obtain ⟨b1, v1, b2, v2, chs, t, valid, ob, fsm⟩ := s
  cases fsm <;> rfl

set_option maxHeartbeats 2000000 in
/-- Five cycles without input and with a ready consumer drain the packer; only FF words are given. -/
theorem drain {s : Pack40} (h : Boundary s ∨ s = .init) (l : List Pack40In) (hl : l.length = 5)
    (hi : ∀ i ∈ l, i.valid = false ∧ i.busy = false) :
    Drained (pack40Run s l) ∧ ∃ d, d ≤ 2 ∧ pack40Given s l = List.replicate d ff40 := by
  have key : ∀ (l : List Pack40In) (s : Pack40), (∀ i ∈ l, i.valid = false ∧ i.busy = false) →
      pack40Run s l = pack40Run s (List.replicate l.length ⟨0, false, false⟩) ∧
      pack40Given s l = pack40Given s (List.replicate l.length ⟨0, false, false⟩) := by
    intro l
    induction l with
    | nil => intro s _; exact ⟨rfl, rfl⟩
    | cons i r ih =>
      intro s h
      obtain ⟨d, v, b⟩ := i
      obtain ⟨hv, hb⟩ := h ⟨d, v, b⟩ (List.mem_cons_self ..)
      dsimp only at hv hb
      subst hv hb
      have := ih (s.cyc ⟨d, false, false⟩) (fun j hj => h j (List.mem_cons_of_mem _ hj))
      simp only [pack40Run, pack40Given, List.length_cons, List.replicate_succ]
      rw [cyc_silent s 0 d]
      exact ⟨this.1, by rw [this.2]⟩
  obtain ⟨k1, k2⟩ := key l s hi
  rw [k1, k2, hl]
  rcases h with h | rfl
  · obtain ⟨b1, v1, b2, v2, chs, t, valid, ob, fsm⟩ := s
    obtain ⟨h1, h2, h3, h4⟩ := h
    dsimp only at h1 h2 h3 h4
    subst h1 h2 h3
    have hB : ff40 < 2 ^ 40 := by decide
    generalize hE : ff40 = B at hB ⊢
    cases v1 <;> cases v2 <;> cases chs <;> cases valid <;>
      (refine ⟨⟨h4, hB, hB, rfl, rfl, rfl, rfl, rfl, ?_⟩, ?_⟩
       · intro _; exact ⟨hE.symm, hE.symm⟩
       · first | exact ⟨0, by decide, rfl⟩ | exact ⟨1, by decide, rfl⟩ | exact ⟨2, by decide, rfl⟩)
  · exact ⟨⟨by decide, by decide, by decide, rfl, rfl, rfl, rfl, rfl, by simp [pack40Run, Pack40.init, Pack40.cyc, Pack40.step, Pack40.stepFsm, Pack40.stepOut]⟩,
      0, by decide, rfl⟩

/-- While the output looks at the wrong buffer: `k` words FFFF taken. -/
def Mis (s : Pack40) (k : Nat) : Prop := s.buffer1 = ff40 ∧ s.buffer2 = ff40 ∧ s.temp8 < 2 ∧ s.chs = true ∧ s.valid2 = false ∧ s.oBusy = false ∧
  ((s.valid1 = false ∧ s.valid = false ∧ ((s.fsm = .fill11 ∧ k = 0) ∨ (s.fsm = .fill12 ∧ k = 1) ∨ (s.fsm = .fill13 ∧ k = 2))) ∨
   (s.valid1 = true ∧ ((s.valid = false ∧ s.fsm = .fill21 ∧ k = 3) ∨ (s.valid = true ∧ ((s.fsm = .fill21 ∧ k = 3) ∨ (s.fsm = .fill22 ∧ k = 4))))))

/-- The output has looked at the wrong buffer and given one FF word; from now on it looks at the right one. -/
def Synced (s : Pack40) (k : Nat) : Prop := s.buffer1 = ff40 ∧ s.buffer2 = ff40 ∧ s.temp8 < 2 ∧ s.chs = false ∧ s.valid1 = true ∧ s.valid = false ∧
  ((s.valid2 = false ∧ s.oBusy = false ∧ ((s.fsm = .fill21 ∧ k = 3) ∨ (s.fsm = .fill22 ∧ k = 4))) ∨
   (s.valid2 = true ∧ s.oBusy = true ∧ s.fsm = .idle1 ∧ k = 5))

theorem ffSlices : setSlice ff40 24 40 0xFFFF = ff40 ∧ setSlice ff40 8 24 0xFFFF = ff40 ∧ setSlice ff40 0 8 (0xFFFF / 2 ^ 8) = ff40 ∧
    setSlice ff40 32 40 0xFFFF = ff40 ∧ setSlice ff40 16 32 0xFFFF = ff40 ∧ setSlice ff40 0 16 0xFFFF = ff40 := by decide

theorem mis_step {s : Pack40} {k : Nat} (h : Mis s k) (i : Pack40In) (hb : i.busy = false) (hd : i.valid = true → i.data = 0xFFFF) :
    (Mis (s.cyc i) (k + if i.valid && !s.oBusy then 1 else 0) ∧ (s.valid && !i.busy) = false) ∨
    (Synced (s.cyc i) (k + if i.valid && !s.oBusy then 1 else 0) ∧ (s.valid && !i.busy) = true ∧ s.data = ff40) := by
  obtain ⟨b1, v1, b2, v2, chs, t, valid, ob, fsm⟩ := s
  obtain ⟨d, vi, bz⟩ := i
  obtain ⟨e1, e2, ht, e3, e4, e5, h⟩ := h
  dsimp only at hb hd e1 e2 e3 e4 e5 h ht
  subst hb e1 e2 e3 e4 e5
  obtain ⟨f1, f2, f3, f4, f5, f6⟩ := ffSlices
  rcases h with ⟨rfl, rfl, h⟩ | ⟨rfl, h⟩
  · left
    rcases h with ⟨rfl, rfl⟩ | ⟨rfl, rfl⟩ | ⟨rfl, rfl⟩ <;> cases vi <;> (try (have := hd rfl; subst this)) <;>
      simp [Mis, Pack40.cyc, Pack40.step, Pack40.stepFsm, Pack40.stepOut, f1, f2, f3, f4, ht]
  · rcases h with ⟨rfl, rfl, rfl⟩ | ⟨rfl, ⟨rfl, rfl⟩ | ⟨rfl, rfl⟩⟩
    · left
      cases vi <;> (try (have := hd rfl; subst this)) <;>
        simp [Mis, Pack40.cyc, Pack40.step, Pack40.stepFsm, Pack40.stepOut, f5, ht]
    · right
      cases vi <;> (try (have := hd rfl; subst this)) <;>
        simp [Synced, Pack40.cyc, Pack40.step, Pack40.stepFsm, Pack40.stepOut, f5, ht, Pack40.data]
    · right
      cases vi <;> (try (have := hd rfl; subst this)) <;>
        simp [Synced, Pack40.cyc, Pack40.step, Pack40.stepFsm, Pack40.stepOut, f6, ht, Pack40.data]

/-! ### In step again -/

/-- The states with a ready consumer, including those right after getting in step. -/
def Ready40 (s : Pack40) : Prop :=
  Pack40Ready s ∨ (s.fsm = .fill22 ∧ s.valid2 = false ∧ s.valid1 = true ∧ s.chs = false) ∨
  (s.fsm = .idle1 ∧ s.valid1 = true ∧ s.valid2 = true ∧ s.chs = false)

theorem ready40_step {s : Pack40} (h : Ready40 s) (i : Pack40In) (hb : i.busy = false) : Ready40 (s.cyc i) := by
  obtain ⟨b1, v1, b2, v2, chs, t, valid, ob, fsm⟩ := s
  obtain ⟨d, vi, bz⟩ := i
  dsimp only at hb
  subst hb
  unfold Ready40 Pack40Ready at *
  cases fsm <;> cases v1 <;> cases v2 <;> cases chs <;> cases valid <;> simp at h <;> cases vi <;>
    simp [Pack40.cyc, Pack40.step, Pack40.stepFsm, Pack40.stepOut]

theorem ready40_run (ins : List Pack40In) (hb : ∀ i ∈ ins, i.busy = false) : ∀ {s : Pack40}, Ready40 s → Ready40 (pack40Run s ins) := by
  induction ins with
  | nil => intro s h; exact h
  | cons i r ih =>
    intro s h
    exact ih (fun j hj => hb j (List.mem_cons_of_mem _ hj)) (ready40_step h i (hb i (List.mem_cons_self ..)))

theorem ready40_no_stall {s : Pack40} (h : Ready40 s) : straddleStall s = false ∧ s.fsm ≠ .idle2 := by
  obtain ⟨b1, v1, b2, v2, chs, t, valid, ob, fsm⟩ := s
  unfold Ready40 Pack40Ready at h
  cases fsm <;> simp [straddleStall] at h ⊢ <;> simp_all

theorem ready40_kept (ins : List Pack40In) (hb : ∀ i ∈ ins, i.busy = false) : ∀ {s : Pack40}, Ready40 s →
    pack40Kept s ins = pack40Taken s ins := by
  induction ins with
  | nil => intros; rfl
  | cons i r ih =>
    intro s h
    simp only [pack40Kept, pack40Taken]
    rw [ih (fun j hj => hb j (List.mem_cons_of_mem _ hj)) (ready40_step h i (hb i (List.mem_cons_self ..))), (ready40_no_stall h).1]
    simp

theorem drained_ready {s : Pack40} (h : Drained s) (hc : s.chs = false) : Ready40 s ∧ Pack40Inv s [] ∧ pack40Queue s = [] := by
  obtain ⟨b1, v1, b2, v2, chs, t, valid, ob, fsm⟩ := s
  obtain ⟨h1, h2, h3, h4, h5, h6, h7, h8, h9⟩ := h
  dsimp only at *
  subst h4 h5 h6 h7 h8 hc
  refine ⟨Or.inl (Or.inr (Or.inl ⟨rfl, rfl, by simp, by simp⟩)), ⟨h2, h3, h1, rfl, rfl, by simp, by simp, by simp [isSecond]⟩, rfl⟩

theorem drained_mis {s : Pack40} (h : Drained s) (hc : s.chs = true) : Mis s 0 := by
  obtain ⟨h1, h2, h3, h4, h5, h6, h7, h8, h9⟩ := h
  obtain ⟨h10, h11⟩ := h9 hc
  exact ⟨h10, h11, h1, hc, h5, h7, Or.inl ⟨h4, h6, Or.inl ⟨h8, rfl⟩⟩⟩

/-- Bytes of `k` words FFFF. -/
def ffBytes (k : Nat) : List Nat := List.replicate (2 * k) 0xFF

theorem synced_ready {s : Pack40} {k : Nat} (h : Synced s k) :
    Ready40 s ∧ ∃ p, Pack40Inv s p ∧ pack40Queue s = groups5 (ffBytes k) ∧ ∀ l, groups5 (ffBytes k ++ l) = groups5 (ffBytes k) ++ groups5 (p ++ l) := by
  obtain ⟨b1, v1, b2, v2, chs, t, valid, ob, fsm⟩ := s
  obtain ⟨h1, h2, h3, h4, h5, h6, h⟩ := h
  dsimp only at *
  subst h1 h2 h4 h5 h6
  have hB : ff40 < 2 ^ 40 := by decide
  rcases h with ⟨rfl, rfl, ⟨rfl, rfl⟩ | ⟨rfl, rfl⟩⟩ | ⟨rfl, rfl, rfl, rfl⟩
  · exact ⟨Or.inl (Or.inr (Or.inr (Or.inr (Or.inr (Or.inl ⟨rfl, rfl, by simp, by simp⟩))))), [0xFF],
      ⟨hB, hB, h3, ⟨_, rfl, show ff40 / 2 ^ 32 = 0xFF by decide⟩, rfl, by simp, by simp [isSecond], by simp⟩, show [ff40] = groups5 (ffBytes 3) by decide, fun l => rfl⟩
  · exact ⟨Or.inr (Or.inl ⟨rfl, rfl, rfl, rfl⟩), [0xFF, 0xFF, 0xFF],
      ⟨hB, hB, h3, ⟨_, _, _, rfl, show ff40 / 2 ^ 16 = 0xFF * 2 ^ 16 + 0xFF * 2 ^ 8 + 0xFF by decide⟩, rfl, by simp, by simp [isSecond], by simp⟩, show [ff40] = groups5 (ffBytes 4) by decide, fun l => rfl⟩
  · exact ⟨Or.inr (Or.inr ⟨rfl, rfl, rfl, rfl⟩), [],
      ⟨hB, hB, h3, rfl, rfl, by simp, by simp, by simp [isSecond]⟩, show [ff40, ff40] = groups5 (ffBytes 5) by decide, fun l => rfl⟩

/-- From a drained state whose output looks at the wrong buffer, the words taken being FFFF until in step: either not yet in step
after all of `l`, or there is a moment. -/
theorem mis_run (l : List Pack40In) (hb : ∀ i ∈ l, i.busy = false) : ∀ {s : Pack40} {k : Nat}, Mis s k →
    (∀ n x, (pack40Words s l)[n]? = some x → k + n < 8 → x = 0xFFFF) →
    (∃ k', Mis (pack40Run s l) k' ∧ pack40Given s l = [] ∧ k' = k + (pack40Words s l).length) ∨
    ∃ l1 l2 k', l = l1 ++ l2 ∧ Synced (pack40Run s l1) k' ∧ pack40Given s l1 = [ff40] ∧ k' = k + (pack40Words s l1).length ∧
      pack40Words s l1 = List.replicate (k' - k) 0xFFFF := by
  induction l with
  | nil => intro s k h _; exact Or.inl ⟨k, h, rfl, rfl⟩
  | cons i r ih =>
    intro s k h hw
    have hk : k ≤ 4 := by
      obtain ⟨_, _, _, _, _, _, h⟩ := h
      rcases h with ⟨_, _, h⟩ | ⟨_, h⟩ <;> omega
    have hob : s.oBusy = false := h.2.2.2.2.2.1
    have hd : i.valid = true → i.data = 0xFFFF := by
      intro hv
      apply hw 0 i.data _ (by omega)
      simp only [pack40Words, hv, hob]
      rfl
    rcases mis_step h i (hb i (List.mem_cons_self ..)) hd with ⟨h1, h2⟩ | ⟨h1, h2, h3⟩
    · have hlen : (if i.valid && !s.oBusy then [i.data] else []).length = if i.valid && !s.oBusy then 1 else 0 := by split <;> rfl
      have hff : (if i.valid && !s.oBusy then [i.data] else []) = List.replicate (if i.valid && !s.oBusy then 1 else 0) 0xFFFF := by
        by_cases hv : i.valid = true
        · rw [hd hv]; simp [hv, hob]
        · simp [hv]
      generalize hu : (if i.valid && !s.oBusy then 1 else 0) = u at *
      rcases ih (fun j hj => hb j (List.mem_cons_of_mem _ hj)) h1 (fun n x hx hn => hw (u + n) x (by
          simp only [pack40Words]
          rw [List.getElem?_append_right (by omega), hlen, Nat.add_sub_cancel_left]
          exact hx) (by omega)) with ⟨k', a1, a2, a3⟩ | ⟨l1, l2, k', a1, a2, a3, a4, a5⟩
      · refine Or.inl ⟨k', a1, ?_, ?_⟩
        · simp only [pack40Given, h2, a2]; rfl
        · simp only [pack40Words, List.length_append, hlen]; omega
      · refine Or.inr ⟨i :: l1, l2, k', by rw [a1]; rfl, a2, ?_, ?_, ?_⟩
        · simp only [pack40Given, h2, a3]; rfl
        · simp only [pack40Words, List.length_append, hlen]; omega
        · simp only [pack40Words, hff, a5, List.replicate_append_replicate]
          congr 1
          omega
    · refine Or.inr ⟨[i], r, _, rfl, h1, ?_, ?_, ?_⟩
      · simp only [pack40Given, h2, h3, if_true]; rfl
      · simp only [pack40Words, List.append_nil]
        split <;> rfl
      · simp only [pack40Words, List.append_nil, Nat.add_sub_cancel_left]
        by_cases hv : i.valid = true
        · rw [hd hv]; simp [hv, hob]
        · simp [hv]

/-! ### What the buffers hold -/

/-- The buffers as five 16-bit words in the order they are written. -/
def slot (s : Pack40) : Nat → Nat
  | 0 => s.buffer1 / 2 ^ 24
  | 1 => s.buffer1 / 2 ^ 8 % 2 ^ 16
  | 2 => s.buffer1 % 2 ^ 8 * 2 ^ 8 + s.buffer2 / 2 ^ 32
  | 3 => s.buffer2 / 2 ^ 16 % 2 ^ 16
  | _ => s.buffer2 % 2 ^ 16

/-- The slot the next word goes to. -/
def pos : Pack40Fsm → Nat
  | .idle1 => 0
  | .fill11 => 0
  | .fill12 => 1
  | .fill13 => 2
  | .idle2 => 3
  | .fill21 => 3
  | .fill22 => 4

/-- The states in which nothing can be lost. -/
def Calm (s : Pack40) : Prop := s.buffer1 < 2 ^ 40 ∧ s.buffer2 < 2 ^ 40 ∧ s.temp8 < 2 ∧ s.fsm ≠ .idle2 ∧ (s.fsm = .fill13 → s.valid2 = false) ∧ s.oBusy = isIdle s.fsm

/-- One cycle writes the word transferred, if any, to the next slot. -/
theorem slot_step {s : Pack40} (h : Calm s) (i : Pack40In) (hd : i.data < 2 ^ 16) :
    ((i.valid && !s.oBusy) = true → pos (s.cyc i).fsm = (pos s.fsm + 1) % 5 ∧ ∀ q, q < 5 → slot (s.cyc i) q = if q = pos s.fsm then i.data else slot s q) ∧
    ((i.valid && !s.oBusy) = false → pos (s.cyc i).fsm = pos s.fsm ∧ ∀ q, slot (s.cyc i) q = slot s q) := by
  obtain ⟨b1, v1, b2, v2, chs, t, valid, ob, fsm⟩ := s
  obtain ⟨d, vi, bz⟩ := i
  obtain ⟨h1, h2, h3, h4, h5, h6⟩ := h
  dsimp only at *
  subst h6
  have hout : ∀ (s : Pack40) (b : Bool), (s.stepOut b).buffer1 = s.buffer1 ∧ (s.stepOut b).buffer2 = s.buffer2 ∧ (s.stepOut b).fsm = s.fsm := by
    intro s b
    unfold Pack40.stepOut
    dsimp only
    split
    · split <;> exact ⟨rfl, rfl, rfl⟩
    · exact ⟨rfl, rfl, rfl⟩
  have q5 : ∀ P : Nat → Prop, P 0 → P 1 → P 2 → P 3 → P 4 → ∀ q, q < 5 → P q := by
    intro P p0 p1 p2 p3 p4 q hq
    obtain rfl | rfl | rfl | rfl | rfl : q = 0 ∨ q = 1 ∨ q = 2 ∨ q = 3 ∨ q = 4 := by omega
    all_goals assumption
  obtain ⟨o1, o2, o3⟩ := hout ⟨b1, v1, b2, v2, chs, t, valid, isIdle fsm, fsm⟩ bz
  have qa : ∀ (s s' : Pack40), s.buffer1 = s'.buffer1 → s.buffer2 = s'.buffer2 → ∀ q, slot s q = slot s' q := by
    intro s s' e1 e2 q
    unfold slot
    rw [e1, e2]
  cases fsm with
  | idle1 =>
    refine ⟨by simp [isIdle], fun _ => ?_⟩
    simp only [Pack40.cyc, Pack40.step, Pack40.stepFsm, Bool.false_eq_true, if_false]
    split
    · exact ⟨rfl, qa _ _ o1 o2⟩
    · exact ⟨by rw [o3], qa _ _ o1 o2⟩
  | idle2 => exact absurd rfl h4
  | fill11 =>
    cases vi
    · refine ⟨by simp, fun _ => ?_⟩
      exact ⟨by simp only [Pack40.cyc, Pack40.step, Pack40.stepFsm, Bool.false_eq_true, if_false]; rw [o3], qa _ _ o1 o2⟩
    · refine ⟨fun _ => ⟨rfl, ?_⟩, by simp [isIdle]⟩
      apply q5 <;> simp only [Pack40.cyc, Pack40.step, Pack40.stepFsm, Bool.false_eq_true, if_false, if_true, slot, o1, o2, setSlice, pos] <;> simp <;> omega
  | fill12 =>
    cases vi
    · refine ⟨by simp, fun _ => ?_⟩
      exact ⟨by simp only [Pack40.cyc, Pack40.step, Pack40.stepFsm, Bool.false_eq_true, if_false]; rw [o3], qa _ _ o1 o2⟩
    · refine ⟨fun _ => ⟨rfl, ?_⟩, by simp [isIdle]⟩
      apply q5 <;> simp only [Pack40.cyc, Pack40.step, Pack40.stepFsm, Bool.false_eq_true, if_false, if_true, slot, o1, o2, setSlice, pos] <;> simp <;> omega
  | fill13 =>
    have h5 := h5 rfl
    subst h5
    cases vi
    · refine ⟨by simp, fun _ => ?_⟩
      exact ⟨by simp only [Pack40.cyc, Pack40.step, Pack40.stepFsm, Bool.false_eq_true, if_false]; rw [o3], qa _ _ o1 o2⟩
    · refine ⟨fun _ => ⟨rfl, ?_⟩, by simp [isIdle]⟩
      apply q5 <;> simp only [Pack40.cyc, Pack40.step, Pack40.stepFsm, Bool.false_eq_true, if_false, if_true, slot, o1, o2, setSlice, pos, Bool.not_false] <;> simp <;> omega
  | fill21 =>
    cases vi
    · refine ⟨by simp, fun _ => ?_⟩
      exact ⟨by simp only [Pack40.cyc, Pack40.step, Pack40.stepFsm, Bool.false_eq_true, if_false]; rw [o3], qa _ _ o1 o2⟩
    · refine ⟨fun _ => ⟨rfl, ?_⟩, by simp [isIdle]⟩
      apply q5 <;> simp only [Pack40.cyc, Pack40.step, Pack40.stepFsm, Bool.false_eq_true, if_false, if_true, slot, o1, o2, setSlice, pos] <;> simp <;> omega
  | fill22 =>
    cases vi
    · refine ⟨by simp, fun _ => ?_⟩
      exact ⟨by simp only [Pack40.cyc, Pack40.step, Pack40.stepFsm, Bool.false_eq_true, if_false]; rw [o3], qa _ _ o1 o2⟩
    · refine ⟨fun _ => ⟨by cases v1 <;> rfl, ?_⟩, by simp [isIdle]⟩
      cases v1 <;>
      apply q5 <;> simp only [Pack40.cyc, Pack40.step, Pack40.stepFsm, Bool.false_eq_true, if_false, if_true, slot, o1, o2, setSlice, pos, Bool.not_false, Bool.not_true] <;> simp <;> omega


theorem calm_of {s : Pack40} {p : List Nat} (h : Pack40Inv s p) (hr : Ready40 s) : Calm s := by
  obtain ⟨r1, r2⟩ := ready40_no_stall hr
  refine ⟨h.b1, h.b2, h.t, r2, ?_, h.busy⟩
  intro hf
  unfold straddleStall at r1
  simpa [hf] using r1

theorem inv_run (l : List Pack40In) (hd : ∀ i ∈ l, i.data < 2 ^ 16) {s : Pack40} {p : List Nat} (h : Pack40Inv s p) :
    ∃ p', Pack40Inv (pack40Run s l) p' := by
  obtain ⟨p', h', _⟩ := pack40_run l hd h
  exact ⟨p', h'⟩

/-- The slots hold the last five words transferred. -/
theorem held_run (l : List Pack40In) : ∀ {s : Pack40} {p : List Nat}, Pack40Inv s p → Ready40 s → (∀ i ∈ l, i.busy = false) → (∀ i ∈ l, i.data < 2 ^ 16) →
    ∀ m x, m < 5 → (pack40Words s l).reverse[m]? = some x → slot (pack40Run s l) ((pos (pack40Run s l).fsm + 4 - m) % 5) = x := by
  induction l using snoc_induction with
  | h0 => intro s p _ _ _ _ m x _ hx; simp [pack40Words] at hx
  | h1 l i ih =>
    intro s p h hr hb hd m x hm hx
    have hb' : ∀ i ∈ l, i.busy = false := fun j hj => hb j (List.mem_append_left _ hj)
    have hd' : ∀ i ∈ l, i.data < 2 ^ 16 := fun j hj => hd j (List.mem_append_left _ hj)
    obtain ⟨p', h'⟩ := inv_run l hd' h
    have hr' := ready40_run l hb' hr
    have ih := ih h hr hb' hd'
    obtain ⟨c1, c2⟩ := slot_step (calm_of h' hr') i (hd i (by simp))
    rw [words_append, List.reverse_append] at hx
    rw [run40_append]
    show slot ((pack40Run s l).cyc i) ((pos ((pack40Run s l).cyc i).fsm + 4 - m) % 5) = x
    have hpos : pos (pack40Run s l).fsm < 5 := by cases (pack40Run s l).fsm <;> decide
    by_cases hv : (i.valid && !(pack40Run s l).oBusy) = true
    · obtain ⟨e1, e2⟩ := c1 hv
      simp only [pack40Words, hv, if_true, List.append_nil, List.reverse_cons, List.reverse_nil, List.nil_append] at hx
      rw [e1, e2 _ (Nat.mod_lt _ (by decide))]
      cases m with
      | zero =>
        simp at hx
        rw [if_pos (by omega)]
        exact hx
      | succ m =>
        simp at hx
        rw [if_neg (by omega)]
        have := ih m x (by omega) hx
        rw [← this]
        congr 1
        omega
    · have hv : (i.valid && !(pack40Run s l).oBusy) = false := by simpa using hv
      obtain ⟨e1, e2⟩ := c2 hv
      simp only [pack40Words, hv, Bool.false_eq_true, if_false, List.append_nil, List.reverse_nil, List.nil_append] at hx
      rw [e1, e2]
      exact ih m x hm hx


theorem bytes2_ff (k : Nat) : (List.replicate k 0xFFFF).flatMap bytes2 = ffBytes k := by
  induction k with
  | zero => rfl
  | succ k ih =>
    rw [List.replicate_succ, List.flatMap_cons, ih]
    show [0xFF, 0xFF] ++ List.replicate (2 * k) 0xFF = List.replicate (2 * (k + 1)) 0xFF
    rw [show 2 * (k + 1) = 2 * k + 1 + 1 by omega, List.replicate_succ, List.replicate_succ]
    rfl

theorem slots_ff {s : Pack40} (h1 : s.buffer1 < 2 ^ 40) (h2 : s.buffer2 < 2 ^ 40) (h : ∀ q, q < 5 → slot s q = 0xFFFF) :
    s.buffer1 = ff40 ∧ s.buffer2 = ff40 := by
  have a0 := h 0 (by decide)
  have a1 := h 1 (by decide)
  have a2 := h 2 (by decide)
  have a3 := h 3 (by decide)
  have a4 := h 4 (by decide)
  simp only [slot, ff40] at *
  omega

theorem queue_ff {s : Pack40} (h1 : s.buffer1 = ff40) (h2 : s.buffer2 = ff40) : ∃ e, e ≤ 2 ∧ pack40Queue s = List.replicate e ff40 := by
  obtain ⟨b1, v1, b2, v2, chs, t, valid, ob, fsm⟩ := s
  dsimp only at h1 h2
  subst h1 h2
  cases v1 <;> cases v2 <;> cases chs <;>
    first | exact ⟨0, by decide, rfl⟩ | exact ⟨1, by decide, rfl⟩ | exact ⟨2, by decide, rfl⟩

/-- From a state in step with everything accounted for: what is given, and what is held after eight words FFFF. -/
theorem in_step {s : Pack40} {p : List Nat} (hi : Pack40Inv s p) (hr : Ready40 s) (l : List Pack40In) (hb : ∀ i ∈ l, i.busy = false)
    (hd : ∀ i ∈ l, i.data < 2 ^ 16) {B : List Nat} (hW : pack40Words s l = B ++ List.replicate 8 0xFFFF) :
    pack40Given s l ++ pack40Queue (pack40Run s l) = pack40Queue s ++ groups5 (p ++ (pack40Words s l).flatMap bytes2) ∧
    (pack40Run s l).buffer1 = ff40 ∧ (pack40Run s l).buffer2 = ff40 ∧ (pack40Run s l).temp8 < 2 ∧ (pack40Run s l).fsm ≠ .idle2 := by
  obtain ⟨p', h1, h2⟩ := pack40_run l hd hi
  rw [ready40_kept l hb hr, taken_words] at h2
  have hs : ∀ q, q < 5 → slot (pack40Run s l) q = 0xFFFF := by
    intro q hq
    have hpos : pos (pack40Run s l).fsm < 5 := by cases (pack40Run s l).fsm <;> decide
    have := held_run l hi hr hb hd ((pos (pack40Run s l).fsm + 4 + 5 - q) % 5) 0xFFFF (Nat.mod_lt _ (by decide)) (by
      rw [hW, List.reverse_append, List.reverse_replicate, List.getElem?_append_left (by rw [List.length_replicate]; omega),
        List.getElem?_replicate, if_pos (by omega)])
    rw [← this]
    congr 1
    omega
  obtain ⟨e1, e2⟩ := slots_ff h1.b1 h1.b2 hs
  exact ⟨h2, e1, e2, h1.t, (ready40_no_stall (ready40_run l hb hr)).2⟩

/-- A whole frame, from a boundary state or power-up: first at most three words FF FF FF FF FF, then the five-byte groups of the
bytes taken, at the end at most two words inside, all FF. -/
theorem pack_frame {s : Pack40} (h : Boundary s ∨ s = .init) (l5 l : List Pack40In) (hl : l5.length = 5) (hq : ∀ i ∈ l5, i.valid = false)
    (hb : ∀ i ∈ l5 ++ l, i.busy = false) (hd : ∀ i ∈ l5 ++ l, i.data < 2 ^ 16) {B : List Nat}
    (hW : pack40Words s (l5 ++ l) = List.replicate 8 0xFFFF ++ B ++ List.replicate 8 0xFFFF) :
    (∃ d o e, d ≤ 3 ∧ e ≤ 2 ∧ pack40Given s (l5 ++ l) = List.replicate d ff40 ++ o ∧
      o ++ List.replicate e ff40 = groups5 ((pack40Words s (l5 ++ l)).flatMap bytes2)) ∧
    (pack40Run s (l5 ++ l)).buffer1 = ff40 ∧ (pack40Run s (l5 ++ l)).buffer2 = ff40 ∧ (pack40Run s (l5 ++ l)).temp8 < 2 ∧
    (pack40Run s (l5 ++ l)).fsm ≠ .idle2 := by
  obtain ⟨dr, d, hd2, dg⟩ := drain h l5 hl (fun i hi => ⟨hq i hi, hb i (List.mem_append_left _ hi)⟩)
  have hw5 : pack40Words s l5 = [] := by
    clear hl hd hb hW dr dg h
    induction l5 generalizing s with
    | nil => rfl
    | cons i r ih =>
      simp only [pack40Words, hq i (List.mem_cons_self ..), Bool.false_and, Bool.false_eq_true, if_false, List.nil_append]
      exact ih (fun j hj => hq j (List.mem_cons_of_mem _ hj))
  rw [words_append, hw5, List.nil_append] at hW
  rw [words_append, hw5, List.nil_append, given40_append, run40_append, dg]
  generalize pack40Run s l5 = s1 at *
  have hb : ∀ i ∈ l, i.busy = false := fun i hi => hb i (List.mem_append_right _ hi)
  have hd : ∀ i ∈ l, i.data < 2 ^ 16 := fun i hi => hd i (List.mem_append_right _ hi)
  cases hc : s1.chs with
  | false =>
    obtain ⟨r1, r2, r3⟩ := drained_ready dr hc
    obtain ⟨a1, a2, a3, a4⟩ := in_step r2 r1 l hb hd hW
    obtain ⟨e, e1, e2⟩ := queue_ff a2 a3
    refine ⟨⟨d, pack40Given s1 l, e, by omega, e1, rfl, ?_⟩, a2, a3, a4⟩
    rw [e2, r3] at a1
    exact a1
  | true =>
    have hm := drained_mis dr hc
    rcases mis_run l hb hm (by
        intro n x hx hn
        rw [hW, List.append_assoc, List.getElem?_append_left (by rw [List.length_replicate]; omega), List.getElem?_replicate, if_pos (by omega)] at hx
        exact (Option.some.inj hx).symm) with ⟨k', b1, _, b3⟩ | ⟨l1, l2, k', b1, b2, b3, b4, b5⟩
    · exfalso
      obtain ⟨_, _, _, _, _, _, b⟩ := b1
      rw [hW] at b3
      simp at b3
      rcases b with ⟨_, _, b⟩ | ⟨_, b⟩ <;> omega
    · subst b1
      obtain ⟨r1, p, r2, r3, r4⟩ := synced_ready b2
      have hk : k' ≤ 5 := by
        obtain ⟨_, _, _, _, _, _, b⟩ := b2
        rcases b with ⟨_, _, b⟩ | ⟨_, _, b⟩ <;> omega
      rw [words_append, b5] at hW
      have hW2 : pack40Words (pack40Run s1 l1) l2 = (List.replicate (8 - k') 0xFFFF ++ B) ++ List.replicate 8 0xFFFF := by
        have : List.replicate 8 0xFFFF = List.replicate (k' - 0) 0xFFFF ++ List.replicate (8 - k') 0xFFFF := by
          rw [List.replicate_append_replicate]
          congr 1
          omega
        rw [this, List.append_assoc, List.append_assoc] at hW
        rw [List.append_cancel_left hW, List.append_assoc]
        congr 2
        rw [List.replicate_append_replicate]
        congr 1
        omega
      obtain ⟨a1, a2, a3, a4⟩ := in_step r2 r1 l2 (fun i hi => hb i (List.mem_append_right _ hi)) (fun i hi => hd i (List.mem_append_right _ hi)) hW2
      rw [run40_append]
      obtain ⟨e, e1, e2⟩ := queue_ff a2 a3
      refine ⟨⟨d + 1, pack40Given (pack40Run s1 l1) l2, e, by omega, e1, ?_, ?_⟩, a2, a3, a4⟩
      · rw [given40_append, b3, ← List.append_assoc]
        rw [show [ff40] = List.replicate 1 ff40 from rfl, List.replicate_append_replicate]
      · rw [e2, r3, ← r4] at a1
        rw [a1, words_append, b5, List.flatMap_append, bytes2_ff, Nat.sub_zero]

/-- The reset cycle of a frame end, the word on the input being FFFF. -/
theorem reset_boundary {s : Pack40} (h1 : s.buffer1 = ff40) (h2 : s.buffer2 = ff40) (h3 : s.temp8 < 2) (h4 : s.fsm ≠ .idle2) (d : Nat) (v b : Bool)
    (hd : v = true → d = 0xFFFF) : Boundary (s.step d v b true) ∧ s.data = ff40 := by
  obtain ⟨b1, v1, b2, v2, chs, t, valid, ob, fsm⟩ := s
  dsimp only at h1 h2 h3 h4
  subst h1 h2
  obtain ⟨f1, f2, f3, f4, f5, f6⟩ := ffSlices
  refine ⟨?_, by simp [Pack40.data]⟩
  generalize hE : ff40 = B at *
  have hB : ∀ v1 v2 chs t valid ob, t < 2 → Boundary ⟨B, v1, B, v2, chs, t, valid, ob, .idle1⟩ :=
    fun _ _ _ _ _ _ ht => ⟨hE.symm, hE.symm, rfl, ht⟩
  cases fsm <;> first | exact absurd rfl h4 | skip
  all_goals cases v <;> (try (have := hd rfl; subst this)) <;> cases v1 <;> cases v2 <;> cases chs <;> cases valid <;> cases b <;>
    simp only [Pack40.step, Pack40.stepFsm, Pack40.stepOut, if_true, if_false, Bool.false_eq_true, f1, f2, f3, f4, f5, f6, Bool.not_true, Bool.not_false,
      Bool.and_true, Bool.and_false, Bool.true_and, Bool.false_and, Bool.or_false, Bool.or_true] <;>
    exact hB _ _ _ _ _ _ (by omega)

end Props.LvdsAll
