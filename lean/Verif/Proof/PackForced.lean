/- The 16-to-40-bit packer over frame boundaries of any kind: its buffers may hold anything when a frame begins. -/
import Verif.Proof.PackFrames

set_option autoImplicit false

namespace Props.LvdsForced
open Model Props Props.LvdsAll

/-- State after a reset cycle, whatever the frame ended with, or at power-up. -/
def Bound (s : Pack40) : Prop := s.buffer1 < 2 ^ 40 ∧ s.buffer2 < 2 ^ 40 ∧ s.fsm = .idle1 ∧ s.temp8 < 2

theorem bound_init : Bound Pack40.init := ⟨by decide, by decide, rfl, by decide⟩

/-- State after the drain. -/
def Empty40 (s : Pack40) : Prop := s.temp8 < 2 ∧ s.buffer1 < 2 ^ 40 ∧ s.buffer2 < 2 ^ 40 ∧
  s.valid1 = false ∧ s.valid2 = false ∧ s.valid = false ∧ s.oBusy = false ∧ s.fsm = .fill11

theorem silent_run : ∀ (l : List Pack40In) (s : Pack40), (∀ i ∈ l, i.valid = false ∧ i.busy = false) →
    pack40Run s l = pack40Run s (List.replicate l.length ⟨0, false, false⟩) ∧
    pack40Given s l = pack40Given s (List.replicate l.length ⟨0, false, false⟩) := by
  intro l
  induction l with
  | nil => intro s _; exact ⟨rfl, rfl⟩
  | cons i r ih =>
    intro s h
    obtain ⟨d, v, b⟩ := i
    obtain ⟨hv, hb⟩ := h ⟨d, v, b⟩ (List.mem_cons_self ..)
    dsimp only at hv hb
    subst hv hb
    have := ih (s.cyc ⟨d, false, false⟩) (fun j hj => h j (List.mem_cons_of_mem _ hj))
    simp only [pack40Run, pack40Given, List.length_cons, List.replicate_succ]
    rw [cyc_silent s 0 d]
    exact ⟨this.1, by rw [this.2]⟩

set_option maxHeartbeats 2000000 in
theorem drain_any {s : Pack40} (h : Bound s) (l : List Pack40In) (hl : l.length = 5)
    (hi : ∀ i ∈ l, i.valid = false ∧ i.busy = false) :
    Empty40 (pack40Run s l) ∧ (pack40Given s l).length ≤ 2 := by
  obtain ⟨k1, k2⟩ := silent_run l s hi
  rw [k1, k2, hl]
  obtain ⟨b1, v1, b2, v2, chs, t, valid, ob, fsm⟩ := s
  obtain ⟨h1, h2, h3, h4⟩ := h
  dsimp only at h1 h2 h3 h4
  subst h3
  cases v1 <;> cases v2 <;> cases chs <;> cases valid <;>
    (refine ⟨⟨h4, h1, h2, rfl, rfl, rfl, rfl, rfl⟩, ?_⟩; first | exact Nat.le_refl 2 | exact (by decide : 1 ≤ 2) | exact Nat.zero_le 2)

/-- While the output looks at the wrong buffer: `k` words FFFF taken. -/
def Off (s : Pack40) (k : Nat) : Prop := s.buffer1 < 2 ^ 40 ∧ s.buffer2 < 2 ^ 40 ∧ s.temp8 < 2 ∧ s.chs = true ∧ s.valid2 = false ∧ s.oBusy = false ∧
  ((s.valid1 = false ∧ s.valid = false ∧ ((s.fsm = .fill11 ∧ k = 0) ∨ (s.fsm = .fill12 ∧ k = 1 ∧ s.buffer1 / 2 ^ 24 = 0xFFFF) ∨
      (s.fsm = .fill13 ∧ k = 2 ∧ s.buffer1 / 2 ^ 8 = 0xFFFFFFFF))) ∨
   (s.valid1 = true ∧ s.buffer1 = ff40 ∧ ((s.valid = false ∧ s.fsm = .fill21 ∧ k = 3 ∧ s.buffer2 / 2 ^ 32 = 0xFF) ∨
      (s.valid = true ∧ ((s.fsm = .fill21 ∧ k = 3 ∧ s.buffer2 / 2 ^ 32 = 0xFF) ∨ (s.fsm = .fill22 ∧ k = 4 ∧ s.buffer2 / 2 ^ 16 = 0xFFFFFF))))))

/-- The output has looked at the wrong buffer and given one stale word; from now on it looks at the right one. -/
def On (s : Pack40) (k : Nat) : Prop := s.buffer1 = ff40 ∧ s.buffer2 < 2 ^ 40 ∧ s.temp8 < 2 ∧ s.chs = false ∧ s.valid1 = true ∧ s.valid = false ∧
  ((s.valid2 = false ∧ s.oBusy = false ∧ ((s.fsm = .fill21 ∧ k = 3 ∧ s.buffer2 / 2 ^ 32 = 0xFF) ∨ (s.fsm = .fill22 ∧ k = 4 ∧ s.buffer2 / 2 ^ 16 = 0xFFFFFF))) ∨
   (s.valid2 = true ∧ s.oBusy = true ∧ s.fsm = .idle1 ∧ k = 5 ∧ s.buffer2 = ff40))

theorem off_step {s : Pack40} {k : Nat} (h : Off s k) (i : Pack40In) (hb : i.busy = false) (hd : i.valid = true → i.data = 0xFFFF) :
    (Off (s.cyc i) (k + if i.valid && !s.oBusy then 1 else 0) ∧ (s.valid && !i.busy) = false) ∨
    (On (s.cyc i) (k + if i.valid && !s.oBusy then 1 else 0) ∧ (s.valid && !i.busy) = true) := by
  obtain ⟨b1, v1, b2, v2, chs, t, valid, ob, fsm⟩ := s
  obtain ⟨d, vi, bz⟩ := i
  obtain ⟨e1, e2, ht, e3, e4, e5, h⟩ := h
  dsimp only at hb hd e1 e2 e3 e4 e5 h ht
  subst hb e3 e4 e5
  have p1 := @setSlice40_lt b1 0xFFFF e1 (by decide)
  have p2 := @setSlice40_lt b2 0xFFFF e2 (by decide)
  have q1 := @setSlice40_div b1 0xFFFF e1 (by decide)
  have q2 := @setSlice40_div b2 0xFFFF e2 (by decide)
  rcases h with ⟨rfl, rfl, h⟩ | ⟨rfl, rfl, h⟩
  · left
    rcases h with ⟨rfl, rfl⟩ | ⟨rfl, rfl, hx⟩ | ⟨rfl, rfl, hx⟩ <;> cases vi <;> (try (have := hd rfl; subst this)) <;>
      simp [Off, Pack40.cyc, Pack40.step, Pack40.stepFsm, Pack40.stepOut, ff40] <;> (try simp only [Nat.reducePow, Nat.reduceDiv, Nat.reduceMod] at *) <;> omega
  · rcases h with ⟨rfl, rfl, rfl, hx⟩ | ⟨rfl, ⟨rfl, rfl, hx⟩ | ⟨rfl, rfl, hx⟩⟩
    · left
      cases vi <;> (try (have := hd rfl; subst this)) <;>
        simp [Off, Pack40.cyc, Pack40.step, Pack40.stepFsm, Pack40.stepOut, ff40] <;> (try simp only [Nat.reducePow, Nat.reduceDiv, Nat.reduceMod] at *) <;> omega
    · right
      cases vi <;> (try (have := hd rfl; subst this)) <;>
        simp [On, Pack40.cyc, Pack40.step, Pack40.stepFsm, Pack40.stepOut, ff40] <;> (try simp only [Nat.reducePow, Nat.reduceDiv, Nat.reduceMod] at *) <;> omega
    · right
      cases vi <;> (try (have := hd rfl; subst this)) <;>
        simp [On, Pack40.cyc, Pack40.step, Pack40.stepFsm, Pack40.stepOut, ff40] <;> (try simp only [Nat.reducePow, Nat.reduceDiv, Nat.reduceMod] at *) <;> omega

theorem empty_ready {s : Pack40} (h : Empty40 s) (hc : s.chs = false) : Ready40 s ∧ Pack40Inv s [] ∧ pack40Queue s = [] := by
  obtain ⟨b1, v1, b2, v2, chs, t, valid, ob, fsm⟩ := s
  obtain ⟨h1, h2, h3, h4, h5, h6, h7, h8⟩ := h
  dsimp only at *
  subst h4 h5 h6 h7 h8 hc
  refine ⟨Or.inl (Or.inr (Or.inl ⟨rfl, rfl, by simp, by simp⟩)), ⟨h2, h3, h1, rfl, rfl, by simp, by simp, by simp [isSecond]⟩, rfl⟩

theorem empty_off {s : Pack40} (h : Empty40 s) (hc : s.chs = true) : Off s 0 := by
  obtain ⟨h1, h2, h3, h4, h5, h6, h7, h8⟩ := h
  exact ⟨h2, h3, h1, hc, h5, h7, Or.inl ⟨h4, h6, Or.inl ⟨h8, rfl⟩⟩⟩

theorem on_ready {s : Pack40} {k : Nat} (h : On s k) :
    Ready40 s ∧ ∃ p, Pack40Inv s p ∧ pack40Queue s = groups5 (ffBytes k) ∧ ∀ l, groups5 (ffBytes k ++ l) = groups5 (ffBytes k) ++ groups5 (p ++ l) := by
  obtain ⟨b1, v1, b2, v2, chs, t, valid, ob, fsm⟩ := s
  obtain ⟨h1, h2, h3, h4, h5, h6, h⟩ := h
  dsimp only at *
  subst h1 h4 h5 h6
  have hB : ff40 < 2 ^ 40 := by decide
  rcases h with ⟨rfl, rfl, ⟨rfl, rfl, hx⟩ | ⟨rfl, rfl, hx⟩⟩ | ⟨rfl, rfl, rfl, rfl, rfl⟩
  · exact ⟨Or.inl (Or.inr (Or.inr (Or.inr (Or.inr (Or.inl ⟨rfl, rfl, by simp, by simp⟩))))), [0xFF],
      ⟨hB, h2, h3, ⟨_, rfl, hx⟩, rfl, by simp, by simp [isSecond], by simp⟩, show [ff40] = groups5 (ffBytes 3) by decide, fun l => rfl⟩
  · exact ⟨Or.inr (Or.inl ⟨rfl, rfl, rfl, rfl⟩), [0xFF, 0xFF, 0xFF],
      ⟨hB, h2, h3, ⟨_, _, _, rfl, hx⟩, rfl, by simp, by simp [isSecond], by simp⟩, show [ff40] = groups5 (ffBytes 4) by decide, fun l => rfl⟩
  · exact ⟨Or.inr (Or.inr ⟨rfl, rfl, rfl, rfl⟩), [],
      ⟨hB, hB, h3, rfl, rfl, by simp, by simp, by simp [isSecond]⟩, show [ff40, ff40] = groups5 (ffBytes 5) by decide, fun l => rfl⟩

/-- Words FFFF until in step: either not yet in step after all of `l`, or there is a moment. -/
theorem off_run (l : List Pack40In) (hb : ∀ i ∈ l, i.busy = false) : ∀ {s : Pack40} {k : Nat}, Off s k →
    (∀ n x, (pack40Words s l)[n]? = some x → k + n < 8 → x = 0xFFFF) →
    (∃ k', Off (pack40Run s l) k' ∧ k' = k + (pack40Words s l).length) ∨
    ∃ l1 l2 k' g, l = l1 ++ l2 ∧ On (pack40Run s l1) k' ∧ pack40Given s l1 = [g] ∧ k' = k + (pack40Words s l1).length ∧
      pack40Words s l1 = List.replicate (k' - k) 0xFFFF := by
  induction l with
  | nil => intro s k h _; exact Or.inl ⟨k, h, rfl⟩
  | cons i r ih =>
    intro s k h hw
    have hk : k ≤ 4 := by
      obtain ⟨_, _, _, _, _, _, h⟩ := h
      rcases h with ⟨_, _, h⟩ | ⟨_, _, h⟩ <;> omega
    have hob : s.oBusy = false := h.2.2.2.2.2.1
    have hd : i.valid = true → i.data = 0xFFFF := by
      intro hv
      apply hw 0 i.data _ (by omega)
      simp only [pack40Words, hv, hob]
      rfl
    rcases off_step h i (hb i (List.mem_cons_self ..)) hd with ⟨h1, h2⟩ | ⟨h1, h2⟩
    · have hlen : (if i.valid && !s.oBusy then [i.data] else []).length = if i.valid && !s.oBusy then 1 else 0 := by split <;> rfl
      have hff : (if i.valid && !s.oBusy then [i.data] else []) = List.replicate (if i.valid && !s.oBusy then 1 else 0) 0xFFFF := by
        by_cases hv : i.valid = true
        · rw [hd hv]; simp [hv, hob]
        · simp [hv]
      generalize hu : (if i.valid && !s.oBusy then 1 else 0) = u at *
      rcases ih (fun j hj => hb j (List.mem_cons_of_mem _ hj)) h1 (fun n x hx hn => hw (u + n) x (by
          simp only [pack40Words]
          rw [List.getElem?_append_right (by omega), hlen, Nat.add_sub_cancel_left]
          exact hx) (by omega)) with ⟨k', a1, a3⟩ | ⟨l1, l2, k', g, a1, a2, a3, a4, a5⟩
      · refine Or.inl ⟨k', a1, ?_⟩
        simp only [pack40Words, List.length_append, hlen]; omega
      · refine Or.inr ⟨i :: l1, l2, k', g, by rw [a1]; rfl, a2, ?_, ?_, ?_⟩
        · simp only [pack40Given, h2, a3]; rfl
        · simp only [pack40Words, List.length_append, hlen]; omega
        · simp only [pack40Words, hff, a5, List.replicate_append_replicate]
          congr 1
          omega
    · refine Or.inr ⟨[i], r, _, s.data, rfl, h1, ?_, ?_, ?_⟩
      · simp only [pack40Given, h2, if_true]; rfl
      · simp only [pack40Words, List.append_nil]
        split <;> rfl
      · simp only [pack40Words, List.append_nil, Nat.add_sub_cancel_left]
        by_cases hv : i.valid = true
        · rw [hd hv]; simp [hv, hob]
        · simp [hv]

theorem queue_two (s : Pack40) : (pack40Queue s).length ≤ 2 := by
  unfold pack40Queue
  split <;> simp only [List.length_append] <;> split <;> split <;> simp

theorem in_step_any {s : Pack40} {p : List Nat} (hi : Pack40Inv s p) (hr : Ready40 s) (l : List Pack40In) (hb : ∀ i ∈ l, i.busy = false)
    (hd : ∀ i ∈ l, i.data < 2 ^ 16) :
    pack40Given s l ++ pack40Queue (pack40Run s l) = pack40Queue s ++ groups5 (p ++ (pack40Words s l).flatMap bytes2) ∧
    (pack40Run s l).buffer1 < 2 ^ 40 ∧ (pack40Run s l).buffer2 < 2 ^ 40 ∧ (pack40Run s l).temp8 < 2 ∧ (pack40Run s l).fsm ≠ .idle2 := by
  obtain ⟨p', h1, h2⟩ := pack40_run l hd hi
  rw [ready40_kept l hb hr, taken_words] at h2
  exact ⟨h2, h1.b1, h1.b2, h1.t, (ready40_no_stall (ready40_run l hb hr)).2⟩

/-- A whole frame, whatever the packer holds at its begin: first at most three words of old contents, then the five-byte groups of the
bytes taken, at the end at most two groups inside. -/
theorem pack_frame_any {s : Pack40} (h : Bound s) (l5 l : List Pack40In) (hl : l5.length = 5) (hq : ∀ i ∈ l5, i.valid = false)
    (hb : ∀ i ∈ l5 ++ l, i.busy = false) (hd : ∀ i ∈ l5 ++ l, i.data < 2 ^ 16) {B : List Nat}
    (hW : pack40Words s (l5 ++ l) = List.replicate 8 0xFFFF ++ B) :
    (∃ old o rest, old.length ≤ 3 ∧ rest.length ≤ 2 ∧ pack40Given s (l5 ++ l) = old ++ o ∧
      o ++ rest = groups5 ((pack40Words s (l5 ++ l)).flatMap bytes2)) ∧
    (pack40Run s (l5 ++ l)).buffer1 < 2 ^ 40 ∧ (pack40Run s (l5 ++ l)).buffer2 < 2 ^ 40 ∧ (pack40Run s (l5 ++ l)).temp8 < 2 ∧
    (pack40Run s (l5 ++ l)).fsm ≠ .idle2 := by
  obtain ⟨dr, dg⟩ := drain_any h l5 hl (fun i hi => ⟨hq i hi, hb i (List.mem_append_left _ hi)⟩)
  have hw5 : pack40Words s l5 = [] := by
    clear hl hd hb hW dr dg h
    induction l5 generalizing s with
    | nil => rfl
    | cons i r ih =>
      simp only [pack40Words, hq i (List.mem_cons_self ..), Bool.false_and, Bool.false_eq_true, if_false, List.nil_append]
      exact ih (fun j hj => hq j (List.mem_cons_of_mem _ hj))
  rw [words_append, hw5, List.nil_append] at hW
  rw [words_append, hw5, List.nil_append, given40_append, run40_append]
  generalize pack40Given s l5 = old at dg ⊢
  generalize pack40Run s l5 = s1 at *
  have hb : ∀ i ∈ l, i.busy = false := fun i hi => hb i (List.mem_append_right _ hi)
  have hd : ∀ i ∈ l, i.data < 2 ^ 16 := fun i hi => hd i (List.mem_append_right _ hi)
  cases hc : s1.chs with
  | false =>
    obtain ⟨r1, r2, r3⟩ := empty_ready dr hc
    obtain ⟨a1, a2, a3, a4⟩ := in_step_any r2 r1 l hb hd
    refine ⟨⟨old, pack40Given s1 l, pack40Queue (pack40Run s1 l), by omega, queue_two _, rfl, ?_⟩, a2, a3, a4⟩
    rw [r3] at a1
    exact a1
  | true =>
    have hm := empty_off dr hc
    rcases off_run l hb hm (by
        intro n x hx hn
        rw [hW, List.getElem?_append_left (by rw [List.length_replicate]; omega), List.getElem?_replicate, if_pos (by omega)] at hx
        exact (Option.some.inj hx).symm) with ⟨k', b1, b3⟩ | ⟨l1, l2, k', g, b1, b2, b3, b4, b5⟩
    · exfalso
      obtain ⟨_, _, _, _, _, _, b⟩ := b1
      rw [hW] at b3
      simp at b3
      rcases b with ⟨_, _, b⟩ | ⟨_, _, b⟩ <;> omega
    · subst b1
      obtain ⟨r1, p, r2, r3, r4⟩ := on_ready b2
      obtain ⟨a1, a2, a3, a4⟩ := in_step_any r2 r1 l2 (fun i hi => hb i (List.mem_append_right _ hi)) (fun i hi => hd i (List.mem_append_right _ hi))
      rw [run40_append]
      refine ⟨⟨old ++ [g], pack40Given (pack40Run s1 l1) l2, pack40Queue (pack40Run (pack40Run s1 l1) l2), by simp; omega, queue_two _, ?_, ?_⟩, a2, a3, a4⟩
      · rw [given40_append, b3, ← List.append_assoc]
      · rw [r3, ← r4] at a1
        rw [a1, words_append, b5, List.flatMap_append, bytes2_ff, Nat.sub_zero]

/-- The reset cycle of a frame end, whatever the word on the input. -/
theorem reset_bound {s : Pack40} (h1 : s.buffer1 < 2 ^ 40) (h2 : s.buffer2 < 2 ^ 40) (h3 : s.temp8 < 2) (d : Nat) (v b : Bool)
    (hd : d < 2 ^ 16) : Bound (s.step d v b true) := by
  obtain ⟨b1, v1, b2, v2, chs, t, valid, ob, fsm⟩ := s
  dsimp only at h1 h2 h3
  have p1 := @setSlice40_lt b1 d h1 hd
  have p2 := @setSlice40_lt b2 d h2 hd
  have p3 := @setSlice40_lt b2 t h2 (by omega)
  have hB : ∀ b1 v1 b2 v2 chs t valid ob, b1 < 2 ^ 40 → b2 < 2 ^ 40 → t < 2 → Bound ⟨b1, v1, b2, v2, chs, t, valid, ob, .idle1⟩ :=
    fun _ _ _ _ _ _ _ _ k1 k2 ht => ⟨k1, k2, rfl, ht⟩
  obtain ⟨p11, p12, p13, p14, p15, p16⟩ := p1
  obtain ⟨p21, p22, p23, p24, p25, p26⟩ := p2
  obtain ⟨p31, p32, p33, p34, p35, p36⟩ := p3
  cases fsm <;> cases v <;> cases v1 <;> cases v2 <;> cases chs <;> cases valid <;> cases b <;>
    simp only [Pack40.step, Pack40.stepFsm, Pack40.stepOut, if_true, if_false, Bool.false_eq_true, Bool.not_true, Bool.not_false,
      Bool.and_true, Bool.and_false, Bool.true_and, Bool.false_and, Bool.or_false, Bool.or_true] <;>
    exact hB _ _ _ _ _ _ _ _ (by assumption) (by assumption) (by omega)

end Props.LvdsForced
