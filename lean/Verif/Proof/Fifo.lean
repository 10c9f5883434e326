/- Refinement of the circular-buffer FIFO to a list queue. -/
import Verif.Model.Fifo

set_option autoImplicit false

namespace Model

namespace SyncFifo

/-- Words in the FIFO, oldest first. -/
def contents (depth : Nat) (s : SyncFifo) : List Nat :=
  (List.range s.level).map fun i => s.storage.getD ((s.consume + i) % depth) 0

/-- Representation invariant. -/
structure Inv (depth : Nat) (s : SyncFifo) : Prop where
  pos : 0 < depth
  len : s.storage.length = depth
  level : s.level ≤ depth
  consume : s.consume < depth
  produce : s.produce = (s.consume + s.level) % depth

theorem inv_reset {depth : Nat} (mem : List Nat) (d : Nat) (h : 0 < depth) (hm : mem.length = depth) :
    Inv depth (reset mem d) :=
  ⟨h, hm, by simp [reset], by simpa [reset], by simp [reset]⟩

@[simp] theorem contents_reset (depth : Nat) (mem : List Nat) (d : Nat) :
    contents depth (reset mem d) = [] := by simp [contents, reset]

@[simp] theorem contents_length (depth : Nat) (s : SyncFifo) : (contents depth s).length = s.level := by
  simp [contents]

theorem wrap_succ {n d : Nat} (h : n < d) : (if n = d - 1 then 0 else n + 1) = (n + 1) % d := by
  split
  · rename_i e; have : n + 1 = d := by omega
    rw [this, Nat.mod_self]
  · rw [Nat.mod_eq_of_lt (by omega)]

theorem add_mod_inj {c i j d : Nat} (hi : i < d) (hj : j < d) (h : (c + i) % d = (c + j) % d) : i = j := by
  have hd : 0 < d := by omega
  have hc := Nat.mod_lt c hd
  rw [Nat.add_mod, Nat.mod_eq_of_lt hi, Nat.add_mod c j, Nat.mod_eq_of_lt hj] at h
  generalize c % d = r at *
  by_cases h1 : r + i < d <;> by_cases h2 : r + j < d
  · rw [Nat.mod_eq_of_lt h1, Nat.mod_eq_of_lt h2] at h; omega
  · rw [Nat.mod_eq_of_lt h1, Nat.mod_eq_sub_mod (by omega), Nat.mod_eq_of_lt (by omega)] at h; omega
  · rw [Nat.mod_eq_of_lt h2, Nat.mod_eq_sub_mod (by omega), Nat.mod_eq_of_lt (by omega)] at h; omega
  · rw [Nat.mod_eq_sub_mod (by omega), Nat.mod_eq_of_lt (by omega), Nat.mod_eq_sub_mod (a := r + j) (by omega),
      Nat.mod_eq_of_lt (by omega)] at h; omega

theorem inv_step {depth : Nat} {s : SyncFifo} (h : Inv depth s) (we : Bool) (din : Nat) (re : Bool) :
    Inv depth (s.step depth we din re) := by
  obtain ⟨hpos, hlen, hlev, hcon, hpro⟩ := h
  have hp : s.produce < depth := hpro ▸ Nat.mod_lt _ hpos
  refine ⟨hpos, ?_, ?_, ?_, ?_⟩
  · simp only [step]; split <;> simp [hlen]
  · simp only [step]
    have hw : (writable depth s && we) = true → s.level ≠ depth := by simp [writable]; omega
    split
    · omega
    · split
      · rename_i h1 h2
        have := hw (by revert h2; cases (writable depth s && we) <;> simp)
        omega
      · omega
  · simp only [step]
    split
    · rw [wrap_succ hcon]; exact Nat.mod_lt _ hpos
    · exact hcon
  · have h0 : (readable s && re) = true → s.level ≠ 0 := by simp [readable]; omega
    simp only [step]
    rw [wrap_succ hp, wrap_succ hcon]
    generalize (writable depth s && we) = w
    revert h0
    generalize (readable s && re) = r
    intro h0
    cases w <;> cases r <;> simp [hpro]
    · have := h0 rfl; congr 1; omega
    · congr 1
    · congr 1; omega

theorem contents_cons {depth : Nat} {s : SyncFifo} (h : Inv depth s) (hl : s.level ≠ 0) :
    contents depth s = s.storage.getD s.consume 0 :: (contents depth s).tail := by
  obtain ⟨n, hn⟩ := Nat.exists_eq_succ_of_ne_zero hl
  unfold contents
  rw [hn, List.range_succ_eq_map]
  simp [Nat.mod_eq_of_lt h.consume]

/-- A clock edge appends the written word (if there is room) and removes the head when read. -/
theorem contents_step {depth : Nat} {s : SyncFifo} (h : Inv depth s) (we : Bool) (din : Nat) (re : Bool) :
    contents depth (s.step depth we din re) =
      (contents depth s).drop (if s.readable && re then 1 else 0) ++
        if s.writable depth && we then [din] else [] := by
  have hp : s.produce < depth := h.produce ▸ Nat.mod_lt _ h.pos
  apply List.ext_getElem?
  intro i
  by_cases hw : (writable depth s && we) = true <;> by_cases hr : (readable s && re) = true
  all_goals try rw [Bool.not_eq_true] at hw
  all_goals try rw [Bool.not_eq_true] at hr
  all_goals simp only [contents, step, hw, hr, if_true, if_false, Bool.not_true, Bool.not_false,
    Bool.and_true, Bool.and_false, Bool.true_and, Bool.false_and, Bool.false_eq_true, List.drop_zero,
    List.append_nil, wrap_succ h.consume]
  · have hl : s.level ≠ depth := by
      have := (Bool.and_eq_true _ _ ▸ hw).1; simpa [writable] using this
    have hl0 : s.level ≠ 0 := by
      have := (Bool.and_eq_true _ _ ▸ hr).1; simpa [readable] using this
    have hlev := h.level
    rcases Nat.lt_trichotomy i (s.level - 1) with hi | hi | hi
    · rw [List.getElem?_append_left (by simp; omega)]
      simp only [List.getElem?_map, List.getElem?_drop, List.getElem?_range (show i < s.level by omega),
        List.getElem?_range (show 1 + i < s.level by omega), Option.map_some]
      congr 1
      have e : ((s.consume + 1) % depth + i) % depth = (s.consume + (1 + i)) % depth := by
        rw [Nat.mod_add_mod]; congr 1; omega
      rw [e]
      have hne : s.produce ≠ (s.consume + (1 + i)) % depth := by
        rw [h.produce]; intro e'
        have := add_mod_inj (by omega) (by omega) e'; omega
      simp [List.getD_eq_getElem?_getD, List.getElem?_set_ne hne]
    · rw [List.getElem?_append_right (by simp; omega)]
      simp only [List.getElem?_map, List.getElem?_range (show i < s.level by omega), Option.map_some]
      simp only [List.length_drop, List.length_map, List.length_range, hi, Nat.sub_self]
      have e : ((s.consume + 1) % depth + (s.level - 1)) % depth = s.produce := by
        rw [Nat.mod_add_mod, h.produce]; congr 1; omega
      rw [e, List.getD_eq_getElem?_getD, List.getElem?_set_self (by rw [h.len]; exact hp)]; rfl
    · rw [List.getElem?_eq_none (by simp; omega), List.getElem?_eq_none (by simp; omega)]
  · have hl : s.level ≠ depth := by
      have := (Bool.and_eq_true _ _ ▸ hw).1; simpa [writable] using this
    have hlev := h.level
    rcases Nat.lt_trichotomy i s.level with hi | hi | hi
    · rw [List.getElem?_append_left (by simp; omega)]
      simp only [List.getElem?_map, List.getElem?_range (show i < s.level + 1 by omega),
        List.getElem?_range hi, Option.map_some]
      congr 1
      have hne : s.produce ≠ (s.consume + i) % depth := by
        rw [h.produce]; intro e'
        have := add_mod_inj (by omega) (by omega) e'; omega
      simp [List.getD_eq_getElem?_getD, List.getElem?_set_ne hne]
    · rw [List.getElem?_append_right (by simp; omega)]
      simp only [List.getElem?_map, List.getElem?_range (show i < s.level + 1 by omega), Option.map_some]
      simp only [List.length_map, List.length_range, hi, Nat.sub_self]
      rw [← h.produce, List.getD_eq_getElem?_getD, List.getElem?_set_self (by rw [h.len]; exact hp)]; rfl
    · rw [List.getElem?_eq_none (by simp; omega), List.getElem?_eq_none (by simp; omega)]
  · by_cases hi : i < s.level - 1
    · simp only [List.getElem?_map, List.getElem?_drop, List.getElem?_range hi,
        List.getElem?_range (show 1 + i < s.level by omega), Option.map_some]
      congr 2
      rw [Nat.mod_add_mod]; congr 1; omega
    · rw [List.getElem?_eq_none (by simp; omega), List.getElem?_eq_none (by simp; omega)]

end SyncFifo

namespace Fifo

/-- Words in the buffered FIFO, oldest first. -/
def contents (depth : Nat) (s : Fifo) : List Nat :=
  (if s.readable then [s.dout] else []) ++ s.inner.contents (depth - 1)

/-- Representation invariant. -/
def Inv (depth : Nat) (s : Fifo) : Prop := s.inner.Inv (depth - 1)

theorem inv_reset {depth : Nat} (mem : List Nat) (d : Nat) (h : 1 < depth)
    (hm : mem.length = depth - 1) : Inv depth (reset mem d) :=
  SyncFifo.inv_reset mem d (by omega) hm

@[simp] theorem contents_reset (depth : Nat) (mem : List Nat) (d : Nat) :
    contents depth (reset mem d) = [] := by simp [contents, reset]

theorem contents_length (depth : Nat) (s : Fifo) : (contents depth s).length = s.level := by
  unfold contents level
  cases s.readable <;> simp
  try omega

theorem inv_step {depth : Nat} {s : Fifo} (h : Inv depth s) (we : Bool) (din : Nat) (re : Bool) :
    Inv depth (s.step depth we din re) := SyncFifo.inv_step h _ _ _

theorem contents_readable {depth : Nat} {s : Fifo} (h : s.readable = true) :
    contents depth s = s.dout :: s.inner.contents (depth - 1) := by
  simp [contents, h]

/-- A clock edge of the buffered FIFO on its contents. -/
theorem contents_step {depth : Nat} {s : Fifo} (h : Inv depth s) (we : Bool) (din : Nat) (re : Bool) :
    contents depth (s.step depth we din re) =
      (contents depth s).drop (if s.readable && re then 1 else 0) ++
        if s.writable depth && we then [din] else [] := by
  obtain ⟨inner, rd⟩ := s
  have hc := SyncFifo.contents_step h we din (innerRe ⟨inner, rd⟩ re)
  have hw : writable depth ⟨inner, rd⟩ = inner.writable (depth - 1) := rfl
  rw [hw]
  have hcons : inner.readable = true → inner.contents (depth - 1) =
      inner.storage.getD inner.consume 0 :: (inner.contents (depth - 1)).tail := by
    intro hr
    exact SyncFifo.contents_cons h (by simpa [SyncFifo.readable] using hr)
  unfold contents
  simp only [step, dout]
  rw [hc]
  have hdout : ∀ b, (inner.step (depth - 1) we din b).dout =
      if b then inner.storage.getD inner.consume 0 else inner.dout := fun b => rfl
  rw [hdout]
  have hnil : inner.readable = false → inner.contents (depth - 1) = [] := by
    intro hr
    have : inner.level = 0 := by simpa [SyncFifo.readable] using hr
    simp [SyncFifo.contents, this]
  cases hir : inner.readable <;> cases rd <;> cases re <;>
    simp [innerRe, hir]
  · rw [hcons hir]; simp
  · rw [hcons hir]; simp
  · rw [hcons hir]; simp

theorem level_step {depth : Nat} {s : Fifo} (h : Inv depth s) (we : Bool) (din : Nat) (re : Bool) :
    (s.step depth we din re).level ≤ s.level + we.toNat := by
  rw [← contents_length depth, contents_step h, ← contents_length depth]
  rw [List.length_append, List.length_drop]
  cases we <;> cases s.writable depth <;> simp <;> omega

/-- With room to spare the word is stored. -/
theorem writable_of_level {depth : Nat} {s : Fifo} (h : s.level + 1 < depth) : s.writable depth = true := by
  simp only [writable, SyncFifo.writable, bne_iff_ne]
  unfold level at h
  omega

/-- A presented word that is not taken stays. -/
theorem stable {depth : Nat} {s : Fifo} (hr : s.readable = true) (we : Bool) (din : Nat) :
    (s.step depth we din false).readable = true ∧ (s.step depth we din false).dout = s.dout := by
  simp [step, innerRe, hr, dout, SyncFifo.step]

/-- A nonempty FIFO presents a word after the next edge, unless its only word is taken. -/
theorem readable_step {depth : Nat} {s : Fifo} (we : Bool) (din : Nat) (re : Bool) :
    (s.step depth we din re).readable =
      (if s.readable && !re then true else s.inner.readable) := by
  cases hir : s.inner.readable <;> cases hsr : s.readable <;> cases re <;> simp [step, innerRe, hir, hsr]

end Fifo
end Model
