/- Helper lemmas about the model of the lj92 decoder compiled with SLOW_HUFF: the tables. -/
import Verif.Model.Lj92Slow
import Verif.Proof.Lj92Scan

set_option autoImplicit false

namespace Model.Lj92.Slow
open Spec Model.Lj92

/-- The array and its next index hold the list. -/
def Holds (l : List Nat) (a : (Nat → Nat) × Nat) : Prop := a.2 = l.length ∧ ∀ k, k < l.length → a.1 k = l.getD k 0

theorem storeSize_holds {needed v : Nat} {l : List Nat} {a : (Nat → Nat) × Nat} (h : Holds l a) (hn : l.length < needed) :
    ∃ a', storeSize needed v a = some a' ∧ Holds (l ++ [v]) a' := by
  obtain ⟨h1, h2⟩ := h
  refine ⟨(put a.1 a.2 v, a.2 + 1), by unfold storeSize; rw [if_pos (by omega)], by simp [h1], fun k hk => ?_⟩
  simp only [List.length_append, List.length_cons, List.length_nil] at hk
  show (if k = a.2 then v else a.1 k) = _
  by_cases e : k = l.length
  · rw [if_pos (by omega), e]
    simp [List.getD_eq_getElem?_getD]
  · rw [if_neg (by omega), h2 k (by omega), getD_append_lt (by omega)]

theorem sizesNeeded_eq {c bits : Nat → Nat} (hb : ∀ k, 1 ≤ k → k ≤ 16 → bits k = c (k - 1)) :
    sizesNeeded bits = some ((huffSizes c 16).length + 1) := by
  obtain ⟨n, h1, h2⟩ := forN_inv (σ := Nat) (f := fun i n => forN (fun _ n => some (n + 1)) (bits (i + 1)) n)
    (P := fun i n => n = (huffSizes c i).length + 1) 16 (by
      intro i n hi hn
      obtain ⟨m, g1, g2⟩ := forN_inv (σ := Nat) (f := fun _ n => some (n + 1)) (P := fun v m => m = n + v) (bits (i + 1))
        (fun k s _ hs => ⟨s + 1, rfl, by omega⟩) n rfl
      refine ⟨m, g1, ?_⟩
      rw [hb _ (by omega) (by omega), Nat.add_sub_cancel] at g2
      rw [huffSizes_succ, List.length_append, List.length_replicate]
      omega) 1 (by simp [huffSizes])
  exact h1.trans (by rw [h2])

theorem sizes_eq {c bits : Nat → Nat} (hb : ∀ k, 1 ≤ k → k ≤ 16 → bits k = c (k - 1)) :
    ∃ a, sizes bits ((huffSizes c 16).length + 1) = some a ∧ Holds (huffSizes c 16 ++ [0]) a := by
  obtain ⟨a, h1, h2⟩ := forN_inv (σ := (Nat → Nat) × Nat)
    (f := fun i a => forN (fun _ a => storeSize ((huffSizes c 16).length + 1) (i + 1) a) (bits (i + 1)) a)
    (P := fun i a => Holds (huffSizes c i) a) 16 (by
      intro i a hi ha
      have hbi := hb (i + 1) (by omega) (by omega)
      rw [Nat.add_sub_cancel] at hbi
      have hl := huffSizes_len_mono c (i + 1) 16 (by omega)
      rw [huffSizes_succ, List.length_append, List.length_replicate] at hl
      obtain ⟨m, g1, g2⟩ := forN_inv (σ := (Nat → Nat) × Nat) (f := fun _ a => storeSize ((huffSizes c 16).length + 1) (i + 1) a)
        (P := fun v a => Holds (huffSizes c i ++ List.replicate v (i + 1)) a) (bits (i + 1))
        (fun k s hk hs => by
          obtain ⟨s', e1, e2⟩ := storeSize_holds (v := i + 1) (needed := (huffSizes c 16).length + 1) hs (by simp; omega)
          refine ⟨s', e1, ?_⟩
          rw [List.append_assoc, ← List.replicate_succ'] at e2
          exact e2) a (by simpa using ha)
      refine ⟨m, g1, ?_⟩
      rw [huffSizes_succ, ← hbi]
      exact g2) (fun _ => 0, 0) ⟨by simp [huffSizes], fun k hk => by simp [huffSizes] at hk⟩
  obtain ⟨b, g1, g2⟩ := storeSize_holds (v := 0) (needed := (huffSizes c 16).length + 1) h2 (by omega)
  refine ⟨b, ?_, g2⟩
  unfold sizes
  rw [h1, Option.bind_some]
  exact g1

theorem codes_eq {huffsize : Nat → Nat} {needed : Nat} : ∀ (fuel : Nat) (l : List Nat) (k code si : Nat) (a : Nat → Int),
    (si :: l).Pairwise (· ≤ ·) → 1 ≤ si → (∀ x ∈ l, x ≤ 16) → k + l.length + 1 = needed → (∀ j, j < l.length → huffsize (k + j) = l.getD j 0) →
    huffsize (k + l.length) = 0 → l.length + (17 - si) < fuel →
    ∃ a', codes huffsize needed fuel k code si a = some (a', k + l.length) ∧ (∀ j, j < k → a' j = a j) ∧
      ∀ j e, (huffCodes code si l)[j]? = some e → a' (k + j) = (e.2 : Int) := by
  intro fuel
  induction fuel with
  | zero => intro l k code si a _ _ _ _ _ _ hf; omega
  | succ fuel ih =>
    intro l k code si a hp hsi h16 hn hat h0 hf
    cases l with
    | nil =>
      simp only [List.length_nil, Nat.add_zero] at hn h0 ⊢
      refine ⟨a, ?_, fun _ _ => rfl, fun j e h => by simp [huffCodes] at h⟩
      rw [codes, if_neg (by omega), if_neg (by omega), if_pos h0]
    | cons n l =>
      have hp' := List.pairwise_cons.1 hp
      have hk : huffsize k = n := by have := hat 0 (by simp); simpa using this
      have hsn : si ≤ n := hp'.1 n (List.mem_cons_self ..)
      have hn16 : n ≤ 16 := h16 n (List.mem_cons_self ..)
      simp only [List.length_cons] at hn h0 hf hat ⊢
      by_cases e : n = si
      · obtain ⟨a', g1, g2, g3⟩ := ih l (k + 1) (code + 1) si (fun j => if j = k then (code : Int) else a j) (by rw [← e]; exact hp'.2) hsi
          (fun x hx => h16 x (List.mem_cons_of_mem _ hx)) (by omega)
          (fun j hj => by
            have := hat (j + 1) (by omega)
            rw [show k + 1 + j = k + (j + 1) by omega, this]; simp)
          (by rw [← h0]; congr 1; omega) (by omega)
        refine ⟨a', ?_, fun j hj => ?_, fun j x hx => ?_⟩
        · rw [codes, if_neg (by omega), if_pos (by omega), show k + (l.length + 1) = k + 1 + l.length by omega]
          rw [← g1]; congr 1
        · rw [g2 j (by omega), if_neg (by omega)]
        · rw [huffCodes, e, Nat.sub_self, Nat.pow_zero, Nat.mul_one] at hx
          cases j with
          | zero =>
            simp only [List.getElem?_cons_zero, Option.some.injEq] at hx
            rw [Nat.add_zero, g2 k (by omega), if_pos rfl, ← hx]
          | succ j =>
            rw [List.getElem?_cons_succ] at hx
            rw [show k + (j + 1) = k + 1 + j by omega]
            exact g3 j x hx
      · obtain ⟨a', g1, g2, g3⟩ := ih (n :: l) k (code * 2) (si + 1) a
          (List.pairwise_cons.2 ⟨fun x hx => by
            rcases List.mem_cons.1 hx with hx | hx
            · omega
            · have := (List.pairwise_cons.1 hp'.2).1 x hx; omega, hp'.2⟩) (by omega) h16 (by simp only [List.length_cons]; omega)
          (by simpa using hat) (by simpa using h0) (by simp only [List.length_cons]; omega)
        refine ⟨a', ?_, g2, fun j x hx => ?_⟩
        · rw [codes, if_neg (by omega), if_neg (by omega), if_neg (by omega)]
          simpa using g1
        · apply g3 j x
          rw [← hx, huffCodes, huffCodes]
          rw [show code * 2 * 2 ^ (n - (si + 1)) = code * 2 ^ (n - si) by
            rw [Nat.mul_assoc, ← Nat.pow_succ']; congr 2; omega]

/-- The code number `k`. -/
def codeAt (c : Nat → Nat) (k : Nat) : Nat := ((huffCodes 0 0 (huffSizes c 16)).getD k (0, 0)).2

/-- What the tables must be. -/
structure TabOk (t : Tab) (c vals : Nat → Nat) (n : Nat) : Prop where
  num : t.nvals = n
  val : ∀ k, k < n → t.huffval k = vals k
  none : ∀ i, 1 ≤ i → i ≤ 16 → c (i - 1) = 0 → t.maxcode i = -1
  some : ∀ i, 1 ≤ i → i ≤ 16 → c (i - 1) ≠ 0 → t.valptr i = (huffSizes c (i - 1)).length ∧
    t.mincode i = codeAt c (huffSizes c (i - 1)).length ∧ t.maxcode i = codeAt c ((huffSizes c (i - 1)).length + c (i - 1) - 1)

theorem lengths_eq {c vals bits : Nat → Nat} {huffcode : Nat → Int} {n m : Nat} (hb : ∀ k, 1 ≤ k → k ≤ 16 → bits k = c (k - 1))
    (hn : n = (huffSizes c 16).length) (hc : ∀ k, k < n → huffcode k = codeAt c k) :
    ∃ v, forN (fun i => lengthStep bits huffcode n (i + 1)) 16 (⟨fun _ => 0, fun _ => 0, fun _ => 0, vals, m⟩, 0) = some v ∧ TabOk v.1 c vals m := by
  have key := forN_inv (σ := Tab × Nat) (f := fun i => lengthStep bits huffcode n (i + 1))
    (P := fun q v => v.2 = (huffSizes c q).length ∧ v.1.nvals = m ∧ v.1.huffval = vals ∧
      (∀ i, 1 ≤ i → i ≤ q → c (i - 1) = 0 → v.1.maxcode i = -1) ∧
      (∀ i, 1 ≤ i → i ≤ q → c (i - 1) ≠ 0 → v.1.valptr i = (huffSizes c (i - 1)).length ∧
        v.1.mincode i = codeAt c (huffSizes c (i - 1)).length ∧ v.1.maxcode i = codeAt c ((huffSizes c (i - 1)).length + c (i - 1) - 1))) 16 (by
      intro q v hq hv
      obtain ⟨t, j⟩ := v
      obtain ⟨h1, h2, h3, h4, h5⟩ := hv
      dsimp only at h1 h2 h3 h4 h5
      have hbi := hb (q + 1) (by omega) (by omega)
      rw [Nat.add_sub_cancel] at hbi
      have hl := huffSizes_len_mono c (q + 1) 16 (by omega)
      rw [huffSizes_succ, List.length_append, List.length_replicate] at hl
      by_cases hz : c q = 0
      · refine ⟨_, by unfold lengthStep; dsimp only; rw [hbi, if_neg (by simp [hz])], ?_, h2, h3, ?_, ?_⟩
        · show j = _; rw [huffSizes_succ, hz, h1]; simp
        · intro i i1 i2 i3
          dsimp only
          by_cases e : i = q + 1
          · rw [if_pos e]
          · rw [if_neg e]; exact h4 i i1 (by omega) i3
        · intro i i1 i2 i3
          dsimp only
          have e : i ≠ q + 1 := by intro e; subst e; rw [Nat.add_sub_cancel] at i3; exact i3 hz
          rw [if_neg e]
          exact h5 i i1 (by omega) i3
      · have hlt : j + c q - 1 < n := by omega
        refine ⟨_, by unfold lengthStep; dsimp only; rw [hbi, if_pos hz, if_pos hlt], ?_, h2, h3, ?_, ?_⟩
        · show j + c q - 1 + 1 = _
          rw [huffSizes_succ, List.length_append, List.length_replicate]; omega
        · intro i i1 i2 i3
          dsimp only
          have e : i ≠ q + 1 := by intro e; subst e; rw [Nat.add_sub_cancel] at i3; exact hz i3
          rw [if_neg e]
          exact h4 i i1 (by omega) i3
        · intro i i1 i2 i3
          dsimp only
          by_cases e : i = q + 1
          · subst e
            rw [if_pos rfl, if_pos rfl, if_pos rfl, Nat.add_sub_cancel, ← h1]
            exact ⟨rfl, hc _ (by omega), hc _ hlt⟩
          · rw [if_neg e, if_neg e, if_neg e]
            exact h5 i i1 (by omega) i3)
    (⟨fun _ => 0, fun _ => 0, fun _ => 0, vals, m⟩, 0) ⟨by simp [huffSizes], rfl, rfl, fun i h1 h2 => by omega, fun i h1 h2 => by omega⟩
  obtain ⟨v, g1, g2, g3, g4, g5, g6⟩ := key
  exact ⟨v, g1, ⟨g3, fun k _ => by rw [g4], g5, g6⟩⟩

/-- `parseHuff` makes the right tables, whatever the number `m` of values. -/
theorem parseHuff_any {s : Ljp} {c : Nat → Nat} {n m : Nat} (hlen : (huffSizes c 16).length = n) (hn1 : 1 ≤ n)
    (hbeh : beh (put s.data (s.ix + 2) 0) s.ix = 19 + m) (hend : s.ix + (19 + m) < s.datalen)
    (hb : ∀ k, 1 ≤ k → k ≤ 16 → put s.data (s.ix + 2) 0 (s.ix + 2 + k) = c (k - 1)) :
    ∃ t, parseHuff s = some ({ s with data := put s.data (s.ix + 2) 0, ix := s.ix + (19 + m) }, t) ∧
      TabOk t c (fun k => put s.data (s.ix + 2) 0 (s.ix + 19 + k)) m := by
  generalize hd : put s.data (s.ix + 2) 0 = d at *
  obtain ⟨⟨hs, q⟩, a1, a2, a3⟩ := sizes_eq (c := c) (bits := fun k => d (s.ix + 2 + k)) hb
  dsimp only at a2 a3
  rw [hlen] at a1
  have hl1 : huffSizes c 16 ≠ [] := by intro h; rw [h] at hlen; simp at hlen; omega
  obtain ⟨x, l, hxl⟩ : ∃ x l, huffSizes c 16 = x :: l := by
    cases h : huffSizes c 16 with
    | nil => exact (hl1 h).elim
    | cons x l => exact ⟨x, l, rfl⟩
  have hx := huffSizes_le c 16 x (by rw [hxl]; exact List.mem_cons_self ..)
  have h00 : hs 0 = x := by rw [a3 0 (by simp), hxl]; simp
  obtain ⟨hc, b1, _, b3⟩ := codes_eq (huffsize := hs) (needed := n + 1) (n + 1 + 20) (huffSizes c 16) 0 0 x (fun _ => 0)
    (List.pairwise_cons.2 ⟨fun y hy => by
      have := huffSizes_mono c 16
      rw [hxl] at this hy
      rcases List.mem_cons.1 hy with h | h
      · omega
      · exact (List.pairwise_cons.1 this).1 y h, huffSizes_mono c 16⟩) hx.1 (fun y hy => (huffSizes_le c 16 y hy).2) (by omega)
    (fun j hj => by rw [Nat.zero_add, a3 j (by simp; omega), getD_append_lt hj])
    (by rw [Nat.zero_add, a3 _ (by simp)]; simp [List.getD_eq_getElem?_getD]) (by omega)
  rw [Nat.zero_add, hlen] at b1
  have hcodes : huffCodes 0 x (huffSizes c 16) = huffCodes 0 0 (huffSizes c 16) := by rw [hxl, huffCodes, huffCodes]; simp
  have hcode : ∀ k, k < n → hc k = codeAt c k := by
    intro k hk
    have hk' : k < (huffCodes 0 0 (huffSizes c 16)).length := by rw [huffCodes_length]; omega
    have := b3 k _ (by rw [hcodes]; exact List.getElem?_eq_getElem hk')
    rw [Nat.zero_add] at this
    rw [this]
    unfold codeAt
    rw [List.getD_eq_getElem?_getD, List.getElem?_eq_getElem hk']
    rfl
  obtain ⟨⟨t, j⟩, c1, c2⟩ := lengths_eq (c := c) (vals := fun k => if k < m then d (s.ix + 19 + k) else 0) (bits := fun k => d (s.ix + 2 + k))
    (huffcode := hc) (n := n) (m := m) hb hlen.symm hcode
  refine ⟨t, ?_, ⟨c2.num, fun k hk => by rw [c2.val k hk, if_pos hk], c2.none, c2.some⟩⟩
  unfold parseHuff
  dsimp only
  have hsn := sizesNeeded_eq (c := c) (bits := fun k => d (s.ix + 2 + k)) hb
  rw [hlen] at hsn
  rw [hd, hbeh, if_neg (by omega), if_neg (by omega), hsn, Option.bind_some, a1, Option.bind_some]
  dsimp only
  have b1' : codes hs (n + 1) (n + 1 + 20) 0 0 x (fun _ => 0) = some (hc, n) := b1
  rw [h00, b1', Option.bind_some, Nat.add_sub_cancel_left]
  dsimp only
  simp only [c1, Option.map_some]

/-- `parseHuff` makes the right tables. -/
theorem parseHuff_ok {s : Ljp} {c : Nat → Nat} {n : Nat} (hlen : (huffSizes c 16).length = n) (hn1 : 1 ≤ n)
    (hbeh : beh (put s.data (s.ix + 2) 0) s.ix = 19 + n) (hend : s.ix + (19 + n) < s.datalen)
    (hb : ∀ k, 1 ≤ k → k ≤ 16 → put s.data (s.ix + 2) 0 (s.ix + 2 + k) = c (k - 1)) :
    ∃ t, parseHuff s = some ({ s with data := put s.data (s.ix + 2) 0, ix := s.ix + (19 + n) }, t) ∧
      TabOk t c (fun k => put s.data (s.ix + 2) 0 (s.ix + 19 + k)) n := parseHuff_any hlen hn1 hbeh hend hb

/-- A table without codes: the loop that makes the codes leaves the array of the lengths. -/
theorem parseHuff_empty {s : Ljp} {c : Nat → Nat} (hlen : (huffSizes c 16).length = 0)
    (hb : ∀ k, 1 ≤ k → k ≤ 16 → put s.data (s.ix + 2) 0 (s.ix + 2 + k) = c (k - 1)) : parseHuff s = none := by
  obtain ⟨⟨hs, q⟩, a1, a2, a3⟩ := sizes_eq (c := c) (bits := fun k => put s.data (s.ix + 2) 0 (s.ix + 2 + k)) hb
  have hsn := sizesNeeded_eq (c := c) (bits := fun k => put s.data (s.ix + 2) 0 (s.ix + 2 + k)) hb
  dsimp only at a2 a3
  have h0 : hs 0 = 0 := by
    have e : huffSizes c 16 = [] := List.eq_nil_of_length_eq_zero hlen
    rw [a3 0 (by simp), e]; rfl
  unfold parseHuff
  dsimp only
  split
  · rfl
  split
  · rfl
  rw [hsn, Option.bind_some, a1, Option.bind_some]
  dsimp only
  rw [hlen, h0]
  have hc : codes hs (0 + 1) (0 + 1 + 20) 0 0 0 (fun _ => 0) = none := by
    rw [codes, if_neg (by omega), if_pos h0, codes, if_pos (by omega)]
  rw [hc]; rfl

end Model.Lj92.Slow
