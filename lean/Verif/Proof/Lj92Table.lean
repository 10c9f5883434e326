/- Helper lemmas about the model of the lj92 encoder: the code table. -/
import Verif.Proof.Lj92Adjust
import Verif.Proof.Lj92Open

set_option autoImplicit false

namespace Model.Lj92.Enc
open Spec Model.Lj92

/-! ### The code loop -/

/-- Invariant of the code loop: `k` codes have been written and counted, one more if `rv` is not zero. -/
structure GenInv (c : Nat → Nat) (m : Nat) (g : Gen) : Prop where
  b1 : 1 ≤ g.bitsused
  bm : g.bitsused ≤ m + 1
  fin : g.bitsused = m + 1 → g.vl = 0 ∧ g.rv = 0
  vl : g.bitsused ≤ m → g.vl ≤ c (g.bitsused - 1)
  rv : g.rv ≠ 0 → g.bitsused ≤ m ∧ g.rv = 2 ^ (m - g.bitsused) ∧ g.vl < c (g.bitsused - 1)
  codes : g.codes = (huffCodes 0 0 (huffSizes c 16)).take ((huffSizes c (g.bitsused - 1)).length + g.vl + if g.rv = 0 then 0 else 1)
  pos : g.i = start m (huffSizes c 16) ((huffSizes c (g.bitsused - 1)).length + g.vl + if g.rv = 0 then 0 else 1)

theorem gen_step {c : Nat → Nat} {m : Nat} (hm : m ≤ 16) {bits : Nat → Int} (hb : ∀ k, 1 ≤ k → k ≤ 16 → bits k = c (k - 1))
    (hcode : ∀ k, k < (huffSizes c 16).length → ∃ e, (huffCodes 0 0 (huffSizes c 16))[k]? = some e ∧ (huffSizes c 16)[k]? = some e.1 ∧
      e.2 * 2 ^ (m - e.1) = start m (huffSizes c 16) k)
    {g g' : Gen} (h : GenInv c m g) (hs : genStep bits m g = some g') :
    GenInv c m g' ∧ (m + 2 - g'.bitsused) + 2 * ((huffSizes c 16).length - ((huffSizes c (g'.bitsused - 1)).length + g'.vl)) + (if g'.rv = 0 then 1 else 0) <
      (m + 2 - g.bitsused) + 2 * ((huffSizes c 16).length - ((huffSizes c (g.bitsused - 1)).length + g.vl)) + (if g.rv = 0 then 1 else 0) := by
  obtain ⟨i, rv, vl, bu, codes⟩ := g
  obtain ⟨b1, bm, fin, hvl, hrv, hc, hp⟩ := h
  dsimp only at b1 bm fin hvl hrv hc hp ⊢
  unfold genStep at hs
  dsimp only at hs
  by_cases h1 : i < 2 ^ m
  · rw [if_pos h1] at hs
    by_cases h2 : bu > m
    · rw [if_pos h2] at hs; simp at hs
    · rw [if_neg h2] at hs
      have hbu : bits bu = c (bu - 1) := hb bu b1 (by omega)
      have hle := hvl (by omega)
      have hlen1 : (huffSizes c bu).length = (huffSizes c (bu - 1)).length + c (bu - 1) := by
        have := huffSizes_succ c (bu - 1)
        rw [show bu - 1 + 1 = bu by omega] at this
        rw [this]; simp
      have hlen2 := huffSizes_len_mono c bu 16 (by omega)
      by_cases h3 : (vl : Int) ≥ bits bu
      · rw [if_pos h3] at hs
        injection hs with hs; subst hs
        have hv : vl = c (bu - 1) := by omega
        have hrv0 : rv = 0 := by
          apply Classical.byContradiction
          intro hne
          have := (hrv hne).2.2
          omega
        subst hrv0
        simp only [if_true, Nat.add_zero, Nat.add_sub_cancel] at hc hp ⊢
        rw [hv, ← hlen1] at hc hp
        refine ⟨⟨by dsimp only; omega, by dsimp only; omega, fun _ => ⟨rfl, rfl⟩, fun _ => by dsimp only; omega, fun hne => absurd rfl hne, ?_, ?_⟩, ?_⟩
        · dsimp only; simpa using hc
        · dsimp only; simpa using hp
        · omega
      · rw [if_neg h3] at hs
        have hvlt : vl < c (bu - 1) := by omega
        by_cases h4 : rv = 2 ^ (m - bu)
        · rw [if_pos h4] at hs
          injection hs with hs; subst hs
          have hne : rv ≠ 0 := by rw [h4]; exact Nat.ne_of_gt (Nat.two_pow_pos _)
          rw [if_neg hne] at hc hp ⊢
          refine ⟨⟨b1, bm, fun e => by dsimp only at e; omega, fun _ => by dsimp only; omega, fun hne => absurd rfl hne, ?_, ?_⟩, ?_⟩
          · dsimp only; rw [if_pos rfl]; simpa [Nat.add_assoc] using hc
          · dsimp only; rw [if_pos rfl]; simpa [Nat.add_assoc] using hp
          · dsimp only; rw [if_pos rfl]; omega
        · rw [if_neg h4] at hs
          injection hs with hs; subst hs
          have hrv0 : rv = 0 := by
            apply Classical.byContradiction
            intro hne
            exact h4 (hrv hne).2.1
          subst hrv0
          have hne : 2 ^ (m - bu) ≠ 0 := Nat.ne_of_gt (Nat.two_pow_pos _)
          rw [if_pos rfl, Nat.add_zero] at hc hp
          have hsz := huffSizes_getD c 16 (bu - 1) vl (by omega) hvlt
          rw [show bu - 1 + 1 = bu by omega] at hsz
          dsimp only
          generalize hKe : (huffSizes c (bu - 1)).length + vl = K at hc hp hsz ⊢
          have hK : K < (huffSizes c 16).length := (List.getElem?_eq_some_iff.1 hsz).1
          obtain ⟨e, e1, e2, e3⟩ := hcode K hK
          rw [hsz] at e2
          injection e2 with e2
          have hi : i / 2 ^ (m - bu) = e.2 := by
            rw [hp, ← e3, ← e2, Nat.mul_div_cancel _ (Nat.two_pow_pos _)]
          refine ⟨⟨b1, bm, fun e => by dsimp only at e; omega, fun _ => by dsimp only; omega, fun _ => ⟨by dsimp only; omega, rfl, hvlt⟩, ?_, ?_⟩, ?_⟩
          · dsimp only
            rw [hKe, if_neg hne, hi, hc, List.take_add_one, e1]
            simp only [Option.toList_some]
            congr 2
            rw [e2]
          · dsimp only
            rw [hKe, if_neg hne, start_succ hsz, hp]
          · rw [if_neg hne, if_pos rfl]; omega
  · rw [if_neg h1] at hs; simp at hs

theorem maxLen_spec (bits : Nat → Int) : ∀ n, maxLen bits n ≤ n ∧ (∀ k, maxLen bits n < k → k ≤ n → bits k = 0)
  | 0 => ⟨Nat.le_refl _, fun k h1 h2 => by simp [maxLen] at h1; omega⟩
  | n + 1 => by
    unfold maxLen
    split
    · exact ⟨Nat.le_refl _, fun k h1 h2 => by omega⟩
    · rename_i h
      obtain ⟨h1, h2⟩ := maxLen_spec bits n
      refine ⟨by omega, fun k h3 h4 => ?_⟩
      by_cases e : k = n + 1
      · subst e; simpa using h
      · exact h2 k h3 (by omega)

/-- The code loop writes the canonical codes. -/
theorem gen_done {c : Nat → Nat} {bits : Nat → Int} (hb : ∀ k, 1 ≤ k → k ≤ 16 → bits k = c (k - 1))
    (hN : (huffSizes c 16).length < 200) (hN1 : 0 < (huffSizes c 16).length)
    (hfit : ∀ e ∈ huffCodes 0 0 (huffSizes c 16), e.2 + 1 < 2 ^ e.1) :
    ∃ g, whileN (genStep bits (maxLen bits 16)) (2 ^ 18) ⟨0, 0, 0, 1, []⟩ = some g ∧ g.codes = huffCodes 0 0 (huffSizes c 16) := by
  obtain ⟨hm, hz⟩ := maxLen_spec bits 16
  generalize maxLen bits 16 = m at *
  have hle : ∀ x ∈ huffSizes c 16, x ≤ m := by
    intro x hx
    simp only [huffSizes, List.mem_flatMap, List.mem_range, List.mem_replicate] at hx
    obtain ⟨i, a1, a2, rfl⟩ := hx
    apply Nat.le_of_not_lt
    intro hlt
    have := hz (i + 1) (by omega) (by omega)
    rw [hb _ (by omega) (by omega), Nat.add_sub_cancel] at this
    omega
  have hpw : (0 :: huffSizes c 16).Pairwise (· ≤ ·) := by
    rw [List.pairwise_cons]; exact ⟨fun a _ => Nat.zero_le a, huffSizes_mono c 16⟩
  have hcode : ∀ k, k < (huffSizes c 16).length → ∃ e, (huffCodes 0 0 (huffSizes c 16))[k]? = some e ∧ (huffSizes c 16)[k]? = some e.1 ∧
      e.2 * 2 ^ (m - e.1) = start m (huffSizes c 16) k := by
    intro k hk
    obtain ⟨e, a1, a2, a3⟩ := huffCodes_start m (huffSizes c 16) 0 0 k hpw hle hk (Nat.zero_le _)
    exact ⟨e, a1, a2, by rw [a3]; simp⟩
  have hlt : ∀ k, start m (huffSizes c 16) k < 2 ^ m := by
    have hlast : start m (huffSizes c 16) (huffSizes c 16).length < 2 ^ m := by
      obtain ⟨k, hk⟩ : ∃ k, (huffSizes c 16).length = k + 1 := ⟨(huffSizes c 16).length - 1, by omega⟩
      obtain ⟨e, a1, a2, a3⟩ := hcode k (by omega)
      rw [hk, start_succ a2, ← a3]
      have h1 := hfit e (List.mem_of_getElem? a1)
      have h2 := hle _ (List.mem_of_getElem? a2)
      have h3 : (e.2 + 1) * 2 ^ (m - e.1) < 2 ^ e.1 * 2 ^ (m - e.1) := Nat.mul_lt_mul_of_pos_right h1 (Nat.two_pow_pos _)
      rw [← Nat.pow_add, show e.1 + (m - e.1) = m by omega, Nat.add_mul, Nat.one_mul] at h3
      exact h3
    intro k
    rcases Nat.le_total k (huffSizes c 16).length with h | h
    · exact Nat.lt_of_le_of_lt (start_mono m _ h) hlast
    · have : start m (huffSizes c 16) k = start m (huffSizes c 16) (huffSizes c 16).length := by
        unfold start; rw [List.take_of_length_le h, List.take_length]
      rw [this]; exact hlast
  have h0 : GenInv c m ⟨0, 0, 0, 1, []⟩ :=
    ⟨by simp, by simp, fun _ => ⟨rfl, rfl⟩, fun _ => Nat.zero_le _, fun h => absurd rfl h, by simp [huffSizes], by simp [huffSizes, start]⟩
  obtain ⟨g, g1, g2, g3⟩ := whileN_inv (I := GenInv c m)
    (fun g => (m + 2 - g.bitsused) + 2 * ((huffSizes c 16).length - ((huffSizes c (g.bitsused - 1)).length + g.vl)) + (if g.rv = 0 then 1 else 0))
    (fun s s' hs he => gen_step hm hb hcode hs he) (2 ^ 18) _ h0 (by dsimp only; rw [if_pos rfl]; omega)
  refine ⟨g, g1, ?_⟩
  unfold genStep at g3
  rw [if_pos (by rw [g2.pos]; exact hlt _)] at g3
  have hbu : g.bitsused = m + 1 := by
    have := g2.bm
    by_cases h : g.bitsused > m
    · omega
    · rw [if_neg h] at g3
      split at g3
      · simp at g3
      · split at g3 <;> simp at g3
  obtain ⟨v0, r0⟩ := g2.fin hbu
  rw [g2.codes, hbu, v0, r0, if_pos rfl, Nat.add_sub_cancel]
  have hfull : ∀ n, m ≤ n → n ≤ 16 → (huffSizes c n).length = (huffSizes c m).length := by
    intro n
    induction n with
    | zero => intro a _; have : m = 0 := by omega
              subst this; rfl
    | succ n ih =>
      intro a b
      by_cases e : m = n + 1
      · subst e; rfl
      · rw [huffSizes_succ, List.length_append, ih (by omega) (by omega)]
        have := hz (n + 1) (by omega) b
        rw [hb _ (by omega) b, Nat.add_sub_cancel] at this
        rw [show c n = 0 by omega]; rfl
  rw [← hfull 16 hm (Nat.le_refl _), ← huffCodes_length (huffSizes c 16) 0 0]
  simp only [Nat.add_zero, List.take_length]

/-! ### The classes by length -/

theorem sortVals_eq (cs : Nat → Nat) : sortVals cs = (List.range 32).flatMap fun i => (List.range 17).filter fun j => cs j = i + 1 := by
  have inner : ∀ (i : Nat) (m l : List Nat), m.foldl (fun l j => if cs j = i + 1 then l ++ [j] else l) l = l ++ m.filter fun j => cs j = i + 1 := by
    intro i m
    induction m with
    | nil => intro l; simp
    | cons x m ih =>
      intro l
      rw [List.foldl_cons, ih]
      by_cases h : cs x = i + 1
      · rw [if_pos h, List.filter_cons_of_pos (by simpa using h)]; simp
      · rw [if_neg h, List.filter_cons_of_neg (by simpa using h)]
  have outer : ∀ (m l : List Nat), m.foldl (fun l i => (List.range 17).foldl (fun l j => if cs j = i + 1 then l ++ [j] else l) l) l =
      l ++ m.flatMap fun i => (List.range 17).filter fun j => cs j = i + 1 := by
    intro m
    induction m with
    | nil => intro l; simp
    | cons x m ih =>
      intro l
      rw [List.foldl_cons, ih, inner, List.flatMap_cons, List.append_assoc]
  unfold sortVals
  rw [outer, List.nil_append]

theorem sortVals_perm (cs : Nat → Nat) (hcs : ∀ i, cs i < 18) : (sortVals cs).Perm ((List.range 17).filter fun j => cs j ≠ 0) := by
  have hnd : (sortVals cs).Nodup := by
    rw [sortVals_eq, List.nodup_iff_pairwise_ne, List.pairwise_flatMap]
    refine ⟨fun i _ => List.nodup_range.filter _, ?_⟩
    apply List.Pairwise.imp _ (List.pairwise_lt_range (n := 32))
    intro a b hab x hx y hy hxy
    subst hxy
    simp only [List.mem_filter, decide_eq_true_eq] at hx hy
    omega
  rw [List.perm_ext_iff_of_nodup hnd (List.nodup_range.filter _)]
  intro x
  rw [sortVals_eq]
  simp only [List.mem_flatMap, List.mem_filter, List.mem_range, decide_eq_true_eq, ne_eq]
  constructor
  · rintro ⟨i, _, h1, h2⟩; exact ⟨h1, by omega⟩
  · rintro ⟨h1, h2⟩
    have := hcs x
    exact ⟨cs x - 1, by omega, h1, by omega⟩

/-! ### Positions of the classes -/

theorem symbols_spec {vals : List Nat} {codes : List (Nat × Nat)} (hnd : vals.Nodup) (hlen : vals.length = codes.length) (h18 : codes.length ≤ 18)
    (hpos : ∀ e ∈ codes, 0 < e.1) {k t : Nat} (hk : vals[k]? = some t) : symbols vals codes t = k := by
  have hkl := (List.getElem?_eq_some_iff.1 hk).1
  have key : ∀ n, k < n → (List.range n).foldl (fun sym i => if (codes.getD i (0, 0)).1 > 0 then put sym (vals.getD i 0) i else sym) (fun _ => 0) t = k := by
    intro n
    induction n with
    | zero => intro h; omega
    | succ n ih =>
      intro hn
      rw [List.range_succ, List.foldl_append]
      simp only [List.foldl_cons, List.foldl_nil]
      generalize (List.range n).foldl (fun sym i => if (codes.getD i (0, 0)).1 > 0 then put sym (vals.getD i 0) i else sym) (fun _ => 0) = sym at *
      by_cases hnl : n < codes.length
      · have hgt : (codes.getD n (0, 0)).1 > 0 := by
          rw [List.getD_eq_getElem?_getD, List.getElem?_eq_getElem hnl]
          exact hpos _ (List.getElem_mem hnl)
        rw [if_pos hgt]
        unfold put
        by_cases e : k = n
        · subst e
          rw [if_pos]
          rw [List.getD_eq_getElem?_getD, hk]; rfl
        · rw [if_neg]
          · exact ih (by omega)
          · intro et
            rw [List.getD_eq_getElem?_getD, List.getElem?_eq_getElem (by omega), Option.getD_some] at et
            have h1 : vals[k] = t := (List.getElem?_eq_some_iff.1 hk).2
            exact e ((List.getElem_inj hnd).1 (h1.trans et))
      · rw [if_neg]
        · exact ih (by omega)
        · rw [List.getD_eq_getElem?_getD, List.getElem?_eq_none (by omega)]
          simp
  exact key 18 (by omega)

end Model.Lj92.Enc
