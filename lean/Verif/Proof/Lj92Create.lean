/- Helper lemmas about the model of the lj92 encoder: `createEncodeTable` makes a legal Huffman table. -/
import Verif.Proof.Lj92Table
import Verif.Proof.Lj92Body
import Verif.Proof.Lj92Merge

set_option autoImplicit false

namespace Model.Lj92.Enc
open Spec Model.Lj92

/-! ### Counts and lengths -/

/-- Twice the first index after the codes of up to `n` bits. -/
theorem start_isum {b : Nat → Int} {c : Nat → Nat} (h0 : b 0 = 0) (hc : ∀ k, k < 16 → (c k : Int) = b (k + 1)) : ∀ n, n ≤ 16 →
    2 * (start 16 (huffSizes c n) (huffSizes c n).length : Int) = isum (fun k => b k * gw k) (n + 1)
  | 0, _ => by simp [huffSizes, start, isum, h0]
  | n + 1, hn => by
    have ih := start_isum h0 hc n (by omega)
    rw [show isum (fun k => b k * gw k) (n + 1 + 1) = isum (fun k => b k * gw k) (n + 1) + b (n + 1) * gw (n + 1) from rfl, ← ih]
    have e : start 16 (huffSizes c (n + 1)) (huffSizes c (n + 1)).length =
        start 16 (huffSizes c n) (huffSizes c n).length + c n * 2 ^ (16 - (n + 1)) := by
      unfold start
      rw [List.take_length, List.take_length, huffSizes_succ]
      simp
    rw [e, ← hc n (by omega)]
    unfold gw
    rw [show 17 - (n + 1) = (16 - (n + 1)) + 1 by omega, Int.pow_succ]
    push_cast
    rw [Int.mul_add]
    congr 1
    rw [Int.mul_comm, Int.mul_assoc]

theorem length_isum {b : Nat → Int} {c : Nat → Nat} (h0 : b 0 = 0) (hc : ∀ k, k < 16 → (c k : Int) = b (k + 1)) : ∀ n, n ≤ 16 →
    ((huffSizes c n).length : Int) = isum (fun k => b k * 1) (n + 1)
  | 0, _ => by simp [huffSizes, isum, h0]
  | n + 1, hn => by
    have ih := length_isum h0 hc n (by omega)
    rw [show isum (fun k => b k * 1) (n + 1 + 1) = isum (fun k => b k * 1) (n + 1) + b (n + 1) * 1 from rfl, ← ih, huffSizes_succ, ← hc n (by omega)]
    simp

/-- If the codes leave space, none of them is all ones. -/
theorem fit_of_start {c : Nat → Nat} (h : start 16 (huffSizes c 16) (huffSizes c 16).length < 2 ^ 16) :
    ∀ e ∈ huffCodes 0 0 (huffSizes c 16), e.2 + 1 < 2 ^ e.1 := by
  intro e he
  obtain ⟨k, hk⟩ := List.getElem?_of_mem he
  have hkl := (List.getElem?_eq_some_iff.1 hk).1
  rw [huffCodes_length] at hkl
  have hpw : (0 :: huffSizes c 16).Pairwise (· ≤ ·) := by
    rw [List.pairwise_cons]; exact ⟨fun a _ => Nat.zero_le a, huffSizes_mono c 16⟩
  obtain ⟨e', a1, a2, a3⟩ := huffCodes_start 16 (huffSizes c 16) 0 0 k hpw (fun x hx => (huffSizes_le c 16 x hx).2) hkl (Nat.zero_le _)
  rw [hk] at a1
  injection a1 with a1
  subst a1
  have h16 := (huffSizes_le c 16 _ (List.mem_of_getElem? a2)).2
  have h1 := start_mono 16 (huffSizes c 16) (show k + 1 ≤ (huffSizes c 16).length by omega)
  rw [start_succ a2] at h1
  simp only [Nat.zero_mul, Nat.zero_add] at a3
  rw [← a3] at h1
  have h2 : (e.2 + 1) * 2 ^ (16 - e.1) < 2 ^ e.1 * 2 ^ (16 - e.1) := by
    rw [← Nat.pow_add, show e.1 + (16 - e.1) = 16 by omega, Nat.add_mul, Nat.one_mul]
    omega
  exact Nat.lt_of_mul_lt_mul_right h2

/-! ### From the tree to the counts -/

theorem isum_filter (cs : Nat → Nat) (g : Nat → Int) : ∀ n, isum (fun i => if cs i ≠ 0 then g (cs i) else 0) n =
    (((List.range n).filter fun i => cs i ≠ 0).map fun i => g (cs i)).sum
  | 0 => rfl
  | n + 1 => by
    rw [show isum (fun i => if cs i ≠ 0 then g (cs i) else 0) (n + 1) = isum (fun i => if cs i ≠ 0 then g (cs i) else 0) n + (if cs n ≠ 0 then g (cs n) else 0) from rfl,
      isum_filter cs g n, List.range_succ, List.filter_append, List.map_append, List.sum_append]
    by_cases h : cs n ≠ 0
    · rw [if_pos h, List.filter_cons_of_pos (by simpa using h)]; simp
    · rw [if_neg h, List.filter_cons_of_neg (by simpa using h)]; simp

theorem weight_pos (cs : Nat → Nat) {l : List Nat} {i : Nat} (h : i ∈ l) : 0 < weight cs l := by
  obtain ⟨s, t, rfl⟩ := List.append_of_mem h
  unfold weight
  simp only [List.map_append, List.map_cons, List.sum_append, List.sum_cons]
  have := Nat.two_pow_pos (17 - cs i)
  omega

theorem weight_perm (cs : Nat → Nat) {l m : List Nat} (h : l.Perm m) : weight cs l = weight cs m := by
  unfold weight
  exact (h.map _).sum_nat

theorem weight_cast (cs : Nat → Nat) : ∀ l : List Nat, ((l.map fun i => gw (cs i)).sum : Int) = weight cs l
  | [] => rfl
  | x :: l => by
    have := weight_cast cs l
    unfold weight at *
    simp only [List.map_cons, List.sum_cons]
    rw [this]
    unfold gw
    push_cast
    rfl

theorem sum_ones (l : List Nat) : (l.map fun _ => (1 : Int)).sum = l.length := by
  induction l with
  | nil => rfl
  | cons x l ih => rw [List.map_cons, List.sum_cons, ih, List.length_cons]; push_cast; omega

theorem used_split (hist : Nat → Nat) : used hist = ((List.range 17).filter fun i => 0 < hist i) ++ [17] := by
  unfold used
  rw [show (18 : Nat) = 17 + 1 from rfl, List.range_succ, List.filter_append]
  congr 1
  apply List.filter_congr
  intro x hx
  rw [List.mem_range] at hx
  simp only [decide_eq_decide]
  omega

theorem exists_pos {f : Nat → Nat} : ∀ {n : Nat}, 0 < sumTo f n → ∃ j, j < n ∧ 0 < f j
  | 0, h => by simp [sumTo] at h
  | n + 1, h => by
    by_cases e : f n = 0
    · obtain ⟨j, h1, h2⟩ := exists_pos (n := n) (f := f) (by have : sumTo f (n + 1) = sumTo f n + f n := rfl
                                                             omega)
      exact ⟨j, by omega, h2⟩
    · exact ⟨n, by omega, by omega⟩

theorem huffCodes_size_mem : ∀ {l : List Nat} {c s : Nat} {e : Nat × Nat}, e ∈ huffCodes c s l → e.1 ∈ l
  | [], _, _, _, h => by simp [huffCodes] at h
  | n :: l, c, s, e, h => by
    rw [huffCodes, List.mem_cons] at h
    rcases h with rfl | h
    · simp
    · exact List.mem_cons_of_mem _ (huffCodes_size_mem h)

/-- After the merge loop: the code sizes. -/
theorem sizes_spec {hist : Nat → Nat} {total : Nat} (hs : sumTo hist 17 = total) (h1 : 1 ≤ total) (ht : total < 2 ^ 31) :
    ∃ t, merge 19 (Tree.init hist total) = .ok t ∧ (∀ i, t.codesize i < 18) ∧ (∀ i, i < 17 → (t.codesize i ≠ 0 ↔ 0 < hist i)) ∧
      BitsOk (countBits t.codesize) (((List.range 17).filter fun i => 0 < hist i).length + 1) := by
  have hnd : (used hist).Nodup := List.nodup_range.filter _
  have h18 : ∀ i ∈ used hist, i < 18 := fun i hi => by
    rw [used, List.mem_filter, List.mem_range] at hi; exact hi.1
  have hlen : (used hist).length ≤ 18 := by
    have := List.length_filter_le (fun i => decide (i = 17 ∨ 0 < hist i)) (List.range 18)
    rw [List.length_range] at this
    exact this
  have h17 : 17 ∈ used hist := by rw [used_split]; simp
  obtain ⟨t, l, m1, m2⟩ := merge_spec hnd h18 hlen 19 _ _ (init_inv hs h1 ht)
    (by intro e; rw [List.map_eq_nil_iff] at e; rw [e] at h17; simp at h17) (by rw [List.length_map]; omega)
  have hperm : l.Perm (used hist) := by have := m2.perm; simpa using this
  have hk := m2.kraft l (by simp)
  have hmem : ∀ i, i ∈ l ↔ i ∈ used hist := fun i => hperm.mem_iff
  have hd := m2.depth l (by simp)
  have hlt : ∀ i, t.codesize i < 18 := by
    intro i
    by_cases h : i ∈ used hist
    · have := hd i ((hmem i).2 h)
      have := hperm.length_eq
      omega
    · rw [(m2.out i h).2]; omega
  obtain ⟨j, hj, hjp⟩ := exists_pos (n := 17) (f := hist) (by omega)
  have hju : j ∈ used hist := by rw [used_split]; simp [hj, hjp]
  have hne : ∀ i, i ∈ used hist → t.codesize i ≠ 0 := by
    intro i hi hz
    obtain ⟨i', hi', hii⟩ : ∃ i', i' ∈ l ∧ i' ≠ i := by
      by_cases e : i = 17
      · exact ⟨j, (hmem j).2 hju, by omega⟩
      · exact ⟨17, (hmem 17).2 h17, by omega⟩
    obtain ⟨s, r, rfl⟩ := List.append_of_mem ((hmem i).2 hi)
    rw [weight_append, show weight t.codesize (i :: r) = 2 ^ (17 - t.codesize i) + weight t.codesize r from rfl, hz] at hk
    rw [List.mem_append, List.mem_cons] at hi'
    rcases hi' with h | h | h
    · have := weight_pos t.codesize h; omega
    · exact hii h
    · have := weight_pos t.codesize h; omega
  have hiff : ∀ i, t.codesize i ≠ 0 ↔ i ∈ used hist := by
    intro i
    refine ⟨fun h => ?_, hne i⟩
    apply Classical.byContradiction
    intro hno
    exact h (m2.out i hno).2
  have hu : ((List.range 18).filter fun i => t.codesize i ≠ 0) = used hist := by
    unfold used
    apply List.filter_congr
    intro x hx
    have := hiff x
    rw [used, List.mem_filter] at this
    simp only [hx, true_and, decide_eq_true_eq] at this
    simp only [decide_eq_decide]
    exact this
  refine ⟨t, m1, hlt, ?_, ?_⟩
  · intro i hi
    rw [hiff, used_split]
    simp only [List.mem_append, List.mem_filter, List.mem_range, decide_eq_true_eq, List.mem_singleton]
    omega
  · obtain ⟨n1, n2⟩ := countBits_nn t.codesize
    refine ⟨n1, n2, ?_, ?_⟩
    · have := countBits_sum t.codesize gw hlt 18 (Nat.le_refl _)
      unfold countBits
      rw [this, isum_filter, hu, weight_cast, ← weight_perm t.codesize hperm, hk]
      rfl
    · have := countBits_sum t.codesize (fun _ => 1) hlt 18 (Nat.le_refl _)
      unfold countBits
      rw [this, isum_filter t.codesize (fun _ => 1), hu, used_split, List.map_append, List.sum_append, sum_ones]
      simp

/-! ### The table -/

/-- Number of codes of `k + 1` bits. -/
def countOf (t : Tab) (k : Nat) : Nat := (t.bits (k + 1)).toNat

/-- The sixteen counts. -/
def countsOf (t : Tab) : List Nat := (List.range 16).map (countOf t)

theorem countsOf_getD (t : Tab) (k : Nat) (hk : k < 16) : (countsOf t).getD k 0 = countOf t k := by
  simp [countsOf, List.getD_eq_getElem?_getD, hk]

theorem huffSizes_congr {c d : Nat → Nat} : ∀ n, (∀ k, k < n → c k = d k) → huffSizes c n = huffSizes d n
  | 0, _ => rfl
  | n + 1, h => by
    rw [huffSizes_succ, huffSizes_succ, huffSizes_congr n (fun k hk => h k (by omega)), h n (by omega)]

theorem create_spec {hist : Nat → Nat} {total : Nat} (hs : sumTo hist 17 = total) (h1 : 1 ≤ total) (ht : total < 2 ^ 31)
    (hz : ∀ i, 17 ≤ i → hist i = 0) :
    ∃ t T, createEncodeTable hist total = .ok t ∧ (∀ k, 0 ≤ t.bits k) ∧ t.bits 0 = 0 ∧ (∀ k, k < 18 → t.bits k ≤ 17) ∧
      DescribesFor (countsOf t) t.huffval T (fun i => 0 < hist i) ∧ TabFor t T (fun i => 0 < hist i) := by
  obtain ⟨tr, m1, m2, m3, m4⟩ := sizes_spec hs h1 ht
  have hN : ((List.range 17).filter fun i => 0 < hist i).length ≤ 17 := by
    have := List.length_filter_le (fun i => decide (0 < hist i)) (List.range 17)
    rw [List.length_range] at this
    exact this
  have hb17 : countBits tr.codesize 17 < (19 : Nat) := by
    have h := m4.num
    have nn := m4.nn
    rw [num_expand] at h
    have y1 := nn 1; have y2 := nn 2; have y3 := nn 3; have y4 := nn 4; have y5 := nn 5; have y6 := nn 6; have y7 := nn 7
    have y8 := nn 8; have y9 := nn 9; have y10 := nn 10; have y11 := nn 11; have y12 := nn 12; have y13 := nn 13
    have y14 := nn 14; have y15 := nn 15; have y16 := nn 16; have y0 := nn 0
    omega
  obtain ⟨b, a1, a2, a3, a4, a5, a6⟩ := adjust_spec (by omega) 19 (countBits tr.codesize) m4 hb17
  have hle : ∀ k, k < 18 → b k ≤ 17 := by
    intro k hk
    rw [num_expand] at a6
    have y0 := a2 0; have y1 := a2 1; have y2 := a2 2; have y3 := a2 3; have y4 := a2 4; have y5 := a2 5; have y6 := a2 6; have y7 := a2 7
    have y8 := a2 8; have y9 := a2 9; have y10 := a2 10; have y11 := a2 11; have y12 := a2 12; have y13 := a2 13
    have y14 := a2 14; have y15 := a2 15; have y16 := a2 16
    have : k = 0 ∨ k = 1 ∨ k = 2 ∨ k = 3 ∨ k = 4 ∨ k = 5 ∨ k = 6 ∨ k = 7 ∨ k = 8 ∨ k = 9 ∨ k = 10 ∨ k = 11 ∨ k = 12 ∨ k = 13 ∨ k = 14 ∨
        k = 15 ∨ k = 16 ∨ k = 17 := by omega
    rcases this with rfl | rfl | rfl | rfl | rfl | rfl | rfl | rfl | rfl | rfl | rfl | rfl | rfl | rfl | rfl | rfl | rfl | rfl <;> omega
  let c : Nat → Nat := fun k => (b (k + 1)).toNat
  have hc : ∀ k, k < 16 → (c k : Int) = b (k + 1) := fun k _ => Int.toNat_of_nonneg (a2 _)
  have hb : ∀ k, 1 ≤ k → k ≤ 16 → b k = c (k - 1) := by
    intro k h1 h2
    rw [hc _ (by omega), Nat.sub_add_cancel h1]
  have hst := start_isum a3 hc 16 (Nat.le_refl _)
  have hln := length_isum a3 hc 16 (Nat.le_refl _)
  rw [show (16 : Nat) + 1 = 17 from rfl] at hst hln
  have e1 : isum (fun k => b k * gw k) 18 = isum (fun k => b k * gw k) 17 := by
    show isum (fun k => b k * gw k) 17 + b 17 * gw 17 = _
    rw [a4]; simp
  have e2 : isum (fun k => b k * 1) 18 = isum (fun k => b k * 1) 17 := by
    show isum (fun k => b k * 1) 17 + b 17 * 1 = _
    rw [a4]; simp
  rw [e1] at a5
  rw [e2] at a6
  have hfit := fit_of_start (c := c) (by omega)
  have hnum : (huffSizes c 16).length = ((List.range 17).filter fun i => 0 < hist i).length := by
    rw [a6] at hln
    omega
  have hpos : 0 < ((List.range 17).filter fun i => 0 < hist i).length := by
    obtain ⟨j, hj, hjp⟩ := exists_pos (n := 17) (f := hist) (by omega)
    have : j ∈ (List.range 17).filter fun i => 0 < hist i := by simp [hj, hjp]
    exact List.length_pos_of_mem this
  obtain ⟨g, g1, g2⟩ := gen_done hb (by omega) (by omega) hfit
  have hvp := sortVals_perm tr.codesize m2
  have hfe : ((List.range 17).filter fun j => tr.codesize j ≠ 0) = (List.range 17).filter fun i => 0 < hist i := by
    apply List.filter_congr
    intro x hx
    rw [List.mem_range] at hx
    simp only [decide_eq_decide]
    exact m3 x hx
  rw [hfe] at hvp
  have hvl := hvp.length_eq
  have hvn : (sortVals tr.codesize).Nodup := hvp.nodup_iff.2 (List.nodup_range.filter _)
  have hgl : g.codes.length = (sortVals tr.codesize).length := by rw [g2, huffCodes_length, hnum, hvl]
  have hcr : createEncodeTable hist total = .ok ⟨b, sortVals tr.codesize, g.codes, symbols (sortVals tr.codesize) g.codes⟩ := by
    unfold createEncodeTable
    rw [m1]
    dsimp only
    rw [a1]
    dsimp only
    rw [g1]
    dsimp only
    rw [if_pos ⟨by omega, by omega⟩]
  have hcg : huffSizes ((countsOf ⟨b, sortVals tr.codesize, g.codes, symbols (sortVals tr.codesize) g.codes⟩).getD · 0) 16 = huffSizes c 16 :=
    huffSizes_congr 16 fun k hk => countsOf_getD _ k hk
  have hsz : ∀ e ∈ g.codes, 0 < e.1 ∧ e.1 ≤ 16 ∧ e.2 + 1 < 2 ^ e.1 := by
    intro e he
    rw [g2] at he
    have h1 := huffCodes_size_mem he
    have h2 := huffSizes_le c 16 _ h1
    exact ⟨by omega, by omega, hfit e he⟩
  have hsym : ∀ k i, (sortVals tr.codesize)[k]? = some i → symbols (sortVals tr.codesize) g.codes i = k ∧
      ∃ e, g.codes[k]? = some e ∧ g.codes.getD (symbols (sortVals tr.codesize) g.codes i) (0, 0) = e := by
    intro k i hk
    have h1 := symbols_spec hvn hgl.symm (by omega) (fun e he => (hsz e he).1) hk
    have h2 := (List.getElem?_eq_some_iff.1 hk).1
    refine ⟨h1, g.codes[k], List.getElem?_eq_getElem (by omega), ?_⟩
    rw [h1, List.getD_eq_getElem?_getD, List.getElem?_eq_getElem (by omega)]
    rfl
  have hmem : ∀ i, i ∈ sortVals tr.codesize ↔ 0 < hist i := by
    intro i
    rw [hvp.mem_iff]
    simp only [List.mem_filter, List.mem_range, decide_eq_true_eq]
    refine ⟨fun h => h.2, fun h => ⟨?_, h⟩⟩
    apply Classical.byContradiction
    intro hge
    rw [hz i (by omega)] at h
    omega
  refine ⟨_, fun i => toBits (g.codes.getD (symbols (sortVals tr.codesize) g.codes i) (0, 0)).1 (g.codes.getD (symbols (sortVals tr.codesize) g.codes i) (0, 0)).2,
    hcr, a2, a3, hle, ⟨by simp [countsOf], ?_, hvn, hmem, ?_, ?_⟩, ?_⟩
  · rw [hvl, ← hnum, ← hcg, huffSizes_length _ 16 (by simp [countsOf])]
  · rw [hcg]; exact hfit
  · intro k i hk
    obtain ⟨_, e, s2, s3⟩ := hsym k i hk
    refine ⟨e, by rw [hcg, ← g2]; exact s2, ?_⟩
    rw [s3]
  · intro i hi
    obtain ⟨k, hk⟩ := List.getElem?_of_mem ((hmem i).2 hi)
    obtain ⟨_, e, s2, s3⟩ := hsym k i hk
    obtain ⟨z1, z2, z3⟩ := hsz e (List.mem_of_getElem? s2)
    dsimp only
    rw [s3]
    exact ⟨z2, by omega, rfl⟩

end Model.Lj92.Enc
