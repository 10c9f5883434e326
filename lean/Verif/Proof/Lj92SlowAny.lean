/- Helper lemmas about the lj92 decoder compiled with SLOW_HUFF: any table, any data. -/
import Verif.Proof.Lj92SlowBits
import Verif.Proof.Lj92Create
import Verif.Spec.Unstuff

set_option autoImplicit false

namespace Model.Lj92.Slow
open Spec Model.Lj92

/-! ### Canonical codes of any table -/

/-- The first code of length `n + 1`. -/
def firstCode (c : Nat → Nat) : Nat → Nat
  | 0 => 0
  | n + 1 => 2 * (firstCode c n + c n)

theorem huffCodes_replicate (s : Nat) (l : List Nat) : ∀ (k code : Nat),
    huffCodes code s (List.replicate k s ++ l) = (List.range k).map (fun q => (s, code + q)) ++ huffCodes (code + k) s l
  | 0, code => by simp
  | k + 1, code => by
    rw [List.replicate_succ, List.cons_append, huffCodes, Nat.sub_self, Nat.pow_zero, Nat.mul_one, huffCodes_replicate s l k (code + 1),
      List.range_succ_eq_map, List.map_cons, List.map_map, List.cons_append, show code + 1 + k = code + (k + 1) by omega]
    congr 2
    apply List.map_congr_left
    intro q _
    show (s, code + 1 + q) = (s, code + (q + 1))
    rw [show code + 1 + q = code + (q + 1) by omega]

theorem huffCodes_rescale {s size code : Nat} {k : Nat} {l : List Nat} (hk : k ≠ 0) :
    huffCodes code size (List.replicate k s ++ l) = huffCodes (code * 2 ^ (s - size)) s (List.replicate k s ++ l) := by
  obtain ⟨k, rfl⟩ : ∃ m, k = m + 1 := ⟨k - 1, by omega⟩
  rw [List.replicate_succ, List.cons_append, huffCodes, huffCodes, Nat.sub_self, Nat.pow_zero, Nat.mul_one]

/-- All codes of the lengths up to `n`, and where the procedure then stands. -/
theorem huffCodes_any (c : Nat → Nat) : ∀ n, ∃ code size, size ≤ n ∧ code * 2 ^ (n + 1 - size) = firstCode c n ∧
    ∀ l, huffCodes 0 0 (huffSizes c n ++ l) =
      ((List.range n).flatMap fun i => (List.range (c i)).map fun q => (i + 1, firstCode c i + q)) ++ huffCodes code size l
  | 0 => ⟨0, 0, Nat.le_refl _, by simp [firstCode], fun l => by simp [huffSizes]⟩
  | n + 1 => by
    obtain ⟨code, size, h1, h2, h3⟩ := huffCodes_any c n
    by_cases hz : c n = 0
    · refine ⟨code, size, by omega, ?_, ?_⟩
      · rw [show n + 1 + 1 - size = (n + 1 - size) + 1 by omega, Nat.pow_succ, ← Nat.mul_assoc, h2, firstCode, hz]; omega
      · intro l
        rw [huffSizes_succ, hz, List.replicate_zero, List.append_nil, h3, List.range_succ, List.flatMap_append]
        simp [hz]
    · refine ⟨firstCode c n + c n, n + 1, Nat.le_refl _, ?_, ?_⟩
      · rw [show n + 1 + 1 - (n + 1) = 1 by omega, firstCode]; omega
      · intro l
        rw [huffSizes_succ, List.append_assoc, h3, huffCodes_rescale hz, h2, huffCodes_replicate, List.range_succ, List.flatMap_append]
        simp

theorem codes_any (c : Nat → Nat) (n : Nat) : huffCodes 0 0 (huffSizes c n) =
    (List.range n).flatMap fun i => (List.range (c i)).map fun q => (i + 1, firstCode c i + q) := by
  obtain ⟨code, size, _, _, h⟩ := huffCodes_any c n
  have := h []
  rwa [List.append_nil, huffCodes, List.append_nil] at this

theorem codes_mem {c : Nat → Nat} {e : Nat × Nat} : e ∈ huffCodes 0 0 (huffSizes c 16) ↔ ∃ i q, i < 16 ∧ q < c i ∧ e = (i + 1, firstCode c i + q) := by
  rw [codes_any]
  simp only [List.mem_flatMap, List.mem_range, List.mem_map]
  constructor
  · rintro ⟨i, hi, q, hq, rfl⟩; exact ⟨i, q, hi, hq, rfl⟩
  · rintro ⟨i, q, hi, hq, rfl⟩; exact ⟨i, hi, q, hq, rfl⟩

theorem codes_get {c : Nat → Nat} {i q : Nat} : ∀ {n : Nat}, i < n → q < c i →
    (huffCodes 0 0 (huffSizes c n))[(huffSizes c i).length + q]? = some (i + 1, firstCode c i + q)
  | 0, hi, _ => by omega
  | n + 1, hi, hq => by
    have hl : ∀ m, ((List.range m).flatMap fun i => (List.range (c i)).map fun q => (i + 1, firstCode c i + q)).length = (huffSizes c m).length := by
      intro m; rw [← codes_any, huffCodes_length]
    rw [codes_any, List.range_succ, List.flatMap_append]
    by_cases e : i = n
    · subst e
      rw [List.getElem?_append_right (by rw [hl]; omega), hl, Nat.add_sub_cancel_left]
      simp [hq]
    · have ih := codes_get (n := n) (by omega) hq
      have hlt := (List.getElem?_eq_some_iff.1 ih).1
      rw [codes_any] at ih hlt
      rw [List.getElem?_append_left hlt]
      exact ih

theorem codeAt_any {c : Nat → Nat} {i q : Nat} (hi : i < 16) (hq : q < c i) : codeAt c ((huffSizes c i).length + q) = firstCode c i + q := by
  unfold codeAt
  rw [List.getD_eq_getElem?_getD, codes_get hi hq]
  rfl

/-! ### Reading bits from any data -/

theorem stands_start (d : Nat → Nat) (b ix0 : Nat) : Stands d ix0 0 (b, 0, ix0) := ⟨rfl, rfl, fun h => absurd rfl h⟩

theorem top_bit {x r : Nat} (hr : r ≤ 7) : x * 2 ^ r % 256 / 2 ^ 7 = x / 2 ^ (7 - r) % 2 := by
  rw [show 256 = 2 ^ (7 - r + 1) * 2 ^ r by rw [← Nat.pow_add, show 7 - r + 1 + r = 8 by omega], Nat.mul_mod_mul_right,
    show (2 ^ 7 : Nat) = 2 ^ (7 - r) * 2 ^ r by rw [← Nat.pow_add]; congr 1; omega, Nat.mul_div_mul_right _ _ (Nat.two_pow_pos r), Nat.pow_succ,
    Nat.mod_mul_right_div_self]

theorem nextbit_stands {d : Nat → Nat} (hd : ∀ k, d k < 256) {ix0 m : Nat} {v : Nat × Nat × Nat} (h : Stands d ix0 m v) :
    (nextbit d v).1 = bitAt d ix0 m ∧ Stands d ix0 (m + 1) (nextbit d v).2 := by
  obtain ⟨b, cnt, ix⟩ := v
  obtain ⟨h1, h2, h3⟩ := h
  dsimp only at h1 h2 h3
  by_cases h0 : m % 8 = 0
  · have hc : cnt = 0 := by omega
    subst hc
    have e7 : (m + 7) / 8 = m / 8 := by omega
    rw [e7] at h2
    have e : nextbit d (b, 0, ix) = (d ix / 2 ^ 7, d ix * 2 % 2 ^ 8, 7, if d ix = 0xff then ix + 1 + 1 else ix + 1) := by
      unfold nextbit; simp
    rw [e]
    have hb := hd ix
    refine ⟨?_, ?_, ?_, ?_⟩
    · unfold bitAt
      rw [h0, ← h2]
      show d ix / 2 ^ 7 = d ix / 2 ^ 7 % 2
      omega
    · show 7 = _; omega
    · show (if d ix = 0xff then ix + 1 + 1 else ix + 1) = _
      rw [show (m + 1 + 7) / 8 = m / 8 + 1 by omega, bytePlace, ← h2]
    · intro _
      show d ix * 2 % 2 ^ 8 = _
      rw [show (m + 1) % 8 = 1 by omega, show (m + 1) / 8 = m / 8 by omega, ← h2]
  · obtain ⟨k, rfl⟩ : ∃ k, cnt = k + 1 := ⟨cnt - 1, by omega⟩
    have e : nextbit d (b, k + 1, ix) = (b / 2 ^ 7, b * 2 % 2 ^ 8, k, ix) := by unfold nextbit; simp
    rw [e]
    have hb := h3 h0
    refine ⟨?_, ?_, ?_, ?_⟩
    · unfold bitAt
      show b / 2 ^ 7 = _
      rw [hb, top_bit (by omega)]
    · show k = _; omega
    · show ix = _
      rw [h2, show (m + 1 + 7) / 8 = (m + 7) / 8 by omega]
    · intro hn
      show b * 2 % 2 ^ 8 = _
      rw [hb, show (m + 1) % 8 = m % 8 + 1 by omega, show (m + 1) / 8 = m / 8 by omega, Nat.pow_succ 2 (m % 8),
        ← Nat.mul_assoc (d (bytePlace d ix0 (m / 8))) (2 ^ (m % 8)) 2]
      generalize d (bytePlace d ix0 (m / 8)) * 2 ^ (m % 8) = y
      omega

theorem receive_stands {d : Nat → Nat} (hd : ∀ k, d k < 256) {ix0 m : Nat} {v : Nat × Nat × Nat} (h : Stands d ix0 m v) : ∀ n,
    (receive d n v).1 = bitsAt d ix0 m n ∧ Stands d ix0 (m + n) (receive d n v).2
  | 0 => ⟨rfl, h⟩
  | n + 1 => by
    obtain ⟨h1, h2⟩ := receive_stands hd h n
    obtain ⟨g1, g2⟩ := nextbit_stands hd h2
    refine ⟨?_, g2⟩
    show (receive d n v).1 * 2 + (nextbit d (receive d n v).2).1 = 2 * bitsAt d ix0 m n + bitAt d ix0 (m + n)
    rw [h1, g1]; omega

/-! ### Searching the code -/

theorem search_any {t : Tab} {c vals : Nat → Nat} {n : Nat} (ht : TabOk t c vals n) {d : Nat → Nat} (hd : ∀ k, d k < 256) {ix0 m : Nat} :
    ∀ (fuel i code : Nat) (v : Nat × Nat × Nat), i + fuel = 17 → code = bitsAt d ix0 m (i + 1) → Stands d ix0 (m + (i + 1)) v →
      firstCode c i ≤ code → (∀ e ∈ huffCodes 0 0 (huffSizes c 16), e.1 ≤ i → bitsAt d ix0 m e.1 ≠ e.2) →
      match search t d fuel (i + 1) code v with
      | none => ∀ e ∈ huffCodes 0 0 (huffSizes c 16), bitsAt d ix0 m e.1 ≠ e.2
      | some (i', code', v') => ∃ k q, k < 16 ∧ q < c k ∧ i' = k + 1 ∧ code' = firstCode c k + q ∧ code' = bitsAt d ix0 m (k + 1) ∧
          Stands d ix0 (m + (k + 1)) v' ∧ ∀ e ∈ huffCodes 0 0 (huffSizes c 16), e.1 ≤ k → bitsAt d ix0 m e.1 ≠ e.2 := by
  intro fuel
  induction fuel with
  | zero =>
    intro i code v hi _ _ _ hno
    rw [search]
    intro e he
    refine hno e he ?_
    obtain ⟨k, q, h1, _, rfl⟩ := codes_mem.1 he
    show k + 1 ≤ i
    omega
  | succ fuel ih =>
    intro i code v hi hcode hv hge hno
    rw [search]
    by_cases h16 : i + 1 > 16
    · rw [if_pos h16]
      intro e he
      refine hno e he ?_
      obtain ⟨k, q, h1, _, rfl⟩ := codes_mem.1 he
      show k + 1 ≤ i
      omega
    · rw [if_neg h16]
      by_cases hgt : (code : Int) > t.maxcode (i + 1)
      · rw [if_pos hgt]
        obtain ⟨g1, g2⟩ := nextbit_stands hd hv
        have hall : firstCode c i + c i ≤ code := by
          by_cases hz : c i = 0
          · omega
          · obtain ⟨_, _, hm⟩ := ht.some (i + 1) (by omega) (by omega) (by rw [Nat.add_sub_cancel]; exact hz)
            rw [Nat.add_sub_cancel, Nat.add_sub_assoc (by omega), codeAt_any (by omega) (by omega)] at hm
            rw [hm] at hgt
            omega
        have hb : bitsAt d ix0 m (i + 1 + 1) = code * 2 + (nextbit d v).1 := by
          show 2 * bitsAt d ix0 m (i + 1) + bitAt d ix0 (m + (i + 1)) = _
          rw [← hcode, g1]; omega
        refine ih (i + 1) (code * 2 + (nextbit d v).1) (nextbit d v).2 (by omega) hb.symm g2 ?_ ?_
        · rw [firstCode]; omega
        · intro e he hle
          by_cases e1 : e.1 = i + 1
          · obtain ⟨k, q, h1, h2, rfl⟩ := codes_mem.1 he
            have hk : k = i := by simpa using e1
            subst hk
            show bitsAt d ix0 m (k + 1) ≠ firstCode c k + q
            rw [← hcode]; omega
          · exact hno e he (by omega)
      · rw [if_neg hgt]
        have hz : c i ≠ 0 := by
          intro hz
          have := ht.none (i + 1) (by omega) (by omega) (by rw [Nat.add_sub_cancel]; exact hz)
          rw [this] at hgt
          omega
        obtain ⟨_, _, hm⟩ := ht.some (i + 1) (by omega) (by omega) (by rw [Nat.add_sub_cancel]; exact hz)
        rw [Nat.add_sub_cancel, Nat.add_sub_assoc (by omega), codeAt_any (by omega) (by omega)] at hm
        rw [hm] at hgt
        exact ⟨i, code - firstCode c i, by omega, by omega, rfl, by omega, hcode, hv, hno⟩

theorem huffCodes_sizes : ∀ (l : List Nat) (c s : Nat), (huffCodes c s l).map (·.1) = l
  | [], _, _ => rfl
  | n :: l, c, s => by rw [huffCodes, List.map_cons, huffCodes_sizes l]

/-- The table index of a code decides the code, and the first code that matches is the only one of its length. -/
theorem code_unique {c : Nat → Nat} {j k q : Nat} (hk : k < 16) (_hq : q < c k)
    (h : (huffCodes 0 0 (huffSizes c 16))[j]? = some (k + 1, firstCode c k + q)) : j = (huffSizes c k).length + q := by
  have hlt : j < (huffSizes c 16).length := by
    have := (List.getElem?_eq_some_iff.1 h).1
    rwa [huffCodes_length] at this
  -- the sizes at both places are the same, so `j` belongs to length `k + 1`
  have hsz : (huffSizes c 16)[j]? = some (k + 1) := by
    have := huffCodes_sizes (huffSizes c 16) 0 0
    rw [← this, List.getElem?_map, h]; rfl
  obtain ⟨v, h1, h2, _, _⟩ := huffSizes_split c 16 j (k + 1) hsz
  rw [Nat.add_sub_cancel] at h1 h2
  have := codes_get (n := 16) hk h1
  rw [← h2, h] at this
  simp only [Option.some.injEq, Prod.mk.injEq, true_and] at this
  omega

theorem decodeClass_any {t : Tab} {c vals : Nat → Nat} {n : Nat} (ht : TabOk t c vals n) {d : Nat → Nat} (hd : ∀ k, d k < 256) {ix0 m : Nat}
    {v : Nat × Nat × Nat} (hv : Stands d ix0 m v) :
    match decodeClass t d v with
    | none => ∀ j len, FirstCode (huffCodes 0 0 (huffSizes c 16)) d ix0 m j len → n ≤ j
    | some (x, v') => ∃ j len, FirstCode (huffCodes 0 0 (huffSizes c 16)) d ix0 m j len ∧ j < n ∧ x = vals j ∧ Stands d ix0 (m + len) v' := by
  obtain ⟨g1, g2⟩ := nextbit_stands hd hv
  have key := search_any ht hd (ix0 := ix0) (m := m) 17 0 (nextbit d v).1 (nextbit d v).2 rfl (by rw [g1]; simp [bitsAt]) g2 (Nat.zero_le _)
    (fun e he hle => by
      obtain ⟨k, q, _, _, rfl⟩ := codes_mem.1 he
      exact absurd hle (by show ¬ k + 1 ≤ 0; omega))
  unfold decodeClass
  dsimp only
  rw [Nat.zero_add] at key
  cases hs : search t d 17 1 (nextbit d v).1 (nextbit d v).2 with
  | none =>
    rw [hs] at key
    intro j len hf
    exact absurd rfl (key _ (List.mem_of_getElem? hf.1))
  | some r =>
    obtain ⟨i', code', v'⟩ := r
    rw [hs] at key
    obtain ⟨k, q, hk, hq, rfl, hcode, hbits, hst, hno⟩ := key
    have hget := codes_get (n := 16) hk hq
    rw [← hcode, hbits] at hget
    have hfirst : FirstCode (huffCodes 0 0 (huffSizes c 16)) d ix0 m ((huffSizes c k).length + q) (k + 1) :=
      ⟨hget, fun e he hlt => hno e he (by omega)⟩
    obtain ⟨m1, m2, _⟩ := ht.some (k + 1) (by omega) (by omega) (by rw [Nat.add_sub_cancel]; omega)
    rw [Nat.add_sub_cancel] at m1 m2
    have m3 := codeAt_any (c := c) (q := 0) hk (by omega)
    rw [Nat.add_zero, Nat.add_zero] at m3
    have hj : t.valptr (k + 1) + code' - t.mincode (k + 1) = ((huffSizes c k).length + q : Nat) := by
      rw [m1, m2, m3, hcode]; omega
    dsimp only
    rw [hj, ht.num]
    by_cases hn : (huffSizes c k).length + q < n
    · rw [if_pos ⟨by omega, by omega⟩]
      refine ⟨_, _, hfirst, hn, ?_, hst⟩
      rw [Int.toNat_natCast]
      exact ht.val _ hn
    · rw [if_neg (by omega)]
      intro j len hf
      have hlen : len = k + 1 := by
        rcases Nat.lt_trichotomy len (k + 1) with h | h | h
        · exact absurd rfl (hno _ (List.mem_of_getElem? hf.1) (by show len ≤ k; omega))
        · exact h
        · exact absurd rfl (hf.2 _ (List.mem_of_getElem? hget) h)
      subst hlen
      have := code_unique hk hq (j := j) (by rw [← hcode, hbits]; exact hf.1)
      omega

theorem nextdiff_any {t : Tab} {c vals : Nat → Nat} {n : Nat} (ht : TabOk t c vals n) {s : Ljp} (hd : ∀ k, s.data k < 256) {ix0 m : Nat}
    (hv : Stands s.data ix0 m (s.b, s.cnt, s.ix)) (ub : Int) :
    match nextdiff ub (some t) s with
    | none => ∀ diff m', ¬ NextDifference (huffCodes 0 0 (huffSizes c 16)) vals n s.data ix0 m diff m'
    | some (s', diff) => ∃ m', NextDifference (huffCodes 0 0 (huffSizes c 16)) vals n s.data ix0 m diff m' ∧
        Stands s'.data ix0 m' (s'.b, s'.cnt, s'.ix) ∧ s' = { s with b := s'.b, cnt := s'.cnt, ix := s'.ix } := by
  have key := decodeClass_any ht hd hv
  unfold nextdiff
  dsimp only
  cases hc : decodeClass t s.data (s.b, s.cnt, s.ix) with
  | none =>
    rw [hc] at key
    rintro diff m' ⟨j, len, h1, h2, _⟩
    have := key j len h1
    omega
  | some r =>
    obtain ⟨x, v⟩ := r
    rw [hc] at key
    obtain ⟨j, len, h1, h2, rfl, h4⟩ := key
    obtain ⟨g1, g2⟩ := receive_stands hd h4 (vals j)
    dsimp only
    refine ⟨m + len + vals j, ⟨j, len, h1, h2, rfl, ?_⟩, g2, rfl⟩
    rw [g1]
    by_cases h0 : vals j = 0
    · rw [h0, if_pos rfl, if_pos rfl]
      show (if ((0 : Nat) : Int) < ub then ((0 : Nat) : Int) + (-2 ^ 0 + 1) else ((0 : Nat) : Int)) = 0
      split <;> simp
    · rw [if_neg h0, if_neg h0]
      by_cases hlt : bitsAt s.data ix0 (m + len) (vals j) < 2 ^ (vals j - 1)
      · rw [if_pos hlt, if_pos (by exact_mod_cast hlt)]; omega
      · rw [if_neg hlt, if_neg (by exact_mod_cast hlt)]

/-! ### A whole scan -/

theorem next_unique {c vals : Nat → Nat} {n : Nat} {d : Nat → Nat} {ix m : Nat} {x y : Int} {a b : Nat}
    (h1 : NextDifference (huffCodes 0 0 (huffSizes c 16)) vals n d ix m x a) (h2 : NextDifference (huffCodes 0 0 (huffSizes c 16)) vals n d ix m y b) :
    x = y ∧ a = b := by
  obtain ⟨j, len, f1, _, rfl, rfl⟩ := h1
  obtain ⟨j', len', f2, _, rfl, rfl⟩ := h2
  have hlen : len' = len := by
    rcases Nat.lt_trichotomy len' len with h | h | h
    · exact absurd rfl (f1.2 _ (List.mem_of_getElem? f2.1) h)
    · exact h
    · exact absurd rfl (f2.2 _ (List.mem_of_getElem? f1.1) h)
  subst hlen
  have g1 := f1.1
  have g2 := f2.1
  obtain ⟨k, q, hk, hq, e⟩ := codes_mem.1 (List.mem_of_getElem? g1)
  rw [e] at g1 g2
  have := code_unique hk hq g1
  have := code_unique hk hq g2
  have hj : j = j' := by omega
  subst hj
  exact ⟨rfl, rfl⟩

theorem diffs_snoc {codes : List (Nat × Nat)} {vals : Nat → Nat} {n : Nat} {d : Nat → Nat} {ix : Nat} {x : Int} : ∀ {l : List Int} {m m' : Nat},
    Differences codes vals n d ix m (l ++ [x]) m' ↔ ∃ m1, Differences codes vals n d ix m l m1 ∧ NextDifference codes vals n d ix m1 x m'
  | [], m, m' => by
    constructor
    · rintro ⟨m1, h, rfl⟩; exact ⟨m, rfl, h⟩
    · rintro ⟨m1, rfl, h⟩; exact ⟨m', h, rfl⟩
  | y :: l, m, m' => by
    constructor
    · rintro ⟨m1, h, h2⟩
      obtain ⟨m2, h3, h4⟩ := diffs_snoc.1 h2
      exact ⟨m2, ⟨m1, h, h3⟩, h4⟩
    · rintro ⟨m2, ⟨m1, h, h3⟩, h4⟩
      exact ⟨m1, h, diffs_snoc.2 ⟨m2, h3, h4⟩⟩

theorem diffs_unique {c vals : Nat → Nat} {n : Nat} {d : Nat → Nat} {ix : Nat} : ∀ {l l' : List Int} {m a b : Nat}, l.length = l'.length →
    Differences (huffCodes 0 0 (huffSizes c 16)) vals n d ix m l a → Differences (huffCodes 0 0 (huffSizes c 16)) vals n d ix m l' b → l = l' ∧ a = b
  | [], [], _, _, _, _, h1, h2 => ⟨rfl, by rw [show _ = _ from h1, show _ = _ from h2]⟩
  | [], _ :: _, _, _, _, h, _, _ => by simp at h
  | _ :: _, [], _, _, _, h, _, _ => by simp at h
  | x :: l, y :: l', m, a, b, h, h1, h2 => by
    obtain ⟨m1, h1, h3⟩ := h1
    obtain ⟨m2, h2, h4⟩ := h2
    obtain ⟨rfl, rfl⟩ := next_unique h1 h2
    obtain ⟨rfl, rfl⟩ := diffs_unique (by simpa using h) h3 h4
    exact ⟨rfl, rfl⟩

/-- The data hold so many differences. -/
def Holding (codes : List (Nat × Nat)) (vals : Nat → Nat) (n : Nat) (d : Nat → Nat) (ix N : Nat) : Prop :=
  ∃ l m', l.length = N ∧ Differences codes vals n d ix 0 l m'

theorem holding_pred {codes : List (Nat × Nat)} {vals : Nat → Nat} {n : Nat} {d : Nat → Nat} {ix N : Nat} (h : Holding codes vals n d ix (N + 1)) :
    Holding codes vals n d ix N := by
  obtain ⟨l, m', hl, h⟩ := h
  have hne : l ≠ [] := by intro e; rw [e] at hl; simp at hl
  rw [← List.dropLast_concat_getLast hne] at h
  obtain ⟨m1, h1, _⟩ := diffs_snoc.1 h
  exact ⟨_, m1, by rw [List.length_dropLast, hl]; rfl, h1⟩

theorem holding_mono {codes : List (Nat × Nat)} {vals : Nat → Nat} {n : Nat} {d : Nat → Nat} {ix N : Nat} : ∀ {M : Nat}, N ≤ M →
    Holding codes vals n d ix M → Holding codes vals n d ix N
  | 0, h, g => by have : N = 0 := by omega
                  subst this; exact g
  | M + 1, h, g => by
    by_cases e : N = M + 1
    · subst e; exact g
    · exact holding_mono (by omega) (holding_pred g)

/-- `N` differences were read: what is kept of the state. -/
structure Read (c vals : Nat → Nat) (n : Nat) (x : Ljp) (ix N : Nat) (v : Ljp × Int) : Prop where
  data : v.1.data = x.data
  dims : v.1.components = x.components ∧ v.1.x = x.x ∧ v.1.y = x.y ∧ v.1.skiplen = x.skiplen
  at' : ∃ l m, l.length = N ∧ Differences (huffCodes 0 0 (huffSizes c 16)) vals n x.data ix 0 l m ∧ Stands x.data ix m (v.1.b, v.1.cnt, v.1.ix)

/-- The outcome of reading up to `N` differences. -/
def Outcome (c vals : Nat → Nat) (n : Nat) (x : Ljp) (ix N : Nat) : Option (Ljp × Int) → Prop
  | none => ¬ Holding (huffCodes 0 0 (huffSizes c 16)) vals n x.data ix N
  | some v => Read c vals n x ix N v

theorem body_any {t : Tab} {c vals : Nat → Nat} {n : Nat} (ht : TabOk t c vals n) {x : Ljp} (hd : ∀ k, x.data k < 256) {ix N : Nat} {v : Ljp × Int}
    (h : Read c vals n x ix N v) (ub : Int) (pred row col k : Nat) : Outcome c vals n x ix (N + 1) (body ub (some t) none pred row col k v) := by
  obtain ⟨s, left⟩ := v
  obtain ⟨l, m, hl, hD, hst⟩ := h.at'
  have hdata : s.data = x.data := h.data
  have key := nextdiff_any ht (s := s) (by rw [hdata]; exact hd) (ix0 := ix) (m := m) (by rw [hdata]; exact hst) ub
  unfold body
  dsimp only
  cases hn : nextdiff ub (some t) s with
  | none =>
    rw [hn] at key
    rintro ⟨l', m', hl', hD'⟩
    have hne : l' ≠ [] := by intro e; rw [e] at hl'; simp at hl'
    rw [← List.dropLast_concat_getLast hne] at hD'
    obtain ⟨m1, h1, h2⟩ := diffs_snoc.1 hD'
    obtain ⟨_, rfl⟩ := diffs_unique (by rw [List.length_dropLast, hl', hl]; rfl) h1 hD
    have h3 := key (l'.getLast hne) m'
    rw [hdata] at h3
    exact h3 h2
  | some r =>
    obtain ⟨s', diff⟩ := r
    rw [hn] at key
    obtain ⟨m', h1, h2, h3⟩ := key
    have e : s'.data = x.data := by rw [h3]; exact hdata
    rw [hdata] at h1
    rw [e] at h2
    dsimp only
    rw [if_neg (by simp [beyond])]
    exact ⟨e, by rw [h3]; exact h.dims, l ++ [diff], m', by simp [hl], diffs_snoc.2 ⟨m, hD, h1⟩, h2⟩

theorem forN_any {c vals : Nat → Nat} {n : Nat} {x : Ljp} {ix w : Nat} {f : Nat → Ljp × Int → Option (Ljp × Int)} :
    ∀ (q a : Nat) (v : Ljp × Int), (∀ i b v, Read c vals n x ix b v → Outcome c vals n x ix (b + w) (f i v)) → Read c vals n x ix a v →
      Outcome c vals n x ix (a + q * w) (forN f q v)
  | 0, a, v, _, h => by rw [Nat.zero_mul]; exact h
  | q + 1, a, v, hf, h => by
    have ih := forN_any q a v hf h
    rw [forN, Nat.succ_mul, ← Nat.add_assoc]
    cases hq : forN f q v with
    | none =>
      rw [hq] at ih
      exact fun g => ih (holding_mono (Nat.le_add_right _ _) g)
    | some v' =>
      rw [hq] at ih
      exact hf q _ v' ih

theorem loops_any {t : Tab} {c vals : Nat → Nat} {n : Nat} (ht : TabOk t c vals n) {x : Ljp} (hd : ∀ k, x.data k < 256) {ix : Nat} {v : Ljp × Int}
    (h : Read c vals n x ix 0 v) (ub : Int) (pred C X Y : Nat) : Outcome c vals n x ix (Y * (X * C))
      (forN (fun row => forN (fun col => forN (fun k => body ub (some t) none pred row col k) C) X) Y v) := by
  have := forN_any (c := c) (vals := vals) (n := n) (x := x) (ix := ix) (w := X * C)
    (f := fun row => forN (fun col => forN (fun k => body ub (some t) none pred row col k) C) X) Y 0 v (fun row b v hb =>
      forN_any (w := C) X b v (fun col b v hb => by
        have := forN_any (w := 1) (f := fun k => body ub (some t) none pred row col k) C b v (fun k b v hb => body_any ht hd hb ub pred row col k) hb
        rwa [Nat.mul_one] at this) hb) h
  rwa [Nat.zero_add] at this

/-! ### What a scan writes -/

theorem forN_keep {σ : Type} {f : Nat → σ → Option σ} {P : σ → Prop} : ∀ (q : Nat) (v v' : σ), (∀ i w w', i < q → P w → f i w = some w' → P w') → P v →
    forN f q v = some v' → P v'
  | 0, v, v', _, h, e => by
    rw [forN, Option.some.injEq] at e
    rw [← e]; exact h
  | q + 1, v, v', hf, h, e => by
    rw [forN] at e
    obtain ⟨w, e1, e2⟩ := Option.bind_eq_some_iff.1 e
    exact hf q w v' (Nat.lt_succ_self q) (forN_keep q v w (fun i w w' hi => hf i w w' (Nat.lt_succ_of_lt hi)) h e1) e2

theorem nextdiff_keep {ub : Int} {t : Option Tab} {s s' : Ljp} {diff : Int} (h : nextdiff ub t s = some (s', diff)) :
    s' = { s with b := s'.b, cnt := s'.cnt, ix := s'.ix } := by
  unfold nextdiff at h
  cases t with
  | none => simp at h
  | some t =>
    dsimp only at h
    split at h
    · simp at h
    · simp only [Option.some.injEq, Prod.mk.injEq] at h
      rw [← h.1]

/-- Only places of the picture are written, and the dimensions stay. -/
structure Inside (x : Ljp) (v : Ljp × Int) : Prop where
  dims : v.1.components = x.components ∧ v.1.x = x.x ∧ v.1.y = x.y ∧ v.1.skiplen = x.skiplen
  image : ∀ k, (∀ r q, r < x.y → q < x.x * x.components → k ≠ r * (x.x * x.components + x.skiplen) + q) → v.1.image k = x.image k

theorem body_inside {ub : Int} {t : Option Tab} {lin : Option Lin} {pred row col k : Nat} {x : Ljp} {v v' : Ljp × Int} (hr : row < x.y) (hc : col < x.x)
    (hk : k < x.components) (h : Inside x v) (e : body ub t lin pred row col k v = some v') : Inside x v' := by
  obtain ⟨s, left⟩ := v
  unfold body at e
  dsimp only at e
  cases hn : nextdiff ub t s with
  | none => rw [hn] at e; simp at e
  | some r =>
    obtain ⟨s', diff⟩ := r
    rw [hn] at e
    have h3 := nextdiff_keep hn
    dsimp only at e
    split at e
    · simp at e
    · simp only [Option.some.injEq] at e
      obtain ⟨d1, d2, d3, d4⟩ := h.dims
      dsimp only at d1 d2 d3 d4
      have c1 : s'.components = x.components := by rw [h3]; exact d1
      have c2 : s'.x = x.x := by rw [h3]; exact d2
      have c3 : s'.y = x.y := by rw [h3]; exact d3
      have c4 : s'.skiplen = x.skiplen := by rw [h3]; exact d4
      have c5 : s'.image = s.image := by rw [h3]
      rw [← e]
      refine ⟨⟨c1, c2, c3, c4⟩, ?_⟩
      intro i hi
      show put s'.image (row * (s'.x * s'.components + s'.skiplen) + (col * s'.components + k)) _ i = _
      rw [c1, c2, c4, c5]
      have hq : col * x.components + k < x.x * x.components := by
        have : (col + 1) * x.components ≤ x.x * x.components := Nat.mul_le_mul_right _ hc
        rw [Nat.succ_mul] at this
        omega
      unfold put
      rw [if_neg (hi row _ hr hq)]
      exact h.image i hi

theorem scan_inside {ub : Int} {t : Option Tab} {lin : Option Lin} {x s : Ljp} (e : parseScan ub t lin x = some s) :
    ∀ k, (∀ r q, r < x.y → q < x.x * x.components → k ≠ r * (x.x * x.components + x.skiplen) + q) → s.image k = x.image k := by
  unfold parseScan at e
  dsimp only at e
  split at e
  · simp at e
  · obtain ⟨v, e1, rfl⟩ := Option.map_eq_some_iff.1 e
    have := forN_keep (P := Inside x) x.y _ v (fun row w w' hr hw e =>
      forN_keep (P := Inside x) x.x _ w' (fun col w w' hc hw e =>
        forN_keep (P := Inside x) x.components _ w' (fun k w w' hk hw e => body_inside hr hc hk hw e) hw e) hw e) ⟨⟨rfl, rfl, rfl, rfl⟩, fun k _ => rfl⟩ e1
    exact this.image

/-! ### Opening any file -/

/-- `t` is the table of the segment at place `p` of the file. -/
def TableAt (d : Nat → Nat) (datalen p n : Nat) (t : Tab) : Prop :=
  2 ≤ p ∧ d (p - 2) = 0xFF ∧ d (p - 1) = 0xC4 ∧ d p * 256 + d (p + 1) = 19 + n ∧ p + (19 + n) < datalen ∧ (∃ k, k < 16 ∧ d (p + 3 + k) ≠ 0) ∧
    TabOk t (fun k => d (p + 3 + k)) (fun k => d (p + 19 + k)) n

theorem sizes_zero {c : Nat → Nat} : (huffSizes c 16).length = 0 ↔ ∀ k, k < 16 → c k = 0 := by
  constructor
  · intro h k hk
    have := huffSizes_len_mono c (k + 1) 16 (by omega)
    rw [huffSizes_succ, List.length_append, List.length_replicate] at this
    omega
  · intro h
    rw [Enc.huffSizes_congr 16 (d := fun _ => 0) h]
    decide

theorem parseHuff_iff {s : Ljp} : (parseHuff s).isSome = true ↔ s.ix + (s.data s.ix * 256 + s.data (s.ix + 1)) < s.datalen ∧
    19 ≤ s.data s.ix * 256 + s.data (s.ix + 1) ∧ ∃ k, k < 16 ∧ s.data (s.ix + 3 + k) ≠ 0 := by
  have hput : ∀ k, k ≠ s.ix + 2 → put s.data (s.ix + 2) 0 k = s.data k := fun k hk => by unfold put; rw [if_neg hk]
  have hbeh : beh (put s.data (s.ix + 2) 0) s.ix = s.data s.ix * 256 + s.data (s.ix + 1) := by
    unfold beh; rw [hput _ (by omega), hput _ (by omega)]
  have hb : ∀ k, 1 ≤ k → k ≤ 16 → put s.data (s.ix + 2) 0 (s.ix + 2 + k) = s.data (s.ix + 3 + (k - 1)) := by
    intro k h1 h2
    rw [hput _ (by omega), show s.ix + 3 + (k - 1) = s.ix + 2 + k by omega]
  by_cases hz : (huffSizes (fun k => s.data (s.ix + 3 + k)) 16).length = 0
  · rw [parseHuff_empty (c := fun k => s.data (s.ix + 3 + k)) hz hb]
    have := sizes_zero.1 hz
    constructor
    · intro h; simp at h
    · rintro ⟨_, _, k, hk, h⟩; exact absurd (this k hk) h
  · have hex : ∃ k, k < 16 ∧ s.data (s.ix + 3 + k) ≠ 0 := by
      refine Classical.byContradiction fun h => hz (sizes_zero.2 fun k hk => Classical.byContradiction fun h' => h ⟨k, hk, h'⟩)
    constructor
    · intro h
      unfold parseHuff at h
      dsimp only at h
      rw [hbeh] at h
      split at h
      · simp at h
      split at h
      · simp at h
      exact ⟨by omega, by omega, hex⟩
    · rintro ⟨h1, h2, _⟩
      obtain ⟨t, h3, _⟩ := parseHuff_any (s := s) (c := fun k => s.data (s.ix + 3 + k)) (m := s.data s.ix * 256 + s.data (s.ix + 1) - 19) rfl (by omega)
        (by omega) (by omega) hb
      rw [h3]; rfl

theorem parseHuff_table {s s' : Ljp} {t : Tab} {d : Nat → Nat} (h : parseHuff s = some (s', t)) (hd : ∀ k, s.ix ≤ k → s.data k = d k)
    (hb : ∀ k, s.data k < 256) (h2 : 2 ≤ s.ix) (hff : d (s.ix - 2) = 0xFF) (hc4 : d (s.ix - 1) = 0xC4) :
    (∃ n, TableAt d s.datalen s.ix n t) ∧ s'.datalen = s.datalen ∧ s.ix ≤ s'.ix ∧ (∀ k, s'.data k < 256) ∧ ∀ k, s'.ix ≤ k → s'.data k = d k := by
  obtain ⟨h3, h4, h5⟩ := parseHuff_iff.1 (by rw [h]; rfl)
  have hput : ∀ k, k ≠ s.ix + 2 → put s.data (s.ix + 2) 0 k = s.data k := fun k hk => by unfold put; rw [if_neg hk]
  have hbeh : beh (put s.data (s.ix + 2) 0) s.ix = s.data s.ix * 256 + s.data (s.ix + 1) := by
    unfold beh; rw [hput _ (by omega), hput _ (by omega)]
  obtain ⟨n, hn⟩ : ∃ n, s.data s.ix * 256 + s.data (s.ix + 1) = 19 + n := ⟨s.data s.ix * 256 + s.data (s.ix + 1) - 19, by omega⟩
  rw [hn] at h3 hbeh
  have hb' : ∀ k, 1 ≤ k → k ≤ 16 → put s.data (s.ix + 2) 0 (s.ix + 2 + k) = d (s.ix + 3 + (k - 1)) := by
    intro k h1 h2
    rw [hput _ (by omega), show s.ix + 3 + (k - 1) = s.ix + 2 + k by omega, hd _ (by omega)]
  have hex : ∃ k, k < 16 ∧ d (s.ix + 3 + k) ≠ 0 := by
    obtain ⟨k, h1, h2⟩ := h5
    exact ⟨k, h1, by rw [← hd _ (by omega)]; exact h2⟩
  have h1 : 1 ≤ (huffSizes (fun k => d (s.ix + 3 + k)) 16).length := by
    obtain ⟨k, h1, h2⟩ := hex
    refine Nat.one_le_iff_ne_zero.2 fun h => h2 (sizes_zero.1 h k h1)
  obtain ⟨t', g1, g2⟩ := parseHuff_any (s := s) (c := fun k => d (s.ix + 3 + k)) (m := n) rfl h1 hbeh h3 hb'
  rw [h] at g1
  simp only [Option.some.injEq, Prod.mk.injEq] at g1
  obtain ⟨rfl, rfl⟩ := g1
  refine ⟨⟨n, h2, hff, hc4, by rw [← hd _ (Nat.le_refl _), ← hd _ (Nat.le_succ _)]; exact hn, h3, hex, g2.num, fun k hk => ?_, g2.none, g2.some⟩, rfl,
    Nat.le_add_right _ _, ?_, ?_⟩
  · rw [g2.val k hk, hput _ (by omega), hd _ (by omega)]
  · intro k
    show (if k = s.ix + 2 then 0 else s.data k) < 256
    split
    · decide
    · exact hb k
  · intro k hk
    have hk' : s.ix + (19 + n) ≤ k := hk
    show put s.data (s.ix + 2) 0 k = d k
    rw [hput _ (by omega), hd _ (by omega)]

theorem find_any {s s' : Ljp} {m : Nat} (h : find s = some (s', m)) :
    ∃ i, s.ix ≤ i ∧ s.data i = 0xFF ∧ m = s.data (i + 1) ∧ s' = { s with ix := i + 2 } := by
  unfold find at h
  obtain ⟨i, h1, h2, h3⟩ := whileN_inv (step := fun ix => if s.data ix ≠ 0xFF ∧ ix + 1 < s.datalen then some (ix + 1) else none) (I := fun ix => s.ix ≤ ix)
    (fun ix => s.datalen - ix) (by
      intro ix ix' h1 h2
      split at h2
      · rename_i h3
        simp only [Option.some.injEq] at h2
        subst h2
        exact ⟨by omega, by omega⟩
      · simp at h2) (s.datalen + 1) s.ix (Nat.le_refl _) (by omega)
  rw [h1] at h
  dsimp only at h
  split at h
  · simp at h
  · rename_i h4
    simp only [Option.some.injEq, Prod.mk.injEq] at h
    refine ⟨i, h2, ?_, h.2.symm, h.1.symm⟩
    refine Classical.byContradiction fun h5 => ?_
    rw [if_pos ⟨h5, by omega⟩] at h3
    simp at h3

theorem parse_any {d : Nat → Nat} : ∀ (n : Nat) {s : Ljp} {t : Option Tab} {v : Ljp × Option Tab}, parseImage n s t = some v →
    (∀ k, s.ix ≤ k → s.data k = d k) → (∀ k, s.data k < 256) → (∀ u, t = some u → ∃ p n, TableAt d s.datalen p n u) →
    (∀ k, v.1.data k < 256) ∧ ∀ u, v.2 = some u → ∃ p n, TableAt d s.datalen p n u
  | 0, _, _, _, h, _, _, _ => by simp [parseImage] at h
  | n + 1, s, t, v, h, hd, hb, ht => by
    rw [parseImage] at h
    split at h
    · simp at h
    · rename_i s1 m hf
      obtain ⟨i, h1, h2, rfl, rfl⟩ := find_any hf
      have hd1 : ∀ k, i + 2 ≤ k → s.data k = d k := fun k hk => hd k (by omega)
      have block : ∀ {s2 : Ljp}, parseBlock { s with ix := i + 2 } = some s2 → s2.data = s.data ∧ s2.datalen = s.datalen ∧ i + 2 ≤ s2.ix := by
        intro s2 h
        unfold parseBlock at h
        split at h
        · simp at h
        · simp only [Option.some.injEq] at h; rw [← h]; exact ⟨rfl, rfl, Nat.le_add_right _ _⟩
      split at h
      · rename_i hm
        obtain ⟨⟨s2, t2⟩, h3, h4⟩ := Option.bind_eq_some_iff.1 h
        obtain ⟨⟨n', g1⟩, g2, g3, g4, g5⟩ := parseHuff_table (d := d) h3 hd1 hb (by show 2 ≤ i + 2; omega)
          (by show d (i + 2 - 2) = _; rw [Nat.add_sub_cancel, ← hd i h1]; exact h2)
          (by show d (i + 1) = _; rw [← hd _ (by omega)]; exact hm)
        have := parse_any n h4 g5 g4 (fun u hu => ⟨i + 2, n', by injection hu with hu; rw [← hu, g2]; exact g1⟩)
        rw [g2] at this
        exact this
      · split at h
        · obtain ⟨s2, h3, h4⟩ := Option.bind_eq_some_iff.1 h
          have e : s2.data = s.data ∧ s2.datalen = s.datalen ∧ i + 2 ≤ s2.ix := by
            unfold parseSof3 at h3
            split at h3
            · simp at h3
            · simp only [Option.some.injEq] at h3; rw [← h3]; exact ⟨rfl, rfl, Nat.le_add_right _ _⟩
          have := parse_any (d := d) n h4 (fun k hk => by rw [e.1]; exact hd1 k (by omega)) (by rw [e.1]; exact hb) (by rw [e.2.1]; exact ht)
          rwa [e.2.1] at this
        · split at h
          · obtain ⟨s2, h3, h4⟩ := Option.bind_eq_some_iff.1 h
            have e := block h3
            have := parse_any (d := d) n h4 (fun k hk => by rw [e.1]; exact hd1 k (by omega)) (by rw [e.1]; exact hb) (by rw [e.2.1]; exact ht)
            rwa [e.2.1] at this
          · split at h
            · simp only [Option.some.injEq] at h; rw [← h]; exact ⟨hb, ht⟩
            · split at h
              · simp only [Option.some.injEq] at h; rw [← h]; exact ⟨hb, ht⟩
              · obtain ⟨s2, h3, h4⟩ := Option.bind_eq_some_iff.1 h
                have e := block h3
                have := parse_any (d := d) n h4 (fun k hk => by rw [e.1]; exact hd1 k (by omega)) (by rw [e.1]; exact hb) (by rw [e.2.1]; exact ht)
                rwa [e.2.1] at this

theorem open_any {d : Nat → Nat} (hd : ∀ k, d k < 256) {datalen : Nat} {v : Ljp × Option Tab} (h : open' d datalen = some v) :
    (∀ k, v.1.data k < 256) ∧ ∀ u, v.2 = some u → ∃ p n, TableAt d datalen p n u := by
  unfold open' at h
  dsimp only at h
  split at h
  · simp at h
  · rename_i s1 m hf
    obtain ⟨i, _, _, _, rfl⟩ := find_any hf
    split at h
    · exact parse_any (d := d) datalen h (fun k _ => rfl) hd (fun u hu => by cases hu)
    · simp at h

end Model.Lj92.Slow
