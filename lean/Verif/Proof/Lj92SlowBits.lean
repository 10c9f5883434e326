/- Helper lemmas about the model of the lj92 decoder compiled with SLOW_HUFF: reading bits and codes. -/
import Verif.Proof.Lj92SlowTab

set_option autoImplicit false

namespace Model.Lj92.Slow
open Spec Model.Lj92

/-- The bits `S` are still to be read: the `cnt` top bits of the eight in `b` first, then those of the unread bytes, which end at `E`. -/
def SRep (d : Nat → Nat) (E : Nat) (v : Nat × Nat × Nat) (S : List Bool) : Prop :=
  v.2.1 ≤ 8 ∧ ∃ bs, At d v.2.2 (stuff bs) ∧ S <+: (toBits 8 v.1).take v.2.1 ++ byteBits bs ∧ v.2.2 + (stuff bs).length = E

theorem SRep.ix_le {d : Nat → Nat} {E : Nat} {v : Nat × Nat × Nat} {S : List Bool} (h : SRep d E v S) : v.2.2 ≤ E := by
  obtain ⟨_, bs, _, _, h⟩ := h
  omega

theorem shift_bits (b k : Nat) (hk : k ≤ 7) : (toBits 8 (b * 2 % 2 ^ 8)).take k = (toBits 7 b).take k := by
  rw [toBits_mod (Nat.le_refl 8)]
  have := toBits_mul_add (n := 7) (k := 1) (x := b) (y := 0) (by decide)
  simp only [Nat.add_zero, Nat.pow_one, Nat.reduceAdd] at this
  rw [this, List.take_append_of_le_length (by simp; omega)]

theorem nextbit_rep {d : Nat → Nat} (hd : ∀ k, d k < 256) {E : Nat} {v : Nat × Nat × Nat} {x : Bool} {S : List Bool} (hb : v.1 < 256)
    (h : SRep d E v (x :: S)) : (nextbit d v).1 = x.toNat ∧ SRep d E (nextbit d v).2 S ∧ (nextbit d v).2.1 < 256 := by
  have core : ∀ (b cnt ix : Nat) (bs : List Nat), b < 256 → cnt ≤ 7 → At d ix (stuff bs) →
      x :: S <+: (toBits 8 b).take (cnt + 1) ++ byteBits bs → ix + (stuff bs).length = E →
      b / 2 ^ 7 = x.toNat ∧ SRep d E (b * 2 % 2 ^ 8, cnt, ix) S := by
    intro b cnt ix bs hb hc ha hS hE
    rw [toBits, List.take_succ_cons, List.cons_append, List.cons_prefix_cons] at hS
    obtain ⟨h1, h2⟩ := hS
    refine ⟨?_, by show cnt ≤ 8; omega, bs, ha, ?_, hE⟩
    · rw [h1, Nat.toNat_testBit]; omega
    · dsimp only; rw [shift_bits b cnt hc]; exact h2
  obtain ⟨b, cnt, ix⟩ := v
  obtain ⟨hc, bs, ha, hS, hE⟩ := h
  dsimp only at hb hc ha hS hE
  have h256 : b * 2 % 2 ^ 8 < 256 := Nat.mod_lt _ (by decide)
  by_cases h0 : cnt = 0
  · subst h0
    cases bs with
    | nil => simp [byteBits] at hS
    | cons y r =>
      have hy : d ix = y := by
        unfold stuff at ha
        split at ha
        · rename_i hy; rw [ha.head, hy]
        · exact ha.head
      have hy256 := hd ix
      rw [hy] at hy256
      have e : nextbit d (b, 0, ix) = (y / 2 ^ 7, y * 2 % 2 ^ 8, 7, if y = 0xff then ix + 1 + 1 else ix + 1) := by
        unfold nextbit; simp [hy]
      rw [e]
      have hS' : x :: S <+: (toBits 8 y).take (7 + 1) ++ byteBits r := by
        rw [List.take_of_length_le (by simp)]
        simpa [byteBits] using hS
      dsimp only
      by_cases h255 : y = 255
      · rw [stuff, if_pos h255] at ha hE
        rw [if_pos h255]
        obtain ⟨g1, g2⟩ := core y 7 (ix + 1 + 1) r hy256 (by decide) ha.tail.tail hS' (by simp only [List.length_cons] at hE; omega)
        exact ⟨g1, g2, Nat.mod_lt _ (by decide)⟩
      · rw [stuff, if_neg h255] at ha hE
        rw [if_neg h255]
        obtain ⟨g1, g2⟩ := core y 7 (ix + 1) r hy256 (by decide) ha.tail hS' (by simp only [List.length_cons] at hE; omega)
        exact ⟨g1, g2, Nat.mod_lt _ (by decide)⟩
  · obtain ⟨cnt, rfl⟩ : ∃ m, cnt = m + 1 := ⟨cnt - 1, by omega⟩
    have e : nextbit d (b, cnt + 1, ix) = (b / 2 ^ 7, b * 2 % 2 ^ 8, cnt, ix) := by
      unfold nextbit; simp
    rw [e]
    obtain ⟨g1, g2⟩ := core b cnt ix bs hb (by omega) ha hS hE
    exact ⟨g1, g2, h256⟩

theorem bit_step (e m : Nat) : e / 2 ^ (m + 1) * 2 + (e.testBit m).toNat = e / 2 ^ m := by
  rw [Nat.toNat_testBit, Nat.pow_succ, ← Nat.div_div_eq_div_mul]
  have := Nat.div_add_mod (e / 2 ^ m) 2
  omega

theorem receive_rep {d : Nat → Nat} (hd : ∀ k, d k < 256) {E e : Nat} {S : List Bool} : ∀ (n m : Nat) (v : Nat × Nat × Nat), v.1 < 256 →
    SRep d E v (toBits (n + m) e ++ S) → e < 2 ^ (n + m) →
    (receive d n v).1 = e / 2 ^ m ∧ SRep d E (receive d n v).2 (toBits m e ++ S) ∧ (receive d n v).2.1 < 256
  | 0, m, v, hv, h, he => by
    rw [Nat.zero_add] at h he
    exact ⟨by show 0 = _; rw [Nat.div_eq_of_lt he], h, hv⟩
  | n + 1, m, v, hv, h, he => by
    rw [show n + 1 + m = n + (m + 1) by omega] at h he
    obtain ⟨h1, h2, h3⟩ := receive_rep hd n (m + 1) v hv h he
    rw [toBits, List.cons_append] at h2
    obtain ⟨g1, g2, g3⟩ := nextbit_rep hd h3 h2
    refine ⟨?_, g2, g3⟩
    show (receive d n v).1 * 2 + (nextbit d (receive d n v).2).1 = _
    rw [h1, g1, bit_step]

theorem search_rep {d : Nat → Nat} (hd : ∀ k, d k < 256) {E len e : Nat} {S : List Bool} {t : Tab} (hlen : len ≤ 16)
    (hgt : ∀ i, 1 ≤ i → i < len → ((e / 2 ^ (len - i) : Nat) : Int) > t.maxcode i) (hle : (e : Int) ≤ t.maxcode len) :
    ∀ (m i fuel : Nat) (v : Nat × Nat × Nat), i + m = len → 1 ≤ i → m < fuel → v.1 < 256 → SRep d E v (toBits m e ++ S) →
      ∃ v', search t d fuel i (e / 2 ^ m) v = some (len, e, v') ∧ SRep d E v' S ∧ v'.1 < 256 := by
  intro m
  induction m with
  | zero =>
    intro i fuel v hi h1 hf hv h
    obtain ⟨fuel, rfl⟩ : ∃ n, fuel = n + 1 := ⟨fuel - 1, by omega⟩
    rw [Nat.add_zero] at hi
    subst hi
    refine ⟨v, ?_, h, hv⟩
    rw [Nat.pow_zero, Nat.div_one, search, if_neg (by omega), if_neg (by omega)]
  | succ m ih =>
    intro i fuel v hi h1 hf hv h
    obtain ⟨fuel, rfl⟩ : ∃ n, fuel = n + 1 := ⟨fuel - 1, by omega⟩
    rw [toBits, List.cons_append] at h
    obtain ⟨g1, g2, g3⟩ := nextbit_rep hd hv h
    obtain ⟨v', k1, k2⟩ := ih (i + 1) fuel (nextbit d v).2 (by omega) (by omega) (by omega) g3 g2
    have := hgt i h1 (by omega)
    rw [show len - i = m + 1 by omega] at this
    refine ⟨v', ?_, k2⟩
    rw [search, if_neg (by omega), if_pos this]
    dsimp only
    rw [g1, bit_step]
    exact k1

/-! ### Canonical codes and the tables -/

theorem huffSizes_split (c : Nat → Nat) : ∀ (n k s : Nat), (huffSizes c n)[k]? = some s →
    ∃ v, v < c (s - 1) ∧ k = (huffSizes c (s - 1)).length + v ∧ 1 ≤ s ∧ s ≤ n
  | 0, k, s, h => by simp [huffSizes] at h
  | n + 1, k, s, h => by
    rw [huffSizes_succ] at h
    by_cases hk : k < (huffSizes c n).length
    · rw [List.getElem?_append_left hk] at h
      obtain ⟨v, h1, h2, h3, h4⟩ := huffSizes_split c n k s h
      exact ⟨v, h1, h2, h3, by omega⟩
    · rw [List.getElem?_append_right (by omega)] at h
      obtain ⟨h1, h2⟩ := List.getElem?_eq_some_iff.1 h
      rw [List.length_replicate] at h1
      rw [List.getElem_replicate] at h2
      subst h2
      exact ⟨k - (huffSizes c n).length, by rw [Nat.add_sub_cancel]; exact h1, by rw [Nat.add_sub_cancel]; omega, by omega, by omega⟩

theorem codeAt_start (c : Nat → Nat) {k s : Nat} (hk : (huffSizes c 16)[k]? = some s) : codeAt c k * 2 ^ (16 - s) = start 16 (huffSizes c 16) k := by
  have hpw : (0 :: huffSizes c 16).Pairwise (· ≤ ·) := by
    rw [List.pairwise_cons]; exact ⟨fun a _ => Nat.zero_le a, huffSizes_mono c 16⟩
  have hlt := (List.getElem?_eq_some_iff.1 hk).1
  obtain ⟨e, a1, a2, a3⟩ := huffCodes_start 16 (huffSizes c 16) 0 0 k hpw (fun x hx => (huffSizes_le c 16 x hx).2) hlt (Nat.zero_le _)
  rw [hk] at a2
  injection a2 with a2
  subst a2
  unfold codeAt
  rw [List.getD_eq_getElem?_getD, a1]
  simp only [Option.getD_some]
  rw [a3]; simp

/-- Codes of the same length follow each other. -/
theorem codeAt_run (c : Nat → Nat) {s : Nat} (h1 : 1 ≤ s) (h16 : s ≤ 16) : ∀ v, v < c (s - 1) →
    codeAt c ((huffSizes c (s - 1)).length + v) = codeAt c (huffSizes c (s - 1)).length + v
  | 0, _ => rfl
  | v + 1, h => by
    have ih := codeAt_run c h1 h16 v (by omega)
    have e1 := huffSizes_getD c 16 (s - 1) v (by omega) (by omega)
    have e2 := huffSizes_getD c 16 (s - 1) (v + 1) (by omega) h
    rw [show s - 1 + 1 = s by omega] at e1 e2
    have s1 := codeAt_start c e1
    have s2 := codeAt_start c e2
    rw [show (huffSizes c (s - 1)).length + (v + 1) = (huffSizes c (s - 1)).length + v + 1 by omega] at s2 ⊢
    rw [start_succ e1, ← s1] at s2
    have hp := Nat.two_pow_pos (16 - s)
    have : codeAt c ((huffSizes c (s - 1)).length + v + 1) * 2 ^ (16 - s) = (codeAt c ((huffSizes c (s - 1)).length + v) + 1) * 2 ^ (16 - s) := by
      rw [s2, Nat.add_mul, Nat.one_mul]
    have := Nat.eq_of_mul_eq_mul_right hp this
    omega

/-- The code number `k` of length `s`, cut to a shorter length that is in use, is beyond the last code of that length. -/
theorem code_beyond (c : Nat → Nat) {k s i : Nat} (hk : (huffSizes c 16)[k]? = some s) (h1 : 1 ≤ i) (hi : i < s) (hc : c (i - 1) ≠ 0) :
    codeAt c ((huffSizes c (i - 1)).length + c (i - 1) - 1) < codeAt c k / 2 ^ (s - i) := by
  obtain ⟨v, v1, v2, v3, v4⟩ := huffSizes_split c 16 k s hk
  have e1 := huffSizes_getD c 16 (i - 1) (c (i - 1) - 1) (by omega) (by omega)
  rw [show i - 1 + 1 = i by omega, show (huffSizes c (i - 1)).length + (c (i - 1) - 1) = (huffSizes c (i - 1)).length + c (i - 1) - 1 by omega] at e1
  have hl := huffSizes_len_mono c i (s - 1) (by omega)
  have hsucc := huffSizes_succ c (i - 1)
  rw [show i - 1 + 1 = i by omega] at hsucc
  rw [hsucc, List.length_append, List.length_replicate] at hl
  generalize hq : (huffSizes c (i - 1)).length + c (i - 1) - 1 = q at *
  have s1 := codeAt_start c e1
  have s2 := codeAt_start c hk
  have m := start_mono 16 (huffSizes c 16) (show q + 1 ≤ k by omega)
  rw [start_succ e1, ← s1, ← s2] at m
  have hpow : 2 ^ (16 - i) = 2 ^ (s - i) * 2 ^ (16 - s) := by rw [← Nat.pow_add]; congr 1; omega
  have m2 : (codeAt c q + 1) * 2 ^ (s - i) * 2 ^ (16 - s) ≤ codeAt c k * 2 ^ (16 - s) := by
    rw [Nat.mul_assoc, ← hpow, Nat.add_mul, Nat.one_mul]; exact m
  have m3 := Nat.le_of_mul_le_mul_right m2 (Nat.two_pow_pos _)
  have := (Nat.le_div_iff_mul_le (Nat.two_pow_pos (s - i))).2 m3
  omega

/-- The code number `k` is found. -/
theorem decodeClass_rep {d : Nat → Nat} (hd : ∀ k, d k < 256) {c vals : Nat → Nat} {n : Nat} {t : Tab} (ht : TabOk t c vals n)
    (hn : (huffSizes c 16).length = n) {E k s : Nat} {S : List Bool} (hk : (huffSizes c 16)[k]? = some s) (hfit : codeAt c k < 2 ^ s)
    {v : Nat × Nat × Nat} (hv : v.1 < 256) (h : SRep d E v (toBits s (codeAt c k) ++ S)) :
    ∃ v', decodeClass t d v = some (vals k, v') ∧ SRep d E v' S ∧ v'.1 < 256 := by
  obtain ⟨w, w1, w2, w3, w4⟩ := huffSizes_split c 16 k s hk
  have hkn : k < n := by rw [← hn]; exact (List.getElem?_eq_some_iff.1 hk).1
  obtain ⟨t1, t2, t3⟩ := ht.some s w3 w4 (by omega)
  have r1 := codeAt_run c w3 w4 w w1
  have r2 := codeAt_run c w3 w4 (c (s - 1) - 1) (by omega)
  rw [show (huffSizes c (s - 1)).length + (c (s - 1) - 1) = (huffSizes c (s - 1)).length + c (s - 1) - 1 by omega] at r2
  rw [← w2] at r1
  generalize he : codeAt c k = e at *
  obtain ⟨m, rfl⟩ : ∃ m, s = m + 1 := ⟨s - 1, by omega⟩
  rw [toBits, List.cons_append] at h
  obtain ⟨g1, g2, g3⟩ := nextbit_rep hd hv h
  obtain ⟨v', k1, k2, k3⟩ := search_rep hd (t := t) (len := m + 1) (e := e) (S := S) (E := E) w4 (fun i i1 i2 => by
      by_cases hz : c (i - 1) = 0
      · rw [ht.none i i1 (by omega) hz]; generalize e / 2 ^ (m + 1 - i) = z; omega
      · rw [(ht.some i i1 (by omega) hz).2.2]
        have := code_beyond c hk i1 i2 hz
        rw [he] at this
        omega) (by rw [t3]; omega) m 1 17 (nextbit d v).2 (by omega) (by omega) (by omega) g3 g2
  have hfirst : (nextbit d v).1 = e / 2 ^ m := by
    rw [g1, ← bit_step, Nat.div_eq_of_lt hfit]; omega
  refine ⟨v', ?_, k2, k3⟩
  unfold decodeClass
  dsimp only
  rw [hfirst, k1]
  dsimp only
  have hj : t.valptr (m + 1) + (e : Int) - t.mincode (m + 1) = (k : Int) := by rw [t1, t2]; omega
  rw [hj, ht.num, if_pos ⟨by omega, by omega⟩, Int.toNat_natCast, ht.val k hkn]

theorem nextdiff_slow (ub : Int) {s : Ljp} (hd : ∀ k, s.data k < 256) {c vals : Nat → Nat} {n : Nat} {tab : Tab} (ht : TabOk tab c vals n)
    (hn : (huffSizes c 16).length = n) {E k l e : Nat} {S : List Bool} (hk : (huffSizes c 16)[k]? = some l) (hfit : codeAt c k < 2 ^ l)
    (he : e < 2 ^ vals k) (hb : s.b < 256) (h : SRep s.data E (s.b, s.cnt, s.ix) (toBits l (codeAt c k) ++ (toBits (vals k) e ++ S))) :
    ∃ s', nextdiff ub (some tab) s = some (s', extend (vals k) e) ∧ SRep s.data E (s'.b, s'.cnt, s'.ix) S ∧ s'.b < 256 ∧
      s' = { s with b := s'.b, cnt := s'.cnt, ix := s'.ix } := by
  obtain ⟨v, v1, v2, v3⟩ := decodeClass_rep hd ht hn hk hfit hb h
  obtain ⟨r1, r2, r3⟩ := receive_rep hd (E := E) (e := e) (S := S) (vals k) 0 v v3 (by rw [Nat.add_zero]; exact v2) (by rw [Nat.add_zero]; exact he)
  rw [Nat.pow_zero, Nat.div_one] at r1
  rw [toBits, List.nil_append] at r2
  refine ⟨{ s with b := (receive s.data (vals k) v).2.1, cnt := (receive s.data (vals k) v).2.2.1, ix := (receive s.data (vals k) v).2.2.2 },
    ?_, r2, r3, rfl⟩
  unfold nextdiff
  dsimp only
  rw [v1]
  dsimp only
  rw [r1]
  congr 2
  generalize vals k = t at *
  unfold extend
  by_cases h0 : t = 0
  · subst h0
    have : e = 0 := by simpa using he
    subst this
    simp
  · rw [if_neg h0, if_neg h0]
    have hp : ((2 : Int) ^ (t - 1)) = ((2 ^ (t - 1) : Nat) : Int) := by simp
    by_cases hlt : 2 ^ (t - 1) ≤ e
    · rw [if_neg (by rw [hp]; omega), if_pos hlt]
    · rw [if_pos (by rw [hp]; omega), if_neg hlt]; omega

end Model.Lj92.Slow
