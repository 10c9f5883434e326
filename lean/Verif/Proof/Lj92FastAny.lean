/- Helper lemmas about the lj92 decoder (normal build): reading differences from any data. -/
import Verif.Proof.Lj92SlowAny
import Verif.Proof.Lj92SlowOpen

set_option autoImplicit false

namespace Model.Lj92.Slow
open Spec Model.Lj92 Model.Lj92.Seg

theorem bitsAt_add (d : Nat → Nat) (ix m a : Nat) : ∀ b, bitsAt d ix m (a + b) = bitsAt d ix m a * 2 ^ b + bitsAt d ix (m + a) b
  | 0 => by simp [bitsAt]
  | b + 1 => by
    rw [← Nat.add_assoc, bitsAt, bitsAt_add d ix m a b, bitsAt, Nat.pow_succ, Nat.add_assoc m a b, ← Nat.mul_assoc, Nat.mul_add]
    omega

theorem bitsAt_lt (d : Nat → Nat) (ix m : Nat) : ∀ n, bitsAt d ix m n < 2 ^ n
  | 0 => by simp [bitsAt]
  | n + 1 => by
    have := bitsAt_lt d ix m n
    have h2 : bitAt d ix (m + n) < 2 := Nat.mod_lt _ (by decide)
    rw [bitsAt, Nat.pow_succ]; omega

theorem bitsAt_byte {d : Nat → Nat} (hd : ∀ k, d k < 256) {ix M : Nat} (hM : M % 8 = 0) :
    bitsAt d ix M 8 = d (bytePlace d ix (M / 8)) := by
  have : ∀ k, k ≤ 8 → bitsAt d ix M k = d (bytePlace d ix (M / 8)) / 2 ^ (8 - k) := by
    intro k
    induction k with
    | zero => intro _; have := hd (bytePlace d ix (M / 8)); rw [bitsAt]; omega
    | succ k ih =>
      intro hk
      rw [bitsAt, ih (by omega), bitAt, show (M + k) / 8 = M / 8 by omega, show (M + k) % 8 = k by omega, show 8 - k = (7 - k) + 1 by omega,
        Nat.pow_succ, ← Nat.div_div_eq_div_mul, show 8 - (k + 1) = 7 - k by omega]
      omega
  rw [this 8 (Nat.le_refl _)]; simp

/-- The reader of the normal build has read `m` bits; `cnt` further ones are in `b`. -/
structure FHolds (d : Nat → Nat) (ix0 m : Nat) (v : Nat × Nat × Nat) : Prop where
  b : v.1 = bitsAt d ix0 m v.2.1
  byte : (m + v.2.1) % 8 = 0
  ix : v.2.2 = bytePlace d ix0 ((m + v.2.1) / 8)

theorem load_any {d : Nat → Nat} (hd : ∀ k, d k < 256) {ix0 m : Nat} {v : Nat × Nat × Nat} (h : FHolds d ix0 m v) (hc : v.2.1 ≤ 15) :
    FHolds d ix0 m (load d v) ∧ v.2.1 < (load d v).2.1 ∧ (load d v).2.1 ≤ 31 := by
  obtain ⟨b, cnt, ix⟩ := v
  obtain ⟨h1, h2, h3⟩ := h
  dsimp only at h1 h2 h3 hc
  have hlt := bitsAt_lt d ix0 m cnt
  have hp : 2 ^ cnt ≤ 2 ^ 15 := Nat.pow_le_pow_right (by decide) hc
  have hone := hd ix
  have htwo := hd (ix + 1)
  have hb := bitsAt_byte hd (ix := ix0) h2
  rw [← h3] at hb
  have h8 := bitsAt_add d ix0 m cnt 8
  rw [hb, ← h1] at h8
  have hnx : bytePlace d ix0 ((m + cnt) / 8 + 1) = if d ix = 0xFF then ix + 2 else ix + 1 := by rw [bytePlace, ← h3]
  unfold load
  dsimp only
  by_cases e1 : d ix = 0xFF
  · rw [if_pos e1]
    rw [if_pos e1] at hnx
    refine ⟨⟨?_, ?_, ?_⟩, by show cnt < cnt + 16 - 8; omega, by show cnt + 16 - 8 ≤ 31; omega⟩
    · show (b * 2 ^ 16 % 2 ^ 32 + d ix * 2 ^ 8 + d (ix + 1)) / 2 ^ 8 = bitsAt d ix0 m (cnt + 16 - 8)
      rw [show cnt + 16 - 8 = cnt + 8 by omega, h8]
      omega
    · show (m + (cnt + 16 - 8)) % 8 = 0; omega
    · show ix + 2 = bytePlace d ix0 ((m + (cnt + 16 - 8)) / 8)
      rw [show (m + (cnt + 16 - 8)) / 8 = (m + cnt) / 8 + 1 by omega, hnx]
  · rw [if_neg e1]
    rw [if_neg e1] at hnx
    have hb2 := bitsAt_byte hd (ix := ix0) (M := m + cnt + 8) (by omega)
    rw [show (m + cnt + 8) / 8 = (m + cnt) / 8 + 1 by omega, hnx] at hb2
    have h16 := bitsAt_add d ix0 m (cnt + 8) 8
    rw [← Nat.add_assoc m, hb2, h8] at h16
    have hnx2 : bytePlace d ix0 ((m + cnt) / 8 + 1 + 1) = if d (ix + 1) = 0xFF then ix + 1 + 2 else ix + 1 + 1 := by rw [bytePlace, hnx]
    have hbb : b * 2 ^ 16 % 2 ^ 32 + d ix * 2 ^ 8 + d (ix + 1) = bitsAt d ix0 m (cnt + 16) := by
      rw [show cnt + 16 = cnt + 8 + 8 by omega, h16]
      omega
    by_cases e2 : d (ix + 1) = 0xFF
    · rw [if_pos e2]
      rw [if_pos e2] at hnx2
      refine ⟨⟨hbb, ?_, ?_⟩, by show cnt < cnt + 16; omega, by show cnt + 16 ≤ 31; omega⟩
      · show (m + (cnt + 16)) % 8 = 0; omega
      · show ix + 2 + 1 = bytePlace d ix0 ((m + (cnt + 16)) / 8)
        rw [show (m + (cnt + 16)) / 8 = (m + cnt) / 8 + 1 + 1 by omega, hnx2]
    · rw [if_neg e2]
      rw [if_neg e2] at hnx2
      refine ⟨⟨hbb, ?_, ?_⟩, by show cnt < cnt + 16; omega, by show cnt + 16 ≤ 31; omega⟩
      · show (m + (cnt + 16)) % 8 = 0; omega
      · show ix + 2 = bytePlace d ix0 ((m + (cnt + 16)) / 8)
        rw [show (m + (cnt + 16)) / 8 = (m + cnt) / 8 + 1 + 1 by omega, hnx2]

theorem refill_any {d : Nat → Nat} (hd : ∀ k, d k < 256) {ix0 m n : Nat} (hn : n ≤ 16) {v : Nat × Nat × Nat} (h : FHolds d ix0 m v) (hc : v.2.1 ≤ 31) :
    ∃ v', refill d n v = some v' ∧ FHolds d ix0 m v' ∧ n ≤ v'.2.1 ∧ v'.2.1 ≤ 31 := by
  obtain ⟨v', h1, ⟨h2, h3⟩, h4⟩ := whileN_inv (step := fun v : Nat × Nat × Nat => if v.2.1 < n then some (load d v) else none)
    (I := fun v => FHolds d ix0 m v ∧ v.2.1 ≤ 31) (fun v => n - v.2.1) (by
      intro s s' hs hstep
      split at hstep
      · rename_i hlt
        simp only [Option.some.injEq] at hstep
        subst hstep
        obtain ⟨a, b, c⟩ := load_any hd hs.1 (by omega)
        exact ⟨⟨a, c⟩, by omega⟩
      · simp at hstep) 64 v ⟨h, hc⟩ (by omega)
  refine ⟨v', h1, h2, ?_, h3⟩
  refine Classical.byContradiction fun hlt => ?_
  rw [if_pos (by omega)] at h4
  simp at h4

theorem take_any {d : Nat → Nat} {ix0 m k : Nat} {b cnt ix : Nat} (h : FHolds d ix0 m (b, cnt, ix)) (hk : k ≤ cnt) :
    b / 2 ^ (cnt - k) = bitsAt d ix0 m k ∧ FHolds d ix0 (m + k) (b % 2 ^ (cnt - k), cnt - k, ix) := by
  obtain ⟨h1, h2, h3⟩ := h
  dsimp only at h1 h2 h3
  have hs := bitsAt_add d ix0 m k (cnt - k)
  rw [show k + (cnt - k) = cnt by omega, ← h1] at hs
  have hlt := bitsAt_lt d ix0 (m + k) (cnt - k)
  refine ⟨?_, ?_, ?_, ?_⟩
  · rw [hs, Nat.mul_comm, Nat.mul_add_div (Nat.two_pow_pos _), Nat.div_eq_of_lt hlt, Nat.add_zero]
  · show b % 2 ^ (cnt - k) = bitsAt d ix0 (m + k) (cnt - k)
    rw [hs, Nat.add_comm, Nat.add_mul_mod_self_right, Nat.mod_eq_of_lt hlt]
  · show (m + k + (cnt - k)) % 8 = 0
    rw [show m + k + (cnt - k) = m + cnt by omega]; exact h2
  · show ix = bytePlace d ix0 ((m + k + (cnt - k)) / 8)
    rw [show m + k + (cnt - k) = m + cnt by omega]; exact h3

theorem fast_any (ub : Int) {s : Ljp} (hd : ∀ k, s.data k < 256) {ix0 m len t : Nat} (hh : s.huffbits ≤ 16)
    (hl : LutOk s.hufflut s.huffbits (toBits len (bitsAt s.data ix0 m len)) t) (ht : t ≤ 15) (hc : s.cnt ≤ 31)
    (h : FHolds s.data ix0 m (s.b, s.cnt, s.ix)) :
    ∃ s', Lj92.nextdiff ub s = some (s', if t = 0 then 0
        else if bitsAt s.data ix0 (m + len) t < 2 ^ (t - 1) then (bitsAt s.data ix0 (m + len) t : Int) - 2 ^ t + 1 else bitsAt s.data ix0 (m + len) t) ∧
      FHolds s.data ix0 (m + len + t) (s'.b, s'.cnt, s'.ix) ∧ s'.cnt ≤ 31 ∧ s' = { s with b := s'.b, cnt := s'.cnt, ix := s'.ix } := by
  obtain ⟨hw, hl⟩ := hl
  rw [toBits_length] at hw hl
  rw [ofBits_toBits, Nat.mod_eq_of_lt (bitsAt_lt ..)] at hl
  obtain ⟨⟨b1, c1, i1⟩, r1, r2, r3, r4⟩ := refill_any hd hh h hc
  dsimp only at r3 r4
  obtain ⟨q1, _⟩ := take_any r2 r3
  obtain ⟨_, q2⟩ := take_any r2 (show len ≤ c1 by omega)
  have hidx := bitsAt_add s.data ix0 m len (s.huffbits - len)
  rw [show len + (s.huffbits - len) = s.huffbits by omega, ← q1] at hidx
  have hlut := hl _ (bitsAt_lt s.data ix0 (m + len) (s.huffbits - len))
  rw [← hidx] at hlut
  have u1 : (t * 256 + len) % 2 ^ 16 = t * 256 + len := Nat.mod_eq_of_lt (by omega)
  have u2 : (t * 256 + len) % 2 ^ 8 = len := by omega
  have u3 : (t * 256 + len) / 2 ^ 8 = t := by omega
  obtain ⟨⟨b2, c2, i2⟩, v1, v2, v3, v4⟩ := refill_any hd (n := t) (by omega) q2 (by dsimp only; omega)
  dsimp only at v3 v4
  obtain ⟨z1, z2⟩ := take_any v2 v3
  refine ⟨{ s with b := b2 % 2 ^ (c2 - t), cnt := c2 - t, ix := i2 }, ?_, z2, by show c2 - t ≤ 31; omega, rfl⟩
  unfold Lj92.nextdiff
  rw [r1]
  dsimp only
  rw [hlut, u1, u2, u3, v1]
  dsimp only
  rw [z1]
  congr 2
  by_cases h0 : t = 0
  · subst h0
    rw [if_pos rfl, if_pos rfl]
    show (if ((0 : Nat) : Int) < ub then ((0 : Nat) : Int) + (-2 ^ 0 + 1) else ((0 : Nat) : Int)) = 0
    split <;> simp
  · rw [if_neg h0, if_neg h0]
    by_cases hlt : bitsAt s.data ix0 (m + len) t < 2 ^ (t - 1)
    · rw [if_pos hlt, if_pos (by exact_mod_cast hlt)]; omega
    · rw [if_neg hlt, if_neg (by exact_mod_cast hlt)]

/-! ### Two memories that agree on the scan data -/

theorem bytePlace_ge (d : Nat → Nat) (ix : Nat) : ∀ n, ix ≤ bytePlace d ix n
  | 0 => Nat.le_refl _
  | n + 1 => by
    have := bytePlace_ge d ix n
    rw [bytePlace]; split <;> omega

theorem bytePlace_agree {d e : Nat → Nat} {ix : Nat} (h : ∀ k, ix ≤ k → d k = e k) : ∀ n, bytePlace d ix n = bytePlace e ix n
  | 0 => rfl
  | n + 1 => by rw [bytePlace, bytePlace, bytePlace_agree h n, h _ (bytePlace_ge e ix n)]

theorem bitAt_agree {d e : Nat → Nat} {ix : Nat} (h : ∀ k, ix ≤ k → d k = e k) (n : Nat) : bitAt d ix n = bitAt e ix n := by
  unfold bitAt
  rw [bytePlace_agree h, h _ (bytePlace_ge ..)]

theorem bitsAt_agree {d e : Nat → Nat} {ix : Nat} (h : ∀ k, ix ≤ k → d k = e k) (m : Nat) : ∀ n, bitsAt d ix m n = bitsAt e ix m n
  | 0 => rfl
  | n + 1 => by rw [bitsAt, bitsAt, bitsAt_agree h m n, bitAt_agree h]

theorem diffs_agree {codes : List (Nat × Nat)} {vals : Nat → Nat} {n : Nat} {d e : Nat → Nat} {ix : Nat} (h : ∀ k, ix ≤ k → d k = e k) :
    ∀ {l : List Int} {m m' : Nat}, Differences codes vals n d ix m l m' → Differences codes vals n e ix m l m'
  | [], _, _, hd => hd
  | x :: l, m, m', hd => by
    obtain ⟨m1, ⟨j, len, ⟨f1, f2⟩, f3, f4, f5⟩, h2⟩ := hd
    refine ⟨m1, ⟨j, len, ⟨?_, ?_⟩, f3, f4, ?_⟩, diffs_agree h h2⟩
    · rw [← bitsAt_agree h]; exact f1
    · intro e he hlt
      rw [← bitsAt_agree h]; exact f2 e he hlt
    · rw [← bitsAt_agree h]; exact f5

/-! ### The two builds on any scan data -/

/-- What the two builds have in common between samples. -/
structure Same (x y : Ljp) (ix0 : Nat) (v w : Ljp × Int) : Prop where
  data : v.1.data = x.data
  data' : w.1.data = y.data
  lut : v.1.hufflut = x.hufflut ∧ v.1.huffbits = x.huffbits
  dims : v.1.x = w.1.x ∧ v.1.components = w.1.components ∧ v.1.bits = w.1.bits ∧ v.1.skiplen = w.1.skiplen
  rows : v.1.rowcache = w.1.rowcache
  image : v.1.image = w.1.image
  left : v.2 = w.2
  cnt : v.1.cnt ≤ 31
  at' : ∃ m, FHolds x.data ix0 m (v.1.b, v.1.cnt, v.1.ix) ∧ Stands y.data ix0 m (w.1.b, w.1.cnt, w.1.ix)

/-- What the tables of the two builds must have in common. -/
structure Tables (x : Ljp) (t : Tab) (c vals : Nat → Nat) (n : Nat) : Prop where
  ok : TabOk t c vals n
  hb : x.huffbits ≤ 16
  lut : ∀ j e, (huffCodes 0 0 (huffSizes c 16))[j]? = some e → j < n → vals j ≤ 15 ∧ LutOk x.hufflut x.huffbits (toBits e.1 e.2) (vals j)

theorem body_same {x y : Ljp} {t : Tab} {c vals : Nat → Nat} {n ix0 : Nat} (hT : Tables x t c vals n) (hx : ∀ k, x.data k < 256) (hy : ∀ k, y.data k < 256)
    (hag : ∀ k, ix0 ≤ k → x.data k = y.data k) (ub : Int) (lin : Option Lin) (pred row col k : Nat) {v w w' : Ljp × Int} (h : Same x y ix0 v w)
    (e : body ub (some t) lin pred row col k w = some w') : ∃ v', Lj92.body ub lin pred row col k v = some v' ∧ Same x y ix0 v' w' := by
  obtain ⟨s, left⟩ := w
  obtain ⟨f, left'⟩ := v
  obtain ⟨h1, h2, ⟨h3, h4⟩, ⟨d1, d2, d3, d4⟩, h5, h6, h7, h8, m, hF, hS⟩ := h
  dsimp only at h1 h2 h3 h4 d1 d2 d3 d4 h5 h6 h7 h8 hF hS
  subst h7
  have key := nextdiff_any hT.ok (s := s) (by rw [h2]; exact hy) (ix0 := ix0) (m := m) (by rw [h2]; exact hS) ub
  unfold body at e
  dsimp only at e
  cases hn : nextdiff ub (some t) s with
  | none => rw [hn] at e; simp at e
  | some r =>
    obtain ⟨s', diff⟩ := r
    rw [hn] at key e
    obtain ⟨m', ⟨j, len, f1, f2, rfl, f4⟩, g2, g3⟩ := key
    have es : s'.data = y.data := by rw [g3]; exact h2
    rw [es] at g2
    rw [h2] at f1 f4
    obtain ⟨l1, l2⟩ := hT.lut _ _ f1.1 f2
    rw [← bitsAt_agree hag] at f4
    have f1' := f1.1
    rw [← bitsAt_agree hag] at l2
    obtain ⟨f', k1, k2, k3, k4⟩ := fast_any ub (s := f) (ix0 := ix0) (m := m) (len := len) (t := vals j) (by rw [h1]; exact hx) (by rw [h4]; exact hT.hb)
      (by rw [h1, h3, h4]; exact l2) l1 h8 (by rw [h1]; exact hF)
    rw [h1, ← f4] at k1
    have ef : f'.data = x.data := by rw [k4]; exact h1
    have hpx : px f pred left' row col k = px s pred left' row col k := by
      unfold px thisrow lastrow
      dsimp only
      rw [h5, d1, d2, d3]
    have a1 : f'.x = s'.x := by rw [k4, g3]; exact d1
    have a2 : f'.components = s'.components := by rw [k4, g3]; exact d2
    have a3 : f'.bits = s'.bits := by rw [k4, g3]; exact d3
    have a4 : f'.skiplen = s'.skiplen := by rw [k4, g3]; exact d4
    have a5 : f'.rowcache = s'.rowcache := by rw [k4, g3]; exact h5
    have a6 : f'.image = s'.image := by rw [k4, g3]; exact h6
    have a7 : f'.hufflut = x.hufflut := by rw [k4]; exact h3
    have a8 : f'.huffbits = x.huffbits := by rw [k4]; exact h4
    have at1 : thisrow f' row = thisrow s' row := by unfold thisrow; rw [a1]
    rw [h1] at k2
    unfold Lj92.body
    dsimp only at e ⊢
    rw [k1]
    dsimp only
    rw [hpx, a1, a2, a4, a5, a6, at1]
    split at e
    · simp at e
    · rename_i hbe
      simp only [Option.some.injEq] at e
      rw [if_neg hbe, ← e]
      exact ⟨_, rfl, ef, es, ⟨a7, a8⟩, ⟨rfl, rfl, a3, rfl⟩, rfl, rfl, rfl, k3, _, k2, g2⟩

theorem forN_same {x y : Ljp} {ix0 : Nat} {f g : Nat → Ljp × Int → Option (Ljp × Int)}
    (hfg : ∀ i v w w', Same x y ix0 v w → g i w = some w' → ∃ v', f i v = some v' ∧ Same x y ix0 v' w') :
    ∀ (q : Nat) (v w w' : Ljp × Int), Same x y ix0 v w → forN g q w = some w' → ∃ v', forN f q v = some v' ∧ Same x y ix0 v' w'
  | 0, v, w, w', h, e => by
    rw [forN, Option.some.injEq] at e
    subst e
    exact ⟨v, rfl, h⟩
  | q + 1, v, w, w', h, e => by
    rw [forN] at e
    obtain ⟨w1, e1, e2⟩ := Option.bind_eq_some_iff.1 e
    obtain ⟨v1, g1, g2⟩ := forN_same hfg q v w w1 h e1
    obtain ⟨v', g3, g4⟩ := hfg q v1 w1 w' g2 e2
    exact ⟨v', by rw [forN, g1]; exact g3, g4⟩

/-! ### The memory behind the header -/

/-! ### The length of the file is not touched either -/

theorem find_len {s s' : Ljp} {m : Nat} (h : find s = some (s', m)) : s'.datalen = s.datalen := by
  unfold find at h
  split at h
  · simp at h
  · split at h
    · simp at h
    · simp only [Option.some.injEq, Prod.mk.injEq] at h; rw [← h.1]

theorem block_len {s s' : Ljp} (h : parseBlock s = some s') : s'.datalen = s.datalen := by
  unfold parseBlock at h
  split at h
  · simp at h
  · simp only [Option.some.injEq] at h; rw [← h]

theorem sof_len {s s' : Ljp} (h : parseSof3 s = some s') : s'.datalen = s.datalen := by
  unfold parseSof3 at h
  split at h
  · simp at h
  · simp only [Option.some.injEq] at h; rw [← h]

theorem huff_len {s s' : Ljp} (h : Lj92.parseHuff s = some s') : s'.datalen = s.datalen := by
  unfold Lj92.parseHuff at h
  dsimp only at h
  split at h
  · simp at h
  · split at h
    · simp at h
    · simp only [Option.some.injEq] at h; rw [← h]

theorem slowHuff_len {s s' : Ljp} {t : Tab} (h : parseHuff s = some (s', t)) : s'.datalen = s.datalen := by
  unfold parseHuff at h
  dsimp only at h
  split at h
  · simp at h
  · split at h
    · simp at h
    · simp only [Option.bind_eq_some_iff, Option.map_eq_some_iff] at h
      obtain ⟨_, _, _, _, _, _, _, _, h⟩ := h
      simp only [Prod.mk.injEq] at h
      rw [← h.1]

theorem parse_len : ∀ (n : Nat) {s s' : Ljp}, Lj92.parseImage n s = some s' → s'.datalen = s.datalen
  | 0, _, _, h => by simp [Lj92.parseImage] at h
  | n + 1, s, s', h => by
    rw [Lj92.parseImage] at h
    split at h
    · simp at h
    · rename_i s1 m hf
      have e := find_len hf
      split at h
      · obtain ⟨s2, h1, h2⟩ := Option.bind_eq_some_iff.1 h
        rw [parse_len n h2, huff_len h1, e]
      · split at h
        · obtain ⟨s2, h1, h2⟩ := Option.bind_eq_some_iff.1 h
          rw [parse_len n h2, sof_len h1, e]
        · split at h
          · obtain ⟨s2, h1, h2⟩ := Option.bind_eq_some_iff.1 h
            rw [parse_len n h2, block_len h1, e]
          · split at h
            · simp only [Option.some.injEq] at h; rw [← h, e]
            · split at h
              · simp only [Option.some.injEq] at h; rw [← h]; exact e
              · obtain ⟨s2, h1, h2⟩ := Option.bind_eq_some_iff.1 h
                rw [parse_len n h2, block_len h1, e]

theorem slowParse_len : ∀ (n : Nat) {s : Ljp} {t : Option Tab} {v : Ljp × Option Tab}, parseImage n s t = some v → v.1.datalen = s.datalen
  | 0, _, _, _, h => by simp [parseImage] at h
  | n + 1, s, t, v, h => by
    rw [parseImage] at h
    split at h
    · simp at h
    · rename_i s1 m hf
      have e := find_len hf
      split at h
      · obtain ⟨⟨s2, t2⟩, h1, h2⟩ := Option.bind_eq_some_iff.1 h
        rw [slowParse_len n h2, slowHuff_len h1, e]
      · split at h
        · obtain ⟨s2, h1, h2⟩ := Option.bind_eq_some_iff.1 h
          rw [slowParse_len n h2, sof_len h1, e]
        · split at h
          · obtain ⟨s2, h1, h2⟩ := Option.bind_eq_some_iff.1 h
            rw [slowParse_len n h2, block_len h1, e]
          · split at h
            · simp only [Option.some.injEq] at h; rw [← h]; exact e
            · split at h
              · simp only [Option.some.injEq] at h; rw [← h]; exact e
              · obtain ⟨s2, h1, h2⟩ := Option.bind_eq_some_iff.1 h
                rw [slowParse_len n h2, block_len h1, e]

theorem open_len {d : Nat → Nat} {n : Nat} {mem : Nat → Nat} {s : Ljp} (h : Lj92.open' d n mem = some s) : s.datalen = n := by
  unfold Lj92.open' at h
  dsimp only at h
  split at h
  · simp at h
  · rename_i s1 m hf
    split at h
    · rw [parse_len n h, find_len hf]
    · simp at h

theorem slowOpen_len {d : Nat → Nat} {n : Nat} {v : Ljp × Option Tab} (h : open' d n = some v) : v.1.datalen = n := by
  unfold open' at h
  dsimp only at h
  split at h
  · simp at h
  · rename_i s1 m hf
    split at h
    · rw [slowParse_len n h, find_len hf]
    · simp at h

theorem fast_keep {d : Nat → Nat} : ∀ (n : Nat) {s s' : Ljp}, Lj92.parseImage n s = some s' → (∀ k, s.ix + 3 ≤ k → s.data k = d k) → s.scanstart = 0 →
    (∀ k, s'.ix + 3 ≤ k → s'.data k = d k) ∧ (s'.scanstart = s'.ix ∨ s'.scanstart = 0)
  | 0, _, _, h, _, _ => by simp [Lj92.parseImage] at h
  | n + 1, s, s', h, hd, h0 => by
    rw [Lj92.parseImage] at h
    split at h
    · simp at h
    · rename_i s1 m hf
      obtain ⟨i, h1, _, _, rfl⟩ := find_any hf
      have hd1 : ∀ k, i + 2 + 3 ≤ k → s.data k = d k := fun k hk => hd k (by omega)
      have block : ∀ {s2 : Ljp}, parseBlock { s with ix := i + 2 } = some s2 → Lj92.parseImage n s2 = some s' →
          (∀ k, s'.ix + 3 ≤ k → s'.data k = d k) ∧ (s'.scanstart = s'.ix ∨ s'.scanstart = 0) := by
        intro s2 h3 h4
        unfold parseBlock at h3
        split at h3
        · simp at h3
        · simp only [Option.some.injEq] at h3
          refine fast_keep n h4 ?_ (by rw [← h3]; exact h0)
          rw [← h3]
          intro k (hk : i + 2 + _ + 3 ≤ k)
          exact hd1 k (by omega)
      split at h
      · obtain ⟨s2, h3, h4⟩ := Option.bind_eq_some_iff.1 h
        unfold Lj92.parseHuff at h3
        dsimp only at h3
        split at h3
        · simp at h3
        · split at h3
          · simp at h3
          · simp only [Option.some.injEq] at h3
            refine fast_keep n h4 ?_ (by rw [← h3]; exact h0)
            rw [← h3]
            intro k (hk : i + 2 + 3 ≤ k)
            show put s.data (i + 2 + 2) 0 k = d k
            unfold put
            rw [if_neg (by omega)]
            exact hd1 k hk
      · split at h
        · obtain ⟨s2, h3, h4⟩ := Option.bind_eq_some_iff.1 h
          unfold parseSof3 at h3
          split at h3
          · simp at h3
          · simp only [Option.some.injEq] at h3
            refine fast_keep n h4 ?_ (by rw [← h3]; exact h0)
            rw [← h3]
            intro k (hk : i + 2 + _ + 3 ≤ k)
            exact hd1 k (by omega)
        · split at h
          · obtain ⟨s2, h3, h4⟩ := Option.bind_eq_some_iff.1 h
            exact block h3 h4
          · split at h
            · simp only [Option.some.injEq] at h; rw [← h]; exact ⟨hd1, .inr h0⟩
            · split at h
              · simp only [Option.some.injEq] at h; rw [← h]; exact ⟨hd1, .inl rfl⟩
              · obtain ⟨s2, h3, h4⟩ := Option.bind_eq_some_iff.1 h
                exact block h3 h4

theorem slow_keep {d : Nat → Nat} : ∀ (n : Nat) {s : Ljp} {t : Option Tab} {v : Ljp × Option Tab}, parseImage n s t = some v →
    (∀ k, s.ix + 3 ≤ k → s.data k = d k) → s.scanstart = 0 →
    (∀ k, v.1.ix + 3 ≤ k → v.1.data k = d k) ∧ (v.1.scanstart = v.1.ix ∨ v.1.scanstart = 0)
  | 0, _, _, _, h, _, _ => by simp [parseImage] at h
  | n + 1, s, t, v, h, hd, h0 => by
    rw [parseImage] at h
    split at h
    · simp at h
    · rename_i s1 m hf
      obtain ⟨i, h1, _, _, rfl⟩ := find_any hf
      have hd1 : ∀ k, i + 2 + 3 ≤ k → s.data k = d k := fun k hk => hd k (by omega)
      have block : ∀ {s2 : Ljp}, parseBlock { s with ix := i + 2 } = some s2 → parseImage n s2 t = some v →
          (∀ k, v.1.ix + 3 ≤ k → v.1.data k = d k) ∧ (v.1.scanstart = v.1.ix ∨ v.1.scanstart = 0) := by
        intro s2 h3 h4
        unfold parseBlock at h3
        split at h3
        · simp at h3
        · simp only [Option.some.injEq] at h3
          refine slow_keep n h4 ?_ (by rw [← h3]; exact h0)
          rw [← h3]
          intro k (hk : i + 2 + _ + 3 ≤ k)
          exact hd1 k (by omega)
      split at h
      · obtain ⟨⟨s2, t2⟩, h3, h4⟩ := Option.bind_eq_some_iff.1 h
        unfold parseHuff at h3
        dsimp only at h3
        split at h3
        · simp at h3
        · split at h3
          · simp at h3
          · simp only [Option.bind_eq_some_iff, Option.map_eq_some_iff] at h3
            obtain ⟨_, _, _, _, _, _, _, _, h3⟩ := h3
            simp only [Prod.mk.injEq] at h3
            refine slow_keep n h4 ?_ (by rw [← h3.1]; exact h0)
            rw [← h3.1]
            intro k (hk : i + 2 + _ + 3 ≤ k)
            show put s.data (i + 2 + 2) 0 k = d k
            unfold put
            rw [if_neg (by omega)]
            exact hd1 k (by omega)
      · split at h
        · obtain ⟨s2, h3, h4⟩ := Option.bind_eq_some_iff.1 h
          unfold parseSof3 at h3
          split at h3
          · simp at h3
          · simp only [Option.some.injEq] at h3
            refine slow_keep n h4 ?_ (by rw [← h3]; exact h0)
            rw [← h3]
            intro k (hk : i + 2 + _ + 3 ≤ k)
            exact hd1 k (by omega)
        · split at h
          · obtain ⟨s2, h3, h4⟩ := Option.bind_eq_some_iff.1 h
            exact block h3 h4
          · split at h
            · simp only [Option.some.injEq] at h; rw [← h]; exact ⟨hd1, .inr h0⟩
            · split at h
              · simp only [Option.some.injEq] at h; rw [← h]; exact ⟨hd1, .inl rfl⟩
              · obtain ⟨s2, h3, h4⟩ := Option.bind_eq_some_iff.1 h
                exact block h3 h4

theorem fast_tail {d : Nat → Nat} {dl : Nat} {mem : Nat → Nat} {s : Ljp} (h : Lj92.open' d dl mem = some s) :
    (∀ k, s.ix + 3 ≤ k → s.data k = d k) ∧ (s.scanstart = s.ix ∨ s.scanstart = 0) := by
  unfold Lj92.open' at h
  dsimp only at h
  split at h
  · simp at h
  · rename_i s1 m hf
    obtain ⟨i, _, _, _, rfl⟩ := find_any hf
    split at h
    · exact fast_keep dl h (fun k _ => rfl) rfl
    · simp at h

theorem slow_tail {d : Nat → Nat} {dl : Nat} {v : Ljp × Option Tab} (h : open' d dl = some v) :
    (∀ k, v.1.ix + 3 ≤ k → v.1.data k = d k) ∧ (v.1.scanstart = v.1.ix ∨ v.1.scanstart = 0) := by
  unfold open' at h
  dsimp only at h
  split at h
  · simp at h
  · rename_i s1 m hf
    obtain ⟨i, _, _, _, rfl⟩ := find_any hf
    split at h
    · exact slow_keep dl h (fun k _ => rfl) rfl
    · simp at h

end Model.Lj92.Slow
