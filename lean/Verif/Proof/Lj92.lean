/- Helper lemmas about the model of the lj92 decoder: bit reading. -/
import Verif.Model.Lj92
import Verif.Proof.Jpeg
import Verif.Spec.Bytes

set_option autoImplicit false

namespace Model.Lj92
open Spec

theorem toBits_mul_add {n k x y : Nat} (hy : y < 2 ^ k) : toBits (n + k) (x * 2 ^ k + y) = toBits n x ++ toBits k y := by
  rw [toBits_add]
  congr 1
  · rw [Nat.shiftRight_eq_div_pow, Nat.mul_comm, Nat.mul_add_div (Nat.two_pow_pos k), Nat.div_eq_of_lt hy]; rfl
  · rw [← toBits_mod (Nat.le_refl k), Nat.mul_comm, Nat.mul_add_mod, Nat.mod_eq_of_lt hy]

/-- The list `l` stands in memory from index `ix`. -/
def At (d : Nat → Nat) (ix : Nat) (l : List Nat) : Prop := ∀ k, k < l.length → d (ix + k) = l.getD k 0

theorem at_nil (d : Nat → Nat) (ix : Nat) : At d ix [] := fun k hk => by simp at hk

theorem At.head {d : Nat → Nat} {ix x : Nat} {l : List Nat} (h : At d ix (x :: l)) : d ix = x := by
  have := h 0 (by simp); simpa using this

theorem At.tail {d : Nat → Nat} {ix x : Nat} {l : List Nat} (h : At d ix (x :: l)) : At d (ix + 1) l := by
  intro k hk
  have := h (k + 1) (by simp; exact hk)
  rw [Nat.add_assoc, Nat.add_comm 1 k, this]; simp

theorem At.left {d : Nat → Nat} {ix : Nat} {l m : List Nat} (h : At d ix (l ++ m)) : At d ix l := by
  intro k hk
  have := h k (by simp; omega)
  rw [this, getD_append_lt hk]

theorem At.right {d : Nat → Nat} {ix : Nat} {l m : List Nat} (h : At d ix (l ++ m)) : At d (ix + l.length) m := by
  intro k hk
  have := h (l.length + k) (by simp; omega)
  rw [Nat.add_assoc, this]
  rw [List.getD_eq_getElem?_getD, List.getD_eq_getElem?_getD, List.getElem?_append_right (by omega), Nat.add_sub_cancel_left]

/-- The bits `S` are still to be read: those in `b` first, then those of the unread bytes; what follows is arbitrary. -/
def Rep (d : Nat → Nat) (v : Nat × Nat × Nat) (S : List Bool) : Prop :=
  v.1 < 2 ^ v.2.1 ∧ ∃ bs, At d v.2.2 (stuff bs) ∧ S <+: toBits v.2.1 v.1 ++ byteBits bs

theorem prefix_append_left {S A B : List Bool} (h : S <+: A) : S <+: A ++ B := h.trans (List.prefix_append ..)

/-- The same with the position `E` of the end of the bytes: it is not passed before all bits are in `b`. -/
def RepE (d : Nat → Nat) (E : Nat) (v : Nat × Nat × Nat) (S : List Bool) : Prop :=
  v.1 < 2 ^ v.2.1 ∧ ∃ bs, At d v.2.2 (stuff bs) ∧ S <+: toBits v.2.1 v.1 ++ byteBits bs ∧
    (v.2.2 + (stuff bs).length = E ∨ (bs = [] ∧ S.length < v.2.1))

theorem RepE.rep {d : Nat → Nat} {E : Nat} {v : Nat × Nat × Nat} {S : List Bool} (h : RepE d E v S) : Rep d v S :=
  let ⟨h1, bs, h2, h3, _⟩ := h
  ⟨h1, bs, h2, h3⟩

theorem Rep.repE {d : Nat → Nat} {v : Nat × Nat × Nat} {S : List Bool} (h : Rep d v S) : ∃ E, RepE d E v S :=
  let ⟨h1, bs, h2, h3⟩ := h
  ⟨_, h1, bs, h2, h3, Or.inl rfl⟩

theorem RepE.ix_le {d : Nat → Nat} {E : Nat} {v : Nat × Nat × Nat} {S : List Bool} (h : RepE d E v S) (hl : v.2.1 ≤ S.length) : v.2.2 ≤ E := by
  obtain ⟨_, bs, _, _, h | h⟩ := h
  · omega
  · omega

theorem load_repE {d : Nat → Nat} (hd : ∀ k, d k < 256) {E : Nat} {v : Nat × Nat × Nat} {S : List Bool} (h : RepE d E v S) (hc : v.2.1 ≤ 15) :
    RepE d E (load d v) S ∧ ((load d v).2.1 = v.2.1 + 8 ∨ (load d v).2.1 = v.2.1 + 16) := by
  obtain ⟨b, cnt, ix⟩ := v
  obtain ⟨hb, bs, ha, hS, hE⟩ := h
  dsimp only at hb ha hS hE hc
  have p1 : 2 ^ cnt ≤ 2 ^ 15 := Nat.pow_le_pow_right (by decide) hc
  have h1 := hd ix
  have h2 := hd (ix + 1)
  have e : b * 2 ^ 16 % 2 ^ 32 = b * 2 ^ 16 := Nat.mod_eq_of_lt (by omega)
  have f1 : (b * 2 ^ 16 + d ix * 2 ^ 8 + d (ix + 1)) / 2 ^ 8 = b * 2 ^ 8 + d ix := by omega
  have f2 : toBits (cnt + 8) (b * 2 ^ 8 + d ix) = toBits cnt b ++ toBits 8 (d ix) := toBits_mul_add (by omega)
  have f3 : toBits (cnt + 16) (b * 2 ^ 16 + d ix * 2 ^ 8 + d (ix + 1)) = toBits cnt b ++ toBits 8 (d ix) ++ toBits 8 (d (ix + 1)) := by
    have g : b * 2 ^ 16 + d ix * 2 ^ 8 + d (ix + 1) = (b * 2 ^ 8 + d ix) * 2 ^ 8 + d (ix + 1) := by omega
    have g' : cnt + 16 = cnt + 8 + 8 := by omega
    rw [g', g, toBits_mul_add (by omega), f2]
  have g1 : b * 2 ^ 8 + d ix < 2 ^ (cnt + 8) := by rw [Nat.pow_add]; omega
  have g2 : b * 2 ^ 16 + d ix * 2 ^ 8 + d (ix + 1) < 2 ^ (cnt + 16) := by
    rw [Nat.pow_add]
    have h16 : (2 : Nat) ^ 16 = 65536 := by decide
    have h8 : (2 : Nat) ^ 8 = 256 := by decide
    rw [h16, h8]
    have h3 : (b + 1) * 65536 ≤ 2 ^ cnt * 65536 := Nat.mul_le_mul_right _ hb
    clear e f1 f2 f3 g1 p1
    omega
  -- what the three cases do to the unread bytes
  cases bs with
  | nil =>
    simp only [byteBits, List.flatMap_nil, List.append_nil] at hS
    have hSl : S.length ≤ cnt := by simpa using hS.length_le
    unfold load
    dsimp only
    rw [e]
    split
    · refine ⟨⟨by dsimp only; rw [f1]; exact g1, [], at_nil _ _, ?_, Or.inr ⟨rfl, by dsimp only; omega⟩⟩, Or.inl rfl⟩
      dsimp only
      rw [f1, show cnt + 16 - 8 = cnt + 8 by omega, f2, List.append_assoc]
      exact prefix_append_left hS
    · split
      all_goals
        refine ⟨⟨g2, [], at_nil _ _, ?_, Or.inr ⟨rfl, by dsimp only; omega⟩⟩, Or.inr rfl⟩
        dsimp only
        rw [f3, List.append_assoc, List.append_assoc]
        exact prefix_append_left hS
  | cons x r =>
    have hx : d ix = x := by
      unfold stuff at ha
      split at ha
      · rename_i hx; rw [ha.head, hx]
      · exact ha.head
    have hE' : ix + (stuff (x :: r)).length = E := by
      rcases hE with hE | ⟨hE, _⟩
      · exact hE
      · simp at hE
    have hS' : S <+: toBits cnt b ++ toBits 8 x ++ byteBits r := by
      rw [List.append_assoc]; simpa [byteBits] using hS
    unfold load
    dsimp only
    rw [e]
    split
    · rename_i h255
      have hx2 : x = 255 := by omega
      refine ⟨⟨by dsimp only; rw [f1]; exact g1, r, ?_, ?_, Or.inl ?_⟩, Or.inl rfl⟩
      · rw [stuff, if_pos hx2] at ha
        exact ha.tail.tail
      · dsimp only
        rw [f1, show cnt + 16 - 8 = cnt + 8 by omega, f2, hx]
        exact hS'
      · rw [stuff, if_pos hx2] at hE'
        simp only [List.length_cons] at hE'
        dsimp only
        omega
    · rename_i hn
      have hx2 : x ≠ 255 := by omega
      rw [stuff, if_neg hx2] at ha hE'
      rw [List.length_cons] at hE'
      have ha' := ha.tail
      cases r with
      | nil =>
        simp only [byteBits, List.flatMap_nil, List.append_nil] at hS'
        have hSl : S.length ≤ cnt + 8 := by simpa using hS'.length_le
        split
        all_goals
          refine ⟨⟨g2, [], at_nil _ _, ?_, Or.inr ⟨rfl, by dsimp only; omega⟩⟩, Or.inr rfl⟩
          dsimp only
          rw [f3, hx, List.append_assoc]
          exact prefix_append_left hS'
      | cons y r =>
        have hS2 : S <+: toBits cnt b ++ toBits 8 x ++ toBits 8 y ++ byteBits r := by
          rw [List.append_assoc]; simpa [byteBits] using hS'
        have hy : d (ix + 1) = y := by
          unfold stuff at ha'
          split at ha'
          · rename_i hy; rw [ha'.head, hy]
          · exact ha'.head
        split
        · rename_i h255
          rw [stuff, if_pos (by omega)] at ha' hE'
          simp only [List.length_cons] at hE'
          refine ⟨⟨g2, r, ha'.tail.tail, ?_, Or.inl (by dsimp only; omega)⟩, Or.inr rfl⟩
          dsimp only
          rw [f3, hx, hy]; exact hS2
        · rename_i h255
          rw [stuff, if_neg (by omega)] at ha' hE'
          simp only [List.length_cons] at hE'
          refine ⟨⟨g2, r, ha'.tail, ?_, Or.inl (by dsimp only; omega)⟩, Or.inr rfl⟩
          dsimp only
          rw [f3, hx, hy]; exact hS2

/-- The refill loop ends with at least `n` and at most 31 bits. -/
theorem refill_repE {d : Nat → Nat} (hd : ∀ k, d k < 256) {n : Nat} (hn : n ≤ 16) {v : Nat × Nat × Nat} {E : Nat} {S : List Bool}
    (h : RepE d E v S) (hc : v.2.1 ≤ 31) : ∃ w, refill d n v = some w ∧ RepE d E w S ∧ n ≤ w.2.1 ∧ w.2.1 ≤ 31 := by
  have key : ∀ (f : Nat) (v : Nat × Nat × Nat), RepE d E v S → v.2.1 ≤ 31 → n ≤ v.2.1 + 8 * f →
      ∃ w, whileN (fun v => if v.2.1 < n then some (load d v) else none) (f + 1) v = some w ∧ RepE d E w S ∧ n ≤ w.2.1 ∧ w.2.1 ≤ 31 := by
    intro f
    induction f with
    | zero => intro v h hc hf; exact ⟨v, by rw [whileN, if_neg (by omega)], h, by omega, hc⟩
    | succ f ih =>
      intro v h hc hf
      by_cases hlt : v.2.1 < n
      · obtain ⟨l1, l2⟩ := load_repE hd h (by omega)
        obtain ⟨w, hw, hr⟩ := ih (load d v) l1 (by rcases l2 with l2 | l2 <;> omega) (by rcases l2 with l2 | l2 <;> omega)
        exact ⟨w, by rw [whileN, if_pos hlt]; exact hw, hr⟩
      · exact ⟨v, by rw [whileN, if_neg hlt], h, by omega, hc⟩
  exact key 63 v h hc (by omega)

/-- The first `m` of the bits to be read are the top bits of `b`. -/
theorem RepE.take {d : Nat → Nat} {E b cnt ix m c : Nat} {S : List Bool} (h : RepE d E (b, cnt, ix) (toBits m c ++ S))
    (hm : m ≤ cnt) (hc : c < 2 ^ m) : b / 2 ^ (cnt - m) = c ∧ RepE d E (b % 2 ^ (cnt - m), cnt - m, ix) S := by
  obtain ⟨hb, bs, ha, hS, hE⟩ := h
  dsimp only at hb ha hS hE
  obtain ⟨k, rfl⟩ : ∃ k, cnt = m + k := ⟨cnt - m, by omega⟩
  rw [Nat.add_sub_cancel_left]
  have hlt : b / 2 ^ k < 2 ^ m := by
    rw [Nat.div_lt_iff_lt_mul (Nat.two_pow_pos k), ← Nat.pow_add]; exact hb
  have e : toBits (m + k) b = toBits m (b / 2 ^ k) ++ toBits k (b % 2 ^ k) := by
    rw [toBits_add, Nat.shiftRight_eq_div_pow, toBits_mod (Nat.le_refl k)]
  rw [e, List.append_assoc] at hS
  obtain ⟨t, ht⟩ := hS
  rw [List.append_assoc] at ht
  obtain ⟨h1, h2⟩ := List.append_inj ht (by simp)
  refine ⟨(toBits_inj hc hlt h1).symm, Nat.mod_lt _ (Nat.two_pow_pos k), bs, ha, ⟨t, h2⟩, ?_⟩
  dsimp only
  rcases hE with hE | ⟨hE, hl⟩
  · exact Or.inl hE
  · rw [List.length_append, toBits_length] at hl
    exact Or.inr ⟨hE, by omega⟩

/-- What the look-up table must contain for the code word `w` of class `t`. -/
def LutOk (lut : Nat → Nat) (huffbits : Nat) (w : List Bool) (t : Nat) : Prop :=
  w.length ≤ huffbits ∧ ∀ j, j < 2 ^ (huffbits - w.length) → lut (ofBits w * 2 ^ (huffbits - w.length) + j) = t * 256 + w.length

theorem nextdiff_repE (ub : Int) {s : Ljp} (hd : ∀ k, s.data k < 256) {w : List Bool} {t e : Nat} {E : Nat} {S : List Bool}
    (hh : s.huffbits ≤ 16) (hl : LutOk s.hufflut s.huffbits w t) (ht : t ≤ 15) (he : e < 2 ^ t) (hc : s.cnt ≤ 31)
    (h : RepE s.data E (s.b, s.cnt, s.ix) (w ++ (toBits t e ++ S))) :
    ∃ s', nextdiff ub s = some (s', extend t e) ∧ RepE s.data E (s'.b, s'.cnt, s'.ix) S ∧ s'.cnt ≤ 31 ∧
      s' = { s with b := s'.b, cnt := s'.cnt, ix := s'.ix } := by
  obtain ⟨hw, hl⟩ := hl
  obtain ⟨⟨b1, c1, i1⟩, r1, r2, r3, r4⟩ := refill_repE (n := s.huffbits) hd hh h (by dsimp only; omega)
  dsimp only at r3 r4
  have hwb : w = toBits w.length (ofBits w) := (toBits_ofBits w).symm
  have hwl := ofBits_lt w
  have r2' : RepE s.data E (b1, c1, i1) (toBits w.length (ofBits w) ++ (toBits t e ++ S)) := by rw [← hwb]; exact r2
  obtain ⟨q1, q2⟩ := r2'.take (by omega) hwl
  -- the index
  have hidx : b1 / 2 ^ (c1 - s.huffbits) = ofBits w * 2 ^ (s.huffbits - w.length) + b1 / 2 ^ (c1 - s.huffbits) % 2 ^ (s.huffbits - w.length) := by
    have h1 : b1 / 2 ^ (c1 - s.huffbits) / 2 ^ (s.huffbits - w.length) = ofBits w := by
      rw [Nat.div_div_eq_div_mul, ← Nat.pow_add, show c1 - s.huffbits + (s.huffbits - w.length) = c1 - w.length by omega, q1]
    have := Nat.div_add_mod (b1 / 2 ^ (c1 - s.huffbits)) (2 ^ (s.huffbits - w.length))
    rw [h1, Nat.mul_comm] at this
    exact this.symm
  have hlut := hl (b1 / 2 ^ (c1 - s.huffbits) % 2 ^ (s.huffbits - w.length)) (Nat.mod_lt _ (Nat.two_pow_pos _))
  rw [← hidx] at hlut
  have hwlen : w.length ≤ 16 := by omega
  have u1 : (t * 256 + w.length) % 2 ^ 16 = t * 256 + w.length := Nat.mod_eq_of_lt (by omega)
  have u2 : (t * 256 + w.length) % 2 ^ 8 = w.length := by omega
  have u3 : (t * 256 + w.length) / 2 ^ 8 = t := by omega
  obtain ⟨⟨b2, c2, i2⟩, v1, v2, v3, v4⟩ := refill_repE (n := t) hd (by omega) q2 (by dsimp only; omega)
  dsimp only at v3 v4
  obtain ⟨z1, z2⟩ := v2.take v3 he
  have hleft : c2 - t ≤ 31 := by omega
  refine ⟨{ s with b := b2 % 2 ^ (c2 - t), cnt := c2 - t, ix := i2 }, ?_, z2, hleft, rfl⟩
  unfold nextdiff
  rw [r1]
  dsimp only
  rw [hlut, u1, u2, u3, v1]
  dsimp only
  rw [z1]
  congr 2
  unfold extend
  by_cases h0 : t = 0
  · subst h0
    have : e = 0 := by simpa using he
    subst this
    simp
  · rw [if_neg h0, if_neg h0]
    have hp : ((2 : Int) ^ (t - 1)) = ((2 ^ (t - 1) : Nat) : Int) := by simp
    by_cases hlt : 2 ^ (t - 1) ≤ e
    · rw [if_neg (by rw [hp]; omega), if_pos hlt]
    · rw [if_pos (by rw [hp]; omega), if_neg hlt]; omega

theorem nextdiff_rep (ub : Int) {s : Ljp} (hd : ∀ k, s.data k < 256) {w : List Bool} {t e : Nat} {S : List Bool}
    (hh : s.huffbits ≤ 16) (hl : LutOk s.hufflut s.huffbits w t) (ht : t ≤ 15) (he : e < 2 ^ t) (hc : s.cnt ≤ 31)
    (h : Rep s.data (s.b, s.cnt, s.ix) (w ++ (toBits t e ++ S))) :
    ∃ s', nextdiff ub s = some (s', extend t e) ∧ Rep s.data (s'.b, s'.cnt, s'.ix) S ∧ s'.cnt ≤ 31 ∧
      s' = { s with b := s'.b, cnt := s'.cnt, ix := s'.ix } := by
  obtain ⟨E, hE⟩ := h.repE
  obtain ⟨s', h1, h2, h3, h4⟩ := nextdiff_repE ub hd hh hl ht he hc hE
  exact ⟨s', h1, h2.rep, h3, h4⟩

end Model.Lj92
