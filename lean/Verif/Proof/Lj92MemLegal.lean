/- Helper lemmas about the recorded memory accesses of the lj92 decoder: how far a legal file is read. -/
import Verif.Proof.Lj92MemAny

set_option autoImplicit false

namespace Model.Lj92
open Spec Tr

/-- `RepE` with a bound on how far the end `E` of the code is passed: with at least eight bits too many in `b` by at most two
bytes; with sixteen bits too many nothing is read any more. -/
def RepX (d : Nat → Nat) (E : Nat) (v : Nat × Nat × Nat) (S : List Bool) : Prop :=
  v.1 < 2 ^ v.2.1 ∧ ∃ bs, At d v.2.2 (stuff bs) ∧ S <+: toBits v.2.1 v.1 ++ byteBits bs ∧
    (v.2.2 + (stuff bs).length = E ∨ (bs = [] ∧ ((S.length + 8 ≤ v.2.1 ∧ v.2.2 ≤ E + 2) ∨ S.length + 16 ≤ v.2.1)))

theorem load_repX {d : Nat → Nat} (hd : ∀ k, d k < 256) {E : Nat} {v : Nat × Nat × Nat} {S : List Bool} (h : RepX d E v S) (hc : v.2.1 ≤ 15) :
    RepX d E (load d v) S ∧ v.2.2 ≤ E + 2 ∧ ((load d v).2.1 = v.2.1 + 8 ∨ (load d v).2.1 = v.2.1 + 16) := by
  obtain ⟨b, cnt, ix⟩ := v
  obtain ⟨hb, bs, ha, hS, hE⟩ := h
  dsimp only at hb ha hS hE hc
  have p1 : 2 ^ cnt ≤ 2 ^ 15 := Nat.pow_le_pow_right (by decide) hc
  have h1 := hd ix
  have h2 := hd (ix + 1)
  have e : b * 2 ^ 16 % 2 ^ 32 = b * 2 ^ 16 := Nat.mod_eq_of_lt (by omega)
  have f1 : (b * 2 ^ 16 + d ix * 2 ^ 8 + d (ix + 1)) / 2 ^ 8 = b * 2 ^ 8 + d ix := by omega
  have f2 : toBits (cnt + 8) (b * 2 ^ 8 + d ix) = toBits cnt b ++ toBits 8 (d ix) := toBits_mul_add (by omega)
  have f3 : toBits (cnt + 16) (b * 2 ^ 16 + d ix * 2 ^ 8 + d (ix + 1)) = toBits cnt b ++ toBits 8 (d ix) ++ toBits 8 (d (ix + 1)) := by
    have g : b * 2 ^ 16 + d ix * 2 ^ 8 + d (ix + 1) = (b * 2 ^ 8 + d ix) * 2 ^ 8 + d (ix + 1) := by omega
    have g' : cnt + 16 = cnt + 8 + 8 := by omega
    rw [g', g, toBits_mul_add (by omega), f2]
  have g1 : b * 2 ^ 8 + d ix < 2 ^ (cnt + 8) := by rw [Nat.pow_add]; omega
  have g2 : b * 2 ^ 16 + d ix * 2 ^ 8 + d (ix + 1) < 2 ^ (cnt + 16) := by
    rw [Nat.pow_add]
    have h16 : (2 : Nat) ^ 16 = 65536 := by decide
    have h8 : (2 : Nat) ^ 8 = 256 := by decide
    rw [h16, h8]
    have h3 : (b + 1) * 65536 ≤ 2 ^ cnt * 65536 := Nat.mul_le_mul_right _ hb
    clear e f1 f2 f3 g1 p1
    omega
  have hix : ix ≤ E + 2 := by
    rcases hE with hE | ⟨_, hE | hE⟩
    · omega
    · omega
    · omega
  suffices hs : RepX d E (load d (b, cnt, ix)) S ∧ ((load d (b, cnt, ix)).2.1 = cnt + 8 ∨ (load d (b, cnt, ix)).2.1 = cnt + 16) from ⟨hs.1, hix, hs.2⟩
  cases bs with
  | nil =>
    simp only [byteBits, List.flatMap_nil, List.append_nil] at hS
    have hSl : S.length ≤ cnt := by simpa using hS.length_le
    simp only [stuff, List.length_nil, Nat.add_zero, true_and] at hE
    unfold load
    dsimp only
    rw [e]
    split
    · refine ⟨⟨by dsimp only; rw [f1]; exact g1, [], at_nil _ _, ?_, Or.inr ⟨rfl, ?_⟩⟩, Or.inl rfl⟩
      · dsimp only
        rw [f1, show cnt + 16 - 8 = cnt + 8 by omega, f2, List.append_assoc]
        exact prefix_append_left hS
      · dsimp only
        rcases hE with hE | hE
        · left; omega
        · right; omega
    · split
      all_goals
        refine ⟨⟨g2, [], at_nil _ _, ?_, Or.inr ⟨rfl, Or.inr (by dsimp only; omega)⟩⟩, Or.inr rfl⟩
        dsimp only
        rw [f3, List.append_assoc, List.append_assoc]
        exact prefix_append_left hS
  | cons x r =>
    have hx : d ix = x := by
      unfold stuff at ha
      split at ha
      · rename_i hx; rw [ha.head, hx]
      · exact ha.head
    have hE' : ix + (stuff (x :: r)).length = E := by
      rcases hE with hE | ⟨hE, _⟩
      · exact hE
      · simp at hE
    have hS' : S <+: toBits cnt b ++ toBits 8 x ++ byteBits r := by
      rw [List.append_assoc]; simpa [byteBits] using hS
    unfold load
    dsimp only
    rw [e]
    split
    · rename_i h255
      have hx2 : x = 255 := by omega
      refine ⟨⟨by dsimp only; rw [f1]; exact g1, r, ?_, ?_, Or.inl ?_⟩, Or.inl rfl⟩
      · rw [stuff, if_pos hx2] at ha
        exact ha.tail.tail
      · dsimp only
        rw [f1, show cnt + 16 - 8 = cnt + 8 by omega, f2, hx]
        exact hS'
      · rw [stuff, if_pos hx2] at hE'
        simp only [List.length_cons] at hE'
        dsimp only
        omega
    · rename_i hn
      have hx2 : x ≠ 255 := by omega
      rw [stuff, if_neg hx2] at ha hE'
      rw [List.length_cons] at hE'
      have ha' := ha.tail
      cases r with
      | nil =>
        simp only [byteBits, List.flatMap_nil, List.append_nil] at hS'
        have hSl : S.length ≤ cnt + 8 := by simpa using hS'.length_le
        simp only [stuff, List.length_nil] at hE'
        split
        all_goals
          refine ⟨⟨g2, [], at_nil _ _, ?_, Or.inr ⟨rfl, Or.inl (by dsimp only; omega)⟩⟩, Or.inr rfl⟩
          dsimp only
          rw [f3, hx, List.append_assoc]
          exact prefix_append_left hS'
      | cons y r =>
        have hS2 : S <+: toBits cnt b ++ toBits 8 x ++ toBits 8 y ++ byteBits r := by
          rw [List.append_assoc]; simpa [byteBits] using hS'
        have hy : d (ix + 1) = y := by
          unfold stuff at ha'
          split at ha'
          · rename_i hy; rw [ha'.head, hy]
          · exact ha'.head
        split
        · rename_i h255
          rw [stuff, if_pos (by omega)] at ha' hE'
          simp only [List.length_cons] at hE'
          refine ⟨⟨g2, r, ha'.tail.tail, ?_, Or.inl (by dsimp only; omega)⟩, Or.inr rfl⟩
          dsimp only
          rw [f3, hx, hy]; exact hS2
        · rename_i h255
          rw [stuff, if_neg (by omega)] at ha' hE'
          simp only [List.length_cons] at hE'
          refine ⟨⟨g2, r, ha'.tail, ?_, Or.inl (by dsimp only; omega)⟩, Or.inr rfl⟩
          dsimp only
          rw [f3, hx, hy]; exact hS2

theorem refillT_repX {P : Acc → Prop} {d : Nat → Nat} (hd : ∀ k, d k < 256) {n : Nat} (hn : n ≤ 16) {v : Nat × Nat × Nat} {E : Nat} {S : List Bool}
    (hP : ∀ k, k < E + 4 → P (.inR k)) (h : RepX d E v S) (hc : v.2.1 ≤ 31) :
    Safe P (refillT d n v) (fun w => RepX d E w S ∧ n ≤ w.2.1 ∧ w.2.1 ≤ 31) := by
  unfold refillT
  apply Safe.whileT (I := fun w => RepX d E w S ∧ w.2.1 ≤ 31) (fun w => n - w.2.1)
  · intro w hw
    apply Safe.ite
    · intro hlt
      obtain ⟨l1, l2, l3⟩ := load_repX hd hw.1 (by omega)
      apply Safe.seq
      · intro a ha
        simp only [List.mem_cons, List.not_mem_nil, or_false] at ha
        rcases ha with rfl | rfl
        · exact hP _ (by omega)
        · exact hP _ (by omega)
      · exact Safe.ret ⟨⟨l1, by rcases l3 with l3 | l3 <;> omega⟩, by rcases l3 with l3 | l3 <;> omega⟩
    · intro hlt
      exact Safe.ret ⟨hw.1, by omega, hw.2⟩
  · exact ⟨h, hc⟩
  · omega

theorem RepX.take {d : Nat → Nat} {E b cnt ix m c : Nat} {S : List Bool} (h : RepX d E (b, cnt, ix) (toBits m c ++ S))
    (hm : m ≤ cnt) (hc : c < 2 ^ m) : b / 2 ^ (cnt - m) = c ∧ RepX d E (b % 2 ^ (cnt - m), cnt - m, ix) S := by
  obtain ⟨hb, bs, ha, hS, hE⟩ := h
  dsimp only at hb ha hS hE
  obtain ⟨k, rfl⟩ : ∃ k, cnt = m + k := ⟨cnt - m, by omega⟩
  rw [Nat.add_sub_cancel_left]
  have hlt : b / 2 ^ k < 2 ^ m := by
    rw [Nat.div_lt_iff_lt_mul (Nat.two_pow_pos k), ← Nat.pow_add]; exact hb
  have e : toBits (m + k) b = toBits m (b / 2 ^ k) ++ toBits k (b % 2 ^ k) := by
    rw [toBits_add, Nat.shiftRight_eq_div_pow, toBits_mod (Nat.le_refl k)]
  rw [e, List.append_assoc] at hS
  obtain ⟨t, ht⟩ := hS
  rw [List.append_assoc] at ht
  obtain ⟨h1, h2⟩ := List.append_inj ht (by simp)
  refine ⟨(toBits_inj hc hlt h1).symm, Nat.mod_lt _ (Nat.two_pow_pos k), bs, ha, ⟨t, h2⟩, ?_⟩
  dsimp only
  rw [List.length_append, toBits_length] at hE
  rcases hE with hE | ⟨hE, hl⟩
  · exact Or.inl hE
  · refine Or.inr ⟨hE, ?_⟩
    rcases hl with hl | hl
    · exact Or.inl ⟨by omega, hl.2⟩
    · exact Or.inr (by omega)

/-- What reading a difference may touch. -/
structure Tight (E lutlen : Nat) (P : Acc → Prop) : Prop where
  inR : ∀ k, k < E + 4 → P (.inR k)
  lutR : ∀ k, k < lutlen → P (.lutR lutlen k)
  hist : ∀ k, k < 16 → P (.hist k)

theorem nextdiffT_repX {P : Acc → Prop} {E : Nat} {s : Ljp} (hP : Tight E (2 ^ s.huffbits) P) (ub : Int) (hd : ∀ k, s.data k < 256) {w : List Bool} {t e : Nat} {S : List Bool}
    (hh : s.huffbits ≤ 16) (hl : LutOk s.hufflut s.huffbits w t) (ht : t ≤ 15) (he : e < 2 ^ t) (hc : s.cnt ≤ 31)
    (h : RepX s.data E (s.b, s.cnt, s.ix) (w ++ (toBits t e ++ S))) :
    Safe P (nextdiffT ub (2 ^ s.huffbits) s) (fun r => (∃ b cnt ix, r.1 = { s with b := b, cnt := cnt, ix := ix }) ∧
      RepX s.data E (r.1.b, r.1.cnt, r.1.ix) S ∧ r.1.cnt ≤ 31) := by
  obtain ⟨hw, hl⟩ := hl
  unfold nextdiffT
  apply Safe.bind (refillT_repX (n := s.huffbits) hd hh hP.inR h (by dsimp only; omega))
  intro v hv
  obtain ⟨b1, c1, i1⟩ := v
  obtain ⟨r2, r3, r4⟩ := hv
  dsimp only at r3 r4
  have hwb : w = toBits w.length (ofBits w) := (toBits_ofBits w).symm
  have hwl := ofBits_lt w
  have r2' : RepX s.data E (b1, c1, i1) (toBits w.length (ofBits w) ++ (toBits t e ++ S)) := by rw [← hwb]; exact r2
  obtain ⟨q1, q2⟩ := r2'.take (by omega) hwl
  have hidx : b1 / 2 ^ (c1 - s.huffbits) = ofBits w * 2 ^ (s.huffbits - w.length) + b1 / 2 ^ (c1 - s.huffbits) % 2 ^ (s.huffbits - w.length) := by
    have h1 : b1 / 2 ^ (c1 - s.huffbits) / 2 ^ (s.huffbits - w.length) = ofBits w := by
      rw [Nat.div_div_eq_div_mul, ← Nat.pow_add, show c1 - s.huffbits + (s.huffbits - w.length) = c1 - w.length by omega, q1]
    have := Nat.div_add_mod (b1 / 2 ^ (c1 - s.huffbits)) (2 ^ (s.huffbits - w.length))
    rw [h1, Nat.mul_comm] at this
    exact this.symm
  have hlut := hl (b1 / 2 ^ (c1 - s.huffbits) % 2 ^ (s.huffbits - w.length)) (Nat.mod_lt _ (Nat.two_pow_pos _))
  rw [← hidx] at hlut
  have hwlen : w.length ≤ 16 := by omega
  have u1 : (t * 256 + w.length) % 2 ^ 16 = t * 256 + w.length := Nat.mod_eq_of_lt (by omega)
  have u2 : (t * 256 + w.length) % 2 ^ 8 = w.length := by omega
  have u3 : (t * 256 + w.length) / 2 ^ 8 = t := by omega
  dsimp only
  apply Safe.seq
  · intro a ha
    simp only [List.mem_singleton] at ha
    subst ha
    apply hP.lutR
    have hb : b1 < 2 ^ c1 := r2.1
    rw [Nat.div_lt_iff_lt_mul (Nat.two_pow_pos _), ← Nat.pow_add, show s.huffbits + (c1 - s.huffbits) = c1 by omega]
    exact hb
  rw [hlut, u1, u2, u3]
  apply Safe.seq
  · intro a ha
    simp only [List.mem_singleton] at ha
    subst ha
    exact hP.hist _ (by omega)
  apply Safe.bind (refillT_repX (n := t) hd (by omega) hP.inR q2 (by dsimp only; omega))
  intro v hv
  obtain ⟨b2, c2, i2⟩ := v
  obtain ⟨v2, v3, v4⟩ := hv
  dsimp only at v3 v4
  obtain ⟨z1, z2⟩ := v2.take v3 he
  exact Safe.ret ⟨⟨_, _, _, rfl⟩, z2, by dsimp only; omega⟩

/-- A code: code word, class and additional bits of each difference. -/
def lcodeBits (L : List (List Bool × Nat × Nat)) : List Bool := L.flatMap fun e => e.1 ++ toBits e.2.1 e.2.2

/-- Before difference `n` of the code `L`. -/
def Coded (s0 : Ljp) (E : Nat) (L : List (List Bool × Nat × Nat)) (n : Nat) (s : Ljp) : Prop :=
  s.data = s0.data ∧ s.hufflut = s0.hufflut ∧ RepX s0.data E (s.b, s.cnt, s.ix) (lcodeBits (L.drop n)) ∧ s.cnt ≤ 31

theorem reads_coded {s0 : Ljp} {P : Acc → Prop} {E : Nat} (hP : Tight E (2 ^ s0.huffbits) P) (ub : Int) (hd : ∀ k, s0.data k < 256)
    (hh : s0.huffbits ≤ 16) {L : List (List Bool × Nat × Nat)}
    (hL : ∀ e ∈ L, LutOk s0.hufflut s0.huffbits e.1 e.2.1 ∧ e.2.1 ≤ 15 ∧ e.2.2 < 2 ^ e.2.1) :
    Reads s0 P ub (2 ^ s0.huffbits) L.length (Coded s0 E L) where
  step := by
    intro n s hn hg hj
    obtain ⟨j1, j2, j3, j4⟩ := hj
    rw [List.drop_eq_getElem_cons hn] at j3
    obtain ⟨l1, l2, l3⟩ := hL _ (List.getElem_mem hn)
    generalize L[n] = e at *
    obtain ⟨w, t, x⟩ := e
    dsimp only at l1 l2 l3
    have j3' : RepX s.data E (s.b, s.cnt, s.ix) (w ++ (toBits t x ++ lcodeBits (L.drop (n + 1)))) := by
      rw [j1, ← List.append_assoc]; exact j3
    have hb := hg.huffbits
    rw [← hb] at hP hh l1 ⊢
    refine (nextdiffT_repX hP ub (by rw [j1]; exact hd) hh (by rw [j2]; exact l1) l2 l3 j4 j3').mono (fun _ h => h) ?_
    intro r hr
    obtain ⟨⟨b, cnt, ix, h1⟩, h2, h3⟩ := hr
    refine ⟨⟨b, cnt, ix, h1⟩, by rw [h1]; exact j1, by rw [h1]; exact j2, ?_, h3⟩
    rw [j1] at h2; exact h2
  keep := fun _ _ _ _ h => h

end Model.Lj92
