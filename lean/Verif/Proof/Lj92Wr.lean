/- Helper lemmas about the model of the lj92 encoder: bit writing. -/
import Verif.Model.Lj92Enc
import Verif.Spec.Pred6
import Verif.Proof.Lj92

set_option autoImplicit false

namespace Model.Lj92.Enc
open Spec Model.Lj92

theorem stuff_app : ∀ (a b : List Nat), stuff (a ++ b) = stuff a ++ stuff b
  | [], _ => rfl
  | x :: a, b => by
    simp only [List.cons_append, stuff, stuff_app a b]
    split <;> simp

theorem byteBits_app (a b : List Nat) : byteBits (a ++ b) = byteBits a ++ byteBits b := by simp [byteBits]

theorem byteBits_length (l : List Nat) : (byteBits l).length = 8 * l.length := by
  induction l with
  | nil => rfl
  | cons a l ih => rw [byteBits, List.flatMap_cons, List.length_append, ← byteBits, ih, toBits_length]; simp; omega

/-- The bits `B` have been written behind `base`, in a buffer of `len` bytes. -/
structure WrRep (len : Nat) (base : List Nat) (s : Wr) (B : List Bool) : Prop where
  nb1 : 1 ≤ s.nextbits
  nb8 : s.nextbits ≤ 8
  low : s.next % 2 ^ s.nextbits = 0
  lt : s.next < 256
  room : s.out.length ≤ len
  bytes : ∃ bs, (∀ x ∈ bs, x < 256) ∧ s.out = base ++ stuff bs ∧ B = byteBits bs ++ toBits (8 - s.nextbits) (s.next / 2 ^ s.nextbits)

/-- The buffer cannot take the bits `B`: whole bytes at the beginning of `B` already fill it. -/
def Full (len : Nat) (base : List Nat) (B : List Bool) : Prop :=
  ∃ bs, (∀ x ∈ bs, x < 256) ∧ byteBits bs <+: B ∧ len ≤ (base ++ stuff bs).length

theorem Full.mono {len : Nat} {base : List Nat} {B C : List Bool} (h : Full len base B) : Full len base (B ++ C) := by
  obtain ⟨bs, h1, h2, h3⟩ := h
  exact ⟨bs, h1, h2.trans (List.prefix_append ..), h3⟩

theorem emit_zero (len fuel v : Nat) (s : Wr) : emit len fuel v 0 s = .ok s := by
  unfold emit; rfl

theorem emit_rep {len : Nat} (hlen : 2 ≤ len) {base : List Nat} : ∀ (fuel : Nat) (v n : Nat) (s : Wr) (B : List Bool), n ≤ fuel → v < 2 ^ n → WrRep len base s B →
    (∃ s', emit len fuel v n s = .ok s' ∧ WrRep len base s' (B ++ toBits n v)) ∨
      (emit len fuel v n s = .error .encoder ∧ Full len base (B ++ toBits n v))
  | fuel, v, 0, s, B, _, _, h => by
    left
    exact ⟨s, emit_zero .., by simpa [toBits] using h⟩
  | 0, v, n + 1, s, B, hn, _, _ => by omega
  | fuel + 1, v, n + 1, ⟨nx, nb, out⟩, B, hn, hv, h => by
    obtain ⟨nb1, nb8, low, lt, room, bs, hbs, hout, hB⟩ := h
    dsimp only at nb1 nb8 low lt hout hB room
    obtain ⟨u, hu⟩ : ∃ u, (if n + 1 > nb then nb else n + 1) = u := ⟨_, rfl⟩
    have hu1 : 1 ≤ u := by split at hu <;> omega
    have hun : u ≤ n + 1 := by split at hu <;> omega
    have hub : u ≤ nb := by split at hu <;> omega
    obtain ⟨m, hm⟩ : ∃ m, n + 1 = u + m := ⟨n + 1 - u, by omega⟩
    obtain ⟨r, hr⟩ : ∃ r, nb = u + r := ⟨nb - u, by omega⟩
    have hum : u + m - u = m := by omega
    have hur : u + r - u = r := by omega
    have hum2 : u + m > 0 := by omega
    unfold emit
    dsimp only
    rw [hu]
    rw [hm] at hv ⊢
    subst hr
    rw [if_pos hum2, hum, hur]
    have e1 : v >>> m = v / 2 ^ m := Nat.shiftRight_eq_div_pow ..
    have htop : v / 2 ^ m < 2 ^ u := by
      rw [Nat.div_lt_iff_lt_mul (Nat.two_pow_pos m), ← Nat.pow_add]; exact hv
    have hnx : nx = nx / 2 ^ (u + r) * 2 ^ (u + r) := by
      have := Nat.div_add_mod nx (2 ^ (u + r)); rw [low] at this; rw [Nat.mul_comm]; omega
    obtain ⟨q, hq⟩ : ∃ q, nx / 2 ^ (u + r) = q := ⟨_, rfl⟩
    have hor : nx ||| (v / 2 ^ m) <<< r = (q * 2 ^ u + v / 2 ^ m) * 2 ^ r := by
      rw [hq] at hnx
      rw [hnx, show q * 2 ^ (u + r) = (q <<< u) <<< r by rw [Nat.shiftLeft_eq, Nat.shiftLeft_eq, Nat.mul_assoc, ← Nat.pow_add],
        ← Nat.shiftLeft_or_distrib, ← Nat.shiftLeft_add_eq_or_of_lt htop, Nat.shiftLeft_eq, Nat.shiftLeft_eq]
    have hq8 : q < 2 ^ (8 - (u + r)) := by
      rw [← hq, Nat.div_lt_iff_lt_mul (Nat.two_pow_pos _), ← Nat.pow_add, show 8 - (u + r) + (u + r) = 8 by omega]
      exact lt
    have hcomb : q * 2 ^ u + v / 2 ^ m < 2 ^ (8 - r) := by
      have e : 8 - r = 8 - (u + r) + u := by omega
      rw [e, Nat.pow_add]
      have : (q + 1) * 2 ^ u ≤ 2 ^ (8 - (u + r)) * 2 ^ u := Nat.mul_le_mul_right _ hq8
      rw [Nat.add_mul] at this
      omega
    have h256 : (q * 2 ^ u + v / 2 ^ m) * 2 ^ r < 256 := by
      have : (q * 2 ^ u + v / 2 ^ m) * 2 ^ r < 2 ^ (8 - r) * 2 ^ r := Nat.mul_lt_mul_of_pos_right hcomb (Nat.two_pow_pos _)
      rw [← Nat.pow_add, show 8 - r + r = 8 by omega] at this
      exact this
    rw [e1, hor, Nat.mod_eq_of_lt h256]
    have hbits : toBits (8 - r) (q * 2 ^ u + v / 2 ^ m) = toBits (8 - (u + r)) q ++ toBits u (v / 2 ^ m) := by
      rw [← toBits_mul_add htop, show 8 - (u + r) + u = 8 - r by omega]
    have hv2 : toBits (u + m) v = toBits u (v / 2 ^ m) ++ toBits m (v % 2 ^ m) := by
      rw [toBits_add, e1, toBits_mod (Nat.le_refl m)]
    have hB1 : B ++ toBits u (v / 2 ^ m) = byteBits bs ++ toBits (8 - r) (q * 2 ^ u + v / 2 ^ m) := by
      rw [hB, hbits, hq]; simp
    rw [hv2, ← List.append_assoc]
    have hmlt : v % 2 ^ m < 2 ^ m := Nat.mod_lt _ (Nat.two_pow_pos m)
    by_cases hr0 : r = 0
    · subst hr0
      simp only [Nat.pow_zero, Nat.mul_one, Nat.sub_zero] at h256 hB1 hcomb ⊢
      generalize q * 2 ^ u + v / 2 ^ m = x at *
      have hB2 : B ++ toBits u (v / 2 ^ m) = byteBits (bs ++ [x]) := by
        rw [hB1, byteBits_app]; simp [byteBits]
      have hbs' : ∀ y ∈ bs ++ [x], y < 256 := by
        intro y hy
        rw [List.mem_append] at hy
        rcases hy with hy | hy
        · exact hbs y hy
        · simp at hy; omega
      have hst : out ++ [x] ++ (if x = 0xff then [0] else []) = base ++ stuff (bs ++ [x]) := by
        rw [stuff_app, hout]
        by_cases hx : x = 255
        · simp [hx, stuff]
        · simp [hx, stuff]
      unfold flush
      dsimp only
      by_cases hfull : out.length ≥ len - 1
      · right
        rw [if_pos rfl, if_pos hfull]
        refine ⟨rfl, bs ++ [x], hbs', ?_, ?_⟩
        · rw [hB2]; exact List.prefix_append ..
        · rw [← hst]
          simp only [List.length_append, List.length_cons, List.length_nil]
          omega
      · rw [if_pos rfl, if_neg hfull]
        dsimp only
        apply emit_rep hlen fuel _ m _ _ (by omega) hmlt
        refine ⟨by simp, by simp, by simp, by simp, ?_, bs ++ [x], hbs', hst, ?_⟩
        · dsimp only
          simp only [List.length_append, List.length_cons, List.length_nil]
          have : (if x = 255 then [0] else [] : List Nat).length ≤ 1 := by split <;> simp
          omega
        · dsimp only; rw [hB2]; simp [toBits]
    · unfold flush
      dsimp only
      rw [if_neg hr0]
      dsimp only
      apply emit_rep hlen fuel _ m _ _ (by omega) hmlt
      refine ⟨by dsimp only; omega, by dsimp only; omega, by dsimp only; exact Nat.mul_mod_left .., h256, room, bs, hbs, hout, ?_⟩
      dsimp only
      rw [hB1, Nat.mul_div_cancel _ (Nat.two_pow_pos _)]

end Model.Lj92.Enc
