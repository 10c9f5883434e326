/- Helper lemmas about the model of the lj92 encoder: code lengths. -/
import Verif.Proof.Lj92Merge

set_option autoImplicit false

namespace Model.Lj92.Enc
open Spec Model.Lj92

/-- Sum of integers over the indices below `n`. -/
def isum (f : Nat → Int) : Nat → Int
  | 0 => 0
  | n + 1 => isum f n + f n

theorem isum_upd_ge (b g : Nat → Int) (k : Nat) (v : Int) : ∀ n, n ≤ k → isum (fun j => upd b k v j * g j) n = isum (fun j => b j * g j) n
  | 0, _ => rfl
  | n + 1, h => by
    rw [isum, isum, isum_upd_ge b g k v n (by omega)]
    unfold upd; rw [if_neg (by omega)]

theorem isum_upd (b g : Nat → Int) (k : Nat) (v : Int) : ∀ n, k < n →
    isum (fun j => upd b k v j * g j) n = isum (fun j => b j * g j) n + (v - b k) * g k
  | 0, h => by omega
  | n + 1, h => by
    rw [isum, isum]
    by_cases e : k = n
    · subst e
      rw [isum_upd_ge b g k v k (Nat.le_refl _), show upd b k v k = v by simp [upd], Int.sub_mul]
      omega
    · rw [isum_upd b g k v n (by omega), show upd b k v n = b n by unfold upd; rw [if_neg (by omega)]]
      omega

/-- The Kraft weight of a code of length `k`, in units of 2^-17. -/
def gw (k : Nat) : Int := 2 ^ (17 - k)

/-- Code lengths of a complete code with `N` code words. -/
structure BitsOk (b : Nat → Int) (N : Nat) : Prop where
  nn : ∀ k, 0 ≤ b k
  zero : b 0 = 0
  kraft : isum (fun k => b k * gw k) 18 = 2 ^ 17
  num : isum (fun k => b k * 1) 18 = N

theorem gw_zero : gw 0 = 131072 := rfl

theorem kraft_expand (b : Nat → Int) : isum (fun k => b k * gw k) 18 =
    b 0 * 131072 + b 1 * 65536 + b 2 * 32768 + b 3 * 16384 + b 4 * 8192 + b 5 * 4096 + b 6 * 2048 + b 7 * 1024 + b 8 * 512 + b 9 * 256 +
    b 10 * 128 + b 11 * 64 + b 12 * 32 + b 13 * 16 + b 14 * 8 + b 15 * 4 + b 16 * 2 + b 17 := by
  simp [isum, gw]

theorem num_expand (b : Nat → Int) : isum (fun k => b k * 1) 18 =
    b 0 + b 1 + b 2 + b 3 + b 4 + b 5 + b 6 + b 7 + b 8 + b 9 + b 10 + b 11 + b 12 + b 13 + b 14 + b 15 + b 16 + b 17 := by
  simp [isum]

theorem findJ_spec (b : Nat → Int) : ∀ n, (∀ j, findJ b n = some j → j ≤ n ∧ 0 < b j) ∧ (findJ b n = none → ∀ j, j ≤ n → b j ≤ 0)
  | 0 => by
    unfold findJ
    by_cases h : b 0 ≤ 0
    · rw [if_pos h]
      exact ⟨fun j hj => by simp at hj, fun _ j hj => by rw [show j = 0 by omega]; exact h⟩
    · rw [if_neg h]
      exact ⟨fun j hj => by simp at hj; subst hj; exact ⟨by omega, by omega⟩, fun e => by simp at e⟩
  | n + 1 => by
    unfold findJ
    obtain ⟨i1, i2⟩ := findJ_spec b n
    by_cases h : b (n + 1) ≤ 0
    · rw [if_pos h]
      refine ⟨fun j hj => ⟨by have := (i1 j hj).1; omega, (i1 j hj).2⟩, fun e j hj => ?_⟩
      by_cases e' : j = n + 1
      · subst e'; exact h
      · exact i2 e j (by omega)
    · rw [if_neg h]
      exact ⟨fun j hj => by simp at hj; subst hj; exact ⟨by omega, by omega⟩, fun e => by simp at e⟩

theorem dropOne_spec (b : Nat → Int) : ∀ n, (∃ i, i ≤ n ∧ b i ≠ 0 ∧ dropOne b n = some (upd b i (b i - 1))) ∨ ∀ i, i ≤ n → b i = 0
  | 0 => by
    by_cases h : b 0 = 0
    · exact Or.inr fun i hi => by rw [show i = 0 by omega]; exact h
    · exact Or.inl ⟨0, by omega, h, by unfold dropOne; rw [if_neg h]⟩
  | n + 1 => by
    by_cases h : b (n + 1) = 0
    · rcases dropOne_spec b n with ⟨i, h1, h2, h3⟩ | h1
      · exact Or.inl ⟨i, by omega, h2, by unfold dropOne; rw [if_pos h]; exact h3⟩
      · refine Or.inr fun i hi => ?_
        by_cases e : i = n + 1
        · subst e; exact h
        · exact h1 i (by omega)
    · exact Or.inl ⟨n + 1, by omega, h, by unfold dropOne; rw [if_neg h]⟩

theorem isum_step (b g : Nat → Int) {j : Nat} (hj : j ≤ 15) :
    isum (fun k => upd (upd (upd (upd b 17 (b 17 - 2)) 16 (upd b 17 (b 17 - 2) 16 + 1)) (j + 1)
      (upd (upd b 17 (b 17 - 2)) 16 (upd b 17 (b 17 - 2) 16 + 1) (j + 1) + 2)) j
      (upd (upd (upd b 17 (b 17 - 2)) 16 (upd b 17 (b 17 - 2) 16 + 1)) (j + 1)
        (upd (upd b 17 (b 17 - 2)) 16 (upd b 17 (b 17 - 2) 16 + 1) (j + 1) + 2) j - 1) k * g k) 18 =
    isum (fun k => b k * g k) 18 - 2 * g 17 + g 16 + 2 * g (j + 1) - g j := by
  rw [isum_upd _ _ _ _ 18 (by omega), isum_upd _ _ _ _ 18 (by omega), isum_upd _ _ _ _ 18 (by omega), isum_upd _ _ _ _ 18 (by omega)]
  have e1 : ∀ x y : Int, x - 2 - x = -2 := by intro x y; omega
  have e2 : ∀ x : Int, x + 1 - x = 1 := by intro x; omega
  have e3 : ∀ x : Int, x + 2 - x = 2 := by intro x; omega
  have e4 : ∀ x : Int, x - 1 - x = -1 := by intro x; omega
  rw [e1 _ 0, e2, e3, e4]
  omega

theorem adjust_spec {N : Nat} (hN : N ≤ 18) : ∀ (n : Nat) (b : Nat → Int), BitsOk b N → b 17 < n →
    ∃ b', adjust n b = .ok b' ∧ (∀ k, 0 ≤ b' k) ∧ b' 0 = 0 ∧ b' 17 = 0 ∧ isum (fun k => b' k * gw k) 18 < 2 ^ 17 ∧
      isum (fun k => b' k * 1) 18 = (N : Int) - 1
  | 0, b, h, hn => by have := h.nn 17; omega
  | n + 1, b, h, hn => by
    have hk := h.kraft
    have hm := h.num
    have nn := h.nn
    have h0 := h.zero
    unfold adjust
    by_cases h17 : b 17 > 0
    · rw [if_pos h17]
      obtain ⟨f1, f2⟩ := findJ_spec b 15
      cases hf : findJ b 15 with
      | none =>
        exfalso
        have z := f2 hf
        have z1 := z 1 (by omega); have z2 := z 2 (by omega); have z3 := z 3 (by omega); have z4 := z 4 (by omega)
        have z5 := z 5 (by omega); have z6 := z 6 (by omega); have z7 := z 7 (by omega); have z8 := z 8 (by omega)
        have z9 := z 9 (by omega); have z10 := z 10 (by omega); have z11 := z 11 (by omega); have z12 := z 12 (by omega)
        have z13 := z 13 (by omega); have z14 := z 14 (by omega); have z15 := z 15 (by omega)
        have y16 := nn 16
        rw [kraft_expand] at hk
        rw [num_expand] at hm
        have y1 := nn 1; have y2 := nn 2; have y3 := nn 3; have y4 := nn 4; have y5 := nn 5; have y6 := nn 6; have y7 := nn 7
        have y8 := nn 8; have y9 := nn 9; have y10 := nn 10; have y11 := nn 11; have y12 := nn 12; have y13 := nn 13
        have y14 := nn 14; have y15 := nn 15
        omega
      | some j =>
        obtain ⟨hj, hbj⟩ := f1 j hf
        have hj1 : 1 ≤ j := by
          apply Nat.pos_of_ne_zero
          intro e; subst e; omega
        have heven : b 17 ≥ 2 := by
          rw [kraft_expand] at hk
          omega
        dsimp only
        have hs := isum_step b gw hj
        have hs1 := isum_step b (fun _ => 1) hj
        have hg : 2 * gw (j + 1) = gw j := by
          unfold gw
          rw [show 17 - j = (17 - (j + 1)) + 1 by omega, Int.pow_succ]; omega
        have hg2 : gw 16 = 2 * gw 17 := rfl
        generalize hb' : upd (upd (upd (upd b 17 (b 17 - 2)) 16 (upd b 17 (b 17 - 2) 16 + 1)) (j + 1)
          (upd (upd b 17 (b 17 - 2)) 16 (upd b 17 (b 17 - 2) 16 + 1) (j + 1) + 2)) j
          (upd (upd (upd b 17 (b 17 - 2)) 16 (upd b 17 (b 17 - 2) 16 + 1)) (j + 1)
            (upd (upd b 17 (b 17 - 2)) 16 (upd b 17 (b 17 - 2) 16 + 1) (j + 1) + 2) j - 1) = b' at *
        have hval : ∀ k, b' k = b k + (if k = 17 then -2 else 0) + (if k = 16 then 1 else 0) + (if k = j + 1 then 2 else 0) - (if k = j then 1 else 0) := by
          intro k
          rw [← hb']
          unfold upd
          by_cases c1 : k = j
          · subst c1
            simp only [if_true, if_neg (show k ≠ k + 1 by omega), if_neg (show k ≠ 16 by omega), if_neg (show k ≠ 17 by omega)]
            omega
          · by_cases c2 : k = j + 1
            · subst c2
              simp only [if_neg c1, if_true]
              by_cases c3 : j + 1 = 16
              · simp [c3]
              · simp only [if_neg c3, if_neg (show j + 1 ≠ 17 by omega)]; omega
            · by_cases c3 : k = 16
              · subst c3; simp [c1, c2]
              · by_cases c4 : k = 17
                · subst c4; simp [c1, c2]; omega
                · simp [c1, c2, c3, c4]
        apply adjust_spec hN n b'
        · refine ⟨fun k => ?_, ?_, ?_, ?_⟩
          · rw [hval k]
            have := nn k
            by_cases c1 : k = j
            · subst c1
              simp only [if_true, if_neg (show k ≠ k + 1 by omega), if_neg (show k ≠ 16 by omega), if_neg (show k ≠ 17 by omega)]
              omega
            · by_cases c4 : k = 17
              · subst c4; simp only [if_true, if_neg c1]; split <;> split <;> omega
              · simp only [if_neg c1, if_neg c4]; split <;> split <;> omega
          · rw [hval 0, h0]; simp; omega
          · rw [hs, hk]; omega
          · rw [hs1, hm]; omega
        · rw [hval 17]
          simp only [if_true, if_neg (show 17 ≠ j by omega), if_neg (show 17 ≠ j + 1 by omega)]
          simp only [show (17 : Nat) ≠ 16 by decide, if_false]
          omega
    · rw [if_neg h17]
      have h17' : b 17 = 0 := by have := nn 17; omega
      rcases dropOne_spec b 16 with ⟨i, i1, i2, i3⟩ | hz
      · rw [i3]
        refine ⟨_, rfl, fun k => ?_, ?_, ?_, ?_, ?_⟩
        · unfold upd
          have := nn k
          have := nn i
          split <;> omega
        · unfold upd; rw [if_neg]
          · exact h0
          · intro e; subst e; exact i2 h0
        · unfold upd; rw [if_neg (by omega)]; exact h17'
        · rw [isum_upd _ _ _ _ 18 (by omega), hk]
          have : 0 < gw i := by
            unfold gw
            exact Int.pow_pos (by decide)
          rw [show b i - 1 - b i = -1 by omega]
          omega
        · rw [isum_upd b (fun _ => 1) _ _ 18 (by omega), hm]; omega
      · exfalso
        rw [kraft_expand, h17'] at hk
        have z1 := hz 1 (by omega); have z2 := hz 2 (by omega); have z3 := hz 3 (by omega); have z4 := hz 4 (by omega)
        have z5 := hz 5 (by omega); have z6 := hz 6 (by omega); have z7 := hz 7 (by omega); have z8 := hz 8 (by omega)
        have z9 := hz 9 (by omega); have z10 := hz 10 (by omega); have z11 := hz 11 (by omega); have z12 := hz 12 (by omega)
        have z13 := hz 13 (by omega); have z14 := hz 14 (by omega); have z15 := hz 15 (by omega); have z16 := hz 16 (by omega)
        omega

/-! ### Counting the lengths -/

theorem countBits_sum (cs : Nat → Nat) (g : Nat → Int) (hcs : ∀ i, cs i < 18) : ∀ n, n ≤ 18 →
    isum (fun k => (List.range n).foldl (fun bits i => if cs i ≠ 0 then fun k => if k = cs i then bits k + 1 else bits k else bits)
      (fun _ => (0 : Int)) k * g k) 18 = isum (fun i => if cs i ≠ 0 then g (cs i) else 0) n
  | 0, _ => by simp [isum]
  | n + 1, hn => by
    have ih := countBits_sum cs g hcs n (by omega)
    rw [List.range_succ, List.foldl_append, show isum (fun i => if cs i ≠ 0 then g (cs i) else 0) (n + 1) = isum (fun i => if cs i ≠ 0 then g (cs i) else 0) n + (if cs n ≠ 0 then g (cs n) else 0) from rfl, ← ih]
    simp only [List.foldl_cons, List.foldl_nil]
    generalize (List.range n).foldl (fun bits i => if cs i ≠ 0 then fun k => if k = cs i then bits k + 1 else bits k else bits)
      (fun _ => (0 : Int)) = b at *
    by_cases h : cs n ≠ 0
    · rw [if_pos h, if_pos h]
      have := isum_upd b g (cs n) (b (cs n) + 1) 18 (hcs n)
      rw [show b (cs n) + 1 - b (cs n) = 1 by omega, Int.one_mul] at this
      rw [← this]
      congr 1
      funext k
      unfold upd
      by_cases e : k = cs n
      · subst e; simp
      · rw [if_neg e, if_neg e]
    · rw [if_neg h, if_neg h]; omega

theorem countBits_nn (cs : Nat → Nat) : (∀ k, 0 ≤ countBits cs k) ∧ countBits cs 0 = 0 := by
  unfold countBits
  generalize List.range 18 = l
  have key : ∀ (l : List Nat) (b : Nat → Int), (∀ k, 0 ≤ b k) → b 0 = 0 →
      (∀ k, 0 ≤ l.foldl (fun bits i => if cs i ≠ 0 then fun k => if k = cs i then bits k + 1 else bits k else bits) b k) ∧
        l.foldl (fun bits i => if cs i ≠ 0 then fun k => if k = cs i then bits k + 1 else bits k else bits) b 0 = 0 := by
    intro l
    induction l with
    | nil => intro b h1 h2; exact ⟨h1, h2⟩
    | cons x l ih =>
      intro b h1 h2
      rw [List.foldl_cons]
      apply ih
      · intro k
        by_cases h : cs x ≠ 0
        · rw [if_pos h]
          have := h1 k
          split <;> omega
        · rw [if_neg h]; exact h1 k
      · by_cases h : cs x ≠ 0
        · rw [if_pos h]
          rw [if_neg (by omega)]; exact h2
        · rw [if_neg h]; exact h2
  exact key l _ (fun _ => by simp) rfl

end Model.Lj92.Enc
