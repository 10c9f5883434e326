/- Helper lemmas about the model of the lj92 encoder: the Huffman tree. -/
import Verif.Proof.Lj92Body

set_option autoImplicit false

namespace Model.Lj92.Enc
open Spec Model.Lj92

/-! ### Rounding -/

theorem rne_bounds {n d : Nat} (hd : 0 < d) : 2 * d * rne n d ≤ 2 * n + d ∧ 2 * n ≤ 2 * d * rne n d + d ∧ n / d ≤ rne n d := by
  have h1 := Nat.div_add_mod n d
  have h2 := Nat.mod_lt n hd
  have e1 : 2 * d * (n / d) = 2 * (d * (n / d)) := Nat.mul_assoc ..
  have e2 : 2 * d * (n / d + 1) = 2 * (d * (n / d)) + 2 * d := by rw [Nat.mul_add, e1, Nat.mul_one]
  unfold rne
  dsimp only
  split
  · rw [e1]; omega
  · split
    · rw [e2]; omega
    · split
      · rw [e1]; omega
      · rw [e2]; omega

theorem single_pos {n d : Nat} (h : 1 ≤ n / d) : 0 < single n d := by
  have hd : 0 < d := by
    apply Nat.pos_of_ne_zero
    intro e; subst e; simp at h
  unfold single
  dsimp only
  have hle : 2 ^ (Nat.log2 (n / d) - 23) ≤ n / d :=
    Nat.le_trans (Nat.pow_le_pow_right (by decide) (Nat.sub_le ..)) (Nat.log2_self_le (by omega))
  have h1 : 1 ≤ n / (d * 2 ^ (Nat.log2 (n / d) - 23)) := by
    rw [← Nat.div_div_eq_div_mul]
    exact (Nat.le_div_iff_mul_le (Nat.two_pow_pos _)).2 (by omega)
  have h2 := (rne_bounds (n := n) (Nat.mul_pos hd (Nat.two_pow_pos (Nat.log2 (n / d) - 23)))).2.2
  exact Nat.mul_pos (by omega) (Nat.two_pow_pos _)

theorem rne_one (n : Nat) : rne n 1 = n := by
  unfold rne
  simp [Nat.mod_one]

/-- The relative error is at most 2^-24. -/
theorem single_bounds {n d : Nat} (hd : 0 < d) (h : d = 1 ∨ 2 ^ 23 * d ≤ n) :
    2 ^ 24 * (d * single n d) ≤ 2 ^ 24 * n + n ∧ 2 ^ 24 * n ≤ 2 ^ 24 * (d * single n d) + n := by
  unfold single
  dsimp only
  generalize he : Nat.log2 (n / d) - 23 = e
  by_cases hs : Nat.log2 (n / d) < 23
  · have e0 : e = 0 := by omega
    subst e0
    rcases h with h | h
    · subst h
      rw [Nat.pow_zero, Nat.mul_one, Nat.mul_one, rne_one]; omega
    · exfalso
      have h1 : 2 ^ 23 ≤ n / d := (Nat.le_div_iff_mul_le hd).2 h
      have : 23 ≤ Nat.log2 (n / d) := (Nat.le_log2 (by omega)).2 h1
      omega
  · have hne : n / d ≠ 0 := by
      intro e0; rw [e0] at hs; exact hs (by decide)
    have h2 : 2 ^ (e + 23) ≤ n / d := by
      have := Nat.log2_self_le hne
      rw [show e + 23 = Nat.log2 (n / d) by omega]; exact this
    have h3 : 2 ^ (e + 23) * d ≤ n := (Nat.le_div_iff_mul_le hd).1 h2
    obtain ⟨b1, b2, _⟩ := rne_bounds (n := n) (Nat.mul_pos hd (Nat.two_pow_pos e))
    generalize rne n (d * 2 ^ e) = r at *
    have e1 : d * (r * 2 ^ e) = d * 2 ^ e * r := by rw [Nat.mul_assoc, Nat.mul_comm (2 ^ e)]
    have e2 : 2 ^ (e + 23) * d = 2 ^ 23 * (d * 2 ^ e) := by rw [Nat.pow_add]; ac_rfl
    rw [e1]
    rw [e2] at h3
    rw [Nat.mul_assoc] at b1 b2
    generalize d * 2 ^ e * r = x at *
    generalize d * 2 ^ e = y at *
    omega

/-! ### Sums -/

/-- Sum over the indices below `n`. -/
def sumTo (f : Nat → Nat) : Nat → Nat
  | 0 => 0
  | n + 1 => sumTo f n + f n

theorem sumTo_put_ge (f : Nat → Nat) (k v : Nat) : ∀ n, n ≤ k → sumTo (put f k v) n = sumTo f n
  | 0, _ => rfl
  | n + 1, h => by
    rw [sumTo, sumTo, sumTo_put_ge f k v n (by omega)]
    unfold put; rw [if_neg (by omega)]

theorem sumTo_put (f : Nat → Nat) (k v : Nat) : ∀ n, k < n → sumTo (put f k v) n + f k = sumTo f n + v
  | 0, h => by omega
  | n + 1, h => by
    rw [sumTo, sumTo]
    by_cases e : k = n
    · subst e
      rw [sumTo_put_ge f k v k (Nat.le_refl _)]
      unfold put; rw [if_pos rfl]; omega
    · have := sumTo_put f k v n (by omega)
      have e2 : put f k v n = f n := by unfold put; rw [if_neg (by omega)]
      omega

theorem sumTo_le (f : Nat → Nat) : ∀ n i, i < n → f i ≤ sumTo f n
  | 0, i, h => by omega
  | n + 1, i, h => by
    rw [sumTo]
    by_cases e : i = n
    · subst e; omega
    · have := sumTo_le f n i (by omega); omega

theorem sumTo_mul (c k : Nat) (f g : Nat → Nat) (h : ∀ i, c * f i ≤ k * g i) : ∀ n, c * sumTo f n ≤ k * sumTo g n
  | 0 => by simp [sumTo]
  | n + 1 => by
    have := sumTo_mul c k f g h n
    have := h n
    rw [sumTo, sumTo, Nat.mul_add, Nat.mul_add]; omega

theorem sumTo_congr {f g : Nat → Nat} : ∀ n, (∀ i, i < n → f i = g i) → sumTo f n = sumTo g n
  | 0, _ => rfl
  | n + 1, h => by rw [sumTo, sumTo, sumTo_congr n (fun i hi => h i (by omega)), h n (by omega)]

theorem freqOf_pos {h t : Nat} (hh : 0 < h) (hle : h ≤ t) (ht : t < 2 ^ 31) : 0 < freqOf h t ∧
    (2 ^ 24 * 2 ^ 24 * single t 1) * freqOf h t ≤ ((2 ^ 24 + 1) * (2 ^ 24 + 1) * 2 ^ 60) * h := by
  have p1 : 0 < single h 1 := single_pos (by rw [Nat.div_one]; omega)
  have p2 : 0 < single t 1 := single_pos (by rw [Nat.div_one]; omega)
  obtain ⟨a1, a2⟩ := single_bounds (n := h) (d := 1) (by decide) (Or.inl rfl)
  obtain ⟨b1, b2⟩ := single_bounds (n := t) (d := 1) (by decide) (Or.inl rfl)
  rw [Nat.one_mul] at a1 a2 b1 b2
  unfold freqOf
  rw [if_neg (by omega)]
  have hb : single t 1 < 2 ^ 32 := by omega
  have hx : 2 ^ 60 ≤ single h 1 * one := by unfold one; omega
  have hle : 2 ^ 23 * single t 1 ≤ single h 1 * one := by omega
  have c1 := (single_bounds (n := single h 1 * one) (d := single t 1) p2 (Or.inr hle)).1
  constructor
  · apply single_pos
    apply (Nat.le_div_iff_mul_le p2).2
    omega
  · generalize single (single h 1 * one) (single t 1) = F at *
    generalize single h 1 = hf at *
    generalize single t 1 = tf at *
    have e1 : 2 ^ 24 * 2 ^ 24 * tf * F = 2 ^ 24 * (2 ^ 24 * (tf * F)) := by ac_rfl
    rw [e1]
    generalize tf * F = x at *
    unfold one at c1
    omega

/-- The sum of the frequencies is little more than 2. -/
theorem init_sum {hist : Nat → Nat} {t : Nat} (hs : sumTo hist 17 = t) (h1 : 1 ≤ t) (ht : t < 2 ^ 31) :
    sumTo (Tree.init hist t).freq 18 ≤ 2 * one + 2 ^ 40 := by
  have p2 : 0 < single t 1 := single_pos (by rw [Nat.div_one]; omega)
  obtain ⟨b1, b2⟩ := single_bounds (n := t) (d := 1) (by decide) (Or.inl rfl)
  rw [Nat.one_mul] at b1 b2
  have key := sumTo_mul (2 ^ 24 * 2 ^ 24 * single t 1) ((2 ^ 24 + 1) * (2 ^ 24 + 1) * 2 ^ 60) (fun i => if i < 17 then freqOf (hist i) t else 0)
    (fun i => if i < 17 then hist i else 0) (fun i => by
      by_cases hi : i < 17
      · rw [if_pos hi, if_pos hi]
        by_cases h0 : hist i = 0
        · simp [freqOf, h0]
        · exact (freqOf_pos (by omega) (by rw [← hs]; exact sumTo_le hist 17 i hi) ht).2
      · rw [if_neg hi, if_neg hi]; simp) 17
  have e0 : sumTo (fun i => if i < 17 then hist i else 0) 17 = t := by
    rw [← hs]; exact sumTo_congr 17 (fun i hi => if_pos hi)
  rw [e0] at key
  have e1 : sumTo (Tree.init hist t).freq 18 = sumTo (fun i => if i < 17 then freqOf (hist i) t else 0) 17 + one := by
    rw [sumTo]
    have : sumTo (Tree.init hist t).freq 17 = sumTo (fun i => if i < 17 then freqOf (hist i) t else 0) 17 := by
      apply sumTo_congr
      intro i hi
      simp only [Tree.init]
      rw [if_neg (by omega)]
    rw [this]; rfl
  rw [e1]
  generalize sumTo (fun i => if i < 17 then freqOf (hist i) t else 0) 17 = F at *
  generalize single t 1 = tf at *
  have k1 : (2 ^ 24 * 2 ^ 24 - 2 ^ 24) * t * F ≤ 2 ^ 24 * 2 ^ 24 * tf * F := by
    apply Nat.mul_le_mul_right
    omega
  have k2 : t * ((2 ^ 24 * 2 ^ 24 - 2 ^ 24) * F) ≤ t * ((2 ^ 24 + 1) * (2 ^ 24 + 1) * 2 ^ 60) := by
    have e : t * ((2 ^ 24 * 2 ^ 24 - 2 ^ 24) * F) = (2 ^ 24 * 2 ^ 24 - 2 ^ 24) * t * F := by ac_rfl
    rw [e, Nat.mul_comm t]
    exact Nat.le_trans k1 key
  have k3 := Nat.le_of_mul_le_mul_left k2 (by omega)
  unfold one
  omega

/-! ### The choice of the two smallest -/

theorem pick1_spec (freq : Nat → Nat) :
    (∀ v, (pick1 freq).2 = some v → v < 18 ∧ 0 < freq v) ∧
    ((pick1 freq).2 = none → ∀ i, i < 18 → 0 < freq i → ¬ freq i ≤ 3 * one) := by
  have key : ∀ n, (∀ v, ((List.range n).foldl (fun (x : Nat × Option Nat) i => if freq i ≤ x.1 ∧ 0 < freq i then (freq i, some i) else (x.1, x.2)) (3 * one, none)).2 = some v →
        v < n ∧ 0 < freq v) ∧
      (((List.range n).foldl (fun (x : Nat × Option Nat) i => if freq i ≤ x.1 ∧ 0 < freq i then (freq i, some i) else (x.1, x.2)) (3 * one, none)).2 = none →
        ((List.range n).foldl (fun (x : Nat × Option Nat) i => if freq i ≤ x.1 ∧ 0 < freq i then (freq i, some i) else (x.1, x.2)) (3 * one, none)).1 = 3 * one ∧
        ∀ i, i < n → 0 < freq i → ¬ freq i ≤ 3 * one) := by
    intro n
    induction n with
    | zero => exact ⟨fun v h => by simp at h, fun _ => ⟨rfl, fun i hi => by omega⟩⟩
    | succ n ih =>
      rw [List.range_succ, List.foldl_append]
      generalize (List.range n).foldl (fun (x : Nat × Option Nat) i => if freq i ≤ x.1 ∧ 0 < freq i then (freq i, some i) else (x.1, x.2)) (3 * one, none) = x at *
      obtain ⟨f, w⟩ := x
      simp only [List.foldl_cons, List.foldl_nil]
      obtain ⟨i1, i2⟩ := ih
      dsimp only at i1 i2
      by_cases hc : freq n ≤ f ∧ 0 < freq n
      · rw [if_pos hc]
        exact ⟨fun v hv => by simp at hv; subst hv; exact ⟨by omega, hc.2⟩, fun h => by simp at h⟩
      · rw [if_neg hc]
        refine ⟨fun v hv => ⟨by have := (i1 v hv).1; omega, (i1 v hv).2⟩, fun h => ⟨(i2 h).1, fun i hi hp => ?_⟩⟩
        by_cases e : i = n
        · subst e; intro hle; exact hc ⟨by rw [(i2 h).1]; exact hle, hp⟩
        · exact (i2 h).2 i (by omega) hp
  exact ⟨(key 18).1, fun h => ((key 18).2 h).2⟩

theorem pick2_spec (freq : Nat → Nat) (v1 : Option Nat) :
    (∀ v, (pick2 freq v1).2 = some v → v < 18 ∧ 0 < freq v ∧ some v ≠ v1) ∧
    ((pick2 freq v1).2 = none → ∀ i, i < 18 → 0 < freq i → some i ≠ v1 → ¬ freq i < 3 * one) := by
  let g := fun (x : Nat × Option Nat) i => if some i = v1 then (x.1, x.2) else if freq i < x.1 ∧ 0 < freq i then (freq i, some i) else (x.1, x.2)
  have key : ∀ n, (∀ v, ((List.range n).foldl g (3 * one, none)).2 = some v → v < n ∧ 0 < freq v ∧ some v ≠ v1) ∧
      (((List.range n).foldl g (3 * one, none)).2 = none → ((List.range n).foldl g (3 * one, none)).1 = 3 * one ∧
        ∀ i, i < n → 0 < freq i → some i ≠ v1 → ¬ freq i < 3 * one) := by
    intro n
    induction n with
    | zero => exact ⟨fun v h => by simp at h, fun _ => ⟨rfl, fun i hi => by omega⟩⟩
    | succ n ih =>
      rw [List.range_succ, List.foldl_append]
      generalize (List.range n).foldl g (3 * one, none) = x at *
      obtain ⟨f, w⟩ := x
      simp only [List.foldl_cons, List.foldl_nil]
      obtain ⟨i1, i2⟩ := ih
      dsimp only at i1 i2
      have keep : ∀ h : g (f, w) n = (f, w), ∀ hn : (∀ h : w = none, 0 < freq n → some n ≠ v1 → ¬ freq n < 3 * one),
          (∀ v, (g (f, w) n).2 = some v → v < n + 1 ∧ 0 < freq v ∧ some v ≠ v1) ∧
          ((g (f, w) n).2 = none → (g (f, w) n).1 = 3 * one ∧ ∀ i, i < n + 1 → 0 < freq i → some i ≠ v1 → ¬ freq i < 3 * one) := by
        intro h hn
        rw [h]
        refine ⟨fun v hv => ⟨by have := (i1 v hv).1; omega, (i1 v hv).2⟩, fun h => ⟨(i2 h).1, fun i hi hp => ?_⟩⟩
        by_cases e : i = n
        · subst e; exact hn (by assumption) hp
        · exact (i2 h).2 i (by omega) hp
      by_cases hv : some n = v1
      · exact keep (by simp [g, hv]) (fun _ _ h => absurd hv h)
      · by_cases hc : freq n < f ∧ 0 < freq n
        · have e : g (f, w) n = (freq n, some n) := by simp only [g]; rw [if_neg hv, if_pos hc]
          rw [e]
          exact ⟨fun v hv' => by simp at hv'; subst hv'; exact ⟨by omega, hc.2, hv⟩, fun h => by simp at h⟩
        · exact keep (by simp only [g]; rw [if_neg hv, if_neg hc]) (fun hw hp _ hlt => hc ⟨by rw [(i2 hw).1]; exact hlt, hp⟩)
  exact ⟨(key 18).1, fun h => ((key 18).2 h).2⟩

end Model.Lj92.Enc
