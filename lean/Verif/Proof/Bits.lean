/- Helper lemmas about bit strings. -/
import Verif.Spec.Bits

set_option autoImplicit false

namespace Spec

@[simp] theorem toBits_length (n v : Nat) : (toBits n v).length = n := by
  induction n with
  | zero => rfl
  | succ n ih => simp [toBits, ih]

theorem toBits_congr {n v w : Nat} (h : ∀ i, i < n → v.testBit i = w.testBit i) :
    toBits n v = toBits n w := by
  induction n with
  | zero => rfl
  | succ n ih =>
    simp only [toBits]
    rw [h n (by omega), ih (fun i hi => h i (by omega))]

theorem toBits_add (a b v : Nat) : toBits (a + b) v = toBits a (v >>> b) ++ toBits b v := by
  induction a with
  | zero => simp [toBits]
  | succ a ih =>
    have : a + 1 + b = (a + b) + 1 := by omega
    rw [this]
    simp only [toBits, List.cons_append, Nat.testBit_shiftRight]
    rw [ih, Nat.add_comm b a]

theorem toBits_mod {n m v : Nat} (h : n ≤ m) : toBits n (v % 2 ^ m) = toBits n v := by
  apply toBits_congr
  intro i hi
  rw [Nat.testBit_mod_two_pow]
  simp; omega

/-- Concatenation of two codes: shift the first by the length of the second and OR. -/
theorem toBits_or_shift {a b x y : Nat} (hy : y < 2 ^ b) :
    toBits (a + b) ((x <<< b) ||| y) = toBits a x ++ toBits b y := by
  rw [toBits_add]
  congr 1
  · apply toBits_congr
    intro i _
    rw [Nat.testBit_shiftRight, Nat.testBit_or, Nat.testBit_shiftLeft]
    have : y.testBit (b + i) = false :=
      Nat.testBit_lt_two_pow (Nat.lt_of_lt_of_le hy (Nat.pow_le_pow_right (by omega) (by omega)))
    simp [this]
  · apply toBits_congr
    intro i hi
    rw [Nat.testBit_or, Nat.testBit_shiftLeft]
    simp; omega

theorem shiftLeft_or_lt {a b x y : Nat} (hx : x < 2 ^ a) (hy : y < 2 ^ b) :
    (x <<< b) ||| y < 2 ^ (a + b) := by
  apply Nat.or_lt_two_pow
  · rw [Nat.shiftLeft_eq, Nat.pow_add]
    exact Nat.mul_lt_mul_of_pos_right hx (Nat.two_pow_pos b)
  · exact Nat.lt_of_lt_of_le hy (Nat.pow_le_pow_right (by omega) (by omega))

theorem or_shift_eq {x y b : Nat} (hy : y < 2 ^ b) : (x <<< b) ||| y = x * 2 ^ b + y := by
  rw [← Nat.shiftLeft_add_eq_or_of_lt hy, Nat.shiftLeft_eq]

@[simp] theorem ofBits_nil : ofBits [] = 0 := rfl

theorem foldl_bits (l : List Bool) (a : Nat) :
    l.foldl (fun a b => 2 * a + b.toNat) a = a * 2 ^ l.length + ofBits l := by
  induction l generalizing a with
  | nil => simp [ofBits]
  | cons b l ih =>
    unfold ofBits
    simp only [List.foldl_cons, List.length_cons]
    rw [ih, ih (2 * 0 + b.toNat), Nat.pow_succ]
    have : (2 * a + b.toNat) * 2 ^ l.length = a * (2 ^ l.length * 2) + b.toNat * 2 ^ l.length := by
      rw [Nat.add_mul, Nat.mul_comm 2 a, Nat.mul_assoc, Nat.mul_comm 2]
    rw [this]; simp; omega

theorem ofBits_cons (b : Bool) (l : List Bool) :
    ofBits (b :: l) = b.toNat * 2 ^ l.length + ofBits l := by
  have := foldl_bits l (2 * 0 + b.toNat)
  simpa [ofBits] using this

theorem ofBits_append (l m : List Bool) :
    ofBits (l ++ m) = ofBits l * 2 ^ m.length + ofBits m := by
  unfold ofBits
  rw [List.foldl_append]
  exact foldl_bits m _

theorem ofBits_lt (l : List Bool) : ofBits l < 2 ^ l.length := by
  induction l with
  | nil => simp
  | cons b l ih =>
    rw [ofBits_cons, List.length_cons, Nat.pow_succ]
    cases b <;> simp <;> omega

@[simp] theorem toBits_ofBits (l : List Bool) : toBits l.length (ofBits l) = l := by
  induction l with
  | nil => rfl
  | cons b l ih =>
    simp only [List.length_cons, toBits]
    have hl := ofBits_lt l
    have h1 : (ofBits (b :: l)).testBit l.length = b := by
      rw [ofBits_cons, Nat.testBit, Nat.shiftRight_eq_div_pow]
      have : (b.toNat * 2 ^ l.length + ofBits l) / 2 ^ l.length = b.toNat := by
        rw [Nat.mul_comm, Nat.mul_add_div (Nat.two_pow_pos _), Nat.div_eq_of_lt hl]; simp
      rw [this]; cases b <;> simp
    rw [h1]
    congr 1
    have h2 : toBits l.length (ofBits (b :: l)) = toBits l.length (ofBits l) := by
      apply toBits_congr
      intro i hi
      rw [ofBits_cons, ← or_shift_eq hl, Nat.testBit_or, Nat.testBit_shiftLeft]
      simp; omega
    rw [h2, ih]

@[simp] theorem ofBits_toBits (n v : Nat) : ofBits (toBits n v) = v % 2 ^ n := by
  induction n with
  | zero => simp [toBits, Nat.mod_one]
  | succ n ih =>
    simp only [toBits]
    rw [ofBits_cons, ih, toBits_length, Nat.pow_succ, Nat.mod_mul, Nat.toNat_testBit,
      Nat.mul_comm]
    omega

theorem toBits_inj {n v w : Nat} (hv : v < 2 ^ n) (hw : w < 2 ^ n)
    (h : toBits n v = toBits n w) : v = w := by
  have := congrArg ofBits h
  rwa [ofBits_toBits, ofBits_toBits, Nat.mod_eq_of_lt hv, Nat.mod_eq_of_lt hw] at this

theorem toBits_zero (n : Nat) : toBits n 0 = List.replicate n false := by
  induction n with
  | zero => rfl
  | succ n ih => simp [toBits, ih, List.replicate_succ]

end Spec
