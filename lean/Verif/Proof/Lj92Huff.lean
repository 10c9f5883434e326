/- Helper lemmas about the model of the lj92 decoder: the look-up table. -/
import Verif.Proof.Lj92
import Verif.Spec.Dht

set_option autoImplicit false

namespace Model.Lj92
open Spec

/-- Invariant rule for `while` with a decreasing measure. -/
theorem whileN_inv {σ : Type} {step : σ → Option σ} {I : σ → Prop} (μ : σ → Nat)
    (h : ∀ s s', I s → step s = some s' → I s' ∧ μ s' < μ s) :
    ∀ (n : Nat) (s : σ), I s → μ s < n → ∃ t, whileN step n s = some t ∧ I t ∧ step t = none
  | 0, _, _, hn => by omega
  | n + 1, s, hs, hn => by
    unfold whileN
    cases e : step s with
    | none => exact ⟨s, rfl, hs, e⟩
    | some s' =>
      obtain ⟨h1, h2⟩ := h s s' hs e
      exact whileN_inv μ h n s' h1 (by omega)

/-! ### Code lengths and codes -/

theorem huffSizes_succ (c : Nat → Nat) (n : Nat) : huffSizes c (n + 1) = huffSizes c n ++ List.replicate (c n) (n + 1) := by
  simp [huffSizes, List.range_succ]

theorem huffSizes_le (c : Nat → Nat) (n : Nat) : ∀ x ∈ huffSizes c n, 1 ≤ x ∧ x ≤ n := by
  intro x hx
  simp only [huffSizes, List.mem_flatMap, List.mem_range, List.mem_replicate] at hx
  obtain ⟨i, h1, _, rfl⟩ := hx
  omega

theorem huffSizes_mono (c : Nat → Nat) : ∀ n, (huffSizes c n).Pairwise (· ≤ ·)
  | 0 => by simp [huffSizes]
  | n + 1 => by
    rw [huffSizes_succ, List.pairwise_append]
    refine ⟨huffSizes_mono c n, ?_, ?_⟩
    · exact List.pairwise_replicate.2 (Or.inr (Nat.le_refl _))
    · intro a ha b hb
      have := (huffSizes_le c n a ha).2
      rw [List.eq_of_mem_replicate hb]; omega

theorem huffSizes_getD (c : Nat → Nat) : ∀ n b v, b < n → v < c b →
    (huffSizes c n)[(huffSizes c b).length + v]? = some (b + 1)
  | 0, _, _, h, _ => by omega
  | n + 1, b, v, h, hv => by
    rw [huffSizes_succ]
    by_cases hb : b = n
    · subst hb
      rw [List.getElem?_append_right (by omega), Nat.add_sub_cancel_left]
      simp [hv]
    · have ih := huffSizes_getD c n b v (by omega) hv
      rw [List.getElem?_append_left]
      · exact ih
      · rcases Nat.lt_or_ge ((huffSizes c b).length + v) (huffSizes c n).length with h' | h'
        · exact h'
        · rw [List.getElem?_eq_none h'] at ih; simp at ih

theorem huffSizes_len_mono (c : Nat → Nat) (a : Nat) : ∀ b, a ≤ b → (huffSizes c a).length ≤ (huffSizes c b).length
  | 0, h => by have : a = 0 := by omega
               subst this; exact Nat.le_refl _
  | b + 1, h => by
    by_cases e : a = b + 1
    · subst e; exact Nat.le_refl _
    · have := huffSizes_len_mono c a b (by omega)
      rw [huffSizes_succ, List.length_append]; omega

/-- First table index of the `k`-th code. -/
def start (m : Nat) (l : List Nat) (k : Nat) : Nat := ((l.take k).map fun s => 2 ^ (m - s)).sum

theorem start_succ {m : Nat} {l : List Nat} {k s : Nat} (h : l[k]? = some s) : start m l (k + 1) = start m l k + 2 ^ (m - s) := by
  obtain ⟨hk, rfl⟩ := List.getElem?_eq_some_iff.1 h
  simp only [start]
  rw [List.take_add_one, List.getElem?_eq_getElem hk, List.map_append, List.sum_append]
  rfl

theorem start_mono (m : Nat) (l : List Nat) {a b : Nat} (h : a ≤ b) : start m l a ≤ start m l b := by
  obtain ⟨d, rfl⟩ : ∃ d, b = a + d := ⟨b - a, by omega⟩
  clear h
  induction d with
  | zero => exact Nat.le_refl _
  | succ d ih =>
    refine Nat.le_trans ih ?_
    rcases h : l[a + d]? with _ | s
    · have := List.getElem?_eq_none_iff.1 h
      rw [← Nat.add_assoc]
      unfold start
      rw [List.take_of_length_le this, List.take_of_length_le (by omega)]
      exact Nat.le_refl _
    · rw [← Nat.add_assoc, start_succ h]; exact Nat.le_add_right _ _

theorem huffCodes_length : ∀ (l : List Nat) (c s : Nat), (huffCodes c s l).length = l.length
  | [], _, _ => rfl
  | n :: l, c, s => by simp [huffCodes, huffCodes_length l]

/-- The canonical codes are the table indices, left-aligned. -/
theorem huffCodes_start (m : Nat) : ∀ (l : List Nat) (c s k : Nat), (s :: l).Pairwise (· ≤ ·) → (∀ x ∈ l, x ≤ m) → k < l.length → s ≤ m →
    ∃ e, (huffCodes c s l)[k]? = some e ∧ l[k]? = some e.1 ∧ e.2 * 2 ^ (m - e.1) = c * 2 ^ (m - s) + start m l k
  | [], _, _, _, _, _, h, _ => by simp at h
  | n :: l, c, s, k, hp, hm, hk, hs => by
    have hp' := hp
    rw [List.pairwise_cons] at hp'
    have h1 : s ≤ n := hp'.1 n (List.mem_cons_self ..)
    have h2 : n ≤ m := hm n (List.mem_cons_self ..)
    have e1 : c * 2 ^ (n - s) * 2 ^ (m - n) = c * 2 ^ (m - s) := by
      rw [Nat.mul_assoc, ← Nat.pow_add, show n - s + (m - n) = m - s by omega]
    cases k with
    | zero => exact ⟨(n, c * 2 ^ (n - s)), by simp [huffCodes], by simp, by dsimp only; rw [e1]; simp [start]⟩
    | succ k =>
      obtain ⟨e, a1, a2, a3⟩ := huffCodes_start m l (c * 2 ^ (n - s) + 1) n k hp'.2
        (fun x hx => hm x (List.mem_cons_of_mem _ hx)) (by simpa using hk) h2
      refine ⟨e, by simpa [huffCodes] using a1, by simpa using a2, ?_⟩
      rw [a3, Nat.add_mul, e1, Nat.one_mul]
      simp [start]; omega

/-! ### The table loop -/

theorem maxbits_spec (bits : Nat → Nat) : ∀ n, maxbits bits n ≤ n ∧ (∀ k, maxbits bits n < k → k ≤ n → bits k = 0)
  | 0 => ⟨Nat.le_refl _, fun k h1 h2 => by simp [maxbits] at h1; omega⟩
  | n + 1 => by
    unfold maxbits
    split
    · exact ⟨Nat.le_refl _, fun k h1 h2 => by omega⟩
    · rename_i h
      obtain ⟨h1, h2⟩ := maxbits_spec bits n
      refine ⟨by omega, fun k h3 h4 => ?_⟩
      by_cases e : k = n + 1
      · subst e; simpa using h
      · exact h2 k h3 (by omega)

/-- Invariant of the table loop: the blocks of the codes before `hv`, and `rv` entries of the one of `hv`, are filled. -/
def FillInv (c vals : Nat → Nat) (m : Nat) (f : Fill) : Prop :=
  let sizes := huffSizes c 16
  f.bitsused ≤ m + 1 ∧ 1 ≤ f.bitsused ∧ (f.bitsused = m + 1 → f.vl = 0) ∧ (f.bitsused ≤ m → f.vl ≤ c (f.bitsused - 1)) ∧
  f.hv = (huffSizes c (f.bitsused - 1)).length + f.vl ∧
  f.i = start m sizes f.hv + f.rv ∧
  (∀ s, sizes[f.hv]? = some s → f.rv ≤ 2 ^ (m - s)) ∧ (sizes.length ≤ f.hv → f.rv = 0) ∧
  (f.bitsused ≤ m → f.vl = c (f.bitsused - 1) → f.rv = 0) ∧
  (∀ k s, k < f.hv → sizes[k]? = some s → ∀ j, j < 2 ^ (m - s) → f.lut (start m sizes k + j) = vals k * 256 + s) ∧
  (∀ s, sizes[f.hv]? = some s → ∀ j, j < f.rv → f.lut (start m sizes f.hv + j) = vals f.hv * 256 + s)

theorem fill_step {c vals : Nat → Nat} {m : Nat} (hm : m ≤ 16) {bits : Nat → Nat} (hb : ∀ k, 1 ≤ k → k ≤ 16 → bits k = c (k - 1))
    {f f' : Fill} (h : FillInv c vals m f) (hs : fillStep bits vals m f = some f') :
    FillInv c vals m f' ∧ (2 ^ m - f'.i) + ((huffSizes c 16).length + 1 - f'.hv) + (m + 2 - f'.bitsused) <
      (2 ^ m - f.i) + ((huffSizes c 16).length + 1 - f.hv) + (m + 2 - f.bitsused) := by
  obtain ⟨i, hv, rv, vl, bu, lut⟩ := f
  obtain ⟨h1, h2, h3, h4, h5, h6, h7, h8, h9, h10, h11⟩ := h
  dsimp only at h1 h2 h3 h4 h5 h6 h7 h8 h9 h10 h11
  unfold fillStep at hs
  dsimp only at hs
  split at hs
  case isFalse => simp at hs
  rename_i hi
  split at hs
  case isTrue => simp at hs
  rename_i hbu
  have hbu' : bu ≤ m := by omega
  have hbits : bits bu = c (bu - 1) := hb bu h2 (by omega)
  rw [hbits] at hs
  split at hs
  · -- next length
    rename_i hvl
    have e : vl = c (bu - 1) := by have := h4 hbu'; omega
    injection hs with hs; subst hs
    have hr : rv = 0 := h9 hbu' e
    subst hr
    have hlen : (huffSizes c (bu - 1)).length + vl = (huffSizes c (bu + 1 - 1)).length := by
      have := huffSizes_succ c (bu - 1)
      rw [show bu - 1 + 1 = bu by omega] at this
      rw [show bu + 1 - 1 = bu by omega, this]
      simp [e]
    refine ⟨⟨by dsimp only; omega, by dsimp only; omega, fun _ => rfl, fun _ => Nat.zero_le _, ?_, h6, h7, h8, fun _ _ => rfl, h10, h11⟩, ?_⟩
    · dsimp only; rw [h5, hlen]; rfl
    · dsimp only; omega
  · rename_i hvl
    have hvl' : vl < c (bu - 1) := by omega
    have hsz : (huffSizes c 16)[hv]? = some bu := by
      have := huffSizes_getD c 16 (bu - 1) vl (by omega) hvl'
      rw [← h5] at this
      rw [this]; congr 1; omega
    have hhv : hv < (huffSizes c 16).length := (List.getElem?_eq_some_iff.1 hsz).1
    split at hs
    · -- next code
      rename_i hrv
      injection hs with hs; subst hs
      refine ⟨⟨h1, h2, fun e => ?_, fun _ => ?_, ?_, ?_, fun s _ => Nat.zero_le _, fun _ => rfl, fun _ _ => rfl, ?_, ?_⟩, ?_⟩
      · dsimp only at e; omega
      · dsimp only; omega
      · dsimp only; omega
      · dsimp only; rw [start_succ hsz, h6, hrv]; rfl
      · intro k s hk hks j hj
        dsimp only at hk ⊢
        by_cases e : k = hv
        · subst e
          rw [hsz] at hks; injection hks with hks; subst hks
          exact h11 bu hsz j (by omega)
        · exact h10 k s (by omega) hks j hj
      · intro s _ j hj; dsimp only at hj; omega
      · dsimp only; omega
    · -- one entry
      rename_i hrv
      injection hs with hs; subst hs
      have hr := h7 bu hsz
      have hsz' : ∀ s, (huffSizes c 16)[hv]? = some s → s = bu := by
        intro s hs
        rw [hsz] at hs; injection hs with hs; exact hs.symm
      refine ⟨⟨h1, h2, h3, h4, h5, ?_, ?_, ?_, ?_, ?_, ?_⟩, ?_⟩
      · dsimp only; omega
      · intro s hs
        have := hsz' s hs
        subst this
        dsimp only; omega
      · intro hx; dsimp only at hx; omega
      · intro _ e; dsimp only at e; omega
      · intro k s hk hks j hj
        dsimp only [put]
        have hlt : start m (huffSizes c 16) k + j < i := by
          have a1 := start_succ (m := m) hks
          have a2 := start_mono m (huffSizes c 16) (show k + 1 ≤ hv from hk)
          omega
        rw [if_neg (by omega)]
        exact h10 k s hk hks j hj
      · intro s hs j hj
        have := hsz' s hs
        subst this
        dsimp only [put] at hj ⊢
        by_cases e : j = rv
        · subst e; rw [if_pos h6.symm]
        · rw [if_neg (by omega)]
          exact h11 s hs j (by omega)
      · dsimp only; omega

/-- The table loop ends and the table is right. -/
theorem fill_done {c vals : Nat → Nat} {bits : Nat → Nat} (hb : ∀ k, 1 ≤ k → k ≤ 16 → bits k = c (k - 1))
    (hN : (huffSizes c 16).length < 200)
    (hfit : ∀ e ∈ huffCodes 0 0 (huffSizes c 16), e.2 < 2 ^ e.1) (lut0 : Nat → Nat) :
    ∃ f, whileN (fillStep bits vals (maxbits bits 16)) (2 ^ 18) ⟨0, 0, 0, 0, 1, lut0⟩ = some f ∧
      ∀ k e, (huffCodes 0 0 (huffSizes c 16))[k]? = some e → LutOk f.lut (maxbits bits 16) (toBits e.1 e.2) (vals k) := by
  obtain ⟨hm, hz⟩ := maxbits_spec bits 16
  generalize maxbits bits 16 = m at *
  -- all lengths are at most m
  have hle : ∀ x ∈ huffSizes c 16, x ≤ m := by
    intro x hx
    simp only [huffSizes, List.mem_flatMap, List.mem_range, List.mem_replicate] at hx
    obtain ⟨i, a1, a2, rfl⟩ := hx
    apply Nat.le_of_not_lt
    intro hlt
    have := hz (i + 1) (by omega) (by omega)
    rw [hb _ (by omega) (by omega), Nat.add_sub_cancel] at this
    exact a2 this
  have hpw : (0 :: huffSizes c 16).Pairwise (· ≤ ·) := by
    rw [List.pairwise_cons]; exact ⟨fun a _ => Nat.zero_le a, huffSizes_mono c 16⟩
  have hcode : ∀ k, k < (huffSizes c 16).length → ∃ e, (huffCodes 0 0 (huffSizes c 16))[k]? = some e ∧ (huffSizes c 16)[k]? = some e.1 ∧
      e.2 * 2 ^ (m - e.1) = start m (huffSizes c 16) k := by
    intro k hk
    obtain ⟨e, a1, a2, a3⟩ := huffCodes_start m (huffSizes c 16) 0 0 k hpw hle hk (Nat.zero_le _)
    exact ⟨e, a1, a2, by rw [a3]; simp⟩
  have hblock : ∀ k s, (huffSizes c 16)[k]? = some s → start m (huffSizes c 16) k + 2 ^ (m - s) ≤ 2 ^ m := by
    intro k s hs
    obtain ⟨e, a1, a2, a3⟩ := hcode k (List.getElem?_eq_some_iff.1 hs).1
    rw [hs] at a2; injection a2 with a2; subst a2
    have h1 := hfit e (List.mem_of_getElem? a1)
    have h2 := hle _ (List.mem_of_getElem? hs)
    have h3 : (e.2 + 1) * 2 ^ (m - e.1) ≤ 2 ^ e.1 * 2 ^ (m - e.1) := Nat.mul_le_mul_right _ h1
    rw [← Nat.pow_add, show e.1 + (m - e.1) = m by omega, Nat.add_mul, a3] at h3
    omega
  have h0 : FillInv c vals m ⟨0, 0, 0, 0, 1, lut0⟩ := by
    refine ⟨by simp, by simp, fun _ => rfl, fun _ => Nat.zero_le _, by simp [huffSizes], by simp [start], fun _ _ => Nat.zero_le _,
      fun _ => rfl, fun _ _ => rfl, fun k s hk => by simp at hk, fun s _ j hj => by simp at hj⟩
  have hpow : 2 ^ m ≤ 2 ^ 16 := Nat.pow_le_pow_right (by decide) hm
  obtain ⟨f, f1, f2, f3⟩ := whileN_inv (I := FillInv c vals m)
    (fun f => (2 ^ m - f.i) + ((huffSizes c 16).length + 1 - f.hv) + (m + 2 - f.bitsused))
    (fun s s' => fill_step hm hb) (2 ^ 18) _ h0 (by dsimp only; omega)
  refine ⟨f, f1, ?_⟩
  obtain ⟨h1, h2, h3, h4, h5, h6, h7, h8, h9, h10, h11⟩ := f2
  -- every block is filled
  have hall : ∀ k s, (huffSizes c 16)[k]? = some s → ∀ j, j < 2 ^ (m - s) → f.lut (start m (huffSizes c 16) k + j) = vals k * 256 + s := by
    intro k s hks j hj
    have hk := (List.getElem?_eq_some_iff.1 hks).1
    by_cases hlt : k < f.hv
    · exact h10 k s hlt hks j hj
    · unfold fillStep at f3
      split at f3
      · rename_i hi
        split at f3
        · -- all lengths done
          exfalso
          have hbu : f.bitsused = m + 1 := by omega
          have hvl := h3 hbu
          rw [hbu, hvl, Nat.add_sub_cancel, Nat.add_zero] at h5
          have : (huffSizes c 16).length = (huffSizes c m).length := by
            have key : ∀ n, m ≤ n → n ≤ 16 → (huffSizes c n).length = (huffSizes c m).length := by
              intro n
              induction n with
              | zero => intro a _; have : m = 0 := by omega
                        subst this; rfl
              | succ n ih =>
                intro a b
                by_cases e : m = n + 1
                · subst e; rfl
                · rw [huffSizes_succ, List.length_append, ih (by omega) (by omega)]
                  have := hz (n + 1) (by omega) b
                  rw [hb _ (by omega) b, Nat.add_sub_cancel] at this
                  rw [this]; rfl
            exact key 16 hm (Nat.le_refl _)
          omega
        · split at f3
          · simp at f3
          · split at f3 <;> simp at f3
      · rename_i hi
        have b1 := hblock k s hks
        have b2 := start_mono m (huffSizes c 16) (show f.hv ≤ k by omega)
        have hp := Nat.two_pow_pos (m - s)
        by_cases e : k = f.hv
        · subst e
          have := h7 s hks
          exact h11 s hks j (by omega)
        · exfalso
          obtain ⟨s', hs'⟩ : ∃ s', (huffSizes c 16)[f.hv]? = some s' := ⟨_, List.getElem?_eq_getElem (by omega)⟩
          have c1 := start_succ (m := m) hs'
          have c2 := start_mono m (huffSizes c 16) (show f.hv + 1 ≤ k by omega)
          have c3 := h7 s' hs'
          omega
  intro k e hk
  have hklt : k < (huffSizes c 16).length := by
    have := (List.getElem?_eq_some_iff.1 hk).1
    rwa [huffCodes_length] at this
  obtain ⟨e', a1, a2, a3⟩ := hcode k hklt
  rw [hk] at a1; injection a1 with a1; subst a1
  have hf := hfit e (List.mem_of_getElem? hk)
  refine ⟨by rw [toBits_length]; exact hle _ (List.mem_of_getElem? a2), ?_⟩
  rw [toBits_length, ofBits_toBits, Nat.mod_eq_of_lt hf, a3]
  exact hall k e.1 a2

end Model.Lj92
