/- Property theorems C40, C43, C44, C45, C47: the small helper modules. -/
import Verif.Model.AddressGenerator
import Verif.Model.Delayer
import Verif.Model.Reverser
import Verif.Model.Constraints
import Verif.Model.Debug

set_option autoImplicit false

namespace Props
open Model

/-! ### C40: address generator -/

def addrRun (shift : Nat) : AddrGen → List AddrIn → AddrGen
  | s, [] => s
  | s, i :: r => addrRun shift (s.step shift i) r

/-- The addresses the user takes: the address output in each cycle in which it asserts `latch`. -/
def addrTaken (shift : Nat) : AddrGen → List AddrIn → List Nat
  | _, [] => []
  | s, i :: r => (if i.latch then [s.addr] else []) ++ addrTaken shift (s.step shift i) r

theorem addr_loop (shift : Nat) : ∀ (is : List AddrIn) (a : Nat) (v : Bool), a < 2 ^ 32 →
    addrTaken shift ⟨a, v, true⟩ is = (List.range (is.countP (·.latch))).map fun k => (a + k * shift) % 2 ^ 32
  | [], _, _, _ => rfl
  | i :: r, a, v, ha => by
    by_cases h : i.latch = true
    · have ih := addr_loop shift r ((a + shift) % 2 ^ 32) v (Nat.mod_lt _ (by decide))
      simp only [addrTaken, AddrGen.step, h, if_true, List.countP_cons_of_pos h (l := r) (p := (·.latch)), ih,
        List.range_succ_eq_map, List.map_cons, List.map_map, List.cons_append, List.nil_append]
      congr 1
      · rw [Nat.zero_mul, Nat.add_zero, Nat.mod_eq_of_lt ha]
      · apply List.map_congr_left
        intro k _
        simp only [Function.comp, Nat.succ_mul, Nat.add_mod, Nat.mod_mod]
        omega
    · have ih := addr_loop shift r a v ha
      simp only [addrTaken, AddrGen.step, h, if_true, List.countP_cons_of_neg h (l := r) (p := (·.latch))]
      simp only [Bool.false_eq_true, if_false, List.nil_append]
      exact ih

theorem addr_idle (shift : Nat) : ∀ (is : List AddrIn) (s : AddrGen), s.loop = false → (∀ i ∈ is, i.latch = false) →
    (addrRun shift s is).loop = false ∧ addrTaken shift s is = [] ∧ ∀ x : AddrIn, x.latch = false →
      addrRun shift s (is ++ [x]) = ⟨x.start % 2 ^ 32, true, false⟩
  | [], s, hs, _ => ⟨hs, rfl, fun x hx => by simp [addrRun, AddrGen.step, hs, hx]⟩
  | i :: r, s, hs, h => by
    have hi := h i (List.mem_cons_self ..)
    have hl : (s.step shift i).loop = false := by simp [AddrGen.step, hs, hi]
    have ih := addr_idle shift r _ hl (fun j hj => h j (List.mem_cons_of_mem _ hj))
    refine ⟨ih.1, ?_, ih.2.2⟩
    simp only [addrTaken, hi]
    exact ih.2.1

theorem addrTaken_append (shift : Nat) : ∀ (xs ys : List AddrIn) (s : AddrGen),
    addrTaken shift s (xs ++ ys) = addrTaken shift s xs ++ addrTaken shift (addrRun shift s xs) ys
  | [], _, _ => rfl
  | x :: xs, ys, s => by simp [addrTaken, addrRun, addrTaken_append shift xs ys, List.append_assoc]

/-- C40: when the first address is taken in cycle `l` and the cycle `x` before it showed the base address,
the addresses taken are base, base + shift, base + 2·shift, … modulo 2^32, one for each latch,
whatever the pauses between them and whatever happens later to the base input. -/
theorem C40_addresses (shift : Nat) (pre rest : List AddrIn) (x l : AddrIn) (hx : x.latch = false) (hl : l.latch = true)
    (hpre : ∀ i ∈ pre, i.latch = false) :
    addrTaken shift .init (pre ++ [x] ++ l :: rest) =
      (List.range ((l :: rest).countP (·.latch))).map fun k => (x.start + k * shift) % 2 ^ 32 := by
  have h1 := addr_idle shift pre .init rfl hpre
  have h2 := addr_idle shift (pre ++ [x]) .init rfl (by
    intro i hi
    rcases List.mem_append.1 hi with hi | hi
    · exact hpre i hi
    · rw [List.mem_singleton.1 hi]; exact hx)
  rw [addrTaken_append, h2.2.1, h1.2.2 x hx, List.nil_append]
  have h3 := addr_loop shift (l :: rest) (x.start % 2 ^ 32) true (Nat.mod_lt _ (by decide))
  have h4 : addrTaken shift ⟨x.start % 2 ^ 32, true, false⟩ (l :: rest) =
      addrTaken shift ⟨x.start % 2 ^ 32, true, true⟩ (l :: rest) := by
    simp [addrTaken, AddrGen.step, hl]
  rw [h4, h3]
  apply List.map_congr_left
  intro k _
  rw [Nat.mod_add_mod]

theorem addr_valid (shift : Nat) : ∀ (is : List AddrIn) (s : AddrGen), (s.valid = true ∨ s.loop = false) →
    (s.valid = true ∨ is ≠ []) → (addrRun shift s is).valid = true
  | [], s, _, h => by simpa [addrRun] using h
  | i :: r, s, hs, _ => by
    have : (s.step shift i).valid = true := by
      simp only [AddrGen.step]
      rcases hs with hs | hs <;> simp only [hs] <;> (repeat' split) <;> simp_all
    exact addr_valid shift r _ (.inl this) (.inl this)

/-- C40: the address is reported valid in every cycle but the first after reset. -/
theorem C40_valid (shift : Nat) (is : List AddrIn) : (addrRun shift .init is).valid = true ↔ is ≠ [] := by
  constructor
  · rintro h rfl; simp [addrRun, AddrGen.init] at h
  · intro h; exact addr_valid shift is _ (.inr rfl) (.inr h)

/-- The hypotheses are met: base 0x1000 shown in cycle 0, latches in cycles 1 and 3, base changed in between. -/
example : addrTaken 0x80 .init [⟨0x1000, false⟩, ⟨0x1000, true⟩, ⟨7, false⟩, ⟨9, true⟩] = [0x1000, 0x1080] := by decide +kernel

/-! ### C43: delayer -/

def delayRun (w : Nat) : Delayer → List Bool → Delayer
  | s, [] => s
  | s, i :: r => delayRun w (s.step w i) r

theorem delayRun_append (w : Nat) : ∀ (xs ys : List Bool) (s : Delayer),
    delayRun w s (xs ++ ys) = delayRun w (delayRun w s xs) ys
  | [], _, _ => rfl
  | _ :: xs, ys, _ => delayRun_append w xs ys _

theorem delay_done (w : Nat) : ∀ (is : List Bool) (s : Delayer), s.out = true → (delayRun w s is).out = true
  | [], _, h => h
  | i :: r, s, h => delay_done w r _ (by simp [Delayer.step, h])

theorem delay_wait (w n : Nat) (hn : 3 ≤ n) (hw : n ≤ 2 ^ w) : ∀ (is : List Bool), (∀ i ∈ is, i = false) →
    delayRun w (.init w n) is = .init w n
  | [], _ => rfl
  | i :: r, h => by
    have hi := h i (List.mem_cons_self ..)
    have ht : (n - 2) % 2 ^ w ≠ 0 := by rw [Nat.mod_eq_of_lt (by omega)]; omega
    have : (Delayer.init w n).step w i = .init w n := by simp [Delayer.step, Delayer.init, hi, ht]
    rw [delayRun, this]
    exact delay_wait w n hn hw r (fun j hj => h j (List.mem_cons_of_mem _ hj))

theorem delay_count (w : Nat) : ∀ (is : List Bool) (t : Nat), t < 2 ^ w →
    (delayRun w ⟨t, true, false⟩ is).out = decide (t < is.length)
  | [], _, _ => by simp [delayRun]
  | i :: r, 0, _ => by
    simp only [delayRun]
    rw [delay_done w r _ (by simp [Delayer.step])]; simp
  | i :: r, t + 1, ht => by
    have : (⟨t + 1, true, false⟩ : Delayer).step w i = ⟨t, true, false⟩ := by
      simp only [Delayer.step, Bool.or_true, if_true, Delayer.mk.injEq, true_and]
      have : t + 1 + (2 ^ w - 1) = t + 2 ^ w := by omega
      rw [this, Nat.add_mod_right, Nat.mod_eq_of_lt (by omega)]
      simp
    rw [delayRun, this, delay_count w r t (by omega)]
    simp

/-- C43: for a delay of `n ≥ 3` stages (timer wide enough, as `ceil(log2 n)` bits are) the output in cycle
`t` is high exactly when the input has been high in some cycle up to `t - n`: the first pulse is
seen `n` cycles later and the output then stays high until reset. -/
theorem C43_delay (w n : Nat) (hn : 3 ≤ n) (hw : n ≤ 2 ^ w) (is : List Bool) :
    (delayRun w (.init w n) is).out = true ↔ ∃ k, k + n ≤ is.length ∧ is[k]? = some true := by
  by_cases h : ∃ k : Nat, is[k]? = some true
  · -- first pulse
    have : ∃ pre post : List Bool, is = pre ++ true :: post ∧ ∀ i ∈ pre, i = false := by
      clear hn hw
      induction is with
      | nil => simp at h
      | cons a r ih =>
        cases a
        · obtain ⟨k, hk⟩ := h
          cases k with
          | zero => simp at hk
          | succ k =>
            obtain ⟨pre, post, h1, h2⟩ := ih ⟨k, by simpa using hk⟩
            exact ⟨false :: pre, post, by simp [h1], by simpa using h2⟩
        · exact ⟨[], r, rfl, by simp⟩
    obtain ⟨pre, post, rfl, hpre⟩ := this
    have hstep : (Delayer.init w n).step w true = ⟨n - 2, true, false⟩ := by
      have : (n - 2) % 2 ^ w = n - 2 := Nat.mod_eq_of_lt (by omega)
      simp [Delayer.step, Delayer.init, this]; omega
    rw [delayRun_append, delay_wait w n hn hw pre hpre, delayRun, hstep, delay_count w post _ (by omega)]
    simp only [decide_eq_true_eq, List.length_append, List.length_cons]
    constructor
    · intro h; exact ⟨pre.length, by omega, by simp⟩
    · rintro ⟨k, h1, h2⟩
      by_cases hk : k < pre.length
      · rw [List.getElem?_append_left hk] at h2
        have := hpre true (List.mem_of_getElem? h2)
        cases this
      · omega
  · have hall : ∀ i ∈ is, i = false := by
      intro i hi
      obtain ⟨k, hk, rfl⟩ := List.mem_iff_getElem.1 hi
      cases hb : is[k]
      · rfl
      · exact absurd ⟨k, by rw [List.getElem?_eq_getElem hk, hb]⟩ h
    rw [delay_wait w n hn hw is hall]
    constructor
    · intro h; simp [Delayer.init] at h
    · rintro ⟨k, _, hk⟩; exact absurd ⟨k, hk⟩ h

/-- C43 (limit of the code): with two stages the output rises one cycle after reset without any input. -/
theorem C43_two_stages (w : Nat) (is : List Bool) : (delayRun w (.init w 2) is).out = decide (is ≠ []) := by
  cases is with
  | nil => simp [delayRun, Delayer.init]
  | cons a r =>
    rw [delayRun, delay_done w r _ (by simp [Delayer.step, Delayer.init])]; simp

example : 3 ≤ 8 ∧ 8 ≤ 2 ^ 3 ∧ (delayRun 3 (.init 3 8) [false, true, false, false, false, false, false, false, false]).out = true ∧
    (delayRun 3 (.init 3 8) [false, true, false, false, false, false, false, false]).out = false := by decide +kernel

/-! ### C44: reverser -/

theorem setSlice_bit {b lo v : Nat} (j : Nat) :
    (setSlice b lo (lo + 1) v).testBit j = if j = lo then v.testBit 0 else b.testBit j := by
  have hsub : lo + 1 - lo = 1 := by omega
  simp only [setSlice, hsub]
  have h1 : b % 2 ^ lo + 2 ^ lo * (v % 2 ^ 1) < 2 ^ (lo + 1) := by
    have := Nat.mod_lt b (Nat.two_pow_pos lo)
    have h2 : v % 2 ^ 1 ≤ 1 := by omega
    have h3 := Nat.mul_le_mul_left (2 ^ lo) h2
    have h4 : 2 ^ (lo + 1) = 2 ^ lo * 2 := Nat.pow_succ ..
    omega
  rw [Nat.add_comm, Nat.testBit_two_pow_mul_add _ h1, Nat.add_comm (b % 2 ^ lo),
    Nat.testBit_two_pow_mul_add _ (Nat.mod_lt b (Nat.two_pow_pos lo))]
  by_cases h : j < lo
  · rw [if_pos (by omega), if_pos h, if_neg (by omega), Nat.testBit_mod_two_pow]; simp [h]
  · by_cases h' : j = lo
    · subst h'
      rw [if_pos (by omega), if_neg (by omega), if_pos rfl, Nat.testBit_mod_two_pow]
      simp
    · rw [if_neg (by omega), if_neg h', Nat.testBit_div_two_pow]
      congr 1; omega

theorem revLoop_bit (n x : Nat) : ∀ (k : Nat), k ≤ n → ∀ j,
    (revLoop n x k).testBit j = (decide (n - k ≤ j ∧ j < n) && x.testBit (n - 1 - j))
  | 0, _, j => by
    have : ¬ (n - 0 ≤ j ∧ j < n) := by omega
    simp [revLoop]; intros; omega
  | k + 1, hk, j => by
    rw [revLoop, setSlice_bit, revLoop_bit n x k (by omega)]
    by_cases h : j = n - 1 - k
    · subst h
      rw [if_pos rfl, Nat.testBit_div_two_pow]
      have h1 : n - (k + 1) ≤ n - 1 - k ∧ n - 1 - k < n := by omega
      have h2 : n - 1 - (n - 1 - k) = 0 + k := by omega
      simp [h1, h2]
    · rw [if_neg h]
      congr 1
      apply decide_eq_decide.2
      omega

/-- C44: bit `j` of the reversed `n`-bit value is bit `n-1-j` of the input. -/
theorem C44_bits (n x j : Nat) : (revBits n x).testBit j = (decide (j < n) && x.testBit (n - 1 - j)) := by
  rw [revBits, revLoop_bit n x n (Nat.le_refl _)]
  congr 1
  apply decide_eq_decide.2
  omega

/-- C44: reversing twice gives the input back. -/
theorem C44_involution (n x : Nat) (hx : x < 2 ^ n) : revBits n (revBits n x) = x := by
  apply Nat.eq_of_testBit_eq
  intro j
  rw [C44_bits, C44_bits]
  by_cases h : j < n
  · have h1 : n - 1 - j < n := by omega
    have h2 : n - 1 - (n - 1 - j) = j := by omega
    simp [h, h1, h2]
  · have : x.testBit j = false :=
      Nat.testBit_lt_two_pow (Nat.lt_of_lt_of_le hx (Nat.pow_le_pow_right (by decide) (by omega)))
    simp [h, this]

def revRun (n : Nat) : Nat → List Nat → Nat
  | s, [] => s
  | s, x :: r => revRun n (revStep n s x) r

/-- C44: the synchronous variant shows the reversed input of the cycle before. -/
theorem C44_sync (n : Nat) : ∀ (is : List Nat) (x s : Nat), revRun n s (is ++ [x]) = revBits n x
  | [], _, _ => rfl
  | _ :: is, x, _ => C44_sync n is x _

example : revBits 4 1 = 8 ∧ revBits 12 0x801 = 0x801 ∧ revBits 6 0b110100 = 0b001011 := by decide +kernel

/-! ### C45: constraints -/

theorem update_accepts (r : Range) (v x : Nat) :
    ((r.update v).min ≤ x ∧ x ≤ (r.update v).max) ↔ r.min ≤ x ∧ x ≤ r.max ∧ x = v := by
  simp only [Range.update]
  repeat' split
  all_goals simp_all
  all_goals omega

/-- C45 (the code against its intent): after the updates `us` a value passes exactly when it is in the default range and
equal to every value registered, so one constraint pins the value and two different ones leave none. -/
theorem C45_range (us : List Nat) (x : Nat) :
    let r := us.foldl Range.update .default
    (r.min ≤ x ∧ x ≤ r.max) ↔ 1 ≤ x ∧ x ≤ 65535 ∧ ∀ v ∈ us, x = v := by
  suffices ∀ (us : List Nat) (r : Range), ((us.foldl Range.update r).min ≤ x ∧ x ≤ (us.foldl Range.update r).max) ↔
      r.min ≤ x ∧ x ≤ r.max ∧ ∀ v ∈ us, x = v from this us .default
  intro us
  induction us with
  | nil => simp
  | cons v us ih =>
    intro r
    rw [List.foldl_cons, ih, ← and_assoc, update_accepts]
    simp only [List.forall_mem_cons, and_assoc]

/-- C45: a core with a predictor of `ps` pixels a cycle would, if the constraints were enforced, only
accept frames of width `ps`. -/
theorem C45_predictor (ps x : Nat) (hp : 1 ≤ ps ∧ ps ≤ 65535) :
    let r := predictorConstraints ps .default
    (r.min ≤ x ∧ x ≤ r.max ↔ x = ps) ∧ r.multiple = ps := by
  have h := update_accepts .default ps x
  have e : ∀ (r : Range) (v : Nat), (r.updateMultiple v).min = r.min ∧ (r.updateMultiple v).max = r.max := by
    intro r v; simp only [Range.updateMultiple]; split <;> exact ⟨rfl, rfl⟩
  refine ⟨?_, ?_⟩
  · simp only [predictorConstraints, (e _ _).1, (e _ _).2]
    rw [h]
    simp only [Range.default]
    omega
  · have hm : (Range.default.update ps).multiple = 1 := by
      simp only [Range.update]; repeat' split
      all_goals rfl
    simp only [predictorConstraints, Range.updateMultiple, hm]
    split
    · rfl
    · simp only [hm]; omega

/-- C45: of several multiples only the largest is kept, which is a common multiple only by chance. -/
theorem C45_multiple (us : List Nat) :
    (∀ v ∈ us, v ≤ (us.foldl Range.updateMultiple .default).multiple) ∧
    ((us.foldl Range.updateMultiple .default).multiple = 1 ∨ (us.foldl Range.updateMultiple .default).multiple ∈ us) := by
  suffices ∀ (us : List Nat) (r : Range), r.multiple ≤ (us.foldl Range.updateMultiple r).multiple ∧
      (∀ v ∈ us, v ≤ (us.foldl Range.updateMultiple r).multiple) ∧
      ((us.foldl Range.updateMultiple r).multiple = r.multiple ∨ (us.foldl Range.updateMultiple r).multiple ∈ us) from
    (this us .default).2
  intro us
  induction us with
  | nil => simp
  | cons v us ih =>
    intro r
    have h1 := ih (r.updateMultiple v)
    have h2 : (r.updateMultiple v).multiple = max r.multiple v := by
      simp only [Range.updateMultiple]; split
      · show v = _; omega
      · omega
    rw [List.foldl_cons]
    refine ⟨by omega, ?_, ?_⟩
    · intro w hw
      rcases List.mem_cons.1 hw with rfl | hw
      · omega
      · exact h1.2.1 w hw
    · rcases h1.2.2 with h | h
      · rw [h, h2]
        by_cases hv : r.multiple ≤ v
        · right; rw [Nat.max_eq_right hv]; exact List.mem_cons_self ..
        · left; exact Nat.max_eq_left (by omega)
      · exact .inr (List.mem_cons_of_mem _ h)

example : ([4, 6].foldl Range.updateMultiple .default).multiple = 6 ∧ ¬ 4 ∣ 6 := by decide +kernel
example : (predictorConstraints 2 .default) = ⟨2, 2, 2⟩ := by decide +kernel

/-! ### C47: debug counters -/

def debugRun : (Nat → Nat) → List (Nat → Bool) → Nat → Nat
  | s, [] => s
  | s, e :: r => debugRun (debugStep s e) r

theorem debug_count (k : Nat) : ∀ (is : List (Nat → Bool)) (s : Nat → Nat), s k < 2 ^ 32 →
    debugRun s is k = (s k + is.countP (· k)) % 2 ^ 32
  | [], s, h => (Nat.mod_eq_of_lt h).symm
  | e :: r, s, h => by
    rw [debugRun]
    by_cases he : e k = true
    · rw [debug_count k r _ (by simp only [debugStep, he, if_true]; exact Nat.mod_lt _ (by decide)),
        List.countP_cons_of_pos (p := fun x : Nat → Bool => x k) he]
      simp only [debugStep, he, if_true]
      rw [Nat.mod_add_mod]
      congr 1; omega
    · rw [debug_count k r _ (by simp only [debugStep, he]; simpa using h), List.countP_cons_of_neg (p := fun x : Nat → Bool => x k) he]
      simp [debugStep, he]

/-- C47: each debug register holds the number of cycles in which its event was on, modulo 2^32. -/
theorem C47_counts (is : List (Nat → Bool)) (k : Nat) :
    debugRun (fun _ => 0) is k = is.countP (· k) % 2 ^ 32 := by
  rw [debug_count k is _ (by decide)]; simp

example : debugRun (fun _ => 0) [fun k => k == 3, fun k => k ≥ 3, fun _ => true] 3 = 3 ∧
    debugRun (fun _ => 0) [fun k => k == 3, fun k => k ≥ 3, fun _ => true] 4 = 2 := by decide +kernel

end Props
