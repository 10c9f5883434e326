/- The converter preserves the marked bit stream. -/
import Verif.Model.Converter
import Verif.Proof.Bits

set_option autoImplicit false

namespace Model
open Spec

namespace Code

/-- A code word in the marked bit stream: its bits, then a mark (`none`) if it is flagged end. -/
def flat (c : Code) : List (Option Bool) :=
  (toBits c.ctr c.enc).map some ++ if c.endd then [none] else []

/-- A well-formed code word of at most `w` bits. -/
structure Ok (w : Nat) (c : Code) : Prop where
  enc : c.enc < 2 ^ c.ctr
  pos : 0 < c.ctr
  ctr : c.ctr ≤ w

theorem lt_two_pow_bitsFor (n : Nat) : n < 2 ^ bitsFor n := by
  unfold bitsFor
  split
  · omega
  · exact Nat.lt_log2_self

theorem unpack_pack {w : Nat} {c : Code} (h : Ok w c) : unpack w (pack w c) = c := by
  have hc : c.ctr < 2 ^ bitsFor w := Nat.lt_of_le_of_lt h.ctr (lt_two_pow_bitsFor w)
  have he : c.enc < 2 ^ w := Nat.lt_of_lt_of_le h.enc (Nat.pow_le_pow_right (by omega) h.ctr)
  obtain ⟨enc, ctr, endd⟩ := c
  simp only at hc he
  have h1 : enc + 2 ^ w * ctr < 2 ^ (w + bitsFor w) := by
    rw [Nat.pow_add]
    calc enc + 2 ^ w * ctr < 2 ^ w + 2 ^ w * ctr := by omega
      _ = 2 ^ w * (ctr + 1) := by rw [Nat.mul_add]; omega
      _ ≤ 2 ^ w * 2 ^ bitsFor w := Nat.mul_le_mul_left _ hc
  simp only [pack, unpack, Nat.mod_eq_of_lt he, Nat.mod_eq_of_lt hc]
  have e2 : enc + 2 ^ w * ctr + 2 ^ (w + bitsFor w) * endd.toNat
      = enc + 2 ^ w * (ctr + 2 ^ bitsFor w * endd.toNat) := by
    rw [Nat.pow_add, Nat.mul_add, Nat.mul_assoc]; omega
  congr 1
  · rw [e2, Nat.add_mul_mod_self_left, Nat.mod_eq_of_lt he]
  · rw [e2, Nat.add_mul_div_left _ _ (Nat.two_pow_pos w), Nat.div_eq_of_lt he, Nat.zero_add,
      Nat.add_mul_mod_self_left, Nat.mod_eq_of_lt hc]
  · rw [Nat.add_comm, Nat.testBit_two_pow_mul_add _ h1]
    simp only [Nat.lt_irrefl, if_false, Nat.sub_self]
    cases endd <;> simp

/-- The marked stream of a list of packed FIFO words. -/
def flats (w : Nat) (l : List Nat) : List (Option Bool) := l.flatMap fun n => (unpack w n).flat

@[simp] theorem flats_nil (w : Nat) : flats w [] = [] := rfl

theorem flats_append (w : Nat) (a b : List Nat) : flats w (a ++ b) = flats w a ++ flats w b := by
  simp [flats]

theorem flats_cons (w : Nat) (a : Nat) (b : List Nat) : flats w (a :: b) = (unpack w a).flat ++ flats w b := by
  simp [flats]

theorem flats_pack {w : Nat} {c : Code} (h : Ok w c) : flats w [pack w c] = c.flat := by
  simp [flats, unpack_pack h]

end Code

namespace Converter

/-- Bits still to be emitted for the word being cut into pieces. -/
def remaining (conv : Nat) (s : Converter) : List (Option Bool) :=
  match s.fsm with
  | .steps i => Code.flat ⟨s.encLatch, (i + 1) * conv, s.endLatch⟩
  | _ => []

/-- Everything inside the converter behind its output registers. -/
def rest (conv : Nat) (s : Converter) : List (Option Bool) :=
  remaining conv s ++ if s.validReg then s.reg.flat else []

/-- The piece on the output registers. -/
def outFlat (s : Converter) : List (Option Bool) := if s.valid then s.out.flat else []

/-- Invariant of the converter. -/
structure Inv (total conv : Nat) (s : Converter) : Prop where
  reg : s.validReg = true → s.reg.Ok total
  out : s.valid = true → s.out.Ok conv
  latch : s.latch = match s.fsm with | .burst => true | .burstPrepare => true | _ => false
  prep : s.fsm = .burstPrepare → s.validReg = false
  steps : ∀ i, s.fsm = .steps i → (i + 1) * conv < total

theorem inv_init (total conv : Nat) : Inv total conv init := by
  refine ⟨by simp [init], by simp [init], rfl, by simp [init], by simp [init]⟩

/-- The branch taken for a long word: the slice that contains its top bits. -/
theorem pick_spec {total conv ctr : Nat} (hc : 0 < conv) (h1 : conv < ctr) (h2 : ctr ≤ total) :
    ∃ i, pick total conv ctr = some i ∧ (i + 1) * conv < ctr ∧ ctr ≤ sliceEnd total conv i := by
  unfold pick
  cases hf : (List.range (steps total conv)).find? fun i => decide (ctr ≤ sliceEnd total conv i) with
  | none =>
    exfalso
    rw [List.find?_eq_none] at hf
    have hpos : 0 < steps total conv := by
      unfold steps; exact Nat.div_pos (by omega) hc
    have := hf (steps total conv - 1) (by simp; omega)
    have this : ¬ ctr ≤ min ((steps total conv - 1 + 2) * conv) total := fun hle => this (decide_eq_true hle)
    have e : (steps total conv - 1 + 2) * conv = conv * (total / conv) + conv := by
      have : steps total conv - 1 + 2 = total / conv + 1 := by unfold steps at *; omega
      rw [this, Nat.add_mul, Nat.one_mul, Nat.mul_comm]
    have h3 := Nat.div_add_mod total conv
    have h4 := Nat.mod_lt total hc
    rw [e] at this
    omega
  | some i =>
    have ha := List.find?_some hf
    have hm := List.mem_of_find?_eq_some hf
    refine ⟨i, rfl, ?_, by simpa using ha⟩
    cases i with
    | zero => simpa using h1
    | succ j =>
      rw [List.find?_range_eq_some] at hf
      have := hf.2.2 j (by omega)
      have this : ¬ ctr ≤ min ((j + 2) * conv) total := by
        intro hle
        rw [decide_eq_true (show ctr ≤ sliceEnd total conv j from hle)] at this
        simp at this
      rw [show j + 1 + 1 = j + 2 from rfl]
      omega

theorem flat_split {e n m : Nat} {b : Bool} :
    Code.flat ⟨e, n + m, b⟩ = Code.flat ⟨e >>> m, n, false⟩ ++ Code.flat ⟨e, m, b⟩ := by
  simp [Code.flat, toBits_add]

theorem flat_mod {e n m : Nat} {b : Bool} (h : n ≤ m) : Code.flat ⟨e % 2 ^ m, n, b⟩ = Code.flat ⟨e, n, b⟩ := by
  simp [Code.flat, toBits_mod h]

theorem inv_tryBurst {total conv : Nat} {s s' : Converter} {v c : Bool} (hv : s'.validReg = s.validReg)
    (hl : s'.latch = false) (h1 : s'.validReg = true → s'.reg.Ok total)
    (h2 : s'.valid = true → s'.out.Ok conv) : Inv total conv (tryBurst s s' v c) := by
  unfold tryBurst
  split
  · exact ⟨h1, h2, rfl, by simp, by simp⟩
  · split
    · rename_i h3 h4
      refine ⟨h1, h2, rfl, ?_, by simp⟩
      intro _
      simp only [hv]
      cases hs : s.validReg <;> simp_all
    · exact ⟨h1, h2, by simp [hl], by simp, by simp⟩

theorem tryBurst_keeps (s s' : Converter) (v c : Bool) :
    (tryBurst s s' v c).valid = s'.valid ∧ (tryBurst s s' v c).out = s'.out ∧
    (tryBurst s s' v c).reg = s'.reg ∧ (tryBurst s s' v c).validReg = s'.validReg ∧
    ((tryBurst s s' v c).fsm = .burst ∨ (tryBurst s s' v c).fsm = .burstPrepare ∨
      (tryBurst s s' v c).fsm = .idle) := by
  unfold tryBurst
  split
  · simp
  · split <;> simp

theorem rest_tryBurst {conv : Nat} {s s' : Converter} {v c : Bool} :
    rest conv (tryBurst s s' v c) = if s'.validReg then s'.reg.flat else [] := by
  obtain ⟨_, _, h3, h4, h5⟩ := tryBurst_keeps s s' v c
  unfold rest remaining
  rw [h3, h4]
  rcases h5 with h5 | h5 | h5 <;> rw [h5] <;> rfl

/-- One edge of the converter: invariant and conservation of the marked stream. -/
theorem step_ok {total conv : Nat} (hc : 0 < conv) {s : Converter}
    (h : Inv total conv s) {inp : Code} {v cf : Bool} (hin : v = true → inp.Ok total) :
    Inv total conv (s.step total conv inp v cf) ∧
    outFlat (s.step total conv inp v cf) ++ rest conv (s.step total conv inp v cf) =
      rest conv s ++ if s.latch && v then inp.flat else [] := by
  have hlatch := h.latch
  unfold step
  split
  · -- idle
    rename_i hf
    rw [hf] at hlatch
    refine ⟨inv_tryBurst rfl rfl h.reg (by simp), ?_⟩
    rw [rest_tryBurst]
    obtain ⟨h1, h2, _⟩ := tryBurst_keeps s { s with valid := false, latch := false } v cf
    simp only [outFlat, h1, hlatch]
    simp [rest, remaining, hf]
  · -- burstPrepare
    rename_i hf
    rw [hf] at hlatch
    have hp := h.prep hf
    refine ⟨⟨hin, by simp, by simp [regData, hlatch], by simp, by simp⟩, ?_⟩
    simp [outFlat, rest, remaining, regData, hf, hp, hlatch]
  · -- burst
    rename_i hf
    rw [hf] at hlatch
    simp only at hlatch
    cases hv : s.validReg with
    | false =>
      simp only [Bool.false_eq_true, if_false]
      refine ⟨⟨hin, by simp, by simp [regData, hlatch, hf], by simp [regData, hf],
        by simp [regData, hf]⟩, ?_⟩
      simp [outFlat, rest, remaining, regData, hf, hv, hlatch]
    | true =>
      have hr := h.reg hv
      simp only [if_true]
      by_cases hle : s.reg.ctr ≤ conv
      · have hmod : s.reg.enc % 2 ^ conv = s.reg.enc := Nat.mod_eq_of_lt
          (Nat.lt_of_lt_of_le hr.enc (Nat.pow_le_pow_right (by omega) hle))
        have hok : Code.Ok conv ⟨s.reg.enc % 2 ^ conv, s.reg.ctr, s.reg.endd⟩ :=
          ⟨by rw [hmod]; exact hr.enc, hr.pos, hle⟩
        rw [if_pos hle]
        cases cf with
        | true =>
          simp only [if_true]
          refine ⟨⟨hin, fun _ => hok, rfl, by simp, by simp⟩, ?_⟩
          simp [outFlat, rest, remaining, regData, hf, hv, hlatch, hmod]
        | false =>
          simp only [Bool.false_eq_true, if_false]
          refine ⟨⟨hin, fun _ => hok, by simp [regData, hlatch, hf], by simp [regData, hf],
            by simp [regData, hf]⟩, ?_⟩
          simp [outFlat, rest, remaining, regData, hf, hv, hlatch, hmod]
      · rw [if_neg hle]
        obtain ⟨i, hi, hi1, hi2⟩ := pick_spec hc (by omega) hr.ctr
        rw [hi]
        simp only
        have hbf : s.reg.ctr - (i + 1) * conv ≤ conv := by
          have : sliceEnd total conv i ≤ (i + 2) * conv := Nat.min_le_left _ _
          have e : (i + 2) * conv = (i + 1) * conv + conv := by
            rw [show i + 2 = (i + 1) + 1 from rfl, Nat.add_mul, Nat.one_mul]
          omega
        have hctr : (s.reg.ctr - (i + 1) * conv) % 2 ^ bitsFor conv = s.reg.ctr - (i + 1) * conv :=
          Nat.mod_eq_of_lt (Nat.lt_of_le_of_lt hbf (Code.lt_two_pow_bitsFor conv))
        have hshift : s.reg.enc >>> ((i + 1) * conv) < 2 ^ (s.reg.ctr - (i + 1) * conv) := by
          rw [Nat.shiftRight_eq_div_pow, Nat.div_lt_iff_lt_mul (Nat.two_pow_pos _), ← Nat.pow_add,
            Nat.sub_add_cancel (by omega)]
          exact hr.enc
        have hsl : s.reg.enc >>> ((i + 1) * conv) % 2 ^ (sliceEnd total conv i - (i + 1) * conv)
            = s.reg.enc >>> ((i + 1) * conv) :=
          Nat.mod_eq_of_lt (Nat.lt_of_lt_of_le hshift (Nat.pow_le_pow_right (by omega) (by omega)))
        refine ⟨⟨hin, fun _ => ⟨?_, ?_, ?_⟩, rfl, by simp, ?_⟩, ?_⟩
        · simp only [hctr, hsl]; exact hshift
        · simp only [hctr]; omega
        · simp only [hctr]; exact hbf
        · intro j hj
          simp only [ConvFsm.steps.injEq] at hj
          subst hj
          have := hr.ctr; omega
        · simp only [outFlat, rest, remaining, regData, hf, hv, hlatch, hctr, hsl, if_true]
          have hst : (i + 1) * conv ≤ steps total conv * conv := by
            have : i < steps total conv := by
              have := List.mem_of_find?_eq_some hi
              simpa using this
            exact Nat.mul_le_mul_right _ this
          rw [flat_mod hst, ← List.append_assoc, ← flat_split, Nat.sub_add_cancel (by omega)]
          simp
  · -- steps
    rename_i i hf
    rw [hf] at hlatch
    simp only at hlatch
    have hlt := h.steps i hf
    have hok : Code.Ok conv ⟨s.encLatch >>> (i * conv) % 2 ^ conv, conv, if i = 0 then s.endLatch else false⟩ :=
      ⟨Nat.mod_lt _ (Nat.two_pow_pos _), hc, Nat.le_refl _⟩
    by_cases hi : i = 0
    · subst hi
      rw [if_pos rfl]
      refine ⟨inv_tryBurst rfl hlatch h.reg (fun _ => hok), ?_⟩
      rw [rest_tryBurst]
      unfold outFlat
      rw [(tryBurst_keeps _ _ _ _).1, (tryBurst_keeps _ _ _ _).2.1]
      have := flat_mod (e := s.encLatch) (b := s.endLatch) (Nat.le_refl conv)
      simp [rest, remaining, hf, this, hlatch]
    · rw [if_neg hi]
      refine ⟨⟨h.reg, fun _ => hok, by simp [hlatch], by simp, ?_⟩, ?_⟩
      · intro j hj
        simp only [ConvFsm.steps.injEq] at hj
        subst hj
        have : (i - 1 + 1) * conv ≤ (i + 1) * conv := Nat.mul_le_mul_right _ (by omega)
        omega
      · simp only [outFlat, rest, remaining, hf, hlatch, if_neg hi, if_true]
        rw [flat_mod (Nat.le_refl _)]
        have e : (i + 1) * conv = conv + i * conv := by rw [Nat.add_mul]; omega
        have e1 : i - 1 + 1 = i := by omega
        rw [e1, e, flat_split]
        simp

/-- Number of pieces still to be written after the one on the output registers. -/
def todo (s : Converter) : Nat := match s.fsm with | .steps i => i + 1 | _ => 0

/-- The converter never has more pieces under way than the FIFO behind it has room for. -/
theorem count_step {total conv D S L L' : Nat} {s : Converter} {inp : Code} {v cf : Bool}
    (hS : S = (total + conv - 1) / conv + 3) (hD : S + 3 < D) (hc : 0 < conv) (h : Inv total conv s)
    (hcount : L + s.valid.toNat + s.todo ≤ D - 1)
    (hburst : s.latch = true → L + s.valid.toNat ≤ D - S + 2)
    (hfull : cf = false → L ≤ D - S) (hL : L' ≤ L + s.valid.toNat) :
    L' + (s.step total conv inp v cf).valid.toNat + (s.step total conv inp v cf).todo ≤ D - 1 ∧
    ((s.step total conv inp v cf).latch = true →
      L' + (s.step total conv inp v cf).valid.toNat ≤ D - S + 2) := by
  have hvle : s.valid.toNat ≤ 1 := Bool.toNat_le _
  have hS3 : 3 ≤ S := by rw [hS]; exact Nat.le_add_left _ _
  have hl := h.latch
  have htry : ∀ s' : Converter, s'.latch = false →
      (tryBurst s s' v cf).todo = 0 ∧ ((tryBurst s s' v cf).latch = true → cf = false) := by
    intro s' hs'
    unfold tryBurst
    split
    · rename_i hh
      exact ⟨rfl, fun _ => by revert hh; cases cf <;> simp⟩
    · split
      · rename_i hh
        exact ⟨rfl, fun _ => by revert hh; cases cf <;> simp⟩
      · exact ⟨rfl, by simp [hs']⟩
  unfold step
  split
  · rename_i hf
    obtain ⟨t1, t2⟩ := htry { s with valid := false, latch := false } rfl
    rw [t1, (tryBurst_keeps _ _ _ _).1]
    refine ⟨by simp; omega, fun hh => ?_⟩
    have := hfull (t2 hh)
    simp; omega
  · rename_i hf
    rw [hf] at hl
    have := hburst hl
    simp only [todo, Bool.toNat_false]
    omega
  · rename_i hf
    rw [hf] at hl
    simp only at hl
    have hb := hburst hl
    cases hv : s.validReg with
    | false =>
      simp only [Bool.false_eq_true, if_false, todo, regData, hf, Bool.toNat_false]
      omega
    | true =>
      simp only [if_true]
      have hr := h.reg hv
      have hS4 : 4 ≤ S := by
        have : 0 < (total + conv - 1) / conv := Nat.div_pos (by have := hr.ctr; have := hr.pos; omega) hc
        omega
      by_cases hle : s.reg.ctr ≤ conv
      · rw [if_pos hle]
        cases cf with
        | true => simp only [if_true, todo, Bool.toNat_true]; simp; omega
        | false =>
          have := hfull rfl
          simp only [Bool.false_eq_true, if_false, todo, regData, hf, Bool.toNat_true]
          omega
      · rw [if_neg hle]
        obtain ⟨i, hi, hi1, hi2⟩ := pick_spec hc (by omega) hr.ctr
        rw [hi]
        have hN : i + 2 ≤ (total + conv - 1) / conv := by
          rw [Nat.le_div_iff_mul_le hc]
          have e : (i + 2) * conv = (i + 1) * conv + conv := by
            rw [show i + 2 = (i + 1) + 1 from rfl, Nat.add_mul, Nat.one_mul]
          have := hr.ctr
          omega
        simp only [todo, Bool.toNat_true]
        simp
        omega
  · rename_i i hf
    rw [hf] at hl
    have ht : s.todo = i + 1 := by simp [todo, hf]
    by_cases hi : i = 0
    · subst hi
      rw [if_pos rfl]
      obtain ⟨t1, t2⟩ := htry
        { s with out := ⟨s.encLatch >>> (0 * conv) % 2 ^ conv, conv, if 0 = 0 then s.endLatch else false⟩
                 valid := true } hl
      rw [t1, (tryBurst_keeps _ _ _ _).1]
      refine ⟨by simp; omega, fun hh => ?_⟩
      have := hfull (t2 hh)
      simp; omega
    · rw [if_neg hi]
      simp only [todo, Bool.toNat_true, hl, Bool.false_eq_true, false_implies, and_true]
      omega

end Converter
end Model
