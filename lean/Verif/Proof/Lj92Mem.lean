/- Helper lemmas about the recorded memory accesses of the lj92 decoder: the recorded functions compute what Model.Lj92
computes; rules for claims about all accesses of a run. -/
import Verif.Model.Lj92Mem
import Verif.Proof.Lj92Preds

set_option autoImplicit false

namespace Model.Lj92
open Tr

variable {α β σ : Type}

/-! ### The same results -/

@[simp] theorem value_ret (a : α) : (ret a).value = some a := rfl
@[simp] theorem value_pure (a : α) : (pure a : Tr α).value = some a := rfl
@[simp] theorem value_fail : (fail : Tr α).value = none := rfl
@[simp] theorem value_hang : (hang : Tr α).value = none := rfl
@[simp] theorem value_touch (l : List Acc) : (touch l).value = some () := rfl

@[simp] theorem value_bind (m : Tr α) (f : α → Tr β) : (m >>= f).value = m.value.bind fun a => (f a).value := by
  show (Tr.bind m f).value = _
  obtain ⟨l, r⟩ := m
  cases r <;> rfl

theorem value_ite (c : Prop) [Decidable c] (a b : Tr α) : (if c then a else b).value = if c then a.value else b.value := by
  split <;> rfl

theorem whileT_value {step : σ → Tr (Option σ)} {f : σ → Option σ} (h : ∀ s, (step s).value = some (f s)) :
    ∀ (n : Nat) (s : σ), (whileT step n s).value = whileN f n s
  | 0, _ => rfl
  | n + 1, s => by
    rw [whileT, whileN, value_bind, h s]
    cases f s with
    | none => rfl
    | some s' => exact whileT_value h n s'

theorem forT_value {f : Nat → σ → Tr σ} {g : Nat → σ → Option σ} (h : ∀ k s, (f k s).value = g k s) :
    ∀ (n : Nat) (s : σ), (forT f n s).value = forN g n s
  | 0, _ => rfl
  | n + 1, s => by
    rw [forT, forN, value_bind, forT_value h n s]
    congr 1
    funext t
    exact h n t

theorem findT_value (s : Ljp) : (findT s).value = find s := by
  unfold findT find
  rw [value_bind, whileT_value (f := fun ix => if s.data ix ≠ 0xFF ∧ ix + 1 < s.datalen then some (ix + 1) else none) (fun ix => by simp)]
  cases whileN _ (s.datalen + 1) s.ix with
  | none => rfl
  | some ix => simp only [Option.bind_some, value_ite, value_fail, value_bind, value_touch, value_ret]

theorem parseHuffT_value (s : Ljp) : (parseHuffT s).value.map (·.1) = parseHuff s := by
  unfold parseHuffT parseHuff
  simp only [value_bind, value_touch, Option.bind_some, value_ite, value_fail, value_ret]
  split
  · rfl
  · rw [whileT_value (f := fillStep (fun k => put s.data (s.ix + 2) 0 (s.ix + 2 + k)) (fun k => put s.data (s.ix + 2) 0 (s.ix + 19 + k))
      (maxbits (fun k => put s.data (s.ix + 2) 0 (s.ix + 2 + k)) 16))]
    · cases whileN _ (2 ^ 18) _ <;> rfl
    · intro f
      unfold fillStepT fillStep
      simp only [value_ite, value_bind, value_touch, Option.bind_some, value_ret]
      repeat' split
      all_goals rfl

theorem parseSof3T_value (s : Ljp) : (parseSof3T s).value = parseSof3 s := by
  unfold parseSof3T parseSof3
  simp only [value_ite, value_bind, value_touch, Option.bind_some, value_ret, value_fail]

theorem parseBlockT_value (s : Ljp) : (parseBlockT s).value = parseBlock s := by
  unfold parseBlockT parseBlock
  simp only [value_ite, value_bind, value_touch, Option.bind_some, value_ret, value_fail]

theorem parseImageT_value : ∀ (fuel : Nat) (r : Ljp × Nat), (parseImageT fuel r).value.map (·.1) = parseImage fuel r.1
  | 0, _ => rfl
  | fuel + 1, (s, n) => by
    have ih := parseImageT_value fuel
    unfold parseImageT parseImage
    rw [value_bind, findT_value]
    dsimp only
    cases find s with
    | none => rfl
    | some v =>
      obtain ⟨s, m⟩ := v
      simp only [Option.bind_some, value_ite, value_bind, value_ret]
      by_cases h1 : m = 0xc4
      · rw [if_pos h1, if_pos h1, ← parseHuffT_value]
        cases (parseHuffT s).value with
        | none => rfl
        | some r => exact ih r
      rw [if_neg h1, if_neg h1]
      by_cases h2 : m = 0xc3
      · rw [if_pos h2, if_pos h2, parseSof3T_value]
        cases parseSof3 s with
        | none => rfl
        | some r => exact ih (r, n)
      rw [if_neg h2, if_neg h2]
      by_cases h3 : m = 0xfe
      · rw [if_pos h3, if_pos h3, parseBlockT_value]
        cases parseBlock s with
        | none => rfl
        | some r => exact ih (r, n)
      rw [if_neg h3, if_neg h3]
      by_cases h4 : m = 0xd9
      · rw [if_pos h4, if_pos h4]; rfl
      rw [if_neg h4, if_neg h4]
      by_cases h5 : m = 0xda
      · rw [if_pos h5, if_pos h5]; rfl
      rw [if_neg h5, if_neg h5, parseBlockT_value]
      cases parseBlock s with
      | none => rfl
      | some r => exact ih (r, n)

theorem openT_value (d : Nat → Nat) (n : Nat) (mem : Nat → Nat) : (openT d n mem).value.map (·.1) = open' d n mem := by
  unfold openT open'
  simp only [value_bind, findT_value]
  cases find _ with
  | none => rfl
  | some v =>
    obtain ⟨s, m⟩ := v
    simp only [Option.bind_some, value_ite, value_fail]
    split
    · exact parseImageT_value n (s, 0)
    · rfl

theorem refillT_value (d : Nat → Nat) (n : Nat) (v : Nat × Nat × Nat) : (refillT d n v).value = refill d n v := by
  unfold refillT refill
  apply whileT_value
  intro v
  rw [value_ite]
  by_cases h : v.2.1 < n
  · rw [if_pos h, if_pos h]; rfl
  · rw [if_neg h, if_neg h]; rfl

theorem nextdiffT_value (ub : Int) (lutlen : Nat) (s : Ljp) : (nextdiffT ub lutlen s).value = nextdiff ub s := by
  unfold nextdiffT nextdiff
  rw [value_bind, refillT_value]
  cases refill s.data s.huffbits (s.b, s.cnt, s.ix) with
  | none => rfl
  | some v =>
    obtain ⟨b, cnt, ix⟩ := v
    dsimp only [Option.bind_some]
    simp only [value_bind, value_touch, Option.bind_some, refillT_value]
    generalize refill s.data _ _ = r
    cases r <;> rfl

theorem bodyT_value (ub : Int) (lin : Option Lin) (lutlen pred row col c : Nat) (v : Ljp × Int) :
    (bodyT ub lin lutlen pred row col c v).value = body ub lin pred row col c v := by
  obtain ⟨s, left⟩ := v
  unfold bodyT body
  simp only [value_bind, value_touch, Option.bind_some, nextdiffT_value]
  cases nextdiff ub s with
  | none => rfl
  | some r =>
    simp only [Option.bind_some, value_ite, value_bind, value_touch, value_fail, value_ret]

theorem put6T_value (ub : Int) (lin : Option Lin) (lutlen : Nat) (check : Bool) (row col : Nat) (p : Int) (reads : List Acc) (v : P6) :
    (put6T ub lin lutlen check row col p reads v).value = put6 ub lin check row col p v := by
  unfold put6T put6
  simp only [value_bind, nextdiffT_value]
  cases nextdiff ub v.s with
  | none => rfl
  | some r =>
    simp only [Option.bind_some, value_ite, value_bind, value_touch, value_fail, value_ret]

theorem insideT_value (v : P6) : (insideT v).value = inside v := by
  unfold insideT inside
  rw [value_ite]; rfl

theorem rows6T_value (ub : Int) (lin : Option Lin) (lutlen writelen pixels : Nat) : ∀ (n row : Nat) (v : P6),
    (rows6T ub lin lutlen writelen pixels n row v).value = rows6 ub lin writelen pixels n row v
  | 0, _, _ => rfl
  | n + 1, row, v => by
    have ih := rows6T_value ub lin lutlen writelen pixels n
    unfold rows6T rows6
    simp only [value_ite, value_bind, put6T_value, value_ret]
    split
    · cases put6 ub lin true row 0 (v.s.rowcache (lastrow v.s row)) v with
      | none => rfl
      | some v =>
        simp only [Option.bind_some]
        split
        · rfl
        · rw [forT_value (g := fun k v =>
              let m := fun j => (v.s.rowcache (lastrow v.s row + j) : Int)
              (put6 ub lin true row (k + 1) (m (k + 1) + ((v.left : Int) - m k) / 2) v).map (step6 writelen))]
          · cases forN _ (v.s.x - 1) (step6 writelen v) with
            | none => rfl
            | some v =>
              simp only [Option.bind_some]
              split
              · rfl
              · exact ih _ _
          · intro k v
            simp only [value_bind, put6T_value, value_ret]
            cases put6 ub lin true row (k + 1) _ v <;> rfl
    · rfl

theorem parsePred6T_value (ub : Int) (lin : Option Lin) (lutlen writelen : Nat) (s : Ljp) :
    (parsePred6T ub lin lutlen writelen s).value = parsePred6 ub lin writelen s := by
  unfold parsePred6T parsePred6
  simp only [value_bind, value_touch, Option.bind_some, put6T_value]
  generalize put6 ub lin false 0 0 _ _ = r1
  cases r1 with
  | none => rfl
  | some v =>
    simp only [Option.bind_some, insideT_value]
    cases inside v with
    | none => rfl
    | some v =>
      simp only [Option.bind_some]
      rw [forT_value (g := fun k v => ((put6 ub lin false 0 (k + 1) v.left v).bind inside).map (step6 writelen))]
      · cases forN _ (s.x - 1) _ with
        | none => rfl
        | some v =>
          simp only [Option.bind_some, rows6T_value]
          cases rows6 _ _ _ _ _ _ v with
          | none => rfl
          | some v => simp only [Option.bind_some, value_ite, value_ret, value_fail]
      · intro k v
        simp only [value_bind, put6T_value, value_ret]
        cases put6 ub lin false 0 (k + 1) v.left v with
        | none => rfl
        | some v =>
          simp only [Option.bind_some, insideT_value]
          cases inside v <;> rfl

theorem parseScanT_value (ub : Int) (lin : Option Lin) (lutlen pred : Nat) (s : Ljp) (hp : pred = s.data (s.scanstart + 3 + 2 * s.data (s.scanstart + 2)))
    (h : ¬(pred > 7 ∨ pred = 6)) : (parseScanT ub lin lutlen pred s).value = parseScan ub lin s := by
  subst hp
  unfold parseScanT parseScan
  simp only [value_bind, value_touch, Option.bind_some]
  rw [if_neg h]
  rw [forT_value (g := fun row => forN (fun col => forN (fun c => body ub lin (s.data (s.scanstart + 3 + 2 * s.data (s.scanstart + 2))) row col c) s.components) s.x)]
  · cases forN _ s.y _ <;> rfl
  · intro row v
    apply forT_value
    intro col v
    apply forT_value
    intro c v
    exact bodyT_value ..

theorem decodeT_value (ub : Int) (s : Ljp) (lutlen : Nat) (target : Nat → Nat) (writelen skip : Nat) (lin : Option Lin) :
    (decodeT ub s lutlen target writelen skip lin).value = decodeAny ub s target writelen skip lin := by
  unfold decodeT decodeAny parseAny
  simp only [value_bind, value_touch, Option.bind_some, value_ite, value_fail, value_ret]
  by_cases h7 : s.data (s.scanstart + 3 + 2 * s.data (s.scanstart + 2)) > 7
  · rw [if_pos h7, if_neg (by omega)]
    unfold parseScan
    dsimp only
    rw [if_pos (Or.inl h7)]; rfl
  · rw [if_neg h7]
    by_cases h6 : s.data (s.scanstart + 3 + 2 * s.data (s.scanstart + 2)) = 6
    · rw [if_pos h6, if_pos h6, parsePred6T_value]
      cases parsePred6 _ _ _ _ <;> rfl
    · rw [if_neg h6, if_neg h6, parseScanT_value ub lin lutlen _ { s with image := target, skiplen := skip } rfl (fun h => h.elim h7 h6)]
      cases parseScan _ _ _ <;> rfl

/-! ### Claims about all accesses -/

/-- All accesses satisfy `P`, the computation ends, and a value satisfies `Q`. -/
def Safe (P : Acc → Prop) (m : Tr α) (Q : α → Prop) : Prop :=
  (∀ a ∈ m.accs, P a) ∧ m.res ≠ .hang ∧ ∀ x, m.res = .ok x → Q x

theorem Safe.ret {P : Acc → Prop} {Q : α → Prop} {a : α} (h : Q a) : Safe P (Tr.ret a) Q :=
  ⟨fun _ h => by simp [Tr.ret] at h, by simp [Tr.ret], fun x hx => by simp only [Tr.ret, Res.ok.injEq] at hx; subst hx; exact h⟩

theorem Safe.fail {P : Acc → Prop} {Q : α → Prop} : Safe P (Tr.fail : Tr α) Q :=
  ⟨fun _ h => by simp [Tr.fail] at h, by simp [Tr.fail], fun x hx => by simp [Tr.fail] at hx⟩

theorem Safe.touch {P : Acc → Prop} {l : List Acc} (h : ∀ a ∈ l, P a) : Safe P (Tr.touch l) (fun _ => True) :=
  ⟨h, by simp [Tr.touch], fun _ _ => trivial⟩

theorem Safe.bind {P : Acc → Prop} {Q : α → Prop} {R : β → Prop} {m : Tr α} {f : α → Tr β} (h : Safe P m Q)
    (hf : ∀ a, Q a → Safe P (f a) R) : Safe P (m >>= f) R := by
  obtain ⟨h1, h2, h3⟩ := h
  show Safe P (Tr.bind m f) R
  obtain ⟨l, r⟩ := m
  cases r with
  | ok a =>
    obtain ⟨g1, g2, g3⟩ := hf a (h3 a rfl)
    refine ⟨fun x hx => ?_, g2, g3⟩
    have hx' : x ∈ l ++ (f a).accs := hx
    rw [List.mem_append] at hx'
    rcases hx' with hx | hx
    · exact h1 x hx
    · exact g1 x hx
  | err => exact ⟨h1, by simp [Tr.bind], fun x hx => by simp [Tr.bind] at hx⟩
  | hang => exact absurd rfl h2

theorem Safe.mono {P P' : Acc → Prop} {Q Q' : α → Prop} {m : Tr α} (h : Safe P m Q) (hp : ∀ a, P a → P' a) (hq : ∀ a, Q a → Q' a) : Safe P' m Q' :=
  ⟨fun a ha => hp a (h.1 a ha), h.2.1, fun x hx => hq x (h.2.2 x hx)⟩

theorem Safe.seq {P : Acc → Prop} {R : β → Prop} {l : List Acc} {f : Unit → Tr β} (h : ∀ a ∈ l, P a) (hf : Safe P (f ()) R) :
    Safe P (Tr.touch l >>= f) R := Safe.bind (Safe.touch h) fun _ _ => hf

theorem Safe.ite {P : Acc → Prop} {R : β → Prop} {c : Prop} [Decidable c] {a b : Tr β} (h1 : c → Safe P a R) (h2 : ¬c → Safe P b R) :
    Safe P (if c then a else b) R := by
  split
  · exact h1 (by assumption)
  · exact h2 (by assumption)

/-- `while` with an invariant and a decreasing measure. -/
theorem Safe.whileT {P : Acc → Prop} {step : σ → Tr (Option σ)} {I Q : σ → Prop} (μ : σ → Nat)
    (h : ∀ s, I s → Safe P (step s) fun r => match r with | none => Q s | some s' => I s' ∧ μ s' < μ s) :
    ∀ (n : Nat) (s : σ), I s → μ s < n → Safe P (Lj92.whileT step n s) Q
  | 0, _, _, hn => by omega
  | n + 1, s, hs, hn => by
    rw [Lj92.whileT]
    apply Safe.bind (h s hs)
    intro r hr
    cases r with
    | none => exact Safe.ret hr
    | some s' => exact Safe.whileT μ h n s' hr.1 (by have := hr.2; omega)

theorem Safe.forT {P : Acc → Prop} {f : Nat → σ → Tr σ} {I : Nat → σ → Prop} : ∀ (n : Nat)
    (_ : ∀ k s, k < n → I k s → Safe P (f k s) (I (k + 1))) (s : σ), I 0 s → Safe P (Lj92.forT f n s) (I n)
  | 0, _, s, h => Safe.ret h
  | n + 1, hf, s, h => by
    rw [Lj92.forT]
    exact Safe.bind (Safe.forT n (fun k s hk => hf k s (by omega)) s h) fun t ht => hf n t (by omega) ht

end Model.Lj92
