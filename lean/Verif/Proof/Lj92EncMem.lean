/- Helper lemmas about the recorded memory accesses of the lj92 encoder: the recorded functions compute what Model.Lj92Enc
computes. -/
import Verif.Model.Lj92EncMem
import Verif.Proof.Lj92Encode

set_option autoImplicit false

namespace Model.Lj92.Enc
open Model.Lj92 TrE

variable {α β σ : Type}

/-! ### The same results -/

@[simp] theorem res_ret (a : α) : (ret a).res = .ok a := rfl
@[simp] theorem res_fail (e : Err) : (fail e : TrE α).res = .error e := rfl
@[simp] theorem res_touch (l : List Acc) : (touch l).res = .ok () := rfl

theorem res_bind (m : TrE α) (f : α → TrE β) : (m >>= f).res = match m.res with | .ok a => (f a).res | .error e => .error e := by
  show (TrE.bind m f).res = _
  unfold TrE.bind
  cases m.res <;> rfl

@[simp] theorem res_touch_bind (l : List Acc) (f : Unit → TrE β) : (touch l >>= f).res = (f ()).res := rfl

theorem predictT_res (a : Args) (c : Cur) : (predictT a c).res = .ok (predict a c) := by
  unfold predictT
  repeat' split
  all_goals rfl

theorem diffOfT_res (a : Args) (c : Cur) (p : Nat) : (diffOfT a c p).res = .ok (diffOf a c p) := by
  unfold diffOfT
  rw [res_touch_bind]
  dsimp only
  rw [res_bind, predictT_res]
  rfl

theorem scanStepT_res (a : Args) (v : Cur × (Nat → Nat)) : (scanStepT a v).res =
    .ok (next a (diffOf a v.1 (a.image v.1.pixel)).1, put v.2 (ssssOf (diffOf a v.1 (a.image v.1.pixel)).2) (v.2 (ssssOf (diffOf a v.1 (a.image v.1.pixel)).2) + 1)) := by
  unfold scanStepT
  rw [res_touch_bind, res_bind, diffOfT_res]
  rfl

theorem forE_res {f : Nat → σ → TrE σ} {g : Nat → σ → Option σ} (h : ∀ k s, ∃ s', g k s = some s' ∧ (f k s).res = .ok s') :
    ∀ (n : Nat) (s : σ), ∃ s', forN g n s = some s' ∧ (forE f n s).res = .ok s'
  | 0, s => ⟨s, rfl, rfl⟩
  | n + 1, s => by
    obtain ⟨s1, h1, h2⟩ := forE_res h n s
    obtain ⟨s2, h3, h4⟩ := h n s1
    refine ⟨s2, ?_, ?_⟩
    · rw [forN, h1]; exact h3
    · rw [forE, res_bind, h2]; exact h4

theorem frequencyScanT_res (a : Args) : ∃ v, frequencyScan a = some v ∧ (frequencyScanT a).res = .ok v := by
  unfold frequencyScan frequencyScanT
  exact forE_res (fun k s => ⟨_, rfl, scanStepT_res a s⟩) _ _

theorem lengthenT_res (others : Nat → Option Nat) : ∀ (n : Nat) (cs : Nat → Nat) (v : Nat),
    (lengthenT others n cs v).res = match lengthen others n cs v with | none => .error .bad | some r => .ok r
  | 0, _, _ => rfl
  | n + 1, cs, v => by
    unfold lengthenT lengthen
    rw [res_touch_bind]
    dsimp only
    cases others v with
    | none => rfl
    | some w => exact lengthenT_res others n _ w

theorem mergeStepT_res (t : Tree) : (mergeStepT t).res = mergeStep t := by
  unfold mergeStepT mergeStep
  rw [res_bind]
  show (pick2T t.freq (pick1 t.freq).2 >>= _).res = _
  rw [res_bind]
  dsimp only [pick2T, res_touch_bind, res_ret]
  cases (pick2 t.freq (pick1 t.freq).2).2 with
  | none => rfl
  | some v2 =>
    dsimp only
    cases (pick1 t.freq).2 with
    | none => rfl
    | some v1 =>
      dsimp only
      rw [res_touch_bind, res_bind, lengthenT_res]
      cases lengthen t.others 19 t.codesize v1 with
      | none => rfl
      | some r =>
        dsimp only
        rw [res_touch_bind, res_bind, lengthenT_res]
        cases lengthen _ 19 r.1 v2 with
        | none => rfl
        | some r2 => rfl

theorem mergeT_res : ∀ (n : Nat) (t : Tree), (mergeT n t).res = merge n t
  | 0, _ => rfl
  | n + 1, t => by
    unfold mergeT merge
    rw [res_bind, mergeStepT_res]
    cases mergeStep t with
    | error e => rfl
    | ok o =>
      cases o with
      | none => rfl
      | some t => exact mergeT_res n t

theorem findJT_res (bits : Nat → Int) : ∀ j, (findJT bits j).res = match findJ bits j with | none => .error .bad | some r => .ok r
  | 0 => by
    unfold findJT findJ
    rw [res_touch_bind]
    split <;> rfl
  | j + 1 => by
    unfold findJT findJ
    rw [res_touch_bind]
    split
    · exact findJT_res bits j
    · rfl

theorem dropOneT_res (bits : Nat → Int) : ∀ j, (dropOneT bits j).res = match dropOne bits j with | none => .error .bad | some r => .ok r
  | 0 => by
    unfold dropOneT dropOne
    rw [res_touch_bind]
    split <;> rfl
  | j + 1 => by
    unfold dropOneT dropOne
    rw [res_touch_bind]
    split
    · exact dropOneT_res bits j
    · rfl

theorem adjustT_res : ∀ (n : Nat) (bits : Nat → Int), (adjustT n bits).res = adjust n bits
  | 0, _ => rfl
  | n + 1, bits => by
    unfold adjustT adjust
    rw [res_touch_bind]
    split
    · rw [res_bind, findJT_res]
      cases findJ bits 15 with
      | none => rfl
      | some j => exact adjustT_res n _
    · rw [dropOneT_res]
      cases dropOne bits 16 <;> rfl

theorem foldl_forE {f : Nat → σ → TrE σ} {g : σ → Nat → σ} (h : ∀ k s, (f k s).res = .ok (g s k)) :
    ∀ (n : Nat) (s : σ), (forE f n s).res = .ok ((List.range n).foldl g s)
  | 0, _ => rfl
  | n + 1, s => by
    rw [forE, res_bind, foldl_forE h n s, List.range_succ, List.foldl_append]
    exact h n _

theorem sortStepT_res (cs : Nat → Nat) (i j : Nat) (l : List Nat) : (sortStepT cs i j l).res = .ok (if cs j = i + 1 then l ++ [j] else l) := by
  unfold sortStepT
  rw [res_touch_bind]
  split <;> rfl

theorem sortValsT_res (cs : Nat → Nat) : (sortValsT cs).res = .ok (sortVals cs) := by
  unfold sortValsT sortVals
  rw [res_touch_bind]
  exact foldl_forE (fun i l => foldl_forE (fun j l => sortStepT_res cs i j l) 17 l) 32 []

theorem maxLenT_res (bits : Nat → Int) : ∀ n, (maxLenT bits n).res = .ok (maxLen bits n)
  | 0 => rfl
  | n + 1 => by
    unfold maxLenT maxLen
    rw [res_touch_bind]
    split
    · rfl
    · exact maxLenT_res bits n

theorem genStepT_res (bits : Nat → Int) (maxb : Nat) (g : Gen) : (genStepT bits maxb g).res = .ok (genStep bits maxb g) := by
  unfold genStepT genStep
  split
  · split
    · rfl
    · rw [res_touch_bind]
      split
      · rfl
      · split <;> rfl
  · rfl

theorem whileE_res {step : σ → TrE (Option σ)} {f : σ → Option σ} (h : ∀ s, (step s).res = .ok (f s)) :
    ∀ (n : Nat) (s : σ), (whileE step n s).res = match whileN f n s with | none => .error .bad | some s => .ok s
  | 0, _ => rfl
  | n + 1, s => by
    rw [whileE, whileN, res_bind, h s]
    cases f s with
    | none => rfl
    | some s' => exact whileE_res h n s'

theorem createEncodeTableT_res (hist : Nat → Nat) (total : Nat) : (createEncodeTableT hist total).res = createEncodeTable hist total := by
  unfold createEncodeTableT createEncodeTable
  rw [res_bind]
  dsimp only [initT, res_touch_bind, res_ret]
  rw [res_bind, mergeT_res]
  cases merge 19 (Tree.init hist total) with
  | error e => rfl
  | ok t =>
    dsimp only
    rw [res_bind]
    dsimp only [countBitsT, res_touch_bind, res_ret]
    rw [res_bind, adjustT_res]
    cases adjust 19 (countBits t.codesize) with
    | error e => rfl
    | ok bits =>
      dsimp only
      rw [res_bind, sortValsT_res]
      dsimp only
      rw [res_bind, maxLenT_res]
      dsimp only
      rw [res_touch_bind, res_bind, whileE_res (genStepT_res bits (maxLen bits 16))]
      cases whileN (genStep bits (maxLen bits 16)) (2 ^ 18) ⟨0, 0, 0, 1, []⟩ with
      | none => rfl
      | some g =>
        dsimp only
        split <;> rfl

theorem putT_res (s : Wr) : (putT s).res = .ok (s.out ++ [s.next] ++ (if s.next = 0xff then [0] else [])) := by
  unfold putT
  rw [res_touch_bind]
  split
  · rfl
  · simp

theorem flushT_res (len : Nat) (s : Wr) : (flushT len s).res = flush len s := by
  unfold flushT flush
  split
  · split
    · rfl
    · rw [res_bind, putT_res]; rfl
  · rfl

theorem emitT_res (len : Nat) : ∀ (fuel v n : Nat) (s : Wr), (emitT len fuel v n s).res = emit len fuel v n s := by
  intro fuel
  induction fuel with
  | zero => intro v n s; unfold emitT emit; split <;> rfl
  | succ fuel ih =>
    intro v n s
    unfold emitT emit
    split
    · dsimp only
      rw [res_bind, flushT_res]
      cases flush len _ with
      | error e => rfl
      | ok s => exact ih _ _ _
    · rfl

theorem valueT_res (a : Args) (k : Nat) : (valueT a k).res = .ok (a.value k) := by
  unfold valueT Args.value
  rw [res_touch_bind]
  cases a.delinearize <;> rfl

theorem bodyStepT_res (a : Args) (t : Tab) (v : Cur × Wr) : (bodyStepT a t v).res = bodyStep a t v.1 v.2 := by
  unfold bodyStepT bodyStep
  rw [res_bind, valueT_res]
  dsimp only
  rw [res_bind, diffOfT_res]
  dsimp only
  rw [res_touch_bind, res_bind, emitT_res]
  cases emit a.encodedLength 16 _ _ v.2 with
  | error e => rfl
  | ok s =>
    dsimp only
    rw [res_bind, emitT_res]
    cases emit a.encodedLength 16 _ _ s with
    | error e => rfl
    | ok s => rfl

theorem bodyLoopT_res (a : Args) (t : Tab) : ∀ (n : Nat) (v : Cur × Wr), (bodyLoopT a t n v).res = bodyLoop a t n v
  | 0, _ => rfl
  | n + 1, v => by
    unfold bodyLoopT bodyLoop
    rw [res_bind, bodyStepT_res]
    cases bodyStep a t v.1 v.2 with
    | error e => rfl
    | ok v => exact bodyLoopT_res a t n v

theorem writeBodyT_res (a : Args) (t : Tab) (out : List Nat) : (writeBodyT a t out).res = writeBody a t out := by
  unfold writeBodyT writeBody
  rw [res_bind, bodyLoopT_res]
  cases bodyLoop a t (a.width * a.height) (Cur.init a, ⟨0, 8, out⟩) with
  | error e => rfl
  | ok v =>
    dsimp only
    split
    · exact putT_res _
    · rfl

/-- The recorded encoder gives the file of `encode`. -/
theorem encodeT_res (a : Args) : (encodeT a).res = encode a := by
  unfold encodeT encode
  obtain ⟨v, h1, h2⟩ := frequencyScanT_res a
  rw [res_bind, h2, h1]
  dsimp only
  rw [res_bind, createEncodeTableT_res]
  cases createEncodeTable v.2 (a.width * a.height) with
  | error e => rfl
  | ok t =>
    dsimp only
    rw [res_bind]
    dsimp only [writeHeaderT, res_touch_bind, res_ret]
    rw [res_bind, writeBodyT_res]
    cases writeBody a t (writeHeader a t) with
    | error e => rfl
    | ok out => rfl

end Model.Lj92.Enc
