/- Helper lemmas about the recorded memory accesses of the lj92 encoder: where they are. -/
import Verif.Proof.Lj92EncMem

set_option autoImplicit false

namespace Model.Lj92.Enc
open Spec Model.Lj92 TrE

variable {α β σ : Type}

theorem mem_bind {m : TrE α} {f : α → TrE β} {x : Acc} (h : x ∈ (m >>= f).accs) : x ∈ m.accs ∨ ∃ a, m.res = .ok a ∧ x ∈ (f a).accs := by
  have h : x ∈ (TrE.bind m f).accs := h
  unfold TrE.bind at h
  cases hm : m.res with
  | error e => rw [hm] at h; exact Or.inl h
  | ok a => rw [hm] at h; rcases List.mem_append.1 h with h | h; exact Or.inl h; exact Or.inr ⟨a, rfl, h⟩

theorem accs_bind {m : TrE α} {f : α → TrE β} {a : α} (h : m.res = .ok a) : (m >>= f).accs = m.accs ++ (f a).accs := by
  show (TrE.bind m f).accs = _
  unfold TrE.bind
  rw [h]

theorem ok_of_bind {m : TrE α} {f : α → TrE β} {b : β} (h : (m >>= f).res = .ok b) : ∃ a, m.res = .ok a ∧ (f a).res = .ok b := by
  rw [res_bind] at h
  cases hm : m.res with
  | error e => rw [hm] at h; cases h
  | ok a => rw [hm] at h; exact ⟨a, rfl, h⟩

/-- All accesses satisfy `P`. -/
def All (P : Acc → Prop) (m : TrE α) : Prop := ∀ x ∈ m.accs, P x

/-- All accesses of a run that gives a value satisfy `P`. -/
def AllOk (P : Acc → Prop) (m : TrE α) : Prop := ∀ v, m.res = .ok v → All P m

variable {P : Acc → Prop}

theorem All.ret (a : α) : All P (ret a) := fun _ h => by cases h
theorem All.fail (e : Err) : All P (fail e : TrE α) := fun _ h => by cases h
theorem All.touch {l : List Acc} (h : ∀ x ∈ l, P x) : All P (touch l) := h
theorem All.bind {m : TrE α} {f : α → TrE β} (h1 : All P m) (h2 : ∀ a, m.res = .ok a → All P (f a)) : All P (m >>= f) := by
  intro x hx
  rcases mem_bind hx with h | ⟨a, ha, h⟩
  · exact h1 x h
  · exact h2 a ha x h
theorem All.ok {m : TrE α} (h : All P m) : AllOk P m := fun _ _ => h
theorem AllOk.fail (e : Err) : AllOk P (TrE.fail e : TrE α) := fun _ h => by cases h
theorem AllOk.bind {m : TrE α} {f : α → TrE β} (h1 : AllOk P m) (h2 : ∀ a, m.res = .ok a → AllOk P (f a)) : AllOk P (m >>= f) := by
  intro v hv
  obtain ⟨a, ha, hb⟩ := ok_of_bind hv
  exact All.bind (h1 a ha) (fun a' ha' => by rw [ha] at ha'; injection ha' with e; subst e; exact h2 a ha v hb)

/-- An access to an array of eighteen entries, within it. -/
def Small : Acc → Prop
  | .rd a k | .wr a k => a ≠ .image ∧ a ≠ .delin ∧ a ≠ .rows ∧ a ≠ .out ∧ 0 ≤ k ∧ k < 18

theorem small_clear {a : Arr} (h : a ≠ .image ∧ a ≠ .delin ∧ a ≠ .rows ∧ a ≠ .out) : ∀ x ∈ clear a, Small x := by
  intro x hx
  simp only [clear, List.mem_map, List.mem_range] at hx
  obtain ⟨i, hi, rfl⟩ := hx
  exact ⟨h.1, h.2.1, h.2.2.1, h.2.2.2, by omega, by omega⟩

theorem initT_small (hist : Nat → Nat) (total : Nat) : All Small (initT hist total) := by
  refine All.bind (All.touch ?_) fun _ _ => All.bind (All.touch ?_) fun _ _ => All.ret _
  · intro x hx
    simp only [List.mem_flatMap, List.mem_range] at hx
    obtain ⟨i, hi, hx⟩ := hx
    simp only [List.mem_cons, List.not_mem_nil, or_false] at hx
    rcases hx with rfl | rfl | rfl | rfl <;> exact ⟨by decide, by decide, by decide, by decide, by omega, by omega⟩
  · intro x hx
    simp only [List.mem_cons, List.not_mem_nil, or_false] at hx
    rcases hx with rfl | rfl | rfl <;> exact ⟨by decide, by decide, by decide, by decide, by omega, by omega⟩

theorem pick1T_small (freq : Nat → Nat) : All Small (pick1T freq) := by
  refine All.bind (All.touch ?_) fun _ _ => All.ret _
  intro x hx
  simp only [List.mem_map, List.mem_range] at hx
  obtain ⟨i, hi, rfl⟩ := hx
  exact ⟨by decide, by decide, by decide, by decide, by omega, by omega⟩

theorem pick2T_small (freq : Nat → Nat) (v1 : Option Nat) : All Small (pick2T freq v1) := by
  refine All.bind (All.touch ?_) fun _ _ => All.ret _
  intro x hx
  simp only [List.mem_map, List.mem_filter, List.mem_range] at hx
  obtain ⟨i, ⟨hi, _⟩, rfl⟩ := hx
  exact ⟨by decide, by decide, by decide, by decide, by omega, by omega⟩

/-- The links stay within the arrays. -/
def Links (others : Nat → Option Nat) : Prop := ∀ v w, others v = some w → w < 18

theorem lengthenT_small {others : Nat → Option Nat} (ho : Links others) : ∀ (n : Nat) (cs : Nat → Nat) (v : Nat), v < 18 →
    All Small (lengthenT others n cs v) ∧ ∀ r, (lengthenT others n cs v).res = .ok r → r.2 < 18
  | 0, _, _, _ => ⟨All.fail _, fun _ h => by cases h⟩
  | n + 1, cs, v, hv => by
    unfold lengthenT
    have ht : All Small (touch [.rd .codesize v, .wr .codesize v, .rd .others v]) := by
      intro x hx
      simp only [touch, List.mem_cons, List.not_mem_nil, or_false] at hx
      rcases hx with rfl | rfl | rfl <;> exact ⟨by decide, by decide, by decide, by decide, by omega, by omega⟩
    cases hov : others v with
    | none =>
      refine ⟨All.bind ht fun _ _ => All.ret _, fun r hr => ?_⟩
      rw [res_touch_bind] at hr
      injection hr with hr
      subst hr; exact hv
    | some w =>
      have ih := lengthenT_small ho n (put cs v (cs v + 1)) w (ho v w hov)
      exact ⟨All.bind ht fun _ _ => ih.1, fun r hr => ih.2 r hr⟩

theorem mergeStepT_small {t : Tree} (ho : Links t.others) :
    AllOk Small (mergeStepT t) ∧ ∀ t', (mergeStepT t).res = .ok (some t') → Links t'.others := by
  have key : AllOk Small (mergeStepT t) := by
    unfold mergeStepT
    refine AllOk.bind (pick1T_small _).ok fun v1 hv1 => AllOk.bind (pick2T_small _ _).ok fun v2 hv2 => ?_
    have hv1 : (pick1 t.freq).2 = v1 := by injection hv1
    have hv2 : (pick2 t.freq v1).2 = v2 := by injection hv2
    cases v2 with
    | none => exact (All.ret _).ok
    | some v2 =>
      cases v1 with
      | none => intro v hv; cases hv
      | some v1 =>
        have l1 := ((pick1_spec t.freq).1 v1 hv1).1
        have l2 := ((pick2_spec t.freq (some v1)).1 v2 hv2).1
        dsimp only
        refine AllOk.bind (All.ok (All.touch ?_)) fun _ _ => AllOk.bind (lengthenT_small ho 19 _ v1 l1).1.ok fun r hr => ?_
        · intro x hx
          simp only [List.mem_cons, List.not_mem_nil, or_false] at hx
          rcases hx with rfl | rfl | rfl | rfl <;> exact ⟨by decide, by decide, by decide, by decide, by omega, by omega⟩
        · have l3 := (lengthenT_small ho 19 _ v1 l1).2 r hr
          refine AllOk.bind (All.ok (All.touch ?_)) fun _ _ => AllOk.bind (lengthenT_small ?_ 19 _ v2 l2).1.ok fun r _ => (All.ret _).ok
          · intro x hx
            simp only [List.mem_cons, List.not_mem_nil, or_false] at hx
            rcases hx with rfl
            exact ⟨by decide, by decide, by decide, by decide, by omega, by omega⟩
          · intro v w hw
            dsimp only at hw
            split at hw
            · injection hw with hw; subst hw; exact l2
            · exact ho v w hw
  refine ⟨key, fun t' ht' => ?_⟩
  rw [mergeStepT_res] at ht'
  unfold mergeStep at ht'
  dsimp only at ht'
  cases h2 : (pick2 t.freq (pick1 t.freq).2).2 with
  | none => rw [h2] at ht'; cases ht'
  | some v2 =>
    rw [h2] at ht'
    have l2 := ((pick2_spec t.freq _).1 v2 h2).1
    cases h1 : (pick1 t.freq).2 with
    | none => rw [h1] at ht'; cases ht'
    | some v1 =>
      rw [h1] at ht'
      dsimp only at ht'
      split at ht'
      · cases ht'
      · split at ht'
        · cases ht'
        · injection ht' with ht'
          injection ht' with ht'
          subst ht'
          intro v w hw
          dsimp only at hw
          split at hw
          · injection hw with hw; subst hw; exact l2
          · exact ho v w hw

theorem mergeT_small : ∀ (n : Nat) (t : Tree), Links t.others → AllOk Small (mergeT n t)
  | 0, _, _ => AllOk.fail _
  | n + 1, t, ho => by
    unfold mergeT
    refine AllOk.bind (mergeStepT_small ho).1 fun o h => ?_
    cases o with
    | none => exact (All.ret _).ok
    | some t' => exact mergeT_small n t' ((mergeStepT_small ho).2 t' h)

theorem countBitsT_small {cs : Nat → Nat} (h : ∀ i, cs i < 18) : All Small (countBitsT cs) := by
  refine All.bind (All.touch (small_clear (by decide))) fun _ _ => All.bind (All.touch ?_) fun _ _ => All.ret _
  intro x hx
  simp only [List.mem_flatMap, List.mem_range] at hx
  obtain ⟨i, hi, hx⟩ := hx
  have := h i
  split at hx
  · simp only [List.mem_cons, List.not_mem_nil, or_false] at hx
    rcases hx with rfl | rfl | rfl <;> exact ⟨by decide, by decide, by decide, by decide, by omega, by omega⟩
  · simp only [List.mem_cons, List.not_mem_nil, or_false] at hx
    rcases hx with rfl
    exact ⟨by decide, by decide, by decide, by decide, by omega, by omega⟩

theorem small_bits {k : Int} (h0 : 0 ≤ k) (h : k < 18) : Small (.rd .bits k) ∧ Small (.wr .bits k) :=
  ⟨⟨by decide, by decide, by decide, by decide, h0, h⟩, ⟨by decide, by decide, by decide, by decide, h0, h⟩⟩

theorem all_rd_bits {k : Int} (h0 : 0 ≤ k) (h : k < 18) : All Small (touch [.rd .bits k]) := by
  intro x hx
  simp only [touch, List.mem_cons, List.not_mem_nil, or_false] at hx
  subst hx
  exact (small_bits h0 h).1

theorem all_wr_bits {k : Int} (h0 : 0 ≤ k) (h : k < 18) : All Small (touch [.wr .bits k]) := by
  intro x hx
  simp only [touch, List.mem_cons, List.not_mem_nil, or_false] at hx
  subst hx
  exact (small_bits h0 h).2

theorem findJT_small (bits : Nat → Int) : ∀ j, j < 18 → AllOk Small (findJT bits j) ∧ ∀ r, (findJT bits j).res = .ok r → r ≤ j
  | 0, _ => by
    unfold findJT
    constructor
    · refine AllOk.bind (all_rd_bits (by omega) (by omega)).ok fun _ _ => ?_
      split
      · intro v hv; cases hv
      · exact (All.ret _).ok
    · intro r hr
      rw [res_touch_bind] at hr
      split at hr
      · cases hr
      · injection hr with hr; omega
  | j + 1, hj => by
    have ih := findJT_small bits j (by omega)
    unfold findJT
    constructor
    · refine AllOk.bind (all_rd_bits (by omega) (by omega)).ok fun _ _ => ?_
      split
      · exact ih.1
      · exact (All.ret _).ok
    · intro r hr
      rw [res_touch_bind] at hr
      split at hr
      · have := ih.2 r hr; omega
      · injection hr with hr; omega

theorem dropOneT_small (bits : Nat → Int) : ∀ j, j < 18 → AllOk Small (dropOneT bits j)
  | 0, _ => by
    unfold dropOneT
    refine AllOk.bind (all_rd_bits (by omega) (by omega)).ok fun _ _ => ?_
    split
    · intro v hv; cases hv
    · exact (All.bind (all_wr_bits (by omega) (by omega)) fun _ _ => All.ret _).ok
  | j + 1, hj => by
    unfold dropOneT
    refine AllOk.bind (all_rd_bits (by omega) (by omega)).ok fun _ _ => ?_
    split
    · exact dropOneT_small bits j (by omega)
    · exact (All.bind (all_wr_bits (by omega) (by omega)) fun _ _ => All.ret _).ok

theorem adjustT_small : ∀ (n : Nat) (bits : Nat → Int), AllOk Small (adjustT n bits)
  | 0, _ => AllOk.fail _
  | n + 1, bits => by
    unfold adjustT
    refine AllOk.bind (all_rd_bits (by omega) (by omega)).ok fun _ _ => ?_
    split
    · obtain ⟨f1, f2⟩ := findJT_small bits 15 (by omega)
      refine AllOk.bind f1 fun j hj => AllOk.bind (All.ok (All.touch ?_)) fun _ _ => adjustT_small n _
      have := f2 j hj
      intro x hx
      simp only [List.mem_cons, List.not_mem_nil, or_false] at hx
      rcases hx with rfl | rfl | rfl | rfl | rfl | rfl | rfl | rfl <;> exact ⟨by decide, by decide, by decide, by decide, by omega, by omega⟩
    · exact dropOneT_small bits 16 (by omega)

/-! The sorted values: an entry is written at the length of the list so far. -/

theorem forE_grow {f : Nat → σ → TrE σ} {len : σ → Nat} {B : Nat} (n : Nat)
    (h : ∀ k s, k < n → ∀ s', (f k s).res = .ok s' → len s ≤ len s' ∧ (len s' ≤ B → All Small (f k s))) (s : σ) :
    ∀ s', (forE f n s).res = .ok s' → len s ≤ len s' ∧ (len s' ≤ B → All Small (forE f n s)) := by
  induction n with
  | zero => intro s' hs; injection hs with hs; subst hs; exact ⟨Nat.le_refl _, fun _ => All.ret _⟩
  | succ n ih =>
    intro s' hs
    unfold forE at hs ⊢
    obtain ⟨s1, h1, h2⟩ := ok_of_bind hs
    obtain ⟨i1, i2⟩ := ih (fun k s hk => h k s (by omega)) s1 h1
    obtain ⟨j1, j2⟩ := h n s1 (by omega) s' h2
    refine ⟨by omega, fun hB => All.bind (i2 (by omega)) fun s2 hs2 => ?_⟩
    rw [h1] at hs2
    injection hs2 with hs2
    subst hs2
    exact j2 hB

theorem sortValsT_small {cs : Nat → Nat} (h : (sortVals cs).length ≤ 18) : All Small (sortValsT cs) := by
  unfold sortValsT
  refine All.bind (All.touch (small_clear (by decide))) fun _ _ => ?_
  have hres := sortValsT_res cs
  unfold sortValsT at hres
  rw [res_touch_bind] at hres
  refine (forE_grow (len := List.length) (B := 18) 32 (fun i l _ l' hl' => ?_) [] _ hres).2 h
  refine forE_grow (len := List.length) (B := 18) 17 (fun j l hj l' hl' => ?_) l l' hl'
  rw [sortStepT_res] at hl'
  injection hl' with hl'
  unfold sortStepT
  have hr : All Small (touch [.rd .codesize j]) := by
    intro x hx
    simp only [touch, List.mem_cons, List.not_mem_nil, or_false] at hx
    subst hx
    exact ⟨by decide, by decide, by decide, by decide, by omega, by omega⟩
  by_cases hc : cs j = i + 1
  · rw [if_pos hc] at hl'
    subst hl'
    rw [if_pos hc]
    refine ⟨by simp, fun hB => All.bind hr fun _ _ => All.bind ?_ fun _ _ => All.ret _⟩
    intro x hx
    simp only [touch, List.mem_cons, List.not_mem_nil, or_false] at hx
    subst hx
    simp only [List.length_append, List.length_cons, List.length_nil] at hB
    exact ⟨by decide, by decide, by decide, by decide, by omega, by omega⟩
  · rw [if_neg hc] at hl'
    subst hl'
    rw [if_neg hc]
    exact ⟨Nat.le_refl _, fun _ => All.bind hr fun _ _ => All.ret _⟩

theorem maxLenT_small (bits : Nat → Int) : ∀ n, n < 18 → All Small (maxLenT bits n)
  | 0, _ => All.ret _
  | n + 1, h => by
    unfold maxLenT
    refine All.bind (all_rd_bits (by omega) (by omega)) fun _ _ => ?_
    split
    · exact All.ret _
    · exact maxLenT_small bits n (by omega)

theorem maxLen_le (bits : Nat → Int) : ∀ n, maxLen bits n ≤ n
  | 0 => Nat.le_refl _
  | n + 1 => by
    unfold maxLen
    split
    · exact Nat.le_refl _
    · exact Nat.le_trans (maxLen_le bits n) (by omega)

/-! The codes: an entry is written at the number of codes so far. -/

theorem genStepT_small {bits : Nat → Int} {maxb : Nat} (hm : maxb ≤ 16) (g : Gen) :
    (genStep bits maxb g = none → All Small (genStepT bits maxb g)) ∧
    ∀ g', genStep bits maxb g = some g' → g.codes.length ≤ g'.codes.length ∧ (g'.codes.length ≤ 18 → All Small (genStepT bits maxb g)) := by
  unfold genStepT genStep
  by_cases h1 : g.i < 2 ^ maxb
  · simp only [if_pos h1]
    by_cases h2 : g.bitsused > maxb
    · simp only [if_pos h2]
      exact ⟨fun _ => All.ret _, fun g' hg => by cases hg⟩
    · simp only [if_neg h2]
      have hr : All Small (touch [.rd .bits g.bitsused]) := all_rd_bits (by omega) (by omega)
      by_cases h3 : (g.vl : Int) ≥ bits g.bitsused
      · simp only [if_pos h3]
        refine ⟨fun hg => (by cases hg), fun g' hg => ?_⟩
        injection hg with hg; subst hg
        exact ⟨Nat.le_refl _, fun _ => All.bind hr fun _ _ => All.ret _⟩
      · simp only [if_neg h3]
        by_cases h4 : g.rv = 2 ^ (maxb - g.bitsused)
        · simp only [if_pos h4]
          refine ⟨fun hg => (by cases hg), fun g' hg => ?_⟩
          injection hg with hg; subst hg
          exact ⟨Nat.le_refl _, fun _ => All.bind hr fun _ _ => All.ret _⟩
        · simp only [if_neg h4]
          refine ⟨fun hg => (by cases hg), fun g' hg => ?_⟩
          injection hg with hg; subst hg
          refine ⟨by simp, fun hB => All.bind hr fun _ _ => All.bind ?_ fun _ _ => All.ret _⟩
          simp only [List.length_append, List.length_cons, List.length_nil] at hB
          intro x hx
          simp only [touch, List.mem_cons, List.not_mem_nil, or_false] at hx
          rcases hx with rfl | rfl <;> exact ⟨by decide, by decide, by decide, by decide, by omega, by omega⟩
  · simp only [if_neg h1]
    exact ⟨fun _ => All.ret _, fun g' hg => by cases hg⟩

theorem gen_small {bits : Nat → Int} {maxb : Nat} (hm : maxb ≤ 16) : ∀ (n : Nat) (g g' : Gen), whileN (genStep bits maxb) n g = some g' →
    g.codes.length ≤ g'.codes.length ∧ (g'.codes.length ≤ 18 → All Small (whileE (genStepT bits maxb) n g))
  | 0, _, _, h => by cases h
  | n + 1, g, g', h => by
    obtain ⟨s1, s2⟩ := genStepT_small hm (bits := bits) g
    unfold whileN at h
    unfold whileE
    have hres := genStepT_res bits maxb g
    cases hg : genStep bits maxb g with
    | none =>
      rw [hg] at h hres
      injection h with h
      subst h
      refine ⟨Nat.le_refl _, fun _ => All.bind (s1 hg) fun o ho => ?_⟩
      rw [hres] at ho; injection ho with ho; subst ho
      exact All.ret _
    | some g1 =>
      rw [hg] at h hres
      obtain ⟨t1, t2⟩ := s2 g1 hg
      obtain ⟨i1, i2⟩ := gen_small hm n g1 g' h
      refine ⟨by omega, fun hB => All.bind (t2 (by omega)) fun o ho => ?_⟩
      rw [hres] at ho; injection ho with ho; subst ho
      exact i2 hB

theorem symbolsT_small {huffval : List Nat} (h : ∀ v ∈ huffval, v < 17) (codes : List (Nat × Nat)) : All Small (symbolsT huffval codes) := by
  refine All.bind (All.touch ?_) fun _ _ => All.ret _
  intro x hx
  simp only [List.mem_flatMap, List.mem_range] at hx
  obtain ⟨i, hi, hx⟩ := hx
  have hv : huffval.getD i 0 < 17 := by
    rw [List.getD_eq_getElem?_getD]
    cases hq : huffval[i]? with
    | none => simp
    | some v => exact h v (List.mem_of_getElem? hq)
  split at hx
  · simp only [List.mem_cons, List.not_mem_nil, or_false] at hx
    rcases hx with rfl | rfl | rfl | rfl | rfl | rfl <;> exact ⟨by decide, by decide, by decide, by decide, by omega, by omega⟩
  · simp only [List.mem_cons, List.not_mem_nil, or_false] at hx
    rcases hx with rfl | rfl <;> exact ⟨by decide, by decide, by decide, by decide, by omega, by omega⟩

/-- `createEncodeTable` stays within its arrays. -/
theorem createT_small {hist : Nat → Nat} {total : Nat} (hs : sumTo hist 17 = total) (h1 : 1 ≤ total) (ht : total < 2 ^ 31)
    (hz : ∀ i, 17 ≤ i → hist i = 0) : All Small (createEncodeTableT hist total) := by
  obtain ⟨tab, T, c1, _, _, _, _, _⟩ := create_spec hs h1 ht hz
  obtain ⟨tr, m1, m2, _, _⟩ := sizes_spec hs h1 ht
  have hperm := sortVals_perm tr.codesize m2
  have hlen : (sortVals tr.codesize).length ≤ 18 := by
    rw [hperm.length_eq]
    have := List.length_filter_le (fun j => decide (tr.codesize j ≠ 0)) (List.range 17)
    rw [List.length_range] at this
    omega
  have hval : ∀ v ∈ sortVals tr.codesize, v < 17 := fun v hv => by
    have := hperm.mem_iff.1 hv
    rw [List.mem_filter, List.mem_range] at this
    exact this.1
  have key : AllOk Small (createEncodeTableT hist total) := by
    unfold createEncodeTableT
    refine AllOk.bind (initT_small hist total).ok fun t ht => ?_
    have ht : Tree.init hist total = t := by injection ht
    subst ht
    refine AllOk.bind (mergeT_small 19 _ (fun v w hw => by cases hw)) fun t ht => ?_
    rw [mergeT_res, m1] at ht
    injection ht with ht
    subst ht
    refine AllOk.bind (countBitsT_small m2).ok fun bits _ => AllOk.bind (adjustT_small 19 bits) fun bits _ => AllOk.bind (sortValsT_small hlen).ok fun hv hhv => ?_
    rw [sortValsT_res] at hhv
    injection hhv with hhv
    subst hhv
    refine AllOk.bind (maxLenT_small bits 16 (by omega)).ok fun mb hmb => ?_
    rw [maxLenT_res] at hmb
    injection hmb with hmb
    have hle : mb ≤ 16 := by rw [← hmb]; exact maxLen_le bits 16
    refine AllOk.bind (All.ok (All.touch ?_)) fun _ _ => ?_
    · intro x hx
      rcases List.mem_append.1 hx with hx | hx
      · rcases List.mem_append.1 hx with hx | hx
        · exact small_clear (by decide) x hx
        · exact small_clear (by decide) x hx
      · exact small_clear (by decide) x hx
    · intro v hv
      obtain ⟨g, hg, hv⟩ := ok_of_bind hv
      have hg' := hg
      rw [whileE_res (genStepT_res bits mb)] at hg'
      have hw : whileN (genStep bits mb) (2 ^ 18) ⟨0, 0, 0, 1, []⟩ = some g := by
        cases hw : whileN (genStep bits mb) (2 ^ 18) ⟨0, 0, 0, 1, []⟩ with
        | none => rw [hw] at hg'; cases hg'
        | some g1 => rw [hw] at hg'; injection hg' with hg'; rw [hg']
      by_cases hc : g.codes.length ≤ 18 ∧ (sortVals tr.codesize).length ≤ 18
      · refine All.bind ((gen_small hle _ _ g hw).2 hc.1) fun g2 hg2 => ?_
        rw [hg] at hg2
        injection hg2 with hg2
        subst hg2
        rw [if_pos hc]
        exact All.bind (symbolsT_small hval g.codes) fun _ _ => All.ret _
      · rw [if_neg hc] at hv
        cases hv
  exact key tab (by rw [createEncodeTableT_res]; exact c1)

end Model.Lj92.Enc
