/- Helper lemmas about the model of the lj92 encoder: the merge loop builds a complete prefix code. -/
import Verif.Proof.Lj92Tree

set_option autoImplicit false

namespace Model.Lj92.Enc
open Spec Model.Lj92

/-- The list is a chain of `others`. -/
def Linked (others : Nat → Option Nat) : List Nat → Prop
  | [] => True
  | [x] => others x = none
  | x :: y :: l => others x = some y ∧ Linked others (y :: l)

theorem linked_congr {o o' : Nat → Option Nat} : ∀ (l : List Nat), (∀ x ∈ l, o x = o' x) → Linked o l → Linked o' l
  | [], _, _ => trivial
  | [x], h, hl => by
    have hl' : o x = none := hl
    show o' x = none
    rw [← h x (List.mem_cons_self ..)]; exact hl'
  | x :: y :: l, h, hl => by
    obtain ⟨h1, h2⟩ := hl
    exact ⟨by rw [← h x (List.mem_cons_self ..)]; exact h1, linked_congr (y :: l) (fun z hz => h z (List.mem_cons_of_mem _ hz)) h2⟩

/-- The last of `x :: l`. -/
def lastOf : Nat → List Nat → Nat
  | x, [] => x
  | _, y :: l => lastOf y l

theorem lastOf_mem : ∀ (l : List Nat) (x : Nat), lastOf x l ∈ x :: l
  | [], x => by simp [lastOf]
  | y :: l, x => List.mem_cons_of_mem _ (lastOf_mem l y)

/-- One more bit for the members of a list. -/
def bump (cs : Nat → Nat) (l : List Nat) : Nat → Nat := fun i => if i ∈ l then cs i + 1 else cs i

theorem lengthen_spec {others : Nat → Option Nat} : ∀ (l : List Nat) (x n : Nat) (cs : Nat → Nat), (x :: l).Nodup → Linked others (x :: l) → l.length < n →
    lengthen others n cs x = some (bump cs (x :: l), lastOf x l)
  | l, x, 0, _, _, _, hn => by omega
  | [], x, n + 1, cs, _, hl, _ => by
    have h : others x = none := hl
    unfold lengthen
    rw [h]
    show some _ = some _
    congr 2
    funext i
    unfold bump put
    by_cases e : i = x
    · subst e; simp
    · simp [e]
  | y :: l, x, n + 1, cs, hnd, hl, hn => by
    obtain ⟨h1, h2⟩ := hl
    rw [List.nodup_cons] at hnd
    unfold lengthen
    rw [h1]
    dsimp only
    rw [lengthen_spec l y n _ hnd.2 h2 (by simp at hn; omega)]
    show some _ = some _
    rw [show lastOf x (y :: l) = lastOf y l from rfl]
    congr 2
    funext i
    unfold bump put
    by_cases e : i = x
    · subst e
      rw [if_neg hnd.1]; simp
    · simp only [if_neg e]
      by_cases hm : i ∈ y :: l
      · rw [if_pos hm, if_pos (List.mem_cons_of_mem _ hm)]
      · rw [if_neg hm, if_neg (by rw [List.mem_cons]; rintro (h | h); exact e h; exact hm h)]

theorem linked_append {o : Nat → Option Nat} {y : Nat} {m : List Nat} : ∀ (l : List Nat) (x : Nat), Linked o (x :: l) → (x :: l).Nodup → (∀ z ∈ x :: l, z ∉ y :: m) →
    Linked o (y :: m) → Linked (fun k => if k = lastOf x l then some y else o k) (x :: l ++ y :: m)
  | [], x, _, _, hd, hm => by
    refine ⟨if_pos rfl, linked_congr (y :: m) (fun z hz => ?_) hm⟩
    show o z = if z = x then some y else o z
    rw [if_neg]
    intro e; subst e
    exact hd z (List.mem_cons_self ..) hz
  | z :: l, x, hl, hnd, hd, hm => by
    rw [List.nodup_cons] at hnd
    obtain ⟨h1, h2⟩ := hl
    have ih := linked_append l z h2 hnd.2 (fun w hw => hd w (List.mem_cons_of_mem _ hw)) hm
    simp only [List.cons_append] at ih ⊢
    refine ⟨?_, ih⟩
    show (if x = lastOf z l then some y else o x) = some z
    rw [if_neg]
    · exact h1
    · intro e
      apply hnd.1
      have := lastOf_mem l z
      rw [← e] at this
      exact this

/-- Weight of a list of codes: Kraft sum in units of 2^-17. -/
def weight (cs : Nat → Nat) (l : List Nat) : Nat := (l.map fun i => 2 ^ (17 - cs i)).sum

theorem weight_append (cs : Nat → Nat) (l m : List Nat) : weight cs (l ++ m) = weight cs l + weight cs m := by simp [weight]

theorem weight_congr {cs cs' : Nat → Nat} : ∀ (l : List Nat), (∀ i ∈ l, cs i = cs' i) → weight cs l = weight cs' l
  | [], _ => rfl
  | x :: l, h => by
    have := weight_congr l (fun i hi => h i (List.mem_cons_of_mem _ hi))
    unfold weight at *
    simp only [List.map_cons, List.sum_cons]
    rw [h x (List.mem_cons_self ..), this]

theorem weight_bump {cs cs' : Nat → Nat} : ∀ (l : List Nat), (∀ i ∈ l, cs' i = cs i + 1 ∧ cs i < 17) → 2 * weight cs' l = weight cs l
  | [], _ => rfl
  | x :: l, h => by
    have := weight_bump l (fun i hi => h i (List.mem_cons_of_mem _ hi))
    unfold weight at *
    obtain ⟨h1, h2⟩ := h x (List.mem_cons_self ..)
    simp only [List.map_cons, List.sum_cons]
    rw [h1, show 17 - cs x = (17 - (cs x + 1)) + 1 by omega, Nat.pow_succ]
    omega

/-- What the merge loop keeps: the used indices `A` are partitioned into chains, each the leaves of a complete tree; only the
first of each chain has a frequency. -/
structure TreeInv (A : List Nat) (t : Tree) (ts : List (List Nat)) : Prop where
  perm : ts.flatten.Perm A
  chain : ∀ l ∈ ts, Linked t.others l
  root : ∀ l ∈ ts, ∃ r m, l = r :: m ∧ 0 < t.freq r ∧ ∀ x ∈ m, t.freq x = 0
  out : ∀ i, i ∉ A → t.freq i = 0 ∧ t.codesize i = 0
  kraft : ∀ l ∈ ts, weight t.codesize l = 2 ^ 17
  depth : ∀ l ∈ ts, ∀ i ∈ l, t.codesize i + 1 ≤ l.length
  sum : sumTo t.freq 18 + 2 ^ 40 * ts.length ≤ 2 * one + 2 ^ 40 * 20

theorem flatten_perm {ts us : List (List Nat)} (h : ts.Perm us) : ts.flatten.Perm us.flatten := by
  induction h with
  | nil => exact List.Perm.refl _
  | cons x _ ih => simp only [List.flatten_cons]; exact List.Perm.append_left x ih
  | swap x y l =>
    simp only [List.flatten_cons, ← List.append_assoc]
    exact List.Perm.append_right _ List.perm_append_comm
  | trans _ _ ih1 ih2 => exact ih1.trans ih2

theorem TreeInv.ofPerm {A : List Nat} {t : Tree} {ts us : List (List Nat)} (h : TreeInv A t ts) (hp : ts.Perm us) : TreeInv A t us where
  perm := (flatten_perm hp.symm).trans h.perm
  chain := fun l hl => h.chain l (hp.mem_iff.2 hl)
  root := fun l hl => h.root l (hp.mem_iff.2 hl)
  out := h.out
  kraft := fun l hl => h.kraft l (hp.mem_iff.2 hl)
  depth := fun l hl => h.depth l (hp.mem_iff.2 hl)
  sum := by rw [← hp.length_eq]; exact h.sum

/-- A positive frequency is at the head of a chain. -/
theorem TreeInv.find {A : List Nat} {t : Tree} {ts : List (List Nat)} (h : TreeInv A t ts) {v : Nat} (hv : 0 < t.freq v) :
    ∃ m, v :: m ∈ ts := by
  have hA : v ∈ A := by
    apply Classical.byContradiction
    intro hn
    have := (h.out v hn).1
    omega
  have := h.perm.mem_iff.2 hA
  rw [List.mem_flatten] at this
  obtain ⟨l, hl, hvl⟩ := this
  obtain ⟨r, m, rfl, h1, h2⟩ := h.root l hl
  rw [List.mem_cons] at hvl
  rcases hvl with rfl | hvl
  · exact ⟨m, hl⟩
  · have := h2 v hvl; omega

theorem sum_arith0 {X Y S f1 f2 z w K K' C : Nat} (a1 : X + f2 = Y + 0) (a2 : Y + f1 = S + z)
    (a4 : S + K * (w + 1 + 1) ≤ C) (hz : z ≤ f1 + f2 + K') (hk : K' ≤ K) : X + K * (w + 1) ≤ C := by
  rw [Nat.mul_add, Nat.mul_one] at a4
  omega

theorem sum_arith {X Y S f1 f2 z w : Nat} (a1 : X + f2 = Y + 0) (a2 : Y + f1 = S + z)
    (a4 : S + 2 ^ 40 * (w + 1 + 1) ≤ 2 * 2 ^ 60 + 2 ^ 40 * 20) (a5 : 2 ^ 24 * z ≤ 2 ^ 24 * (f1 + f2) + (f1 + f2))
    (b1 : f1 < 3 * 2 ^ 60) (b2 : f2 < 3 * 2 ^ 60) : X + 2 ^ 40 * (w + 1) ≤ 2 * 2 ^ 60 + 2 ^ 40 * 20 := by
  have hz : z ≤ f1 + f2 + 2 ^ 39 := by
    generalize hs : f1 + f2 = s at *
    apply Nat.le_of_not_lt
    intro hlt
    have h1 : 2 ^ 24 * (s + 2 ^ 39) ≤ 2 ^ 24 * z := Nat.mul_le_mul_left _ (Nat.le_of_lt hlt)
    rw [Nat.mul_add] at h1
    have h2 : 2 ^ 24 * 2 ^ 39 ≤ s := by
      clear a4
      generalize 2 ^ 24 * 2 ^ 39 = k at *
      omega
    have h3 : 3 * 2 ^ 60 + 3 * 2 ^ 60 ≤ 2 ^ 24 * 2 ^ 39 := by decide
    generalize 2 ^ 24 * 2 ^ 39 = k at *
    generalize 3 * 2 ^ 60 = k' at *
    clear a4 a5 h1
    omega
  have hk : (2 : Nat) ^ 39 ≤ 2 ^ 40 := by decide
  exact sum_arith0 a1 a2 a4 hz hk

theorem mergeStep_spec {A : List Nat} (hA : A.Nodup) (hA18 : ∀ i ∈ A, i < 18) (hlen : A.length ≤ 18) {t : Tree} {ts : List (List Nat)} (h : TreeInv A t ts) (hne : ts ≠ []) :
    (ts.length = 1 ∧ mergeStep t = .ok none) ∨ ∃ t' us, mergeStep t = .ok (some t') ∧ TreeInv A t' us ∧ us ≠ [] ∧ us.length < ts.length := by
  have hbound : ∀ i, i < 18 → t.freq i < 3 * one := by
    intro i hi
    have h1 := sumTo_le t.freq 18 i hi
    have h2 := h.sum
    unfold one at *
    omega
  obtain ⟨p1, p2⟩ := pick1_spec t.freq
  unfold mergeStep
  dsimp only
  cases hv1 : (pick1 t.freq).2 with
  | none =>
    exfalso
    obtain ⟨l, ts', rfl⟩ := List.exists_cons_of_ne_nil hne
    obtain ⟨r, m, rfl, h1, h2⟩ := h.root l (List.mem_cons_self ..)
    have hr : r < 18 := hA18 r (h.perm.mem_iff.1 (by simp))
    exact p2 hv1 r hr h1 (Nat.le_of_lt (hbound r hr))
  | some v1 =>
    obtain ⟨v1lt, v1pos⟩ := p1 v1 hv1
    obtain ⟨q1, q2⟩ := pick2_spec t.freq (some v1)
    obtain ⟨m1, hm1⟩ := h.find v1pos
    obtain ⟨us, hus⟩ : ∃ us, ts.Perm ((v1 :: m1) :: us) := ⟨_, List.perm_cons_erase hm1⟩
    have hnd : ((v1 :: m1) ++ us.flatten).Nodup := by
      have := ((flatten_perm hus).symm.trans h.perm).symm.nodup hA
      simpa using this
    cases hv2 : (pick2 t.freq (some v1)).2 with
    | none =>
      left
      refine ⟨?_, rfl⟩
      rw [hus.length_eq]
      cases us with
      | nil => rfl
      | cons l us =>
        exfalso
        have hl : l ∈ ts := hus.mem_iff.2 (by simp)
        obtain ⟨r, m, rfl, h1, h2⟩ := h.root l hl
        have hr : r < 18 := hA18 r (h.perm.mem_iff.1 (by rw [List.mem_flatten]; exact ⟨_, hl, by simp⟩))
        apply q2 hv2 r hr h1 _ (hbound r hr)
        intro e
        injection e with e
        rw [e] at hnd
        simp at hnd
    | some v2 =>
      right
      obtain ⟨v2lt, v2pos, v2ne⟩ := q1 v2 hv2
      have h' := h.ofPerm hus
      obtain ⟨m2, hm2⟩ := h'.find v2pos
      rw [List.mem_cons] at hm2
      rcases hm2 with hm2 | hm2
      · exfalso; apply v2ne; injection hm2 with e _; rw [e]
      obtain ⟨ws, hws⟩ : ∃ ws, us.Perm ((v2 :: m2) :: ws) := ⟨_, List.perm_cons_erase hm2⟩
      have hp2 : ts.Perm ((v1 :: m1) :: (v2 :: m2) :: ws) := hus.trans (hws.cons _)
      have g := h.ofPerm hp2
      have hnd2 : ((v1 :: m1) ++ ((v2 :: m2) ++ ws.flatten)).Nodup := by
        have := g.perm.symm.nodup hA
        simpa using this
      have ndA := List.nodup_append.1 hnd2
      have ndB := List.nodup_append.1 ndA.2.1
      have dj12 : ∀ z ∈ v1 :: m1, z ∉ v2 :: m2 := fun z hz hz2 => ndA.2.2 z hz z (List.mem_append_left _ hz2) rfl
      have dj1w : ∀ z ∈ v1 :: m1, z ∉ ws.flatten := fun z hz hz2 => ndA.2.2 z hz z (List.mem_append_right _ hz2) rfl
      have dj2w : ∀ z ∈ v2 :: m2, z ∉ ws.flatten := fun z hz hz2 => ndB.2.2 z hz z hz2 rfl
      have hlens : (v1 :: m1).length + ((v2 :: m2).length + ws.flatten.length) ≤ 18 := by
        have := g.perm.length_eq
        simp only [List.flatten_cons, List.length_append] at this
        omega
      have L1 := g.chain (v1 :: m1) (by simp)
      have L2 := g.chain (v2 :: m2) (by simp)
      have S1 := lengthen_spec m1 v1 19 t.codesize ndA.1 L1 (by simp at hlens; omega)
      have L12 := linked_append m1 v1 L1 ndA.1 dj12 L2
      have hlastmem : lastOf v1 m1 ∈ v1 :: m1 := lastOf_mem ..
      generalize hlast : lastOf v1 m1 = last at *
      have L2' : Linked (fun k => if k = last then some v2 else t.others k) (v2 :: m2) := by
        apply linked_congr _ _ L2
        intro x hx
        rw [if_neg]
        intro e; subst e
        exact dj12 _ hlastmem hx
      have S2 := lengthen_spec m2 v2 19 (bump t.codesize (v1 :: m1)) ndB.1 L2' (by simp at hlens; omega)
      dsimp only
      rw [S1]
      dsimp only
      rw [S2]
      dsimp only
      have hcs : ∀ i, bump (bump t.codesize (v1 :: m1)) (v2 :: m2) i =
          if i ∈ (v1 :: m1) ++ (v2 :: m2) then t.codesize i + 1 else t.codesize i := by
        intro i
        unfold bump
        by_cases a1 : i ∈ v1 :: m1
        · rw [if_neg (dj12 i a1), if_pos a1, if_pos (List.mem_append_left _ a1)]
        · by_cases a2 : i ∈ v2 :: m2
          · rw [if_pos a2, if_neg a1, if_pos (List.mem_append_right _ a2)]
          · rw [if_neg a2, if_neg a1, if_neg (by rw [List.mem_append]; rintro (h | h); exact a1 h; exact a2 h)]
      have hrest : ∀ l ∈ ws, ∀ i ∈ l, i ∉ (v1 :: m1) ++ (v2 :: m2) := by
        intro l hl i hi hc
        have hf : i ∈ ws.flatten := List.mem_flatten.2 ⟨l, hl, hi⟩
        rw [List.mem_append] at hc
        rcases hc with hc | hc
        · exact dj1w i hc hf
        · exact dj2w i hc hf
      have hne12 : v1 ≠ v2 := fun e => v2ne (by rw [e])
      have r1 : ∀ x ∈ m1, t.freq x = 0 := by
        obtain ⟨r, m, e, _, h2⟩ := g.root (v1 :: m1) (by simp)
        injection e with e1 e2; subst e1; subst e2; exact h2
      have r2 : ∀ x ∈ m2, t.freq x = 0 := by
        obtain ⟨r, m, e, _, h2⟩ := g.root (v2 :: m2) (by simp)
        injection e with e1 e2; subst e1; subst e2; exact h2
      have d1 := g.depth (v1 :: m1) (by simp)
      have d2 := g.depth (v2 :: m2) (by simp)
      have hfreq : ∀ i, i ≠ v1 → i ≠ v2 → put (put t.freq v1 (single (t.freq v1 + t.freq v2) 1)) v2 0 i = t.freq i := by
        intro i h1 h2; simp [put, h1, h2]
      have hf1 : put (put t.freq v1 (single (t.freq v1 + t.freq v2) 1)) v2 0 v1 = single (t.freq v1 + t.freq v2) 1 := by
        simp [put, hne12]
      have hf2 : put (put t.freq v1 (single (t.freq v1 + t.freq v2) 1)) v2 0 v2 = 0 := by simp [put]
      have hv1w : ∀ l ∈ ws, ∀ i ∈ l, i ≠ v1 ∧ i ≠ v2 := by
        intro l hl i hi
        have := hrest l hl i hi
        constructor
        · intro e; subst e; simp at this
        · intro e; subst e; simp at this
      refine ⟨_, ((v1 :: m1) ++ (v2 :: m2)) :: ws, rfl, ?_, by simp, by rw [hp2.length_eq]; simp⟩
      refine { perm := ?_, chain := ?_, root := ?_, out := ?_, kraft := ?_, depth := ?_, sum := ?_ }
      · have := g.perm
        simp only [List.flatten_cons, ← List.append_assoc] at this ⊢
        exact this
      · intro l hl
        rw [List.mem_cons] at hl
        rcases hl with rfl | hl
        · exact L12
        · apply linked_congr _ _ (g.chain l (by simp [hl]))
          intro x hx
          dsimp only
          rw [if_neg]
          intro e; subst e
          exact hrest l hl _ hx (List.mem_append_left _ hlastmem)
      · intro l hl
        rw [List.mem_cons] at hl
        rcases hl with rfl | hl
        · refine ⟨v1, m1 ++ v2 :: m2, rfl, ?_, ?_⟩
          · dsimp only
            rw [hf1]
            apply single_pos
            rw [Nat.div_one]; omega
          · intro x hx
            dsimp only
            rw [List.mem_append, List.mem_cons] at hx
            by_cases e2 : x = v2
            · subst e2; exact hf2
            · have e1 : x ≠ v1 := by
                intro e; subst e
                rcases hx with hx | hx | hx
                · exact (List.nodup_cons.1 ndA.1).1 hx
                · exact e2 hx
                · exact dj12 _ (List.mem_cons_self ..) (List.mem_cons_of_mem _ hx)
              rw [hfreq x e1 e2]
              rcases hx with hx | hx | hx
              · exact r1 x hx
              · exact absurd hx e2
              · exact r2 x hx
        · obtain ⟨r, m, e, h1, h2⟩ := g.root l (by simp [hl])
          subst e
          have hh := hv1w _ hl
          refine ⟨r, m, rfl, ?_, ?_⟩
          · dsimp only
            rw [hfreq r (hh r (by simp)).1 (hh r (by simp)).2]; exact h1
          · intro x hx
            dsimp only
            have := hh x (List.mem_cons_of_mem _ hx)
            rw [hfreq x this.1 this.2]; exact h2 x hx
      · intro i hi
        have hmem : ∀ x, x ∈ (v1 :: m1) ++ (v2 :: m2) → x ∈ A := by
          intro x hx
          apply g.perm.mem_iff.1
          simp only [List.flatten_cons, ← List.append_assoc]
          exact List.mem_append_left _ hx
        have n1 : i ∉ (v1 :: m1) ++ (v2 :: m2) := fun hc => hi (hmem i hc)
        dsimp only
        rw [hcs i, if_neg n1, hfreq i (fun e => n1 (by rw [e]; simp)) (fun e => n1 (by rw [e]; simp))]
        exact h.out i hi
      · intro l hl
        rw [List.mem_cons] at hl
        dsimp only
        rcases hl with rfl | hl
        · have hw : 2 * weight (bump (bump t.codesize (v1 :: m1)) (v2 :: m2)) ((v1 :: m1) ++ (v2 :: m2)) =
              weight t.codesize ((v1 :: m1) ++ (v2 :: m2)) := by
            apply weight_bump
            intro i hi
            refine ⟨by rw [hcs i, if_pos hi], ?_⟩
            rw [List.mem_append] at hi
            simp only [List.length_cons] at hlens d1 d2
            rcases hi with hi | hi
            · have := d1 i hi; omega
            · have := d2 i hi; omega
          rw [weight_append t.codesize, g.kraft (v1 :: m1) (by simp), g.kraft (v2 :: m2) (by simp)] at hw
          omega
        · rw [weight_congr (cs' := t.codesize) l (fun i hi => by rw [hcs i, if_neg (hrest l hl i hi)])]
          exact g.kraft l (by simp [hl])
      · intro l hl i hi
        rw [List.mem_cons] at hl
        dsimp only
        rcases hl with rfl | hl
        · rw [hcs i, if_pos hi, List.length_append]
          rw [List.mem_append] at hi
          rcases hi with hi | hi
          · have := d1 i hi; simp only [List.length_cons] at this ⊢; omega
          · have := d2 i hi; simp only [List.length_cons] at this ⊢; omega
        · rw [hcs i, if_neg (hrest l hl i hi)]
          exact g.depth l (by simp [hl]) i hi
      · have a1 := sumTo_put (put t.freq v1 (single (t.freq v1 + t.freq v2) 1)) v2 0 18 v2lt
        have a2 := sumTo_put t.freq v1 (single (t.freq v1 + t.freq v2) 1) 18 v1lt
        have a3 : put t.freq v1 (single (t.freq v1 + t.freq v2) 1) v2 = t.freq v2 := by simp [put, Ne.symm hne12]
        have a4 := g.sum
        have a5 := (single_bounds (n := t.freq v1 + t.freq v2) (d := 1) (by decide) (Or.inl rfl)).1
        have b1 := hbound v1 v1lt
        have b2 := hbound v2 v2lt
        rw [a3] at a1
        rw [Nat.one_mul] at a5
        dsimp only
        simp only [List.length_cons] at a4 ⊢
        unfold one at *
        exact sum_arith a1 a2 a4 a5 b1 b2

theorem merge_spec {A : List Nat} (hA : A.Nodup) (hA18 : ∀ i ∈ A, i < 18) (hlen : A.length ≤ 18) :
    ∀ (n : Nat) (t : Tree) (ts : List (List Nat)), TreeInv A t ts → ts ≠ [] → ts.length ≤ n →
      ∃ t' l, merge n t = .ok t' ∧ TreeInv A t' [l]
  | 0, t, ts, _, hne, hn => by
    exfalso; exact hne (List.length_eq_zero_iff.1 (by omega))
  | n + 1, t, ts, h, hne, hn => by
    unfold merge
    rcases mergeStep_spec hA hA18 hlen h hne with ⟨h1, h2⟩ | ⟨t', us, h1, h2, h3, h4⟩
    · rw [h2]
      obtain ⟨l, rfl⟩ := List.length_eq_one_iff.1 h1
      exact ⟨t, l, rfl, h⟩
    · rw [h1]
      exact merge_spec hA hA18 hlen n t' us h2 h3 (by omega)

/-- The used indices: the classes that occur, and the reserved one. -/
def used (hist : Nat → Nat) : List Nat := (List.range 18).filter fun i => i = 17 ∨ 0 < hist i

theorem init_inv {hist : Nat → Nat} {t : Nat} (hs : sumTo hist 17 = t) (h1 : 1 ≤ t) (ht : t < 2 ^ 31) :
    TreeInv (used hist) (Tree.init hist t) ((used hist).map fun i => [i]) := by
  have hmem : ∀ i, i ∈ used hist ↔ i = 17 ∨ (i < 17 ∧ 0 < hist i) := by
    intro i
    simp only [used, List.mem_filter, List.mem_range, decide_eq_true_eq]
    omega
  refine { perm := ?_, chain := ?_, root := ?_, out := ?_, kraft := ?_, depth := ?_, sum := ?_ }
  · have : ((used hist).map fun i => [i]).flatten = used hist := by
      induction used hist with
      | nil => rfl
      | cons a l ih => simp only [List.map_cons, List.flatten_cons, ih]; rfl
    rw [this]
  · intro l hl
    rw [List.mem_map] at hl
    obtain ⟨i, _, rfl⟩ := hl
    rfl
  · intro l hl
    rw [List.mem_map] at hl
    obtain ⟨i, hi, rfl⟩ := hl
    refine ⟨i, [], rfl, ?_, fun x hx => by simp at hx⟩
    rw [hmem] at hi
    simp only [Tree.init]
    rcases hi with rfl | ⟨hi, hp⟩
    · rw [if_pos rfl]; decide
    · rw [if_neg (by omega), if_pos hi]
      exact (freqOf_pos hp (by rw [← hs]; exact sumTo_le hist 17 i hi) ht).1
  · intro i hi
    rw [hmem] at hi
    simp only [Tree.init]
    refine ⟨?_, trivial⟩
    rw [if_neg (by omega)]
    by_cases h : i < 17
    · rw [if_pos h, show hist i = 0 by omega]; rfl
    · rw [if_neg h]
  · intro l hl
    rw [List.mem_map] at hl
    obtain ⟨i, _, rfl⟩ := hl
    simp [weight, Tree.init]
  · intro l hl
    rw [List.mem_map] at hl
    obtain ⟨i, _, rfl⟩ := hl
    intro j _
    simp [Tree.init]
  · have := init_sum hs h1 ht
    have h2 : (used hist).length ≤ 18 := by
      have := List.length_filter_le (fun i => decide (i = 17 ∨ 0 < hist i)) (List.range 18)
      rw [List.length_range] at this
      exact this
    rw [List.length_map]
    omega

end Model.Lj92.Enc
