/- Helper lemmas about the two builds of the lj92 decoder: the fast path for predictor 6. -/
import Verif.Proof.Lj92SlowScan

set_option autoImplicit false

namespace Model.Lj92.Slow
open Spec Model.Lj92

theorem codeOf_length {T : Table} {c vals : Nat → Nat} {n : Nat} {P : Nat → Prop} (ht : Tabs T c vals n P) : ∀ (ds : List Int), (∀ x ∈ ds, P (cls x)) →
    ds.length ≤ (codeOf T ds).length
  | [], _ => Nat.zero_le _
  | x :: ds, h => by
    have ih := codeOf_length ht ds (fun y hy => h y (List.mem_cons_of_mem _ hy))
    obtain ⟨k, l, k1, _, k3, _⟩ := ht.word _ (h x (List.mem_cons_self ..))
    have := (huffSizes_le c 16 l (List.mem_of_getElem? k1)).1
    have e : codeOf T (x :: ds) = (T (cls x) ++ toBits (cls x) (extra x)) ++ codeOf T ds := by simp [codeOf, wideBits]
    rw [e, k3]
    simp only [List.length_append, toBits_length, List.length_cons]
    omega

/-- The states of the two builds after `n` of the samples. -/
def Rel6 (T : Table) (s0 t0 : Ljp) (E E' : Nat) (P : Nat → Prop) (ds : List Int) (n : Nat) (v w : P6) : Prop :=
  Rel T s0 t0 E E' P (ds.drop n) v.s w.s ∧ v.c = n ∧ w.c = n ∧ v.out = w.out ∧ v.write = w.write ∧ v.left = w.left ∧ v.s.x = s0.x

theorem put6_both (ub : Int) {T : Table} {c vals : Nat → Nat} {n : Nat} {P : Nat → Prop} {tab : Tab} {s0 t0 : Ljp} {E E' : Nat}
    (hs : Setup T c vals n P tab s0 t0) {ds : List Int} {m : Nat} (hm : m < ds.length) {v w : P6} (h : Rel6 T s0 t0 E E' P ds m v w)
    (lin : Option Lin) (check : Bool) (row col : Nat) {p p' : Int} (hp : p = p') :
    Both (Rel6 T s0 t0 E E' P ds (m + 1)) (Lj92.put6 ub lin check row col p v) (put6 ub (some tab) lin check row col p' w) := by
  obtain ⟨h1, h2, h3, h4, h5, h6, h7⟩ := h
  subst hp
  obtain ⟨x, hx⟩ := drop_cons hm
  rw [hx] at h1
  obtain ⟨s', t', a1, a2, a3, hx'⟩ := nextdiff_both ub hs h1
  unfold Lj92.put6 put6
  rw [a1, a2]
  dsimp only
  generalize (((p + x).tmod 65536) % 65536).toNat = y
  by_cases hb : (check && beyond lin y) = true
  · left; rw [if_pos hb, if_pos hb]; exact ⟨rfl, rfl⟩
  · right
    rw [if_neg hb, if_neg hb]
    have e1 : thisrow t' row = thisrow s' row := by unfold thisrow; rw [a3.x]
    have eA : put t'.rowcache (thisrow t' row + col) y = put s'.rowcache (thisrow s' row + col) y := by rw [e1, a3.rowcache]
    have eB : put t'.image (w.out + w.c) (linear lin y) = put s'.image (v.out + v.c) (linear lin y) := by rw [a3.image, h2, h3, h4]
    refine ⟨_, _, rfl, rfl, ?_, by dsimp only; omega, by dsimp only; omega, h4, h5, rfl, hx'.trans h7⟩
    dsimp only
    rw [eA, eB]
    exact a3.stored _ _

theorem step6_both {T : Table} {s0 t0 : Ljp} {E E' : Nat} {P : Nat → Prop} {ds : List Int} {m : Nat} {v w : P6} (h : Rel6 T s0 t0 E E' P ds m v w)
    (wl : Nat) : Rel6 T s0 t0 E E' P ds m (step6 wl v) (step6 wl w) := by
  obtain ⟨h1, h2, h3, h4, h5, h6, h7⟩ := h
  unfold step6
  rw [h5]
  split
  · exact ⟨h1, h2, h3, by dsimp only; rw [h4, h1.skiplen], rfl, h6, h7⟩
  · exact ⟨h1, h2, h3, h4, rfl, h6, h7⟩

theorem inside_ix {T : Table} {c vals : Nat → Nat} {n : Nat} {P : Nat → Prop} {tab : Tab} {s0 t0 : Ljp} {E E' : Nat}
    (hs : Setup T c vals n P tab s0 t0) {ds : List Int} {m : Nat} {v w : P6} (h : Rel6 T s0 t0 E E' P ds m v w)
    (hE : E < s0.datalen) (hm : m + 31 ≤ ds.length) : ¬ v.s.ix ≥ v.s.datalen := by
  have hl := codeOf_length hs.tabs _ h.1.classes
  rw [List.length_drop] at hl
  have := h.1.fast.ix_le (by have := h.1.cnt; dsimp only; omega)
  dsimp only at this
  rw [h.1.dl]; omega

theorem inside_ix' {T : Table} {P : Nat → Prop} {s0 t0 : Ljp} {E E' : Nat}
    {ds : List Int} {m : Nat} {v w : P6} (h : Rel6 T s0 t0 E E' P ds m v w) (hE : E' < t0.datalen) : ¬ w.s.ix ≥ w.s.datalen := by
  have := h.1.slow.ix_le
  dsimp only at this
  rw [h.1.dl']; omega

theorem rows6_both (ub : Int) {T : Table} {c vals : Nat → Nat} {n : Nat} {P : Nat → Prop} {tab : Tab} {s0 t0 : Ljp} {E E' : Nat}
    (hs : Setup T c vals n P tab s0 t0) {ds : List Int} (lin : Option Lin) (wl X Y : Nat) (hX : s0.x = X) (hX32 : 32 ≤ X) (hlen : ds.length = Y * X)
    (hE : E < s0.datalen) (hE' : E' < t0.datalen) : ∀ (k row fuel : Nat) (v w : P6), row + k = Y → k < fuel → Rel6 T s0 t0 E E' P ds (row * X) v w →
    Both (Rel6 T s0 t0 E E' P ds (Y * X)) (Lj92.rows6 ub lin wl (Y * X) fuel row v) (rows6 ub (some tab) lin wl (Y * X) fuel row w) := by
  intro k
  induction k with
  | zero =>
    intro row fuel v w hr hf h
    obtain ⟨fuel, rfl⟩ : ∃ m, fuel = m + 1 := ⟨fuel - 1, by omega⟩
    rw [Nat.add_zero] at hr
    subst hr
    have h2 := h.2.1
    have h3 := h.2.2.1
    rw [Lj92.rows6, rows6, if_neg (by omega), if_neg (by omega)]
    exact .inr ⟨_, _, rfl, rfl, h⟩
  | succ k ih =>
    intro row fuel v w hr hf h
    obtain ⟨fuel, rfl⟩ : ∃ m, fuel = m + 1 := ⟨fuel - 1, by omega⟩
    have hrow : row * X + X ≤ Y * X := by
      have := Nat.mul_le_mul_right X (show row + 1 ≤ Y by omega)
      rw [Nat.add_mul, Nat.one_mul] at this; exact this
    have h2 := h.2.1
    have h3 := h.2.2.1
    rw [Lj92.rows6, rows6, if_pos (by omega), if_pos (by omega)]
    have ep : ((v.s.rowcache (lastrow v.s row) : Nat) : Int) = (w.s.rowcache (lastrow w.s row) : Nat) := by
      have : lastrow w.s row = lastrow v.s row := by unfold lastrow; rw [h.1.x]
      rw [this, h.1.rowcache]
    have hb := put6_both ub hs (by omega) h lin true row 0 ep
    rcases hb with ⟨e1, e2⟩ | ⟨v1, w1, e1, e2, h'⟩
    · rw [e1, e2]; exact .inl ⟨rfl, rfl⟩
    · rw [e1, e2]
      dsimp only
      rw [if_neg (inside_ix hs h' hE (by omega)), if_neg (inside_ix' h' hE')]
      have hx1 : v1.s.x = X := h'.2.2.2.2.2.2.trans hX
      have hx2 : w1.s.x = X := h'.1.x.trans hx1
      have hloop := both_forN (f := fun k v =>
          (Lj92.put6 ub lin true row (k + 1) ((v.s.rowcache (lastrow v.s row + (k + 1)) : Int) + ((v.left : Int) - (v.s.rowcache (lastrow v.s row + k) : Int)) / 2) v).map (step6 wl))
        (g := fun k v =>
          (put6 ub (some tab) lin true row (k + 1) ((v.s.rowcache (lastrow v.s row + (k + 1)) : Int) + ((v.left : Int) - (v.s.rowcache (lastrow v.s row + k) : Int)) / 2) v).map (step6 wl))
        (R := fun j v w => Rel6 T s0 t0 E E' P ds (row * X + 1 + j) v w) (X - 1) (by
          intro j v w hj hv
          refine both_map (put6_both ub hs (by omega) hv lin true row (j + 1) ?_) (fun _ _ hxy => step6_both hxy wl)
          have : lastrow w.s row = lastrow v.s row := by unfold lastrow; rw [hv.1.x]
          rw [this, hv.1.rowcache, hv.2.2.2.2.2.1]) (step6 wl v1) (step6 wl w1) (step6_both h' wl)
      rw [hx1, hx2]
      rcases hloop with ⟨f1, f2⟩ | ⟨v2, w2, f1, f2, hv2⟩
      · rw [f1, f2]; exact .inl ⟨rfl, rfl⟩
      · rw [f1, f2]
        dsimp only
        rw [if_neg (inside_ix' hv2 hE')]
        have hn : row * X + 1 + (X - 1) = (row + 1) * X := by rw [Nat.add_mul, Nat.one_mul]; omega
        rw [hn] at hv2
        by_cases hk : k = 0
        · have hY : row + 1 = Y := by omega
          have hr := ih (row + 1) fuel v2 w2 (by omega) (by omega) hv2
          split
          · -- the fast build leaves the loop
            right
            subst hk
            obtain ⟨fuel, rfl⟩ : ∃ m, fuel = m + 1 := ⟨fuel - 1, by omega⟩
            refine ⟨_, w2, rfl, ?_, by rw [← hY]; exact hv2⟩
            have := hv2.2.2.1
            rw [hY] at this
            rw [rows6, if_neg (by omega)]
          · exact hr
        · have hm : (row + 1) * X + X ≤ Y * X := by
            have := Nat.mul_le_mul_right X (show row + 1 + 1 ≤ Y by omega)
            rw [Nat.add_mul (row + 1), Nat.one_mul] at this; exact this
          rw [if_neg (inside_ix hs hv2 hE (by omega))]
          exact ih (row + 1) fuel v2 w2 (by omega) (by omega) hv2

/-- The fast path of the two builds, from the start of the scan. -/
theorem pred6_both (ub : Int) {T : Table} {c vals : Nat → Nat} {n : Nat} {P : Nat → Prop} {tab : Tab} {s t s0 t0 : Ljp} {E E' : Nat}
    (e0 : s0 = { s with ix := s.scanstart + beh s.data s.scanstart, cnt := 0, b := 0 })
    (f0 : t0 = { t with ix := t.scanstart + beh t.data t.scanstart, cnt := 0, b := 0 })
    (hs : Setup T c vals n P tab s0 t0) {ds : List Int} (h : Rel T s0 t0 E E' P ds s0 t0) (lin : Option Lin) (wl : Nat)
    (hX32 : 32 ≤ s.x) (hY : 2 ≤ s.y) (hlen : ds.length = s.y * s.x) (hE : E < s0.datalen) (hE' : E' < t0.datalen) :
    Both (fun a b => b.image = a.image) (Lj92.parsePred6 ub lin wl s) (parsePred6 ub (some tab) lin wl t) := by
  have hx0 : s0.x = s.x := by rw [e0]
  have hy0 : s0.y = s.y := by rw [e0]
  have hbits : t0.bits = s0.bits := h.bits
  have hlen2 : 2 * s.x ≤ s.y * s.x := Nat.mul_le_mul_right _ hY
  unfold Lj92.parsePred6 parsePred6
  dsimp only
  have ebits : s.bits = s0.bits := by rw [e0]
  have fbits : t.bits = t0.bits := by rw [f0]
  have hx1 : t.x = s.x := by rw [show t.x = t0.x by rw [f0], h.x, hx0]
  have hy1 : t.y = s.y := by rw [show t.y = t0.y by rw [f0], h.y, hy0]
  have hb1 : t.bits = s.bits := by rw [fbits, hbits, ← ebits]
  rw [hx1, hy1, hb1]
  have r0 : Rel6 T s0 t0 E E' P ds 0 ⟨s0, 0, 0, wl, 0⟩ ⟨t0, 0, 0, wl, 0⟩ := ⟨by simpa using h, rfl, rfl, rfl, rfl, rfl, rfl⟩
  have hput := put6_both ub hs (by omega) r0 lin false 0 0 (p := 2 ^ (s.bits - 1)) rfl
  rcases hput with ⟨g1, g2⟩ | ⟨v1, w1, g1, g2, r1⟩
  · rw [e0] at g1
    rw [f0, hx1, hy1, hb1] at g2
    rw [g1, g2]; exact .inl ⟨rfl, rfl⟩
  · rw [e0] at g1
    rw [f0, hx1, hy1, hb1] at g2
    rw [g1, g2, Option.bind_some, Option.bind_some]
    unfold inside
    rw [if_neg (inside_ix hs r1 hE (by omega)), if_neg (inside_ix' r1 hE')]
    dsimp only
    have hloop := both_forN (f := fun k v => ((Lj92.put6 ub lin false 0 (k + 1) v.left v).bind inside).map (step6 wl))
      (g := fun k v => ((put6 ub (some tab) lin false 0 (k + 1) v.left v).bind inside).map (step6 wl))
      (R := fun j v w => Rel6 T s0 t0 E E' P ds (1 + j) v w) (s.x - 1) (by
        intro j v w hj hv
        refine both_map (R := Rel6 T s0 t0 E E' P ds (1 + j + 1)) ?_ (fun _ _ hxy => step6_both hxy wl)
        refine both_bind (put6_both ub hs (by omega) hv lin false 0 (j + 1) (by rw [hv.2.2.2.2.2.1])) ?_
        intro x y hxy
        unfold inside
        rw [if_neg (inside_ix hs hxy hE (by omega)), if_neg (inside_ix' hxy hE')]
        exact .inr ⟨_, _, rfl, rfl, hxy⟩) { v1 with write := v1.write - 1 } { w1 with write := w1.write - 1 } (by
        obtain ⟨a1, a2, a3, a4, a5, a6, a7⟩ := r1
        exact ⟨a1, a2, a3, a4, by dsimp only; rw [a5], a6, a7⟩)
    unfold inside at hloop
    rcases hloop with ⟨f1, f2⟩ | ⟨v2, w2, f1, f2, r2⟩
    · rw [f1, f2]; exact .inl ⟨rfl, rfl⟩
    · rw [f1, f2]
      dsimp only
      have hrows := rows6_both ub hs lin wl s.x s.y hx0 hX32 hlen hE hE' (s.y - 1) 1 (s.y + 1) v2 w2 (by omega) (by omega)
        (by rw [Nat.one_mul, show s.x = 1 + (s.x - 1) by omega]; exact r2)
      rcases hrows with ⟨k1, k2⟩ | ⟨v3, w3, k1, k2, r3⟩
      · rw [k1, k2]; exact .inl ⟨rfl, rfl⟩
      · rw [k1, k2]
        dsimp only
        rw [if_pos (by have := r3.2.1; omega), if_pos (by have := r3.2.2.1; omega)]
        exact .inr ⟨_, _, rfl, rfl, r3.1.image⟩

end Model.Lj92.Slow
