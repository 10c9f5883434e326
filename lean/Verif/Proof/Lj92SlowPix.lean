/- Helper lemmas about the lj92 decoder compiled with SLOW_HUFF: the samples it makes from any data with predictor 1. -/
import Verif.Proof.Lj92SlowAny
import Verif.Proof.Lj92Comps
import Verif.Spec.Rebuild

set_option autoImplicit false

namespace Model.Lj92.Slow
open Spec Model.Lj92

theorem rebuild_snoc (bd C W : Nat) (l : List Int) (x : Int) : rebuild bd C W (l ++ [x]) =
    rebuild bd C W l ++ [((predPC 1 bd C W (rebuild bd C W l) (rebuild bd C W l).length + x) % 65536).toNat] := by
  unfold rebuild
  rw [List.foldl_append]
  rfl

theorem rebuild_length (bd C W : Nat) (l : List Int) : (rebuild bd C W l).length = l.length := by
  have : ∀ (l : List Int) (acc : List Nat),
      (l.foldl (fun acc x => acc ++ [((predPC 1 bd C W acc acc.length + x) % 65536).toNat]) acc).length = acc.length + l.length := by
    intro l
    induction l with
    | nil => intro acc; rfl
    | cons x l ih => intro acc; rw [List.foldl_cons, ih, List.length_append]; simp only [List.length_cons, List.length_nil]; omega
  rw [rebuild, this]; simp

theorem getD_snoc {l : List Nat} {x k : Nat} : (l ++ [x]).getD k 0 = if k = l.length then x else l.getD k 0 := by
  rw [List.getD_eq_getElem?_getD, List.getD_eq_getElem?_getD]
  split
  · rename_i h; subst h; simp
  · rename_i h
    rcases Nat.lt_or_ge k l.length with h1 | h1
    · rw [List.getElem?_append_left h1]
    · rw [List.getElem?_eq_none (by simp; omega), List.getElem?_eq_none h1]

theorem tmod_emod (a : Int) : (a.tmod 65536) % 65536 = a % 65536 := by
  have := Int.mul_tdiv_add_tmod a 65536
  omega

/-- State before sample `j` of row `row`. -/
structure PixInv (c vals : Nat → Nat) (n : Nat) (lin : Option Lin) (x : Ljp) (ix row j : Nat) (v : Ljp × Int) : Prop where
  data : v.1.data = x.data
  dims : v.1.components = x.components ∧ v.1.x = x.x ∧ v.1.y = x.y ∧ v.1.skiplen = x.skiplen ∧ v.1.bits = x.bits
  at' : ∃ l m, l.length = row * (x.components * x.x) + j ∧ Differences (huffCodes 0 0 (huffSizes c 16)) vals n x.data ix 0 l m ∧
    Stands x.data ix m (v.1.b, v.1.cnt, v.1.ix) ∧
    (∀ i, i < l.length → v.1.image (strided (x.components * x.x) x.skiplen i) =
      linear lin ((rebuild x.bits x.components (x.components * x.x) l).getD i 0)) ∧
    (∀ k, k < j → v.1.rowcache (thisrow x row + k) =
      (rebuild x.bits x.components (x.components * x.x) l).getD (row * (x.components * x.x) + k) 0) ∧
    (0 < row → ∀ k, j ≤ k → k < x.components → v.1.rowcache (lastrow x row + k) =
      (rebuild x.bits x.components (x.components * x.x) l).getD ((row - 1) * (x.components * x.x) + k) 0)

theorem px_rebuild {s x : Ljp} {acc : List Nat} {row col c : Nat} (hwide : x.components ≤ x.x)
    (hdims : s.components = x.components ∧ s.x = x.x ∧ s.y = x.y ∧ s.skiplen = x.skiplen ∧ s.bits = x.bits)
    (hthis : ∀ k, k < col * x.components + c → s.rowcache (thisrow x row + k) = acc.getD (row * (x.components * x.x) + k) 0)
    (hlast : 0 < row → ∀ k, col * x.components + c ≤ k → k < x.components → s.rowcache (lastrow x row + k) =
      acc.getD ((row - 1) * (x.components * x.x) + k) 0)
    (hj : col * x.components + c < x.components * x.x) (hc : c < x.components) (left : Int) :
    px s 1 left row col c = predPC 1 x.bits x.components (x.components * x.x) acc (row * (x.components * x.x) + (col * x.components + c)) := by
  obtain ⟨d1, d2, _, _, d5⟩ := hdims
  have ht : thisrow s row = thisrow x row := by unfold thisrow; rw [d2]
  have hl : lastrow s row = lastrow x row := by unfold lastrow; rw [d2]
  unfold px
  dsimp only
  rw [d1, d5, ht, hl]
  generalize x.components = C at *
  generalize x.x = X at *
  have hmod : (row * (C * X) + (col * C + c)) % (C * X) = col * C + c := by
    rw [Nat.add_comm, Nat.add_mul_mod_self_right, Nat.mod_eq_of_lt hj]
  unfold predPC
  rw [hmod]
  by_cases hcol : col = 0
  · subst hcol
    simp only [Nat.zero_mul, Nat.zero_add] at *
    by_cases hrow : row = 0
    · subst hrow
      simp [hc]
    · have h1 := Nat.mul_le_mul_right (C * X) (show 1 ≤ row by omega)
      have h3 : (row - 1) * (C * X) = row * (C * X) - C * X := by rw [Nat.sub_mul, Nat.one_mul]
      have e := hlast (by omega) c (Nat.le_refl _) hc
      have hCX : C ≤ C * X := Nat.le_mul_of_pos_right C (by omega)
      rw [h3, show row * (C * X) - C * X + c = row * (C * X) + c - C * X by omega] at e
      rw [if_neg (by simp [hrow]), if_neg hrow, if_pos trivial, if_neg (by omega), if_neg (by omega), if_pos hc, e]
  · have hcC : C ≤ col * C := Nat.le_mul_of_pos_left C (by omega)
    have h4 : (col - 1) * C = col * C - C := by rw [Nat.sub_mul, Nat.one_mul]
    have e := hthis ((col - 1) * C + c) (by omega)
    rw [h4, show row * (C * X) + (col * C - C + c) = row * (C * X) + (col * C + c) - C by omega] at e
    rw [h4, if_neg (fun h => hcol h.1), if_neg (show ¬ row * (C * X) + (col * C + c) < C by omega), e, if_neg hcol]
    by_cases hrow : row = 0
    · subst hrow
      rw [if_pos rfl, if_pos (by omega)]
    · have h1 := Nat.mul_le_mul_right (C * X) (show 1 ≤ row by omega)
      rw [if_neg hrow, if_neg (by omega), if_neg (by omega)]
      rfl

theorem pix_step {t : Tab} {c vals : Nat → Nat} {n : Nat} (ht : TabOk t c vals n) {x : Ljp} (hd : ∀ k, x.data k < 256) (hwide : x.components ≤ x.x)
    {ub : Int} {lin : Option Lin} {ix row col k : Nat} {v v' : Ljp × Int} (hcol : col < x.x) (hk : k < x.components)
    (h : PixInv c vals n lin x ix row (col * x.components + k) v) (e : body ub (some t) lin 1 row col k v = some v') :
    PixInv c vals n lin x ix row (col * x.components + (k + 1)) v' := by
  obtain ⟨s, left⟩ := v
  obtain ⟨hdata, hdims, l, m, hl, hD, hst, himage, hthis, hlast⟩ := h
  dsimp only at hdata hdims hst himage hthis hlast
  have hj : col * x.components + k < x.components * x.x := by
    have := Nat.mul_le_mul_right x.components hcol
    rw [Nat.succ_mul] at this
    rw [Nat.mul_comm x.components]; omega
  have hpx := px_rebuild hwide hdims hthis hlast hj hk left
  have key := nextdiff_any ht (s := s) (by rw [hdata]; exact hd) (ix0 := ix) (m := m) (by rw [hdata]; exact hst) ub
  unfold body at e
  dsimp only at e
  cases hn : nextdiff ub (some t) s with
  | none => rw [hn] at e; simp at e
  | some r =>
    obtain ⟨s', diff⟩ := r
    rw [hn] at key e
    obtain ⟨m', h1, h2, h3⟩ := key
    have e' : s'.data = x.data := by rw [h3]; exact hdata
    rw [hdata] at h1
    rw [e'] at h2
    dsimp only at e
    rw [tmod_emod, hpx] at e
    split at e
    · simp at e
    simp only [Option.some.injEq] at e
    obtain ⟨d1, d2, d3, d4, d5⟩ := hdims
    have c1 : s'.components = x.components := by rw [h3]; exact d1
    have c2 : s'.x = x.x := by rw [h3]; exact d2
    have c3 : s'.y = x.y := by rw [h3]; exact d3
    have c4 : s'.skiplen = x.skiplen := by rw [h3]; exact d4
    have c5 : s'.bits = x.bits := by rw [h3]; exact d5
    have c6 : s'.image = s.image := by rw [h3]
    have c7 : s'.rowcache = s.rowcache := by rw [h3]
    have ht' : thisrow s' row = thisrow x row := by unfold thisrow; rw [c2]
    have hsn := rebuild_snoc x.bits x.components (x.components * x.x) l diff
    have hlen := rebuild_length x.bits x.components (x.components * x.x) l
    rw [hlen, hl] at hsn
    generalize hval : ((predPC 1 x.bits x.components (x.components * x.x) (rebuild x.bits x.components (x.components * x.x) l)
      (row * (x.components * x.x) + (col * x.components + k)) + diff) % 65536).toNat = val at hsn e
    rw [c1, c2, c4, ht', ← strided_row (by rw [Nat.mul_comm x.x]; exact hj), Nat.mul_comm x.x x.components] at e
    have hget : ∀ i, (rebuild x.bits x.components (x.components * x.x) (l ++ [diff])).getD i 0 =
        if i = row * (x.components * x.x) + (col * x.components + k) then val else (rebuild x.bits x.components (x.components * x.x) l).getD i 0 := by
      intro i; rw [hsn, getD_snoc, hlen, hl]
    rw [← e]
    refine ⟨e', ⟨rfl, rfl, c3, rfl, c5⟩, l ++ [diff], m', ?_, diffs_snoc.2 ⟨m, hD, h1⟩, h2, ?_, ?_, ?_⟩
    · rw [List.length_append, hl]; simp only [List.length_cons, List.length_nil]; omega
    · intro i hi
      rw [List.length_append, hl] at hi
      simp only [List.length_cons, List.length_nil] at hi
      rw [hget]
      dsimp only [put]
      by_cases ei : i = row * (x.components * x.x) + (col * x.components + k)
      · subst ei; rw [if_pos rfl, if_pos rfl]
      · have := strided_lt (x.components * x.x) x.skiplen (show i < row * (x.components * x.x) + (col * x.components + k) by omega)
        rw [if_neg (by omega), if_neg ei, c6]
        exact himage i (by omega)
    · intro i hi
      rw [hget]
      dsimp only [put]
      by_cases ei : i = col * x.components + k
      · subst ei; rw [if_pos rfl, if_pos rfl]
      · rw [if_neg (by omega), if_neg (by omega), c7]
        exact hthis i (by omega)
    · intro h0 i hi hiC
      rw [hget]
      have hne' : lastrow x row + i ≠ thisrow x row + (col * x.components + k) := by
        unfold lastrow thisrow
        split <;> omega
      have hrow : (row - 1) * (x.components * x.x) = row * (x.components * x.x) - x.components * x.x := by rw [Nat.sub_mul, Nat.one_mul]
      have h1 := Nat.mul_le_mul_right (x.components * x.x) (show 1 ≤ row by omega)
      have hCX : x.components ≤ x.components * x.x := Nat.le_mul_of_pos_right _ (by omega)
      dsimp only [put]
      rw [if_neg hne', if_neg (by omega), c7]
      exact hlast h0 i (by omega) hiC

theorem pix_row {c vals : Nat → Nat} {n : Nat} {lin : Option Lin} {x : Ljp} {ix row : Nat} {v : Ljp × Int} (hX : 0 < x.x)
    (h : PixInv c vals n lin x ix row (x.components * x.x) v) : PixInv c vals n lin x ix (row + 1) 0 v := by
  obtain ⟨hdata, hdims, l, m, hl, hD, hst, himage, hthis, hlast⟩ := h
  refine ⟨hdata, hdims, l, m, by rw [hl, Nat.add_mul]; omega, hD, hst, himage, fun k hk => by omega, ?_⟩
  intro _ k _ hk
  have := hthis k (Nat.lt_of_lt_of_le hk (Nat.le_mul_of_pos_right x.components hX))
  rw [Nat.add_sub_cancel, ← this]
  congr 2
  unfold lastrow thisrow
  by_cases hp : row % 2 = 0
  · rw [if_neg (by omega), if_pos hp]
  · rw [if_pos (by omega), if_neg hp]

theorem forN_track {σ : Type} {f : Nat → σ → Option σ} {P : Nat → σ → Prop} : ∀ (q : Nat) (v v' : σ), (∀ i w w', i < q → P i w → f i w = some w' → P (i + 1) w') →
    P 0 v → forN f q v = some v' → P q v'
  | 0, v, v', _, h, e => by
    rw [forN, Option.some.injEq] at e
    rw [← e]; exact h
  | q + 1, v, v', hf, h, e => by
    rw [forN] at e
    obtain ⟨w, e1, e2⟩ := Option.bind_eq_some_iff.1 e
    exact hf q w v' (Nat.lt_succ_self q) (forN_track q v w (fun i w w' hi => hf i w w' (Nat.lt_succ_of_lt hi)) h e1) e2

theorem pix_loops {t : Tab} {c vals : Nat → Nat} {n : Nat} (ht : TabOk t c vals n) {x : Ljp} (hd : ∀ k, x.data k < 256) (hwide : x.components ≤ x.x)
    (hX : 0 < x.x) {ub : Int} {lin : Option Lin} {ix : Nat} {v v' : Ljp × Int} (h : PixInv c vals n lin x ix 0 0 v)
    (e : forN (fun row => forN (fun col => forN (fun k => body ub (some t) lin 1 row col k) x.components) x.x) x.y v = some v') :
    PixInv c vals n lin x ix x.y 0 v' := by
  refine forN_track (P := fun row v => PixInv c vals n lin x ix row 0 v) x.y v v' ?_ h e
  intro row w w' _ hw e
  refine pix_row hX ?_
  rw [Nat.mul_comm]
  refine forN_track (P := fun col v => PixInv c vals n lin x ix row (col * x.components) v) x.x w w' ?_ (by simpa using hw) e
  intro col w w' hcol hw e
  rw [Nat.add_mul, Nat.one_mul]
  refine forN_track (P := fun k v => PixInv c vals n lin x ix row (col * x.components + k) v) x.components w w' ?_ hw e
  intro k w w' hk hw e
  exact pix_step ht hd hwide hcol hk hw e

end Model.Lj92.Slow
