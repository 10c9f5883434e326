/- Helper lemmas about the model of the lj92 decoder: the scan of one component with any predictor. -/
import Verif.Proof.Lj92Pred6

set_option autoImplicit false

namespace Model.Lj92
open Spec

/-- The code from sample `n` on. -/
def codePFrom (p : Nat) (T : Table) (bd W : Nat) (l : List Nat) (n : Nat) : List Bool :=
  (List.range' n (l.length - n)).flatMap fun i => diffBits T (diffP p bd W l i)

theorem codePFrom_zero (p : Nat) (T : Table) (bd W : Nat) (l : List Nat) : codePFrom p T bd W l 0 = encodeP p T bd W l := by
  simp [codePFrom, encodeP, List.range_eq_range']

theorem codePFrom_step (p : Nat) (T : Table) (bd W : Nat) (l : List Nat) {n : Nat} (h : n < l.length) :
    codePFrom p T bd W l n = diffBits T (diffP p bd W l n) ++ codePFrom p T bd W l (n + 1) := by
  unfold codePFrom
  rw [show l.length - n = (l.length - (n + 1)) + 1 by omega, List.range'_succ, List.flatMap_cons]

/-- What the scan needs. -/
structure ReadyP (s : Ljp) (p : Nat) (T : Table) (bd W : Nat) (acc : List Nat) (lin : Option Lin) : Prop where
  bytes : ∀ k, s.data k < 256
  x : s.x = W
  comps : s.components = 1
  bits : s.bits = bd
  hb : s.huffbits ≤ 16
  lut : ∀ n, n < acc.length → LutOk s.hufflut s.huffbits (T (cls (diffP p bd W acc n))) (cls (diffP p bd W acc n))
  cls15 : ∀ n, n < acc.length → cls (diffP p bd W acc n) ≤ 15
  lt : ∀ n, acc.getD n 0 < 65536
  lin : ∀ n, n < acc.length → beyond lin (acc.getD n 0) = false

/-- State after `j` samples of row `row`. -/
structure InvP (s0 : Ljp) (p : Nat) (T : Table) (bd W : Nat) (acc : List Nat) (lin : Option Lin) (row j : Nat) (v : Ljp × Int) : Prop where
  fixed : Fixed s0 v.1
  rep : Rep s0.data (v.1.b, v.1.cnt, v.1.ix) (codePFrom p T bd W acc (row * W + j))
  cnt : v.1.cnt ≤ 31
  left : 0 < j → v.2 = (acc.getD (row * W + j - 1) 0 : Nat)
  image : ∀ m, m < row * W + j → v.1.image (strided W s0.skiplen m) = linear lin (acc.getD m 0)
  gaps : ∀ k, (∀ m, m < row * W + j → k ≠ strided W s0.skiplen m) → v.1.image k = s0.image k
  this : ∀ k, k < j → v.1.rowcache (thisrow s0 row + k) = acc.getD (row * W + k) 0
  last : 0 < row → ∀ k, k < W → v.1.rowcache (lastrow s0 row + k) = acc.getD ((row - 1) * W + k) 0

theorem strided_lt (g skip : Nat) {m n : Nat} (h : m < n) : strided g skip m < strided g skip n := pos6_lt g skip h

theorem strided_row {W row j skip : Nat} (hj : j < W) : strided W skip (row * W + j) = row * (W + skip) + j := by
  unfold strided
  rw [Nat.mul_comm row W, Nat.mul_add_div (by omega), Nat.div_eq_of_lt hj, Nat.add_zero, Nat.mul_add, Nat.mul_comm row W]
  omega

/-- The prediction of the model is the one of T.81. -/
theorem px_predP {s0 : Ljp} {p : Nat} {T : Table} {bd W : Nat} {acc : List Nat} {lin : Option Lin} {row j : Nat} (hp : 1 ≤ p) (hp7 : p ≤ 7)
    (hr : ReadyP s0 p T bd W acc lin) {v : Ljp × Int} (h : InvP s0 p T bd W acc lin row j v) (hj : j < W) :
    px v.1 p v.2 row j 0 = predP p bd W acc (row * W + j) := by
  have ht : thisrow v.1 row = thisrow s0 row := by unfold thisrow; rw [h.fixed.x]
  have hl : lastrow v.1 row = lastrow s0 row := by unfold lastrow; rw [h.fixed.x]
  unfold px
  dsimp only
  rw [h.fixed.bits, h.fixed.components, hr.bits, hr.comps, ht, hl]
  simp only [Nat.mul_one, Nat.add_zero]
  unfold predP
  by_cases hrow : row = 0
  · subst hrow
    simp only [Nat.zero_mul, Nat.zero_add]
    by_cases hj0 : j = 0
    · simp [hj0]
    · rw [if_neg (by omega), if_pos trivial, if_neg hj0, if_pos hj, h.this (j - 1) (by omega)]
      simp
  · have h1 := Nat.mul_le_mul_right W (show 1 ≤ row by omega)
    have hmod : (row * W + j) % W = j := by rw [Nat.add_comm, Nat.add_mul_mod_self_right, Nat.mod_eq_of_lt hj]
    have h3 : (row - 1) * W = row * W - W := by rw [Nat.sub_mul, Nat.one_mul]
    rw [if_neg (fun h => hrow h.2), if_neg hrow]
    by_cases hj0 : j = 0
    · subst hj0
      have := h.last (by omega) 0 hj
      rw [Nat.add_zero, Nat.add_zero, h3] at this
      rw [if_pos rfl, if_neg (show ¬ row * W + 0 = 0 by omega), if_neg (show ¬ row * W + 0 < W by omega), if_pos hmod, this, Nat.add_zero]
    · have e1 := h.last (by omega) j hj
      have e2 := h.last (by omega) (j - 1) (by omega)
      have e3 := h.this (j - 1) (by omega)
      have e4 := h.left (by omega)
      rw [h3, show row * W - W + j = row * W + j - W by omega] at e1
      rw [h3, show row * W - W + (j - 1) = row * W + j - W - 1 by omega] at e2
      rw [show row * W + (j - 1) = row * W + j - 1 by omega] at e3
      rw [if_neg hj0, if_neg (show ¬ row * W + j = 0 by omega), if_neg (show ¬ row * W + j < W by omega), if_neg (by omega), e1, e2, e3, e4]
      obtain rfl | rfl | rfl | rfl | rfl | rfl | rfl : p = 1 ∨ p = 2 ∨ p = 3 ∨ p = 4 ∨ p = 5 ∨ p = 6 ∨ p = 7 := by omega
      all_goals rfl

theorem bodyP_step (ub : Int) {s0 : Ljp} {p : Nat} {T : Table} {bd W : Nat} {acc : List Nat} {lin : Option Lin} {row j : Nat} (hp : 1 ≤ p) (hp7 : p ≤ 7)
    (hr : ReadyP s0 p T bd W acc lin) {v : Ljp × Int} (h : InvP s0 p T bd W acc lin row j v) (hj : j < W) (hn : row * W + j < acc.length) :
    ∃ v', body ub lin p row j 0 v = some v' ∧ InvP s0 p T bd W acc lin row (j + 1) v' := by
  have hpx := px_predP hp hp7 hr h hj
  have haddr0 := strided_row (skip := s0.skiplen) (row := row) hj
  generalize hne : row * W + j = n at *
  have f0 := h.fixed
  have hrep := h.rep
  have hc15 := hr.cls15 n hn
  rw [hne, codePFrom_step p T bd W acc hn, diffBits, if_neg (by omega), List.append_assoc] at hrep
  obtain ⟨s1, n1, n2, n3, n4⟩ := nextdiff_rep ub (s := v.1) (w := T (cls (diffP p bd W acc n))) (t := cls (diffP p bd W acc n)) (e := extra (diffP p bd W acc n))
    (S := codePFrom p T bd W acc (n + 1)) (by rw [f0.data]; exact hr.bytes) (by rw [f0.huffbits]; exact hr.hb)
    (by rw [f0.hufflut, f0.huffbits]; exact hr.lut n hn) hc15 (extra_lt _) h.cnt (by rw [f0.data]; exact hrep)
  rw [extend_extra] at n1
  have f1 : Fixed s0 s1 := by
    rw [n4]; exact ⟨f0.data, f0.x, f0.y, f0.bits, f0.components, f0.skiplen, f0.hufflut, f0.huffbits⟩
  have him : s1.image = v.1.image := by rw [n4]
  have hrc : s1.rowcache = v.1.rowcache := by rw [n4]
  have ht : thisrow s1 row = thisrow s0 row := by unfold thisrow; rw [f1.x]
  have hlt := hr.lt n
  have hleft : ((px v.1 p v.2 row j 0 + diffP p bd W acc n).tmod 65536) % 65536 = (acc.getD n 0 : Nat) := by
    rw [hpx, diffP, show predP p bd W acc n + ((acc.getD n 0 : Int) - predP p bd W acc n) = (acc.getD n 0 : Nat) by omega,
      Int.tmod_eq_of_lt (by omega) (by omega)]
    omega
  have haddr : row * (s1.x * s1.components + s1.skiplen) + (j * s1.components + 0) = strided W s0.skiplen n := by
    rw [f1.x, f1.components, f1.skiplen, hr.comps, hr.x, haddr0]; simp
  have hcomp : j * s1.components + 0 = j := by rw [f1.components, hr.comps]; simp
  refine ⟨({ s1 with rowcache := put s1.rowcache (thisrow s0 row + j) (acc.getD n 0), image := put s1.image (strided W s0.skiplen n) (linear lin (acc.getD n 0)) },
           (acc.getD n 0 : Nat)), ?_, ?_⟩
  · obtain ⟨s, l⟩ := v
    unfold body
    dsimp only at n1 hleft ⊢
    rw [n1]
    dsimp only
    rw [hleft, haddr, ht, hcomp, Int.toNat_natCast, hr.lin n hn]
    rfl
  refine { fixed := ⟨f1.data, f1.x, f1.y, f1.bits, f1.components, f1.skiplen, f1.hufflut, f1.huffbits⟩, rep := ?_, cnt := n3,
           left := fun _ => by dsimp only; congr 2; omega, image := ?_, gaps := ?_, this := ?_, last := ?_ }
  · rw [f0.data] at n2
    rw [show row * W + (j + 1) = n + 1 by omega]
    exact n2
  · intro m hm
    dsimp only [put]
    by_cases e : m = n
    · subst e; rw [if_pos rfl]
    · have := strided_lt W s0.skiplen (show m < n by omega)
      rw [if_neg (by omega), him]
      exact h.image m (by omega)
  · intro k hk
    dsimp only [put]
    rw [if_neg (hk n (by omega)), him]
    exact h.gaps k (fun m hm => hk m (by omega))
  · intro k hk
    dsimp only [put]
    by_cases e : k = j
    · subst e; rw [if_pos rfl, hne]
    · rw [if_neg (by omega), hrc]
      exact h.this k (by omega)
  · intro h0 k hk
    dsimp only [put]
    have hne' : lastrow s0 row + k ≠ thisrow s0 row + j := by
      unfold lastrow thisrow
      rw [hr.x]
      split <;> omega
    rw [if_neg hne', hrc]
    exact h.last h0 k hk

theorem rowP_done {s0 : Ljp} {p : Nat} {T : Table} {bd W : Nat} {acc : List Nat} {lin : Option Lin} {row : Nat} {v : Ljp × Int}
    (h : InvP s0 p T bd W acc lin row W v) : InvP s0 p T bd W acc lin (row + 1) 0 v := by
  have e : (row + 1) * W + 0 = row * W + W := by rw [Nat.add_mul]; omega
  refine { fixed := h.fixed, rep := by rw [e]; exact h.rep, cnt := h.cnt, left := fun h => by omega,
           image := by rw [e]; exact h.image, gaps := by rw [e]; exact h.gaps, this := fun k hk => by omega, last := ?_ }
  intro _ k hk
  have := h.this k hk
  rw [Nat.add_sub_cancel, ← this]
  congr 2
  unfold lastrow thisrow
  by_cases hp : row % 2 = 0
  · rw [if_neg (by omega), if_pos hp]
  · rw [if_pos (by omega), if_neg hp]

/-- The scan loops decode the whole image. -/
theorem scanP_run (ub : Int) {s0 : Ljp} {p : Nat} {T : Table} {bd W : Nat} {acc : List Nat} {lin : Option Lin} (hp : 1 ≤ p) (hp7 : p ≤ 7)
    (hr : ReadyP s0 p T bd W acc lin) (hlen : acc.length = W * s0.y)
    (hrep : Rep s0.data (s0.b, s0.cnt, s0.ix) (encodeP p T bd W acc)) (hc : s0.cnt ≤ 31) :
    ∃ v, forN (fun row => forN (fun col => forN (fun c => body ub lin p row col c) s0.components) s0.x) s0.y (s0, 0) = some v ∧
      InvP s0 p T bd W acc lin s0.y 0 v := by
  apply forN_inv (σ := Ljp × Int) (P := fun row v => InvP s0 p T bd W acc lin row 0 v)
  · intro row v hrow hv
    have h1 : ∃ v', forN (fun col => forN (fun c => body ub lin p row col c) s0.components) s0.x v = some v' ∧
        InvP s0 p T bd W acc lin row s0.x v' := by
      apply forN_inv (σ := Ljp × Int) (P := fun col v => InvP s0 p T bd W acc lin row col v)
      · intro col v hcol hv
        rw [hr.x] at hcol
        have hn : row * W + col < acc.length := by
          rw [hlen, Nat.mul_comm W]
          have : (row + 1) * W ≤ s0.y * W := Nat.mul_le_mul_right W hrow
          rw [Nat.add_mul] at this
          omega
        obtain ⟨v', a, b⟩ := bodyP_step ub hp hp7 hr hv hcol hn
        refine ⟨v', ?_, b⟩
        rw [hr.comps]
        show (some v).bind (body ub lin p row col 0) = some v'
        exact a
      · exact hv
    obtain ⟨v', a, b⟩ := h1
    rw [hr.x] at b
    exact ⟨v', a, rowP_done b⟩
  · exact { fixed := ⟨rfl, rfl, rfl, rfl, rfl, rfl, rfl, rfl⟩, rep := by simpa [codePFrom_zero] using hrep, cnt := hc, left := fun h => by omega,
            image := fun m hm => by omega, gaps := fun k _ => rfl, this := fun k hk => by omega, last := fun h => by omega }

/-- `parseScan` decodes the whole image. -/
theorem parseScan_run (ub : Int) {s : Ljp} {p : Nat} {T : Table} {bd W : Nat} {acc : List Nat} {lin : Option Lin} (hp : 1 ≤ p) (hp7 : p ≤ 7) (hp6 : p ≠ 6)
    (hr : ReadyP s p T bd W acc lin) (hlen : acc.length = W * s.y) (hpred : s.data (s.scanstart + 3 + 2 * s.data (s.scanstart + 2)) = p)
    (hrep : Rep s.data (0, 0, s.scanstart + beh s.data s.scanstart) (encodeP p T bd W acc)) :
    ∃ s', parseScan ub lin s = some s' ∧
      (∀ m, m < acc.length → s'.image (strided W s.skiplen m) = linear lin (acc.getD m 0)) ∧
      (∀ k, (∀ m, m < acc.length → k ≠ strided W s.skiplen m) → s'.image k = s.image k) := by
  let s0 : Ljp := { s with ix := s.scanstart + beh s.data s.scanstart, cnt := 0, b := 0 }
  have hr0 : ReadyP s0 p T bd W acc lin := ⟨hr.bytes, hr.x, hr.comps, hr.bits, hr.hb, hr.lut, hr.cls15, hr.lt, hr.lin⟩
  obtain ⟨v, a1, a2⟩ := scanP_run ub (s0 := s0) hp hp7 hr0 hlen hrep (by show 0 ≤ 31; omega)
  have hn : s0.y * W + 0 = acc.length := by rw [hlen, Nat.mul_comm]; rfl
  refine ⟨v.1, ?_, fun m hm => a2.image m (by omega), fun k hk => a2.gaps k (fun m hm => hk m (by omega))⟩
  unfold parseScan
  dsimp only
  rw [hpred, if_neg (by omega)]
  have a1' : forN (fun row => forN (fun col => forN (fun c => body ub lin p row col c) s.components) s.x) s.y
    ({ s with ix := s.scanstart + beh s.data s.scanstart, cnt := 0, b := 0 }, 0) = some v := a1
  rw [a1']
  rfl

end Model.Lj92
