/- Helper lemmas about the model of the lj92 decoder: the scan of any number of components with predictor 1. -/
import Verif.Proof.Lj92Segs

set_option autoImplicit false

namespace Model.Lj92.Seg
open Spec Model.Lj92

/-- The difference of sample `i` to its prediction from the left neighbour in its component. -/
def diffC (bd C W : Nat) (l : List Nat) (i : Nat) : Int := (l.getD i 0 : Int) - predPC 1 bd C W l i

/-- The code from sample `n` on. -/
def codeCFrom (T : Table) (bd C W : Nat) (l : List Nat) (n : Nat) : List Bool :=
  (List.range' n (l.length - n)).flatMap fun i => diffBits T (diffC bd C W l i)

theorem codeCFrom_zero (T : Table) (bd C W : Nat) (l : List Nat) : codeCFrom T bd C W l 0 = encodePC 1 T bd C W l := by
  simp [codeCFrom, encodePC, diffC, List.range_eq_range']

theorem codeCFrom_step (T : Table) (bd C W : Nat) (l : List Nat) {n : Nat} (h : n < l.length) :
    codeCFrom T bd C W l n = diffBits T (diffC bd C W l n) ++ codeCFrom T bd C W l (n + 1) := by
  unfold codeCFrom
  rw [show l.length - n = (l.length - (n + 1)) + 1 by omega, List.range'_succ, List.flatMap_cons]

/-- What the scan needs: at least as many samples per line and component as components. -/
structure ReadyC (s : Ljp) (T : Table) (bd C X : Nat) (acc : List Nat) (lin : Option Lin) : Prop where
  bytes : ∀ k, s.data k < 256
  x : s.x = X
  comps : s.components = C
  wide : C ≤ X
  bits : s.bits = bd
  hb : s.huffbits ≤ 16
  lut : ∀ n, n < acc.length → LutOk s.hufflut s.huffbits (T (cls (diffC bd C (C * X) acc n))) (cls (diffC bd C (C * X) acc n))
  cls15 : ∀ n, n < acc.length → cls (diffC bd C (C * X) acc n) ≤ 15
  lt : ∀ n, acc.getD n 0 < 65536
  lin : ∀ n, n < acc.length → beyond lin (acc.getD n 0) = false

/-- State before sample `j` of row `row`. -/
structure InvC (s0 : Ljp) (T : Table) (bd C X : Nat) (acc : List Nat) (lin : Option Lin) (row j : Nat) (s : Ljp) : Prop where
  fixed : Fixed s0 s
  rep : Rep s0.data (s.b, s.cnt, s.ix) (codeCFrom T bd C (C * X) acc (row * (C * X) + j))
  cnt : s.cnt ≤ 31
  image : ∀ m, m < row * (C * X) + j → s.image (strided (C * X) s0.skiplen m) = linear lin (acc.getD m 0)
  gaps : ∀ k, (∀ m, m < row * (C * X) + j → k ≠ strided (C * X) s0.skiplen m) → s.image k = s0.image k
  this : ∀ k, k < j → s.rowcache (thisrow s0 row + k) = acc.getD (row * (C * X) + k) 0
  last : 0 < row → ∀ c, j ≤ c → c < C → s.rowcache (lastrow s0 row + c) = acc.getD ((row - 1) * (C * X) + c) 0

theorem px_predC {s0 s : Ljp} {T : Table} {bd C X : Nat} {acc : List Nat} {lin : Option Lin} {row col c : Nat}
    (hr : ReadyC s0 T bd C X acc lin) (h : InvC s0 T bd C X acc lin row (col * C + c) s) (hj : col * C + c < C * X) (hc : c < C) (left : Int) :
    px s 1 left row col c = predPC 1 bd C (C * X) acc (row * (C * X) + (col * C + c)) := by
  have ht : thisrow s row = thisrow s0 row := by unfold thisrow; rw [h.fixed.x]
  have hl : lastrow s row = lastrow s0 row := by unfold lastrow; rw [h.fixed.x]
  have hmod : (row * (C * X) + (col * C + c)) % (C * X) = col * C + c := by
    rw [Nat.add_comm, Nat.add_mul_mod_self_right, Nat.mod_eq_of_lt hj]
  unfold px
  dsimp only
  rw [h.fixed.bits, h.fixed.components, hr.bits, hr.comps, ht, hl]
  unfold predPC
  rw [hmod]
  by_cases hcol : col = 0
  · subst hcol
    simp only [Nat.zero_mul, Nat.zero_add] at *
    by_cases hrow : row = 0
    · subst hrow
      simp [hc]
    · have h1 := Nat.mul_le_mul_right (C * X) (show 1 ≤ row by omega)
      have h3 : (row - 1) * (C * X) = row * (C * X) - C * X := by rw [Nat.sub_mul, Nat.one_mul]
      have e := h.last (by omega) c (Nat.le_refl _) hc
      have hCX : C ≤ C * X := Nat.le_mul_of_pos_right C (by have := hr.wide; omega)
      rw [h3, show row * (C * X) - C * X + c = row * (C * X) + c - C * X by omega] at e
      rw [if_neg (by simp [hrow]), if_neg hrow, if_pos trivial, if_neg (by omega), if_neg (by omega), if_pos hc, e]
  · have hcC : C ≤ col * C := Nat.le_mul_of_pos_left C (by omega)
    have h4 : (col - 1) * C = col * C - C := by rw [Nat.sub_mul, Nat.one_mul]
    have e := h.this ((col - 1) * C + c) (by omega)
    rw [h4, show row * (C * X) + (col * C - C + c) = row * (C * X) + (col * C + c) - C by omega] at e
    rw [h4, if_neg (fun h => hcol h.1), if_neg (show ¬ row * (C * X) + (col * C + c) < C by omega), e, if_neg hcol]
    by_cases hrow : row = 0
    · subst hrow
      rw [if_pos rfl, if_pos (by omega)]
    · have h1 := Nat.mul_le_mul_right (C * X) (show 1 ≤ row by omega)
      rw [if_neg hrow, if_neg (by omega), if_neg (by omega)]
      rfl

theorem bodyC_step (ub : Int) {s0 s : Ljp} {T : Table} {bd C X : Nat} {acc : List Nat} {lin : Option Lin} {row col c : Nat}
    (hr : ReadyC s0 T bd C X acc lin) (h : InvC s0 T bd C X acc lin row (col * C + c) s) (hcol : col < X) (hc : c < C)
    (hn : row * (C * X) + (col * C + c) < acc.length) (left : Int) :
    ∃ v', body ub lin 1 row col c (s, left) = some v' ∧ InvC s0 T bd C X acc lin row (col * C + (c + 1)) v'.1 := by
  have hj : col * C + c < C * X := by
    have := Nat.mul_le_mul_right C hcol
    rw [Nat.succ_mul] at this
    rw [Nat.mul_comm C X]; omega
  have hpx := px_predC hr h hj hc left
  have haddr0 := strided_row (skip := s0.skiplen) (row := row) hj
  rw [← Nat.add_assoc]
  generalize hje : col * C + c = j at *
  generalize hWe : C * X = W at *
  generalize hne : row * W + j = n at *
  have f0 := h.fixed
  have hrep := h.rep
  have hc15 := hr.cls15 n hn
  have hlut := hr.lut n hn
  rw [hWe] at hc15 hlut hrep
  rw [hne, codeCFrom_step T bd C W acc hn, diffBits, if_neg (by omega), List.append_assoc] at hrep
  obtain ⟨s1, n1, n2, n3, n4⟩ := nextdiff_rep ub (s := s) (w := T (cls (diffC bd C W acc n))) (t := cls (diffC bd C W acc n)) (e := extra (diffC bd C W acc n))
    (S := codeCFrom T bd C W acc (n + 1)) (by rw [f0.data]; exact hr.bytes) (by rw [f0.huffbits]; exact hr.hb)
    (by rw [f0.hufflut, f0.huffbits]; exact hlut) hc15 (extra_lt _) h.cnt (by rw [f0.data]; exact hrep)
  rw [extend_extra] at n1
  have f1 : Fixed s0 s1 := by
    rw [n4]; exact ⟨f0.data, f0.x, f0.y, f0.bits, f0.components, f0.skiplen, f0.hufflut, f0.huffbits⟩
  have him : s1.image = s.image := by rw [n4]
  have hrc : s1.rowcache = s.rowcache := by rw [n4]
  have ht : thisrow s1 row = thisrow s0 row := by unfold thisrow; rw [f1.x]
  have hlt := hr.lt n
  have hleft : ((px s 1 left row col c + diffC bd C W acc n).tmod 65536) % 65536 = (acc.getD n 0 : Nat) := by
    rw [hpx, diffC, show predPC 1 bd C W acc n + ((acc.getD n 0 : Int) - predPC 1 bd C W acc n) = (acc.getD n 0 : Nat) by omega,
      Int.tmod_eq_of_lt (by omega) (by omega)]
    omega
  have hcomp : col * s1.components + c = j := by rw [f1.components, hr.comps, hje]
  have haddr : row * (s1.x * s1.components + s1.skiplen) + (col * s1.components + c) = strided W s0.skiplen n := by
    rw [hcomp, f1.x, f1.components, f1.skiplen, hr.comps, hr.x, Nat.mul_comm X C, hWe, haddr0]
  have himage := h.image
  have hgaps := h.gaps
  have hthis := h.this
  have hlast := h.last
  rw [hWe] at himage hgaps
  refine ⟨({ s1 with rowcache := put s1.rowcache (thisrow s0 row + j) (acc.getD n 0), image := put s1.image (strided W s0.skiplen n) (linear lin (acc.getD n 0)) },
           (acc.getD n 0 : Nat)), ?_, ?_⟩
  · unfold body
    dsimp only at n1 hleft ⊢
    rw [n1]
    dsimp only
    rw [hleft, haddr, ht, hcomp, Int.toNat_natCast, hr.lin n hn]
    rfl
  refine { fixed := ⟨f1.data, f1.x, f1.y, f1.bits, f1.components, f1.skiplen, f1.hufflut, f1.huffbits⟩, rep := ?_, cnt := n3,
           image := ?_, gaps := ?_, this := ?_, last := ?_ }
  · rw [f0.data] at n2
    rw [hWe, show row * W + (j + 1) = n + 1 by omega]
    exact n2
  · rw [hWe]
    intro m hm
    dsimp only [put]
    by_cases e : m = n
    · subst e; rw [if_pos rfl]
    · have := strided_lt W s0.skiplen (show m < n by omega)
      rw [if_neg (by omega), him]
      exact himage m (by omega)
  · rw [hWe]
    intro k hk
    dsimp only [put]
    rw [if_neg (hk n (by omega)), him]
    exact hgaps k (fun m hm => hk m (by omega))
  · intro k hk
    rw [hWe]
    dsimp only [put]
    by_cases e : k = j
    · subst e; rw [if_pos rfl, hne]
    · rw [if_neg (by omega), hrc, hthis k (by omega), hWe]
  · intro h0 k hk hkC
    rw [hWe]
    dsimp only [put]
    have hwide := hr.wide
    have hne' : lastrow s0 row + k ≠ thisrow s0 row + j := by
      unfold lastrow thisrow
      rw [hr.x]
      split <;> omega
    rw [if_neg hne', hrc, hlast h0 k (by omega) hkC, hWe]

theorem rowC_done {s0 s : Ljp} {T : Table} {bd C X : Nat} {acc : List Nat} {lin : Option Lin} {row : Nat} (hX : 0 < X)
    (h : InvC s0 T bd C X acc lin row (C * X) s) : InvC s0 T bd C X acc lin (row + 1) 0 s := by
  have e : (row + 1) * (C * X) + 0 = row * (C * X) + C * X := by rw [Nat.add_mul]; omega
  refine { fixed := h.fixed, rep := by rw [e]; exact h.rep, cnt := h.cnt,
           image := by rw [e]; exact h.image, gaps := by rw [e]; exact h.gaps, this := fun k hk => by omega, last := ?_ }
  intro _ k _ hk
  have := h.this k (Nat.lt_of_lt_of_le hk (Nat.le_mul_of_pos_right C hX))
  rw [Nat.add_sub_cancel, ← this]
  congr 2
  unfold lastrow thisrow
  by_cases hp : row % 2 = 0
  · rw [if_neg (by omega), if_pos hp]
  · rw [if_pos (by omega), if_neg hp]

/-- The scan loops decode the whole image. -/
theorem scanC_run (ub : Int) {s0 : Ljp} {T : Table} {bd C X : Nat} {acc : List Nat} {lin : Option Lin}
    (hr : ReadyC s0 T bd C X acc lin) (hX : 0 < X) (hlen : acc.length = C * X * s0.y)
    (hrep : Rep s0.data (s0.b, s0.cnt, s0.ix) (encodePC 1 T bd C (C * X) acc)) (hc : s0.cnt ≤ 31) :
    ∃ v, forN (fun row => forN (fun col => forN (fun c => body ub lin 1 row col c) s0.components) s0.x) s0.y (s0, 0) = some v ∧
      InvC s0 T bd C X acc lin s0.y 0 v.1 := by
  apply forN_inv (σ := Ljp × Int) (P := fun row v => InvC s0 T bd C X acc lin row 0 v.1)
  · intro row v hrow hv
    have h1 : ∃ v', forN (fun col => forN (fun c => body ub lin 1 row col c) s0.components) s0.x v = some v' ∧
        InvC s0 T bd C X acc lin row (s0.x * C) v'.1 := by
      apply forN_inv (σ := Ljp × Int) (P := fun col v => InvC s0 T bd C X acc lin row (col * C) v.1)
      · intro col v hcol hv
        rw [hr.x] at hcol
        have h2 : ∃ v', forN (fun c => body ub lin 1 row col c) s0.components v = some v' ∧
            InvC s0 T bd C X acc lin row (col * C + s0.components) v'.1 := by
          apply forN_inv (σ := Ljp × Int) (P := fun c v => InvC s0 T bd C X acc lin row (col * C + c) v.1)
          · intro c v hc hv
            rw [hr.comps] at hc
            have hn : row * (C * X) + (col * C + c) < acc.length := by
              have a1 : (row + 1) * (C * X) ≤ s0.y * (C * X) := Nat.mul_le_mul_right _ hrow
              have a2 : (col + 1) * C ≤ X * C := Nat.mul_le_mul_right C hcol
              rw [Nat.add_mul, Nat.one_mul] at a1 a2
              rw [Nat.mul_comm X C] at a2
              rw [hlen, Nat.mul_comm (C * X)]
              omega
            exact bodyC_step ub hr hv hcol hc hn v.2
          · exact hv
        obtain ⟨v', a, b⟩ := h2
        exact ⟨v', a, by rw [hr.comps] at b; rw [Nat.add_mul, Nat.one_mul]; exact b⟩
      · simpa using hv
    obtain ⟨v', a, b⟩ := h1
    rw [hr.x, Nat.mul_comm X C] at b
    exact ⟨v', a, rowC_done hX b⟩
  · exact { fixed := ⟨rfl, rfl, rfl, rfl, rfl, rfl, rfl, rfl⟩, rep := by simpa [codeCFrom_zero] using hrep, cnt := hc,
            image := fun m hm => by omega, gaps := fun k _ => rfl, this := fun k hk => by omega, last := fun h => by omega }

/-- `parseScan` decodes the whole image. -/
theorem parseScanC_run (ub : Int) {s : Ljp} {T : Table} {bd C X : Nat} {acc : List Nat} {lin : Option Lin}
    (hr : ReadyC s T bd C X acc lin) (hX : 0 < X) (hlen : acc.length = C * X * s.y) (hpred : s.data (s.scanstart + 3 + 2 * s.data (s.scanstart + 2)) = 1)
    (hrep : Rep s.data (0, 0, s.scanstart + beh s.data s.scanstart) (encodePC 1 T bd C (C * X) acc)) :
    ∃ s', parseScan ub lin s = some s' ∧
      (∀ m, m < acc.length → s'.image (strided (C * X) s.skiplen m) = linear lin (acc.getD m 0)) ∧
      (∀ k, (∀ m, m < acc.length → k ≠ strided (C * X) s.skiplen m) → s'.image k = s.image k) := by
  let s0 : Ljp := { s with ix := s.scanstart + beh s.data s.scanstart, cnt := 0, b := 0 }
  have hr0 : ReadyC s0 T bd C X acc lin := ⟨hr.bytes, hr.x, hr.comps, hr.wide, hr.bits, hr.hb, hr.lut, hr.cls15, hr.lt, hr.lin⟩
  obtain ⟨v, a1, a2⟩ := scanC_run ub (s0 := s0) hr0 hX hlen hrep (by show 0 ≤ 31; omega)
  have hn : s0.y * (C * X) + 0 = acc.length := by rw [hlen, Nat.mul_comm]; rfl
  refine ⟨v.1, ?_, fun m hm => a2.image m (by omega), fun k hk => a2.gaps k (fun m hm => hk m (by omega))⟩
  unfold parseScan
  dsimp only
  rw [hpred, if_neg (by omega)]
  have a1' : forN (fun row => forN (fun col => forN (fun c => body ub lin 1 row col c) s.components) s.x) s.y
    ({ s with ix := s.scanstart + beh s.data s.scanstart, cnt := 0, b := 0 }, 0) = some v := a1
  rw [a1']
  rfl

end Model.Lj92.Seg
