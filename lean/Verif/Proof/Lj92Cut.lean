/- Helper lemmas about the model of the lj92 decoder: a scan whose data end early. -/
import Verif.Proof.Lj92Comps

set_option autoImplicit false

namespace Model.Lj92.Seg
open Spec Model.Lj92

/-- Refilling never fails for up to 255 bits. -/
theorem refill_total (data : Nat → Nat) {n : Nat} (hn : n < 256) (v : Nat × Nat × Nat) : ∃ w, refill data n v = some w := by
  have key : ∀ (fuel : Nat) (v : Nat × Nat × Nat), n ≤ v.2.1 + 8 * fuel →
      ∃ w, whileN (fun v => if v.2.1 < n then some (load data v) else none) (fuel + 1) v = some w := by
    intro fuel
    induction fuel with
    | zero =>
      intro v hv
      exact ⟨v, by unfold whileN; rw [if_neg (by omega)]⟩
    | succ f ih =>
      intro v hv
      unfold whileN
      by_cases h : v.2.1 < n
      · rw [if_pos h]
        apply ih
        obtain ⟨b, cnt, ix⟩ := v
        unfold load
        dsimp only at hv ⊢
        split
        · dsimp only; omega
        · split <;> (dsimp only; omega)
      · rw [if_neg h]; exact ⟨v, rfl⟩
  exact key 63 v (by omega)

/-- Whatever the data are, a difference is read. -/
theorem nextdiff_total (ub : Int) (s : Ljp) (hh : s.huffbits ≤ 16) :
    ∃ s' diff, nextdiff ub s = some (s', diff) ∧ ∃ b cnt ix, s' = { s with b := b, cnt := cnt, ix := ix } := by
  unfold nextdiff
  obtain ⟨⟨b, cnt, ix⟩, h1⟩ := refill_total s.data (n := s.huffbits) (by omega) (s.b, s.cnt, s.ix)
  rw [h1]
  dsimp only
  obtain ⟨⟨b2, cnt2, ix2⟩, h2⟩ := refill_total s.data (n := s.hufflut (b / 2 ^ (cnt - s.huffbits)) % 2 ^ 16 / 2 ^ 8) (by omega)
    (b % 2 ^ (cnt - s.hufflut (b / 2 ^ (cnt - s.huffbits)) % 2 ^ 16 % 2 ^ 8), cnt - s.hufflut (b / 2 ^ (cnt - s.huffbits)) % 2 ^ 16 % 2 ^ 8, ix)
  rw [h2]
  exact ⟨_, _, rfl, _, _, _, rfl⟩

/-- What remains true behind the end of the data: the samples before it, and nothing outside the rows. -/
structure Kept (s0 : Ljp) (C X tot : Nat) (acc : List Nat) (lin : Option Lin) (s : Ljp) : Prop where
  fixed : Fixed s0 s
  image : ∀ m, m < acc.length → s.image (strided (C * X) s0.skiplen m) = linear lin (acc.getD m 0)
  gaps : ∀ k, (∀ m, m < tot → k ≠ strided (C * X) s0.skiplen m) → s.image k = s0.image k

theorem bodyC_kept (ub : Int) {s0 s : Ljp} {C X tot : Nat} {acc : List Nat} {lin : Option Lin} {row col c : Nat}
    (hx : s0.x = X) (hcc : s0.components = C) (hh : s0.huffbits ≤ 16) (hlin : ∀ l, lin = some l → 65535 ≤ l.len)
    (h : Kept s0 C X tot acc lin s) (hcol : col < X) (hc : c < C)
    (hn : row * (C * X) + (col * C + c) < tot) (hge : acc.length ≤ row * (C * X) + (col * C + c)) (left : Int) :
    ∃ v', body ub lin 1 row col c (s, left) = some v' ∧ Kept s0 C X tot acc lin v'.1 := by
  have hj : col * C + c < C * X := by
    have := Nat.mul_le_mul_right C hcol
    rw [Nat.succ_mul] at this
    rw [Nat.mul_comm C X]; omega
  have haddr0 := strided_row (skip := s0.skiplen) (row := row) hj
  have f0 := h.fixed
  obtain ⟨s1, diff, n1, b, cnt, ix, n4⟩ := nextdiff_total ub s (by rw [f0.huffbits]; exact hh)
  have f1 : Fixed s0 s1 := by
    rw [n4]; exact ⟨f0.data, f0.x, f0.y, f0.bits, f0.components, f0.skiplen, f0.hufflut, f0.huffbits⟩
  have him : s1.image = s.image := by rw [n4]
  have hbey : ∀ p : Int, beyond lin (((p + diff).tmod 65536) % 65536).toNat = false := by
    intro p
    unfold beyond
    cases lin with
    | none => rfl
    | some l =>
      have := hlin l rfl
      simp only [decide_eq_false_iff_not]
      omega
  unfold body
  dsimp only
  rw [n1]
  dsimp only
  rw [hbey]
  refine ⟨_, rfl, ⟨f1.data, f1.x, f1.y, f1.bits, f1.components, f1.skiplen, f1.hufflut, f1.huffbits⟩, ?_, ?_⟩
  all_goals
    dsimp only
    rw [f1.x, f1.components, f1.skiplen, hx, hcc, Nat.mul_comm X C, ← haddr0, him]
  · intro m hm
    have := strided_lt (C * X) s0.skiplen (show m < row * (C * X) + (col * C + c) by omega)
    unfold put
    rw [if_neg (by omega)]
    exact h.image m hm
  · intro k hk
    unfold put
    rw [if_neg (hk _ hn)]
    exact h.gaps k hk

/-- Before sample `j` of row `row`, whether its code is in the data or not. -/
def InvCut (s0 : Ljp) (T : Table) (bd C X tot : Nat) (acc : List Nat) (lin : Option Lin) (row j : Nat) (s : Ljp) : Prop :=
  (row * (C * X) + j ≤ acc.length → InvC s0 T bd C X acc lin row j s) ∧ (acc.length < row * (C * X) + j → Kept s0 C X tot acc lin s)

theorem bodyC_cut (ub : Int) {s0 s : Ljp} {T : Table} {bd C X tot : Nat} {acc : List Nat} {lin : Option Lin} {row col c : Nat}
    (hr : ReadyC s0 T bd C X acc lin) (hlin : ∀ l, lin = some l → 65535 ≤ l.len)
    (h : InvCut s0 T bd C X tot acc lin row (col * C + c) s) (hcol : col < X) (hc : c < C)
    (hn : row * (C * X) + (col * C + c) < tot) (left : Int) :
    ∃ v', body ub lin 1 row col c (s, left) = some v' ∧ InvCut s0 T bd C X tot acc lin row (col * C + (c + 1)) v'.1 := by
  by_cases hlt : row * (C * X) + (col * C + c) < acc.length
  · obtain ⟨v', a, b⟩ := bodyC_step ub hr (h.1 (by omega)) hcol hc hlt left
    exact ⟨v', a, fun _ => b, fun h => by omega⟩
  · have hk : Kept s0 C X tot acc lin s := by
      by_cases he : row * (C * X) + (col * C + c) = acc.length
      · have hi := h.1 (by omega)
        exact ⟨hi.fixed, fun m hm => hi.image m (by omega), fun k hk => hi.gaps k (fun m hm => hk m (by omega))⟩
      · exact h.2 (by omega)
    obtain ⟨v', a, b⟩ := bodyC_kept ub hr.x hr.comps hr.hb hlin hk hcol hc hn (by omega) left
    exact ⟨v', a, fun h => by omega, fun _ => b⟩

theorem rowC_cut {s0 s : Ljp} {T : Table} {bd C X tot : Nat} {acc : List Nat} {lin : Option Lin} {row : Nat} (hX : 0 < X)
    (h : InvCut s0 T bd C X tot acc lin row (C * X) s) : InvCut s0 T bd C X tot acc lin (row + 1) 0 s := by
  have e : (row + 1) * (C * X) + 0 = row * (C * X) + C * X := by rw [Nat.add_mul]; omega
  exact ⟨fun hh => rowC_done hX (h.1 (by omega)), fun hh => h.2 (by omega)⟩

theorem scanC_cut (ub : Int) {s0 : Ljp} {T : Table} {bd C X : Nat} {acc : List Nat} {lin : Option Lin}
    (hr : ReadyC s0 T bd C X acc lin) (hlin : ∀ l, lin = some l → 65535 ≤ l.len) (hX : 0 < X) (hlen : acc.length ≤ C * X * s0.y)
    (hrep : Rep s0.data (s0.b, s0.cnt, s0.ix) (encodePC 1 T bd C (C * X) acc)) (hc : s0.cnt ≤ 31) :
    ∃ v, forN (fun row => forN (fun col => forN (fun c => body ub lin 1 row col c) s0.components) s0.x) s0.y (s0, 0) = some v ∧
      InvCut s0 T bd C X (C * X * s0.y) acc lin s0.y 0 v.1 := by
  apply forN_inv (σ := Ljp × Int) (P := fun row v => InvCut s0 T bd C X (C * X * s0.y) acc lin row 0 v.1)
  · intro row v hrow hv
    have h1 : ∃ v', forN (fun col => forN (fun c => body ub lin 1 row col c) s0.components) s0.x v = some v' ∧
        InvCut s0 T bd C X (C * X * s0.y) acc lin row (s0.x * C) v'.1 := by
      apply forN_inv (σ := Ljp × Int) (P := fun col v => InvCut s0 T bd C X (C * X * s0.y) acc lin row (col * C) v.1)
      · intro col v hcol hv
        rw [hr.x] at hcol
        have h2 : ∃ v', forN (fun c => body ub lin 1 row col c) s0.components v = some v' ∧
            InvCut s0 T bd C X (C * X * s0.y) acc lin row (col * C + s0.components) v'.1 := by
          apply forN_inv (σ := Ljp × Int) (P := fun c v => InvCut s0 T bd C X (C * X * s0.y) acc lin row (col * C + c) v.1)
          · intro c v hc hv
            rw [hr.comps] at hc
            have hn : row * (C * X) + (col * C + c) < C * X * s0.y := by
              have a1 : (row + 1) * (C * X) ≤ s0.y * (C * X) := Nat.mul_le_mul_right _ hrow
              have a2 : (col + 1) * C ≤ X * C := Nat.mul_le_mul_right C hcol
              rw [Nat.add_mul, Nat.one_mul] at a1 a2
              rw [Nat.mul_comm X C] at a2
              rw [Nat.mul_comm (C * X)]
              omega
            exact bodyC_cut ub hr hlin hv hcol hc hn v.2
          · exact hv
        obtain ⟨v', a, b⟩ := h2
        exact ⟨v', a, by rw [hr.comps] at b; rw [Nat.add_mul, Nat.one_mul]; exact b⟩
      · simpa using hv
    obtain ⟨v', a, b⟩ := h1
    rw [hr.x, Nat.mul_comm X C] at b
    exact ⟨v', a, rowC_cut hX b⟩
  · refine ⟨fun _ => ?_, fun h => by omega⟩
    exact { fixed := ⟨rfl, rfl, rfl, rfl, rfl, rfl, rfl, rfl⟩, rep := by simpa [codeCFrom_zero] using hrep, cnt := hc,
            image := fun m hm => by omega, gaps := fun k _ => rfl, this := fun k hk => by omega, last := fun h => by omega }

/-- `parseScan` decodes the samples whose code is there. -/
theorem parseScanC_cut (ub : Int) {s : Ljp} {T : Table} {bd C X : Nat} {acc : List Nat} {lin : Option Lin}
    (hr : ReadyC s T bd C X acc lin) (hlin : ∀ l, lin = some l → 65535 ≤ l.len) (hX : 0 < X) (hlen : acc.length ≤ C * X * s.y)
    (hpred : s.data (s.scanstart + 3 + 2 * s.data (s.scanstart + 2)) = 1)
    (hrep : Rep s.data (0, 0, s.scanstart + beh s.data s.scanstart) (encodePC 1 T bd C (C * X) acc)) :
    ∃ s', parseScan ub lin s = some s' ∧
      (∀ m, m < acc.length → s'.image (strided (C * X) s.skiplen m) = linear lin (acc.getD m 0)) ∧
      (∀ k, (∀ m, m < C * X * s.y → k ≠ strided (C * X) s.skiplen m) → s'.image k = s.image k) := by
  let s0 : Ljp := { s with ix := s.scanstart + beh s.data s.scanstart, cnt := 0, b := 0 }
  have hr0 : ReadyC s0 T bd C X acc lin := ⟨hr.bytes, hr.x, hr.comps, hr.wide, hr.bits, hr.hb, hr.lut, hr.cls15, hr.lt, hr.lin⟩
  obtain ⟨v, a1, a2⟩ := scanC_cut ub (s0 := s0) hr0 hlin hX hlen hrep (by show 0 ≤ 31; omega)
  have hn : s0.y * (C * X) + 0 = C * X * s.y := by rw [Nat.mul_comm]; rfl
  have hk : Kept s0 C X (C * X * s.y) acc lin v.1 := by
    by_cases he : acc.length < C * X * s.y
    · exact a2.2 (by omega)
    · have hi := a2.1 (by omega)
      exact ⟨hi.fixed, fun m hm => hi.image m (by omega), fun k hk => hi.gaps k (fun m hm => hk m (by omega))⟩
  refine ⟨v.1, ?_, hk.image, hk.gaps⟩
  unfold parseScan
  dsimp only
  rw [hpred, if_neg (by omega)]
  have a1' : forN (fun row => forN (fun col => forN (fun c => body ub lin 1 row col c) s.components) s.x) s.y
    ({ s with ix := s.scanstart + beh s.data s.scanstart, cnt := 0, b := 0 }, 0) = some v := a1
  rw [a1']
  rfl

end Model.Lj92.Seg
