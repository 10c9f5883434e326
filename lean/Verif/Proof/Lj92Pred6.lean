/- Helper lemmas about the model of the lj92 decoder: the fast path for predictor 6. -/
import Verif.Model.Lj92Pred6
import Verif.Proof.Lj92Open
import Verif.Spec.Predictors

set_option autoImplicit false

namespace Model.Lj92
open Spec

/-- The code from sample `n` on. -/
def code6From (T : Table) (bd W : Nat) (l : List Nat) (n : Nat) : List Bool :=
  (List.range' n (l.length - n)).flatMap fun i => wideBits T (diff6 bd W l i)

theorem code6From_zero (T : Table) (bd W : Nat) (l : List Nat) : code6From T bd W l 0 = encode6 T bd W l := by
  simp [code6From, encode6, List.range_eq_range']

theorem code6From_step (T : Table) (bd W : Nat) (l : List Nat) {n : Nat} (h : n < l.length) :
    code6From T bd W l n = wideBits T (diff6 bd W l n) ++ code6From T bd W l (n + 1) := by
  unfold code6From
  rw [show l.length - n = (l.length - (n + 1)) + 1 by omega, List.range'_succ, List.flatMap_cons]

/-- What the fast path needs. -/
structure Ready6 (s : Ljp) (T : Table) (bd W : Nat) (acc : List Nat) (lin : Option Lin) (E : Nat) : Prop where
  bytes : ∀ k, s.data k < 256
  x : s.x = W
  bits : s.bits = bd
  hb : s.huffbits ≤ 16
  lut : ∀ n, n < acc.length → LutOk s.hufflut s.huffbits (T (cls (diff6 bd W acc n))) (cls (diff6 bd W acc n))
  word : ∀ n, n < acc.length → 1 ≤ (T (cls (diff6 bd W acc n))).length
  cls15 : ∀ n, n < acc.length → cls (diff6 bd W acc n) ≤ 15
  lt : ∀ n, acc.getD n 0 < 65536
  lin : ∀ n, n < acc.length → beyond lin (acc.getD n 0) = false
  ends : E < s.datalen

theorem code6From_length {s : Ljp} {T : Table} {bd W : Nat} {acc : List Nat} {lin : Option Lin} {E : Nat} (hr : Ready6 s T bd W acc lin E) (k : Nat) :
    ∀ n, n + k = acc.length → k ≤ (code6From T bd W acc n).length := by
  induction k with
  | zero => intro n _; omega
  | succ k ih =>
    intro n hn
    rw [code6From_step T bd W acc (by omega), List.length_append, wideBits, List.length_append]
    have h1 := ih (n + 1) (by omega)
    have h2 := hr.word n (by omega)
    omega

/-- Target position of sample `m`. -/
def pos6 (wl skip m : Nat) : Nat := m + m / wl * skip

theorem pos6_lt (wl skip : Nat) {m n : Nat} (h : m < n) : pos6 wl skip m < pos6 wl skip n := by
  unfold pos6
  have := Nat.mul_le_mul_right skip (Nat.div_le_div_right (c := wl) (Nat.le_of_lt h))
  omega

/-- State after `j` samples of row `row`, apart from the write position. -/
structure Inv6 (s0 : Ljp) (T : Table) (bd W : Nat) (acc : List Nat) (lin : Option Lin) (wl E row j : Nat) (v : P6) : Prop where
  fixed : Fixed s0 v.s
  dl : v.s.datalen = s0.datalen
  rep : RepE s0.data E (v.s.b, v.s.cnt, v.s.ix) (code6From T bd W acc (row * W + j))
  cnt : v.s.cnt ≤ 31
  c : v.c = row * W + j
  left : 0 < j → v.left = acc.getD (row * W + j - 1) 0
  image : ∀ m, m < row * W + j → v.s.image (pos6 wl s0.skiplen m) = linear lin (acc.getD m 0)
  gaps : ∀ k, (∀ m, m < row * W + j → k ≠ pos6 wl s0.skiplen m) → v.s.image k = s0.image k
  this : ∀ k, k < j → v.s.rowcache (thisrow s0 row + k) = acc.getD (row * W + k) 0
  last : 0 < row → ∀ k, k < W → v.s.rowcache (lastrow s0 row + k) = acc.getD ((row - 1) * W + k) 0

/-- The write position after `n` samples. -/
def Pos6 (wl skip n : Nat) (v : P6) : Prop := v.out = n / wl * skip ∧ v.write = wl - (n % wl : Nat)

theorem step_pos {wl skip n : Nat} (hwl : 1 ≤ wl) {v : P6} (hs : v.s.skiplen = skip) (h : Pos6 wl skip n v) : Pos6 wl skip (n + 1) (step6 wl v) := by
  obtain ⟨h1, h2⟩ := h
  have hm := Nat.mod_lt n hwl
  unfold step6
  by_cases e : n % wl + 1 = wl
  · have e1 : (n + 1) / wl = n / wl + 1 := by
      have := Nat.div_add_mod n wl
      rw [show n + 1 = wl * (n / wl + 1) by rw [Nat.mul_add]; omega, Nat.mul_div_cancel_left _ hwl]
    have e2 : (n + 1) % wl = 0 := by
      have := Nat.div_add_mod n wl
      rw [show n + 1 = wl * (n / wl + 1) by rw [Nat.mul_add]; omega, Nat.mul_mod_right]
    rw [if_pos (by omega)]
    refine ⟨?_, ?_⟩
    · dsimp only; rw [h1, hs, e1, Nat.add_mul]; omega
    · dsimp only; rw [e2]; omega
  · have hd := Nat.div_add_mod n wl
    have e1 : (n + 1) / wl = n / wl := by
      rw [show n + 1 = (n % wl + 1) + wl * (n / wl) by omega, Nat.add_mul_div_left _ _ hwl, Nat.div_eq_of_lt (by omega)]; omega
    have e2 : (n + 1) % wl = n % wl + 1 := by
      rw [show n + 1 = (n % wl + 1) + wl * (n / wl) by omega, Nat.add_mul_mod_self_left, Nat.mod_eq_of_lt (by omega)]
    rw [if_neg (by omega)]
    refine ⟨?_, ?_⟩
    · dsimp only; rw [h1, e1]
    · dsimp only; rw [e2]; omega

theorem step_s (wl : Nat) (v : P6) : (step6 wl v).s = v.s ∧ (step6 wl v).c = v.c ∧ (step6 wl v).left = v.left := by
  unfold step6; split <;> exact ⟨rfl, rfl, rfl⟩

theorem Inv6.congr {s0 : Ljp} {T : Table} {bd W : Nat} {acc : List Nat} {lin : Option Lin} {wl E row j : Nat} {v w : P6}
    (h : Inv6 s0 T bd W acc lin wl E row j v) (hs : w.s = v.s) (hc : w.c = v.c) (hl : w.left = v.left) : Inv6 s0 T bd W acc lin wl E row j w := by
  obtain ⟨s, c, o, wr, l⟩ := v
  obtain ⟨s', c', o', wr', l'⟩ := w
  dsimp only at hs hc hl
  subst hs hc hl
  exact ⟨h.fixed, h.dl, h.rep, h.cnt, h.c, h.left, h.image, h.gaps, h.this, h.last⟩

/-- The sum of prediction and reduced difference is the sample. -/
theorem left_val (p : Int) {x : Nat} (hx : x < 65536) : (((p + ((x : Int) - p).tmod 65536).tmod 65536) % 65536).toNat = x := by
  have t1 := Int.tmod_add_mul_tdiv ((x : Int) - p) 65536
  generalize ((x : Int) - p).tmod 65536 = d at *
  generalize ((x : Int) - p).tdiv 65536 = q at *
  have t2 := Int.tmod_add_mul_tdiv (p + d) 65536
  generalize (p + d).tmod 65536 = d' at *
  generalize (p + d).tdiv 65536 = q' at *
  omega

theorem put6_spec (ub : Int) {s0 : Ljp} {T : Table} {bd W : Nat} {acc : List Nat} {lin : Option Lin} {wl E row j : Nat}
    (hr : Ready6 s0 T bd W acc lin E) {v : P6} (h : Inv6 s0 T bd W acc lin wl E row j v) (hp : v.out = (row * W + j) / wl * s0.skiplen) (hj : j < W)
    (hn : row * W + j < acc.length) (check : Bool) {p : Int} (hpred : p = pred6 bd W acc (row * W + j)) :
    ∃ v', put6 ub lin check row j p v = some v' ∧ Inv6 s0 T bd W acc lin wl E row (j + 1) v' ∧ v'.out = v.out ∧ v'.write = v.write := by
  generalize hne : row * W + j = n at *
  have f0 := h.fixed
  have hrep := h.rep
  rw [hne, code6From_step T bd W acc hn, wideBits, List.append_assoc] at hrep
  obtain ⟨s1, n1, n2, n3, n4⟩ := nextdiff_repE ub (s := v.s) (w := T (cls (diff6 bd W acc n))) (t := cls (diff6 bd W acc n)) (e := extra (diff6 bd W acc n))
    (E := E) (S := code6From T bd W acc (n + 1)) (by rw [f0.data]; exact hr.bytes) (by rw [f0.huffbits]; exact hr.hb)
    (by rw [f0.hufflut, f0.huffbits]; exact hr.lut n hn) (hr.cls15 n hn) (extra_lt _) h.cnt (by rw [f0.data]; exact hrep)
  rw [extend_extra] at n1
  have f1 : Fixed s0 s1 := by
    rw [n4]; exact ⟨f0.data, f0.x, f0.y, f0.bits, f0.components, f0.skiplen, f0.hufflut, f0.huffbits⟩
  have him : s1.image = v.s.image := by rw [n4]
  have hrc : s1.rowcache = v.s.rowcache := by rw [n4]
  have hdl : s1.datalen = v.s.datalen := by rw [n4]
  have ht : thisrow s1 row = thisrow s0 row := by unfold thisrow; rw [f1.x]
  have hleft : (((p + diff6 bd W acc n).tmod 65536) % 65536).toNat = acc.getD n 0 := by
    rw [hpred]; exact left_val _ (hr.lt n)
  have haddr : v.out + v.c = pos6 wl s0.skiplen n := by
    rw [hp, h.c, hne]; unfold pos6; omega
  refine ⟨{ v with s := { s1 with rowcache := put s1.rowcache (thisrow s0 row + j) (acc.getD n 0), image := put s1.image (pos6 wl s0.skiplen n) (linear lin (acc.getD n 0)) },
                   c := v.c + 1, left := acc.getD n 0 }, ?_, ?_, rfl, rfl⟩
  · unfold put6
    rw [n1]
    dsimp only
    rw [hleft, hr.lin n hn, Bool.and_false, haddr, ht]
    rfl
  refine { fixed := ⟨f1.data, f1.x, f1.y, f1.bits, f1.components, f1.skiplen, f1.hufflut, f1.huffbits⟩, dl := hdl.trans h.dl, rep := ?_, cnt := n3,
           c := by dsimp only; rw [h.c, hne]; omega, left := fun _ => by dsimp only; congr 1; omega, image := ?_, gaps := ?_, this := ?_, last := ?_ }
  · rw [f0.data] at n2
    rw [show row * W + (j + 1) = n + 1 by omega]
    exact n2
  · intro m hm
    dsimp only [put]
    by_cases e : m = n
    · subst e; rw [if_pos rfl]
    · have := pos6_lt wl s0.skiplen (show m < n by omega)
      rw [if_neg (by omega), him]
      exact h.image m (by omega)
  · intro k hk
    dsimp only [put]
    rw [if_neg (hk n (by omega)), him]
    exact h.gaps k (fun m hm => hk m (by omega))
  · intro k hk
    dsimp only [put]
    by_cases e : k = j
    · subst e; rw [if_pos rfl, hne]
    · rw [if_neg (by omega), hrc]
      exact h.this k (by omega)
  · intro h0 k hk
    dsimp only [put]
    have hne' : lastrow s0 row + k ≠ thisrow s0 row + j := by
      unfold lastrow thisrow
      rw [hr.x]
      split <;> omega
    rw [if_neg hne', hrc]
    exact h.last h0 k hk

theorem row6_done {s0 : Ljp} {T : Table} {bd W : Nat} {acc : List Nat} {lin : Option Lin} {wl E row : Nat} {v : P6}
    (h : Inv6 s0 T bd W acc lin wl E row W v) : Inv6 s0 T bd W acc lin wl E (row + 1) 0 v := by
  have e : (row + 1) * W + 0 = row * W + W := by rw [Nat.add_mul]; omega
  refine { fixed := h.fixed, dl := h.dl, rep := by rw [e]; exact h.rep, cnt := h.cnt, c := by rw [e]; exact h.c, left := fun h => by omega,
           image := by rw [e]; exact h.image, gaps := by rw [e]; exact h.gaps, this := fun k hk => by omega, last := ?_ }
  intro _ k hk
  have := h.this k hk
  rw [Nat.add_sub_cancel, ← this]
  congr 2
  unfold lastrow thisrow
  by_cases hp : row % 2 = 0
  · rw [if_neg (by omega), if_pos hp]
  · rw [if_pos (by omega), if_neg hp]

/-- The end of the file is not reached while 31 samples are missing. -/
theorem Inv6.inside {s0 : Ljp} {T : Table} {bd W : Nat} {acc : List Nat} {lin : Option Lin} {wl E row j : Nat}
    (hr : Ready6 s0 T bd W acc lin E) {v : P6} (h : Inv6 s0 T bd W acc lin wl E row j v) (hm : row * W + j + 31 ≤ acc.length) : ¬ v.s.ix ≥ v.s.datalen := by
  have h1 := code6From_length hr (acc.length - (row * W + j)) (row * W + j) (by omega)
  have h2 := h.rep.ix_le (by have := h.cnt; dsimp only; omega)
  have h3 := hr.ends
  have h4 := h.dl
  dsimp only at h2
  omega

/-! ### The predictions -/

theorem pred6_first (bd W : Nat) (acc : List Nat) : pred6 bd W acc 0 = 2 ^ (bd - 1) := rfl

theorem pred6_row0 {bd W : Nat} {acc : List Nat} {k : Nat} (h0 : 0 < k) (h : k < W) : pred6 bd W acc k = (acc.getD (k - 1) 0 : Nat) := by
  unfold pred6
  rw [if_neg (by omega), if_pos h]

theorem pred6_col0 {bd W : Nat} {acc : List Nat} {row : Nat} (h0 : 0 < row) (hW : 0 < W) : pred6 bd W acc (row * W + 0) = (acc.getD ((row - 1) * W) 0 : Nat) := by
  unfold pred6
  have h1 := Nat.mul_le_mul_right W (show 1 ≤ row by omega)
  rw [if_neg (by omega), if_neg (by omega), if_pos (by simp)]
  congr 2
  rw [Nat.sub_mul, Nat.one_mul, Nat.add_zero]

theorem pred6_inner {bd W : Nat} {acc : List Nat} {row k : Nat} (h0 : 0 < row) (hk : k + 1 < W) : pred6 bd W acc (row * W + (k + 1)) =
    (acc.getD ((row - 1) * W + (k + 1)) 0 : Int) + ((acc.getD (row * W + (k + 1) - 1) 0 : Int) - (acc.getD ((row - 1) * W + k) 0 : Int)) / 2 := by
  unfold pred6
  have h1 := Nat.mul_le_mul_right W (show 1 ≤ row by omega)
  have h2 : (row * W + (k + 1)) % W = k + 1 := by
    rw [Nat.add_comm, Nat.add_mul_mod_self_right, Nat.mod_eq_of_lt hk]
  have h3 : (row - 1) * W = row * W - W := by rw [Nat.sub_mul, Nat.one_mul]
  rw [if_neg (by omega), if_neg (by omega), if_neg (by omega), h3]
  have e1 : row * W + (k + 1) - W = row * W - W + (k + 1) := by omega
  have e2 : row * W - W + (k + 1) - 1 = row * W - W + k := by omega
  rw [e1, e2]

/-! ### The loops -/

theorem row0_run (ub : Int) {s0 : Ljp} {T : Table} {bd W H : Nat} {acc : List Nat} {lin : Option Lin} {wl E : Nat} (hwl : 2 ≤ wl) (hW : 32 ≤ W) (hH : 2 ≤ H)
    (hlen : acc.length = W * H) (hr : Ready6 s0 T bd W acc lin E) (hrep : RepE s0.data E (s0.b, s0.cnt, s0.ix) (encode6 T bd W acc)) (hc : s0.cnt ≤ 31) :
    ∃ v v', (put6 ub lin false 0 0 (2 ^ (s0.bits - 1)) ⟨s0, 0, 0, wl, 0⟩).bind inside = some v ∧
      forN (fun k v => ((put6 ub lin false 0 (k + 1) v.left v).bind inside).map (step6 wl)) (s0.x - 1) { v with write := v.write - 1 } = some v' ∧
      Inv6 s0 T bd W acc lin wl E 1 0 v' ∧ Pos6 wl s0.skiplen W v' := by
  have h2W : 2 * W ≤ acc.length := by rw [hlen, Nat.mul_comm 2 W]; exact Nat.mul_le_mul_left W hH
  have h0 : Inv6 s0 T bd W acc lin wl E 0 0 ⟨s0, 0, 0, wl, 0⟩ :=
    { fixed := ⟨rfl, rfl, rfl, rfl, rfl, rfl, rfl, rfl⟩, dl := rfl, rep := by simpa [code6From_zero] using hrep, cnt := hc, c := by simp,
      left := fun h => by omega, image := fun m hm => by omega, gaps := fun k _ => rfl, this := fun k hk => by omega, last := fun h => by omega }
  obtain ⟨v, a1, a2, a3, a4⟩ := put6_spec ub hr h0 (by simp) (by omega) (by omega) false (p := 2 ^ (s0.bits - 1)) (by rw [hr.bits, Nat.zero_mul, pred6_first])
  have hin : inside v = some v := by
    unfold inside
    rw [if_neg (a2.inside hr (by omega))]
  have hp1 : Pos6 wl s0.skiplen 1 { v with write := v.write - 1 } := by
    refine ⟨?_, ?_⟩
    · dsimp only; rw [a3, Nat.div_eq_of_lt (by omega)]; simp
    · dsimp only; rw [a4, Nat.mod_eq_of_lt (by omega)]; simp
  have hloop : ∃ v', forN (fun k v => ((put6 ub lin false 0 (k + 1) v.left v).bind inside).map (step6 wl)) (s0.x - 1) { v with write := v.write - 1 } = some v' ∧
      Inv6 s0 T bd W acc lin wl E 0 (s0.x - 1 + 1) v' ∧ Pos6 wl s0.skiplen (s0.x - 1 + 1) v' := by
    apply forN_inv (σ := P6) (P := fun k v => Inv6 s0 T bd W acc lin wl E 0 (k + 1) v ∧ Pos6 wl s0.skiplen (k + 1) v)
    · intro k w hk hw
      rw [hr.x] at hk
      obtain ⟨hw1, hw2⟩ := hw
      have hl := hw1.left (by omega)
      obtain ⟨w', b1, b2, b3, b4⟩ := put6_spec ub hr hw1 (by simpa using hw2.1) (by omega) (by omega) false (p := w.left)
        (by rw [hl, Nat.zero_mul, Nat.zero_add, pred6_row0 (by omega) (by omega)])
      have hin : inside w' = some w' := by
        unfold inside
        rw [if_neg (b2.inside hr (by omega))]
      refine ⟨step6 wl w', by rw [b1, Option.bind_some, hin]; rfl, ?_, ?_⟩
      · obtain ⟨c1, c2, c3⟩ := step_s wl w'
        exact b2.congr c1 c2 c3
      · exact step_pos (by omega) b2.fixed.skiplen ⟨by rw [b3]; exact hw2.1, by rw [b4]; exact hw2.2⟩
    · exact ⟨a2.congr rfl rfl rfl, hp1⟩
  obtain ⟨v', l1, l2, l3⟩ := hloop
  rw [hr.x, show W - 1 + 1 = W by omega] at l2 l3
  exact ⟨v, v', by rw [a1, Option.bind_some, hin], l1, row6_done l2, l3⟩

theorem rows6_run (ub : Int) {s0 : Ljp} {T : Table} {bd W H : Nat} {acc : List Nat} {lin : Option Lin} {wl E : Nat} (hwl : 1 ≤ wl) (hW : 32 ≤ W)
    (hlen : acc.length = W * H) (hr : Ready6 s0 T bd W acc lin E) : ∀ (n row : Nat) (v : P6), H + 1 ≤ row + n → 1 ≤ row → row ≤ H →
      Inv6 s0 T bd W acc lin wl E row 0 v → Pos6 wl s0.skiplen (row * W) v →
      ∃ v', rows6 ub lin wl (H * W) n row v = some v' ∧ Inv6 s0 T bd W acc lin wl E H 0 v'
  | 0, _, _, h, _, h', _, _ => by omega
  | n + 1, row, v, hrow, hrow1, hrowH, h, hp => by
    unfold rows6
    have hc := h.c
    by_cases hlast : row = H
    · subst hlast
      rw [if_neg (by omega)]
      exact ⟨v, rfl, h⟩
    · have hrl : (row + 1) * W ≤ H * W := Nat.mul_le_mul_right W (by omega)
      rw [Nat.add_mul, Nat.one_mul] at hrl
      rw [Nat.mul_comm] at hlen
      rw [if_pos (by omega)]
      have hlr : lastrow v.s row = lastrow s0 row := by unfold lastrow; rw [h.fixed.x]
      have hpx : (v.s.rowcache (lastrow v.s row) : Int) = pred6 bd W acc (row * W + 0) := by
        rw [pred6_col0 hrow1 (by omega), hlr]
        have := h.last hrow1 0 (by omega)
        simp only [Nat.add_zero] at this
        rw [this]
      obtain ⟨w, a1, a2, a3, a4⟩ := put6_spec ub hr h (by simpa using hp.1) (by omega) (by omega) true hpx
      rw [a1]
      dsimp only
      rw [if_neg (a2.inside hr (by omega))]
      have hpw : Pos6 wl s0.skiplen (row * W + 1) (step6 wl w) :=
        step_pos hwl a2.fixed.skiplen ⟨by rw [a3]; exact hp.1, by rw [a4]; exact hp.2⟩
      have hloop : ∃ v', forN (fun k v =>
              let m := fun j => (v.s.rowcache (lastrow v.s row + j) : Int)
              (put6 ub lin true row (k + 1) (m (k + 1) + ((v.left : Int) - m k) / 2) v).map (step6 wl)) (w.s.x - 1) (step6 wl w) = some v' ∧
          Inv6 s0 T bd W acc lin wl E row (w.s.x - 1 + 1) v' ∧ Pos6 wl s0.skiplen (row * W + (w.s.x - 1 + 1)) v' := by
        apply forN_inv (σ := P6) (P := fun k v => Inv6 s0 T bd W acc lin wl E row (k + 1) v ∧ Pos6 wl s0.skiplen (row * W + (k + 1)) v)
        · intro k u hk hu
          rw [a2.fixed.x, hr.x] at hk
          obtain ⟨hu1, hu2⟩ := hu
          have hl := hu1.left (by omega)
          have hlr : lastrow u.s row = lastrow s0 row := by unfold lastrow; rw [hu1.fixed.x]
          have hpx : (u.s.rowcache (lastrow u.s row + (k + 1)) : Int) + ((u.left : Int) - (u.s.rowcache (lastrow u.s row + k) : Int)) / 2 =
              pred6 bd W acc (row * W + (k + 1)) := by
            rw [pred6_inner hrow1 (by omega), hlr, hu1.last hrow1 (k + 1) (by omega), hu1.last hrow1 k (by omega), hl]
          obtain ⟨u', b1, b2, b3, b4⟩ := put6_spec ub hr hu1 hu2.1 (by omega) (by omega) true hpx
          refine ⟨step6 wl u', by dsimp only; rw [b1]; rfl, ?_, ?_⟩
          · obtain ⟨c1, c2, c3⟩ := step_s wl u'
            exact b2.congr c1 c2 c3
          · exact step_pos hwl b2.fixed.skiplen ⟨by rw [b3]; exact hu2.1, by rw [b4]; exact hu2.2⟩
        · obtain ⟨c1, c2, c3⟩ := step_s wl w
          exact ⟨a2.congr c1 c2 c3, hpw⟩
      obtain ⟨v', l1, l2, l3⟩ := hloop
      rw [a2.fixed.x, hr.x, show W - 1 + 1 = W by omega] at l2 l3
      rw [l1]
      dsimp only
      have l4 := row6_done l2
      have l5 : Pos6 wl s0.skiplen ((row + 1) * W) v' := by rw [Nat.add_mul, Nat.one_mul]; exact l3
      by_cases hfin : row + 1 = H
      · rw [hfin] at l4
        by_cases hix : v'.s.ix ≥ v'.s.datalen
        · rw [if_pos hix]; exact ⟨v', rfl, l4⟩
        · rw [if_neg hix]
          rw [← hfin] at l4
          exact rows6_run ub hwl hW (by rw [hlen, Nat.mul_comm]) hr n (row + 1) v' (by omega) (by omega) (by omega) l4 l5
      · have hr2 : (row + 2) * W ≤ H * W := Nat.mul_le_mul_right W (by omega)
        rw [Nat.add_mul] at hr2
        rw [if_neg (l4.inside hr (by rw [Nat.add_mul]; omega))]
        exact rows6_run ub hwl hW (by rw [hlen, Nat.mul_comm]) hr n (row + 1) v' (by omega) (by omega) (by omega) l4 l5

/-- The fast path decodes the whole image. -/
theorem parsePred6_run (ub : Int) {s : Ljp} {T : Table} {bd W : Nat} {acc : List Nat} {lin : Option Lin} {wl E : Nat} (hwl : 2 ≤ wl) (hW : 32 ≤ W) (hH : 2 ≤ s.y)
    (hlen : acc.length = W * s.y) (hr : Ready6 s T bd W acc lin E) (hrep : RepE s.data E (0, 0, s.scanstart + beh s.data s.scanstart) (encode6 T bd W acc)) :
    ∃ s', parsePred6 ub lin wl s = some s' ∧
      (∀ m, m < acc.length → s'.image (pos6 wl s.skiplen m) = linear lin (acc.getD m 0)) ∧
      (∀ k, (∀ m, m < acc.length → k ≠ pos6 wl s.skiplen m) → s'.image k = s.image k) := by
  let s0 : Ljp := { s with ix := s.scanstart + beh s.data s.scanstart, cnt := 0, b := 0 }
  have hr0 : Ready6 s0 T bd W acc lin E := ⟨hr.bytes, hr.x, hr.bits, hr.hb, hr.lut, hr.word, hr.cls15, hr.lt, hr.lin, hr.ends⟩
  obtain ⟨v, v', a1, a2, a3, a4⟩ := row0_run ub (s0 := s0) hwl hW hH hlen hr0 hrep (by show 0 ≤ 31; omega)
  obtain ⟨w, b1, b2⟩ := rows6_run ub (s0 := s0) (by omega) hW hlen hr0 (s.y + 1) 1 v' (by omega) (by omega) (by omega) a3 (by rw [Nat.one_mul]; exact a4)
  have hn : s.y * W + 0 = acc.length := by rw [hlen, Nat.mul_comm]; rfl
  refine ⟨w.s, ?_, ?_, ?_⟩
  · unfold parsePred6
    dsimp only
    have e1 : (put6 ub lin false 0 0 (2 ^ (s.bits - 1)) ⟨{ s with ix := s.scanstart + beh s.data s.scanstart, cnt := 0, b := 0 }, 0, 0, wl, 0⟩).bind inside = some v := a1
    have e2 : forN (fun k v => ((put6 ub lin false 0 (k + 1) v.left v).bind inside).map (step6 wl)) (s.x - 1) { v with write := v.write - 1 } = some v' := a2
    rw [e1]
    dsimp only
    rw [e2]
    dsimp only
    rw [show s.x = W from hr.x, b1]
    dsimp only
    rw [if_pos (by rw [b2.c]; omega)]
  · intro m hm
    exact b2.image m (by omega)
  · intro k hk
    exact b2.gaps k (fun m hm => hk m (by omega))

/-! ### The file header -/

/-- What `lj92_open` makes of a file with one component. -/
theorem open_headerP {d : Nat → Nat} {p bd lines samples : Nat} {comp sel pt counts vals rest : List Nat} {T : Table} {P : Nat → Prop}
    (hcomp : comp.length = 3) (hsel : sel.length = 2) (hpt : pt.length = 2)
    (hD : DescribesFor counts vals T P) (hby : ∀ x, x ∈ counts ++ vals → x < 255) (htot : vals.length < 200)
    (hl : lines < 65536) (hs : samples < 65536) (hrest : 1 ≤ rest.length)
    (hfile : At d 0 (headerP p bd lines samples comp sel pt counts vals ++ rest)) (mem : Nat → Nat) :
    ∃ s, open' d (headerP p bd lines samples comp sel pt counts vals ++ rest).length mem = some s ∧ s.data = d ∧
      s.datalen = (headerP p bd lines samples comp sel pt counts vals ++ rest).length ∧ s.x = samples ∧ s.y = lines ∧
      s.bits = bd ∧ s.components = 1 ∧ s.huffbits ≤ 16 ∧ (∀ t, P t → LutOk s.hufflut s.huffbits (T t) t) ∧
      d (s.scanstart + 2) = 1 ∧ d (s.scanstart + 3 + 2 * 1) = p ∧
      s.scanstart + beh d s.scanstart = (headerP p bd lines samples comp sel pt counts vals).length ∧
      At d (s.scanstart + beh d s.scanstart) rest := by
  obtain ⟨hlen, hnum, hnd, hmem, hfit, hword⟩ := hD
  obtain ⟨c0, c1, c2, rfl⟩ : ∃ c0 c1 c2, comp = [c0, c1, c2] := by
    match comp, hcomp with
    | [a, b, c], _ => exact ⟨a, b, c, rfl⟩
  obtain ⟨s0, s1, rfl⟩ : ∃ s0 s1, sel = [s0, s1] := by
    match sel, hsel with
    | [a, b], _ => exact ⟨a, b, rfl⟩
  obtain ⟨p0, p1, rfl⟩ : ∃ p0 p1, pt = [p0, p1] := by
    match pt, hpt with
    | [a, b], _ => exact ⟨a, b, rfl⟩
  generalize hn : vals.length = n at *
  have hdl : (headerP p bd lines samples [c0, c1, c2] [s0, s1] [p0, p1] counts vals ++ rest).length = 46 + n + rest.length := by
    simp [headerP, be16, hlen, hn]; omega
  have hhl : (headerP p bd lines samples [c0, c1, c2] [s0, s1] [p0, p1] counts vals).length = 46 + n := by
    simp [headerP, be16, hlen, hn]; omega
  rw [hdl, hhl]
  generalize hdle : 46 + n + rest.length = dl at *
  have hn19 : be16 (19 + n) = [0, 19 + n] := by
    unfold be16
    rw [Nat.div_eq_of_lt (by omega), Nat.mod_eq_of_lt (show 19 + n < 256 by omega)]
  have hsplit : headerP p bd lines samples [c0, c1, c2] [s0, s1] [p0, p1] counts vals ++ rest =
      [0xFF, 0xD8, 0xFF, 0xC4, 0, 19 + n, 0] ++ (counts ++ (vals ++ ([0xFF, 0xC3, 0, 11, bd, lines / 256 % 256, lines % 256, samples / 256 % 256, samples % 256, 1, c0, c1, c2,
        0xFF, 0xDA, 0, 8, 1, s0, s1, p, p0, p1] ++ rest))) := by
    unfold headerP
    rw [hn, hn19]
    simp [be16]
  rw [hsplit] at hfile
  have a1 := hfile.left
  have a2 := hfile.right
  simp only [List.length_cons, List.length_nil, Nat.zero_add] at a2
  have a3 := a2.right
  have a2 := a2.left
  rw [hlen] at a3
  have a4 := a3.right
  have a3 := a3.left
  rw [hn] at a4
  have a5 := a4.right
  have a4 := a4.left
  simp only [List.length_cons, List.length_nil, Nat.zero_add] at a5
  simp only [Nat.reduceAdd] at a2 a3 a4 a5
  have d0 : d 0 = 0xFF := a1 0 (by simp)
  have d1 : d 1 = 0xD8 := a1 1 (by simp)
  have d2 : d 2 = 0xFF := a1 2 (by simp)
  have d3 : d 3 = 0xC4 := a1 3 (by simp)
  have d4 : d 4 = 0 := a1 4 (by simp)
  have d5 : d 5 = 19 + n := a1 5 (by simp)
  have d6 : d 6 = 0 := a1 6 (by simp)
  have e0 : d (23 + n) = 0xFF := a4 0 (by simp)
  have e1 : d (23 + n + 1) = 0xC3 := a4 1 (by simp)
  have e2 : d (23 + n + 2) = 0 := a4 2 (by simp)
  have e3 : d (23 + n + 3) = 11 := a4 3 (by simp)
  have e4 : d (23 + n + 4) = bd := a4 4 (by simp)
  have e5 : d (23 + n + 5) = lines / 256 % 256 := a4 5 (by simp)
  have e6 : d (23 + n + 6) = lines % 256 := a4 6 (by simp)
  have e7 : d (23 + n + 7) = samples / 256 % 256 := a4 7 (by simp)
  have e8 : d (23 + n + 8) = samples % 256 := a4 8 (by simp)
  have e9 : d (23 + n + 9) = 1 := a4 9 (by simp)
  have e13 : d (23 + n + 13) = 0xFF := a4 13 (by simp)
  have e14 : d (23 + n + 14) = 0xDA := a4 14 (by simp)
  have e15 : d (23 + n + 15) = 0 := a4 15 (by simp)
  have e16 : d (23 + n + 16) = 8 := a4 16 (by simp)
  have e17 : d (23 + n + 17) = 1 := a4 17 (by simp)
  have e20 : d (23 + n + 20) = p := a4 20 (by simp)
  -- the table
  have hput : put d (4 + 2) 0 = d := by
    funext j
    unfold put
    split
    · rename_i h; subst h; exact d6.symm
    · rfl
  have hbits : ∀ k, 1 ≤ k → k ≤ 16 → d (4 + 2 + k) = counts.getD (k - 1) 0 := by
    intro k h1 h2
    rw [← a2 (k - 1) (by omega)]
    congr 1; omega
  obtain ⟨f, f1, f2⟩ := fill_done (c := (counts.getD · 0)) (vals := fun k => d (4 + 19 + k)) (bits := fun k => d (4 + 2 + k)) hbits
    (by rw [huffSizes_length counts 16 hlen, ← hnum]; exact htot) (fun e he => by have := hfit e he; omega) mem
  have hmax := (maxbits_spec (fun k => d (4 + 2 + k)) 16).1
  generalize hmb : maxbits (fun k => d (4 + 2 + k)) 16 = mb at *
  -- the run
  have s1 : ∀ s : Ljp, s.data = d → s.datalen = dl → s.ix = 0 → find s = some ({ s with ix := 2 }, 0xD8) := by
    intro s h1 h2 h3
    have := find_at (s := s) 0 (fun j hj => by omega) (by rw [h1, h3]; exact d0) (by rw [h2, h3]; omega)
    rw [this, h1, h3]; simp [d1]
  have s2 : ∀ s : Ljp, s.data = d → s.datalen = dl → s.ix = 2 → find s = some ({ s with ix := 4 }, 0xC4) := by
    intro s h1 h2 h3
    have := find_at (s := s) 0 (fun j hj => by omega) (by rw [h1, h3]; exact d2) (by rw [h2, h3]; omega)
    rw [this, h1, h3]; simp [d3]
  have s3 : ∀ s : Ljp, s.data = d → s.datalen = dl → s.ix = 4 → find s = some ({ s with ix := 25 + n }, 0xC3) := by
    intro s h1 h2 h3
    have := find_at (s := s) (19 + n) (fun j hj => ?_) (by rw [h1, h3, show 4 + (19 + n) = 23 + n by omega]; exact e0) (by rw [h2, h3]; omega)
    · rw [this, h1, h3, show 4 + (19 + n) + 2 = 25 + n by omega, show 4 + (19 + n) + 1 = 23 + n + 1 by omega, e1]
    · rw [h1, h3]
      by_cases c1 : j < 3
      · obtain rfl | rfl | rfl : j = 0 ∨ j = 1 ∨ j = 2 := by omega
        · rw [d4]; decide
        · rw [d5]; omega
        · rw [d6]; decide
      · by_cases c2 : j < 19
        · have := a2 (j - 3) (by omega)
          rw [show 4 + j = 7 + (j - 3) by omega, this, List.getD_eq_getElem?_getD, List.getElem?_eq_getElem (by omega)]
          have := hby _ (List.mem_append_left _ (List.getElem_mem (l := counts) (n := j - 3) (by omega)))
          simp only [Option.getD_some]; omega
        · have := a3 (j - 19) (by omega)
          rw [show 4 + j = 23 + (j - 19) by omega, this, List.getD_eq_getElem?_getD, List.getElem?_eq_getElem (by omega)]
          have := hby _ (List.mem_append_right _ (List.getElem_mem (l := vals) (n := j - 19) (by omega)))
          simp only [Option.getD_some]; omega
  have s4 : ∀ s : Ljp, s.data = d → s.datalen = dl → s.ix = 36 + n → find s = some ({ s with ix := 38 + n }, 0xDA) := by
    intro s h1 h2 h3
    have := find_at (s := s) 0 (fun j hj => by omega) (by rw [h1, h3, show 36 + n + 0 = 23 + n + 13 by omega]; exact e13) (by rw [h2, h3]; omega)
    rw [this, h1, h3, show 36 + n + 0 + 2 = 38 + n by omega, show 36 + n + 0 + 1 = 23 + n + 14 by omega, e14]
  have hy : d (25 + n + 3) * 256 + d (25 + n + 3 + 1) = lines := by
    rw [show 25 + n + 3 + 1 = 23 + n + 6 by omega, show 25 + n + 3 = 23 + n + 5 by omega, e5, e6]; exact be16_val hl
  have hx : d (25 + n + 5) * 256 + d (25 + n + 5 + 1) = samples := by
    rw [show 25 + n + 5 + 1 = 23 + n + 8 by omega, show 25 + n + 5 = 23 + n + 7 by omega, e7, e8]; exact be16_val hs
  have hbb : d (25 + n + 2) = bd := by rw [show 25 + n + 2 = 23 + n + 4 by omega]; exact e4
  have hcc : d (25 + n + 7) = 1 := by rw [show 25 + n + 7 = 23 + n + 9 by omega]; exact e9
  have hll : 25 + n + (d (25 + n) * 256 + d (25 + n + 1)) = 36 + n := by
    rw [show 25 + n + 1 = 23 + n + 3 by omega, show 25 + n = 23 + n + 2 by omega, e2, e3]; omega
  obtain ⟨g, hg⟩ : ∃ g, dl = g + 3 := ⟨dl - 3, by omega⟩
  let S : Ljp := { data := d, datalen := dl, scanstart := 38 + n, ix := 38 + n, x := samples, y := lines, bits := bd, components := 1,
                   skiplen := 0, hufflut := f.lut, huffbits := mb, cnt := 0, b := 0, image := fun _ => 0, rowcache := fun _ => 0 }
  have hst : 38 + n + (d (38 + n) * 256 + d (38 + n + 1)) = 46 + n := by
    rw [show 38 + n + 1 = 23 + n + 16 by omega, show 38 + n = 23 + n + 15 by omega, e15, e16]; omega
  refine ⟨S, ?_, rfl, rfl, rfl, rfl, rfl, rfl, hmax, ?_, ?_, ?_, hst, ?_⟩
  · unfold open'
    dsimp only
    rw [s1 _ rfl rfl rfl]
    dsimp only
    rw [if_pos rfl]
    refine (congrArg (fun g => parseImage g _) hg).trans ?_
    rw [parseImage, s2 _ rfl rfl rfl]
    dsimp only
    rw [if_pos rfl, parseHuff]
    dsimp only
    rw [hput, hmb, f1]
    dsimp only
    rw [if_neg (by simp only [beh, Nat.reduceAdd, d4, d5]; omega), Option.bind_some, parseImage, s3 _ rfl rfl rfl]
    dsimp only
    rw [if_neg (by decide), if_pos rfl, parseSof3]
    dsimp only
    rw [if_neg (by omega), Option.bind_some]
    simp only [beh, hy, hx, hbb, hcc, hll]
    rw [parseImage, s4 _ rfl rfl rfl]
    dsimp only
    rw [if_neg (by decide), if_neg (by decide), if_neg (by decide), if_neg (by decide), if_pos rfl]
  · intro t ht
    obtain ⟨k, h1⟩ := List.getElem?_of_mem ((hmem t).2 ht)
    obtain ⟨e, h2, h3⟩ := hword k t h1
    have h4 := f2 k e h2
    have hk := (List.getElem?_eq_some_iff.1 h1).1
    have h5 : d (4 + 19 + k) = t := by
      have := a3 k hk
      rw [show 4 + 19 + k = 23 + k by omega, this, List.getD_eq_getElem?_getD, h1]; rfl
    rw [h5, ← h3] at h4
    exact h4
  · show d (38 + n + 2) = 1
    rw [show 38 + n + 2 = 23 + n + 17 by omega]; exact e17
  · show d (38 + n + 3 + 2 * 1) = p
    rw [show 38 + n + 3 + 2 * 1 = 23 + n + 20 by omega]; exact e20
  · show At d (38 + n + (d (38 + n) * 256 + d (38 + n + 1))) rest
    rw [hst, show 46 + n = 23 + n + 23 by omega]
    exact a5

/-- What `lj92_open` makes of a file with one component and predictor 6. -/
theorem open_header6 {d : Nat → Nat} {bd lines samples : Nat} {counts vals rest : List Nat} {T : Table} {P : Nat → Prop}
    (hD : DescribesFor counts vals T P) (hby : ∀ x, x ∈ counts ++ vals → x < 255) (htot : vals.length < 200)
    (hl : lines < 65536) (hs : samples < 65536) (hrest : 1 ≤ rest.length)
    (hfile : At d 0 (header6 bd lines samples counts vals ++ rest)) (mem : Nat → Nat) :
    ∃ s, open' d (header6 bd lines samples counts vals ++ rest).length mem = some s ∧ s.data = d ∧
      s.datalen = (header6 bd lines samples counts vals ++ rest).length ∧ s.x = samples ∧ s.y = lines ∧
      s.bits = bd ∧ s.components = 1 ∧ s.huffbits ≤ 16 ∧ (∀ t, P t → LutOk s.hufflut s.huffbits (T t) t) ∧
      d (s.scanstart + 2) = 1 ∧ d (s.scanstart + 3 + 2 * 1) = 6 ∧
      s.scanstart + beh d s.scanstart = (header6 bd lines samples counts vals).length ∧
      At d (s.scanstart + beh d s.scanstart) rest :=
  open_headerP (comp := [0, 0x11, 0]) (sel := [0, 0]) (pt := [0, 0]) rfl rfl rfl hD hby htot hl hs hrest hfile mem

end Model.Lj92
