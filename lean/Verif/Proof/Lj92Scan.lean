/- Helper lemmas about the model of the lj92 decoder: the scan. -/
import Verif.Proof.Lj92Huff

set_option autoImplicit false

namespace Model.Lj92
open Spec

theorem forN_inv {σ : Type} {f : Nat → σ → Option σ} {P : Nat → σ → Prop} : ∀ (n : Nat)
    (_ : ∀ k s, k < n → P k s → ∃ s', f k s = some s' ∧ P (k + 1) s') (s : σ) (_ : P 0 s), ∃ s', forN f n s = some s' ∧ P n s'
  | 0, _, s, h => ⟨s, rfl, h⟩
  | n + 1, hf, s, h => by
    obtain ⟨s1, h1, h2⟩ := forN_inv n (fun k s hk => hf k s (by omega)) s h
    obtain ⟨s2, h3, h4⟩ := hf n s1 (by omega) h2
    exact ⟨s2, by simp [forN, h1, h3], h4⟩

/-- The code from sample `n` on. -/
def codeFrom (T : Table) (bd W : Nat) (l : List Nat) (n : Nat) : List Bool :=
  (List.range' n (l.length - n)).flatMap fun i => pixelBits T (l.getD i 0) (pred bd W l i)

theorem codeFrom_zero (T : Table) (bd W : Nat) (l : List Nat) : codeFrom T bd W l 0 = encode T bd W l := by
  simp [codeFrom, encode, List.range_eq_range']

theorem codeFrom_step (T : Table) (bd W : Nat) (l : List Nat) {n : Nat} (h : n < l.length) :
    codeFrom T bd W l n = pixelBits T (l.getD n 0) (pred bd W l n) ++ codeFrom T bd W l (n + 1) := by
  unfold codeFrom
  rw [show l.length - n = (l.length - (n + 1)) + 1 by omega, List.range'_succ, List.flatMap_cons]

/-- What does not change during the scan. -/
structure Fixed (s t : Ljp) : Prop where
  data : t.data = s.data
  x : t.x = s.x
  y : t.y = s.y
  bits : t.bits = s.bits
  components : t.components = s.components
  skiplen : t.skiplen = s.skiplen
  hufflut : t.hufflut = s.hufflut
  huffbits : t.huffbits = s.huffbits

/-- What the scan needs: four components of `x ≥ 4` samples, a table for the classes in use, bytes. -/
structure ScanReady (s : Ljp) (T : Table) (bd : Nat) : Prop where
  bytes : ∀ k, s.data k < 256
  comps : s.components = 4
  x4 : 4 ≤ s.x
  bits : s.bits = bd
  bd1 : 1 ≤ bd
  bd15 : bd ≤ 15
  hb : s.huffbits ≤ 16
  lut : ∀ t, t ≤ bd → LutOk s.hufflut s.huffbits (T t) t

/-- State before sample `j` of row `row`. -/
structure ScanInv (s0 : Ljp) (T : Table) (bd W : Nat) (acc : List Nat) (row j : Nat) (s : Ljp) : Prop where
  fixed : Fixed s0 s
  rep : Rep s0.data (s.b, s.cnt, s.ix) (codeFrom T bd W acc (row * W + j))
  cnt : s.cnt ≤ 31
  image : ∀ r q, q < W → r * W + q < row * W + j → s.image (r * (W + s0.skiplen) + q) = acc.getD (r * W + q) 0
  gaps : ∀ k, (∀ r q, q < W → r * W + q < row * W + j → k ≠ r * (W + s0.skiplen) + q) → s.image k = s0.image k
  this : ∀ k, k < j → s.rowcache (thisrow s0 row + k) = acc.getD (row * W + k) 0
  last : 0 < row → ∀ c, j ≤ c → c < 4 → s.rowcache (lastrow s0 row + c) = acc.getD ((row - 1) * W + c) 0

theorem pred_px {s0 s : Ljp} {T : Table} {bd W : Nat} {acc : List Nat} {row col c : Nat} (hr : ScanReady s0 T bd)
    (hW : s0.x * 4 = W) (h : ScanInv s0 T bd W acc row (col * 4 + c) s) (hcol : col < s0.x) (hc : c < 4) (left : Int) :
    px s 1 left row col c = (pred bd W acc (row * W + (col * 4 + c)) : Nat) := by
  have hx4 := hr.x4
  have hmod : (row * W + (col * 4 + c)) % W = col * 4 + c := by
    rw [Nat.add_comm, Nat.add_mul_mod_self_right, Nat.mod_eq_of_lt (by omega)]
  have ht : thisrow s row = thisrow s0 row := by unfold thisrow; rw [h.fixed.x]
  have hl : lastrow s row = lastrow s0 row := by unfold lastrow; rw [h.fixed.x]
  unfold px
  dsimp only
  rw [h.fixed.bits, h.fixed.components, hr.bits, hr.comps, ht, hl]
  unfold pred
  rw [hmod]
  by_cases hcol0 : col = 0
  · subst hcol0
    simp only [Nat.zero_mul, Nat.zero_add] at *
    rw [if_pos hc]
    by_cases hrow : row = 0
    · subst hrow
      have : c < W := by omega
      simp [this]
    · have : ¬ (row * W + c < W) := by
        have := Nat.mul_le_mul_right W (show 1 ≤ row by omega)
        omega
      rw [if_neg (by simp [hrow]), if_neg hrow, if_pos trivial, if_neg this, h.last (by omega) c (by simp) hc]
      congr 2
      rw [Nat.sub_mul, Nat.one_mul]
      have := Nat.mul_le_mul_right W (show 1 ≤ row by omega)
      omega
  · rw [if_neg (by simp [hcol0]), if_neg (show ¬ (col * 4 + c < 4) by omega)]
    have hk : (col - 1) * 4 + c < col * 4 + c := by omega
    have hthis := h.this _ hk
    have he : row * W + ((col - 1) * 4 + c) = row * W + (col * 4 + c) - 4 := by omega
    rw [he] at hthis
    by_cases hrow : row = 0
    · rw [if_pos hrow, hthis]
    · rw [if_neg hrow, if_neg hcol0, hthis]; rfl

theorem body_step (ub : Int) {s0 s : Ljp} {T : Table} {bd W H : Nat} {acc : List Nat} {row col c : Nat} (hr : ScanReady s0 T bd)
    (hW : s0.x * 4 = W) (hlen : acc.length = W * H) (hacc : ∀ x ∈ acc, x < 2 ^ bd) (hrow : row < H)
    (h : ScanInv s0 T bd W acc row (col * 4 + c) s) (hcol : col < s0.x) (hc : c < 4) (left : Int) :
    ∃ s' left', body ub none 1 row col c (s, left) = some (s', left') ∧ ScanInv s0 T bd W acc row (col * 4 + c + 1) s' := by
  have hx4 := hr.x4
  generalize hj : col * 4 + c = j at *
  have hjW : j < W := by omega
  have hn : row * W + j < acc.length := by
    rw [hlen, Nat.mul_comm W H]
    have : (row + 1) * W ≤ H * W := Nat.mul_le_mul_right W hrow
    rw [Nat.add_mul] at this
    omega
  have hpx : px s 1 left row col c = (pred bd W acc (row * W + j) : Nat) := by
    subst hj; exact pred_px hr hW h hcol hc left
  have hxlt : acc.getD (row * W + j) 0 < 2 ^ bd := by
    rw [List.getD_eq_getElem?_getD, List.getElem?_eq_getElem hn]
    exact hacc _ (List.getElem_mem hn)
  have hplt := pred_lt (bd := bd) (W := W) (l := acc) hr.bd1 hacc (row * W + j)
  have hpow : 2 ^ bd ≤ 2 ^ 15 := Nat.pow_le_pow_right (by decide) hr.bd15
  generalize hxe : acc.getD (row * W + j) 0 = x at *
  generalize hpe : pred bd W acc (row * W + j) = p at *
  have hcls : cls ((x : Int) - p) ≤ bd := cls_le (by omega)
  have hrep := h.rep
  rw [codeFrom_step T bd W acc hn, hxe, hpe, pixelBits, diffBits, if_neg (by have := hr.bd15; omega), List.append_assoc] at hrep
  have hbytes : ∀ k, s.data k < 256 := by rw [h.fixed.data]; exact hr.bytes
  obtain ⟨s1, n1, n2, n3, n4⟩ := nextdiff_rep ub (s := s) (w := T (cls ((x : Int) - p))) (t := cls ((x : Int) - p)) (e := extra ((x : Int) - p))
    (S := codeFrom T bd W acc (row * W + j + 1)) hbytes (by rw [h.fixed.huffbits]; exact hr.hb)
    (by rw [h.fixed.hufflut, h.fixed.huffbits]; exact hr.lut _ hcls) (by have := hr.bd15; omega) (extra_lt _) h.cnt
    (by rw [h.fixed.data]; exact hrep)
  rw [extend_extra] at n1
  have hleft : (((p : Int) + ((x : Int) - p)).tmod 65536) % 65536 = (x : Int) := by
    have e : (p : Int) + ((x : Int) - p) = x := by omega
    rw [e, Int.tmod_eq_of_lt (by omega) (by omega)]
    omega
  have f0 := h.fixed
  have f1 : Fixed s0 s1 := by
    rw [n4]; exact ⟨f0.data, f0.x, f0.y, f0.bits, f0.components, f0.skiplen, f0.hufflut, f0.huffbits⟩
  have him : s1.image = s.image := by rw [n4]
  have hrc : s1.rowcache = s.rowcache := by rw [n4]
  have ht : thisrow s1 row = thisrow s0 row := by unfold thisrow; rw [f1.x]
  have haddr : row * (s1.x * s1.components + s1.skiplen) + (col * s1.components + c) = row * (W + s0.skiplen) + j := by
    rw [f1.x, f1.components, f1.skiplen, hr.comps, hW, hj]
  have hcomp : col * s1.components + c = j := by rw [f1.components, hr.comps, hj]
  refine ⟨{ s1 with rowcache := put s1.rowcache (thisrow s0 row + j) x, image := put s1.image (row * (W + s0.skiplen) + j) x }, x, ?_, ?_⟩
  · unfold body
    dsimp only
    rw [n1]
    dsimp only
    rw [hpx, hleft, haddr, ht, hcomp]
    rfl
  have hsame : ∀ r q, q < W → r * W + q < row * W + (j + 1) → r * (W + s0.skiplen) + q = row * (W + s0.skiplen) + j → r = row ∧ q = j := by
    intro r q hq hlt he
    by_cases hrr : r = row
    · subst hrr; exact ⟨rfl, by omega⟩
    · exfalso
      have hle : r < row := by
        apply Nat.lt_of_not_le
        intro hge
        have : (row + 1) * W ≤ r * W := Nat.mul_le_mul_right W (by omega)
        rw [Nat.add_mul] at this
        omega
      have : (r + 1) * (W + s0.skiplen) ≤ row * (W + s0.skiplen) := Nat.mul_le_mul_right _ hle
      rw [Nat.add_mul] at this
      omega
  have hlt' : ∀ r q, q < W → r * W + q < row * W + (j + 1) → ¬(r = row ∧ q = j) → r * W + q < row * W + j := by
    intro r q hq hlt hne
    apply Nat.lt_of_le_of_ne (by omega)
    intro he
    apply hne
    by_cases hrr : r = row
    · subst hrr; exact ⟨rfl, by omega⟩
    · exfalso
      rcases Nat.lt_or_gt_of_ne hrr with hlt | hlt
      · have : (r + 1) * W ≤ row * W := Nat.mul_le_mul_right W hlt
        rw [Nat.add_mul] at this; omega
      · have : (row + 1) * W ≤ r * W := Nat.mul_le_mul_right W hlt
        rw [Nat.add_mul] at this; omega
  refine { fixed := ⟨f1.data, f1.x, f1.y, f1.bits, f1.components, f1.skiplen, f1.hufflut, f1.huffbits⟩, rep := ?_, cnt := n3,
           image := ?_, gaps := ?_, this := ?_, last := ?_ }
  · rw [h.fixed.data] at n2; exact n2
  · intro r q hq hlt
    dsimp only [put]
    by_cases he : r = row ∧ q = j
    · obtain ⟨rfl, rfl⟩ := he
      rw [if_pos rfl, hxe]
    · rw [if_neg (fun e => he (hsame r q hq hlt e)), him]
      exact h.image r q hq (hlt' r q hq hlt he)
  · intro k hk
    dsimp only [put]
    rw [if_neg (hk row j hjW (by omega)), him]
    exact h.gaps k (fun r q hq hlt => hk r q hq (by omega))
  · intro k hk
    dsimp only [put]
    by_cases he : k = j
    · subst he; rw [if_pos rfl, hxe]
    · rw [if_neg (by omega), hrc]
      exact h.this k (by omega)
  · intro hr0 c' hc' hc4
    dsimp only [put]
    have hne : lastrow s0 row + c' ≠ thisrow s0 row + j := by
      unfold lastrow thisrow
      split <;> omega
    rw [if_neg hne, hrc]
    exact h.last hr0 c' (by omega) hc4

theorem row_done {s0 s : Ljp} {T : Table} {bd W : Nat} {acc : List Nat} {row : Nat} (hW : 4 ≤ W)
    (h : ScanInv s0 T bd W acc row W s) : ScanInv s0 T bd W acc (row + 1) 0 s := by
  have e : (row + 1) * W + 0 = row * W + W := by rw [Nat.add_mul]; omega
  refine { fixed := h.fixed, rep := by rw [e]; exact h.rep, cnt := h.cnt, image := by rw [e]; exact h.image, gaps := by rw [e]; exact h.gaps,
           this := fun k hk => by omega, last := ?_ }
  intro _ c _ hc
  have := h.this c (by omega)
  rw [Nat.add_sub_cancel, ← this]
  congr 2
  unfold lastrow thisrow
  by_cases hp : row % 2 = 0
  · rw [if_neg (by omega), if_pos hp]
  · rw [if_pos (by omega), if_neg hp]

/-- The scan loops decode the whole image. -/
theorem scan_run (ub : Int) {s0 : Ljp} {T : Table} {bd W : Nat} {acc : List Nat} (hr : ScanReady s0 T bd)
    (hW : s0.x * 4 = W) (hlen : acc.length = W * s0.y) (hacc : ∀ x ∈ acc, x < 2 ^ bd)
    (hrep : Rep s0.data (s0.b, s0.cnt, s0.ix) (encode T bd W acc)) (hc : s0.cnt ≤ 31) :
    ∃ v, forN (fun row => forN (fun col => forN (fun c => body ub none 1 row col c) s0.components) s0.x) s0.y (s0, 0) = some v ∧
      ScanInv s0 T bd W acc s0.y 0 v.1 := by
  have hx4 := hr.x4
  apply forN_inv (σ := Ljp × Int) (P := fun row v => ScanInv s0 T bd W acc row 0 v.1)
  · intro row v hrow hv
    have h1 : ∃ v', forN (fun col => forN (fun c => body ub none 1 row col c) s0.components) s0.x v = some v' ∧
        ScanInv s0 T bd W acc row (s0.x * 4) v'.1 := by
      apply forN_inv (σ := Ljp × Int) (P := fun col v => ScanInv s0 T bd W acc row (col * 4) v.1)
      · intro col v hcol hv
        have h2 : ∃ v', forN (fun c => body ub none 1 row col c) s0.components v = some v' ∧
            ScanInv s0 T bd W acc row (col * 4 + s0.components) v'.1 := by
          apply forN_inv (σ := Ljp × Int) (P := fun c v => ScanInv s0 T bd W acc row (col * 4 + c) v.1)
          · intro c v hc hv
            rw [hr.comps] at hc
            obtain ⟨s', l', a, b⟩ := body_step ub hr hW hlen hacc hrow hv hcol hc v.2
            exact ⟨(s', l'), a, b⟩
          · exact hv
        obtain ⟨v', a, b⟩ := h2
        exact ⟨v', a, by rw [hr.comps] at b; rw [Nat.add_mul]; exact b⟩
      · simpa using hv
    obtain ⟨v', a, b⟩ := h1
    rw [hW] at b
    exact ⟨v', a, row_done (by omega) b⟩
  · exact { fixed := ⟨rfl, rfl, rfl, rfl, rfl, rfl, rfl, rfl⟩, rep := by simpa [codeFrom_zero] using hrep, cnt := hc,
            image := fun r q hq hlt => by omega, gaps := fun k _ => rfl, this := fun k hk => by omega, last := fun h => by omega }

end Model.Lj92
