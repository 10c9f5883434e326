/- Helper lemmas about the model of the lj92 encoder: the two passes over the image. -/
import Verif.Proof.Lj92Wr
import Verif.Proof.Lj92Scan

set_option autoImplicit false

namespace Model.Lj92.Enc
open Spec Model.Lj92

/-- Before pixel `n` of the image `acc`. -/
structure CurInv (a : Args) (acc : List Nat) (n : Nat) (c : Cur) : Prop where
  pixel : c.pixel = n + n / a.readLength * a.skipLength
  scan : c.scan = (a.readLength - n % a.readLength : Nat)
  col : c.col = n % a.width
  row : c.row = n / a.width
  this : ∀ k, k < c.col → c.rows1 k = acc.getD (c.row * a.width + k) 0
  last : 0 < c.row → ∀ k, k < a.width → c.rows0 k = acc.getD ((c.row - 1) * a.width + k) 0

theorem cur_init (a : Args) (acc : List Nat) : CurInv a acc 0 (Cur.init a) := by
  refine ⟨by simp [Cur.init], by simp [Cur.init], by simp [Cur.init], by simp [Cur.init], fun k hk => ?_, fun h => ?_⟩
  · simp [Cur.init] at hk
  · simp [Cur.init] at h

theorem div_mod_succ {w n : Nat} (hw : 1 ≤ w) :
    (n % w + 1 = w ∧ (n + 1) / w = n / w + 1 ∧ (n + 1) % w = 0) ∨ (n % w + 1 < w ∧ (n + 1) / w = n / w ∧ (n + 1) % w = n % w + 1) := by
  have h1 := Nat.mod_lt n hw
  have h2 := Nat.div_add_mod n w
  by_cases h : n % w + 1 = w
  · left
    have e : n + 1 = w * (n / w + 1) := by rw [Nat.mul_add]; omega
    refine ⟨h, ?_, ?_⟩
    · rw [e, Nat.mul_div_cancel_left _ hw]
    · rw [e, Nat.mul_mod_right]
  · right
    have e : n + 1 = w * (n / w) + (n % w + 1) := by omega
    refine ⟨by omega, ?_, ?_⟩
    · rw [e, Nat.mul_add_div hw, Nat.div_eq_of_lt (a := n % w + 1) (by omega), Nat.add_zero]
    · rw [e, Nat.mul_add_mod, Nat.mod_eq_of_lt (by omega)]

theorem cur_step {a : Args} {acc : List Nat} (hw : 1 ≤ a.width) (hrl : 1 ≤ a.readLength) {n p : Nat} {c : Cur} (h : CurInv a acc n c)
    (hp : p = acc.getD n 0) : (diffOf a c p).2 = diff6 a.bitdepth a.width acc n ∧ CurInv a acc (n + 1) (next a (diffOf a c p).1) := by
  obtain ⟨i, sc, r0, r1, col, row⟩ := c
  obtain ⟨h1, h2, h3, h4, h5, h6⟩ := h
  dsimp only at h1 h2 h3 h4 h5 h6
  have hn : row * a.width + col = n := by rw [h3, h4, Nat.mul_comm]; exact Nat.div_add_mod n a.width
  have hcol : col < a.width := by rw [h3]; exact Nat.mod_lt _ hw
  have hrow0 : row = 0 ↔ n < a.width := by
    constructor
    · intro e; rw [e] at hn; omega
    · intro e; rw [h4]; exact Nat.div_eq_of_lt e
  constructor
  · unfold diffOf diff6
    dsimp only
    have e1 : put r1 col p col = p := by simp [put]
    rw [e1, hp]
    congr 2
    unfold predict pred6
    dsimp only
    by_cases hr : row = 0
    · subst hr
      have hnc : n = col := by omega
      by_cases hc : col = 0
      · subst hc; simp [hnc]
      · have e2 : put r1 col (acc.getD n 0) (col - 1) = acc.getD (col - 1) 0 := by
          unfold put; rw [if_neg (by omega), h5 _ (by omega)]; simp
        rw [if_neg (by omega), if_pos rfl, if_neg (by omega), if_pos (by omega), e2, hnc]
    · have hnw : ¬ n < a.width := fun e => hr (hrow0.2 e)
      have hn0 : n ≠ 0 := by omega
      have hrm : (row - 1) * a.width = row * a.width - a.width := by rw [Nat.sub_mul, Nat.one_mul]
      have hge : a.width ≤ row * a.width := by have := Nat.mul_le_mul_right a.width (show 1 ≤ row by omega); omega
      rw [if_neg (by simp [hr]), if_neg hr, if_neg hn0, if_neg hnw, ← h3]
      by_cases hc : col = 0
      · rw [if_pos hc, if_pos hc, h6 (by omega) _ hcol]
        congr 2; omega
      · have e2 : put r1 col (acc.getD n 0) (col - 1) = acc.getD (n - 1) 0 := by
          unfold put; rw [if_neg (by omega), h5 _ (by omega)]
          congr 1; omega
        rw [if_neg hc, if_neg hc, e2, h6 (by omega) _ hcol, h6 (by omega) (col - 1) (by omega)]
        rw [show (row - 1) * a.width + col = n - a.width by omega, show (row - 1) * a.width + (col - 1) = n - a.width - 1 by omega]
  · -- the next position
    have hthis : ∀ k, k < col + 1 → put r1 col p k = acc.getD (row * a.width + k) 0 := by
      intro k hk
      unfold put
      by_cases e : k = col
      · rw [if_pos e, hp, e, hn]
      · rw [if_neg e, h5 k (by omega)]
    have hc' : (next a (diffOf a ⟨i, sc, r0, r1, col, row⟩ p).1).pixel = (n + 1) + (n + 1) / a.readLength * a.skipLength ∧
        (next a (diffOf a ⟨i, sc, r0, r1, col, row⟩ p).1).scan = (a.readLength - (n + 1) % a.readLength : Nat) := by
      have hm := Nat.mod_lt n hrl
      rcases div_mod_succ (n := n) hrl with ⟨d1, d2, d3⟩ | ⟨d1, d2, d3⟩
      · have hs : sc - 1 = 0 := by omega
        rw [d2, d3, Nat.add_mul]
        unfold next diffOf
        dsimp only
        rw [if_pos hs]
        split <;> (dsimp only; constructor <;> omega)
      · have hs : ¬ sc - 1 = 0 := by omega
        rw [d2, d3]
        unfold next diffOf
        dsimp only
        rw [if_neg hs]
        split <;> (dsimp only; constructor <;> omega)
    have hcs : ∀ c' : Cur, c' = next a (diffOf a ⟨i, sc, r0, r1, col, row⟩ p).1 →
        (col + 1 = a.width ∧ c'.col = 0 ∧ c'.row = row + 1 ∧ c'.rows0 = put r1 col p) ∨
        (col + 1 < a.width ∧ c'.col = col + 1 ∧ c'.row = row ∧ c'.rows0 = r0 ∧ c'.rows1 = put r1 col p) := by
      intro c' he
      subst he
      unfold next diffOf
      dsimp only
      by_cases hs : sc - 1 = 0
      · by_cases hcw : col + 1 = a.width
        · left; simp [hs, hcw]
        · right; simp [hs, hcw]; omega
      · by_cases hcw : col + 1 = a.width
        · left; simp [hs, hcw]
        · right; simp [hs, hcw]; omega
    generalize next a (diffOf a ⟨i, sc, r0, r1, col, row⟩ p).1 = c' at *
    obtain ⟨hc1, hc2⟩ := hc'
    rcases hcs c' rfl with ⟨g1, g2, g3, g4⟩ | ⟨g1, g2, g3, g4, g5⟩
    · rcases div_mod_succ (n := n) hw with ⟨d1, d2, d3⟩ | ⟨d1, d2, d3⟩
      · refine ⟨hc1, hc2, by omega, by omega, fun k hk => by omega, fun _ k hk => ?_⟩
        rw [g4, g3, Nat.add_sub_cancel]
        exact hthis k (by omega)
      · omega
    · rcases div_mod_succ (n := n) hw with ⟨d1, d2, d3⟩ | ⟨d1, d2, d3⟩
      · omega
      · refine ⟨hc1, hc2, by omega, by omega, fun k hk => ?_, fun hr k hk => ?_⟩
        · rw [g5, g3]; exact hthis k (by omega)
        · rw [g4, g3]; exact h6 (by omega) k hk

theorem ssssOf_cls {d : Int} (h : d.natAbs < 2 ^ 17) : ssssOf d = cls d := by
  unfold ssssOf cls
  by_cases h0 : d = 0
  · simp [h0]
  · rw [if_neg h0, if_neg h0]
    have : Nat.log2 d.natAbs < 17 := (Nat.log2_lt (by omega)).2 h
    omega

theorem diff6_lt (bd W : Nat) (l : List Nat) (i : Nat) : (diff6 bd W l i).natAbs < 65536 := by
  unfold diff6
  have := Int.natAbs_tmod ((l.getD i 0 : Int) - pred6 bd W l i) 65536
  rw [this]
  exact Nat.mod_lt _ (by decide)

theorem cls_diff6_le (bd W : Nat) (l : List Nat) (i : Nat) : cls (diff6 bd W l i) ≤ 16 := cls_le (diff6_lt bd W l i)

/-- Classes of the first `n` samples. -/
def countTo (bd W : Nat) (l : List Nat) (n t : Nat) : Nat := ((List.range n).filter fun i => cls (diff6 bd W l i) = t).length

theorem countTo_succ (bd W : Nat) (l : List Nat) (n t : Nat) :
    countTo bd W l (n + 1) t = countTo bd W l n t + if cls (diff6 bd W l n) = t then 1 else 0 := by
  unfold countTo
  rw [List.range_succ, List.filter_append, List.length_append]
  congr 1
  by_cases h : cls (diff6 bd W l n) = t <;> simp [h]

/-- The first pass counts the classes. -/
theorem frequencyScan_spec {a : Args} {acc : List Nat} (hw : 1 ≤ a.width) (hrl : 1 ≤ a.readLength) (hlen : acc.length = a.width * a.height)
    (himg : ∀ n, n < acc.length → a.image (n + n / a.readLength * a.skipLength) = acc.getD n 0) :
    ∃ c, frequencyScan a = some (c, classCount a.bitdepth a.width acc) := by
  have key : ∃ v, frequencyScan a = some v ∧ CurInv a acc (a.width * a.height) v.1 ∧ v.2 = countTo a.bitdepth a.width acc (a.width * a.height) := by
    unfold frequencyScan
    apply forN_inv (σ := Cur × (Nat → Nat)) (P := fun n v => CurInv a acc n v.1 ∧ v.2 = countTo a.bitdepth a.width acc n)
    · intro n v hn hv
      obtain ⟨c, hist⟩ := v
      obtain ⟨h1, h2⟩ := hv
      dsimp only at h1 h2
      have hp : a.image c.pixel = acc.getD n 0 := by rw [h1.pixel]; exact himg n (by omega)
      obtain ⟨s1, s2⟩ := cur_step hw hrl h1 hp
      refine ⟨_, rfl, s2, ?_⟩
      show put hist (ssssOf (diffOf a c (a.image c.pixel)).2) (hist (ssssOf (diffOf a c (a.image c.pixel)).2) + 1) = _
      rw [s1, ssssOf_cls (Nat.lt_of_lt_of_le (diff6_lt ..) (by decide)), h2]
      funext t
      rw [countTo_succ]
      unfold put
      by_cases e : t = cls (diff6 a.bitdepth a.width acc n)
      · rw [if_pos e, if_pos e.symm, e]
      · rw [if_neg e, if_neg (fun e' => e e'.symm), Nat.add_zero]
    · exact ⟨cur_init a acc, rfl⟩
  obtain ⟨⟨c, hist⟩, h1, h2, h3⟩ := key
  refine ⟨c, ?_⟩
  rw [h1]
  dsimp only at h3
  rw [h3]
  unfold classCount
  rw [hlen]
  rfl

/-- The table gives the code words `T` to the classes `P`. -/
def TabFor (t : Tab) (T : Table) (P : Nat → Prop) : Prop :=
  ∀ k, P k → (t.codes.getD (t.huffsym k) (0, 0)).1 ≤ 16 ∧
    (t.codes.getD (t.huffsym k) (0, 0)).2 < 2 ^ (t.codes.getD (t.huffsym k) (0, 0)).1 ∧
    T k = toBits (t.codes.getD (t.huffsym k) (0, 0)).1 (t.codes.getD (t.huffsym k) (0, 0)).2

/-- The code of the first `n` samples. -/
def codeTo (T : Table) (bd W : Nat) (l : List Nat) (n : Nat) : List Bool := (List.range n).flatMap fun i => wideBits T (diff6 bd W l i)

theorem codeTo_succ (T : Table) (bd W : Nat) (l : List Nat) (n : Nat) :
    codeTo T bd W l (n + 1) = codeTo T bd W l n ++ wideBits T (diff6 bd W l n) := by
  simp [codeTo, List.range_succ]

theorem extra_adjust (d : Int) : ((if d < (if cls d > 0 then (2 : Int) ^ (cls d - 1) else 0) then d + (2 ^ cls d - 1) else d)).toNat = extra d := by
  by_cases h0 : d = 0
  · subst h0; decide
  · have hp := cls_pos h0
    obtain ⟨b1, b2⟩ := cls_bounds d h0
    rw [if_pos hp]
    unfold extra
    have c1 : ((2 : Int) ^ (cls d - 1)) = ((2 ^ (cls d - 1) : Nat) : Int) := by simp
    have hpos := Nat.two_pow_pos (cls d - 1)
    by_cases hd : 0 ≤ d
    · rw [if_pos hd, if_neg (by rw [c1]; omega)]
    · rw [if_neg hd, if_pos (by rw [c1]; omega)]
      congr 1; omega

theorem bodyStep_spec {a : Args} {acc : List Nat} (hw : 1 ≤ a.width) (hrl : 1 ≤ a.readLength)
    {t : Tab} {T : Table} {P : Nat → Prop} (ht : TabFor t T P) {base : List Nat} {n : Nat}
    (hP : P (cls (diff6 a.bitdepth a.width acc n)))
    {c : Cur} {s : Wr} (hacc : a.value (n + n / a.readLength * a.skipLength) = acc.getD n 0) (hc : CurInv a acc n c) {B : List Bool} (hs : WrRep a.encodedLength base s B) :
    (∃ c' s', bodyStep a t c s = .ok (c', s') ∧ CurInv a acc (n + 1) c' ∧
      WrRep a.encodedLength base s' (B ++ wideBits T (diff6 a.bitdepth a.width acc n))) ∨
    (bodyStep a t c s = .error .encoder ∧ Full a.encodedLength base (B ++ wideBits T (diff6 a.bitdepth a.width acc n))) := by
  have hlen : 2 ≤ a.encodedLength := by unfold Args.encodedLength; omega
  have hp : a.value c.pixel = acc.getD n 0 := by rw [← hacc, hc.pixel]
  obtain ⟨s1, s2⟩ := cur_step hw hrl hc hp
  unfold bodyStep
  dsimp only
  rw [s1, ssssOf_cls (Nat.lt_of_lt_of_le (diff6_lt ..) (by decide))]
  generalize hd : diff6 a.bitdepth a.width acc n = d at *
  obtain ⟨t1, t2, t3⟩ := ht _ hP
  generalize t.codes.getD (t.huffsym (cls d)) (0, 0) = code at *
  have hcl : cls d ≤ 16 := by rw [← hd]; exact cls_diff6_le ..
  rw [extra_adjust]
  have hB : B ++ wideBits T d = B ++ toBits code.1 code.2 ++ toBits (cls d) (extra d) := by
    rw [wideBits, t3, List.append_assoc]
  rcases emit_rep hlen 16 code.2 code.1 s B t1 t2 hs with ⟨w1, e1, e2⟩ | ⟨e1, e2⟩
  · rw [e1]
    dsimp only
    rcases emit_rep hlen 16 (extra d) (cls d) w1 _ hcl (extra_lt d) e2 with ⟨w2, f1, f2⟩ | ⟨f1, f2⟩
    · rw [f1]
      left
      exact ⟨_, w2, rfl, s2, by rw [hB]; exact f2⟩
    · rw [f1]
      right
      exact ⟨rfl, by rw [hB]; exact f2⟩
  · rw [e1]
    right
    exact ⟨rfl, by rw [hB]; exact e2.mono⟩

theorem bodyLoop_spec {a : Args} {acc : List Nat} (hw : 1 ≤ a.width) (hrl : 1 ≤ a.readLength)
    (hacc : ∀ n, n < acc.length → a.value (n + n / a.readLength * a.skipLength) = acc.getD n 0)
    {t : Tab} {T : Table} {P : Nat → Prop} (ht : TabFor t T P) {base : List Nat}
    (hP : ∀ n, n < acc.length → P (cls (diff6 a.bitdepth a.width acc n))) :
    ∀ (k n : Nat) (c : Cur) (s : Wr), n + k = acc.length → CurInv a acc n c →
      WrRep a.encodedLength base s (codeTo T a.bitdepth a.width acc n) →
      (∃ v, bodyLoop a t k (c, s) = .ok v ∧ WrRep a.encodedLength base v.2 (codeTo T a.bitdepth a.width acc acc.length)) ∨
      (bodyLoop a t k (c, s) = .error .encoder ∧ Full a.encodedLength base (codeTo T a.bitdepth a.width acc acc.length))
  | 0, n, c, s, hn, _, hs => by
    left
    exact ⟨(c, s), rfl, by rw [← hn]; exact hs⟩
  | k + 1, n, c, s, hn, hc, hs => by
    unfold bodyLoop
    dsimp only
    rcases bodyStep_spec hw hrl ht (hP n (by omega)) (hacc n (by omega)) hc hs with ⟨c', s', e1, e2, e3⟩ | ⟨e1, e2⟩
    · rw [e1]
      dsimp only
      rw [← codeTo_succ] at e3
      exact bodyLoop_spec hw hrl hacc ht hP k (n + 1) c' s' (by omega) e2 e3
    · rw [e1]
      right
      refine ⟨rfl, ?_⟩
      have hpre : ∃ C, codeTo T a.bitdepth a.width acc acc.length = codeTo T a.bitdepth a.width acc (n + 1) ++ C := by
        unfold codeTo
        rw [show acc.length = n + 1 + k by omega, List.range_eq_range', ← List.range'_append (s := 0) (m := n + 1) (n := k) (step := 1)]
        rw [List.flatMap_append, ← List.range_eq_range']
        exact ⟨_, rfl⟩
      obtain ⟨C, hC⟩ := hpre
      rw [hC]
      rw [← codeTo_succ] at e2
      exact e2.mono

theorem zeroPad_aligned (bs : List Nat) : zeroPad (byteBits bs) = byteBits bs := by
  unfold zeroPad
  rw [byteBits_length, Nat.mul_mod_right]
  simp

/-- The second pass: the bytes of the scan, or an error if they do not fit. -/
theorem writeBody_spec {a : Args} {acc : List Nat} (hw : 1 ≤ a.width) (hrl : 1 ≤ a.readLength) (hlen : acc.length = a.width * a.height)
    (hacc : ∀ n, n < acc.length → a.value (n + n / a.readLength * a.skipLength) = acc.getD n 0)
    {t : Tab} {T : Table} {P : Nat → Prop} (ht : TabFor t T P) {base : List Nat} (hbase : base.length ≤ a.encodedLength)
    (hP : ∀ n, n < acc.length → P (cls (diff6 a.bitdepth a.width acc n))) :
    ∃ bytes, (∀ x ∈ bytes, x < 256) ∧ byteBits bytes = zeroPad (encode6 T a.bitdepth a.width acc) ∧
      ((writeBody a t base = .ok (base ++ stuff bytes) ∧ (base ++ stuff bytes).length ≤ a.encodedLength + 2) ∨
       (writeBody a t base = .error .encoder ∧ a.encodedLength ≤ (base ++ stuff bytes).length)) := by
  have h0 : WrRep a.encodedLength base ⟨0, 8, base⟩ (codeTo T a.bitdepth a.width acc 0) :=
    ⟨by simp, by simp, by simp, by simp, hbase, [], by simp, by simp [stuff], by simp [codeTo, byteBits, toBits]⟩
  have hE : encode6 T a.bitdepth a.width acc = codeTo T a.bitdepth a.width acc acc.length := rfl
  -- bytes of any bit string
  have hbytes : ∀ B : List Bool, ∃ bytes, (∀ x ∈ bytes, x < 256) ∧ byteBits bytes = zeroPad B := by
    have key : ∀ (m : Nat) (B : List Bool), B.length = 8 * m → ∃ bytes, (∀ x ∈ bytes, x < 256) ∧ byteBits bytes = B := by
      intro m
      induction m with
      | zero => intro B hB; exact ⟨[], by simp, by simp [List.length_eq_zero_iff.1 (show B.length = 0 by omega), byteBits]⟩
      | succ m ih =>
        intro B hB
        obtain ⟨bs, b1, b2⟩ := ih (B.drop 8) (by simp; omega)
        have hl : (B.take 8).length = 8 := by simp; omega
        refine ⟨ofBits (B.take 8) :: bs, ?_, ?_⟩
        · intro x hx
          rw [List.mem_cons] at hx
          rcases hx with rfl | hx
          · have := ofBits_lt (B.take 8); rw [hl] at this; exact this
          · exact b1 x hx
        · have e : toBits 8 (ofBits (B.take 8)) = B.take 8 := by
            have := toBits_ofBits (B.take 8); rw [hl] at this; exact this
          show toBits 8 (ofBits (B.take 8)) ++ byteBits bs = B
          rw [b2, e, List.take_append_drop]
    intro B
    apply key ((B.length + 7) / 8)
    unfold zeroPad
    simp only [List.length_append, List.length_replicate]
    omega
  have hinj : ∀ (b c : List Nat), (∀ x ∈ b, x < 256) → (∀ x ∈ c, x < 256) → byteBits b <+: byteBits c → b <+: c := by
    intro b
    induction b with
    | nil => intro c _ _ _; exact List.nil_prefix
    | cons x b ih =>
      intro c hb hc h
      cases c with
      | nil =>
        have := h.length_le
        rw [byteBits_length, byteBits_length] at this
        simp at this
      | cons y c =>
        have h' : toBits 8 x ++ byteBits b <+: toBits 8 y ++ byteBits c := h
        obtain ⟨r, hr⟩ := h'
        rw [List.append_assoc] at hr
        obtain ⟨e1, e2⟩ := List.append_inj hr (by simp)
        have := toBits_inj (hb x (List.mem_cons_self ..)) (hc y (List.mem_cons_self ..)) e1
        subst this
        rw [List.prefix_cons_inj]
        exact ih c (fun z hz => hb z (List.mem_cons_of_mem _ hz)) (fun z hz => hc z (List.mem_cons_of_mem _ hz)) ⟨r, e2⟩
  rcases bodyLoop_spec hw hrl hacc ht hP (a.width * a.height) 0 (Cur.init a) ⟨0, 8, base⟩ (by omega) (cur_init a acc) h0 with
    ⟨⟨c, s⟩, e1, e2⟩ | ⟨e1, e2⟩
  · obtain ⟨nx, nb, out⟩ := s
    obtain ⟨nb1, nb8, low, lt, room, bs, hbs, hout, hB⟩ := e2
    dsimp only at nb1 nb8 low lt hout hB room
    by_cases h8 : nb < 8
    · refine ⟨bs ++ [nx], ?_, ?_, Or.inl ⟨?_, ?_⟩⟩
      · intro x hx
        rw [List.mem_append] at hx
        rcases hx with hx | hx
        · exact hbs x hx
        · simp at hx; omega
      · rw [hE, hB]
        unfold zeroPad
        have hl : (byteBits bs ++ toBits (8 - nb) (nx / 2 ^ nb)).length = 8 * bs.length + (8 - nb) := by
          rw [List.length_append, byteBits_length, toBits_length]
        rw [hl, show (8 - (8 * bs.length + (8 - nb)) % 8) % 8 = nb by omega, byteBits_app, List.append_assoc]
        congr 1
        have hnx : nx = nx / 2 ^ nb * 2 ^ nb + 0 := by
          have := Nat.div_add_mod nx (2 ^ nb); rw [low] at this; rw [Nat.mul_comm]; omega
        have : toBits (8 - nb + nb) nx = toBits (8 - nb) (nx / 2 ^ nb) ++ toBits nb 0 := by
          rw [← toBits_mul_add (Nat.two_pow_pos nb), ← hnx]
        rw [show 8 - nb + nb = 8 by omega, toBits_zero] at this
        rw [← this]; simp [byteBits]
      · unfold writeBody
        rw [e1]
        dsimp only
        rw [if_pos h8, hout, stuff_app]
        by_cases hx : nx = 255
        · simp [hx, stuff]
        · simp [hx, stuff]
      · have : (base ++ stuff (bs ++ [nx])).length = out.length + (stuff [nx]).length := by
          rw [hout, stuff_app]; simp; omega
        rw [this]
        have : (stuff [nx]).length ≤ 2 := by unfold stuff; split <;> simp [stuff]
        omega
    · have hnb : nb = 8 := by omega
      subst hnb
      refine ⟨bs, hbs, ?_, Or.inl ⟨?_, ?_⟩⟩
      · have hB' : encode6 T a.bitdepth a.width acc = byteBits bs := by rw [hE, hB]; simp [toBits]
        rw [hB', zeroPad_aligned]
      · unfold writeBody
        rw [e1]
        simp [hout]
      · rw [← hout]; omega
  · obtain ⟨bytes, b1, b2⟩ := hbytes (encode6 T a.bitdepth a.width acc)
    refine ⟨bytes, b1, b2, Or.inr ⟨?_, ?_⟩⟩
    · unfold writeBody; rw [e1]
    · obtain ⟨bs, f1, f2, f3⟩ := e2
      rw [← hE] at f2
      have : bs <+: bytes := hinj bs bytes f1 b1 (by rw [b2]; exact f2.trans (List.prefix_append ..))
      obtain ⟨r, rfl⟩ := this
      rw [stuff_app]
      simp only [List.length_append] at f3 ⊢
      omega

end Model.Lj92.Enc
