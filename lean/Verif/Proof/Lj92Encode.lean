/- Helper lemmas about the model of the lj92 encoder: header and whole file. -/
import Verif.Proof.Lj92Create

set_option autoImplicit false

namespace Model.Lj92.Enc
open Spec Model.Lj92

theorem classCount_big (bd W : Nat) (l : List Nat) (t : Nat) (h : 17 ≤ t) : classCount bd W l t = 0 := by
  unfold classCount
  rw [List.length_eq_zero_iff, List.filter_eq_nil_iff]
  intro i _
  have := cls_diff6_le bd W l i
  simp only [decide_eq_true_eq]
  omega

theorem countTo_sum (bd W : Nat) (l : List Nat) : ∀ n, sumTo (countTo bd W l n) 17 = n
  | 0 => by
    have : countTo bd W l 0 = fun _ => 0 := by funext t; simp [countTo]
    rw [this]; rfl
  | n + 1 => by
    have ih := countTo_sum bd W l n
    have e : countTo bd W l (n + 1) = put (countTo bd W l n) (cls (diff6 bd W l n)) (countTo bd W l n (cls (diff6 bd W l n)) + 1) := by
      funext t
      rw [countTo_succ]
      unfold put
      by_cases h : t = cls (diff6 bd W l n)
      · rw [if_pos h, if_pos h.symm, h]
      · rw [if_neg h, if_neg (fun h' => h h'.symm), Nat.add_zero]
    have := sumTo_put (countTo bd W l n) (cls (diff6 bd W l n)) (countTo bd W l n (cls (diff6 bd W l n)) + 1) 17
      (by have := cls_diff6_le bd W l n; omega)
    rw [e]
    omega

theorem classCount_pos {bd W : Nat} {l : List Nat} {n : Nat} (h : n < l.length) : 0 < classCount bd W l (cls (diff6 bd W l n)) := by
  unfold classCount
  apply List.length_pos_of_mem (a := n)
  simp [h]

theorem u8_id {n : Nat} (h : n < 256) : u8 n = n := by
  unfold u8; omega

theorem sum_cast : ∀ l : List Nat, (l.map fun (n : Nat) => (n : Int)).sum = (l.sum : Nat)
  | [] => rfl
  | x :: l => by rw [List.map_cons, List.sum_cons, sum_cast l, List.sum_cons]; omega

/-- The header. -/
theorem writeHeader_spec {a : Args} {t : Tab} {T : Table} {P : Nat → Prop} (hbd : a.bitdepth < 256) (hw : a.width < 65536) (hh : a.height < 65536)
    (h0 : t.bits 0 = 0) (hnn : ∀ k, 0 ≤ t.bits k) (hle : ∀ k, k < 18 → t.bits k ≤ 17)
    (hd : DescribesFor (countsOf t) t.huffval T P) (hval : ∀ v ∈ t.huffval, v < 17) :
    writeHeader a t = header6 a.bitdepth a.height a.width (countsOf t) t.huffval := by
  have hlen : t.huffval.length ≤ 17 := by
    have h1 : t.huffval ⊆ List.range 17 := fun v hv => List.mem_range.2 (hval v hv)
    have h2 := List.Nodup.length_le_of_subset hd.nodup h1
    simpa using h2
  have hcount : ((List.range 17).map t.bits).sum = t.huffval.length := by
    rw [hd.num, ← sum_cast, countsOf, List.map_map, show (17 : Nat) = 16 + 1 from rfl, List.range_succ_eq_map, List.map_cons, List.sum_cons, h0, List.map_map,
      Int.zero_add]
    congr 1
    apply List.map_congr_left
    intro k _
    simp only [Function.comp, countOf]
    exact (Int.toNat_of_nonneg (hnn _)).symm
  have hcs : (List.range 16).map (fun i => u8 (t.bits (i + 1))) = countsOf t := by
    unfold countsOf
    apply List.map_congr_left
    intro k hk
    rw [List.mem_range] at hk
    have h1 := hnn (k + 1)
    have h2 := hle (k + 1) (by omega)
    unfold u8 countOf
    omega
  have hvs : (List.range t.huffval.length).map (fun i => u8 (t.huffval.getD i 0 : Nat)) = t.huffval := by
    apply List.ext_getElem
    · simp
    · intro i h1 h2
      have h3 := hval _ (List.getElem_mem h2)
      simp only [List.getElem_map, List.getElem_range, List.getD_eq_getElem?_getD, List.getElem?_eq_getElem h2, Option.getD_some]
      exact u8_id (by omega)
  unfold writeHeader header6
  dsimp only
  rw [hcount, Int.toNat_natCast, hvs, hcs]
  have hb : be16 (19 + t.huffval.length) = [0, u8 (17 + 2 + (t.huffval.length : Int))] := by
    simp only [be16, u8, List.cons.injEq, and_true]
    omega
  have q1 : u8 (a.height / 256 : Nat) = a.height / 256 := u8_id (by omega)
  have q2 : u8 (a.height % 256 : Nat) = a.height % 256 := u8_id (by omega)
  have q3 : u8 (a.width / 256 : Nat) = a.width / 256 := u8_id (by omega)
  have q4 : u8 (a.width % 256 : Nat) = a.width % 256 := u8_id (by omega)
  rw [q1, q2, q3, q4, u8_id hbd, hb]
  have w1 : be16 a.height = [a.height / 256, a.height % 256] := by
    simp only [be16, List.cons.injEq, and_true]; omega
  have w2 : be16 a.width = [a.width / 256, a.width % 256] := by
    simp only [be16, List.cons.injEq, and_true]; omega
  rw [w1, w2]
  simp [be16]

/-- The whole file, with the table it is written with. -/
theorem encode_spec_tab {a : Args} {acc : List Nat} (hw : 1 ≤ a.width) (hh : 1 ≤ a.height) (hw16 : a.width < 65536) (hh16 : a.height < 65536)
    (hint : a.width * a.height * 3 + 200 < 2 ^ 31) (hbd : a.bitdepth < 256) (hrl : 1 ≤ a.readLength) (hdl : a.delinearize = none)
    (hlen : acc.length = a.width * a.height)
    (himg : ∀ n, n < acc.length → a.image (n + n / a.readLength * a.skipLength) = acc.getD n 0) :
    ∃ counts vals T bytes, (∃ t, createEncodeTable (classCount a.bitdepth a.width acc) (a.width * a.height) = .ok t ∧ counts = countsOf t ∧ vals = t.huffval) ∧
      DescribesFor counts vals T (fun t => 0 < classCount a.bitdepth a.width acc t) ∧ (∀ x ∈ bytes, x < 256) ∧
      byteBits bytes = zeroPad (encode6 T a.bitdepth a.width acc) ∧
      ((encode a = .ok (header6 a.bitdepth a.height a.width counts vals ++ stuff bytes ++ [0xFF, 0xD9]) ∧
        (header6 a.bitdepth a.height a.width counts vals ++ stuff bytes ++ [0xFF, 0xD9]).length ≤ 3 * (a.width * a.height) + 204) ∨
       (encode a = .error .encoder ∧
        3 * (a.width * a.height) + 202 ≤ (header6 a.bitdepth a.height a.width counts vals ++ stuff bytes ++ [0xFF, 0xD9]).length)) := by
  have hpos : 1 ≤ a.width * a.height := Nat.mul_pos hw hh
  obtain ⟨c, f1⟩ := frequencyScan_spec hw hrl hlen himg
  have hsum : sumTo (classCount a.bitdepth a.width acc) 17 = a.width * a.height := by
    rw [← hlen]; exact countTo_sum a.bitdepth a.width acc acc.length
  obtain ⟨t, T, c1, c2, c3, c4, c5, c6⟩ := create_spec hsum hpos (by omega) (classCount_big a.bitdepth a.width acc)
  have hval : ∀ v ∈ t.huffval, v < 17 := by
    intro v hv
    have := (c5.mem v).1 hv
    apply Classical.byContradiction
    intro hge
    rw [classCount_big _ _ _ _ (by omega)] at this
    omega
  have hhd := writeHeader_spec hbd hw16 hh16 c3 c2 c4 c5 hval
  have hvl : t.huffval.length ≤ 17 := by
    have h1 : t.huffval ⊆ List.range 17 := fun v hv => List.mem_range.2 (hval v hv)
    have h2 := List.Nodup.length_le_of_subset c5.nodup h1
    simpa using h2
  have hbl : (header6 a.bitdepth a.height a.width (countsOf t) t.huffval).length ≤ a.encodedLength := by
    have : (countsOf t).length = 16 := c5.len
    simp only [header6, List.length_append, be16, List.length_cons, List.length_nil, this]
    unfold Args.encodedLength
    omega
  obtain ⟨bytes, w1, w2, w3⟩ := writeBody_spec hw hrl hlen (fun n hn => by unfold Args.value; rw [hdl]; exact himg n hn) c6 hbl
    (fun n hn => classCount_pos hn)
  refine ⟨countsOf t, t.huffval, T, bytes, ⟨t, c1, rfl, rfl⟩, c5, w1, w2, ?_⟩
  unfold encode
  rw [f1]
  dsimp only
  rw [c1]
  dsimp only
  rw [hhd]
  unfold Args.encodedLength at w3
  rcases w3 with ⟨w3, w4⟩ | ⟨w3, w4⟩
  · left
    rw [w3]
    refine ⟨rfl, ?_⟩
    rw [List.length_append]
    simp only [List.length_cons, List.length_nil]
    omega
  · right
    rw [w3]
    refine ⟨rfl, ?_⟩
    rw [List.length_append]
    simp only [List.length_cons, List.length_nil]
    omega

/-- The whole file. -/
theorem encode_spec {a : Args} {acc : List Nat} (hw : 1 ≤ a.width) (hh : 1 ≤ a.height) (hw16 : a.width < 65536) (hh16 : a.height < 65536)
    (hint : a.width * a.height * 3 + 200 < 2 ^ 31) (hbd : a.bitdepth < 256) (hrl : 1 ≤ a.readLength) (hdl : a.delinearize = none)
    (hlen : acc.length = a.width * a.height)
    (himg : ∀ n, n < acc.length → a.image (n + n / a.readLength * a.skipLength) = acc.getD n 0) :
    ∃ counts vals T bytes, DescribesFor counts vals T (fun t => 0 < classCount a.bitdepth a.width acc t) ∧ (∀ x ∈ bytes, x < 256) ∧
      byteBits bytes = zeroPad (encode6 T a.bitdepth a.width acc) ∧
      ((encode a = .ok (header6 a.bitdepth a.height a.width counts vals ++ stuff bytes ++ [0xFF, 0xD9]) ∧
        (header6 a.bitdepth a.height a.width counts vals ++ stuff bytes ++ [0xFF, 0xD9]).length ≤ 3 * (a.width * a.height) + 204) ∨
       (encode a = .error .encoder ∧
        3 * (a.width * a.height) + 202 ≤ (header6 a.bitdepth a.height a.width counts vals ++ stuff bytes ++ [0xFF, 0xD9]).length)) := by
  obtain ⟨counts, vals, T, bytes, _, h⟩ := encode_spec_tab hw hh hw16 hh16 hint hbd hrl hdl hlen himg
  exact ⟨counts, vals, T, bytes, h⟩

end Model.Lj92.Enc
