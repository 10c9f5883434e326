/- Helper lemmas about the lossless JPEG specification. -/
import Verif.Spec.Jpeg
import Verif.Proof.Bits

set_option autoImplicit false

namespace Spec

theorem cls_bounds (d : Int) (h : d ≠ 0) :
    2 ^ (cls d - 1) ≤ d.natAbs ∧ d.natAbs < 2 ^ cls d := by
  have hn : d.natAbs ≠ 0 := by omega
  simp only [cls, h, if_false, Nat.add_sub_cancel]
  exact ⟨Nat.log2_self_le hn, Nat.lt_log2_self⟩

theorem cls_eq {d : Int} {s : Nat} (h1 : 2 ^ s ≤ d.natAbs) (h2 : d.natAbs < 2 ^ (s + 1)) :
    cls d = s + 1 := by
  have hp := Nat.two_pow_pos s
  have hd : d ≠ 0 := by omega
  have hn : d.natAbs ≠ 0 := by omega
  simp only [cls, hd, if_false]
  congr 1
  rw [Nat.log2_eq_iff hn]
  exact ⟨h1, h2⟩

theorem cls_le {d : Int} {n : Nat} (h : d.natAbs < 2 ^ n) : cls d ≤ n := by
  by_cases hd : d = 0
  · simp [cls, hd]
  · have := (cls_bounds d hd).1
    have h3 : 2 ^ (cls d - 1) < 2 ^ n := by omega
    have := (Nat.pow_lt_pow_iff_right (by omega : 1 < 2)).1 h3
    omega

theorem cls_pos {d : Int} (h : d ≠ 0) : 0 < cls d := by simp [cls, h]

theorem extra_lt (d : Int) : extra d < 2 ^ cls d := by
  by_cases hd : d = 0
  · simp [hd, extra, cls]
  · have := cls_bounds d hd
    unfold extra
    have hp : ((2 ^ cls d : Nat) : Int) = 2 ^ cls d := by simp
    split
    · omega
    · have : d - 1 + 2 ^ cls d < 2 ^ cls d := by omega
      omega

theorem two_pow_pred {s : Nat} (h : 0 < s) : 2 ^ s = 2 * 2 ^ (s - 1) := by
  cases s with
  | zero => omega
  | succ s => rw [Nat.pow_succ]; simp; omega

theorem extend_extra (d : Int) : extend (cls d) (extra d) = d := by
  by_cases hd : d = 0
  · simp [hd, extend, cls]
  · have hb := cls_bounds d hd
    have hc := cls_pos hd
    have hp : ((2 ^ cls d : Nat) : Int) = 2 ^ cls d := by simp
    have h2 := two_pow_pred hc
    have hcn : cls d ≠ 0 := by omega
    unfold extend
    rw [if_neg hcn]
    unfold extra
    split <;> split <;> omega

theorem find_prefix {T : Table} {n s : Nat} (hT : PrefixFree T n) (hs : s < n) (rest : List Bool) :
    (List.range n).find? (fun j => (T j).isPrefixOf (T s ++ rest)) = some s := by
  have hsome : ((List.range n).find? (fun j => (T j).isPrefixOf (T s ++ rest))).isSome := by
    rw [List.find?_isSome]
    exact ⟨s, by simpa using hs, by simp⟩
  obtain ⟨j, hj⟩ := Option.isSome_iff_exists.1 hsome
  rw [hj]
  have hp := List.find?_some hj
  have hm : j < n := by simpa using List.mem_of_find?_eq_some hj
  have hp : T j <+: T s ++ rest := by simpa using hp
  have hs' : T s <+: T s ++ rest := List.prefix_append _ _
  congr 1
  rcases List.prefix_or_prefix_of_prefix hp hs' with h | h
  · exact hT _ _ hm hs h
  · exact (hT _ _ hs hm h).symm

theorem decodeDiff_diffBits {T : Table} {n : Nat} (hT : PrefixFree T n) {d : Int}
    (hd : cls d < n) (hn : cls d ≠ 16) (rest : List Bool) :
    decodeDiff T n (diffBits T d ++ rest) = some (d, rest) := by
  unfold decodeDiff diffBits
  simp only [hn, if_false, List.append_assoc]
  rw [find_prefix hT hd]
  simp only [List.drop_left, hn, if_false]
  rw [if_neg (by simp)]
  congr 2
  · rw [List.take_left' (by simp), ofBits_toBits, Nat.mod_eq_of_lt (extra_lt d), extend_extra]
  · rw [List.drop_left' (by simp)]

theorem decodeDiff_diffBits16 {T : Table} {n : Nat} (hT : PrefixFree T n) {d : Int}
    (hd : cls d < n) (hn : cls d = 16) (rest : List Bool) :
    decodeDiff T n (diffBits T d ++ rest) = some (32768, rest) := by
  unfold decodeDiff diffBits
  simp only [hn, if_true, List.append_nil]
  rw [hn] at hd
  rw [find_prefix hT hd]
  simp

/-- Per-sample round trip: exact below class 16, and modulo 2^16 for `|d| = 32768`. -/
theorem decodePixel_pixelBits {T : Table} {n bd x p : Nat} (hT : PrefixFree T n) (hn : bd < n)
    (hx : x < 2 ^ bd) (hp : p < 2 ^ bd)
    (hbd : bd ≤ 15 ∨ (bd = 16 ∧ ((x : Int) - p).natAbs ≤ 32768))
    (rest : List Bool) :
    decodePixel T n p (pixelBits T x p ++ rest) = some (x, rest) := by
  unfold decodePixel pixelBits
  have hb : ((x : Int) - p).natAbs < 2 ^ bd := by omega
  have hc := cls_le hb
  have h16 : 2 ^ bd ≤ 65536 := by
    have : bd ≤ 16 := by omega
    exact Nat.pow_le_pow_right (by omega) this
  by_cases h : cls ((x : Int) - p) = 16
  · have hbd16 : bd = 16 := by omega
    have hle : ((x : Int) - p).natAbs ≤ 32768 := by omega
    rw [decodeDiff_diffBits16 hT (by omega) h]
    have hnz : (x : Int) - p ≠ 0 := by intro h0; rw [h0] at h; simp [cls] at h
    have hb2 := (cls_bounds _ hnz).1
    rw [h] at hb2
    simp only [Option.map_some, Option.some.injEq, Prod.mk.injEq, and_true]
    have h15 : 2 ^ (16 - 1) = 32768 := by decide
    rw [h15] at hb2
    omega
  · rw [decodeDiff_diffBits hT (by omega) h]
    simp only [Option.map_some, Option.some.injEq, Prod.mk.injEq, and_true]
    omega

theorem pred_lt {bd W : Nat} {l : List Nat} (hbd : 0 < bd) (hl : ∀ x ∈ l, x < 2 ^ bd) (i : Nat) :
    pred bd W l i < 2 ^ bd := by
  have hg : ∀ j, l.getD j 0 < 2 ^ bd := by
    intro j
    rw [List.getD_eq_getElem?_getD]
    by_cases hj : j < l.length
    · rw [List.getElem?_eq_getElem hj]; exact hl _ (List.getElem_mem hj)
    · rw [List.getElem?_eq_none (by omega)]; exact Nat.two_pow_pos _
  unfold pred
  split
  · split
    · exact Nat.pow_lt_pow_right (by omega) (by omega)
    · exact hg _
  · exact hg _

theorem getD_append_lt {l m : List Nat} {i : Nat} (h : i < l.length) :
    (l ++ m).getD i 0 = l.getD i 0 := by
  rw [List.getD_eq_getElem?_getD, List.getD_eq_getElem?_getD, List.getElem?_append_left h]

/-- The prediction of sample `i` only looks at samples before `i`. -/
theorem pred_append {bd W : Nat} {l m : List Nat} {i : Nat} (hW : 4 ≤ W) (h : i ≤ l.length) :
    pred bd W (l ++ m) i = pred bd W l i := by
  unfold pred
  split
  · split
    · rfl
    · rw [getD_append_lt (by omega)]
  · have : 4 ≤ i := by
      by_cases hi : i < W
      · rw [Nat.mod_eq_of_lt hi] at *; omega
      · omega
    rw [getD_append_lt (by omega)]

theorem encode_append_one {T : Table} {bd W : Nat} {l : List Nat} {x : Nat} (hW : 4 ≤ W) :
    encode T bd W (l ++ [x]) = encode T bd W l ++ pixelBits T x (pred bd W l l.length) := by
  unfold encode
  rw [List.length_append, List.length_singleton, List.range_succ, List.flatMap_append]
  congr 1
  · simp only [List.flatMap]
    congr 1
    apply List.map_congr_left
    intro i hi
    have hi : i < l.length := by simpa using hi
    rw [getD_append_lt hi, pred_append hW (by omega)]
  · simp only [List.flatMap_cons, List.flatMap_nil, List.append_nil]
    rw [pred_append hW (by omega)]
    congr 1
    simp

/-- Codes of samples `m` when `l` was coded before. -/
def encodeFrom (T : Table) (bd W : Nat) : List Nat → List Nat → List Bool
  | _, [] => []
  | l, x :: m => pixelBits T x (pred bd W l l.length) ++ encodeFrom T bd W (l ++ [x]) m

theorem encode_append {T : Table} {bd W : Nat} (hW : 4 ≤ W) (m l : List Nat) :
    encode T bd W (l ++ m) = encode T bd W l ++ encodeFrom T bd W l m := by
  induction m generalizing l with
  | nil => simp [encodeFrom]
  | cons x m ih =>
    have : l ++ x :: m = (l ++ [x]) ++ m := by simp
    rw [this, ih, encode_append_one hW, encodeFrom, List.append_assoc]

theorem encode_eq_from {T : Table} {bd W : Nat} (hW : 4 ≤ W) (m : List Nat) :
    encode T bd W m = encodeFrom T bd W [] m := by
  have := encode_append (T := T) (bd := bd) hW m []
  simpa [encode] using this

theorem decode_encodeFrom {T : Table} {n bd W : Nat} (hT : PrefixFree T n) (hn : bd < n)
    (h0 : 0 < bd) (hbd : bd ≤ 15) (m : List Nat) :
    ∀ l rest, (∀ x ∈ l, x < 2 ^ bd) → (∀ x ∈ m, x < 2 ^ bd) →
      decode T n bd W m.length l (encodeFrom T bd W l m ++ rest) = some (l ++ m, rest) := by
  induction m with
  | nil => intro l rest _ _; simp [decode, encodeFrom]
  | cons x m ih =>
    intro l rest hl hm
    simp only [List.length_cons, decode, encodeFrom, List.append_assoc]
    rw [decodePixel_pixelBits hT hn (hm x (by simp)) (pred_lt h0 hl _) (Or.inl hbd)]
    simp only
    rw [ih (l ++ [x]) rest]
    · simp
    · intro y hy
      rcases List.mem_append.1 hy with h | h
      · exact hl y h
      · simp at h; subst h; exact hm y (by simp)
    · intro y hy; exact hm y (by simp [hy])

theorem decode_encode {T : Table} {n bd W : Nat} (hT : PrefixFree T n) (hn : bd < n)
    (h0 : 0 < bd) (hbd : bd ≤ 15) (hW : 4 ≤ W) (img : List Nat) (hm : ∀ x ∈ img, x < 2 ^ bd)
    (rest : List Bool) :
    decode T n bd W img.length [] (encode T bd W img ++ rest) = some (img, rest) := by
  rw [encode_eq_from hW]
  simpa using decode_encodeFrom (W := W) hT hn h0 hbd img [] rest (by simp) hm

theorem defaultTable_prefixFree : PrefixFree defaultTable 17 := by
  have h : ∀ i, i < 17 → ∀ j, j < 17 → (defaultTable i).isPrefixOf (defaultTable j) = true → i = j := by
    decide
  intro i j hi hj hp
  exact h i hi j hj (by simpa using hp)

theorem defaultTable_length {s : Nat} : (defaultTable s).length ≤ 16 := by
  by_cases h : s < 17
  · have : ∀ s, s < 17 → (defaultTable s).length ≤ 16 := by decide
    exact this s h
  · have : defaultTable s = [] := by
      unfold defaultTable
      rw [List.getD_eq_getElem?_getD, List.getElem?_eq_none (by simp [defaultCodes]; omega)]
      rfl
    simp [this]

theorem PrefixFree.mono {T : Table} {n m : Nat} (h : PrefixFree T n) (hm : m ≤ n) : PrefixFree T m :=
  fun i j hi hj => h i j (by omega) (by omega)

end Spec
