/- The arithmetic of one pixel through difference, normalize and encode. -/
import Verif.Proof.Jpeg
import Verif.Model.Integration1

set_option autoImplicit false

namespace Model
open Spec

theorem int_emod_toNat (d : Int) (n : Nat) (h1 : -(2 ^ n : Nat) ≤ d) (h2 : d < (2 ^ n : Nat)) :
    (d % (2 ^ n : Int)).toNat = if 0 ≤ d then d.toNat else (d + 2 ^ n).toNat := by
  have hp : ((2 ^ n : Nat) : Int) = 2 ^ n := by simp
  rw [hp] at h1 h2
  split
  · rw [Int.emod_eq_of_lt (by omega) h2]
  · have : d % 2 ^ n = d + 2 ^ n := by
      rw [← Int.add_emod_right, Int.emod_eq_of_lt (by omega) (by omega)]
    rw [this]

section
variable {bd x p : Nat}

theorem diff_bound (hx : x < 2 ^ bd) (hp : p < 2 ^ bd) : ((x : Int) - p).natAbs < 2 ^ bd := by
  omega

theorem diffVal_eq (hx : x < 2 ^ bd) (hp : p < 2 ^ bd) :
    Difference.diffVal bd x p =
      if p ≤ x then x - p else 2 ^ (bd + 1) + x - p := by
  unfold Difference.diffVal
  have h2 : 2 ^ (bd + 1) = 2 * 2 ^ bd := by rw [Nat.pow_succ]; omega
  rw [int_emod_toNat _ _ (by omega) (by omega)]
  have hp' : ((2 ^ (bd + 1) : Nat) : Int) = 2 ^ (bd + 1) := by simp
  split <;> split <;> omega

theorem diffMns_eq (hx : x < 2 ^ bd) (hp : p < 2 ^ bd) (h : x < p) :
    Difference.diffMns bd x p = 2 ^ (bd + 1) + x - p - 1 := by
  unfold Difference.diffMns
  have h2 : 2 ^ (bd + 1) = 2 * 2 ^ bd := by rw [Nat.pow_succ]; omega
  rw [int_emod_toNat _ _ (by omega) (by omega)]
  have hp' : ((2 ^ (bd + 1) : Nat) : Int) = 2 ^ (bd + 1) := by simp
  split <;> omega

theorem testBit_top {v : Nat} (h : v < 2 ^ (bd + 1)) : v.testBit bd = decide (2 ^ bd ≤ v) := by
  by_cases hb : 2 ^ bd ≤ v
  · rw [Nat.testBit_eq_decide_div_mod_eq]
    have h2 : 2 ^ (bd + 1) = 2 * 2 ^ bd := by rw [Nat.pow_succ]; omega
    have : v / 2 ^ bd = 1 := by
      apply Nat.div_eq_of_lt_le <;> omega
    rw [this]; simp [hb]
  · rw [Nat.testBit_lt_two_pow (by omega)]; simp; omega

theorem diffVal_neg (hx : x < 2 ^ bd) (hp : p < 2 ^ bd) :
    (Difference.diffVal bd x p).testBit bd = decide (x < p) := by
  have h2 : 2 ^ (bd + 1) = 2 * 2 ^ bd := by rw [Nat.pow_succ]; omega
  rw [diffVal_eq hx hp]
  split
  · rw [testBit_top (by omega)]
    congr 1; apply propext; omega
  · rw [testBit_top (by omega)]
    congr 1; apply propext; omega

theorem posTree_eq (n v : Nat) (h : v < 2 ^ n) : Normalize.posTree n v = cls (v : Int) := by
  induction n with
  | zero =>
    have : v = 0 := by simpa using h
    subst this; rfl
  | succ n ih =>
    unfold Normalize.posTree
    rw [testBit_top h]
    by_cases hb : 2 ^ n ≤ v
    · simp only [hb, decide_true, if_true]
      exact (cls_eq (by simpa using hb) (by simpa using h)).symm
    · simp only [hb, decide_false]
      exact ih (by omega)

/-- The comparison of option `i` decides `|d| < 2^(i+1)`. -/
theorem negTest_eq {M i : Nat} (hi : i < bd) (hM : M < 2 ^ (bd + 1)) :
    Normalize.negTest bd M i = decide (2 ^ (bd + 1) - 2 ^ (i + 1) ≤ M) := by
  unfold Normalize.negTest
  have h1 : 2 ^ (bd + 1) = 2 ^ (i + 1) * 2 ^ (bd - i) := by
    rw [← Nat.pow_add]; congr 1; omega
  have hA := Nat.two_pow_pos (i + 1)
  have hB := Nat.two_pow_pos (bd - i)
  rw [Nat.shiftRight_eq_div_pow, Nat.add_comm 1 i]
  have hlt : M / 2 ^ (i + 1) < 2 ^ (bd - i) := by
    rw [Nat.div_lt_iff_lt_mul hA, Nat.mul_comm]; omega
  rw [Nat.mod_eq_of_lt hlt]
  have key : M / 2 ^ (i + 1) = 2 ^ (bd - i) - 1 ↔ 2 ^ (bd + 1) - 2 ^ (i + 1) ≤ M := by
    have : 2 ^ (bd - i) - 1 ≤ M / 2 ^ (i + 1) ↔ (2 ^ (bd - i) - 1) * 2 ^ (i + 1) ≤ M :=
      Nat.le_div_iff_mul_le hA
    rw [Nat.sub_mul, Nat.one_mul, Nat.mul_comm, ← h1] at this
    rw [← this]; omega
  rw [Bool.eq_iff_iff]
  simp [key]

theorem negTree_spec {M : Nat} (hM : M < 2 ^ (bd + 1)) (start stop : Nat) (h : start ≤ stop)
    (hs : stop < bd) (htop : 2 ^ (bd + 1) - 2 ^ (stop + 1) ≤ M)
    (hbot : ∀ i, i < start → ¬ 2 ^ (bd + 1) - 2 ^ (i + 1) ≤ M) :
    let r := Normalize.negTree bd M start stop
    r < bd ∧ 2 ^ (bd + 1) - 2 ^ (r + 1) ≤ M ∧ ∀ i, i < r → ¬ 2 ^ (bd + 1) - 2 ^ (i + 1) ≤ M := by
  induction hn : stop - start using Nat.strongRecOn generalizing start stop with
  | _ n ih =>
    have mono : ∀ i j, i ≤ j → j < bd → ¬ 2 ^ (bd + 1) - 2 ^ (j + 1) ≤ M →
        ¬ 2 ^ (bd + 1) - 2 ^ (i + 1) ≤ M := by
      intro i j hij hj hnot
      have : 2 ^ (i + 1) ≤ 2 ^ (j + 1) := Nat.pow_le_pow_right (by omega) (by omega)
      omega
    unfold Normalize.negTree
    by_cases h1 : stop ≤ start
    · have : stop = start := by omega
      subst this
      simp only [h1, dite_true]
      exact ⟨hs, htop, hbot⟩
    · simp only [h1, dite_false]
      by_cases h2 : stop = start + 1
      · simp only [h2, if_true]
        rw [negTest_eq (by omega) hM]
        by_cases h3 : 2 ^ (bd + 1) - 2 ^ (start + 1) ≤ M
        · rw [if_pos (decide_eq_true h3)]
          exact ⟨by omega, h3, hbot⟩
        · rw [if_neg (by simpa using h3)]
          subst h2
          exact ⟨hs, htop, fun i hi => mono i start (by omega) (by omega) h3⟩
      · simp only [h2, if_false]
        rw [negTest_eq (by omega) hM]
        by_cases h3 : 2 ^ (bd + 1) - 2 ^ ((stop + start) / 2 + 1) ≤ M
        · simp only [h3, decide_true, if_true]
          exact ih _ (by omega) start ((stop + start) / 2) (by omega) (by omega) h3 hbot rfl
        · simp only [h3, decide_false]
          exact ih _ (by omega) ((stop + start) / 2 + 1) stop (by omega) hs htop
            (fun i hi => mono i _ (by omega) (by omega) h3) rfl

theorem negTree_cls (hbd : 0 < bd) (hx : x < 2 ^ bd) (hp : p < 2 ^ bd) (h : x < p) :
    Normalize.negTree bd (Difference.diffMns bd x p) 0 (bd - 1) + 1 = cls ((x : Int) - p) := by
  have h2 : 2 ^ (bd + 1) = 2 * 2 ^ bd := by rw [Nat.pow_succ]; omega
  rw [diffMns_eq hx hp h]
  have hM : 2 ^ (bd + 1) + x - p - 1 < 2 ^ (bd + 1) := by omega
  obtain ⟨hr, hge, hmin⟩ := negTree_spec hM 0 (bd - 1) (by omega) (by omega)
    (by rw [show bd - 1 + 1 = bd by omega]; omega) (by omega)
  generalize Normalize.negTree bd (2 ^ (bd + 1) + x - p - 1) 0 (bd - 1) = r at *
  have hr1 : 2 ^ (r + 1) ≤ 2 ^ bd := Nat.pow_le_pow_right (by omega) (by omega)
  symm
  apply cls_eq
  · cases r with
    | zero => simp; omega
    | succ r =>
      have := hmin r (by omega)
      have hr2 : 2 ^ (r + 1) ≤ 2 ^ bd := Nat.pow_le_pow_right (by omega) (by omega)
      omega
  · omega

theorem normSsss_eq (hbd : 0 < bd) (hbd2 : bd ≤ 16) (hx : x < 2 ^ bd) (hp : p < 2 ^ bd) :
    Normalize.normSsss bd (Difference.diffVal bd x p) (Difference.diffMns bd x p)
      = cls ((x : Int) - p) := by
  unfold Normalize.normSsss
  have hc := cls_le (diff_bound hx hp)
  rw [diffVal_neg hx hp]
  by_cases h : x < p
  · simp only [h, decide_true, if_true]
    rw [negTree_cls hbd hx hp h, Nat.mod_eq_of_lt (by omega)]
  · simp only [h, decide_false]
    rw [if_neg (by simp), diffVal_eq hx hp, if_pos (by omega), posTree_eq _ _ (by omega)]
    have : ((x - p : Nat) : Int) = (x : Int) - p := by omega
    rw [this, Nat.mod_eq_of_lt (by omega)]

theorem normVal_eq (hbd : 0 < bd) (hx : x < 2 ^ bd) (hp : p < 2 ^ bd) :
    Normalize.normVal bd (Difference.diffVal bd x p) (Difference.diffMns bd x p)
      = extra ((x : Int) - p) := by
  unfold Normalize.normVal
  have hb := diff_bound hx hp
  have hc := cls_le hb
  have h2 : 2 ^ (bd + 1) = 2 * 2 ^ bd := by rw [Nat.pow_succ]; omega
  rw [diffVal_neg hx hp]
  by_cases h : x < p
  · simp only [h, decide_true, if_true]
    rw [negTree_cls hbd hx hp h, diffVal_eq hx hp, if_neg (by omega)]
    have hnz : (x : Int) - p ≠ 0 := by omega
    obtain ⟨_, hb2⟩ := cls_bounds _ hnz
    have hle : 2 ^ cls ((x : Int) - p) ≤ 2 ^ bd := Nat.pow_le_pow_right (by omega) hc
    have hcast : ((2 ^ cls ((x : Int) - p) : Nat) : Int) = 2 ^ cls ((x : Int) - p) := by simp
    have he : extra ((x : Int) - p) = 2 ^ cls ((x : Int) - p) + x - p - 1 := by
      unfold extra
      rw [if_neg (by omega)]
      omega
    rw [he]
    have : 2 ^ (bd + 1) + x - p + (2 ^ cls ((x : Int) - p) - 1) =
        (2 ^ cls ((x : Int) - p) + x - p - 1) + 2 ^ bd + 2 ^ bd := by omega
    rw [this, Nat.add_mod_right, Nat.add_mod_right, Nat.mod_eq_of_lt (by omega)]
  · simp only [h, decide_false]
    rw [if_neg (by simp), diffVal_eq hx hp, if_pos (by omega), Nat.mod_eq_of_lt (by omega)]
    unfold extra
    rw [if_pos (by omega)]
    omega

end

/-- The memory holds table `T` in the layout of `init_huff_table` (encode.py:62-72). -/
def MemRep (bd : Nat) (mem : List Nat) (T : Table) : Prop :=
  ∀ s, s ≤ bd → (T s).length ≤ 16 ∧
    mem.getD s 0 = huffEntry bd s (ofBits (T s), (T s).length)

theorem or_or_testBit {a b i : Nat} : (a ||| b).testBit i = (a.testBit i || b.testBit i) :=
  Nat.testBit_or ..

theorem ofBits_mul_lt {l : List Bool} {s : Nat} : ofBits l <<< s < 2 ^ (l.length + s) := by
  rw [Nat.shiftLeft_eq, Nat.pow_add]
  exact Nat.mul_lt_mul_of_pos_right (ofBits_lt l) (Nat.two_pow_pos s)

section
variable {bd : Nat} {mem : List Nat} {T : Table}

theorem enc_core {len code s v k off : Nat} (hl : len ≤ 16) (hcode : code < 2 ^ len)
    (hv : v < 2 ^ s) (hk : len + s ≤ k) (hoff : k ≤ off) :
    (((len <<< off) ||| (code <<< s)) ||| v) % 2 ^ k = (code <<< s) ||| v
    ∧ ((len <<< off) ||| (code <<< s)) >>> off % 2 ^ 5 = len := by
  have hcs : (code <<< s) < 2 ^ (len + s) := by
    rw [Nat.shiftLeft_eq, Nat.pow_add]
    exact Nat.mul_lt_mul_of_pos_right hcode (Nat.two_pow_pos s)
  constructor
  · apply Nat.eq_of_testBit_eq
    intro i
    rw [Nat.testBit_mod_two_pow, Nat.testBit_or, Nat.testBit_or, Nat.testBit_or,
      Nat.testBit_shiftLeft]
    by_cases hi : i < k
    · have : ¬ off ≤ i := by omega
      simp [hi, this]
    · have h1 : (code <<< s).testBit i = false :=
        Nat.testBit_lt_two_pow (Nat.lt_of_lt_of_le hcs (Nat.pow_le_pow_right (by omega) (by omega)))
      have h2 : v.testBit i = false :=
        Nat.testBit_lt_two_pow (Nat.lt_of_lt_of_le hv (Nat.pow_le_pow_right (by omega) (by omega)))
      simp [hi, h1, h2]
  · have hcs2 : code <<< s < 2 ^ off :=
      Nat.lt_of_lt_of_le hcs (Nat.pow_le_pow_right (by omega) (by omega))
    rw [or_shift_eq hcs2, Nat.shiftRight_eq_div_pow, Nat.mul_comm,
      Nat.mul_add_div (Nat.two_pow_pos _), Nat.div_eq_of_lt hcs2]
    have : len < 2 ^ 5 := by omega
    rw [Nat.add_zero, Nat.mod_eq_of_lt this]

/-- One pixel through the encoder: the output word holds exactly the code bits. -/
theorem enc_pixel (hbd : 0 < bd) (hbd2 : bd ≤ 16) (hm : MemRep bd mem T) {x p : Nat}
    (hx : x < 2 ^ bd) (hp : p < 2 ^ bd) :
    let d : Int := (x : Int) - p
    let rp := mem.getD (cls d) 0
    toBits (Encode.encLen bd (cls d) rp) (Encode.encVal bd (cls d) (extra d) rp) = pixelBits T x p
    ∧ Encode.encVal bd (cls d) (extra d) rp < 2 ^ Encode.encLen bd (cls d) rp
    ∧ Encode.encLen bd (cls d) rp ≤ singleCtr bd := by
  intro d rp
  have hc : cls d ≤ bd := cls_le (diff_bound hx hp)
  obtain ⟨hl, hmem⟩ := hm (cls d) hc
  have hrp : rp = huffEntry bd (cls d) (ofBits (T (cls d)), (T (cls d)).length) := hmem
  have hcode := ofBits_lt (T (cls d))
  unfold pixelBits diffBits
  simp only [show (x : Int) - (p : Int) = d from rfl]
  generalize hs : cls d = s at *
  have hxl : extra d < 2 ^ s := hs ▸ extra_lt d
  by_cases h16 : s = 16
  · have hb16 : bd = 16 := by omega
    subst h16
    have := enc_core (len := (T 16).length) (code := ofBits (T 16)) (s := 0) (v := 0)
      (k := singleCtr bd) (off := 16 + bd) hl hcode (by simp) (by simp [singleCtr]; omega)
      (by simp [singleCtr]; omega)
    unfold Encode.encLen Encode.encVal
    simp only [hb16, and_self, if_true, List.append_nil]
    rw [hb16] at this hrp
    simp only [huffEntry, if_true] at hrp
    simp only [Nat.or_zero, Nat.shiftLeft_zero] at this
    rw [hrp, this.1, this.2]
    exact ⟨by simp, hcode, by simp [singleCtr]; omega⟩
  · have hs15 : s ≤ 15 := by omega
    have hsum : (T s).length + s ≤ singleCtr bd := by simp [singleCtr]; omega
    have := enc_core (len := (T s).length) (code := ofBits (T s)) (s := s) (v := extra d)
      (k := singleCtr bd) (off := 16 + bd) hl hcode hxl hsum (by simp [singleCtr]; omega)
    unfold Encode.encLen Encode.encVal
    simp only [h16, and_false, if_false]
    simp only [huffEntry, h16, if_false] at hrp
    rw [hrp, this.1, this.2]
    have e1 : s % 2 ^ 4 = s := Nat.mod_eq_of_lt (by omega)
    have e2 : ((T s).length + s) % 2 ^ 5 = (T s).length + s := Nat.mod_eq_of_lt (by omega)
    rw [e1, e2]
    refine ⟨?_, ?_, hsum⟩
    · rw [toBits_or_shift hxl]; simp
    · exact shiftLeft_or_lt hcode hxl

end

/-- The reset content of the memory is the default table. -/
theorem initHuffTable_rep {bd : Nat} (hbd : bd ≤ 16) : MemRep bd (initHuffTable bd) defaultTable := by
  have h : ∀ s, s ≤ 16 → getSsss.getD s (0, 0) = (ofBits (defaultTable s), (defaultTable s).length) := by
    decide
  intro s hs
  refine ⟨defaultTable_length, ?_⟩
  have hlen : s < getSsss.length := by simp [getSsss]; omega
  have hget := h s (by omega)
  rw [List.getD_eq_getElem?_getD, List.getElem?_eq_getElem hlen, Option.getD_some] at hget
  unfold initHuffTable
  rw [List.getD_eq_getElem?_getD, List.getElem?_map, List.getElem?_zipIdx,
    List.getElem?_take_of_lt (by omega), List.getElem?_eq_getElem hlen]
  simp [hget]

end Model
