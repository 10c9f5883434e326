/- Property theorems C62, limits: the buffer `lj92_encode` allocates is not always large enough. -/
import Verif.Props.Encoder

set_option autoImplicit false

namespace Props.EncLimit
open Spec Model.Lj92

/-- A row of 16-bit samples that repeats after sixteen: every difference is of class 16, and the code of each sample makes one
byte FF. -/
def period : List Nat := [33788, 1020, 37868, 5100, 54188, 21420, 54443, 21675, 55463, 22695, 59543, 10391, 59479, 26626, 59905, 0]

def sample (k : Nat) : Nat := period.getD ((k + 15) % 16) 0

/-- The image of one row of `n` samples. -/
def row (n : Nat) : List Nat := (List.range n).map sample

def rowArgs (n : Nat) : Enc.Args := ⟨sample, n, 1, 16, n, 0, none⟩

theorem row_getD {n k : Nat} (h : k < n) : (row n).getD k 0 = sample k := by
  simp [row, List.getD_eq_getElem?_getD, h]

/-- It is a legal 16-bit image. -/
theorem rowArgs_ok {n : Nat} (h1 : 1 ≤ n) (h2 : n < 65536) : EncArgs (rowArgs n) (row n) ∧ ∀ x ∈ row n, x < 2 ^ 16 := by
  refine ⟨⟨h1, Nat.le_refl 1, h2, (show 1 < 65536 by decide), ?_, (show 16 < 256 by decide), h1, rfl, ?_, ?_⟩, ?_⟩
  · show n * 1 * 3 + 200 < 2 ^ 31; omega
  · simp [row, rowArgs]
  · intro k hk
    rw [show (row n).length = n by simp [row]] at hk
    rw [row_getD hk]
    show sample (k + k / n * 0) = _
    rw [Nat.mul_zero, Nat.add_zero]
  · intro x hx
    simp only [row, List.mem_map, List.mem_range] at hx
    obtain ⟨k, _, rfl⟩ := hx
    have : ∀ r : Fin 16, period.getD r.1 0 < 2 ^ 16 := by decide
    exact this ⟨(k + 15) % 16, Nat.mod_lt _ (by decide)⟩

/-- The differences, from the second sample on. -/
def dm (r : Nat) : Int := (period.getD ((r + 15) % 16) 0 : Int) - period.getD ((r + 14) % 16) 0

def dif (i : Nat) : Int := if i = 0 then -32768 else dm (i % 16)

theorem dm_ok : ∀ r : Fin 16, cls (dm r.1) = 16 ∧ (dm r.1).tmod 65536 = dm r.1 := by decide

theorem diff_row {n i : Nat} (h : i < n) : diff6 16 n (row n) i = dif i := by
  unfold diff6 pred6 dif
  rw [row_getD h]
  by_cases h0 : i = 0
  · subst h0; rfl
  · rw [if_neg h0, if_pos h, row_getD (by omega), if_neg h0]
    have e : (sample i : Int) - sample (i - 1) = dm (i % 16) := by
      unfold sample dm
      rw [show (i - 1 + 15) % 16 = (i % 16 + 14) % 16 by omega, show (i + 15) % 16 = (i % 16 + 15) % 16 by omega]
    rw [e]
    exact (dm_ok ⟨i % 16, Nat.mod_lt _ (by decide)⟩).2

theorem cls_dif (i : Nat) : cls (dif i) = 16 := by
  unfold dif
  split
  · decide
  · exact (dm_ok ⟨i % 16, Nat.mod_lt _ (by decide)⟩).1

/-! ### The Huffman table -/

theorem count_row (n t : Nat) : classCount 16 n (row n) t = if t = 16 then n else 0 := by
  unfold classCount
  have hl : (row n).length = n := by simp [row]
  rw [hl]
  have : ∀ i ∈ List.range n, decide (cls (diff6 16 n (row n) i) = t) = decide (t = 16) := by
    intro i hi
    rw [diff_row (List.mem_range.1 hi), cls_dif]
    exact decide_eq_decide.2 ⟨fun h => h.symm, fun h => h.symm⟩
  rw [List.filter_congr this]
  by_cases h : t = 16
  · subst h
    rw [List.filter_eq_self.2 (fun a _ => decide_eq_true rfl)]
    simp
  · simp [h]

theorem single_pos {n : Nat} (h : 0 < n) : 0 < Enc.single n 1 := by
  unfold Enc.single Enc.rne
  simp only [Nat.div_one, Nat.one_mul]
  have hp : 0 < 2 ^ (Nat.log2 n - 23) := Nat.pow_pos (by decide)
  have : 1 ≤ n / 2 ^ (Nat.log2 n - 23) := by
    rw [Nat.le_div_iff_mul_le hp, Nat.one_mul]
    exact Nat.le_trans (Nat.pow_le_pow_right (by decide) (Nat.sub_le _ _)) (Nat.log2_self_le (by omega))
  apply Nat.mul_pos _ hp
  split
  · omega
  · split
    · omega
    · split <;> omega

/-- A class that all samples have has frequency 1. -/
theorem freq_all {n : Nat} (h : 0 < n) : Enc.freqOf n n = Enc.one := by
  unfold Enc.freqOf
  rw [if_neg (by omega)]
  have hx := single_pos h
  generalize Enc.single n 1 = x at hx
  have d : x * Enc.one / x = Enc.one := by rw [Nat.mul_comm]; exact Nat.mul_div_cancel _ hx
  have l : Nat.log2 Enc.one - 23 = 37 := by decide
  have q : x * Enc.one = 2 ^ 23 * (x * 2 ^ 37) := by
    unfold Enc.one
    rw [show (2 : Nat) ^ 60 = 2 ^ 37 * 2 ^ 23 by decide, ← Nat.mul_assoc, Nat.mul_comm]
  have hp : 0 < x * 2 ^ 37 := Nat.mul_pos hx (by decide)
  unfold Enc.single Enc.rne
  simp only [d, l]
  rw [q, Nat.mul_div_cancel _ hp, Nat.mul_mod_left, if_pos (by omega)]
  decide

theorem init_row {n : Nat} (h : 0 < n) : Enc.Tree.init (fun t => if t = 16 then n else 0) n = Enc.Tree.init (fun t => if t = 16 then 1 else 0) 1 := by
  unfold Enc.Tree.init
  congr 1
  funext i
  by_cases h16 : i = 16
  · subst h16
    simp only [if_true]
    rw [freq_all h, freq_all (by decide)]
  · simp only [if_neg h16]
    rfl

theorem table_row {n : Nat} (h : 0 < n) {t : Enc.Tab} (ht : Enc.createEncodeTable (classCount 16 n (row n)) n = .ok t) :
    Enc.countsOf t = 1 :: List.replicate 15 0 ∧ t.huffval = [16] := by
  have e : classCount 16 n (row n) = fun t => if t = 16 then n else 0 := by funext t; exact count_row n t
  have e2 : Enc.createEncodeTable (classCount 16 n (row n)) n = Enc.createEncodeTable (fun t => if t = 16 then 1 else 0) 1 := by
    rw [e]
    unfold Enc.createEncodeTable
    rw [init_row h]
  rw [e2] at ht
  have k : (Enc.createEncodeTable (fun t => if t = 16 then 1 else 0) 1).toOption.map (fun t => (Enc.countsOf t, t.huffval)) =
      some (1 :: List.replicate 15 0, [16]) := by decide +kernel
  rw [ht] at k
  simp only [Except.toOption, Option.map_some, Option.some.injEq, Prod.mk.injEq] at k
  exact k

/-! ### The bits -/

theorem stuff_app (a b : List Nat) : stuff (a ++ b) = stuff a ++ stuff b := by
  induction a with
  | nil => rfl
  | cons x l ih =>
    simp only [stuff, List.cons_append]
    split <;> simp [ih]

theorem byteBits_len (l : List Nat) : (byteBits l).length = 8 * l.length := by
  induction l with
  | nil => rfl
  | cons b l ih => simp only [byteBits, List.flatMap_cons, List.length_append, toBits_length, List.length_cons] at ih ⊢; omega

theorem byteBits_inj' : ∀ {a b : List Nat}, (∀ x ∈ a, x < 256) → (∀ x ∈ b, x < 256) → byteBits a = byteBits b → a = b
  | [], [], _, _, _ => rfl
  | [], y :: b, _, _, h => by have := congrArg List.length h; simp [byteBits_len] at this
  | x :: a, [], _, _, h => by have := congrArg List.length h; simp [byteBits_len] at this
  | x :: a, y :: b, ha, hb, h => by
    simp only [byteBits, List.flatMap_cons] at h
    obtain ⟨h1, h2⟩ := List.append_inj h (by simp)
    rw [toBits_inj (n := 8) (ha x (by simp)) (hb y (by simp)) h1,
      byteBits_inj' (fun z hz => ha z (by simp [hz])) (fun z hz => hb z (by simp [hz])) h2]

/-- Bytes of a list of bits. -/
def bytesOf : List Bool → List Nat
  | a :: b :: c :: d :: e :: f :: g :: h :: l => ofBits [a, b, c, d, e, f, g, h] :: bytesOf l
  | _ => []

def word (d : Int) : List Bool := false :: toBits 16 (extra d)

def firstBits : List Bool := (List.range 16).flatMap fun i => word (dif i)
def perBits : List Bool := (List.range 16).flatMap fun r => word (dm r)
def tailBits (j : Nat) : List Bool := (List.range j).flatMap fun r => word (dm r)

theorem bits_row (q j : Nat) (hj : j < 16) : (List.range (16 + 16 * q + j)).flatMap (fun i => word (dif i)) =
    firstBits ++ (List.replicate q perBits).flatten ++ tailBits j := by
  have per : ∀ i, 16 ≤ i → dif i = dm (i % 16) := fun i hi => by unfold dif; rw [if_neg (by omega)]
  have one : ∀ j ≤ 16, ∀ q, (List.map (16 + 16 * q + ·) (List.range j)).flatMap (fun i => word (dif i)) = tailBits j := by
    intro j hj q
    unfold tailBits
    rw [List.flatMap_map]
    simp only [List.flatMap_def]
    congr 1
    apply List.map_congr_left
    intro r hr
    have hr := List.mem_range.1 hr
    rw [per _ (by omega), show (16 + 16 * q + r) % 16 = r by omega]
  have main : ∀ q, (List.range (16 + 16 * q)).flatMap (fun i => word (dif i)) = firstBits ++ (List.replicate q perBits).flatten := by
    intro q
    induction q with
    | zero => simp [firstBits]
    | succ q ih =>
      rw [show 16 + 16 * (q + 1) = 16 + 16 * q + 16 by omega, List.range_add, List.flatMap_append, ih, one 16 (by omega) q, List.replicate_succ',
        List.flatten_append, List.append_assoc]
      simp [tailBits, perBits]
  rw [List.range_add, List.flatMap_append, main, one j (by omega)]

theorem encode_row {T : Table} {n : Nat} (hT : T 16 = [false]) : encode6 T 16 n (row n) = (List.range n).flatMap fun i => word (dif i) := by
  unfold encode6
  rw [show (row n).length = n by simp [row]]
  simp only [List.flatMap_def]
  congr 1
  apply List.map_congr_left
  intro i hi
  rw [diff_row (List.mem_range.1 hi)]
  unfold wideBits word
  rw [cls_dif, hT]
  rfl

set_option maxRecDepth 100000 in
theorem first_ok : byteBits (bytesOf firstBits) = firstBits ∧ (stuff (bytesOf firstBits)).length = 50 ∧ firstBits.length = 272 ∧ ∀ x ∈ bytesOf firstBits, x < 256 := by
  decide +kernel

set_option maxRecDepth 100000 in
theorem per_ok : byteBits (bytesOf perBits) = perBits ∧ (stuff (bytesOf perBits)).length = 50 ∧ perBits.length = 272 ∧ ∀ x ∈ bytesOf perBits, x < 256 := by
  decide +kernel

set_option maxRecDepth 100000 in
theorem tail_ok : ∀ j : Fin 16, byteBits (bytesOf (zeroPad (tailBits j.1))) = zeroPad (tailBits j.1) ∧
    3 * j.1 ≤ (stuff (bytesOf (zeroPad (tailBits j.1)))).length ∧ (j.1 = 9 → (stuff (bytesOf (zeroPad (tailBits j.1)))).length = 29) ∧
    (tailBits j.1).length = 17 * j.1 ∧ ∀ x ∈ bytesOf (zeroPad (tailBits j.1)), x < 256 := by
  decide +kernel

/-! ### The file -/

theorem huff_one : huffCodes 0 0 (huffSizes ((1 :: List.replicate 15 0 : List Nat).getD · 0) 16) = [(1, 0)] := by decide

theorem byteBits_app (a b : List Nat) : byteBits (a ++ b) = byteBits a ++ byteBits b := by simp [byteBits]

theorem byteBits_rep (q : Nat) (l : List Nat) : byteBits (List.replicate q l).flatten = (List.replicate q (byteBits l)).flatten := by
  induction q with
  | zero => rfl
  | succ q ih => simp only [List.replicate_succ, List.flatten_cons, byteBits_app, ih]

theorem stuff_rep (q : Nat) (l : List Nat) : (stuff (List.replicate q l).flatten).length = q * (stuff l).length := by
  induction q with
  | zero => simp [stuff]
  | succ q ih => simp only [List.replicate_succ, List.flatten_cons, stuff_app, List.length_append, ih]; rw [Nat.succ_mul]; omega

theorem zeroPad_app {a : List Bool} (h : a.length % 8 = 0) (b : List Bool) : zeroPad (a ++ b) = a ++ zeroPad b := by
  unfold zeroPad
  rw [List.append_assoc, List.length_append, Nat.add_mod, h, Nat.zero_add, Nat.mod_mod]

/-- What the encoder makes of the row: the file has `99 + 50 q` bytes and the bytes of the last `j` samples. -/
theorem row_file (q j : Nat) (hj : j < 16) (hn : 16 + 16 * q + j < 65536) :
    ∃ F, IsFile6 16 1 (16 + 16 * q + j) (row (16 + 16 * q + j)) F ∧
      F.length = 99 + 50 * q + (stuff (bytesOf (zeroPad (tailBits j)))).length ∧
      ((Enc.encode (rowArgs (16 + 16 * q + j)) = .ok F ∧ F.length ≤ 3 * (16 + 16 * q + j) + 204) ∨
       (Enc.encode (rowArgs (16 + 16 * q + j)) = .error .encoder ∧ 3 * (16 + 16 * q + j) + 202 ≤ F.length)) := by
  have hn0 : 0 < 16 + 16 * q + j := by omega
  have hb := bits_row q j hj
  generalize hN : 16 + 16 * q + j = n at hb hn hn0 ⊢
  have ha := (rowArgs_ok (n := n) (by omega) hn).1
  obtain ⟨counts, vals, T, bytes, ⟨t, t1, t2, t3⟩, h1, h2, h3, h4⟩ :=
    Enc.encode_spec_tab ha.w1 ha.h1 ha.w16 ha.h16 ha.int ha.bd ha.group ha.plain ha.len ha.image
  have t1 : Enc.createEncodeTable (classCount 16 n (row n)) (n * 1) = .ok t := t1
  rw [Nat.mul_one] at t1
  obtain ⟨k1, k2⟩ := table_row hn0 t1
  rw [k1] at t2
  rw [k2] at t3
  subst t2
  subst t3
  have hT : T 16 = [false] := by
    obtain ⟨e, e1, e2⟩ := h1.word 0 16 rfl
    rw [huff_one] at e1
    simp only [List.getElem?_cons_zero, Option.some.injEq] at e1
    subst e1
    rw [e2]; rfl
  have h3 : byteBits bytes = zeroPad (encode6 T 16 n (row n)) := h3
  have h4 : ((Enc.encode (rowArgs n) = .ok (header6 16 1 n (1 :: List.replicate 15 0) [16] ++ stuff bytes ++ [0xFF, 0xD9]) ∧
        (header6 16 1 n (1 :: List.replicate 15 0) [16] ++ stuff bytes ++ [0xFF, 0xD9]).length ≤ 3 * (n * 1) + 204) ∨
       (Enc.encode (rowArgs n) = .error .encoder ∧
        3 * (n * 1) + 202 ≤ (header6 16 1 n (1 :: List.replicate 15 0) [16] ++ stuff bytes ++ [0xFF, 0xD9]).length)) := h4
  rw [Nat.mul_one] at h4
  have h3' := h3
  rw [encode_row hT, hb] at h3
  obtain ⟨f1, f2, f3, f4⟩ := first_ok
  obtain ⟨p1, p2, p3, p4⟩ := per_ok
  obtain ⟨j1, _, _, j4, j5⟩ := tail_ok ⟨j, hj⟩
  have hz : zeroPad (firstBits ++ (List.replicate q perBits).flatten ++ tailBits j) =
      firstBits ++ (List.replicate q perBits).flatten ++ zeroPad (tailBits j) := by
    have hl : (List.replicate q perBits).flatten.length = q * 272 := by
      simp [List.length_flatten, p3]
    exact zeroPad_app (by rw [List.length_append, hl, f3]; omega) _
  have hbytes : bytes = bytesOf firstBits ++ (List.replicate q (bytesOf perBits)).flatten ++ bytesOf (zeroPad (tailBits j)) := by
    apply byteBits_inj' h2
    · intro x hx
      rcases List.mem_append.1 hx with hx | hx
      · rcases List.mem_append.1 hx with hx | hx
        · exact f4 x hx
        · obtain ⟨l, hl, hx⟩ := List.mem_flatten.1 hx
          rw [(List.mem_replicate.1 hl).2] at hx
          exact p4 x hx
      · exact j5 x hx
    · rw [h3, hz, byteBits_app, byteBits_app, byteBits_rep, f1, p1, j1]
  have hlen : (header6 16 1 n (1 :: List.replicate 15 0) [16] ++ stuff bytes ++ [0xFF, 0xD9]).length =
      99 + 50 * q + (stuff (bytesOf (zeroPad (tailBits j)))).length := by
    rw [hbytes, stuff_app, stuff_app]
    simp only [header6, be16, List.length_append, List.length_cons, List.length_nil, List.length_replicate, stuff_rep, f2, p2]
    omega
  exact ⟨_, ⟨_, _, T, bytes, h1, h2, h3', rfl⟩, hlen, h4⟩

/-- C62: `lj92_encode` can write beyond its buffer. For a certain row of 1209 16-bit samples it reports success, and the file
it has written is one byte longer than the buffer it allocated for it. -/
theorem C62_overflow : ∃ a acc F, EncArgs a acc ∧ (∀ x ∈ acc, x < 2 ^ 16) ∧ a.bitdepth = 16 ∧ acc.length = 1209 ∧
    Enc.encode a = .ok F ∧ a.encodedLength = 3 * 1209 + 200 ∧ F.length = a.encodedLength + 1 := by
  obtain ⟨F, _, h2, h3⟩ := row_file 74 9 (by decide) (by decide)
  have ht := (tail_ok ⟨9, by decide⟩).2.2.1 rfl
  have hlen : F.length = 3828 := by rw [h2]; show 99 + 50 * 74 + (stuff (bytesOf (zeroPad (tailBits 9)))).length = _; rw [ht]
  rcases h3 with ⟨h3, _⟩ | ⟨_, h3⟩
  · obtain ⟨o1, o2⟩ := rowArgs_ok (n := 1209) (by decide) (by decide)
    refine ⟨rowArgs 1209, row 1209, F, o1, o2, rfl, ?_, h3, rfl, ?_⟩
    · simp [row]
    · rw [hlen]; rfl
  · omega

/-- C62: legal images the encoder refuses. There are one-row images of every length from 1248 to 65535 samples for which it
reports an encoder error. -/
theorem C62_refuses {n : Nat} (h1 : 1248 ≤ n) (h2 : n < 65536) :
    ∃ a acc, EncArgs a acc ∧ (∀ x ∈ acc, x < 2 ^ 16) ∧ a.bitdepth = 16 ∧ acc.length = n ∧ Enc.encode a = .error .encoder := by
  obtain ⟨q, j, hj, hn⟩ : ∃ q j, j < 16 ∧ n = 16 + 16 * q + j := ⟨(n - 16) / 16, (n - 16) % 16, by omega, by omega⟩
  subst hn
  obtain ⟨F, _, hl, h3⟩ := row_file q j hj h2
  have ht := (tail_ok ⟨j, hj⟩).2.1
  have ht : 3 * j ≤ (stuff (bytesOf (zeroPad (tailBits j)))).length := ht
  obtain ⟨o1, o2⟩ := rowArgs_ok (n := 16 + 16 * q + j) (by omega) h2
  refine ⟨rowArgs (16 + 16 * q + j), row (16 + 16 * q + j), o1, o2, rfl, by simp [row], ?_⟩
  rcases h3 with ⟨_, h3⟩ | ⟨h3, _⟩
  · omega
  · exact h3

end Props.EncLimit
