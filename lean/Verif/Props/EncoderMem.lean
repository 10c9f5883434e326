/- Property theorems C85: the memory `lj92_encode` reads and writes. -/
import Verif.Proof.Lj92EncScan
import Verif.Props.EncoderLimit

set_option autoImplicit false

namespace Props.EncMem
open Spec Model.Lj92 Model.Lj92.Enc

/-- A legal call: an image of at least one sample, sizes that fit `int`, groups of at least one sample. The samples, the bit
depth, the gap between the groups and the delinearization table are arbitrary. -/
structure Legal (a : Args) : Prop where
  w1 : 1 ≤ a.width
  h1 : 1 ≤ a.height
  int : a.width * a.height * 3 + 200 < 2 ^ 31
  group : 1 ≤ a.readLength

/-- Where sample `n` of the image stands in the caller's memory. -/
def place (a : Args) (n : Nat) : Nat := strided a.readLength a.skipLength n

/-- What the encoder may touch: the samples of the image (reading), the delinearization table at the values of the samples
(reading), the row cache of two rows, its tables of eighteen entries, and the output (writing), up to four bytes more than
allocated. -/
def Allowed (a : Args) : Acc → Prop
  | .rd .image k => ∃ n, n < a.width * a.height ∧ k = place a n
  | .wr .image _ => False
  | .rd .delin k => a.delinearize ≠ none ∧ ∃ n, n < a.width * a.height ∧ k = a.image (place a n)
  | .wr .delin _ => False
  | .rd .rows k | .wr .rows k => 0 ≤ k ∧ k < 2 * a.width
  | .rd .out _ => False
  | .wr .out k => 0 ≤ k ∧ k < a.encodedLength + 4
  | .rd _ k | .wr _ k => 0 ≤ k ∧ k < 18

theorem allowed_inner {a : Args} {x : Acc} (h : Inner a x) : Allowed a x := by
  cases x with
  | rd b k =>
    obtain ⟨h1, h2, h3, h4, h5⟩ := h
    cases b <;> first
      | exact absurd rfl h1
      | exact absurd rfl h2
      | exact absurd rfl h3
      | exact ⟨h4, h5⟩
  | wr b k =>
    obtain ⟨h1, h2, h3, h4, h5⟩ := h
    cases b <;> first
      | exact absurd rfl h1
      | exact absurd rfl h2
      | exact absurd rfl h3
      | exact ⟨h4, h5⟩

theorem allowed_reads {a : Args} {n : Nat} (hn : n < a.width * a.height) {x : Acc} (h : x ∈ reads a n) : Allowed a x := by
  unfold reads at h
  cases hd : a.delinearize with
  | none =>
    rw [hd] at h
    simp only [List.mem_cons, List.not_mem_nil, or_false] at h
    subst h
    exact ⟨n, hn, rfl⟩
  | some f =>
    rw [hd] at h
    simp only [List.mem_cons, List.not_mem_nil, or_false] at h
    rcases h with rfl | rfl
    · exact ⟨n, hn, rfl⟩
    · exact ⟨(by rw [hd]; exact fun e => by cases e), n, hn, rfl⟩

/-- The first pass, and the table made from it. -/
theorem first_part {a : Args} (h : Legal a) : ∃ c hist t, (frequencyScanT a).res = .ok (c, hist) ∧ createEncodeTable hist (a.width * a.height) = .ok t ∧
    All Small (createEncodeTableT hist (a.width * a.height)) ∧ (∀ k, (t.codes.getD k (0, 0)).1 ≤ 16) ∧ (∀ k, t.huffsym k < 18) ∧
    ((List.range 17).map t.bits).sum.toNat ≤ 17 := by
  have hlen : (samples a).length = a.width * a.height := by simp [samples]
  have hpos : 1 ≤ a.width * a.height := Nat.mul_pos h.w1 h.h1
  have hint := h.int
  obtain ⟨c, f1⟩ := frequencyScan_spec h.w1 h.group hlen (fun n hn => (samples_getD (by omega)).symm)
  obtain ⟨v, g1, g2⟩ := frequencyScanT_res a
  rw [f1] at g1
  injection g1 with g1
  subst g1
  have hsum : sumTo (classCount a.bitdepth a.width (samples a)) 17 = a.width * a.height := by
    rw [← hlen]; exact countTo_sum a.bitdepth a.width (samples a) (samples a).length
  have hbig := classCount_big a.bitdepth a.width (samples a)
  obtain ⟨t, T, c1, c2, c3, c4, c5, c6⟩ := create_spec hsum hpos (by omega) hbig
  obtain ⟨l1, l2⟩ := create_le c1
  refine ⟨c, _, t, g2, c1, createT_small hsum hpos (by omega) hbig, l1, l2, ?_⟩
  have hval : ∀ v ∈ t.huffval, v < 17 := by
    intro v hv
    have := (c5.mem v).1 hv
    apply Classical.byContradiction
    intro hge
    rw [hbig _ (by omega)] at this
    omega
  have hvl : t.huffval.length ≤ 17 := by
    have h1 : t.huffval ⊆ List.range 17 := fun v hv => List.mem_range.2 (hval v hv)
    have h2 := List.Nodup.length_le_of_subset c5.nodup h1
    simpa using h2
  have hcount : ((List.range 17).map t.bits).sum = t.huffval.length := by
    rw [c5.num, ← sum_cast, countsOf, List.map_map, show (17 : Nat) = 16 + 1 from rfl, List.range_succ_eq_map, List.map_cons, List.sum_cons, c3, List.map_map,
      Int.zero_add]
    congr 1
    apply List.map_congr_left
    intro k _
    simp only [Function.comp, countOf]
    exact (Int.toNat_of_nonneg (c2 _)).symm
  omega

theorem header_length {a : Args} {t : Tab} (h : ((List.range 17).map t.bits).sum.toNat ≤ 17) : (writeHeader a t).length ≤ 63 := by
  unfold writeHeader
  simp only [List.length_append, List.length_map, List.length_range, List.length_cons, List.length_nil]
  omega

theorem writeHeaderT_accs (a : Args) (t : Tab) : ∃ l, (writeHeaderT a t).accs = l ++ puts 0 (writeHeader a t).length ∧
    (((List.range 17).map t.bits).sum.toNat ≤ 17 → ∀ x ∈ l, Inner a x) := by
  refine ⟨((List.range 17).map fun i : Nat => .rd .bits i) ++ ((List.range 16).map fun i : Nat => .rd .bits (i + 1 : Nat)) ++
    ((List.range ((List.range 17).map t.bits).sum.toNat).map fun i : Nat => .rd .huffval i), ?_, ?_⟩
  · unfold writeHeaderT
    dsimp only
    rw [accs_bind (res_touch _), accs_bind (res_touch _), accs_bind (res_touch _), accs_bind (res_touch _)]
    show _ ++ (_ ++ (_ ++ (_ ++ []))) = _
    unfold puts
    rw [List.append_nil, ← List.range_eq_range', List.append_assoc, List.append_assoc]
    rfl
  · intro hc x hx
    rcases List.mem_append.1 hx with hx | hx
    · rcases List.mem_append.1 hx with hx | hx
      · simp only [List.mem_map, List.mem_range] at hx
        obtain ⟨i, hi, rfl⟩ := hx
        exact ⟨by decide, by decide, by decide, by omega, by rw [if_neg (by decide)]; omega⟩
      · simp only [List.mem_map, List.mem_range] at hx
        obtain ⟨i, hi, rfl⟩ := hx
        exact ⟨by decide, by decide, by decide, by omega, by rw [if_neg (by decide)]; omega⟩
    · simp only [List.mem_map, List.mem_range] at hx
      obtain ⟨i, hi, rfl⟩ := hx
      exact ⟨by decide, by decide, by decide, by omega, by rw [if_neg (by decide)]; omega⟩

theorem puts_mem {i n : Nat} {x : Acc} (h : x ∈ puts i n) : ∃ k : Nat, i ≤ k ∧ k < i + n ∧ x = .wr .out k := by
  simp only [puts, List.mem_map, List.mem_range'_1] at h
  obtain ⟨k, hk, rfl⟩ := h
  exact ⟨k, hk.1, hk.2, rfl⟩

theorem proj_puts (i n : Nat) : proj .out (puts i n) = puts i n ∧ proj .image (puts i n) = [] ∧ proj .delin (puts i n) = [] := by
  refine ⟨?_, proj_nil_of ?_, proj_nil_of ?_⟩
  · unfold proj
    rw [List.filter_eq_self]
    intro x hx
    obtain ⟨k, _, _, rfl⟩ := puts_mem hx
    rfl
  · intro x hx
    obtain ⟨k, _, _, rfl⟩ := puts_mem hx
    exact Arr.noConfusion
  · intro x hx
    obtain ⟨k, _, _, rfl⟩ := puts_mem hx
    exact Arr.noConfusion

/-- The reads of the image in one pass. -/
def pass (a : Args) : List Acc := (List.range (a.width * a.height)).map fun n => .rd .image (place a n)

/-- The second pass. -/
theorem body_part {a : Args} (h : Legal a) {t : Tab} (ht : ∀ k, t.huffsym k < 18) (ht16 : ∀ k, (t.codes.getD k (0, 0)).1 ≤ 16) {out : List Nat}
    (ho : out.length ≤ a.encodedLength) :
    (∀ x ∈ (writeBodyT a t out).accs, Inner a x ∨ (∃ m, m < a.width * a.height ∧ x ∈ reads a m) ∨ ∃ i, i < a.encodedLength + 2 ∧ x = .wr .out (i : Nat)) ∧
    (((writeBodyT a t out).res = .error .encoder) ∨ ∃ o, (writeBodyT a t out).res = .ok o ∧ out.length ≤ o.length ∧ o.length ≤ a.encodedLength + 2 ∧
      proj .out (writeBodyT a t out).accs = puts out.length (o.length - out.length) ∧
      proj .image (writeBodyT a t out).accs = pass a ∧
      proj .delin (writeBodyT a t out).accs = (List.range (a.width * a.height)).flatMap fun n => proj .delin (reads a n)) := by
  obtain ⟨b1, b2⟩ := bodyLoopT_accs h.w1 h.group ht (a.width * a.height) 0 (Cur.init a, ⟨0, 8, out⟩) (by omega) (cur_init a _) ho
  have hres := bodyLoopT_res a t (a.width * a.height) (Cur.init a, ⟨0, 8, out⟩)
  have hb : ∀ x ∈ (bodyLoopT a t (a.width * a.height) (Cur.init a, ⟨0, 8, out⟩)).accs,
      Inner a x ∨ (∃ m, m < a.width * a.height ∧ x ∈ reads a m) ∨ ∃ i, i < a.encodedLength + 2 ∧ x = .wr .out (i : Nat) := by
    intro x hx
    rcases b1 x hx with h | h | ⟨i, h, e⟩
    · exact Or.inl h
    · exact Or.inr (Or.inl h)
    · exact Or.inr (Or.inr ⟨i, by omega, e⟩)
  unfold writeBodyT
  rcases bodyLoop_ends h.w1 h.group ht16 (a.width * a.height) 0 (Cur.init a, ⟨0, 8, out⟩) (by omega) (cur_init a _) (by dsimp only; omega) (by dsimp only; omega) with e | ⟨v, e⟩
  · rw [e] at hres
    rw [accs_bind_error hres]
    exact ⟨hb, Or.inl (by rw [res_bind, hres])⟩
  · rw [e] at hres
    obtain ⟨p1, p2, p3⟩ := b2 v hres
    rw [accs_bind hres, res_bind, hres]
    obtain ⟨c, s⟩ := v
    dsimp only at p1 ⊢
    obtain ⟨q1, q2, q3⟩ := p1
    rw [← List.range_eq_range'] at p2 p3
    by_cases h8 : s.nextbits < 8
    · simp only [if_pos h8]
      obtain ⟨o, o1, o2, o3, o4⟩ := putT_accs s
      rw [o1, o2]
      obtain ⟨r1, r2, r3⟩ := proj_puts s.out.length (o.length - s.out.length)
      refine ⟨?_, Or.inr ⟨o, rfl, by omega, by omega, ?_, ?_, ?_⟩⟩
      · intro x hx
        rcases List.mem_append.1 hx with hx | hx
        · exact hb x hx
        · obtain ⟨k, k1, k2, k3⟩ := puts_mem hx
          exact Or.inr (Or.inr ⟨k, by omega, k3⟩)
      · rw [proj_append, q3, r1, show o.length - out.length = (s.out.length - out.length) + (o.length - s.out.length) by omega, ← puts_append,
          show out.length + (s.out.length - out.length) = s.out.length by omega]
      · rw [proj_append, p2, r2, List.append_nil]; rfl
      · rw [proj_append, p3, r3, List.append_nil]
    · simp only [if_neg h8]
      refine ⟨?_, Or.inr ⟨s.out, rfl, q1, by omega, ?_, ?_, ?_⟩⟩
      · intro x hx
        rcases List.mem_append.1 hx with hx | hx
        · exact hb x hx
        · cases hx
      · show proj .out (_ ++ []) = _
        rw [List.append_nil]; exact q3
      · show proj .image (_ ++ []) = _
        rw [List.append_nil]; exact p2
      · show proj .delin (_ ++ []) = _
        rw [List.append_nil]; exact p3

/-- The whole call. -/
theorem whole {a : Args} (h : Legal a) :
    (∀ x ∈ (encodeT a).accs, Allowed a x) ∧
    (((encodeT a).res = .error .encoder) ∨ ∃ F, (encodeT a).res = .ok F ∧
      proj .out (encodeT a).accs = puts 0 F.length ∧ proj .image (encodeT a).accs = pass a ++ pass a ∧
      proj .delin (encodeT a).accs = (List.range (a.width * a.height)).flatMap fun n => proj .delin (reads a n)) := by
  obtain ⟨c, hist, t, f1, f2, f3, f4, f5, f6⟩ := first_part h
  obtain ⟨s1, s2, s3, s4⟩ := frequencyScanT_accs (a := a) h.w1 h.group
  have g1 : (createEncodeTableT hist (a.width * a.height)).res = .ok t := by rw [createEncodeTableT_res]; exact f2
  obtain ⟨hl, w1, w2⟩ := writeHeaderT_accs a t
  have w2 := w2 f6
  have w3 : (writeHeaderT a t).res = .ok (writeHeader a t) := rfl
  have w4 := header_length (a := a) f6
  have hE : a.encodedLength ≥ 200 := by unfold Args.encodedLength; omega
  obtain ⟨b1, b2⟩ := body_part h f5 f4 (out := writeHeader a t) (by omega)
  obtain ⟨z1, z2, z3⟩ := proj_inner (a := a) (l := (createEncodeTableT hist (a.width * a.height)).accs) (fun x hx => Inner.of_small (f3 x hx))
  obtain ⟨y1, y2, y3⟩ := proj_inner w2
  obtain ⟨u1, u2, u3⟩ := proj_puts 0 (writeHeader a t).length
  have m1 : ∀ x ∈ (frequencyScanT a).accs, Allowed a x := by
    intro x hx
    rcases s1 x hx with hx | ⟨n, hn, rfl⟩
    · exact allowed_inner hx
    · exact ⟨n, hn, rfl⟩
  have m2 : ∀ x ∈ (createEncodeTableT hist (a.width * a.height)).accs, Allowed a x := fun x hx => allowed_inner (Inner.of_small (f3 x hx))
  have m3 : ∀ x ∈ (writeHeaderT a t).accs, Allowed a x := by
    intro x hx
    rw [w1] at hx
    rcases List.mem_append.1 hx with hx | hx
    · exact allowed_inner (w2 x hx)
    · obtain ⟨k, k1, k2, rfl⟩ := puts_mem hx
      exact ⟨by omega, by omega⟩
  have m4 : ∀ x ∈ (writeBodyT a t (writeHeader a t)).accs, Allowed a x := by
    intro x hx
    rcases b1 x hx with hx | ⟨n, hn, hx⟩ | ⟨i, hi, rfl⟩
    · exact allowed_inner hx
    · exact allowed_reads hn hx
    · exact ⟨by omega, by omega⟩
  unfold encodeT
  rcases b2 with e | ⟨o, o1, o2, o3, o4, o5, o6⟩
  · rw [accs_bind f1, accs_bind g1, accs_bind w3, accs_bind_error e, res_bind, f1]
    dsimp only
    rw [res_bind, g1]
    dsimp only
    rw [res_bind, w3]
    dsimp only
    rw [res_bind, e]
    refine ⟨fun x hx => ?_, Or.inl rfl⟩
    rcases List.mem_append.1 hx with hx | hx
    · exact m1 x hx
    · rcases List.mem_append.1 hx with hx | hx
      · exact m2 x hx
      · rcases List.mem_append.1 hx with hx | hx
        · exact m3 x hx
        · exact m4 x hx
  · rw [accs_bind f1, accs_bind g1, accs_bind w3, accs_bind o1, accs_bind (res_touch _), res_bind, f1]
    dsimp only
    rw [res_bind, g1]
    dsimp only
    rw [res_bind, w3]
    dsimp only
    rw [res_bind, o1]
    have hp : (TrE.touch [.wr .out o.length, .wr .out (o.length + 1 : Nat)]).accs ++ (TrE.ret (o ++ [0xff, 0xd9])).accs = puts o.length 2 := rfl
    rw [hp]
    obtain ⟨v1, v2, v3⟩ := proj_puts o.length 2
    refine ⟨fun x hx => ?_, Or.inr ⟨_, rfl, ?_, ?_, ?_⟩⟩
    · rcases List.mem_append.1 hx with hx | hx
      · exact m1 x hx
      · rcases List.mem_append.1 hx with hx | hx
        · exact m2 x hx
        · rcases List.mem_append.1 hx with hx | hx
          · exact m3 x hx
          · rcases List.mem_append.1 hx with hx | hx
            · exact m4 x hx
            · obtain ⟨k, k1, k2, rfl⟩ := puts_mem hx
              exact ⟨by omega, by omega⟩
    · simp only [proj_append, s4, z3, w1, y3, u1, o4, v1, List.nil_append]
      rw [← List.append_assoc]
      have := puts_append 0 (writeHeader a t).length (o.length - (writeHeader a t).length)
      rw [Nat.zero_add] at this
      rw [this, show (writeHeader a t).length + (o.length - (writeHeader a t).length) = o.length by omega]
      have := puts_append 0 o.length 2
      rw [Nat.zero_add] at this
      rw [this]
      simp
    · simp only [proj_append, s2, z1, w1, y1, u2, o5, v2, List.nil_append, List.append_nil]
      rfl
    · simp only [proj_append, s3, z2, w1, y2, u3, o6, v3, List.nil_append, List.append_nil]

/-! ### The theorems -/

/-- C85: the recorded accesses are those of the encoder of C62: the same file or error. -/
theorem C85_same (a : Args) : (encodeT a).res = encode a := encodeT_res a

/-- C85: every call of legal sizes ends with a file or with the encoder error, whatever the image, the bit depth and the
delinearization table are. -/
theorem C85_ends {a : Args} (h : Legal a) : encode a = .error .encoder ∨ ∃ F, encode a = .ok F := by
  rw [← encodeT_res]
  rcases (whole h).2 with e | ⟨F, e, _⟩
  · exact Or.inl e
  · exact Or.inr ⟨F, e⟩

/-- C85: every access is allowed: the image only at its samples and only for reading, the delinearization table only at the
values of samples, the row cache and the tables within their sizes, the output only for writing and at most four bytes behind
its end. -/
theorem C85_accesses {a : Args} (h : Legal a) : ∀ x ∈ (encodeT a).accs, Allowed a x := (whole h).1

/-- C85: a successful call writes every byte of the file exactly once, in order. -/
theorem C85_output {a : Args} (h : Legal a) {F : List Nat} (hF : encode a = .ok F) :
    (encodeT a).accs.filter (fun x => x.arr = .out) = (List.range F.length).map fun (k : Nat) => Acc.wr .out k := by
  rcases (whole h).2 with e | ⟨F', e, e1, _⟩
  · rw [encodeT_res, hF] at e; cases e
  · rw [encodeT_res, hF] at e
    injection e with e
    subst e
    have e1 : (encodeT a).accs.filter (fun x => x.arr = .out) = puts 0 F.length := e1
    rw [e1, puts, List.range_eq_range']

/-- C85: a successful call reads every sample of the image exactly twice: all of them in order, and once more all of them. -/
theorem C85_image {a : Args} (h : Legal a) {F : List Nat} (hF : encode a = .ok F) :
    (encodeT a).accs.filter (fun x => x.arr = .image) =
      (List.range (a.width * a.height)).map (fun n => Acc.rd .image (place a n)) ++ (List.range (a.width * a.height)).map (fun n => Acc.rd .image (place a n)) := by
  rcases (whole h).2 with e | ⟨F', e, _, e1, _⟩
  · rw [encodeT_res, hF] at e; cases e
  · exact e1

/-- C85: with a delinearization table a successful call reads it once for each sample, at the value of the sample: the length
of the table is not looked at. -/
theorem C85_delinearize {a : Args} (h : Legal a) {f : Nat → Nat} (hd : a.delinearize = some f) {F : List Nat} (hF : encode a = .ok F) :
    (encodeT a).accs.filter (fun x => x.arr = .delin) = (List.range (a.width * a.height)).map fun n => Acc.rd .delin (a.image (place a n)) := by
  rcases (whole h).2 with e | ⟨F', e, _, _, e1⟩
  · rw [encodeT_res, hF] at e; cases e
  · have e1 : (encodeT a).accs.filter (fun x => x.arr = .delin) = (List.range (a.width * a.height)).flatMap fun n => proj .delin (reads a n) := e1
    rw [e1]
    have : ∀ n, proj .delin (reads a n) = [Acc.rd .delin (a.image (place a n))] := by
      intro n
      unfold reads
      rw [hd]
      rfl
    simp only [this]
    exact (List.map_eq_flatMap ..).symm

/-- C85: without one the table is not read. -/
theorem C85_no_table {a : Args} (h : Legal a) (hd : a.delinearize = none) : ∀ x ∈ (encodeT a).accs, x.arr ≠ .delin := by
  intro x hx e
  have := C85_accesses h x hx
  cases x with
  | rd b k => dsimp only [Acc.arr] at e; subst e; exact this.1 hd
  | wr b k => dsimp only [Acc.arr] at e; subst e; exact this

/-- C85: a write behind the end of the allocated buffer does happen, in a call that succeeds. -/
theorem C85_overflow : ∃ a F, Legal a ∧ encode a = .ok F ∧ Acc.wr .out a.encodedLength ∈ (encodeT a).accs := by
  obtain ⟨a, acc, F, h1, _, _, _, h2, _, h3⟩ := EncLimit.C62_overflow
  have hl : Legal a := ⟨h1.w1, h1.h1, h1.int, h1.group⟩
  refine ⟨a, F, hl, h2, ?_⟩
  have := C85_output hl h2
  have hm : Acc.wr .out a.encodedLength ∈ (encodeT a).accs.filter (fun x => x.arr = .out) := by
    rw [this, List.mem_map]
    exact ⟨a.encodedLength, by rw [List.mem_range]; omega, rfl⟩
  exact (List.mem_filter.1 hm).1

/-! ### The hypotheses can be met -/

/-- Two rows of three samples with a gap after every three, and a table that squares. -/
def small : Args := ⟨fun k => k * 5 % 16, 3, 2, 8, 3, 4, some fun v => v * v % 256⟩

theorem small_legal : Legal small := ⟨by decide, by decide, by decide, by decide⟩

example : (encode small).toOption.isSome = true := by decide +kernel

example : (encodeT small).accs.filter (fun x => x.arr = .delin) = [.rd .delin 0, .rd .delin 5, .rd .delin 10, .rd .delin 3, .rd .delin 8, .rd .delin 13] := by
  decide +kernel

end Props.EncMem
