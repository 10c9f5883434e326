/- Property C96: which memory the decoder of liblj92 touches for files with any number of components and segments in any order. -/
import Verif.Props.Segments
import Verif.Props.DecoderMem

set_option autoImplicit false

namespace Props.SegsMem
open Spec Model Model.Lj92 Props

/-! ### Classes -/

theorem predPC_bounds {p bd C W : Nat} {acc : List Nat} (hp : 1 ≤ p) (hp7 : p ≤ 7) (hbd : 1 ≤ bd) (hacc : ∀ x ∈ acc, x < 2 ^ bd) (i : Nat) :
    -(2 ^ bd : Nat) < predPC p bd C W acc i ∧ predPC p bd C W acc i + 1 < 2 * (2 ^ bd : Nat) := by
  have hb := Segs.getD_lt hacc
  have hq : (2 : Int) ^ (bd - 1) * 2 = (2 ^ bd : Nat) := by
    rw [← Int.pow_succ, Nat.succ_eq_add_one, Nat.sub_add_cancel hbd]; simp
  have hq2 : (0 : Int) < 2 ^ (bd - 1) := Int.pow_pos (by decide)
  unfold predPC
  have a1 := hb (i - C)
  have a2 := hb (i - W)
  have a3 := hb (i - W - C)
  have hM : 2 ≤ 2 ^ bd := by
    have := Nat.pow_le_pow_right (show 0 < 2 by decide) hbd
    omega
  generalize 2 ^ bd = M at *
  split
  · omega
  · split
    · omega
    · split
      · omega
      · generalize acc.getD (i - C) 0 = a at *
        generalize acc.getD (i - W) 0 = b at *
        generalize acc.getD (i - W - C) 0 = c at *
        obtain rfl | rfl | rfl | rfl | rfl | rfl | rfl : p = 1 ∨ p = 2 ∨ p = 3 ∨ p = 4 ∨ p = 5 ∨ p = 6 ∨ p = 7 := by omega
        all_goals (simp only [tableH1]; omega)

/-- C96: with any predictor and any number of components the classes of the differences of samples of `bd` bits go up to `bd + 1`. -/
theorem C96_classes {p bd C W : Nat} {acc : List Nat} (hp : 1 ≤ p) (hp7 : p ≤ 7) (hbd : 1 ≤ bd) (hacc : ∀ x ∈ acc, x < 2 ^ bd) (i : Nat) :
    cls ((acc.getD i 0 : Int) - predPC p bd C W acc i) ≤ bd + 1 := by
  obtain ⟨p1, p2⟩ := predPC_bounds (C := C) (W := W) hp hp7 hbd hacc i
  have hx := Segs.getD_lt hacc i
  apply cls_le
  rw [Nat.pow_succ]
  generalize predPC p bd C W acc i = q at *
  generalize acc.getD i 0 = x at *
  generalize 2 ^ bd = M at *
  omega

/-! ### Segments as marker and payload -/

/-- Marker and payload of a segment. -/
def raw : Segment → Nat × List Nat
  | .table th counts vals => (0xC4, th :: (counts ++ vals))
  | .frame bd lines samples C comps => (0xC3, [bd] ++ be16 lines ++ be16 samples ++ [C] ++ comps)
  | .other marker payload => (marker, payload)

theorem raw_bytes {bd lines samples C : Nat} {counts vals : List Nat} (hc : counts.length = 16) {g : Segment}
    (hg : g.Legal bd lines samples C counts vals) : segment (raw g) = g.bytes := by
  cases g with
  | table th c v =>
    obtain ⟨_, rfl, rfl⟩ := hg
    have e : 2 + (th :: (c ++ v)).length = 19 + v.length := by simp [hc]; omega
    simp only [raw, segment, Segment.bytes, e]
    simp
  | frame b l x n comps =>
    obtain ⟨rfl, rfl, rfl, rfl, h⟩ := hg
    have e : 2 + ([b] ++ be16 l ++ be16 x ++ [n] ++ comps).length = 8 + 3 * n := by simp [be16, h]; omega
    simp only [raw, segment, Segment.bytes, e]
    simp
  | other m pl => rfl

theorem raw_flat {bd lines samples C : Nat} {counts vals : List Nat} (hc : counts.length = 16) (segs : List Segment)
    (hg : ∀ g ∈ segs, Segment.Legal bd lines samples C counts vals g) : (segs.map raw).flatMap segment = segs.flatMap Segment.bytes := by
  induction segs with
  | nil => rfl
  | cons g segs ih =>
    rw [List.map_cons, List.flatMap_cons, List.flatMap_cons, raw_bytes hc (hg g (List.mem_cons_self ..)), ih fun g h => hg g (List.mem_cons_of_mem _ h)]

theorem raw_good {bd lines samples C : Nat} {counts vals : List Nat} {T : Table} (hD : DescribesFor counts vals T (· ∈ vals)) (hv : vals.length ≤ 17)
    (hby : ∀ x, x ∈ counts ++ vals → x < 255) (hC : C < 256) {g : Segment} (hg : g.Legal bd lines samples C counts vals) : GoodSegment (raw g) := by
  cases g with
  | table th c v =>
    obtain ⟨_, rfl, rfl⟩ := hg
    refine ⟨?_, ⟨by simp [raw], by simp [raw]⟩, fun h => by simp [raw] at h, fun _ => ⟨th, c, v, rfl, hD.len, Nat.le_of_eq hD.num.symm, by omega, hby⟩⟩
    simp [raw, hD.len]; omega
  | frame b l x n comps =>
    obtain ⟨rfl, rfl, rfl, rfl, h⟩ := hg
    exact ⟨by simp [raw, be16, h]; omega, ⟨by simp [raw], by simp [raw]⟩, fun _ => by simp [raw, be16], fun h => by simp [raw] at h⟩
  | other m pl =>
    obtain ⟨hm, hp⟩ := hg
    exact ⟨by simp only [raw]; omega, ⟨by simp only [raw]; omega, by simp only [raw]; omega⟩, fun h => by simp only [raw] at h; omega,
      fun h => by simp only [raw] at h; omega⟩

/-! ### The accesses -/

/-- C96: a file of an image of any number of components (wide or narrow), coded with any of the seven predictors and any legal Huffman table, its
segments in any order with any application data and comments: `lj92_open` touches only the file and the look-up table; `lj92_decode` returns, reads
no further than three bytes behind the code (inside the file, if four bytes follow the code) and stays inside the look-up table, the histogram, the
row buffers of `2 * C * X` values and the rows of the image - also when what it decodes is wrong (predictors 2 to 7 with several components).
Predictor 6 only for one component, at least one sample and a group length of at least two; it reads the linearization table unchecked. -/
theorem C96_accesses {p bd H X C : Nat} {acc F : List Nat} {segs : List Segment} {sels counts vals bytes tail : List Nat} {T : Table} {pad : List Bool}
    (hD : DescribesFor counts vals T (· ∈ vals)) (hv : ∀ t ∈ vals, t ≤ 16)
    (hcl : ∀ i, i < acc.length → cls ((acc.getD i 0 : Int) - predPC p bd C (C * X) acc i) ∈ vals)
    (hsegs : ∀ g ∈ segs, Segment.Legal bd H X C counts vals g) (htab : ∃ th, Segment.table th counts vals ∈ segs)
    (hfr : ∃ comps, Segment.frame bd H X C comps ∈ segs) (hsels : sels.length = 2 * C)
    (hbits : byteBits bytes = encodePC p T bd C (C * X) acc ++ pad) (htail : 1 ≤ tail.length)
    (hF : F = [0xFF, 0xD8] ++ segs.flatMap Segment.bytes ++ scanHeader p C sels ++ (stuff bytes ++ tail))
    (hp : 1 ≤ p) (hp7 : p ≤ 7) (hbd1 : 1 ≤ bd) (hbd : bd ≤ 14) (hC256 : C < 256) (hX : X < 65536) (hH : H < 65536)
    (hlen : acc.length = C * X * H) (hacc : ∀ x ∈ acc, x < 2 ^ bd) {d : Nat → Nat} (hd : ∀ k, d k < 256) (hfile : At d 0 F)
    (lin : Option Lin) (mem target : Nat → Nat) (ub : Int) (group skip : Nat) (h6 : p = 6 → C = 1 ∧ 1 ≤ X ∧ 1 ≤ H ∧ 2 ≤ group) :
    ∃ s n, (openT d F.length mem).res = .ok (s, n) ∧ (∀ a ∈ (openT d F.length mem).accs, Within (Opening F.length) a) ∧
      (decodeT ub s n target group skip lin).res ≠ .hang ∧
      ∀ a ∈ (decodeT ub s n target group skip lin).accs,
        Within ⟨F.length + (4 - tail.length), 2 * (C * X), fun k => k < 65536 ∧ (p ≠ 6 → Checked lin k), Places p H (C * X) group skip⟩ a := by
  subst hF
  obtain ⟨hvl, hby⟩ := describes_small' hD hv
  obtain ⟨s, o1, o⟩ := Seg.open_segs hd hD hby (by omega) hH hX hC256 hsegs htab hfr hsels hfile mem
  have hsplit : [0xFF, 0xD8] ++ segs.flatMap Segment.bytes ++ scanHeader p C sels ++ (stuff bytes ++ tail) =
      [0xFF, 0xD8] ++ ((segs.map raw).flatMap segment ++ ([0xFF, 0xDA] ++ (be16 (6 + 2 * C) ++ [C] ++ sels ++ [p, 0, 0] ++ (stuff bytes ++ tail)))) := by
    rw [raw_flat hD.len segs hsegs]
    simp [scanHeader]
  have hrl : (be16 (6 + 2 * C) ++ [C] ++ sels ++ [p, 0, 0] ++ (stuff bytes ++ tail)).length = 6 + 2 * C + (stuff bytes).length + tail.length := by
    simp [be16, hsels]; omega
  obtain ⟨q1, q2, q3, q4⟩ := open_legal hsplit (by
    intro g hg
    obtain ⟨g', hg', rfl⟩ := List.mem_map.1 hg
    exact raw_good hD hvl hby hC256 (hsegs g' hg'))
    (by obtain ⟨th, h⟩ := htab; exact ⟨_, List.mem_map_of_mem h, rfl⟩) (by rw [hrl]; omega) hfile o1
  rw [hrl] at q2
  generalize ([0xFF, 0xD8] ++ segs.flatMap Segment.bytes ++ scanHeader p C sels ++ (stuff bytes ++ tail)).length = N at *
  have hend := o.ends
  have hcc := o.count
  have hpp := o.pred
  have hpr : s.data (s.scanstart + 3 + 2 * s.data (s.scanstart + 2)) = p := by rw [hcc, hpp]
  have hst := o.head
  have key := decode_legal (s := s) (T := T) (l := (List.range acc.length).map fun i => (acc.getD i 0 : Int) - predPC p bd C (C * X) acc i) (bytes := bytes)
    (tail := tail) (pad := pad) (start := s.scanstart + (6 + 2 * C))
    ⟨N + (4 - tail.length), 2 * (C * X), fun k => k < 65536 ∧ (p ≠ 6 → Checked lin k), Places p H (C * X) group skip⟩
    o.bytes o.hb (by
      intro e he
      obtain ⟨i, hi, rfl⟩ := List.mem_map.1 he
      rw [List.mem_range] at hi
      have hc := C96_classes (C := C) (W := C * X) hp hp7 hbd1 hacc i
      exact ⟨by omega, o.lut _ (hcl i hi)⟩) (by rw [hst]) (by rw [hcc]; dsimp only; omega) (by dsimp only; omega)
    (by rw [← hst]; exact o.at') (by rw [hbits, List.flatMap_map]; rfl) (by dsimp only; omega)
    (by rw [o.x, o.comps, Nat.mul_comm X C]) (by
      rw [o.x, o.y, o.comps, List.length_map, List.length_range, hlen, Nat.mul_comm X C, Nat.mul_comm]) ub target group skip lin
    (fun h => by
      rw [hpr] at h
      refine ⟨fun k hk hc => ⟨hk, fun _ => hc⟩, fun k hk => ?_⟩
      rw [o.x, o.y, o.comps, Nat.mul_comm X C] at hk
      show Places p H (C * X) group skip k
      rw [Places, if_neg h]; exact hk)
    (fun h => by
      rw [hpr] at h
      obtain ⟨a0, a1, a2, a3⟩ := h6 h
      refine ⟨a3, by rw [o.comps]; exact a0, by rw [o.x]; exact a1, by rw [o.y]; exact a2, fun k hk => ⟨hk, fun hn => absurd h hn⟩, fun m hm => ?_⟩
      show Places p H (C * X) group skip _
      rw [o.x, o.y] at hm
      rw [Places, if_pos h, a0, Nat.one_mul]; exact ⟨m, hm, rfl⟩)
  exact ⟨s, _, q1, q4, key.2.1, key.1⟩

/-- C96 for `Spec.IsFileS`: at most three bytes beyond the file are read, whatever follows the code in it. -/
theorem C96_any_file {p bd H X C : Nat} {acc F : List Nat} (hF : IsFileS p bd H X C acc F) (hp : 1 ≤ p) (hp7 : p ≤ 7) (hbd1 : 1 ≤ bd) (hbd : bd ≤ 14)
    (hC256 : C < 256) (hX : X < 65536) (hH : H < 65536) (hlen : acc.length = C * X * H) (hacc : ∀ x ∈ acc, x < 2 ^ bd)
    {d : Nat → Nat} (hd : ∀ k, d k < 256) (hfile : At d 0 F) (lin : Option Lin) (mem target : Nat → Nat) (ub : Int) (group skip : Nat)
    (h6 : p = 6 → C = 1 ∧ 1 ≤ X ∧ 1 ≤ H ∧ 2 ≤ group) :
    ∃ s n, (openT d F.length mem).res = .ok (s, n) ∧ (∀ a ∈ (openT d F.length mem).accs, Within (Opening F.length) a) ∧
      (decodeT ub s n target group skip lin).res ≠ .hang ∧
      ∀ a ∈ (decodeT ub s n target group skip lin).accs,
        Within ⟨F.length + 3, 2 * (C * X), fun k => k < 65536 ∧ (p ≠ 6 → Checked lin k), Places p H (C * X) group skip⟩ a := by
  obtain ⟨segs, sels, counts, vals, T, bytes, pad, tail, hD, hv, hcl, hsegs, htab, hfr, hsels, hbits, htail, hF⟩ := hF
  obtain ⟨s, n, a1, a2, a3, a4⟩ := C96_accesses hD hv hcl hsegs htab hfr hsels hbits htail hF hp hp7 hbd1 hbd hC256 hX hH hlen hacc hd hfile lin mem target
    ub group skip h6
  refine ⟨s, n, a1, a2, a3, fun a ha => ?_⟩
  have := a4 a ha
  cases a <;> simp only [Within] at this ⊢ <;> first | exact this | omega

/-- C96: the values of the image that are written (any predictor but 6): only places in its rows. -/
theorem C96_image {p bd H X C : Nat} {acc F : List Nat} (hF : IsFileS p bd H X C acc F) (hp : 1 ≤ p) (hp7 : p ≤ 7) (h6 : p ≠ 6) (hbd1 : 1 ≤ bd)
    (hbd : bd ≤ 14) (hC256 : C < 256) (hX : X < 65536) (hH : H < 65536) (hlen : acc.length = C * X * H) (hacc : ∀ x ∈ acc, x < 2 ^ bd)
    {d : Nat → Nat} (hd : ∀ k, d k < 256) (hfile : At d 0 F) (lin : Option Lin) (mem target : Nat → Nat) (ub : Int) (group skip : Nat) :
    ∃ s n, (openT d F.length mem).res = .ok (s, n) ∧
      ∀ k, .imgW k ∈ (decodeT ub s n target group skip lin).accs → ∃ r q, r < H ∧ q < C * X ∧ k = r * (C * X + skip) + q := by
  obtain ⟨s, n, a1, _, _, a4⟩ := C96_any_file hF hp hp7 hbd1 hbd hC256 hX hH hlen hacc hd hfile lin mem target ub group skip (fun h => absurd h h6)
  refine ⟨s, n, a1, fun k hk => ?_⟩
  have h : Places p H (C * X) group skip k := a4 _ hk
  rw [Places, if_neg h6] at h
  exact h

/-! ### The hypotheses can be met, and limits -/

/-- The file of `Segs.fileEx` with another predictor. -/
def fileOf (p : Nat) (bytes tail : List Nat) : List Nat :=
  [0xFF, 0xD8] ++ Segs.segsEx.flatMap Segment.bytes ++ scanHeader p 2 [0, 0, 1, 0x10] ++ (stuff bytes ++ tail)

/-- C96, a limit: `lj92_open` changes the file in memory: the destination of a Huffman table becomes 0 (here 0x11 at byte 63). -/
theorem C96_input_limit : fileMem (fileOf 5 [153, 108, 85, 106, 19] [0xFF, 0xD9]) 63 = 0x11 ∧
    .inW 63 ∈ (openT (fileMem (fileOf 5 [153, 108, 85, 106, 19] [0xFF, 0xD9])) (fileOf 5 [153, 108, 85, 106, 19] [0xFF, 0xD9]).length (fun _ => 0)).accs ∧
    (open' (fileMem (fileOf 5 [153, 108, 85, 106, 19] [0xFF, 0xD9])) (fileOf 5 [153, 108, 85, 106, 19] [0xFF, 0xD9]).length (fun _ => 0)).map (fun s => s.data 63) = some 0 := by
  decide +kernel

theorem fileMem_lt {F : List Nat} (h : ∀ x ∈ F, x < 256) (k : Nat) : fileMem F k < 256 := by
  unfold fileMem
  by_cases hk : k < F.length
  · rw [List.getD_eq_getElem?_getD, List.getElem?_eq_getElem hk]
    exact h _ (List.getElem_mem hk)
  · rw [List.getD_eq_getElem?_getD, List.getElem?_eq_none (by omega)]
    decide

theorem fileMem_at (F : List Nat) : At (fileMem F) 0 F := fun k _ => by simp [fileMem]

-- C96_any_file: two components, predictor 5 (the result is wrong, C67_components_limit, the accesses are inside).
theorem file5 : IsFileS 5 2 2 3 2 pAcc2 (fileOf 5 [153, 108, 85, 106, 19] [0xFF, 0xD9]) := by
  refine ⟨Segs.segsEx, [0, 0, 1, 0x10], pCounts, [0, 1, 2, 3], pTable, [153, 108, 85, 106, 19], _, [0xFF, 0xD9], pDescribes, by decide, ?_, ?_,
    ⟨0, by simp [Segs.segsEx]⟩, ⟨_, by simp [Segs.segsEx]; rfl⟩, rfl, pad_of (by decide +kernel), by decide, rfl⟩
  · have : ∀ i : Fin 12, cls ((pAcc2.getD i.1 0 : Int) - predPC 5 2 2 (2 * 3) pAcc2 i.1) ∈ [0, 1, 2, 3] := by decide +kernel
    exact fun i hi => this ⟨i, hi⟩
  · intro g hg
    simp only [Segs.segsEx, List.mem_cons, List.not_mem_nil, or_false] at hg
    rcases hg with rfl | rfl | rfl | rfl | rfl | rfl <;> simp [Segment.Legal]

example : ∃ s n, (openT (fileMem (fileOf 5 [153, 108, 85, 106, 19] [0xFF, 0xD9])) (fileOf 5 [153, 108, 85, 106, 19] [0xFF, 0xD9]).length (fun _ => 0)).res =
      .ok (s, n) ∧
    ∀ k, .imgW k ∈ (decodeT 0 s n (fun _ => 0) 6 1 none).accs → ∃ r q, r < 2 ∧ q < 6 ∧ k = r * (6 + 1) + q := by
  refine C96_image file5 (by decide) (by decide) (by decide) (by decide) (by decide) (by decide) (by decide) (by decide) (by decide) (by decide)
    (fileMem_lt (by decide)) (fileMem_at _) none (fun _ => 0) (fun _ => 0) 0 6 1

-- They do reach all the places: nothing is left out.
example : (decodeAccs (fileOf 5 [153, 108, 85, 106, 19] [0xFF, 0xD9]) 6 1 none).filterMap (fun a => match a with | .imgW k => some k | _ => none) =
    [0, 1, 2, 3, 4, 5, 7, 8, 9, 10, 11, 12] := by decide +kernel

end Props.SegsMem
