/- Property C82: which memory the decoder of liblj92 touches. -/
import Verif.Proof.Lj92MemHead
import Verif.Props.Predictors
import Verif.Props.Decoder

set_option autoImplicit false

namespace Props
open Spec Model.Lj92

/-- The arrays of a call: `input` bytes may be accessed in the input buffer, `rows` values in the row buffers, the entries `lin`
of the linearization table, the places `img` of the target image. -/
structure Arrays where
  input : Nat
  rows : Nat
  lin : Nat → Prop
  img : Nat → Prop

/-- An access inside the arrays. -/
def Within (A : Arrays) : Acc → Prop
  | .inR k => k < A.input
  | .inW k => k < A.input
  | .lutR n k => k < n
  | .lutW n k => k < n
  | .hist k => k < 16
  | .rowR k => k < A.rows
  | .rowW k => k < A.rows
  | .linR k => A.lin k
  | .imgW k => A.img k

/-- The places of an image of rows of `n` values, `skip` values apart. -/
def Rows (H n skip k : Nat) : Prop := ∃ r q, r < H ∧ q < n ∧ k = r * (n + skip) + q

/-- The entries of the linearization table that pass the test for its length. -/
def Checked (lin : Option Lin) (k : Nat) : Prop := ∀ l, lin = some l → k ≤ l.len

/-- C82: recording the accesses does not change the results. -/
theorem C82_same_result (d : Nat → Nat) (datalen : Nat) (mem : Nat → Nat) :
    (openT d datalen mem).value.map (·.1) = open' d datalen mem ∧
    ∀ (ub : Int) (s : Ljp) (lutlen : Nat) (target : Nat → Nat) (group skip : Nat) (lin : Option Lin),
      (decodeT ub s lutlen target group skip lin).value = decodeAny ub s target group skip lin :=
  ⟨openT_value d datalen mem, fun ub s n t g k l => decodeT_value ub s n t g k l⟩

/-! ### Any file -/

/-- C82, opening: whatever the input, `lj92_open` returns; it reads at most 64 KiB beyond the end of the input, writes there at
most the next two bytes (in fact zeros, see `C82_open_write_limit`), writes its look-up table inside the table and touches
nothing else. -/
theorem C82_open_any_file {d : Nat → Nat} (hd : ∀ k, d k < 256) (datalen : Nat) (mem : Nat → Nat) :
    (openT d datalen mem).res ≠ .hang ∧ ∀ a ∈ (openT d datalen mem).accs,
      (∃ k, a = .inR k ∧ k < datalen + 65536) ∨ (∃ k, a = .inW k ∧ k < datalen + 2) ∨ (∃ n k, a = .lutW n k ∧ k < n) := by
  have h := openT_any hd (dl := datalen) (P := fun a =>
      (∃ k, a = .inR k ∧ k < datalen + 65536) ∨ (∃ k, a = .inW k ∧ k < datalen + 2) ∨ (∃ n k, a = .lutW n k ∧ k < n))
    ⟨fun k hk => Or.inl ⟨k, rfl, hk⟩, fun k hk => Or.inr (Or.inl ⟨k, rfl, hk⟩), fun n k hk => Or.inr (Or.inr ⟨n, k, rfl, hk⟩)⟩ mem
  exact ⟨h.2.1, h.1⟩

theorem opened_huffbits {d : Nat → Nat} (hd : ∀ k, d k < 256) {datalen : Nat} {mem : Nat → Nat} {s : Ljp} {n : Nat}
    (h : (openT d datalen mem).res = .ok (s, n)) : s.huffbits ≤ 16 :=
  (openT_any hd (dl := datalen) (P := fun _ => True) ⟨fun _ _ => trivial, fun _ _ => trivial, fun _ _ _ => trivial⟩ mem).2.2 _ h

/-- What decoding any file may touch: the input, the look-up table and the histogram anywhere, the others inside. -/
def Contained (A : Arrays) : Acc → Prop
  | .inR _ => True
  | .inW _ => False
  | .lutR _ _ => True
  | .lutW _ _ => False
  | .hist _ => True
  | .rowR k => k < A.rows
  | .rowW k => k < A.rows
  | .linR k => A.lin k
  | .imgW k => A.img k

theorem contained_loose (A : Arrays) : Loose (Contained A) := ⟨fun _ => trivial, fun _ _ => trivial, fun _ => trivial⟩

/-- C82, decoding any file with a predictor other than 6: whatever the file that was opened, `lj92_decode` returns, writes the
target image only inside the rows of the stated size, accesses the row buffers only inside their allocation and the
linearization table only up to the stated length (inclusive, see `C82_linear_limit`), and does not write the input. -/
theorem C82_decode_any_file {d : Nat → Nat} (hd : ∀ k, d k < 256) {datalen : Nat} {mem : Nat → Nat} {s : Ljp} {n : Nat}
    (hop : (openT d datalen mem).res = .ok (s, n)) (h6 : s.data (s.scanstart + 3 + 2 * s.data (s.scanstart + 2)) ≠ 6)
    (ub : Int) (target : Nat → Nat) (group skip : Nat) (lin : Option Lin) :
    (decodeT ub s n target group skip lin).res ≠ .hang ∧
    ∀ a ∈ (decodeT ub s n target group skip lin).accs,
      Contained ⟨datalen, 2 * (s.x * s.components), Checked lin, Rows s.y (s.x * s.components) skip⟩ a := by
  have hh := opened_huffbits hd hop
  have key : Safe (Contained ⟨datalen, 2 * (s.x * s.components), Checked lin, Rows s.y (s.x * s.components) skip⟩)
      (decodeT ub s n target group skip lin) (fun _ => True) := by
    have hl := contained_loose ⟨datalen, 2 * (s.x * s.components), Checked lin, Rows s.y (s.x * s.components) skip⟩
    unfold decodeT
    dsimp only
    apply Safe.seq
    · intro a ha
      simp only [List.mem_cons, List.not_mem_nil, or_false] at ha
      rcases ha with rfl | rfl <;> exact trivial
    apply Safe.ite
    · intro _; exact Safe.fail
    intro _
    rw [if_neg h6]
    refine Safe.bind (parseScanT_safe (lin := lin) (s0 := { s with image := target, skiplen := skip })
      ⟨fun k hk => hk, fun k hk => hk, ?_, fun k hk => hk⟩ (reads_any hl ub n _ hh) _ trivial trivial trivial) (fun _ _ => Safe.ret trivial)
    intro k hk l hl
    have := hk.2
    subst hl
    simpa [beyond] using this
  exact ⟨key.2.1, key.1⟩

/-- C82, decoding any file with predictor 6, at least one component, one line and one sample per line and a group length of at
least two: the same, with the image places as given by group length and skip; the linearization table is read unchecked. -/
theorem C82_decode6_any_file {d : Nat → Nat} (hd : ∀ k, d k < 256) {datalen : Nat} {mem : Nat → Nat} {s : Ljp} {n : Nat}
    (hop : (openT d datalen mem).res = .ok (s, n)) (h6 : s.data (s.scanstart + 3 + 2 * s.data (s.scanstart + 2)) = 6)
    (hx : 1 ≤ s.x) (hy : 1 ≤ s.y) (hC : 1 ≤ s.components)
    (ub : Int) (target : Nat → Nat) {group : Nat} (hg : 2 ≤ group) (skip : Nat) (lin : Option Lin) :
    (decodeT ub s n target group skip lin).res ≠ .hang ∧
    ∀ a ∈ (decodeT ub s n target group skip lin).accs,
      Contained ⟨datalen, 2 * (s.x * s.components), (· < 65536), fun k => ∃ m, m < s.x * s.y ∧ k = strided group skip m⟩ a := by
  have hh := opened_huffbits hd hop
  have key : Safe (Contained ⟨datalen, 2 * (s.x * s.components), (· < 65536), fun k => ∃ m, m < s.x * s.y ∧ k = strided group skip m⟩)
      (decodeT ub s n target group skip lin) (fun _ => True) := by
    have hl := contained_loose ⟨datalen, 2 * (s.x * s.components), (· < 65536), fun k => ∃ m, m < s.x * s.y ∧ k = strided group skip m⟩
    unfold decodeT
    dsimp only
    apply Safe.seq
    · intro a ha
      simp only [List.mem_cons, List.not_mem_nil, or_false] at ha
      rcases ha with rfl | rfl <;> exact trivial
    apply Safe.ite
    · intro _; exact Safe.fail
    intro _
    rw [if_pos h6]
    exact Safe.bind (parsePred6T_safe (s0 := { s with image := target, skiplen := skip }) hg
      ⟨fun k hk => hk, fun k hk => hk, fun k hk => hk, fun k hk => hk⟩ (reads_any hl ub n _ hh) lin hC hx hy trivial trivial trivial) (fun _ _ => Safe.ret trivial)
  exact ⟨key.2.1, key.1⟩

/-! ### Legal files -/

/-- The code of differences as a list of code word, class and additional bits. -/
theorem lcodeBits_diffs {T : Table} (l : List Int) (h : ∀ e ∈ l, cls e ≠ 16) :
    lcodeBits (l.map fun e => (T (cls e), cls e, extra e)) = l.flatMap (diffBits T) := by
  unfold lcodeBits
  rw [List.flatMap_map]
  induction l with
  | nil => rfl
  | cons e l ih =>
    rw [List.flatMap_cons, List.flatMap_cons, ih fun e h' => h e (List.mem_cons_of_mem _ h')]
    dsimp only
    rw [diffBits, if_neg (h e (List.mem_cons_self ..))]

/-- Decoding a scan of the differences `l`. -/
theorem decode_legal {s : Ljp} {T : Table} {l : List Int} {bytes tail : List Nat} {pad : List Bool} {start : Nat} (A : Arrays)
    (hd : ∀ k, s.data k < 256) (hh : s.huffbits ≤ 16) (hl : ∀ e ∈ l, cls e ≤ 15 ∧ LutOk s.hufflut s.huffbits (T (cls e)) (cls e))
    (hst : s.scanstart + beh s.data s.scanstart = start) (hcc : s.scanstart + 3 + 2 * s.data (s.scanstart + 2) < A.input) (hss : s.scanstart + 2 < A.input)
    (ha : At s.data start (stuff bytes ++ tail)) (hbits : byteBits bytes = l.flatMap (diffBits T) ++ pad)
    (hin : start + (stuff bytes).length + 4 ≤ A.input) (hrows : A.rows = 2 * (s.x * s.components)) (hlen : l.length = s.y * (s.x * s.components))
    (ub : Int) (target : Nat → Nat) (group skip : Nat) (lin : Option Lin)
    (h6 : s.data (s.scanstart + 3 + 2 * s.data (s.scanstart + 2)) ≠ 6 →
      (∀ k, k < 65536 → Checked lin k → A.lin k) ∧ ∀ k, Rows s.y (s.x * s.components) skip k → A.img k)
    (h6' : s.data (s.scanstart + 3 + 2 * s.data (s.scanstart + 2)) = 6 →
      2 ≤ group ∧ s.components = 1 ∧ 1 ≤ s.x ∧ 1 ≤ s.y ∧ (∀ k, k < 65536 → A.lin k) ∧ ∀ m, m < s.x * s.y → A.img (strided group skip m)) :
    Safe (Within A) (decodeT ub s (2 ^ s.huffbits) target group skip lin) (fun _ => True) := by
  let s0 : Ljp := { s with image := target, skiplen := skip }
  let L := l.map fun e => (T (cls e), cls e, extra e)
  have hL : ∀ e ∈ L, LutOk s0.hufflut s0.huffbits e.1 e.2.1 ∧ e.2.1 ≤ 15 ∧ e.2.2 < 2 ^ e.2.1 := by
    intro e he
    obtain ⟨x, hx, rfl⟩ := List.mem_map.1 he
    exact ⟨(hl x hx).2, (hl x hx).1, extra_lt x⟩
  have hreads : Reads s0 (Within A) ub (2 ^ s0.huffbits) L.length (Coded s0 (start + (stuff bytes).length) L) :=
    reads_coded (s0 := s0) (P := Within A) ⟨fun k hk => Nat.lt_of_lt_of_le hk hin, fun k hk => hk, fun k hk => hk⟩ ub hd hh hL
  have hlenL : L.length = s.y * (s.x * s.components) := by simp [L, hlen]
  have hinit : Coded s0 (start + (stuff bytes).length) L 0 { s0 with ix := s0.scanstart + beh s0.data s0.scanstart, cnt := 0, b := 0 } := by
    refine ⟨rfl, rfl, ⟨by simp, bytes, ?_, ?_, Or.inl ?_⟩, Nat.zero_le _⟩
    · show At s.data (s.scanstart + beh s.data s.scanstart) _
      rw [hst]; exact ha.left
    · show lcodeBits (L.drop 0) <+: toBits 0 0 ++ byteBits bytes
      rw [List.drop_zero, lcodeBits_diffs l (fun e he => by have := (hl e he).1; omega), hbits]
      exact ⟨pad, rfl⟩
    · show s.scanstart + beh s.data s.scanstart + _ = _
      rw [hst]
  unfold decodeT
  dsimp only
  apply Safe.seq
  · intro a ha
    simp only [List.mem_cons, List.not_mem_nil, or_false] at ha
    rcases ha with rfl | rfl
    · exact hss
    · exact hcc
  apply Safe.ite
  · intro _; exact Safe.fail
  intro _
  by_cases e6 : s.data (s.scanstart + 3 + 2 * s.data (s.scanstart + 2)) = 6
  · obtain ⟨g1, g2, g3, g4, g5, g6⟩ := h6' e6
    rw [if_pos e6]
    rw [g2] at hrows
    refine Safe.bind (parsePred6T_safe (s0 := s0) (P := Within A) g1 ⟨?_, ?_, g5, ?_⟩ (J := Coded s0 (start + (stuff bytes).length) L) ?_ lin (Nat.le_of_eq g2.symm) g3 g4
      (show s.scanstart < A.input by omega) (show s.scanstart + 1 < A.input by omega) hinit) (fun _ _ => Safe.ret trivial)
    · intro k hk
      have hk' : k < 2 * (s.x * s.components) := hk
      show k < A.rows
      rw [g2] at hk'; omega
    · intro k hk
      have hk' : k < 2 * (s.x * s.components) := hk
      show k < A.rows
      rw [g2] at hk'; omega
    · intro k hk
      obtain ⟨m, h1, rfl⟩ := hk
      exact g6 m h1
    · show Reads s0 (Within A) ub (2 ^ s0.huffbits) (s.x * s.y) _
      rw [show s.x * s.y = L.length by rw [hlenL, g2, Nat.mul_one, Nat.mul_comm]]
      exact hreads
  · obtain ⟨g1, g2⟩ := h6 e6
    rw [if_neg e6]
    refine Safe.bind (parseScanT_safe (lin := lin) (s0 := s0) (P := Within A) ⟨?_, ?_, ?_, g2⟩ (J := Coded s0 (start + (stuff bytes).length) L) ?_ _
      (show s.scanstart < A.input by omega) (show s.scanstart + 1 < A.input by omega) hinit) (fun _ _ => Safe.ret trivial)
    · intro k hk
      have hk' : k < 2 * (s.x * s.components) := hk
      show k < A.rows
      omega
    · intro k hk
      have hk' : k < 2 * (s.x * s.components) := hk
      show k < A.rows
      omega
    · intro k hk
      apply g1 k hk.1
      intro l hl
      have := hk.2
      subst hl
      simpa [beyond] using this
    · show Reads s0 (Within A) ub (2 ^ s0.huffbits) (s.y * (s.x * s.components)) _
      rw [← hlenL]
      exact hreads

/-- The accesses of `lj92_open` to the input of `n` bytes and to the look-up table. -/
def Opening (n : Nat) : Arrays := ⟨n, 0, fun _ => False, fun _ => False⟩

/-- Opening a file with a header of good segments. -/
theorem open_legal {d : Nat → Nat} {F : List Nat} {segs : List (Nat × List Nat)} {rest : List Nat}
    (hF : F = [0xFF, 0xD8] ++ (segs.flatMap segment ++ ([0xFF, 0xDA] ++ rest))) (hg : ∀ g ∈ segs, GoodSegment g)
    (ht : ∃ g ∈ segs, g.1 = 0xC4) (hrest : 1 ≤ rest.length) (ha : At d 0 F) {mem : Nat → Nat} {s : Ljp} (ho : open' d F.length mem = some s) :
    (openT d F.length mem).res = .ok (s, 2 ^ s.huffbits) ∧ s.scanstart + rest.length = F.length ∧ At d s.scanstart rest ∧
    ∀ a ∈ (openT d F.length mem).accs, Within (Opening F.length) a := by
  subst hF
  have hP : HeadPlace ([0xFF, 0xD8] ++ (segs.flatMap segment ++ ([0xFF, 0xDA] ++ rest))).length
    (Within (Opening ([0xFF, 0xD8] ++ (segs.flatMap segment ++ ([0xFF, 0xDA] ++ rest))).length)) := ⟨fun _ h => h, fun _ h => h, fun _ _ h => h⟩
  have h := openT_segs hg ht hrest hP ha mem
  rw [← openT_value] at ho
  generalize openT d _ mem = o at h ho
  obtain ⟨accs, res⟩ := o
  cases res with
  | ok r =>
    obtain ⟨s', n⟩ := r
    have hs : s' = s := by simpa [Tr.value] using ho
    subst hs
    obtain ⟨h1, h2⟩ := h.2.2 _ rfl
    dsimp only at h1 h2
    subst h1
    refine ⟨rfl, h2, ?_, h.1⟩
    have := ha.right.right.right
    simp only [List.length_append, List.length_cons, List.length_nil] at h2 this
    rw [show s'.scanstart = 0 + (0 + 1 + 1) + (segs.flatMap segment).length + (0 + 1 + 1) by omega]
    exact this
  | err => simp [Tr.value] at ho
  | hang => simp [Tr.value] at ho

/-- C82, the files of the core (as in `C46_decoder_inverts`): opening touches only the file and the look-up table; decoding reads
no further than three bytes behind the code - inside the file, when at least four bytes follow the code - stays inside the
look-up table, the histogram, the row buffers and the rows of the image, and reads the linearization table up to the stated
length. -/
theorem C82_core_file {counts vals comps sels tail bytes acc : List Nat} {T : Table} {bd W H : Nat} {pad : List Bool}
    (hD : Describes counts vals T (bd + 1)) (hbd1 : 1 ≤ bd) (hbd : bd ≤ 15) (hW4 : W % 4 = 0) (hW : W < 4 * 65536)
    (hH : H < 65536) (hcomps : comps.length = 12) (hsels : sels.length = 8)
    (hlen : acc.length = W * H) (hacc : ∀ x ∈ acc, x < 2 ^ bd) (hbits : byteBits bytes = encode T bd W acc ++ pad)
    {d : Nat → Nat} (hd : ∀ k, d k < 256) {F : List Nat} (hF : F = jpegHeader bd H (W / 4) comps counts vals sels ++ (stuff bytes ++ tail))
    (hfile : At d 0 F) (mem target : Nat → Nat) (ub : Int) (group skip : Nat) (lin : Option Lin) :
    ∃ s n, (openT d F.length mem).res = .ok (s, n) ∧ (∀ a ∈ (openT d F.length mem).accs, Within (Opening F.length) a) ∧
      (decodeT ub s n target group skip lin).res ≠ .hang ∧
      ∀ a ∈ (decodeT ub s n target group skip lin).accs, Within ⟨F.length + (4 - tail.length), 2 * W, Checked lin, Rows H W skip⟩ a := by
  subst hF
  obtain ⟨s, h1, h2, h3, h4, h5, h6, h7, h8, h9, h10, h11⟩ := open_header hD hcomps hsels hH (by omega) hfile mem
  have hsplit : jpegHeader bd H (W / 4) comps counts vals sels ++ (stuff bytes ++ tail) = [0xFF, 0xD8] ++
      ([(0xC3, [bd] ++ be16 H ++ be16 (W / 4) ++ [4] ++ comps), (0xC4, 0 :: (counts ++ vals))].flatMap segment ++
        ([0xFF, 0xDA] ++ (be16 14 ++ [4] ++ sels ++ [1, 0, 0] ++ (stuff bytes ++ tail)))) := by
    have e1 : 2 + ([bd] ++ be16 H ++ be16 (W / 4) ++ [4] ++ comps).length = 20 := by simp [be16, hcomps]
    have e2 : 2 + (0 :: (counts ++ vals)).length = 19 + vals.length := by simp [hD.len]; omega
    simp only [jpegHeader, segment, List.flatMap_cons, List.flatMap_nil, e1, e2]
    simp
  have hrl : (be16 14 ++ [4] ++ sels ++ [1, 0, 0] ++ (stuff bytes ++ tail)).length = 14 + (stuff bytes).length + tail.length := by
    simp [be16, hsels]; omega
  obtain ⟨o1, o2, o3, o4⟩ := open_legal hsplit (by
    intro g hg
    simp only [List.mem_cons, List.not_mem_nil, or_false] at hg
    rcases hg with rfl | rfl
    · exact ⟨by simp [be16, hcomps], ⟨by simp, by simp⟩, fun _ => by simp [be16], fun h => by simp at h⟩
    · refine ⟨?_, ⟨by simp, by simp⟩, fun h => by simp at h, fun _ => ⟨0, counts, vals, rfl, hD.len, Nat.le_of_eq hD.num.symm, ?_, hD.bytes⟩⟩
      · have := hD.total
        simp [hD.len]; omega
      · have := hD.total
        omega) ⟨_, List.mem_cons_of_mem _ (List.mem_cons_self ..), rfl⟩ (by rw [hrl]; omega) hfile h1
  rw [hrl] at o2
  have hbeh : beh s.data s.scanstart = 14 := by
    rw [h2]
    have e : At d s.scanstart (0 :: 14 :: ([4] ++ sels ++ [1, 0, 0] ++ (stuff bytes ++ tail))) := by simpa [be16] using o3
    unfold beh
    rw [e.head, e.tail.head]
  have key := decode_legal (s := s) (T := T) (l := (List.range acc.length).map fun i => (acc.getD i 0 : Int) - (pred bd W acc i : Nat)) (bytes := bytes) (tail := tail) (pad := pad)
    (start := s.scanstart + 14)
    ⟨(jpegHeader bd H (W / 4) comps counts vals sels ++ (stuff bytes ++ tail)).length + (4 - tail.length), 2 * W, Checked lin, Rows H W skip⟩
    (by rw [h2]; exact hd) h7 (by
      intro e he
      obtain ⟨i, hi, rfl⟩ := List.mem_map.1 he
      have hx : acc.getD i 0 < 2 ^ bd := by
        rw [List.mem_range] at hi
        rw [List.getD_eq_getElem?_getD, List.getElem?_eq_getElem hi]
        exact hacc _ (List.getElem_mem hi)
      have hp := pred_lt (bd := bd) (W := W) (l := acc) hbd1 hacc i
      have hc : cls ((acc.getD i 0 : Int) - (pred bd W acc i : Nat)) ≤ bd := cls_le (by omega)
      exact ⟨by omega, h8 _ (by omega)⟩) (by rw [hbeh]) (by rw [h2, h9]; dsimp only; omega) (by dsimp only; omega)
    (by rw [h2]; rw [← h2, hbeh, h2] at h11; exact h11) (by rw [hbits, List.flatMap_map]; rfl) (by dsimp only; omega)
    (by rw [h3, h6]; dsimp only; omega) (by
      rw [h3, h4, h6, List.length_map, List.length_range, hlen, show W / 4 * 4 = W by omega, Nat.mul_comm]) ub target group skip lin
    (fun _ => ⟨fun k _ h => h, fun k hk => by rw [h3, h4, h6, show W / 4 * 4 = W by omega] at hk; exact hk⟩)
    (fun h => by rw [h2, h9, h10] at h; omega)
  exact ⟨s, _, o1, o4, key.2.1, key.1⟩

/-- The places of the image that a decoder with predictor `p` writes. -/
def Places (p H W group skip k : Nat) : Prop := if p = 6 then ∃ m, m < W * H ∧ k = strided group skip m else Rows H W skip k

/-- C82, files of one component with any predictor (as in `C67_decoder_inverts`): the same; with predictor 6 the linearization
table is read unchecked, and there must be at least one sample and a group length of at least two. -/
theorem C82_any_predictor {p bd H W : Nat} {acc F : List Nat} {comp sel pt counts vals bytes tail : List Nat} {T : Table} {pad : List Bool}
    (hD : DescribesFor counts vals T (· ∈ vals)) (hv : ∀ t ∈ vals, t ≤ 16) (hcl : ∀ i, i < acc.length → cls (diffP p bd W acc i) ∈ vals)
    (hc3 : comp.length = 3) (hs2 : sel.length = 2) (hp2 : pt.length = 2) (hbits : byteBits bytes = encodeP p T bd W acc ++ pad) (htail : 1 ≤ tail.length)
    (hF : F = headerP p bd H W comp sel pt counts vals ++ (stuff bytes ++ tail))
    (hp : 1 ≤ p) (hp7 : p ≤ 7) (hbd1 : 1 ≤ bd) (hbd : bd ≤ 14)
    (hW : W < 65536) (hH : H < 65536) (hlen : acc.length = W * H) (hacc : ∀ x ∈ acc, x < 2 ^ bd) {d : Nat → Nat} (hd : ∀ k, d k < 256)
    (hfile : At d 0 F) (lin : Option Lin) (mem target : Nat → Nat) (ub : Int) (group skip : Nat) (h6 : p = 6 → 1 ≤ W ∧ 1 ≤ H ∧ 2 ≤ group) :
    ∃ s n, (openT d F.length mem).res = .ok (s, n) ∧ (∀ a ∈ (openT d F.length mem).accs, Within (Opening F.length) a) ∧
      (decodeT ub s n target group skip lin).res ≠ .hang ∧
      ∀ a ∈ (decodeT ub s n target group skip lin).accs,
        Within ⟨F.length + (4 - tail.length), 2 * W, fun k => k < 65536 ∧ (p ≠ 6 → Checked lin k), Places p H W group skip⟩ a := by
  subst hF
  obtain ⟨hvl, hby⟩ := describes_small' hD hv
  obtain ⟨s, o1, o2, o3, o4, o5, o6, o7, o8, o9, o10, o11, o12, o13⟩ := open_headerP hc3 hs2 hp2 hD hby (by omega) hH hW
    (by rw [List.length_append]; omega) hfile mem
  have hsplit : headerP p bd H W comp sel pt counts vals ++ (stuff bytes ++ tail) = [0xFF, 0xD8] ++
      ([(0xC4, 0 :: (counts ++ vals)), (0xC3, [bd] ++ be16 H ++ be16 W ++ [1] ++ comp)].flatMap segment ++
        ([0xFF, 0xDA] ++ (be16 8 ++ [1] ++ sel ++ [p] ++ pt ++ (stuff bytes ++ tail)))) := by
    have e1 : 2 + ([bd] ++ be16 H ++ be16 W ++ [1] ++ comp).length = 11 := by simp [be16, hc3]
    have e2 : 2 + (0 :: (counts ++ vals)).length = 19 + vals.length := by simp [hD.len]; omega
    simp only [headerP, segment, List.flatMap_cons, List.flatMap_nil, e1, e2]
    simp
  have hrl : (be16 8 ++ [1] ++ sel ++ [p] ++ pt ++ (stuff bytes ++ tail)).length = 8 + (stuff bytes).length + tail.length := by
    simp [be16, hs2, hp2]; omega
  obtain ⟨q1, q2, q3, q4⟩ := open_legal hsplit (by
    intro g hg
    simp only [List.mem_cons, List.not_mem_nil, or_false] at hg
    rcases hg with rfl | rfl
    · refine ⟨?_, ⟨by simp, by simp⟩, fun h => by simp at h, fun _ => ⟨0, counts, vals, rfl, hD.len, Nat.le_of_eq hD.num.symm, by omega, hby⟩⟩
      simp [hD.len]; omega
    · exact ⟨by simp [be16, hc3], ⟨by simp, by simp⟩, fun _ => by simp [be16], fun h => by simp at h⟩)
    ⟨_, List.mem_cons_self .., rfl⟩ (by rw [hrl]; omega) hfile o1
  rw [hrl] at q2
  have hbeh : beh d s.scanstart = 8 := by
    have e : At d s.scanstart (0 :: 8 :: ([1] ++ sel ++ [p] ++ pt ++ (stuff bytes ++ tail))) := by simpa [be16] using q3
    unfold beh
    rw [e.head, e.tail.head]
  rw [hbeh] at o13
  have hpr : s.data (s.scanstart + 3 + 2 * s.data (s.scanstart + 2)) = p := by rw [o2, o10, o11]
  have key := decode_legal (s := s) (T := T) (l := (List.range acc.length).map (diffP p bd W acc)) (bytes := bytes) (tail := tail) (pad := pad)
    (start := s.scanstart + 8)
    ⟨(headerP p bd H W comp sel pt counts vals ++ (stuff bytes ++ tail)).length + (4 - tail.length), 2 * W, fun k => k < 65536 ∧ (p ≠ 6 → Checked lin k),
      Places p H W group skip⟩
    (by rw [o2]; exact hd) o8 (by
      intro e he
      obtain ⟨i, hi, rfl⟩ := List.mem_map.1 he
      rw [List.mem_range] at hi
      have hc := C67_classes (W := W) hp hp7 hbd1 hacc hi
      exact ⟨by omega, o9 _ (hcl i hi)⟩) (by rw [o2, hbeh]) (by rw [o2, o10]; dsimp only; omega) (by dsimp only; omega)
    (by rw [o2]; exact o13) (by rw [hbits, List.flatMap_map]; rfl) (by dsimp only; omega)
    (by rw [o4, o7]; dsimp only; omega) (by rw [o4, o5, o7, List.length_map, List.length_range, hlen, Nat.mul_one, Nat.mul_comm]) ub target group skip lin
    (fun h => by
      rw [hpr] at h
      refine ⟨fun k hk hc => ⟨hk, fun _ => hc⟩, fun k hk => ?_⟩
      rw [o4, o5, o7, Nat.mul_one] at hk
      show Places p H W group skip k
      rw [Places, if_neg h]; exact hk)
    (fun h => by
      rw [hpr] at h
      obtain ⟨a1, a2, a3⟩ := h6 h
      refine ⟨a3, o7, by omega, by omega, fun k hk => ⟨hk, fun hn => absurd h hn⟩, fun m hm => ?_⟩
      show Places p H W group skip _
      rw [o4, o5] at hm
      rw [Places, if_pos h]; exact ⟨m, hm, rfl⟩)
  exact ⟨s, _, q1, q4, key.2.1, key.1⟩

/-! ### The limits -/

/-- The accesses of `lj92_decode` to the file `F` (opened before; the memory behind it and the fresh look-up table are zero). -/
def decodeAccs (F : List Nat) (group skip : Nat) (lin : Option Lin) : List Acc :=
  match (openT (fileMem F) F.length (fun _ => 0)).res with
  | .ok (s, n) => (decodeT 0 s n (fun _ => 0) group skip lin).accs
  | _ => []

/-- C82, a limit: with an empty input the first byte is read all the same. -/
theorem C82_empty_limit (d mem : Nat → Nat) : .inR 0 ∈ (openT d 0 mem).accs := by
  simp [openT, findT, whileT, Bind.bind, Tr.bind, Tr.touch, Tr.ret, Tr.fail]

/-- C82, a limit: a file of five bytes that ends inside a Huffman table makes `lj92_open` write (a zero) two bytes behind the last. -/
theorem C82_open_write_limit : .inW 6 ∈ (openT (fileMem [0xFF, 0xD8, 0xFF, 0xC4, 0]) 5 (fun _ => 0)).accs := by decide +kernel

/-- C82, a limit: the length of the frame header is not checked; a file of twelve bytes is read at index 65539. -/
theorem C82_frame_length_limit : .inR 65539 ∈ (openT (fileMem [0xFF, 0xD8, 0xFF, 0xC3, 0xFF, 0xFF, 8, 0, 1, 0, 1, 1]) 12 (fun _ => 0)).accs := by decide +kernel

/-- The file of one row of sixteen mid-range samples of twelve bits with the core's default table: sixteen times the code
1110 of class 0, then the end marker. -/
def midFile : List Nat := jpegHeader 12 1 4 (List.replicate 12 0) defaultCounts defaultVals (List.replicate 8 0) ++ (stuff (List.replicate 8 0xEE) ++ [0xFF, 0xD9])

/-- C82, a limit: the four bytes behind the code are needed. A legal file that ends with the end marker is read two bytes
beyond its end. -/
theorem C82_end_limit : byteBits (List.replicate 8 0xEE) = encode defaultTable 12 16 (List.replicate 16 2048) ++ [] ∧
    .inR midFile.length ∈ decodeAccs midFile 16 0 none ∧ .inR (midFile.length + 1) ∈ decodeAccs midFile 16 0 none := by decide +kernel

/-- C82, a limit: a file that ends after the scan header is read as far as the stated size asks for, here 24 bytes beyond the end. -/
theorem C82_truncated_limit : .inR (66 + 12 + 24) ∈ decodeAccs
    (jpegHeader 12 4 4 (List.replicate 12 0) defaultCounts defaultVals (List.replicate 8 0)) 16 0 none ∧
    (jpegHeader 12 4 4 (List.replicate 12 0) defaultCounts defaultVals (List.replicate 8 0)).length = 66 + 12 := by decide +kernel

/-- C82, a limit: without a Huffman table the look-up table is read although it does not exist (a null pointer). -/
theorem C82_no_table_limit : .lutR 0 0 ∈ decodeAccs
    ([0xFF, 0xD8, 0xFF, 0xC3, 0, 11, 8, 0, 1, 0, 1, 1, 0, 0x11, 0, 0xFF, 0xDA, 0, 8, 1, 0, 0, 1, 0, 0, 0]) 1 0 none := by decide +kernel

/-- C82, a limit: in a legal file of 16-bit samples class 16 occurs (first sample 0, prediction 32768), and the histogram of
sixteen entries is written at index 16. (Behind it stands, on a 32-bit machine, the pointer to the look-up table.) -/
theorem C82_histogram_limit : ∃ acc bytes pad, (∀ x ∈ acc, x < 2 ^ 16) ∧ acc.length = 16 * 1 ∧ byteBits bytes = encode defaultTable 16 16 acc ++ pad ∧
    .hist 16 ∈ decodeAccs (jpegHeader 16 1 4 (List.replicate 12 0) defaultCounts defaultVals (List.replicate 8 0) ++ (stuff bytes ++ [0xFF, 0xD9, 0, 0])) 16 0 none := by
  exact ⟨List.replicate 16 0, [255, 247, 255, 191, 253, 255, 238, 238, 238, 238, 238, 238, 239], [true, true, true, true], by decide +kernel, rfl, by decide +kernel, by decide +kernel⟩

/-- C82, a limit: the test for the length of the linearization table is off by one: with a table of three entries its fourth
is read, in a legal file with a sample 3. -/
theorem C82_linear_limit : .linR 3 ∈ decodeAccs (pFile 5 (pBytes 5)) 4 0 (some ⟨fun x => x, 3⟩) := by decide +kernel

/-- C82, a limit: with predictor 6 the first row is not tested at all: with a table of one entry the fourth is read. -/
theorem C82_linear6_limit : .linR 3 ∈ decodeAccs (pFile 6 (pBytes 6)) 4 0 (some ⟨fun x => x, 1⟩) ∧
    .linR 3 ∉ decodeAccs (pFile 5 (pBytes 5)) 4 0 (some ⟨fun x => x, 1⟩) := by decide +kernel

/-- A file with a table and a frame header without components, predictor 6. -/
def noComp : List Nat := [0xFF, 0xD8, 0xFF, 0xC4, 0, 23, 0] ++ pCounts ++ [0, 1, 2, 3] ++ [0xFF, 0xC3, 0, 8, 2, 0, 1, 0, 1, 0, 0xFF, 0xDA, 0, 6, 0, 6, 0, 0, 0]

/-- C82, a limit: with predictor 6 and no component at all in the frame header, values are written to row buffers of size 0. -/
theorem C82_no_component_limit : ∃ F s n, (openT (fileMem F) F.length (fun _ => 0)).res = .ok (s, n) ∧ 2 * (s.x * s.components) = 0 ∧
    .rowW 0 ∈ (decodeT 0 s n (fun _ => 0) 4 0 none).accs := by
  have key : (match (openT (fileMem noComp) noComp.length (fun _ => 0)).res with
      | .ok (s, n) => decide (2 * (s.x * s.components) = 0 ∧ .rowW 0 ∈ (decodeT 0 s n (fun _ => 0) 4 0 none).accs)
      | _ => false) = true := by decide +kernel
  split at key
  · rename_i s n h
    exact ⟨noComp, s, n, h, (of_decide_eq_true key).1, (of_decide_eq_true key).2⟩
  · exact absurd key (by simp)

/-! ### The hypotheses can be met -/

-- C82_core_file applied to `midFile`: its accesses are all inside the file and two more bytes.
example : ∃ s n, (openT (fileMem midFile) midFile.length (fun _ => 0)).res = .ok (s, n) ∧
    ∀ a ∈ (decodeT 0 s n (fun _ => 0) 16 0 none).accs, Within ⟨midFile.length + 2, 2 * 16, Checked none, Rows 1 16 0⟩ a := by
  have hD : Describes defaultCounts defaultVals defaultTable (12 + 1) :=
    { C46_default_table with word := fun t ht => C46_default_table.word t (Nat.lt_of_lt_of_le ht (by decide)) }
  have hmem : ∀ k, fileMem midFile k < 256 := by
    intro k
    unfold fileMem
    by_cases hk : k < midFile.length
    · have : ∀ x ∈ midFile, x < 256 := by decide +kernel
      rw [List.getD_eq_getElem?_getD, List.getElem?_eq_getElem hk]
      exact this _ (List.getElem_mem hk)
    · rw [List.getD_eq_getElem?_getD, List.getElem?_eq_none (by omega)]
      decide
  obtain ⟨s, n, h1, _, _, h2⟩ := C82_core_file (pad := []) (W := 16) (H := 1) hD (by decide) (by decide) rfl (by decide) (by decide) (by simp) (by simp)
    (show (List.replicate 16 2048).length = 16 * 1 from rfl) (by decide) C82_end_limit.1 hmem (F := midFile) rfl (fun k hk => by simp [fileMem])
    (fun _ => 0) (fun _ => 0) 0 16 0 none
  exact ⟨s, n, h1, h2⟩

-- Opening and decoding it: how many accesses there are (most of them fill the look-up table).
example : ((openT (fileMem midFile) midFile.length (fun _ => 0)).accs.length, (decodeAccs midFile 16 0 none).length) = (24662, 92) := by decide +kernel

end Props
