/- Helper lemmas about the model of the lj92 decoder: file headers with segments in any order. -/
import Verif.Proof.Lj92Preds
import Verif.Spec.SegmentsAny

set_option autoImplicit false

namespace Model.Lj92.Seg
open Spec Model.Lj92

theorem at_congr {d d' : Nat → Nat} {ix : Nat} {l : List Nat} (h : At d ix l) (he : ∀ k, ix ≤ k → d' k = d k) : At d' ix l := by
  intro k hk
  rw [he _ (by omega)]
  exact h k hk

/-- The decoder between two segments: it stands `gap` bytes, none of them FF, before the rest of the file. -/
structure Between (s : Ljp) (rest : List Nat) : Prop where
  bytes : ∀ k, s.data k < 256
  at' : ∃ gap, (∀ j, j < gap → s.data (s.ix + j) ≠ 0xFF) ∧ At s.data (s.ix + gap) rest ∧ s.ix + gap + rest.length = s.datalen

/-- What has been read. -/
structure Seen (bd lines samples C : Nat) (vals : List Nat) (T : Table) (tab fr : Prop) (s : Ljp) : Prop where
  table : tab → s.huffbits ≤ 16 ∧ ∀ t ∈ vals, LutOk s.hufflut s.huffbits (T t) t
  frame : fr → s.x = samples ∧ s.y = lines ∧ s.bits = bd ∧ s.components = C

theorem find_between {s : Ljp} {m : Nat} {rest : List Nat} (h : Between s (0xFF :: m :: rest)) (hr : rest ≠ []) :
    ∃ s', find s = some (s', m) ∧ s' = { s with ix := s'.ix } ∧ At s.data s'.ix rest ∧ s'.ix + rest.length = s.datalen := by
  obtain ⟨gap, h1, h2, h3⟩ := h.at'
  have hl : 1 ≤ rest.length := List.length_pos_iff.2 hr
  simp only [List.length_cons] at h3
  have := find_at (s := s) gap h1 h2.head (by omega)
  rw [h2.tail.head] at this
  exact ⟨_, this, rfl, h2.tail.tail, by simp only; omega⟩

theorem seg_table {bd lines samples C : Nat} {counts vals rest : List Nat} {T : Table} {tab fr : Prop} {th : Nat} {s : Ljp}
    (hD : DescribesFor counts vals T (· ∈ vals)) (hby : ∀ x, x ∈ counts ++ vals → x < 255) (htot : vals.length < 200)
    (hseen : Seen bd lines samples C vals T tab fr s) (hb : ∀ k, s.data k < 256)
    (hat : At s.data s.ix (be16 (19 + vals.length) ++ [th] ++ counts ++ vals ++ rest)) (hlen : s.ix + (19 + vals.length + rest.length) = s.datalen)
    (hr : rest ≠ []) :
    ∃ s', parseHuff s = some s' ∧ Between s' rest ∧ Seen bd lines samples C vals T True fr s' := by
  obtain ⟨hlen16, hnum, hnd, hmem, hfit, hword⟩ := hD
  have hl : 1 ≤ rest.length := List.length_pos_iff.2 hr
  have hn19 : be16 (19 + vals.length) = [0, 19 + vals.length] := by
    unfold be16
    rw [Nat.div_eq_of_lt (by omega), Nat.mod_eq_of_lt (show 19 + vals.length < 256 by omega)]
  generalize hn : vals.length = n at *
  rw [hn19, show ([0, 19 + n] ++ [th] ++ counts ++ vals ++ rest : List Nat) = 0 :: (19 + n) :: th :: (counts ++ (vals ++ rest)) by simp] at hat
  have b0 := hat.head
  have b1 := hat.tail.head
  have a3 := hat.tail.tail.tail
  have a4 := a3.right
  have a3 := a3.left
  have a5 := a4.right
  have a4 := a4.left
  rw [hlen16] at a4 a5
  rw [hn] at a5
  let d := put s.data (s.ix + 2) 0
  have hd : ∀ k, k ≠ s.ix + 2 → d k = s.data k := fun k hk => by show (if k = s.ix + 2 then 0 else s.data k) = _; rw [if_neg hk]
  have hd2 : d (s.ix + 2) = 0 := by show (if s.ix + 2 = s.ix + 2 then 0 else s.data (s.ix + 2)) = 0; rw [if_pos rfl]
  have hbits : ∀ k, 1 ≤ k → k ≤ 16 → d (s.ix + 2 + k) = counts.getD (k - 1) 0 := by
    intro k h1 h2
    rw [hd _ (by omega), ← a3 (k - 1) (by omega)]
    congr 1; omega
  have hvals : ∀ k, k < n → d (s.ix + 19 + k) = vals.getD k 0 := by
    intro k hk
    rw [hd _ (by omega), ← a4 k (by omega)]
  have hbeh : beh d s.ix = 19 + n := by
    unfold beh
    rw [hd _ (by omega), hd _ (by omega), b0, b1, Nat.zero_mul, Nat.zero_add]
  have hend : ¬ s.ix + beh d s.ix ≥ s.datalen := by rw [hbeh]; omega
  obtain ⟨f, f1, f2⟩ := fill_done (c := (counts.getD · 0)) (vals := fun k => d (s.ix + 19 + k)) (bits := fun k => d (s.ix + 2 + k)) hbits
    (by rw [huffSizes_length counts 16 hlen16, ← hnum]; exact htot) (fun e he => by have := hfit e he; omega) s.hufflut
  have hmax := (maxbits_spec (fun k => d (s.ix + 2 + k)) 16).1
  refine ⟨{ s with data := d, huffbits := maxbits (fun k => d (s.ix + 2 + k)) 16, hufflut := f.lut }, ?_, ?_, ?_, ?_⟩
  · unfold parseHuff
    dsimp only
    rw [if_neg hend]
    show (match whileN (fillStep (fun k => d (s.ix + 2 + k)) (fun k => d (s.ix + 19 + k)) (maxbits (fun k => d (s.ix + 2 + k)) 16)) (2 ^ 18)
      ⟨0, 0, 0, 0, 1, s.hufflut⟩ with | none => none | some f => _) = _
    rw [f1]
  · clear f1 f2
    refine ⟨fun k => ?_, 19 + n, fun j hj => ?_, ?_, ?_⟩
    · show (if k = s.ix + 2 then 0 else s.data k) < 256
      split
      · decide
      · exact hb k
    · show d (s.ix + j) ≠ 0xFF
      by_cases c1 : j < 3
      · obtain rfl | rfl | rfl : j = 0 ∨ j = 1 ∨ j = 2 := by omega
        · rw [hd _ (by omega), Nat.add_zero, b0]; decide
        · rw [hd _ (by omega), b1]; omega
        · rw [hd2]; decide
      · rw [hd _ (by omega)]
        by_cases c2 : j < 19
        · have := a3 (j - 3) (by omega)
          rw [show s.ix + j = s.ix + 1 + 1 + 1 + (j - 3) by omega, this, List.getD_eq_getElem?_getD, List.getElem?_eq_getElem (by omega)]
          have := hby _ (List.mem_append_left _ (List.getElem_mem (l := counts) (n := j - 3) (by omega)))
          simp only [Option.getD_some]; omega
        · have := a4 (j - 19) (by omega)
          rw [show s.ix + j = s.ix + 1 + 1 + 1 + 16 + (j - 19) by omega, this, List.getD_eq_getElem?_getD, List.getElem?_eq_getElem (by omega)]
          have := hby _ (List.mem_append_right _ (List.getElem_mem (l := vals) (n := j - 19) (by omega)))
          simp only [Option.getD_some]; omega
    · show At d (s.ix + (19 + n)) rest
      rw [show s.ix + 1 + 1 + 1 + 16 + n = s.ix + (19 + n) by omega] at a5
      exact at_congr a5 (fun k hk => hd k (by omega))
    · show s.ix + (19 + n) + rest.length = s.datalen
      omega
  · intro _
    refine ⟨hmax, fun t ht => ?_⟩
    obtain ⟨k, h1⟩ := List.getElem?_of_mem ht
    obtain ⟨e, h2, h3⟩ := hword k t h1
    have h4 := f2 k e h2
    have hk := (List.getElem?_eq_some_iff.1 h1).1
    have h5 : d (s.ix + 19 + k) = t := by rw [hvals k (by omega), List.getD_eq_getElem?_getD, h1]; rfl
    rw [h5, ← h3] at h4
    exact h4
  · exact hseen.frame

theorem beh_at {d : Nat → Nat} {ix n : Nat} {rest : List Nat} (h : At d ix (be16 n ++ rest)) (hn : n < 65536) : beh d ix = n := by
  unfold be16 at h
  unfold beh
  rw [h.head, h.tail.head]
  exact be16_val hn

theorem be16_length (n : Nat) : (be16 n).length = 2 := rfl

theorem seg_frame {bd lines samples C : Nat} {vals rest comps : List Nat} {T : Table} {tab fr : Prop} {s : Ljp}
    (hl : lines < 65536) (hx : samples < 65536) (hC : C < 256) (hc : comps.length = 3 * C)
    (hseen : Seen bd lines samples C vals T tab fr s) (hb : ∀ k, s.data k < 256)
    (hat : At s.data s.ix (be16 (8 + 3 * C) ++ [bd] ++ be16 lines ++ be16 samples ++ [C] ++ comps ++ rest))
    (hlen : s.ix + (8 + 3 * C + rest.length) = s.datalen) :
    ∃ s', parseSof3 s = some s' ∧ Between s' rest ∧ Seen bd lines samples C vals T tab True s' := by
  simp only [List.append_assoc] at hat
  have hbeh := beh_at hat (by omega)
  have a1 := hat.right
  have a2 := a1.right
  have hy := beh_at a2 hl
  have a3 := a2.right
  have hxx := beh_at a3 hx
  have a4 := a3.right
  have a5 := a4.right
  have a6 := a5.right
  have hbd : s.data (s.ix + 2) = bd := a1.head
  have hcc : s.data (s.ix + 2 + 1 + 2 + 2) = C := a4.head
  simp only [be16_length, List.length_cons, List.length_nil, Nat.zero_add, hc] at hy hxx a6
  refine ⟨{ s with y := beh s.data (s.ix + 3), x := beh s.data (s.ix + 5), bits := s.data (s.ix + 2),
                   components := s.data (s.ix + 7), ix := s.ix + beh s.data s.ix }, ?_, ?_, ?_, ?_⟩
  · unfold parseSof3
    rw [if_neg (by omega)]
  · refine ⟨hb, 0, fun j hj => by omega, ?_, ?_⟩
    · show At s.data (s.ix + beh s.data s.ix + 0) rest
      rw [hbeh, show s.ix + (8 + 3 * C) + 0 = s.ix + 2 + 1 + 2 + 2 + 1 + 3 * C by omega]
      exact a6
    · show s.ix + beh s.data s.ix + 0 + rest.length = s.datalen
      rw [hbeh]; omega
  · exact hseen.table
  · intro _
    exact ⟨hxx, hy, hbd, hcc⟩

theorem seg_other {bd lines samples C : Nat} {vals rest payload : List Nat} {T : Table} {tab fr : Prop} {s : Ljp}
    (hp : payload.length < 65534) (hseen : Seen bd lines samples C vals T tab fr s) (hb : ∀ k, s.data k < 256)
    (hat : At s.data s.ix (be16 (2 + payload.length) ++ payload ++ rest)) (hlen : s.ix + (2 + payload.length + rest.length) = s.datalen)
    (hr : rest ≠ []) :
    ∃ s', parseBlock s = some s' ∧ Between s' rest ∧ Seen bd lines samples C vals T tab fr s' := by
  have hl : 1 ≤ rest.length := List.length_pos_iff.2 hr
  have hbeh := beh_at (by rw [List.append_assoc] at hat; exact hat) (by omega)
  have a1 := hat.right
  rw [List.length_append, be16_length] at a1
  refine ⟨{ s with ix := s.ix + beh s.data s.ix }, ?_, ?_, ?_⟩
  · unfold parseBlock
    rw [if_neg (by rw [hbeh]; omega)]
  · refine ⟨hb, 0, fun j hj => by omega, ?_, ?_⟩
    · show At s.data (s.ix + beh s.data s.ix + 0) rest
      rw [hbeh]; exact a1
    · show s.ix + beh s.data s.ix + 0 + rest.length = s.datalen
      rw [hbeh]; omega
  · exact ⟨hseen.table, hseen.frame⟩

theorem seg_step {bd lines samples C : Nat} {counts vals rest : List Nat} {T : Table} {tab fr : Prop} {s : Ljp} {g : Segment} {fuel : Nat}
    (hD : DescribesFor counts vals T (· ∈ vals)) (hby : ∀ x, x ∈ counts ++ vals → x < 255) (htot : vals.length < 200)
    (hl : lines < 65536) (hx : samples < 65536) (hC : C < 256) (hg : g.Legal bd lines samples C counts vals)
    (hseen : Seen bd lines samples C vals T tab fr s) (h : Between s (g.bytes ++ rest)) (hr : rest ≠ []) :
    ∃ s', parseImage (fuel + 1) s = parseImage fuel s' ∧ Between s' rest ∧
      Seen bd lines samples C vals T (tab ∨ ∃ th, g = .table th counts vals) (fr ∨ ∃ comps, g = .frame bd lines samples C comps) s' := by
  have hl0 : 1 ≤ rest.length := List.length_pos_iff.2 hr
  cases g with
  | table th c v =>
    obtain ⟨_, rfl, rfl⟩ := hg
    have h' : Between s (0xFF :: 0xC4 :: (be16 (19 + v.length) ++ [th] ++ c ++ v ++ rest)) := by
      simpa [Segment.bytes] using h
    obtain ⟨s1, f1, f2, f3, f4⟩ := find_between h' (by simp [be16])
    have e1 : s1.data = s.data := by rw [f2]
    have e2 : s1.datalen = s.datalen := by rw [f2]
    have hseen1 : Seen bd lines samples C v T tab fr s1 := by rw [f2]; exact ⟨hseen.table, hseen.frame⟩
    obtain ⟨s2, g1, g2, g3⟩ := seg_table (th := th) hD hby htot hseen1 (by rw [e1]; exact h.bytes) (by rw [e1]; exact f3)
      (by rw [e2, ← f4]; simp [be16_length, hD.len]; omega) hr
    refine ⟨s2, ?_, g2, fun _ => g3.table trivial, fun hf => g3.frame (hf.elim id (fun ⟨_, e⟩ => by cases e))⟩
    rw [parseImage, f1]
    dsimp only
    rw [if_pos rfl, g1, Option.bind_some]
  | frame b l x n comps =>
    obtain ⟨rfl, rfl, rfl, rfl, hc⟩ := hg
    have h' : Between s (0xFF :: 0xC3 :: (be16 (8 + 3 * n) ++ [b] ++ be16 l ++ be16 x ++ [n] ++ comps ++ rest)) := by
      simpa [Segment.bytes] using h
    obtain ⟨s1, f1, f2, f3, f4⟩ := find_between h' (by simp [be16])
    have e1 : s1.data = s.data := by rw [f2]
    have e2 : s1.datalen = s.datalen := by rw [f2]
    have hseen1 : Seen b l x n vals T tab fr s1 := by rw [f2]; exact ⟨hseen.table, hseen.frame⟩
    obtain ⟨s2, g1, g2, g3⟩ := seg_frame hl hx hC hc hseen1 (by rw [e1]; exact h.bytes) (by rw [e1]; exact f3)
      (by rw [e2, ← f4]; simp [be16_length, hc]; omega)
    refine ⟨s2, ?_, g2, fun hf => g3.table (hf.elim id (fun ⟨_, e⟩ => by cases e)), fun _ => g3.frame trivial⟩
    rw [parseImage, f1]
    dsimp only
    rw [if_neg (by decide), if_pos rfl, g1, Option.bind_some]
  | other m pl =>
    obtain ⟨hm, hp⟩ := hg
    have h' : Between s (0xFF :: m :: (be16 (2 + pl.length) ++ pl ++ rest)) := by
      simpa [Segment.bytes] using h
    obtain ⟨s1, f1, f2, f3, f4⟩ := find_between h' (by simp [be16])
    have e1 : s1.data = s.data := by rw [f2]
    have e2 : s1.datalen = s.datalen := by rw [f2]
    have hseen1 : Seen bd lines samples C vals T tab fr s1 := by rw [f2]; exact ⟨hseen.table, hseen.frame⟩
    obtain ⟨s2, g1, g2, g3⟩ := seg_other hp hseen1 (by rw [e1]; exact h.bytes) (by rw [e1]; exact f3)
      (by rw [e2, ← f4]; simp [be16_length]; omega) hr
    refine ⟨s2, ?_, g2, fun hf => g3.table (hf.elim id (fun ⟨_, e⟩ => by cases e)), fun hf => g3.frame (hf.elim id (fun ⟨_, e⟩ => by cases e))⟩
    rw [parseImage, f1]
    dsimp only
    rw [if_neg (by omega), if_neg (by omega)]
    by_cases hfe : m = 0xfe
    · rw [if_pos hfe, g1, Option.bind_some]
    · rw [if_neg hfe, if_neg (by omega), if_neg (by omega), g1, Option.bind_some]

theorem parse_segs {bd lines samples C : Nat} {counts vals rest : List Nat} {T : Table}
    (hD : DescribesFor counts vals T (· ∈ vals)) (hby : ∀ x, x ∈ counts ++ vals → x < 255) (htot : vals.length < 200)
    (hl : lines < 65536) (hx : samples < 65536) (hC : C < 256) (hr : rest ≠ []) (segs : List Segment) :
    ∀ (s : Ljp) (tab fr : Prop) (fuel : Nat), (∀ g ∈ segs, Segment.Legal bd lines samples C counts vals g) →
      Between s (segs.flatMap Segment.bytes ++ (0xFF :: 0xDA :: rest)) → Seen bd lines samples C vals T tab fr s → segs.length < fuel →
      ∃ s', parseImage fuel s = some s' ∧ (∀ k, s'.data k < 256) ∧ At s'.data s'.scanstart rest ∧ s'.scanstart + rest.length = s'.datalen ∧
        Seen bd lines samples C vals T (tab ∨ ∃ th, .table th counts vals ∈ segs) (fr ∨ ∃ comps, .frame bd lines samples C comps ∈ segs) s' := by
  induction segs with
  | nil =>
    intro s tab fr fuel _ hb hs hf
    obtain ⟨fuel, rfl⟩ : ∃ n, fuel = n + 1 := ⟨fuel - 1, by simp at hf; omega⟩
    obtain ⟨s1, f1, f2, f3, f4⟩ := find_between (m := 0xDA) (rest := rest) (by simpa using hb) hr
    have e1 : s1.data = s.data := by rw [f2]
    have e2 : s1.datalen = s.datalen := by rw [f2]
    refine ⟨{ s1 with scanstart := s1.ix }, ?_, by show ∀ k, s1.data k < 256; rw [e1]; exact hb.bytes, by show At s1.data s1.ix rest; rw [e1]; exact f3,
      by show s1.ix + rest.length = s1.datalen; rw [e2]; exact f4, ?_⟩
    · rw [parseImage, f1]
      dsimp only
      rw [if_neg (by decide), if_neg (by decide), if_neg (by decide), if_neg (by decide), if_pos rfl]
    · have hs1 : Seen bd lines samples C vals T tab fr s1 := by rw [f2]; exact ⟨hs.table, hs.frame⟩
      exact ⟨fun h => hs1.table (h.elim id (fun ⟨_, e⟩ => by simp at e)), fun h => hs1.frame (h.elim id (fun ⟨_, e⟩ => by simp at e))⟩
  | cons g segs ih =>
    intro s tab fr fuel hg hb hs hf
    obtain ⟨fuel, rfl⟩ : ∃ n, fuel = n + 1 := ⟨fuel - 1, by simp at hf; omega⟩
    rw [List.flatMap_cons, List.append_assoc] at hb
    obtain ⟨s1, p1, p2, p3⟩ := seg_step (fuel := fuel) hD hby htot hl hx hC (hg g (List.mem_cons_self ..)) hs hb (by simp)
    obtain ⟨s2, q1, q2, q3, q4, q5⟩ := ih s1 _ _ fuel (fun g hg' => hg g (List.mem_cons_of_mem _ hg')) p2 p3 (by simp at hf; omega)
    refine ⟨s2, p1.trans q1, q2, q3, q4, fun h => q5.table ?_, fun h => q5.frame ?_⟩
    · rcases h with h | ⟨th, h⟩
      · exact .inl (.inl h)
      · rcases List.mem_cons.1 h with h | h
        · exact .inl (.inr ⟨th, h.symm⟩)
        · exact .inr ⟨th, h⟩
    · rcases h with h | ⟨th, h⟩
      · exact .inl (.inl h)
      · rcases List.mem_cons.1 h with h | h
        · exact .inl (.inr ⟨th, h.symm⟩)
        · exact .inr ⟨th, h⟩

theorem segs_length (segs : List Segment) : segs.length ≤ (segs.flatMap Segment.bytes).length := by
  induction segs with
  | nil => simp
  | cons g segs ih =>
    have : 1 ≤ g.bytes.length := by cases g <;> simp [Segment.bytes] <;> omega
    rw [List.flatMap_cons, List.length_append, List.length_cons]
    omega

/-- An opened file, ready for the scan. -/
structure Opened (s : Ljp) (p bd lines samples C : Nat) (vals : List Nat) (T : Table) (rest : List Nat) : Prop where
  bytes : ∀ k, s.data k < 256
  x : s.x = samples
  y : s.y = lines
  bits : s.bits = bd
  comps : s.components = C
  hb : s.huffbits ≤ 16
  lut : ∀ t ∈ vals, LutOk s.hufflut s.huffbits (T t) t
  count : s.data (s.scanstart + 2) = C
  pred : s.data (s.scanstart + 3 + 2 * C) = p
  ends : s.scanstart + beh s.data s.scanstart + rest.length = s.datalen
  at' : At s.data (s.scanstart + beh s.data s.scanstart) rest
  head : beh s.data s.scanstart = 6 + 2 * C

/-- What `lj92_open` makes of a file with its segments in any order. -/
theorem open_segs {d : Nat → Nat} {p bd lines samples C : Nat} {segs : List Segment} {sels counts vals rest : List Nat} {T : Table}
    (hd : ∀ k, d k < 256) (hD : DescribesFor counts vals T (· ∈ vals)) (hby : ∀ x, x ∈ counts ++ vals → x < 255) (htot : vals.length < 200)
    (hl : lines < 65536) (hx : samples < 65536) (hC : C < 256) (hsegs : ∀ g ∈ segs, Segment.Legal bd lines samples C counts vals g)
    (htab : ∃ th, Segment.table th counts vals ∈ segs) (hfr : ∃ comps, Segment.frame bd lines samples C comps ∈ segs) (hsels : sels.length = 2 * C)
    (hfile : At d 0 ([0xFF, 0xD8] ++ segs.flatMap Segment.bytes ++ scanHeader p C sels ++ rest)) (mem : Nat → Nat) :
    ∃ s, open' d ([0xFF, 0xD8] ++ segs.flatMap Segment.bytes ++ scanHeader p C sels ++ rest).length mem = some s ∧
      Opened s p bd lines samples C vals T rest := by
  have hsplit : [0xFF, 0xD8] ++ segs.flatMap Segment.bytes ++ scanHeader p C sels ++ rest =
      0xFF :: 0xD8 :: (segs.flatMap Segment.bytes ++ (0xFF :: 0xDA :: (be16 (6 + 2 * C) ++ ([C] ++ (sels ++ ([p, 0, 0] ++ rest)))))) := by
    simp [scanHeader]
  rw [hsplit] at hfile ⊢
  generalize hR : be16 (6 + 2 * C) ++ ([C] ++ (sels ++ ([p, 0, 0] ++ rest))) = R at *
  have hRl : R.length = 6 + 2 * C + rest.length := by rw [← hR]; simp [be16_length, hsels]; omega
  generalize hdl : (0xFF :: 0xD8 :: (segs.flatMap Segment.bytes ++ (0xFF :: 0xDA :: R))).length = dl at *
  have hdl' : dl = 4 + (segs.flatMap Segment.bytes).length + R.length := by
    rw [← hdl]; simp; omega
  have hsl := segs_length segs
  let s0 : Ljp := { data := d, datalen := dl, scanstart := 0, ix := 0, x := 0, y := 0, bits := 0, components := 0,
                    skiplen := 0, hufflut := mem, huffbits := 0, cnt := 0, b := 0, image := fun _ => 0, rowcache := fun _ => 0 }
  have hb0 : Between s0 (0xFF :: 0xD8 :: (segs.flatMap Segment.bytes ++ (0xFF :: 0xDA :: R))) :=
    ⟨hd, 0, fun j hj => by omega, hfile, by show 0 + 0 + _ = dl; rw [hdl]; omega⟩
  obtain ⟨s1, f1, f2, f3, f4⟩ := find_between hb0 (by simp)
  have e1 : s1.data = d := by rw [f2]
  have e2 : s1.datalen = dl := by rw [f2]
  have hb1 : Between s1 (segs.flatMap Segment.bytes ++ (0xFF :: 0xDA :: R)) :=
    ⟨by rw [e1]; exact hd, 0, fun j hj => by omega, by rw [e1]; exact f3, by rw [e2]; exact f4⟩
  obtain ⟨s, q1, q2, q3, q4, q5⟩ := parse_segs hD hby htot hl hx hC (rest := R) (by intro h; rw [h] at hRl; simp at hRl; omega) segs s1 False False dl hsegs hb1
    ⟨fun h => h.elim, fun h => h.elim⟩ (by omega)
  obtain ⟨t1, t2⟩ := q5.table (.inr htab)
  obtain ⟨x1, x2, x3, x4⟩ := q5.frame (.inr hfr)
  rw [← hR] at q3
  have hbeh := beh_at q3 (by omega)
  have a1 := q3.right
  have a2 := a1.right
  have a3 := a2.right
  have a4 := a3.right
  simp only [be16_length, List.length_cons, List.length_nil, Nat.zero_add, hsels] at a1 a2 a3 a4
  refine ⟨s, ?_, q2, x1, x2, x3, x4, t1, t2, a1.head, ?_, ?_, ?_, hbeh⟩
  · unfold open'
    show (match find s0 with | none => none | some (s, m) => if m = 0xd8 then parseImage dl s else none) = _
    rw [f1]
    dsimp only
    rw [if_pos rfl]
    exact q1
  · exact a3.head
  · rw [hbeh, ← q4, hRl]; omega
  · rw [hbeh, show s.scanstart + (6 + 2 * C) = s.scanstart + 2 + 1 + 2 * C + (2 + 1) by omega]
    exact a4

end Model.Lj92.Seg
