/- Helper lemmas about the lj92 decoder compiled with SLOW_HUFF: opening a file. -/
import Verif.Proof.Lj92SlowPred6
import Verif.Proof.Lj92Segs

set_option autoImplicit false

namespace Model.Lj92.Slow
open Spec Model.Lj92 Model.Lj92.Seg

/-! ### The row buffers are not touched while the header is read -/

theorem find_keeps {s s' : Ljp} {m : Nat} (h : find s = some (s', m)) : s'.rowcache = s.rowcache := by
  unfold find at h
  split at h
  · simp at h
  · split at h
    · simp at h
    · simp only [Option.some.injEq, Prod.mk.injEq] at h; rw [← h.1]

theorem block_keeps {s s' : Ljp} (h : parseBlock s = some s') : s'.rowcache = s.rowcache := by
  unfold parseBlock at h
  split at h
  · simp at h
  · simp only [Option.some.injEq] at h; rw [← h]

theorem sof_keeps {s s' : Ljp} (h : parseSof3 s = some s') : s'.rowcache = s.rowcache := by
  unfold parseSof3 at h
  split at h
  · simp at h
  · simp only [Option.some.injEq] at h; rw [← h]

theorem huff_keeps {s s' : Ljp} (h : Lj92.parseHuff s = some s') : s'.rowcache = s.rowcache := by
  unfold Lj92.parseHuff at h
  dsimp only at h
  split at h
  · simp at h
  · split at h
    · simp at h
    · simp only [Option.some.injEq] at h; rw [← h]

theorem slowHuff_keeps {s s' : Ljp} {t : Tab} (h : parseHuff s = some (s', t)) : s'.rowcache = s.rowcache := by
  unfold parseHuff at h
  dsimp only at h
  split at h
  · simp at h
  · split at h
    · simp at h
    · simp only [Option.bind_eq_some_iff, Option.map_eq_some_iff] at h
      obtain ⟨_, _, _, _, _, _, _, _, h⟩ := h
      simp only [Prod.mk.injEq] at h
      rw [← h.1]

theorem parse_keeps : ∀ (n : Nat) {s s' : Ljp}, Lj92.parseImage n s = some s' → s'.rowcache = s.rowcache
  | 0, _, _, h => by simp [Lj92.parseImage] at h
  | n + 1, s, s', h => by
    rw [Lj92.parseImage] at h
    split at h
    · simp at h
    · rename_i s1 m hf
      have e := find_keeps hf
      split at h
      · obtain ⟨s2, h1, h2⟩ := Option.bind_eq_some_iff.1 h
        rw [parse_keeps n h2, huff_keeps h1, e]
      · split at h
        · obtain ⟨s2, h1, h2⟩ := Option.bind_eq_some_iff.1 h
          rw [parse_keeps n h2, sof_keeps h1, e]
        · split at h
          · obtain ⟨s2, h1, h2⟩ := Option.bind_eq_some_iff.1 h
            rw [parse_keeps n h2, block_keeps h1, e]
          · split at h
            · simp only [Option.some.injEq] at h; rw [← h, e]
            · split at h
              · simp only [Option.some.injEq] at h; rw [← h]; exact e
              · obtain ⟨s2, h1, h2⟩ := Option.bind_eq_some_iff.1 h
                rw [parse_keeps n h2, block_keeps h1, e]

theorem slowParse_keeps : ∀ (n : Nat) {s : Ljp} {t : Option Tab} {v : Ljp × Option Tab}, parseImage n s t = some v → v.1.rowcache = s.rowcache
  | 0, _, _, _, h => by simp [parseImage] at h
  | n + 1, s, t, v, h => by
    rw [parseImage] at h
    split at h
    · simp at h
    · rename_i s1 m hf
      have e := find_keeps hf
      split at h
      · obtain ⟨⟨s2, t2⟩, h1, h2⟩ := Option.bind_eq_some_iff.1 h
        rw [slowParse_keeps n h2, slowHuff_keeps h1, e]
      · split at h
        · obtain ⟨s2, h1, h2⟩ := Option.bind_eq_some_iff.1 h
          rw [slowParse_keeps n h2, sof_keeps h1, e]
        · split at h
          · obtain ⟨s2, h1, h2⟩ := Option.bind_eq_some_iff.1 h
            rw [slowParse_keeps n h2, block_keeps h1, e]
          · split at h
            · simp only [Option.some.injEq] at h; rw [← h]; exact e
            · split at h
              · simp only [Option.some.injEq] at h; rw [← h]; exact e
              · obtain ⟨s2, h1, h2⟩ := Option.bind_eq_some_iff.1 h
                rw [slowParse_keeps n h2, block_keeps h1, e]

theorem open_rowcache {d : Nat → Nat} {n : Nat} {mem : Nat → Nat} {s : Ljp} (h : Lj92.open' d n mem = some s) : s.rowcache = fun _ => 0 := by
  unfold Lj92.open' at h
  dsimp only at h
  split at h
  · simp at h
  · rename_i s1 m hf
    split at h
    · rw [parse_keeps n h, find_keeps hf]
    · simp at h

theorem slowOpen_rowcache {d : Nat → Nat} {n : Nat} {v : Ljp × Option Tab} (h : open' d n = some v) : v.1.rowcache = fun _ => 0 := by
  unfold open' at h
  dsimp only at h
  split at h
  · simp at h
  · rename_i s1 m hf
    split at h
    · rw [slowParse_keeps n h, find_keeps hf]
    · simp at h

/-! ### Segments -/

/-- The tables read so far, if any. -/
def TabSeen (counts vals : List Nat) (tab : Prop) (t : Option Tab) : Prop :=
  tab → ∃ u, t = some u ∧ TabOk u (counts.getD · 0) (vals.getD · 0) vals.length

theorem slow_table {bd lines samples C : Nat} {counts vals rest : List Nat} {T : Table} {fr : Prop} {th : Nat} {s : Ljp}
    (hlen16 : counts.length = 16) (hnum : vals.length = counts.sum) (h1 : 1 ≤ vals.length) (htot : vals.length < 200)
    (hseen : Seen bd lines samples C vals T False fr s) (hb : ∀ k, s.data k < 256)
    (hat : At s.data s.ix (be16 (19 + vals.length) ++ [th] ++ counts ++ vals ++ rest)) (hlen : s.ix + (19 + vals.length + rest.length) = s.datalen)
    (hr : rest ≠ []) :
    ∃ s' t', parseHuff s = some (s', t') ∧ Between s' rest ∧ Seen bd lines samples C vals T False fr s' ∧
      TabOk t' (counts.getD · 0) (vals.getD · 0) vals.length := by
  have hl : 1 ≤ rest.length := List.length_pos_iff.2 hr
  have hn19 : be16 (19 + vals.length) = [0, 19 + vals.length] := by
    unfold be16
    rw [Nat.div_eq_of_lt (by omega), Nat.mod_eq_of_lt (show 19 + vals.length < 256 by omega)]
  generalize hn : vals.length = n at *
  rw [hn19, show ([0, 19 + n] ++ [th] ++ counts ++ vals ++ rest : List Nat) = 0 :: (19 + n) :: th :: (counts ++ (vals ++ rest)) by simp] at hat
  have b0 := hat.head
  have b1 := hat.tail.head
  have a3 := hat.tail.tail.tail
  have a4 := a3.right
  have a3 := a3.left
  have a5 := a4.right
  have a4 := a4.left
  rw [hlen16] at a4 a5
  rw [hn] at a5
  have hd : ∀ k, k ≠ s.ix + 2 → put s.data (s.ix + 2) 0 k = s.data k := fun k hk => by unfold put; rw [if_neg hk]
  have hbits : ∀ k, 1 ≤ k → k ≤ 16 → put s.data (s.ix + 2) 0 (s.ix + 2 + k) = counts.getD (k - 1) 0 := by
    intro k h1 h2
    rw [hd _ (by omega), ← a3 (k - 1) (by omega)]
    congr 1; omega
  have hvals : ∀ k, k < n → put s.data (s.ix + 2) 0 (s.ix + 19 + k) = vals.getD k 0 := by
    intro k hk
    rw [hd _ (by omega), ← a4 k (by omega)]
  have hbeh : beh (put s.data (s.ix + 2) 0) s.ix = 19 + n := by
    unfold beh
    rw [hd _ (by omega), hd _ (by omega), b0, b1, Nat.zero_mul, Nat.zero_add]
  obtain ⟨t, g1, g2⟩ := parseHuff_ok (s := s) (c := (counts.getD · 0)) (n := n) (by rw [huffSizes_length counts 16 hlen16, ← hnum]) h1 hbeh (by omega) hbits
  refine ⟨_, t, g1, ⟨fun k => ?_, 0, fun j hj => by omega, ?_, ?_⟩, ⟨fun h => h.elim, hseen.frame⟩,
    ⟨g2.num, fun k hk => by rw [g2.val k hk]; exact hvals k hk, g2.none, g2.some⟩⟩
  · show (if k = s.ix + 2 then 0 else s.data k) < 256
    split
    · decide
    · exact hb k
  · show At (put s.data (s.ix + 2) 0) (s.ix + (19 + n) + 0) rest
    rw [show s.ix + 1 + 1 + 1 + 16 + n = s.ix + (19 + n) + 0 by omega] at a5
    exact at_congr a5 (fun k hk => hd k (by omega))
  · show s.ix + (19 + n) + 0 + rest.length = s.datalen
    omega

theorem slow_step {bd lines samples C : Nat} {counts vals rest : List Nat} {T : Table} {tab fr : Prop} {s : Ljp} {t : Option Tab} {g : Segment} {fuel : Nat}
    (hlen16 : counts.length = 16) (hnum : vals.length = counts.sum) (h1 : 1 ≤ vals.length) (htot : vals.length < 200)
    (hl : lines < 65536) (hx : samples < 65536) (hC : C < 256) (hg : g.Legal bd lines samples C counts vals)
    (hseen : Seen bd lines samples C vals T False fr s) (ht : TabSeen counts vals tab t) (h : Between s (g.bytes ++ rest)) (hr : rest ≠ []) :
    ∃ s' t', parseImage (fuel + 1) s t = parseImage fuel s' t' ∧ Between s' rest ∧
      Seen bd lines samples C vals T False (fr ∨ ∃ comps, g = .frame bd lines samples C comps) s' ∧
      TabSeen counts vals (tab ∨ ∃ th, g = .table th counts vals) t' := by
  have hl0 : 1 ≤ rest.length := List.length_pos_iff.2 hr
  cases g with
  | table th c v =>
    obtain ⟨_, rfl, rfl⟩ := hg
    have h' : Between s (0xFF :: 0xC4 :: (be16 (19 + v.length) ++ [th] ++ c ++ v ++ rest)) := by
      simpa [Segment.bytes] using h
    obtain ⟨s1, f1, f2, f3, f4⟩ := find_between h' (by simp [be16])
    have e1 : s1.data = s.data := by rw [f2]
    have e2 : s1.datalen = s.datalen := by rw [f2]
    have hseen1 : Seen bd lines samples C v T False fr s1 := by rw [f2]; exact ⟨hseen.table, hseen.frame⟩
    obtain ⟨s2, t2, g1, g2, g3, g4⟩ := slow_table (th := th) hlen16 hnum h1 htot hseen1 (by rw [e1]; exact h.bytes) (by rw [e1]; exact f3)
      (by rw [e2, ← f4]; simp [be16_length, hlen16]; omega) hr
    refine ⟨s2, some t2, ?_, g2, ⟨fun h => h.elim, fun hf => g3.frame (hf.elim id (fun ⟨_, e⟩ => by cases e))⟩, fun _ => ⟨t2, rfl, g4⟩⟩
    rw [parseImage, f1]
    dsimp only
    rw [if_pos rfl, g1, Option.bind_some]
  | frame b l x n comps =>
    obtain ⟨rfl, rfl, rfl, rfl, hc⟩ := hg
    have h' : Between s (0xFF :: 0xC3 :: (be16 (8 + 3 * n) ++ [b] ++ be16 l ++ be16 x ++ [n] ++ comps ++ rest)) := by
      simpa [Segment.bytes] using h
    obtain ⟨s1, f1, f2, f3, f4⟩ := find_between h' (by simp [be16])
    have e1 : s1.data = s.data := by rw [f2]
    have e2 : s1.datalen = s.datalen := by rw [f2]
    have hseen1 : Seen b l x n vals T False fr s1 := by rw [f2]; exact ⟨hseen.table, hseen.frame⟩
    obtain ⟨s2, g1, g2, g3⟩ := seg_frame hl hx hC hc hseen1 (by rw [e1]; exact h.bytes) (by rw [e1]; exact f3)
      (by rw [e2, ← f4]; simp [be16_length, hc]; omega)
    refine ⟨s2, t, ?_, g2, ⟨fun h => h.elim, fun _ => g3.frame trivial⟩, fun hf => ht (hf.elim id (fun ⟨_, e⟩ => by cases e))⟩
    rw [parseImage, f1]
    dsimp only
    rw [if_neg (by decide), if_pos rfl, g1, Option.bind_some]
  | other m pl =>
    obtain ⟨hm, hp⟩ := hg
    have h' : Between s (0xFF :: m :: (be16 (2 + pl.length) ++ pl ++ rest)) := by
      simpa [Segment.bytes] using h
    obtain ⟨s1, f1, f2, f3, f4⟩ := find_between h' (by simp [be16])
    have e1 : s1.data = s.data := by rw [f2]
    have e2 : s1.datalen = s.datalen := by rw [f2]
    have hseen1 : Seen bd lines samples C vals T False fr s1 := by rw [f2]; exact ⟨hseen.table, hseen.frame⟩
    obtain ⟨s2, g1, g2, g3⟩ := seg_other hp hseen1 (by rw [e1]; exact h.bytes) (by rw [e1]; exact f3)
      (by rw [e2, ← f4]; simp [be16_length]; omega) hr
    refine ⟨s2, t, ?_, g2, ⟨fun h => h.elim, fun hf => g3.frame (hf.elim id (fun ⟨_, e⟩ => by cases e))⟩,
      fun hf => ht (hf.elim id (fun ⟨_, e⟩ => by cases e))⟩
    rw [parseImage, f1]
    dsimp only
    rw [if_neg (by omega), if_neg (by omega)]
    by_cases hfe : m = 0xfe
    · rw [if_pos hfe, g1, Option.bind_some]
    · rw [if_neg hfe, if_neg (by omega), if_neg (by omega), g1, Option.bind_some]

theorem slow_segs {bd lines samples C : Nat} {counts vals rest : List Nat} {T : Table}
    (hlen16 : counts.length = 16) (hnum : vals.length = counts.sum) (h1 : 1 ≤ vals.length) (htot : vals.length < 200)
    (hl : lines < 65536) (hx : samples < 65536) (hC : C < 256) (hr : rest ≠ []) (segs : List Segment) :
    ∀ (s : Ljp) (t : Option Tab) (tab fr : Prop) (fuel : Nat), (∀ g ∈ segs, Segment.Legal bd lines samples C counts vals g) →
      Between s (segs.flatMap Segment.bytes ++ (0xFF :: 0xDA :: rest)) → Seen bd lines samples C vals T False fr s → TabSeen counts vals tab t →
      segs.length < fuel →
      ∃ s' t', parseImage fuel s t = some (s', t') ∧ (∀ k, s'.data k < 256) ∧ At s'.data s'.scanstart rest ∧ s'.scanstart + rest.length = s'.datalen ∧
        Seen bd lines samples C vals T False (fr ∨ ∃ comps, .frame bd lines samples C comps ∈ segs) s' ∧
        TabSeen counts vals (tab ∨ ∃ th, .table th counts vals ∈ segs) t' := by
  induction segs with
  | nil =>
    intro s t tab fr fuel _ hb hs ht hf
    obtain ⟨fuel, rfl⟩ : ∃ n, fuel = n + 1 := ⟨fuel - 1, by simp at hf; omega⟩
    obtain ⟨s1, f1, f2, f3, f4⟩ := find_between (m := 0xDA) (rest := rest) (by simpa using hb) hr
    have e1 : s1.data = s.data := by rw [f2]
    have e2 : s1.datalen = s.datalen := by rw [f2]
    refine ⟨{ s1 with scanstart := s1.ix }, t, ?_, by show ∀ k, s1.data k < 256; rw [e1]; exact hb.bytes, by show At s1.data s1.ix rest; rw [e1]; exact f3,
      by show s1.ix + rest.length = s1.datalen; rw [e2]; exact f4, ?_, fun h => ht (h.elim id (fun ⟨_, e⟩ => by simp at e))⟩
    · rw [parseImage, f1]
      dsimp only
      rw [if_neg (by decide), if_neg (by decide), if_neg (by decide), if_neg (by decide), if_pos rfl]
    · have hs1 : Seen bd lines samples C vals T False fr s1 := by rw [f2]; exact ⟨hs.table, hs.frame⟩
      exact ⟨fun h => h.elim, fun h => hs1.frame (h.elim id (fun ⟨_, e⟩ => by simp at e))⟩
  | cons g segs ih =>
    intro s t tab fr fuel hg hb hs ht hf
    obtain ⟨fuel, rfl⟩ : ∃ n, fuel = n + 1 := ⟨fuel - 1, by simp at hf; omega⟩
    rw [List.flatMap_cons, List.append_assoc] at hb
    obtain ⟨s1, t1, p1, p2, p3, p4⟩ := slow_step (fuel := fuel) hlen16 hnum h1 htot hl hx hC (hg g (List.mem_cons_self ..)) hs ht hb (by simp)
    obtain ⟨s2, t2, q1, q2, q3, q4, q5, q6⟩ := ih s1 t1 _ _ fuel (fun g hg' => hg g (List.mem_cons_of_mem _ hg')) p2 p3 p4 (by simp at hf; omega)
    refine ⟨s2, t2, p1.trans q1, q2, q3, q4, ⟨fun h => h.elim, fun h => q5.frame ?_⟩, fun h => q6 ?_⟩
    · rcases h with h | ⟨th, h⟩
      · exact .inl (.inl h)
      · rcases List.mem_cons.1 h with h | h
        · exact .inl (.inr ⟨th, h.symm⟩)
        · exact .inr ⟨th, h⟩
    · rcases h with h | ⟨th, h⟩
      · exact .inl (.inl h)
      · rcases List.mem_cons.1 h with h | h
        · exact .inl (.inr ⟨th, h.symm⟩)
        · exact .inr ⟨th, h⟩

/-- An opened file, ready for the scan. -/
structure SOpened (s : Ljp) (t : Option Tab) (p bd lines samples C : Nat) (counts vals rest : List Nat) : Prop where
  bytes : ∀ k, s.data k < 256
  x : s.x = samples
  y : s.y = lines
  bits : s.bits = bd
  comps : s.components = C
  tab : ∃ u, t = some u ∧ TabOk u (counts.getD · 0) (vals.getD · 0) vals.length
  count : s.data (s.scanstart + 2) = C
  pred : s.data (s.scanstart + 3 + 2 * C) = p
  ends : s.scanstart + beh s.data s.scanstart + rest.length = s.datalen
  at' : At s.data (s.scanstart + beh s.data s.scanstart) rest
  head : beh s.data s.scanstart = 6 + 2 * C

/-- What the slow build of `lj92_open` makes of a file with its segments in any order. -/
theorem slowOpen_segs {d : Nat → Nat} {p bd lines samples C : Nat} {segs : List Segment} {sels counts vals rest : List Nat}
    (hd : ∀ k, d k < 256) (hlen16 : counts.length = 16) (hnum : vals.length = counts.sum) (h1 : 1 ≤ vals.length) (htot : vals.length < 200)
    (hl : lines < 65536) (hx : samples < 65536) (hC : C < 256) (hsegs : ∀ g ∈ segs, Segment.Legal bd lines samples C counts vals g)
    (htab : ∃ th, Segment.table th counts vals ∈ segs) (hfr : ∃ comps, Segment.frame bd lines samples C comps ∈ segs) (hsels : sels.length = 2 * C)
    (hfile : At d 0 ([0xFF, 0xD8] ++ segs.flatMap Segment.bytes ++ scanHeader p C sels ++ rest)) :
    ∃ s t, open' d ([0xFF, 0xD8] ++ segs.flatMap Segment.bytes ++ scanHeader p C sels ++ rest).length = some (s, t) ∧
      SOpened s t p bd lines samples C counts vals rest := by
  have hsplit : [0xFF, 0xD8] ++ segs.flatMap Segment.bytes ++ scanHeader p C sels ++ rest =
      0xFF :: 0xD8 :: (segs.flatMap Segment.bytes ++ (0xFF :: 0xDA :: (be16 (6 + 2 * C) ++ ([C] ++ (sels ++ ([p, 0, 0] ++ rest)))))) := by
    simp [scanHeader]
  rw [hsplit] at hfile ⊢
  generalize hR : be16 (6 + 2 * C) ++ ([C] ++ (sels ++ ([p, 0, 0] ++ rest))) = R at *
  have hRl : R.length = 6 + 2 * C + rest.length := by rw [← hR]; simp [be16_length, hsels]; omega
  generalize hdl : (0xFF :: 0xD8 :: (segs.flatMap Segment.bytes ++ (0xFF :: 0xDA :: R))).length = dl at *
  have hdl' : dl = 4 + (segs.flatMap Segment.bytes).length + R.length := by
    rw [← hdl]; simp; omega
  have hsl := segs_length segs
  let s0 : Ljp := { data := d, datalen := dl, scanstart := 0, ix := 0, x := 0, y := 0, bits := 0, components := 0,
                    skiplen := 0, hufflut := fun _ => 0, huffbits := 0, cnt := 0, b := 0, image := fun _ => 0, rowcache := fun _ => 0 }
  have hb0 : Between s0 (0xFF :: 0xD8 :: (segs.flatMap Segment.bytes ++ (0xFF :: 0xDA :: R))) :=
    ⟨hd, 0, fun j hj => by omega, hfile, by show 0 + 0 + _ = dl; rw [hdl]; omega⟩
  obtain ⟨s1, f1, f2, f3, f4⟩ := find_between hb0 (by simp)
  have e1 : s1.data = d := by rw [f2]
  have e2 : s1.datalen = dl := by rw [f2]
  have hb1 : Between s1 (segs.flatMap Segment.bytes ++ (0xFF :: 0xDA :: R)) :=
    ⟨by rw [e1]; exact hd, 0, fun j hj => by omega, by rw [e1]; exact f3, by rw [e2]; exact f4⟩
  obtain ⟨s, t, q1, q2, q3, q4, q5, q6⟩ := slow_segs (T := fun _ => []) hlen16 hnum h1 htot hl hx hC (rest := R)
    (by intro h; rw [h] at hRl; simp at hRl; omega) segs s1 none False False dl hsegs hb1
    ⟨fun h => h.elim, fun h => h.elim⟩ (fun h => h.elim) (by omega)
  obtain ⟨x1, x2, x3, x4⟩ := q5.frame (.inr hfr)
  rw [← hR] at q3
  have hbeh := beh_at q3 (by omega)
  have a1 := q3.right
  have a2 := a1.right
  have a3 := a2.right
  have a4 := a3.right
  simp only [be16_length, List.length_cons, List.length_nil, Nat.zero_add, hsels] at a1 a2 a3 a4
  refine ⟨s, t, ?_, q2, x1, x2, x3, x4, q6 (.inr htab), a1.head, ?_, ?_, ?_, hbeh⟩
  · unfold open'
    show (match find s0 with | none => none | some (s, m) => if m = 0xd8 then parseImage dl s none else none) = _
    rw [f1]
    dsimp only
    rw [if_pos rfl]
    exact q1
  · exact a3.head
  · rw [hbeh, ← q4, hRl]; omega
  · rw [hbeh, show s.scanstart + (6 + 2 * C) = s.scanstart + 2 + 1 + 2 * C + (2 + 1) by omega]
    exact a4

end Model.Lj92.Slow
