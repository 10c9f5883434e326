/- Property C102: what the decoder compiled with SLOW_HUFF does with any file. -/
import Verif.Proof.Lj92SlowPix
import Verif.Props.SlowHuff
import Verif.Proof.Lj92FastAny

set_option autoImplicit false

namespace Props.SlowAny
open Spec Model Model.Lj92 Model.Lj92.Seg Props Props.Segs Props.SlowHuff

/-- C102, reading a table: whatever the memory and the place, `parseHuff` succeeds exactly if the segment ends before the end of the file, is at least 19
bytes long and one of its sixteen counts is not 0. (Otherwise it reports an error, fails to allocate, or leaves an array.) -/
theorem C102_table_any (s : Ljp) : (Slow.parseHuff s).isSome = true ↔ s.ix + (s.data s.ix * 256 + s.data (s.ix + 1)) < s.datalen ∧
    19 ≤ s.data s.ix * 256 + s.data (s.ix + 1) ∧ ∃ k, k < 16 ∧ s.data (s.ix + 3 + k) ≠ 0 := Slow.parseHuff_iff

/-- The codes of T.81 Annex C for the sixteen counts at place `p`. -/
def codesAt (d : Nat → Nat) (p : Nat) : List (Nat × Nat) := huffCodes 0 0 (huffSizes (fun k => d (p + k)) 16)

/-- C102: whatever file the slow build opens (any bytes), there is a DHT segment in it, at place `p`, complete and not empty, such that, for every predictor
but 6, no linearization table, and whatever the scan data:
* the next difference is found exactly if the bits begin with one of the codes of Annex C for the counts, legal or not, that has a value; it is then
  the one T.81 F.2.2.1 says (a shorter code goes before a longer one), and exactly its bits are used;
* `lj92_decode` reports no error and stays in the arrays of its tables exactly if the data hold one difference per sample. -/
theorem C102_decode_any_file {d : Nat → Nat} (hd : ∀ k, d k < 256) {datalen : Nat} {s : Ljp} {t : Slow.Tab} (hop : Slow.open' d datalen = some (s, some t)) :
    ∃ p n, 2 ≤ p ∧ d (p - 2) = 0xFF ∧ d (p - 1) = 0xC4 ∧ d p * 256 + d (p + 1) = 19 + n ∧ p + (19 + n) < datalen ∧ (∃ k, k < 16 ∧ d (p + 3 + k) ≠ 0) ∧
      (∀ (ub : Int) (x : Ljp) (ix m : Nat), (∀ k, x.data k < 256) → Stands x.data ix m (x.b, x.cnt, x.ix) →
        (∀ x' diff, Slow.nextdiff ub (some t) x = some (x', diff) →
          ∃ m', NextDifference (codesAt d (p + 3)) (fun k => d (p + 19 + k)) n x.data ix m diff m' ∧ Stands x'.data ix m' (x'.b, x'.cnt, x'.ix)) ∧
        (Slow.nextdiff ub (some t) x = none ↔ ¬ ∃ diff m', NextDifference (codesAt d (p + 3)) (fun k => d (p + 19 + k)) n x.data ix m diff m')) ∧
      (s.data (s.scanstart + 3 + 2 * s.data (s.scanstart + 2)) ≤ 7 → s.data (s.scanstart + 3 + 2 * s.data (s.scanstart + 2)) ≠ 6 →
        ∀ (ub : Int) (target : Nat → Nat) (group skip : Nat), (Slow.decodeAny ub (s, some t) target group skip none).isSome = true ↔
          ∃ (l : List Int) (m' : Nat), l.length = s.y * (s.x * s.components) ∧
            Differences (codesAt d (p + 3)) (fun k => d (p + 19 + k)) n s.data (s.scanstart + (s.data s.scanstart * 256 + s.data (s.scanstart + 1))) 0 l m') := by
  obtain ⟨hb, ht⟩ := Slow.open_any hd hop
  obtain ⟨p, n, h1, h2, h3, h4, h5, h6, h7⟩ := ht t rfl
  refine ⟨p, n, h1, h2, h3, h4, h5, h6, ?_, ?_⟩
  · intro ub x ix m hx hst
    have key := Slow.nextdiff_any h7 hx hst ub
    cases hn : Slow.nextdiff ub (some t) x with
    | none =>
      rw [hn] at key
      refine ⟨fun x' diff h => (by cases h), fun _ => ?_, fun _ => rfl⟩
      rintro ⟨diff, m', h⟩
      exact key diff m' h
    | some r =>
      obtain ⟨x', diff⟩ := r
      rw [hn] at key
      obtain ⟨m', g1, g2, _⟩ := key
      refine ⟨fun y df h => ?_, fun h => (by cases h), fun h => absurd ⟨diff, m', g1⟩ h⟩
      simp only [Option.some.injEq, Prod.mk.injEq] at h
      obtain ⟨rfl, rfl⟩ := h
      exact ⟨m', g1, g2⟩
  · intro hp7 hp6 ub target group skip
    let x : Ljp := { s with image := target, skiplen := skip, ix := s.scanstart + beh s.data s.scanstart, cnt := 0, b := 0 }
    have key := Slow.loops_any h7 (x := x) hb (ix := s.scanstart + beh s.data s.scanstart) (v := (x, 0))
      ⟨rfl, ⟨rfl, rfl, rfl, rfl⟩, [], 0, rfl, rfl, Slow.stands_start _ _ _⟩ ub (s.data (s.scanstart + 3 + 2 * s.data (s.scanstart + 2))) s.components s.x s.y
    unfold Slow.decodeAny Slow.parseAny Slow.parseScan
    dsimp only
    rw [if_neg hp6, if_neg (by omega), Option.isSome_map, Option.isSome_map]
    generalize hr : forN _ s.y (({ s with image := target, skiplen := skip, ix := s.scanstart + beh s.data s.scanstart, cnt := 0, b := 0 } : Ljp), (0 : Int)) = r
    have hr' : forN (fun row => forN (fun col => forN (fun k => Slow.body ub (some t) none (s.data (s.scanstart + 3 + 2 * s.data (s.scanstart + 2))) row col k)
      s.components) s.x) s.y (x, (0 : Int)) = r := hr
    rw [hr'] at key
    cases r with
    | none =>
      constructor
      · intro h; simp at h
      · intro h; exact absurd h key
    | some v =>
      constructor
      · intro _
        obtain ⟨l, m', e1, e2, _⟩ := key.at'
        exact ⟨l, m', e1, e2⟩
      · intro _; rfl

/-- C102: whatever file was opened, with any tables or none, for every predictor but 6, if `lj92_decode` returns without an error then outside the rows of the
picture nothing was written to the target. -/
theorem C102_writes_inside (ub : Int) (s : Ljp) (t : Option Slow.Tab) (target : Nat → Nat) (group skip : Nat) (lin : Option Lin) {img : Nat → Nat}
    (h6 : s.data (s.scanstart + 3 + 2 * s.data (s.scanstart + 2)) ≠ 6) (h : Slow.decodeAny ub (s, t) target group skip lin = some img) :
    ∀ k, (∀ r q, r < s.y → q < s.x * s.components → k ≠ r * (s.x * s.components + skip) + q) → img k = target k := by
  unfold Slow.decodeAny Slow.parseAny at h
  dsimp only at h
  rw [if_neg h6] at h
  obtain ⟨x, h1, rfl⟩ := Option.map_eq_some_iff.1 h
  exact Slow.scan_inside h1

/-- C102, the samples: whatever file the slow build opens with a table, if the stated predictor is 1 and there are at least as many samples per line and
component as components, and `lj92_decode` returns without an error, then the data hold one difference per sample by the table of a DHT segment (at place `p`)
of the file, and the picture is what T.81 makes of these differences (through the linearization table, if there is one). -/
theorem C102_samples_any_file {d : Nat → Nat} (hd : ∀ k, d k < 256) {datalen : Nat} {s : Ljp} {t : Slow.Tab} (hop : Slow.open' d datalen = some (s, some t))
    (hp : s.data (s.scanstart + 3 + 2 * s.data (s.scanstart + 2)) = 1) (hwide : s.components ≤ s.x) (ub : Int) (target : Nat → Nat) (group skip : Nat)
    (lin : Option Lin) {img : Nat → Nat} (h : Slow.decodeAny ub (s, some t) target group skip lin = some img) :
    ∃ (p n : Nat) (l : List Int) (m' : Nat), 2 ≤ p ∧ d (p - 2) = 0xFF ∧ d (p - 1) = 0xC4 ∧ d p * 256 + d (p + 1) = 19 + n ∧ p + (19 + n) < datalen ∧
      l.length = s.y * (s.components * s.x) ∧
      Differences (codesAt d (p + 3)) (fun k => d (p + 19 + k)) n s.data (s.scanstart + (s.data s.scanstart * 256 + s.data (s.scanstart + 1))) 0 l m' ∧
      ∀ i, i < l.length → img (strided (s.components * s.x) skip i) = linear lin ((rebuild s.bits s.components (s.components * s.x) l).getD i 0) := by
  obtain ⟨hb, ht⟩ := Slow.open_any hd hop
  obtain ⟨p, n, h1, h2, h3, h4, h5, _, h7⟩ := ht t rfl
  let x : Ljp := { s with image := target, skiplen := skip, ix := s.scanstart + beh s.data s.scanstart, cnt := 0, b := 0 }
  unfold Slow.decodeAny Slow.parseAny Slow.parseScan at h
  dsimp only at h
  rw [hp, if_neg (by decide), if_neg (by decide)] at h
  rw [Option.map_map] at h
  obtain ⟨v, h8, rfl⟩ := Option.map_eq_some_iff.1 h
  have hrun : forN (fun row => forN (fun col => forN (fun k => Slow.body ub (some t) lin 1 row col k) x.components) x.x) x.y (x, (0 : Int)) = some v := h8
  by_cases hX : s.x = 0
  · refine ⟨p, n, [], 0, h1, h2, h3, h4, h5, by rw [hX]; simp, rfl, fun i hi => absurd hi (Nat.not_lt_zero _)⟩
  · have key := Slow.pix_loops h7 (x := x) hb hwide (Nat.pos_of_ne_zero hX) (ix := s.scanstart + beh s.data s.scanstart) (lin := lin) (v := (x, 0))
      ⟨rfl, ⟨rfl, rfl, rfl, rfl, rfl⟩, [], 0, by simp, rfl, Slow.stands_start _ _ _, fun i hi => absurd hi (Nat.not_lt_zero _),
        fun k hk => absurd hk (Nat.not_lt_zero _), fun h0 => absurd h0 (Nat.lt_irrefl 0)⟩ hrun
    obtain ⟨_, _, l, m', e1, e2, _, e3, _⟩ := key
    exact ⟨p, n, l, m', h1, h2, h3, h4, h5, e1, e2, e3⟩

/-! ### The two builds on any data behind a legal header -/

/-- C102, any data: behind a legal header (segments in any order, the table not empty and without class 16, a predictor other than 6) let any bytes at all
stand. Both builds open the file, with the same dimensions, and whenever the slow build decodes it without an error (that is, if the data hold one difference
per sample, and no sample lies beyond the linearization table), the normal build does so too and makes the same memory of it. The converse fails:
C100_invalid_limit. -/
theorem C102_builds_agree_any_data {p bd H X C : Nat} {segs : List Segment} {sels counts vals rest : List Nat} {T : Table}
    (hD : DescribesFor counts vals T (· ∈ vals)) (hv : ∀ t ∈ vals, t ≤ 15) (hne : vals ≠ []) (hp6 : p ≠ 6) (hC : C < 256) (hX : X < 65536) (hH : H < 65536)
    (hsegs : ∀ g ∈ segs, Segment.Legal bd H X C counts vals g) (htab : ∃ th, Segment.table th counts vals ∈ segs)
    (hfr : ∃ comps, Segment.frame bd H X C comps ∈ segs) (hsels : sels.length = 2 * C)
    {d : Nat → Nat} (hd : ∀ k, d k < 256) (F : List Nat) (hF : F = [0xFF, 0xD8] ++ segs.flatMap Segment.bytes ++ scanHeader p C sels ++ rest)
    (hfile : At d 0 F) (mem : Nat → Nat) :
    ∃ f s t, open' d F.length mem = some f ∧ Slow.open' d F.length = some (s, t) ∧
      s.x = X ∧ s.y = H ∧ s.bits = bd ∧ s.components = C ∧ f.x = X ∧ f.y = H ∧ f.bits = bd ∧ f.components = C ∧
      ∀ (ub : Int) (target : Nat → Nat) (group skip : Nat) (lin : Option Lin) (img : Nat → Nat),
        Slow.decodeAny ub (s, t) target group skip lin = some img → decodeAny ub f target group skip lin = some img := by
  subst hF
  obtain ⟨hvl, hby⟩ := describes_small' hD (fun t ht => Nat.le_succ_of_le (hv t ht))
  have hv1 : 1 ≤ vals.length := List.length_pos_iff.2 hne
  obtain ⟨f, o1, o⟩ := open_segs hd hD hby (by omega) hH hX hC hsegs htab hfr hsels hfile mem
  obtain ⟨s, t, q1, q⟩ := Slow.slowOpen_segs hd hD.len hD.num hv1 (by omega) hH hX hC hsegs htab hfr hsels hfile
  refine ⟨f, s, t, o1, q1, q.x, q.y, q.bits, q.comps, o.x, o.y, o.bits, o.comps, ?_⟩
  intro ub target group skip lin img he
  obtain ⟨u, rfl, hu⟩ := q.tab
  have hrc : s.rowcache = f.rowcache := by rw [Slow.open_rowcache o1, Slow.slowOpen_rowcache q1]
  have hl1 := Slow.open_len o1
  have hl2 : s.datalen = _ := Slow.slowOpen_len q1
  obtain ⟨t1, t2⟩ := Slow.fast_tail o1
  obtain ⟨t3, t4⟩ := Slow.slow_tail q1
  have hends := o.ends
  have hends' := q.ends
  have hsl : (scanHeader p C sels).length = 8 + 2 * C := by simp [scanHeader, be16_length, hsels]; omega
  rw [hl1] at hends
  rw [hl2] at hends'
  simp only [List.length_append, List.length_cons, List.length_nil, hsl] at hends hends'
  rw [o.head] at hends
  rw [q.head] at hends'
  dsimp only at t3 t4
  have hst : s.scanstart = f.scanstart := by omega
  have hag : ∀ k, f.scanstart + (6 + 2 * C) ≤ k → f.data k = s.data k := by
    intro k hk
    rw [t1 k (by omega), t3 k (by omega)]
  let f0 : Ljp := { f with image := target, skiplen := skip, ix := f.scanstart + beh f.data f.scanstart, cnt := 0, b := 0 }
  let s0 : Ljp := { s with image := target, skiplen := skip, ix := s.scanstart + beh s.data s.scanstart, cnt := 0, b := 0 }
  have hT : Slow.Tables f0 u (counts.getD · 0) (vals.getD · 0) vals.length :=
    { ok := hu
      hb := o.hb
      lut := by
        intro j e hj hlt
        have hvj : vals[j]? = some (vals.getD j 0) := by rw [List.getD_eq_getElem?_getD, List.getElem?_eq_getElem hlt]; rfl
        obtain ⟨e', h1, h2⟩ := hD.word j _ hvj
        rw [hj] at h1
        injection h1 with h1
        subst h1
        have hm := List.mem_of_getElem? hvj
        exact ⟨hv _ hm, h2 ▸ o.lut _ hm⟩ }
  have hsame : Slow.Same f0 s0 (f.scanstart + (6 + 2 * C)) (f0, 0) (s0, 0) :=
    { data := rfl
      data' := rfl
      lut := ⟨rfl, rfl⟩
      dims := ⟨o.x.trans q.x.symm, o.comps.trans q.comps.symm, o.bits.trans q.bits.symm, rfl⟩
      rows := hrc.symm
      image := rfl
      left := rfl
      cnt := Nat.zero_le _
      at' := ⟨0, ⟨rfl, rfl, by
        show f.scanstart + beh f.data f.scanstart = bytePlace f.data (f.scanstart + (6 + 2 * C)) ((0 + 0) / 8)
        rw [o.head, Nat.add_zero, Nat.zero_div, bytePlace]⟩, by
        have := Slow.stands_start s0.data 0 (f.scanstart + (6 + 2 * C))
        show Stands s0.data _ 0 (0, 0, s.scanstart + beh s.data s.scanstart)
        rw [q.head, hst]
        exact this⟩ }
  have hfx : f.x = s.x := o.x.trans q.x.symm
  have hfy : f.y = s.y := o.y.trans q.y.symm
  have hfc : f.components = s.components := o.comps.trans q.comps.symm
  unfold Slow.decodeAny Slow.parseAny Slow.parseScan at he
  unfold decodeAny parseAny parseScan
  dsimp only at he ⊢
  rw [q.count, q.pred, if_neg hp6] at he
  rw [o.count, o.pred, if_neg hp6]
  split at he
  · simp at he
  · rename_i h7
    rw [if_neg h7]
    rw [Option.map_map] at he
    obtain ⟨w, h8, h9⟩ := Option.map_eq_some_iff.1 he
    obtain ⟨v, g1, g2⟩ := Slow.forN_same (x := f0) (y := s0) (ix0 := f.scanstart + (6 + 2 * C))
      (f := fun row => forN (fun col => forN (fun k => body ub lin p row col k) s.components) s.x)
      (fun row _ _ _ h e => Slow.forN_same (fun col _ _ _ h e => Slow.forN_same
        (fun k _ _ _ h e => Slow.body_same (y := s0) hT o.bytes q.bytes hag ub lin p row col k h e) _ _ _ _ h e) _ _ _ _ h e) s.y (f0, 0) (s0, 0) w hsame h8
    rw [← hfx, ← hfy, ← hfc] at g1
    rw [Option.map_map]
    exact Option.map_eq_some_iff.2 ⟨v, g1, by rw [← h9]; exact g2.image⟩

/-- C102, any data, the normal build: behind a legal header with predictor 1 (segments in any order, the table not empty and without class 16, at least as
many samples per line and component as components) let any bytes stand. If they hold one difference per sample by the table of the header (read from the
memory behind the header, whatever follows), then, whatever `malloc` returned, the normal build makes of them, without an error, what T.81 makes of these
differences, also if the samples leave the stated precision. -/
theorem C102_normal_any_data {bd H X C : Nat} {segs : List Segment} {sels counts vals rest : List Nat} {T : Table}
    (hD : DescribesFor counts vals T (· ∈ vals)) (hv : ∀ t ∈ vals, t ≤ 15) (hne : vals ≠ []) (hC : C < 256) (hX : X < 65536) (hH : H < 65536) (hwide : C ≤ X)
    (hsegs : ∀ g ∈ segs, Segment.Legal bd H X C counts vals g) (htab : ∃ th, Segment.table th counts vals ∈ segs)
    (hfr : ∃ comps, Segment.frame bd H X C comps ∈ segs) (hsels : sels.length = 2 * C)
    {d : Nat → Nat} (hd : ∀ k, d k < 256) (F header : List Nat) (hh : header = [0xFF, 0xD8] ++ segs.flatMap Segment.bytes ++ scanHeader 1 C sels)
    (hF : F = header ++ rest) (hfile : At d 0 F) (mem : Nat → Nat) {l : List Int} {m' : Nat} (hl : l.length = H * (C * X))
    (hdiff : Differences (huffCodes 0 0 (huffSizes (counts.getD · 0) 16)) (vals.getD · 0) vals.length d header.length 0 l m')
    (ub : Int) (target : Nat → Nat) (group skip : Nat) :
    ∃ f img, open' d F.length mem = some f ∧ f.x = X ∧ f.y = H ∧ f.bits = bd ∧ f.components = C ∧
      decodeAny ub f target group skip none = some img ∧
      ∀ i, i < l.length → img (strided (C * X) skip i) = (rebuild bd C (C * X) l).getD i 0 := by
  subst hh
  obtain ⟨f, s, t, o1, q1, _, _, _, _, a1, a2, a3, a4, hag⟩ := C102_builds_agree_any_data (p := 1) hD hv hne (by decide) hC hX hH hsegs htab hfr hsels hd F hF
    hfile mem
  subst hF
  obtain ⟨hvl, _⟩ := describes_small' hD (fun t ht => Nat.le_succ_of_le (hv t ht))
  obtain ⟨s', t', q1', q⟩ := Slow.slowOpen_segs hd hD.len hD.num (List.length_pos_iff.2 hne) (by omega) hH hX hC hsegs htab hfr hsels hfile
  rw [q1] at q1'
  simp only [Option.some.injEq, Prod.mk.injEq] at q1'
  obtain ⟨rfl, rfl⟩ := q1'
  obtain ⟨u, rfl, hu⟩ := q.tab
  have hl2 : s.datalen = _ := Slow.slowOpen_len q1
  obtain ⟨t3, t4⟩ := Slow.slow_tail q1
  have hends' := q.ends
  have hsl : (scanHeader 1 C sels).length = 8 + 2 * C := by simp [scanHeader, be16_length, hsels]; omega
  rw [hl2, List.length_append (bs := rest)] at hends'
  have hP : s.scanstart + beh s.data s.scanstart = ([0xFF, 0xD8] ++ segs.flatMap Segment.bytes ++ scanHeader 1 C sels).length := by omega
  have hss : s.scanstart = s.ix := by
    refine t4.resolve_right fun h0 => ?_
    rw [q.head, h0] at hP
    simp only [List.length_append, List.length_cons, List.length_nil, hsl] at hP
    omega
  have hagd : ∀ k, s.scanstart + beh s.data s.scanstart ≤ k → d k = s.data k := fun k hk => by
    refine (t3 k ?_).symm
    rw [q.head] at hk
    show s.ix + 3 ≤ k
    omega
  rw [← hP] at hdiff
  have hdiff := Slow.diffs_agree hagd hdiff
  let x : Ljp := { s with image := target, skiplen := skip, ix := s.scanstart + beh s.data s.scanstart, cnt := 0, b := 0 }
  have key := Slow.loops_any hu (x := x) q.bytes (ix := s.scanstart + beh s.data s.scanstart) (v := (x, 0))
    ⟨rfl, ⟨rfl, rfl, rfl, rfl⟩, [], 0, rfl, rfl, Slow.stands_start _ _ _⟩ ub 1 s.components s.x s.y
  have hlen : l.length = s.y * (s.x * s.components) := by rw [hl, q.x, q.y, q.comps, Nat.mul_comm C]
  have hrun : ∃ v, forN (fun row => forN (fun col => forN (fun k => Slow.body ub (some u) none 1 row col k) s.components) s.x) s.y (x, (0 : Int)) = some v := by
    cases hr : forN (fun row => forN (fun col => forN (fun k => Slow.body ub (some u) none 1 row col k) s.components) s.x) s.y (x, (0 : Int)) with
    | some v => exact ⟨v, rfl⟩
    | none =>
      rw [hr] at key
      exact absurd ⟨l, m', hlen, hdiff⟩ key
  obtain ⟨v, hrun⟩ := hrun
  have hdec : Slow.decodeAny ub (s, some u) target group skip none = some v.1.image := by
    unfold Slow.decodeAny Slow.parseAny Slow.parseScan
    dsimp only
    rw [q.count, q.pred, if_neg (by decide), if_neg (by decide), Option.map_map]
    exact Option.map_eq_some_iff.2 ⟨v, hrun, rfl⟩
  refine ⟨f, v.1.image, o1, a1, a2, a3, a4, hag ub target group skip none _ hdec, ?_⟩
  intro i hi
  have hX0 : 0 < s.x := by
    rcases Nat.eq_zero_or_pos s.x with h0 | h0
    · rw [hlen, h0] at hi; simp at hi
    · exact h0
  have key := Slow.pix_loops hu (x := x) q.bytes (by show s.components ≤ s.x; rw [q.comps, q.x]; exact hwide) hX0
    (ix := s.scanstart + beh s.data s.scanstart) (lin := none) (v := (x, 0))
    ⟨rfl, ⟨rfl, rfl, rfl, rfl, rfl⟩, [], 0, by simp, rfl, Slow.stands_start _ _ _, fun i hi => absurd hi (Nat.not_lt_zero _),
      fun k hk => absurd hk (Nat.not_lt_zero _), fun h0 => absurd h0 (Nat.lt_irrefl 0)⟩ hrun
  obtain ⟨_, _, l', m1, e1, e2, _, e3, _⟩ := key
  have hll : l' = l := (Slow.diffs_unique (by rw [e1, hlen, Nat.mul_comm x.components]; rfl) e2 hdiff).1
  subst hll
  have := e3 i hi
  rw [show x.components = C from q.comps, show x.x = X from q.x, show x.bits = bd from q.bits] at this
  exact this

/-! ### A limit -/

/-- A file whose table has a value FF before a byte D9. -/
def markerFile : List Nat := [0xFF, 0xD8, 0xFF, 0xC4, 0, 24, 0, 0, 3, 2, 0, 0, 0, 0, 0, 0, 0, 0, 0, 0, 0, 0, 0, 0, 1, 2, 0xFF, 0xD9,
  0xFF, 0xC3, 0, 11, 2, 0, 3, 0, 4, 1, 0, 0x11, 0, 0xFF, 0xDA, 0, 8, 1, 0, 0, 1, 0, 0, 0, 0, 0, 0, 0, 0xFF, 0xD9]

/-- C102, a limit: the builds do not open all files alike. The normal build does not pass over the table segment but looks for the next marker inside it; a
value FF followed by D9 ends the header there, and it reports a picture of 0 by 0 samples, where the slow build finds 4 by 3. -/
theorem C102_marker_limit : ((open' (fileMem markerFile) markerFile.length (fun _ => 0)).map fun s => (s.x, s.y)) = some (0, 0) ∧
    ((Slow.open' (fileMem markerFile) markerFile.length).map fun v => (v.1.x, v.1.y)) = some (4, 3) := ⟨by decide +kernel, by decide +kernel⟩

/-- C102, a limit: on data that are not a code the normal build takes classes from the part of its look-up table that it never filled. The same file gives
different pictures, without an error, for different contents of the memory that `malloc` returned; the slow build decodes no picture from it. -/
theorem C102_uninitialised_limit : ∃ F : List Nat,
    (((open' (fileMem F) F.length (fun _ => 0)).bind fun s => (decodeAny 0 s (fun _ => 0) 4 0 none).map fun img => (List.range 12).map img) =
      some (List.replicate 12 2)) ∧
    (((open' (fileMem F) F.length (fun _ => 0x101)).bind fun s => (decodeAny 0 s (fun _ => 0) 4 0 none).map fun img => (List.range 12).map img) =
      some [3, 4, 5, 6, 4, 5, 6, 7, 5, 6, 7, 8]) ∧
    ((Slow.open' (fileMem F) F.length).bind fun v => Slow.decodeAny 0 v (fun _ => 0) 4 0 none).isNone = true :=
  ⟨pFile 1 (List.replicate 40 0xFF), by decide +kernel, by decide +kernel, by decide +kernel⟩

/-! ### The hypotheses can be met -/

/-- A legal header before data that are not the code of any image. -/
def anyEx : List Nat := [0xFF, 0xD8] ++ segsEx.flatMap Segment.bytes ++ scanHeader 1 2 [0, 0, 1, 0x10] ++ [108, 153, 85, 0, 0, 0]

-- C102_builds_agree_any_data: a header with all kinds of segments (two components, 3 by 2 samples), and behind it bytes that are no code of an image of the
-- stated precision of two bits (there are samples of 5) and end without a marker; the slow build decodes them without an error.
example : DescribesFor pCounts [0, 1, 2, 3] pTable (· ∈ [0, 1, 2, 3]) ∧ (∀ t ∈ [0, 1, 2, 3], t ≤ 15) ∧ (∀ g ∈ segsEx, Segment.Legal 2 2 3 2 pCounts [0, 1, 2, 3] g) ∧
    (∃ th, Segment.table th pCounts [0, 1, 2, 3] ∈ segsEx) ∧ (∃ comps, Segment.frame 2 2 3 2 comps ∈ segsEx) ∧
    (((Slow.open' (fileMem anyEx) anyEx.length).bind fun v => (Slow.decodeAny 5 v (fun _ => 9) 6 0 none).map fun img => (List.range 13).map img) =
      some [3, 3, 3, 1, 1, 0, 5, 0, 5, 0, 5, 0, 9]) ∧
    (((open' (fileMem anyEx) anyEx.length (fun _ => 3)).bind fun v => (decodeAny 5 v (fun _ => 9) 6 0 none).map fun img => (List.range 13).map img) =
      some [3, 3, 3, 1, 1, 0, 5, 0, 5, 0, 5, 0, 9]) := by
  refine ⟨pDescribes, by decide, fun g hg => ?_, ⟨0, by simp [segsEx]⟩, ⟨_, by simp [segsEx]; rfl⟩, by decide +kernel, by decide +kernel⟩
  simp only [segsEx, List.mem_cons, List.not_mem_nil, or_false] at hg
  rcases hg with rfl | rfl | rfl | rfl | rfl | rfl <;> simp [Segment.Legal]

-- C102_table_any, C102_decode_any_file: `markerFile` is opened with a table, and decodes: twelve differences of class 0, two bits each.
example : (∀ k, fileMem markerFile k < 256) ∧ ((Slow.open' (fileMem markerFile) markerFile.length).bind fun v => v.2).isSome = true ∧
    ((Slow.open' (fileMem markerFile) markerFile.length).bind fun v => (Slow.decodeAny 5 v (fun _ => 9) 4 0 none).map fun img => (List.range 13).map img) =
      some (List.replicate 12 2 ++ [9]) := by
  refine ⟨fun k => ?_, by decide +kernel, by decide +kernel⟩
  by_cases h : k < markerFile.length
  · have : ∀ k : Fin markerFile.length, fileMem markerFile k.1 < 256 := by decide +kernel
    exact this ⟨k, h⟩
  · unfold fileMem
    rw [List.getD_eq_getElem?_getD, List.getElem?_eq_none (by omega)]
    decide

-- C102_samples_any_file: the header of `markerFile` states predictor 1 and one component, and the samples are what `rebuild` makes of twelve zeros.
example : ((Slow.open' (fileMem markerFile) markerFile.length).map fun v => (v.1.data (v.1.scanstart + 3 + 2 * v.1.data (v.1.scanstart + 2)), v.1.components)) =
    some (1, 1) ∧ rebuild 2 1 4 (List.replicate 12 0) = List.replicate 12 2 ∧ rebuild 2 1 4 [1, -3, 2, 0, -2, 70000] = [3, 0, 2, 2, 1, 4465] := by decide +kernel

-- C102_decode_any_file, the other case: the file of C100_invalid_limit is opened, and its data begin with no code.
example : ((Slow.open' (fileMem (pFile 1 (List.replicate 40 0xFF))) (pFile 1 (List.replicate 40 0xFF)).length).bind fun v =>
    (v.2.bind fun t => (Slow.decodeAny 0 (v.1, some t) (fun _ => 0) 4 0 none))).isNone = true := by decide +kernel

-- C102_normal_any_data: the twelve differences in the data of `anyEx` by the table of its header, and the samples they make.
example : anyEx = ([0xFF, 0xD8] ++ segsEx.flatMap Segment.bytes ++ scanHeader 1 2 [0, 0, 1, 0x10]) ++ [108, 153, 85, 0, 0, 0] ∧
    Differences (huffCodes 0 0 (huffSizes (pCounts.getD · 0) 16)) (([0, 1, 2, 3] : List Nat).getD · 0) 4 (fileMem anyEx)
      ([0xFF, 0xD8] ++ segsEx.flatMap Segment.bytes ++ scanHeader 1 2 [0, 0, 1, 0x10]).length 0 [1, 1, 0, -2, -2, -1, 2, -3, 0, 0, 0, 0] 35 ∧
    rebuild 2 2 6 [1, 1, 0, -2, -2, -1, 2, -3, 0, 0, 0, 0] = [3, 3, 3, 1, 1, 0, 5, 0, 5, 0, 5, 0] := by
  refine ⟨rfl, ?_, by decide +kernel⟩
  exact ⟨3, ⟨1, 2, ⟨by decide +kernel, by decide +kernel⟩, by decide, by decide, by decide +kernel⟩,
    ⟨6, ⟨1, 2, ⟨by decide +kernel, by decide +kernel⟩, by decide, by decide, by decide +kernel⟩,
    ⟨8, ⟨0, 2, ⟨by decide +kernel, by decide +kernel⟩, by decide, by decide, by decide +kernel⟩,
    ⟨12, ⟨2, 2, ⟨by decide +kernel, by decide +kernel⟩, by decide, by decide, by decide +kernel⟩,
    ⟨16, ⟨2, 2, ⟨by decide +kernel, by decide +kernel⟩, by decide, by decide, by decide +kernel⟩,
    ⟨19, ⟨1, 2, ⟨by decide +kernel, by decide +kernel⟩, by decide, by decide, by decide +kernel⟩,
    ⟨23, ⟨2, 2, ⟨by decide +kernel, by decide +kernel⟩, by decide, by decide, by decide +kernel⟩,
    ⟨27, ⟨2, 2, ⟨by decide +kernel, by decide +kernel⟩, by decide, by decide, by decide +kernel⟩,
    ⟨29, ⟨0, 2, ⟨by decide +kernel, by decide +kernel⟩, by decide, by decide, by decide +kernel⟩,
    ⟨31, ⟨0, 2, ⟨by decide +kernel, by decide +kernel⟩, by decide, by decide, by decide +kernel⟩,
    ⟨33, ⟨0, 2, ⟨by decide +kernel, by decide +kernel⟩, by decide, by decide, by decide +kernel⟩,
    ⟨35, ⟨0, 2, ⟨by decide +kernel, by decide +kernel⟩, by decide, by decide, by decide +kernel⟩, rfl⟩⟩⟩⟩⟩⟩⟩⟩⟩⟩⟩⟩

end Props.SlowAny
