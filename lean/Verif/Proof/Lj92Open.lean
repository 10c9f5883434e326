/- Helper lemmas about the model of the lj92 decoder: the file header. -/
import Verif.Proof.Lj92Scan

set_option autoImplicit false

namespace Model.Lj92
open Spec

theorem find_at {s : Ljp} (k : Nat) (h1 : ∀ j, j < k → s.data (s.ix + j) ≠ 0xFF) (h2 : s.data (s.ix + k) = 0xFF)
    (h3 : s.ix + k + 2 < s.datalen) : find s = some ({ s with ix := s.ix + k + 2 }, s.data (s.ix + k + 1)) := by
  have key : ∀ (m : Nat) (ix : Nat), (∀ j, j < m → s.data (ix + j) ≠ 0xFF) → s.data (ix + m) = 0xFF → ix + m + 2 < s.datalen → ∀ f,
      whileN (fun ix => if s.data ix ≠ 0xFF ∧ ix + 1 < s.datalen then some (ix + 1) else none) (f + m + 1) ix = some (ix + m) := by
    intro m
    induction m with
    | zero => intro ix _ h2 _ f; simp only [Nat.add_zero] at h2 ⊢; rw [whileN, if_neg (by simp [h2])]
    | succ m ih =>
      intro ix h1 h2 h3 f
      have h0 := h1 0 (by omega)
      rw [Nat.add_zero] at h0
      rw [whileN, if_pos ⟨h0, by omega⟩]
      have := ih (ix + 1) (fun j hj => by rw [Nat.add_assoc, Nat.add_comm 1 j]; exact h1 (j + 1) (by omega))
        (by rw [Nat.add_assoc, Nat.add_comm 1 m]; exact h2) (by omega) f
      dsimp only
      rw [show f + (m + 1) = f + m + 1 by omega, this]
      congr 1; omega
  have := key k s.ix h1 h2 h3 (s.datalen - k)
  rw [show s.datalen - k + k + 1 = s.datalen + 1 by omega] at this
  unfold find
  rw [this]
  dsimp only
  rw [if_neg (by omega)]

theorem huffSizes_length (l : List Nat) (n : Nat) (h : l.length = n) : (huffSizes (l.getD · 0) n).length = l.sum := by
  have e : (List.range l.length).map (l.getD · 0) = l := by
    apply List.ext_getElem
    · simp
    · intro i h1 h2
      simp [List.getD_eq_getElem?_getD, List.getElem?_eq_getElem h2]
  subst h
  rw [huffSizes, List.length_flatMap]
  simp only [List.length_replicate]
  rw [e]

theorem be16_val {n : Nat} (h : n < 65536) : n / 256 % 256 * 256 + n % 256 = n := by omega

/-- What `lj92_open` makes of a well-formed file. -/
theorem open_header {d : Nat → Nat} {bd lines samples : Nat} {comps counts vals sels rest : List Nat} {T : Table} {N : Nat}
    (hD : Describes counts vals T N) (hcomps : comps.length = 12) (hsels : sels.length = 8)
    (hl : lines < 65536) (hs : samples < 65536)
    (hfile : At d 0 (jpegHeader bd lines samples comps counts vals sels ++ rest)) (mem : Nat → Nat) :
    ∃ s, open' d (jpegHeader bd lines samples comps counts vals sels ++ rest).length mem = some s ∧ s.data = d ∧ s.x = samples ∧ s.y = lines ∧
      s.bits = bd ∧ s.components = 4 ∧ s.huffbits ≤ 16 ∧ (∀ t, t < N → LutOk s.hufflut s.huffbits (T t) t) ∧
      d (s.scanstart + 2) = 4 ∧ d (s.scanstart + 3 + 2 * 4) = 1 ∧ At d (s.scanstart + beh d s.scanstart) rest := by
  obtain ⟨hlen, hnum, hby, htot, hfit, hword⟩ := hD
  generalize hn : vals.length = n at *
  -- the pieces of the file
  have hdl : (jpegHeader bd lines samples comps counts vals sels ++ rest).length = 61 + n + rest.length := by
    simp [jpegHeader, be16, hcomps, hsels, hlen, hn]; omega
  rw [hdl]
  generalize hdle : 61 + n + rest.length = dl at *
  have hn19 : be16 (19 + n) = [0, 19 + n] := by
    unfold be16
    rw [Nat.div_eq_of_lt (by omega), Nat.mod_eq_of_lt (show 19 + n < 256 by omega)]
  have hsplit : jpegHeader bd lines samples comps counts vals sels ++ rest =
      [0xFF, 0xD8, 0xFF, 0xC3, 0, 20, bd, lines / 256 % 256, lines % 256, samples / 256 % 256, samples % 256, 4] ++ (comps ++
        ([0xFF, 0xC4, 0, 19 + n, 0] ++ (counts ++ (vals ++ ([0xFF, 0xDA, 0, 14, 4] ++ (sels ++ ([1, 0, 0] ++ rest))))))) := by
    unfold jpegHeader
    rw [hn, hn19]
    simp [be16]
  rw [hsplit] at hfile
  have a1 := hfile.left
  have a2 := hfile.right
  simp only [List.length_cons, List.length_nil, Nat.zero_add] at a2
  have a3 := a2.right
  rw [hcomps] at a3
  have a4 := a3.right
  have a3 := a3.left
  simp only [List.length_cons, List.length_nil, Nat.zero_add] at a4
  have a5 := a4.right
  have a4 := a4.left
  rw [hlen] at a5
  have a6 := a5.right
  have a5 := a5.left
  rw [hn] at a6
  have a7 := a6.right
  have a6 := a6.left
  simp only [List.length_cons, List.length_nil, Nat.zero_add] at a7
  have a8 := a7.right
  rw [hsels] at a8
  have a9 := a8.right
  have a8 := a8.left
  simp only [List.length_cons, List.length_nil, Nat.zero_add] at a9
  simp only [Nat.reduceAdd] at a3 a4 a5
  have d0 : d 0 = 0xFF := a1 0 (by simp)
  have d1 : d 1 = 0xD8 := a1 1 (by simp)
  have d2 : d 2 = 0xFF := a1 2 (by simp)
  have d3 : d 3 = 0xC3 := a1 3 (by simp)
  have d4 : d 4 = 0 := a1 4 (by simp)
  have d5 : d 5 = 20 := a1 5 (by simp)
  have d6 : d 6 = bd := a1 6 (by simp)
  have d7 : d 7 = lines / 256 % 256 := a1 7 (by simp)
  have d8 : d 8 = lines % 256 := a1 8 (by simp)
  have d9 : d 9 = samples / 256 % 256 := a1 9 (by simp)
  have d10 : d 10 = samples % 256 := a1 10 (by simp)
  have d11 : d 11 = 4 := a1 11 (by simp)
  have d24 : d 24 = 0xFF := a3 0 (by simp)
  have d25 : d 25 = 0xC4 := a3 1 (by simp)
  have d26 : d 26 = 0 := a3 2 (by simp)
  have d27 : d 27 = 19 + n := a3 3 (by simp)
  have d28 : d 28 = 0 := a3 4 (by simp)
  have e0 : d (45 + n) = 0xFF := a6 0 (by simp)
  have e1 : d (45 + n + 1) = 0xDA := a6 1 (by simp)
  have e2 : d (45 + n + 2) = 0 := a6 2 (by simp)
  have e3 : d (45 + n + 3) = 14 := a6 3 (by simp)
  have e4 : d (45 + n + 4) = 4 := a6 4 (by simp)
  have e5 : d (45 + n + 5 + 8) = 1 := a8 0 (by simp)
  -- the table
  have hput : put d (26 + 2) 0 = d := by
    funext j
    unfold put
    split
    · rename_i h; subst h; exact d28.symm
    · rfl
  have hbits : ∀ k, 1 ≤ k → k ≤ 16 → d (26 + 2 + k) = counts.getD (k - 1) 0 := by
    intro k h1 h2
    rw [← a4 (k - 1) (by omega)]
    congr 1; omega
  obtain ⟨f, f1, f2⟩ := fill_done (c := (counts.getD · 0)) (vals := fun k => d (26 + 19 + k)) (bits := fun k => d (26 + 2 + k)) hbits
    (by rw [huffSizes_length counts 16 hlen, ← hnum]; exact htot) hfit mem
  have hmax := (maxbits_spec (fun k => d (26 + 2 + k)) 16).1
  generalize hmb : maxbits (fun k => d (26 + 2 + k)) 16 = mb at *
  -- the run
  have s1 : ∀ s : Ljp, s.data = d → s.datalen = dl → s.ix = 0 → find s = some ({ s with ix := 2 }, 0xD8) := by
    intro s h1 h2 h3
    have := find_at (s := s) 0 (fun j hj => by omega) (by rw [h1, h3]; exact d0) (by rw [h2, h3]; omega)
    rw [this, h1, h3]; simp [d1]
  have s2 : ∀ s : Ljp, s.data = d → s.datalen = dl → s.ix = 2 → find s = some ({ s with ix := 4 }, 0xC3) := by
    intro s h1 h2 h3
    have := find_at (s := s) 0 (fun j hj => by omega) (by rw [h1, h3]; exact d2) (by rw [h2, h3]; omega)
    rw [this, h1, h3]; simp [d3]
  have s3 : ∀ s : Ljp, s.data = d → s.datalen = dl → s.ix = 24 → find s = some ({ s with ix := 26 }, 0xC4) := by
    intro s h1 h2 h3
    have := find_at (s := s) 0 (fun j hj => by omega) (by rw [h1, h3]; exact d24) (by rw [h2, h3]; omega)
    rw [this, h1, h3]; simp [d25]
  have s4 : ∀ s : Ljp, s.data = d → s.datalen = dl → s.ix = 26 → find s = some ({ s with ix := 47 + n }, 0xDA) := by
    intro s h1 h2 h3
    have := find_at (s := s) (19 + n) (fun j hj => ?_) (by rw [h1, h3, show 26 + (19 + n) = 45 + n by omega]; exact e0) (by rw [h2, h3]; omega)
    · rw [this, h1, h3, show 26 + (19 + n) + 2 = 47 + n by omega, show 26 + (19 + n) + 1 = 45 + n + 1 by omega, e1]
    · rw [h1, h3]
      by_cases c1 : j < 3
      · obtain rfl | rfl | rfl : j = 0 ∨ j = 1 ∨ j = 2 := by omega
        · rw [d26]; decide
        · rw [d27]; omega
        · rw [d28]; decide
      · by_cases c2 : j < 19
        · have := a4 (j - 3) (by omega)
          rw [show 26 + j = 29 + (j - 3) by omega, this, List.getD_eq_getElem?_getD, List.getElem?_eq_getElem (by omega)]
          have := hby _ (List.mem_append_left _ (List.getElem_mem (l := counts) (n := j - 3) (by omega)))
          simp only [Option.getD_some]; omega
        · have := a5 (j - 19) (by omega)
          rw [show 26 + j = 45 + (j - 19) by omega, this, List.getD_eq_getElem?_getD, List.getElem?_eq_getElem (by omega)]
          have := hby _ (List.mem_append_right _ (List.getElem_mem (l := vals) (n := j - 19) (by omega)))
          simp only [Option.getD_some]; omega
  have hy : d 7 * 256 + d 8 = lines := by rw [d7, d8]; exact be16_val hl
  have hx : d 9 * 256 + d 10 = samples := by rw [d9, d10]; exact be16_val hs
  obtain ⟨g, hg⟩ : ∃ g, dl = g + 3 := ⟨dl - 3, by omega⟩
  let S : Ljp := { data := d, datalen := dl, scanstart := 47 + n, ix := 47 + n, x := samples, y := lines, bits := bd, components := 4,
                   skiplen := 0, hufflut := f.lut, huffbits := mb, cnt := 0, b := 0, image := fun _ => 0, rowcache := fun _ => 0 }
  refine ⟨S, ?_, rfl, rfl, rfl, rfl, rfl, hmax, ?_, ?_, ?_, ?_⟩
  · unfold open'
    dsimp only
    rw [s1 _ rfl rfl rfl]
    dsimp only
    rw [if_pos rfl]
    refine (congrArg (fun g => parseImage g _) hg).trans ?_
    rw [parseImage, s2 _ rfl rfl rfl]
    dsimp only
    rw [if_neg (by decide), if_pos rfl, parseSof3]
    dsimp only
    rw [if_neg (by omega), Option.bind_some]
    simp only [beh, Nat.reduceAdd, d4, d5, d6, d11, hy, hx, Nat.zero_mul, Nat.zero_add]
    rw [parseImage, s3 _ rfl rfl rfl]
    dsimp only
    rw [if_pos rfl, parseHuff]
    dsimp only
    rw [hput, hmb, f1]
    dsimp only
    rw [if_neg (by simp only [beh, Nat.reduceAdd, d26, d27]; omega), Option.bind_some, parseImage, s4 _ rfl rfl rfl]
    dsimp only
    rw [if_neg (by decide), if_neg (by decide), if_neg (by decide), if_neg (by decide), if_pos rfl]
  · intro t ht
    obtain ⟨k, e, h1, h2, h3⟩ := hword t ht
    have h4 := f2 k e h2
    have hk := (List.getElem?_eq_some_iff.1 h1).1
    have h5 : d (26 + 19 + k) = t := by
      have := a5 k hk
      rw [show 26 + 19 + k = 45 + k by omega, this, List.getD_eq_getElem?_getD, h1]; rfl
    rw [h5, ← h3] at h4
    exact h4
  · show d (47 + n + 2) = 4
    rw [show 47 + n + 2 = 45 + n + 4 by omega]; exact e4
  · show d (47 + n + 3 + 2 * 4) = 1
    rw [show 47 + n + 3 + 2 * 4 = 45 + n + 5 + 8 by omega]; exact e5
  · show At d (47 + n + (d (47 + n) * 256 + d (47 + n + 1))) rest
    rw [show 47 + n + 1 = 45 + n + 3 by omega, show 47 + n = 45 + n + 2 by omega, e2, e3]
    rw [show 45 + n + 2 + (0 * 256 + 14) = 45 + n + 5 + 8 + 3 by omega]
    exact a9

end Model.Lj92
