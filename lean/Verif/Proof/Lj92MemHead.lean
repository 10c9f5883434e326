/- Helper lemmas about the recorded memory accesses of the lj92 decoder: the header of a file made of good segments. -/
import Verif.Proof.Lj92MemLegal
import Verif.Spec.Segments

set_option autoImplicit false

namespace Model.Lj92
open Spec Tr

/-- `find` reads up to the byte after the FF it finds. -/
theorem findT_at {P : Acc → Prop} {s : Ljp} (pos : Nat) (hp : s.ix ≤ pos) (h1 : ∀ j, s.ix ≤ j → j < pos → s.data j ≠ 0xFF) (h2 : s.data pos = 0xFF)
    (h3 : pos + 2 < s.datalen) (hP : ∀ k, k < s.datalen → P (.inR k)) :
    Safe P (findT s) (fun r => r = ({ s with ix := pos + 2 }, s.data (pos + 1))) := by
  unfold findT
  apply Safe.bind (Q := fun ix => ix = pos)
  · apply Safe.whileT (I := fun ix => s.ix ≤ ix ∧ ix ≤ pos) (fun ix => pos - ix)
    · intro ix hix
      apply Safe.seq
      · intro a ha
        simp only [List.mem_singleton] at ha
        subst ha; exact hP _ (by omega)
      · apply Safe.ret
        by_cases h : ix = pos
        · subst h
          rw [if_neg (by simp [h2])]
        · rw [if_pos ⟨h1 ix hix.1 (by omega), by omega⟩]
          exact ⟨⟨by omega, by omega⟩, by omega⟩
    · exact ⟨Nat.le_refl _, hp⟩
    · omega
  · intro ix hix
    subst hix
    apply Safe.ite
    · intro h; omega
    · intro _
      apply Safe.seq
      · intro a ha
        simp only [List.mem_singleton] at ha
        subst ha; exact hP _ (by omega)
      · exact Safe.ret rfl

/-- The table loop reads the sixteen counts and as many values as there are codes. -/
theorem fillT_at {P : Acc → Prop} (at' : Nat) {bits vals c : Nat → Nat} (hb : ∀ k, 1 ≤ k → k ≤ 16 → bits k = c (k - 1)) {maxb : Nat} (hm : maxb ≤ 16)
    (lut : Nat → Nat) (hbit : ∀ k, k ≤ 16 → P (.inR (at' + k))) (hval : ∀ k, k < (huffSizes c 16).length → P (.inR (at' + 17 + k)))
    (hlut : ∀ n k, k < n → P (.lutW n k)) (hN : (huffSizes c 16).length < 5000) :
    Safe P (whileT (fillStepT at' bits vals maxb) (2 ^ 18) ⟨0, 0, 0, 0, 1, lut⟩) (fun _ => True) := by
  have hpow : 2 ^ maxb ≤ 2 ^ 16 := Nat.pow_le_pow_right (by decide) hm
  apply Safe.whileT (I := FillInv c vals maxb) (fun f => (2 ^ maxb - f.i) + ((huffSizes c 16).length + 1 - f.hv) + (maxb + 2 - f.bitsused))
  · intro f hf
    have key : ∀ r, fillStep bits vals maxb f = r →
        (match r with
        | none => True
        | some s' => FillInv c vals maxb s' ∧ (2 ^ maxb - s'.i) + ((huffSizes c 16).length + 1 - s'.hv) + (maxb + 2 - s'.bitsused) <
            (2 ^ maxb - f.i) + ((huffSizes c 16).length + 1 - f.hv) + (maxb + 2 - f.bitsused)) := by
      intro r hr
      cases r with
      | none => trivial
      | some s' => exact fill_step hm hb hf hr
    have hv : f.i < 2 ^ maxb → ¬ f.bitsused > maxb → ¬ f.vl ≥ bits f.bitsused → f.hv < (huffSizes c 16).length := by
      intro _ h2 h3
      obtain ⟨g1, g2, _, _, g5, _⟩ := hf
      rw [hb f.bitsused g2 (by omega)] at h3
      have := huffSizes_getD c 16 (f.bitsused - 1) f.vl (by omega) (by omega)
      rw [← g5] at this
      exact (List.getElem?_eq_some_iff.1 this).1
    have hbu : ¬ f.bitsused > maxb → f.bitsused ≤ 16 := by omega
    unfold fillStep at key
    unfold fillStepT
    by_cases c1 : f.i < 2 ^ maxb
    · rw [if_pos c1] at key ⊢
      by_cases c2 : f.bitsused > maxb
      · rw [if_pos c2]; exact Safe.ret trivial
      · rw [if_neg c2] at key ⊢
        apply Safe.seq
        · intro a ha
          simp only [List.mem_singleton] at ha
          subst ha; exact hbit _ (hbu c2)
        by_cases c3 : f.vl ≥ bits f.bitsused
        · rw [if_pos c3] at key ⊢
          exact Safe.ret (key _ rfl)
        · rw [if_neg c3] at key ⊢
          by_cases c4 : f.rv = 2 ^ (maxb - f.bitsused)
          · rw [if_pos c4] at key ⊢
            exact Safe.ret (key _ rfl)
          · rw [if_neg c4] at key ⊢
            apply Safe.seq
            · intro a ha
              simp only [List.mem_cons, List.not_mem_nil, or_false] at ha
              rcases ha with rfl | rfl
              · exact hval _ (hv c1 c2 c3)
              · exact hlut _ _ c1
            · exact Safe.ret (key _ rfl)
    · rw [if_neg c1]; exact Safe.ret trivial
  · refine ⟨by simp, by simp, fun _ => rfl, fun _ => Nat.zero_le _, by simp [huffSizes], by simp [start], fun _ _ => Nat.zero_le _,
      fun _ => rfl, fun _ _ => rfl, fun k s hk => by simp at hk, fun s _ j hj => by simp at hj⟩
  · dsimp only; omega

/-- What the header may touch. -/
structure HeadPlace (dl : Nat) (P : Acc → Prop) : Prop where
  inR : ∀ k, k < dl → P (.inR k)
  inW : ∀ k, k < dl → P (.inW k)
  lutW : ∀ n k, k < n → P (.lutW n k)

theorem segment_at {d : Nat → Nat} {pos m : Nat} {pl rest : List Nat} (hlen : 2 + pl.length < 65536) (h : At d pos (segment (m, pl) ++ rest)) :
    d pos = 0xFF ∧ d (pos + 1) = m ∧ beh d (pos + 2) = 2 + pl.length ∧ At d (pos + 4) pl ∧ At d (pos + 4 + pl.length) rest := by
  have e : segment (m, pl) ++ rest = 0xFF :: m :: ((2 + pl.length) / 256 % 256) :: ((2 + pl.length) % 256) :: (pl ++ rest) := by simp [segment, be16]
  rw [e] at h
  refine ⟨h.head, h.tail.head, ?_, h.tail.tail.tail.tail.left, h.tail.tail.tail.tail.right⟩
  have h1 := h.tail.tail.head
  have h2 := h.tail.tail.tail.head
  unfold beh
  rw [show pos + 2 = pos + 1 + 1 by omega, h1, show pos + 1 + 1 + 1 = pos + 1 + 1 + 1 by omega, h2]
  exact be16_val hlen

theorem segs_run {dl : Nat} {P : Acc → Prop} (hP : HeadPlace dl P) {rest : List Nat} (hrest : 1 ≤ rest.length) :
    ∀ (segs : List (Nat × List Nat)) (fuel : Nat) (d : Nat → Nat) (pos n : Nat) (s : Ljp), (∀ g ∈ segs, GoodSegment g) → segs.length < fuel → s.data = d → s.datalen = dl → s.ix ≤ pos →
      (∀ j, s.ix ≤ j → j < pos → d j ≠ 0xFF) → At d pos (segs.flatMap segment ++ ([0xFF, 0xDA] ++ rest)) →
      pos + (segs.flatMap segment ++ ([0xFF, 0xDA] ++ rest)).length = dl → (n = 2 ^ s.huffbits ∨ ∃ g ∈ segs, g.1 = 0xC4) →
      Safe P (parseImageT fuel (s, n)) (fun r => r.2 = 2 ^ r.1.huffbits ∧ r.1.scanstart + rest.length = dl)
  | [], 0, _, _, _, _, _, h, _, _, _, _, _, _, _ => by simp at h
  | _ :: _, 0, _, _, _, _, _, h, _, _, _, _, _, _, _ => by simp at h
  | [], fuel + 1, d, pos, n, s, _, _, hs1, hs2, hs3, hno, ha, hdl, hn => by
    simp only [List.flatMap_nil, List.nil_append] at ha hdl
    have hn' : n = 2 ^ s.huffbits := by simpa using hn
    simp only [List.length_append, List.length_cons, List.length_nil] at hdl
    unfold parseImageT
    apply Safe.bind (findT_at (s := s) pos hs3 (by rw [hs1]; exact hno) (by rw [hs1]; exact ha.left.head) (by omega) (by rw [hs2]; exact hP.inR))
    intro r hr
    rw [hs1, ha.left.tail.head] at hr
    subst hr
    dsimp only
    rw [if_neg (by decide), if_neg (by decide), if_neg (by decide), if_neg (by decide), if_pos rfl]
    exact Safe.ret ⟨hn', by dsimp only; omega⟩
  | (m, pl) :: segs, fuel + 1, d, pos, n, s, hg, hf, hs1, hs2, hs3, hno, ha, hdl, hn => by
    have ih := segs_run hP hrest segs fuel
    have hgood := hg _ (List.mem_cons_self ..)
    have hg' : ∀ g ∈ segs, GoodSegment g := fun g h => hg g (List.mem_cons_of_mem _ h)
    rw [List.flatMap_cons, List.append_assoc] at ha hdl
    have hl4 : (segment (m, pl)).length = 4 + pl.length := by simp [segment, be16]; omega
    rw [List.length_append, hl4] at hdl
    obtain ⟨a1, a2, a3, a4, a5⟩ := segment_at hgood.len ha
    have hlt : 3 ≤ (segs.flatMap segment ++ ([0xFF, 0xDA] ++ rest)).length := by
      simp only [List.length_append, List.length_cons, List.length_nil]; omega
    have hf' : segs.length < fuel := by simpa using hf
    unfold parseImageT
    apply Safe.bind (findT_at (s := s) pos hs3 (by rw [hs1]; exact hno) (by rw [hs1]; exact a1) (by omega) (by rw [hs2]; exact hP.inR))
    intro r hr
    rw [hs1, a2] at hr
    subst hr
    dsimp only
    have blk : m ≠ 0xC4 → Safe P (do
        let s ← parseBlockT { s with data := d, ix := pos + 2 }
        parseImageT fuel (s, n)) (fun r => r.2 = 2 ^ r.1.huffbits ∧ r.1.scanstart + rest.length = dl) := by
      intro hm
      apply Safe.bind (Q := fun t => t = { s with data := d, ix := pos + 4 + pl.length })
      · unfold parseBlockT
        apply Safe.seq
        · intro a ha
          simp only [List.mem_cons, List.not_mem_nil, or_false] at ha
          rcases ha with rfl | rfl
          · exact hP.inR _ (by omega)
          · exact hP.inR _ (by omega)
        · dsimp only
          rw [a3]
          apply Safe.ite
          · intro _; exact Safe.fail
          · intro _
            apply Safe.ret
            rw [show pos + 2 + (2 + pl.length) = pos + 4 + pl.length by omega]
      · intro t ht
        subst ht
        refine ih d (pos + 4 + pl.length) n _ hg' hf' rfl hs2 (Nat.le_refl _) (fun j h1 h2 => by dsimp only at h1; omega) a5 (by omega) ?_
        rcases hn with hn | ⟨g, h1, h2⟩
        · exact Or.inl hn
        · rw [List.mem_cons] at h1
          rcases h1 with rfl | h1
          · exact absurd h2 hm
          · exact Or.inr ⟨g, h1, h2⟩
    by_cases m1 : m = 0xC4
    · rw [if_pos m1]
      obtain ⟨th, counts, vals, t1, t2, t3, t4, t5⟩ := hgood.table m1
      dsimp only at t1
      subst t1
      simp only [List.length_cons, List.length_append, t2] at hdl a3 a5
      have b1 := a4.tail.left
      have b2 := a4.tail.right
      rw [t2] at b2
      have hdd : ∀ k, k ≠ pos + 4 → put d (pos + 2 + 2) 0 k = d k := fun k hk => by unfold put; rw [if_neg (by omega)]
      have hd4 : put d (pos + 2 + 2) 0 (pos + 4) = 0 := by unfold put; rw [if_pos (by omega)]
      generalize hd' : put d (pos + 2 + 2) 0 = d' at hdd hd4 ⊢
      replace b1 : At d' (pos + 4 + 1) counts := fun k hk => by rw [hdd _ (by omega)]; exact b1 k hk
      replace b2 : At d' (pos + 4 + 1 + 16) vals := fun k hk => by rw [hdd _ (by omega)]; exact b2 k hk
      replace a5 : At d' (pos + 4 + (16 + vals.length + 1)) (segs.flatMap segment ++ ([0xFF, 0xDA] ++ rest)) := fun k hk => by
        rw [hdd _ (by omega)]; exact a5 k hk
      replace a3 : beh d' (pos + 2) = 2 + (16 + vals.length + 1) := by
        unfold beh at a3 ⊢
        rw [hdd _ (by omega), hdd _ (by omega)]; exact a3
      have hbits : ∀ k, 1 ≤ k → k ≤ 16 → d' (pos + 2 + 2 + k) = counts.getD (k - 1) 0 := by
        intro k h1 h2
        rw [← b1 (k - 1) (by omega)]
        congr 1; omega
      have hsz := huffSizes_length counts 16 t2
      have hmb := (maxbits_spec (fun k => d' (pos + 2 + 2 + k)) 16).1
      have hb3 : d' (pos + 2) * 256 + d' (pos + 3) = 2 + (16 + vals.length + 1) := a3
      apply Safe.bind (Q := fun r => r.2 = 2 ^ r.1.huffbits ∧ r.1.data = d' ∧ r.1.datalen = dl ∧ r.1.ix = pos + 2)
      · unfold parseHuffT
        dsimp only
        rw [hd']
        apply Safe.seq
        · intro a ha
          simp only [List.mem_cons, List.not_mem_nil, or_false] at ha
          rcases ha with rfl | rfl | rfl
          · exact hP.inW _ (by omega)
          · exact hP.inR _ (by omega)
          · exact hP.inR _ (by omega)
        apply Safe.ite
        · intro _; exact Safe.fail
        · intro _
          apply Safe.seq
          · intro a ha
            obtain ⟨k, hk, rfl⟩ := maxbitsAccs_inR _ _ _ _ ha
            exact hP.inR _ (by omega)
          apply Safe.bind (fillT_at (P := P) (pos + 2 + 2) (c := (counts.getD · 0)) hbits hmb s.hufflut
            (fun k hk => hP.inR _ (by omega)) (fun k hk => hP.inR _ (by rw [hsz] at hk; omega)) hP.lutW (by rw [hsz]; omega))
          intro f _
          exact Safe.ret ⟨rfl, rfl, hs2, rfl⟩
      · intro r hr
        obtain ⟨s', n'⟩ := r
        obtain ⟨h1, h2, h3, h4⟩ := hr
        dsimp only at h1 h2 h3 h4
        refine ih d' (pos + 4 + (16 + vals.length + 1)) n' s' hg' hf' h2 h3 (by omega) ?_ a5 (by simp only [List.length_append, List.length_cons]; omega) (Or.inl h1)
        intro j j1 j2
        rw [h4] at j1
        by_cases c1 : j < pos + 4
        · obtain rfl | rfl : j = pos + 2 ∨ j = pos + 3 := by omega
          · intro e; rw [e] at hb3; omega
          · intro e; rw [e] at hb3; omega
        · by_cases c2 : j = pos + 4
          · rw [c2, hd4]; decide
          · by_cases c3 : j < pos + 21
            · have := b1 (j - (pos + 5)) (by omega)
              rw [show pos + 4 + 1 + (j - (pos + 5)) = j by omega, List.getD_eq_getElem?_getD, List.getElem?_eq_getElem (by omega)] at this
              rw [this]
              have := t5 _ (List.mem_append_left _ (List.getElem_mem (l := counts) (n := j - (pos + 5)) (by omega)))
              simp only [Option.getD_some]; omega
            · have := b2 (j - (pos + 21)) (by omega)
              rw [show pos + 4 + 1 + 16 + (j - (pos + 21)) = j by omega, List.getD_eq_getElem?_getD, List.getElem?_eq_getElem (by omega)] at this
              rw [this]
              have := t5 _ (List.mem_append_right _ (List.getElem_mem (l := vals) (n := j - (pos + 21)) (by omega)))
              simp only [Option.getD_some]; omega
    rw [if_neg m1]
    by_cases m2 : m = 0xC3
    · rw [if_pos m2]
      have h6 := hgood.frame m2
      dsimp only at h6
      apply Safe.bind (Q := fun t => t.huffbits = s.huffbits ∧ t.data = d ∧ t.datalen = dl ∧ t.ix = pos + 4 + pl.length)
      · unfold parseSof3T
        apply Safe.ite
        · intro _; exact Safe.fail
        · intro _
          apply Safe.seq
          · intro a ha
            simp only [List.mem_cons, List.not_mem_nil, or_false] at ha
            rcases ha with rfl | rfl | rfl | rfl | rfl | rfl | rfl | rfl <;> exact hP.inR _ (by omega)
          · apply Safe.ret
            refine ⟨rfl, rfl, hs2, ?_⟩
            show pos + 2 + beh d (pos + 2) = pos + 4 + pl.length
            have e0 : ∀ a b : Nat, a + 2 + (2 + b) = a + 4 + b := fun a b => by omega
            rw [a3]; exact e0 _ _
      · intro t ht
        obtain ⟨h1, h2, h3, h4⟩ := ht
        refine ih d (pos + 4 + pl.length) n t hg' hf' h2 h3 (by omega) (fun j h1 h2 => by omega) a5 (by omega) ?_
        rcases hn with hn | ⟨g, h1, h2⟩
        · exact Or.inl (by rw [h1]; exact hn)
        · rw [List.mem_cons] at h1
          rcases h1 with rfl | h1
          · exact absurd h2 m1
          · exact Or.inr ⟨g, h1, h2⟩
    rw [if_neg m2]
    have blk' := blk m1
    clear blk
    by_cases m3 : m = 0xFE
    · rw [if_pos m3]; exact blk'
    rw [if_neg m3, if_neg hgood.marker.1, if_neg hgood.marker.2]
    exact blk'

/-- A header of good segments with a Huffman table is read inside the file. -/
theorem openT_segs {d : Nat → Nat} {P : Acc → Prop} {segs : List (Nat × List Nat)} {rest : List Nat} (hg : ∀ g ∈ segs, GoodSegment g)
    (ht : ∃ g ∈ segs, g.1 = 0xC4) (hrest : 1 ≤ rest.length)
    (hP : HeadPlace ([0xFF, 0xD8] ++ (segs.flatMap segment ++ ([0xFF, 0xDA] ++ rest))).length P)
    (ha : At d 0 ([0xFF, 0xD8] ++ (segs.flatMap segment ++ ([0xFF, 0xDA] ++ rest)))) (mem : Nat → Nat) :
    Safe P (openT d ([0xFF, 0xD8] ++ (segs.flatMap segment ++ ([0xFF, 0xDA] ++ rest))).length mem) (fun r => r.2 = 2 ^ r.1.huffbits ∧
      r.1.scanstart + rest.length = ([0xFF, 0xD8] ++ (segs.flatMap segment ++ ([0xFF, 0xDA] ++ rest))).length) := by
  have hsl : segs.length ≤ (segs.flatMap segment).length := by
    clear hg ht hP ha
    induction segs with
    | nil => simp
    | cons g l ih =>
      rw [List.flatMap_cons, List.length_append, List.length_cons]
      have : 1 ≤ (segment g).length := by simp [segment]
      omega
  have hd0 := ha.left.head
  have hd1 := ha.left.tail.head
  have har := ha.right
  rw [List.length_append] at hP ⊢
  simp only [List.length_cons, List.length_nil, Nat.zero_add, Nat.reduceAdd] at hP har ⊢
  have hlt : 3 + segs.length ≤ (segs.flatMap segment ++ ([0xFF, 0xDA] ++ rest)).length := by
    simp only [List.length_append, List.length_cons, List.length_nil]; omega
  unfold openT
  apply Safe.bind (findT_at 0 (Nat.le_refl _) (fun j _ h => by omega) hd0 (by dsimp only; omega) (by dsimp only; exact hP.inR))
  intro r hr
  subst hr
  dsimp only
  rw [show d (0 + 1) = 0xD8 from hd1, if_pos rfl]
  exact segs_run hP hrest segs _ _ 2 0 _ hg (by omega) rfl rfl (Nat.le_refl _) (fun j h1 h2 => by dsimp only at h1; omega) har rfl (Or.inr ht)

/-! ### Any file -/

/-- What opening any file may touch: not more than 64 KiB beyond its end are read, not more than one byte there is written. -/
structure Near (dl : Nat) (P : Acc → Prop) : Prop where
  inR : ∀ k, k < dl + 65536 → P (.inR k)
  inW : ∀ k, k < dl + 2 → P (.inW k)
  lutW : ∀ n k, k < n → P (.lutW n k)

/-- Between two markers. -/
structure Between (dl : Nat) (s : Ljp) : Prop where
  len : s.datalen = dl
  ix : s.ix < dl + 65535
  bytes : ∀ k, s.data k < 256
  huffbits : s.huffbits ≤ 16

theorem beh_lt {d : Nat → Nat} (hd : ∀ k, d k < 256) (k : Nat) : beh d k < 65536 := by
  have h1 := hd k
  have h2 := hd (k + 1)
  unfold beh
  omega

theorem findT_any {dl : Nat} {P : Acc → Prop} (hP : Near dl P) {s : Ljp} (hs : Between dl s) :
    Safe P (findT s) (fun r => ∃ ix, r.1 = { s with ix := ix } ∧ s.ix + 2 ≤ ix ∧ ix < dl) := by
  obtain ⟨h1, h2, _, _⟩ := hs
  unfold findT
  apply Safe.bind (Q := fun ix => s.ix ≤ ix ∧ ix < dl + 65535)
  · apply Safe.whileT (I := fun ix => s.ix ≤ ix ∧ ix < dl + 65535) (fun ix => s.datalen - ix)
    · intro ix hix
      apply Safe.seq
      · intro a ha
        simp only [List.mem_singleton] at ha
        subst ha; exact hP.inR _ (by omega)
      · apply Safe.ret
        by_cases h : s.data ix ≠ 0xFF ∧ ix + 1 < s.datalen
        · rw [if_pos h]; exact ⟨by omega, by omega⟩
        · rw [if_neg h]; exact hix
    · exact ⟨Nat.le_refl _, h2⟩
    · omega
  · intro ix hix
    apply Safe.ite
    · intro _; exact Safe.fail
    · intro h
      apply Safe.seq
      · intro a ha
        simp only [List.mem_singleton] at ha
        subst ha; exact hP.inR _ (by omega)
      · exact Safe.ret ⟨ix + 2, rfl, by omega, by omega⟩

theorem huffSizes_bound {c : Nat → Nat} (hc : ∀ k, c k < 256) : ∀ n, (huffSizes c n).length ≤ 255 * n
  | 0 => by simp [huffSizes]
  | n + 1 => by
    have ih := huffSizes_bound hc n
    have := hc n
    simp only [huffSizes, List.range_succ, List.flatMap_append, List.flatMap_cons, List.flatMap_nil, List.append_nil, List.length_append, List.length_replicate] at ih ⊢
    omega

theorem parseHuffT_any {dl : Nat} {P : Acc → Prop} (hP : Near dl P) {s : Ljp} (hs : Between dl s) (hix : s.ix < dl) :
    Safe P (parseHuffT s) (fun r => Between dl r.1 ∧ r.1.ix = s.ix) := by
  obtain ⟨h1, h2, h3, h4⟩ := hs
  have hb : ∀ k, put s.data (s.ix + 2) 0 k < 256 := by
    intro k
    unfold put
    split
    · omega
    · exact h3 k
  unfold parseHuffT
  dsimp only
  apply Safe.seq
  · intro a ha
    simp only [List.mem_cons, List.not_mem_nil, or_false] at ha
    rcases ha with rfl | rfl | rfl
    · exact hP.inW _ (by omega)
    · exact hP.inR _ (by omega)
    · exact hP.inR _ (by omega)
  generalize put s.data (s.ix + 2) 0 = d at *
  apply Safe.ite
  · intro _; exact Safe.fail
  · intro _
    apply Safe.seq
    · intro a ha
      obtain ⟨k, _, rfl⟩ := maxbitsAccs_inR _ _ _ _ ha
      exact hP.inR _ (by omega)
    have hm := (maxbits_spec (fun k => d (s.ix + 2 + k)) 16).1
    have hl := huffSizes_bound (c := fun k => d (s.ix + 2 + (k + 1))) (fun k => hb _) 16
    apply Safe.bind (fillT_at (P := P) (s.ix + 2) (c := fun k => d (s.ix + 2 + (k + 1)))
      (fun k h1 h2 => by rw [Nat.sub_add_cancel h1]) hm s.hufflut
      (fun k hk => hP.inR _ (by omega)) (fun k hk => hP.inR _ (by omega)) hP.lutW (by omega))
    intro f _
    exact Safe.ret ⟨⟨h1, h2, hb, hm⟩, rfl⟩

theorem parseBlockT_any {dl : Nat} {P : Acc → Prop} (hP : Near dl P) {s : Ljp} (hs : Between dl s) (hix : s.ix < dl) :
    Safe P (parseBlockT s) (fun r => Between dl r ∧ s.ix ≤ r.ix) := by
  obtain ⟨h1, h2, h3, h4⟩ := hs
  unfold parseBlockT
  apply Safe.seq
  · intro a ha
    simp only [List.mem_cons, List.not_mem_nil, or_false] at ha
    rcases ha with rfl | rfl <;> exact hP.inR _ (by omega)
  exact Safe.ite (fun _ => Safe.fail) (fun h => Safe.ret ⟨⟨h1, by dsimp only; omega, h3, h4⟩, by dsimp only; omega⟩)

theorem parseSof3T_any {dl : Nat} {P : Acc → Prop} (hP : Near dl P) {s : Ljp} (hs : Between dl s) :
    Safe P (parseSof3T s) (fun r => Between dl r ∧ s.ix ≤ r.ix) := by
  obtain ⟨h1, h2, h3, h4⟩ := hs
  have hb := beh_lt h3 s.ix
  unfold parseSof3T
  apply Safe.ite
  · intro _; exact Safe.fail
  · intro _
    apply Safe.seq
    · intro a ha
      simp only [List.mem_cons, List.not_mem_nil, or_false] at ha
      rcases ha with rfl | rfl | rfl | rfl | rfl | rfl | rfl | rfl <;> exact hP.inR _ (by omega)
    · exact Safe.ret ⟨⟨h1, by dsimp only; omega, h3, h4⟩, by dsimp only; omega⟩

theorem parseImageT_any {dl : Nat} {P : Acc → Prop} (hP : Near dl P) : ∀ (fuel : Nat) (r : Ljp × Nat),
    Between dl r.1 → 1 ≤ fuel → dl ≤ r.1.ix + 2 * fuel → Safe P (parseImageT fuel r) (fun r => r.1.huffbits ≤ 16)
  | 0, (s, n), hh, h1, hf => by omega
  | fuel + 1, (s, n), hh, h1, hf => by
    have ih := parseImageT_any hP fuel
    dsimp only at hh hf
    unfold parseImageT
    apply Safe.bind (findT_any hP hh)
    intro r hr
    obtain ⟨s', m⟩ := r
    obtain ⟨ix, rfl, h1, h2⟩ := hr
    have hfu : 1 ≤ fuel := by omega
    have hh' : Between dl { s with ix := ix } := ⟨hh.len, by dsimp only; omega, hh.bytes, hh.huffbits⟩
    dsimp only
    have blk : Safe P (do
        let s ← parseBlockT { s with ix := ix }
        parseImageT fuel (s, n)) (fun r => r.1.huffbits ≤ 16) := by
      apply Safe.bind (parseBlockT_any hP hh' h2)
      intro r hr
      exact ih (r, n) hr.1 hfu (by have := hr.2; dsimp only at this ⊢; omega)
    apply Safe.ite
    · intro _
      apply Safe.bind (parseHuffT_any hP hh' h2)
      intro r hr
      exact ih r hr.1 hfu (by rw [hr.2]; dsimp only; omega)
    intro _
    apply Safe.ite
    · intro _
      apply Safe.bind (parseSof3T_any hP hh')
      intro r hr
      exact ih (r, n) hr.1 hfu (by have := hr.2; dsimp only at this ⊢; omega)
    intro _
    apply Safe.ite
    · intro _; exact blk
    intro _
    apply Safe.ite
    · intro _; exact Safe.ret hh.huffbits
    intro _
    apply Safe.ite
    · intro _; exact Safe.ret hh.huffbits
    intro _; exact blk

theorem openT_any {d : Nat → Nat} (hd : ∀ k, d k < 256) {dl : Nat} {P : Acc → Prop} (hP : Near dl P) (mem : Nat → Nat) :
    Safe P (openT d dl mem) (fun r => r.1.huffbits ≤ 16) := by
  unfold openT
  dsimp only
  apply Safe.bind (findT_any hP ⟨rfl, Nat.lt_of_lt_of_le (by decide : 0 < 65535) (Nat.le_add_left ..), hd, Nat.zero_le _⟩)
  intro r hr
  obtain ⟨s', m⟩ := r
  obtain ⟨ix, rfl, h1, h2⟩ := hr
  apply Safe.ite
  · intro _
    exact parseImageT_any hP dl _ ⟨rfl, by dsimp only; omega, hd, by dsimp only; omega⟩ (by omega) (by dsimp only; omega)
  · intro _; exact Safe.fail

end Model.Lj92
