/- The pipeline stages difference .. merge as a delay line of items. -/
import Verif.Proof.Pixel

set_option autoImplicit false

namespace Model
open Spec

/-- What a pipeline register holds: nothing, or the code bits of a step and its end flag. -/
abbrev Item := Option (List Bool × Bool)

/-! ### Merge tree -/

/-- A level of mergers holds an item: all valid flags agree, and the codes in order
concatenate to the item's bits. -/
def RepLevel (w : Nat) (l : List Merger) : Item → Prop
  | none => ∀ m ∈ l, m.valid = false
  | some (bits, e) => (∀ m ∈ l, m.valid = true ∧ m.endd = e ∧ m.enc < 2 ^ m.ctr ∧ m.ctr ≤ w) ∧
      l.flatMap (fun m => toBits m.ctr m.enc) = bits

theorem lt_bitsFor (n : Nat) : n < 2 ^ bitsFor n := by
  unfold bitsFor
  split
  · rename_i h; subst h; decide
  · exact Nat.lt_log2_self

theorem merger_step_valid {w : Nat} {s a b : Merger} (ha : a.valid = true)
    (ha1 : a.enc < 2 ^ a.ctr) (ha2 : a.ctr ≤ w) (hb1 : b.enc < 2 ^ b.ctr) (hb2 : b.ctr ≤ w) :
    let r := Merger.step w s a b
    r.valid = true ∧ r.endd = a.endd ∧ r.enc < 2 ^ r.ctr ∧ r.ctr ≤ w * 2 ∧
      toBits r.ctr r.enc = toBits a.ctr a.enc ++ toBits b.ctr b.enc := by
  have hlt := shiftLeft_or_lt ha1 hb1
  have hle : 2 ^ (a.ctr + b.ctr) ≤ 2 ^ (w * 2) := Nat.pow_le_pow_right (by omega) (by omega)
  have hbf := lt_bitsFor (w * 2)
  have e1 : ((a.enc <<< b.ctr) ||| b.enc) % 2 ^ (w * 2) = (a.enc <<< b.ctr) ||| b.enc :=
    Nat.mod_eq_of_lt (by omega)
  have e2 : (a.ctr + b.ctr) % 2 ^ bitsFor (w * 2) = a.ctr + b.ctr := Nat.mod_eq_of_lt (by omega)
  simp only [Merger.step, ha, if_true, e1, e2, true_and]
  exact ⟨hlt, by omega, toBits_or_shift hb1⟩

theorem levelStep_length {w : Nat} (ss inp : List Merger) (h : inp.length = 2 * ss.length) :
    (Merge.levelStep w ss inp).length = ss.length := by
  induction ss generalizing inp with
  | nil => unfold Merge.levelStep; simp
  | cons s ss ih =>
    match inp, h with
    | a :: b :: rest, h => simp only [Merge.levelStep, List.length_cons] at *; rw [ih rest (by omega)]

theorem levelStep_rep {w : Nat} (ss inp : List Merger) (it : Item)
    (h : inp.length = 2 * ss.length) (hr : RepLevel w inp it) :
    RepLevel (w * 2) (Merge.levelStep w ss inp) it := by
  induction ss generalizing inp it with
  | nil =>
    have : inp = [] := by simpa using h
    subst this
    unfold Merge.levelStep
    match it, hr with
    | none, _ => simp [RepLevel]
    | some (bits, e), hr => simpa [RepLevel] using hr
  | cons s ss ih =>
    match inp, h with
    | a :: b :: rest, h =>
      have hlen : rest.length = 2 * ss.length := by simp at h; omega
      simp only [Merge.levelStep]
      match it, hr with
      | none, hr =>
        simp only [RepLevel] at hr ⊢
        have := ih rest none hlen (by intro m hm; exact hr m (by simp [hm]))
        intro m hm
        rcases List.mem_cons.1 hm with h1 | h1
        · subst h1; simp [Merger.step, hr a (by simp)]
        · exact this m h1
      | some (bits, e), hr =>
        obtain ⟨h1, h2⟩ := hr
        have ha := h1 a (by simp)
        have hb := h1 b (by simp)
        have hst := merger_step_valid (s := s) ha.1 ha.2.2.1 ha.2.2.2 hb.2.2.1 hb.2.2.2
        have hrest := ih rest (some (rest.flatMap (fun m => toBits m.ctr m.enc), e)) hlen
          ⟨fun m hm => h1 m (by simp [hm]), rfl⟩
        refine ⟨?_, ?_⟩
        · intro m hm
          rcases List.mem_cons.1 hm with hm | hm
          · subst hm; exact ⟨hst.1, by rw [hst.2.1, ha.2.1], hst.2.2.1, hst.2.2.2.1⟩
          · exact hrest.1 m hm
        · rw [List.flatMap_cons, hrest.2, hst.2.2.2.2, ← h2]
          simp [List.flatMap_cons]

/-- Shape of the merge tree with `n` levels. -/
def Shape : Nat → List (List Merger) → Prop
  | 0, [] => True
  | n + 1, l :: ls => l.length = 2 ^ n ∧ Shape n ls
  | _, _ => False

/-- All levels hold the items `its`. -/
def RepLevels : Nat → List (List Merger) → List Item → Prop
  | _, [], [] => True
  | w, l :: ls, i :: is => RepLevel (w * 2) l i ∧ RepLevels (w * 2) ls is
  | _, _, _ => False

theorem shape_step {w n : Nat} {ls : List (List Merger)} {inp : List Merger}
    (h : Shape n ls) (hi : inp.length = 2 ^ n) : Shape n (Merge.levelsStep w ls inp) := by
  induction ls generalizing w n inp with
  | nil => cases n <;> simp_all [Shape, Merge.levelsStep]
  | cons l ls ih =>
    cases n with
    | zero => simp [Shape] at h
    | succ n =>
      simp only [Shape, Merge.levelsStep] at *
      exact ⟨by rw [levelStep_length _ _ (by rw [hi, h.1, Nat.pow_succ]; omega)]; exact h.1,
        ih h.2 h.1⟩

theorem repLevels_step {w n : Nat} {ls : List (List Merger)} {inp : List Merger} {its : List Item}
    {it : Item} (h : Shape n ls) (hi : inp.length = 2 ^ n) (hl : RepLevels w ls its)
    (hr : RepLevel w inp it) :
    RepLevels w (Merge.levelsStep w ls inp) ((it :: its).dropLast) := by
  induction ls generalizing w n inp its it with
  | nil => cases its <;> simp_all [RepLevels, Merge.levelsStep]
  | cons l ls ih =>
    cases n with
    | zero => simp [Shape] at h
    | succ n =>
      cases its with
      | nil => simp [RepLevels] at hl
      | cons i is =>
        simp only [Shape, Merge.levelsStep, RepLevels] at *
        have := ih h.2 h.1 hl.2 hl.1
        rw [List.dropLast_cons_of_ne_nil (by simp)]
        exact ⟨levelStep_rep _ _ _ (by rw [hi, h.1, Nat.pow_succ]; omega) hr, this⟩

theorem outLevel_rep {w n : Nat} {ls : List (List Merger)} {inp : List Merger} {its : List Item}
    {it : Item} (h : Shape n ls) (hi : inp.length = 2 ^ n) (hl : RepLevels w ls its)
    (hr : RepLevel w inp it) :
    ∃ m, Merge.outLevel ls inp = [m] ∧
      RepLevel (w * 2 ^ n) [m] ((it :: its).getLast (by simp)) := by
  induction ls generalizing w n inp its it with
  | nil =>
    cases n with
    | succ n => simp [Shape] at h
    | zero =>
      cases its with
      | cons i is => simp [RepLevels] at hl
      | nil =>
        obtain ⟨m, hm⟩ := List.length_eq_one_iff.1 (by simpa using hi)
        subst hm
        exact ⟨m, rfl, by simpa using hr⟩
  | cons l ls ih =>
    cases n with
    | zero => simp [Shape] at h
    | succ n =>
      cases its with
      | nil => simp [RepLevels] at hl
      | cons i is =>
        simp only [Shape, RepLevels] at *
        obtain ⟨m, hm, hr'⟩ := ih h.2 h.1 hl.2 hl.1
        refine ⟨m, hm, ?_⟩
        rw [List.getLast_cons (by simp), Nat.pow_succ, Nat.mul_comm (2 ^ n) 2, ← Nat.mul_assoc]
        exact hr'

theorem shape_init (n : Nat) : Shape n (Merge.initLevels n) := by
  induction n with
  | zero => trivial
  | succ n ih => exact ⟨by simp, ih⟩

theorem repLevels_init (w n : Nat) :
    RepLevels w (Merge.initLevels n) (List.replicate n none) := by
  induction n generalizing w with
  | zero => trivial
  | succ n ih =>
    refine ⟨?_, ih _⟩
    intro m hm
    rw [List.eq_of_mem_replicate hm]; rfl

/-! ### Pixel stages -/

/-- Pixels with predictions and the code bits they stand for. -/
def PixBits (bd ps : Nat) (T : Table) (pp : List (Nat × Nat)) (bits : List Bool) : Prop :=
  pp.length = ps ∧ (∀ q ∈ pp, q.1 < 2 ^ bd ∧ q.2 < 2 ^ bd) ∧
    pp.flatMap (fun q => pixelBits T q.1 q.2) = bits

def RepPred (bd ps : Nat) (T : Table) (s : Predictor) : Item → Prop
  | none => s.valid = false
  | some (bits, e) => s.valid = true ∧ s.endd = e ∧ ∃ pp, PixBits bd ps T pp bits ∧
      s.pixelsOut = pp.map (·.1) ∧ s.predicsOut = pp.map (·.2)

def RepDiff (bd ps : Nat) (T : Table) (s : Difference) : Item → Prop
  | none => s.valid = false
  | some (bits, e) => s.valid = true ∧ s.endd = e ∧ ∃ pp, PixBits bd ps T pp bits ∧
      s.vals = pp.map (fun q => Difference.diffVal bd q.1 q.2) ∧
      s.mns = pp.map (fun q => Difference.diffMns bd q.1 q.2)

/-- The signed difference of a pixel/prediction pair. -/
def dif (q : Nat × Nat) : Int := (q.1 : Int) - q.2

def RepNorm (bd ps : Nat) (T : Table) (s : Normalize) : Item → Prop
  | none => s.valid = false
  | some (bits, e) => s.valid = true ∧ s.endd = e ∧ ∃ pp, PixBits bd ps T pp bits ∧
      s.vals = pp.map (fun q => extra (dif q)) ∧ s.ssss = pp.map (fun q => cls (dif q))

def RepLate (bd ps : Nat) (mem : List Nat) (T : Table) (s : Encode) : Item → Prop
  | none => s.validLate = false
  | some (bits, e) => s.validLate = true ∧ s.endLate = e ∧ ∃ pp, PixBits bd ps T pp bits ∧
      s.valLate = pp.map (fun q => extra (dif q)) ∧ s.ssssLate = pp.map (fun q => cls (dif q)) ∧
      s.rpData = pp.map (fun q => mem.getD (cls (dif q)) 0)

def RepEnc (bd ps : Nat) (s : Encode) : Item → Prop
  | none => s.valid = false
  | some (bits, e) => s.valid = true ∧ s.endd = e ∧ ∃ cs : List (Nat × Nat), cs.length = ps ∧
      s.encOut = cs.map (·.1) ∧ s.encCtr = cs.map (·.2) ∧
      (∀ q ∈ cs, q.1 < 2 ^ q.2 ∧ q.2 ≤ singleCtr bd) ∧
      cs.flatMap (fun q => toBits q.2 q.1) = bits

theorem repDiff_step {bd ps : Nat} {T : Table} {s : Difference} {p : Predictor} {it : Item}
    (h : RepPred bd ps T p it) :
    RepDiff bd ps T (s.step bd p.pixelsOut p.predicsOut p.valid p.endd) it := by
  match it, h with
  | none, h => exact h
  | some (bits, e), ⟨h1, h2, pp, h3, h4, h5⟩ =>
    refine ⟨by simpa [Difference.step] using h1, by simpa [Difference.step] using h2, pp, h3, ?_, ?_⟩
    · simp only [Difference.step, h1, if_true, h4, h5]
      rw [List.zipWith_map, List.zipWith_self]
    · simp only [Difference.step, h1, if_true, h4, h5]
      rw [List.zipWith_map, List.zipWith_self]

theorem repNorm_step {bd ps : Nat} {T : Table} {s : Normalize} {d : Difference} {it : Item}
    (h0 : 0 < bd) (h16 : bd ≤ 16) (h : RepDiff bd ps T d it) :
    RepNorm bd ps T (s.step bd d.vals d.mns d.valid d.endd) it := by
  match it, h with
  | none, h => exact h
  | some (bits, e), ⟨h1, h2, pp, h3, h4, h5⟩ =>
    refine ⟨by simpa [Normalize.step] using h1, by simpa [Normalize.step] using h2, pp, h3, ?_, ?_⟩
    · simp only [Normalize.step, h1, if_true, h4, h5]
      rw [List.zipWith_map, List.zipWith_self]
      apply List.map_congr_left
      intro q hq
      obtain ⟨hx, hp⟩ := h3.2.1 q hq
      exact normVal_eq h0 hx hp
    · simp only [Normalize.step, h1, if_true, h4, h5]
      rw [List.zipWith_map, List.zipWith_self]
      apply List.map_congr_left
      intro q hq
      obtain ⟨hx, hp⟩ := h3.2.1 q hq
      exact normSsss_eq h0 h16 hx hp

theorem repLate_step {bd ps : Nat} {mem : List Nat} {T : Table} {s : Encode} {n : Normalize} {it : Item}
    (h : RepNorm bd ps T n it) :
    RepLate bd ps mem T (s.step bd mem n.vals n.ssss n.valid n.endd) it := by
  match it, h with
  | none, h => exact h
  | some (bits, e), ⟨h1, h2, pp, h3, h4, h5⟩ =>
    refine ⟨by simpa [Encode.step] using h1, by simpa [Encode.step] using h2, pp, h3, ?_, ?_, ?_⟩
    · simpa [Encode.step] using h4
    · simpa [Encode.step] using h5
    · simp [Encode.step, h5]

theorem repEnc_step {bd ps : Nat} {mem : List Nat} {T : Table} {s : Encode} {it : Item}
    {vals ssss : List Nat} {v e : Bool}
    (h0 : 0 < bd) (h16 : bd ≤ 16) (hm : MemRep bd mem T) (h : RepLate bd ps mem T s it) :
    RepEnc bd ps (s.step bd mem vals ssss v e) it := by
  match it, h with
  | none, h => exact h
  | some (bits, e'), ⟨h1, h2, pp, h3, h4, h5, h6⟩ =>
    have henc := fun q (hq : q ∈ pp) => enc_pixel h0 h16 hm (h3.2.1 q hq).1 (h3.2.1 q hq).2
    refine ⟨by simpa [Encode.step] using h1, by simpa [Encode.step] using h2,
      pp.map (fun q => (Encode.encVal bd (cls (dif q)) (extra (dif q)) (mem.getD (cls (dif q)) 0),
        Encode.encLen bd (cls (dif q)) (mem.getD (cls (dif q)) 0))), ?_, ?_, ?_, ?_, ?_⟩
    · simpa using h3.1
    · simp only [Encode.step, h1, if_true, h4, h5, h6, List.map_map]
      rw [List.zip_map, List.zipWith_map_left, List.zipWith_map_right]
      simp [List.zip, List.zipWith_self, List.zipWith_map_left]
    · simp only [Encode.step, h1, if_true, h5, h6, List.map_map]
      rw [List.zipWith_map, List.zipWith_self]
      rfl
    · intro q hq
      obtain ⟨q', hq', rfl⟩ := List.mem_map.1 hq
      exact ⟨(henc q' hq').2.1, (henc q' hq').2.2⟩
    · rw [← h3.2.2, List.flatMap_map]
      simp only [List.flatMap]
      congr 1
      apply List.map_congr_left
      intro q hq
      exact (henc q hq).1

theorem levels_le (ps : Nat) (h : 1 ≤ ps) : ps ≤ 2 ^ levels ps := by
  unfold levels
  split
  · have : ps = 1 := by omega
    subst this; decide
  · have : ps - 1 < 2 ^ (Nat.log2 (ps - 1) + 1) := Nat.lt_log2_self
    omega

theorem baseInputs_rep {bd ps : Nat} {s : Encode} {it : Item} (h : RepEnc bd ps s it) :
    RepLevel (singleCtr bd) (Merge.baseInputs ps s.encOut s.encCtr s.valid s.endd) it := by
  match it, h with
  | none, h =>
    intro m hm
    simp only [Merge.baseInputs, List.mem_append] at hm
    rcases hm with hm | hm
    · have : ∀ (a b : List Nat), m ∈ List.zipWith (fun e c => Merger.mk e c s.valid s.endd) a b →
          m.valid = s.valid := by
        intro a
        induction a with
        | nil => simp
        | cons x a ih =>
          intro b
          cases b with
          | nil => simp
          | cons y b =>
            intro hm
            simp only [List.zipWith_cons_cons, List.mem_cons] at hm
            rcases hm with hm | hm
            · rw [hm]
            · exact ih b hm
      rw [this _ _ hm]; exact h
    · rw [List.eq_of_mem_replicate hm]; exact h
  | some (bits, e), ⟨h1, h2, cs, h3, h4, h5, h6, h7⟩ =>
    have hz : List.zipWith (fun e c => Merger.mk e c s.valid s.endd) s.encOut s.encCtr =
        cs.map (fun q => Merger.mk q.1 q.2 s.valid s.endd) := by
      rw [h4, h5, List.zipWith_map, List.zipWith_self]
    simp only [Merge.baseInputs, hz]
    refine ⟨?_, ?_⟩
    · intro m hm
      rcases List.mem_append.1 hm with hm | hm
      · obtain ⟨q, hq, rfl⟩ := List.mem_map.1 hm
        exact ⟨h1, h2, h6 q hq⟩
      · rw [List.eq_of_mem_replicate hm]
        exact ⟨h1, h2, by simp, by simp⟩
    · rw [List.flatMap_append, List.flatMap_map]
      have : (List.replicate (2 ^ levels ps - ps) (Merger.mk 0 0 s.valid s.endd)).flatMap
          (fun m => toBits m.ctr m.enc) = [] := by
        rw [List.flatMap_eq_nil_iff]
        intro m hm
        rw [List.eq_of_mem_replicate hm]; rfl
      rw [this, List.append_nil, ← h7]

end Model
