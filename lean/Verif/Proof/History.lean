/- Frame tracker and predictors as functions of the history of accepted pixels. -/
import Verif.Proof.Pipe

set_option autoImplicit false

namespace Model
open Spec

/-! ### Modular arithmetic -/

theorem succ_mod {k C : Nat} (hC : 0 < C) : (k + 1) % C = if k % C + 1 = C then 0 else k % C + 1 := by
  have hq := Nat.mod_lt k hC
  rw [← Nat.mod_add_mod]
  split
  · rename_i h; rw [h, Nat.mod_self]
  · rw [Nat.mod_eq_of_lt (by omega)]

theorem mod_ne {t k C : Nat} (h1 : t < k) (h2 : k < t + C) : t % C ≠ k % C := by
  intro h
  have := Nat.sub_mod_eq_zero_of_mod_eq h.symm
  rw [Nat.mod_eq_of_lt (by omega)] at this
  omega

/-! ### Signals -/

/-- Frame sizes the tracker handles: `C` steps of `ps` pixels per row, `H` rows. -/
structure LegalFrame (ps C H : Nat) : Prop where
  ps_pos : 0 < ps
  C2 : 2 ≤ C
  H1 : 1 ≤ H
  size : 2 ≤ H ∨ 3 ≤ C
  W16 : ps * C < 65536
  H16 : H < 65536

/-- The tracker's registers after `k` accepted steps. -/
def SigRep (ps C H k : Nat) (s : Signals) : Prop :=
  match s.fsm with
  | .idle => k = 0 ∧ s.newRow = true ∧ s.endOfFrame = false
  | .loop => ∃ r q, k = C * r + q ∧ 0 < k ∧ q < C ∧ r < H ∧ ¬ (r + 1 = H ∧ q + 1 = C) ∧
      s.widthTemp = ps * (C - q) ∧ s.heightTemp = H - 1 - r ∧ s.endOfFrame = false ∧
      s.newRow = decide (q = 0)
  | .done => s.endOfFrame = true ∧ C * H ≤ k + 1 ∧ (k + 1 = C * H → s.newRow = false)

theorem sub16_eq {a b : Nat} (h : b ≤ a) (ha : a < 65536) : Signals.sub16 a b = a - b := by
  unfold Signals.sub16
  rw [Int.emod_eq_of_lt (by omega) (by omega)]
  omega

theorem sigRep_init {ps C H : Nat} : SigRep ps C H 0 Signals.init := ⟨rfl, rfl, rfl⟩

theorem sigRep_stall {ps C H k : Nat} {s : Signals} (h : SigRep ps C H k s) :
    SigRep ps C H k (s.step ps (ps * C) H false) := by
  unfold Signals.step
  unfold SigRep at h
  split at h <;> rename_i hf <;> simp only [hf]
  · simpa [SigRep, hf] using h
  · simpa [SigRep, hf] using h
  · simp only [SigRep]; rw [hf] at *; exact ⟨trivial, h.2⟩

theorem sigRep_step {ps C H k : Nat} {s : Signals} (hl : LegalFrame ps C H) (h : SigRep ps C H k s) :
    SigRep ps C H (k + 1) (s.step ps (ps * C) H true) := by
  obtain ⟨hps, hC, hH, hsz, hW16, hH16⟩ := hl
  unfold Signals.step
  unfold SigRep at h
  have hge : ps * 1 ≤ ps * C := Nat.mul_le_mul_left _ (by omega)
  split at h <;> rename_i hf <;> simp only [hf]
  · obtain ⟨hk, hnr, he⟩ := h
    subst hk
    simp only [if_true, SigRep]
    refine ⟨0, 1, by simp, by omega, by omega, by omega, by omega, ?_, ?_, he, by simp⟩
    · rw [sub16_eq (by omega) hW16, Nat.mul_sub, Nat.mul_one]
    · rw [sub16_eq (by omega) hH16]; omega
  · obtain ⟨r, q, hk, hk0, hq, hr, hnl, hwt, hht, he, hnr⟩ := h
    have hcq : ps * 1 ≤ ps * (C - q) := Nat.mul_le_mul_left _ (by omega)
    have hcq2 : ps * (C - q) ≤ ps * C := Nat.mul_le_mul_left _ (by omega)
    have w1 : s.widthTemp = ps ↔ C - q = 1 := by
      rw [hwt]
      constructor
      · intro h
        exact Nat.eq_of_mul_eq_mul_left hps (by omega)
      · intro h; rw [h]; omega
    have w2 : s.widthTemp = 2 * ps ↔ C - q = 2 := by
      rw [hwt]
      constructor
      · intro h
        exact Nat.eq_of_mul_eq_mul_left hps (by omega)
      · intro h; rw [h]; omega
    simp only [if_true]
    by_cases hend : s.heightTemp = 0 ∧ s.widthTemp = 2 * ps
    · rw [if_pos hend]
      have hq2 := w2.1 hend.2
      have hw1 : ¬ s.widthTemp = ps := by rw [w1]; omega
      rw [if_neg hw1]
      simp only [SigRep]
      have hrH : r + 1 = H := by omega
      refine ⟨trivial, ?_, by simp⟩
      rw [← hrH, Nat.mul_add]; omega
    · rw [if_neg hend]
      by_cases hw1 : s.widthTemp = ps
      · rw [if_pos hw1]
        have hq1 := w1.1 hw1
        simp only [SigRep, hf]
        refine ⟨r + 1, 0, ?_, by omega, by omega, by omega, by omega, ?_, ?_, he, by simp⟩
        · rw [Nat.mul_add]; omega
        · rw [Nat.mod_eq_of_lt hW16]; simp
        · rw [sub16_eq (by omega) (by omega)]; omega
      · rw [if_neg hw1]
        have hq1 : ¬ C - q = 1 := by rw [← w1]; exact hw1
        simp only [SigRep, hf]
        refine ⟨r, q + 1, by omega, by omega, by omega, by omega, ?_, ?_, hht, he, by simp⟩
        · intro ⟨h1, h2⟩
          apply hend
          exact ⟨by omega, w2.2 (by omega)⟩
        · rw [sub16_eq (by omega) (by omega), hwt, show C - (q + 1) = C - q - 1 by omega, Nat.mul_sub _ (C - q) 1]
          omega
  · obtain ⟨h1, h2, h3⟩ := h
    simp only [SigRep, hf]
    exact ⟨trivial, by omega, by omega⟩

/-- What the tracker shows while a step of the frame is being accepted. -/
theorem sigRep_flags {ps C H k : Nat} {s : Signals} (hl : LegalFrame ps C H) (h : SigRep ps C H k s)
    (hk : k < C * H) :
    s.newRow = decide (k % C = 0) ∧ s.endOfFrame = decide (k + 1 = C * H) := by
  obtain ⟨hps, hC, hH, hsz, hW16, hH16⟩ := hl
  have hCH : C * 1 ≤ C * H := Nat.mul_le_mul_left _ hH
  unfold SigRep at h
  split at h
  · obtain ⟨rfl, h1, h2⟩ := h
    rw [h1, h2]
    refine ⟨by simp, ?_⟩
    have : ¬ (0 + 1 = C * H) := by omega
    simp [this]
  · obtain ⟨r, q, hk', hk0, hq, hr, hnl, hwt, hht, he, hnr⟩ := h
    rw [hnr, he]
    have hm : k % C = q := by rw [hk', Nat.mul_add_mod, Nat.mod_eq_of_lt hq]
    refine ⟨by rw [hm], ?_⟩
    have : ¬ (k + 1 = C * H) := by
      intro heq
      apply hnl
      have hd : k / C = r := by
        rw [hk', Nat.mul_add_div (by omega), Nat.div_eq_of_lt hq]; omega
      have h2 : k + 1 = C * (r + 1) ∨ k + 1 < C * (r + 1) := by rw [Nat.mul_add]; omega
      rcases h2 with h2 | h2
      · have : r + 1 = H := Nat.eq_of_mul_eq_mul_left (by omega) (h2.symm.trans heq)
        refine ⟨this, ?_⟩
        rw [Nat.mul_add] at h2; omega
      · rw [heq] at h2
        have := Nat.lt_of_mul_lt_mul_left h2
        omega
    simp [this]
  · obtain ⟨h1, h2, h3⟩ := h
    have hk1 : k + 1 = C * H := by omega
    rw [h1, h3 hk1]
    refine ⟨?_, by simp [hk1]⟩
    have hs := succ_mod (k := k) (C := C) (by omega)
    rw [hk1, Nat.mul_mod_right] at hs
    have : ¬ (k % C = 0) := by
      intro h0
      rw [h0] at hs
      split at hs <;> omega
    simp [this]

/-! ### Predictors -/

/-- Pixels of step `t`. -/
def chunk (ps : Nat) (hist : List Nat) (t : Nat) : List Nat :=
  (List.range ps).map fun j => hist.getD (ps * t + j) 0

@[simp] theorem chunk_length (ps : Nat) (hist : List Nat) (t : Nat) : (chunk ps hist t).length = ps := by
  simp [chunk]

theorem chunk_append {ps : Nat} {hist px : List Nat} {k t : Nat} (hk : hist.length = ps * k)
    (ht : t < k) : chunk ps (hist ++ px) t = chunk ps hist t := by
  unfold chunk
  apply List.map_congr_left
  intro j hj
  have hj : j < ps := by simpa using hj
  have : ps * (t + 1) ≤ ps * k := Nat.mul_le_mul_left _ ht
  rw [Nat.mul_add] at this
  exact getD_append_lt (by omega)

theorem chunk_self {ps : Nat} {hist px : List Nat} {k : Nat} (hk : hist.length = ps * k)
    (hp : px.length = ps) : chunk ps (hist ++ px) k = px := by
  unfold chunk
  apply List.ext_getElem
  · simp [hp]
  · intro i h1 h2
    simp only [List.getElem_map, List.getElem_range]
    rw [List.getD_eq_getElem?_getD, List.getElem?_append_right (by omega),
      show ps * k + i - hist.length = i by omega, List.getElem?_eq_getElem h2]
    rfl

theorem pred_append4 {bd W : Nat} {l m : List Nat} {i : Nat} (hW : 4 ≤ W) (h : i < l.length + 4) :
    pred bd W (l ++ m) i = pred bd W l i := by
  unfold pred
  split
  · split
    · rfl
    · rw [getD_append_lt (by omega)]
  · have : 4 ≤ i := by
      by_cases hi : i < W
      · rw [Nat.mod_eq_of_lt hi] at *; omega
      · omega
    rw [getD_append_lt (by omega)]

/-- Predictions of the next `ps` pixels after `hist`. -/
def preds (bd ps W : Nat) (hist : List Nat) : List Nat :=
  (List.range ps).map fun j => pred bd W hist (hist.length + j)

theorem encodeFrom_zip {T : Table} {bd W : Nat} (hW : 4 ≤ W) (h0 : List Nat) (px : List Nat) :
    ∀ m : List Nat, m.length + px.length ≤ 4 →
    encodeFrom T bd W (h0 ++ m) px =
      (px.zip ((List.range' m.length px.length).map fun j => pred bd W h0 (h0.length + j))).flatMap
        (fun q => pixelBits T q.1 q.2) := by
  induction px with
  | nil => intro m _; simp [encodeFrom]
  | cons x px ih =>
    intro m hm
    simp only [List.length_cons] at hm
    have e1 : (h0 ++ m) ++ [x] = h0 ++ (m ++ [x]) := by simp
    have e2 : (m ++ [x]).length = m.length + 1 := by simp
    simp only [encodeFrom, List.length_cons, List.range'_succ, List.map_cons, List.zip_cons_cons,
      List.flatMap_cons]
    rw [e1, ih (m ++ [x]) (by rw [e2]; omega), e2, List.length_append, pred_append4 hW (by omega)]

theorem encodeFrom_preds {T : Table} {bd W ps : Nat} (hW : 4 ≤ W) (hist px : List Nat)
    (hp : px.length = ps) (hps : ps ≤ 4) :
    encodeFrom T bd W hist px =
      (px.zip (preds bd ps W hist)).flatMap (fun q => pixelBits T q.1 q.2) := by
  have := encodeFrom_zip (T := T) (bd := bd) hW hist px [] (by simp; omega)
  simpa [preds, List.range_eq_range', hp] using this

theorem preds_top {bd ps C gb k : Nat} {hist : List Nat} (hk : hist.length = ps * k)
    (hgb : ps * gb = 4) (hC : gb ≤ C) (hps : 0 < ps) (hq : k % C < gb) :
    preds bd ps (ps * C) hist =
      if k < C then List.replicate ps (2 ^ (bd - 1)) else chunk ps hist (k - C) := by
  have hgb0 : 0 < gb := by
    rcases Nat.eq_zero_or_pos gb with h | h
    · subst h; simp at hgb
    · exact h
  have key : ∀ j, j < ps → pred bd (ps * C) hist (hist.length + j) =
      if k < C then 2 ^ (bd - 1) else hist.getD (ps * (k - C) + j) 0 := by
    intro j hj
    unfold pred
    have hmod : (hist.length + j) % (ps * C) = ps * (k % C) + j := by
      have hd := Nat.div_add_mod k C
      have hqC : k % C < C := Nat.mod_lt _ (by omega)
      have hlt : ps * (k % C + 1) ≤ ps * C := Nat.mul_le_mul_left _ hqC
      rw [Nat.mul_add] at hlt
      have he : ps * k = ps * C * (k / C) + ps * (k % C) := by
        rw [Nat.mul_assoc, ← Nat.mul_add, hd]
      rw [hk, he, Nat.add_assoc, Nat.mul_add_mod, Nat.mod_eq_of_lt (by omega)]
    have h4 : ps * (k % C) + j < 4 := by
      have : ps * (k % C + 1) ≤ ps * gb := Nat.mul_le_mul_left _ hq
      rw [Nat.mul_add] at this; omega
    rw [hmod, if_pos h4]
    by_cases hkC : k < C
    · have : ps * (k + 1) ≤ ps * C := Nat.mul_le_mul_left _ hkC
      rw [Nat.mul_add] at this
      rw [if_pos (by omega), if_pos hkC]
    · have : ps * C ≤ ps * k := Nat.mul_le_mul_left _ (by omega)
      rw [if_neg (by omega), if_neg hkC, Nat.mul_sub]
      congr 1; omega
  unfold preds
  split
  · rename_i hkC
    rw [List.eq_replicate_iff]
    refine ⟨by simp, ?_⟩
    intro x hx
    obtain ⟨j, hj, rfl⟩ := List.mem_map.1 hx
    rw [key j (by simpa using hj), if_pos hkC]
  · rename_i hkC
    unfold chunk
    apply List.map_congr_left
    intro j hj
    rw [key j (by simpa using hj), if_neg hkC]

theorem preds_left {bd ps C gb k : Nat} {hist : List Nat} (hk : hist.length = ps * k)
    (hgb : ps * gb = 4) (hC : gb ≤ C) (hps : 0 < ps) (hq : gb ≤ k % C) :
    preds bd ps (ps * C) hist = chunk ps hist (k - gb) := by
  have hgb0 : 0 < gb := by
    rcases Nat.eq_zero_or_pos gb with h | h
    · subst h; simp at hgb
    · exact h
  unfold preds chunk
  apply List.map_congr_left
  intro j hj
  have hj : j < ps := by simpa using hj
  unfold pred
  have hqC : k % C < C := Nat.mod_lt _ (by omega)
  have hkq : k % C ≤ k := Nat.mod_le _ _
  have hmod : (hist.length + j) % (ps * C) = ps * (k % C) + j := by
    have hd := Nat.div_add_mod k C
    have hlt : ps * (k % C + 1) ≤ ps * C := Nat.mul_le_mul_left _ hqC
    rw [Nat.mul_add] at hlt
    have he : ps * k = ps * C * (k / C) + ps * (k % C) := by
      rw [Nat.mul_assoc, ← Nat.mul_add, hd]
    rw [hk, he, Nat.add_assoc, Nat.mul_add_mod, Nat.mod_eq_of_lt (by omega)]
  have h4 : ps * gb ≤ ps * (k % C) := Nat.mul_le_mul_left _ hq
  have h5 : ps * gb ≤ ps * k := Nat.mul_le_mul_left _ (by omega)
  rw [hmod, if_neg (by omega), Nat.mul_sub]
  congr 1; omega

/-- Registers of the 4-pixel predictor after the pixels `hist` (`k` steps). -/
structure Px4Rep (bd C k : Nat) (hist : List Nat) (s : Px4) : Prop where
  buffs0 : k = 0 → s.buffs = List.replicate 4 (2 ^ (bd - 1))
  lbuffs0 : k = 0 → s.lbuffs = List.replicate 4 (2 ^ (bd - 1))
  buffs : 0 < k → s.buffs = chunk 4 hist (k - 1)
  lbuffs : ∀ t, t < k → t % C = 0 → k ≤ t + C → s.lbuffs = chunk 4 hist t

/-- Registers of the 1/2-pixel predictor after the pixels `hist` (`k` steps). -/
structure Pix12Rep (bd ps C k : Nat) (hist : List Nat) (s : Pix12) : Prop where
  blen : s.buffs.length = Pix12.gb ps
  llen : s.lbuffs.length = Pix12.gb ps
  bctr : s.buffCtr = k % Pix12.gb ps
  lctr : s.lbuffCtr = if k % C < Pix12.gb ps then k % C else 0
  nrr : s.newRowReg = decide (0 < k % C ∧ k % C < Pix12.gb ps)
  buffs : ∀ t, t < k → k ≤ t + Pix12.gb ps → s.buffs.getD (t % Pix12.gb ps) [] = chunk ps hist t
  lbuffs : ∀ t, t < k → t % C < Pix12.gb ps → k ≤ t + C → s.lbuffs.getD (t % C) [] = chunk ps hist t
  lbuffs0 : ∀ i, k ≤ i → i < Pix12.gb ps → s.lbuffs.getD i [] = List.replicate ps (2 ^ (bd - 1))
  dbg : s.debugCounter = k % 2 ^ 32

/-- Registers of the selected predictor after the pixels `hist` (`k` steps). -/
def PredRep (bd ps C k : Nat) (hist : List Nat) : Predictor → Prop
  | .px4 s => ps = 4 ∧ Px4Rep bd C k hist s
  | .pix12 s => (ps = 1 ∨ ps = 2) ∧ Pix12Rep bd ps C k hist s

theorem predRep_init {bd ps C : Nat} (hps : ps = 1 ∨ ps = 2 ∨ ps = 4) :
    PredRep bd ps C 0 [] (Predictor.init bd ps) := by
  unfold Predictor.init
  split
  · rename_i h
    exact ⟨h, fun _ => rfl, fun _ => rfl, fun h => by omega, fun t ht => by omega⟩
  · refine ⟨by omega, ?_⟩
    constructor
    · simp [Pix12.init]
    · simp [Pix12.init]
    · simp [Pix12.init]
    · show 0 = if 0 % C < Pix12.gb ps then 0 % C else 0; rw [Nat.zero_mod, ite_self]
    · simp [Pix12.init]
    · intro t ht; omega
    · intro t ht; omega
    · intro i _ hi
      simp [Pix12.init, List.getD_eq_getElem?_getD, hi]
    · simp [Pix12.init]

theorem predRep_stall {bd ps C k : Nat} {hist px : List Nat} {p : Predictor} {nr e : Bool}
    (h : PredRep bd ps C k hist p) :
    PredRep bd ps C k hist (p.step ps px nr false e) ∧ (p.step ps px nr false e).valid = false := by
  cases p with
  | px4 s =>
    obtain ⟨h1, h2, h3, h4, h5⟩ := h
    exact ⟨⟨h1, by simpa [Px4.step] using h2, by simpa [Px4.step] using h3,
      by simpa [Px4.step] using h4, by simpa [Px4.step] using h5⟩, rfl⟩
  | pix12 s =>
    obtain ⟨h1, h2⟩ := h
    refine ⟨⟨h1, ?_⟩, rfl⟩
    obtain ⟨a, b, c, d, e, f, g, h, i⟩ := h2
    exact ⟨a, b, c, d, e, f, g, h, i⟩

theorem px4_step {bd C k : Nat} {hist px : List Nat} {s : Px4} {e : Bool} (hC : 1 ≤ C)
    (hk : hist.length = 4 * k) (hp : px.length = 4) (h : Px4Rep bd C k hist s) :
    let s' := s.step px (decide (k % C = 0)) true e
    Px4Rep bd C (k + 1) (hist ++ px) s' ∧ s'.pixelsOut = px ∧
      s'.predicsOut = preds bd 4 (4 * C) hist ∧ s'.valid = true ∧ s'.endd = e := by
  intro s'
  obtain ⟨h1, h2, h3, h4⟩ := h
  have hk1 : (hist ++ px).length = 4 * (k + 1) := by simp [hk, hp]; omega
  refine ⟨⟨by omega, by omega, fun _ => ?_, ?_⟩, rfl, ?_, rfl, rfl⟩
  · simp only [s', Px4.step, if_true, Nat.add_sub_cancel]
    exact (chunk_self hk hp).symm
  · intro t ht ht0 hle
    simp only [s', Px4.step, Bool.true_and, decide_eq_true_eq]
    by_cases htk : t = k
    · subst htk
      rw [if_pos ht0]
      exact (chunk_self hk hp).symm
    · have hne := mod_ne (C := C) (show t < k by omega) (by omega)
      rw [if_neg (by omega), h4 t (by omega) ht0 (by omega)]
      exact (chunk_append hk (by omega)).symm
  · simp only [s', Px4.step, if_true, decide_eq_true_eq]
    by_cases hq : k % C = 0
    · rw [if_pos hq, preds_top (gb := 1) hk (by omega) hC (by omega) (by omega)]
      by_cases hkC : k < C
      · rw [if_pos hkC]
        rw [Nat.mod_eq_of_lt hkC] at hq
        exact h2 hq
      · rw [if_neg hkC]
        apply h4 (k - C) (by omega) _ (by omega)
        rw [← Nat.mod_eq_sub_mod (by omega)]; exact hq
    · rw [if_neg hq, preds_left (gb := 1) hk (by omega) hC (by omega) (by omega)]
      apply h3
      rcases Nat.eq_zero_or_pos k with h0 | h0
      · subst h0; simp at hq
      · exact h0

theorem getD_set {α : Type} {l : List α} {i j : Nat} {x d : α} (hi : i < l.length) :
    (l.set i x).getD j d = if j = i then x else l.getD j d := by
  rw [List.getD_eq_getElem?_getD, List.getElem?_set]
  split
  · rename_i h; subst h; simp
  · rename_i h
    rw [if_neg (by omega), List.getD_eq_getElem?_getD]

theorem pix12_step {bd ps C k : Nat} {hist px : List Nat} {s : Pix12} {e : Bool}
    (hps : ps = 1 ∨ ps = 2) (hC : Pix12.gb ps ≤ C)
    (hk : hist.length = ps * k) (hp : px.length = ps) (h : Pix12Rep bd ps C k hist s) :
    let s' := s.step ps px (decide (k % C = 0)) true e
    Pix12Rep bd ps C (k + 1) (hist ++ px) s' ∧ s'.pixelsOut = px ∧
      s'.predicsOut = preds bd ps (ps * C) hist ∧ s'.valid = true ∧ s'.endd = e := by
  intro s'
  have hgb : ps * Pix12.gb ps = 4 := by rcases hps with h | h <;> subst h <;> rfl
  have hgb2 : 2 ≤ Pix12.gb ps := by rcases hps with h | h <;> subst h <;> decide
  generalize hg : Pix12.gb ps = g at *
  obtain ⟨hbl, hll, hbc, hlc, hnr, hb, hl, hl0, hdbg⟩ := h
  rw [hg] at hbl hll hbc hlc hnr hb hl hl0
  have hqC : k % C < C := Nat.mod_lt _ (by omega)
  have hlatch : (decide (k % C = 0) || s.newRowReg) = decide (k % C < g) := by
    rw [hnr, Bool.eq_iff_iff]
    simp only [Bool.or_eq_true, decide_eq_true_eq]
    omega
  have hsm := succ_mod (k := k) (C := C) (by omega)
  have hbcl : s.buffCtr < s.buffs.length := by rw [hbc, hbl]; exact Nat.mod_lt _ (by omega)
  have hlcl : s.lbuffCtr < s.lbuffs.length := by
    rw [hlc, hll]; split <;> omega
  refine ⟨?_, rfl, ?_, rfl, rfl⟩
  · constructor
    · simp [s', Pix12.step, hbl, hg]
    · simp only [s', Pix12.step, hg]; split <;> simp [hll]
    · simp only [s', Pix12.step, if_true, hg, hbc]
      rw [Nat.mod_add_mod]
    · simp only [s', Pix12.step, hlatch, Bool.true_and, decide_eq_true_eq, hg]
      by_cases hq : k % C < g
      · rw [if_pos hq, hlc, if_pos hq, hsm]
        by_cases hg1 : k % C + 1 = g
        · rw [hg1, Nat.mod_self]
          split <;> split <;> omega
        · have hc1 : ¬ k % C + 1 = C := by omega
          have hc2 : k % C + 1 < g := by omega
          rw [Nat.mod_eq_of_lt hc2, if_neg hc1, if_pos hc2]
      · rw [if_neg hq, hlc, if_neg hq, hsm]
        split <;> split <;> omega
    · simp only [s', Pix12.step, hlatch, Bool.true_and, decide_eq_true_eq, hg]
      rw [hnr, hlc]
      by_cases h0 : k % C = 0
      · rw [if_pos h0, hsm, if_neg (by omega)]
        simp; omega
      · rw [if_neg h0]
        by_cases hq : k % C < g
        · rw [if_pos hq]
          by_cases hg1 : k % C = g - 1
          · simp only [hg1, BEq.rfl, if_true]
            rw [hsm]
            symm
            rw [decide_eq_false_iff_not]
            split <;> omega
          · rw [if_neg (by simpa using hg1), hsm, if_neg (by omega)]
            rw [decide_eq_decide]; omega
        · rw [if_neg hq, if_neg (by simp; omega), hsm]
          rw [decide_eq_decide]
          split <;> omega
    · intro t ht hle
      rw [hg] at hle ⊢
      simp only [s', Pix12.step, if_true]
      rw [getD_set hbcl, hbc]
      by_cases htk : t = k
      · subst htk
        rw [if_pos rfl]
        exact (chunk_self hk hp).symm
      · rw [if_neg (mod_ne (by omega) (by omega)), hb t (by omega) (by omega)]
        exact (chunk_append hk (by omega)).symm
    · intro t ht htg hle
      rw [hg] at htg
      simp only [s', Pix12.step, hlatch, Bool.true_and, decide_eq_true_eq]
      by_cases htk : t = k
      · subst htk
        rw [if_pos htg, getD_set hlcl, hlc, if_pos htg, if_pos rfl]
        exact (chunk_self hk hp).symm
      · have hne := mod_ne (C := C) (show t < k by omega) (by omega)
        have hold := hl t (by omega) htg (by omega)
        by_cases hq : k % C < g
        · rw [if_pos hq, getD_set hlcl, hlc, if_pos hq, if_neg hne, hold]
          exact (chunk_append hk (by omega)).symm
        · rw [if_neg hq, hold]
          exact (chunk_append hk (by omega)).symm
    · intro i hi hig
      rw [hg] at hig
      simp only [s', Pix12.step, hlatch, Bool.true_and, decide_eq_true_eq]
      have hkm : k % C = k := Nat.mod_eq_of_lt (by omega)
      have hkg : k % C < g := by omega
      have hik : ¬ i = k % C := by omega
      rw [if_pos hkg, getD_set hlcl, hlc, if_pos hkg, if_neg hik]
      exact hl0 i (by omega) hig
    · simp only [s', Pix12.step, if_true, hdbg]
      rw [Nat.mod_add_mod]
  · simp only [s', Pix12.step, hlatch, if_true, decide_eq_true_eq]
    by_cases hq : k % C < g
    · rw [if_pos hq, preds_top hk hgb hC (by omega) hq, hlc, if_pos hq]
      by_cases hkC : k < C
      · rw [if_pos hkC, Nat.mod_eq_of_lt hkC]
        rw [Nat.mod_eq_of_lt hkC] at hq
        exact hl0 k (by omega) hq
      · rw [if_neg hkC]
        have hmm : (k - C) % C = k % C := (Nat.mod_eq_sub_mod (by omega)).symm
        rw [← hmm]
        exact hl (k - C) (by omega) (by rw [hmm]; exact hq) (by omega)
    · rw [if_neg hq, preds_left hk hgb hC (by omega) (by omega), hbc]
      have hkq : k % C ≤ k := Nat.mod_le _ _
      have hmm : (k - g) % g = k % g := (Nat.mod_eq_sub_mod (by omega)).symm
      rw [← hmm]
      exact hb (k - g) (by omega) (by omega)

theorem predRep_step {bd ps C k : Nat} {hist px : List Nat} {p : Predictor} {e : Bool}
    (hC : 4 ≤ ps * C) (hk : hist.length = ps * k) (hp : px.length = ps)
    (h : PredRep bd ps C k hist p) :
    let p' := p.step ps px (decide (k % C = 0)) true e
    PredRep bd ps C (k + 1) (hist ++ px) p' ∧ p'.pixelsOut = px ∧
      p'.predicsOut = preds bd ps (ps * C) hist ∧ p'.valid = true ∧ p'.endd = e := by
  cases p with
  | px4 s =>
    obtain ⟨h1, h2⟩ := h
    subst h1
    obtain ⟨a, b⟩ := px4_step (e := e) (by omega) hk hp h2
    exact ⟨⟨rfl, a⟩, b⟩
  | pix12 s =>
    obtain ⟨h1, h2⟩ := h
    have hgC : Pix12.gb ps ≤ C := by
      rcases h1 with h | h <;> subst h <;> simp [Pix12.gb] <;> omega
    obtain ⟨a, b⟩ := pix12_step (e := e) h1 hgC hk hp h2
    exact ⟨⟨h1, a⟩, b⟩

end Model
