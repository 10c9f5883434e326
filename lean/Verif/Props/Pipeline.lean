/-
Property theorems C05-C10: merge, predictors, frame tracker, encoding pipeline.
-/
import Verif.Proof.Run
import Verif.Spec.Frame

set_option autoImplicit false

namespace Props
open Spec Model

/-- A legal configuration in terms of steps per row. -/
theorem legal_int1Ok {c : Int1Cfg} {T : Table} (h : Legal c.bd c.ps c.W c.H)
    (hm : MemRep c.bd c.mem T) : Int1Ok c (c.W / c.ps) T := by
  obtain ⟨hps, h2, h16, hd, hW4, hW2, hW16, hH1, hH16, hsz⟩ := h
  have hW : c.W = c.ps * (c.W / c.ps) := (Nat.mul_div_cancel' hd).symm
  have hpos : 0 < c.ps := by omega
  refine ⟨hps, h2, h16, hW, hW4, ⟨hpos, ?_, hH1, ?_, by omega, hH16⟩, hm⟩
  · rw [Nat.le_div_iff_mul_le hpos]; omega
  · rcases hsz with h | h
    · exact Or.inl h
    · exact Or.inr (by rw [Nat.le_div_iff_mul_le hpos]; omega)

/-! ### C05 merge -/

/-- One cycle of input of the merge stage. -/
structure MergeIn where
  encs : List Nat
  ctrs : List Nat
  valid : Bool
  endd : Bool

/-- The merge stage (`pixels_per_cycle = ps`, single code width `w`) after the given cycles. -/
def runMerge (ps w : Nat) (ins : List MergeIn) : List (List Merger) :=
  ins.foldl (fun s i => Merge.levelsStep w s (Merge.baseInputs ps i.encs i.ctrs i.valid i.endd))
    (Merge.initLevels (levels ps))

theorem baseInputs_rep' {ps w : Nat} {i : MergeIn} (he : i.encs.length = i.ctrs.length)
    (hb : ∀ q ∈ i.encs.zip i.ctrs, q.1 < 2 ^ q.2 ∧ q.2 ≤ w) :
    RepLevel w (Merge.baseInputs ps i.encs i.ctrs i.valid i.endd)
      (if i.valid then some ((i.encs.zip i.ctrs).flatMap (fun q => toBits q.2 q.1), i.endd) else none) := by
  have hz : List.zipWith (fun e c => Merger.mk e c i.valid i.endd) i.encs i.ctrs =
      (i.encs.zip i.ctrs).map (fun q => Merger.mk q.1 q.2 i.valid i.endd) := by
    simp [List.zip, List.map_zipWith]
  have hrep : (List.replicate (2 ^ levels ps - ps) (Merger.mk 0 0 i.valid i.endd)).flatMap
      (fun m => toBits m.ctr m.enc) = [] := by
    rw [List.flatMap_eq_nil_iff]
    intro m hm
    rw [List.eq_of_mem_replicate hm]; rfl
  unfold Merge.baseInputs
  rw [hz]
  cases hv : i.valid with
  | false =>
    intro m hm
    rcases List.mem_append.1 hm with hm | hm
    · obtain ⟨q, _, rfl⟩ := List.mem_map.1 hm; rfl
    · rw [List.eq_of_mem_replicate hm]
  | true =>
    rw [hv] at hrep
    refine ⟨?_, ?_⟩
    · intro m hm
      rcases List.mem_append.1 hm with hm | hm
      · obtain ⟨q, hq, rfl⟩ := List.mem_map.1 hm
        exact ⟨rfl, rfl, hb q hq⟩
      · rw [List.eq_of_mem_replicate hm]
        exact ⟨rfl, rfl, by simp, by simp⟩
    · rw [List.flatMap_append, List.flatMap_map, hrep, List.append_nil]

theorem runMerge_rep {ps w : Nat} (hps : 1 ≤ ps) (ins : List MergeIn)
    (hwf : ∀ i ∈ ins, i.encs.length = ps ∧ i.ctrs.length = ps ∧
      ∀ q ∈ i.encs.zip i.ctrs, q.1 < 2 ^ q.2 ∧ q.2 ≤ w) :
    Shape (levels ps) (runMerge ps w ins) ∧ RepLevels w (runMerge ps w ins)
      (window (levels ps) (ins.map fun i => if i.valid then
        some ((i.encs.zip i.ctrs).flatMap (fun q => toBits q.2 q.1), i.endd) else none)) := by
  induction ins using snoc_induction with
  | h0 =>
    refine ⟨shape_init _, ?_⟩
    have := repLevels_init w (levels ps)
    simpa [window_nil, runMerge] using this
  | h1 ins i ih =>
    obtain ⟨h1, h2⟩ := ih (fun j hj => hwf j (by simp [hj]))
    obtain ⟨hl1, hl2, hb⟩ := hwf i (by simp)
    have hrun : runMerge ps w (ins ++ [i]) = Merge.levelsStep w (runMerge ps w ins)
        (Merge.baseInputs ps i.encs i.ctrs i.valid i.endd) := by simp [runMerge]
    have hlen : (Merge.baseInputs ps i.encs i.ctrs i.valid i.endd).length = 2 ^ levels ps := by
      have := levels_le ps hps
      simp [Merge.baseInputs, hl1, hl2]; omega
    rw [hrun, List.map_append, List.map_singleton, window_snoc]
    exact ⟨shape_step h1 hlen, repLevels_step h1 hlen h2 (baseInputs_rep' (by omega) hb)⟩

/-- C05.  `levels ps = ceil(log2 ps)` cycles after a cycle, the merge stage's output shows that
cycle: valid flag, and for a valid cycle the end flag, the concatenated code bits of the pixels
in order, and the total length.  Any number of pixels per step >= 2, any schedule. -/
theorem C05_merge_concat (ps w : Nat) (hps : 2 ≤ ps) (ins : List MergeIn)
    (hwf : ∀ i ∈ ins, i.encs.length = ps ∧ i.ctrs.length = ps ∧
      ∀ q ∈ i.encs.zip i.ctrs, q.1 < 2 ^ q.2 ∧ q.2 ≤ w)
    (n : Nat) (hn : n + levels ps = ins.length) (i : MergeIn) (hi : ins[n]? = some i) :
    ∃ m, Merge.outLevel (runMerge ps w ins) [] = [m] ∧ m.valid = i.valid ∧
      (i.valid = true → m.endd = i.endd ∧
        toBits m.ctr m.enc = (i.encs.zip i.ctrs).flatMap (fun q => toBits q.2 q.1) ∧
        m.ctr = ((i.encs.zip i.ctrs).map (·.2)).sum) := by
  obtain ⟨h1, h2⟩ := runMerge_rep (w := w) (by omega : 1 ≤ ps) ins hwf
  have hlv : 0 < levels ps := by unfold levels; rw [if_neg (by omega)]; omega
  -- a dummy base input, the output level does not look at it
  obtain ⟨m, hm, hr⟩ := outLevel_rep (inp := List.replicate (2 ^ levels ps) Merger.init) (it := none)
    h1 (by simp) h2 (by intro m hm; rw [List.eq_of_mem_replicate hm]; rfl)
  have hne : window (levels ps) (ins.map fun i => if i.valid then
        some ((i.encs.zip i.ctrs).flatMap (fun q => toBits q.2 q.1), i.endd) else none) ≠ [] := by
    intro h
    have := congrArg List.length h
    simp at this; omega
  rw [List.getLast_cons hne, window_last _ _ hlv, List.length_map, if_pos (by omega),
    show ins.length - levels ps = n by omega, List.getD_eq_getElem?_getD, List.getElem?_map, hi] at hr
  refine ⟨m, ?_, ?_⟩
  · rw [← hm]
    cases hs : runMerge ps w ins with
    | nil => rw [hs] at h1; cases hl : levels ps <;> simp [hl, Shape] at h1 hlv
    | cons a b => rfl
  · cases hv : i.valid with
    | false => simp only [hv, Option.map_some, Option.getD_some] at hr
               exact ⟨hr m (by simp), by simp⟩
    | true =>
      simp only [hv, Option.map_some, Option.getD_some, if_true] at hr
      obtain ⟨ha, hb⟩ := hr
      have hm' := ha m (by simp)
      have hbits : toBits m.ctr m.enc = (i.encs.zip i.ctrs).flatMap (fun q => toBits q.2 q.1) := by
        simpa using hb
      refine ⟨hm'.1, fun _ => ⟨hm'.2.1, hbits, ?_⟩⟩
      have := congrArg List.length hbits
      simpa [List.length_flatMap] using this

/-- Latency of the merge stage for the supported configurations. -/
theorem C05_latency : levels 2 = 1 ∧ levels 4 = 2 := by decide

example : ∃ m, Merge.outLevel (runMerge 2 31 [⟨[5, 1], [3, 2], true, false⟩]) [] = [m] ∧
    m.valid = true ∧ toBits m.ctr m.enc = [true, false, true, false, true] := by
  refine ⟨_, rfl, ?_⟩
  decide

/-! ### C06, C07 predictors -/

/-- C06/C07.  Whatever the idle cycles, the predictor output in the cycle after a valid cycle
`n` shows that cycle's pixels and, for each of them, the prediction of T.81 predictor 1 with
four components: mid-range in the first four columns of the first row, the pixel above in
the first four columns of other rows, the pixel four to the left elsewhere (`Spec.pred`). -/
theorem predictor_correct (c : Int1Cfg) (T : Table) (hl : Legal c.bd c.ps c.W c.H)
    (hm : MemRep c.bd c.mem T) (ins : List StepIn) (hwf : WfIns c ins)
    (hlen : (acceptedPixels ins).length ≤ c.W * c.H)
    (n : Nat) (i : StepIn) (hi : ins[n]? = some i) (hv : i.valid = true) :
    let p := (runInt1 c (ins.take (n + 1))).predictor
    p.valid = true ∧ p.pixelsOut = i.pixels ∧
    p.predicsOut = (List.range c.ps).map fun j =>
      pred c.bd c.W (acceptedPixels ins) ((acceptedPixels (ins.take n)).length + j) := by
  have hok := legal_int1Ok hl hm
  have hps := hl.pixels
  have hn : n < ins.length := by
    rcases Nat.lt_or_ge n ins.length with h | h
    · exact h
    · rw [List.getElem?_eq_none h] at hi; cases hi
  have htake : ins.take (n + 1) = ins.take n ++ [i] := by
    rw [List.take_add_one, hi]; rfl
  have hpre := fun l => acceptedPixels_length (c := c) l
  have hWH : c.W * c.H = c.ps * (c.W / c.ps * c.H) := by
    have hW := hok.W
    rw [← Nat.mul_assoc, ← hW]
  have hpos : 0 < c.ps := by omega
  have hsub : WfIns c (ins.take n) := fun j hj => hwf j (List.mem_of_mem_take hj)
  have hmono : acceptedSteps (ins.take (n + 1)) ≤ acceptedSteps ins := by
    unfold acceptedSteps
    exact (List.take_sublist (n + 1) ins).countP_le
  have hle : acceptedSteps ins ≤ c.W / c.ps * c.H := by
    refine Nat.le_of_mul_le_mul_left (c := c.ps) ?_ hpos
    rw [← hpre ins hwf, ← hWH]; exact hlen
  have hst : acceptedSteps (ins.take (n + 1)) = acceptedSteps (ins.take n) + 1 := by
    rw [htake, acceptedSteps_snoc, hv]; rfl
  have hrep := runInt1_rep hok (ins.take n) hsub (by omega)
  obtain ⟨hp, hx⟩ := hwf i (List.mem_of_getElem? hi) hv
  have hk : acceptedSteps (ins.take n) < c.W / c.ps * c.H := by omega
  obtain ⟨f1, f2⟩ := sigRep_flags hok.frame hrep.sig hk
  obtain ⟨p1, p2, p3, p4, p5⟩ := predRep_step (px := i.pixels)
    (e := (runInt1 c (ins.take n)).signals.endOfFrame) (hok.W ▸ hok.W4) hrep.hlen hp hrep.pred
  rw [← f1] at p1 p2 p3 p4 p5
  have hrun : (runInt1 c (ins.take (n + 1))).predictor =
      (runInt1 c (ins.take n)).predictor.step c.ps i.pixels (runInt1 c (ins.take n)).signals.newRow true
        (runInt1 c (ins.take n)).signals.endOfFrame := by
    rw [htake]
    simp [runInt1, Int1.step, hv]
  intro p
  have hpe : p = _ := hrun
  rw [hpe]
  refine ⟨p4, p2, ?_⟩
  rw [p3, ← hok.W]
  unfold preds
  apply List.map_congr_left
  intro j hj
  have hj : j < c.ps := by simpa using hj
  have happ : acceptedPixels ins = acceptedPixels (ins.take n) ++ acceptedPixels (ins.drop n) := by
    unfold acceptedPixels
    rw [← List.flatMap_append, List.take_append_drop]
  rw [happ, pred_append4 hok.W4 (by omega)]

/-- C06: the 4-pixel predictor. -/
theorem C06_predictor_px4 (c : Int1Cfg) (T : Table) (h4 : c.ps = 4) (hl : Legal c.bd c.ps c.W c.H)
    (hm : MemRep c.bd c.mem T) (ins : List StepIn) (hwf : WfIns c ins)
    (hlen : (acceptedPixels ins).length ≤ c.W * c.H)
    (n : Nat) (i : StepIn) (hi : ins[n]? = some i) (hv : i.valid = true) :
    ∃ s : Px4, (runInt1 c (ins.take (n + 1))).predictor = .px4 s ∧
      s.valid = true ∧ s.pixelsOut = i.pixels ∧
      s.predicsOut = (List.range 4).map fun j =>
        pred c.bd c.W (acceptedPixels ins) ((acceptedPixels (ins.take n)).length + j) := by
  have := predictor_correct c T hl hm ins hwf hlen n i hi hv
  have hpx : ∀ l : List StepIn, ∃ s, (runInt1 c l).predictor = .px4 s := by
    intro l
    induction l using snoc_induction with
    | h0 => exact ⟨Px4.init c.bd, by simp [runInt1, Int1.init, Int1.reset, Predictor.init, h4]⟩
    | h1 l x ih =>
      obtain ⟨s, hs⟩ := ih
      refine ⟨s.step x.pixels (runInt1 c l).signals.newRow x.valid (runInt1 c l).signals.endOfFrame, ?_⟩
      have : runInt1 c (l ++ [x]) = (runInt1 c l).step c x.pixels x.valid := by simp [runInt1]
      rw [this]
      simp [Int1.step, hs, Predictor.step]
  obtain ⟨s, hs⟩ := hpx (ins.take (n + 1))
  refine ⟨s, hs, ?_⟩
  rw [hs] at this
  simpa [Predictor.valid, Predictor.pixelsOut, Predictor.predicsOut, h4] using this

/-- C07: the component-interleaved predictor for 1 or 2 pixels per step. -/
theorem C07_predictor_pix12 (c : Int1Cfg) (T : Table) (h12 : c.ps = 1 ∨ c.ps = 2)
    (hl : Legal c.bd c.ps c.W c.H)
    (hm : MemRep c.bd c.mem T) (ins : List StepIn) (hwf : WfIns c ins)
    (hlen : (acceptedPixels ins).length ≤ c.W * c.H)
    (n : Nat) (i : StepIn) (hi : ins[n]? = some i) (hv : i.valid = true) :
    ∃ s : Pix12, (runInt1 c (ins.take (n + 1))).predictor = .pix12 s ∧
      s.valid = true ∧ s.pixelsOut = i.pixels ∧
      s.predicsOut = (List.range c.ps).map fun j =>
        pred c.bd c.W (acceptedPixels ins) ((acceptedPixels (ins.take n)).length + j) := by
  have := predictor_correct c T hl hm ins hwf hlen n i hi hv
  have hpx : ∀ l : List StepIn, ∃ s, (runInt1 c l).predictor = .pix12 s := by
    intro l
    induction l using snoc_induction with
    | h0 =>
      refine ⟨Pix12.init c.bd c.ps, ?_⟩
      have : c.ps ≠ 4 := by omega
      simp [runInt1, Int1.init, Int1.reset, Predictor.init, this]
    | h1 l x ih =>
      obtain ⟨s, hs⟩ := ih
      refine ⟨s.step c.ps x.pixels (runInt1 c l).signals.newRow x.valid
        (runInt1 c l).signals.endOfFrame, ?_⟩
      have : runInt1 c (l ++ [x]) = (runInt1 c l).step c x.pixels x.valid := by simp [runInt1]
      rw [this]
      simp [Int1.step, hs, Predictor.step]
  obtain ⟨s, hs⟩ := hpx (ins.take (n + 1))
  refine ⟨s, hs, ?_⟩
  rw [hs] at this
  simpa [Predictor.valid, Predictor.pixelsOut, Predictor.predicsOut] using this

/-- Non-vacuity: an 8x2 frame at 12 bits with 2 pixels per step. -/
def exCfg : Int1Cfg := { bd := 12, ps := 2, W := 8, H := 2, mem := initHuffTable 12 }

def exIns : List StepIn :=
  [⟨[1, 2], true⟩, ⟨[9, 9], false⟩, ⟨[3, 4], true⟩, ⟨[5, 6], true⟩, ⟨[], false⟩, ⟨[7, 4095], true⟩,
   ⟨[11, 12], true⟩, ⟨[13, 14], true⟩, ⟨[15, 16], true⟩, ⟨[17, 18], true⟩]

example : Legal exCfg.bd exCfg.ps exCfg.W exCfg.H ∧ WfIns exCfg exIns ∧
    (acceptedPixels exIns).length ≤ exCfg.W * exCfg.H :=
  ⟨by decide, by unfold WfIns; decide, by decide⟩

/-! ### C08, C09 frame tracker -/

/-- The frame tracker after the given cycles (`true` = a step was accepted). -/
def runSignals (ps W H : Nat) (ins : List Bool) : Signals :=
  ins.foldl (fun s b => s.step ps W H b) Signals.init

/-- C08.  After `k` accepted steps, with any idle cycles in between: `new_row` says whether the
next step starts a row (as long as the frame has a next step), and `end_of_frame` is up exactly
from the moment only the last step is missing. -/
theorem C08_row_and_frame_flags (ps W H : Nat) (hps : 0 < ps) (hd : ps ∣ W) (hW : 2 * ps ≤ W)
    (hW16 : W < 65536) (hH : 1 ≤ H) (hH16 : H < 65536) (hsz : 2 ≤ H ∨ 3 * ps ≤ W)
    (ins : List Bool) :
    let k := ins.count true
    let s := runSignals ps W H ins
    (k * ps < W * H → (s.newRow = true ↔ W ∣ k * ps)) ∧
    (s.endOfFrame = true ↔ W * H ≤ (k + 1) * ps) := by
  obtain ⟨C, rfl⟩ := hd
  have hC2 : 2 ≤ C := by
    have : ps * 2 ≤ ps * C := by omega
    exact Nat.le_of_mul_le_mul_left this hps
  have hl : LegalFrame ps C H := by
    refine ⟨hps, hC2, hH, ?_, hW16, hH16⟩
    rcases hsz with h | h
    · exact Or.inl h
    · exact Or.inr (Nat.le_of_mul_le_mul_left (by omega : ps * 3 ≤ ps * C) hps)
  have hrep : SigRep ps C H (ins.count true) (runSignals ps (ps * C) H ins) := by
    induction ins using snoc_induction with
    | h0 => exact sigRep_init
    | h1 l b ih =>
      have : runSignals ps (ps * C) H (l ++ [b]) = (runSignals ps (ps * C) H l).step ps (ps * C) H b := by
        simp [runSignals]
      rw [this, List.count_append]
      cases b with
      | false => simpa using sigRep_stall ih
      | true => simpa using sigRep_step hl ih
  intro k s
  have hk : ∀ a b : Nat, a * ps < ps * C * b ↔ a < C * b := by
    intro a b
    rw [Nat.mul_assoc, Nat.mul_comm a]
    exact Nat.mul_lt_mul_left hps
  have hk2 : ps * C * H ≤ (k + 1) * ps ↔ C * H ≤ k + 1 := by
    have := hk (k + 1) H; omega
  constructor
  · intro h
    rw [hk] at h
    rw [(sigRep_flags hl hrep h).1, decide_eq_true_eq]
    constructor
    · intro h0
      obtain ⟨r, hr⟩ := Nat.dvd_of_mod_eq_zero h0
      exact ⟨r, by rw [show k = C * r from hr, Nat.mul_comm (C * r), Nat.mul_assoc]⟩
    · intro ⟨r, hr⟩
      have : k = C * r := by
        apply Nat.eq_of_mul_eq_mul_left hps
        rw [Nat.mul_comm, hr, Nat.mul_assoc]
      show k % C = 0
      rw [this, Nat.mul_mod_right]
  · rw [hk2]
    by_cases hlt : k < C * H
    · rw [(sigRep_flags hl hrep hlt).2, decide_eq_true_eq]
      show k + 1 = C * H ↔ _
      omega
    · have hdone : s.endOfFrame = true := by
        have hrep' : SigRep ps C H k s := hrep
        unfold SigRep at hrep'
        split at hrep'
        · exfalso
          have : C * 1 ≤ C * H := Nat.mul_le_mul_left _ hH
          omega
        · exfalso
          obtain ⟨r, q, hk', hk0, hq, hr, hnl, _⟩ := hrep'
          have : C * (r + 1) ≤ C * H := Nat.mul_le_mul_left _ hr
          rw [Nat.mul_add] at this
          omega
        · exact hrep'.1
      rw [hdone]; simp; omega

example : (2 ∣ 4096) ∧ 2 * 2 ≤ 4096 ∧ 4096 < 65536 ∧ 1 ≤ 3072 ∧ 3072 < 65536 := by decide

/-- C09.  A single row of two steps is not recognised as a frame: the end flag, which should
be up when the second step is accepted, stays down until 131073 steps have been accepted,
however they are spaced. -/
theorem C09_two_step_frame_unending (ps : Nat) (hps : 0 < ps) (h16 : 2 * ps < 65536) (ins : List Bool)
    (hk : ins.count true ≤ 131072) :
    (runSignals ps (2 * ps) 1 ins).endOfFrame = false := by
  suffices h : (runSignals ps (2 * ps) 1 ins).endOfFrame = false ∧
      ((ins.count true = 0 ∧ (runSignals ps (2 * ps) 1 ins).fsm = .idle) ∨
       (0 < ins.count true ∧ (runSignals ps (2 * ps) 1 ins).fsm = .loop ∧
        (runSignals ps (2 * ps) 1 ins).widthTemp = (if ins.count true % 2 = 0 then 2 * ps else ps) ∧
        (runSignals ps (2 * ps) 1 ins).heightTemp = (65536 - ins.count true / 2) % 65536)) from h.1
  induction ins using snoc_induction with
  | h0 => exact ⟨rfl, Or.inl ⟨rfl, rfl⟩⟩
  | h1 l b ih =>
    rw [List.count_append] at hk
    have ih := ih (by omega)
    have hr : runSignals ps (2 * ps) 1 (l ++ [b]) = (runSignals ps (2 * ps) 1 l).step ps (2 * ps) 1 b := by
      simp [runSignals]
    rw [hr, List.count_append]
    generalize hs : runSignals ps (2 * ps) 1 l = s at *
    generalize hkk : List.count true l = k at *
    cases b with
    | false =>
      simp only [List.count_cons, List.count_nil]
      simp only [show ((false == true) = true) = False by simp, if_false, Nat.add_zero]
      rcases ih with ⟨he, ⟨h0, hf⟩ | ⟨h0, hf, hw, hh⟩⟩
      · simp only [Signals.step, hf]; exact ⟨he, Or.inl ⟨h0, hf⟩⟩
      · simp only [Signals.step, hf]; exact ⟨he, Or.inr ⟨h0, hf, hw, hh⟩⟩
    | true =>
      simp only [List.count_cons, List.count_nil, BEq.rfl, if_true, Nat.zero_add] at hk ⊢
      rcases ih with ⟨he, ⟨h0, hf⟩ | ⟨h0, hf, hw, hh⟩⟩
      · subst h0
        simp only [Signals.step, hf, if_true]
        refine ⟨he, Or.inr ⟨by omega, trivial, ?_, ?_⟩⟩
        · rw [sub16_eq (by omega) (by omega)]; simp; omega
        · rw [sub16_eq (by omega) (by omega)]
      · simp only [Signals.step, hf, if_true]
        by_cases hev : k % 2 = 0
        · rw [if_pos hev] at hw
          have hne : ¬ s.widthTemp = ps := by omega
          have hhne : ¬ s.heightTemp = 0 := by omega
          rw [if_neg hne, if_neg (by intro h; exact hhne h.1)]
          refine ⟨he, Or.inr ⟨by omega, rfl, ?_, ?_⟩⟩
          · show Signals.sub16 s.widthTemp ps = _
            rw [sub16_eq (by omega) (by omega), hw, if_neg (by omega)]; omega
          · show s.heightTemp = _
            rw [hh]; omega
        · rw [if_neg hev] at hw
          rw [if_pos hw, if_neg (by intro h; omega)]
          refine ⟨he, Or.inr ⟨by omega, rfl, ?_, ?_⟩⟩
          · show (2 * ps) % 65536 = _
            rw [Nat.mod_eq_of_lt h16, if_pos (by omega)]
          · show Signals.sub16 s.heightTemp 1 = _
            rw [hh]
            unfold Signals.sub16
            omega

example : (runSignals 4 8 1 [true, true]).endOfFrame = false := by decide

/-- C09.  Rows of a single step are not recognised: after the first step of a frame with
`W = ps` the flag `new_row`, which should be up again, is down. -/
theorem C09_one_step_rows_unmarked (ps H : Nat) : (runSignals ps ps H [true]).newRow = false := rfl

/-! ### C10 encoding pipeline -/

/-- Latency of the encoding pipeline in cycles. -/
theorem C10_latency_values : 5 + levels 1 = 5 ∧ 5 + levels 2 = 6 ∧ 5 + levels 4 = 7 := by decide

/-- C10.  After any cycles, the pipeline's output word is that of the cycle `5 + levels ps`
earlier: it is valid iff that cycle was, its code bits are what that step adds to the code of
the frame, and its end flag says whether that step completed the frame.  Nothing is valid
before. -/
theorem C10_fixed_latency (c : Int1Cfg) (T : Table) (hl : Legal c.bd c.ps c.W c.H)
    (hm : MemRep c.bd c.mem T) (ins : List StepIn) (hwf : WfIns c ins)
    (hlen : (acceptedPixels ins).length ≤ c.W * c.H) :
    let m := (runInt1 c ins).out c
    (ins.length < 5 + levels c.ps → m.valid = false) ∧
    ∀ n i, n + (5 + levels c.ps) = ins.length → ins[n]? = some i →
      m.valid = i.valid ∧
      (i.valid = true →
        encode T c.bd c.W (acceptedPixels (ins.take (n + 1))) =
          encode T c.bd c.W (acceptedPixels (ins.take n)) ++ toBits m.ctr m.enc ∧
        m.ctr ≤ min (16 + c.bd) 31 * c.ps ∧
        (m.endd = true ↔ (acceptedPixels (ins.take (n + 1))).length = c.W * c.H)) := by
  have hok := legal_int1Ok hl hm
  have hps := hl.pixels
  have hpos : 0 < c.ps := by omega
  have hpre := fun l => acceptedPixels_length (c := c) l
  have hWH : c.W * c.H = c.ps * (c.W / c.ps * c.H) := by
    rw [← Nat.mul_assoc, ← hok.W]
  have hle : acceptedSteps ins ≤ c.W / c.ps * c.H := by
    refine Nat.le_of_mul_le_mul_left (c := c.ps) ?_ hpos
    rw [← hpre ins hwf, ← hWH]; exact hlen
  have hrep := runInt1_rep hok ins hwf hle
  have hne : window (5 + levels c.ps) (itemsOf c (c.W / c.ps) T ins) ≠ [] := by
    intro h
    have := congrArg List.length h
    simp at this
  have hout := int1_out hok hrep hne
  rw [window_last _ _ (by omega)] at hout
  have hil : (itemsOf c (c.W / c.ps) T ins).length = ins.length := by simp [itemsOf]
  rw [hil] at hout
  intro m
  constructor
  · intro hlt
    rw [if_neg (by omega)] at hout
    exact hout
  · intro n i hn hi
    rw [if_pos (by omega), show ins.length - (5 + levels c.ps) = n by omega] at hout
    have hnl : n < ins.length := by omega
    have hit : (itemsOf c (c.W / c.ps) T ins).getD n none =
        if i.valid then some (encodeFrom T c.bd c.W (acceptedPixels (ins.take n)) i.pixels,
          decide (acceptedSteps (ins.take (n + 1)) = c.W / c.ps * c.H)) else none := by
      unfold itemsOf
      rw [List.getD_eq_getElem?_getD, List.getElem?_map, List.getElem?_range hnl]
      simp [hi]
    rw [hit] at hout
    have htake : ins.take (n + 1) = ins.take n ++ [i] := by
      rw [List.take_add_one, hi]; rfl
    cases hv : i.valid with
    | false =>
      rw [hv] at hout
      exact ⟨hout, by simp⟩
    | true =>
      rw [hv] at hout
      obtain ⟨a, b, c1, d, e⟩ := hout
      refine ⟨a, fun _ => ⟨?_, d, ?_⟩⟩
      · rw [htake, acceptedPixels_snoc, hv, if_pos rfl, encode_append hok.W4]
        rw [← e]
      · show ((runInt1 c ins).out c).endd = true ↔ _
        rw [b, decide_eq_true_eq, hpre _ (fun j hj => hwf j (List.mem_of_mem_take hj)), hWH]
        constructor
        · intro h; rw [h]
        · intro h; exact Nat.eq_of_mul_eq_mul_left hpos h

/-- The default table is what the memory holds after power-up. -/
theorem default_table_loaded (bd : Nat) (h : bd ≤ 16) : MemRep bd (initHuffTable bd) defaultTable :=
  initHuffTable_rep h

end Props
