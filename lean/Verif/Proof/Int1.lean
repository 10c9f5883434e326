/- The whole encoding pipeline as a delay line of items. -/
import Verif.Proof.History

set_option autoImplicit false

namespace Model
open Spec

/-- Legal configuration: `C` steps per row of width `W`; the memory holds table `T`. -/
structure Int1Ok (c : Int1Cfg) (C : Nat) (T : Table) : Prop where
  ps : c.ps = 1 ∨ c.ps = 2 ∨ c.ps = 4
  bd2 : 2 ≤ c.bd
  bd16 : c.bd ≤ 16
  W : c.W = c.ps * C
  W4 : 4 ≤ c.W
  frame : LegalFrame c.ps C c.H
  mem : MemRep c.bd c.mem T

/-- All per-pixel registers have one entry per pixel. -/
structure Lens (ps : Nat) (s : Int1) : Prop where
  a : s.predictor.pixelsOut.length = ps
  b : s.predictor.predicsOut.length = ps
  c : s.difference.vals.length = ps
  d : s.difference.mns.length = ps
  e : s.normalize.vals.length = ps
  f : s.normalize.ssss.length = ps
  g : s.encode.ssssLate.length = ps
  h : s.encode.valLate.length = ps
  i : s.encode.rpData.length = ps
  j : s.encode.encOut.length = ps
  k : s.encode.encCtr.length = ps

theorem lens_init {c : Int1Cfg} (hps : c.ps = 1 ∨ c.ps = 2 ∨ c.ps = 4) {rp : List Nat} (hrp : rp.length = c.ps) :
    Lens c.ps (Int1.reset c rp) := by
  constructor <;>
    simp [Int1.reset, Difference.init, Normalize.init, Encode.reset, hrp]
  · unfold Predictor.init
    split
    · rename_i h; simp [Predictor.pixelsOut, Px4.init, h]
    · simp [Predictor.pixelsOut, Pix12.init]
  · unfold Predictor.init
    split
    · rename_i h; simp [Predictor.predicsOut, Px4.init, h]
    · simp [Predictor.predicsOut, Pix12.init]

theorem lens_step {c : Int1Cfg} {s : Int1} {px : List Nat} {v : Bool} (h : Lens c.ps s)
    (ha : (s.predictor.step c.ps px s.signals.newRow v s.signals.endOfFrame).pixelsOut.length = c.ps)
    (hb : (s.predictor.step c.ps px s.signals.newRow v s.signals.endOfFrame).predicsOut.length = c.ps) :
    Lens c.ps (s.step c px v) := by
  obtain ⟨a, b, cc, d, e, f, g, hh, i, j, k⟩ := h
  refine ⟨ha, hb, ?_, ?_, ?_, ?_, ?_, ?_, ?_, ?_, ?_⟩
  · simp only [Int1.step, Difference.step]; split <;> simp [a, b, cc]
  · simp only [Int1.step, Difference.step]; split <;> simp [a, b, d]
  · simp only [Int1.step, Normalize.step]; split <;> simp [cc, d, e]
  · simp only [Int1.step, Normalize.step]; split <;> simp [cc, d, f]
  · simpa [Int1.step, Encode.step] using f
  · simpa [Int1.step, Encode.step] using e
  · simpa [Int1.step, Encode.step] using f
  · simp only [Int1.step, Encode.step]; split <;> simp [g, hh, i, j]
  · simp only [Int1.step, Encode.step]; split <;> simp [g, hh, i, k]

/-- The pipeline state after the pixels `hist` (`k` steps), holding the items `its`,
youngest first. -/
structure Int1Rep (c : Int1Cfg) (C : Nat) (T : Table) (hist : List Nat) (k : Nat)
    (its : List Item) (s : Int1) : Prop where
  hlen : hist.length = c.ps * k
  hbound : ∀ x ∈ hist, x < 2 ^ c.bd
  sig : SigRep c.ps C c.H k s.signals
  pred : PredRep c.bd c.ps C k hist s.predictor
  lens : Lens c.ps s
  shape : Shape (levels c.ps) s.merge
  pipe : ∃ ip id iN il ie ms, its = ip :: id :: iN :: il :: ie :: ms ∧
    RepPred c.bd c.ps T s.predictor ip ∧ RepDiff c.bd c.ps T s.difference id ∧
    RepNorm c.bd c.ps T s.normalize iN ∧ RepLate c.bd c.ps c.mem T s.encode il ∧
    RepEnc c.bd c.ps s.encode ie ∧ RepLevels (singleCtr c.bd) s.merge ms

theorem int1Rep_reset {c : Int1Cfg} {C : Nat} {T : Table} (hok : Int1Ok c C T) {rp : List Nat}
    (hrp : rp.length = c.ps) :
    Int1Rep c C T [] 0 (List.replicate (5 + levels c.ps) none) (Int1.reset c rp) := by
  refine ⟨by simp, by simp, sigRep_init, predRep_init hok.ps, lens_init hok.ps hrp, shape_init _, ?_⟩
  refine ⟨none, none, none, none, none, List.replicate (levels c.ps) none, ?_, ?_, rfl, rfl, rfl, rfl,
    repLevels_init _ _⟩
  · rw [Nat.add_comm]; rfl
  · show (Predictor.init c.bd c.ps).valid = false
    unfold Predictor.init; split <;> rfl

theorem int1Rep_init {c : Int1Cfg} {C : Nat} {T : Table} (hok : Int1Ok c C T) :
    Int1Rep c C T [] 0 (List.replicate (5 + levels c.ps) none) (Int1.init c) :=
  int1Rep_reset hok (by simp)

theorem ps_levels {ps : Nat} (h : ps = 1 ∨ ps = 2 ∨ ps = 4) : 2 ^ levels ps = ps := by
  rcases h with h | h | h <;> subst h <;> decide

theorem mergeIn_length {c : Int1Cfg} {s : Int1} (hps : c.ps = 1 ∨ c.ps = 2 ∨ c.ps = 4)
    (h : Lens c.ps s) : (s.mergeIn c).length = 2 ^ levels c.ps := by
  simp [Int1.mergeIn, Merge.baseInputs, h.j, h.k, ps_levels hps]

/-- The stages behind the predictor, common to valid and idle cycles. -/
theorem pipe_step {c : Int1Cfg} {C : Nat} {T : Table} {hist : List Nat} {k : Nat} {its : List Item}
    {s : Int1} (hok : Int1Ok c C T) (h : Int1Rep c C T hist k its s) {px : List Nat} {v : Bool}
    {it : Item}
    (hp : RepPred c.bd c.ps T
      (s.predictor.step c.ps px s.signals.newRow v s.signals.endOfFrame) it) :
    ∃ ip id iN il ie ms, (it :: its).dropLast = ip :: id :: iN :: il :: ie :: ms ∧
    RepPred c.bd c.ps T (s.step c px v).predictor ip ∧ RepDiff c.bd c.ps T (s.step c px v).difference id ∧
    RepNorm c.bd c.ps T (s.step c px v).normalize iN ∧
    RepLate c.bd c.ps c.mem T (s.step c px v).encode il ∧
    RepEnc c.bd c.ps (s.step c px v).encode ie ∧
    RepLevels (singleCtr c.bd) (s.step c px v).merge ms := by
  obtain ⟨ip, id, iN, il, ie, ms, rfl, h1, h2, h3, h4, h5, h6⟩ := h.pipe
  have hbd := hok.bd2
  refine ⟨it, ip, id, iN, il, (ie :: ms).dropLast, by simp [List.dropLast], hp, repDiff_step h1,
    repNorm_step (by omega) hok.bd16 h2, repLate_step h3,
    repEnc_step (by omega) hok.bd16 hok.mem h4, ?_⟩
  exact repLevels_step h.shape (mergeIn_length hok.ps h.lens) h6 (baseInputs_rep h5)

theorem int1Rep_stall {c : Int1Cfg} {C : Nat} {T : Table} {hist : List Nat} {k : Nat} {its : List Item}
    {s : Int1} (hok : Int1Ok c C T) (h : Int1Rep c C T hist k its s) (px : List Nat) :
    Int1Rep c C T hist k ((none :: its).dropLast) (s.step c px false) := by
  have hp := predRep_stall (px := px) (nr := s.signals.newRow) (e := s.signals.endOfFrame) h.pred
  refine ⟨h.hlen, h.hbound, ?_, hp.1, ?_, ?_, ?_⟩
  · have := sigRep_stall h.sig
    simpa [Int1.step, hok.W] using this
  · apply lens_step h.lens
    · rw [← h.lens.a]; cases s.predictor <;> rfl
    · rw [← h.lens.b]; cases s.predictor <;> rfl
  · exact shape_step h.shape (mergeIn_length hok.ps h.lens)
  · exact pipe_step hok h hp.2

theorem pixBits_preds {T : Table} {bd ps W : Nat} {hist px : List Nat} (hW : 4 ≤ W) (hbd : 0 < bd)
    (hps : ps ≤ 4) (hp : px.length = ps) (hx : ∀ x ∈ px, x < 2 ^ bd) (hh : ∀ x ∈ hist, x < 2 ^ bd) :
    PixBits bd ps T (px.zip (preds bd ps W hist)) (encodeFrom T bd W hist px) := by
  have hlen : (preds bd ps W hist).length = ps := by simp [preds]
  refine ⟨by simp [hp, hlen], ?_, (encodeFrom_preds hW hist px hp hps).symm⟩
  intro q hq
  have := List.of_mem_zip hq
  refine ⟨hx _ this.1, ?_⟩
  obtain ⟨j, _, hj⟩ := List.mem_map.1 this.2
  rw [← hj]
  exact pred_lt hbd hh _

theorem int1Rep_accept {c : Int1Cfg} {C : Nat} {T : Table} {hist : List Nat} {k : Nat} {its : List Item}
    {s : Int1} (hok : Int1Ok c C T) (h : Int1Rep c C T hist k its s) {px : List Nat}
    (hp : px.length = c.ps) (hx : ∀ x ∈ px, x < 2 ^ c.bd) (hk : k < C * c.H) :
    Int1Rep c C T (hist ++ px) (k + 1)
      ((some (encodeFrom T c.bd c.W hist px, decide (k + 1 = C * c.H)) :: its).dropLast)
      (s.step c px true) := by
  have hbd := hok.bd2
  have hW := hok.W
  have hW4 := hok.W4
  have hps4 : c.ps ≤ 4 := by have := hok.ps; omega
  obtain ⟨f1, f2⟩ := sigRep_flags hok.frame h.sig hk
  obtain ⟨p1, p2, p3, p4, p5⟩ := predRep_step (px := px) (e := s.signals.endOfFrame)
    (hW ▸ hW4) h.hlen hp h.pred
  rw [← f1] at p1 p2 p3 p4 p5
  have hlenp : (preds c.bd c.ps (c.ps * C) hist).length = c.ps := by simp [preds]
  refine ⟨?_, ?_, ?_, p1, ?_, ?_, ?_⟩
  · rw [List.length_append, h.hlen, hp, Nat.mul_add, Nat.mul_one]
  · intro x hx'
    rcases List.mem_append.1 hx' with h' | h'
    · exact h.hbound x h'
    · exact hx x h'
  · have := sigRep_step hok.frame h.sig
    simpa [Int1.step, hW] using this
  · apply lens_step h.lens
    · rw [p2, hp]
    · rw [p3, hlenp]
  · exact shape_step h.shape (mergeIn_length hok.ps h.lens)
  · apply pipe_step hok h
    have hpix : px = (px.zip (preds c.bd c.ps (c.ps * C) hist)).map (·.1) := by
      rw [List.map_fst_zip (by omega)]
    have hpre : preds c.bd c.ps (c.ps * C) hist
        = (px.zip (preds c.bd c.ps (c.ps * C) hist)).map (·.2) := by
      rw [List.map_snd_zip (by omega)]
    refine ⟨p4, by rw [p5, f2], px.zip (preds c.bd c.ps (c.ps * C) hist), ?_, ?_, ?_⟩
    · rw [hW]; exact pixBits_preds (hW ▸ hW4) (by omega) hps4 hp hx h.hbound
    · rw [p2]; exact hpix
    · rw [p3]; exact hpre

/-- What the pipeline's output wires show. -/
def OutRep (w : Nat) (m : Merger) : Item → Prop
  | none => m.valid = false
  | some (bits, e) => m.valid = true ∧ m.endd = e ∧ m.enc < 2 ^ m.ctr ∧ m.ctr ≤ w ∧
      toBits m.ctr m.enc = bits

theorem int1_out {c : Int1Cfg} {C : Nat} {T : Table} {hist : List Nat} {k : Nat} {its : List Item}
    {s : Int1} (hok : Int1Ok c C T) (h : Int1Rep c C T hist k its s) (hne : its ≠ []) :
    OutRep (singleCtr c.bd * c.ps) (s.out c) (its.getLast hne) := by
  obtain ⟨ip, id, iN, il, ie, ms, rfl, h1, h2, h3, h4, h5, h6⟩ := h.pipe
  obtain ⟨m, hm, hr⟩ := outLevel_rep h.shape (mergeIn_length hok.ps h.lens) h6 (baseInputs_rep h5)
  have hout : s.out c = m := by
    unfold Int1.out
    rw [show Merge.outLevel s.merge (s.mergeIn c) = [m] from hm]; rfl
  rw [hout]
  have hl : (ip :: id :: iN :: il :: ie :: ms).getLast hne = (ie :: ms).getLast (by simp) := by
    simp [List.getLast_cons]
  rw [hl]
  rw [ps_levels hok.ps] at hr
  cases hlast : (ie :: ms).getLast (by simp) with
  | none => rw [hlast] at hr; exact hr m (by simp)
  | some be =>
    obtain ⟨bits, e⟩ := be
    rw [hlast] at hr
    obtain ⟨a, b⟩ := hr
    have := a m (by simp)
    exact ⟨this.1, this.2.1, this.2.2.1, this.2.2.2, by simpa using b⟩

end Model
