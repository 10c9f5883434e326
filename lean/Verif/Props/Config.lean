/- Property theorems C58, C59: the core with the registers it is configured by. -/
import Verif.Proof.Dyn
import Verif.Props.Lite
import Verif.Props.Forced

set_option autoImplicit false

namespace Props
open Spec Model Proof

/-! ### Memory sizes survive every history -/

/-- The predictor's registers hold groups of `ps` pixels. -/
def PredOk (ps : Nat) : Predictor → Prop
  | .px4 s => ps = 4 ∧ s.buffs.length = 4 ∧ s.lbuffs.length = 4
  | .pix12 s => (ps = 1 ∨ ps = 2) ∧ s.buffs.length = Pix12.gb ps ∧ s.lbuffs.length = Pix12.gb ps ∧ s.buffCtr < Pix12.gb ps ∧
      s.lbuffCtr < Pix12.gb ps ∧ (∀ b ∈ s.buffs, b.length = ps) ∧ (∀ b ∈ s.lbuffs, b.length = ps)

structure SizeOk (c : CoreCfg) (s : Cam) : Prop where
  pred : PredOk c.int1.ps s.core.int2.int1.predictor
  lens : Lens c.int1.ps s.core.int2.int1
  pm : s.core.int2.pfifo.inner.storage.length = c.depth - 1
  cm : s.core.int2.cfifo.inner.storage.length = c.cdepth - 1

theorem gb_pos {ps : Nat} (h : ps = 1 ∨ ps = 2) : 0 < Pix12.gb ps := by
  rcases h with rfl | rfl <;> decide

theorem sizeOk_reset {c : CoreCfg} (hps : c.int1.ps = 1 ∨ c.int1.ps = 2 ∨ c.int1.ps = 4) {m : Kept} (hm : m.Ok c) :
    SizeOk c (Cam.reset c m) := by
  refine ⟨?_, lens_init hps hm.rp, hm.pm, hm.cm⟩
  simp only [Cam.reset, Int3.reset, Int2.reset, Int1.reset, Predictor.init]
  split
  · rename_i h; exact ⟨h, by simp [Px4.init], by simp [Px4.init]⟩
  · rename_i h
    have h' : c.int1.ps = 1 ∨ c.int1.ps = 2 := by omega
    refine ⟨h', by simp [Pix12.init], by simp [Pix12.init], gb_pos h', gb_pos h', ?_, ?_⟩ <;>
    · intro b hb
      rw [(List.mem_replicate.1 hb).2, List.length_replicate]

theorem pred_step {ps : Nat} {p : Predictor} (h : PredOk ps p) (ha : p.pixelsOut.length = ps) (hb : p.predicsOut.length = ps)
    (px : List Nat) (nr v e : Bool) (hv : v = true → px.length = ps) :
    PredOk ps (p.step ps px nr v e) ∧ (p.step ps px nr v e).pixelsOut.length = ps ∧ (p.step ps px nr v e).predicsOut.length = ps := by
  cases p with
  | px4 s =>
    obtain ⟨rfl, h1, h2⟩ := h
    cases v
    · simp [Predictor.step, Px4.step, PredOk, Predictor.pixelsOut, Predictor.predicsOut, h1, h2] at ha hb ⊢
      exact ⟨ha, hb⟩
    · have := hv rfl
      cases nr <;> simp [Predictor.step, Px4.step, PredOk, Predictor.pixelsOut, Predictor.predicsOut, h1, h2, this]
  | pix12 s =>
    obtain ⟨h0, h1, h2, h3, h4, h5, h6⟩ := h
    have hg := gb_pos h0
    have hs : ∀ (l : List (List Nat)) (k : Nat), (∀ b ∈ l, b.length = ps) → px.length = ps → ∀ b ∈ l.set k px, b.length = ps := by
      intro l k hl hpx b hb
      rcases List.mem_or_eq_of_mem_set hb with hb | rfl
      · exact hl b hb
      · exact hpx
    have hget : ∀ (l : List (List Nat)) (k : Nat), (∀ b ∈ l, b.length = ps) → k < l.length → (l.getD k []).length = ps := by
      intro l k hl hk
      rw [List.getD_eq_getElem?_getD, List.getElem?_eq_getElem hk]
      exact hl _ (List.getElem_mem hk)
    cases v
    · refine ⟨⟨h0, h1, h2, h3, h4, h5, h6⟩, ha, hb⟩
    · have hpx := hv rfl
      refine ⟨⟨h0, ?_, ?_, Nat.mod_lt _ hg, ?_, ?_, ?_⟩, hpx, ?_⟩
      · simpa [Pix12.step] using h1
      · simp only [Pix12.step]; split <;> simp [h2]
      · simp only [Pix12.step]; split
        · exact Nat.mod_lt _ hg
        · exact h4
      · exact hs _ _ h5 hpx
      · simp only [Pix12.step]; split
        · exact hs _ _ h6 hpx
        · exact h6
      · simp only [Predictor.step, Predictor.predicsOut, Pix12.step, if_true]
        split
        · exact hget _ _ h6 (by omega)
        · exact hget _ _ h5 (by omega)

theorem fifo_storage (depth : Nat) (s : Fifo) (we : Bool) (d : Nat) (re : Bool) :
    (s.step depth we d re).inner.storage.length = s.inner.storage.length := by
  simp only [Fifo.step, SyncFifo.step]
  split <;> simp

theorem sizeOk_run {c : CoreCfg} {s : Cam} (h : SizeOk c s) (i : DynIn) (hv : i.cam.valid = true → i.cam.pixels.length = c.int1.ps) :
    SizeOk c (s.betaRun (c.withRegs i.W i.H i.mem) i.allowed i.cam) := by
  obtain ⟨h1, h2, h3, h4⟩ := h
  have hp := pred_step h1 h2.a h2.b i.cam.pixels s.core.int2.int1.signals.newRow (i.cam.valid && !s.core.int2.nready)
    s.core.int2.int1.signals.endOfFrame (fun h => hv (by simp at h; exact h.1))
  refine ⟨hp.1, ?_, ?_, ?_⟩
  · exact lens_step (c := (c.withRegs i.W i.H i.mem).int1) h2 hp.2.1 hp.2.2
  · simp only [Cam.betaRun, Int3.step, Int2.step, fifo_storage, h3]
  · simp only [Cam.betaRun, Int3.step, Int2.step, fifo_storage, h4]

theorem sizeOk_kept {c : CoreCfg} {s : Cam} (h : SizeOk c s) : s.core.int2.kept.Ok c := ⟨h.pm, h.cm, h.lens.i⟩

theorem sizeOk_step {c : CoreCfg} (hps : c.int1.ps = 1 ∨ c.int1.ps = 2 ∨ c.int1.ps = 4) {s : Cam} (h : SizeOk c s) (i : DynIn)
    (hv : i.cam.valid = true → i.cam.pixels.length = c.int1.ps) :
    SizeOk c (dynStep c s i) ∧ (s.resetOut = true → CamAfterReset c (dynStep c s i)) := by
  have h1 := sizeOk_run h i hv
  simp only [dynStep, Cam.betaStep]
  cases s.resetOut
  · exact ⟨h1, fun h => by cases h⟩
  · exact ⟨sizeOk_reset hps (sizeOk_kept h1), fun _ => ⟨_, sizeOk_kept h1, rfl⟩⟩

/-- After any history that is empty or ends with a reset cycle the core is as after a reset. -/
theorem dyn_afterReset {c : CoreCfg} (hps : c.int1.ps = 1 ∨ c.int1.ps = 2 ∨ c.int1.ps = 4) (hist : List DynIn)
    (hwf : ∀ i ∈ hist, i.cam.valid = true → i.cam.pixels.length = c.int1.ps)
    (hr : hist = [] ∨ (dynRun c (Cam.init c) hist.dropLast).resetOut = true) :
    CamAfterReset c (dynRun c (Cam.init c) hist) := by
  have key : ∀ (l : List DynIn) (s : Cam), SizeOk c s → (∀ i ∈ l, i.cam.valid = true → i.cam.pixels.length = c.int1.ps) →
      SizeOk c (dynRun c s l) := by
    intro l
    induction l with
    | nil => intro s h _; exact h
    | cons i l ih => intro s h hw; exact ih _ (sizeOk_step hps h i (hw i (by simp))).1 (fun j hj => hw j (by simp [hj]))
  obtain ⟨m, hm, he⟩ := init_afterReset c
  have h0 : SizeOk c (Cam.init c) := by rw [he]; exact sizeOk_reset hps hm
  rcases List.eq_nil_or_concat hist with rfl | ⟨l, i, rfl⟩
  · exact init_afterReset c
  · simp only [List.concat_eq_append] at *
    rcases hr with hr | hr
    · simp at hr
    · rw [List.dropLast_concat] at hr
      rw [dynRun_append]
      have := key l _ h0 (fun j hj => hwf j (by simp [hj]))
      exact (sizeOk_step hps this i (hwf i (by simp))).2 hr

/-! ### Executions of the core with AXI-lite -/

def lcRun (c : CoreCfg) : LiteCam → List LiteCamIn → LiteCam
  | s, [] => s
  | s, i :: r => lcRun c (s.step c i) r

/-- Pixels taken: `valid_in` and not `nready`. -/
def lcAccepted (c : CoreCfg) : LiteCam → List LiteCamIn → List Nat
  | _, [] => []
  | s, i :: r => (if i.cam.valid && !s.cam.nready then i.cam.pixels else []) ++ lcAccepted c (s.step c i) r

/-- Words given: `valid_out` and not `busy_in`, with `end_out`. -/
def lcGiven (c : CoreCfg) : LiteCam → List LiteCamIn → List (Nat × Bool)
  | _, [] => []
  | s, i :: r => (if (s.cam.out i.cam.busy).valid && !i.cam.busy then [((s.cam.out i.cam.busy).data, (s.cam.out i.cam.busy).endd)] else []) ++
      lcGiven c (s.step c i) r

/-- Transfers on the register bus. -/
def lcEvents (c : CoreCfg) : LiteCam → List LiteCamIn → List BusEv
  | _, [] => []
  | s, i :: r => liteEvents s.lite.out i.bus ++ lcEvents c (s.step c i) r

/-- The bus master keeps the rules of `MasterNext` and has no transaction open and no request up in the cycle in which
the core resets itself (see C53 for what happens otherwise). `st` are the registers and the bus phase according to the
transfers so far. -/
def LcMaster (c : CoreCfg) : CoreRegs × BusPhase → LiteCam → List LiteCamIn → Prop
  | _, _, [] => True
  | st, s, i :: r => (s.cam.resetOut = true → st.2 = .idle ∧ i.bus.arvalid = false ∧ i.bus.awvalid = false) ∧
      (∀ j ∈ r.head?, MasterNext s.lite.out i.bus j.bus) ∧
      LcMaster c (regsAfter (coreMap c.int1.bd false) st (liteEvents s.lite.out i.bus)) (s.step c i) r

theorem lcRun_append (c : CoreCfg) (x y : List LiteCamIn) : ∀ s, lcRun c s (x ++ y) = lcRun c (lcRun c s x) y := by
  induction x with
  | nil => intro s; rfl
  | cons i x ih => intro s; exact ih _

theorem lcEvents_append (c : CoreCfg) (x y : List LiteCamIn) :
    ∀ s, lcEvents c s (x ++ y) = lcEvents c s x ++ lcEvents c (lcRun c s x) y := by
  induction x with
  | nil => intro s; rfl
  | cons i x ih => intro s; simp [lcEvents, lcRun, ih]

/-- The cycles of a run with the configuration in force in each. -/
def lcDyn (c : CoreCfg) : LiteCam → List LiteCamIn → List DynIn
  | _, [] => []
  | s, i :: r => ⟨s.lite.width, s.lite.height, (List.range (c.int1.bd + 1)).map s.lite.stepMem.mem, s.lite.allowed, i.cam⟩ ::
      lcDyn c (s.step c i) r

theorem lcDyn_append (c : CoreCfg) (x y : List LiteCamIn) :
    ∀ s, lcDyn c s (x ++ y) = lcDyn c s x ++ lcDyn c (lcRun c s x) y := by
  induction x with
  | nil => intro s; rfl
  | cons i x ih => intro s; simp [lcDyn, lcRun, ih]

theorem lcDyn_cam (c : CoreCfg) (l : List LiteCamIn) : ∀ s, (lcDyn c s l).map DynIn.cam = l.map LiteCamIn.cam := by
  induction l with
  | nil => intro s; rfl
  | cons i l ih => intro s; simp [lcDyn, ih]

theorem lcDyn_length (c : CoreCfg) (l : List LiteCamIn) : ∀ s, (lcDyn c s l).length = l.length := by
  induction l with
  | nil => intro s; rfl
  | cons i l ih => intro s; simp [lcDyn, ih]

theorem lc_run (c : CoreCfg) (l : List LiteCamIn) : ∀ s, (lcRun c s l).cam = dynRun c s.cam (lcDyn c s l) := by
  induction l with
  | nil => intro s; rfl
  | cons i l ih => intro s; exact ih _

theorem lc_given (c : CoreCfg) (l : List LiteCamIn) : ∀ s, lcGiven c s l = dynGiven c s.cam (lcDyn c s l) := by
  induction l with
  | nil => intro s; rfl
  | cons i l ih => intro s; simp only [lcGiven, lcDyn, dynGiven, ih]; rfl

theorem lc_accepted (c : CoreCfg) (l : List LiteCamIn) : ∀ s, lcAccepted c s l = dynAccepted c s.cam (lcDyn c s l) := by
  induction l with
  | nil => intro s; rfl
  | cons i l ih => intro s; simp only [lcAccepted, lcDyn, dynAccepted, ih]; rfl

/-! ### The registers -/

/-- A reset of the slave's FSM with the bus at rest has no effect. -/
theorem lite_rst {bd : Nat} {s : CoreLite} {i : LiteIn} {live : Nat → Nat} {g : CoreRegs}
    (h : CoreLiteInv bd false s i live g .idle) (ha : i.arvalid = false) (hw : i.awvalid = false) (d : Nat → Nat) :
    s.step bd false true i d = s.step bd false false i d := by
  obtain ⟨h1, h2, h3, h4, h5, h6, h7, h8⟩ := h
  cases hf : s.fsm <;> rw [hf] at h8 <;> simp_all [CoreLite.step, CoreLite.stepFsm, CoreLite.stepMem]

theorem lc_inv {c : CoreCfg} (hbd : c.int1.bd ≤ 16) (a : List LiteCamIn) : ∀ {s : LiteCam} {st : CoreRegs × BusPhase} {j : LiteCamIn}
    {r : List LiteCamIn}, (∀ x ∈ (a ++ j :: r).head?, CoreLiteInv c.int1.bd false s.lite x.bus (fun _ => 0) st.1 st.2) →
    LcMaster c st s (a ++ j :: r) →
    CoreLiteInv c.int1.bd false (lcRun c s a).lite j.bus (fun _ => 0) (regsAfter (coreMap c.int1.bd false) st (lcEvents c s a)).1
      (regsAfter (coreMap c.int1.bd false) st (lcEvents c s a)).2 ∧
    LcMaster c (regsAfter (coreMap c.int1.bd false) st (lcEvents c s a)) (lcRun c s a) (j :: r) := by
  induction a with
  | nil =>
    intro s st j r h hm
    refine ⟨?_, ?_⟩
    · have := h j (by simp)
      simpa [lcRun, lcEvents, regsAfter] using this
    · simpa [lcRun, lcEvents, regsAfter] using hm
  | cons i a ih =>
    intro s st j r h hm
    have hi := h i (by simp)
    obtain ⟨h1, h2, h3⟩ := hm
    obtain ⟨g', p', e1, e2⟩ := coreLite_step (i := ⟨i.bus, fun _ => 0⟩) hbd hi
    have e3 := (busEvs_accepted e1).2
    have hst : (st.1, st.2) = st := rfl
    rw [hst] at e3
    have hstep : (s.step c i).lite = s.lite.cyc c.int1.bd false ⟨i.bus, fun _ => 0⟩ := by
      simp only [LiteCam.step, CoreLite.cyc]
      cases hr : s.cam.resetOut
      · rfl
      · obtain ⟨k1, k2, k3⟩ := h1 hr
        rw [k1] at hi
        exact lite_rst hi k2 k3 _
    rw [lcEvents, regsAfter_append]
    refine ih (s := s.step c i) (st := regsAfter (coreMap c.int1.bd false) st (liteEvents s.lite.out i.bus)) ?_ h3
    intro x hx
    have := e2 x.bus (h2 x hx)
    rw [hstep, ← e3]
    exact this

/-- No write in progress. -/
def NoWrite (p : BusPhase) : Prop := p = .idle ∨ ∃ a, p = .read a

theorem noWrite_regs {bd : Nat} {s : CoreLite} {i : LiteIn} {live : Nat → Nat} {g : CoreRegs} {p : BusPhase}
    (h : CoreLiteInv bd false s i live g p) (hp : NoWrite p) :
    s.hw = g.hw ∧ s.allowed = g.allowed ∧ s.stepMem.mem = g.table := by
  obtain ⟨h1, h2, h3, h4, h5, h6, h7, h8⟩ := h
  have hf : s.fsm ≠ .wrResp := by
    intro hf
    rw [hf] at h8
    rcases h8 with ⟨_, _, a, q, _⟩ | ⟨_, q, _⟩ <;> subst q <;> rcases hp with hp | ⟨a, hp⟩ <;> cases hp
  have := h7 hf
  exact ⟨this.hw, this.allowed, this.table⟩

theorem noWrite_events {m : RegMap CoreRegs (Nat → Nat)} {g : CoreRegs} {p : BusPhase} (hp : NoWrite p) (o : LiteOut) (i : LiteIn)
    (hi : i.awvalid = false) :
    (regsAfter m (g, p) (liteEvents o i)).1 = g ∧ NoWrite (regsAfter m (g, p) (liteEvents o i)).2 := by
  have key : ∀ (es : List BusEv) (p : BusPhase), NoWrite p → (∀ e ∈ es, ∀ a, e ≠ .aw a) →
      (regsAfter m (g, p) es).1 = g ∧ NoWrite (regsAfter m (g, p) es).2 := by
    intro es
    induction es with
    | nil => intro p hp _; exact ⟨rfl, hp⟩
    | cons e es ih =>
      intro p hp hes
      have he := hes e (by simp)
      have := fun q hq => ih q hq (fun e he => hes e (by simp [he]))
      rcases hp with rfl | ⟨b, rfl⟩
      · cases e with
        | aw a => exact absurd rfl (he a)
        | ar a => exact this _ (Or.inr ⟨a, rfl⟩)
        | r d c => exact this _ (Or.inl rfl)
        | w d c => exact this _ (Or.inl rfl)
        | b c => exact this _ (Or.inl rfl)
      · cases e with
        | aw a => exact absurd rfl (he a)
        | ar a => exact this _ (Or.inr ⟨b, rfl⟩)
        | r d c => exact this _ (Or.inl rfl)
        | w d c => exact this _ (Or.inr ⟨b, rfl⟩)
        | b c => exact this _ (Or.inr ⟨b, rfl⟩)
  apply key _ _ hp
  intro e he a
  simp only [liteEvents, hi, Bool.false_and, Bool.false_eq_true, if_false, List.append_nil, List.mem_append] at he
  rintro rfl
  rcases he with ((he | he) | he) | he <;> split at he <;> simp at he

/-- The configuration programmed by the registers `g`. -/
def programmed (c : CoreCfg) (g : CoreRegs) : CoreCfg :=
  c.withRegs (g.hw / 2 ^ 16 % 2 ^ 16) (g.hw % 2 ^ 16) ((List.range (c.int1.bd + 1)).map g.table)

/-- While no write is under way the configuration in force stays the programmed one. -/
theorem frame_const {c : CoreCfg} (hbd : c.int1.bd ≤ 16) {g : CoreRegs} : ∀ (l : List LiteCamIn) {s : LiteCam} {p : BusPhase},
    NoWrite p → (∀ x ∈ l.head?, CoreLiteInv c.int1.bd false s.lite x.bus (fun _ => 0) g p) → LcMaster c (g, p) s l →
    (∀ i ∈ l, i.bus.awvalid = false) →
    ∀ d ∈ lcDyn c s l, c.withRegs d.W d.H d.mem = programmed c g ∧ d.allowed = g.allowed := by
  intro l
  induction l with
  | nil => intro s p _ _ _ _ d hd; cases hd
  | cons i l ih =>
    intro s p hp hinv hm hw d hd
    have hi := hinv i (by simp)
    rcases List.mem_cons.1 hd with rfl | hd
    · obtain ⟨e1, e2, e3⟩ := noWrite_regs hi hp
      refine ⟨?_, e2⟩
      simp only [programmed, CoreLite.width, CoreLite.height, e1, e3]
    · obtain ⟨n1, n2⟩ := noWrite_events (m := coreMap c.int1.bd false) (g := g) hp s.lite.out i.bus (hw i (by simp))
      cases l with
      | nil => cases hd
      | cons j l =>
        have hk := lc_inv hbd [i] (j := j) (r := l) (fun x hx => by
          have : x = i := by simpa using hx.symm
          rw [this]; exact hi) hm
        simp only [lcRun, lcEvents, List.append_nil] at hk
        generalize hq : regsAfter (coreMap c.int1.bd false) (g, p) (liteEvents s.lite.out i.bus) = q at *
        obtain ⟨g', p'⟩ := q
        simp only at n1 n2
        subst n1
        exact ih n2 (fun x hx => by
          have : x = j := by simpa using hx.symm
          rw [this]; exact hk.1) hk.2 (fun k hk => hw k (by simp [hk])) d hd

/-! ### C58 the programmed core -/

theorem lc_init (c : CoreCfg) {table : Nat → Nat} (ht : ∀ k, table k < 2 ^ (c.int1.bd + 21)) (i : LiteIn) :
    CoreLiteInv c.int1.bd false (LiteCam.init c table).lite i (fun _ => 0) (resetRegs table) .idle :=
  ⟨⟨Nat.two_pow_pos _, Nat.two_pow_pos _, ht⟩, rfl, rfl, fun _ => rfl, fun _ => ⟨rfl, rfl⟩, fun _ _ => rfl, fun _ => ⟨rfl, rfl, rfl⟩, rfl⟩

theorem quiet_of_accepted {c : CoreCfg} (hps : 0 < c.int1.ps) : ∀ (l : List DynIn) {s : Cam},
    (∀ i ∈ l, i.cam.valid = true → i.cam.pixels.length = c.int1.ps) → dynAccepted c s l = [] → DynQuiet c s l
  | [], _, _, _ => trivial
  | i :: l, s, hw, h => by
    simp only [dynAccepted, List.append_eq_nil_iff] at h
    refine ⟨?_, quiet_of_accepted hps l (fun j hj => hw j (by simp [hj])) h.2⟩
    cases hv : i.cam.valid && !s.nready
    · rfl
    · have h1 := h.1
      rw [hv] at h1
      have h2 := hw i (by simp) (by simp at hv; exact hv.1)
      simp only [if_true] at h1
      rw [h1] at h2
      simp at h2
      omega

theorem dyn_withRegs (c : CoreCfg) (W H : Nat) (mem : List Nat) (l : List DynIn) : ∀ s,
    dynGiven (c.withRegs W H mem) s l = dynGiven c s l ∧ dynAccepted (c.withRegs W H mem) s l = dynAccepted c s l ∧
    (DynQuiet (c.withRegs W H mem) s l ↔ DynQuiet c s l) := by
  induction l with
  | nil => intro s; exact ⟨rfl, rfl, Iff.rfl⟩
  | cons i l ih =>
    intro s
    obtain ⟨h1, h2, h3⟩ := ih (dynStep c s i)
    refine ⟨?_, ?_, ?_⟩
    · simp only [dynGiven]; rw [← h1]; rfl
    · simp only [dynAccepted]; rw [← h2]; rfl
    · simp only [DynQuiet]; rw [← h3]; rfl

theorem dynGiven_prefix_mem (c : CoreCfg) {x y : List DynIn} (h : x <+: y) (s : Cam) {w : Nat × Bool} (hw : w ∈ dynGiven c s x) :
    w ∈ dynGiven c s y := by
  obtain ⟨z, rfl⟩ := h
  rw [dynGiven_append]
  exact List.mem_append_left _ hw

/-- A run of the core with AXI-lite from power-up, cut into a history that is empty or ends with a reset cycle, cycles
in which software may write the registers and no pixel is taken, and cycles in which no write is requested. -/
structure ProgrammedRun (c : CoreCfg) (table : Nat → Nat) (hist quiet frame : List LiteCamIn) : Prop where
  /-- the table memory is `bd+21` bits wide -/
  init : ∀ k, table k < 2 ^ (c.int1.bd + 21)
  master : LcMaster c (resetRegs table, .idle) (LiteCam.init c table) (hist ++ quiet ++ frame)
  reset : hist = [] ∨ (lcRun c (LiteCam.init c table) hist.dropLast).cam.resetOut = true
  ports : CamWf c ((hist ++ quiet ++ frame).map LiteCamIn.cam)
  idle : lcAccepted c (lcRun c (LiteCam.init c table) hist) quiet = []
  written : NoWrite (regsAfter (coreMap c.int1.bd false) (resetRegs table, .idle) (lcEvents c (LiteCam.init c table) (hist ++ quiet))).2
  kept : ∀ i ∈ frame, i.bus.awvalid = false

/-- The registers according to the bus transfers of a history. -/
def regsOf (c : CoreCfg) (table : Nat → Nat) (l : List LiteCamIn) : CoreRegs :=
  (regsAfter (coreMap c.int1.bd false) (resetRegs table, .idle) (lcEvents c (LiteCam.init c table) l)).1

/-- The run of the programmed core is that of a core with constant configuration. -/
theorem programmed_static {c : CoreCfg} {table : Nat → Nat} {hist quiet frame : List LiteCamIn}
    (hl : CoreLegal (programmed c (regsOf c table (hist ++ quiet)))) (h : ProgrammedRun c table hist quiet frame) (hne : frame ≠ [])
    (hno : ∀ x ∈ lcGiven c (lcRun c (LiteCam.init c table) hist) (quiet ++ frame).dropLast, x.2 = false) :
    ∃ s, CamAfterReset (programmed c (regsOf c table (hist ++ quiet))) s ∧
      ∀ l, l <+: quiet ++ frame →
      lcGiven c (lcRun c (LiteCam.init c table) hist) l =
        camGiven (programmed c (regsOf c table (hist ++ quiet))) (regsOf c table (hist ++ quiet)).allowed s (l.map LiteCamIn.cam) ∧
      lcAccepted c (lcRun c (LiteCam.init c table) hist) l =
        camAccepted (programmed c (regsOf c table (hist ++ quiet))) (regsOf c table (hist ++ quiet)).allowed s (l.map LiteCamIn.cam) := by
  obtain ⟨h1, h2, h3, h4, h5, h6, h7⟩ := h
  have hps := hl.frame.pixels
  have hps : c.int1.ps = 1 ∨ c.int1.ps = 2 ∨ c.int1.ps = 4 := hps
  have hbd : c.int1.bd ≤ 16 := hl.frame.bd16
  have hwf : ∀ i ∈ hist ++ quiet ++ frame, i.cam.valid = true → i.cam.pixels.length = c.int1.ps := by
    intro i hi hv
    exact (h4 i.cam (List.mem_map_of_mem hi) hv).1
  have dwf : ∀ (l : List LiteCamIn) (s : LiteCam), (∀ i ∈ l, i.cam.valid = true → i.cam.pixels.length = c.int1.ps) →
      ∀ d ∈ lcDyn c s l, d.cam.valid = true → d.cam.pixels.length = c.int1.ps := by
    intro l s hw d hd hv
    have : d.cam ∈ (lcDyn c s l).map DynIn.cam := List.mem_map_of_mem hd
    rw [lcDyn_cam] at this
    obtain ⟨i, hi, e⟩ := List.mem_map.1 this
    rw [← e] at hv ⊢
    exact hw i hi hv
  have hreset : CamAfterReset c (lcRun c (LiteCam.init c table) hist).cam := by
    rw [lc_run]
    apply dyn_afterReset hps
    · exact dwf _ _ (fun i hi => hwf i (by simp [hi]))
    · rcases h3 with rfl | h3
      · exact Or.inl rfl
      · right
        rw [lc_run] at h3
        have : (lcDyn c (LiteCam.init c table) hist).dropLast = lcDyn c (LiteCam.init c table) hist.dropLast := by
          rcases List.eq_nil_or_concat hist with rfl | ⟨l, x, rfl⟩
          · rfl
          · simp only [List.concat_eq_append]
            rw [lcDyn_append, List.dropLast_concat]
            simp [lcDyn]
        rw [this]
        exact h3
  have hframe : ∀ d ∈ lcDyn c (lcRun c (LiteCam.init c table) (hist ++ quiet)) frame,
      c.withRegs d.W d.H d.mem = programmed c (regsOf c table (hist ++ quiet)) ∧ d.allowed = (regsOf c table (hist ++ quiet)).allowed := by
    obtain ⟨j, r, rfl⟩ := List.exists_cons_of_ne_nil hne
    have := lc_inv hbd (hist ++ quiet) (j := j) (r := r) (fun x _ => lc_init c h1 x.bus) h2
    exact frame_const hbd (j :: r) h6 (fun x hx => by
      have e : x = j := by simpa using hx.symm
      rw [e]; exact this.1) this.2 h7
  generalize hP : programmed c (regsOf c table (hist ++ quiet)) = P at *
  generalize (regsOf c table (hist ++ quiet)).allowed = a at *
  obtain ⟨W, H, mem, hc⟩ : ∃ W H mem, P = c.withRegs W H mem := ⟨_, _, _, hP.symm⟩
  generalize hS : lcRun c (LiteCam.init c table) hist = S at *
  rw [lcRun_append, hS] at hframe
  obtain ⟨m, hm, hs⟩ := hreset
  have hmP : m.Ok P := by rw [hc]; exact ⟨hm.pm, hm.cm, hm.rp⟩
  have hsP : S.cam = Cam.reset P m := by rw [hs, hc]; rfl
  refine ⟨Cam.reset P m, ⟨m, hmP, rfl⟩, ?_⟩
  intro l hl'
  have hd := hl.depth
  have hcd := hl.cdepth
  -- cut the prefix
  obtain ⟨q, f, rfl, hq, hf⟩ : ∃ q f, l = q ++ f ∧ q <+: quiet ∧ (f = [] ∨ (q = quiet ∧ f <+: frame)) := by
    rcases Nat.le_total l.length quiet.length with h | h
    · exact ⟨l, [], by simp, List.prefix_of_prefix_length_le hl' (List.prefix_append _ _) h, Or.inl rfl⟩
    · obtain ⟨z, rfl⟩ := List.prefix_of_prefix_length_le (List.prefix_append quiet frame) hl' h
      exact ⟨quiet, z, rfl, List.prefix_refl _, Or.inr ⟨rfl, (List.prefix_append_right_inj _).1 hl'⟩⟩
  have hquiet : DynQuiet c S.cam (lcDyn c S q) := by
    apply quiet_of_accepted (by omega)
    · apply dwf
      intro i hi
      exact hwf i (by simp [hq.subset hi])
    · rw [← lc_accepted]
      obtain ⟨z, rfl⟩ := hq
      rw [lc_accepted, lcDyn_append, dynAccepted_append, List.append_eq_nil_iff, ← lc_accepted] at h5
      exact h5.1
  have hcon : ∀ d ∈ lcDyn c (lcRun c S q) f, P.withRegs d.W d.H d.mem = P ∧ d.allowed = a := by
    rcases hf with rfl | ⟨rfl, z, rfl⟩
    · intro d hd; cases hd
    · intro d hd
      have := hframe d (by rw [lcDyn_append]; simp [hd])
      exact ⟨by rw [hc] at this ⊢; exact this.1, this.2⟩
  have hgiven : ∀ x ∈ dynGiven P S.cam (lcDyn c S (q ++ f)).dropLast, x.2 = false := by
    intro x hx
    rw [hc, (dyn_withRegs ..).1] at hx
    apply hno x
    rw [lc_given]
    refine dynGiven_prefix_mem c ?_ _ hx
    obtain ⟨z, hz⟩ := hl'
    rw [← hz]
    by_cases hzn : z = []
    · subst hzn
      rw [List.append_nil]
      rcases List.eq_nil_or_concat (q ++ f) with e | ⟨l, y, e⟩
      · rw [e]; exact List.prefix_refl _
      · rw [e]
        simp only [List.concat_eq_append]
        rw [lcDyn_append, List.dropLast_concat]
        simp [lcDyn]
    · rw [List.dropLast_append_of_ne_nil hzn, lcDyn_append c (q ++ f)]
      exact (List.dropLast_prefix _).trans (List.prefix_append _ _)
  have := dyn_static P a (lcDyn c S q) (lcDyn c (lcRun c S q) f) (s := S.cam) (t := Cam.reset P m)
    (by rw [hs]; exact camQuiet_reset c m)
    (by rw [hsP]; exact camSim_reset (by omega) (by omega) hmP hmP)
    (by rw [hs]; rfl)
    (by rw [hc]; exact (dyn_withRegs ..).2.2.2 hquiet) hcon
    (by rw [← lcDyn_append]; exact hgiven)
  rw [← lcDyn_append, lcDyn_cam, hc, (dyn_withRegs ..).1, (dyn_withRegs ..).2.1] at this
  rw [lc_given, lc_accepted, hc]
  exact this

/-- C58: software writes frame size and Huffman table over the register bus; then a frame that ends normally (end word
FFFF) has exactly the written number of pixels and what a receiver that knows the written table decodes from its words
is the accepted image.  This holds for the first and for every later frame (`hist` is any history up to a reset), with
registers rewritten between the frames or left alone (they survive the resets), and with reads at any time. -/
theorem C58_programmed_frame {c : CoreCfg} {T : Table} {table : Nat → Nat} {hist quiet frame : List LiteCamIn} {last : LiteCamIn}
    (h : ProgrammedRun c table hist quiet (frame ++ [last])) (hbd : c.int1.bd ≤ 15)
    (hset : CamSetup (programmed c (regsOf c table (hist ++ quiet))) T)
    (hno : ∀ x ∈ lcGiven c (lcRun c (LiteCam.init c table) hist) (quiet ++ frame), x.2 = false)
    (hw : (0xFFFF, true) ∈ lcGiven c (lcRun c (LiteCam.init c table) hist) (quiet ++ frame ++ [last])) :
    let W := (regsOf c table (hist ++ quiet)).hw / 2 ^ 16 % 2 ^ 16
    let H := (regsOf c table (hist ++ quiet)).hw % 2 ^ 16
    let words := lcGiven c (lcRun c (LiteCam.init c table) hist) (quiet ++ frame ++ [last])
    let pixels := lcAccepted c (lcRun c (LiteCam.init c table) hist) (quiet ++ frame ++ [last])
    pixels.length = W * H ∧
    ∃ pad, decode T (c.int1.bd + 1) c.int1.bd W (W * H) []
      (byteBits (unstuff (wordBytes ((words.drop 8).take (words.length - 16))))) = some (pixels, pad) := by
  intro W H words pixels
  obtain ⟨s, hs, heq⟩ := programmed_static hset.core.legal h (by simp) (by
    rw [← List.append_assoc, List.dropLast_concat]; exact hno)
  have e1 := heq (quiet ++ frame) (by rw [← List.append_assoc]; exact List.prefix_append _ _)
  have e2 := heq (quiet ++ frame ++ [last]) (by rw [List.append_assoc]; exact List.prefix_refl _)
  have hwf : CamWf (programmed c (regsOf c table (hist ++ quiet))) ((quiet ++ frame).map LiteCamIn.cam ++ [last.cam]) := by
    intro i hi
    apply h.ports i
    simp only [List.map_append, List.mem_append, List.map_cons, List.map_nil] at hi ⊢
    rcases hi with (hi | hi) | hi
    · exact Or.inl (Or.inr hi)
    · exact Or.inr (Or.inl hi)
    · exact Or.inr (Or.inr hi)
  have em : (quiet ++ frame ++ [last]).map LiteCamIn.cam = (quiet ++ frame).map LiteCamIn.cam ++ [last.cam] := by simp
  rw [em] at e2
  rw [e1.1] at hno
  rw [e2.1] at hw
  have hlen : pixels.length = W * H := by
    obtain ⟨body, _, _, hb⟩ := C30_frame hset _ hs _ _ hwf hno _ hw
    rcases hb with ⟨_, hl, _⟩ | ⟨hx, _⟩
    · show (lcAccepted ..).length = _
      rw [e2.2]; exact hl
    · simp at hx
  refine ⟨hlen, ?_⟩
  obtain ⟨pad, hp⟩ := C30_image_recovered hset hbd _ hs _ _ hwf hno hw
  refine ⟨pad, ?_⟩
  show decode T (c.int1.bd + 1) c.int1.bd W (W * H) []
      (byteBits (unstuff (wordBytes (((lcGiven c _ (quiet ++ frame ++ [last])).drop 8).take ((lcGiven c _ (quiet ++ frame ++ [last])).length - 16)))))
      = some (lcAccepted c _ (quiet ++ frame ++ [last]), pad)
  rw [e2.1, e2.2]
  exact hp

/-- C58, cycle budget: a frame is ended by force (end word FFFE) only if a pixel of it had been accepted more than the
written budget (plus 10) cycles before. -/
theorem C58_written_budget {c : CoreCfg} {table : Nat → Nat} {hist quiet frame : List LiteCamIn} {last : LiteCamIn}
    (h : ProgrammedRun c table hist quiet (frame ++ [last])) (hl : CoreLegal (programmed c (regsOf c table (hist ++ quiet))))
    (hno : ∀ x ∈ lcGiven c (lcRun c (LiteCam.init c table) hist) (quiet ++ frame), x.2 = false)
    (hw : (0xFFFE, true) ∈ lcGiven c (lcRun c (LiteCam.init c table) hist) (quiet ++ frame ++ [last])) :
    ∃ early late, quiet ++ frame = early ++ late ∧ (regsOf c table (hist ++ quiet)).allowed + 10 ≤ late.length ∧
      lcAccepted c (lcRun c (LiteCam.init c table) hist) early ≠ [] := by
  obtain ⟨s, hs, heq⟩ := programmed_static hl h (by simp) (by
    rw [← List.append_assoc, List.dropLast_concat]; exact hno)
  have e1 := heq (quiet ++ frame) (by rw [← List.append_assoc]; exact List.prefix_append _ _)
  have e2 := heq (quiet ++ frame ++ [last]) (by rw [List.append_assoc]; exact List.prefix_refl _)
  rw [show (quiet ++ frame ++ [last]).map LiteCamIn.cam = (quiet ++ frame).map LiteCamIn.cam ++ [last.cam] by simp] at e2
  have hno0 := hno
  rw [e1.1] at hno
  rw [e2.1] at hw
  obtain ⟨pre, j, post, e, hv, hr, hlen⟩ := C57_beta_forced_end_in_time _ _ hs _ _ hno hw
  refine ⟨(quiet ++ frame).take (pre.length + 1), (quiet ++ frame).drop (pre.length + 1), (List.take_append_drop _ _).symm, ?_, ?_⟩
  · have : (quiet ++ frame).length = pre.length + 1 + post.length := by
      have := congrArg List.length e
      simp only [List.length_map, List.length_append, List.length_cons] at this ⊢
      omega
    rw [List.length_drop, this]
    omega
  · have hp : (quiet ++ frame).take (pre.length + 1) <+: quiet ++ (frame ++ [last]) :=
      (List.take_prefix _ _).trans (by rw [← List.append_assoc]; exact List.prefix_append _ _)
    rw [(heq _ hp).2]
    have em : ((quiet ++ frame).take (pre.length + 1)).map LiteCamIn.cam = pre ++ [j] := by
      rw [List.map_take, e]
      rw [show pre ++ j :: post = (pre ++ [j]) ++ post by simp]
      exact List.take_left' (by simp)
    rw [em, camAccepted_append]
    simp only [camAccepted, List.append_nil, ne_eq, List.append_eq_nil_iff, not_and]
    intro _
    rw [hv, hr]
    simp only [Bool.not_false, Bool.and_self, if_true]
    have hj : j ∈ (quiet ++ frame).map LiteCamIn.cam := by rw [e]; simp
    have := (h.ports j (by
      simp only [List.map_append, List.mem_append] at hj ⊢
      rcases hj with hj | hj
      · exact Or.inl (Or.inr hj)
      · exact Or.inr (Or.inl hj)) hv).1
    have hps := hl.frame.pixels
    have hps : c.int1.ps = 1 ∨ c.int1.ps = 2 ∨ c.int1.ps = 4 := hps
    intro h0
    rw [h0] at this
    simp at this
    omega

/-! ### C59 the register file -/

def rcRun (c : CoreCfg) : RegCam → List CamIn → RegCam
  | s, [] => s
  | s, i :: r => rcRun c (s.step c i) r

def rcAccepted (c : CoreCfg) : RegCam → List CamIn → List Nat
  | _, [] => []
  | s, i :: r => (if i.valid && !s.cam.nready then i.pixels else []) ++ rcAccepted c (s.step c i) r

def rcGiven (c : CoreCfg) : RegCam → List CamIn → List (Nat × Bool)
  | _, [] => []
  | s, i :: r => (if (s.cam.out i.busy).valid && !i.busy then [((s.cam.out i.busy).data, (s.cam.out i.busy).endd)] else []) ++
      rcGiven c (s.step c i) r

/-- C59: although the register file shows a frame of size 0 and no cycle budget in the first cycle after power-up, the
core with the register file accepts and gives, in every schedule and over all frames, exactly what a core with the
constant frame size 4096 x 3072 and cycle budget 6666000 would: the not-ready cycles after power-up cover it. -/
theorem C59_register_file (c : CoreCfg) (l : List CamIn) :
    rcAccepted c (RegCam.init c) l = camAccepted (c.withRegs 4096 3072 c.int1.mem) 6666000 (Cam.init c) l ∧
    rcGiven c (RegCam.init c) l = camGiven (c.withRegs 4096 3072 c.int1.mem) 6666000 (Cam.init c) l := by
  have key : ∀ (l : List CamIn) (s : RegCam), s.regs = ⟨4096, 3072, 6666000⟩ →
      rcAccepted c s l = camAccepted (c.withRegs 4096 3072 c.int1.mem) 6666000 s.cam l ∧
      rcGiven c s l = camGiven (c.withRegs 4096 3072 c.int1.mem) 6666000 s.cam l := by
    intro l
    induction l with
    | nil => intro s _; exact ⟨rfl, rfl⟩
    | cons i r ih =>
      intro s hs
      obtain ⟨h1, h2⟩ := ih (s.step c i) rfl
      have e : (s.step c i).cam = s.cam.betaStep (c.withRegs 4096 3072 c.int1.mem) 6666000 i := by
        simp only [RegCam.step, hs]
      rw [e] at h1 h2
      exact ⟨by rw [rcAccepted, camAccepted, h1], by rw [rcGiven, camGiven, h2]⟩
  cases l with
  | nil => exact ⟨rfl, rfl⟩
  | cons i r =>
    obtain ⟨h1, h2⟩ := key r ((RegCam.init c).step c i) rfl
    have hn : (Cam.init c).core.nready = true := rfl
    have hn2 : (Cam.init c).core.int2.nready = true := rfl
    have hs : (Cam.init c).core.int2.int1.signals.fsm = .idle := rfl
    have hf : (Cam.init c).fend.fsm = .idle := rfl
    have e : ((RegCam.init c).step c i).cam = (Cam.init c).betaStep (c.withRegs 4096 3072 c.int1.mem) 6666000 i := by
      have hr : (Cam.init c).resetOut = false := rfl
      simp only [RegCam.step, RegCam.init, Cam.betaStep, hr, Bool.false_eq_true, if_false, Cam.betaRun, hn, Bool.not_true, Bool.and_false,
        ForceEnd.step, hf, Int3.step, Int2.step, hn2, Int1.step, Signals.step, hs]
      rfl
    rw [e] at h1 h2
    refine ⟨?_, ?_⟩
    · rw [rcAccepted, camAccepted, h1]; rfl
    · rw [rcGiven, camGiven, h2]; rfl

/-! ### Examples -/

instance decMasterLc (o : LiteOut) (i j : LiteIn) : Decidable (MasterNext o i j) :=
  if h : (i.arvalid = true → o.arready = false → j.arvalid = true ∧ j.araddr = i.araddr) ∧
      (i.awvalid = true → o.awready = false → j.awvalid = true ∧ j.awaddr = i.awaddr) ∧
      (i.wvalid = true → o.wready = false → j.wvalid = true ∧ j.wdata = i.wdata ∧ j.wstrb = i.wstrb) ∧
      (i.wvalid = true → o.wready = true → j.wvalid = false) ∧
      (i.rready = true → o.rvalid = false → j.rready = true) ∧
      (i.bready = true → o.bvalid = false → j.bready = true)
  then isTrue ⟨h.1, h.2.1, h.2.2.1, h.2.2.2.1, h.2.2.2.2.1, h.2.2.2.2.2⟩
  else isFalse fun k => h ⟨k.1, k.2, k.3, k.4, k.5, k.6⟩

instance decLcMaster (c : CoreCfg) : ∀ (st : CoreRegs × BusPhase) (s : LiteCam) (l : List LiteCamIn), Decidable (LcMaster c st s l)
  | _, _, [] => isTrue trivial
  | st, s, i :: r =>
    have := decLcMaster c (regsAfter (coreMap c.int1.bd false) st (liteEvents s.lite.out i.bus)) (s.step c i) r
    match r, this with
    | [], h =>
      if k : s.cam.resetOut = true → st.2 = .idle ∧ i.bus.arvalid = false ∧ i.bus.awvalid = false then
        isTrue ⟨k, by simp, trivial⟩
      else isFalse fun q => k q.1
    | j :: r, h =>
      if k : (s.cam.resetOut = true → st.2 = .idle ∧ i.bus.arvalid = false ∧ i.bus.awvalid = false) ∧ MasterNext s.lite.out i.bus j.bus then
        match h with
        | isTrue h => isTrue ⟨k.1, fun x hx => by
            have e : x = j := by simpa using hx.symm
            rw [e]; exact k.2, h⟩
        | isFalse h => isFalse fun q => h q.2.2
      else isFalse fun q => k ⟨q.1, q.2.1 j (by simp)⟩

/-- The bus cycles of a write of `d` to address `a`. -/
def busWrite (a d : Nat) : List LiteIn :=
  let f := fun (aw w : Bool) => (⟨false, 0, false, aw, a, w, d, 15, true⟩ : LiteIn)
  [f true true, f true true, f true true, f false true, f false true, f false true, f false false]

/-- Frame size 4x2, cycle budget 1000, code word 111 for class 0 (the default is 1110). -/
def tinyProgram : List LiteCamIn :=
  (busWrite 0x2000 0x40002 ++ busWrite 0x2004 1000 ++ busWrite 0x1000 (3 * 2 ^ 20 + 7)).map fun b => ⟨⟨[], false, false⟩, b⟩

def tinyTable : Nat → Nat := fun k => (initHuffTable 4).getD k 0

def tinyTableT : Table := fun s => if s = 0 then [true, true, true] else defaultTable s

def tinyPixel : LiteCamIn := ⟨⟨[5], true, false⟩, ⟨false, 0, true, false, 0, false, 0, 0, true⟩⟩

-- The transfers of the three writes, all answered OKAY.
set_option maxRecDepth 40000 in
example : lcEvents tinyCam (.init tinyCam tinyTable) tinyProgram =
    [.aw 0x2000, .w 0x40002 15, .b 0, .aw 0x2004, .w 1000 15, .b 0, .aw 0x1000, .w (3 * 2 ^ 20 + 7) 15, .b 0] := by
  decide +kernel

-- The hypotheses of C58_programmed_frame: three register writes after power-up, then a frame of 42 cycles.
set_option maxRecDepth 40000 in
example : ProgrammedRun tinyCam tinyTable [] tinyProgram (List.replicate 41 tinyPixel ++ [tinyPixel]) where
  init k := by
    by_cases h : k < 5
    · exact (show ∀ k, k < 5 → tinyTable k < 2 ^ (tinyCam.int1.bd + 21) by decide +kernel) k h
    · have : tinyTable k = 0 := by
        unfold tinyTable
        rw [List.getD_eq_getElem?_getD, List.getElem?_eq_none (by rw [show (initHuffTable 4).length = 5 by decide +kernel]; omega)]
        rfl
      rw [this]; decide
  master := by decide +kernel
  reset := Or.inl rfl
  ports := by
    have : ∀ i ∈ (([] ++ tinyProgram ++ (List.replicate 41 tinyPixel ++ [tinyPixel])).map LiteCamIn.cam),
        i.valid = true → i.pixels.length = tinyCam.int1.ps ∧ ∀ p ∈ i.pixels, p < 2 ^ tinyCam.int1.bd := by decide +kernel
    exact this
  idle := by decide +kernel
  written := Or.inl (by decide +kernel)
  kept := by decide +kernel

set_option maxRecDepth 40000 in
example : (∀ x ∈ lcGiven tinyCam (lcRun tinyCam (.init tinyCam tinyTable) []) (tinyProgram ++ List.replicate 41 tinyPixel), x.2 = false) ∧
    (0xFFFF, true) ∈ lcGiven tinyCam (lcRun tinyCam (.init tinyCam tinyTable) [])
      (tinyProgram ++ List.replicate 41 tinyPixel ++ [tinyPixel]) ∧
    (programmed tinyCam (regsOf tinyCam tinyTable ([] ++ tinyProgram))).int1.mem = (3 * 2 ^ 20 + 7) :: (initHuffTable 4).tail ∧
    (regsOf tinyCam tinyTable ([] ++ tinyProgram)).hw = 0x40002 ∧ (regsOf tinyCam tinyTable ([] ++ tinyProgram)).allowed = 1000 := by
  decide +kernel

theorem tinyT_length (d : Int) : 3 ≤ (diffBits tinyTableT d).length := by
  have h := default_code_length d
  unfold diffBits at h ⊢
  by_cases h0 : cls d = 0
  · rw [h0]; rw [List.length_append]
    have : (tinyTableT 0).length = 3 := rfl
    omega
  · rw [List.length_append] at h ⊢
    have : tinyTableT (cls d) = defaultTable (cls d) := if_neg h0
    rw [this]; omega

set_option maxRecDepth 40000 in
example : CamSetup (programmed tinyCam (regsOf tinyCam tinyTable ([] ++ tinyProgram))) tinyTableT := by
  have hm : (programmed tinyCam (regsOf tinyCam tinyTable ([] ++ tinyProgram))) =
      { tinyCam with int1 := { tinyCam.int1 with W := 4, H := 2, mem := (3 * 2 ^ 20 + 7) :: (initHuffTable 4).tail } } := by
    have h1 : (regsOf tinyCam tinyTable ([] ++ tinyProgram)).hw = 0x40002 := by decide +kernel
    have h2 : (List.range (tinyCam.int1.bd + 1)).map (regsOf tinyCam tinyTable ([] ++ tinyProgram)).table =
        (3 * 2 ^ 20 + 7) :: (initHuffTable 4).tail := by decide +kernel
    unfold programmed
    rw [h1, h2]; rfl
  rw [hm]
  refine ⟨⟨by decide, ?_, ?_⟩, rfl, ?_⟩
  · exact (show ∀ s, s ≤ 4 → (tinyTableT s).length ≤ 16 ∧ ((3 * 2 ^ 20 + 7) :: (initHuffTable 4).tail).getD s 0 =
      huffEntry 4 s (ofBits (tinyTableT s), (tinyTableT s).length) by decide +kernel)
  · exact (show ∀ i, i < 5 → ∀ j, j < 5 → (tinyTableT i) <+: (tinyTableT j) → i = j by decide +kernel) |> fun h i j hi hj => h i hi j hj
  · intro l hl
    have : ∀ (f : Nat → List Bool) (n : Nat), (∀ i, 3 ≤ (f i).length) → 3 * n ≤ ((List.range n).flatMap f).length := by
      intro f n hf
      induction n with
      | zero => simp
      | succ n ih =>
        rw [List.range_succ, List.flatMap_append, List.length_append]
        have := hf n
        simp only [List.flatMap_cons, List.flatMap_nil, List.append_nil]; omega
    have h2 := this (fun i => pixelBits tinyTableT (l.getD i 0) (pred 4 4 l i)) l.length (fun i => tinyT_length _)
    have hl : l.length = 8 := hl
    unfold encode
    show 16 < ((List.range l.length).flatMap (fun i => pixelBits tinyTableT (l.getD i 0) (pred 4 4 l i))).length
    omega

end Props
