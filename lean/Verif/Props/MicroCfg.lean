/- Property theorems C69: the micro core with its AXI-lite registers (after Props/Config.lean for the beta core). -/
import Verif.Props.Config
import Verif.Props.MicroLive

set_option autoImplicit false

namespace Props.MicroCfg
open Spec Model Proof Props

/-- One step with this cycle's configuration. -/
def dynStep (c : CoreCfg) (s : Cam) (i : DynIn) : Cam := s.microStep (c.withRegs i.W i.H i.mem) i.allowed i.cam

def dynRun (c : CoreCfg) : Cam → List DynIn → Cam
  | s, [] => s
  | s, i :: r => dynRun c (dynStep c s i) r

def dynAccepted (c : CoreCfg) : Cam → List DynIn → List Nat
  | _, [] => []
  | s, i :: r => (if i.cam.valid && !s.nready then i.cam.pixels else []) ++ dynAccepted c (dynStep c s i) r

def dynGiven (c : CoreCfg) : Cam → List DynIn → List (Nat × Bool)
  | _, [] => []
  | s, i :: r => (if (s.out i.cam.busy).valid && !i.cam.busy then [((s.out i.cam.busy).data, (s.out i.cam.busy).endd)] else []) ++
      dynGiven c (dynStep c s i) r

/-- No pixel is taken in any of these cycles. -/
def DynQuiet (c : CoreCfg) : Cam → List DynIn → Prop
  | _, [] => True
  | s, i :: r => (i.cam.valid && !s.nready) = false ∧ DynQuiet c (dynStep c s i) r

theorem dynRun_append (c : CoreCfg) (x y : List DynIn) : ∀ s, dynRun c s (x ++ y) = dynRun c (dynRun c s x) y := by
  induction x with
  | nil => intro s; rfl
  | cons i x ih => intro s; exact ih _

theorem dynGiven_append (c : CoreCfg) (x y : List DynIn) :
    ∀ s, dynGiven c s (x ++ y) = dynGiven c s x ++ dynGiven c (dynRun c s x) y := by
  induction x with
  | nil => intro s; rfl
  | cons i x ih => intro s; simp [dynGiven, dynRun, ih]

theorem dynAccepted_append (c : CoreCfg) (x y : List DynIn) :
    ∀ s, dynAccepted c s (x ++ y) = dynAccepted c s x ++ dynAccepted c (dynRun c s x) y := by
  induction x with
  | nil => intro s; rfl
  | cons i x ih => intro s; simp [dynAccepted, dynRun, ih]

theorem camQuiet_step (c : CoreCfg) {s : Cam} (h : CamQuiet s) (a : Nat) (i : CamIn) (hq : (i.valid && !s.nready) = false) :
    CamQuiet (s.microRun c a i) := by
  obtain ⟨h1, h2, h3, h4, h5, h6⟩ := h
  have hq' : (i.valid && !s.core.int2.nready) = false := hq
  have hq2 : (i.valid && !s.core.nready) = false := hq
  refine ⟨?_, ?_, ?_, ?_, ?_, ?_⟩
  · simp [Cam.microRun, Int3.step, Int2.step, Int1.step, Signals.step, h1, hq']
  · simp only [Cam.microRun, Int3.step, Int2.step, Int1.step, hq']
    cases s.core.int2.int1.predictor <;> rfl
  · simp [Cam.microRun, Int3.step, Int2.step, Int1.step, Difference.step, h2]
  · simp [Cam.microRun, Int3.step, Int2.step, Int1.step, Normalize.step, h3]
  · simp [Cam.microRun, Int3.step, Int2.step, Int1.step, Encode.step, h4]
  · simp [Cam.microRun, ForceEnd.step, h6, hq2]

/-- In a quiet cycle a state that runs with any configuration stays similar to one that runs with a fixed one. -/
theorem camQuiet_sim (c : CoreCfg) {s t : Cam} (h : CamQuiet s) (hs : CamSim c s t) (W H : Nat) (mem : List Nat) (a a' : Nat) (i : CamIn)
    (hq : (i.valid && !s.nready) = false) :
    CamSim c (s.microRun (c.withRegs W H mem) a i) (t.microRun c a' i) := by
  have h1 := microSim_run hs a' i
  have hQ := camQuiet_step c h a' i hq
  have e : (s.microRun (c.withRegs W H mem) a i) = { s.microRun c a' i with core := { (s.microRun c a' i).core with int2 :=
      { (s.microRun c a' i).core.int2 with int1 := { (s.microRun c a' i).core.int2.int1 with encode :=
      { (s.microRun c a' i).core.int2.int1.encode with rpData := (s.microRun (c.withRegs W H mem) a i).core.int2.int1.encode.rpData } } } } } := by
    obtain ⟨q1, q2, q3, q4, q5, q6⟩ := h
    have hq' : (i.valid && !s.core.int2.nready) = false := hq
    have hq2 : (i.valid && !s.core.nready) = false := hq
    simp [Cam.microRun, Int3.step, Int2.step, Int1.step, Signals.step, ForceEnd.step, q1, q6, hq', hq2, CoreCfg.withRegs,
      Int1.out, Int1.mergeIn, Encode.step, Int2.out, CoreCfg.total, CoreCfg.csteps]
  rw [e]
  obtain ⟨⟨s1, s2, s3, s4, s5, s6⟩, s7⟩ := h1
  refine ⟨⟨?_, s2, s3, s4, s5, s6⟩, s7⟩
  obtain ⟨rp, hb, hr⟩ := s1
  refine ⟨rp, by rw [hb], fun hv => ?_⟩
  have : (s.microRun c a' i).core.int2.int1.encode.validLate = true := hv
  rw [hQ.enc] at this
  cases this

theorem dyn_reset_flag (c : CoreCfg) {s : Cam} (i : DynIn) (h : s.resetOut = false)
    (hg : ∀ x ∈ (if (s.out i.cam.busy).valid && !i.cam.busy then [((s.out i.cam.busy).data, (s.out i.cam.busy).endd)] else []), x.2 = false) :
    (dynStep c s i).resetOut = false := by
  rw [dynStep, micro_reset_flag _ _ _ _ h]
  cases hv : (s.out i.cam.busy).valid <;> cases hb : i.cam.busy <;> simp_all

/-- Two runs of similar states, one with changing and one with fixed configuration, over quiet cycles and then cycles
with the fixed configuration. -/
theorem dyn_static (c : CoreCfg) (a : Nat) (quiet frame : List DynIn) :
    ∀ {s t : Cam}, CamQuiet s → CamSim (c) s t → s.resetOut = false → DynQuiet c s quiet →
    (∀ i ∈ frame, c.withRegs i.W i.H i.mem = c ∧ i.allowed = a) →
    (∀ x ∈ dynGiven c s (quiet ++ frame).dropLast, x.2 = false) →
    dynGiven c s (quiet ++ frame) = microGiven c a t ((quiet ++ frame).map DynIn.cam) ∧
    dynAccepted c s (quiet ++ frame) = microAccepted c a t ((quiet ++ frame).map DynIn.cam) := by
  induction quiet with
  | nil =>
    have key : ∀ (frame : List DynIn) {s t : Cam}, CamSim c s t → s.resetOut = false →
        (∀ i ∈ frame, c.withRegs i.W i.H i.mem = c ∧ i.allowed = a) →
        (∀ x ∈ dynGiven c s frame.dropLast, x.2 = false) →
        dynGiven c s frame = microGiven c a t (frame.map DynIn.cam) ∧
        dynAccepted c s frame = microAccepted c a t (frame.map DynIn.cam) := by
      intro frame
      induction frame with
      | nil => intros; exact ⟨rfl, rfl⟩
      | cons i r ih =>
        intro s t hs hr hc hg
        have e1 := sim_given c hs i.cam
        have e2 := (camSim_out hs i.cam.busy).1
        cases r with
        | nil => simp only [dynGiven, microGiven, dynAccepted, microAccepted, List.map, e1, e2]; exact ⟨trivial, trivial⟩
        | cons j r =>
          simp only [List.dropLast_cons_of_ne_nil (List.cons_ne_nil j r), dynGiven, List.mem_append] at hg
          have hr' := dyn_reset_flag c i hr (fun x hx => hg x (Or.inl hx))
          have hci := hc i (by simp)
          have hrt : t.resetOut = false := by rw [← hs.rest.2.2.2.2]; exact hr
          have hs' : CamSim c (dynStep c s i) (t.microStep c a i.cam) := by
            simp only [dynStep, Cam.microStep, hr, hrt, Bool.false_eq_true, if_false, hci.1, hci.2]
            exact microSim_run hs _ _
          obtain ⟨k1, k2⟩ := ih hs' hr' (fun k hk => hc k (by simp [hk])) (fun x hx => hg x (Or.inr hx))
          constructor
          · rw [dynGiven, List.map_cons, microGiven, k1, e1]
          · rw [dynAccepted, List.map_cons, microAccepted, k2, e2]
    intro s t _ hs hr _ hc hg
    exact key frame hs hr hc hg
  | cons i r ih =>
    intro s t hQ hs hr hq hc hg
    have e1 := sim_given c hs i.cam
    have e2 := (camSim_out hs i.cam.busy).1
    by_cases hne : r ++ frame = []
    · simp only [List.append_eq_nil_iff] at hne
      obtain ⟨rfl, rfl⟩ := hne
      simp only [List.append_nil, dynGiven, microGiven, dynAccepted, microAccepted, List.map, e1, e2]; exact ⟨trivial, trivial⟩
    · rw [List.cons_append, List.dropLast_cons_of_ne_nil hne] at hg
      simp only [dynGiven, List.mem_append] at hg
      have hr' := dyn_reset_flag c i hr (fun x hx => hg x (Or.inl hx))
      have hrt : t.resetOut = false := by rw [← hs.rest.2.2.2.2]; exact hr
      have hs' : CamSim c (dynStep c s i) (t.microStep c a i.cam) := by
        simp only [dynStep, Cam.microStep, hr, hrt, Bool.false_eq_true, if_false]
        exact camQuiet_sim c hQ hs _ _ _ _ _ _ hq.1
      have hQ' : CamQuiet (dynStep c s i) := by
        simp only [dynStep, Cam.microStep, hr, Bool.false_eq_true, if_false]
        exact camQuiet_step _ hQ _ _ hq.1
      obtain ⟨k1, k2⟩ := ih hQ' hs' hr' hq.2 hc (fun x hx => hg x (Or.inr hx))
      constructor
      · rw [List.cons_append, dynGiven, List.map_cons, microGiven, k1, e1]
      · rw [List.cons_append, dynAccepted, List.map_cons, microAccepted, k2, e2]

theorem sizeOk_run {c : CoreCfg} {s : Cam} (h : SizeOk c s) (i : DynIn) (hv : i.cam.valid = true → i.cam.pixels.length = c.int1.ps) :
    SizeOk c (s.microRun (c.withRegs i.W i.H i.mem) i.allowed i.cam) := by
  obtain ⟨h1, h2, h3, h4⟩ := h
  have hp := pred_step h1 h2.a h2.b i.cam.pixels s.core.int2.int1.signals.newRow (i.cam.valid && !s.core.int2.nready)
    s.core.int2.int1.signals.endOfFrame (fun h => hv (by simp at h; exact h.1))
  refine ⟨hp.1, ?_, ?_, ?_⟩
  · exact lens_step (c := (c.withRegs i.W i.H i.mem).int1) h2 hp.2.1 hp.2.2
  · simp only [Cam.microRun, Int3.step, Int2.step, fifo_storage, h3]
  · simp only [Cam.microRun, Int3.step, Int2.step, fifo_storage, h4]

theorem sizeOk_step {c : CoreCfg} (hps : c.int1.ps = 1 ∨ c.int1.ps = 2 ∨ c.int1.ps = 4) {s : Cam} (h : SizeOk c s) (i : DynIn)
    (hv : i.cam.valid = true → i.cam.pixels.length = c.int1.ps) :
    SizeOk c (dynStep c s i) ∧ (s.resetOut = true → CamAfterReset c (dynStep c s i)) := by
  have h1 := sizeOk_run h i hv
  simp only [dynStep, Cam.microStep]
  cases s.resetOut
  · exact ⟨h1, fun h => by cases h⟩
  · exact ⟨sizeOk_reset hps (sizeOk_kept h1), fun _ => ⟨_, sizeOk_kept h1, rfl⟩⟩

/-- After any history that is empty or ends with a reset cycle the core is as after a reset. -/
theorem dyn_afterReset {c : CoreCfg} (hps : c.int1.ps = 1 ∨ c.int1.ps = 2 ∨ c.int1.ps = 4) (hist : List DynIn)
    (hwf : ∀ i ∈ hist, i.cam.valid = true → i.cam.pixels.length = c.int1.ps)
    (hr : hist = [] ∨ (dynRun c (Cam.init c) hist.dropLast).resetOut = true) :
    CamAfterReset c (dynRun c (Cam.init c) hist) := by
  have key : ∀ (l : List DynIn) (s : Cam), SizeOk c s → (∀ i ∈ l, i.cam.valid = true → i.cam.pixels.length = c.int1.ps) →
      SizeOk c (dynRun c s l) := by
    intro l
    induction l with
    | nil => intro s h _; exact h
    | cons i l ih => intro s h hw; exact ih _ (sizeOk_step hps h i (hw i (by simp))).1 (fun j hj => hw j (by simp [hj]))
  obtain ⟨m, hm, he⟩ := init_afterReset c
  have h0 : SizeOk c (Cam.init c) := by rw [he]; exact sizeOk_reset hps hm
  rcases List.eq_nil_or_concat hist with rfl | ⟨l, i, rfl⟩
  · exact init_afterReset c
  · simp only [List.concat_eq_append] at *
    rcases hr with hr | hr
    · simp at hr
    · rw [List.dropLast_concat] at hr
      rw [dynRun_append]
      have := key l _ h0 (fun j hj => hwf j (by simp [hj]))
      exact (sizeOk_step hps this i (hwf i (by simp))).2 hr

/-! ### Executions of the core with AXI-lite -/

def lcRun (c : CoreCfg) : LiteCam → List LiteCamIn → LiteCam
  | s, [] => s
  | s, i :: r => lcRun c (s.microStep c i) r

/-- Pixels taken: `valid_in` and not `nready`. -/
def lcAccepted (c : CoreCfg) : LiteCam → List LiteCamIn → List Nat
  | _, [] => []
  | s, i :: r => (if i.cam.valid && !s.cam.nready then i.cam.pixels else []) ++ lcAccepted c (s.microStep c i) r

/-- Words given: `valid_out` and not `busy_in`, with `end_out`. -/
def lcGiven (c : CoreCfg) : LiteCam → List LiteCamIn → List (Nat × Bool)
  | _, [] => []
  | s, i :: r => (if (s.cam.out i.cam.busy).valid && !i.cam.busy then [((s.cam.out i.cam.busy).data, (s.cam.out i.cam.busy).endd)] else []) ++
      lcGiven c (s.microStep c i) r

/-- Transfers on the register bus. -/
def lcEvents (c : CoreCfg) : LiteCam → List LiteCamIn → List BusEv
  | _, [] => []
  | s, i :: r => liteEvents s.lite.out i.bus ++ lcEvents c (s.microStep c i) r

/-- The bus master keeps the rules of `MasterNext` and has no transaction open and no request up in the cycle in which
the core resets itself (see C53 for what happens otherwise). `st` are the registers and the bus phase according to the
transfers so far. -/
def LcMaster (c : CoreCfg) : CoreRegs × BusPhase → LiteCam → List LiteCamIn → Prop
  | _, _, [] => True
  | st, s, i :: r => (s.cam.resetOut = true → st.2 = .idle ∧ i.bus.arvalid = false ∧ i.bus.awvalid = false) ∧
      (∀ j ∈ r.head?, MasterNext s.lite.out i.bus j.bus) ∧
      LcMaster c (regsAfter (coreMap c.int1.bd false) st (liteEvents s.lite.out i.bus)) (s.microStep c i) r

theorem lcRun_append (c : CoreCfg) (x y : List LiteCamIn) : ∀ s, lcRun c s (x ++ y) = lcRun c (lcRun c s x) y := by
  induction x with
  | nil => intro s; rfl
  | cons i x ih => intro s; exact ih _

theorem lcEvents_append (c : CoreCfg) (x y : List LiteCamIn) :
    ∀ s, lcEvents c s (x ++ y) = lcEvents c s x ++ lcEvents c (lcRun c s x) y := by
  induction x with
  | nil => intro s; rfl
  | cons i x ih => intro s; simp [lcEvents, lcRun, ih]

/-- The cycles of a run with the configuration in force in each. -/
def lcDyn (c : CoreCfg) : LiteCam → List LiteCamIn → List DynIn
  | _, [] => []
  | s, i :: r => ⟨s.lite.width, s.lite.height, (List.range (c.int1.bd + 1)).map s.lite.stepMem.mem, s.lite.allowed, i.cam⟩ ::
      lcDyn c (s.microStep c i) r

theorem lcDyn_append (c : CoreCfg) (x y : List LiteCamIn) :
    ∀ s, lcDyn c s (x ++ y) = lcDyn c s x ++ lcDyn c (lcRun c s x) y := by
  induction x with
  | nil => intro s; rfl
  | cons i x ih => intro s; simp [lcDyn, lcRun, ih]

theorem lcDyn_cam (c : CoreCfg) (l : List LiteCamIn) : ∀ s, (lcDyn c s l).map DynIn.cam = l.map LiteCamIn.cam := by
  induction l with
  | nil => intro s; rfl
  | cons i l ih => intro s; simp [lcDyn, ih]

theorem lcDyn_length (c : CoreCfg) (l : List LiteCamIn) : ∀ s, (lcDyn c s l).length = l.length := by
  induction l with
  | nil => intro s; rfl
  | cons i l ih => intro s; simp [lcDyn, ih]

theorem lc_run (c : CoreCfg) (l : List LiteCamIn) : ∀ s, (lcRun c s l).cam = dynRun c s.cam (lcDyn c s l) := by
  induction l with
  | nil => intro s; rfl
  | cons i l ih => intro s; exact ih _

theorem lc_given (c : CoreCfg) (l : List LiteCamIn) : ∀ s, lcGiven c s l = dynGiven c s.cam (lcDyn c s l) := by
  induction l with
  | nil => intro s; rfl
  | cons i l ih => intro s; simp only [lcGiven, lcDyn, dynGiven, ih]; rfl

theorem lc_accepted (c : CoreCfg) (l : List LiteCamIn) : ∀ s, lcAccepted c s l = dynAccepted c s.cam (lcDyn c s l) := by
  induction l with
  | nil => intro s; rfl
  | cons i l ih => intro s; simp only [lcAccepted, lcDyn, dynAccepted, ih]; rfl

/-! ### The registers -/

theorem lc_inv {c : CoreCfg} (hbd : c.int1.bd ≤ 16) (a : List LiteCamIn) : ∀ {s : LiteCam} {st : CoreRegs × BusPhase} {j : LiteCamIn}
    {r : List LiteCamIn}, (∀ x ∈ (a ++ j :: r).head?, CoreLiteInv c.int1.bd false s.lite x.bus (fun _ => 0) st.1 st.2) →
    LcMaster c st s (a ++ j :: r) →
    CoreLiteInv c.int1.bd false (lcRun c s a).lite j.bus (fun _ => 0) (regsAfter (coreMap c.int1.bd false) st (lcEvents c s a)).1
      (regsAfter (coreMap c.int1.bd false) st (lcEvents c s a)).2 ∧
    LcMaster c (regsAfter (coreMap c.int1.bd false) st (lcEvents c s a)) (lcRun c s a) (j :: r) := by
  induction a with
  | nil =>
    intro s st j r h hm
    refine ⟨?_, ?_⟩
    · have := h j (by simp)
      simpa [lcRun, lcEvents, regsAfter] using this
    · simpa [lcRun, lcEvents, regsAfter] using hm
  | cons i a ih =>
    intro s st j r h hm
    have hi := h i (by simp)
    obtain ⟨h1, h2, h3⟩ := hm
    obtain ⟨g', p', e1, e2⟩ := coreLite_step (i := ⟨i.bus, fun _ => 0⟩) hbd hi
    have e3 := (busEvs_accepted e1).2
    have hst : (st.1, st.2) = st := rfl
    rw [hst] at e3
    have hstep : (s.microStep c i).lite = s.lite.cyc c.int1.bd false ⟨i.bus, fun _ => 0⟩ := by
      simp only [LiteCam.microStep, CoreLite.cyc]
      cases hr : s.cam.resetOut
      · rfl
      · obtain ⟨k1, k2, k3⟩ := h1 hr
        rw [k1] at hi
        exact lite_rst hi k2 k3 _
    rw [lcEvents, regsAfter_append]
    refine ih (s := s.microStep c i) (st := regsAfter (coreMap c.int1.bd false) st (liteEvents s.lite.out i.bus)) ?_ h3
    intro x hx
    have := e2 x.bus (h2 x hx)
    rw [hstep, ← e3]
    exact this

/-- While no write is under way the configuration in force stays the programmed one. -/
theorem frame_const {c : CoreCfg} (hbd : c.int1.bd ≤ 16) {g : CoreRegs} : ∀ (l : List LiteCamIn) {s : LiteCam} {p : BusPhase},
    NoWrite p → (∀ x ∈ l.head?, CoreLiteInv c.int1.bd false s.lite x.bus (fun _ => 0) g p) → LcMaster c (g, p) s l →
    (∀ i ∈ l, i.bus.awvalid = false) →
    ∀ d ∈ lcDyn c s l, c.withRegs d.W d.H d.mem = programmed c g ∧ d.allowed = g.allowed := by
  intro l
  induction l with
  | nil => intro s p _ _ _ _ d hd; cases hd
  | cons i l ih =>
    intro s p hp hinv hm hw d hd
    have hi := hinv i (by simp)
    rcases List.mem_cons.1 hd with rfl | hd
    · obtain ⟨e1, e2, e3⟩ := noWrite_regs hi hp
      refine ⟨?_, e2⟩
      simp only [programmed, CoreLite.width, CoreLite.height, e1, e3]
    · obtain ⟨n1, n2⟩ := noWrite_events (m := coreMap c.int1.bd false) (g := g) hp s.lite.out i.bus (hw i (by simp))
      cases l with
      | nil => cases hd
      | cons j l =>
        have hk := lc_inv hbd [i] (j := j) (r := l) (fun x hx => by
          have : x = i := by simpa using hx.symm
          rw [this]; exact hi) hm
        simp only [lcRun, lcEvents, List.append_nil] at hk
        generalize hq : regsAfter (coreMap c.int1.bd false) (g, p) (liteEvents s.lite.out i.bus) = q at *
        obtain ⟨g', p'⟩ := q
        simp only at n1 n2
        subst n1
        exact ih n2 (fun x hx => by
          have : x = j := by simpa using hx.symm
          rw [this]; exact hk.1) hk.2 (fun k hk => hw k (by simp [hk])) d hd

theorem quiet_of_accepted {c : CoreCfg} (hps : 0 < c.int1.ps) : ∀ (l : List DynIn) {s : Cam},
    (∀ i ∈ l, i.cam.valid = true → i.cam.pixels.length = c.int1.ps) → dynAccepted c s l = [] → DynQuiet c s l
  | [], _, _, _ => trivial
  | i :: l, s, hw, h => by
    simp only [dynAccepted, List.append_eq_nil_iff] at h
    refine ⟨?_, quiet_of_accepted hps l (fun j hj => hw j (by simp [hj])) h.2⟩
    cases hv : i.cam.valid && !s.nready
    · rfl
    · have h1 := h.1
      rw [hv] at h1
      have h2 := hw i (by simp) (by simp at hv; exact hv.1)
      simp only [if_true] at h1
      rw [h1] at h2
      simp at h2
      omega

theorem dyn_withRegs (c : CoreCfg) (W H : Nat) (mem : List Nat) (l : List DynIn) : ∀ s,
    dynGiven (c.withRegs W H mem) s l = dynGiven c s l ∧ dynAccepted (c.withRegs W H mem) s l = dynAccepted c s l ∧
    (DynQuiet (c.withRegs W H mem) s l ↔ DynQuiet c s l) := by
  induction l with
  | nil => intro s; exact ⟨rfl, rfl, Iff.rfl⟩
  | cons i l ih =>
    intro s
    obtain ⟨h1, h2, h3⟩ := ih (dynStep c s i)
    refine ⟨?_, ?_, ?_⟩
    · simp only [dynGiven]; rw [← h1]; rfl
    · simp only [dynAccepted]; rw [← h2]; rfl
    · simp only [DynQuiet]; rw [← h3]; rfl

theorem dynGiven_prefix_mem (c : CoreCfg) {x y : List DynIn} (h : x <+: y) (s : Cam) {w : Nat × Bool} (hw : w ∈ dynGiven c s x) :
    w ∈ dynGiven c s y := by
  obtain ⟨z, rfl⟩ := h
  rw [dynGiven_append]
  exact List.mem_append_left _ hw

/-- A run of the core with AXI-lite from power-up, cut into a history that is empty or ends with a reset cycle, cycles
in which software may write the registers and no pixel is taken, and cycles in which no write is requested. -/
structure ProgrammedRun (c : CoreCfg) (table : Nat → Nat) (hist quiet frame : List LiteCamIn) : Prop where
  /-- the table memory is `bd+21` bits wide -/
  init : ∀ k, table k < 2 ^ (c.int1.bd + 21)
  master : LcMaster c (resetRegs table, .idle) (LiteCam.init c table) (hist ++ quiet ++ frame)
  reset : hist = [] ∨ (lcRun c (LiteCam.init c table) hist.dropLast).cam.resetOut = true
  ports : CamWf c ((hist ++ quiet ++ frame).map LiteCamIn.cam)
  idle : lcAccepted c (lcRun c (LiteCam.init c table) hist) quiet = []
  written : NoWrite (regsAfter (coreMap c.int1.bd false) (resetRegs table, .idle) (lcEvents c (LiteCam.init c table) (hist ++ quiet))).2
  kept : ∀ i ∈ frame, i.bus.awvalid = false

/-- The registers according to the bus transfers of a history. -/
def regsOf (c : CoreCfg) (table : Nat → Nat) (l : List LiteCamIn) : CoreRegs :=
  (regsAfter (coreMap c.int1.bd false) (resetRegs table, .idle) (lcEvents c (LiteCam.init c table) l)).1

/-- The run of the programmed core is that of a core with constant configuration, up to the first end-flagged word. -/
theorem programmed_prefix {c : CoreCfg} {table : Nat → Nat} {hist quiet frame : List LiteCamIn}
    (hl : CoreLegal (programmed c (regsOf c table (hist ++ quiet)))) (h : ProgrammedRun c table hist quiet frame) (hne : frame ≠ []) :
    ∃ s, s = (lcRun c (LiteCam.init c table) hist).cam ∧ CamAfterReset (programmed c (regsOf c table (hist ++ quiet))) s ∧
      ∀ l, l <+: quiet ++ frame → (∀ x ∈ lcGiven c (lcRun c (LiteCam.init c table) hist) l.dropLast, x.2 = false) →
      lcGiven c (lcRun c (LiteCam.init c table) hist) l =
        microGiven (programmed c (regsOf c table (hist ++ quiet))) (regsOf c table (hist ++ quiet)).allowed s (l.map LiteCamIn.cam) ∧
      lcAccepted c (lcRun c (LiteCam.init c table) hist) l =
        microAccepted (programmed c (regsOf c table (hist ++ quiet))) (regsOf c table (hist ++ quiet)).allowed s (l.map LiteCamIn.cam) := by
  obtain ⟨h1, h2, h3, h4, h5, h6, h7⟩ := h
  have hps := hl.frame.pixels
  have hps : c.int1.ps = 1 ∨ c.int1.ps = 2 ∨ c.int1.ps = 4 := hps
  have hbd : c.int1.bd ≤ 16 := hl.frame.bd16
  have hwf : ∀ i ∈ hist ++ quiet ++ frame, i.cam.valid = true → i.cam.pixels.length = c.int1.ps := by
    intro i hi hv
    exact (h4 i.cam (List.mem_map_of_mem hi) hv).1
  have dwf : ∀ (l : List LiteCamIn) (s : LiteCam), (∀ i ∈ l, i.cam.valid = true → i.cam.pixels.length = c.int1.ps) →
      ∀ d ∈ lcDyn c s l, d.cam.valid = true → d.cam.pixels.length = c.int1.ps := by
    intro l s hw d hd hv
    have : d.cam ∈ (lcDyn c s l).map DynIn.cam := List.mem_map_of_mem hd
    rw [lcDyn_cam] at this
    obtain ⟨i, hi, e⟩ := List.mem_map.1 this
    rw [← e] at hv ⊢
    exact hw i hi hv
  have hreset : CamAfterReset c (lcRun c (LiteCam.init c table) hist).cam := by
    rw [lc_run]
    apply dyn_afterReset hps
    · exact dwf _ _ (fun i hi => hwf i (by simp [hi]))
    · rcases h3 with rfl | h3
      · exact Or.inl rfl
      · right
        rw [lc_run] at h3
        have : (lcDyn c (LiteCam.init c table) hist).dropLast = lcDyn c (LiteCam.init c table) hist.dropLast := by
          rcases List.eq_nil_or_concat hist with rfl | ⟨l, x, rfl⟩
          · rfl
          · simp only [List.concat_eq_append]
            rw [lcDyn_append, List.dropLast_concat]
            simp [lcDyn]
        rw [this]
        exact h3
  have hframe : ∀ d ∈ lcDyn c (lcRun c (LiteCam.init c table) (hist ++ quiet)) frame,
      c.withRegs d.W d.H d.mem = programmed c (regsOf c table (hist ++ quiet)) ∧ d.allowed = (regsOf c table (hist ++ quiet)).allowed := by
    obtain ⟨j, r, rfl⟩ := List.exists_cons_of_ne_nil hne
    have := lc_inv hbd (hist ++ quiet) (j := j) (r := r) (fun x _ => lc_init c h1 x.bus) h2
    exact frame_const hbd (j :: r) h6 (fun x hx => by
      have e : x = j := by simpa using hx.symm
      rw [e]; exact this.1) this.2 h7
  generalize hP : programmed c (regsOf c table (hist ++ quiet)) = P at *
  generalize (regsOf c table (hist ++ quiet)).allowed = a at *
  obtain ⟨W, H, mem, hc⟩ : ∃ W H mem, P = c.withRegs W H mem := ⟨_, _, _, hP.symm⟩
  generalize hS : lcRun c (LiteCam.init c table) hist = S at *
  rw [lcRun_append, hS] at hframe
  obtain ⟨m, hm, hs⟩ := hreset
  have hmP : m.Ok P := by rw [hc]; exact ⟨hm.pm, hm.cm, hm.rp⟩
  have hsP : S.cam = Cam.reset P m := by rw [hs, hc]; rfl
  refine ⟨Cam.reset P m, hsP.symm, ⟨m, hmP, rfl⟩, ?_⟩
  intro l hl' hno
  have hd := hl.depth
  have hcd := hl.cdepth
  -- cut the prefix
  obtain ⟨q, f, rfl, hq, hf⟩ : ∃ q f, l = q ++ f ∧ q <+: quiet ∧ (f = [] ∨ (q = quiet ∧ f <+: frame)) := by
    rcases Nat.le_total l.length quiet.length with h | h
    · exact ⟨l, [], by simp, List.prefix_of_prefix_length_le hl' (List.prefix_append _ _) h, Or.inl rfl⟩
    · obtain ⟨z, rfl⟩ := List.prefix_of_prefix_length_le (List.prefix_append quiet frame) hl' h
      exact ⟨quiet, z, rfl, List.prefix_refl _, Or.inr ⟨rfl, (List.prefix_append_right_inj _).1 hl'⟩⟩
  have hquiet : DynQuiet c S.cam (lcDyn c S q) := by
    apply quiet_of_accepted (by omega)
    · apply dwf
      intro i hi
      exact hwf i (by simp [hq.subset hi])
    · rw [← lc_accepted]
      obtain ⟨z, rfl⟩ := hq
      rw [lc_accepted, lcDyn_append, dynAccepted_append, List.append_eq_nil_iff, ← lc_accepted] at h5
      exact h5.1
  have hcon : ∀ d ∈ lcDyn c (lcRun c S q) f, P.withRegs d.W d.H d.mem = P ∧ d.allowed = a := by
    rcases hf with rfl | ⟨rfl, z, rfl⟩
    · intro d hd; cases hd
    · intro d hd
      have := hframe d (by rw [lcDyn_append]; simp [hd])
      exact ⟨by rw [hc] at this ⊢; exact this.1, this.2⟩
  have hgiven : ∀ x ∈ dynGiven P S.cam (lcDyn c S (q ++ f)).dropLast, x.2 = false := by
    intro x hx
    rw [hc, (dyn_withRegs ..).1] at hx
    apply hno x
    rw [lc_given]
    rcases List.eq_nil_or_concat (q ++ f) with e | ⟨l, y, e⟩
    · rw [e] at hx ⊢; exact hx
    · rw [e] at hx ⊢
      simp only [List.concat_eq_append] at hx ⊢
      rw [lcDyn_append] at hx
      simp only [lcDyn, List.dropLast_concat] at hx ⊢
      exact hx
  have := dyn_static P a (lcDyn c S q) (lcDyn c (lcRun c S q) f) (s := S.cam) (t := Cam.reset P m)
    (by rw [hs]; exact camQuiet_reset c m)
    (by rw [hsP]; exact camSim_reset (by omega) (by omega) hmP hmP)
    (by rw [hs]; rfl)
    (by rw [hc]; exact (dyn_withRegs ..).2.2.2 hquiet) hcon
    (by rw [← lcDyn_append]; exact hgiven)
  rw [← lcDyn_append, lcDyn_cam, hc, (dyn_withRegs ..).1, (dyn_withRegs ..).2.1] at this
  rw [lc_given, lc_accepted, hc]
  exact this

theorem lcGiven_append (c : CoreCfg) (x y : List LiteCamIn) :
    ∀ s, lcGiven c s (x ++ y) = lcGiven c s x ++ lcGiven c (lcRun c s x) y := by
  induction x with
  | nil => intro s; rfl
  | cons i x ih => intro s; simp [lcGiven, lcRun, ih]

theorem programmed_static {c : CoreCfg} {table : Nat → Nat} {hist quiet frame : List LiteCamIn}
    (hl : CoreLegal (programmed c (regsOf c table (hist ++ quiet)))) (h : ProgrammedRun c table hist quiet frame) (hne : frame ≠ [])
    (hno : ∀ x ∈ lcGiven c (lcRun c (LiteCam.init c table) hist) (quiet ++ frame).dropLast, x.2 = false) :
    ∃ s, CamAfterReset (programmed c (regsOf c table (hist ++ quiet))) s ∧
      ∀ l, l <+: quiet ++ frame →
      lcGiven c (lcRun c (LiteCam.init c table) hist) l =
        microGiven (programmed c (regsOf c table (hist ++ quiet))) (regsOf c table (hist ++ quiet)).allowed s (l.map LiteCamIn.cam) ∧
      lcAccepted c (lcRun c (LiteCam.init c table) hist) l =
        microAccepted (programmed c (regsOf c table (hist ++ quiet))) (regsOf c table (hist ++ quiet)).allowed s (l.map LiteCamIn.cam) := by
  obtain ⟨s, _, hs, k⟩ := programmed_prefix hl h hne
  refine ⟨s, hs, fun l hl' => k l hl' fun x hx => hno x ?_⟩
  have : l.dropLast <+: (quiet ++ frame).dropLast := by
    rw [List.dropLast_eq_take, List.dropLast_eq_take, List.prefix_iff_eq_take.1 hl']
    rw [List.take_take]
    apply List.take_prefix_take_left
    have := hl'.length_le
    simp only [List.length_take]
    omega
  obtain ⟨z, hz⟩ := this
  rw [← hz, lcGiven_append]
  exact List.mem_append_left _ hx

end Props.MicroCfg

namespace Props
open Spec Model

/-- C69: software writes frame size and Huffman table over the register bus; then the micro core gives the start marker,
data words and the forced end marker.  The data words continue, after one to ten `lost` words, the byte-stuffed code of
the accepted pixels in lines of the written width by the written table; if the last code word is repeated up to the
forced end, the number of pixels accepted is the written width times the written height.  This holds for the first and
for every later frame (`hist` is any history up to a reset), with registers rewritten between the frames or left alone. -/
theorem C69_programmed_frame {c : CoreCfg} {T : Table} {table : Nat → Nat} {hist quiet frame : List LiteCamIn} {last : LiteCamIn}
    (h : MicroCfg.ProgrammedRun c table hist quiet (frame ++ [last]))
    (hset : CamSetup (programmed c (MicroCfg.regsOf c table (hist ++ quiet))) T)
    (hno : ∀ x ∈ MicroCfg.lcGiven c (MicroCfg.lcRun c (LiteCam.init c table) hist) (quiet ++ frame), x.2 = false)
    {w : Nat} (hw : (w, true) ∈ MicroCfg.lcGiven c (MicroCfg.lcRun c (LiteCam.init c table) hist) (quiet ++ frame ++ [last])) :
    let W := (MicroCfg.regsOf c table (hist ++ quiet)).hw / 2 ^ 16 % 2 ^ 16
    let H := (MicroCfg.regsOf c table (hist ++ quiet)).hw % 2 ^ 16
    let words := MicroCfg.lcGiven c (MicroCfg.lcRun c (LiteCam.init c table) hist) (quiet ++ frame ++ [last])
    let pixels := MicroCfg.lcAccepted c (MicroCfg.lcRun c (LiteCam.init c table) hist) (quiet ++ frame ++ [last])
    ∃ lost body, words = startMark ++ body ++ endMark 0xFFFE ∧
      (∀ x ∈ body, x.2 = false) ∧ 1 ≤ lost.length ∧ lost.length ≤ 10 ∧
      ∃ (code : List (Nat × Bool)) (n lastWord : Nat),
        wordBytes (lost ++ body) <+: stuff (wordBytes (code ++ List.replicate n (lastWord, false))) ∧
        ((n = 0 ∧ wordBits 16 code <+: encode T c.int1.bd W pixels) ∨
         (pixels.length = W * H ∧ code.getLast? = some (lastWord, false) ∧
          ∃ j, j < 16 ∧ wordBits 16 code = encode T c.int1.bd W pixels ++ List.replicate j false)) := by
  intro W H words pixels
  obtain ⟨s, hs, heq⟩ := MicroCfg.programmed_static hset.core.legal h (by simp) (by
    rw [← List.append_assoc, List.dropLast_concat]; exact hno)
  have e1 := heq (quiet ++ frame) (by rw [← List.append_assoc]; exact List.prefix_append _ _)
  have e2 := heq (quiet ++ frame ++ [last]) (by rw [List.append_assoc]; exact List.prefix_refl _)
  have hwf : CamWf (programmed c (MicroCfg.regsOf c table (hist ++ quiet))) ((quiet ++ frame).map LiteCamIn.cam ++ [last.cam]) := by
    intro i hi
    apply h.ports i
    simp only [List.map_append, List.mem_append, List.map_cons, List.map_nil] at hi ⊢
    rcases hi with (hi | hi) | hi
    · exact Or.inl (Or.inr hi)
    · exact Or.inr (Or.inl hi)
    · exact Or.inr (Or.inr hi)
  have em : (quiet ++ frame ++ [last]).map LiteCamIn.cam = (quiet ++ frame).map LiteCamIn.cam ++ [last.cam] := by simp
  rw [em] at e2
  rw [e1.1] at hno
  rw [e2.1] at hw
  have := C68_frame hset _ hs _ _ hwf hno _ hw
  rw [← e2.1, ← e2.2] at this
  exact this

/-- C69, cycle budget: the frame is ended only if a pixel of it had been accepted more than the written budget (plus 10)
cycles before. -/
theorem C69_written_budget {c : CoreCfg} {table : Nat → Nat} {hist quiet frame : List LiteCamIn} {last : LiteCamIn}
    (h : MicroCfg.ProgrammedRun c table hist quiet (frame ++ [last]))
    (hl : CoreLegal (programmed c (MicroCfg.regsOf c table (hist ++ quiet))))
    (hno : ∀ x ∈ MicroCfg.lcGiven c (MicroCfg.lcRun c (LiteCam.init c table) hist) (quiet ++ frame), x.2 = false)
    {w : Nat} (hw : (w, true) ∈ MicroCfg.lcGiven c (MicroCfg.lcRun c (LiteCam.init c table) hist) (quiet ++ frame ++ [last])) :
    ∃ early late, quiet ++ frame = early ++ late ∧ (MicroCfg.regsOf c table (hist ++ quiet)).allowed + 10 ≤ late.length ∧
      MicroCfg.lcAccepted c (MicroCfg.lcRun c (LiteCam.init c table) hist) early ≠ [] := by
  obtain ⟨s, hs, heq⟩ := MicroCfg.programmed_static hl h (by simp) (by
    rw [← List.append_assoc, List.dropLast_concat]; exact hno)
  have e1 := heq (quiet ++ frame) (by rw [← List.append_assoc]; exact List.prefix_append _ _)
  have e2 := heq (quiet ++ frame ++ [last]) (by rw [List.append_assoc]; exact List.prefix_refl _)
  rw [show (quiet ++ frame ++ [last]).map LiteCamIn.cam = (quiet ++ frame).map LiteCamIn.cam ++ [last.cam] by simp] at e2
  rw [e1.1] at hno
  rw [e2.1] at hw
  have hw' : w = 0xFFFE := by
    obtain ⟨m, _, rfl⟩ := hs
    exact micro_forced_only _ _ (noEnd_reset _ _) _ hw
  subst hw'
  obtain ⟨pre, j, post, e, hv, hr, hlen⟩ := C57_micro_forced_end_in_time _ _ hs _ _ hno hw
  refine ⟨(quiet ++ frame).take (pre.length + 1), (quiet ++ frame).drop (pre.length + 1), (List.take_append_drop _ _).symm, ?_, ?_⟩
  · have : (quiet ++ frame).length = pre.length + 1 + post.length := by
      have := congrArg List.length e
      simp only [List.length_map, List.length_append, List.length_cons] at this ⊢
      omega
    rw [List.length_drop, this]
    omega
  · have hp : (quiet ++ frame).take (pre.length + 1) <+: quiet ++ (frame ++ [last]) :=
      (List.take_prefix _ _).trans (by rw [← List.append_assoc]; exact List.prefix_append _ _)
    rw [(heq _ hp).2]
    have em : ((quiet ++ frame).take (pre.length + 1)).map LiteCamIn.cam = pre ++ [j] := by
      rw [List.map_take, e]
      rw [show pre ++ j :: post = (pre ++ [j]) ++ post by simp]
      exact List.take_left' (by simp)
    rw [em, microAccepted_append]
    simp only [microAccepted, List.append_nil, ne_eq, List.append_eq_nil_iff, not_and]
    intro _
    rw [hv, hr]
    simp only [Bool.not_false, Bool.and_self, if_true]
    have hj : j ∈ (quiet ++ frame).map LiteCamIn.cam := by rw [e]; simp
    have := (h.ports j (by
      simp only [List.map_append, List.mem_append] at hj ⊢
      rcases hj with hj | hj
      · exact Or.inl (Or.inr hj)
      · exact Or.inr (Or.inl hj)) hv).1
    have hps := hl.frame.pixels
    have hps : c.int1.ps = 1 ∨ c.int1.ps = 2 ∨ c.int1.ps = 4 := hps
    intro h0
    rw [h0] at this
    simp at this
    omega

theorem regs_allowed (bd : Nat) (l : List BusEv) : ∀ st : CoreRegs × BusPhase, st.1.allowed < 2 ^ 24 →
    (regsAfter (coreMap bd false) st l).1.allowed < 2 ^ 24 := by
  induction l with
  | nil => intro st h; exact h
  | cons e l ih =>
    rintro ⟨g, p⟩ h
    apply ih
    have key : ∀ a d s, ((coreMap bd false).write g a d s).1.allowed < 2 ^ 24 := by
      intro a d s
      simp only [coreMap]
      repeat' split
      all_goals first | exact h | exact Nat.mod_lt _ (by decide)
    cases p <;> cases e <;> first | exact h | exact key _ _ _

/-- C69, liveness: after the registers were written, a frame offered with pixels infinitely often to a consumer that is
ready infinitely often is ended by the forced end marker, whatever the written budget. -/
theorem C69_always_ends {c : CoreCfg} {T : Table} {table : Nat → Nat} {hist quiet : List LiteCamIn} (u : Nat → LiteCamIn)
    (h : ∀ n, MicroCfg.ProgrammedRun c table hist quiet ((List.range n).map u))
    (hset : CamSetup (programmed c (MicroCfg.regsOf c table (hist ++ quiet))) T)
    (hprod : ∀ n, ∃ m, n ≤ m ∧ (u m).cam.valid = true) (hcons : ∀ n, ∃ m, n ≤ m ∧ (u m).cam.busy = false) :
    ∃ t, (0xFFFE, true) ∈ MicroCfg.lcGiven c (MicroCfg.lcRun c (LiteCam.init c table) hist) (quiet ++ (List.range t).map u) := by
  apply Classical.byContradiction
  intro hcon
  have hfew : ∀ t l, l <+: quiet ++ (List.range t).map u → (0xFFFE, true) ∉ MicroCfg.lcGiven c (MicroCfg.lcRun c (LiteCam.init c table) hist) l := by
    rintro t l ⟨z, hz⟩ hm
    refine hcon ⟨t, ?_⟩
    rw [← hz, MicroCfg.lcGiven_append]
    exact List.mem_append_left _ hm
  have ha := regs_allowed c.int1.bd (MicroCfg.lcEvents c (LiteCam.init c table) (hist ++ quiet)) (resetRegs table, .idle) (by show 0 < _; decide)
  have stat := fun t => MicroCfg.programmed_prefix hset.core.legal (h (t + 1)) (by simp)
  have hno : ∀ t l, l <+: quiet ++ (List.range (t + 1)).map u →
      ∀ x ∈ MicroCfg.lcGiven c (MicroCfg.lcRun c (LiteCam.init c table) hist) l, x.2 = false := by
    intro t l
    induction l using snoc_induction with
    | h0 => intro _ x hx; cases hx
    | h1 l i ih =>
      intro hl x hx
      cases hx2 : x.2 with
      | false => rfl
      | true =>
        exfalso
        obtain ⟨s, _, hs, k⟩ := stat t
        have e := (k (l ++ [i]) hl (by rw [List.dropLast_concat]; exact ih ((List.prefix_append _ _).trans hl))).1
        have hx' := hx
        rw [e] at hx
        obtain ⟨m, _, rfl⟩ := hs
        have := micro_forced_only _ _ (noEnd_reset _ _) x.1 (by rw [← hx2]; exact hx)
        apply hfew (t + 1) _ hl
        rw [← this, ← hx2]
        exact hx'
  obtain ⟨s, hse, hs, _⟩ := stat 0
  let v : Nat → CamIn := fun n => if h : n < quiet.length then (quiet[n]'h).cam else (u (n - quiet.length)).cam
  have hv : ∀ n, (List.range (quiet.length + n)).map v = (quiet ++ (List.range n).map u).map LiteCamIn.cam := by
    intro n
    apply List.ext_getElem
    · simp
    · intro k h1 h2
      simp only [List.getElem_map, List.getElem_range, v]
      by_cases hk : k < quiet.length
      · rw [dif_pos hk, List.getElem_append_left hk]
      · rw [dif_neg hk, List.getElem_append_right (by omega)]
        simp
  have hv1 : ∀ n, v (quiet.length + n) = (u n).cam := by
    intro n
    simp only [v]
    rw [dif_neg (by omega), Nat.add_sub_cancel_left]
  obtain ⟨t, ht⟩ := C68_always_ends hset ha hs v (by
    intro t
    have hp := (h (t + 1)).ports
    have hm : v t ∈ (hist ++ quiet ++ (List.range (t + 1)).map u).map LiteCamIn.cam := by
      rw [List.append_assoc, List.map_append, ← hv]
      exact List.mem_append_right _ (List.mem_map_of_mem (List.mem_range.2 (by omega)))
    exact hp _ hm) (by
    intro n
    obtain ⟨m, h1, h2⟩ := hprod n
    exact ⟨quiet.length + m, by omega, by rw [hv1]; exact h2⟩) (by
    intro n
    obtain ⟨m, h1, h2⟩ := hcons n
    exact ⟨quiet.length + m, by omega, by rw [hv1]; exact h2⟩)
  obtain ⟨s', hse', _, k⟩ := stat t
  have e := (k _ (List.prefix_refl _) (hno t _ (List.dropLast_prefix _))).1
  apply hfew (t + 1) _ (List.prefix_refl _)
  rw [e, hse', ← hse, ← hv, show quiet.length + (t + 1) = t + (quiet.length + 1) by omega, List.range_add, List.map_append, microGiven_append]
  exact List.mem_append_left _ ht

/-! ### Examples -/

instance decLcMicroMaster (c : CoreCfg) : ∀ (st : CoreRegs × BusPhase) (s : LiteCam) (l : List LiteCamIn),
    Decidable (MicroCfg.LcMaster c st s l)
  | _, _, [] => isTrue trivial
  | st, s, i :: r =>
    have := decLcMicroMaster c (regsAfter (coreMap c.int1.bd false) st (liteEvents s.lite.out i.bus)) (s.microStep c i) r
    match r, this with
    | [], h =>
      if k : s.cam.resetOut = true → st.2 = .idle ∧ i.bus.arvalid = false ∧ i.bus.awvalid = false then
        isTrue ⟨k, by simp, trivial⟩
      else isFalse fun q => k q.1
    | j :: r, h =>
      if k : (s.cam.resetOut = true → st.2 = .idle ∧ i.bus.arvalid = false ∧ i.bus.awvalid = false) ∧ MasterNext s.lite.out i.bus j.bus then
        match h with
        | isTrue h => isTrue ⟨k.1, fun x hx => by
            have e : x = j := by simpa using hx.symm
            rw [e]; exact k.2, h⟩
        | isFalse h => isFalse fun q => h q.2.2
      else isFalse fun q => k ⟨q.1, q.2.1 j (by simp)⟩

/-- Frame size 4x2, cycle budget 30, code word 111 for class 0 (the default is 1110). -/
def tinyMicroProgram : List LiteCamIn :=
  (busWrite 0x2000 0x40002 ++ busWrite 0x2004 30 ++ busWrite 0x1000 (3 * 2 ^ 20 + 7)).map fun b => ⟨⟨[], false, false⟩, b⟩

-- The hypotheses of the C69 theorems: three register writes after power-up, then a frame up to its forced end.
set_option maxRecDepth 40000 in
example : MicroCfg.ProgrammedRun tinyCam tinyTable [] tinyMicroProgram (List.replicate 41 tinyPixel ++ [tinyPixel]) where
  init k := by
    by_cases h : k < 5
    · exact (show ∀ k, k < 5 → tinyTable k < 2 ^ (tinyCam.int1.bd + 21) by decide +kernel) k h
    · have : tinyTable k = 0 := by
        unfold tinyTable
        rw [List.getD_eq_getElem?_getD, List.getElem?_eq_none (by rw [show (initHuffTable 4).length = 5 by decide +kernel]; omega)]
        rfl
      rw [this]; decide
  master := by decide +kernel
  reset := Or.inl rfl
  ports := by
    have : ∀ i ∈ (([] ++ tinyMicroProgram ++ (List.replicate 41 tinyPixel ++ [tinyPixel])).map LiteCamIn.cam),
        i.valid = true → i.pixels.length = tinyCam.int1.ps ∧ ∀ p ∈ i.pixels, p < 2 ^ tinyCam.int1.bd := by decide +kernel
    exact this
  idle := by decide +kernel
  written := Or.inl (by decide +kernel)
  kept := by decide +kernel

set_option maxRecDepth 40000 in
example : (∀ x ∈ MicroCfg.lcGiven tinyCam (MicroCfg.lcRun tinyCam (.init tinyCam tinyTable) []) (tinyMicroProgram ++ List.replicate 41 tinyPixel), x.2 = false) ∧
    (0xFFFE, true) ∈ MicroCfg.lcGiven tinyCam (MicroCfg.lcRun tinyCam (.init tinyCam tinyTable) [])
      (tinyMicroProgram ++ List.replicate 41 tinyPixel ++ [tinyPixel]) ∧
    (MicroCfg.regsOf tinyCam tinyTable ([] ++ tinyMicroProgram)).hw = 0x40002 ∧
    (MicroCfg.regsOf tinyCam tinyTable ([] ++ tinyMicroProgram)).allowed = 30 := by
  decide +kernel

/-- A bus master that asks for nothing keeps the rules. -/
theorem idle_master (c : CoreCfg) (b : LiteIn) (h : b.arvalid = false ∧ b.awvalid = false ∧ b.wvalid = false) :
    ∀ (l : List LiteCamIn) (g : CoreRegs) (s : LiteCam), (∀ i ∈ l, i.bus = b) → MicroCfg.LcMaster c (g, .idle) s l := by
  obtain ⟨h1, h2, h3⟩ := h
  intro l
  induction l with
  | nil => intro _ _ _; trivial
  | cons i r ih =>
    intro g s hl
    have hi := hl i (by simp)
    refine ⟨fun _ => ⟨rfl, by rw [hi, h1], by rw [hi, h2]⟩, ?_, ?_⟩
    · intro j hj
      have := hl j (by simp [List.mem_of_mem_head? hj])
      rw [hi, this]
      exact ⟨by simp [h1], by simp [h2], by simp [h3], by simp [h3], fun h _ => h, fun h _ => h⟩
    · have e : regsAfter (coreMap c.int1.bd false) (g, .idle) (liteEvents s.lite.out i.bus) = (g, .idle) := by
        rw [hi]
        simp only [liteEvents, h1, h2, h3, Bool.false_and, Bool.false_eq_true, if_false, List.nil_append]
        cases s.lite.out.rvalid && b.rready <;> cases s.lite.out.bvalid && b.bready <;> rfl
      rw [e]
      exact ih g _ fun j hj => hl j (by simp [hj])

theorem master_append (c : CoreCfg) (a : List LiteCamIn) (j : LiteCamIn) (r : List LiteCamIn) : ∀ (st : CoreRegs × BusPhase) (s : LiteCam),
    MicroCfg.LcMaster c st s (a ++ [j]) →
    MicroCfg.LcMaster c (regsAfter (coreMap c.int1.bd false) st (MicroCfg.lcEvents c s a)) (MicroCfg.lcRun c s a) (j :: r) →
    MicroCfg.LcMaster c st s (a ++ j :: r) := by
  induction a with
  | nil => intro st s _ h; simpa [MicroCfg.lcEvents, MicroCfg.lcRun, regsAfter] using h
  | cons i a ih =>
    intro st s h h'
    obtain ⟨h1, h2, h3⟩ := h
    refine ⟨h1, ?_, ih _ _ h3 ?_⟩
    · intro k hk
      apply h2 k
      cases a <;> simpa using hk
    · rw [MicroCfg.lcEvents, regsAfter_append] at h'
      exact h'

-- The hypotheses of `C69_always_ends`: three register writes, then pixels for ever.
set_option maxRecDepth 40000 in
example (n : Nat) : MicroCfg.ProgrammedRun tinyCam tinyTable [] tinyMicroProgram ((List.range n).map fun _ => tinyPixel) where
  init k := by
    by_cases h : k < 5
    · exact (show ∀ k, k < 5 → tinyTable k < 2 ^ (tinyCam.int1.bd + 21) by decide +kernel) k h
    · have : tinyTable k = 0 := by
        unfold tinyTable
        rw [List.getD_eq_getElem?_getD, List.getElem?_eq_none (by rw [show (initHuffTable 4).length = 5 by decide +kernel]; omega)]
        rfl
      rw [this]; decide
  master := by
    cases n with
    | zero => decide +kernel
    | succ n =>
      rw [List.range_succ_eq_map, List.map_cons]
      refine master_append _ _ _ _ _ _ (by decide +kernel) ?_
      have e : (regsAfter (coreMap tinyCam.int1.bd false) (resetRegs tinyTable, .idle)
        (MicroCfg.lcEvents tinyCam (LiteCam.init tinyCam tinyTable) ([] ++ tinyMicroProgram))).2 = .idle := by decide +kernel
      generalize regsAfter (coreMap tinyCam.int1.bd false) (resetRegs tinyTable, .idle)
        (MicroCfg.lcEvents tinyCam (LiteCam.init tinyCam tinyTable) ([] ++ tinyMicroProgram)) = st at e
      obtain ⟨g, p⟩ := st
      simp only at e
      subst e
      refine idle_master tinyCam tinyPixel.bus ⟨rfl, rfl, rfl⟩ _ g _ ?_
      intro i hi
      rcases List.mem_cons.1 hi with rfl | hi
      · rfl
      · obtain ⟨_, _, rfl⟩ := List.mem_map.1 hi
        rfl
  reset := Or.inl rfl
  ports := by
    have h1 : ∀ i ∈ (tinyMicroProgram.map LiteCamIn.cam),
        i.valid = true → i.pixels.length = tinyCam.int1.ps ∧ ∀ p ∈ i.pixels, p < 2 ^ tinyCam.int1.bd := by decide +kernel
    intro i hi
    rw [List.nil_append, List.map_append, List.mem_append] at hi
    rcases hi with hi | hi
    · exact h1 i hi
    · simp only [List.map_map, List.mem_map] at hi
      obtain ⟨_, _, rfl⟩ := hi
      exact (show tinyPixel.cam.valid = true → tinyPixel.cam.pixels.length = tinyCam.int1.ps ∧
        ∀ p ∈ tinyPixel.cam.pixels, p < 2 ^ tinyCam.int1.bd by decide +kernel)
  idle := by decide +kernel
  written := Or.inl (by decide +kernel)
  kept := by
    intro i hi
    obtain ⟨_, _, rfl⟩ := List.mem_map.1 hi
    rfl

end Props
