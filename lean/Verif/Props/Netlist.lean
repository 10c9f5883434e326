/- The shipped Verilog netlist of the beta core (verilog_src/beta_integration.v): C70, C71. -/
import Verif.Netlist.Top
import Verif.Props.Budget
import Verif.Props.Config

set_option autoImplicit false

namespace Props
open Spec Model Netlist

/-- The input ports of the netlist in one cycle. -/
structure NetIn where
  fullRst : Bool
  busy : Bool
  pixel1 : Nat
  pixel2 : Nat
  valid : Bool

/-- The pixel ports have 12 bits. -/
def NetIn.Ok (i : NetIn) : Prop := i.pixel1 < 4096 ∧ i.pixel2 < 4096

/-- The same input of the model. -/
def NetIn.cam (i : NetIn) : CamIn := ⟨[i.pixel1, i.pixel2], i.valid, i.busy⟩

/-- The output ports in one cycle: `nready`, `data_out`, `valid_out`, `end_out`. -/
structure NetOut where
  nready : Bool
  data : Nat
  valid : Bool
  endd : Bool
deriving DecidableEq

/-- The netlist's output ports in a cycle with `busy_in`. -/
def netOut (s : Beta.top.S) (busy : Bool) : NetOut :=
  ⟨Beta.top.nready s, Beta.top.data_out s busy, Beta.top.valid_out s busy, Beta.top.end_out s busy⟩

/-- A clock edge of the netlist. -/
def netStep (s : Beta.top.S) (i : NetIn) : Beta.top.S := Beta.top.step s i.fullRst i.busy i.pixel1 i.pixel2 i.valid

/-- The outputs of the netlist, cycle by cycle. -/
def netOuts : Beta.top.S → List NetIn → List NetOut
  | _, [] => []
  | s, i :: r => netOut s i.busy :: netOuts (netStep s i) r

/-- The outputs of the model of beta_integration.py, cycle by cycle. -/
def modelOuts (c : CoreCfg) : RegCam → List NetIn → List NetOut
  | _, [] => []
  | s, i :: r => ⟨s.cam.nready, (s.cam.out i.busy).data, (s.cam.out i.busy).valid, (s.cam.out i.busy).endd⟩ ::
      modelOuts c (s.stepFull c i.fullRst i.cam) r

theorem net_step (s : Beta.top.S) (i : NetIn) (h : Beta.WfTop s) :
    Beta.absTop (netStep s i) = (Beta.absTop s).stepFull (Beta.coreCfg 0 0) i.fullRst i.cam := by
  obtain ⟨f, b, x, x', v⟩ := i
  cases f
  · exact Beta.top_step s x x' v b h
  · have hr := Beta.top_reset s x x' v b true h (by simp)
    show RegCam.mk (Beta.absCam (Beta.top.step s true b x x' v)) _ = _
    rw [hr]
    rfl

theorem net_wf (s : Beta.top.S) (i : NetIn) (h : Beta.WfTop s) (hi : i.Ok) : Beta.WfTop (netStep s i) :=
  Beta.top_wf s _ _ _ _ _ h hi.1 hi.2

theorem net_out (s : Beta.top.S) (b : Bool) (h : Beta.WfTop s) :
    netOut s b = ⟨(Beta.absTop s).cam.nready, ((Beta.absTop s).cam.out b).data, ((Beta.absTop s).cam.out b).valid,
      ((Beta.absTop s).cam.out b).endd⟩ := by
  unfold netOut
  rw [show (Beta.absTop s).cam.out b = _ from (Beta.top_out s b h).symm, Beta.top_nready]
  rfl

theorem net_outs (l : List NetIn) : ∀ s, Beta.WfTop s → (∀ i ∈ l, i.Ok) →
    netOuts s l = modelOuts (Beta.coreCfg 0 0) (Beta.absTop s) l := by
  induction l with
  | nil => intro s _ _; rfl
  | cons i r ih =>
    intro s h hl
    rw [netOuts, modelOuts, net_out s _ h, ih _ (net_wf s i h (hl i (by simp))) (fun j hj => hl j (by simp [hj])), net_step s i h]

/-- A model state that agrees with the netlist's state on everything in use. -/
structure NetSim (s : Beta.top.S) (t : RegCam) : Prop where
  cam : CamSim (Beta.coreCfg 0 0) (Beta.absTop s).cam t.cam
  regs : (Beta.absTop s).regs = t.regs
  size : SizeOk (Beta.coreCfg 0 0) t.cam

theorem camSim_regs {W H W' H' : Nat} {a b : Cam} (h : CamSim (Beta.coreCfg W H) a b) : CamSim (Beta.coreCfg W' H') a b :=
  ⟨⟨h.core.int1, h.core.pfifo, h.core.conv, h.core.cfifo, h.core.ctl, h.core.vbits⟩, h.rest⟩

theorem netSim_step {s : Beta.top.S} {t : RegCam} (h : NetSim s t) (hs : Beta.WfTop s) (i : NetIn) (hi : i.Ok) :
    NetSim (netStep s i) (t.stepFull (Beta.coreCfg 0 0) i.fullRst i.cam) := by
  have ws := Beta.top_kept _ (net_wf s i hs hi)
  have es := net_step s i hs
  have hreg : (Beta.absTop (netStep s i)).regs = (t.stepFull (Beta.coreCfg 0 0) i.fullRst i.cam).regs := by
    rw [es]; unfold RegCam.stepFull; cases i.fullRst <;> rfl
  have hrun : SizeOk (Beta.coreCfg 0 0) (t.cam.betaRun ((Beta.coreCfg 0 0).withRegs t.regs.width t.regs.height (Beta.coreCfg 0 0).int1.mem)
      t.regs.allowed i.cam) :=
    sizeOk_run h.size { cam := i.cam, W := t.regs.width, H := t.regs.height, mem := (Beta.coreCfg 0 0).int1.mem, allowed := t.regs.allowed } (fun _ => rfl)
  have hk := sizeOk_kept hrun
  have hz := sizeOk_reset (c := Beta.coreCfg 0 0) (by decide) hk
  have hro : (Beta.absTop s).cam.resetOut = t.cam.resetOut := h.cam.rest.2.2.2.2
  have hreg0 := h.regs
  have hcam := h.cam
  rw [es] at ws
  refine ⟨?_, hreg, ?_⟩
  · rw [es]
    unfold RegCam.stepFull at *
    cases hf : i.fullRst
    · rw [hf] at ws
      simp only [Bool.false_eq_true, if_false, RegCam.step, Cam.betaStep] at ws ⊢
      rw [hreg0] at ws ⊢
      cases hr : t.cam.resetOut
      · rw [hro, hr]
        exact camSim_regs (camSim_run (camSim_regs hcam) _ _)
      · rw [hro, hr] at ws
        rw [hro, hr]
        exact camSim_reset (c := Beta.coreCfg 0 0) (by decide) (by decide) ws hk
    · rw [hf] at ws
      exact camSim_reset (c := Beta.coreCfg 0 0) (by decide) (by decide) ws hk
  · unfold RegCam.stepFull
    cases i.fullRst
    · simp only [Bool.false_eq_true, if_false, RegCam.step, Cam.betaStep]
      cases t.cam.resetOut
      · exact hrun
      · exact hz
    · exact hz

theorem netSim_outs (l : List NetIn) : ∀ s t, NetSim s t → Beta.WfTop s → (∀ i ∈ l, i.Ok) →
    netOuts s l = modelOuts (Beta.coreCfg 0 0) t l := by
  induction l with
  | nil => intro s t _ _ _; rfl
  | cons i r ih =>
    intro s t h hs hl
    have hi := hl i (by simp)
    obtain ⟨h1, h2⟩ := camSim_out h.cam i.busy
    rw [netOuts, modelOuts, net_out s _ hs, h1, h2,
      ih _ _ (netSim_step h hs i hi) (net_wf s i hs hi) (fun j hj => hl j (by simp [hj]))]

theorem modelOuts_cfg (l : List NetIn) : ∀ t, modelOuts betaCore t l = modelOuts (Beta.coreCfg 0 0) t l := by
  induction l with
  | nil => intro t; rfl
  | cons i r ih => intro t; rw [modelOuts, modelOuts, ih]; rfl

/-- C70: from power-up, whatever the registers without an initial value hold (the read registers of the memories), and
for every sequence of inputs, external resets included, the output ports of the netlist show in every cycle exactly what
the model of migen_src/beta_integration.py shows. -/
theorem C70_netlist_is_source (s : Beta.top.S) (hs : Beta.top.Init s) (l : List NetIn) (hl : ∀ i ∈ l, i.Ok) :
    netOuts s l = modelOuts betaCore (RegCam.init betaCore) l := by
  rw [modelOuts_cfg]
  show _ = modelOuts (Beta.coreCfg 0 0) (RegCam.init (Beta.coreCfg 0 0)) l
  obtain ⟨h1, h2, h3⟩ := Beta.top_init s hs
  obtain ⟨m, hm, he⟩ := init_afterReset (Beta.coreCfg 0 0)
  have h0 : SizeOk (Beta.coreCfg 0 0) (Cam.init (Beta.coreCfg 0 0)) := by rw [he]; exact sizeOk_reset (by decide) hm
  refine netSim_outs l _ _ ⟨?_, ?_, h0⟩ h1 hl
  · rw [h2, RegCam.init, he]
    exact camSim_reset (by decide) (by decide) h3 hm
  · rw [h2]; rfl

-- Power-up states exist, also with garbage in the read registers.
example : Beta.top.Init Beta.top.powerUp := Beta.top.powerUp_init

/-! ### C71 what the netlist does -/

/-- The state after a sequence of clock edges. -/
def netRun : Beta.top.S → List NetIn → Beta.top.S
  | s, [] => s
  | s, i :: r => netRun (netStep s i) r

/-- Pixels taken: `valid_in` and not `nready`. -/
def netAccepted : Beta.top.S → List NetIn → List Nat
  | _, [] => []
  | s, i :: r => (if i.valid && !(netOut s i.busy).nready then [i.pixel1, i.pixel2] else []) ++ netAccepted (netStep s i) r

/-- Words given: `valid_out` and not `busy_in`, with `end_out`. -/
def netGiven : Beta.top.S → List NetIn → List (Nat × Bool)
  | _, [] => []
  | s, i :: r => (if (netOut s i.busy).valid && !i.busy then [((netOut s i.busy).data, (netOut s i.busy).endd)] else []) ++
      netGiven (netStep s i) r

/-- Histories from power-up state `s` after which a frame starts: none, those that end in an external reset, and those
that end with the cycle after the one in which the end word of the frame before was given. -/
inductive FrameStart (s : Beta.top.S) : List NetIn → Prop
  | powerUp : FrameStart s []
  | reset (hist : List NetIn) (b : NetIn) : b.fullRst = true → FrameStart s (hist ++ [b])
  | next (hist ins : List NetIn) (a b : NetIn) : FrameStart s hist → (∀ i ∈ ins ++ [a], i.fullRst = false) →
      (∀ x ∈ netGiven (netRun s hist) ins, x.2 = false) →
      (∃ x ∈ netGiven (netRun s hist) (ins ++ [a]), x.2 = true) → FrameStart s (hist ++ ins ++ [a] ++ [b])

theorem netRun_append (l m : List NetIn) : ∀ s, netRun s (l ++ m) = netRun (netRun s l) m := by
  induction l with
  | nil => intro s; rfl
  | cons i r ih => intro s; exact ih _

theorem netGiven_append (l m : List NetIn) : ∀ s, netGiven s (l ++ m) = netGiven s l ++ netGiven (netRun s l) m := by
  induction l with
  | nil => intro s; rfl
  | cons i r ih => intro s; rw [List.cons_append, netGiven, netGiven, ih, List.append_assoc]; rfl

theorem netRun_wf (l : List NetIn) : ∀ s, Beta.WfTop s → (∀ i ∈ l, i.Ok) → Beta.WfTop (netRun s l) := by
  induction l with
  | nil => intro s h _; exact h
  | cons i r ih => intro s h hl; exact ih _ (net_wf s i h (hl i (by simp))) (fun j hj => hl j (by simp [hj]))

theorem kept_beta {m : Kept} (h : m.Ok (Beta.coreCfg 0 0)) : m.Ok betaCore := ⟨h.pm, h.cm, h.rp⟩

/-- The state at the start of a frame. -/
def FreshState (s : Beta.top.S) : Prop :=
  Beta.WfTop s ∧ ∃ m, m.Ok betaCore ∧ (Beta.absTop s).cam = Cam.reset betaCore m ∧
    ((Beta.absTop s).regs = RegFile.init ∨ (Beta.absTop s).regs = ⟨4096, 3072, 6666000⟩)

theorem netEnd_step {s : Beta.top.S} (h : Beta.WfTop s) (hr : (Beta.absTop s).cam.resetOut = false) (i : NetIn)
    (hi : i.fullRst = false) : (Beta.absTop (netStep s i)).cam.resetOut =
      ((netOut s i.busy).valid && !i.busy && (netOut s i.busy).endd) := by
  rw [net_step s i h, net_out s _ h]
  simp only [RegCam.stepFull, hi, Bool.false_eq_true, if_false, RegCam.step, Cam.betaStep, hr, Cam.betaRun, Cam.resetNext,
    AutoReset.next]
  show (if (((Beta.absTop s).cam.out i.busy).valid && !i.busy && ((Beta.absTop s).cam.out i.busy).endd) = true then true else _) = _
  cases ((Beta.absTop s).cam.out i.busy).valid && !i.busy && ((Beta.absTop s).cam.out i.busy).endd <;> simp

theorem netEnd_run (l : List NetIn) : ∀ s, Beta.WfTop s → (∀ i ∈ l, i.Ok) → (∀ i ∈ l, i.fullRst = false) →
    (Beta.absTop s).cam.resetOut = false → (∀ x ∈ netGiven s l, x.2 = false) → (Beta.absTop (netRun s l)).cam.resetOut = false := by
  induction l with
  | nil => intro s _ _ _ h _; exact h
  | cons i r ih =>
    intro s h hl hf hr hn
    refine ih _ (net_wf s i h (hl i (by simp))) (fun j hj => hl j (by simp [hj])) (fun j hj => hf j (by simp [hj])) ?_
      (fun x hx => hn x (by rw [netGiven]; exact List.mem_append_right _ hx))
    rw [netEnd_step h hr i (hf i (by simp))]
    cases hv : (netOut s i.busy).valid && !i.busy
    · rfl
    · exact hn ((netOut s i.busy).data, (netOut s i.busy).endd) (by rw [netGiven, hv]; exact List.mem_append_left _ (by simp))

theorem fresh_of_start (s : Beta.top.S) (hs : Beta.top.Init s) (hist : List NetIn) (hl : ∀ i ∈ hist, i.Ok)
    (h : FrameStart s hist) : FreshState (netRun s hist) := by
  obtain ⟨h1, h2, h3⟩ := Beta.top_init s hs
  induction h with
  | powerUp => exact ⟨h1, _, kept_beta h3, congrArg RegCam.cam h2, Or.inl (congrArg RegCam.regs h2)⟩
  | reset hist b hb =>
    have hw := netRun_wf hist s h1 (fun j hj => hl j (by simp [hj]))
    rw [netRun_append]
    refine ⟨net_wf _ _ hw (hl b (by simp)), (Beta.absTop (netStep (netRun s hist) b)).cam.core.int2.kept, ?_, ?_, ?_⟩
    · exact kept_beta (Beta.top_kept _ (net_wf _ _ hw (hl b (by simp))))
    · obtain ⟨f, bb, x, x', v⟩ := b
      have hb : f = true := hb
      subst hb
      exact congrArg RegCam.cam (Beta.top_full _ x x' v bb hw)
    · obtain ⟨f, bb, x, x', v⟩ := b
      have hb : f = true := hb
      subst hb
      exact Or.inl (congrArg RegCam.regs (Beta.top_full _ x x' v bb hw))
  | next hist ins a b hst hf hn he ih =>
    have hl' : ∀ i ∈ hist, i.Ok := fun j hj => hl j (by simp [hj])
    have hli : ∀ i ∈ ins, i.Ok := fun j hj => hl j (by simp [hj])
    obtain ⟨f1, m, hm, hc, hrg⟩ := ih hl'
    have hr0 : (Beta.absTop (netRun s hist)).cam.resetOut = false := by rw [hc]; rfl
    have hr1 := netEnd_run ins _ f1 hli (fun i hi => hf i (by simp [hi])) hr0 hn
    have w1 := netRun_wf ins _ f1 hli
    have hr2 : (Beta.absTop (netStep (netRun (netRun s hist) ins) a)).cam.resetOut = true := by
      rw [netEnd_step w1 hr1 a (hf a (by simp))]
      obtain ⟨x, hx, hxe⟩ := he
      rw [netGiven_append] at hx
      rcases List.mem_append.1 hx with hx | hx
      · rw [hn x hx] at hxe; cases hxe
      · simp only [netGiven, List.append_nil] at hx
        split at hx
        · rename_i hv
          have e := List.mem_singleton.1 hx
          rw [e] at hxe
          rw [hv]
          exact hxe
        · simp at hx
    have w2 := net_wf _ a w1 (hl a (by simp))
    rw [netRun_append, netRun_append, netRun_append]
    show FreshState (netStep (netStep (netRun (netRun s hist) ins) a) b)
    generalize netStep (netRun (netRun s hist) ins) a = t at *
    have w3 := net_wf _ b w2 (hl b (by simp))
    refine ⟨w3, (Beta.absTop (netStep t b)).cam.core.int2.kept, kept_beta (Beta.top_kept _ w3), ?_, ?_⟩
    · obtain ⟨f, bb, x, x', v⟩ := b
      have e := Beta.top_reset t x x' v bb f w2 (by rw [show t.u_auto_reset.reset_out = true from hr2]; rfl)
      show Beta.absCam _ = Cam.reset betaCore (Beta.absCam _).core.int2.kept
      rw [show Beta.absCam (netStep t ⟨f, bb, x, x', v⟩) = _ from e]
      rfl
    · rw [net_step _ _ w2]
      unfold RegCam.stepFull
      cases b.fullRst
      · exact Or.inr rfl
      · exact Or.inl rfl

/-- Once the register file shows its constants, what the netlist takes and gives is what the model takes and gives. -/
theorem net_traffic (l : List NetIn) : ∀ s, Beta.WfTop s → (∀ i ∈ l, i.Ok) → (∀ i ∈ l, i.fullRst = false) →
    (Beta.absTop s).regs = ⟨4096, 3072, 6666000⟩ →
    netAccepted s l = camAccepted betaCore 6666000 (Beta.absTop s).cam (l.map NetIn.cam) ∧
    netGiven s l = camGiven betaCore 6666000 (Beta.absTop s).cam (l.map NetIn.cam) := by
  induction l with
  | nil => intro s _ _ _ _; exact ⟨rfl, rfl⟩
  | cons i r ih =>
    intro s h hl hf hr
    have e : Beta.absTop (netStep s i) = RegCam.mk ((Beta.absTop s).cam.betaStep betaCore 6666000 i.cam) ⟨4096, 3072, 6666000⟩ := by
      rw [net_step s i h, RegCam.stepFull, hf i (by simp)]
      simp only [Bool.false_eq_true, if_false, RegCam.step, hr]
      rfl
    obtain ⟨e1, e2⟩ := ih _ (net_wf s i h (hl i (by simp))) (fun j hj => hl j (by simp [hj])) (fun j hj => hf j (by simp [hj]))
      (by rw [e])
    rw [e] at e1 e2
    refine ⟨?_, ?_⟩
    · rw [netAccepted, List.map_cons, camAccepted, e1, net_out s _ h]; rfl
    · rw [netGiven, List.map_cons, camGiven, e2, net_out s _ h]; rfl

/-- The first cycle of a frame, in which the register file may show 0. -/
theorem fresh_step (m : Kept) (r : RegFile) (i : CamIn) (hr : r = RegFile.init ∨ r = ⟨4096, 3072, 6666000⟩) :
    (RegCam.step (Beta.coreCfg 0 0) ⟨Cam.reset betaCore m, r⟩ i).cam = (Cam.reset betaCore m).betaStep betaCore 6666000 i := by
  rcases hr with rfl | rfl
  · have hn : (Cam.reset betaCore m).core.nready = true := rfl
    have hn2 : (Cam.reset betaCore m).core.int2.nready = true := rfl
    have hs : (Cam.reset betaCore m).core.int2.int1.signals.fsm = .idle := rfl
    have hf : (Cam.reset betaCore m).fend.fsm = .idle := rfl
    have hr : (Cam.reset betaCore m).resetOut = false := rfl
    simp only [RegCam.step, Cam.betaStep, hr, Bool.false_eq_true, if_false, Cam.betaRun, hn, Bool.not_true, Bool.and_false,
      ForceEnd.step, hf, Int3.step, Int2.step, hn2, Int1.step, Signals.step, hs]
    rfl
  · rfl

/-- From the start of a frame, what the netlist takes and gives is what the model takes and gives. -/
theorem fresh_traffic {s : Beta.top.S} (hs : FreshState s) : ∃ m, m.Ok betaCore ∧
    (∀ l : List NetIn, (∀ i ∈ l, i.Ok) → (∀ i ∈ l, i.fullRst = false) →
      netAccepted s l = camAccepted betaCore 6666000 (Cam.reset betaCore m) (l.map NetIn.cam)) ∧
    (∀ l : List NetIn, (∀ i ∈ l, i.Ok) → (∀ i ∈ l, i.fullRst = false) →
      netGiven s l = camGiven betaCore 6666000 (Cam.reset betaCore m) (l.map NetIn.cam)) := by
  obtain ⟨h1, m, hm, hc, hr⟩ := hs
  refine ⟨m, hm, ?_⟩
  rw [← forall_and]
  intro l
  suffices h : (∀ i ∈ l, i.Ok) → (∀ i ∈ l, i.fullRst = false) →
      netAccepted s l = camAccepted betaCore 6666000 (Cam.reset betaCore m) (l.map NetIn.cam) ∧
      netGiven s l = camGiven betaCore 6666000 (Cam.reset betaCore m) (l.map NetIn.cam) from
    ⟨fun a b => (h a b).1, fun a b => (h a b).2⟩
  intro hl hf
  cases l with
  | nil => exact ⟨rfl, rfl⟩
  | cons i r =>
    have e : Beta.absTop (netStep s i) = RegCam.mk ((Cam.reset betaCore m).betaStep betaCore 6666000 i.cam) ⟨4096, 3072, 6666000⟩ := by
      rw [net_step s i h1, RegCam.stepFull, hf i (by simp)]
      have := fresh_step m _ i.cam hr
      rw [← hc] at this
      simp only [Bool.false_eq_true, if_false]
      rw [← hc, ← this]
      rfl
    obtain ⟨e1, e2⟩ := net_traffic r _ (net_wf s i h1 (hl i (by simp))) (fun j hj => hl j (by simp [hj])) (fun j hj => hf j (by simp [hj]))
      (by rw [e])
    rw [e] at e1 e2
    refine ⟨?_, ?_⟩
    · rw [netAccepted, List.map_cons, camAccepted, e1, net_out s _ h1, hc]; rfl
    · rw [netGiven, List.map_cons, camGiven, e2, net_out s _ h1, hc]; rfl

theorem netCam_wf (l : List NetIn) (hl : ∀ i ∈ l, i.Ok) : CamWf betaCore (l.map NetIn.cam) := by
  intro j hj _
  obtain ⟨i, hi, rfl⟩ := List.mem_map.1 hj
  refine ⟨rfl, ?_⟩
  intro x hx
  have := hl i hi
  simp only [NetIn.cam, List.mem_cons, List.not_mem_nil, or_false] at hx
  show x < 4096
  rcases hx with rfl | rfl
  · exact this.1
  · exact this.2

theorem beta_setup : CamSetup betaCore defaultTable := ⟨default_setup (by decide) rfl, rfl, default_long _ (by decide)⟩

/-- A frame of the netlist as a frame of the model. -/
theorem net_frame {s : Beta.top.S} (hs : Beta.top.Init s) {hist : List NetIn} (hst : FrameStart s hist)
    {ins : List NetIn} {i : NetIn} (hok : ∀ j ∈ hist ++ (ins ++ [i]), j.Ok) (hf : ∀ j ∈ ins ++ [i], j.fullRst = false) :
    ∃ a, CamAfterReset betaCore a ∧ CamWf betaCore (ins.map NetIn.cam ++ [i.cam]) ∧
      netGiven (netRun s hist) ins = camGiven betaCore 6666000 a (ins.map NetIn.cam) ∧
      netAccepted (netRun s hist) (ins ++ [i]) = camAccepted betaCore 6666000 a (ins.map NetIn.cam ++ [i.cam]) ∧
      netGiven (netRun s hist) (ins ++ [i]) = camGiven betaCore 6666000 a (ins.map NetIn.cam ++ [i.cam]) := by
  have o2 : ∀ j ∈ ins ++ [i], j.Ok := fun j hj => hok j (List.mem_append_right _ hj)
  have hfr := fresh_of_start s hs hist (fun j hj => hok j (List.mem_append_left _ hj)) hst
  obtain ⟨m, hm, e1, e2⟩ := fresh_traffic hfr
  have em : (ins ++ [i]).map NetIn.cam = ins.map NetIn.cam ++ [i.cam] := by simp
  refine ⟨_, ⟨m, hm, rfl⟩, em ▸ netCam_wf _ o2, (e2 ins (fun j hj => o2 j (by simp [hj])) (fun j hj => hf j (by simp [hj]))), ?_, ?_⟩
  · rw [e1 _ o2 hf, em]
  · rw [e2 _ o2 hf, em]

/-- C71, the frame: from every start of a frame (power-up, an external reset, the end of the frame before) to the first
word with the end flag, with no external reset in between, the netlist gives the start marker, data words and an end
marker. With FFFF at the end, 4096 x 3072 pixels were accepted and the data words are the byte-stuffed code of them;
with FFFE they are a prefix of that. -/
theorem C71_netlist_frame (s : Beta.top.S) (hs : Beta.top.Init s) (hist : List NetIn) (hst : FrameStart s hist)
    (ins : List NetIn) (i : NetIn) (hok : ∀ j ∈ hist ++ (ins ++ [i]), j.Ok) (hf : ∀ j ∈ ins ++ [i], j.fullRst = false)
    (hno : ∀ x ∈ netGiven (netRun s hist) ins, x.2 = false)
    (w : Nat) (hw : (w, true) ∈ netGiven (netRun s hist) (ins ++ [i])) :
    let acc := netAccepted (netRun s hist) (ins ++ [i])
    ∃ body, netGiven (netRun s hist) (ins ++ [i]) = startMark ++ body ++ endMark w ∧ (∀ x ∈ body, x.2 = false) ∧
      ((w = 0xFFFF ∧ acc.length = 4096 * 3072 ∧
          ∃ bytes k j, k ≤ 1 ∧ j < 16 ∧ wordBytes body = stuff bytes ++ List.replicate k 0 ∧
            byteBits bytes = encode defaultTable 12 4096 acc ++ List.replicate j false) ∨
       (w = 0xFFFE ∧ ∃ bytes, wordBytes body <+: stuff bytes ∧
          (byteBits bytes <+: encode defaultTable 12 4096 acc ∨
            acc.length = 4096 * 3072 ∧ ∃ j, j < 16 ∧
              byteBits bytes = encode defaultTable 12 4096 acc ++ List.replicate j false))) := by
  intro acc
  obtain ⟨a, ha, hwf, e0, e1, e2⟩ := net_frame hs hst hok hf
  show ∃ body, _ ∧ _ ∧ ((_ ∧ (netAccepted (netRun s hist) (ins ++ [i])).length = _ ∧ _) ∨ _)
  simp only [acc]
  rw [e0] at hno
  rw [e2] at hw ⊢
  rw [e1]
  exact C30_frame beta_setup 6666000 ha _ _ hwf hno w hw

/-- C71, decoding: what a T.81 decoder with the default table reads from the data words of a normally ended frame is the
image of 4096 x 3072 pixels that was accepted. -/
theorem C71_netlist_image_recovered (s : Beta.top.S) (hs : Beta.top.Init s) (hist : List NetIn) (hst : FrameStart s hist)
    (ins : List NetIn) (i : NetIn) (hok : ∀ j ∈ hist ++ (ins ++ [i]), j.Ok) (hf : ∀ j ∈ ins ++ [i], j.fullRst = false)
    (hno : ∀ x ∈ netGiven (netRun s hist) ins, x.2 = false)
    (hw : (0xFFFF, true) ∈ netGiven (netRun s hist) (ins ++ [i])) :
    let words := netGiven (netRun s hist) (ins ++ [i])
    ∃ pad, decode defaultTable 13 12 4096 (4096 * 3072) []
      (byteBits (unstuff (wordBytes ((words.drop 8).take (words.length - 16))))) =
        some (netAccepted (netRun s hist) (ins ++ [i]), pad) := by
  intro words
  obtain ⟨a, ha, hwf, e0, e1, e2⟩ := net_frame hs hst hok hf
  rw [e0] at hno
  rw [e2] at hw
  simp only [words]
  rw [e1, e2]
  exact C30_image_recovered beta_setup (by decide) 6666000 ha _ _ hwf hno hw

/-- C71, the forced end comes only when it may: a pixel of the frame was accepted at least 6666010 cycles before. -/
theorem C71_netlist_forced_end_in_time (s : Beta.top.S) (hs : Beta.top.Init s) (hist : List NetIn) (hst : FrameStart s hist)
    (ins : List NetIn) (i : NetIn) (hok : ∀ j ∈ hist ++ (ins ++ [i]), j.Ok) (hf : ∀ j ∈ ins ++ [i], j.fullRst = false)
    (hno : ∀ x ∈ netGiven (netRun s hist) ins, x.2 = false)
    (hw : (0xFFFE, true) ∈ netGiven (netRun s hist) (ins ++ [i])) :
    ∃ early late, ins = early ++ late ∧ netAccepted (netRun s hist) early ≠ [] ∧ 6666010 ≤ late.length := by
  have hok0 := hok
  have hf0 := hf
  have o2 : ∀ j ∈ ins ++ [i], j.Ok := fun j hj => hok j (List.mem_append_right _ hj)
  have hfr := fresh_of_start s hs hist (fun j hj => hok j (List.mem_append_left _ hj)) hst
  obtain ⟨m, hm, e1, e2⟩ := fresh_traffic hfr
  rw [e2 _ o2 hf, show (ins ++ [i]).map NetIn.cam = ins.map NetIn.cam ++ [i.cam] by simp] at hw
  rw [e2 ins (fun j hj => o2 j (by simp [hj])) (fun j hj => hf j (by simp [hj]))] at hno
  obtain ⟨pre, j, post, e, hv, hr, hlen⟩ := C57_beta_forced_end_in_time betaCore 6666000 ⟨m, hm, rfl⟩ _ _ hno hw
  refine ⟨ins.take (pre.length + 1), ins.drop (pre.length + 1), (List.take_append_drop _ _).symm, ?_, ?_⟩
  · have hp : ∀ j ∈ ins.take (pre.length + 1), j ∈ ins ++ [i] := fun j hj => List.mem_append_left _ (List.mem_of_mem_take hj)
    rw [e1 _ (fun j hj => o2 j (hp j hj)) (fun j hj => hf j (hp j hj))]
    have em : (ins.take (pre.length + 1)).map NetIn.cam = pre ++ [j] := by
      rw [List.map_take, e, show pre ++ j :: post = (pre ++ [j]) ++ post by simp]
      exact List.take_left' (by simp)
    have hj : j ∈ ins.map NetIn.cam := by rw [e]; simp
    obtain ⟨k, _, rfl⟩ := List.mem_map.1 hj
    rw [em, camAccepted_append]
    simp only [camAccepted, List.append_nil, ne_eq, List.append_eq_nil_iff, not_and]
    intro _
    rw [hv, hr]
    simp [NetIn.cam]
  · have := congrArg List.length e
    simp only [List.length_map, List.length_append, List.length_cons] at this
    rw [List.length_drop]
    omega

/-- C71, progress: if pixels are offered again and again and the receiver is free again and again, every frame ends. -/
theorem C71_netlist_always_ends (s : Beta.top.S) (hs : Beta.top.Init s) (hist : List NetIn) (hst : FrameStart s hist)
    (hok : ∀ j ∈ hist, j.Ok) (u : Nat → NetIn) (hu : ∀ t, (u t).Ok ∧ (u t).fullRst = false)
    (hprod : ∀ n, ∃ m, n ≤ m ∧ (u m).valid = true) (hcons : ∀ n, ∃ m, n ≤ m ∧ (u m).busy = false) :
    ∃ t w, (w, true) ∈ netGiven (netRun s hist) ((List.range t).map u) := by
  obtain ⟨m, hm, e1, e2⟩ := fresh_traffic (fresh_of_start s hs hist hok hst)
  obtain ⟨t, w, h⟩ := C50_always_ends beta_setup (allowed := 6666000) (by decide) ⟨m, hm, rfl⟩ (fun t => (u t).cam)
    (fun t hv => netCam_wf [u t] (by simpa using (hu t).1) _ (by simp) hv) hprod hcons
  refine ⟨t, w, ?_⟩
  have hmem : ∀ i ∈ (List.range t).map u, i.Ok ∧ i.fullRst = false := by
    intro i hi
    obtain ⟨k, _, rfl⟩ := List.mem_map.1 hi
    exact hu k
  rw [e2 _ (fun i hi => (hmem i hi).1) (fun i hi => (hmem i hi).2), List.map_map]
  exact h

/-- The hypotheses of the theorems above can be met at every start of a frame, so that frame follows frame. -/
theorem C71_netlist_frames_occur (s : Beta.top.S) (hs : Beta.top.Init s) (hist : List NetIn) (hst : FrameStart s hist)
    (hok : ∀ j ∈ hist, j.Ok) : ∃ ins i b w, (∀ j ∈ ins ++ [i] ++ [b], j.Ok ∧ j.fullRst = false) ∧
      (∀ x ∈ netGiven (netRun s hist) ins, x.2 = false) ∧ (w, true) ∈ netGiven (netRun s hist) (ins ++ [i]) ∧
      FrameStart s (hist ++ ins ++ [i] ++ [b]) := by
  let p : NetIn := ⟨false, false, 7, 9, true⟩
  have hp : p.Ok := ⟨by decide, by decide⟩
  obtain ⟨t, w, h⟩ := C71_netlist_always_ends s hs hist hst hok (fun _ => p) (fun _ => ⟨hp, rfl⟩) (fun n => ⟨n, Nat.le_refl _, rfl⟩)
    (fun n => ⟨n, Nat.le_refl _, rfl⟩)
  have hex : ∃ t w, (w, true) ∈ netGiven (netRun s hist) (List.replicate t p) := ⟨t, w, by
    rw [List.map_const', List.length_range] at h; exact h⟩
  have key : ∀ t w, (w, true) ∈ netGiven (netRun s hist) (List.replicate t p) →
      ∃ n w, (∀ x ∈ netGiven (netRun s hist) (List.replicate n p), x.2 = false) ∧
        (w, true) ∈ netGiven (netRun s hist) (List.replicate n p ++ [p]) := by
    intro t
    induction t with
    | zero => intro w h; simp [netGiven] at h
    | succ n ih =>
      intro w h
      by_cases hn : ∀ x ∈ netGiven (netRun s hist) (List.replicate n p), x.2 = false
      · exact ⟨n, w, hn, by rw [List.replicate_succ'] at h; exact h⟩
      · simp only [Classical.not_forall] at hn
        obtain ⟨⟨a, b⟩, hx, hb⟩ := hn
        have hb : b = true := by simpa using hb
        subst hb
        exact ih a hx
  obtain ⟨t, w, h⟩ := hex
  obtain ⟨n, w, h1, h2⟩ := key t w h
  have hall : ∀ j ∈ List.replicate n p ++ [p] ++ [p], j.Ok ∧ j.fullRst = false := by
    intro j hj
    have : j = p := by
      simp only [List.mem_append, List.mem_replicate, List.mem_cons, List.not_mem_nil, or_false] at hj
      rcases hj with (hj | hj) | hj
      · exact hj.2
      · exact hj
      · exact hj
    subst this; exact ⟨hp, rfl⟩
  exact ⟨List.replicate n p, p, p, w, hall, h1, h2,
    .next hist _ p p hst (fun j hj => (hall j (List.mem_append_left _ hj)).2) h1 ⟨_, h2, rfl⟩⟩

end Props
