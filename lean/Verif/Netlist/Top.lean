/- The netlist of the beta core (verilog_src/beta_integration.v) against the model of beta_integration.py. -/
import Verif.Netlist.Back
import Verif.Model.Config

set_option autoImplicit false

namespace Netlist.Beta
open Netlist Model

/-- The force-end counter of the netlist. -/
def fendOf (s : top.S) : force_end.S := s.u_integration_3.u_integration_2.u_integration_1.u_force_end

/-- The register file of the netlist. -/
def regsOf (s : top.S) : register_file.S := s.u_integration_3.u_integration_2.u_integration_1.u_register_file

/-- The registers of the netlist as registers of the model. -/
def absCam (s : top.S) : Cam :=
  { core := absInt3 s.u_integration_3, fend := absForceEnd (fendOf s), fix1 := absFix1 s.u_fix_0xff, fix2 := absFix2 s.u_fix_0xff2
    marks := absMarkers s.u_markers, resetOut := s.u_auto_reset.reset_out }

/-- The registers of the netlist as registers of the model, with the register file. -/
def absTop (s : top.S) : RegCam :=
  { cam := absCam s, regs := ⟨(regsOf s).width_reg, (regsOf s).height_reg, (regsOf s).allowed_cycles_reg⟩ }

/-- Register ranges. -/
def WfTop (s : top.S) : Prop :=
  WfInt3 s.u_integration_3 ∧ WfFix1 s.u_fix_0xff ∧ WfFix2 s.u_fix_0xff2 ∧ WfMarkers s.u_markers

theorem cam_ext {a b : Cam} (h1 : a.core = b.core) (h2 : a.fend = b.fend) (h3 : a.fix1 = b.fix1) (h4 : a.fix2 = b.fix2)
    (h5 : a.marks = b.marks) (h6 : a.resetOut = b.resetOut) : a = b := by
  cases a; cases b; simp_all

/-- The combinational outputs. -/
theorem top_out (s : top.S) (b : Bool) (h : WfTop s) :
    MarkOut.mk (top.data_out s b) (top.valid_out s b) (top.end_out s b) (top.markers_o_busy s b) = (absCam s).out b :=
  markers_out s.u_markers s.u_fix_0xff2.valid_out s.u_fix_0xff2.end_out (fendOf s).fend s.u_fix_0xff2.data_out b h.2.2.2

theorem top_nready (s : top.S) : top.nready s = (absCam s).nready := int2_nready s.u_integration_3.u_integration_2

theorem w48_eq (s : integration_2.S) (v : Bool) : integration_2.w48 s v = (v && !(absInt2 s).nready) := by
  rw [← int2_nready]; simp only [integration_2.w48, integration_2.w44, integration_2.w46]
  show (v == true && integration_2.nready s == false) = _
  cases v <;> cases integration_2.nready s <;> rfl

/-- The reset of the `sync` domain. -/
theorem top_rst (s : top.S) (full : Bool) : top.integration_3_rst s full = (s.u_auto_reset.reset_out || full) := by
  show (s.u_auto_reset.reset_out == true || full == true) = _
  cases s.u_auto_reset.reset_out <;> cases full <;> rfl

theorem top_run (s : top.S) (x x' : Nat) (v b : Bool) (h : WfTop s) (hr : s.u_auto_reset.reset_out = false) :
    absCam (top.step s false b x x' v) =
      (absCam s).betaRun (cfgOf3 s.u_integration_3) (regsOf s).allowed_cycles_reg ⟨[x, x'], v, b⟩ := by
  have hr' : top.integration_3_rst s false = false := by rw [top_rst, hr]; rfl
  have ho := top_out s b h
  obtain ⟨h1, h2, h3, h4⟩ := h
  unfold top.step
  rw [hr']
  apply cam_ext
  · exact int3_step s.u_integration_3 x x' v s.u_fix_0xff.o_busy false h1
  · refine (force_end_step (fendOf s) _ _ h1.1.1.2.2.2.1).trans ?_
    show (absForceEnd (fendOf s)).step _ (integration_2.w48 s.u_integration_3.u_integration_2 v) = _
    rw [w48_eq]; rfl
  · exact fix1_step _ _ _ _ _ h2 h1.2.2
  · refine (fix2_step _ _ _ _ _ _ h3).trans ?_
    show (absFix2 s.u_fix_0xff2).step _ _ (top.markers_o_busy s b) = (absFix2 s.u_fix_0xff2).step _ _ ((absCam s).out b).oBusy
    rw [← ho]; rfl
  · exact markers_step _ _ _ _ _ _ h4
  · show (if (top.valid_out s b == true && (b == false) == true && top.end_out s b == true) = true then true
      else s.u_auto_reset.reset_out) = AutoReset.next s.u_auto_reset.reset_out ((absCam s).out b).valid (!b) ((absCam s).out b).endd
    rw [← ho]
    show _ = AutoReset.next s.u_auto_reset.reset_out (top.valid_out s b) (!b) (top.end_out s b)
    generalize top.valid_out s b = p
    generalize top.end_out s b = q
    cases p <;> cases q <;> cases b <;> simp [AutoReset.next]

theorem kept_ext {a b : Kept} (h1 : a.pm = b.pm) (h2 : a.pd = b.pd) (h3 : a.cm = b.cm) (h4 : a.cd = b.cd) (h5 : a.rp = b.rp) :
    a = b := by
  cases a; cases b; simp_all

/-- A clock edge with the reset of the `sync` domain high. -/
theorem top_reset (s : top.S) (x x' : Nat) (v b full : Bool) (h : WfTop s) (hr : (s.u_auto_reset.reset_out || full) = true) :
    absCam (top.step s full b x x' v) = Cam.reset (cfgOf3 s.u_integration_3)
      ((absCam s).betaRun (cfgOf3 s.u_integration_3) (regsOf s).allowed_cycles_reg ⟨[x, x'], v, b⟩).core.int2.kept := by
  have hr' : top.integration_3_rst s full = true := by rw [top_rst, hr]
  obtain ⟨h1, h2, h3, h4⟩ := h
  unfold top.step
  rw [hr']
  apply cam_ext
  · exact int3_rst s.u_integration_3 x x' v s.u_fix_0xff.o_busy full h1
  · exact force_end_rst _ _ _
  · exact fix1_rst _ _ _ _ _
  · exact fix2_rst _ _ _ _ _ _
  · exact markers_rst _ _ _ _ s.u_fix_0xff2.data_out _
  · rfl

/-- One clock edge without an external reset. -/
theorem top_step (s : top.S) (x x' : Nat) (v b : Bool) (h : WfTop s) :
    absTop (top.step s false b x x' v) = (absTop s).step (coreCfg 0 0) ⟨[x, x'], v, b⟩ := by
  have hc : absCam (top.step s false b x x' v) = (absCam s).betaStep (cfgOf3 s.u_integration_3)
      (regsOf s).allowed_cycles_reg ⟨[x, x'], v, b⟩ := by
    show _ = if s.u_auto_reset.reset_out = true then _ else _
    by_cases hr : s.u_auto_reset.reset_out = true
    · rw [if_pos hr]
      exact top_reset s x x' v b false h (by rw [hr]; rfl)
    · rw [if_neg hr]
      exact top_run s x x' v b h (by simpa using hr)
  show RegCam.mk _ _ = RegCam.mk _ _
  rw [hc]
  rfl

theorem top_wf (s : top.S) (x x' : Nat) (v b full : Bool) (h : WfTop s) (hx : x < 4096) (hx' : x' < 4096) :
    WfTop (top.step s full b x x' v) :=
  ⟨int3_wf _ _ _ _ _ _ _ h.1 hx hx', fix1_wf _ _ _ _ _ _, fix2_wf _ _ _ _ _ _ _ h.2.2.1, markers_wf _ _ _ _ s.u_fix_0xff2.data_out _ _ h.2.2.2⟩

theorem top_kept (s : top.S) (h : WfTop s) : (absTop s).cam.core.int2.kept.Ok (coreCfg 0 0) :=
  ⟨h.1.1.2.1.2.2.2, h.1.1.2.2.2.1.2.2.2, rfl⟩

/-- One clock edge with an external reset. -/
theorem top_full (s : top.S) (x x' : Nat) (v b : Bool) (h : WfTop s) :
    absTop (top.step s true b x x' v) = { cam := Cam.reset (coreCfg 0 0) (absTop (top.step s true b x x' v)).cam.core.int2.kept
                                          regs := RegFile.init } := by
  have hr := top_reset s x x' v b true h (by simp)
  show RegCam.mk (absCam (top.step s true b x x' v)) _ = RegCam.mk (Cam.reset (coreCfg 0 0) (absCam (top.step s true b x x' v)).core.int2.kept) _
  rw [hr]
  rfl

theorem top_init (s : top.S) (h : top.Init s) : WfTop s ∧
    absTop s = { cam := Cam.reset (coreCfg 0 0) (absTop s).cam.core.int2.kept, regs := RegFile.init } ∧
    (absTop s).cam.core.int2.kept.Ok (coreCfg 0 0) := by
  obtain ⟨h1, h2, h3, h4, h5⟩ := h
  obtain ⟨i1, i2, i3, i4, i5⟩ := int3_init _ h4
  obtain ⟨f1, f2, f3, f4, f5, f6, f7, f8, f9, f10, f11⟩ := h2
  obtain ⟨g1, g2, g3, g4, g5, g6, g7, g8, g9, g10, g11⟩ := h3
  obtain ⟨m1, m2, m3⟩ := h5
  refine ⟨⟨i1, ⟨f11, f10⟩, ⟨?_, ?_, ?_, ?_, ?_⟩, ?_, ?_⟩, ?_, i3⟩
  · omega
  · omega
  · omega
  · omega
  · intro _; rw [g2, g9]
  · omega
  · omega
  · have hr : (⟨(regsOf s).width_reg, (regsOf s).height_reg, (regsOf s).allowed_cycles_reg⟩ : RegFile) = ⟨0, 0, 0⟩ := by
      simp only [regsOf, i4]
    show RegCam.mk _ _ = RegCam.mk _ _
    rw [hr]
    congr 1
    apply cam_ext
    · exact i2
    · exact i5
    · simp [absCam, absFix1, Cam.reset, Fix1.init, f1, f2, f3, f4, f5, f6, f7, f8, f9]
    · simp [absCam, absFix2, Cam.reset, Fix2.init, fix2Fsm, g1, g2, g3, g4, g5, g6, g7, g8, g9, g10, g11]
    · simp [absCam, absMarkers, Cam.reset, Markers.init, markFsm, m1, m2, m3]
    · exact h1

end Netlist.Beta
