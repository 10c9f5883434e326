/- The shipped netlist micro_integration.v against the modules of micro_integration_axistream.v: the same registers and
instances, in the same modules; only the read side of the register bus has no ports. -/
import Verif.Netlist.Micro
import Verif.Netlist.MTop

set_option autoImplicit false
set_option maxHeartbeats 4000000

namespace Netlist.Micro
open Netlist

/-- The state of `core_axi_lite` in micro_integration.v as a state of that module in micro_integration_axistream.v. -/
def upLite (s : core_axi_lite.S) : MicroAxis.core_axi_lite.S :=
  { allowed_cycles := s.allowed_cycles, height_width := s.height_width, bresp_v := s.bresp_v, wp_en := s.wp_en, wp_data := s.wp_data,
    wp_addr := s.wp_addr, wready_v := s.wready_v, awready_v := s.awready_v, rresp_v := s.rresp_v, rdata_v := s.rdata_v,
    arready_v := s.arready_v, rp_addr := s.rp_addr, addr_v := s.addr_v, fsm_state := s.fsm_state, bvalid_v := s.bvalid_v,
    rvalid_v := s.rvalid_v }

/-- The state of `integration_1`. -/
def up1 (s : integration_1.S) : MicroAxis.integration_1.S :=
  { u_core_axi_lite := upLite s.u_core_axi_lite, u_difference := s.u_difference, u_encode := s.u_encode, u_force_end := s.u_force_end,
    u_normalize := s.u_normalize, u_predictor := s.u_predictor, u_signals := s.u_signals }

/-- The state of `integration_2`. -/
def up2 (s : integration_2.S) : MicroAxis.integration_2.S :=
  { nready_reset := s.nready_reset, nready_reset_counter := s.nready_reset_counter, nready_end_reg := s.nready_end_reg,
    nready_end := s.nready_end, u_converter := s.u_converter, u_converter_fifo := s.u_converter_fifo,
    u_integration_1 := up1 s.u_integration_1, u_lj92_pipeline_fifo := s.u_lj92_pipeline_fifo }

/-- The state of `integration_3`. -/
def up3 (s : integration_3.S) : MicroAxis.integration_3.S :=
  { u_integration_2 := up2 s.u_integration_2, u_vbits_to_cbits := s.u_vbits_to_cbits }

/-- The state of the whole netlist. -/
def upTop (s : top.S) : MicroAxis.top_module.S :=
  { u_auto_reset := s.u_auto_reset, u_fix_0xff := s.u_fix_0xff, u_fix_0xff2 := s.u_fix_0xff2, u_integration_3 := up3 s.u_integration_3,
    u_markers := s.u_markers }

theorem upLite_step (s : core_axi_lite.S) (arv : Bool) (awv : Bool) (ara : Nat) (rr : Bool) (awa : Nat) (wv : Bool) (wd : Nat) (ws : Nat) (br : Bool) (full : Bool) (rst : Bool) (rp : Nat) :
    upLite (core_axi_lite.step s arv awv ara rr awa wv wd ws br full rst rp) = MicroAxis.core_axi_lite.step (upLite s) arv awv ara rr awa wv wd ws br full rst rp := rfl

theorem up1_step (s : integration_1.S) (x : Nat) (rst : Bool) (arv : Bool) (awv : Bool) (ara : Nat) (rr : Bool) (awa : Nat) (wv : Bool) (wd : Nat) (ws : Nat) (br : Bool) (full : Bool) (v : Bool) :
    up1 (integration_1.step s x rst arv awv ara rr awa wv wd ws br full v) = MicroAxis.integration_1.step (up1 s) x rst arv awv ara rr awa wv wd ws br full v := rfl

theorem up2_step (s : integration_2.S) (x : Nat) (l : Bool) (rst : Bool) (arv : Bool) (awv : Bool) (ara : Nat) (rr : Bool) (awa : Nat) (wv : Bool) (wd : Nat) (ws : Nat) (br : Bool) (full : Bool) (v : Bool) :
    up2 (integration_2.step s x l rst arv awv ara rr awa wv wd ws br full v) = MicroAxis.integration_2.step (up2 s) x l rst arv awv ara rr awa wv wd ws br full v := rfl

theorem up3_step (s : integration_3.S) (v : Bool) (b : Bool) (rst : Bool) (arv : Bool) (awv : Bool) (ara : Nat) (rr : Bool) (awa : Nat) (wv : Bool) (wd : Nat) (ws : Nat) (br : Bool) (full : Bool) (x : Nat) :
    up3 (integration_3.step s v b rst arv awv ara rr awa wv wd ws br full x) = MicroAxis.integration_3.step (up3 s) v b rst arv awv ara rr awa wv wd ws br full x := rfl

theorem upTop_step (s : top.S) (full : Bool) (b : Bool) (x : Nat) (v : Bool) (arv : Bool) (awv : Bool) (ara : Nat) (rr : Bool) (awa : Nat) (wv : Bool) (wd : Nat) (ws : Nat) (br : Bool) (e1 : Bool) (e2 : Bool) :
    upTop (top.step s full b x v arv awv ara rr awa wv wd ws br e1 e2) = MicroAxis.top_module.step (upTop s) full b x v arv awv ara rr awa wv wd ws br e1 e2 := rfl

theorem upTop_init {s : top.S} (h : top.Init s) : MicroAxis.top_module.Init (upTop s) := h

theorem upTop_powerUp : upTop top.powerUp = MicroAxis.top_module.powerUp := rfl

theorem upTop_outs (s : top.S) (b : Bool) : MicroAxis.top_module.nready (upTop s) = top.nready s ∧
    MicroAxis.top_module.valid_out (upTop s) b = top.valid_out s b ∧ MicroAxis.top_module.end_out (upTop s) b = top.end_out s b ∧
    MicroAxis.top_module.data_out (upTop s) b = top.data_out s b := ⟨rfl, rfl, rfl, rfl⟩

end Netlist.Micro
