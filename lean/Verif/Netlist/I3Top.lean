/- The shipped netlists integration_3.v and integration_2.v against the modules of integration_3_axi_stream.v: the same
registers and instances, in the same modules, with `fend_out` as one more port. -/
import Verif.Netlist.I2
import Verif.Netlist.I3Int3

set_option autoImplicit false
set_option maxHeartbeats 4000000

namespace Netlist.I3
open Netlist

/-- The state of `integration_1` in integration_3.v as a state of that module in integration_3_axi_stream.v. -/
def up1 (s : integration_1.S) : I3Axis.integration_1.S :=
  { u_difference := s.u_difference, u_encode := s.u_encode, u_force_end := s.u_force_end, u_merge := s.u_merge,
    u_normalize := s.u_normalize, u_predictor := s.u_predictor, u_register_file := s.u_register_file, u_signals := s.u_signals }

theorem up1_step (s : integration_1.S) (x0 x1 x2 x3 : Nat) (rst full v : Bool) :
    up1 (integration_1.step s x0 x1 x2 x3 rst full v) = I3Axis.integration_1.step (up1 s) x0 x1 x2 x3 rst full v := rfl

/-- The state of `integration_2`. -/
def up2 (s : integration_2.S) : I3Axis.integration_2.S :=
  { nready_reset := s.nready_reset, nready_reset_counter := s.nready_reset_counter, nready_end_reg := s.nready_end_reg,
    nready_end := s.nready_end, u_converter := s.u_converter, u_converter_fifo := s.u_converter_fifo,
    u_integration_1 := up1 s.u_integration_1, u_lj92_pipeline_fifo := s.u_lj92_pipeline_fifo }

theorem up2_step (s : integration_2.S) (x0 x1 x2 x3 : Nat) (l rst full v : Bool) :
    up2 (integration_2.step s x0 x1 x2 x3 l rst full v) = I3Axis.integration_2.step (up2 s) x0 x1 x2 x3 l rst full v := rfl

/-- The state of the whole netlist. -/
def up3 (s : top.S) : I3Axis.top_module.S :=
  { u_integration_2 := up2 s.u_integration_2, u_vbits_to_cbits := s.u_vbits_to_cbits }

theorem up3_step (s : top.S) (x1 x2 x3 : Nat) (v b rst full : Bool) (x0 : Nat) :
    up3 (top.step s x1 x2 x3 v b rst full x0) = I3Axis.top_module.step (up3 s) x1 x2 x3 v b rst full x0 := rfl

theorem up3_init {s : top.S} (h : top.Init s) : I3Axis.top_module.Init (up3 s) := h

/-- The state of integration_2.v. -/
def upI2 (s : I2.top.S) : I3Axis.integration_2.S :=
  { nready_reset := s.nready_reset, nready_reset_counter := s.nready_reset_counter, nready_end_reg := s.nready_end_reg,
    nready_end := s.nready_end, u_converter := s.u_converter, u_converter_fifo := s.u_converter_fifo,
    u_integration_1 := up1 s.u_integration_1, u_lj92_pipeline_fifo := s.u_lj92_pipeline_fifo }

theorem upI2_step (s : I2.top.S) (x0 x1 x2 x3 : Nat) (l rst full v : Bool) :
    upI2 (I2.top.step s x0 x1 x2 x3 l rst full v) = I3Axis.integration_2.step (upI2 s) x0 x1 x2 x3 l rst full v := rfl

theorem upI2_init {s : I2.top.S} (h : I2.top.Init s) : I3Axis.integration_2.Init (upI2 s) := h

end Netlist.I3
