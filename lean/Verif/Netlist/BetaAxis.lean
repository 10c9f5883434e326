/- Generated by netlist/v2lean.py from verilog_src/beta_integration_axistream.v.  Do not edit. -/
import Verif.Netlist.Beta

set_option autoImplicit false
set_option linter.unusedVariables false

namespace Netlist.BetaAxis
open Netlist

namespace top

/-- beta_integration_axistream.v:7626-7744: registers, memories and instances of module `top`. -/
structure S where
  u_top_module : Beta.top.S

/-- beta_integration_axistream.v:7685. -/
@[netlist] def w1 (s : S) (m_tready : Bool) : Bool :=
  m_tready == false
/-- beta_integration_axistream.v:7687-7698. -/
@[netlist] def top_module_nready (s : S) : Bool :=
  Beta.top.nready s.u_top_module
/-- beta_integration_axistream.v:7686. -/
@[netlist] def w3 (s : S) : Bool :=
  (top_module_nready s) == false
/-- beta_integration_axistream.v:7731-7734. -/
@[netlist] def next_top_module_valid_in (s : S) (s_tvalid : Bool) : Bool :=
  s_tvalid
/-- beta_integration_axistream.v:7735. -/
@[netlist] def top_module_valid_in (s : S) (s_tvalid : Bool) : Bool :=
  (next_top_module_valid_in s s_tvalid)
/-- beta_integration_axistream.v:7727-7730. -/
@[netlist] def next_s_end (s : S) (s_tlast : Bool) : Bool :=
  s_tlast
/-- beta_integration_axistream.v:7736. -/
@[netlist] def s_end (s : S) (s_tlast : Bool) : Bool :=
  (next_s_end s s_tlast)
/-- beta_integration_axistream.v:7723-7726. -/
@[netlist] def next_s_tready (s : S) : Bool :=
  (w3 s)
/-- beta_integration_axistream.v:7737. -/
@[netlist] def s_tready (s : S) : Bool :=
  (next_s_tready s)
/-- beta_integration_axistream.v:7719-7722. -/
@[netlist] def next_top_module_pixel_in2 (s : S) (s_tdata : Nat) : Nat :=
  slc s_tdata 8 12
/-- beta_integration_axistream.v:7738. -/
@[netlist] def top_module_pixel_in2 (s : S) (s_tdata : Nat) : Nat :=
  (next_top_module_pixel_in2 s s_tdata)
/-- beta_integration_axistream.v:7715-7718. -/
@[netlist] def next_top_module_pixel_in1 (s : S) (s_tdata : Nat) : Nat :=
  slc s_tdata 20 12
/-- beta_integration_axistream.v:7739. -/
@[netlist] def top_module_pixel_in1 (s : S) (s_tdata : Nat) : Nat :=
  (next_top_module_pixel_in1 s s_tdata)
/-- beta_integration_axistream.v:7707-7710. -/
@[netlist] def next_top_module_busy_in (s : S) (m_tready : Bool) : Bool :=
  (w1 s m_tready)
/-- beta_integration_axistream.v:7741. -/
@[netlist] def top_module_busy_in (s : S) (m_tready : Bool) : Bool :=
  (next_top_module_busy_in s m_tready)
/-- beta_integration_axistream.v:7687-7698. -/
@[netlist] def top_module_valid_out (s : S) (m_tready : Bool) : Bool :=
  Beta.top.valid_out s.u_top_module (top_module_busy_in s m_tready)
/-- beta_integration_axistream.v:7711-7714. -/
@[netlist] def next_m_tvalid (s : S) (m_tready : Bool) : Bool :=
  (top_module_valid_out s m_tready)
/-- beta_integration_axistream.v:7740. -/
@[netlist] def m_tvalid (s : S) (m_tready : Bool) : Bool :=
  (next_m_tvalid s m_tready)
/-- beta_integration_axistream.v:7687-7698. -/
@[netlist] def top_module_end_out (s : S) (m_tready : Bool) : Bool :=
  Beta.top.end_out s.u_top_module (top_module_busy_in s m_tready)
/-- beta_integration_axistream.v:7703-7706. -/
@[netlist] def next_m_tlast (s : S) (m_tready : Bool) : Bool :=
  (top_module_end_out s m_tready)
/-- beta_integration_axistream.v:7742. -/
@[netlist] def m_tlast (s : S) (m_tready : Bool) : Bool :=
  (next_m_tlast s m_tready)
/-- beta_integration_axistream.v:7687-7698. -/
@[netlist] def top_module_data_out (s : S) (m_tready : Bool) : Nat :=
  Beta.top.data_out s.u_top_module (top_module_busy_in s m_tready)
/-- beta_integration_axistream.v:7699-7702. -/
@[netlist] def next_m_tdata (s : S) (m_tready : Bool) : Nat :=
  (top_module_data_out s m_tready)
/-- beta_integration_axistream.v:7743. -/
@[netlist] def m_tdata (s : S) (m_tready : Bool) : Nat :=
  (next_m_tdata s m_tready)

/-- beta_integration_axistream.v:7626-7744: one rising clock edge (`always @(posedge ...)`). -/
@[netlist] def step (s : S) (s_tdata : Nat) (s_tlast : Bool) (s_tvalid : Bool) (full_rst : Bool) (m_tready : Bool) : S :=
  { u_top_module := Beta.top.step s.u_top_module full_rst (top_module_busy_in s m_tready) (top_module_pixel_in1 s s_tdata) (top_module_pixel_in2 s s_tdata) (top_module_valid_in s s_tvalid) }

/-- beta_integration_axistream.v:7626-7744: the initial values given in the netlist. -/
def Init (s : S) : Prop :=
  Beta.top.Init s.u_top_module

/-- beta_integration_axistream.v:7626-7744: a state with these initial values; registers without one are 0. -/
def powerUp : S :=
  { u_top_module := Beta.top.powerUp }

theorem powerUp_init : Init powerUp := Beta.top.powerUp_init

end top

end Netlist.BetaAxis
