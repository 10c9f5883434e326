/- Generated by netlist/v2lean.py from verilog_src/debug_module.v.  Do not edit. -/
import Verif.Netlist.Basic

set_option autoImplicit false
set_option linter.unusedVariables false

namespace Netlist.DebugV
open Netlist

namespace top

/-- debug_module.v:6-206: registers, memories and instances of module `top`. -/
structure S where
  r_signal_7 : Nat
  r_signal_6 : Nat
  r_signal_5 : Nat
  r_signal_4 : Nat
  r_signal_3 : Nat
  r_signal_2 : Nat
  r_signal_1 : Nat
  r_signal : Nat

/-- debug_module.v:81. -/
@[netlist] def w9 (s : S) : Nat :=
  (s.r_signal + 1) % 2 ^ 33
/-- debug_module.v:82. -/
@[netlist] def w12 (s : S) : Nat :=
  (s.r_signal_1 + 1) % 2 ^ 33
/-- debug_module.v:83. -/
@[netlist] def w15 (s : S) : Nat :=
  (s.r_signal_2 + 1) % 2 ^ 33
/-- debug_module.v:84. -/
@[netlist] def w18 (s : S) : Nat :=
  (s.r_signal_3 + 1) % 2 ^ 33
/-- debug_module.v:85. -/
@[netlist] def w21 (s : S) : Nat :=
  (s.r_signal_4 + 1) % 2 ^ 33
/-- debug_module.v:86. -/
@[netlist] def w24 (s : S) : Nat :=
  (s.r_signal_5 + 1) % 2 ^ 33
/-- debug_module.v:87. -/
@[netlist] def w27 (s : S) : Nat :=
  (s.r_signal_6 + 1) % 2 ^ 33
/-- debug_module.v:88. -/
@[netlist] def w30 (s : S) : Nat :=
  (s.r_signal_7 + 1) % 2 ^ 33
/-- debug_module.v:197. -/
@[netlist] def w8 (s : S) : Nat :=
  (w9 s)
/-- debug_module.v:198. -/
@[netlist] def w11 (s : S) : Nat :=
  (w12 s)
/-- debug_module.v:199. -/
@[netlist] def w14 (s : S) : Nat :=
  (w15 s)
/-- debug_module.v:200. -/
@[netlist] def w17 (s : S) : Nat :=
  (w18 s)
/-- debug_module.v:201. -/
@[netlist] def w20 (s : S) : Nat :=
  (w21 s)
/-- debug_module.v:202. -/
@[netlist] def w23 (s : S) : Nat :=
  (w24 s)
/-- debug_module.v:203. -/
@[netlist] def w26 (s : S) : Nat :=
  (w27 s)
/-- debug_module.v:204. -/
@[netlist] def w29 (s : S) : Nat :=
  (w30 s)
/-- debug_module.v:109-119. -/
@[netlist] def r_next_signal (s : S) (regs_en : Nat) (full_rst : Bool) : Nat :=
  let e1 := if (regs_en.testBit 0) = true then slc (w8 s) 0 32
  else s.r_signal
  if full_rst = true then 0
  else e1
/-- debug_module.v:120-130. -/
@[netlist] def r_next_signal_1 (s : S) (regs_en : Nat) (full_rst : Bool) : Nat :=
  let e1 := if (regs_en.testBit 1) = true then slc (w11 s) 0 32
  else s.r_signal_1
  if full_rst = true then 0
  else e1
/-- debug_module.v:131-141. -/
@[netlist] def r_next_signal_2 (s : S) (regs_en : Nat) (full_rst : Bool) : Nat :=
  let e1 := if (regs_en.testBit 2) = true then slc (w14 s) 0 32
  else s.r_signal_2
  if full_rst = true then 0
  else e1
/-- debug_module.v:142-152. -/
@[netlist] def r_next_signal_3 (s : S) (regs_en : Nat) (full_rst : Bool) : Nat :=
  let e1 := if (regs_en.testBit 3) = true then slc (w17 s) 0 32
  else s.r_signal_3
  if full_rst = true then 0
  else e1
/-- debug_module.v:153-163. -/
@[netlist] def r_next_signal_4 (s : S) (regs_en : Nat) (full_rst : Bool) : Nat :=
  let e1 := if (regs_en.testBit 4) = true then slc (w20 s) 0 32
  else s.r_signal_4
  if full_rst = true then 0
  else e1
/-- debug_module.v:164-174. -/
@[netlist] def r_next_signal_5 (s : S) (regs_en : Nat) (full_rst : Bool) : Nat :=
  let e1 := if (regs_en.testBit 5) = true then slc (w23 s) 0 32
  else s.r_signal_5
  if full_rst = true then 0
  else e1
/-- debug_module.v:175-185. -/
@[netlist] def r_next_signal_6 (s : S) (regs_en : Nat) (full_rst : Bool) : Nat :=
  let e1 := if (regs_en.testBit 6) = true then slc (w26 s) 0 32
  else s.r_signal_6
  if full_rst = true then 0
  else e1
/-- debug_module.v:186-196. -/
@[netlist] def r_next_signal_7 (s : S) (regs_en : Nat) (full_rst : Bool) : Nat :=
  let e1 := if (regs_en.testBit 7) = true then slc (w29 s) 0 32
  else s.r_signal_7
  if full_rst = true then 0
  else e1

/-- debug_module.v:6-206: one rising clock edge (`always @(posedge ...)`). -/
@[netlist] def step (s : S) (regs_en : Nat) (full_rst : Bool) : S :=
  { r_signal_7 := (r_next_signal_7 s regs_en full_rst)
    r_signal_6 := (r_next_signal_6 s regs_en full_rst)
    r_signal_5 := (r_next_signal_5 s regs_en full_rst)
    r_signal_4 := (r_next_signal_4 s regs_en full_rst)
    r_signal_3 := (r_next_signal_3 s regs_en full_rst)
    r_signal_2 := (r_next_signal_2 s regs_en full_rst)
    r_signal_1 := (r_next_signal_1 s regs_en full_rst)
    r_signal := (r_next_signal s regs_en full_rst) }

/-- debug_module.v:6-206: the initial values given in the netlist. -/
def Init (s : S) : Prop :=
  s.r_signal_7 = 0 ∧
  s.r_signal_6 = 0 ∧
  s.r_signal_5 = 0 ∧
  s.r_signal_4 = 0 ∧
  s.r_signal_3 = 0 ∧
  s.r_signal_2 = 0 ∧
  s.r_signal_1 = 0 ∧
  s.r_signal = 0

/-- debug_module.v:6-206: a state with these initial values; registers without one are 0. -/
def powerUp : S :=
  { r_signal_7 := 0
    r_signal_6 := 0
    r_signal_5 := 0
    r_signal_4 := 0
    r_signal_3 := 0
    r_signal_2 := 0
    r_signal_1 := 0
    r_signal := 0 }

theorem powerUp_init : Init powerUp := ⟨rfl, rfl, rfl, rfl, rfl, rfl, rfl, rfl⟩

end top

end Netlist.DebugV
