/- Generated by netlist/v2lean.py from verilog_src/b64_b32_2.v.  Do not edit. -/
import Verif.Netlist.Basic

set_option autoImplicit false
set_option linter.unusedVariables false

namespace Netlist.Unpack2V
open Netlist

namespace top

/-- b64_b32_2.v:6-336: registers, memories and instances of module `top`. -/
structure S where
  half_latched : Bool
  valid_out : Bool
  data_out : Nat
  reg_valid : Bool
  reg : Nat
  o_busy : Bool

/-- b64_b32_2.v:150. -/
@[netlist] def w1 (s : S) : Bool :=
  s.reg_valid == true
/-- b64_b32_2.v:161. -/
@[netlist] def w3 (s : S) (i_busy : Bool) : Bool :=
  i_busy == false
/-- b64_b32_2.v:172. -/
@[netlist] def w5 (s : S) (i_busy : Bool) : Bool :=
  (w1 s) && (w3 s i_busy)
/-- b64_b32_2.v:183. -/
@[netlist] def w7 (s : S) : Bool :=
  s.valid_out == true
/-- b64_b32_2.v:128. -/
@[netlist] def w9 (s : S) (i_busy : Bool) : Bool :=
  (w5 s i_busy) && (w7 s)
/-- b64_b32_2.v:129. -/
@[netlist] def w99 (s : S) : Bool :=
  s.half_latched == true
/-- b64_b32_2.v:130. -/
@[netlist] def w101 (s : S) : Bool :=
  s.reg_valid == false
/-- b64_b32_2.v:131. -/
@[netlist] def w103 (s : S) (i_busy : Bool) : Bool :=
  i_busy == false
/-- b64_b32_2.v:132. -/
@[netlist] def w105 (s : S) (i_busy : Bool) : Bool :=
  (w101 s) && (w103 s i_busy)
/-- b64_b32_2.v:133. -/
@[netlist] def w107 (s : S) : Bool :=
  s.valid_out == true
/-- b64_b32_2.v:134. -/
@[netlist] def w109 (s : S) (i_busy : Bool) : Bool :=
  (w105 s i_busy) && (w107 s)
/-- b64_b32_2.v:135. -/
@[netlist] def w111 (s : S) : Bool :=
  s.reg_valid == true
/-- b64_b32_2.v:136. -/
@[netlist] def w113 (s : S) : Bool :=
  s.valid_out == false
/-- b64_b32_2.v:137. -/
@[netlist] def w115 (s : S) : Bool :=
  (w111 s) && (w113 s)
/-- b64_b32_2.v:138. -/
@[netlist] def w117 (s : S) : Bool :=
  s.half_latched == false
/-- b64_b32_2.v:139. -/
@[netlist] def w11 (s : S) : Bool :=
  s.half_latched == true
/-- b64_b32_2.v:140. -/
@[netlist] def w119 (s : S) : Bool :=
  (w115 s) && (w117 s)
/-- b64_b32_2.v:141. -/
@[netlist] def w121 (s : S) : Bool :=
  s.reg_valid == true
/-- b64_b32_2.v:142. -/
@[netlist] def w123 (s : S) (i_busy : Bool) : Bool :=
  i_busy == false
/-- b64_b32_2.v:143. -/
@[netlist] def w125 (s : S) (i_busy : Bool) : Bool :=
  (w121 s) && (w123 s i_busy)
/-- b64_b32_2.v:144. -/
@[netlist] def w127 (s : S) : Bool :=
  s.valid_out == true
/-- b64_b32_2.v:145. -/
@[netlist] def w129 (s : S) (i_busy : Bool) : Bool :=
  (w125 s i_busy) && (w127 s)
/-- b64_b32_2.v:146. -/
@[netlist] def w131 (s : S) : Bool :=
  s.half_latched == true
/-- b64_b32_2.v:147. -/
@[netlist] def w13 (s : S) (valid_in : Bool) : Bool :=
  valid_in == true
/-- b64_b32_2.v:148. -/
@[netlist] def w15 (s : S) : Bool :=
  s.reg_valid == false
/-- b64_b32_2.v:218-228. -/
@[netlist] def next_reg_tobe_invalid (s : S) (i_busy : Bool) : Bool :=
  if (w9 s i_busy) = true then (if (w11 s) = true then true
    else false)
  else false
/-- b64_b32_2.v:334. -/
@[netlist] def reg_tobe_invalid (s : S) (i_busy : Bool) : Bool :=
  (next_reg_tobe_invalid s i_busy)
/-- b64_b32_2.v:149. -/
@[netlist] def w17 (s : S) (i_busy : Bool) : Bool :=
  (reg_tobe_invalid s i_busy) == true
/-- b64_b32_2.v:151. -/
@[netlist] def w19 (s : S) (i_busy : Bool) : Bool :=
  (w15 s) || (w17 s i_busy)
/-- b64_b32_2.v:152. -/
@[netlist] def w21 (s : S) (valid_in : Bool) (i_busy : Bool) : Bool :=
  (w13 s valid_in) && (w19 s i_busy)
/-- b64_b32_2.v:153. -/
@[netlist] def w23 (s : S) (valid_in : Bool) : Bool :=
  valid_in == true
/-- b64_b32_2.v:154. -/
@[netlist] def w25 (s : S) : Bool :=
  s.reg_valid == false
/-- b64_b32_2.v:155. -/
@[netlist] def w27 (s : S) (i_busy : Bool) : Bool :=
  (reg_tobe_invalid s i_busy) == true
/-- b64_b32_2.v:156. -/
@[netlist] def w29 (s : S) (i_busy : Bool) : Bool :=
  (w25 s) || (w27 s i_busy)
/-- b64_b32_2.v:157. -/
@[netlist] def w31 (s : S) (valid_in : Bool) (i_busy : Bool) : Bool :=
  (w23 s valid_in) && (w29 s i_busy)
/-- b64_b32_2.v:158. -/
@[netlist] def w33 (s : S) (valid_in : Bool) : Bool :=
  valid_in == true
/-- b64_b32_2.v:159. -/
@[netlist] def w35 (s : S) : Bool :=
  s.reg_valid == false
/-- b64_b32_2.v:160. -/
@[netlist] def w37 (s : S) (i_busy : Bool) : Bool :=
  (reg_tobe_invalid s i_busy) == true
/-- b64_b32_2.v:162. -/
@[netlist] def w39 (s : S) (i_busy : Bool) : Bool :=
  (w35 s) || (w37 s i_busy)
/-- b64_b32_2.v:163. -/
@[netlist] def w41 (s : S) (valid_in : Bool) (i_busy : Bool) : Bool :=
  (w33 s valid_in) && (w39 s i_busy)
/-- b64_b32_2.v:164. -/
@[netlist] def w43 (s : S) : Bool :=
  s.reg_valid == true
/-- b64_b32_2.v:165. -/
@[netlist] def w45 (s : S) (i_busy : Bool) : Bool :=
  i_busy == false
/-- b64_b32_2.v:166. -/
@[netlist] def w47 (s : S) (i_busy : Bool) : Bool :=
  (w43 s) && (w45 s i_busy)
/-- b64_b32_2.v:167. -/
@[netlist] def w49 (s : S) : Bool :=
  s.valid_out == true
/-- b64_b32_2.v:168. -/
@[netlist] def w51 (s : S) (i_busy : Bool) : Bool :=
  (w47 s i_busy) && (w49 s)
/-- b64_b32_2.v:169. -/
@[netlist] def w53 (s : S) : Bool :=
  s.half_latched == true
/-- b64_b32_2.v:170. -/
@[netlist] def w55 (s : S) (valid_in : Bool) : Bool :=
  valid_in == false
/-- b64_b32_2.v:171. -/
@[netlist] def w57 (s : S) : Bool :=
  s.reg_valid == true
/-- b64_b32_2.v:173. -/
@[netlist] def w59 (s : S) : Bool :=
  s.valid_out == false
/-- b64_b32_2.v:174. -/
@[netlist] def w61 (s : S) : Bool :=
  (w57 s) && (w59 s)
/-- b64_b32_2.v:175. -/
@[netlist] def w63 (s : S) : Bool :=
  s.half_latched == false
/-- b64_b32_2.v:176. -/
@[netlist] def w65 (s : S) : Bool :=
  (w61 s) && (w63 s)
/-- b64_b32_2.v:177. -/
@[netlist] def w67 (s : S) : Bool :=
  s.reg_valid == true
/-- b64_b32_2.v:178. -/
@[netlist] def w69 (s : S) (i_busy : Bool) : Bool :=
  i_busy == false
/-- b64_b32_2.v:179. -/
@[netlist] def w71 (s : S) (i_busy : Bool) : Bool :=
  (w67 s) && (w69 s i_busy)
/-- b64_b32_2.v:180. -/
@[netlist] def w73 (s : S) : Bool :=
  s.valid_out == true
/-- b64_b32_2.v:181. -/
@[netlist] def w75 (s : S) (i_busy : Bool) : Bool :=
  (w71 s i_busy) && (w73 s)
/-- b64_b32_2.v:182. -/
@[netlist] def w77 (s : S) : Bool :=
  s.half_latched == true
/-- b64_b32_2.v:184. -/
@[netlist] def w79 (s : S) : Bool :=
  s.reg_valid == true
/-- b64_b32_2.v:185. -/
@[netlist] def w81 (s : S) : Bool :=
  s.valid_out == false
/-- b64_b32_2.v:186. -/
@[netlist] def w83 (s : S) : Bool :=
  (w79 s) && (w81 s)
/-- b64_b32_2.v:187. -/
@[netlist] def w85 (s : S) : Bool :=
  s.half_latched == false
/-- b64_b32_2.v:188. -/
@[netlist] def w87 (s : S) : Bool :=
  (w83 s) && (w85 s)
/-- b64_b32_2.v:189. -/
@[netlist] def w89 (s : S) : Bool :=
  s.reg_valid == true
/-- b64_b32_2.v:190. -/
@[netlist] def w91 (s : S) (i_busy : Bool) : Bool :=
  i_busy == false
/-- b64_b32_2.v:191. -/
@[netlist] def w93 (s : S) (i_busy : Bool) : Bool :=
  (w89 s) && (w91 s i_busy)
/-- b64_b32_2.v:192. -/
@[netlist] def w95 (s : S) : Bool :=
  s.valid_out == true
/-- b64_b32_2.v:193. -/
@[netlist] def w97 (s : S) (i_busy : Bool) : Bool :=
  (w93 s i_busy) && (w95 s)
/-- b64_b32_2.v:229-236. -/
@[netlist] def next_wire_obusy (s : S) (valid_in : Bool) (i_busy : Bool) : Bool :=
  if (w21 s valid_in i_busy) = true then false
  else true
/-- b64_b32_2.v:333. -/
@[netlist] def wire_obusy (s : S) (valid_in : Bool) (i_busy : Bool) : Bool :=
  (next_wire_obusy s valid_in i_busy)
/-- b64_b32_2.v:210-217. -/
@[netlist] def next_o_busy (s : S) (valid_in : Bool) (i_busy : Bool) (full_rst : Bool) : Bool :=
  let e1 := (wire_obusy s valid_in i_busy)
  if full_rst = true then true
  else e1
/-- b64_b32_2.v:237-247. -/
@[netlist] def next_reg (s : S) (valid_in : Bool) (data_in : Nat) (i_busy : Bool) (full_rst : Bool) : Nat :=
  let e1 := if (w31 s valid_in i_busy) = true then data_in
  else s.reg
  if full_rst = true then 0
  else e1
/-- b64_b32_2.v:248-268. -/
@[netlist] def next_reg_valid (s : S) (valid_in : Bool) (i_busy : Bool) (full_rst : Bool) : Bool :=
  let e1 := if (w41 s valid_in i_busy) = true then true
  else s.reg_valid
  let e2 := if (w51 s i_busy) = true then (if (w53 s) = true then (if (w55 s valid_in) = true then false
      else e1)
    else e1)
  else e1
  if full_rst = true then false
  else e2
/-- b64_b32_2.v:269-288. -/
@[netlist] def next_data_out (s : S) (i_busy : Bool) (full_rst : Bool) : Nat :=
  let e1 := if (w65 s) = true then slc s.reg 40 24
  else s.data_out
  let e2 := if (w75 s i_busy) = true then (if (w77 s) = true then slc s.reg 16 24
    else slc s.reg 40 24)
  else e1
  if full_rst = true then 0
  else e2
/-- b64_b32_2.v:289-312. -/
@[netlist] def next_valid_out (s : S) (i_busy : Bool) (full_rst : Bool) : Bool :=
  let e1 := if (w87 s) = true then true
  else s.valid_out
  let e2 := if (w97 s i_busy) = true then (if (w99 s) = true then true
    else true)
  else e1
  let e3 := if (w109 s i_busy) = true then false
  else e2
  if full_rst = true then false
  else e3
/-- b64_b32_2.v:313-332. -/
@[netlist] def next_half_latched (s : S) (i_busy : Bool) (full_rst : Bool) : Bool :=
  let e1 := if (w119 s) = true then true
  else s.half_latched
  let e2 := if (w129 s i_busy) = true then (if (w131 s) = true then false
    else true)
  else e1
  if full_rst = true then false
  else e2

/-- b64_b32_2.v:6-336: one rising clock edge (`always @(posedge ...)`). -/
@[netlist] def step (s : S) (valid_in : Bool) (data_in : Nat) (i_busy : Bool) (full_rst : Bool) : S :=
  { half_latched := (next_half_latched s i_busy full_rst)
    valid_out := (next_valid_out s i_busy full_rst)
    data_out := (next_data_out s i_busy full_rst)
    reg_valid := (next_reg_valid s valid_in i_busy full_rst)
    reg := (next_reg s valid_in data_in i_busy full_rst)
    o_busy := (next_o_busy s valid_in i_busy full_rst) }

/-- b64_b32_2.v:6-336: the initial values given in the netlist. -/
def Init (s : S) : Prop :=
  s.half_latched = false ∧
  s.valid_out = false ∧
  s.data_out = 0 ∧
  s.reg_valid = false ∧
  s.reg = 0 ∧
  s.o_busy = true

/-- b64_b32_2.v:6-336: a state with these initial values; registers without one are 0. -/
def powerUp : S :=
  { half_latched := false
    valid_out := false
    data_out := 0
    reg_valid := false
    reg := 0
    o_busy := true }

theorem powerUp_init : Init powerUp := ⟨rfl, rfl, rfl, rfl, rfl, rfl⟩

end top

end Netlist.Unpack2V
