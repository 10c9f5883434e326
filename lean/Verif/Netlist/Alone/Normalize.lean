/- Generated by netlist/v2lean.py from verilog_src/normalize.v.  Do not edit. -/
import Verif.Netlist.Basic

set_option autoImplicit false
set_option linter.unusedVariables false

namespace Netlist.NormV
open Netlist

namespace anonymous

/-- normalize.v:5-412: registers, memories and instances of module `anonymous`. -/
structure S where
  end_out : Bool
  valid_o : Bool
  ssss : Nat
  val_out : Nat

/-- normalize.v:106. -/
@[netlist] def w9 (s : S) (val_in_mns : Nat) : Bool :=
  (slc val_in_mns 1 16) == 0xffff
/-- normalize.v:107. -/
@[netlist] def w99 (s : S) (val_in_mns : Nat) : Bool :=
  (slc val_in_mns 12 5) == 31
/-- normalize.v:108. -/
@[netlist] def w101 (s : S) (val_in_mns : Nat) : Bool :=
  (slc val_in_mns 10 7) == 127
/-- normalize.v:109. -/
@[netlist] def w103 (s : S) (val_in_mns : Nat) : Bool :=
  (slc val_in_mns 9 8) == 255
/-- normalize.v:110. -/
@[netlist] def w105 (s : S) (val_in_mns : Nat) : Bool :=
  (slc val_in_mns 11 6) == 63
/-- normalize.v:111. -/
@[netlist] def w107 (s : S) (val_in_mns : Nat) : Bool :=
  (slc val_in_mns 14 3) == 7
/-- normalize.v:112. -/
@[netlist] def w109 (s : S) (val_in_mns : Nat) : Bool :=
  (slc val_in_mns 13 4) == 15
/-- normalize.v:113. -/
@[netlist] def w111 (s : S) (val_in_mns : Nat) : Bool :=
  (slc val_in_mns 15 2) == 3
/-- normalize.v:114. -/
@[netlist] def w12 (s : S) (val_in : Nat) : Nat :=
  (val_in + 1) % 2 ^ 18
/-- normalize.v:115. -/
@[netlist] def w15 (s : S) (val_in : Nat) : Nat :=
  (val_in + 3) % 2 ^ 18
/-- normalize.v:116. -/
@[netlist] def w17 (s : S) (val_in_mns : Nat) : Bool :=
  (slc val_in_mns 3 14) == 0x3fff
/-- normalize.v:117. -/
@[netlist] def w1 (s : S) (val_in : Nat) : Bool :=
  (val_in.testBit 16) == true
/-- normalize.v:118. -/
@[netlist] def w20 (s : S) (val_in : Nat) : Nat :=
  (val_in + 7) % 2 ^ 18
/-- normalize.v:119. -/
@[netlist] def w23 (s : S) (val_in : Nat) : Nat :=
  (val_in + 15) % 2 ^ 18
/-- normalize.v:120. -/
@[netlist] def w25 (s : S) (val_in_mns : Nat) : Bool :=
  (slc val_in_mns 6 11) == 2047
/-- normalize.v:121. -/
@[netlist] def w27 (s : S) (val_in_mns : Nat) : Bool :=
  (slc val_in_mns 5 12) == 4095
/-- normalize.v:122. -/
@[netlist] def w30 (s : S) (val_in : Nat) : Nat :=
  (val_in + 31) % 2 ^ 18
/-- normalize.v:123. -/
@[netlist] def w33 (s : S) (val_in : Nat) : Nat :=
  (val_in + 63) % 2 ^ 18
/-- normalize.v:124. -/
@[netlist] def w35 (s : S) (val_in_mns : Nat) : Bool :=
  (slc val_in_mns 7 10) == 1023
/-- normalize.v:125. -/
@[netlist] def w38 (s : S) (val_in : Nat) : Nat :=
  (val_in + 127) % 2 ^ 18
/-- normalize.v:126. -/
@[netlist] def w3 (s : S) (val_in_mns : Nat) : Bool :=
  (slc val_in_mns 8 9) == 511
/-- normalize.v:127. -/
@[netlist] def w41 (s : S) (val_in : Nat) : Nat :=
  (val_in + 255) % 2 ^ 18
/-- normalize.v:128. -/
@[netlist] def w43 (s : S) (val_in_mns : Nat) : Bool :=
  (slc val_in_mns 12 5) == 31
/-- normalize.v:129. -/
@[netlist] def w45 (s : S) (val_in_mns : Nat) : Bool :=
  (slc val_in_mns 10 7) == 127
/-- normalize.v:130. -/
@[netlist] def w47 (s : S) (val_in_mns : Nat) : Bool :=
  (slc val_in_mns 9 8) == 255
/-- normalize.v:131. -/
@[netlist] def w50 (s : S) (val_in : Nat) : Nat :=
  (val_in + 511) % 2 ^ 18
/-- normalize.v:132. -/
@[netlist] def w53 (s : S) (val_in : Nat) : Nat :=
  (val_in + 1023) % 2 ^ 18
/-- normalize.v:133. -/
@[netlist] def w55 (s : S) (val_in_mns : Nat) : Bool :=
  (slc val_in_mns 11 6) == 63
/-- normalize.v:134. -/
@[netlist] def w58 (s : S) (val_in : Nat) : Nat :=
  (val_in + 2047) % 2 ^ 18
/-- normalize.v:135. -/
@[netlist] def w5 (s : S) (val_in_mns : Nat) : Bool :=
  (slc val_in_mns 4 13) == 0x1fff
/-- normalize.v:136. -/
@[netlist] def w61 (s : S) (val_in : Nat) : Nat :=
  (val_in + 4095) % 2 ^ 18
/-- normalize.v:137. -/
@[netlist] def w63 (s : S) (val_in_mns : Nat) : Bool :=
  (slc val_in_mns 14 3) == 7
/-- normalize.v:138. -/
@[netlist] def w65 (s : S) (val_in_mns : Nat) : Bool :=
  (slc val_in_mns 13 4) == 15
/-- normalize.v:139. -/
@[netlist] def w68 (s : S) (val_in : Nat) : Nat :=
  (val_in + 0x1fff) % 2 ^ 18
/-- normalize.v:140. -/
@[netlist] def w71 (s : S) (val_in : Nat) : Nat :=
  (val_in + 0x3fff) % 2 ^ 18
/-- normalize.v:141. -/
@[netlist] def w73 (s : S) (val_in_mns : Nat) : Bool :=
  (slc val_in_mns 15 2) == 3
/-- normalize.v:142. -/
@[netlist] def w76 (s : S) (val_in : Nat) : Nat :=
  (val_in + 0x7fff) % 2 ^ 18
/-- normalize.v:143. -/
@[netlist] def w7 (s : S) (val_in_mns : Nat) : Bool :=
  (slc val_in_mns 2 15) == 0x7fff
/-- normalize.v:144. -/
@[netlist] def w79 (s : S) (val_in : Nat) : Nat :=
  (val_in + 0xffff) % 2 ^ 18
/-- normalize.v:145. -/
@[netlist] def w81 (s : S) (val_in : Nat) : Bool :=
  (val_in.testBit 16) == true
/-- normalize.v:146. -/
@[netlist] def w83 (s : S) (val_in_mns : Nat) : Bool :=
  (slc val_in_mns 8 9) == 511
/-- normalize.v:147. -/
@[netlist] def w85 (s : S) (val_in_mns : Nat) : Bool :=
  (slc val_in_mns 4 13) == 0x1fff
/-- normalize.v:148. -/
@[netlist] def w87 (s : S) (val_in_mns : Nat) : Bool :=
  (slc val_in_mns 2 15) == 0x7fff
/-- normalize.v:149. -/
@[netlist] def w89 (s : S) (val_in_mns : Nat) : Bool :=
  (slc val_in_mns 1 16) == 0xffff
/-- normalize.v:150. -/
@[netlist] def w91 (s : S) (val_in_mns : Nat) : Bool :=
  (slc val_in_mns 3 14) == 0x3fff
/-- normalize.v:151. -/
@[netlist] def w93 (s : S) (val_in_mns : Nat) : Bool :=
  (slc val_in_mns 6 11) == 2047
/-- normalize.v:152. -/
@[netlist] def w95 (s : S) (val_in_mns : Nat) : Bool :=
  (slc val_in_mns 5 12) == 4095
/-- normalize.v:153. -/
@[netlist] def w97 (s : S) (val_in_mns : Nat) : Bool :=
  (slc val_in_mns 7 10) == 1023
/-- normalize.v:396. -/
@[netlist] def w11 (s : S) (val_in : Nat) : Nat :=
  (w12 s val_in)
/-- normalize.v:397. -/
@[netlist] def w14 (s : S) (val_in : Nat) : Nat :=
  (w15 s val_in)
/-- normalize.v:398. -/
@[netlist] def w19 (s : S) (val_in : Nat) : Nat :=
  (w20 s val_in)
/-- normalize.v:399. -/
@[netlist] def w22 (s : S) (val_in : Nat) : Nat :=
  (w23 s val_in)
/-- normalize.v:400. -/
@[netlist] def w29 (s : S) (val_in : Nat) : Nat :=
  (w30 s val_in)
/-- normalize.v:401. -/
@[netlist] def w32 (s : S) (val_in : Nat) : Nat :=
  (w33 s val_in)
/-- normalize.v:402. -/
@[netlist] def w37 (s : S) (val_in : Nat) : Nat :=
  (w38 s val_in)
/-- normalize.v:403. -/
@[netlist] def w40 (s : S) (val_in : Nat) : Nat :=
  (w41 s val_in)
/-- normalize.v:404. -/
@[netlist] def w49 (s : S) (val_in : Nat) : Nat :=
  (w50 s val_in)
/-- normalize.v:405. -/
@[netlist] def w52 (s : S) (val_in : Nat) : Nat :=
  (w53 s val_in)
/-- normalize.v:406. -/
@[netlist] def w57 (s : S) (val_in : Nat) : Nat :=
  (w58 s val_in)
/-- normalize.v:407. -/
@[netlist] def w60 (s : S) (val_in : Nat) : Nat :=
  (w61 s val_in)
/-- normalize.v:408. -/
@[netlist] def w67 (s : S) (val_in : Nat) : Nat :=
  (w68 s val_in)
/-- normalize.v:409. -/
@[netlist] def w70 (s : S) (val_in : Nat) : Nat :=
  (w71 s val_in)
/-- normalize.v:410. -/
@[netlist] def w75 (s : S) (val_in : Nat) : Nat :=
  (w76 s val_in)
/-- normalize.v:411. -/
@[netlist] def w78 (s : S) (val_in : Nat) : Nat :=
  (w79 s val_in)
/-- normalize.v:162-252. -/
@[netlist] def next_val_out (s : S) (val_in : Nat) (val_in_mns : Nat) (rst : Bool) (valid : Bool) : Nat :=
  let e1 := if valid = true then (if (w1 s val_in) = true then (if (w3 s val_in_mns) = true then (if (w5 s val_in_mns) = true then (if (w7 s val_in_mns) = true then (if (w9 s val_in_mns) = true then slc (w11 s val_in) 0 16
            else slc (w14 s val_in) 0 16)
          else (if (w17 s val_in_mns) = true then slc (w19 s val_in) 0 16
            else slc (w22 s val_in) 0 16))
        else (if (w25 s val_in_mns) = true then (if (w27 s val_in_mns) = true then slc (w29 s val_in) 0 16
            else slc (w32 s val_in) 0 16)
          else (if (w35 s val_in_mns) = true then slc (w37 s val_in) 0 16
            else slc (w40 s val_in) 0 16)))
      else (if (w43 s val_in_mns) = true then (if (w45 s val_in_mns) = true then (if (w47 s val_in_mns) = true then slc (w49 s val_in) 0 16
            else slc (w52 s val_in) 0 16)
          else (if (w55 s val_in_mns) = true then slc (w57 s val_in) 0 16
            else slc (w60 s val_in) 0 16))
        else (if (w63 s val_in_mns) = true then (if (w65 s val_in_mns) = true then slc (w67 s val_in) 0 16
            else slc (w70 s val_in) 0 16)
          else (if (w73 s val_in_mns) = true then slc (w75 s val_in) 0 16
            else slc (w78 s val_in) 0 16))))
    else slc val_in 0 16)
  else s.val_out
  if rst = true then 0
  else e1
/-- normalize.v:253-379. -/
@[netlist] def next_ssss (s : S) (val_in : Nat) (val_in_mns : Nat) (rst : Bool) (valid : Bool) : Nat :=
  let e1 := if valid = true then (if (w81 s val_in) = true then (if (w83 s val_in_mns) = true then (if (w85 s val_in_mns) = true then (if (w87 s val_in_mns) = true then (if (w89 s val_in_mns) = true then 1
            else 2)
          else (if (w91 s val_in_mns) = true then 3
            else 4))
        else (if (w93 s val_in_mns) = true then (if (w95 s val_in_mns) = true then 5
            else 6)
          else (if (w97 s val_in_mns) = true then 7
            else 8)))
      else (if (w99 s val_in_mns) = true then (if (w101 s val_in_mns) = true then (if (w103 s val_in_mns) = true then 9
            else 10)
          else (if (w105 s val_in_mns) = true then 11
            else 12))
        else (if (w107 s val_in_mns) = true then (if (w109 s val_in_mns) = true then 13
            else 14)
          else (if (w111 s val_in_mns) = true then 15
            else 16))))
    else (if (val_in.testBit 15) = true then 16
      else if (val_in.testBit 14) = true then 15
      else if (val_in.testBit 13) = true then 14
      else if (val_in.testBit 12) = true then 13
      else if (val_in.testBit 11) = true then 12
      else if (val_in.testBit 10) = true then 11
      else if (val_in.testBit 9) = true then 10
      else if (val_in.testBit 8) = true then 9
      else if (val_in.testBit 7) = true then 8
      else if (val_in.testBit 6) = true then 7
      else if (val_in.testBit 5) = true then 6
      else if (val_in.testBit 4) = true then 5
      else if (val_in.testBit 3) = true then 4
      else if (val_in.testBit 2) = true then 3
      else if (val_in.testBit 1) = true then 2
      else if (val_in.testBit 0) = true then 1
      else 0))
  else s.ssss
  if rst = true then 0
  else e1
/-- normalize.v:380-387. -/
@[netlist] def next_valid_o (s : S) (rst : Bool) (valid : Bool) : Bool :=
  if rst = true then false
  else valid
/-- normalize.v:388-395. -/
@[netlist] def next_end_out (s : S) (end_in : Bool) (rst : Bool) : Bool :=
  if rst = true then false
  else end_in

/-- normalize.v:5-412: one rising clock edge (`always @(posedge ...)`). -/
@[netlist] def step (s : S) (val_in : Nat) (val_in_mns : Nat) (end_in : Bool) (rst : Bool) (valid : Bool) : S :=
  { end_out := (next_end_out s end_in rst)
    valid_o := (next_valid_o s rst valid)
    ssss := (next_ssss s val_in val_in_mns rst valid)
    val_out := (next_val_out s val_in val_in_mns rst valid) }

/-- normalize.v:5-412: the initial values given in the netlist. -/
def Init (s : S) : Prop :=
  s.end_out = false ∧
  s.valid_o = false ∧
  s.ssss = 0 ∧
  s.val_out = 0

/-- normalize.v:5-412: a state with these initial values; registers without one are 0. -/
def powerUp : S :=
  { end_out := false
    valid_o := false
    ssss := 0
    val_out := 0 }

theorem powerUp_init : Init powerUp := ⟨rfl, rfl, rfl, rfl⟩

end anonymous

namespace top

/-- normalize.v:417-522: registers, memories and instances of module `top`. -/
structure S where
  u_w6 : anonymous.S

/-- normalize.v:470-481. -/
@[netlist] def end_out_5 (s : S) : Bool :=
  s.u_w6.end_out
/-- normalize.v:510-513. -/
@[netlist] def next_end_out (s : S) : Bool :=
  (end_out_5 s)
/-- normalize.v:514. -/
@[netlist] def end_out (s : S) : Bool :=
  (next_end_out s)
/-- normalize.v:470-481. -/
@[netlist] def valid_o (s : S) : Bool :=
  s.u_w6.valid_o
/-- normalize.v:506-509. -/
@[netlist] def next_valid_out (s : S) : Bool :=
  (valid_o s)
/-- normalize.v:515. -/
@[netlist] def valid_out (s : S) : Bool :=
  (next_valid_out s)
/-- normalize.v:470-481. -/
@[netlist] def val_out_3 (s : S) : Nat :=
  s.u_w6.val_out
/-- normalize.v:502-505. -/
@[netlist] def next_val_out (s : S) : Nat :=
  (val_out_3 s)
/-- normalize.v:516. -/
@[netlist] def val_out (s : S) : Nat :=
  (next_val_out s)
/-- normalize.v:470-481. -/
@[netlist] def ssss_4 (s : S) : Nat :=
  s.u_w6.ssss
/-- normalize.v:498-501. -/
@[netlist] def next_ssss (s : S) : Nat :=
  (ssss_4 s)
/-- normalize.v:517. -/
@[netlist] def ssss (s : S) : Nat :=
  (next_ssss s)
/-- normalize.v:494-497. -/
@[netlist] def next_val_in_mns (s : S) (vals_in_mns : Nat) : Nat :=
  vals_in_mns
/-- normalize.v:518. -/
@[netlist] def val_in_mns (s : S) (vals_in_mns : Nat) : Nat :=
  (next_val_in_mns s vals_in_mns)
/-- normalize.v:490-493. -/
@[netlist] def next_end_in_2 (s : S) (end_in : Bool) : Bool :=
  end_in
/-- normalize.v:519. -/
@[netlist] def end_in_2 (s : S) (end_in : Bool) : Bool :=
  (next_end_in_2 s end_in)
/-- normalize.v:486-489. -/
@[netlist] def next_valid (s : S) (valid_in : Bool) : Bool :=
  valid_in
/-- normalize.v:520. -/
@[netlist] def valid (s : S) (valid_in : Bool) : Bool :=
  (next_valid s valid_in)
/-- normalize.v:482-485. -/
@[netlist] def next_val_in_1 (s : S) (val_in : Nat) : Nat :=
  val_in
/-- normalize.v:521. -/
@[netlist] def val_in_1 (s : S) (val_in : Nat) : Nat :=
  (next_val_in_1 s val_in)

/-- normalize.v:417-522: one rising clock edge (`always @(posedge ...)`). -/
@[netlist] def step (s : S) (valid_in : Bool) (end_in : Bool) (vals_in_mns : Nat) (rst : Bool) (val_in : Nat) : S :=
  { u_w6 := anonymous.step s.u_w6 (val_in_1 s val_in) (val_in_mns s vals_in_mns) (end_in_2 s end_in) rst (valid s valid_in) }

/-- normalize.v:417-522: the initial values given in the netlist. -/
def Init (s : S) : Prop :=
  anonymous.Init s.u_w6

/-- normalize.v:417-522: a state with these initial values; registers without one are 0. -/
def powerUp : S :=
  { u_w6 := anonymous.powerUp }

theorem powerUp_init : Init powerUp := anonymous.powerUp_init

end top

end Netlist.NormV
