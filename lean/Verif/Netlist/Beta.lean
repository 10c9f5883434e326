/- Generated by netlist/v2lean.py from verilog_src/beta_integration.v.  Do not edit. -/
import Verif.Netlist.Basic

set_option autoImplicit false
set_option linter.unusedVariables false

namespace Netlist.Beta
open Netlist

namespace anonymous

/-- beta_integration.v:5-332: registers, memories and instances of module `anonymous`. -/
structure S where
  end_out : Bool
  valid_o : Bool
  ssss : Nat
  val_out : Nat

/-- beta_integration.v:90. -/
@[netlist] def w9 (s : S) (val_in_mns : Nat) : Bool :=
  (slc val_in_mns 1 12) == 4095
/-- beta_integration.v:91. -/
@[netlist] def w12 (s : S) (val_in : Nat) : Nat :=
  (val_in + 1) % 2 ^ 14
/-- beta_integration.v:92. -/
@[netlist] def w15 (s : S) (val_in : Nat) : Nat :=
  (val_in + 3) % 2 ^ 14
/-- beta_integration.v:93. -/
@[netlist] def w18 (s : S) (val_in : Nat) : Nat :=
  (val_in + 7) % 2 ^ 14
/-- beta_integration.v:94. -/
@[netlist] def w1 (s : S) (val_in : Nat) : Bool :=
  (val_in.testBit 12) == true
/-- beta_integration.v:95. -/
@[netlist] def w20 (s : S) (val_in_mns : Nat) : Bool :=
  (slc val_in_mns 5 8) == 255
/-- beta_integration.v:96. -/
@[netlist] def w22 (s : S) (val_in_mns : Nat) : Bool :=
  (slc val_in_mns 4 9) == 511
/-- beta_integration.v:97. -/
@[netlist] def w25 (s : S) (val_in : Nat) : Nat :=
  (val_in + 15) % 2 ^ 14
/-- beta_integration.v:98. -/
@[netlist] def w28 (s : S) (val_in : Nat) : Nat :=
  (val_in + 31) % 2 ^ 14
/-- beta_integration.v:99. -/
@[netlist] def w31 (s : S) (val_in : Nat) : Nat :=
  (val_in + 63) % 2 ^ 14
/-- beta_integration.v:100. -/
@[netlist] def w33 (s : S) (val_in_mns : Nat) : Bool :=
  (slc val_in_mns 9 4) == 15
/-- beta_integration.v:101. -/
@[netlist] def w35 (s : S) (val_in_mns : Nat) : Bool :=
  (slc val_in_mns 8 5) == 31
/-- beta_integration.v:102. -/
@[netlist] def w37 (s : S) (val_in_mns : Nat) : Bool :=
  (slc val_in_mns 7 6) == 63
/-- beta_integration.v:103. -/
@[netlist] def w3 (s : S) (val_in_mns : Nat) : Bool :=
  (slc val_in_mns 6 7) == 127
/-- beta_integration.v:104. -/
@[netlist] def w40 (s : S) (val_in : Nat) : Nat :=
  (val_in + 127) % 2 ^ 14
/-- beta_integration.v:105. -/
@[netlist] def w43 (s : S) (val_in : Nat) : Nat :=
  (val_in + 255) % 2 ^ 14
/-- beta_integration.v:106. -/
@[netlist] def w46 (s : S) (val_in : Nat) : Nat :=
  (val_in + 511) % 2 ^ 14
/-- beta_integration.v:107. -/
@[netlist] def w48 (s : S) (val_in_mns : Nat) : Bool :=
  (slc val_in_mns 11 2) == 3
/-- beta_integration.v:108. -/
@[netlist] def w50 (s : S) (val_in_mns : Nat) : Bool :=
  (slc val_in_mns 10 3) == 7
/-- beta_integration.v:109. -/
@[netlist] def w53 (s : S) (val_in : Nat) : Nat :=
  (val_in + 1023) % 2 ^ 14
/-- beta_integration.v:110. -/
@[netlist] def w56 (s : S) (val_in : Nat) : Nat :=
  (val_in + 2047) % 2 ^ 14
/-- beta_integration.v:111. -/
@[netlist] def w5 (s : S) (val_in_mns : Nat) : Bool :=
  (slc val_in_mns 3 10) == 1023
/-- beta_integration.v:112. -/
@[netlist] def w59 (s : S) (val_in : Nat) : Nat :=
  (val_in + 4095) % 2 ^ 14
/-- beta_integration.v:113. -/
@[netlist] def w61 (s : S) (val_in : Nat) : Bool :=
  (val_in.testBit 12) == true
/-- beta_integration.v:114. -/
@[netlist] def w63 (s : S) (val_in_mns : Nat) : Bool :=
  (slc val_in_mns 6 7) == 127
/-- beta_integration.v:115. -/
@[netlist] def w65 (s : S) (val_in_mns : Nat) : Bool :=
  (slc val_in_mns 3 10) == 1023
/-- beta_integration.v:116. -/
@[netlist] def w67 (s : S) (val_in_mns : Nat) : Bool :=
  (slc val_in_mns 2 11) == 2047
/-- beta_integration.v:117. -/
@[netlist] def w69 (s : S) (val_in_mns : Nat) : Bool :=
  (slc val_in_mns 1 12) == 4095
/-- beta_integration.v:118. -/
@[netlist] def w71 (s : S) (val_in_mns : Nat) : Bool :=
  (slc val_in_mns 5 8) == 255
/-- beta_integration.v:119. -/
@[netlist] def w73 (s : S) (val_in_mns : Nat) : Bool :=
  (slc val_in_mns 4 9) == 511
/-- beta_integration.v:120. -/
@[netlist] def w75 (s : S) (val_in_mns : Nat) : Bool :=
  (slc val_in_mns 9 4) == 15
/-- beta_integration.v:121. -/
@[netlist] def w77 (s : S) (val_in_mns : Nat) : Bool :=
  (slc val_in_mns 8 5) == 31
/-- beta_integration.v:122. -/
@[netlist] def w7 (s : S) (val_in_mns : Nat) : Bool :=
  (slc val_in_mns 2 11) == 2047
/-- beta_integration.v:123. -/
@[netlist] def w79 (s : S) (val_in_mns : Nat) : Bool :=
  (slc val_in_mns 7 6) == 63
/-- beta_integration.v:124. -/
@[netlist] def w81 (s : S) (val_in_mns : Nat) : Bool :=
  (slc val_in_mns 11 2) == 3
/-- beta_integration.v:125. -/
@[netlist] def w83 (s : S) (val_in_mns : Nat) : Bool :=
  (slc val_in_mns 10 3) == 7
/-- beta_integration.v:320. -/
@[netlist] def w11 (s : S) (val_in : Nat) : Nat :=
  (w12 s val_in)
/-- beta_integration.v:321. -/
@[netlist] def w14 (s : S) (val_in : Nat) : Nat :=
  (w15 s val_in)
/-- beta_integration.v:322. -/
@[netlist] def w17 (s : S) (val_in : Nat) : Nat :=
  (w18 s val_in)
/-- beta_integration.v:323. -/
@[netlist] def w24 (s : S) (val_in : Nat) : Nat :=
  (w25 s val_in)
/-- beta_integration.v:324. -/
@[netlist] def w27 (s : S) (val_in : Nat) : Nat :=
  (w28 s val_in)
/-- beta_integration.v:325. -/
@[netlist] def w30 (s : S) (val_in : Nat) : Nat :=
  (w31 s val_in)
/-- beta_integration.v:326. -/
@[netlist] def w39 (s : S) (val_in : Nat) : Nat :=
  (w40 s val_in)
/-- beta_integration.v:327. -/
@[netlist] def w42 (s : S) (val_in : Nat) : Nat :=
  (w43 s val_in)
/-- beta_integration.v:328. -/
@[netlist] def w45 (s : S) (val_in : Nat) : Nat :=
  (w46 s val_in)
/-- beta_integration.v:329. -/
@[netlist] def w52 (s : S) (val_in : Nat) : Nat :=
  (w53 s val_in)
/-- beta_integration.v:330. -/
@[netlist] def w55 (s : S) (val_in : Nat) : Nat :=
  (w56 s val_in)
/-- beta_integration.v:331. -/
@[netlist] def w58 (s : S) (val_in : Nat) : Nat :=
  (w59 s val_in)
/-- beta_integration.v:134-204. -/
@[netlist] def next_val_out (s : S) (val_in : Nat) (val_in_mns : Nat) (rst : Bool) (valid : Bool) : Nat :=
  let e1 := if valid = true then (if (w1 s val_in) = true then (if (w3 s val_in_mns) = true then (if (w5 s val_in_mns) = true then (if (w7 s val_in_mns) = true then (if (w9 s val_in_mns) = true then slc (w11 s val_in) 0 12
            else slc (w14 s val_in) 0 12)
          else slc (w17 s val_in) 0 12)
        else (if (w20 s val_in_mns) = true then (if (w22 s val_in_mns) = true then slc (w24 s val_in) 0 12
            else slc (w27 s val_in) 0 12)
          else slc (w30 s val_in) 0 12))
      else (if (w33 s val_in_mns) = true then (if (w35 s val_in_mns) = true then (if (w37 s val_in_mns) = true then slc (w39 s val_in) 0 12
            else slc (w42 s val_in) 0 12)
          else slc (w45 s val_in) 0 12)
        else (if (w48 s val_in_mns) = true then (if (w50 s val_in_mns) = true then slc (w52 s val_in) 0 12
            else slc (w55 s val_in) 0 12)
          else slc (w58 s val_in) 0 12)))
    else slc val_in 0 12)
  else s.val_out
  if rst = true then 0
  else e1
/-- beta_integration.v:205-303. -/
@[netlist] def next_ssss (s : S) (val_in : Nat) (val_in_mns : Nat) (rst : Bool) (valid : Bool) : Nat :=
  let e1 := if valid = true then (if (w61 s val_in) = true then (if (w63 s val_in_mns) = true then (if (w65 s val_in_mns) = true then (if (w67 s val_in_mns) = true then (if (w69 s val_in_mns) = true then 1
            else 2)
          else 3)
        else (if (w71 s val_in_mns) = true then (if (w73 s val_in_mns) = true then 4
            else 5)
          else 6))
      else (if (w75 s val_in_mns) = true then (if (w77 s val_in_mns) = true then (if (w79 s val_in_mns) = true then 7
            else 8)
          else 9)
        else (if (w81 s val_in_mns) = true then (if (w83 s val_in_mns) = true then 10
            else 11)
          else 12)))
    else (if (val_in.testBit 11) = true then 12
      else if (val_in.testBit 10) = true then 11
      else if (val_in.testBit 9) = true then 10
      else if (val_in.testBit 8) = true then 9
      else if (val_in.testBit 7) = true then 8
      else if (val_in.testBit 6) = true then 7
      else if (val_in.testBit 5) = true then 6
      else if (val_in.testBit 4) = true then 5
      else if (val_in.testBit 3) = true then 4
      else if (val_in.testBit 2) = true then 3
      else if (val_in.testBit 1) = true then 2
      else if (val_in.testBit 0) = true then 1
      else 0))
  else s.ssss
  if rst = true then 0
  else e1
/-- beta_integration.v:304-311. -/
@[netlist] def next_valid_o (s : S) (rst : Bool) (valid : Bool) : Bool :=
  if rst = true then false
  else valid
/-- beta_integration.v:312-319. -/
@[netlist] def next_end_out (s : S) (end_in : Bool) (rst : Bool) : Bool :=
  if rst = true then false
  else end_in

/-- beta_integration.v:5-332: one rising clock edge (`always @(posedge ...)`). -/
@[netlist] def step (s : S) (val_in : Nat) (val_in_mns : Nat) (end_in : Bool) (rst : Bool) (valid : Bool) : S :=
  { end_out := (next_end_out s end_in rst)
    valid_o := (next_valid_o s rst valid)
    ssss := (next_ssss s val_in val_in_mns rst valid)
    val_out := (next_val_out s val_in val_in_mns rst valid) }

/-- beta_integration.v:5-332: the initial values given in the netlist. -/
def Init (s : S) : Prop :=
  s.end_out = false ∧
  s.valid_o = false ∧
  s.ssss = 0 ∧
  s.val_out = 0

/-- beta_integration.v:5-332: a state with these initial values; registers without one are 0. -/
def powerUp : S :=
  { end_out := false
    valid_o := false
    ssss := 0
    val_out := 0 }

theorem powerUp_init : Init powerUp := ⟨rfl, rfl, rfl, rfl⟩

end anonymous

namespace anonymous_1

/-- beta_integration.v:336-661: registers, memories and instances of module `anonymous$1`. -/
structure S where
  end_out : Bool
  valid_o : Bool
  ssss : Nat
  val_out : Nat

/-- beta_integration.v:419. -/
@[netlist] def w9 (s : S) (val_in_mns : Nat) : Bool :=
  (slc val_in_mns 1 12) == 4095
/-- beta_integration.v:420. -/
@[netlist] def w12 (s : S) (val_in : Nat) : Nat :=
  (val_in + 1) % 2 ^ 14
/-- beta_integration.v:421. -/
@[netlist] def w15 (s : S) (val_in : Nat) : Nat :=
  (val_in + 3) % 2 ^ 14
/-- beta_integration.v:422. -/
@[netlist] def w18 (s : S) (val_in : Nat) : Nat :=
  (val_in + 7) % 2 ^ 14
/-- beta_integration.v:423. -/
@[netlist] def w1 (s : S) (val_in : Nat) : Bool :=
  (val_in.testBit 12) == true
/-- beta_integration.v:424. -/
@[netlist] def w20 (s : S) (val_in_mns : Nat) : Bool :=
  (slc val_in_mns 5 8) == 255
/-- beta_integration.v:425. -/
@[netlist] def w22 (s : S) (val_in_mns : Nat) : Bool :=
  (slc val_in_mns 4 9) == 511
/-- beta_integration.v:426. -/
@[netlist] def w25 (s : S) (val_in : Nat) : Nat :=
  (val_in + 15) % 2 ^ 14
/-- beta_integration.v:427. -/
@[netlist] def w28 (s : S) (val_in : Nat) : Nat :=
  (val_in + 31) % 2 ^ 14
/-- beta_integration.v:428. -/
@[netlist] def w31 (s : S) (val_in : Nat) : Nat :=
  (val_in + 63) % 2 ^ 14
/-- beta_integration.v:429. -/
@[netlist] def w33 (s : S) (val_in_mns : Nat) : Bool :=
  (slc val_in_mns 9 4) == 15
/-- beta_integration.v:430. -/
@[netlist] def w35 (s : S) (val_in_mns : Nat) : Bool :=
  (slc val_in_mns 8 5) == 31
/-- beta_integration.v:431. -/
@[netlist] def w37 (s : S) (val_in_mns : Nat) : Bool :=
  (slc val_in_mns 7 6) == 63
/-- beta_integration.v:432. -/
@[netlist] def w3 (s : S) (val_in_mns : Nat) : Bool :=
  (slc val_in_mns 6 7) == 127
/-- beta_integration.v:433. -/
@[netlist] def w40 (s : S) (val_in : Nat) : Nat :=
  (val_in + 127) % 2 ^ 14
/-- beta_integration.v:434. -/
@[netlist] def w43 (s : S) (val_in : Nat) : Nat :=
  (val_in + 255) % 2 ^ 14
/-- beta_integration.v:435. -/
@[netlist] def w46 (s : S) (val_in : Nat) : Nat :=
  (val_in + 511) % 2 ^ 14
/-- beta_integration.v:436. -/
@[netlist] def w48 (s : S) (val_in_mns : Nat) : Bool :=
  (slc val_in_mns 11 2) == 3
/-- beta_integration.v:437. -/
@[netlist] def w50 (s : S) (val_in_mns : Nat) : Bool :=
  (slc val_in_mns 10 3) == 7
/-- beta_integration.v:438. -/
@[netlist] def w53 (s : S) (val_in : Nat) : Nat :=
  (val_in + 1023) % 2 ^ 14
/-- beta_integration.v:439. -/
@[netlist] def w56 (s : S) (val_in : Nat) : Nat :=
  (val_in + 2047) % 2 ^ 14
/-- beta_integration.v:440. -/
@[netlist] def w5 (s : S) (val_in_mns : Nat) : Bool :=
  (slc val_in_mns 3 10) == 1023
/-- beta_integration.v:441. -/
@[netlist] def w59 (s : S) (val_in : Nat) : Nat :=
  (val_in + 4095) % 2 ^ 14
/-- beta_integration.v:442. -/
@[netlist] def w61 (s : S) (val_in : Nat) : Bool :=
  (val_in.testBit 12) == true
/-- beta_integration.v:443. -/
@[netlist] def w63 (s : S) (val_in_mns : Nat) : Bool :=
  (slc val_in_mns 6 7) == 127
/-- beta_integration.v:444. -/
@[netlist] def w65 (s : S) (val_in_mns : Nat) : Bool :=
  (slc val_in_mns 3 10) == 1023
/-- beta_integration.v:445. -/
@[netlist] def w67 (s : S) (val_in_mns : Nat) : Bool :=
  (slc val_in_mns 2 11) == 2047
/-- beta_integration.v:446. -/
@[netlist] def w69 (s : S) (val_in_mns : Nat) : Bool :=
  (slc val_in_mns 1 12) == 4095
/-- beta_integration.v:447. -/
@[netlist] def w71 (s : S) (val_in_mns : Nat) : Bool :=
  (slc val_in_mns 5 8) == 255
/-- beta_integration.v:448. -/
@[netlist] def w73 (s : S) (val_in_mns : Nat) : Bool :=
  (slc val_in_mns 4 9) == 511
/-- beta_integration.v:449. -/
@[netlist] def w75 (s : S) (val_in_mns : Nat) : Bool :=
  (slc val_in_mns 9 4) == 15
/-- beta_integration.v:450. -/
@[netlist] def w77 (s : S) (val_in_mns : Nat) : Bool :=
  (slc val_in_mns 8 5) == 31
/-- beta_integration.v:451. -/
@[netlist] def w7 (s : S) (val_in_mns : Nat) : Bool :=
  (slc val_in_mns 2 11) == 2047
/-- beta_integration.v:452. -/
@[netlist] def w79 (s : S) (val_in_mns : Nat) : Bool :=
  (slc val_in_mns 7 6) == 63
/-- beta_integration.v:453. -/
@[netlist] def w81 (s : S) (val_in_mns : Nat) : Bool :=
  (slc val_in_mns 11 2) == 3
/-- beta_integration.v:454. -/
@[netlist] def w83 (s : S) (val_in_mns : Nat) : Bool :=
  (slc val_in_mns 10 3) == 7
/-- beta_integration.v:649. -/
@[netlist] def w11 (s : S) (val_in : Nat) : Nat :=
  (w12 s val_in)
/-- beta_integration.v:650. -/
@[netlist] def w14 (s : S) (val_in : Nat) : Nat :=
  (w15 s val_in)
/-- beta_integration.v:651. -/
@[netlist] def w17 (s : S) (val_in : Nat) : Nat :=
  (w18 s val_in)
/-- beta_integration.v:652. -/
@[netlist] def w24 (s : S) (val_in : Nat) : Nat :=
  (w25 s val_in)
/-- beta_integration.v:653. -/
@[netlist] def w27 (s : S) (val_in : Nat) : Nat :=
  (w28 s val_in)
/-- beta_integration.v:654. -/
@[netlist] def w30 (s : S) (val_in : Nat) : Nat :=
  (w31 s val_in)
/-- beta_integration.v:655. -/
@[netlist] def w39 (s : S) (val_in : Nat) : Nat :=
  (w40 s val_in)
/-- beta_integration.v:656. -/
@[netlist] def w42 (s : S) (val_in : Nat) : Nat :=
  (w43 s val_in)
/-- beta_integration.v:657. -/
@[netlist] def w45 (s : S) (val_in : Nat) : Nat :=
  (w46 s val_in)
/-- beta_integration.v:658. -/
@[netlist] def w52 (s : S) (val_in : Nat) : Nat :=
  (w53 s val_in)
/-- beta_integration.v:659. -/
@[netlist] def w55 (s : S) (val_in : Nat) : Nat :=
  (w56 s val_in)
/-- beta_integration.v:660. -/
@[netlist] def w58 (s : S) (val_in : Nat) : Nat :=
  (w59 s val_in)
/-- beta_integration.v:463-533. -/
@[netlist] def next_val_out (s : S) (val_in : Nat) (val_in_mns : Nat) (rst : Bool) (valid : Bool) : Nat :=
  let e1 := if valid = true then (if (w1 s val_in) = true then (if (w3 s val_in_mns) = true then (if (w5 s val_in_mns) = true then (if (w7 s val_in_mns) = true then (if (w9 s val_in_mns) = true then slc (w11 s val_in) 0 12
            else slc (w14 s val_in) 0 12)
          else slc (w17 s val_in) 0 12)
        else (if (w20 s val_in_mns) = true then (if (w22 s val_in_mns) = true then slc (w24 s val_in) 0 12
            else slc (w27 s val_in) 0 12)
          else slc (w30 s val_in) 0 12))
      else (if (w33 s val_in_mns) = true then (if (w35 s val_in_mns) = true then (if (w37 s val_in_mns) = true then slc (w39 s val_in) 0 12
            else slc (w42 s val_in) 0 12)
          else slc (w45 s val_in) 0 12)
        else (if (w48 s val_in_mns) = true then (if (w50 s val_in_mns) = true then slc (w52 s val_in) 0 12
            else slc (w55 s val_in) 0 12)
          else slc (w58 s val_in) 0 12)))
    else slc val_in 0 12)
  else s.val_out
  if rst = true then 0
  else e1
/-- beta_integration.v:534-632. -/
@[netlist] def next_ssss (s : S) (val_in : Nat) (val_in_mns : Nat) (rst : Bool) (valid : Bool) : Nat :=
  let e1 := if valid = true then (if (w61 s val_in) = true then (if (w63 s val_in_mns) = true then (if (w65 s val_in_mns) = true then (if (w67 s val_in_mns) = true then (if (w69 s val_in_mns) = true then 1
            else 2)
          else 3)
        else (if (w71 s val_in_mns) = true then (if (w73 s val_in_mns) = true then 4
            else 5)
          else 6))
      else (if (w75 s val_in_mns) = true then (if (w77 s val_in_mns) = true then (if (w79 s val_in_mns) = true then 7
            else 8)
          else 9)
        else (if (w81 s val_in_mns) = true then (if (w83 s val_in_mns) = true then 10
            else 11)
          else 12)))
    else (if (val_in.testBit 11) = true then 12
      else if (val_in.testBit 10) = true then 11
      else if (val_in.testBit 9) = true then 10
      else if (val_in.testBit 8) = true then 9
      else if (val_in.testBit 7) = true then 8
      else if (val_in.testBit 6) = true then 7
      else if (val_in.testBit 5) = true then 6
      else if (val_in.testBit 4) = true then 5
      else if (val_in.testBit 3) = true then 4
      else if (val_in.testBit 2) = true then 3
      else if (val_in.testBit 1) = true then 2
      else if (val_in.testBit 0) = true then 1
      else 0))
  else s.ssss
  if rst = true then 0
  else e1
/-- beta_integration.v:633-640. -/
@[netlist] def next_valid_o (s : S) (rst : Bool) (valid : Bool) : Bool :=
  if rst = true then false
  else valid
/-- beta_integration.v:641-648. -/
@[netlist] def next_end_out (s : S) (end_in : Bool) (rst : Bool) : Bool :=
  if rst = true then false
  else end_in

/-- beta_integration.v:336-661: one rising clock edge (`always @(posedge ...)`). -/
@[netlist] def step (s : S) (val_in : Nat) (val_in_mns : Nat) (end_in : Bool) (rst : Bool) (valid : Bool) : S :=
  { end_out := (next_end_out s end_in rst)
    valid_o := (next_valid_o s rst valid)
    ssss := (next_ssss s val_in val_in_mns rst valid)
    val_out := (next_val_out s val_in val_in_mns rst valid) }

/-- beta_integration.v:336-661: the initial values given in the netlist. -/
def Init (s : S) : Prop :=
  s.end_out = false ∧
  s.valid_o = false ∧
  s.ssss = 0 ∧
  s.val_out = 0

/-- beta_integration.v:336-661: a state with these initial values; registers without one are 0. -/
def powerUp : S :=
  { end_out := false
    valid_o := false
    ssss := 0
    val_out := 0 }

theorem powerUp_init : Init powerUp := ⟨rfl, rfl, rfl, rfl⟩

end anonymous_1

namespace anonymous_2

/-- beta_integration.v:665-827: registers, memories and instances of module `anonymous$2`. -/
structure S where
  end_out : Bool
  end_late : Bool
  valid_out : Bool
  valid_late : Bool
  enc_ctr : Nat
  enc_out : Nat
  val_in_late : Nat
  ssss_late : Nat

/-- beta_integration.v:732. -/
@[netlist] def w2 (s : S) (rp_data : Nat) : Nat :=
  rp_data ||| s.val_in_late
/-- beta_integration.v:733. -/
@[netlist] def w5 (s : S) (rp_data : Nat) : Nat :=
  ((slc rp_data 28 5) + (slc s.ssss_late 0 4)) % 2 ^ 6
/-- beta_integration.v:824. -/
@[netlist] def w1 (s : S) (rp_data : Nat) : Nat :=
  (w2 s rp_data)
/-- beta_integration.v:825. -/
@[netlist] def w4 (s : S) (rp_data : Nat) : Nat :=
  (w5 s rp_data)
/-- beta_integration.v:798-801. -/
@[netlist] def next_rp_addr (s : S) (ssss : Nat) : Nat :=
  ssss
/-- beta_integration.v:826. -/
@[netlist] def rp_addr (s : S) (ssss : Nat) : Nat :=
  (next_rp_addr s ssss)
/-- beta_integration.v:750-757. -/
@[netlist] def next_valid_late (s : S) (rst : Bool) (valid_in : Bool) : Bool :=
  if rst = true then false
  else valid_in
/-- beta_integration.v:758-765. -/
@[netlist] def next_valid_out (s : S) (rst : Bool) : Bool :=
  if rst = true then false
  else s.valid_late
/-- beta_integration.v:766-773. -/
@[netlist] def next_end_late (s : S) (end_in : Bool) (rst : Bool) : Bool :=
  if rst = true then false
  else end_in
/-- beta_integration.v:774-781. -/
@[netlist] def next_end_out (s : S) (rst : Bool) : Bool :=
  if rst = true then false
  else s.end_late
/-- beta_integration.v:782-789. -/
@[netlist] def next_ssss_late (s : S) (ssss : Nat) (rst : Bool) : Nat :=
  if rst = true then 0
  else ssss
/-- beta_integration.v:790-797. -/
@[netlist] def next_val_in_late (s : S) (val_in : Nat) (rst : Bool) : Nat :=
  if rst = true then 0
  else val_in
/-- beta_integration.v:802-812. -/
@[netlist] def next_enc_out (s : S) (rp_data : Nat) (rst : Bool) : Nat :=
  let e1 := if s.valid_late = true then slc (w1 s rp_data) 0 28
  else s.enc_out
  if rst = true then 0
  else e1
/-- beta_integration.v:813-823. -/
@[netlist] def next_enc_ctr (s : S) (rp_data : Nat) (rst : Bool) : Nat :=
  let e1 := if s.valid_late = true then slc (w4 s rp_data) 0 5
  else s.enc_ctr
  if rst = true then 0
  else e1

/-- beta_integration.v:665-827: one rising clock edge (`always @(posedge ...)`). -/
@[netlist] def step (s : S) (end_in : Bool) (ssss : Nat) (val_in : Nat) (rp_data : Nat) (rst : Bool) (valid_in : Bool) : S :=
  { end_out := (next_end_out s rst)
    end_late := (next_end_late s end_in rst)
    valid_out := (next_valid_out s rst)
    valid_late := (next_valid_late s rst valid_in)
    enc_ctr := (next_enc_ctr s rp_data rst)
    enc_out := (next_enc_out s rp_data rst)
    val_in_late := (next_val_in_late s val_in rst)
    ssss_late := (next_ssss_late s ssss rst) }

/-- beta_integration.v:665-827: the initial values given in the netlist. -/
def Init (s : S) : Prop :=
  s.end_out = false ∧
  s.end_late = false ∧
  s.valid_out = false ∧
  s.valid_late = false ∧
  s.enc_ctr = 0 ∧
  s.enc_out = 0 ∧
  s.val_in_late = 0 ∧
  s.ssss_late = 0

/-- beta_integration.v:665-827: a state with these initial values; registers without one are 0. -/
def powerUp : S :=
  { end_out := false
    end_late := false
    valid_out := false
    valid_late := false
    enc_ctr := 0
    enc_out := 0
    val_in_late := 0
    ssss_late := 0 }

theorem powerUp_init : Init powerUp := ⟨rfl, rfl, rfl, rfl, rfl, rfl, rfl, rfl⟩

end anonymous_2

namespace anonymous_3

/-- beta_integration.v:831-991: registers, memories and instances of module `anonymous$3`. -/
structure S where
  enc_ctr : Nat
  enc_out : Nat
  val_in_late : Nat
  ssss_late : Nat
  end_out : Bool
  end_late : Bool
  valid_out : Bool
  valid_late : Bool

/-- beta_integration.v:896. -/
@[netlist] def w2 (s : S) (rp_data : Nat) : Nat :=
  rp_data ||| s.val_in_late
/-- beta_integration.v:897. -/
@[netlist] def w5 (s : S) (rp_data : Nat) : Nat :=
  ((slc rp_data 28 5) + (slc s.ssss_late 0 4)) % 2 ^ 6
/-- beta_integration.v:988. -/
@[netlist] def w1 (s : S) (rp_data : Nat) : Nat :=
  (w2 s rp_data)
/-- beta_integration.v:989. -/
@[netlist] def w4 (s : S) (rp_data : Nat) : Nat :=
  (w5 s rp_data)
/-- beta_integration.v:962-965. -/
@[netlist] def next_rp_addr (s : S) (ssss : Nat) : Nat :=
  ssss
/-- beta_integration.v:990. -/
@[netlist] def rp_addr (s : S) (ssss : Nat) : Nat :=
  (next_rp_addr s ssss)
/-- beta_integration.v:914-921. -/
@[netlist] def next_valid_late (s : S) (rst : Bool) (valid_in : Bool) : Bool :=
  if rst = true then false
  else valid_in
/-- beta_integration.v:922-929. -/
@[netlist] def next_valid_out (s : S) (rst : Bool) : Bool :=
  if rst = true then false
  else s.valid_late
/-- beta_integration.v:930-937. -/
@[netlist] def next_end_late (s : S) (end_in : Bool) (rst : Bool) : Bool :=
  if rst = true then false
  else end_in
/-- beta_integration.v:938-945. -/
@[netlist] def next_end_out (s : S) (rst : Bool) : Bool :=
  if rst = true then false
  else s.end_late
/-- beta_integration.v:946-953. -/
@[netlist] def next_ssss_late (s : S) (ssss : Nat) (rst : Bool) : Nat :=
  if rst = true then 0
  else ssss
/-- beta_integration.v:954-961. -/
@[netlist] def next_val_in_late (s : S) (val_in : Nat) (rst : Bool) : Nat :=
  if rst = true then 0
  else val_in
/-- beta_integration.v:966-976. -/
@[netlist] def next_enc_out (s : S) (rp_data : Nat) (rst : Bool) : Nat :=
  let e1 := if s.valid_late = true then slc (w1 s rp_data) 0 28
  else s.enc_out
  if rst = true then 0
  else e1
/-- beta_integration.v:977-987. -/
@[netlist] def next_enc_ctr (s : S) (rp_data : Nat) (rst : Bool) : Nat :=
  let e1 := if s.valid_late = true then slc (w4 s rp_data) 0 5
  else s.enc_ctr
  if rst = true then 0
  else e1

/-- beta_integration.v:831-991: one rising clock edge (`always @(posedge ...)`). -/
@[netlist] def step (s : S) (end_in : Bool) (ssss : Nat) (val_in : Nat) (rp_data : Nat) (rst : Bool) (valid_in : Bool) : S :=
  { enc_ctr := (next_enc_ctr s rp_data rst)
    enc_out := (next_enc_out s rp_data rst)
    val_in_late := (next_val_in_late s val_in rst)
    ssss_late := (next_ssss_late s ssss rst)
    end_out := (next_end_out s rst)
    end_late := (next_end_late s end_in rst)
    valid_out := (next_valid_out s rst)
    valid_late := (next_valid_late s rst valid_in) }

/-- beta_integration.v:831-991: the initial values given in the netlist. -/
def Init (s : S) : Prop :=
  s.enc_ctr = 0 ∧
  s.enc_out = 0 ∧
  s.val_in_late = 0 ∧
  s.ssss_late = 0 ∧
  s.end_out = false ∧
  s.end_late = false ∧
  s.valid_out = false ∧
  s.valid_late = false

/-- beta_integration.v:831-991: a state with these initial values; registers without one are 0. -/
def powerUp : S :=
  { enc_ctr := 0
    enc_out := 0
    val_in_late := 0
    ssss_late := 0
    end_out := false
    end_late := false
    valid_out := false
    valid_late := false }

theorem powerUp_init : Init powerUp := ⟨rfl, rfl, rfl, rfl, rfl, rfl, rfl, rfl⟩

end anonymous_3

namespace anonymous_4

/-- beta_integration.v:995-1090: registers, memories and instances of module `anonymous$4`. -/
structure S where
  end_out : Bool
  valid_out : Bool
  enc_out : Nat
  enc_out_ctr : Nat

/-- beta_integration.v:1040. -/
@[netlist] def w1 (s : S) (enc_in_ctr1 : Nat) (enc_in_ctr2 : Nat) : Nat :=
  (enc_in_ctr1 + enc_in_ctr2) % 2 ^ 6
/-- beta_integration.v:1041. -/
@[netlist] def w4 (s : S) (enc_in_ctr2 : Nat) (enc_in1 : Nat) : Nat :=
  enc_in1 * 2 ^ enc_in_ctr2 % 2 ^ 59
/-- beta_integration.v:1042. -/
@[netlist] def w6 (s : S) (enc_in_ctr2 : Nat) (enc_in1 : Nat) (enc_in2 : Nat) : Nat :=
  (w4 s enc_in_ctr2 enc_in1) ||| enc_in2
/-- beta_integration.v:1089. -/
@[netlist] def w3 (s : S) (enc_in_ctr2 : Nat) (enc_in1 : Nat) (enc_in2 : Nat) : Nat :=
  (w6 s enc_in_ctr2 enc_in1 enc_in2)
/-- beta_integration.v:1051-1061. -/
@[netlist] def next_enc_out_ctr (s : S) (enc_in_ctr1 : Nat) (enc_in_ctr2 : Nat) (rst : Bool) (valid_in : Bool) : Nat :=
  let e1 := if valid_in = true then (w1 s enc_in_ctr1 enc_in_ctr2)
  else s.enc_out_ctr
  if rst = true then 0
  else e1
/-- beta_integration.v:1062-1072. -/
@[netlist] def next_enc_out (s : S) (enc_in_ctr2 : Nat) (enc_in1 : Nat) (enc_in2 : Nat) (rst : Bool) (valid_in : Bool) : Nat :=
  let e1 := if valid_in = true then slc (w3 s enc_in_ctr2 enc_in1 enc_in2) 0 56
  else s.enc_out
  if rst = true then 0
  else e1
/-- beta_integration.v:1073-1080. -/
@[netlist] def next_valid_out (s : S) (rst : Bool) (valid_in : Bool) : Bool :=
  if rst = true then false
  else valid_in
/-- beta_integration.v:1081-1088. -/
@[netlist] def next_end_out (s : S) (end_in : Bool) (rst : Bool) : Bool :=
  if rst = true then false
  else end_in

/-- beta_integration.v:995-1090: one rising clock edge (`always @(posedge ...)`). -/
@[netlist] def step (s : S) (enc_in_ctr1 : Nat) (enc_in_ctr2 : Nat) (enc_in1 : Nat) (enc_in2 : Nat) (end_in : Bool) (rst : Bool) (valid_in : Bool) : S :=
  { end_out := (next_end_out s end_in rst)
    valid_out := (next_valid_out s rst valid_in)
    enc_out := (next_enc_out s enc_in_ctr2 enc_in1 enc_in2 rst valid_in)
    enc_out_ctr := (next_enc_out_ctr s enc_in_ctr1 enc_in_ctr2 rst valid_in) }

/-- beta_integration.v:995-1090: the initial values given in the netlist. -/
def Init (s : S) : Prop :=
  s.end_out = false ∧
  s.valid_out = false ∧
  s.enc_out = 0 ∧
  s.enc_out_ctr = 0

/-- beta_integration.v:995-1090: a state with these initial values; registers without one are 0. -/
def powerUp : S :=
  { end_out := false
    valid_out := false
    enc_out := 0
    enc_out_ctr := 0 }

theorem powerUp_init : Init powerUp := ⟨rfl, rfl, rfl, rfl⟩

end anonymous_4

namespace auto_reset

/-- beta_integration.v:1094-1134: registers, memories and instances of module `auto_reset`. -/
structure S where
  reset_out : Bool

/-- beta_integration.v:1117. -/
@[netlist] def w1 (s : S) (hs1_in : Bool) : Bool :=
  hs1_in == true
/-- beta_integration.v:1118. -/
@[netlist] def w3 (s : S) (hs2_in : Bool) : Bool :=
  hs2_in == true
/-- beta_integration.v:1119. -/
@[netlist] def w5 (s : S) (hs2_in : Bool) (hs1_in : Bool) : Bool :=
  (w1 s hs1_in) && (w3 s hs2_in)
/-- beta_integration.v:1120. -/
@[netlist] def w7 (s : S) (end_in : Bool) : Bool :=
  end_in == true
/-- beta_integration.v:1116. -/
@[netlist] def w9 (s : S) (hs2_in : Bool) (end_in : Bool) (hs1_in : Bool) : Bool :=
  (w5 s hs2_in hs1_in) && (w7 s end_in)
/-- beta_integration.v:1123-1133. -/
@[netlist] def next_reset_out (s : S) (hs2_in : Bool) (end_in : Bool) (rst : Bool) (hs1_in : Bool) : Bool :=
  let e1 := if (w9 s hs2_in end_in hs1_in) = true then true
  else s.reset_out
  if rst = true then false
  else e1

/-- beta_integration.v:1094-1134: one rising clock edge (`always @(posedge ...)`). -/
@[netlist] def step (s : S) (hs2_in : Bool) (end_in : Bool) (rst : Bool) (hs1_in : Bool) : S :=
  { reset_out := (next_reset_out s hs2_in end_in rst hs1_in) }

/-- beta_integration.v:1094-1134: the initial values given in the netlist. -/
def Init (s : S) : Prop :=
  s.reset_out = false

/-- beta_integration.v:1094-1134: a state with these initial values; registers without one are 0. -/
def powerUp : S :=
  { reset_out := false }

theorem powerUp_init : Init powerUp := rfl

end auto_reset

namespace converter

/-- beta_integration.v:1138-1575: registers, memories and instances of module `converter`. -/
structure S where
  out_end_latch : Bool
  enc_out_latch : Nat
  in_end : Bool
  enc_in_ctr : Nat
  enc_in : Nat
  valid_out_reg : Bool
  out_end_reg : Bool
  enc_out_ctr_reg : Nat
  enc_out_reg : Nat
  fsm_state : Nat
  latch_output : Bool
  valid_in : Bool

/-- beta_integration.v:1276. -/
@[netlist] def w7 (s : S) (close_full : Bool) : Bool :=
  close_full == false
/-- beta_integration.v:1248. -/
@[netlist] def w9 (s : S) (valid_out : Bool) (close_full : Bool) : Bool :=
  valid_out && (w7 s close_full)
/-- beta_integration.v:1249. -/
@[netlist] def w11 (s : S) : Bool :=
  decide (s.enc_out_ctr_reg ≤ 30)
/-- beta_integration.v:1250. -/
@[netlist] def w13 (s : S) (close_full : Bool) : Bool :=
  close_full == false
/-- beta_integration.v:1251. -/
@[netlist] def w15 (s : S) (close_full : Bool) : Bool :=
  s.valid_out_reg && (w13 s close_full)
/-- beta_integration.v:1252. -/
@[netlist] def w17 (s : S) (close_full : Bool) : Bool :=
  close_full == false
/-- beta_integration.v:1253. -/
@[netlist] def w1 (s : S) : Bool :=
  decide (s.enc_out_ctr_reg ≤ 30)
/-- beta_integration.v:1254. -/
@[netlist] def w19 (s : S) (valid_out : Bool) (close_full : Bool) : Bool :=
  valid_out && (w17 s close_full)
/-- beta_integration.v:1255. -/
@[netlist] def w21 (s : S) (close_full : Bool) : Bool :=
  close_full == false
/-- beta_integration.v:1256. -/
@[netlist] def w23 (s : S) (close_full : Bool) : Bool :=
  s.valid_out_reg && (w21 s close_full)
/-- beta_integration.v:1257. -/
@[netlist] def w25 (s : S) (close_full : Bool) : Bool :=
  close_full == false
/-- beta_integration.v:1258. -/
@[netlist] def w27 (s : S) (valid_out : Bool) (close_full : Bool) : Bool :=
  valid_out && (w25 s close_full)
/-- beta_integration.v:1259. -/
@[netlist] def w29 (s : S) : Bool :=
  decide (s.enc_out_ctr_reg ≤ 30)
/-- beta_integration.v:1260. -/
@[netlist] def w31 (s : S) : Bool :=
  decide (s.enc_out_ctr_reg ≤ 56)
/-- beta_integration.v:1261. -/
@[netlist] def w33 (s : S) (close_full : Bool) : Bool :=
  close_full == false
/-- beta_integration.v:1262. -/
@[netlist] def w35 (s : S) (close_full : Bool) : Bool :=
  s.valid_out_reg && (w33 s close_full)
/-- beta_integration.v:1263. -/
@[netlist] def w37 (s : S) (close_full : Bool) : Bool :=
  close_full == false
/-- beta_integration.v:1264. -/
@[netlist] def w3 (s : S) (close_full : Bool) : Bool :=
  close_full == false
/-- beta_integration.v:1265. -/
@[netlist] def w39 (s : S) (valid_out : Bool) (close_full : Bool) : Bool :=
  valid_out && (w37 s close_full)
/-- beta_integration.v:1266. -/
@[netlist] def w41 (s : S) : Bool :=
  decide (s.enc_out_ctr_reg ≤ 30)
/-- beta_integration.v:1267. -/
@[netlist] def w43 (s : S) : Bool :=
  decide (s.enc_out_ctr_reg ≤ 56)
/-- beta_integration.v:1268. -/
@[netlist] def w45 (s : S) : Nat :=
  slc s.enc_out_reg 30 26
/-- beta_integration.v:1269. -/
@[netlist] def w47 (s : S) : Bool :=
  decide (s.enc_out_ctr_reg ≤ 30)
/-- beta_integration.v:1270. -/
@[netlist] def w49 (s : S) : Bool :=
  decide (s.enc_out_ctr_reg ≤ 56)
/-- beta_integration.v:1271. -/
@[netlist] def w52 (s : S) : Nat :=
  (2 ^ 7 + s.enc_out_ctr_reg - 30) % 2 ^ 7
/-- beta_integration.v:1272. -/
@[netlist] def w54 (s : S) : Bool :=
  decide (s.enc_out_ctr_reg ≤ 30)
/-- beta_integration.v:1273. -/
@[netlist] def w56 (s : S) : Bool :=
  decide (s.enc_out_ctr_reg ≤ 30)
/-- beta_integration.v:1274. -/
@[netlist] def w58 (s : S) : Bool :=
  decide (s.enc_out_ctr_reg ≤ 30)
/-- beta_integration.v:1275. -/
@[netlist] def w5 (s : S) (close_full : Bool) : Bool :=
  s.valid_out_reg && (w3 s close_full)
/-- beta_integration.v:1574. -/
@[netlist] def w51 (s : S) : Nat :=
  (w52 s)
/-- beta_integration.v:1301-1327. -/
@[netlist] def next_valid_in (s : S) (rst : Bool) : Bool :=
  let e1 := if s.fsm_state = 0 then false
  else if s.fsm_state = 2 then false
  else if s.fsm_state = 1 then (if s.valid_out_reg = true then (if (w1 s) = true then true
      else true)
    else false)
  else if s.fsm_state = 3 then true
  else s.valid_in
  if rst = true then false
  else e1
/-- beta_integration.v:1328-1366. -/
@[netlist] def next_latch_output (s : S) (valid_out : Bool) (rst : Bool) (close_full : Bool) : Bool :=
  let e1 := if s.fsm_state = 0 then (if (w5 s close_full) = true then true
    else if (w9 s valid_out close_full) = true then true
    else false)
  else if s.fsm_state = 1 then (if s.valid_out_reg = true then (if (w11 s) = true then (if close_full = true then false
        else s.latch_output)
      else false)
    else s.latch_output)
  else if s.fsm_state = 3 then (if (w15 s close_full) = true then true
    else if (w19 s valid_out close_full) = true then true
    else s.latch_output)
  else s.latch_output
  if rst = true then false
  else e1
/-- beta_integration.v:1367-1385. -/
@[netlist] def next_enc_out_latch (s : S) (rst : Bool) : Nat :=
  let e1 := if s.fsm_state = 1 then (if s.valid_out_reg = true then (if (w56 s) = true then s.enc_out_latch
      else slc s.enc_out_reg 0 30)
    else s.enc_out_latch)
  else s.enc_out_latch
  if rst = true then 0
  else e1
/-- beta_integration.v:1386-1404. -/
@[netlist] def next_out_end_latch (s : S) (rst : Bool) : Bool :=
  let e1 := if s.fsm_state = 1 then (if s.valid_out_reg = true then (if (w58 s) = true then s.out_end_latch
      else s.out_end_reg)
    else s.out_end_latch)
  else s.out_end_latch
  if rst = true then false
  else e1
/-- beta_integration.v:1405-1449. -/
@[netlist] def next_fsm_state (s : S) (valid_out : Bool) (rst : Bool) (close_full : Bool) : Nat :=
  let e1 := if s.fsm_state = 0 then (if (w23 s close_full) = true then 1
    else if (w27 s valid_out close_full) = true then 2
    else 0)
  else if s.fsm_state = 2 then 1
  else if s.fsm_state = 1 then (if s.valid_out_reg = true then (if (w29 s) = true then (if close_full = true then 0
        else s.fsm_state)
      else (if (w31 s) = true then 3
        else s.fsm_state))
    else s.fsm_state)
  else if s.fsm_state = 3 then (if (w35 s close_full) = true then 1
    else if (w39 s valid_out close_full) = true then 2
    else 0)
  else s.fsm_state
  if rst = true then 0
  else e1
/-- beta_integration.v:1450-1462. -/
@[netlist] def next_enc_out_reg (s : S) (enc_out : Nat) (rst : Bool) : Nat :=
  let e1 := if s.fsm_state = 2 then enc_out
  else if s.fsm_state = 1 then enc_out
  else s.enc_out_reg
  if rst = true then 0
  else e1
/-- beta_integration.v:1463-1475. -/
@[netlist] def next_enc_out_ctr_reg (s : S) (enc_out_ctr : Nat) (rst : Bool) : Nat :=
  let e1 := if s.fsm_state = 2 then enc_out_ctr
  else if s.fsm_state = 1 then enc_out_ctr
  else s.enc_out_ctr_reg
  if rst = true then 0
  else e1
/-- beta_integration.v:1476-1488. -/
@[netlist] def next_out_end_reg (s : S) (out_end : Bool) (rst : Bool) : Bool :=
  let e1 := if s.fsm_state = 2 then out_end
  else if s.fsm_state = 1 then out_end
  else s.out_end_reg
  if rst = true then false
  else e1
/-- beta_integration.v:1489-1501. -/
@[netlist] def next_valid_out_reg (s : S) (valid_out : Bool) (rst : Bool) : Bool :=
  let e1 := if s.fsm_state = 2 then valid_out
  else if s.fsm_state = 1 then valid_out
  else s.valid_out_reg
  if rst = true then false
  else e1
/-- beta_integration.v:1502-1525. -/
@[netlist] def next_enc_in (s : S) (rst : Bool) : Nat :=
  let e1 := if s.fsm_state = 1 then (if s.valid_out_reg = true then (if (w41 s) = true then slc s.enc_out_reg 0 30
      else (if (w43 s) = true then (w45 s)
        else s.enc_in))
    else s.enc_in)
  else if s.fsm_state = 3 then s.enc_out_latch
  else s.enc_in
  if rst = true then 0
  else e1
/-- beta_integration.v:1526-1552. -/
@[netlist] def next_enc_in_ctr (s : S) (rst : Bool) : Nat :=
  let e1 := if s.fsm_state = 1 then (if s.valid_out_reg = true then (if (w47 s) = true then slc s.enc_out_ctr_reg 0 5
      else (if (w49 s) = true then slc (w51 s) 0 5
        else 30))
    else s.enc_in_ctr)
  else if s.fsm_state = 3 then 30
  else s.enc_in_ctr
  if rst = true then 0
  else e1
/-- beta_integration.v:1553-1573. -/
@[netlist] def next_in_end (s : S) (rst : Bool) : Bool :=
  let e1 := if s.fsm_state = 1 then (if s.valid_out_reg = true then (if (w54 s) = true then s.out_end_reg
      else false)
    else s.in_end)
  else if s.fsm_state = 3 then s.out_end_latch
  else s.in_end
  if rst = true then false
  else e1

/-- beta_integration.v:1138-1575: one rising clock edge (`always @(posedge ...)`). -/
@[netlist] def step (s : S) (valid_out : Bool) (enc_out : Nat) (enc_out_ctr : Nat) (out_end : Bool) (rst : Bool) (close_full : Bool) : S :=
  { out_end_latch := (next_out_end_latch s rst)
    enc_out_latch := (next_enc_out_latch s rst)
    in_end := (next_in_end s rst)
    enc_in_ctr := (next_enc_in_ctr s rst)
    enc_in := (next_enc_in s rst)
    valid_out_reg := (next_valid_out_reg s valid_out rst)
    out_end_reg := (next_out_end_reg s out_end rst)
    enc_out_ctr_reg := (next_enc_out_ctr_reg s enc_out_ctr rst)
    enc_out_reg := (next_enc_out_reg s enc_out rst)
    fsm_state := (next_fsm_state s valid_out rst close_full)
    latch_output := (next_latch_output s valid_out rst close_full)
    valid_in := (next_valid_in s rst) }

/-- beta_integration.v:1138-1575: the initial values given in the netlist. -/
def Init (s : S) : Prop :=
  s.out_end_latch = false ∧
  s.enc_out_latch = 0 ∧
  s.in_end = false ∧
  s.enc_in_ctr = 0 ∧
  s.enc_in = 0 ∧
  s.valid_out_reg = false ∧
  s.out_end_reg = false ∧
  s.enc_out_ctr_reg = 0 ∧
  s.enc_out_reg = 0 ∧
  s.fsm_state = 0 ∧
  s.latch_output = false ∧
  s.valid_in = false

/-- beta_integration.v:1138-1575: a state with these initial values; registers without one are 0. -/
def powerUp : S :=
  { out_end_latch := false
    enc_out_latch := 0
    in_end := false
    enc_in_ctr := 0
    enc_in := 0
    valid_out_reg := false
    out_end_reg := false
    enc_out_ctr_reg := 0
    enc_out_reg := 0
    fsm_state := 0
    latch_output := false
    valid_in := false }

theorem powerUp_init : Init powerUp := ⟨rfl, rfl, rfl, rfl, rfl, rfl, rfl, rfl, rfl, rfl, rfl, rfl⟩

end converter

namespace unbuffered_6

/-- beta_integration.v:8740-9482: registers, memories and instances of module `unbuffered$6`. -/
structure S where
  level : Nat
  consume : Nat
  produce : Nat
  r_0_ : Nat
  storage : List Nat

/-- beta_integration.v:8839. -/
@[netlist] def w10 (s : S) : Bool :=
  s.produce == 0
/-- beta_integration.v:8869. -/
@[netlist] def w7 (s : S) : Nat :=
  (2 ^ 10 + s.produce - 1) % 2 ^ 10
/-- beta_integration.v:8840. -/
@[netlist] def w9 (s : S) : Nat :=
  if (w10 s) then 510 else (w7 s)
/-- beta_integration.v:8849. -/
@[netlist] def w2 (s : S) : Bool :=
  s.level != 511
/-- beta_integration.v:9396-9399. -/
@[netlist] def next_writable (s : S) : Bool :=
  (w2 s)
/-- beta_integration.v:9481. -/
@[netlist] def writable (s : S) : Bool :=
  (next_writable s)
/-- beta_integration.v:8841. -/
@[netlist] def w13 (s : S) (replace : Bool) : Bool :=
  (writable s) || replace
/-- beta_integration.v:8842. -/
@[netlist] def w15 (s : S) (we : Bool) (replace : Bool) : Bool :=
  we && (w13 s replace)
/-- beta_integration.v:8843. -/
@[netlist] def w17 (s : S) (we : Bool) : Bool :=
  (writable s) && we
/-- beta_integration.v:8844. -/
@[netlist] def w19 (s : S) (replace : Bool) : Bool :=
  !replace
/-- beta_integration.v:8845. -/
@[netlist] def w21 (s : S) (we : Bool) (replace : Bool) : Bool :=
  (w17 s we) && (w19 s replace)
/-- beta_integration.v:8846. -/
@[netlist] def w24 (s : S) : Nat :=
  (s.produce + 1) % 2 ^ 10
/-- beta_integration.v:8847. -/
@[netlist] def w27 (s : S) : Bool :=
  s.produce == 510
/-- beta_integration.v:8848. -/
@[netlist] def w26 (s : S) : Nat :=
  if (w27 s) then 0 else (w24 s)
/-- beta_integration.v:8859. -/
@[netlist] def w4 (s : S) : Bool :=
  s.level != 0
/-- beta_integration.v:9400-9403. -/
@[netlist] def next_readable (s : S) : Bool :=
  (w4 s)
/-- beta_integration.v:9480. -/
@[netlist] def readable (s : S) : Bool :=
  (next_readable s)
/-- beta_integration.v:8850. -/
@[netlist] def w30 (s : S) (re : Bool) : Bool :=
  (readable s) && re
/-- beta_integration.v:8851. -/
@[netlist] def w33 (s : S) : Nat :=
  (s.consume + 1) % 2 ^ 10
/-- beta_integration.v:8852. -/
@[netlist] def w36 (s : S) : Bool :=
  s.consume == 510
/-- beta_integration.v:8853. -/
@[netlist] def w35 (s : S) : Nat :=
  if (w36 s) then 0 else (w33 s)
/-- beta_integration.v:8854. -/
@[netlist] def w39 (s : S) (we : Bool) : Bool :=
  (writable s) && we
/-- beta_integration.v:8855. -/
@[netlist] def w41 (s : S) (replace : Bool) : Bool :=
  !replace
/-- beta_integration.v:8856. -/
@[netlist] def w43 (s : S) (we : Bool) (replace : Bool) : Bool :=
  (w39 s we) && (w41 s replace)
/-- beta_integration.v:8857. -/
@[netlist] def w46 (s : S) (re : Bool) : Bool :=
  (readable s) && re
/-- beta_integration.v:8858. -/
@[netlist] def w45 (s : S) (re : Bool) : Bool :=
  !(w46 s re)
/-- beta_integration.v:8860. -/
@[netlist] def w49 (s : S) (we : Bool) (replace : Bool) (re : Bool) : Bool :=
  (w43 s we replace) && (w45 s re)
/-- beta_integration.v:8861. -/
@[netlist] def w52 (s : S) : Nat :=
  (s.level + 1) % 2 ^ 10
/-- beta_integration.v:8862. -/
@[netlist] def w54 (s : S) (re : Bool) : Bool :=
  (readable s) && re
/-- beta_integration.v:8863. -/
@[netlist] def w57 (s : S) (we : Bool) : Bool :=
  (writable s) && we
/-- beta_integration.v:8864. -/
@[netlist] def w59 (s : S) (replace : Bool) : Bool :=
  !replace
/-- beta_integration.v:8865. -/
@[netlist] def w61 (s : S) (we : Bool) (replace : Bool) : Bool :=
  (w57 s we) && (w59 s replace)
/-- beta_integration.v:8866. -/
@[netlist] def w56 (s : S) (we : Bool) (replace : Bool) : Bool :=
  !(w61 s we replace)
/-- beta_integration.v:8867. -/
@[netlist] def w64 (s : S) (we : Bool) (replace : Bool) (re : Bool) : Bool :=
  (w54 s re) && (w56 s we replace)
/-- beta_integration.v:8868. -/
@[netlist] def w67 (s : S) : Nat :=
  (2 ^ 10 + s.level - 1) % 2 ^ 10
/-- beta_integration.v:9395. -/
@[netlist] def rdport_storage_r_data (s : S) : Nat :=
  s.r_0_
/-- beta_integration.v:9469. -/
@[netlist] def w6 (s : S) : Nat :=
  (w9 s)
/-- beta_integration.v:9470. -/
@[netlist] def w23 (s : S) : Nat :=
  (w26 s)
/-- beta_integration.v:9471. -/
@[netlist] def w32 (s : S) : Nat :=
  (w35 s)
/-- beta_integration.v:9472. -/
@[netlist] def w51 (s : S) : Nat :=
  (w52 s)
/-- beta_integration.v:9473. -/
@[netlist] def w66 (s : S) : Nat :=
  (w67 s)
/-- beta_integration.v:9454-9457. -/
@[netlist] def next_rdport_storage_r_en (s : S) (re : Bool) : Bool :=
  re
/-- beta_integration.v:9474. -/
@[netlist] def rdport_storage_r_en (s : S) (re : Bool) : Bool :=
  (next_rdport_storage_r_en s re)
/-- beta_integration.v:9450-9453. -/
@[netlist] def next_dout (s : S) : Nat :=
  (rdport_storage_r_data s)
/-- beta_integration.v:9475. -/
@[netlist] def dout (s : S) : Nat :=
  (next_dout s)
/-- beta_integration.v:9446-9449. -/
@[netlist] def next_rdport_storage_r_addr (s : S) : Nat :=
  s.consume
/-- beta_integration.v:9476. -/
@[netlist] def rdport_storage_r_addr (s : S) : Nat :=
  (next_rdport_storage_r_addr s)
/-- beta_integration.v:9431-9434. -/
@[netlist] def next_wrport_storage_w_en (s : S) (we : Bool) (replace : Bool) : Bool :=
  (w15 s we replace)
/-- beta_integration.v:9477. -/
@[netlist] def wrport_storage_w_en (s : S) (we : Bool) (replace : Bool) : Bool :=
  (next_wrport_storage_w_en s we replace)
/-- beta_integration.v:9427-9430. -/
@[netlist] def next_wrport_storage_w_data (s : S) (din : Nat) : Nat :=
  din
/-- beta_integration.v:9478. -/
@[netlist] def wrport_storage_w_data (s : S) (din : Nat) : Nat :=
  (next_wrport_storage_w_data s din)
/-- beta_integration.v:9419-9426. -/
@[netlist] def next_wrport_storage_w_addr (s : S) (replace : Bool) : Nat :=
  if replace = true then slc (w6 s) 0 9
  else s.produce
/-- beta_integration.v:9479. -/
@[netlist] def wrport_storage_w_addr (s : S) (replace : Bool) : Nat :=
  (next_wrport_storage_w_addr s replace)
/-- beta_integration.v:9404-9418. -/
@[netlist] def next_level (s : S) (we : Bool) (replace : Bool) (re : Bool) (rst : Bool) : Nat :=
  let e1 := if (w49 s we replace re) = true then slc (w51 s) 0 9
  else s.level
  let e2 := if (w64 s we replace re) = true then slc (w66 s) 0 9
  else e1
  if rst = true then 0
  else e2
/-- beta_integration.v:9435-9445. -/
@[netlist] def next_produce (s : S) (we : Bool) (replace : Bool) (rst : Bool) : Nat :=
  let e1 := if (w21 s we replace) = true then slc (w23 s) 0 9
  else s.produce
  if rst = true then 0
  else e1
/-- beta_integration.v:9458-9468. -/
@[netlist] def next_consume (s : S) (re : Bool) (rst : Bool) : Nat :=
  let e1 := if (w30 s re) = true then slc (w32 s) 0 9
  else s.consume
  if rst = true then 0
  else e1

/-- beta_integration.v:8740-9482: one rising clock edge (`always @(posedge ...)`). -/
@[netlist] def step (s : S) (we : Bool) (replace : Bool) (re : Bool) (rst : Bool) (din : Nat) : S :=
  { level := (next_level s we replace re rst)
    consume := (next_consume s re rst)
    produce := (next_produce s we replace rst)
    r_0_ := if (next_rdport_storage_r_en s re) then s.storage.getD (next_rdport_storage_r_addr s) 0 else s.r_0_
    storage := if (next_wrport_storage_w_en s we replace) then s.storage.set (next_wrport_storage_w_addr s replace) (next_wrport_storage_w_data s din) else s.storage }

/-- beta_integration.v:8740-9482: the initial values given in the netlist. -/
def Init (s : S) : Prop :=
  s.level = 0 ∧
  s.consume = 0 ∧
  s.produce = 0 ∧
  s.storage = List.replicate 511 0

/-- beta_integration.v:8740-9482: a state with these initial values; registers without one are 0. -/
def powerUp : S :=
  { level := 0
    consume := 0
    produce := 0
    r_0_ := 0
    storage := List.replicate 511 0 }

theorem powerUp_init : Init powerUp := ⟨rfl, rfl, rfl, rfl⟩

end unbuffered_6

namespace fifo_5

/-- beta_integration.v:2235-2361: registers, memories and instances of module `fifo$5`. -/
structure S where
  readable : Bool
  u_unbuffered : unbuffered_6.S

/-- beta_integration.v:2294. -/
@[netlist] def w1 (s : S) : Bool :=
  !s.readable
/-- beta_integration.v:2295. -/
@[netlist] def w3 (s : S) (re : Bool) : Bool :=
  (w1 s) || re
/-- beta_integration.v:2300-2311. -/
@[netlist] def unbuffered_readable (s : S) : Bool :=
  unbuffered_6.readable s.u_unbuffered
/-- beta_integration.v:2296. -/
@[netlist] def w5 (s : S) (re : Bool) : Bool :=
  (unbuffered_readable s) && (w3 s re)
/-- beta_integration.v:2300-2311. -/
@[netlist] def unbuffered_level (s : S) : Nat :=
  s.u_unbuffered.level
/-- beta_integration.v:2297. -/
@[netlist] def w7 (s : S) : Nat :=
  ((unbuffered_level s) + s.readable.toNat) % 2 ^ 10
/-- beta_integration.v:2350-2353. -/
@[netlist] def next_level (s : S) : Nat :=
  (w7 s)
/-- beta_integration.v:2354. -/
@[netlist] def level (s : S) : Nat :=
  (next_level s)
/-- beta_integration.v:2333-2336. -/
@[netlist] def next_unbuffered_re (s : S) (re : Bool) : Bool :=
  (w5 s re)
/-- beta_integration.v:2355. -/
@[netlist] def unbuffered_re (s : S) (re : Bool) : Bool :=
  (next_unbuffered_re s re)
/-- beta_integration.v:2300-2311. -/
@[netlist] def unbuffered_dout (s : S) : Nat :=
  unbuffered_6.dout s.u_unbuffered
/-- beta_integration.v:2329-2332. -/
@[netlist] def next_dout (s : S) : Nat :=
  (unbuffered_dout s)
/-- beta_integration.v:2356. -/
@[netlist] def dout (s : S) : Nat :=
  (next_dout s)
/-- beta_integration.v:2324-2328. -/
@[netlist] def next_unbuffered_replace (s : S) : Bool :=
  false
/-- beta_integration.v:2357. -/
@[netlist] def unbuffered_replace (s : S) : Bool :=
  (next_unbuffered_replace s)
/-- beta_integration.v:2300-2311. -/
@[netlist] def unbuffered_writable (s : S) : Bool :=
  unbuffered_6.writable s.u_unbuffered
/-- beta_integration.v:2320-2323. -/
@[netlist] def next_writable (s : S) : Bool :=
  (unbuffered_writable s)
/-- beta_integration.v:2358. -/
@[netlist] def writable (s : S) : Bool :=
  (next_writable s)
/-- beta_integration.v:2316-2319. -/
@[netlist] def next_unbuffered_we (s : S) (we : Bool) : Bool :=
  we
/-- beta_integration.v:2359. -/
@[netlist] def unbuffered_we (s : S) (we : Bool) : Bool :=
  (next_unbuffered_we s we)
/-- beta_integration.v:2312-2315. -/
@[netlist] def next_unbuffered_din (s : S) (din : Nat) : Nat :=
  din
/-- beta_integration.v:2360. -/
@[netlist] def unbuffered_din (s : S) (din : Nat) : Nat :=
  (next_unbuffered_din s din)
/-- beta_integration.v:2337-2349. -/
@[netlist] def next_readable (s : S) (re : Bool) (rst : Bool) : Bool :=
  let e1 := if (unbuffered_re s re) = true then true
  else if re = true then false
  else s.readable
  if rst = true then false
  else e1

/-- beta_integration.v:2235-2361: one rising clock edge (`always @(posedge ...)`). -/
@[netlist] def step (s : S) (we : Bool) (re : Bool) (rst : Bool) (din : Nat) : S :=
  { readable := (next_readable s re rst)
    u_unbuffered := unbuffered_6.step s.u_unbuffered (unbuffered_we s we) (unbuffered_replace s) (unbuffered_re s re) rst (unbuffered_din s din) }

/-- beta_integration.v:2235-2361: the initial values given in the netlist. -/
def Init (s : S) : Prop :=
  s.readable = false ∧
  unbuffered_6.Init s.u_unbuffered

/-- beta_integration.v:2235-2361: a state with these initial values; registers without one are 0. -/
def powerUp : S :=
  { readable := false
    u_unbuffered := unbuffered_6.powerUp }

theorem powerUp_init : Init powerUp := ⟨rfl, unbuffered_6.powerUp_init⟩

end fifo_5

namespace converter_fifo

/-- beta_integration.v:1579-1703: registers, memories and instances of module `converter_fifo`. -/
structure S where
  close_full : Bool
  u_fifo : fifo_5.S

/-- beta_integration.v:1644-1654. -/
@[netlist] def fifo_level (s : S) : Nat :=
  fifo_5.level s.u_fifo
/-- beta_integration.v:1641. -/
@[netlist] def w1 (s : S) : Bool :=
  decide ((fifo_level s) ≥ 507)
/-- beta_integration.v:1683-1686. -/
@[netlist] def next_fifo_re (s : S) (latch_output : Bool) : Bool :=
  latch_output
/-- beta_integration.v:1695. -/
@[netlist] def fifo_re (s : S) (latch_output : Bool) : Bool :=
  (next_fifo_re s latch_output)
/-- beta_integration.v:1644-1654. -/
@[netlist] def fifo_dout (s : S) : Nat :=
  fifo_5.dout s.u_fifo
/-- beta_integration.v:1679-1682. -/
@[netlist] def next_out_end (s : S) : Bool :=
  (fifo_dout s).testBit 35
/-- beta_integration.v:1696. -/
@[netlist] def out_end (s : S) : Bool :=
  (next_out_end s)
/-- beta_integration.v:1675-1678. -/
@[netlist] def next_enc_out_ctr (s : S) : Nat :=
  slc (fifo_dout s) 30 5
/-- beta_integration.v:1697. -/
@[netlist] def enc_out_ctr (s : S) : Nat :=
  (next_enc_out_ctr s)
/-- beta_integration.v:1671-1674. -/
@[netlist] def next_enc_out (s : S) : Nat :=
  slc (fifo_dout s) 0 30
/-- beta_integration.v:1698. -/
@[netlist] def enc_out (s : S) : Nat :=
  (next_enc_out s)
/-- beta_integration.v:1644-1654. -/
@[netlist] def fifo_readable (s : S) : Bool :=
  s.u_fifo.readable
/-- beta_integration.v:1667-1670. -/
@[netlist] def next_valid_out (s : S) : Bool :=
  (fifo_readable s)
/-- beta_integration.v:1699. -/
@[netlist] def valid_out (s : S) : Bool :=
  (next_valid_out s)
/-- beta_integration.v:1644-1654. -/
@[netlist] def fifo_writable (s : S) : Bool :=
  fifo_5.writable s.u_fifo
/-- beta_integration.v:1663-1666. -/
@[netlist] def next_writable (s : S) : Bool :=
  (fifo_writable s)
/-- beta_integration.v:1700. -/
@[netlist] def writable (s : S) : Bool :=
  (next_writable s)
/-- beta_integration.v:1659-1662. -/
@[netlist] def next_fifo_din (s : S) (enc_in : Nat) (enc_in_ctr : Nat) (in_end : Bool) : Nat :=
  in_end.toNat * 2 ^ 35 + enc_in_ctr * 2 ^ 30 + enc_in
/-- beta_integration.v:1701. -/
@[netlist] def fifo_din (s : S) (enc_in : Nat) (enc_in_ctr : Nat) (in_end : Bool) : Nat :=
  (next_fifo_din s enc_in enc_in_ctr in_end)
/-- beta_integration.v:1655-1658. -/
@[netlist] def next_fifo_we (s : S) (valid_in : Bool) : Bool :=
  valid_in
/-- beta_integration.v:1702. -/
@[netlist] def fifo_we (s : S) (valid_in : Bool) : Bool :=
  (next_fifo_we s valid_in)
/-- beta_integration.v:1687-1694. -/
@[netlist] def next_close_full (s : S) (rst : Bool) : Bool :=
  let e1 := (w1 s)
  if rst = true then false
  else e1

/-- beta_integration.v:1579-1703: one rising clock edge (`always @(posedge ...)`). -/
@[netlist] def step (s : S) (enc_in : Nat) (enc_in_ctr : Nat) (in_end : Bool) (latch_output : Bool) (rst : Bool) (valid_in : Bool) : S :=
  { close_full := (next_close_full s rst)
    u_fifo := fifo_5.step s.u_fifo (fifo_we s valid_in) (fifo_re s latch_output) rst (fifo_din s enc_in enc_in_ctr in_end) }

/-- beta_integration.v:1579-1703: the initial values given in the netlist. -/
def Init (s : S) : Prop :=
  s.close_full = false ∧
  fifo_5.Init s.u_fifo

/-- beta_integration.v:1579-1703: a state with these initial values; registers without one are 0. -/
def powerUp : S :=
  { close_full := false
    u_fifo := fifo_5.powerUp }

theorem powerUp_init : Init powerUp := ⟨rfl, fifo_5.powerUp_init⟩

end converter_fifo

namespace difference

/-- beta_integration.v:1707-1848: registers, memories and instances of module `difference`. -/
structure S where
  end_out : Bool
  valid_out : Bool
  val_out_5 : Nat
  val_out_4 : Nat
  val_out_3 : Nat
  val_out : Nat

/-- beta_integration.v:1768. -/
@[netlist] def w11 (s : S) (pixel_in : Nat) (predic_in : Nat) : Nat :=
  (2 ^ 13 + pixel_in - predic_in) % 2 ^ 13
/-- beta_integration.v:1769. -/
@[netlist] def w13 (s : S) (pixel_in : Nat) (predic_in : Nat) : Nat :=
  (2 ^ 14 + (w11 s pixel_in predic_in) - 1) % 2 ^ 14
/-- beta_integration.v:1770. -/
@[netlist] def w16 (s : S) (pixel_in_1 : Nat) (predic_in_2 : Nat) : Nat :=
  (2 ^ 13 + pixel_in_1 - predic_in_2) % 2 ^ 13
/-- beta_integration.v:1771. -/
@[netlist] def w18 (s : S) (pixel_in_1 : Nat) (predic_in_2 : Nat) : Nat :=
  (2 ^ 14 + (w16 s pixel_in_1 predic_in_2) - 1) % 2 ^ 14
/-- beta_integration.v:1772. -/
@[netlist] def w6 (s : S) (pixel_in : Nat) (predic_in : Nat) : Nat :=
  (2 ^ 13 + pixel_in - predic_in) % 2 ^ 13
/-- beta_integration.v:1773. -/
@[netlist] def w8 (s : S) (pixel_in_1 : Nat) (predic_in_2 : Nat) : Nat :=
  (2 ^ 13 + pixel_in_1 - predic_in_2) % 2 ^ 13
/-- beta_integration.v:1846. -/
@[netlist] def w10 (s : S) (pixel_in : Nat) (predic_in : Nat) : Nat :=
  (w13 s pixel_in predic_in)
/-- beta_integration.v:1847. -/
@[netlist] def w15 (s : S) (pixel_in_1 : Nat) (predic_in_2 : Nat) : Nat :=
  (w18 s pixel_in_1 predic_in_2)
/-- beta_integration.v:1786-1796. -/
@[netlist] def next_val_out (s : S) (pixel_in : Nat) (predic_in : Nat) (rst : Bool) (valid_in : Bool) : Nat :=
  let e1 := if valid_in = true then (w6 s pixel_in predic_in)
  else s.val_out
  if rst = true then 0
  else e1
/-- beta_integration.v:1797-1807. -/
@[netlist] def next_val_out_3 (s : S) (pixel_in_1 : Nat) (predic_in_2 : Nat) (rst : Bool) (valid_in : Bool) : Nat :=
  let e1 := if valid_in = true then (w8 s pixel_in_1 predic_in_2)
  else s.val_out_3
  if rst = true then 0
  else e1
/-- beta_integration.v:1808-1818. -/
@[netlist] def next_val_out_4 (s : S) (pixel_in : Nat) (predic_in : Nat) (rst : Bool) (valid_in : Bool) : Nat :=
  let e1 := if valid_in = true then slc (w10 s pixel_in predic_in) 0 13
  else s.val_out_4
  if rst = true then 0
  else e1
/-- beta_integration.v:1819-1829. -/
@[netlist] def next_val_out_5 (s : S) (pixel_in_1 : Nat) (predic_in_2 : Nat) (rst : Bool) (valid_in : Bool) : Nat :=
  let e1 := if valid_in = true then slc (w15 s pixel_in_1 predic_in_2) 0 13
  else s.val_out_5
  if rst = true then 0
  else e1
/-- beta_integration.v:1830-1837. -/
@[netlist] def next_valid_out (s : S) (rst : Bool) (valid_in : Bool) : Bool :=
  if rst = true then false
  else valid_in
/-- beta_integration.v:1838-1845. -/
@[netlist] def next_end_out (s : S) (end_in : Bool) (rst : Bool) : Bool :=
  if rst = true then false
  else end_in

/-- beta_integration.v:1707-1848: one rising clock edge (`always @(posedge ...)`). -/
@[netlist] def step (s : S) (pixel_in : Nat) (predic_in : Nat) (pixel_in_1 : Nat) (predic_in_2 : Nat) (end_in : Bool) (rst : Bool) (valid_in : Bool) : S :=
  { end_out := (next_end_out s end_in rst)
    valid_out := (next_valid_out s rst valid_in)
    val_out_5 := (next_val_out_5 s pixel_in_1 predic_in_2 rst valid_in)
    val_out_4 := (next_val_out_4 s pixel_in predic_in rst valid_in)
    val_out_3 := (next_val_out_3 s pixel_in_1 predic_in_2 rst valid_in)
    val_out := (next_val_out s pixel_in predic_in rst valid_in) }

/-- beta_integration.v:1707-1848: the initial values given in the netlist. -/
def Init (s : S) : Prop :=
  s.end_out = false ∧
  s.valid_out = false ∧
  s.val_out_5 = 0 ∧
  s.val_out_4 = 0 ∧
  s.val_out_3 = 0 ∧
  s.val_out = 0

/-- beta_integration.v:1707-1848: a state with these initial values; registers without one are 0. -/
def powerUp : S :=
  { end_out := false
    valid_out := false
    val_out_5 := 0
    val_out_4 := 0
    val_out_3 := 0
    val_out := 0 }

theorem powerUp_init : Init powerUp := ⟨rfl, rfl, rfl, rfl, rfl, rfl⟩

end difference

namespace encode

/-- beta_integration.v:1852-2101: registers, memories and instances of module `encode`. -/
structure S where
  r_0_ : Nat
  r_1_ : Nat
  mem : List Nat
  u_w13 : anonymous_2.S
  u_w22 : anonymous_3.S

/-- beta_integration.v:2009. -/
@[netlist] def mem_r_data_26 (s : S) : Nat :=
  s.mem.getD s.r_0_ 0
/-- beta_integration.v:2010. -/
@[netlist] def mem_r_data (s : S) : Nat :=
  s.mem.getD s.r_1_ 0
/-- beta_integration.v:1961-1974. -/
@[netlist] def end_out_10 (s : S) : Bool :=
  s.u_w13.end_out
/-- beta_integration.v:2047-2050. -/
@[netlist] def next_end_out (s : S) : Bool :=
  (end_out_10 s)
/-- beta_integration.v:2083. -/
@[netlist] def end_out (s : S) : Bool :=
  (next_end_out s)
/-- beta_integration.v:1961-1974. -/
@[netlist] def valid_out_9 (s : S) : Bool :=
  s.u_w13.valid_out
/-- beta_integration.v:2043-2046. -/
@[netlist] def next_valid_out (s : S) : Bool :=
  (valid_out_9 s)
/-- beta_integration.v:2084. -/
@[netlist] def valid_out (s : S) : Bool :=
  (next_valid_out s)
/-- beta_integration.v:1975-1986. -/
@[netlist] def enc_ctr_21 (s : S) : Nat :=
  s.u_w22.enc_ctr
/-- beta_integration.v:2039-2042. -/
@[netlist] def next_enc_ctr_4 (s : S) : Nat :=
  (enc_ctr_21 s)
/-- beta_integration.v:2085. -/
@[netlist] def enc_ctr_4 (s : S) : Nat :=
  (next_enc_ctr_4 s)
/-- beta_integration.v:1975-1986. -/
@[netlist] def enc_out_20 (s : S) : Nat :=
  s.u_w22.enc_out
/-- beta_integration.v:2035-2038. -/
@[netlist] def next_enc_out_3 (s : S) : Nat :=
  (enc_out_20 s)
/-- beta_integration.v:2086. -/
@[netlist] def enc_out_3 (s : S) : Nat :=
  (next_enc_out_3 s)
/-- beta_integration.v:2031-2034. -/
@[netlist] def next_rp_data_18 (s : S) : Nat :=
  (mem_r_data_26 s)
/-- beta_integration.v:2087. -/
@[netlist] def rp_data_18 (s : S) : Nat :=
  (next_rp_data_18 s)
/-- beta_integration.v:2023-2026. -/
@[netlist] def next_ssss_16 (s : S) (ssss_2 : Nat) : Nat :=
  ssss_2
/-- beta_integration.v:2089. -/
@[netlist] def ssss_16 (s : S) (ssss_2 : Nat) : Nat :=
  (next_ssss_16 s ssss_2)
/-- beta_integration.v:1975-1986. -/
@[netlist] def rp_addr_19 (s : S) (ssss_2 : Nat) : Nat :=
  anonymous_3.rp_addr s.u_w22 (ssss_16 s ssss_2)
/-- beta_integration.v:2027-2030. -/
@[netlist] def next_mem_r_addr_25 (s : S) (ssss_2 : Nat) : Nat :=
  slc (rp_addr_19 s ssss_2) 0 4
/-- beta_integration.v:2088. -/
@[netlist] def mem_r_addr_25 (s : S) (ssss_2 : Nat) : Nat :=
  (next_mem_r_addr_25 s ssss_2)
/-- beta_integration.v:2019-2022. -/
@[netlist] def next_valid_in_14 (s : S) (valid_in : Bool) : Bool :=
  valid_in
/-- beta_integration.v:2090. -/
@[netlist] def valid_in_14 (s : S) (valid_in : Bool) : Bool :=
  (next_valid_in_14 s valid_in)
/-- beta_integration.v:2079-2082. -/
@[netlist] def next_end_in_15 (s : S) (end_in : Bool) : Bool :=
  end_in
/-- beta_integration.v:2091. -/
@[netlist] def end_in_15 (s : S) (end_in : Bool) : Bool :=
  (next_end_in_15 s end_in)
/-- beta_integration.v:2075-2078. -/
@[netlist] def next_val_in_17 (s : S) (val_in_1 : Nat) : Nat :=
  val_in_1
/-- beta_integration.v:2092. -/
@[netlist] def val_in_17 (s : S) (val_in_1 : Nat) : Nat :=
  (next_val_in_17 s val_in_1)
/-- beta_integration.v:1961-1974. -/
@[netlist] def enc_ctr_12 (s : S) : Nat :=
  s.u_w13.enc_ctr
/-- beta_integration.v:2071-2074. -/
@[netlist] def next_enc_ctr (s : S) : Nat :=
  (enc_ctr_12 s)
/-- beta_integration.v:2093. -/
@[netlist] def enc_ctr (s : S) : Nat :=
  (next_enc_ctr s)
/-- beta_integration.v:1961-1974. -/
@[netlist] def enc_out_11 (s : S) : Nat :=
  s.u_w13.enc_out
/-- beta_integration.v:2067-2070. -/
@[netlist] def next_enc_out (s : S) : Nat :=
  (enc_out_11 s)
/-- beta_integration.v:2094. -/
@[netlist] def enc_out (s : S) : Nat :=
  (next_enc_out s)
/-- beta_integration.v:2063-2066. -/
@[netlist] def next_rp_data (s : S) : Nat :=
  (mem_r_data s)
/-- beta_integration.v:2095. -/
@[netlist] def rp_data (s : S) : Nat :=
  (next_rp_data s)
/-- beta_integration.v:2055-2058. -/
@[netlist] def next_ssss_7 (s : S) (ssss : Nat) : Nat :=
  ssss
/-- beta_integration.v:2097. -/
@[netlist] def ssss_7 (s : S) (ssss : Nat) : Nat :=
  (next_ssss_7 s ssss)
/-- beta_integration.v:1961-1974. -/
@[netlist] def rp_addr (s : S) (ssss : Nat) : Nat :=
  anonymous_2.rp_addr s.u_w13 (ssss_7 s ssss)
/-- beta_integration.v:2059-2062. -/
@[netlist] def next_mem_r_addr (s : S) (ssss : Nat) : Nat :=
  slc (rp_addr s ssss) 0 4
/-- beta_integration.v:2096. -/
@[netlist] def mem_r_addr (s : S) (ssss : Nat) : Nat :=
  (next_mem_r_addr s ssss)
/-- beta_integration.v:2051-2054. -/
@[netlist] def next_valid_in_5 (s : S) (valid_in : Bool) : Bool :=
  valid_in
/-- beta_integration.v:2098. -/
@[netlist] def valid_in_5 (s : S) (valid_in : Bool) : Bool :=
  (next_valid_in_5 s valid_in)
/-- beta_integration.v:2015-2018. -/
@[netlist] def next_end_in_6 (s : S) (end_in : Bool) : Bool :=
  end_in
/-- beta_integration.v:2099. -/
@[netlist] def end_in_6 (s : S) (end_in : Bool) : Bool :=
  (next_end_in_6 s end_in)
/-- beta_integration.v:2011-2014. -/
@[netlist] def next_val_in_8 (s : S) (val_in : Nat) : Nat :=
  val_in
/-- beta_integration.v:2100. -/
@[netlist] def val_in_8 (s : S) (val_in : Nat) : Nat :=
  (next_val_in_8 s val_in)

/-- beta_integration.v:1852-2101: one rising clock edge (`always @(posedge ...)`). -/
@[netlist] def step (s : S) (end_in : Bool) (valid_in : Bool) (ssss : Nat) (val_in_1 : Nat) (ssss_2 : Nat) (rst : Bool) (val_in : Nat) : S :=
  { r_0_ := (next_mem_r_addr_25 s ssss_2)
    r_1_ := (next_mem_r_addr s ssss)
    mem := s.mem
    u_w13 := anonymous_2.step s.u_w13 (end_in_6 s end_in) (ssss_7 s ssss) (val_in_8 s val_in) (rp_data s) rst (valid_in_5 s valid_in)
    u_w22 := anonymous_3.step s.u_w22 (end_in_15 s end_in) (ssss_16 s ssss_2) (val_in_17 s val_in_1) (rp_data_18 s) rst (valid_in_14 s valid_in) }

/-- beta_integration.v:1852-2101: the initial values given in the netlist. -/
def Init (s : S) : Prop :=
  s.mem = [0x4000000e, 0x30000000, 0x30000004, 0x30000010, 0x30000030, 0x30000080, 0x30000140, 0x30000300, 0x50001e00, 0x60007c00, 0x7001f800, 0x8007f000, 0x901fe000] ∧
  anonymous_2.Init s.u_w13 ∧
  anonymous_3.Init s.u_w22

/-- beta_integration.v:1852-2101: a state with these initial values; registers without one are 0. -/
def powerUp : S :=
  { r_0_ := 0
    r_1_ := 0
    mem := [0x4000000e, 0x30000000, 0x30000004, 0x30000010, 0x30000030, 0x30000080, 0x30000140, 0x30000300, 0x50001e00, 0x60007c00, 0x7001f800, 0x8007f000, 0x901fe000]
    u_w13 := anonymous_2.powerUp
    u_w22 := anonymous_3.powerUp }

theorem powerUp_init : Init powerUp := ⟨rfl, anonymous_2.powerUp_init, anonymous_3.powerUp_init⟩

end encode

namespace unbuffered

/-- beta_integration.v:7994-8736: registers, memories and instances of module `unbuffered`. -/
structure S where
  level : Nat
  consume : Nat
  produce : Nat
  r_0_ : Nat
  storage : List Nat

/-- beta_integration.v:8093. -/
@[netlist] def w10 (s : S) : Bool :=
  s.produce == 0
/-- beta_integration.v:8123. -/
@[netlist] def w7 (s : S) : Nat :=
  (2 ^ 10 + s.produce - 1) % 2 ^ 10
/-- beta_integration.v:8094. -/
@[netlist] def w9 (s : S) : Nat :=
  if (w10 s) then 510 else (w7 s)
/-- beta_integration.v:8103. -/
@[netlist] def w2 (s : S) : Bool :=
  s.level != 511
/-- beta_integration.v:8650-8653. -/
@[netlist] def next_writable (s : S) : Bool :=
  (w2 s)
/-- beta_integration.v:8735. -/
@[netlist] def writable (s : S) : Bool :=
  (next_writable s)
/-- beta_integration.v:8095. -/
@[netlist] def w13 (s : S) (replace : Bool) : Bool :=
  (writable s) || replace
/-- beta_integration.v:8096. -/
@[netlist] def w15 (s : S) (we : Bool) (replace : Bool) : Bool :=
  we && (w13 s replace)
/-- beta_integration.v:8097. -/
@[netlist] def w17 (s : S) (we : Bool) : Bool :=
  (writable s) && we
/-- beta_integration.v:8098. -/
@[netlist] def w19 (s : S) (replace : Bool) : Bool :=
  !replace
/-- beta_integration.v:8099. -/
@[netlist] def w21 (s : S) (we : Bool) (replace : Bool) : Bool :=
  (w17 s we) && (w19 s replace)
/-- beta_integration.v:8100. -/
@[netlist] def w24 (s : S) : Nat :=
  (s.produce + 1) % 2 ^ 10
/-- beta_integration.v:8101. -/
@[netlist] def w27 (s : S) : Bool :=
  s.produce == 510
/-- beta_integration.v:8102. -/
@[netlist] def w26 (s : S) : Nat :=
  if (w27 s) then 0 else (w24 s)
/-- beta_integration.v:8113. -/
@[netlist] def w4 (s : S) : Bool :=
  s.level != 0
/-- beta_integration.v:8654-8657. -/
@[netlist] def next_readable (s : S) : Bool :=
  (w4 s)
/-- beta_integration.v:8734. -/
@[netlist] def readable (s : S) : Bool :=
  (next_readable s)
/-- beta_integration.v:8104. -/
@[netlist] def w30 (s : S) (re : Bool) : Bool :=
  (readable s) && re
/-- beta_integration.v:8105. -/
@[netlist] def w33 (s : S) : Nat :=
  (s.consume + 1) % 2 ^ 10
/-- beta_integration.v:8106. -/
@[netlist] def w36 (s : S) : Bool :=
  s.consume == 510
/-- beta_integration.v:8107. -/
@[netlist] def w35 (s : S) : Nat :=
  if (w36 s) then 0 else (w33 s)
/-- beta_integration.v:8108. -/
@[netlist] def w39 (s : S) (we : Bool) : Bool :=
  (writable s) && we
/-- beta_integration.v:8109. -/
@[netlist] def w41 (s : S) (replace : Bool) : Bool :=
  !replace
/-- beta_integration.v:8110. -/
@[netlist] def w43 (s : S) (we : Bool) (replace : Bool) : Bool :=
  (w39 s we) && (w41 s replace)
/-- beta_integration.v:8111. -/
@[netlist] def w46 (s : S) (re : Bool) : Bool :=
  (readable s) && re
/-- beta_integration.v:8112. -/
@[netlist] def w45 (s : S) (re : Bool) : Bool :=
  !(w46 s re)
/-- beta_integration.v:8114. -/
@[netlist] def w49 (s : S) (we : Bool) (replace : Bool) (re : Bool) : Bool :=
  (w43 s we replace) && (w45 s re)
/-- beta_integration.v:8115. -/
@[netlist] def w52 (s : S) : Nat :=
  (s.level + 1) % 2 ^ 10
/-- beta_integration.v:8116. -/
@[netlist] def w54 (s : S) (re : Bool) : Bool :=
  (readable s) && re
/-- beta_integration.v:8117. -/
@[netlist] def w57 (s : S) (we : Bool) : Bool :=
  (writable s) && we
/-- beta_integration.v:8118. -/
@[netlist] def w59 (s : S) (replace : Bool) : Bool :=
  !replace
/-- beta_integration.v:8119. -/
@[netlist] def w61 (s : S) (we : Bool) (replace : Bool) : Bool :=
  (w57 s we) && (w59 s replace)
/-- beta_integration.v:8120. -/
@[netlist] def w56 (s : S) (we : Bool) (replace : Bool) : Bool :=
  !(w61 s we replace)
/-- beta_integration.v:8121. -/
@[netlist] def w64 (s : S) (we : Bool) (replace : Bool) (re : Bool) : Bool :=
  (w54 s re) && (w56 s we replace)
/-- beta_integration.v:8122. -/
@[netlist] def w67 (s : S) : Nat :=
  (2 ^ 10 + s.level - 1) % 2 ^ 10
/-- beta_integration.v:8649. -/
@[netlist] def rdport_storage_r_data (s : S) : Nat :=
  s.r_0_
/-- beta_integration.v:8723. -/
@[netlist] def w6 (s : S) : Nat :=
  (w9 s)
/-- beta_integration.v:8724. -/
@[netlist] def w23 (s : S) : Nat :=
  (w26 s)
/-- beta_integration.v:8725. -/
@[netlist] def w32 (s : S) : Nat :=
  (w35 s)
/-- beta_integration.v:8726. -/
@[netlist] def w51 (s : S) : Nat :=
  (w52 s)
/-- beta_integration.v:8727. -/
@[netlist] def w66 (s : S) : Nat :=
  (w67 s)
/-- beta_integration.v:8708-8711. -/
@[netlist] def next_rdport_storage_r_en (s : S) (re : Bool) : Bool :=
  re
/-- beta_integration.v:8728. -/
@[netlist] def rdport_storage_r_en (s : S) (re : Bool) : Bool :=
  (next_rdport_storage_r_en s re)
/-- beta_integration.v:8704-8707. -/
@[netlist] def next_dout (s : S) : Nat :=
  (rdport_storage_r_data s)
/-- beta_integration.v:8729. -/
@[netlist] def dout (s : S) : Nat :=
  (next_dout s)
/-- beta_integration.v:8700-8703. -/
@[netlist] def next_rdport_storage_r_addr (s : S) : Nat :=
  s.consume
/-- beta_integration.v:8730. -/
@[netlist] def rdport_storage_r_addr (s : S) : Nat :=
  (next_rdport_storage_r_addr s)
/-- beta_integration.v:8685-8688. -/
@[netlist] def next_wrport_storage_w_en (s : S) (we : Bool) (replace : Bool) : Bool :=
  (w15 s we replace)
/-- beta_integration.v:8731. -/
@[netlist] def wrport_storage_w_en (s : S) (we : Bool) (replace : Bool) : Bool :=
  (next_wrport_storage_w_en s we replace)
/-- beta_integration.v:8681-8684. -/
@[netlist] def next_wrport_storage_w_data (s : S) (din : Nat) : Nat :=
  din
/-- beta_integration.v:8732. -/
@[netlist] def wrport_storage_w_data (s : S) (din : Nat) : Nat :=
  (next_wrport_storage_w_data s din)
/-- beta_integration.v:8673-8680. -/
@[netlist] def next_wrport_storage_w_addr (s : S) (replace : Bool) : Nat :=
  if replace = true then slc (w6 s) 0 9
  else s.produce
/-- beta_integration.v:8733. -/
@[netlist] def wrport_storage_w_addr (s : S) (replace : Bool) : Nat :=
  (next_wrport_storage_w_addr s replace)
/-- beta_integration.v:8658-8672. -/
@[netlist] def next_level (s : S) (we : Bool) (replace : Bool) (re : Bool) (rst : Bool) : Nat :=
  let e1 := if (w49 s we replace re) = true then slc (w51 s) 0 9
  else s.level
  let e2 := if (w64 s we replace re) = true then slc (w66 s) 0 9
  else e1
  if rst = true then 0
  else e2
/-- beta_integration.v:8689-8699. -/
@[netlist] def next_produce (s : S) (we : Bool) (replace : Bool) (rst : Bool) : Nat :=
  let e1 := if (w21 s we replace) = true then slc (w23 s) 0 9
  else s.produce
  if rst = true then 0
  else e1
/-- beta_integration.v:8712-8722. -/
@[netlist] def next_consume (s : S) (re : Bool) (rst : Bool) : Nat :=
  let e1 := if (w30 s re) = true then slc (w32 s) 0 9
  else s.consume
  if rst = true then 0
  else e1

/-- beta_integration.v:7994-8736: one rising clock edge (`always @(posedge ...)`). -/
@[netlist] def step (s : S) (we : Bool) (replace : Bool) (re : Bool) (rst : Bool) (din : Nat) : S :=
  { level := (next_level s we replace re rst)
    consume := (next_consume s re rst)
    produce := (next_produce s we replace rst)
    r_0_ := if (next_rdport_storage_r_en s re) then s.storage.getD (next_rdport_storage_r_addr s) 0 else s.r_0_
    storage := if (next_wrport_storage_w_en s we replace) then s.storage.set (next_wrport_storage_w_addr s replace) (next_wrport_storage_w_data s din) else s.storage }

/-- beta_integration.v:7994-8736: the initial values given in the netlist. -/
def Init (s : S) : Prop :=
  s.level = 0 ∧
  s.consume = 0 ∧
  s.produce = 0 ∧
  s.storage = List.replicate 511 0

/-- beta_integration.v:7994-8736: a state with these initial values; registers without one are 0. -/
def powerUp : S :=
  { level := 0
    consume := 0
    produce := 0
    r_0_ := 0
    storage := List.replicate 511 0 }

theorem powerUp_init : Init powerUp := ⟨rfl, rfl, rfl, rfl⟩

end unbuffered

namespace fifo

/-- beta_integration.v:2105-2231: registers, memories and instances of module `fifo`. -/
structure S where
  readable : Bool
  u_unbuffered : unbuffered.S

/-- beta_integration.v:2164. -/
@[netlist] def w1 (s : S) : Bool :=
  !s.readable
/-- beta_integration.v:2165. -/
@[netlist] def w3 (s : S) (re : Bool) : Bool :=
  (w1 s) || re
/-- beta_integration.v:2170-2181. -/
@[netlist] def unbuffered_readable (s : S) : Bool :=
  unbuffered.readable s.u_unbuffered
/-- beta_integration.v:2166. -/
@[netlist] def w5 (s : S) (re : Bool) : Bool :=
  (unbuffered_readable s) && (w3 s re)
/-- beta_integration.v:2170-2181. -/
@[netlist] def unbuffered_level (s : S) : Nat :=
  s.u_unbuffered.level
/-- beta_integration.v:2167. -/
@[netlist] def w7 (s : S) : Nat :=
  ((unbuffered_level s) + s.readable.toNat) % 2 ^ 10
/-- beta_integration.v:2220-2223. -/
@[netlist] def next_level (s : S) : Nat :=
  (w7 s)
/-- beta_integration.v:2224. -/
@[netlist] def level (s : S) : Nat :=
  (next_level s)
/-- beta_integration.v:2203-2206. -/
@[netlist] def next_unbuffered_re (s : S) (re : Bool) : Bool :=
  (w5 s re)
/-- beta_integration.v:2225. -/
@[netlist] def unbuffered_re (s : S) (re : Bool) : Bool :=
  (next_unbuffered_re s re)
/-- beta_integration.v:2170-2181. -/
@[netlist] def unbuffered_dout (s : S) : Nat :=
  unbuffered.dout s.u_unbuffered
/-- beta_integration.v:2199-2202. -/
@[netlist] def next_dout (s : S) : Nat :=
  (unbuffered_dout s)
/-- beta_integration.v:2226. -/
@[netlist] def dout (s : S) : Nat :=
  (next_dout s)
/-- beta_integration.v:2194-2198. -/
@[netlist] def next_unbuffered_replace (s : S) : Bool :=
  false
/-- beta_integration.v:2227. -/
@[netlist] def unbuffered_replace (s : S) : Bool :=
  (next_unbuffered_replace s)
/-- beta_integration.v:2170-2181. -/
@[netlist] def unbuffered_writable (s : S) : Bool :=
  unbuffered.writable s.u_unbuffered
/-- beta_integration.v:2190-2193. -/
@[netlist] def next_writable (s : S) : Bool :=
  (unbuffered_writable s)
/-- beta_integration.v:2228. -/
@[netlist] def writable (s : S) : Bool :=
  (next_writable s)
/-- beta_integration.v:2186-2189. -/
@[netlist] def next_unbuffered_we (s : S) (we : Bool) : Bool :=
  we
/-- beta_integration.v:2229. -/
@[netlist] def unbuffered_we (s : S) (we : Bool) : Bool :=
  (next_unbuffered_we s we)
/-- beta_integration.v:2182-2185. -/
@[netlist] def next_unbuffered_din (s : S) (din : Nat) : Nat :=
  din
/-- beta_integration.v:2230. -/
@[netlist] def unbuffered_din (s : S) (din : Nat) : Nat :=
  (next_unbuffered_din s din)
/-- beta_integration.v:2207-2219. -/
@[netlist] def next_readable (s : S) (re : Bool) (rst : Bool) : Bool :=
  let e1 := if (unbuffered_re s re) = true then true
  else if re = true then false
  else s.readable
  if rst = true then false
  else e1

/-- beta_integration.v:2105-2231: one rising clock edge (`always @(posedge ...)`). -/
@[netlist] def step (s : S) (we : Bool) (re : Bool) (rst : Bool) (din : Nat) : S :=
  { readable := (next_readable s re rst)
    u_unbuffered := unbuffered.step s.u_unbuffered (unbuffered_we s we) (unbuffered_replace s) (unbuffered_re s re) rst (unbuffered_din s din) }

/-- beta_integration.v:2105-2231: the initial values given in the netlist. -/
def Init (s : S) : Prop :=
  s.readable = false ∧
  unbuffered.Init s.u_unbuffered

/-- beta_integration.v:2105-2231: a state with these initial values; registers without one are 0. -/
def powerUp : S :=
  { readable := false
    u_unbuffered := unbuffered.powerUp }

theorem powerUp_init : Init powerUp := ⟨rfl, unbuffered.powerUp_init⟩

end fifo

namespace fix_0xff

/-- beta_integration.v:2365-2805: registers, memories and instances of module `fix_0xff`. -/
structure S where
  end_out_reg : Bool
  data_out_ctr_reg : Nat
  data_out_reg : Nat
  data_out_valid : Bool
  o_busy : Bool
  data_out_ctr : Nat
  data_out : Nat
  end_out : Bool
  valid_out : Bool
  zeros : Nat
  ones : Nat

/-- beta_integration.v:2556. -/
@[netlist] def w5 (s : S) (valid_in : Bool) : Bool :=
  valid_in == true
/-- beta_integration.v:2567. -/
@[netlist] def w7 (s : S) : Bool :=
  s.o_busy == false
/-- beta_integration.v:2508. -/
@[netlist] def w9 (s : S) (valid_in : Bool) : Bool :=
  (w5 s valid_in) && (w7 s)
/-- beta_integration.v:2576. -/
@[netlist] def w95 (s : S) (valid_in : Bool) : Bool :=
  valid_in == true
/-- beta_integration.v:2577. -/
@[netlist] def w97 (s : S) : Bool :=
  s.valid_out == true
/-- beta_integration.v:2509. -/
@[netlist] def w99 (s : S) (valid_in : Bool) : Bool :=
  (w95 s valid_in) && (w97 s)
/-- beta_integration.v:2510. -/
@[netlist] def w101 (s : S) (i_busy : Bool) : Bool :=
  i_busy == false
/-- beta_integration.v:2511. -/
@[netlist] def w103 (s : S) : Bool :=
  s.valid_out == false
/-- beta_integration.v:2512. -/
@[netlist] def w105 (s : S) (valid_in : Bool) : Bool :=
  valid_in == true
/-- beta_integration.v:2513. -/
@[netlist] def w107 (s : S) : Bool :=
  s.o_busy == false
/-- beta_integration.v:2514. -/
@[netlist] def w109 (s : S) (valid_in : Bool) : Bool :=
  (w105 s valid_in) && (w107 s)
/-- beta_integration.v:2515. -/
@[netlist] def w111 (s : S) (valid_in : Bool) : Bool :=
  valid_in == true
/-- beta_integration.v:2516. -/
@[netlist] def w113 (s : S) : Bool :=
  s.valid_out == true
/-- beta_integration.v:2517. -/
@[netlist] def w115 (s : S) (valid_in : Bool) : Bool :=
  (w111 s valid_in) && (w113 s)
/-- beta_integration.v:2518. -/
@[netlist] def w117 (s : S) : Bool :=
  s.o_busy == false
/-- beta_integration.v:2519. -/
@[netlist] def w11 (s : S) : Bool :=
  s.data_out_valid == false
/-- beta_integration.v:2520. -/
@[netlist] def w119 (s : S) (data_in : Nat) : Bool :=
  data_in == 0xffff
/-- beta_integration.v:2521. -/
@[netlist] def w121 (s : S) (data_in : Nat) : Bool :=
  (slc data_in 0 8) == 255
/-- beta_integration.v:2522. -/
@[netlist] def w123 (s : S) (data_in : Nat) : Bool :=
  (slc data_in 8 8) == 255
/-- beta_integration.v:2523. -/
@[netlist] def w125 (s : S) (data_in : Nat) : Nat :=
  (slc data_in 8 8) * 2 ^ 16 + s.ones * 2 ^ 8 + s.zeros
/-- beta_integration.v:2524. -/
@[netlist] def w127 (s : S) (data_in : Nat) : Nat :=
  s.ones * 2 ^ 16 + s.zeros * 2 ^ 8 + (slc data_in 0 8)
/-- beta_integration.v:2525. -/
@[netlist] def w129 (s : S) (data_in : Nat) : Nat :=
  data_in
/-- beta_integration.v:2526. -/
@[netlist] def w131 (s : S) : Bool :=
  s.o_busy == false
/-- beta_integration.v:2527. -/
@[netlist] def w133 (s : S) (data_in : Nat) : Bool :=
  data_in == 0xffff
/-- beta_integration.v:2528. -/
@[netlist] def w135 (s : S) (data_in : Nat) : Bool :=
  (slc data_in 0 8) == 255
/-- beta_integration.v:2529. -/
@[netlist] def w137 (s : S) (data_in : Nat) : Bool :=
  (slc data_in 8 8) == 255
/-- beta_integration.v:2530. -/
@[netlist] def w13 (s : S) (i_busy : Bool) : Bool :=
  i_busy == false
/-- beta_integration.v:2531. -/
@[netlist] def w139 (s : S) : Bool :=
  s.o_busy == false
/-- beta_integration.v:2532. -/
@[netlist] def w15 (s : S) : Bool :=
  s.valid_out == false
/-- beta_integration.v:2533. -/
@[netlist] def w17 (s : S) (valid_in : Bool) : Bool :=
  valid_in == true
/-- beta_integration.v:2534. -/
@[netlist] def w1 (s : S) (i_busy : Bool) : Bool :=
  i_busy == false
/-- beta_integration.v:2535. -/
@[netlist] def w19 (s : S) : Bool :=
  s.o_busy == false
/-- beta_integration.v:2536. -/
@[netlist] def w21 (s : S) (valid_in : Bool) : Bool :=
  (w17 s valid_in) && (w19 s)
/-- beta_integration.v:2537. -/
@[netlist] def w23 (s : S) : Bool :=
  s.data_out_valid == false
/-- beta_integration.v:2538. -/
@[netlist] def w25 (s : S) (i_busy : Bool) : Bool :=
  i_busy == false
/-- beta_integration.v:2539. -/
@[netlist] def w27 (s : S) : Bool :=
  s.valid_out == false
/-- beta_integration.v:2540. -/
@[netlist] def w29 (s : S) (valid_in : Bool) : Bool :=
  valid_in == true
/-- beta_integration.v:2541. -/
@[netlist] def w31 (s : S) : Bool :=
  s.o_busy == false
/-- beta_integration.v:2542. -/
@[netlist] def w33 (s : S) (valid_in : Bool) : Bool :=
  (w29 s valid_in) && (w31 s)
/-- beta_integration.v:2543. -/
@[netlist] def w35 (s : S) : Bool :=
  s.data_out_valid == false
/-- beta_integration.v:2544. -/
@[netlist] def w37 (s : S) (data_in : Nat) : Bool :=
  data_in == 0xffff
/-- beta_integration.v:2545. -/
@[netlist] def w3 (s : S) : Bool :=
  s.valid_out == false
/-- beta_integration.v:2546. -/
@[netlist] def w39 (s : S) (data_in : Nat) : Bool :=
  (slc data_in 0 8) == 255
/-- beta_integration.v:2547. -/
@[netlist] def w41 (s : S) (data_in : Nat) : Bool :=
  (slc data_in 8 8) == 255
/-- beta_integration.v:2548. -/
@[netlist] def w43 (s : S) (data_in : Nat) : Nat :=
  (slc data_in 8 8) * 2 ^ 16 + s.ones * 2 ^ 8 + s.zeros
/-- beta_integration.v:2549. -/
@[netlist] def w45 (s : S) (data_in : Nat) : Nat :=
  s.ones * 2 ^ 16 + s.zeros * 2 ^ 8 + (slc data_in 0 8)
/-- beta_integration.v:2550. -/
@[netlist] def w47 (s : S) (data_in : Nat) : Nat :=
  data_in
/-- beta_integration.v:2551. -/
@[netlist] def w49 (s : S) (data_in : Nat) : Bool :=
  data_in == 0xffff
/-- beta_integration.v:2552. -/
@[netlist] def w51 (s : S) (data_in : Nat) : Bool :=
  (slc data_in 0 8) == 255
/-- beta_integration.v:2553. -/
@[netlist] def w53 (s : S) (data_in : Nat) : Bool :=
  (slc data_in 8 8) == 255
/-- beta_integration.v:2554. -/
@[netlist] def w55 (s : S) (data_in : Nat) : Nat :=
  (slc data_in 8 8) * 2 ^ 16 + s.ones * 2 ^ 8 + s.zeros
/-- beta_integration.v:2555. -/
@[netlist] def w57 (s : S) (data_in : Nat) : Nat :=
  s.ones * 2 ^ 16 + s.zeros * 2 ^ 8 + (slc data_in 0 8)
/-- beta_integration.v:2557. -/
@[netlist] def w59 (s : S) (data_in : Nat) : Nat :=
  data_in
/-- beta_integration.v:2558. -/
@[netlist] def w61 (s : S) (i_busy : Bool) : Bool :=
  i_busy == false
/-- beta_integration.v:2559. -/
@[netlist] def w63 (s : S) : Bool :=
  s.valid_out == false
/-- beta_integration.v:2560. -/
@[netlist] def w65 (s : S) (valid_in : Bool) : Bool :=
  valid_in == true
/-- beta_integration.v:2561. -/
@[netlist] def w67 (s : S) : Bool :=
  s.o_busy == false
/-- beta_integration.v:2562. -/
@[netlist] def w69 (s : S) (valid_in : Bool) : Bool :=
  (w65 s valid_in) && (w67 s)
/-- beta_integration.v:2563. -/
@[netlist] def w71 (s : S) : Bool :=
  s.data_out_valid == false
/-- beta_integration.v:2564. -/
@[netlist] def w73 (s : S) (data_in : Nat) : Bool :=
  data_in == 0xffff
/-- beta_integration.v:2565. -/
@[netlist] def w75 (s : S) (data_in : Nat) : Bool :=
  (slc data_in 0 8) == 255
/-- beta_integration.v:2566. -/
@[netlist] def w77 (s : S) (data_in : Nat) : Bool :=
  (slc data_in 8 8) == 255
/-- beta_integration.v:2568. -/
@[netlist] def w79 (s : S) (data_in : Nat) : Bool :=
  data_in == 0xffff
/-- beta_integration.v:2569. -/
@[netlist] def w81 (s : S) (data_in : Nat) : Bool :=
  (slc data_in 0 8) == 255
/-- beta_integration.v:2570. -/
@[netlist] def w83 (s : S) (data_in : Nat) : Bool :=
  (slc data_in 8 8) == 255
/-- beta_integration.v:2571. -/
@[netlist] def w85 (s : S) (i_busy : Bool) : Bool :=
  i_busy == false
/-- beta_integration.v:2572. -/
@[netlist] def w87 (s : S) : Bool :=
  s.valid_out == false
/-- beta_integration.v:2573. -/
@[netlist] def w89 (s : S) (valid_in : Bool) : Bool :=
  valid_in == true
/-- beta_integration.v:2574. -/
@[netlist] def w91 (s : S) : Bool :=
  s.o_busy == false
/-- beta_integration.v:2575. -/
@[netlist] def w93 (s : S) (valid_in : Bool) : Bool :=
  (w89 s valid_in) && (w91 s)
/-- beta_integration.v:2600-2607. -/
@[netlist] def next_ones (s : S) (rst : Bool) : Nat :=
  if rst = true then 255
  else 255
/-- beta_integration.v:2608-2615. -/
@[netlist] def next_zeros (s : S) (rst : Bool) : Nat :=
  if rst = true then 0
  else 0
/-- beta_integration.v:2616-2626. -/
@[netlist] def next_end_out_reg (s : S) (end_in : Bool) (rst : Bool) : Bool :=
  let e1 := if (w139 s) = true then end_in
  else s.end_out_reg
  if rst = true then false
  else e1
/-- beta_integration.v:2627-2644. -/
@[netlist] def next_valid_out (s : S) (valid_in : Bool) (rst : Bool) (i_busy : Bool) : Bool :=
  let e1 := if (w1 s i_busy) = true then (if (w11 s) = true then valid_in
    else true)
  else if (w3 s) = true then valid_in
  else s.valid_out
  if rst = true then false
  else e1
/-- beta_integration.v:2645-2662. -/
@[netlist] def next_end_out (s : S) (valid_in : Bool) (end_in : Bool) (rst : Bool) (i_busy : Bool) : Bool :=
  let e1 := if (w13 s i_busy) = true then (if (w23 s) = true then end_in
    else s.end_out_reg)
  else if (w15 s) = true then end_in
  else s.end_out
  if rst = true then false
  else e1
/-- beta_integration.v:2663-2698. -/
@[netlist] def next_data_out (s : S) (valid_in : Bool) (data_in : Nat) (rst : Bool) (i_busy : Bool) : Nat :=
  let e1 := if (w25 s i_busy) = true then (if (w35 s) = true then (if (w37 s data_in) = true then s.ones * 2 ^ 24 + s.zeros * 2 ^ 16 + s.ones * 2 ^ 8 + s.zeros
      else if (w39 s data_in) = true then (w43 s data_in)
      else if (w41 s data_in) = true then (w45 s data_in)
      else (w47 s data_in))
    else s.data_out_reg)
  else if (w27 s) = true then (if (w49 s data_in) = true then s.ones * 2 ^ 24 + s.zeros * 2 ^ 16 + s.ones * 2 ^ 8 + s.zeros
    else if (w51 s data_in) = true then (w55 s data_in)
    else if (w53 s data_in) = true then (w57 s data_in)
    else (w59 s data_in))
  else s.data_out
  if rst = true then 0
  else e1
/-- beta_integration.v:2699-2734. -/
@[netlist] def next_data_out_ctr (s : S) (valid_in : Bool) (data_in : Nat) (rst : Bool) (i_busy : Bool) : Nat :=
  let e1 := if (w61 s i_busy) = true then (if (w71 s) = true then (if (w73 s data_in) = true then 4
      else if (w75 s data_in) = true then 3
      else if (w77 s data_in) = true then 3
      else 2)
    else s.data_out_ctr_reg)
  else if (w63 s) = true then (if (w79 s data_in) = true then 4
    else if (w81 s data_in) = true then 3
    else if (w83 s data_in) = true then 3
    else 2)
  else s.data_out_ctr
  if rst = true then 0
  else e1
/-- beta_integration.v:2735-2749. -/
@[netlist] def next_o_busy (s : S) (valid_in : Bool) (rst : Bool) (i_busy : Bool) : Bool :=
  let e1 := if (w85 s i_busy) = true then false
  else if (w87 s) = true then false
  else if (w93 s valid_in) = true then (w99 s valid_in)
  else s.o_busy
  if rst = true then false
  else e1
/-- beta_integration.v:2750-2764. -/
@[netlist] def next_data_out_valid (s : S) (valid_in : Bool) (rst : Bool) (i_busy : Bool) : Bool :=
  let e1 := if (w101 s i_busy) = true then false
  else if (w103 s) = true then false
  else if (w109 s valid_in) = true then (w115 s valid_in)
  else s.data_out_valid
  if rst = true then false
  else e1
/-- beta_integration.v:2765-2784. -/
@[netlist] def next_data_out_reg (s : S) (data_in : Nat) (rst : Bool) : Nat :=
  let e1 := if (w117 s) = true then (if (w119 s data_in) = true then s.ones * 2 ^ 24 + s.zeros * 2 ^ 16 + s.ones * 2 ^ 8 + s.zeros
    else if (w121 s data_in) = true then (w125 s data_in)
    else if (w123 s data_in) = true then (w127 s data_in)
    else (w129 s data_in))
  else s.data_out_reg
  if rst = true then 0
  else e1
/-- beta_integration.v:2785-2804. -/
@[netlist] def next_data_out_ctr_reg (s : S) (data_in : Nat) (rst : Bool) : Nat :=
  let e1 := if (w131 s) = true then (if (w133 s data_in) = true then 4
    else if (w135 s data_in) = true then 3
    else if (w137 s data_in) = true then 3
    else 2)
  else s.data_out_ctr_reg
  if rst = true then 0
  else e1

/-- beta_integration.v:2365-2805: one rising clock edge (`always @(posedge ...)`). -/
@[netlist] def step (s : S) (valid_in : Bool) (end_in : Bool) (data_in : Nat) (rst : Bool) (i_busy : Bool) : S :=
  { end_out_reg := (next_end_out_reg s end_in rst)
    data_out_ctr_reg := (next_data_out_ctr_reg s data_in rst)
    data_out_reg := (next_data_out_reg s data_in rst)
    data_out_valid := (next_data_out_valid s valid_in rst i_busy)
    o_busy := (next_o_busy s valid_in rst i_busy)
    data_out_ctr := (next_data_out_ctr s valid_in data_in rst i_busy)
    data_out := (next_data_out s valid_in data_in rst i_busy)
    end_out := (next_end_out s valid_in end_in rst i_busy)
    valid_out := (next_valid_out s valid_in rst i_busy)
    zeros := (next_zeros s rst)
    ones := (next_ones s rst) }

/-- beta_integration.v:2365-2805: the initial values given in the netlist. -/
def Init (s : S) : Prop :=
  s.end_out_reg = false ∧
  s.data_out_ctr_reg = 0 ∧
  s.data_out_reg = 0 ∧
  s.data_out_valid = false ∧
  s.o_busy = false ∧
  s.data_out_ctr = 0 ∧
  s.data_out = 0 ∧
  s.end_out = false ∧
  s.valid_out = false ∧
  s.zeros = 0 ∧
  s.ones = 255

/-- beta_integration.v:2365-2805: a state with these initial values; registers without one are 0. -/
def powerUp : S :=
  { end_out_reg := false
    data_out_ctr_reg := 0
    data_out_reg := 0
    data_out_valid := false
    o_busy := false
    data_out_ctr := 0
    data_out := 0
    end_out := false
    valid_out := false
    zeros := 0
    ones := 255 }

theorem powerUp_init : Init powerUp := ⟨rfl, rfl, rfl, rfl, rfl, rfl, rfl, rfl, rfl, rfl, rfl⟩

end fix_0xff

namespace fix_0xff2

/-- beta_integration.v:2809-3975: registers, memories and instances of module `fix_0xff2`. -/
structure S where
  fsm_state : Nat
  o_busy : Bool
  buffer_count : Nat
  buffer_data : Nat
  data_out : Nat
  valid_out : Bool
  end_out_reg : Bool
  data_out_reg : Nat
  data_out_valid : Bool
  end_reg : Bool
  end_out : Bool

/-- beta_integration.v:3139. -/
@[netlist] def w5 (s : S) (valid_in : Bool) : Bool :=
  valid_in == true
/-- beta_integration.v:3150. -/
@[netlist] def w7 (s : S) : Bool :=
  s.o_busy == false
/-- beta_integration.v:3022. -/
@[netlist] def w9 (s : S) (valid_in : Bool) : Bool :=
  (w5 s valid_in) && (w7 s)
/-- beta_integration.v:3023. -/
@[netlist] def w99 (s : S) (i_busy : Bool) : Bool :=
  i_busy == false
/-- beta_integration.v:3024. -/
@[netlist] def w101 (s : S) : Bool :=
  s.valid_out == false
/-- beta_integration.v:3025. -/
@[netlist] def w103 (s : S) (valid_in : Bool) : Bool :=
  valid_in == true
/-- beta_integration.v:3026. -/
@[netlist] def w105 (s : S) : Bool :=
  s.o_busy == false
/-- beta_integration.v:3027. -/
@[netlist] def w107 (s : S) (valid_in : Bool) : Bool :=
  (w103 s valid_in) && (w105 s)
/-- beta_integration.v:3028. -/
@[netlist] def w109 (s : S) : Bool :=
  s.data_out_valid == false
/-- beta_integration.v:3029. -/
@[netlist] def w111 (s : S) : Bool :=
  s.buffer_count == 0
/-- beta_integration.v:3030. -/
@[netlist] def w113 (s : S) (data_in_ctr : Nat) : Bool :=
  data_in_ctr == 2
/-- beta_integration.v:3031. -/
@[netlist] def w115 (s : S) (data_in_ctr : Nat) : Bool :=
  (w111 s) && (w113 s data_in_ctr)
/-- beta_integration.v:3032. -/
@[netlist] def w117 (s : S) : Bool :=
  s.buffer_count == 0
/-- beta_integration.v:3033. -/
@[netlist] def w11 (s : S) : Bool :=
  s.data_out_valid == false
/-- beta_integration.v:3034. -/
@[netlist] def w119 (s : S) (data_in_ctr : Nat) : Bool :=
  data_in_ctr == 2
/-- beta_integration.v:3035. -/
@[netlist] def w121 (s : S) (data_in_ctr : Nat) : Bool :=
  (w117 s) && (w119 s data_in_ctr)
/-- beta_integration.v:3036. -/
@[netlist] def w123 (s : S) (valid_in : Bool) : Bool :=
  valid_in == true
/-- beta_integration.v:3037. -/
@[netlist] def w125 (s : S) : Bool :=
  s.valid_out == true
/-- beta_integration.v:3038. -/
@[netlist] def w127 (s : S) (valid_in : Bool) : Bool :=
  (w123 s valid_in) && (w125 s)
/-- beta_integration.v:3039. -/
@[netlist] def w129 (s : S) : Bool :=
  s.o_busy == false
/-- beta_integration.v:3040. -/
@[netlist] def w131 (s : S) : Bool :=
  s.buffer_count == 0
/-- beta_integration.v:3041. -/
@[netlist] def w133 (s : S) (data_in_ctr : Nat) : Bool :=
  data_in_ctr == 2
/-- beta_integration.v:3042. -/
@[netlist] def w135 (s : S) (data_in_ctr : Nat) : Bool :=
  (w131 s) && (w133 s data_in_ctr)
/-- beta_integration.v:3043. -/
@[netlist] def w137 (s : S) (i_busy : Bool) : Bool :=
  i_busy == false
/-- beta_integration.v:3044. -/
@[netlist] def w13 (s : S) (i_busy : Bool) : Bool :=
  i_busy == false
/-- beta_integration.v:3045. -/
@[netlist] def w139 (s : S) : Bool :=
  s.data_out_valid == false
/-- beta_integration.v:3046. -/
@[netlist] def w141 (s : S) : Bool :=
  s.end_reg == false
/-- beta_integration.v:3047. -/
@[netlist] def w143 (s : S) (i_busy : Bool) : Bool :=
  i_busy == false
/-- beta_integration.v:3048. -/
@[netlist] def w145 (s : S) : Bool :=
  s.valid_out == false
/-- beta_integration.v:3049. -/
@[netlist] def w147 (s : S) (valid_in : Bool) : Bool :=
  valid_in == true
/-- beta_integration.v:3050. -/
@[netlist] def w149 (s : S) : Bool :=
  s.o_busy == false
/-- beta_integration.v:3051. -/
@[netlist] def w151 (s : S) (valid_in : Bool) : Bool :=
  (w147 s valid_in) && (w149 s)
/-- beta_integration.v:3052. -/
@[netlist] def w153 (s : S) : Bool :=
  s.data_out_valid == false
/-- beta_integration.v:3053. -/
@[netlist] def w155 (s : S) : Bool :=
  s.buffer_count == 0
/-- beta_integration.v:3054. -/
@[netlist] def w157 (s : S) (data_in_ctr : Nat) : Bool :=
  data_in_ctr == 2
/-- beta_integration.v:3055. -/
@[netlist] def w15 (s : S) : Bool :=
  s.data_out_valid == false
/-- beta_integration.v:3056. -/
@[netlist] def w159 (s : S) (data_in_ctr : Nat) : Bool :=
  (w155 s) && (w157 s data_in_ctr)
/-- beta_integration.v:3057. -/
@[netlist] def w161 (s : S) : Bool :=
  s.buffer_count == 0
/-- beta_integration.v:3058. -/
@[netlist] def w163 (s : S) (data_in_ctr : Nat) : Bool :=
  data_in_ctr == 2
/-- beta_integration.v:3059. -/
@[netlist] def w165 (s : S) (data_in_ctr : Nat) : Bool :=
  (w161 s) && (w163 s data_in_ctr)
/-- beta_integration.v:3060. -/
@[netlist] def w167 (s : S) : Bool :=
  s.o_busy == false
/-- beta_integration.v:3061. -/
@[netlist] def w169 (s : S) : Bool :=
  s.buffer_count == 0
/-- beta_integration.v:3062. -/
@[netlist] def w171 (s : S) (data_in_ctr : Nat) : Bool :=
  data_in_ctr == 2
/-- beta_integration.v:3063. -/
@[netlist] def w173 (s : S) (data_in_ctr : Nat) : Bool :=
  (w169 s) && (w171 s data_in_ctr)
/-- beta_integration.v:3064. -/
@[netlist] def w175 (s : S) (i_busy : Bool) : Bool :=
  i_busy == false
/-- beta_integration.v:3065. -/
@[netlist] def w177 (s : S) : Bool :=
  s.data_out_valid == false
/-- beta_integration.v:3066. -/
@[netlist] def w17 (s : S) (i_busy : Bool) : Bool :=
  i_busy == false
/-- beta_integration.v:3067. -/
@[netlist] def w179 (s : S) : Bool :=
  decide (s.buffer_count ≤ 2)
/-- beta_integration.v:3068. -/
@[netlist] def w181 (s : S) : Bool :=
  s.end_reg == false
/-- beta_integration.v:3069. -/
@[netlist] def w183 (s : S) (i_busy : Bool) : Bool :=
  i_busy == false
/-- beta_integration.v:3070. -/
@[netlist] def w185 (s : S) (i_busy : Bool) : Bool :=
  i_busy == false
/-- beta_integration.v:3071. -/
@[netlist] def w187 (s : S) : Bool :=
  s.valid_out == false
/-- beta_integration.v:3072. -/
@[netlist] def w189 (s : S) (valid_in : Bool) : Bool :=
  valid_in == true
/-- beta_integration.v:3073. -/
@[netlist] def w191 (s : S) : Bool :=
  s.o_busy == false
/-- beta_integration.v:3074. -/
@[netlist] def w193 (s : S) (valid_in : Bool) : Bool :=
  (w189 s valid_in) && (w191 s)
/-- beta_integration.v:3075. -/
@[netlist] def w195 (s : S) : Bool :=
  s.data_out_valid == false
/-- beta_integration.v:3076. -/
@[netlist] def w197 (s : S) : Bool :=
  s.buffer_count == 0
/-- beta_integration.v:3077. -/
@[netlist] def w1 (s : S) (i_busy : Bool) : Bool :=
  i_busy == false
/-- beta_integration.v:3078. -/
@[netlist] def w19 (s : S) (i_busy : Bool) : Bool :=
  i_busy == false
/-- beta_integration.v:3079. -/
@[netlist] def w199 (s : S) (data_in_ctr : Nat) : Bool :=
  data_in_ctr == 2
/-- beta_integration.v:3080. -/
@[netlist] def w201 (s : S) (data_in_ctr : Nat) : Bool :=
  (w197 s) && (w199 s data_in_ctr)
/-- beta_integration.v:3081. -/
@[netlist] def w203 (s : S) : Bool :=
  s.buffer_count == 0
/-- beta_integration.v:3082. -/
@[netlist] def w205 (s : S) (data_in_ctr : Nat) : Bool :=
  data_in_ctr == 2
/-- beta_integration.v:3083. -/
@[netlist] def w207 (s : S) (data_in_ctr : Nat) : Bool :=
  (w203 s) && (w205 s data_in_ctr)
/-- beta_integration.v:3084. -/
@[netlist] def w209 (s : S) (i_busy : Bool) : Bool :=
  i_busy == false
/-- beta_integration.v:3085. -/
@[netlist] def w211 (s : S) : Bool :=
  s.data_out_valid == false
/-- beta_integration.v:3086. -/
@[netlist] def w213 (s : S) : Bool :=
  decide (s.buffer_count ≤ 2)
/-- beta_integration.v:3087. -/
@[netlist] def w215 (s : S) (i_busy : Bool) : Bool :=
  i_busy == false
/-- beta_integration.v:3088. -/
@[netlist] def w217 (s : S) (i_busy : Bool) : Bool :=
  i_busy == false
/-- beta_integration.v:3089. -/
@[netlist] def w21 (s : S) : Bool :=
  s.valid_out == false
/-- beta_integration.v:3090. -/
@[netlist] def w219 (s : S) : Bool :=
  s.valid_out == false
/-- beta_integration.v:3091. -/
@[netlist] def w221 (s : S) (valid_in : Bool) : Bool :=
  valid_in == true
/-- beta_integration.v:3092. -/
@[netlist] def w223 (s : S) : Bool :=
  s.o_busy == false
/-- beta_integration.v:3093. -/
@[netlist] def w225 (s : S) (valid_in : Bool) : Bool :=
  (w221 s valid_in) && (w223 s)
/-- beta_integration.v:3094. -/
@[netlist] def w227 (s : S) : Bool :=
  s.data_out_valid == false
/-- beta_integration.v:3095. -/
@[netlist] def w229 (s : S) : Bool :=
  s.buffer_count == 0
/-- beta_integration.v:3096. -/
@[netlist] def w231 (s : S) (data_in_ctr : Nat) : Bool :=
  data_in_ctr == 2
/-- beta_integration.v:3097. -/
@[netlist] def w233 (s : S) (data_in_ctr : Nat) : Bool :=
  (w229 s) && (w231 s data_in_ctr)
/-- beta_integration.v:3098. -/
@[netlist] def w235 (s : S) : Bool :=
  s.buffer_count == 0
/-- beta_integration.v:3099. -/
@[netlist] def w237 (s : S) (data_in_ctr : Nat) : Bool :=
  data_in_ctr == 2
/-- beta_integration.v:3100. -/
@[netlist] def w23 (s : S) (valid_in : Bool) : Bool :=
  valid_in == true
/-- beta_integration.v:3101. -/
@[netlist] def w239 (s : S) (data_in_ctr : Nat) : Bool :=
  (w235 s) && (w237 s data_in_ctr)
/-- beta_integration.v:3102. -/
@[netlist] def w241 (s : S) : Bool :=
  s.o_busy == false
/-- beta_integration.v:3103. -/
@[netlist] def w243 (s : S) : Bool :=
  s.buffer_count == 0
/-- beta_integration.v:3104. -/
@[netlist] def w245 (s : S) (data_in_ctr : Nat) : Bool :=
  data_in_ctr == 2
/-- beta_integration.v:3105. -/
@[netlist] def w247 (s : S) (data_in_ctr : Nat) : Bool :=
  (w243 s) && (w245 s data_in_ctr)
/-- beta_integration.v:3106. -/
@[netlist] def w249 (s : S) (i_busy : Bool) : Bool :=
  i_busy == false
/-- beta_integration.v:3107. -/
@[netlist] def w251 (s : S) : Bool :=
  s.valid_out == false
/-- beta_integration.v:3108. -/
@[netlist] def w253 (s : S) (valid_in : Bool) : Bool :=
  valid_in == true
/-- beta_integration.v:3109. -/
@[netlist] def w255 (s : S) : Bool :=
  s.o_busy == false
/-- beta_integration.v:3110. -/
@[netlist] def w257 (s : S) (valid_in : Bool) : Bool :=
  (w253 s valid_in) && (w255 s)
/-- beta_integration.v:3111. -/
@[netlist] def w25 (s : S) : Bool :=
  s.o_busy == false
/-- beta_integration.v:3112. -/
@[netlist] def w259 (s : S) (valid_in : Bool) : Bool :=
  valid_in == true
/-- beta_integration.v:3113. -/
@[netlist] def w261 (s : S) : Bool :=
  s.valid_out == true
/-- beta_integration.v:3114. -/
@[netlist] def w263 (s : S) (valid_in : Bool) : Bool :=
  (w259 s valid_in) && (w261 s)
/-- beta_integration.v:3115. -/
@[netlist] def w265 (s : S) (i_busy : Bool) : Bool :=
  i_busy == false
/-- beta_integration.v:3116. -/
@[netlist] def w267 (s : S) : Bool :=
  s.data_out_valid == false
/-- beta_integration.v:3117. -/
@[netlist] def w269 (s : S) : Bool :=
  s.o_busy == false
/-- beta_integration.v:3118. -/
@[netlist] def w271 (s : S) : Bool :=
  s.o_busy == false
/-- beta_integration.v:3119. -/
@[netlist] def w273 (s : S) : Bool :=
  s.buffer_count == 0
/-- beta_integration.v:3120. -/
@[netlist] def w275 (s : S) (data_in_ctr : Nat) : Bool :=
  data_in_ctr == 2
/-- beta_integration.v:3121. -/
@[netlist] def w277 (s : S) (data_in_ctr : Nat) : Bool :=
  (w273 s) && (w275 s data_in_ctr)
/-- beta_integration.v:3122. -/
@[netlist] def w27 (s : S) (valid_in : Bool) : Bool :=
  (w23 s valid_in) && (w25 s)
/-- beta_integration.v:3123. -/
@[netlist] def w29 (s : S) : Bool :=
  s.data_out_valid == false
/-- beta_integration.v:3124. -/
@[netlist] def w31 (s : S) (i_busy : Bool) : Bool :=
  i_busy == false
/-- beta_integration.v:3125. -/
@[netlist] def w33 (s : S) : Bool :=
  s.data_out_valid == false
/-- beta_integration.v:3126. -/
@[netlist] def w35 (s : S) (i_busy : Bool) : Bool :=
  i_busy == false
/-- beta_integration.v:3127. -/
@[netlist] def w37 (s : S) (i_busy : Bool) : Bool :=
  i_busy == false
/-- beta_integration.v:3128. -/
@[netlist] def w3 (s : S) : Bool :=
  s.valid_out == false
/-- beta_integration.v:3129. -/
@[netlist] def w39 (s : S) : Bool :=
  s.valid_out == false
/-- beta_integration.v:3130. -/
@[netlist] def w41 (s : S) (valid_in : Bool) : Bool :=
  valid_in == true
/-- beta_integration.v:3131. -/
@[netlist] def w43 (s : S) : Bool :=
  s.o_busy == false
/-- beta_integration.v:3132. -/
@[netlist] def w45 (s : S) (valid_in : Bool) : Bool :=
  (w41 s valid_in) && (w43 s)
/-- beta_integration.v:3133. -/
@[netlist] def w47 (s : S) : Bool :=
  s.data_out_valid == false
/-- beta_integration.v:3134. -/
@[netlist] def w49 (s : S) (data_in : Nat) : Nat :=
  slc data_in 0 8
/-- beta_integration.v:3135. -/
@[netlist] def w51 (s : S) (data_in : Nat) : Nat :=
  slc data_in 0 16
/-- beta_integration.v:3136. -/
@[netlist] def w53 (s : S) (data_in : Nat) : Nat :=
  slc data_in 0 8
/-- beta_integration.v:3137. -/
@[netlist] def w55 (s : S) (data_in : Nat) : Nat :=
  slc data_in 0 16
/-- beta_integration.v:3138. -/
@[netlist] def w57 (s : S) (data_in : Nat) : Nat :=
  slc data_in 0 8
/-- beta_integration.v:3140. -/
@[netlist] def w59 (s : S) (data_in : Nat) : Nat :=
  slc data_in 0 16
/-- beta_integration.v:3141. -/
@[netlist] def w61 (s : S) (data_in : Nat) : Nat :=
  slc data_in 0 8
/-- beta_integration.v:3142. -/
@[netlist] def w63 (s : S) (data_in : Nat) : Nat :=
  slc data_in 0 16
/-- beta_integration.v:3143. -/
@[netlist] def w65 (s : S) : Bool :=
  s.o_busy == false
/-- beta_integration.v:3144. -/
@[netlist] def w67 (s : S) (data_in : Nat) : Nat :=
  slc data_in 0 8
/-- beta_integration.v:3145. -/
@[netlist] def w69 (s : S) (data_in : Nat) : Nat :=
  slc data_in 0 16
/-- beta_integration.v:3146. -/
@[netlist] def w71 (s : S) (data_in : Nat) : Nat :=
  slc data_in 0 8
/-- beta_integration.v:3147. -/
@[netlist] def w73 (s : S) (data_in : Nat) : Nat :=
  slc data_in 0 16
/-- beta_integration.v:3148. -/
@[netlist] def w75 (s : S) (i_busy : Bool) : Bool :=
  i_busy == false
/-- beta_integration.v:3149. -/
@[netlist] def w77 (s : S) : Bool :=
  s.data_out_valid == false
/-- beta_integration.v:3151. -/
@[netlist] def w79 (s : S) : Nat :=
  slc s.buffer_data 0 8
/-- beta_integration.v:3152. -/
@[netlist] def w81 (s : S) (i_busy : Bool) : Bool :=
  i_busy == false
/-- beta_integration.v:3153. -/
@[netlist] def w83 (s : S) : Bool :=
  s.valid_out == false
/-- beta_integration.v:3154. -/
@[netlist] def w85 (s : S) (valid_in : Bool) : Bool :=
  valid_in == true
/-- beta_integration.v:3155. -/
@[netlist] def w87 (s : S) : Bool :=
  s.o_busy == false
/-- beta_integration.v:3156. -/
@[netlist] def w89 (s : S) (valid_in : Bool) : Bool :=
  (w85 s valid_in) && (w87 s)
/-- beta_integration.v:3157. -/
@[netlist] def w91 (s : S) : Bool :=
  s.data_out_valid == false
/-- beta_integration.v:3158. -/
@[netlist] def w93 (s : S) : Bool :=
  s.o_busy == false
/-- beta_integration.v:3159. -/
@[netlist] def w95 (s : S) (i_busy : Bool) : Bool :=
  i_busy == false
/-- beta_integration.v:3160. -/
@[netlist] def w97 (s : S) : Bool :=
  s.data_out_valid == false
/-- beta_integration.v:3183-3221. -/
@[netlist] def next_valid_out (s : S) (valid_in : Bool) (rst : Bool) (i_busy : Bool) : Bool :=
  let e1 := if s.fsm_state = 0 then (if (w1 s i_busy) = true then (if (w11 s) = true then valid_in
      else true)
    else if (w3 s) = true then valid_in
    else s.valid_out)
  else if s.fsm_state = 1 then (if (w13 s i_busy) = true then (if (w15 s) = true then true
      else true)
    else s.valid_out)
  else if s.fsm_state = 2 then (if (w17 s i_busy) = true then (if s.data_out_valid = true then true
      else s.valid_out)
    else s.valid_out)
  else s.valid_out
  if rst = true then false
  else e1
/-- beta_integration.v:3222-3314. -/
@[netlist] def next_data_out (s : S) (valid_in : Bool) (data_in_ctr : Nat) (data_in : Nat) (rst : Bool) (i_busy : Bool) : Nat :=
  let e1 := if s.fsm_state = 0 then (if (w19 s i_busy) = true then (if (w29 s) = true then (if valid_in = true then (if s.buffer_count = 0 then (if data_in_ctr = 2 then slc data_in 0 16
            else if data_in_ctr = 3 then slc data_in 8 16
            else if data_in_ctr = 4 then slc data_in 16 16
            else s.data_out)
          else if s.buffer_count = 1 then (if data_in_ctr = 2 then (slc s.buffer_data 0 8) * 2 ^ 8 + (slc data_in 8 8)
            else if data_in_ctr = 3 then (slc s.buffer_data 0 8) * 2 ^ 8 + (slc data_in 16 8)
            else if data_in_ctr = 4 then (slc s.buffer_data 0 8) * 2 ^ 8 + (slc data_in 24 8)
            else s.data_out)
          else s.data_out)
        else s.data_out)
      else s.data_out_reg)
    else if (w21 s) = true then (if valid_in = true then (if s.buffer_count = 0 then (if data_in_ctr = 2 then slc data_in 0 16
          else if data_in_ctr = 3 then slc data_in 8 16
          else if data_in_ctr = 4 then slc data_in 16 16
          else s.data_out)
        else if s.buffer_count = 1 then (if data_in_ctr = 2 then (slc s.buffer_data 0 8) * 2 ^ 8 + (slc data_in 8 8)
          else if data_in_ctr = 3 then (slc s.buffer_data 0 8) * 2 ^ 8 + (slc data_in 16 8)
          else if data_in_ctr = 4 then (slc s.buffer_data 0 8) * 2 ^ 8 + (slc data_in 24 8)
          else s.data_out)
        else s.data_out)
      else s.data_out)
    else s.data_out)
  else if s.fsm_state = 1 then (if (w31 s i_busy) = true then (if (w33 s) = true then (if s.buffer_count = 1 then put (put s.data_out 8 8 (slc s.buffer_data 0 8)) 0 8 0
        else if s.buffer_count = 2 then slc s.buffer_data 0 16
        else if s.buffer_count = 3 then slc s.buffer_data 8 16
        else s.data_out)
      else s.data_out_reg)
    else s.data_out)
  else if s.fsm_state = 2 then (if (w35 s i_busy) = true then (if s.data_out_valid = true then s.data_out_reg
      else s.data_out)
    else s.data_out)
  else s.data_out
  if rst = true then 0
  else e1
/-- beta_integration.v:3315-3337. -/
@[netlist] def next_end_out_reg (s : S) (valid_in : Bool) (data_in_ctr : Nat) (end_in : Bool) (rst : Bool) : Bool :=
  let e1 := if s.fsm_state = 0 then (if (w271 s) = true then (if valid_in = true then (if end_in = true then (if (w277 s data_in_ctr) = true then true
          else s.end_out_reg)
        else s.end_out_reg)
      else s.end_out_reg)
    else s.end_out_reg)
  else s.end_out_reg
  if rst = true then false
  else e1
/-- beta_integration.v:3338-3433. -/
@[netlist] def next_buffer_data (s : S) (valid_in : Bool) (data_in_ctr : Nat) (data_in : Nat) (rst : Bool) (i_busy : Bool) : Nat :=
  let e2 := if s.fsm_state = 0 then (
    let e1 := if (w37 s i_busy) = true then (if (w47 s) = true then (if valid_in = true then (if s.buffer_count = 0 then (if data_in_ctr = 3 then (w49 s data_in)
            else if data_in_ctr = 4 then (w51 s data_in)
            else s.buffer_data)
          else if s.buffer_count = 1 then (if data_in_ctr = 2 then (w53 s data_in)
            else if data_in_ctr = 3 then (w55 s data_in)
            else if data_in_ctr = 4 then slc data_in 0 24
            else s.buffer_data)
          else s.buffer_data)
        else s.buffer_data)
      else s.buffer_data)
    else if (w39 s) = true then (if valid_in = true then (if s.buffer_count = 0 then (if data_in_ctr = 3 then (w57 s data_in)
          else if data_in_ctr = 4 then (w59 s data_in)
          else s.buffer_data)
        else if s.buffer_count = 1 then (if data_in_ctr = 2 then (w61 s data_in)
          else if data_in_ctr = 3 then (w63 s data_in)
          else if data_in_ctr = 4 then slc data_in 0 24
          else s.buffer_data)
        else s.buffer_data)
      else s.buffer_data)
    else s.buffer_data
    if (w65 s) = true then (if valid_in = true then (if s.buffer_count = 0 then (if data_in_ctr = 3 then (w67 s data_in)
          else if data_in_ctr = 4 then (w69 s data_in)
          else e1)
        else if s.buffer_count = 1 then (if data_in_ctr = 2 then (w71 s data_in)
          else if data_in_ctr = 3 then (w73 s data_in)
          else if data_in_ctr = 4 then slc data_in 0 24
          else e1)
        else e1)
      else e1)
    else e1)
  else if s.fsm_state = 1 then (if (w75 s i_busy) = true then (if (w77 s) = true then (if s.buffer_count = 3 then (w79 s)
        else s.buffer_data)
      else s.buffer_data)
    else s.buffer_data)
  else s.buffer_data
  if rst = true then 0
  else e2
/-- beta_integration.v:3434-3533. -/
@[netlist] def next_buffer_count (s : S) (valid_in : Bool) (data_in_ctr : Nat) (rst : Bool) (i_busy : Bool) : Nat :=
  let e2 := if s.fsm_state = 0 then (
    let e1 := if (w81 s i_busy) = true then (if (w91 s) = true then (if valid_in = true then (if s.buffer_count = 0 then (if data_in_ctr = 3 then 1
            else if data_in_ctr = 4 then 2
            else s.buffer_count)
          else if s.buffer_count = 1 then (if data_in_ctr = 2 then 1
            else if data_in_ctr = 3 then 2
            else if data_in_ctr = 4 then 3
            else s.buffer_count)
          else s.buffer_count)
        else s.buffer_count)
      else s.buffer_count)
    else if (w83 s) = true then (if valid_in = true then (if s.buffer_count = 0 then (if data_in_ctr = 3 then 1
          else if data_in_ctr = 4 then 2
          else s.buffer_count)
        else if s.buffer_count = 1 then (if data_in_ctr = 2 then 1
          else if data_in_ctr = 3 then 2
          else if data_in_ctr = 4 then 3
          else s.buffer_count)
        else s.buffer_count)
      else s.buffer_count)
    else s.buffer_count
    if (w93 s) = true then (if valid_in = true then (if s.buffer_count = 0 then (if data_in_ctr = 3 then 1
          else if data_in_ctr = 4 then 2
          else e1)
        else if s.buffer_count = 1 then (if data_in_ctr = 2 then 1
          else if data_in_ctr = 3 then 2
          else if data_in_ctr = 4 then 3
          else e1)
        else e1)
      else e1)
    else e1)
  else if s.fsm_state = 1 then (if (w95 s i_busy) = true then (if (w97 s) = true then (if s.buffer_count = 1 then 0
        else if s.buffer_count = 2 then 0
        else if s.buffer_count = 3 then 1
        else s.buffer_count)
      else s.buffer_count)
    else s.buffer_count)
  else s.buffer_count
  if rst = true then 0
  else e2
/-- beta_integration.v:3534-3658. -/
@[netlist] def next_o_busy (s : S) (valid_in : Bool) (data_in_ctr : Nat) (end_in : Bool) (rst : Bool) (i_busy : Bool) : Bool :=
  let e5 := if s.fsm_state = 0 then (
    let e3 := if (w99 s i_busy) = true then (if (w109 s) = true then (if valid_in = true then (
          let e1 := if s.buffer_count = 0 then (if data_in_ctr = 4 then true
            else false)
          else if s.buffer_count = 1 then (if data_in_ctr = 3 then true
            else if data_in_ctr = 4 then true
            else false)
          else false
          if end_in = true then (if (w115 s data_in_ctr) = true then e1
            else true)
          else e1)
        else false)
      else false)
    else if (w101 s) = true then (if valid_in = true then (
        let e2 := if s.buffer_count = 0 then (if data_in_ctr = 4 then true
          else false)
        else if s.buffer_count = 1 then (if data_in_ctr = 3 then true
          else if data_in_ctr = 4 then true
          else false)
        else false
        if end_in = true then (if (w121 s data_in_ctr) = true then e2
          else true)
        else e2)
      else false)
    else if (w107 s valid_in) = true then (w127 s valid_in)
    else s.o_busy
    if (w129 s) = true then (if valid_in = true then (
        let e4 := if s.buffer_count = 0 then (if data_in_ctr = 4 then true
          else e3)
        else if s.buffer_count = 1 then (if data_in_ctr = 3 then true
          else if data_in_ctr = 4 then true
          else e3)
        else e3
        if end_in = true then (if (w135 s data_in_ctr) = true then e4
          else true)
        else e4)
      else e3)
    else e3)
  else if s.fsm_state = 1 then (if (w137 s i_busy) = true then (if (w139 s) = true then (if (w141 s) = true then false
        else s.o_busy)
      else s.o_busy)
    else s.o_busy)
  else s.o_busy
  if rst = true then false
  else e5
/-- beta_integration.v:3659-3789. -/
@[netlist] def next_fsm_state (s : S) (valid_in : Bool) (data_in_ctr : Nat) (end_in : Bool) (rst : Bool) (i_busy : Bool) : Nat :=
  let e6 := if s.fsm_state = 0 then (
    let e3 := if (w143 s i_busy) = true then (if (w153 s) = true then (if valid_in = true then (
          let e1 := if s.buffer_count = 0 then (if data_in_ctr = 4 then 1
            else s.fsm_state)
          else if s.buffer_count = 1 then (if data_in_ctr = 3 then 1
            else if data_in_ctr = 4 then 1
            else s.fsm_state)
          else s.fsm_state
          if end_in = true then (if (w159 s data_in_ctr) = true then 2
            else 1)
          else e1)
        else s.fsm_state)
      else s.fsm_state)
    else if (w145 s) = true then (if valid_in = true then (
        let e2 := if s.buffer_count = 0 then (if data_in_ctr = 4 then 1
          else s.fsm_state)
        else if s.buffer_count = 1 then (if data_in_ctr = 3 then 1
          else if data_in_ctr = 4 then 1
          else s.fsm_state)
        else s.fsm_state
        if end_in = true then (if (w165 s data_in_ctr) = true then 2
          else 1)
        else e2)
      else s.fsm_state)
    else s.fsm_state
    if (w167 s) = true then (if valid_in = true then (
        let e4 := if s.buffer_count = 0 then (if data_in_ctr = 4 then 1
          else e3)
        else if s.buffer_count = 1 then (if data_in_ctr = 3 then 1
          else if data_in_ctr = 4 then 1
          else e3)
        else e3
        if end_in = true then (if (w173 s data_in_ctr) = true then 2
          else 1)
        else e4)
      else e3)
    else e3)
  else if s.fsm_state = 1 then (if (w175 s i_busy) = true then (if (w177 s) = true then (
        let e5 := if s.end_reg = true then (if (w179 s) = true then 3
          else s.fsm_state)
        else s.fsm_state
        if (w181 s) = true then 0
        else e5)
      else s.fsm_state)
    else s.fsm_state)
  else if s.fsm_state = 2 then (if (w183 s i_busy) = true then 3
    else s.fsm_state)
  else s.fsm_state
  if rst = true then 0
  else e6
/-- beta_integration.v:3790-3852. -/
@[netlist] def next_end_out (s : S) (valid_in : Bool) (data_in_ctr : Nat) (end_in : Bool) (rst : Bool) (i_busy : Bool) : Bool :=
  let e1 := if s.fsm_state = 0 then (if (w185 s i_busy) = true then (if (w195 s) = true then (if valid_in = true then (if end_in = true then (if (w201 s data_in_ctr) = true then true
            else s.end_out)
          else s.end_out)
        else s.end_out)
      else s.end_out_reg)
    else if (w187 s) = true then (if valid_in = true then (if end_in = true then (if (w207 s data_in_ctr) = true then true
          else s.end_out)
        else s.end_out)
      else s.end_out)
    else s.end_out)
  else if s.fsm_state = 1 then (if (w209 s i_busy) = true then (if (w211 s) = true then (if s.end_reg = true then (if (w213 s) = true then true
          else s.end_out)
        else s.end_out)
      else s.end_out_reg)
    else s.end_out)
  else if s.fsm_state = 2 then (if (w215 s i_busy) = true then (if s.data_out_valid = true then true
      else s.end_out)
    else s.end_out)
  else s.end_out
  if rst = true then false
  else e1
/-- beta_integration.v:3853-3910. -/
@[netlist] def next_end_reg (s : S) (valid_in : Bool) (data_in_ctr : Nat) (end_in : Bool) (rst : Bool) (i_busy : Bool) : Bool :=
  let e2 := if s.fsm_state = 0 then (
    let e1 := if (w217 s i_busy) = true then (if (w227 s) = true then (if valid_in = true then (if end_in = true then (if (w233 s data_in_ctr) = true then s.end_reg
            else true)
          else s.end_reg)
        else s.end_reg)
      else s.end_reg)
    else if (w219 s) = true then (if valid_in = true then (if end_in = true then (if (w239 s data_in_ctr) = true then s.end_reg
          else true)
        else s.end_reg)
      else s.end_reg)
    else s.end_reg
    if (w241 s) = true then (if valid_in = true then (if end_in = true then (if (w247 s data_in_ctr) = true then e1
          else true)
        else e1)
      else e1)
    else e1)
  else s.end_reg
  if rst = true then false
  else e2
/-- beta_integration.v:3911-3938. -/
@[netlist] def next_data_out_valid (s : S) (valid_in : Bool) (rst : Bool) (i_busy : Bool) : Bool :=
  let e1 := if s.fsm_state = 0 then (if (w249 s i_busy) = true then false
    else if (w251 s) = true then false
    else if (w257 s valid_in) = true then (w263 s valid_in)
    else s.data_out_valid)
  else if s.fsm_state = 1 then (if (w265 s i_busy) = true then (if (w267 s) = true then s.data_out_valid
      else false)
    else s.data_out_valid)
  else s.data_out_valid
  if rst = true then false
  else e1
/-- beta_integration.v:3939-3974. -/
@[netlist] def next_data_out_reg (s : S) (valid_in : Bool) (data_in_ctr : Nat) (data_in : Nat) (rst : Bool) : Nat :=
  let e1 := if s.fsm_state = 0 then (if (w269 s) = true then (if valid_in = true then (if s.buffer_count = 0 then (if data_in_ctr = 2 then slc data_in 0 16
          else if data_in_ctr = 3 then slc data_in 8 16
          else if data_in_ctr = 4 then slc data_in 16 16
          else s.data_out_reg)
        else if s.buffer_count = 1 then (if data_in_ctr = 2 then (slc s.buffer_data 0 8) * 2 ^ 8 + (slc data_in 8 8)
          else if data_in_ctr = 3 then (slc s.buffer_data 0 8) * 2 ^ 8 + (slc data_in 16 8)
          else if data_in_ctr = 4 then (slc s.buffer_data 0 8) * 2 ^ 8 + (slc data_in 24 8)
          else s.data_out_reg)
        else s.data_out_reg)
      else s.data_out_reg)
    else s.data_out_reg)
  else s.data_out_reg
  if rst = true then 0
  else e1

/-- beta_integration.v:2809-3975: one rising clock edge (`always @(posedge ...)`). -/
@[netlist] def step (s : S) (valid_in : Bool) (data_in_ctr : Nat) (data_in : Nat) (end_in : Bool) (rst : Bool) (i_busy : Bool) : S :=
  { fsm_state := (next_fsm_state s valid_in data_in_ctr end_in rst i_busy)
    o_busy := (next_o_busy s valid_in data_in_ctr end_in rst i_busy)
    buffer_count := (next_buffer_count s valid_in data_in_ctr rst i_busy)
    buffer_data := (next_buffer_data s valid_in data_in_ctr data_in rst i_busy)
    data_out := (next_data_out s valid_in data_in_ctr data_in rst i_busy)
    valid_out := (next_valid_out s valid_in rst i_busy)
    end_out_reg := (next_end_out_reg s valid_in data_in_ctr end_in rst)
    data_out_reg := (next_data_out_reg s valid_in data_in_ctr data_in rst)
    data_out_valid := (next_data_out_valid s valid_in rst i_busy)
    end_reg := (next_end_reg s valid_in data_in_ctr end_in rst i_busy)
    end_out := (next_end_out s valid_in data_in_ctr end_in rst i_busy) }

/-- beta_integration.v:2809-3975: the initial values given in the netlist. -/
def Init (s : S) : Prop :=
  s.fsm_state = 0 ∧
  s.o_busy = false ∧
  s.buffer_count = 0 ∧
  s.buffer_data = 0 ∧
  s.data_out = 0 ∧
  s.valid_out = false ∧
  s.end_out_reg = false ∧
  s.data_out_reg = 0 ∧
  s.data_out_valid = false ∧
  s.end_reg = false ∧
  s.end_out = false

/-- beta_integration.v:2809-3975: a state with these initial values; registers without one are 0. -/
def powerUp : S :=
  { fsm_state := 0
    o_busy := false
    buffer_count := 0
    buffer_data := 0
    data_out := 0
    valid_out := false
    end_out_reg := false
    data_out_reg := 0
    data_out_valid := false
    end_reg := false
    end_out := false }

theorem powerUp_init : Init powerUp := ⟨rfl, rfl, rfl, rfl, rfl, rfl, rfl, rfl, rfl, rfl, rfl⟩

end fix_0xff2

namespace force_end

/-- beta_integration.v:3979-4057: registers, memories and instances of module `force_end`. -/
structure S where
  fend : Bool
  counter : Nat
  fsm_state : Nat

/-- beta_integration.v:4007. -/
@[netlist] def w1 (s : S) (allowed_cycles : Nat) : Bool :=
  s.counter == allowed_cycles
/-- beta_integration.v:4008. -/
@[netlist] def w4 (s : S) : Nat :=
  (s.counter + 1) % 2 ^ 26
/-- beta_integration.v:4056. -/
@[netlist] def w3 (s : S) : Nat :=
  (w4 s)
/-- beta_integration.v:4015-4033. -/
@[netlist] def next_fsm_state (s : S) (allowed_cycles : Nat) (rst : Bool) (valid_in : Bool) : Nat :=
  let e1 := if s.fsm_state = 0 then (if valid_in = true then 1
    else s.fsm_state)
  else if s.fsm_state = 1 then (if (w1 s allowed_cycles) = true then 2
    else s.fsm_state)
  else s.fsm_state
  if rst = true then 0
  else e1
/-- beta_integration.v:4034-4044. -/
@[netlist] def next_counter (s : S) (rst : Bool) : Nat :=
  let e1 := if s.fsm_state = 1 then slc (w3 s) 0 25
  else s.counter
  if rst = true then 0
  else e1
/-- beta_integration.v:4045-4055. -/
@[netlist] def next_fend (s : S) (rst : Bool) : Bool :=
  let e1 := if s.fsm_state = 2 then true
  else s.fend
  if rst = true then false
  else e1

/-- beta_integration.v:3979-4057: one rising clock edge (`always @(posedge ...)`). -/
@[netlist] def step (s : S) (allowed_cycles : Nat) (rst : Bool) (valid_in : Bool) : S :=
  { fend := (next_fend s rst)
    counter := (next_counter s rst)
    fsm_state := (next_fsm_state s allowed_cycles rst valid_in) }

/-- beta_integration.v:3979-4057: the initial values given in the netlist. -/
def Init (s : S) : Prop :=
  s.fend = false ∧
  s.counter = 0 ∧
  s.fsm_state = 0

/-- beta_integration.v:3979-4057: a state with these initial values; registers without one are 0. -/
def powerUp : S :=
  { fend := false
    counter := 0
    fsm_state := 0 }

theorem powerUp_init : Init powerUp := ⟨rfl, rfl, rfl⟩

end force_end

namespace input_handler

/-- beta_integration.v:4061-4665: registers, memories and instances of module `input_handler`. -/
structure S where
  buff_consum : Nat
  valid_in_reg : Bool
  end_out : Bool
  buffer : Nat
  valid_in_buff : Bool
  latch_input : Bool
  fsm_state : Nat
  in_end_reg : Bool
  enc_in_ctr_reg : Nat
  enc_in_reg : Nat
  in_end_buff : Bool
  enc_in_ctr_buff : Nat
  enc_in_buff : Nat
  start : Bool
  buff_free : Nat
  valid_in_late : Bool

/-- beta_integration.v:4217. -/
@[netlist] def w9 (s : S) : Bool :=
  decide (s.enc_in_ctr_buff ≤ s.buff_free)
/-- beta_integration.v:4218. -/
@[netlist] def w11 (s : S) : Bool :=
  decide (s.enc_in_ctr_buff ≤ s.buff_free)
/-- beta_integration.v:4219. -/
@[netlist] def w13 (s : S) : Bool :=
  decide (s.enc_in_ctr_buff ≤ s.buff_free)
/-- beta_integration.v:4220. -/
@[netlist] def w15 (s : S) : Bool :=
  decide (s.enc_in_ctr_buff ≤ s.buff_free)
/-- beta_integration.v:4221. -/
@[netlist] def w17 (s : S) : Bool :=
  decide (s.enc_in_ctr_buff ≤ s.buff_free)
/-- beta_integration.v:4222. -/
@[netlist] def w1 (s : S) : Bool :=
  decide (s.enc_in_ctr_reg ≤ s.buff_free)
/-- beta_integration.v:4223. -/
@[netlist] def w19 (s : S) : Bool :=
  decide (s.enc_in_ctr_buff ≤ s.buff_free)
/-- beta_integration.v:4224. -/
@[netlist] def w21 (s : S) : Bool :=
  decide (s.enc_in_ctr_buff ≤ s.buff_free)
/-- beta_integration.v:4225. -/
@[netlist] def w23 (s : S) : Bool :=
  decide (s.enc_in_ctr_reg ≤ s.buff_free)
/-- beta_integration.v:4226. -/
@[netlist] def w25 (s : S) : Bool :=
  decide (s.enc_in_ctr_reg ≤ s.buff_free)
/-- beta_integration.v:4227. -/
@[netlist] def w28 (s : S) : Nat :=
  s.buffer * 2 ^ s.enc_in_ctr_reg % 2 ^ 108
/-- beta_integration.v:4228. -/
@[netlist] def w30 (s : S) : Nat :=
  (w28 s) ||| s.enc_in_reg
/-- beta_integration.v:4229. -/
@[netlist] def w32 (s : S) : Bool :=
  decide (s.enc_in_ctr_reg ≤ s.buff_free)
/-- beta_integration.v:4230. -/
@[netlist] def w35 (s : S) : Nat :=
  s.buffer * 2 ^ s.enc_in_ctr_reg % 2 ^ 108
/-- beta_integration.v:4231. -/
@[netlist] def w37 (s : S) : Nat :=
  (w35 s) ||| s.enc_in_reg
/-- beta_integration.v:4278-4293. -/
@[netlist] def next_inc_buff (s : S) : Bool :=
  if s.fsm_state = 1 then true
  else if s.fsm_state = 2 then (if s.valid_in_reg = true then (if (w1 s) = true then true
      else false)
    else false)
  else false
/-- beta_integration.v:4664. -/
@[netlist] def inc_buff (s : S) : Bool :=
  (next_inc_buff s)
/-- beta_integration.v:4232. -/
@[netlist] def w3 (s : S) (dec_buff : Bool) : Bool :=
  (inc_buff s) || dec_buff
/-- beta_integration.v:4233. -/
@[netlist] def w39 (s : S) : Bool :=
  decide (s.enc_in_ctr_reg ≤ s.buff_free)
/-- beta_integration.v:4234. -/
@[netlist] def w41 (s : S) (dec_buff : Bool) : Bool :=
  (inc_buff s) && dec_buff
/-- beta_integration.v:4235. -/
@[netlist] def w44 (s : S) : Nat :=
  (s.buff_free + 16) % 2 ^ 8
/-- beta_integration.v:4236. -/
@[netlist] def w46 (s : S) : Nat :=
  (2 ^ 9 + (w44 s) - s.enc_in_ctr_reg) % 2 ^ 9
/-- beta_integration.v:4237. -/
@[netlist] def w49 (s : S) : Nat :=
  (s.buff_free + 16) % 2 ^ 8
/-- beta_integration.v:4238. -/
@[netlist] def w52 (s : S) : Nat :=
  (2 ^ 8 + s.buff_free - s.enc_in_ctr_reg) % 2 ^ 8
/-- beta_integration.v:4239. -/
@[netlist] def w54 (s : S) (dec_buff : Bool) : Bool :=
  (inc_buff s) && dec_buff
/-- beta_integration.v:4240. -/
@[netlist] def w57 (s : S) : Nat :=
  (2 ^ 8 + s.buff_consum - 16) % 2 ^ 8
/-- beta_integration.v:4241. -/
@[netlist] def w5 (s : S) : Bool :=
  s.start == false
/-- beta_integration.v:4242. -/
@[netlist] def w59 (s : S) : Nat :=
  ((w57 s) + s.enc_in_ctr_reg) % 2 ^ 9
/-- beta_integration.v:4243. -/
@[netlist] def w62 (s : S) : Nat :=
  (2 ^ 8 + s.buff_consum - 16) % 2 ^ 8
/-- beta_integration.v:4244. -/
@[netlist] def w65 (s : S) : Nat :=
  (s.buff_consum + s.enc_in_ctr_reg) % 2 ^ 8
/-- beta_integration.v:4245. -/
@[netlist] def w7 (s : S) : Bool :=
  s.start == false
/-- beta_integration.v:4652. -/
@[netlist] def w27 (s : S) : Nat :=
  (w30 s)
/-- beta_integration.v:4653. -/
@[netlist] def w34 (s : S) : Nat :=
  (w37 s)
/-- beta_integration.v:4654. -/
@[netlist] def w43 (s : S) : Nat :=
  (w46 s)
/-- beta_integration.v:4655. -/
@[netlist] def w48 (s : S) : Nat :=
  (w49 s)
/-- beta_integration.v:4656. -/
@[netlist] def w51 (s : S) : Nat :=
  (w52 s)
/-- beta_integration.v:4657. -/
@[netlist] def w56 (s : S) : Nat :=
  (w59 s)
/-- beta_integration.v:4658. -/
@[netlist] def w61 (s : S) : Nat :=
  (w62 s)
/-- beta_integration.v:4659. -/
@[netlist] def w64 (s : S) : Nat :=
  (w65 s)
/-- beta_integration.v:4497-4510. -/
@[netlist] def next_new_buff_consum (s : S) (dec_buff : Bool) : Nat :=
  if (w54 s dec_buff) = true then slc (w56 s) 0 7
  else (if dec_buff = true then slc (w61 s) 0 7
    else if (inc_buff s) = true then slc (w64 s) 0 7
    else 0)
/-- beta_integration.v:4660. -/
@[netlist] def new_buff_consum (s : S) (dec_buff : Bool) : Nat :=
  (next_new_buff_consum s dec_buff)
/-- beta_integration.v:4483-4496. -/
@[netlist] def next_new_buff_free (s : S) (dec_buff : Bool) : Nat :=
  if (w41 s dec_buff) = true then slc (w43 s) 0 7
  else (if dec_buff = true then slc (w48 s) 0 7
    else if (inc_buff s) = true then slc (w51 s) 0 7
    else 0)
/-- beta_integration.v:4661. -/
@[netlist] def new_buff_free (s : S) (dec_buff : Bool) : Nat :=
  (next_new_buff_free s dec_buff)
/-- beta_integration.v:4530-4539. -/
@[netlist] def next_buff_reg (s : S) : Bool :=
  if s.fsm_state = 3 then true
  else if s.fsm_state = 2 then true
  else false
/-- beta_integration.v:4662. -/
@[netlist] def buff_reg (s : S) : Bool :=
  (next_buff_reg s)
/-- beta_integration.v:4294-4297. -/
@[netlist] def next_buff_change (s : S) (dec_buff : Bool) : Bool :=
  (w3 s dec_buff)
/-- beta_integration.v:4663. -/
@[netlist] def buff_change (s : S) (dec_buff : Bool) : Bool :=
  (next_buff_change s dec_buff)
/-- beta_integration.v:4298-4320. -/
@[netlist] def next_enc_in_ctr_reg (s : S) (enc_in_ctr : Nat) (rst : Bool) : Nat :=
  let e1 := if s.fsm_state = 0 then (if s.valid_in_buff = true then (if (w17 s) = true then s.enc_in_ctr_buff
      else s.enc_in_ctr_reg)
    else s.enc_in_ctr_reg)
  else if s.fsm_state = 1 then s.enc_in_ctr_buff
  else if s.fsm_state = 3 then enc_in_ctr
  else if s.fsm_state = 2 then enc_in_ctr
  else s.enc_in_ctr_reg
  if rst = true then 0
  else e1
/-- beta_integration.v:4321-4343. -/
@[netlist] def next_in_end_reg (s : S) (in_end : Bool) (rst : Bool) : Bool :=
  let e1 := if s.fsm_state = 0 then (if s.valid_in_buff = true then (if (w19 s) = true then s.in_end_buff
      else s.in_end_reg)
    else s.in_end_reg)
  else if s.fsm_state = 1 then s.in_end_buff
  else if s.fsm_state = 3 then in_end
  else if s.fsm_state = 2 then in_end
  else s.in_end_reg
  if rst = true then false
  else e1
/-- beta_integration.v:4344-4383. -/
@[netlist] def next_fsm_state (s : S) (rst : Bool) : Nat :=
  let e1 := if s.fsm_state = 0 then (if s.valid_in_buff = true then (if (w21 s) = true then 1
      else s.fsm_state)
    else if s.valid_in_reg = true then 2
    else 3)
  else if s.fsm_state = 1 then (if s.valid_in_reg = true then 2
    else 3)
  else if s.fsm_state = 3 then 2
  else if s.fsm_state = 2 then (if s.valid_in_reg = true then (if (w23 s) = true then s.fsm_state
      else 0)
    else s.fsm_state)
  else s.fsm_state
  if rst = true then 0
  else e1
/-- beta_integration.v:4384-4418. -/
@[netlist] def next_latch_input (s : S) (rst : Bool) : Bool :=
  let e1 := if s.fsm_state = 0 then (if s.valid_in_buff = true then s.latch_input
    else if s.valid_in_reg = true then true
    else true)
  else if s.fsm_state = 1 then (if s.valid_in_reg = true then true
    else true)
  else if s.fsm_state = 2 then (if s.valid_in_reg = true then (if (w25 s) = true then true
      else false)
    else s.latch_input)
  else s.latch_input
  if rst = true then false
  else e1
/-- beta_integration.v:4419-4431. -/
@[netlist] def next_valid_in_buff (s : S) (rst : Bool) : Bool :=
  let e1 := if s.fsm_state = 1 then false
  else if s.fsm_state = 2 then s.valid_in_reg
  else s.valid_in_buff
  if rst = true then false
  else e1
/-- beta_integration.v:4432-4450. -/
@[netlist] def next_buffer (s : S) (rst : Bool) : Nat :=
  let e1 := if s.fsm_state = 1 then slc (w27 s) 0 77
  else if s.fsm_state = 2 then (if s.valid_in_reg = true then (if (w32 s) = true then slc (w34 s) 0 77
      else s.buffer)
    else s.buffer)
  else s.buffer
  if rst = true then 0
  else e1
/-- beta_integration.v:4451-4469. -/
@[netlist] def next_end_out (s : S) (rst : Bool) : Bool :=
  let e1 := if s.fsm_state = 1 then s.in_end_reg
  else if s.fsm_state = 2 then (if s.valid_in_reg = true then (if (w39 s) = true then s.in_end_reg
      else s.end_out)
    else s.end_out)
  else s.end_out
  if rst = true then false
  else e1
/-- beta_integration.v:4470-4482. -/
@[netlist] def next_valid_in_reg (s : S) (valid_in : Bool) (rst : Bool) : Bool :=
  let e1 := if s.fsm_state = 3 then valid_in
  else if s.fsm_state = 2 then valid_in
  else s.valid_in_reg
  if rst = true then false
  else e1
/-- beta_integration.v:4511-4518. -/
@[netlist] def next_valid_in_late (s : S) (valid_in : Bool) (rst : Bool) : Bool :=
  if rst = true then false
  else valid_in
/-- beta_integration.v:4519-4529. -/
@[netlist] def next_buff_consum (s : S) (rst : Bool) (dec_buff : Bool) : Nat :=
  let e1 := if (buff_change s dec_buff) = true then (new_buff_consum s dec_buff)
  else s.buff_consum
  if rst = true then 0
  else e1
/-- beta_integration.v:4540-4554. -/
@[netlist] def next_buff_free (s : S) (rst : Bool) (dec_buff : Bool) : Nat :=
  let e1 := if (w5 s) = true then 77
  else s.buff_free
  let e2 := if (buff_change s dec_buff) = true then (new_buff_free s dec_buff)
  else e1
  if rst = true then 0
  else e2
/-- beta_integration.v:4555-4565. -/
@[netlist] def next_start (s : S) (rst : Bool) : Bool :=
  let e1 := if (w7 s) = true then true
  else s.start
  if rst = true then false
  else e1
/-- beta_integration.v:4566-4586. -/
@[netlist] def next_enc_in_buff (s : S) (rst : Bool) : Nat :=
  let e1 := if s.fsm_state = 0 then (if s.valid_in_buff = true then (if (w9 s) = true then s.enc_in_reg
      else s.enc_in_buff)
    else s.enc_in_buff)
  else if s.fsm_state = 1 then s.enc_in_reg
  else if s.fsm_state = 2 then s.enc_in_reg
  else s.enc_in_buff
  if rst = true then 0
  else e1
/-- beta_integration.v:4587-4607. -/
@[netlist] def next_enc_in_ctr_buff (s : S) (rst : Bool) : Nat :=
  let e1 := if s.fsm_state = 0 then (if s.valid_in_buff = true then (if (w11 s) = true then s.enc_in_ctr_reg
      else s.enc_in_ctr_buff)
    else s.enc_in_ctr_buff)
  else if s.fsm_state = 1 then s.enc_in_ctr_reg
  else if s.fsm_state = 2 then s.enc_in_ctr_reg
  else s.enc_in_ctr_buff
  if rst = true then 0
  else e1
/-- beta_integration.v:4608-4628. -/
@[netlist] def next_in_end_buff (s : S) (rst : Bool) : Bool :=
  let e1 := if s.fsm_state = 0 then (if s.valid_in_buff = true then (if (w13 s) = true then s.in_end_reg
      else s.in_end_buff)
    else s.in_end_buff)
  else if s.fsm_state = 1 then s.in_end_reg
  else if s.fsm_state = 2 then s.in_end_reg
  else s.in_end_buff
  if rst = true then false
  else e1
/-- beta_integration.v:4629-4651. -/
@[netlist] def next_enc_in_reg (s : S) (enc_in : Nat) (rst : Bool) : Nat :=
  let e1 := if s.fsm_state = 0 then (if s.valid_in_buff = true then (if (w15 s) = true then s.enc_in_buff
      else s.enc_in_reg)
    else s.enc_in_reg)
  else if s.fsm_state = 1 then s.enc_in_buff
  else if s.fsm_state = 3 then enc_in
  else if s.fsm_state = 2 then enc_in
  else s.enc_in_reg
  if rst = true then 0
  else e1

/-- beta_integration.v:4061-4665: one rising clock edge (`always @(posedge ...)`). -/
@[netlist] def step (s : S) (valid_in : Bool) (enc_in : Nat) (enc_in_ctr : Nat) (in_end : Bool) (rst : Bool) (dec_buff : Bool) : S :=
  { buff_consum := (next_buff_consum s rst dec_buff)
    valid_in_reg := (next_valid_in_reg s valid_in rst)
    end_out := (next_end_out s rst)
    buffer := (next_buffer s rst)
    valid_in_buff := (next_valid_in_buff s rst)
    latch_input := (next_latch_input s rst)
    fsm_state := (next_fsm_state s rst)
    in_end_reg := (next_in_end_reg s in_end rst)
    enc_in_ctr_reg := (next_enc_in_ctr_reg s enc_in_ctr rst)
    enc_in_reg := (next_enc_in_reg s enc_in rst)
    in_end_buff := (next_in_end_buff s rst)
    enc_in_ctr_buff := (next_enc_in_ctr_buff s rst)
    enc_in_buff := (next_enc_in_buff s rst)
    start := (next_start s rst)
    buff_free := (next_buff_free s rst dec_buff)
    valid_in_late := (next_valid_in_late s valid_in rst) }

/-- beta_integration.v:4061-4665: the initial values given in the netlist. -/
def Init (s : S) : Prop :=
  s.buff_consum = 0 ∧
  s.valid_in_reg = false ∧
  s.end_out = false ∧
  s.buffer = 0 ∧
  s.valid_in_buff = false ∧
  s.latch_input = false ∧
  s.fsm_state = 0 ∧
  s.in_end_reg = false ∧
  s.enc_in_ctr_reg = 0 ∧
  s.enc_in_reg = 0 ∧
  s.in_end_buff = false ∧
  s.enc_in_ctr_buff = 0 ∧
  s.enc_in_buff = 0 ∧
  s.start = false ∧
  s.buff_free = 0 ∧
  s.valid_in_late = false

/-- beta_integration.v:4061-4665: a state with these initial values; registers without one are 0. -/
def powerUp : S :=
  { buff_consum := 0
    valid_in_reg := false
    end_out := false
    buffer := 0
    valid_in_buff := false
    latch_input := false
    fsm_state := 0
    in_end_reg := false
    enc_in_ctr_reg := 0
    enc_in_reg := 0
    in_end_buff := false
    enc_in_ctr_buff := 0
    enc_in_buff := 0
    start := false
    buff_free := 0
    valid_in_late := false }

theorem powerUp_init : Init powerUp := ⟨rfl, rfl, rfl, rfl, rfl, rfl, rfl, rfl, rfl, rfl, rfl, rfl, rfl, rfl, rfl, rfl⟩

end input_handler

namespace merge

/-- beta_integration.v:6288-6417: registers, memories and instances of module `merge`. -/
structure S where
  u_w9 : anonymous_4.S

/-- beta_integration.v:6353-6366. -/
@[netlist] def end_out_8 (s : S) : Bool :=
  s.u_w9.end_out
/-- beta_integration.v:6403-6406. -/
@[netlist] def next_end_out (s : S) : Bool :=
  (end_out_8 s)
/-- beta_integration.v:6407. -/
@[netlist] def end_out (s : S) : Bool :=
  (next_end_out s)
/-- beta_integration.v:6353-6366. -/
@[netlist] def valid_out_7 (s : S) : Bool :=
  s.u_w9.valid_out
/-- beta_integration.v:6399-6402. -/
@[netlist] def next_valid_out (s : S) : Bool :=
  (valid_out_7 s)
/-- beta_integration.v:6408. -/
@[netlist] def valid_out (s : S) : Bool :=
  (next_valid_out s)
/-- beta_integration.v:6353-6366. -/
@[netlist] def enc_out_ctr_5 (s : S) : Nat :=
  s.u_w9.enc_out_ctr
/-- beta_integration.v:6395-6398. -/
@[netlist] def next_enc_out_ctr (s : S) : Nat :=
  (enc_out_ctr_5 s)
/-- beta_integration.v:6409. -/
@[netlist] def enc_out_ctr (s : S) : Nat :=
  (next_enc_out_ctr s)
/-- beta_integration.v:6353-6366. -/
@[netlist] def enc_out_6 (s : S) : Nat :=
  s.u_w9.enc_out
/-- beta_integration.v:6391-6394. -/
@[netlist] def next_enc_out (s : S) : Nat :=
  (enc_out_6 s)
/-- beta_integration.v:6410. -/
@[netlist] def enc_out (s : S) : Nat :=
  (next_enc_out s)
/-- beta_integration.v:6387-6390. -/
@[netlist] def next_enc_in_ctr2 (s : S) (enc_in_ctr_2 : Nat) : Nat :=
  enc_in_ctr_2
/-- beta_integration.v:6411. -/
@[netlist] def enc_in_ctr2 (s : S) (enc_in_ctr_2 : Nat) : Nat :=
  (next_enc_in_ctr2 s enc_in_ctr_2)
/-- beta_integration.v:6383-6386. -/
@[netlist] def next_enc_in2 (s : S) (enc_in_1 : Nat) : Nat :=
  enc_in_1
/-- beta_integration.v:6412. -/
@[netlist] def enc_in2 (s : S) (enc_in_1 : Nat) : Nat :=
  (next_enc_in2 s enc_in_1)
/-- beta_integration.v:6379-6382. -/
@[netlist] def next_end_in_4 (s : S) (end_in : Bool) : Bool :=
  end_in
/-- beta_integration.v:6413. -/
@[netlist] def end_in_4 (s : S) (end_in : Bool) : Bool :=
  (next_end_in_4 s end_in)
/-- beta_integration.v:6375-6378. -/
@[netlist] def next_valid_in_3 (s : S) (valid_in : Bool) : Bool :=
  valid_in
/-- beta_integration.v:6414. -/
@[netlist] def valid_in_3 (s : S) (valid_in : Bool) : Bool :=
  (next_valid_in_3 s valid_in)
/-- beta_integration.v:6371-6374. -/
@[netlist] def next_enc_in_ctr1 (s : S) (enc_in_ctr : Nat) : Nat :=
  enc_in_ctr
/-- beta_integration.v:6415. -/
@[netlist] def enc_in_ctr1 (s : S) (enc_in_ctr : Nat) : Nat :=
  (next_enc_in_ctr1 s enc_in_ctr)
/-- beta_integration.v:6367-6370. -/
@[netlist] def next_enc_in1 (s : S) (enc_in : Nat) : Nat :=
  enc_in
/-- beta_integration.v:6416. -/
@[netlist] def enc_in1 (s : S) (enc_in : Nat) : Nat :=
  (next_enc_in1 s enc_in)

/-- beta_integration.v:6288-6417: one rising clock edge (`always @(posedge ...)`). -/
@[netlist] def step (s : S) (enc_in_ctr : Nat) (valid_in : Bool) (end_in : Bool) (enc_in_1 : Nat) (enc_in_ctr_2 : Nat) (rst : Bool) (enc_in : Nat) : S :=
  { u_w9 := anonymous_4.step s.u_w9 (enc_in_ctr1 s enc_in_ctr) (enc_in_ctr2 s enc_in_ctr_2) (enc_in1 s enc_in) (enc_in2 s enc_in_1) (end_in_4 s end_in) rst (valid_in_3 s valid_in) }

/-- beta_integration.v:6288-6417: the initial values given in the netlist. -/
def Init (s : S) : Prop :=
  anonymous_4.Init s.u_w9

/-- beta_integration.v:6288-6417: a state with these initial values; registers without one are 0. -/
def powerUp : S :=
  { u_w9 := anonymous_4.powerUp }

theorem powerUp_init : Init powerUp := anonymous_4.powerUp_init

end merge

namespace normalize

/-- beta_integration.v:6421-6598: registers, memories and instances of module `normalize`. -/
structure S where
  u_w10 : anonymous.S
  u_w17 : anonymous_1.S

/-- beta_integration.v:6506-6517. -/
@[netlist] def end_out_9 (s : S) : Bool :=
  s.u_w10.end_out
/-- beta_integration.v:6548-6551. -/
@[netlist] def next_end_out (s : S) : Bool :=
  (end_out_9 s)
/-- beta_integration.v:6584. -/
@[netlist] def end_out (s : S) : Bool :=
  (next_end_out s)
/-- beta_integration.v:6506-6517. -/
@[netlist] def valid_o (s : S) : Bool :=
  s.u_w10.valid_o
/-- beta_integration.v:6544-6547. -/
@[netlist] def next_valid_out (s : S) : Bool :=
  (valid_o s)
/-- beta_integration.v:6585. -/
@[netlist] def valid_out (s : S) : Bool :=
  (next_valid_out s)
/-- beta_integration.v:6518-6527. -/
@[netlist] def val_out_15 (s : S) : Nat :=
  s.u_w17.val_out
/-- beta_integration.v:6540-6543. -/
@[netlist] def next_val_out_4 (s : S) : Nat :=
  (val_out_15 s)
/-- beta_integration.v:6586. -/
@[netlist] def val_out_4 (s : S) : Nat :=
  (next_val_out_4 s)
/-- beta_integration.v:6518-6527. -/
@[netlist] def ssss_16 (s : S) : Nat :=
  s.u_w17.ssss
/-- beta_integration.v:6536-6539. -/
@[netlist] def next_ssss_3 (s : S) : Nat :=
  (ssss_16 s)
/-- beta_integration.v:6587. -/
@[netlist] def ssss_3 (s : S) : Nat :=
  (next_ssss_3 s)
/-- beta_integration.v:6580-6583. -/
@[netlist] def next_val_in_mns_13 (s : S) (vals_in_mns_2 : Nat) : Nat :=
  vals_in_mns_2
/-- beta_integration.v:6588. -/
@[netlist] def val_in_mns_13 (s : S) (vals_in_mns_2 : Nat) : Nat :=
  (next_val_in_mns_13 s vals_in_mns_2)
/-- beta_integration.v:6576-6579. -/
@[netlist] def next_end_in_14 (s : S) (end_in : Bool) : Bool :=
  end_in
/-- beta_integration.v:6589. -/
@[netlist] def end_in_14 (s : S) (end_in : Bool) : Bool :=
  (next_end_in_14 s end_in)
/-- beta_integration.v:6572-6575. -/
@[netlist] def next_valid_11 (s : S) (valid_in : Bool) : Bool :=
  valid_in
/-- beta_integration.v:6590. -/
@[netlist] def valid_11 (s : S) (valid_in : Bool) : Bool :=
  (next_valid_11 s valid_in)
/-- beta_integration.v:6568-6571. -/
@[netlist] def next_val_in_12 (s : S) (val_in_1 : Nat) : Nat :=
  val_in_1
/-- beta_integration.v:6591. -/
@[netlist] def val_in_12 (s : S) (val_in_1 : Nat) : Nat :=
  (next_val_in_12 s val_in_1)
/-- beta_integration.v:6506-6517. -/
@[netlist] def val_out_7 (s : S) : Nat :=
  s.u_w10.val_out
/-- beta_integration.v:6564-6567. -/
@[netlist] def next_val_out (s : S) : Nat :=
  (val_out_7 s)
/-- beta_integration.v:6592. -/
@[netlist] def val_out (s : S) : Nat :=
  (next_val_out s)
/-- beta_integration.v:6506-6517. -/
@[netlist] def ssss_8 (s : S) : Nat :=
  s.u_w10.ssss
/-- beta_integration.v:6560-6563. -/
@[netlist] def next_ssss (s : S) : Nat :=
  (ssss_8 s)
/-- beta_integration.v:6593. -/
@[netlist] def ssss (s : S) : Nat :=
  (next_ssss s)
/-- beta_integration.v:6556-6559. -/
@[netlist] def next_val_in_mns (s : S) (vals_in_mns : Nat) : Nat :=
  vals_in_mns
/-- beta_integration.v:6594. -/
@[netlist] def val_in_mns (s : S) (vals_in_mns : Nat) : Nat :=
  (next_val_in_mns s vals_in_mns)
/-- beta_integration.v:6552-6555. -/
@[netlist] def next_end_in_6 (s : S) (end_in : Bool) : Bool :=
  end_in
/-- beta_integration.v:6595. -/
@[netlist] def end_in_6 (s : S) (end_in : Bool) : Bool :=
  (next_end_in_6 s end_in)
/-- beta_integration.v:6532-6535. -/
@[netlist] def next_valid (s : S) (valid_in : Bool) : Bool :=
  valid_in
/-- beta_integration.v:6596. -/
@[netlist] def valid (s : S) (valid_in : Bool) : Bool :=
  (next_valid s valid_in)
/-- beta_integration.v:6528-6531. -/
@[netlist] def next_val_in_5 (s : S) (val_in : Nat) : Nat :=
  val_in
/-- beta_integration.v:6597. -/
@[netlist] def val_in_5 (s : S) (val_in : Nat) : Nat :=
  (next_val_in_5 s val_in)

/-- beta_integration.v:6421-6598: one rising clock edge (`always @(posedge ...)`). -/
@[netlist] def step (s : S) (valid_in : Bool) (end_in : Bool) (vals_in_mns : Nat) (val_in_1 : Nat) (vals_in_mns_2 : Nat) (rst : Bool) (val_in : Nat) : S :=
  { u_w10 := anonymous.step s.u_w10 (val_in_5 s val_in) (val_in_mns s vals_in_mns) (end_in_6 s end_in) rst (valid s valid_in)
    u_w17 := anonymous_1.step s.u_w17 (val_in_12 s val_in_1) (val_in_mns_13 s vals_in_mns_2) (end_in_14 s end_in) rst (valid_11 s valid_in) }

/-- beta_integration.v:6421-6598: the initial values given in the netlist. -/
def Init (s : S) : Prop :=
  anonymous.Init s.u_w10 ∧
  anonymous_1.Init s.u_w17

/-- beta_integration.v:6421-6598: a state with these initial values; registers without one are 0. -/
def powerUp : S :=
  { u_w10 := anonymous.powerUp
    u_w17 := anonymous_1.powerUp }

theorem powerUp_init : Init powerUp := ⟨anonymous.powerUp_init, anonymous_1.powerUp_init⟩

end normalize

namespace predictor

/-- beta_integration.v:6898-7343: registers, memories and instances of module `predictor`. -/
structure S where
  end_out : Bool
  valid_out : Bool
  predic_out_3 : Nat
  predic_out : Nat
  lbuff_32 : Nat
  lbuff_31 : Nat
  lbuff_30 : Nat
  lbuff : Nat
  lbuff_ctr : Bool
  buff_26 : Nat
  buff_25 : Nat
  buff_24 : Nat
  buff : Nat
  buff_ctr : Bool
  pixel_out_2 : Nat
  pixel_out : Nat
  debug_counter : Nat
  new_row_reg : Bool

/-- beta_integration.v:7026. -/
@[netlist] def w10 (s : S) (valid_in : Bool) : Bool :=
  valid_in == true
/-- beta_integration.v:7027. -/
@[netlist] def w12 (s : S) : Bool :=
  s.lbuff_ctr == true
/-- beta_integration.v:7028. -/
@[netlist] def w14 (s : S) (valid_in : Bool) : Bool :=
  (w10 s valid_in) && (w12 s)
/-- beta_integration.v:7029. -/
@[netlist] def w16 (s : S) (new_row : Bool) : Bool :=
  new_row || s.new_row_reg
/-- beta_integration.v:7030. -/
@[netlist] def w19 (s : S) : Nat :=
  (s.debug_counter + 1) % 2 ^ 33
/-- beta_integration.v:7031. -/
@[netlist] def w22 (s : S) : Nat :=
  (s.buff_ctr.toNat + 1) % 2 ^ 2
/-- beta_integration.v:7032. -/
@[netlist] def w28 (s : S) : Nat :=
  (s.lbuff_ctr.toNat + 1) % 2 ^ 2
/-- beta_integration.v:7033. -/
@[netlist] def w4 (s : S) (valid_in : Bool) : Bool :=
  valid_in == true
/-- beta_integration.v:7034. -/
@[netlist] def w6 (s : S) (new_row : Bool) : Bool :=
  new_row == true
/-- beta_integration.v:7035. -/
@[netlist] def w8 (s : S) (new_row : Bool) (valid_in : Bool) : Bool :=
  (w4 s valid_in) && (w6 s new_row)
/-- beta_integration.v:7339. -/
@[netlist] def w18 (s : S) : Nat :=
  (w19 s)
/-- beta_integration.v:7340. -/
@[netlist] def w21 (s : S) : Nat :=
  (w22 s)
/-- beta_integration.v:7341. -/
@[netlist] def w27 (s : S) : Nat :=
  (w28 s)
/-- beta_integration.v:7085-7088. -/
@[netlist] def next_new_row_latch (s : S) (new_row : Bool) : Bool :=
  (w16 s new_row)
/-- beta_integration.v:7342. -/
@[netlist] def new_row_latch (s : S) (new_row : Bool) : Bool :=
  (next_new_row_latch s new_row)
/-- beta_integration.v:7072-7084. -/
@[netlist] def next_new_row_reg (s : S) (new_row : Bool) (rst : Bool) (valid_in : Bool) : Bool :=
  let e1 := if (w8 s new_row valid_in) = true then true
  else if (w14 s valid_in) = true then false
  else s.new_row_reg
  if rst = true then false
  else e1
/-- beta_integration.v:7089-7102. -/
@[netlist] def next_lbuff_ctr (s : S) (new_row : Bool) (rst : Bool) (valid_in : Bool) : Bool :=
  let e1 := if valid_in = true then (if (new_row_latch s new_row) = true then (w27 s).testBit 0
    else s.lbuff_ctr)
  else s.lbuff_ctr
  if rst = true then false
  else e1
/-- beta_integration.v:7103-7119. -/
@[netlist] def next_lbuff (s : S) (new_row : Bool) (pixel_in : Nat) (rst : Bool) (valid_in : Bool) : Nat :=
  let e1 := if valid_in = true then (if (new_row_latch s new_row) = true then (if s.lbuff_ctr = false then pixel_in
      else s.lbuff)
    else s.lbuff)
  else s.lbuff
  if rst = true then 2048
  else e1
/-- beta_integration.v:7120-7136. -/
@[netlist] def next_lbuff_30 (s : S) (new_row : Bool) (pixel_in_1 : Nat) (rst : Bool) (valid_in : Bool) : Nat :=
  let e1 := if valid_in = true then (if (new_row_latch s new_row) = true then (if s.lbuff_ctr = false then pixel_in_1
      else s.lbuff_30)
    else s.lbuff_30)
  else s.lbuff_30
  if rst = true then 2048
  else e1
/-- beta_integration.v:7137-7153. -/
@[netlist] def next_lbuff_31 (s : S) (new_row : Bool) (pixel_in : Nat) (rst : Bool) (valid_in : Bool) : Nat :=
  let e1 := if valid_in = true then (if (new_row_latch s new_row) = true then (if s.lbuff_ctr = true then pixel_in
      else s.lbuff_31)
    else s.lbuff_31)
  else s.lbuff_31
  if rst = true then 2048
  else e1
/-- beta_integration.v:7154-7170. -/
@[netlist] def next_lbuff_32 (s : S) (new_row : Bool) (pixel_in_1 : Nat) (rst : Bool) (valid_in : Bool) : Nat :=
  let e1 := if valid_in = true then (if (new_row_latch s new_row) = true then (if s.lbuff_ctr = true then pixel_in_1
      else s.lbuff_32)
    else s.lbuff_32)
  else s.lbuff_32
  if rst = true then 2048
  else e1
/-- beta_integration.v:7171-7196. -/
@[netlist] def next_predic_out (s : S) (new_row : Bool) (rst : Bool) (valid_in : Bool) : Nat :=
  let e1 := if valid_in = true then (if (new_row_latch s new_row) = true then (if s.lbuff_ctr = false then s.lbuff
      else if s.lbuff_ctr = true then s.lbuff_31
      else s.predic_out)
    else (if s.buff_ctr = false then s.buff
      else if s.buff_ctr = true then s.buff_25
      else s.predic_out))
  else s.predic_out
  if rst = true then 0
  else e1
/-- beta_integration.v:7197-7222. -/
@[netlist] def next_predic_out_3 (s : S) (new_row : Bool) (rst : Bool) (valid_in : Bool) : Nat :=
  let e1 := if valid_in = true then (if (new_row_latch s new_row) = true then (if s.lbuff_ctr = false then s.lbuff_30
      else if s.lbuff_ctr = true then s.lbuff_32
      else s.predic_out_3)
    else (if s.buff_ctr = false then s.buff_24
      else if s.buff_ctr = true then s.buff_26
      else s.predic_out_3))
  else s.predic_out_3
  if rst = true then 0
  else e1
/-- beta_integration.v:7223-7230. -/
@[netlist] def next_valid_out (s : S) (rst : Bool) (valid_in : Bool) : Bool :=
  if rst = true then false
  else valid_in
/-- beta_integration.v:7231-7238. -/
@[netlist] def next_end_out (s : S) (end_in : Bool) (rst : Bool) : Bool :=
  if rst = true then false
  else end_in
/-- beta_integration.v:7239-7249. -/
@[netlist] def next_debug_counter (s : S) (rst : Bool) (valid_in : Bool) : Nat :=
  let e1 := if valid_in = true then slc (w18 s) 0 32
  else s.debug_counter
  if rst = true then 0
  else e1
/-- beta_integration.v:7250-7260. -/
@[netlist] def next_pixel_out (s : S) (pixel_in : Nat) (rst : Bool) (valid_in : Bool) : Nat :=
  let e1 := if valid_in = true then pixel_in
  else s.pixel_out
  if rst = true then 0
  else e1
/-- beta_integration.v:7261-7271. -/
@[netlist] def next_pixel_out_2 (s : S) (pixel_in_1 : Nat) (rst : Bool) (valid_in : Bool) : Nat :=
  let e1 := if valid_in = true then pixel_in_1
  else s.pixel_out_2
  if rst = true then 0
  else e1
/-- beta_integration.v:7272-7282. -/
@[netlist] def next_buff_ctr (s : S) (rst : Bool) (valid_in : Bool) : Bool :=
  let e1 := if valid_in = true then (w21 s).testBit 0
  else s.buff_ctr
  if rst = true then false
  else e1
/-- beta_integration.v:7283-7296. -/
@[netlist] def next_buff (s : S) (pixel_in : Nat) (rst : Bool) (valid_in : Bool) : Nat :=
  let e1 := if valid_in = true then (if s.buff_ctr = false then pixel_in
    else s.buff)
  else s.buff
  if rst = true then 2048
  else e1
/-- beta_integration.v:7297-7310. -/
@[netlist] def next_buff_24 (s : S) (pixel_in_1 : Nat) (rst : Bool) (valid_in : Bool) : Nat :=
  let e1 := if valid_in = true then (if s.buff_ctr = false then pixel_in_1
    else s.buff_24)
  else s.buff_24
  if rst = true then 2048
  else e1
/-- beta_integration.v:7311-7324. -/
@[netlist] def next_buff_25 (s : S) (pixel_in : Nat) (rst : Bool) (valid_in : Bool) : Nat :=
  let e1 := if valid_in = true then (if s.buff_ctr = true then pixel_in
    else s.buff_25)
  else s.buff_25
  if rst = true then 2048
  else e1
/-- beta_integration.v:7325-7338. -/
@[netlist] def next_buff_26 (s : S) (pixel_in_1 : Nat) (rst : Bool) (valid_in : Bool) : Nat :=
  let e1 := if valid_in = true then (if s.buff_ctr = true then pixel_in_1
    else s.buff_26)
  else s.buff_26
  if rst = true then 2048
  else e1

/-- beta_integration.v:6898-7343: one rising clock edge (`always @(posedge ...)`). -/
@[netlist] def step (s : S) (new_row : Bool) (pixel_in : Nat) (pixel_in_1 : Nat) (end_in : Bool) (rst : Bool) (valid_in : Bool) : S :=
  { end_out := (next_end_out s end_in rst)
    valid_out := (next_valid_out s rst valid_in)
    predic_out_3 := (next_predic_out_3 s new_row rst valid_in)
    predic_out := (next_predic_out s new_row rst valid_in)
    lbuff_32 := (next_lbuff_32 s new_row pixel_in_1 rst valid_in)
    lbuff_31 := (next_lbuff_31 s new_row pixel_in rst valid_in)
    lbuff_30 := (next_lbuff_30 s new_row pixel_in_1 rst valid_in)
    lbuff := (next_lbuff s new_row pixel_in rst valid_in)
    lbuff_ctr := (next_lbuff_ctr s new_row rst valid_in)
    buff_26 := (next_buff_26 s pixel_in_1 rst valid_in)
    buff_25 := (next_buff_25 s pixel_in rst valid_in)
    buff_24 := (next_buff_24 s pixel_in_1 rst valid_in)
    buff := (next_buff s pixel_in rst valid_in)
    buff_ctr := (next_buff_ctr s rst valid_in)
    pixel_out_2 := (next_pixel_out_2 s pixel_in_1 rst valid_in)
    pixel_out := (next_pixel_out s pixel_in rst valid_in)
    debug_counter := (next_debug_counter s rst valid_in)
    new_row_reg := (next_new_row_reg s new_row rst valid_in) }

/-- beta_integration.v:6898-7343: the initial values given in the netlist. -/
def Init (s : S) : Prop :=
  s.end_out = false ∧
  s.valid_out = false ∧
  s.predic_out_3 = 0 ∧
  s.predic_out = 0 ∧
  s.lbuff_32 = 2048 ∧
  s.lbuff_31 = 2048 ∧
  s.lbuff_30 = 2048 ∧
  s.lbuff = 2048 ∧
  s.lbuff_ctr = false ∧
  s.buff_26 = 2048 ∧
  s.buff_25 = 2048 ∧
  s.buff_24 = 2048 ∧
  s.buff = 2048 ∧
  s.buff_ctr = false ∧
  s.pixel_out_2 = 0 ∧
  s.pixel_out = 0 ∧
  s.debug_counter = 0 ∧
  s.new_row_reg = false

/-- beta_integration.v:6898-7343: a state with these initial values; registers without one are 0. -/
def powerUp : S :=
  { end_out := false
    valid_out := false
    predic_out_3 := 0
    predic_out := 0
    lbuff_32 := 2048
    lbuff_31 := 2048
    lbuff_30 := 2048
    lbuff := 2048
    lbuff_ctr := false
    buff_26 := 2048
    buff_25 := 2048
    buff_24 := 2048
    buff := 2048
    buff_ctr := false
    pixel_out_2 := 0
    pixel_out := 0
    debug_counter := 0
    new_row_reg := false }

theorem powerUp_init : Init powerUp := ⟨rfl, rfl, rfl, rfl, rfl, rfl, rfl, rfl, rfl, rfl, rfl, rfl, rfl, rfl, rfl, rfl, rfl, rfl⟩

end predictor

namespace register_file

/-- beta_integration.v:7347-7424: registers, memories and instances of module `register_file`. -/
structure S where
  allowed_cycles_reg : Nat
  height_reg : Nat
  width_reg : Nat

/-- beta_integration.v:7417-7420. -/
@[netlist] def next_allowed_cycles (s : S) : Nat :=
  s.allowed_cycles_reg
/-- beta_integration.v:7421. -/
@[netlist] def allowed_cycles (s : S) : Nat :=
  (next_allowed_cycles s)
/-- beta_integration.v:7413-7416. -/
@[netlist] def next_height (s : S) : Nat :=
  s.height_reg
/-- beta_integration.v:7422. -/
@[netlist] def height (s : S) : Nat :=
  (next_height s)
/-- beta_integration.v:7409-7412. -/
@[netlist] def next_width (s : S) : Nat :=
  s.width_reg
/-- beta_integration.v:7423. -/
@[netlist] def width (s : S) : Nat :=
  (next_width s)
/-- beta_integration.v:7385-7392. -/
@[netlist] def next_width_reg (s : S) (full_rst : Bool) : Nat :=
  if full_rst = true then 0
  else 0x1000
/-- beta_integration.v:7393-7400. -/
@[netlist] def next_height_reg (s : S) (full_rst : Bool) : Nat :=
  if full_rst = true then 0
  else 3072
/-- beta_integration.v:7401-7408. -/
@[netlist] def next_allowed_cycles_reg (s : S) (full_rst : Bool) : Nat :=
  if full_rst = true then 0
  else 0x65b710

/-- beta_integration.v:7347-7424: one rising clock edge (`always @(posedge ...)`). -/
@[netlist] def step (s : S) (full_rst : Bool) : S :=
  { allowed_cycles_reg := (next_allowed_cycles_reg s full_rst)
    height_reg := (next_height_reg s full_rst)
    width_reg := (next_width_reg s full_rst) }

/-- beta_integration.v:7347-7424: the initial values given in the netlist. -/
def Init (s : S) : Prop :=
  s.allowed_cycles_reg = 0 ∧
  s.height_reg = 0 ∧
  s.width_reg = 0

/-- beta_integration.v:7347-7424: a state with these initial values; registers without one are 0. -/
def powerUp : S :=
  { allowed_cycles_reg := 0
    height_reg := 0
    width_reg := 0 }

theorem powerUp_init : Init powerUp := ⟨rfl, rfl, rfl⟩

end register_file

namespace signals

/-- beta_integration.v:7428-7621: registers, memories and instances of module `signals`. -/
structure S where
  end_of_frame : Bool
  fsm_state : Nat
  new_row : Bool
  height_temp : Nat
  width_temp : Nat

/-- beta_integration.v:7483. -/
@[netlist] def w10 (s : S) (height : Nat) : Nat :=
  (2 ^ 17 + height - 1) % 2 ^ 17
/-- beta_integration.v:7484. -/
@[netlist] def w12 (s : S) : Bool :=
  s.width_temp == 2
/-- beta_integration.v:7485. -/
@[netlist] def w15 (s : S) : Nat :=
  (2 ^ 17 + s.height_temp - 1) % 2 ^ 17
/-- beta_integration.v:7486. -/
@[netlist] def w17 (s : S) : Bool :=
  s.width_temp == 2
/-- beta_integration.v:7487. -/
@[netlist] def w19 (s : S) : Bool :=
  s.height_temp == 0
/-- beta_integration.v:7488. -/
@[netlist] def w21 (s : S) : Bool :=
  s.width_temp == 4
/-- beta_integration.v:7489. -/
@[netlist] def w23 (s : S) : Bool :=
  (w19 s) && (w21 s)
/-- beta_integration.v:7490. -/
@[netlist] def w25 (s : S) : Bool :=
  s.height_temp == 0
/-- beta_integration.v:7491. -/
@[netlist] def w27 (s : S) : Bool :=
  s.width_temp == 4
/-- beta_integration.v:7492. -/
@[netlist] def w2 (s : S) (width : Nat) : Nat :=
  (2 ^ 17 + width - 2) % 2 ^ 17
/-- beta_integration.v:7493. -/
@[netlist] def w29 (s : S) : Bool :=
  (w25 s) && (w27 s)
/-- beta_integration.v:7494. -/
@[netlist] def w4 (s : S) : Bool :=
  s.width_temp == 2
/-- beta_integration.v:7495. -/
@[netlist] def w7 (s : S) : Nat :=
  (2 ^ 17 + s.width_temp - 2) % 2 ^ 17
/-- beta_integration.v:7617. -/
@[netlist] def w1 (s : S) (width : Nat) : Nat :=
  (w2 s width)
/-- beta_integration.v:7618. -/
@[netlist] def w6 (s : S) : Nat :=
  (w7 s)
/-- beta_integration.v:7619. -/
@[netlist] def w9 (s : S) (height : Nat) : Nat :=
  (w10 s height)
/-- beta_integration.v:7620. -/
@[netlist] def w14 (s : S) : Nat :=
  (w15 s)
/-- beta_integration.v:7506-7529. -/
@[netlist] def next_width_temp (s : S) (width : Nat) (rst : Bool) (new_input : Bool) : Nat :=
  let e1 := if s.fsm_state = 0 then (if new_input = true then slc (w1 s width) 0 16
    else s.width_temp)
  else if s.fsm_state = 1 then (if new_input = true then (if (w4 s) = true then width
      else slc (w6 s) 0 16)
    else s.width_temp)
  else s.width_temp
  if rst = true then 0
  else e1
/-- beta_integration.v:7530-7551. -/
@[netlist] def next_height_temp (s : S) (height : Nat) (rst : Bool) (new_input : Bool) : Nat :=
  let e1 := if s.fsm_state = 0 then (if new_input = true then slc (w9 s height) 0 16
    else s.height_temp)
  else if s.fsm_state = 1 then (if new_input = true then (if (w12 s) = true then slc (w14 s) 0 16
      else s.height_temp)
    else s.height_temp)
  else s.height_temp
  if rst = true then 0
  else e1
/-- beta_integration.v:7552-7575. -/
@[netlist] def next_new_row (s : S) (rst : Bool) (new_input : Bool) : Bool :=
  let e1 := if s.fsm_state = 0 then (if new_input = true then false
    else s.new_row)
  else if s.fsm_state = 1 then (if new_input = true then (if (w17 s) = true then true
      else false)
    else s.new_row)
  else s.new_row
  if rst = true then true
  else e1
/-- beta_integration.v:7576-7597. -/
@[netlist] def next_fsm_state (s : S) (rst : Bool) (new_input : Bool) : Nat :=
  let e1 := if s.fsm_state = 0 then (if new_input = true then 1
    else s.fsm_state)
  else if s.fsm_state = 1 then (if new_input = true then (if (w23 s) = true then 2
      else s.fsm_state)
    else s.fsm_state)
  else s.fsm_state
  if rst = true then 0
  else e1
/-- beta_integration.v:7598-7616. -/
@[netlist] def next_end_of_frame (s : S) (rst : Bool) (new_input : Bool) : Bool :=
  let e1 := if s.fsm_state = 1 then (if new_input = true then (if (w29 s) = true then true
      else s.end_of_frame)
    else s.end_of_frame)
  else if s.fsm_state = 2 then true
  else s.end_of_frame
  if rst = true then false
  else e1

/-- beta_integration.v:7428-7621: one rising clock edge (`always @(posedge ...)`). -/
@[netlist] def step (s : S) (width : Nat) (height : Nat) (rst : Bool) (new_input : Bool) : S :=
  { end_of_frame := (next_end_of_frame s rst new_input)
    fsm_state := (next_fsm_state s rst new_input)
    new_row := (next_new_row s rst new_input)
    height_temp := (next_height_temp s height rst new_input)
    width_temp := (next_width_temp s width rst new_input) }

/-- beta_integration.v:7428-7621: the initial values given in the netlist. -/
def Init (s : S) : Prop :=
  s.end_of_frame = false ∧
  s.fsm_state = 0 ∧
  s.new_row = true ∧
  s.height_temp = 0 ∧
  s.width_temp = 0

/-- beta_integration.v:7428-7621: a state with these initial values; registers without one are 0. -/
def powerUp : S :=
  { end_of_frame := false
    fsm_state := 0
    new_row := true
    height_temp := 0
    width_temp := 0 }

theorem powerUp_init : Init powerUp := ⟨rfl, rfl, rfl, rfl, rfl⟩

end signals

namespace integration_1

/-- beta_integration.v:4669-5203: registers, memories and instances of module `integration_1`. -/
structure S where
  u_difference : difference.S
  u_encode : encode.S
  u_force_end : force_end.S
  u_merge : merge.S
  u_normalize : normalize.S
  u_predictor : predictor.S
  u_register_file : register_file.S
  u_signals : signals.S

/-- beta_integration.v:4947-4960. -/
@[netlist] def merge_end_out (s : S) : Bool :=
  merge.end_out s.u_merge
/-- beta_integration.v:5136-5139. -/
@[netlist] def next_end_out (s : S) : Bool :=
  (merge_end_out s)
/-- beta_integration.v:5164. -/
@[netlist] def end_out (s : S) : Bool :=
  (next_end_out s)
/-- beta_integration.v:4947-4960. -/
@[netlist] def merge_valid_out (s : S) : Bool :=
  merge.valid_out s.u_merge
/-- beta_integration.v:5132-5135. -/
@[netlist] def next_valid_out (s : S) : Bool :=
  (merge_valid_out s)
/-- beta_integration.v:5165. -/
@[netlist] def valid_out (s : S) : Bool :=
  (next_valid_out s)
/-- beta_integration.v:4947-4960. -/
@[netlist] def merge_enc_out_ctr (s : S) : Nat :=
  merge.enc_out_ctr s.u_merge
/-- beta_integration.v:5128-5131. -/
@[netlist] def next_enc_out_ctr (s : S) : Nat :=
  (merge_enc_out_ctr s)
/-- beta_integration.v:5166. -/
@[netlist] def enc_out_ctr (s : S) : Nat :=
  (next_enc_out_ctr s)
/-- beta_integration.v:4947-4960. -/
@[netlist] def merge_enc_out (s : S) : Nat :=
  merge.enc_out s.u_merge
/-- beta_integration.v:5124-5127. -/
@[netlist] def next_enc_out (s : S) : Nat :=
  (merge_enc_out s)
/-- beta_integration.v:5167. -/
@[netlist] def enc_out (s : S) : Nat :=
  (next_enc_out s)
/-- beta_integration.v:4924-4939. -/
@[netlist] def encode_end_out (s : S) : Bool :=
  encode.end_out s.u_encode
/-- beta_integration.v:5120-5123. -/
@[netlist] def next_merge_end_in (s : S) : Bool :=
  (encode_end_out s)
/-- beta_integration.v:5168. -/
@[netlist] def merge_end_in (s : S) : Bool :=
  (next_merge_end_in s)
/-- beta_integration.v:4924-4939. -/
@[netlist] def encode_valid_out (s : S) : Bool :=
  encode.valid_out s.u_encode
/-- beta_integration.v:5116-5119. -/
@[netlist] def next_merge_valid_in (s : S) : Bool :=
  (encode_valid_out s)
/-- beta_integration.v:5169. -/
@[netlist] def merge_valid_in (s : S) : Bool :=
  (next_merge_valid_in s)
/-- beta_integration.v:4924-4939. -/
@[netlist] def encode_enc_ctr_17 (s : S) : Nat :=
  encode.enc_ctr_4 s.u_encode
/-- beta_integration.v:5112-5115. -/
@[netlist] def next_merge_enc_in_ctr_19 (s : S) : Nat :=
  (encode_enc_ctr_17 s)
/-- beta_integration.v:5170. -/
@[netlist] def merge_enc_in_ctr_19 (s : S) : Nat :=
  (next_merge_enc_in_ctr_19 s)
/-- beta_integration.v:4924-4939. -/
@[netlist] def encode_enc_ctr (s : S) : Nat :=
  encode.enc_ctr s.u_encode
/-- beta_integration.v:5108-5111. -/
@[netlist] def next_merge_enc_in_ctr (s : S) : Nat :=
  (encode_enc_ctr s)
/-- beta_integration.v:5171. -/
@[netlist] def merge_enc_in_ctr (s : S) : Nat :=
  (next_merge_enc_in_ctr s)
/-- beta_integration.v:4924-4939. -/
@[netlist] def encode_enc_out_16 (s : S) : Nat :=
  encode.enc_out_3 s.u_encode
/-- beta_integration.v:5104-5107. -/
@[netlist] def next_merge_enc_in_18 (s : S) : Nat :=
  (encode_enc_out_16 s)
/-- beta_integration.v:5172. -/
@[netlist] def merge_enc_in_18 (s : S) : Nat :=
  (next_merge_enc_in_18 s)
/-- beta_integration.v:4924-4939. -/
@[netlist] def encode_enc_out (s : S) : Nat :=
  encode.enc_out s.u_encode
/-- beta_integration.v:5096-5099. -/
@[netlist] def next_merge_enc_in (s : S) : Nat :=
  (encode_enc_out s)
/-- beta_integration.v:5173. -/
@[netlist] def merge_enc_in (s : S) : Nat :=
  (next_merge_enc_in s)
/-- beta_integration.v:4961-4976. -/
@[netlist] def normalize_end_out (s : S) : Bool :=
  normalize.end_out s.u_normalize
/-- beta_integration.v:5092-5095. -/
@[netlist] def next_encode_end_in (s : S) : Bool :=
  (normalize_end_out s)
/-- beta_integration.v:5174. -/
@[netlist] def encode_end_in (s : S) : Bool :=
  (next_encode_end_in s)
/-- beta_integration.v:4961-4976. -/
@[netlist] def normalize_valid_out (s : S) : Bool :=
  normalize.valid_out s.u_normalize
/-- beta_integration.v:5088-5091. -/
@[netlist] def next_encode_valid_in (s : S) : Bool :=
  (normalize_valid_out s)
/-- beta_integration.v:5175. -/
@[netlist] def encode_valid_in (s : S) : Bool :=
  (next_encode_valid_in s)
/-- beta_integration.v:4961-4976. -/
@[netlist] def normalize_ssss_12 (s : S) : Nat :=
  normalize.ssss_3 s.u_normalize
/-- beta_integration.v:5084-5087. -/
@[netlist] def next_encode_ssss_15 (s : S) : Nat :=
  (normalize_ssss_12 s)
/-- beta_integration.v:5176. -/
@[netlist] def encode_ssss_15 (s : S) : Nat :=
  (next_encode_ssss_15 s)
/-- beta_integration.v:4961-4976. -/
@[netlist] def normalize_ssss (s : S) : Nat :=
  normalize.ssss s.u_normalize
/-- beta_integration.v:5080-5083. -/
@[netlist] def next_encode_ssss (s : S) : Nat :=
  (normalize_ssss s)
/-- beta_integration.v:5177. -/
@[netlist] def encode_ssss (s : S) : Nat :=
  (next_encode_ssss s)
/-- beta_integration.v:4961-4976. -/
@[netlist] def normalize_val_out_13 (s : S) : Nat :=
  normalize.val_out_4 s.u_normalize
/-- beta_integration.v:5076-5079. -/
@[netlist] def next_encode_val_in_14 (s : S) : Nat :=
  (normalize_val_out_13 s)
/-- beta_integration.v:5178. -/
@[netlist] def encode_val_in_14 (s : S) : Nat :=
  (next_encode_val_in_14 s)
/-- beta_integration.v:4961-4976. -/
@[netlist] def normalize_val_out (s : S) : Nat :=
  normalize.val_out s.u_normalize
/-- beta_integration.v:5072-5075. -/
@[netlist] def next_encode_val_in (s : S) : Nat :=
  (normalize_val_out s)
/-- beta_integration.v:5179. -/
@[netlist] def encode_val_in (s : S) : Nat :=
  (next_encode_val_in s)
/-- beta_integration.v:4908-4923. -/
@[netlist] def difference_end_out (s : S) : Bool :=
  s.u_difference.end_out
/-- beta_integration.v:5068-5071. -/
@[netlist] def next_normalize_end_in (s : S) : Bool :=
  (difference_end_out s)
/-- beta_integration.v:5180. -/
@[netlist] def normalize_end_in (s : S) : Bool :=
  (next_normalize_end_in s)
/-- beta_integration.v:4908-4923. -/
@[netlist] def difference_valid_out (s : S) : Bool :=
  s.u_difference.valid_out
/-- beta_integration.v:5064-5067. -/
@[netlist] def next_normalize_valid_in (s : S) : Bool :=
  (difference_valid_out s)
/-- beta_integration.v:5181. -/
@[netlist] def normalize_valid_in (s : S) : Bool :=
  (next_normalize_valid_in s)
/-- beta_integration.v:4908-4923. -/
@[netlist] def difference_val_out_9 (s : S) : Nat :=
  s.u_difference.val_out_5
/-- beta_integration.v:5060-5063. -/
@[netlist] def next_normalize_vals_in_mns_11 (s : S) : Nat :=
  (difference_val_out_9 s)
/-- beta_integration.v:5182. -/
@[netlist] def normalize_vals_in_mns_11 (s : S) : Nat :=
  (next_normalize_vals_in_mns_11 s)
/-- beta_integration.v:4908-4923. -/
@[netlist] def difference_val_out_8 (s : S) : Nat :=
  s.u_difference.val_out_4
/-- beta_integration.v:5052-5055. -/
@[netlist] def next_normalize_vals_in_mns (s : S) : Nat :=
  (difference_val_out_8 s)
/-- beta_integration.v:5183. -/
@[netlist] def normalize_vals_in_mns (s : S) : Nat :=
  (next_normalize_vals_in_mns s)
/-- beta_integration.v:4908-4923. -/
@[netlist] def difference_val_out_7 (s : S) : Nat :=
  s.u_difference.val_out_3
/-- beta_integration.v:5048-5051. -/
@[netlist] def next_normalize_val_in_10 (s : S) : Nat :=
  (difference_val_out_7 s)
/-- beta_integration.v:5184. -/
@[netlist] def normalize_val_in_10 (s : S) : Nat :=
  (next_normalize_val_in_10 s)
/-- beta_integration.v:4908-4923. -/
@[netlist] def difference_val_out (s : S) : Nat :=
  s.u_difference.val_out
/-- beta_integration.v:5044-5047. -/
@[netlist] def next_normalize_val_in (s : S) : Nat :=
  (difference_val_out s)
/-- beta_integration.v:5185. -/
@[netlist] def normalize_val_in (s : S) : Nat :=
  (next_normalize_val_in s)
/-- beta_integration.v:4977-4991. -/
@[netlist] def predictor_end_out (s : S) : Bool :=
  s.u_predictor.end_out
/-- beta_integration.v:5040-5043. -/
@[netlist] def next_difference_end_in (s : S) : Bool :=
  (predictor_end_out s)
/-- beta_integration.v:5186. -/
@[netlist] def difference_end_in (s : S) : Bool :=
  (next_difference_end_in s)
/-- beta_integration.v:4977-4991. -/
@[netlist] def predictor_valid_out (s : S) : Bool :=
  s.u_predictor.valid_out
/-- beta_integration.v:5036-5039. -/
@[netlist] def next_difference_valid_in (s : S) : Bool :=
  (predictor_valid_out s)
/-- beta_integration.v:5187. -/
@[netlist] def difference_valid_in (s : S) : Bool :=
  (next_difference_valid_in s)
/-- beta_integration.v:4977-4991. -/
@[netlist] def predictor_predic_out_4 (s : S) : Nat :=
  s.u_predictor.predic_out_3
/-- beta_integration.v:5032-5035. -/
@[netlist] def next_difference_predic_in_6 (s : S) : Nat :=
  (predictor_predic_out_4 s)
/-- beta_integration.v:5188. -/
@[netlist] def difference_predic_in_6 (s : S) : Nat :=
  (next_difference_predic_in_6 s)
/-- beta_integration.v:4977-4991. -/
@[netlist] def predictor_predic_out (s : S) : Nat :=
  s.u_predictor.predic_out
/-- beta_integration.v:5028-5031. -/
@[netlist] def next_difference_predic_in (s : S) : Nat :=
  (predictor_predic_out s)
/-- beta_integration.v:5189. -/
@[netlist] def difference_predic_in (s : S) : Nat :=
  (next_difference_predic_in s)
/-- beta_integration.v:4977-4991. -/
@[netlist] def predictor_pixel_out_3 (s : S) : Nat :=
  s.u_predictor.pixel_out_2
/-- beta_integration.v:5024-5027. -/
@[netlist] def next_difference_pixel_in_5 (s : S) : Nat :=
  (predictor_pixel_out_3 s)
/-- beta_integration.v:5190. -/
@[netlist] def difference_pixel_in_5 (s : S) : Nat :=
  (next_difference_pixel_in_5 s)
/-- beta_integration.v:4977-4991. -/
@[netlist] def predictor_pixel_out (s : S) : Nat :=
  s.u_predictor.pixel_out
/-- beta_integration.v:5020-5023. -/
@[netlist] def next_difference_pixel_in (s : S) : Nat :=
  (predictor_pixel_out s)
/-- beta_integration.v:5191. -/
@[netlist] def difference_pixel_in (s : S) : Nat :=
  (next_difference_pixel_in s)
/-- beta_integration.v:5016-5019. -/
@[netlist] def next_predictor_valid_in (s : S) (valid_in : Bool) : Bool :=
  valid_in
/-- beta_integration.v:5192. -/
@[netlist] def predictor_valid_in (s : S) (valid_in : Bool) : Bool :=
  (next_predictor_valid_in s valid_in)
/-- beta_integration.v:4999-5007. -/
@[netlist] def end_of_frame (s : S) : Bool :=
  s.u_signals.end_of_frame
/-- beta_integration.v:5160-5163. -/
@[netlist] def next_predictor_end_in (s : S) : Bool :=
  (end_of_frame s)
/-- beta_integration.v:5193. -/
@[netlist] def predictor_end_in (s : S) : Bool :=
  (next_predictor_end_in s)
/-- beta_integration.v:4999-5007. -/
@[netlist] def signals_new_row (s : S) : Bool :=
  s.u_signals.new_row
/-- beta_integration.v:5156-5159. -/
@[netlist] def next_predictor_new_row (s : S) : Bool :=
  (signals_new_row s)
/-- beta_integration.v:5194. -/
@[netlist] def predictor_new_row (s : S) : Bool :=
  (next_predictor_new_row s)
/-- beta_integration.v:5152-5155. -/
@[netlist] def next_predictor_pixel_in_2 (s : S) (pixel_in_1 : Nat) : Nat :=
  pixel_in_1
/-- beta_integration.v:5195. -/
@[netlist] def predictor_pixel_in_2 (s : S) (pixel_in_1 : Nat) : Nat :=
  (next_predictor_pixel_in_2 s pixel_in_1)
/-- beta_integration.v:5148-5151. -/
@[netlist] def next_predictor_pixel_in (s : S) (pixel_in : Nat) : Nat :=
  pixel_in
/-- beta_integration.v:5196. -/
@[netlist] def predictor_pixel_in (s : S) (pixel_in : Nat) : Nat :=
  (next_predictor_pixel_in s pixel_in)
/-- beta_integration.v:5144-5147. -/
@[netlist] def next_signals_new_input (s : S) (valid_in : Bool) : Bool :=
  valid_in
/-- beta_integration.v:5197. -/
@[netlist] def signals_new_input (s : S) (valid_in : Bool) : Bool :=
  (next_signals_new_input s valid_in)
/-- beta_integration.v:4940-4946. -/
@[netlist] def force_end_fend (s : S) : Bool :=
  s.u_force_end.fend
/-- beta_integration.v:5140-5143. -/
@[netlist] def next_fend_out (s : S) : Bool :=
  (force_end_fend s)
/-- beta_integration.v:5198. -/
@[netlist] def fend_out (s : S) : Bool :=
  (next_fend_out s)
/-- beta_integration.v:5100-5103. -/
@[netlist] def next_force_end_valid_in (s : S) (valid_in : Bool) : Bool :=
  valid_in
/-- beta_integration.v:5199. -/
@[netlist] def force_end_valid_in (s : S) (valid_in : Bool) : Bool :=
  (next_force_end_valid_in s valid_in)
/-- beta_integration.v:4992-4998. -/
@[netlist] def register_file_allowed_cycles (s : S) : Nat :=
  register_file.allowed_cycles s.u_register_file
/-- beta_integration.v:5056-5059. -/
@[netlist] def next_force_end_allowed_cycles (s : S) : Nat :=
  (register_file_allowed_cycles s)
/-- beta_integration.v:5200. -/
@[netlist] def force_end_allowed_cycles (s : S) : Nat :=
  (next_force_end_allowed_cycles s)
/-- beta_integration.v:4992-4998. -/
@[netlist] def register_file_width (s : S) : Nat :=
  register_file.width s.u_register_file
/-- beta_integration.v:5012-5015. -/
@[netlist] def next_signals_width (s : S) : Nat :=
  (register_file_width s)
/-- beta_integration.v:5201. -/
@[netlist] def signals_width (s : S) : Nat :=
  (next_signals_width s)
/-- beta_integration.v:4992-4998. -/
@[netlist] def register_file_height (s : S) : Nat :=
  register_file.height s.u_register_file
/-- beta_integration.v:5008-5011. -/
@[netlist] def next_signals_height (s : S) : Nat :=
  (register_file_height s)
/-- beta_integration.v:5202. -/
@[netlist] def signals_height (s : S) : Nat :=
  (next_signals_height s)

/-- beta_integration.v:4669-5203: one rising clock edge (`always @(posedge ...)`). -/
@[netlist] def step (s : S) (pixel_in : Nat) (pixel_in_1 : Nat) (rst : Bool) (full_rst : Bool) (valid_in : Bool) : S :=
  { u_difference := difference.step s.u_difference (difference_pixel_in s) (difference_predic_in s) (difference_pixel_in_5 s) (difference_predic_in_6 s) (difference_end_in s) rst (difference_valid_in s)
    u_encode := encode.step s.u_encode (encode_end_in s) (encode_valid_in s) (encode_ssss s) (encode_val_in_14 s) (encode_ssss_15 s) rst (encode_val_in s)
    u_force_end := force_end.step s.u_force_end (force_end_allowed_cycles s) rst (force_end_valid_in s valid_in)
    u_merge := merge.step s.u_merge (merge_enc_in_ctr s) (merge_valid_in s) (merge_end_in s) (merge_enc_in_18 s) (merge_enc_in_ctr_19 s) rst (merge_enc_in s)
    u_normalize := normalize.step s.u_normalize (normalize_valid_in s) (normalize_end_in s) (normalize_vals_in_mns s) (normalize_val_in_10 s) (normalize_vals_in_mns_11 s) rst (normalize_val_in s)
    u_predictor := predictor.step s.u_predictor (predictor_new_row s) (predictor_pixel_in s pixel_in) (predictor_pixel_in_2 s pixel_in_1) (predictor_end_in s) rst (predictor_valid_in s valid_in)
    u_register_file := register_file.step s.u_register_file full_rst
    u_signals := signals.step s.u_signals (signals_width s) (signals_height s) rst (signals_new_input s valid_in) }

/-- beta_integration.v:4669-5203: the initial values given in the netlist. -/
def Init (s : S) : Prop :=
  difference.Init s.u_difference ∧
  encode.Init s.u_encode ∧
  force_end.Init s.u_force_end ∧
  merge.Init s.u_merge ∧
  normalize.Init s.u_normalize ∧
  predictor.Init s.u_predictor ∧
  register_file.Init s.u_register_file ∧
  signals.Init s.u_signals

/-- beta_integration.v:4669-5203: a state with these initial values; registers without one are 0. -/
def powerUp : S :=
  { u_difference := difference.powerUp
    u_encode := encode.powerUp
    u_force_end := force_end.powerUp
    u_merge := merge.powerUp
    u_normalize := normalize.powerUp
    u_predictor := predictor.powerUp
    u_register_file := register_file.powerUp
    u_signals := signals.powerUp }

theorem powerUp_init : Init powerUp := ⟨difference.powerUp_init, encode.powerUp_init, force_end.powerUp_init, merge.powerUp_init, normalize.powerUp_init, predictor.powerUp_init, register_file.powerUp_init, signals.powerUp_init⟩

end integration_1

namespace lj92_pipeline_fifo

/-- beta_integration.v:5861-5973: registers, memories and instances of module `lj92_pipeline_fifo`. -/
structure S where
  close_full : Bool
  u_fifo : fifo.S

/-- beta_integration.v:5920-5929. -/
@[netlist] def fifo_level (s : S) : Nat :=
  fifo.level s.u_fifo
/-- beta_integration.v:5917. -/
@[netlist] def w1 (s : S) : Bool :=
  decide ((fifo_level s) ≥ 502)
/-- beta_integration.v:5954-5957. -/
@[netlist] def next_fifo_re (s : S) (latch_output : Bool) : Bool :=
  latch_output
/-- beta_integration.v:5966. -/
@[netlist] def fifo_re (s : S) (latch_output : Bool) : Bool :=
  (next_fifo_re s latch_output)
/-- beta_integration.v:5920-5929. -/
@[netlist] def fifo_dout (s : S) : Nat :=
  fifo.dout s.u_fifo
/-- beta_integration.v:5950-5953. -/
@[netlist] def next_out_end (s : S) : Bool :=
  (fifo_dout s).testBit 62
/-- beta_integration.v:5967. -/
@[netlist] def out_end (s : S) : Bool :=
  (next_out_end s)
/-- beta_integration.v:5946-5949. -/
@[netlist] def next_enc_out_ctr (s : S) : Nat :=
  slc (fifo_dout s) 56 6
/-- beta_integration.v:5968. -/
@[netlist] def enc_out_ctr (s : S) : Nat :=
  (next_enc_out_ctr s)
/-- beta_integration.v:5942-5945. -/
@[netlist] def next_enc_out (s : S) : Nat :=
  slc (fifo_dout s) 0 56
/-- beta_integration.v:5969. -/
@[netlist] def enc_out (s : S) : Nat :=
  (next_enc_out s)
/-- beta_integration.v:5920-5929. -/
@[netlist] def fifo_readable (s : S) : Bool :=
  s.u_fifo.readable
/-- beta_integration.v:5938-5941. -/
@[netlist] def next_valid_out (s : S) : Bool :=
  (fifo_readable s)
/-- beta_integration.v:5970. -/
@[netlist] def valid_out (s : S) : Bool :=
  (next_valid_out s)
/-- beta_integration.v:5934-5937. -/
@[netlist] def next_fifo_din (s : S) (enc_in : Nat) (enc_in_ctr : Nat) (in_end : Bool) : Nat :=
  in_end.toNat * 2 ^ 62 + enc_in_ctr * 2 ^ 56 + enc_in
/-- beta_integration.v:5971. -/
@[netlist] def fifo_din (s : S) (enc_in : Nat) (enc_in_ctr : Nat) (in_end : Bool) : Nat :=
  (next_fifo_din s enc_in enc_in_ctr in_end)
/-- beta_integration.v:5930-5933. -/
@[netlist] def next_fifo_we (s : S) (valid_in : Bool) : Bool :=
  valid_in
/-- beta_integration.v:5972. -/
@[netlist] def fifo_we (s : S) (valid_in : Bool) : Bool :=
  (next_fifo_we s valid_in)
/-- beta_integration.v:5958-5965. -/
@[netlist] def next_close_full (s : S) (rst : Bool) : Bool :=
  let e1 := (w1 s)
  if rst = true then false
  else e1

/-- beta_integration.v:5861-5973: one rising clock edge (`always @(posedge ...)`). -/
@[netlist] def step (s : S) (enc_in : Nat) (enc_in_ctr : Nat) (in_end : Bool) (latch_output : Bool) (rst : Bool) (valid_in : Bool) : S :=
  { close_full := (next_close_full s rst)
    u_fifo := fifo.step s.u_fifo (fifo_we s valid_in) (fifo_re s latch_output) rst (fifo_din s enc_in enc_in_ctr in_end) }

/-- beta_integration.v:5861-5973: the initial values given in the netlist. -/
def Init (s : S) : Prop :=
  s.close_full = false ∧
  fifo.Init s.u_fifo

/-- beta_integration.v:5861-5973: a state with these initial values; registers without one are 0. -/
def powerUp : S :=
  { close_full := false
    u_fifo := fifo.powerUp }

theorem powerUp_init : Init powerUp := ⟨rfl, fifo.powerUp_init⟩

end lj92_pipeline_fifo

namespace integration_2

/-- beta_integration.v:5207-5670: registers, memories and instances of module `integration_2`. -/
structure S where
  nready_reset : Bool
  nready_reset_counter : Nat
  nready_end_reg : Bool
  nready_end : Bool
  u_converter : converter.S
  u_converter_fifo : converter_fifo.S
  u_integration_1 : integration_1.S
  u_lj92_pipeline_fifo : lj92_pipeline_fifo.S

/-- beta_integration.v:5488-5501. -/
@[netlist] def lj92_pipeline_fifo_close_full (s : S) : Bool :=
  s.u_lj92_pipeline_fifo.close_full
/-- beta_integration.v:5424. -/
@[netlist] def w34 (s : S) : Bool :=
  (lj92_pipeline_fifo_close_full s) == true
/-- beta_integration.v:5425. -/
@[netlist] def w36 (s : S) : Bool :=
  s.nready_end == true
/-- beta_integration.v:5426. -/
@[netlist] def w38 (s : S) : Bool :=
  (w34 s) || (w36 s)
/-- beta_integration.v:5428. -/
@[netlist] def w40 (s : S) : Bool :=
  s.nready_reset == false
/-- beta_integration.v:5429. -/
@[netlist] def w42 (s : S) : Bool :=
  (w38 s) || (w40 s)
/-- beta_integration.v:5624-5627. -/
@[netlist] def next_nready_signal (s : S) : Bool :=
  (w42 s)
/-- beta_integration.v:5668. -/
@[netlist] def nready_signal (s : S) : Bool :=
  (next_nready_signal s)
/-- beta_integration.v:5530-5533. -/
@[netlist] def next_nready (s : S) : Bool :=
  (nready_signal s)
/-- beta_integration.v:5660. -/
@[netlist] def nready (s : S) : Bool :=
  (next_nready s)
/-- beta_integration.v:5412. -/
@[netlist] def w9 (s : S) : Bool :=
  (nready s) == false
/-- beta_integration.v:5473-5487. -/
@[netlist] def integration_1_end_of_frame (s : S) : Bool :=
  integration_1.end_of_frame s.u_integration_1
/-- beta_integration.v:5427. -/
@[netlist] def w3 (s : S) : Bool :=
  (integration_1_end_of_frame s) == true
/-- beta_integration.v:5435. -/
@[netlist] def w5 (s : S) (valid_in : Bool) : Bool :=
  valid_in == true
/-- beta_integration.v:5436. -/
@[netlist] def w7 (s : S) (valid_in : Bool) : Bool :=
  (w3 s) && (w5 s valid_in)
/-- beta_integration.v:5413. -/
@[netlist] def w11 (s : S) (valid_in : Bool) : Bool :=
  (w7 s valid_in) && (w9 s)
/-- beta_integration.v:5502-5509. -/
@[netlist] def next_nready_end_wire (s : S) (valid_in : Bool) : Bool :=
  if (w11 s valid_in) = true then true
  else false
/-- beta_integration.v:5669. -/
@[netlist] def nready_end_wire (s : S) (valid_in : Bool) : Bool :=
  (next_nready_end_wire s valid_in)
/-- beta_integration.v:5414. -/
@[netlist] def w13 (s : S) (valid_in : Bool) : Bool :=
  (nready_end_wire s valid_in) == true
/-- beta_integration.v:5415. -/
@[netlist] def w15 (s : S) : Bool :=
  s.nready_end_reg == true
/-- beta_integration.v:5416. -/
@[netlist] def w17 (s : S) (valid_in : Bool) : Bool :=
  (w13 s valid_in) || (w15 s)
/-- beta_integration.v:5417. -/
@[netlist] def w19 (s : S) : Bool :=
  (integration_1_end_of_frame s) == true
/-- beta_integration.v:5418. -/
@[netlist] def w21 (s : S) (valid_in : Bool) : Bool :=
  valid_in == true
/-- beta_integration.v:5419. -/
@[netlist] def w23 (s : S) (valid_in : Bool) : Bool :=
  (w19 s) && (w21 s valid_in)
/-- beta_integration.v:5420. -/
@[netlist] def w25 (s : S) : Bool :=
  (nready s) == false
/-- beta_integration.v:5421. -/
@[netlist] def w27 (s : S) (valid_in : Bool) : Bool :=
  (w23 s valid_in) && (w25 s)
/-- beta_integration.v:5422. -/
@[netlist] def w30 (s : S) : Nat :=
  (s.nready_reset_counter + 1) % 2 ^ 4
/-- beta_integration.v:5423. -/
@[netlist] def w32 (s : S) : Bool :=
  s.nready_reset_counter == 7
/-- beta_integration.v:5430. -/
@[netlist] def w44 (s : S) (valid_in : Bool) : Bool :=
  valid_in == true
/-- beta_integration.v:5431. -/
@[netlist] def w46 (s : S) : Bool :=
  (nready_signal s) == false
/-- beta_integration.v:5432. -/
@[netlist] def w48 (s : S) (valid_in : Bool) : Bool :=
  (w44 s valid_in) && (w46 s)
/-- beta_integration.v:5459-5472. -/
@[netlist] def converter_fifo_enc_out (s : S) : Nat :=
  converter_fifo.enc_out s.u_converter_fifo
/-- beta_integration.v:5433. -/
@[netlist] def w50 (s : S) : Nat :=
  (converter_fifo_enc_out s)
/-- beta_integration.v:5459-5472. -/
@[netlist] def converter_fifo_enc_out_ctr (s : S) : Nat :=
  converter_fifo.enc_out_ctr s.u_converter_fifo
/-- beta_integration.v:5434. -/
@[netlist] def w52 (s : S) : Nat :=
  (converter_fifo_enc_out_ctr s)
/-- beta_integration.v:5644. -/
@[netlist] def w29 (s : S) : Nat :=
  (w30 s)
/-- beta_integration.v:5601-5604. -/
@[netlist] def next_converter_fifo_latch_output (s : S) (latch_output : Bool) : Bool :=
  latch_output
/-- beta_integration.v:5645. -/
@[netlist] def converter_fifo_latch_output (s : S) (latch_output : Bool) : Bool :=
  (next_converter_fifo_latch_output s latch_output)
/-- beta_integration.v:5459-5472. -/
@[netlist] def converter_fifo_out_end (s : S) : Bool :=
  converter_fifo.out_end s.u_converter_fifo
/-- beta_integration.v:5597-5600. -/
@[netlist] def next_out_end (s : S) : Bool :=
  (converter_fifo_out_end s)
/-- beta_integration.v:5646. -/
@[netlist] def out_end (s : S) : Bool :=
  (next_out_end s)
/-- beta_integration.v:5459-5472. -/
@[netlist] def converter_fifo_valid_out (s : S) : Bool :=
  converter_fifo.valid_out s.u_converter_fifo
/-- beta_integration.v:5593-5596. -/
@[netlist] def next_valid_out (s : S) : Bool :=
  (converter_fifo_valid_out s)
/-- beta_integration.v:5647. -/
@[netlist] def valid_out (s : S) : Bool :=
  (next_valid_out s)
/-- beta_integration.v:5589-5592. -/
@[netlist] def next_enc_out_ctr (s : S) : Nat :=
  (w52 s)
/-- beta_integration.v:5648. -/
@[netlist] def enc_out_ctr (s : S) : Nat :=
  (next_enc_out_ctr s)
/-- beta_integration.v:5585-5588. -/
@[netlist] def next_enc_out (s : S) : Nat :=
  (w50 s)
/-- beta_integration.v:5649. -/
@[netlist] def enc_out (s : S) : Nat :=
  (next_enc_out s)
/-- beta_integration.v:5459-5472. -/
@[netlist] def converter_fifo_close_full (s : S) : Bool :=
  s.u_converter_fifo.close_full
/-- beta_integration.v:5581-5584. -/
@[netlist] def next_converter_close_full (s : S) : Bool :=
  (converter_fifo_close_full s)
/-- beta_integration.v:5650. -/
@[netlist] def converter_close_full (s : S) : Bool :=
  (next_converter_close_full s)
/-- beta_integration.v:5445-5458. -/
@[netlist] def converter_valid_in (s : S) : Bool :=
  s.u_converter.valid_in
/-- beta_integration.v:5577-5580. -/
@[netlist] def next_converter_fifo_valid_in (s : S) : Bool :=
  (converter_valid_in s)
/-- beta_integration.v:5651. -/
@[netlist] def converter_fifo_valid_in (s : S) : Bool :=
  (next_converter_fifo_valid_in s)
/-- beta_integration.v:5445-5458. -/
@[netlist] def converter_in_end (s : S) : Bool :=
  s.u_converter.in_end
/-- beta_integration.v:5573-5576. -/
@[netlist] def next_converter_fifo_in_end (s : S) : Bool :=
  (converter_in_end s)
/-- beta_integration.v:5652. -/
@[netlist] def converter_fifo_in_end (s : S) : Bool :=
  (next_converter_fifo_in_end s)
/-- beta_integration.v:5445-5458. -/
@[netlist] def converter_enc_in_ctr (s : S) : Nat :=
  s.u_converter.enc_in_ctr
/-- beta_integration.v:5569-5572. -/
@[netlist] def next_converter_fifo_enc_in_ctr (s : S) : Nat :=
  (converter_enc_in_ctr s)
/-- beta_integration.v:5653. -/
@[netlist] def converter_fifo_enc_in_ctr (s : S) : Nat :=
  (next_converter_fifo_enc_in_ctr s)
/-- beta_integration.v:5445-5458. -/
@[netlist] def converter_enc_in (s : S) : Nat :=
  s.u_converter.enc_in
/-- beta_integration.v:5554-5557. -/
@[netlist] def next_converter_fifo_enc_in (s : S) : Nat :=
  (converter_enc_in s)
/-- beta_integration.v:5654. -/
@[netlist] def converter_fifo_enc_in (s : S) : Nat :=
  (next_converter_fifo_enc_in s)
/-- beta_integration.v:5488-5501. -/
@[netlist] def lj92_pipeline_fifo_valid_out (s : S) : Bool :=
  lj92_pipeline_fifo.valid_out s.u_lj92_pipeline_fifo
/-- beta_integration.v:5550-5553. -/
@[netlist] def next_converter_valid_out (s : S) : Bool :=
  (lj92_pipeline_fifo_valid_out s)
/-- beta_integration.v:5655. -/
@[netlist] def converter_valid_out (s : S) : Bool :=
  (next_converter_valid_out s)
/-- beta_integration.v:5488-5501. -/
@[netlist] def lj92_pipeline_fifo_out_end (s : S) : Bool :=
  lj92_pipeline_fifo.out_end s.u_lj92_pipeline_fifo
/-- beta_integration.v:5546-5549. -/
@[netlist] def next_converter_out_end (s : S) : Bool :=
  (lj92_pipeline_fifo_out_end s)
/-- beta_integration.v:5656. -/
@[netlist] def converter_out_end (s : S) : Bool :=
  (next_converter_out_end s)
/-- beta_integration.v:5488-5501. -/
@[netlist] def lj92_pipeline_fifo_enc_out_ctr (s : S) : Nat :=
  lj92_pipeline_fifo.enc_out_ctr s.u_lj92_pipeline_fifo
/-- beta_integration.v:5542-5545. -/
@[netlist] def next_converter_enc_out_ctr (s : S) : Nat :=
  (lj92_pipeline_fifo_enc_out_ctr s)
/-- beta_integration.v:5657. -/
@[netlist] def converter_enc_out_ctr (s : S) : Nat :=
  (next_converter_enc_out_ctr s)
/-- beta_integration.v:5488-5501. -/
@[netlist] def lj92_pipeline_fifo_enc_out (s : S) : Nat :=
  lj92_pipeline_fifo.enc_out s.u_lj92_pipeline_fifo
/-- beta_integration.v:5538-5541. -/
@[netlist] def next_converter_enc_out (s : S) : Nat :=
  (lj92_pipeline_fifo_enc_out s)
/-- beta_integration.v:5658. -/
@[netlist] def converter_enc_out (s : S) : Nat :=
  (next_converter_enc_out s)
/-- beta_integration.v:5445-5458. -/
@[netlist] def converter_latch_output (s : S) : Bool :=
  s.u_converter.latch_output
/-- beta_integration.v:5534-5537. -/
@[netlist] def next_lj92_pipeline_fifo_latch_output (s : S) : Bool :=
  (converter_latch_output s)
/-- beta_integration.v:5659. -/
@[netlist] def lj92_pipeline_fifo_latch_output (s : S) : Bool :=
  (next_lj92_pipeline_fifo_latch_output s)
/-- beta_integration.v:5473-5487. -/
@[netlist] def integration_1_end_out (s : S) : Bool :=
  integration_1.end_out s.u_integration_1
/-- beta_integration.v:5526-5529. -/
@[netlist] def next_lj92_pipeline_fifo_in_end (s : S) : Bool :=
  (integration_1_end_out s)
/-- beta_integration.v:5661. -/
@[netlist] def lj92_pipeline_fifo_in_end (s : S) : Bool :=
  (next_lj92_pipeline_fifo_in_end s)
/-- beta_integration.v:5473-5487. -/
@[netlist] def integration_1_valid_out (s : S) : Bool :=
  integration_1.valid_out s.u_integration_1
/-- beta_integration.v:5522-5525. -/
@[netlist] def next_lj92_pipeline_fifo_valid_in (s : S) : Bool :=
  (integration_1_valid_out s)
/-- beta_integration.v:5662. -/
@[netlist] def lj92_pipeline_fifo_valid_in (s : S) : Bool :=
  (next_lj92_pipeline_fifo_valid_in s)
/-- beta_integration.v:5473-5487. -/
@[netlist] def integration_1_enc_out_ctr (s : S) : Nat :=
  integration_1.enc_out_ctr s.u_integration_1
/-- beta_integration.v:5518-5521. -/
@[netlist] def next_lj92_pipeline_fifo_enc_in_ctr (s : S) : Nat :=
  (integration_1_enc_out_ctr s)
/-- beta_integration.v:5663. -/
@[netlist] def lj92_pipeline_fifo_enc_in_ctr (s : S) : Nat :=
  (next_lj92_pipeline_fifo_enc_in_ctr s)
/-- beta_integration.v:5473-5487. -/
@[netlist] def integration_1_enc_out (s : S) : Nat :=
  integration_1.enc_out s.u_integration_1
/-- beta_integration.v:5640-5643. -/
@[netlist] def next_lj92_pipeline_fifo_enc_in (s : S) : Nat :=
  (integration_1_enc_out s)
/-- beta_integration.v:5664. -/
@[netlist] def lj92_pipeline_fifo_enc_in (s : S) : Nat :=
  (next_lj92_pipeline_fifo_enc_in s)
/-- beta_integration.v:5636-5639. -/
@[netlist] def next_integration_1_valid_in (s : S) (valid_in : Bool) : Bool :=
  (w48 s valid_in)
/-- beta_integration.v:5665. -/
@[netlist] def integration_1_valid_in (s : S) (valid_in : Bool) : Bool :=
  (next_integration_1_valid_in s valid_in)
/-- beta_integration.v:5632-5635. -/
@[netlist] def next_integration_1_pixel_in_2 (s : S) (pixel_in_1 : Nat) : Nat :=
  pixel_in_1
/-- beta_integration.v:5666. -/
@[netlist] def integration_1_pixel_in_2 (s : S) (pixel_in_1 : Nat) : Nat :=
  (next_integration_1_pixel_in_2 s pixel_in_1)
/-- beta_integration.v:5628-5631. -/
@[netlist] def next_integration_1_pixel_in (s : S) (pixel_in : Nat) : Nat :=
  pixel_in
/-- beta_integration.v:5667. -/
@[netlist] def integration_1_pixel_in (s : S) (pixel_in : Nat) : Nat :=
  (next_integration_1_pixel_in s pixel_in)
/-- beta_integration.v:5510-5517. -/
@[netlist] def next_nready_end (s : S) (rst : Bool) (valid_in : Bool) : Bool :=
  let e1 := (w17 s valid_in)
  if rst = true then false
  else e1
/-- beta_integration.v:5558-5568. -/
@[netlist] def next_nready_end_reg (s : S) (rst : Bool) (valid_in : Bool) : Bool :=
  let e1 := if (w27 s valid_in) = true then true
  else s.nready_end_reg
  if rst = true then false
  else e1
/-- beta_integration.v:5605-5612. -/
@[netlist] def next_nready_reset_counter (s : S) (rst : Bool) : Nat :=
  let e1 := slc (w29 s) 0 3
  if rst = true then 0
  else e1
/-- beta_integration.v:5613-5623. -/
@[netlist] def next_nready_reset (s : S) (rst : Bool) : Bool :=
  let e1 := if (w32 s) = true then true
  else s.nready_reset
  if rst = true then false
  else e1
/-- beta_integration.v:5473-5487. -/
@[netlist] def fend_out (s : S) : Bool :=
  integration_1.fend_out s.u_integration_1

/-- beta_integration.v:5207-5670: one rising clock edge (`always @(posedge ...)`). -/
@[netlist] def step (s : S) (pixel_in : Nat) (pixel_in_1 : Nat) (latch_output : Bool) (rst : Bool) (full_rst : Bool) (valid_in : Bool) : S :=
  { nready_reset := (next_nready_reset s rst)
    nready_reset_counter := (next_nready_reset_counter s rst)
    nready_end_reg := (next_nready_end_reg s rst valid_in)
    nready_end := (next_nready_end s rst valid_in)
    u_converter := converter.step s.u_converter (converter_valid_out s) (converter_enc_out s) (converter_enc_out_ctr s) (converter_out_end s) rst (converter_close_full s)
    u_converter_fifo := converter_fifo.step s.u_converter_fifo (converter_fifo_enc_in s) (converter_fifo_enc_in_ctr s) (converter_fifo_in_end s) (converter_fifo_latch_output s latch_output) rst (converter_fifo_valid_in s)
    u_integration_1 := integration_1.step s.u_integration_1 (integration_1_pixel_in s pixel_in) (integration_1_pixel_in_2 s pixel_in_1) rst full_rst (integration_1_valid_in s valid_in)
    u_lj92_pipeline_fifo := lj92_pipeline_fifo.step s.u_lj92_pipeline_fifo (lj92_pipeline_fifo_enc_in s) (lj92_pipeline_fifo_enc_in_ctr s) (lj92_pipeline_fifo_in_end s) (lj92_pipeline_fifo_latch_output s) rst (lj92_pipeline_fifo_valid_in s) }

/-- beta_integration.v:5207-5670: the initial values given in the netlist. -/
def Init (s : S) : Prop :=
  s.nready_reset = false ∧
  s.nready_reset_counter = 0 ∧
  s.nready_end_reg = false ∧
  s.nready_end = false ∧
  converter.Init s.u_converter ∧
  converter_fifo.Init s.u_converter_fifo ∧
  integration_1.Init s.u_integration_1 ∧
  lj92_pipeline_fifo.Init s.u_lj92_pipeline_fifo

/-- beta_integration.v:5207-5670: a state with these initial values; registers without one are 0. -/
def powerUp : S :=
  { nready_reset := false
    nready_reset_counter := 0
    nready_end_reg := false
    nready_end := false
    u_converter := converter.powerUp
    u_converter_fifo := converter_fifo.powerUp
    u_integration_1 := integration_1.powerUp
    u_lj92_pipeline_fifo := lj92_pipeline_fifo.powerUp }

theorem powerUp_init : Init powerUp := ⟨rfl, rfl, rfl, rfl, converter.powerUp_init, converter_fifo.powerUp_init, integration_1.powerUp_init, lj92_pipeline_fifo.powerUp_init⟩

end integration_2

namespace output_handler

/-- beta_integration.v:6602-6894: registers, memories and instances of module `output_handler`. -/
structure S where
  valid_out : Bool
  end_out : Bool
  data_out : Nat
  fsm_state : Nat

/-- beta_integration.v:6705. -/
@[netlist] def w17 (s : S) (buff_consum : Nat) : Bool :=
  decide (buff_consum ≥ 16)
/-- beta_integration.v:6770-6773. -/
@[netlist] def next_buff_consum_greater_eq (s : S) (buff_consum : Nat) : Bool :=
  (w17 s buff_consum)
/-- beta_integration.v:6890. -/
@[netlist] def buff_consum_greater_eq (s : S) (buff_consum : Nat) : Bool :=
  (next_buff_consum_greater_eq s buff_consum)
/-- beta_integration.v:6706. -/
@[netlist] def w19 (s : S) (buff_consum : Nat) : Bool :=
  decide (buff_consum ≤ 16)
/-- beta_integration.v:6774-6777. -/
@[netlist] def next_buff_consum_less_eq (s : S) (buff_consum : Nat) : Bool :=
  (w19 s buff_consum)
/-- beta_integration.v:6889. -/
@[netlist] def buff_consum_less_eq (s : S) (buff_consum : Nat) : Bool :=
  (next_buff_consum_less_eq s buff_consum)
/-- beta_integration.v:6736. -/
@[netlist] def w7 (s : S) (end_in : Bool) (buff_consum : Nat) : Bool :=
  (buff_consum_less_eq s buff_consum) && end_in
/-- beta_integration.v:6701. -/
@[netlist] def w9 (s : S) (end_in : Bool) (buff_consum : Nat) : Bool :=
  (buff_consum_greater_eq s buff_consum) || (w7 s end_in buff_consum)
/-- beta_integration.v:6702. -/
@[netlist] def w11 (s : S) (busy_in : Bool) : Bool :=
  busy_in == false
/-- beta_integration.v:6703. -/
@[netlist] def w13 (s : S) (busy_in : Bool) (buff_consum : Nat) : Bool :=
  (w11 s busy_in) && (buff_consum_greater_eq s buff_consum)
/-- beta_integration.v:6704. -/
@[netlist] def w15 (s : S) (busy_in : Bool) : Bool :=
  busy_in == false
/-- beta_integration.v:6707. -/
@[netlist] def w21 (s : S) (end_in : Bool) (buff_consum : Nat) : Bool :=
  (buff_consum_less_eq s buff_consum) && end_in
/-- beta_integration.v:6708. -/
@[netlist] def w23 (s : S) (end_in : Bool) (buff_consum : Nat) : Bool :=
  (buff_consum_greater_eq s buff_consum) || (w21 s end_in buff_consum)
/-- beta_integration.v:6709. -/
@[netlist] def w25 (s : S) (end_in : Bool) (buff_consum : Nat) : Bool :=
  (buff_consum_less_eq s buff_consum) && end_in
/-- beta_integration.v:6710. -/
@[netlist] def w27 (s : S) (busy_in : Bool) : Bool :=
  busy_in == false
/-- beta_integration.v:6711. -/
@[netlist] def w2 (s : S) (buff_consum : Nat) : Nat :=
  (2 ^ 8 + buff_consum - 16) % 2 ^ 8
/-- beta_integration.v:6712. -/
@[netlist] def w29 (s : S) (busy_in : Bool) (buff_consum : Nat) : Bool :=
  (w27 s busy_in) && (buff_consum_greater_eq s buff_consum)
/-- beta_integration.v:6713. -/
@[netlist] def w31 (s : S) (busy_in : Bool) : Bool :=
  busy_in == false
/-- beta_integration.v:6714. -/
@[netlist] def w33 (s : S) (end_in : Bool) (buff_consum : Nat) : Bool :=
  (buff_consum_less_eq s buff_consum) && end_in
/-- beta_integration.v:6715. -/
@[netlist] def w35 (s : S) (end_in : Bool) (buff_consum : Nat) : Bool :=
  (buff_consum_less_eq s buff_consum) && end_in
/-- beta_integration.v:6716. -/
@[netlist] def w37 (s : S) (end_in : Bool) (buff_consum : Nat) : Bool :=
  (buff_consum_greater_eq s buff_consum) || (w35 s end_in buff_consum)
/-- beta_integration.v:6883. -/
@[netlist] def w1 (s : S) (buff_consum : Nat) : Nat :=
  (w2 s buff_consum)
/-- beta_integration.v:6746-6749. -/
@[netlist] def next_shift_right (s : S) (buff_consum : Nat) : Nat :=
  slc (w1 s buff_consum) 0 6
/-- beta_integration.v:6893. -/
@[netlist] def shift_right (s : S) (buff_consum : Nat) : Nat :=
  (next_shift_right s buff_consum)
/-- beta_integration.v:6717. -/
@[netlist] def w40 (s : S) (buffer : Nat) (buff_consum : Nat) : Nat :=
  buffer / 2 ^ (shift_right s buff_consum)
/-- beta_integration.v:6725. -/
@[netlist] def w5 (s : S) (buff_consum : Nat) : Nat :=
  (2 ^ 8 + 16 - buff_consum) % 2 ^ 8
/-- beta_integration.v:6884. -/
@[netlist] def w4 (s : S) (buff_consum : Nat) : Nat :=
  (w5 s buff_consum)
/-- beta_integration.v:6750-6753. -/
@[netlist] def next_shift_left (s : S) (buff_consum : Nat) : Nat :=
  slc (w4 s buff_consum) 0 4
/-- beta_integration.v:6892. -/
@[netlist] def shift_left (s : S) (buff_consum : Nat) : Nat :=
  (next_shift_left s buff_consum)
/-- beta_integration.v:6718. -/
@[netlist] def w43 (s : S) (buffer : Nat) (buff_consum : Nat) : Nat :=
  buffer * 2 ^ (shift_left s buff_consum) % 2 ^ 92
/-- beta_integration.v:6719. -/
@[netlist] def w45 (s : S) (busy_in : Bool) : Bool :=
  busy_in == false
/-- beta_integration.v:6720. -/
@[netlist] def w47 (s : S) (busy_in : Bool) (buff_consum : Nat) : Bool :=
  (w45 s busy_in) && (buff_consum_greater_eq s buff_consum)
/-- beta_integration.v:6721. -/
@[netlist] def w49 (s : S) (busy_in : Bool) : Bool :=
  busy_in == false
/-- beta_integration.v:6722. -/
@[netlist] def w52 (s : S) (buffer : Nat) (buff_consum : Nat) : Nat :=
  buffer / 2 ^ (shift_right s buff_consum)
/-- beta_integration.v:6723. -/
@[netlist] def w55 (s : S) (buffer : Nat) (buff_consum : Nat) : Nat :=
  buffer * 2 ^ (shift_left s buff_consum) % 2 ^ 92
/-- beta_integration.v:6724. -/
@[netlist] def w57 (s : S) (end_in : Bool) (buff_consum : Nat) : Bool :=
  (buff_consum_less_eq s buff_consum) && end_in
/-- beta_integration.v:6726. -/
@[netlist] def w59 (s : S) (end_in : Bool) (buff_consum : Nat) : Bool :=
  (buff_consum_greater_eq s buff_consum) || (w57 s end_in buff_consum)
/-- beta_integration.v:6727. -/
@[netlist] def w61 (s : S) (end_in : Bool) (buff_consum : Nat) : Bool :=
  (buff_consum_less_eq s buff_consum) && end_in
/-- beta_integration.v:6728. -/
@[netlist] def w63 (s : S) (busy_in : Bool) : Bool :=
  busy_in == false
/-- beta_integration.v:6729. -/
@[netlist] def w65 (s : S) (busy_in : Bool) (buff_consum : Nat) : Bool :=
  (w63 s busy_in) && (buff_consum_greater_eq s buff_consum)
/-- beta_integration.v:6730. -/
@[netlist] def w67 (s : S) (busy_in : Bool) : Bool :=
  busy_in == false
/-- beta_integration.v:6731. -/
@[netlist] def w69 (s : S) (end_in : Bool) (buff_consum : Nat) : Bool :=
  (buff_consum_less_eq s buff_consum) && end_in
/-- beta_integration.v:6732. -/
@[netlist] def w71 (s : S) (end_in : Bool) (buff_consum : Nat) : Bool :=
  (buff_consum_less_eq s buff_consum) && end_in
/-- beta_integration.v:6733. -/
@[netlist] def w73 (s : S) (end_in : Bool) (buff_consum : Nat) : Bool :=
  (buff_consum_greater_eq s buff_consum) || (w71 s end_in buff_consum)
/-- beta_integration.v:6734. -/
@[netlist] def w75 (s : S) (busy_in : Bool) : Bool :=
  busy_in == false
/-- beta_integration.v:6735. -/
@[netlist] def w77 (s : S) (busy_in : Bool) (buff_consum : Nat) : Bool :=
  (w75 s busy_in) && (buff_consum_greater_eq s buff_consum)
/-- beta_integration.v:6737. -/
@[netlist] def w79 (s : S) (busy_in : Bool) : Bool :=
  busy_in == false
/-- beta_integration.v:6885. -/
@[netlist] def w39 (s : S) (buffer : Nat) (buff_consum : Nat) : Nat :=
  (w40 s buffer buff_consum)
/-- beta_integration.v:6886. -/
@[netlist] def w42 (s : S) (buffer : Nat) (buff_consum : Nat) : Nat :=
  (w43 s buffer buff_consum)
/-- beta_integration.v:6887. -/
@[netlist] def w51 (s : S) (buffer : Nat) (buff_consum : Nat) : Nat :=
  (w52 s buffer buff_consum)
/-- beta_integration.v:6888. -/
@[netlist] def w54 (s : S) (buffer : Nat) (buff_consum : Nat) : Nat :=
  (w55 s buffer buff_consum)
/-- beta_integration.v:6754-6769. -/
@[netlist] def next_dec_buff_out (s : S) (end_in : Bool) (busy_in : Bool) (buff_consum : Nat) : Bool :=
  if s.fsm_state = 0 then (if (w9 s end_in buff_consum) = true then true
    else false)
  else if s.fsm_state = 1 then (if (w13 s busy_in buff_consum) = true then true
    else false)
  else false
/-- beta_integration.v:6891. -/
@[netlist] def dec_buff_out (s : S) (end_in : Bool) (busy_in : Bool) (buff_consum : Nat) : Bool :=
  (next_dec_buff_out s end_in busy_in buff_consum)
/-- beta_integration.v:6778-6807. -/
@[netlist] def next_fsm_state (s : S) (end_in : Bool) (busy_in : Bool) (rst : Bool) (buff_consum : Nat) : Nat :=
  let e1 := if s.fsm_state = 0 then (if (w23 s end_in buff_consum) = true then (if (w25 s end_in buff_consum) = true then 2
      else 1)
    else s.fsm_state)
  else if s.fsm_state = 1 then (if (w29 s busy_in buff_consum) = true then (if (w33 s end_in buff_consum) = true then 2
      else s.fsm_state)
    else if (w31 s busy_in) = true then 0
    else s.fsm_state)
  else s.fsm_state
  if rst = true then 0
  else e1
/-- beta_integration.v:6808-6836. -/
@[netlist] def next_data_out (s : S) (end_in : Bool) (buffer : Nat) (busy_in : Bool) (rst : Bool) (buff_consum : Nat) : Nat :=
  let e1 := if s.fsm_state = 0 then (if (w37 s end_in buff_consum) = true then (if (buff_consum_greater_eq s buff_consum) = true then slc (w39 s buffer buff_consum) 0 16
      else slc (w42 s buffer buff_consum) 0 16)
    else s.data_out)
  else if s.fsm_state = 1 then (if (w47 s busy_in buff_consum) = true then (if (buff_consum_greater_eq s buff_consum) = true then slc (w51 s buffer buff_consum) 0 16
      else slc (w54 s buffer buff_consum) 0 16)
    else s.data_out)
  else s.data_out
  if rst = true then 0
  else e1
/-- beta_integration.v:6837-6861. -/
@[netlist] def next_end_out (s : S) (end_in : Bool) (busy_in : Bool) (rst : Bool) (buff_consum : Nat) : Bool :=
  let e1 := if s.fsm_state = 0 then (if (w59 s end_in buff_consum) = true then (if (w61 s end_in buff_consum) = true then true
      else s.end_out)
    else s.end_out)
  else if s.fsm_state = 1 then (if (w65 s busy_in buff_consum) = true then (if (w69 s end_in buff_consum) = true then true
      else s.end_out)
    else s.end_out)
  else s.end_out
  if rst = true then false
  else e1
/-- beta_integration.v:6862-6882. -/
@[netlist] def next_valid_out (s : S) (end_in : Bool) (busy_in : Bool) (rst : Bool) (buff_consum : Nat) : Bool :=
  let e1 := if s.fsm_state = 0 then (if (w73 s end_in buff_consum) = true then true
    else s.valid_out)
  else if s.fsm_state = 1 then (if (w77 s busy_in buff_consum) = true then true
    else if (w79 s busy_in) = true then false
    else s.valid_out)
  else s.valid_out
  if rst = true then false
  else e1

/-- beta_integration.v:6602-6894: one rising clock edge (`always @(posedge ...)`). -/
@[netlist] def step (s : S) (end_in : Bool) (buffer : Nat) (busy_in : Bool) (rst : Bool) (buff_consum : Nat) : S :=
  { valid_out := (next_valid_out s end_in busy_in rst buff_consum)
    end_out := (next_end_out s end_in busy_in rst buff_consum)
    data_out := (next_data_out s end_in buffer busy_in rst buff_consum)
    fsm_state := (next_fsm_state s end_in busy_in rst buff_consum) }

/-- beta_integration.v:6602-6894: the initial values given in the netlist. -/
def Init (s : S) : Prop :=
  s.valid_out = false ∧
  s.end_out = false ∧
  s.data_out = 0 ∧
  s.fsm_state = 0

/-- beta_integration.v:6602-6894: a state with these initial values; registers without one are 0. -/
def powerUp : S :=
  { valid_out := false
    end_out := false
    data_out := 0
    fsm_state := 0 }

theorem powerUp_init : Init powerUp := ⟨rfl, rfl, rfl, rfl⟩

end output_handler

namespace vbits_to_cbits

/-- beta_integration.v:9486-9671: registers, memories and instances of module `vbits_to_cbits`. -/
structure S where
  u_input_handler : input_handler.S
  u_output_handler : output_handler.S

/-- beta_integration.v:9621-9624. -/
@[netlist] def next_output_handler_busy_in (s : S) (busy_in : Bool) : Bool :=
  busy_in
/-- beta_integration.v:9657. -/
@[netlist] def output_handler_busy_in (s : S) (busy_in : Bool) : Bool :=
  (next_output_handler_busy_in s busy_in)
/-- beta_integration.v:9589-9600. -/
@[netlist] def output_handler_end_out (s : S) : Bool :=
  s.u_output_handler.end_out
/-- beta_integration.v:9617-9620. -/
@[netlist] def next_end_out (s : S) : Bool :=
  (output_handler_end_out s)
/-- beta_integration.v:9658. -/
@[netlist] def end_out (s : S) : Bool :=
  (next_end_out s)
/-- beta_integration.v:9589-9600. -/
@[netlist] def output_handler_valid_out (s : S) : Bool :=
  s.u_output_handler.valid_out
/-- beta_integration.v:9613-9616. -/
@[netlist] def next_valid_out (s : S) : Bool :=
  (output_handler_valid_out s)
/-- beta_integration.v:9659. -/
@[netlist] def valid_out (s : S) : Bool :=
  (next_valid_out s)
/-- beta_integration.v:9589-9600. -/
@[netlist] def output_handler_data_out (s : S) : Nat :=
  s.u_output_handler.data_out
/-- beta_integration.v:9609-9612. -/
@[netlist] def next_data_out (s : S) : Nat :=
  (output_handler_data_out s)
/-- beta_integration.v:9660. -/
@[netlist] def data_out (s : S) : Nat :=
  (next_data_out s)
/-- beta_integration.v:9575-9588. -/
@[netlist] def input_handler_end_out (s : S) : Bool :=
  s.u_input_handler.end_out
/-- beta_integration.v:9653-9656. -/
@[netlist] def next_output_handler_end_in (s : S) : Bool :=
  (input_handler_end_out s)
/-- beta_integration.v:9661. -/
@[netlist] def output_handler_end_in (s : S) : Bool :=
  (next_output_handler_end_in s)
/-- beta_integration.v:9575-9588. -/
@[netlist] def input_handler_buff_consum (s : S) : Nat :=
  s.u_input_handler.buff_consum
/-- beta_integration.v:9645-9648. -/
@[netlist] def next_output_handler_buff_consum (s : S) : Nat :=
  (input_handler_buff_consum s)
/-- beta_integration.v:9663. -/
@[netlist] def output_handler_buff_consum (s : S) : Nat :=
  (next_output_handler_buff_consum s)
/-- beta_integration.v:9589-9600. -/
@[netlist] def output_handler_dec_buff_out (s : S) (busy_in : Bool) : Bool :=
  output_handler.dec_buff_out s.u_output_handler (output_handler_end_in s) (output_handler_busy_in s busy_in) (output_handler_buff_consum s)
/-- beta_integration.v:9637-9640. -/
@[netlist] def next_input_handler_dec_buff (s : S) (busy_in : Bool) : Bool :=
  (output_handler_dec_buff_out s busy_in)
/-- beta_integration.v:9665. -/
@[netlist] def input_handler_dec_buff (s : S) (busy_in : Bool) : Bool :=
  (next_input_handler_dec_buff s busy_in)
/-- beta_integration.v:9575-9588. -/
@[netlist] def input_handler_new_buff_consum (s : S) (busy_in : Bool) : Nat :=
  input_handler.new_buff_consum s.u_input_handler (input_handler_dec_buff s busy_in)
/-- beta_integration.v:9649-9652. -/
@[netlist] def next_new_buff_consum (s : S) (busy_in : Bool) : Nat :=
  (input_handler_new_buff_consum s busy_in)
/-- beta_integration.v:9662. -/
@[netlist] def new_buff_consum (s : S) (busy_in : Bool) : Nat :=
  (next_new_buff_consum s busy_in)
/-- beta_integration.v:9575-9588. -/
@[netlist] def input_handler_buffer (s : S) : Nat :=
  s.u_input_handler.buffer
/-- beta_integration.v:9641-9644. -/
@[netlist] def next_output_handler_buffer (s : S) : Nat :=
  (input_handler_buffer s)
/-- beta_integration.v:9664. -/
@[netlist] def output_handler_buffer (s : S) : Nat :=
  (next_output_handler_buffer s)
/-- beta_integration.v:9633-9636. -/
@[netlist] def next_input_handler_valid_in (s : S) (valid_in : Bool) : Bool :=
  valid_in
/-- beta_integration.v:9666. -/
@[netlist] def input_handler_valid_in (s : S) (valid_in : Bool) : Bool :=
  (next_input_handler_valid_in s valid_in)
/-- beta_integration.v:9629-9632. -/
@[netlist] def next_input_handler_in_end (s : S) (in_end : Bool) : Bool :=
  in_end
/-- beta_integration.v:9667. -/
@[netlist] def input_handler_in_end (s : S) (in_end : Bool) : Bool :=
  (next_input_handler_in_end s in_end)
/-- beta_integration.v:9625-9628. -/
@[netlist] def next_input_handler_enc_in_ctr (s : S) (enc_in_ctr : Nat) : Nat :=
  enc_in_ctr
/-- beta_integration.v:9668. -/
@[netlist] def input_handler_enc_in_ctr (s : S) (enc_in_ctr : Nat) : Nat :=
  (next_input_handler_enc_in_ctr s enc_in_ctr)
/-- beta_integration.v:9605-9608. -/
@[netlist] def next_input_handler_enc_in (s : S) (enc_in : Nat) : Nat :=
  enc_in
/-- beta_integration.v:9669. -/
@[netlist] def input_handler_enc_in (s : S) (enc_in : Nat) : Nat :=
  (next_input_handler_enc_in s enc_in)
/-- beta_integration.v:9575-9588. -/
@[netlist] def input_handler_latch_input (s : S) : Bool :=
  s.u_input_handler.latch_input
/-- beta_integration.v:9601-9604. -/
@[netlist] def next_latch_input (s : S) : Bool :=
  (input_handler_latch_input s)
/-- beta_integration.v:9670. -/
@[netlist] def latch_input (s : S) : Bool :=
  (next_latch_input s)

/-- beta_integration.v:9486-9671: one rising clock edge (`always @(posedge ...)`). -/
@[netlist] def step (s : S) (enc_in_ctr : Nat) (in_end : Bool) (valid_in : Bool) (busy_in : Bool) (rst : Bool) (enc_in : Nat) : S :=
  { u_input_handler := input_handler.step s.u_input_handler (input_handler_valid_in s valid_in) (input_handler_enc_in s enc_in) (input_handler_enc_in_ctr s enc_in_ctr) (input_handler_in_end s in_end) rst (input_handler_dec_buff s busy_in)
    u_output_handler := output_handler.step s.u_output_handler (output_handler_end_in s) (output_handler_buffer s) (output_handler_busy_in s busy_in) rst (output_handler_buff_consum s) }

/-- beta_integration.v:9486-9671: the initial values given in the netlist. -/
def Init (s : S) : Prop :=
  input_handler.Init s.u_input_handler ∧
  output_handler.Init s.u_output_handler

/-- beta_integration.v:9486-9671: a state with these initial values; registers without one are 0. -/
def powerUp : S :=
  { u_input_handler := input_handler.powerUp
    u_output_handler := output_handler.powerUp }

theorem powerUp_init : Init powerUp := ⟨input_handler.powerUp_init, output_handler.powerUp_init⟩

end vbits_to_cbits

namespace integration_3

/-- beta_integration.v:5674-5857: registers, memories and instances of module `integration_3`. -/
structure S where
  u_integration_2 : integration_2.S
  u_vbits_to_cbits : vbits_to_cbits.S

/-- beta_integration.v:5763-5778. -/
@[netlist] def integration_2_nready (s : S) : Bool :=
  integration_2.nready s.u_integration_2
/-- beta_integration.v:5808-5811. -/
@[netlist] def next_nready (s : S) : Bool :=
  (integration_2_nready s)
/-- beta_integration.v:5844. -/
@[netlist] def nready (s : S) : Bool :=
  (next_nready s)
/-- beta_integration.v:5779-5791. -/
@[netlist] def vbits_to_cbits_end_out (s : S) : Bool :=
  vbits_to_cbits.end_out s.u_vbits_to_cbits
/-- beta_integration.v:5804-5807. -/
@[netlist] def next_end_out (s : S) : Bool :=
  (vbits_to_cbits_end_out s)
/-- beta_integration.v:5845. -/
@[netlist] def end_out (s : S) : Bool :=
  (next_end_out s)
/-- beta_integration.v:5779-5791. -/
@[netlist] def vbits_to_cbits_valid_out (s : S) : Bool :=
  vbits_to_cbits.valid_out s.u_vbits_to_cbits
/-- beta_integration.v:5800-5803. -/
@[netlist] def next_valid_out (s : S) : Bool :=
  (vbits_to_cbits_valid_out s)
/-- beta_integration.v:5846. -/
@[netlist] def valid_out (s : S) : Bool :=
  (next_valid_out s)
/-- beta_integration.v:5779-5791. -/
@[netlist] def vbits_to_cbits_data_out (s : S) : Nat :=
  vbits_to_cbits.data_out s.u_vbits_to_cbits
/-- beta_integration.v:5840-5843. -/
@[netlist] def next_data_out (s : S) : Nat :=
  (vbits_to_cbits_data_out s)
/-- beta_integration.v:5847. -/
@[netlist] def data_out (s : S) : Nat :=
  (next_data_out s)
/-- beta_integration.v:5836-5839. -/
@[netlist] def next_vbits_to_cbits_busy_in (s : S) (busy_in : Bool) : Bool :=
  busy_in
/-- beta_integration.v:5848. -/
@[netlist] def vbits_to_cbits_busy_in (s : S) (busy_in : Bool) : Bool :=
  (next_vbits_to_cbits_busy_in s busy_in)
/-- beta_integration.v:5763-5778. -/
@[netlist] def integration_2_valid_out (s : S) : Bool :=
  integration_2.valid_out s.u_integration_2
/-- beta_integration.v:5832-5835. -/
@[netlist] def next_vbits_to_cbits_valid_in (s : S) : Bool :=
  (integration_2_valid_out s)
/-- beta_integration.v:5849. -/
@[netlist] def vbits_to_cbits_valid_in (s : S) : Bool :=
  (next_vbits_to_cbits_valid_in s)
/-- beta_integration.v:5763-5778. -/
@[netlist] def integration_2_out_end (s : S) : Bool :=
  integration_2.out_end s.u_integration_2
/-- beta_integration.v:5828-5831. -/
@[netlist] def next_vbits_to_cbits_in_end (s : S) : Bool :=
  (integration_2_out_end s)
/-- beta_integration.v:5850. -/
@[netlist] def vbits_to_cbits_in_end (s : S) : Bool :=
  (next_vbits_to_cbits_in_end s)
/-- beta_integration.v:5763-5778. -/
@[netlist] def integration_2_enc_out_ctr (s : S) : Nat :=
  integration_2.enc_out_ctr s.u_integration_2
/-- beta_integration.v:5824-5827. -/
@[netlist] def next_vbits_to_cbits_enc_in_ctr (s : S) : Nat :=
  slc (integration_2_enc_out_ctr s) 0 5
/-- beta_integration.v:5851. -/
@[netlist] def vbits_to_cbits_enc_in_ctr (s : S) : Nat :=
  (next_vbits_to_cbits_enc_in_ctr s)
/-- beta_integration.v:5763-5778. -/
@[netlist] def integration_2_enc_out (s : S) : Nat :=
  integration_2.enc_out s.u_integration_2
/-- beta_integration.v:5820-5823. -/
@[netlist] def next_vbits_to_cbits_enc_in (s : S) : Nat :=
  slc (integration_2_enc_out s) 0 30
/-- beta_integration.v:5852. -/
@[netlist] def vbits_to_cbits_enc_in (s : S) : Nat :=
  (next_vbits_to_cbits_enc_in s)
/-- beta_integration.v:5779-5791. -/
@[netlist] def vbits_to_cbits_latch_input (s : S) : Bool :=
  vbits_to_cbits.latch_input s.u_vbits_to_cbits
/-- beta_integration.v:5816-5819. -/
@[netlist] def next_integration_2_latch_output (s : S) : Bool :=
  (vbits_to_cbits_latch_input s)
/-- beta_integration.v:5853. -/
@[netlist] def integration_2_latch_output (s : S) : Bool :=
  (next_integration_2_latch_output s)
/-- beta_integration.v:5812-5815. -/
@[netlist] def next_integration_2_valid_in (s : S) (valid_in : Bool) : Bool :=
  valid_in
/-- beta_integration.v:5854. -/
@[netlist] def integration_2_valid_in (s : S) (valid_in : Bool) : Bool :=
  (next_integration_2_valid_in s valid_in)
/-- beta_integration.v:5796-5799. -/
@[netlist] def next_integration_2_pixel_in_2 (s : S) (pixel_in_1 : Nat) : Nat :=
  pixel_in_1
/-- beta_integration.v:5855. -/
@[netlist] def integration_2_pixel_in_2 (s : S) (pixel_in_1 : Nat) : Nat :=
  (next_integration_2_pixel_in_2 s pixel_in_1)
/-- beta_integration.v:5792-5795. -/
@[netlist] def next_integration_2_pixel_in (s : S) (pixel_in : Nat) : Nat :=
  pixel_in
/-- beta_integration.v:5856. -/
@[netlist] def integration_2_pixel_in (s : S) (pixel_in : Nat) : Nat :=
  (next_integration_2_pixel_in s pixel_in)
/-- beta_integration.v:5763-5778. -/
@[netlist] def fend_out (s : S) : Bool :=
  integration_2.fend_out s.u_integration_2

/-- beta_integration.v:5674-5857: one rising clock edge (`always @(posedge ...)`). -/
@[netlist] def step (s : S) (pixel_in_1 : Nat) (valid_in : Bool) (busy_in : Bool) (rst : Bool) (full_rst : Bool) (pixel_in : Nat) : S :=
  { u_integration_2 := integration_2.step s.u_integration_2 (integration_2_pixel_in s pixel_in) (integration_2_pixel_in_2 s pixel_in_1) (integration_2_latch_output s) rst full_rst (integration_2_valid_in s valid_in)
    u_vbits_to_cbits := vbits_to_cbits.step s.u_vbits_to_cbits (vbits_to_cbits_enc_in_ctr s) (vbits_to_cbits_in_end s) (vbits_to_cbits_valid_in s) (vbits_to_cbits_busy_in s busy_in) rst (vbits_to_cbits_enc_in s) }

/-- beta_integration.v:5674-5857: the initial values given in the netlist. -/
def Init (s : S) : Prop :=
  integration_2.Init s.u_integration_2 ∧
  vbits_to_cbits.Init s.u_vbits_to_cbits

/-- beta_integration.v:5674-5857: a state with these initial values; registers without one are 0. -/
def powerUp : S :=
  { u_integration_2 := integration_2.powerUp
    u_vbits_to_cbits := vbits_to_cbits.powerUp }

theorem powerUp_init : Init powerUp := ⟨integration_2.powerUp_init, vbits_to_cbits.powerUp_init⟩

end integration_3

namespace markers

/-- beta_integration.v:5977-6284: registers, memories and instances of module `markers`. -/
structure S where
  fsm_state : Nat
  counter : Nat
  end_cond : Bool

/-- beta_integration.v:6052. -/
@[netlist] def w9 (s : S) (i_busy : Bool) : Bool :=
  i_busy == false
/-- beta_integration.v:6053. -/
@[netlist] def w11 (s : S) : Bool :=
  s.counter == 1
/-- beta_integration.v:6054. -/
@[netlist] def w13 (s : S) (i_busy : Bool) : Bool :=
  i_busy == false
/-- beta_integration.v:6055. -/
@[netlist] def w15 (s : S) (valid_in : Bool) : Bool :=
  valid_in == true
/-- beta_integration.v:6056. -/
@[netlist] def w17 (s : S) (valid_in : Bool) (i_busy : Bool) : Bool :=
  (w13 s i_busy) && (w15 s valid_in)
/-- beta_integration.v:6057. -/
@[netlist] def w1 (s : S) (i_busy : Bool) : Bool :=
  i_busy == false
/-- beta_integration.v:6058. -/
@[netlist] def w19 (s : S) (end_in : Bool) : Bool :=
  end_in == true
/-- beta_integration.v:6059. -/
@[netlist] def w21 (s : S) (valid_in : Bool) (end_in : Bool) (i_busy : Bool) : Bool :=
  (w17 s valid_in i_busy) && (w19 s end_in)
/-- beta_integration.v:6060. -/
@[netlist] def w23 (s : S) (i_busy : Bool) : Bool :=
  i_busy == false
/-- beta_integration.v:6061. -/
@[netlist] def w26 (s : S) : Nat :=
  (2 ^ 5 + s.counter - 1) % 2 ^ 5
/-- beta_integration.v:6062. -/
@[netlist] def w28 (s : S) : Bool :=
  s.counter == 0
/-- beta_integration.v:6063. -/
@[netlist] def w30 (s : S) (i_busy : Bool) : Bool :=
  i_busy == false
/-- beta_integration.v:6064. -/
@[netlist] def w33 (s : S) : Nat :=
  (2 ^ 5 + s.counter - 1) % 2 ^ 5
/-- beta_integration.v:6065. -/
@[netlist] def w35 (s : S) (i_busy : Bool) : Bool :=
  i_busy == false
/-- beta_integration.v:6066. -/
@[netlist] def w38 (s : S) : Nat :=
  (2 ^ 5 + s.counter - 1) % 2 ^ 5
/-- beta_integration.v:6067. -/
@[netlist] def w3 (s : S) : Bool :=
  s.counter == 0
/-- beta_integration.v:6068. -/
@[netlist] def w40 (s : S) (i_busy : Bool) : Bool :=
  i_busy == false
/-- beta_integration.v:6069. -/
@[netlist] def w42 (s : S) : Bool :=
  s.counter == 0
/-- beta_integration.v:6070. -/
@[netlist] def w44 (s : S) (i_busy : Bool) : Bool :=
  i_busy == false
/-- beta_integration.v:6071. -/
@[netlist] def w46 (s : S) : Bool :=
  s.counter == 1
/-- beta_integration.v:6072. -/
@[netlist] def w48 (s : S) (i_busy : Bool) : Bool :=
  i_busy == false
/-- beta_integration.v:6073. -/
@[netlist] def w50 (s : S) : Bool :=
  s.counter == 1
/-- beta_integration.v:6074. -/
@[netlist] def w52 (s : S) (i_busy : Bool) : Bool :=
  i_busy == false
/-- beta_integration.v:6075. -/
@[netlist] def w54 (s : S) : Bool :=
  s.counter == 0
/-- beta_integration.v:6076. -/
@[netlist] def w5 (s : S) (i_busy : Bool) : Bool :=
  i_busy == false
/-- beta_integration.v:6077. -/
@[netlist] def w7 (s : S) : Bool :=
  s.counter == 1
/-- beta_integration.v:6277. -/
@[netlist] def w25 (s : S) : Nat :=
  (w26 s)
/-- beta_integration.v:6278. -/
@[netlist] def w32 (s : S) : Nat :=
  (w33 s)
/-- beta_integration.v:6279. -/
@[netlist] def w37 (s : S) : Nat :=
  (w38 s)
/-- beta_integration.v:6244-6276. -/
@[netlist] def next_data_out (s : S) (force_end_in : Bool) (data_in : Nat) (i_busy : Bool) : Nat :=
  if s.fsm_state = 1 then (if (w52 s i_busy) = true then (if (w54 s) = true then 0
      else 0xffff)
    else 0xffff)
  else if s.fsm_state = 3 then 0xffff
  else if s.fsm_state = 5 then 0xfffe
  else if s.fsm_state = 2 then (if s.end_cond = true then 0
    else if force_end_in = true then 0
    else data_in)
  else if s.fsm_state = 4 then 0xffff
  else if s.fsm_state = 6 then 0xfffe
  else 0
/-- beta_integration.v:6280. -/
@[netlist] def data_out (s : S) (force_end_in : Bool) (data_in : Nat) (i_busy : Bool) : Nat :=
  (next_data_out s force_end_in data_in i_busy)
/-- beta_integration.v:6133-6158. -/
@[netlist] def next_end_out (s : S) (i_busy : Bool) : Bool :=
  if s.fsm_state = 3 then (if (w5 s i_busy) = true then (if (w7 s) = true then true
      else false)
    else false)
  else if s.fsm_state = 5 then (if (w9 s i_busy) = true then (if (w11 s) = true then true
      else false)
    else false)
  else if s.fsm_state = 4 then true
  else if s.fsm_state = 6 then true
  else false
/-- beta_integration.v:6281. -/
@[netlist] def end_out (s : S) (i_busy : Bool) : Bool :=
  (next_end_out s i_busy)
/-- beta_integration.v:6099-6132. -/
@[netlist] def next_valid_out (s : S) (valid_in : Bool) (force_end_in : Bool) (i_busy : Bool) : Bool :=
  if s.fsm_state = 1 then (if (w1 s i_busy) = true then (if (w3 s) = true then false
      else true)
    else true)
  else if s.fsm_state = 3 then true
  else if s.fsm_state = 5 then true
  else if s.fsm_state = 2 then (if s.end_cond = true then false
    else if force_end_in = true then false
    else valid_in)
  else if s.fsm_state = 4 then true
  else if s.fsm_state = 6 then true
  else false
/-- beta_integration.v:6282. -/
@[netlist] def valid_out (s : S) (valid_in : Bool) (force_end_in : Bool) (i_busy : Bool) : Bool :=
  (next_valid_out s valid_in force_end_in i_busy)
/-- beta_integration.v:6084-6098. -/
@[netlist] def next_o_busy (s : S) (force_end_in : Bool) (i_busy : Bool) : Bool :=
  if s.fsm_state = 2 then (if s.end_cond = true then true
    else if force_end_in = true then true
    else i_busy)
  else true
/-- beta_integration.v:6283. -/
@[netlist] def o_busy (s : S) (force_end_in : Bool) (i_busy : Bool) : Bool :=
  (next_o_busy s force_end_in i_busy)
/-- beta_integration.v:6159-6166. -/
@[netlist] def next_end_cond (s : S) (valid_in : Bool) (end_in : Bool) (rst : Bool) (i_busy : Bool) : Bool :=
  let e1 := (w21 s valid_in end_in i_busy)
  if rst = true then false
  else e1
/-- beta_integration.v:6167-6198. -/
@[netlist] def next_counter (s : S) (rst : Bool) (i_busy : Bool) : Nat :=
  let e2 := if s.fsm_state = 0 then 8
  else if s.fsm_state = 1 then (if (w23 s i_busy) = true then (let e1 := slc (w25 s) 0 4
      if (w28 s) = true then 8
      else e1)
    else s.counter)
  else if s.fsm_state = 3 then (if (w30 s i_busy) = true then slc (w32 s) 0 4
    else s.counter)
  else if s.fsm_state = 5 then (if (w35 s i_busy) = true then slc (w37 s) 0 4
    else s.counter)
  else s.counter
  if rst = true then 0
  else e2
/-- beta_integration.v:6199-6243. -/
@[netlist] def next_fsm_state (s : S) (valid_in : Bool) (force_end_in : Bool) (rst : Bool) (i_busy : Bool) : Nat :=
  let e1 := if s.fsm_state = 0 then (if valid_in = true then 1
    else s.fsm_state)
  else if s.fsm_state = 1 then (if (w40 s i_busy) = true then (if (w42 s) = true then 2
      else s.fsm_state)
    else s.fsm_state)
  else if s.fsm_state = 3 then (if (w44 s i_busy) = true then (if (w46 s) = true then 4
      else s.fsm_state)
    else s.fsm_state)
  else if s.fsm_state = 5 then (if (w48 s i_busy) = true then (if (w50 s) = true then 6
      else s.fsm_state)
    else s.fsm_state)
  else if s.fsm_state = 2 then (if s.end_cond = true then 3
    else if force_end_in = true then 5
    else s.fsm_state)
  else s.fsm_state
  if rst = true then 0
  else e1

/-- beta_integration.v:5977-6284: one rising clock edge (`always @(posedge ...)`). -/
@[netlist] def step (s : S) (valid_in : Bool) (end_in : Bool) (force_end_in : Bool) (data_in : Nat) (rst : Bool) (i_busy : Bool) : S :=
  { fsm_state := (next_fsm_state s valid_in force_end_in rst i_busy)
    counter := (next_counter s rst i_busy)
    end_cond := (next_end_cond s valid_in end_in rst i_busy) }

/-- beta_integration.v:5977-6284: the initial values given in the netlist. -/
def Init (s : S) : Prop :=
  s.fsm_state = 0 ∧
  s.counter = 0 ∧
  s.end_cond = false

/-- beta_integration.v:5977-6284: a state with these initial values; registers without one are 0. -/
def powerUp : S :=
  { fsm_state := 0
    counter := 0
    end_cond := false }

theorem powerUp_init : Init powerUp := ⟨rfl, rfl, rfl⟩

end markers

namespace top

/-- beta_integration.v:7626-7990: registers, memories and instances of module `top`. -/
structure S where
  u_auto_reset : auto_reset.S
  u_fix_0xff : fix_0xff.S
  u_fix_0xff2 : fix_0xff2.S
  u_integration_3 : integration_3.S
  u_markers : markers.S

/-- beta_integration.v:7793-7800. -/
@[netlist] def auto_reset_reset_out (s : S) : Bool :=
  s.u_auto_reset.reset_out
/-- beta_integration.v:7789. -/
@[netlist] def w2 (s : S) : Bool :=
  (auto_reset_reset_out s) == true
/-- beta_integration.v:7790. -/
@[netlist] def w4 (s : S) (full_rst : Bool) : Bool :=
  full_rst == true
/-- beta_integration.v:7791. -/
@[netlist] def w6 (s : S) (full_rst : Bool) : Bool :=
  (w2 s) || (w4 s full_rst)
/-- beta_integration.v:7792. -/
@[netlist] def w8 (s : S) (busy_in : Bool) : Bool :=
  busy_in == false
/-- beta_integration.v:7827-7841. -/
@[netlist] def integration_3_nready (s : S) : Bool :=
  integration_3.nready s.u_integration_3
/-- beta_integration.v:7931-7934. -/
@[netlist] def next_nready (s : S) : Bool :=
  (integration_3_nready s)
/-- beta_integration.v:7963. -/
@[netlist] def nready (s : S) : Bool :=
  (next_nready s)
/-- beta_integration.v:7915-7918. -/
@[netlist] def next_markers_i_busy (s : S) (busy_in : Bool) : Bool :=
  busy_in
/-- beta_integration.v:7967. -/
@[netlist] def markers_i_busy (s : S) (busy_in : Bool) : Bool :=
  (next_markers_i_busy s busy_in)
/-- beta_integration.v:7842-7854. -/
@[netlist] def markers_end_out (s : S) (busy_in : Bool) : Bool :=
  markers.end_out s.u_markers (markers_i_busy s busy_in)
/-- beta_integration.v:7927-7930. -/
@[netlist] def next_end_out (s : S) (busy_in : Bool) : Bool :=
  (markers_end_out s busy_in)
/-- beta_integration.v:7964. -/
@[netlist] def end_out (s : S) (busy_in : Bool) : Bool :=
  (next_end_out s busy_in)
/-- beta_integration.v:7814-7826. -/
@[netlist] def fix_0xff2_valid_out (s : S) : Bool :=
  s.u_fix_0xff2.valid_out
/-- beta_integration.v:7899-7902. -/
@[netlist] def next_markers_valid_in (s : S) : Bool :=
  (fix_0xff2_valid_out s)
/-- beta_integration.v:7970. -/
@[netlist] def markers_valid_in (s : S) : Bool :=
  (next_markers_valid_in s)
/-- beta_integration.v:7827-7841. -/
@[netlist] def integration_3_fend_out (s : S) : Bool :=
  integration_3.fend_out s.u_integration_3
/-- beta_integration.v:7907-7910. -/
@[netlist] def next_markers_force_end_in (s : S) : Bool :=
  (integration_3_fend_out s)
/-- beta_integration.v:7969. -/
@[netlist] def markers_force_end_in (s : S) : Bool :=
  (next_markers_force_end_in s)
/-- beta_integration.v:7842-7854. -/
@[netlist] def markers_valid_out (s : S) (busy_in : Bool) : Bool :=
  markers.valid_out s.u_markers (markers_valid_in s) (markers_force_end_in s) (markers_i_busy s busy_in)
/-- beta_integration.v:7923-7926. -/
@[netlist] def next_valid_out (s : S) (busy_in : Bool) : Bool :=
  (markers_valid_out s busy_in)
/-- beta_integration.v:7965. -/
@[netlist] def valid_out (s : S) (busy_in : Bool) : Bool :=
  (next_valid_out s busy_in)
/-- beta_integration.v:7814-7826. -/
@[netlist] def fix_0xff2_data_out (s : S) : Nat :=
  s.u_fix_0xff2.data_out
/-- beta_integration.v:7895-7898. -/
@[netlist] def next_markers_data_in (s : S) : Nat :=
  (fix_0xff2_data_out s)
/-- beta_integration.v:7971. -/
@[netlist] def markers_data_in (s : S) : Nat :=
  (next_markers_data_in s)
/-- beta_integration.v:7842-7854. -/
@[netlist] def markers_data_out (s : S) (busy_in : Bool) : Nat :=
  markers.data_out s.u_markers (markers_force_end_in s) (markers_data_in s) (markers_i_busy s busy_in)
/-- beta_integration.v:7919-7922. -/
@[netlist] def next_data_out (s : S) (busy_in : Bool) : Nat :=
  (markers_data_out s busy_in)
/-- beta_integration.v:7966. -/
@[netlist] def data_out (s : S) (busy_in : Bool) : Nat :=
  (next_data_out s busy_in)
/-- beta_integration.v:7814-7826. -/
@[netlist] def fix_0xff2_end_out (s : S) : Bool :=
  s.u_fix_0xff2.end_out
/-- beta_integration.v:7911-7914. -/
@[netlist] def next_markers_end_in (s : S) : Bool :=
  (fix_0xff2_end_out s)
/-- beta_integration.v:7968. -/
@[netlist] def markers_end_in (s : S) : Bool :=
  (next_markers_end_in s)
/-- beta_integration.v:7801-7813. -/
@[netlist] def fix_0xff_data_out_ctr (s : S) : Nat :=
  s.u_fix_0xff.data_out_ctr
/-- beta_integration.v:7891-7894. -/
@[netlist] def next_fix_0xff2_data_in_ctr (s : S) : Nat :=
  (fix_0xff_data_out_ctr s)
/-- beta_integration.v:7972. -/
@[netlist] def fix_0xff2_data_in_ctr (s : S) : Nat :=
  (next_fix_0xff2_data_in_ctr s)
/-- beta_integration.v:7842-7854. -/
@[netlist] def markers_o_busy (s : S) (busy_in : Bool) : Bool :=
  markers.o_busy s.u_markers (markers_force_end_in s) (markers_i_busy s busy_in)
/-- beta_integration.v:7887-7890. -/
@[netlist] def next_fix_0xff2_i_busy (s : S) (busy_in : Bool) : Bool :=
  (markers_o_busy s busy_in)
/-- beta_integration.v:7973. -/
@[netlist] def fix_0xff2_i_busy (s : S) (busy_in : Bool) : Bool :=
  (next_fix_0xff2_i_busy s busy_in)
/-- beta_integration.v:7801-7813. -/
@[netlist] def fix_0xff_end_out (s : S) : Bool :=
  s.u_fix_0xff.end_out
/-- beta_integration.v:7883-7886. -/
@[netlist] def next_fix_0xff2_end_in (s : S) : Bool :=
  (fix_0xff_end_out s)
/-- beta_integration.v:7974. -/
@[netlist] def fix_0xff2_end_in (s : S) : Bool :=
  (next_fix_0xff2_end_in s)
/-- beta_integration.v:7801-7813. -/
@[netlist] def fix_0xff_valid_out (s : S) : Bool :=
  s.u_fix_0xff.valid_out
/-- beta_integration.v:7879-7882. -/
@[netlist] def next_fix_0xff2_valid_in (s : S) : Bool :=
  (fix_0xff_valid_out s)
/-- beta_integration.v:7975. -/
@[netlist] def fix_0xff2_valid_in (s : S) : Bool :=
  (next_fix_0xff2_valid_in s)
/-- beta_integration.v:7801-7813. -/
@[netlist] def fix_0xff_data_out (s : S) : Nat :=
  s.u_fix_0xff.data_out
/-- beta_integration.v:7875-7878. -/
@[netlist] def next_fix_0xff2_data_in (s : S) : Nat :=
  (fix_0xff_data_out s)
/-- beta_integration.v:7976. -/
@[netlist] def fix_0xff2_data_in (s : S) : Nat :=
  (next_fix_0xff2_data_in s)
/-- beta_integration.v:7814-7826. -/
@[netlist] def fix_0xff2_o_busy (s : S) : Bool :=
  s.u_fix_0xff2.o_busy
/-- beta_integration.v:7871-7874. -/
@[netlist] def next_fix_0xff_i_busy (s : S) : Bool :=
  (fix_0xff2_o_busy s)
/-- beta_integration.v:7977. -/
@[netlist] def fix_0xff_i_busy (s : S) : Bool :=
  (next_fix_0xff_i_busy s)
/-- beta_integration.v:7827-7841. -/
@[netlist] def integration_3_end_out (s : S) : Bool :=
  integration_3.end_out s.u_integration_3
/-- beta_integration.v:7867-7870. -/
@[netlist] def next_fix_0xff_end_in (s : S) : Bool :=
  (integration_3_end_out s)
/-- beta_integration.v:7978. -/
@[netlist] def fix_0xff_end_in (s : S) : Bool :=
  (next_fix_0xff_end_in s)
/-- beta_integration.v:7827-7841. -/
@[netlist] def integration_3_valid_out (s : S) : Bool :=
  integration_3.valid_out s.u_integration_3
/-- beta_integration.v:7863-7866. -/
@[netlist] def next_fix_0xff_valid_in (s : S) : Bool :=
  (integration_3_valid_out s)
/-- beta_integration.v:7979. -/
@[netlist] def fix_0xff_valid_in (s : S) : Bool :=
  (next_fix_0xff_valid_in s)
/-- beta_integration.v:7827-7841. -/
@[netlist] def integration_3_data_out (s : S) : Nat :=
  integration_3.data_out s.u_integration_3
/-- beta_integration.v:7959-7962. -/
@[netlist] def next_fix_0xff_data_in (s : S) : Nat :=
  (integration_3_data_out s)
/-- beta_integration.v:7980. -/
@[netlist] def fix_0xff_data_in (s : S) : Nat :=
  (next_fix_0xff_data_in s)
/-- beta_integration.v:7801-7813. -/
@[netlist] def fix_0xff_o_busy (s : S) : Bool :=
  s.u_fix_0xff.o_busy
/-- beta_integration.v:7955-7958. -/
@[netlist] def next_integration_3_busy_in (s : S) : Bool :=
  (fix_0xff_o_busy s)
/-- beta_integration.v:7981. -/
@[netlist] def integration_3_busy_in (s : S) : Bool :=
  (next_integration_3_busy_in s)
/-- beta_integration.v:7951-7954. -/
@[netlist] def next_integration_3_valid_in (s : S) (valid_in : Bool) : Bool :=
  valid_in
/-- beta_integration.v:7982. -/
@[netlist] def integration_3_valid_in (s : S) (valid_in : Bool) : Bool :=
  (next_integration_3_valid_in s valid_in)
/-- beta_integration.v:7947-7950. -/
@[netlist] def next_integration_3_pixel_in_1 (s : S) (pixel_in2 : Nat) : Nat :=
  pixel_in2
/-- beta_integration.v:7983. -/
@[netlist] def integration_3_pixel_in_1 (s : S) (pixel_in2 : Nat) : Nat :=
  (next_integration_3_pixel_in_1 s pixel_in2)
/-- beta_integration.v:7943-7946. -/
@[netlist] def next_integration_3_pixel_in (s : S) (pixel_in1 : Nat) : Nat :=
  pixel_in1
/-- beta_integration.v:7984. -/
@[netlist] def integration_3_pixel_in (s : S) (pixel_in1 : Nat) : Nat :=
  (next_integration_3_pixel_in s pixel_in1)
/-- beta_integration.v:7939-7942. -/
@[netlist] def next_auto_reset_hs2_in (s : S) (busy_in : Bool) : Bool :=
  (w8 s busy_in)
/-- beta_integration.v:7985. -/
@[netlist] def auto_reset_hs2_in (s : S) (busy_in : Bool) : Bool :=
  (next_auto_reset_hs2_in s busy_in)
/-- beta_integration.v:7935-7938. -/
@[netlist] def next_auto_reset_hs1_in (s : S) (busy_in : Bool) : Bool :=
  (valid_out s busy_in)
/-- beta_integration.v:7986. -/
@[netlist] def auto_reset_hs1_in (s : S) (busy_in : Bool) : Bool :=
  (next_auto_reset_hs1_in s busy_in)
/-- beta_integration.v:7903-7906. -/
@[netlist] def next_auto_reset_end_in (s : S) (busy_in : Bool) : Bool :=
  (end_out s busy_in)
/-- beta_integration.v:7987. -/
@[netlist] def auto_reset_end_in (s : S) (busy_in : Bool) : Bool :=
  (next_auto_reset_end_in s busy_in)
/-- beta_integration.v:7859-7862. -/
@[netlist] def next_integration_3_rst (s : S) (full_rst : Bool) : Bool :=
  (w6 s full_rst)
/-- beta_integration.v:7988. -/
@[netlist] def integration_3_rst (s : S) (full_rst : Bool) : Bool :=
  (next_integration_3_rst s full_rst)

/-- beta_integration.v:7626-7990: one rising clock edge (`always @(posedge ...)`). -/
@[netlist] def step (s : S) (full_rst : Bool) (busy_in : Bool) (pixel_in1 : Nat) (pixel_in2 : Nat) (valid_in : Bool) : S :=
  { u_auto_reset := auto_reset.step s.u_auto_reset (auto_reset_hs2_in s busy_in) (auto_reset_end_in s busy_in) (integration_3_rst s full_rst) (auto_reset_hs1_in s busy_in)
    u_fix_0xff := fix_0xff.step s.u_fix_0xff (fix_0xff_valid_in s) (fix_0xff_end_in s) (fix_0xff_data_in s) (integration_3_rst s full_rst) (fix_0xff_i_busy s)
    u_fix_0xff2 := fix_0xff2.step s.u_fix_0xff2 (fix_0xff2_valid_in s) (fix_0xff2_data_in_ctr s) (fix_0xff2_data_in s) (fix_0xff2_end_in s) (integration_3_rst s full_rst) (fix_0xff2_i_busy s busy_in)
    u_integration_3 := integration_3.step s.u_integration_3 (integration_3_pixel_in_1 s pixel_in2) (integration_3_valid_in s valid_in) (integration_3_busy_in s) (integration_3_rst s full_rst) full_rst (integration_3_pixel_in s pixel_in1)
    u_markers := markers.step s.u_markers (markers_valid_in s) (markers_end_in s) (markers_force_end_in s) (markers_data_in s) (integration_3_rst s full_rst) (markers_i_busy s busy_in) }

/-- beta_integration.v:7626-7990: the initial values given in the netlist. -/
def Init (s : S) : Prop :=
  auto_reset.Init s.u_auto_reset ∧
  fix_0xff.Init s.u_fix_0xff ∧
  fix_0xff2.Init s.u_fix_0xff2 ∧
  integration_3.Init s.u_integration_3 ∧
  markers.Init s.u_markers

/-- beta_integration.v:7626-7990: a state with these initial values; registers without one are 0. -/
def powerUp : S :=
  { u_auto_reset := auto_reset.powerUp
    u_fix_0xff := fix_0xff.powerUp
    u_fix_0xff2 := fix_0xff2.powerUp
    u_integration_3 := integration_3.powerUp
    u_markers := markers.powerUp }

theorem powerUp_init : Init powerUp := ⟨auto_reset.powerUp_init, fix_0xff.powerUp_init, fix_0xff2.powerUp_init, integration_3.powerUp_init, markers.powerUp_init⟩

end top

end Netlist.Beta
