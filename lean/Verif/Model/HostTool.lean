/- The host test program, software/src/xilinx_test.cpp: preparing the input and checking the output of the core. The
DMA transfers, the timing and the printing are left out; a printed verdict is the returned value. Memories are functions
from a (byte or word) index; a little-endian CPU. -/

set_option autoImplicit false

namespace Model.Host

/-- One store. -/
def upd (m : Nat → Nat) (a v : Nat) : Nat → Nat := fun k => if k = a then v else m k

/-- First pixel of three bytes (xilinx_test.cpp:176, 180, 199). -/
def pixA (base : Nat → Nat) (c : Nat) : Nat := (base c <<< 4) ||| ((base (c + 1) &&& 0xF0) >>> 4)

/-- Second pixel of three bytes (xilinx_test.cpp:177, 181, 200). -/
def pixB (base : Nat → Nat) (c : Nat) : Nat := ((base (c + 1) &&& 0x0F) <<< 8) ||| base (c + 2)

/-- Loop of `re_order_set_raw12_64bits` (xilinx_test.cpp:174-187) up to pixel `n`. -/
def loop64 (base : Nat → Nat) (n i counter8 counter64 : Nat) (dst : Nat → Nat) : Nat → Nat :=
  if i < n then
    let p1 := pixA base counter8
    let p2 := pixB base counter8
    let p3 := pixA base (counter8 + 3)
    let p4 := pixB base (counter8 + 3)
    loop64 base n (i + 4) (counter8 + 6) (counter64 + 1)
      (upd dst counter64 (((p1 <<< 52) ||| (p2 <<< 40) ||| (p3 <<< 28) ||| (p4 <<< 16)) % 2 ^ 64))
  else dst
termination_by n - i

/-- `re_order_set_raw12_64bits` (xilinx_test.cpp:167-188): the 64-bit words of the source region afterwards. -/
def reOrder64 (base dst : Nat → Nat) : Nat → Nat := loop64 base (4096 * 3072) 0 0 0 dst

/-- Loop of `re_order_set_raw12_32bits` (xilinx_test.cpp:197-206). -/
def loop32 (base : Nat → Nat) (n i counter8 counter32 : Nat) (dst : Nat → Nat) : Nat → Nat :=
  if i < n then
    let p1 := pixA base counter8
    let p2 := pixB base counter8
    loop32 base n (i + 2) (counter8 + 3) (counter32 + 1) (upd dst counter32 (((p1 <<< 20) ||| (p2 <<< 8)) % 2 ^ 32))
  else dst
termination_by n - i

/-- `re_order_set_raw12_32bits` (xilinx_test.cpp:190-207): the 32-bit words of the source region afterwards. -/
def reOrder32 (base dst : Nat → Nat) : Nat → Nat := loop32 base (4096 * 3072) 0 0 0 dst

/-- `divisible_2` (xilinx_test.cpp:234-240). -/
def divisible2 (num : Nat) : Nat := if num % 2 ≠ 0 then num + 1 else num

/-- Loop of `re_order_lj92` (xilinx_test.cpp:213-215) over byte pairs; `__builtin_bswap16` on each. -/
def swapLoop (len2 i : Nat) (file : Nat → Nat) : Nat → Nat :=
  if i < len2 then
    let a := 2 * (i / 2)
    let lo := file a
    let hi := file (a + 1)
    swapLoop len2 (i + 2) (upd (upd file a hi) (a + 1) lo)
  else file
termination_by len2 - i

/-- `re_order_lj92` (xilinx_test.cpp:209-216). The file is followed by 128 zero bytes (tools.cpp:42). -/
def reOrderLj92 (file : Nat → Nat) (len : Nat) : Nat → Nat := swapLoop (divisible2 len) 0 file

/-- A 32-bit load, little-endian. -/
def load32 (m : Nat → Nat) (a : Nat) : Nat := m a + 2 ^ 8 * m (a + 1) + 2 ^ 16 * m (a + 2) + 2 ^ 24 * m (a + 3)

/-- `check_first_marker` (xilinx_test.cpp:242-255): `true` is "marker found". -/
def checkFirst (dest : Nat → Nat) : Bool := (List.range 4).all fun i => load32 dest (4 * i) == 0xFFFFFFFF

/-- `__builtin_bswap32(0xFFFEFFFE)` (xilinx_test.cpp:262). -/
def forceWord : Nat := 0xFEFFFEFF

/-- The search loop of `check_last_marker` (xilinx_test.cpp:259-266), `n` iterations left. -/
def findLast (dest : Nat → Nat) : Nat → Nat → Nat
  | 0, offset => offset
  | n + 1, offset =>
    if load32 dest offset == 0xFFFFFFFF || load32 dest offset == forceWord then offset else findLast dest n (offset + 1)

/-- Verdict of `check_last_marker`. -/
inductive LastMark
  | none
  /-- "normal marker found - offset is …" -/
  | normal (offset : Nat)
  /-- "force marker found - offset is …" -/
  | force (offset : Nat)
deriving DecidableEq, Repr

/-- `check_last_marker` (xilinx_test.cpp:257-283). -/
def checkLast (dest : Nat → Nat) (size : Nat) : LastMark :=
  let offset := findLast dest 128 (size + 16)
  if (List.range 4).all fun i => load32 dest (offset + 4 * i) == 0xFFFFFFFF || load32 dest (offset + 4 * i) == forceWord then
    if load32 dest offset == 0xFFFFFFFF then .normal (offset - size - 16) else .force (offset - size - 16)
  else .none

/-- First loop of `validate` (xilinx_test.cpp:291-303): words `i` to `n - 1` agree. -/
def wordsAgree (dest lj92 : Nat → Nat) (n i : Nat) : Bool :=
  if i < n then
    if load32 dest (16 + 4 * i) != load32 lj92 (4 * i) then false else wordsAgree dest lj92 n (i + 1)
  else true
termination_by n - i

/-- Second loop of `validate` (xilinx_test.cpp:308-320) from `i` on. -/
def bytesAgree (dest lj92 : Nat → Nat) (len i : Nat) : Bool :=
  if i < len then
    if dest (16 + i) != lj92 i then false else bytesAgree dest lj92 len (i + 1)
  else true
termination_by len - i

/-- `validate` (xilinx_test.cpp:285-326): `true` is "Validation succeeded.". `length` is a `uint32_t` below 2^31, so the
start `length - 10` of the second loop wraps, and the comparison `i < length` is unsigned. -/
def validate (dest lj92 : Nat → Nat) (len : Nat) : Bool :=
  wordsAgree dest lj92 (len / 4) 0 && bytesAgree dest lj92 len ((len + 2 ^ 32 - 10) % 2 ^ 32)

end Model.Host
