/- Model of software/src/core_axi_lite.cpp: the register driver of the core. -/
import Verif.Spec.Bus
import Verif.Spec.Driver

set_option autoImplicit false

namespace Model
open Spec

/-- A driver function: loads and stores of 32-bit words at word offsets of the mapped register window. -/
inductive Prog (α : Type)
  | ret (a : α)
  | get (off : Nat) (k : Nat → Prog α)
  | set (off v : Nat) (k : Prog α)

namespace Prog

/-- Running a driver function over the bus: `__get` (core_axi_lite.cpp:111-114) is one read, `__set`
(core_axi_lite.cpp:106-109) one write with all strobes, at byte address four times the offset. The
bus answers (read data, response codes) are arbitrary here; `mmap` and the volatile pointer are
taken to turn each access into exactly one such transaction. -/
inductive Runs {α : Type} : Prog α → List BusEv → α → Prop
  | ret (a : α) : Runs (ret a) [] a
  | get {off d c : Nat} {k : Nat → Prog α} {es : List BusEv} {a : α} :
      Runs (k d) es a → Runs (get off k) (.ar (4 * off) :: .r d c :: es) a
  | set {off v c : Nat} {k : Prog α} {es : List BusEv} {a : α} :
      Runs k es a → Runs (set off v k) (.aw (4 * off) :: .w v 15 :: .b c :: es) a

end Prog

/-- core_axi_lite.h:7-8. -/
def SSSS_OFFSET : Nat := 0x400
def HW_OFFSET : Nat := 0x800

/-- core_axi_lite.cpp:17-21. -/
def getHeight {α : Type} (k : Nat → Prog α) : Prog α := .get HW_OFFSET fun v => k (v &&& 0xFFFF)
/-- core_axi_lite.cpp:23-26; the result is a `uint16_t`. -/
def getWidth {α : Type} (k : Nat → Prog α) : Prog α := .get HW_OFFSET fun v => k ((v >>> 16) % 2 ^ 16)
/-- core_axi_lite.cpp:28-31. -/
def getAllowedCycles {α : Type} (k : Nat → Prog α) : Prog α := .get (HW_OFFSET + 1) k
/-- core_axi_lite.cpp:89-93. -/
def setHeight {α : Type} (h : Nat) (k : Prog α) : Prog α := getWidth fun w => .set HW_OFFSET ((w <<< 16) ||| h) k
/-- core_axi_lite.cpp:95-99. -/
def setWidth {α : Type} (w : Nat) (k : Prog α) : Prog α := getHeight fun h => .set HW_OFFSET ((w <<< 16) ||| h) k
/-- core_axi_lite.cpp:101-104. -/
def setAllowedCycles {α : Type} (v : Nat) (k : Prog α) : Prog α := .set (HW_OFFSET + 1) v k

/-- The reading loop of `get_ssss` (core_axi_lite.cpp:36-46), two words a turn: `n` entries from entry `i`. -/
def readCodes {α : Type} : Nat → Nat → (List Nat → Prog α) → Prog α
  | 0, _, k => k []
  | n + 1, i, k =>
    .get (SSSS_OFFSET + 2 * i) fun lo => .get (SSSS_OFFSET + (2 * i + 1)) fun hi =>
      readCodes n (i + 1) fun l => k (((hi <<< 32) ||| lo) :: l)

/-- The decoding of one entry (core_axi_lite.cpp:49-57): code and length; the conversion to text is left out. -/
def decodeEntry (bd i e : Nat) : Nat × Nat :=
  let len := (e >>> (16 + bd)) % 2 ^ 32
  let mask := (2 ^ len - 1) % 2 ^ 32
  (if i = 16 then (e &&& mask) % 2 ^ 32 else ((e >>> i) &&& mask) % 2 ^ 32, len)

/-- `get_ssss` (core_axi_lite.cpp:33-61). -/
def getSsssProg {α : Type} (bd : Nat) (k : List (Nat × Nat) → Prog α) : Prog α :=
  readCodes bd 0 fun l => k (l.zipIdx.map fun e => decodeEntry bd e.2 e.1)

/-- A call of the public interface. -/
def callProg (bd : Nat) : DrvCall → Prog DrvReply
  | .getHeight => getHeight fun v => .ret (.num v)
  | .getWidth => getWidth fun v => .ret (.num v)
  | .getAllowedCycles => getAllowedCycles fun v => .ret (.num v)
  | .getSsss => getSsssProg bd fun l => .ret (.codes l)
  | .setHeight h => setHeight h (.ret .unit)
  | .setWidth w => setWidth w (.ret .unit)
  | .setAllowedCycles v => setAllowedCycles v (.ret .unit)

/-- A sequence of calls, the bus transfers one after the other. -/
inductive CallsRun (bd : Nat) : List DrvCall → List BusEv → List DrvReply → Prop
  | nil : CallsRun bd [] [] []
  | cons {c : DrvCall} {cs : List DrvCall} {es es' : List BusEv} {y : DrvReply} {ys : List DrvReply} :
      (callProg bd c).Runs es y → CallsRun bd cs es' ys → CallsRun bd (c :: cs) (es ++ es') (y :: ys)

end Model
