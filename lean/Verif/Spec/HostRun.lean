/- What is asked of a run of the host test program: memory use, DMA programming, verdict. -/
import Verif.Model.HostMain
import Verif.Spec.Raw12

set_option autoImplicit false

namespace Spec
open Model.HostMain Model.Host

/-- The memories there are, with their sizes in bytes. -/
abbrev Live := Region → Option Nat

def liveStep (live : Live) : Ev → Live
  | .malloc r n => fun r' => if r' = r then some n else live r'
  | .mmap r _ n => fun r' => if r' = r then some n else live r'
  | .free r => fun r' => if r' = r then none else live r'
  | _ => live

def liveAfter (t : List Ev) : Live := t.foldl liveStep fun _ => none

/-- The event touches only bytes of memories there are. -/
def Inside (live : Live) : Ev → Prop
  | .load r off n _ => ∃ size, live r = some size ∧ 0 ≤ off ∧ off + n ≤ size
  | .store r off n _ => ∃ size, live r = some size ∧ 0 ≤ off ∧ off + n ≤ size
  | .fread r n => ∃ size, live r = some size ∧ n ≤ size
  | .free r => live r ≠ none
  | _ => True

/-- A load or store of up to eight bytes is at a multiple of its size. -/
def Aligned : Ev → Prop
  | .load _ off n _ => off % n = 0
  | .store _ off n _ => n ≤ 8 → off % n = 0
  | _ => True

/-- The stores to registers of the Xilinx DMA engine: byte offset and value. -/
def dmaWrites (t : List Ev) : List (Int × Nat) :=
  t.filterMap fun e => match e with
    | .store .dma off _ v => some (off, v)
    | _ => none

/-- How simple-mode transfers are programmed: reset, stop, addresses, run/stop and interrupt bits, then the lengths, which
start the transfers; the receiving channel (registers from 0x30 on) always first. -/
def dmaScript (source dest received sent : Nat) : List (Int × Nat) :=
  [(0x30, 4), (0x00, 4), (0x30, 0), (0x00, 0), (0x48, dest), (0x18, source), (0x30, 0xf001), (0x00, 0xf001),
   (0x58, received), (0x28, sent)]

/-- Status of a channel that is done: interrupt on complete (bit 12) and idle (bit 1). -/
def dmaDone (v : Nat) : Prop := v.testBit 12 = true ∧ v.testBit 1 = true

/-- Everything printed by `log` and `print_vector`. -/
def said (t : List Ev) : List String :=
  t.filterMap fun e => match e with
    | .say x => some x
    | _ => none

/-- The source region holds the picture of the raw12 file: 64-bit words of four pixels, the first at the top. -/
def Holds64 (m : Int → Nat) (file : Nat → Nat) : Prop :=
  ∀ k, k < 4096 * 3072 / 4 → ∃ w, w = ldn m ((8 * k : Nat) : Int) 8 ∧ w < 2 ^ 64 ∧
    [w / 2 ^ 52 % 2 ^ 12, w / 2 ^ 40 % 2 ^ 12, w / 2 ^ 28 % 2 ^ 12, w / 2 ^ 16 % 2 ^ 12] =
    [raw12Pixel file (4 * k), raw12Pixel file (4 * k + 1), raw12Pixel file (4 * k + 2), raw12Pixel file (4 * k + 3)]

/-- The same in 32-bit words of two pixels. -/
def Holds32 (m : Int → Nat) (file : Nat → Nat) : Prop :=
  ∀ k, k < 4096 * 3072 / 2 → ∃ w, w = ldn m ((4 * k : Nat) : Int) 4 ∧ w < 2 ^ 32 ∧
    [w / 2 ^ 20 % 2 ^ 12, w / 2 ^ 8 % 2 ^ 12] = [raw12Pixel file (2 * k), raw12Pixel file (2 * k + 1)]

/-- A file of `len` bytes followed by zeros, the two bytes of each 16-bit word exchanged. -/
def swapped (file : Nat → Nat) (len k : Nat) : Nat :=
  let j := if k % 2 = 0 then k + 1 else k - 1
  if j < len then file j else 0

/-- The verdict of the comparison of the reference with the destination region, whose first 16 bytes are a marker. -/
inductive Verdict (dest ref : Nat → Nat) (len : Nat) : List String → Prop
  | ok : (∀ k, k < len → dest (16 + k) = ref k) → Verdict dest ref len ["Validation succeeded."]
  | word (i j : Nat) : 4 * i + 4 ≤ len → (∀ k, k < 4 * i → dest (16 + k) = ref k) → j < 4 → dest (16 + (4 * i + j)) ≠ ref (4 * i + j) →
      Verdict dest ref len ["Validation failed at word: " ++ toString i, "Dump core", "Dump lj92"]
  | byte (i : Nat) : i < len → (∀ k, k < i → dest (16 + k) = ref k) → dest (16 + i) ≠ ref i →
      Verdict dest ref len ["Validation failed at byte: " ++ toString i, "Dump core", "Dump lj92"]

/-- What `check_last_marker` prints. -/
def lastText : LastMark → String
  | .none => "No marker found."
  | .normal k => "normal marker found - offset is " ++ toString k ++ "."
  | .force k => "force marker found - offset is " ++ toString k ++ "."

/-- What the debug print shows, from the eight counters. -/
def debugText (l : List Nat) : List String :=
  "Debugging data." :: (debugExplain ++ (debugIdent.zip l).map fun e => e.1 ++ " : " ++ toString e.2)

/-- The value last stored at an offset of a register window. -/
def lastStore (r : Region) (off : Int) (t : List Ev) : Option Nat :=
  t.foldl (fun x e => match e with
    | .store r' off' _ v => if r' = r ∧ off' = off then some v else x
    | _ => x) none

end Spec
