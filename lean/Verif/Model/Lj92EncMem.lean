/- Model of the memory accesses of the encoder of liblj92/lj92.c (compiled without DEBUG): the functions of Model.Lj92Enc once
more, with every access to the image, the delinearization table, the row cache, the arrays of eighteen entries and the output
buffer recorded in order. Several reads of the same array element in one condition or statement are recorded once. `malloc` and
`calloc` are taken to succeed; the scalar fields of the structure `lje` are not recorded. -/
import Verif.Model.Lj92Enc

set_option autoImplicit false

namespace Model.Lj92.Enc
open Model.Lj92

/-- The arrays: the caller's `image` and `delinearize`; `rowcache` (lj92.c:736, 1032: `width * 4` bytes, that is `2 * width`
samples; `rows` are pointers into it); `hist`, `bits`, `huffval`, `huffenc`, `huffbits`, `huffsym` of `lje` (lj92.c:722-727) and the
local `freq`, `codesize`, `others` (lj92.c:799-801), eighteen entries each; the buffer `encoded` (lj92.c:1173). -/
inductive Arr where
  | image | delin | rows | hist | bits | huffval | huffenc | huffbits | huffsym | freq | codesize | others | out
deriving DecidableEq, Repr

/-- An access: read or write, the array and the index. -/
inductive Acc where
  | rd (a : Arr) (k : Int)
  | wr (a : Arr) (k : Int)
deriving DecidableEq, Repr

/-- A computation: its accesses in order and how it ends. -/
structure TrE (α : Type) where
  accs : List Acc
  res : Except Err α

namespace TrE
variable {α β : Type}

def ret (a : α) : TrE α := ⟨[], .ok a⟩
def fail (e : Err) : TrE α := ⟨[], .error e⟩
def touch (l : List Acc) : TrE Unit := ⟨l, .ok ()⟩

def bind (m : TrE α) (f : α → TrE β) : TrE β :=
  match m.res with
  | .ok a => ⟨m.accs ++ (f a).accs, (f a).res⟩
  | .error e => ⟨m.accs, .error e⟩

instance : Monad TrE where
  pure := ret
  bind := bind

end TrE
open TrE

/-- `for (int k = 0; k < n; k++)`. -/
def forE {σ : Type} (f : Nat → σ → TrE σ) : Nat → σ → TrE σ
  | 0, s => ret s
  | n + 1, s => do
    let s ← forE f n s
    f n s

/-- `while` with at most `fuel` turns. -/
def whileE {σ : Type} (step : σ → TrE (Option σ)) : Nat → σ → TrE σ
  | 0, _ => fail .bad
  | n + 1, s => do
    match ← step s with
    | none => ret s
    | some s' => whileE step n s'

/-! ### The pixel loops -/

/-- `&rows[1][k]` as index of the row cache: the two pointers are exchanged whenever `row` is incremented
(lj92.c:738-739, 779-784). -/
def row1At (a : Args) (c : Cur) (k : Int) : Int := (if c.row % 2 = 0 then (a.width : Int) else 0) + k

/-- `&rows[0][k]` as index of the row cache. -/
def row0At (a : Args) (c : Cur) (k : Int) : Int := (if c.row % 2 = 0 then 0 else (a.width : Int)) + k

/-- `Px` (lj92.c:761-768, 1051-1058). -/
def predictT (a : Args) (c : Cur) : TrE Int :=
  if c.row = 0 ∧ c.col = 0 then ret (predict a c)
  else if c.row = 0 then do
    touch [.rd .rows (row1At a c (c.col - 1))]
    ret (predict a c)
  else if c.col = 0 then do
    touch [.rd .rows (row0At a c c.col)]
    ret (predict a c)
  else do
    touch [.rd .rows (row0At a c c.col), .rd .rows (row1At a c (c.col - 1)), .rd .rows (row0At a c (c.col - 1))]
    ret (predict a c)

/-- lj92.c:759-770, 1049-1060. -/
def diffOfT (a : Args) (c : Cur) (p : Nat) : TrE (Cur × Int) := do
  touch [.wr .rows (row1At a c c.col)]
  let c := { c with rows1 := put c.rows1 c.col p }
  let px ← predictT a c
  touch [.rd .rows (row1At a c c.col)]
  ret (c, ((c.rows1 c.col : Int) - px).tmod 65536)

/-- One pixel of `frequencyScan` (lj92.c:746-785). -/
def scanStepT (a : Args) (v : Cur × (Nat → Nat)) : TrE (Cur × (Nat → Nat)) := do
  touch [.rd .image v.1.pixel]
  let (c, diff) ← diffOfT a v.1 (a.image v.1.pixel)
  let ssss := ssssOf diff
  touch [.rd .hist ssss, .wr .hist ssss]
  ret (next a c, put v.2 ssss (v.2 ssss + 1))

/-- `frequencyScan` (lj92.c:730-796). -/
def frequencyScanT (a : Args) : TrE (Cur × (Nat → Nat)) := forE (fun _ => scanStepT a) (a.width * a.height) (Cur.init a, fun _ => 0)

/-! ### createEncodeTable -/

/-- All entries of an array are set (`memset`). -/
def clear (a : Arr) : List Acc := (List.range 18).map fun i : Nat => .wr a i

/-- lj92.c:804-815. -/
def initT (hist : Nat → Nat) (total : Nat) : TrE Tree := do
  touch ((List.range 17).flatMap fun i : Nat => [.rd .hist i, .wr .freq i, .wr .codesize i, .wr .others i])
  touch [.wr .codesize 17, .wr .others 17, .wr .freq 17]
  ret (Tree.init hist total)

/-- The search for `v1` (lj92.c:821-828). -/
def pick1T (freq : Nat → Nat) : TrE (Option Nat) := do
  touch ((List.range 18).map fun i : Nat => .rd .freq i)
  ret (pick1 freq).2

/-- The search for `v2` (lj92.c:832-840): `freq[v1]` is not read. -/
def pick2T (freq : Nat → Nat) (v1 : Option Nat) : TrE (Option Nat) := do
  touch (((List.range 18).filter fun i => some i ≠ v1).map fun i : Nat => .rd .freq i)
  ret (pick2 freq v1).2

/-- lj92.c:846-850, 852-856. -/
def lengthenT (others : Nat → Option Nat) : Nat → (Nat → Nat) → Nat → TrE ((Nat → Nat) × Nat)
  | 0, _, _ => fail .bad
  | n + 1, codesize, v => do
    touch [.rd .codesize v, .wr .codesize v, .rd .others v]
    let codesize := put codesize v (codesize v + 1)
    match others v with
    | none => ret (codesize, v)
    | some v => lengthenT others n codesize v

/-- One turn of the merge loop (lj92.c:820-857). Without a `v1` the index would be -1. -/
def mergeStepT (t : Tree) : TrE (Option Tree) := do
  let v1 ← pick1T t.freq
  match ← pick2T t.freq v1 with
  | none => ret none
  | some v2 =>
    match v1 with
    | none => do
      touch [.rd .freq (-1)]
      fail .bad
    | some v1 => do
      touch [.rd .freq v1, .rd .freq v2, .wr .freq v1, .wr .freq v2]
      let freq := put t.freq v1 (single (t.freq v1 + t.freq v2) 1)
      let freq := put freq v2 0
      let (codesize, v) ← lengthenT t.others 19 t.codesize v1
      touch [.wr .others v]
      let others := fun k => if k = v then some v2 else t.others k
      let (codesize, _) ← lengthenT others 19 codesize v2
      ret (some ⟨freq, codesize, others⟩)

/-- The merge loop (lj92.c:820-857). -/
def mergeT : Nat → Tree → TrE Tree
  | 0, _ => fail .bad
  | n + 1, t => do
    match ← mergeStepT t with
    | none => ret t
    | some t => mergeT n t

/-- `bits` (lj92.c:858-864). -/
def countBitsT (codesize : Nat → Nat) : TrE (Nat → Int) := do
  touch (clear .bits)
  touch ((List.range 18).flatMap fun i : Nat =>
    if codesize i ≠ 0 then [.rd .codesize i, .rd .bits (codesize i), .wr .bits (codesize i)] else [.rd .codesize i])
  ret (countBits codesize)

/-- The search for `J` (lj92.c:875-878); below index 0 it would go on with -1. -/
def findJT (bits : Nat → Int) : Nat → TrE Nat
  | 0 => do
    touch [.rd .bits 0]
    if bits 0 ≤ 0 then do
      touch [.rd .bits (-1)]
      fail .bad
    else ret 0
  | j + 1 => do
    touch [.rd .bits (j + 1 : Nat)]
    if bits (j + 1) ≤ 0 then findJT bits j else ret (j + 1)

/-- lj92.c:888-891; below index 0 it would go on with -1. -/
def dropOneT (bits : Nat → Int) : Nat → TrE (Nat → Int)
  | 0 => do
    touch [.rd .bits 0]
    if bits 0 = 0 then do
      touch [.rd .bits (-1)]
      fail .bad
    else do
      touch [.wr .bits 0]
      ret (upd bits 0 (bits 0 - 1))
  | i + 1 => do
    touch [.rd .bits (i + 1 : Nat)]
    if bits (i + 1) = 0 then dropOneT bits i
    else do
      touch [.wr .bits (i + 1 : Nat)]
      ret (upd bits (i + 1) (bits (i + 1) - 1))

/-- The adjustment (lj92.c:872-894). -/
def adjustT : Nat → (Nat → Int) → TrE (Nat → Int)
  | 0, _ => fail .bad
  | n + 1, bits => do
    touch [.rd .bits 17]
    if bits 17 > 0 then do
      let j ← findJT bits 15
      touch [.rd .bits 17, .wr .bits 17, .rd .bits 16, .wr .bits 16, .rd .bits (j + 1 : Nat), .wr .bits (j + 1 : Nat), .rd .bits j, .wr .bits j]
      let bits := upd bits 17 (bits 17 - 2)
      let bits := upd bits 16 (bits 16 + 1)
      let bits := upd bits (j + 1) (bits (j + 1) + 2)
      let bits := upd bits j (bits j - 1)
      adjustT n bits
    else dropOneT bits 16

/-- One turn of the inner loop of the sorting (lj92.c:906-911): `k` is the length of the list. -/
def sortStepT (codesize : Nat → Nat) (i j : Nat) (l : List Nat) : TrE (List Nat) := do
  touch [.rd .codesize j]
  if codesize j = i + 1 then do
    touch [.wr .huffval l.length]
    ret (l ++ [j])
  else ret l

/-- `huffval` (lj92.c:900-914). -/
def sortValsT (codesize : Nat → Nat) : TrE (List Nat) := do
  touch (clear .huffval)
  forE (fun i => forE (sortStepT codesize i) 17) 32 []

/-- `maxbits` (lj92.c:920-924). -/
def maxLenT (bits : Nat → Int) : Nat → TrE Nat
  | 0 => ret 0
  | n + 1 => do
    touch [.rd .bits (n + 1 : Nat)]
    if bits (n + 1) ≠ 0 then ret (n + 1) else maxLenT bits n

/-- One turn of the code loop (lj92.c:939-960). -/
def genStepT (bits : Nat → Int) (maxb : Nat) (g : Gen) : TrE (Option Gen) :=
  if g.i < 2 ^ maxb then
    if g.bitsused > maxb then ret none
    else do
      touch [.rd .bits g.bitsused]
      if (g.vl : Int) ≥ bits g.bitsused then ret (some { g with bitsused := g.bitsused + 1, vl := 0 })
      else if g.rv = 2 ^ (maxb - g.bitsused) then ret (some { g with rv := 0, vl := g.vl + 1 })
      else do
        touch [.wr .huffbits g.codes.length, .wr .huffenc g.codes.length]
        ret (some { g with codes := g.codes ++ [(g.bitsused, g.i / 2 ^ (maxb - g.bitsused))], i := g.i + 2 ^ (maxb - g.bitsused),
                           rv := 2 ^ (maxb - g.bitsused) })
  else ret none

/-- `huffsym` (lj92.c:961-972); the assignment is made twice. -/
def symbolsT (huffval : List Nat) (codes : List (Nat × Nat)) : TrE (Nat → Nat) := do
  touch ((List.range 18).flatMap fun i : Nat =>
    if (codes.getD i (0, 0)).1 > 0 then
      [.rd .huffbits i, .rd .huffval i, .wr .huffsym (huffval.getD i 0), .rd .huffbits i, .rd .huffval i, .wr .huffsym (huffval.getD i 0)]
    else [.rd .huffbits i, .rd .huffbits i])
  ret (symbols huffval codes)

/-- `createEncodeTable` (lj92.c:798-977). -/
def createEncodeTableT (hist : Nat → Nat) (total : Nat) : TrE Tab := do
  let t ← initT hist total
  let t ← mergeT 19 t
  let bits ← countBitsT t.codesize
  let bits ← adjustT 19 bits
  let huffval ← sortValsT t.codesize
  let maxb ← maxLenT bits 16
  touch (clear .huffenc ++ clear .huffbits ++ clear .huffsym)
  let g ← whileE (genStepT bits maxb) (2 ^ 18) ⟨0, 0, 0, 1, []⟩
  if g.codes.length ≤ 18 ∧ huffval.length ≤ 18 then do
    let sym ← symbolsT huffval g.codes
    ret ⟨bits, huffval, g.codes, sym⟩
  else fail .bad

/-! ### Output -/

/-- `writeHeader` (lj92.c:979-1017); the reads of the tables are recorded before the writes. -/
def writeHeaderT (a : Args) (t : Tab) : TrE (List Nat) := do
  let count := ((List.range 17).map t.bits).sum
  touch ((List.range 17).map fun i : Nat => .rd .bits i)
  touch ((List.range 16).map fun i : Nat => .rd .bits (i + 1 : Nat))
  touch ((List.range count.toNat).map fun i : Nat => .rd .huffval i)
  touch ((List.range (writeHeader a t).length).map fun i : Nat => .wr .out i)
  ret (writeHeader a t)

/-- `out[w++] = next; if (next==0xff) out[w++] = 0x0;` -/
def putT (s : Wr) : TrE (List Nat) := do
  touch [.wr .out s.out.length]
  if s.next = 0xff then do
    touch [.wr .out (s.out.length + 1 : Nat)]
    ret (s.out ++ [s.next] ++ [0])
  else ret (s.out ++ [s.next])

/-- lj92.c:1087-1097, 1109-1119. -/
def flushT (len : Nat) (s : Wr) : TrE Wr :=
  if s.nextbits = 0 then
    if s.out.length ≥ len - 1 then fail .encoder
    else do
      let out ← putT s
      ret ⟨0, 8, out⟩
  else ret s

/-- lj92.c:1079-1098, 1101-1120. -/
def emitT (len : Nat) : Nat → Nat → Nat → Wr → TrE Wr
  | fuel, v, n, s =>
    if n > 0 then
      match fuel with
      | 0 => fail .bad
      | fuel + 1 => do
        let usebits := if n > s.nextbits then s.nextbits else n
        let top := v >>> (n - usebits)
        let s ← flushT len ⟨(s.next ||| (top <<< (s.nextbits - usebits))) % 256, s.nextbits - usebits, s.out⟩
        emitT len fuel (v % 2 ^ (n - usebits)) (n - usebits) s
    else ret s

/-- The pixel value that is coded (lj92.c:1047-1048). -/
def valueT (a : Args) (k : Nat) : TrE Nat := do
  touch [.rd .image k]
  match a.delinearize with
  | none => ret (a.image k)
  | some f => do
    touch [.rd .delin (a.image k)]
    ret (f (a.image k))

/-- One pixel of `writeBody` (lj92.c:1047-1133). -/
def bodyStepT (a : Args) (t : Tab) (v : Cur × Wr) : TrE (Cur × Wr) := do
  let p ← valueT a v.1.pixel
  let (c, diff) ← diffOfT a v.1 p
  let ssss := ssssOf diff
  touch [.rd .huffsym ssss, .rd .huffenc (t.huffsym ssss), .rd .huffbits (t.huffsym ssss)]
  let code := t.codes.getD (t.huffsym ssss) (0, 0)
  let vt : Int := if ssss > 0 then 2 ^ (ssss - 1) else 0
  let diff := if diff < vt then diff + (2 ^ ssss - 1) else diff
  let s ← emitT a.encodedLength 16 code.2 code.1 v.2
  let s ← emitT a.encodedLength 16 diff.toNat ssss s
  ret (next a c, s)

/-- The loop of `writeBody`. -/
def bodyLoopT (a : Args) (t : Tab) : Nat → Cur × Wr → TrE (Cur × Wr)
  | 0, v => ret v
  | n + 1, v => do
    let v ← bodyStepT a t v
    bodyLoopT a t n v

/-- `writeBody` (lj92.c:1026-1151). -/
def writeBodyT (a : Args) (t : Tab) (out : List Nat) : TrE (List Nat) := do
  let (_, s) ← bodyLoopT a t (a.width * a.height) (Cur.init a, ⟨0, 8, out⟩)
  if s.nextbits < 8 then putT s else ret s.out

/-- `lj92_encode` (lj92.c:1156-1206) with `writePost` (lj92.c:1019-1024). -/
def encodeT (a : Args) : TrE (List Nat) := do
  let (_, hist) ← frequencyScanT a
  let t ← createEncodeTableT hist (a.width * a.height)
  let out ← writeHeaderT a t
  let out ← writeBodyT a t out
  touch [.wr .out out.length, .wr .out (out.length + 1 : Nat)]
  ret (out ++ [0xff, 0xd9])

end Model.Lj92.Enc
