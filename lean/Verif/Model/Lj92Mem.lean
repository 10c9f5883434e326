/- Model of the memory accesses of the decoder of liblj92/lj92.c (compiled without SLOW_HUFF): the functions of Model.Lj92 and
Model.Lj92Pred6 once more, with every access to the input buffer, the look-up table, the class histogram, the row buffers, the
linearization table and the target image recorded in order, and with "returns an error" told apart from "does not return".
`malloc`/`calloc` are taken to succeed; accesses to the fields of the structure `ljp` itself, except the array `sssshist`, are not recorded. -/
import Verif.Model.Lj92Pred6

set_option autoImplicit false

namespace Model.Lj92

/-- A memory access: the array and the index in it. `inR`/`inW`: the buffer given to `lj92_open`; `lutR`/`lutW`: `hufflut`, with
the number of entries it was allocated with (lj92.c:227; 0 while the pointer is NULL); `hist`: `sssshist`, an array of 16
(lj92.c:52, 365); `rowR`/`rowW`: `rowcache`; `linR`: the linearization table; `imgW`: the target image. -/
inductive Acc where
  | inR (k : Nat)
  | inW (k : Nat)
  | lutR (size k : Nat)
  | lutW (size k : Nat)
  | hist (k : Nat)
  | rowR (k : Nat)
  | rowW (k : Nat)
  | linR (k : Nat)
  | imgW (k : Nat)
deriving DecidableEq

/-- How a call ends: with a value, with an error code, or (in the model: a loop runs out of turns) not at all. -/
inductive Res (α : Type) where
  | ok (a : α)
  | err
  | hang

/-- A computation: its memory accesses in order and how it ends. -/
structure Tr (α : Type) where
  accs : List Acc
  res : Res α

namespace Tr
variable {α β : Type}

def ret (a : α) : Tr α := ⟨[], .ok a⟩
def fail : Tr α := ⟨[], .err⟩
def hang : Tr α := ⟨[], .hang⟩
def touch (l : List Acc) : Tr Unit := ⟨l, .ok ()⟩

def bind (m : Tr α) (f : α → Tr β) : Tr β :=
  match m.res with
  | .ok a => ⟨m.accs ++ (f a).accs, (f a).res⟩
  | .err => ⟨m.accs, .err⟩
  | .hang => ⟨m.accs, .hang⟩

instance : Monad Tr where
  pure := ret
  bind := bind

/-- The value, if there is one. -/
def value (m : Tr α) : Option α :=
  match m.res with
  | .ok a => some a
  | _ => none

end Tr

open Tr

/-- `while` with recorded accesses; no result after `fuel` turns. -/
def whileT {σ : Type} (step : σ → Tr (Option σ)) : Nat → σ → Tr σ
  | 0, _ => hang
  | n + 1, s => do
    match ← step s with
    | none => ret s
    | some s' => whileT step n s'

/-- `for (int k = 0; k < n; k++)`. -/
def forT {σ : Type} (f : Nat → σ → Tr σ) : Nat → σ → Tr σ
  | 0, s => ret s
  | n + 1, s => do
    let s ← forT f n s
    f n s

/-- `find` (lj92.c:74-84): the byte is read before the index is compared with the length. -/
def findT (s : Ljp) : Tr (Ljp × Nat) := do
  let ix ← whileT (fun ix => do
    touch [.inR ix]
    ret (if s.data ix ≠ 0xFF ∧ ix + 1 < s.datalen then some (ix + 1) else none)) (s.datalen + 1) s.ix
  if ix + 2 ≥ s.datalen then fail
  else
    touch [.inR (ix + 1)]
    ret ({ s with ix := ix + 2 }, s.data (ix + 1))

/-- The counts read in the search for the highest used code length (lj92.c:220-224); `at'` is the index of `bits[0]`. -/
def maxbitsAccs (at' : Nat) (bits : Nat → Nat) : Nat → List Acc
  | 0 => []
  | n + 1 => .inR (at' + (n + 1)) :: (if bits (n + 1) ≠ 0 then [] else maxbitsAccs at' bits n)

/-- One turn of the table loop (lj92.c:239-262); `at'` is the index of `bits[0]`, the values start 17 bytes later. -/
def fillStepT (at' : Nat) (bits huffvals : Nat → Nat) (maxb : Nat) (f : Fill) : Tr (Option Fill) :=
  if f.i < 2 ^ maxb then
    if f.bitsused > maxb then ret none
    else do
      touch [.inR (at' + f.bitsused)]
      if f.vl ≥ bits f.bitsused then ret (some { f with bitsused := f.bitsused + 1, vl := 0 })
      else if f.rv = 2 ^ (maxb - f.bitsused) then ret (some { f with rv := 0, vl := f.vl + 1, hv := f.hv + 1 })
      else
        touch [.inR (at' + 17 + f.hv), .lutW (2 ^ maxb) f.i]
        ret (some { f with lut := put f.lut f.i (huffvals f.hv * 256 + f.bitsused), i := f.i + 1, rv := f.rv + 1 })
  else ret none

/-- `parseHuff` (lj92.c:88-94, 216-266): the byte before the counts is overwritten before any length is checked (line 92).
The second component of the result is the number of entries of the new table (line 227). -/
def parseHuffT (s : Ljp) : Tr (Ljp × Nat) := do
  let data := put s.data (s.ix + 2) 0
  touch [.inW (s.ix + 2), .inR s.ix, .inR (s.ix + 1)]
  if s.ix + beh data s.ix ≥ s.datalen then fail
  else
    let bits := fun k => data (s.ix + 2 + k)
    let huffvals := fun k => data (s.ix + 19 + k)
    let maxb := maxbits bits 16
    touch (maxbitsAccs (s.ix + 2) bits 16)
    let f ← whileT (fillStepT (s.ix + 2) bits huffvals maxb) (2 ^ 18) ⟨0, 0, 0, 0, 1, s.hufflut⟩
    ret ({ s with data := data, huffbits := maxb, hufflut := f.lut }, 2 ^ maxb)

/-- `parseSof3` (lj92.c:268-276): reads up to `data[ix+7]`, the test is for `ix+6`. -/
def parseSof3T (s : Ljp) : Tr Ljp :=
  if s.ix + 6 ≥ s.datalen then fail
  else do
    touch [.inR (s.ix + 3), .inR (s.ix + 4), .inR (s.ix + 5), .inR (s.ix + 6), .inR (s.ix + 2), .inR (s.ix + 7), .inR s.ix, .inR (s.ix + 1)]
    ret { s with y := beh s.data (s.ix + 3), x := beh s.data (s.ix + 5), bits := s.data (s.ix + 2),
                 components := s.data (s.ix + 7), ix := s.ix + beh s.data s.ix }

/-- `parseBlock` (lj92.c:278-282). -/
def parseBlockT (s : Ljp) : Tr Ljp := do
  touch [.inR s.ix, .inR (s.ix + 1)]
  if s.ix + beh s.data s.ix ≥ s.datalen then fail else ret { s with ix := s.ix + beh s.data s.ix }

/-- `parseImage` (lj92.c:595-619); `n` is the number of entries of the look-up table so far. -/
def parseImageT : Nat → Ljp × Nat → Tr (Ljp × Nat)
  | 0, _ => hang
  | fuel + 1, (s, n) => do
    let (s, m) ← findT s
    if m = 0xc4 then do
      let r ← parseHuffT s
      parseImageT fuel r
    else if m = 0xc3 then do
      let s ← parseSof3T s
      parseImageT fuel (s, n)
    else if m = 0xfe then do
      let s ← parseBlockT s
      parseImageT fuel (s, n)
    else if m = 0xd9 then ret (s, n)
    else if m = 0xda then ret ({ s with scanstart := s.ix }, n)
    else do
      let s ← parseBlockT s
      parseImageT fuel (s, n)

/-- `lj92_open` with `findSoI` (lj92.c:621-626, 650-684): the structure and the number of entries of the look-up table. -/
def openT (data : Nat → Nat) (datalen : Nat) (mem : Nat → Nat) : Tr (Ljp × Nat) := do
  let s : Ljp := { data := data, datalen := datalen, scanstart := 0, ix := 0, x := 0, y := 0, bits := 0, components := 0,
                   skiplen := 0, hufflut := mem, huffbits := 0, cnt := 0, b := 0, image := fun _ => 0, rowcache := fun _ => 0 }
  let (s, m) ← findT s
  if m = 0xd8 then parseImageT datalen (s, 0) else fail

/-- The refill loops (lj92.c:347-359, 369-380): two bytes at a time (a 16-bit access, recorded as two). -/
def refillT (data : Nat → Nat) (n : Nat) (v : Nat × Nat × Nat) : Tr (Nat × Nat × Nat) :=
  whileT (fun v =>
    if v.2.1 < n then do
      touch [.inR v.2.2, .inR (v.2.2 + 1)]
      ret (some (load data v))
    else ret none) 64 v

/-- `nextdiff` (lj92.c:337-397). -/
def nextdiffT (ub : Int) (lutlen : Nat) (s : Ljp) : Tr (Ljp × Int) := do
  let (b, cnt, ix) ← refillT s.data s.huffbits (s.b, s.cnt, s.ix)
  let index := b / 2 ^ (cnt - s.huffbits)
  touch [.lutR lutlen index]
  let ssssused := s.hufflut index % 2 ^ 16
  let usedbits := ssssused % 2 ^ 8
  let t := ssssused / 2 ^ 8
  touch [.hist t]
  let cnt := cnt - usedbits
  let b := b % 2 ^ cnt
  let (b, cnt, ix) ← refillT s.data t (b, cnt, ix)
  let cnt := cnt - t
  let diff : Int := (b / 2 ^ cnt : Nat)
  let vt : Int := if t = 0 then ub else 2 ^ (t - 1)
  let diff := if diff < vt then diff + (-2 ^ t + 1) else diff
  ret ({ s with b := b % 2 ^ cnt, cnt := cnt, ix := ix }, diff)

/-- The reads of the row buffers for the prediction (lj92.c:530-566). -/
def pxAccs (s : Ljp) (pred row col c : Nat) : List Acc :=
  let this := thisrow s row
  let last := lastrow s row
  let colx := col * s.components
  let prev := (col - 1) * s.components
  if col = 0 ∧ row = 0 then []
  else if row = 0 then [.rowR (this + (prev + c))]
  else if col = 0 then [.rowR (last + c)]
  else match pred with
    | 0 => []
    | 1 => [.rowR (this + (prev + c))]
    | 2 => [.rowR (last + (colx + c))]
    | 3 => [.rowR (last + (prev + c))]
    | 4 => [.rowR (last + (colx + c)), .rowR (last + (prev + c))]
    | 5 => [.rowR (last + (colx + c)), .rowR (last + (prev + c))]
    | 6 => [.rowR (last + (colx + c)), .rowR (last + (prev + c))]
    | _ => [.rowR (last + (colx + c))]

/-- The read of the linearization table (lj92.c:428-429, 442-443, 468, 488, 575). -/
def linAccs (lin : Option Lin) (left : Nat) : List Acc :=
  match lin with
  | none => []
  | some _ => [.linR left]

/-- The body of the innermost loop (lj92.c:529-581). -/
def bodyT (ub : Int) (lin : Option Lin) (lutlen pred row col c : Nat) (v : Ljp × Int) : Tr (Ljp × Int) := do
  touch (pxAccs v.1 pred row col c)
  let p := px v.1 pred v.2 row col c
  let (s, diff) ← nextdiffT ub lutlen v.1
  let left := ((p + diff).tmod 65536) % 65536
  let k := col * s.components + c
  if beyond lin left.toNat then fail
  else
    touch (linAccs lin left.toNat)
    touch [.rowW (thisrow s row + k), .imgW (row * (s.x * s.components + s.skiplen) + k)]
    ret ({ s with rowcache := put s.rowcache (thisrow s row + k) left.toNat
                  image := put s.image (row * (s.x * s.components + s.skiplen) + k) (linear lin left.toNat) }, left)

/-- `parseScan` after the branch for predictor 6 (lj92.c:515-593). -/
def parseScanT (ub : Int) (lin : Option Lin) (lutlen : Nat) (pred : Nat) (s : Ljp) : Tr Ljp := do
  touch [.inR s.scanstart, .inR (s.scanstart + 1)]
  let s := { s with ix := s.scanstart + beh s.data s.scanstart, cnt := 0, b := 0 }
  let v ← forT (fun row => forT (fun col => forT (fun c => bodyT ub lin lutlen pred row col c) s.components) s.x) s.y (s, 0)
  ret v.1

/-- One sample of `parsePred6` with prediction `p`, for which the row buffer is read at `reads` (lj92.c:424-433, 438-447, 462-474, 481-492). -/
def put6T (ub : Int) (lin : Option Lin) (lutlen : Nat) (check : Bool) (row col : Nat) (p : Int) (reads : List Acc) (v : P6) : Tr P6 := do
  let (s, diff) ← nextdiffT ub lutlen v.s
  touch reads
  let left := (((p + diff).tmod 65536) % 65536).toNat
  if check && beyond lin left then fail
  else
    touch (linAccs lin left)
    touch [.rowW (thisrow s row + col), .imgW (v.out + v.c)]
    ret { v with s := { s with rowcache := put s.rowcache (thisrow s row + col) left
                               image := put s.image (v.out + v.c) (linear lin left) }
                 c := v.c + 1, left := left }

/-- `if (self->ix >= self->datalen) return ret` (lj92.c:434, 449). -/
def insideT (v : P6) : Tr P6 := if v.s.ix ≥ v.s.datalen then fail else ret v

/-- The rows of `parsePred6` after the first (lj92.c:460-502). -/
def rows6T (ub : Int) (lin : Option Lin) (lutlen writelen pixels : Nat) : Nat → Nat → P6 → Tr P6
  | 0, _, _ => hang
  | n + 1, row, v =>
    if v.c < pixels then do
      let v ← put6T ub lin lutlen true row 0 (v.s.rowcache (lastrow v.s row)) [.rowR (lastrow v.s row)] v
      if v.s.ix ≥ v.s.datalen then ret v
      else
        let v ← forT (fun k v => do
            let m := fun j => (v.s.rowcache (lastrow v.s row + j) : Int)
            let v ← put6T ub lin lutlen true row (k + 1) (m (k + 1) + ((v.left : Int) - m k) / 2)
              [.rowR (lastrow v.s row + (k + 1)), .rowR (lastrow v.s row + k)] v
            ret (step6 writelen v)) (v.s.x - 1) (step6 writelen v)
        if v.s.ix ≥ v.s.datalen then ret v else rows6T ub lin lutlen writelen pixels n (row + 1) v
    else ret v

/-- `parsePred6` (lj92.c:399-505), for at least one sample per line. -/
def parsePred6T (ub : Int) (lin : Option Lin) (lutlen writelen : Nat) (s : Ljp) : Tr Ljp := do
  touch [.inR s.scanstart, .inR (s.scanstart + 1)]
  let s := { s with ix := s.scanstart + beh s.data s.scanstart, cnt := 0, b := 0 }
  let v ← put6T ub lin lutlen false 0 0 (2 ^ (s.bits - 1)) [] ⟨s, 0, 0, writelen, 0⟩
  let v ← insideT v
  let v ← forT (fun k v => do
      let v ← put6T ub lin lutlen false 0 (k + 1) v.left [] v
      let v ← insideT v
      ret (step6 writelen v)) (s.x - 1) { v with write := v.write - 1 }
  let v ← rows6T ub lin lutlen writelen (s.y * s.x) (s.y + 1) 1 v
  if v.c ≥ s.y * s.x then ret v.s else fail

/-- `lj92_decode` with `parseScan` (lj92.c:507-514, 686-700): `lutlen` is the number of entries of the look-up table of `s`. -/
def decodeT (ub : Int) (s : Ljp) (lutlen : Nat) (target : Nat → Nat) (writelen skip : Nat) (lin : Option Lin) : Tr (Nat → Nat) := do
  let s : Ljp := { s with image := target, skiplen := skip }
  touch [.inR (s.scanstart + 2), .inR (s.scanstart + 3 + 2 * s.data (s.scanstart + 2))]
  let pred := s.data (s.scanstart + 3 + 2 * s.data (s.scanstart + 2))
  if pred > 7 then fail
  else if pred = 6 then do
    let s ← parsePred6T ub lin lutlen writelen s
    ret s.image
  else do
    let s ← parseScanT ub lin lutlen pred s
    ret s.image

end Model.Lj92
