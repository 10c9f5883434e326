/- Model of the decoder of liblj92/lj92.c (compiled without SLOW_HUFF, on a little-endian machine). Memory is modelled
as functions from indices; the input buffer may be read past its end (the C code does so), the bytes there are
arbitrary. `malloc`/`calloc` are taken to succeed. `int` values stay far below 2^31 and are `Nat` or `Int`. -/

set_option autoImplicit false

namespace Model.Lj92

/-- `while`: run `step` until it says stop (`none`); at most `fuel` turns, otherwise no result. -/
def whileN {σ : Type} (step : σ → Option σ) : Nat → σ → Option σ
  | 0, _ => none
  | n + 1, s => match step s with
    | none => some s
    | some s' => whileN step n s'

/-- `for (int k = 0; k < n; k++)` with a body that may fail. -/
def forN {σ : Type} (f : Nat → σ → Option σ) : Nat → σ → Option σ
  | 0, s => some s
  | n + 1, s => (forN f n s).bind (f n)

/-- Array store. -/
def put (a : Nat → Nat) (k v : Nat) : Nat → Nat := fun j => if j = k then v else a j

/-- The fields of `ljp` (lj92.c:39-72) that the decoder uses; `sssshist`, a statistic, is left out (its update at
lj92.c:365 stays inside the array for classes below 16). -/
structure Ljp where
  data : Nat → Nat
  datalen : Nat
  scanstart : Nat
  ix : Nat
  x : Nat
  y : Nat
  bits : Nat
  components : Nat
  skiplen : Nat
  hufflut : Nat → Nat
  huffbits : Nat
  cnt : Nat
  b : Nat
  image : Nat → Nat
  rowcache : Nat → Nat

/-- `BEH` (lj92.c:86): a big-endian 16-bit value. -/
def beh (data : Nat → Nat) (k : Nat) : Nat := data k * 256 + data (k + 1)

/-- `find` (lj92.c:74-84): the new `ix` and the marker, or nothing (-1). -/
def find (s : Ljp) : Option (Ljp × Nat) :=
  match whileN (fun ix => if s.data ix ≠ 0xFF ∧ ix + 1 < s.datalen then some (ix + 1) else none) (s.datalen + 1) s.ix with
  | none => none
  | some ix => if ix + 2 ≥ s.datalen then none else some ({ s with ix := ix + 2 }, s.data (ix + 1))

/-- The search for the highest used code length (lj92.c:220-224). -/
def maxbits (bits : Nat → Nat) : Nat → Nat
  | 0 => 0
  | n + 1 => if bits (n + 1) ≠ 0 then n + 1 else maxbits bits n

/-- Variables of the table loop (lj92.c:229-235). -/
structure Fill where
  i : Nat
  hv : Nat
  rv : Nat
  vl : Nat
  bitsused : Nat
  lut : Nat → Nat

/-- One turn of the table loop (lj92.c:239-262). -/
def fillStep (bits huffvals : Nat → Nat) (maxb : Nat) (f : Fill) : Option Fill :=
  if f.i < 2 ^ maxb then
    if f.bitsused > maxb then none
    else if f.vl ≥ bits f.bitsused then some { f with bitsused := f.bitsused + 1, vl := 0 }
    else if f.rv = 2 ^ (maxb - f.bitsused) then some { f with rv := 0, vl := f.vl + 1, hv := f.hv + 1 }
    else some { f with lut := put f.lut f.i (huffvals f.hv * 256 + f.bitsused), i := f.i + 1, rv := f.rv + 1 }
  else none

/-- `parseHuff` (lj92.c:88-94, 216-266). The byte before the code counts is overwritten with zero (line 92); `ix` is not
moved. `malloc`ed memory holds what it held before. -/
def parseHuff (s : Ljp) : Option Ljp :=
  let data := put s.data (s.ix + 2) 0
  if s.ix + beh data s.ix ≥ s.datalen then none
  else
    let bits := fun k => data (s.ix + 2 + k)
    let huffvals := fun k => data (s.ix + 19 + k)
    let maxb := maxbits bits 16
    match whileN (fillStep bits huffvals maxb) (2 ^ 18) ⟨0, 0, 0, 0, 1, s.hufflut⟩ with
    | none => none
    | some f => some { s with data := data, huffbits := maxb, hufflut := f.lut }

/-- `parseSof3` (lj92.c:268-276). -/
def parseSof3 (s : Ljp) : Option Ljp :=
  if s.ix + 6 ≥ s.datalen then none
  else some { s with y := beh s.data (s.ix + 3), x := beh s.data (s.ix + 5), bits := s.data (s.ix + 2),
                     components := s.data (s.ix + 7), ix := s.ix + beh s.data s.ix }

/-- `parseBlock` (lj92.c:278-282). -/
def parseBlock (s : Ljp) : Option Ljp :=
  if s.ix + beh s.data s.ix ≥ s.datalen then none else some { s with ix := s.ix + beh s.data s.ix }

/-- `parseImage` (lj92.c:595-619); end of image (`0xd9`) before a scan leaves `scanstart` unchanged. -/
def parseImage : Nat → Ljp → Option Ljp
  | 0, _ => none
  | n + 1, s =>
    match find s with
    | none => none
    | some (s, m) =>
      if m = 0xc4 then (parseHuff s).bind (parseImage n)
      else if m = 0xc3 then (parseSof3 s).bind (parseImage n)
      else if m = 0xfe then (parseBlock s).bind (parseImage n)
      else if m = 0xd9 then some s
      else if m = 0xda then some { s with scanstart := s.ix }
      else (parseBlock s).bind (parseImage n)

/-- `lj92_open` with `findSoI` (lj92.c:621-626, 650-684): `mem` is what the allocated memory for the look-up table held
before; `rowcache` comes from `calloc`. Each turn of `parseImage` moves `ix` by at least two. -/
def open' (data : Nat → Nat) (datalen : Nat) (mem : Nat → Nat) : Option Ljp :=
  let s : Ljp := { data := data, datalen := datalen, scanstart := 0, ix := 0, x := 0, y := 0, bits := 0, components := 0,
                   skiplen := 0, hufflut := mem, huffbits := 0, cnt := 0, b := 0, image := fun _ => 0, rowcache := fun _ => 0 }
  match find s with
  | none => none
  | some (s, m) => if m = 0xd8 then parseImage datalen s else none

/-- One refill (lj92.c:349-359, 370-379): two bytes appended to `b`, a 32-bit register (the
operands of `|` have no common bits, so it is written `+`); after an FF byte the next byte is
dropped. -/
def load (data : Nat → Nat) (v : Nat × Nat × Nat) : Nat × Nat × Nat :=
  let (b, cnt, ix) := v
  let one := data ix
  let two := data (ix + 1)
  let b := b * 2 ^ 16 % 2 ^ 32 + one * 2 ^ 8 + two
  if one = 0xFF then (b / 2 ^ 8, cnt + 16 - 8, ix + 2)
  else if two = 0xFF then (b, cnt + 16, ix + 2 + 1)
  else (b, cnt + 16, ix + 2)

/-- The refill loops: until there are `n` bits. -/
def refill (data : Nat → Nat) (n : Nat) (v : Nat × Nat × Nat) : Option (Nat × Nat × Nat) :=
  whileN (fun v => if v.2.1 < n then some (load data v) else none) 64 v

/-- `nextdiff` (lj92.c:337-397). `1<<(t-1)` with `t = 0` (lj92.c:383) is undefined in C; `ub` stands for whatever the
machine gives. -/
def nextdiff (ub : Int) (s : Ljp) : Option (Ljp × Int) :=
  match refill s.data s.huffbits (s.b, s.cnt, s.ix) with
  | none => none
  | some (b, cnt, ix) =>
    let index := b / 2 ^ (cnt - s.huffbits)
    let ssssused := s.hufflut index % 2 ^ 16
    let usedbits := ssssused % 2 ^ 8
    let t := ssssused / 2 ^ 8
    let cnt := cnt - usedbits
    let b := b % 2 ^ cnt
    match refill s.data t (b, cnt, ix) with
    | none => none
    | some (b, cnt, ix) =>
      let cnt := cnt - t
      let diff : Int := (b / 2 ^ cnt : Nat)
      let vt : Int := if t = 0 then ub else 2 ^ (t - 1)
      let diff := if diff < vt then diff + (-2 ^ t + 1) else diff
      some ({ s with b := b % 2 ^ cnt, cnt := cnt, ix := ix }, diff)

/-- Position of `thisrow` in `rowcache` in row `row` (lj92.c:519-520, 584-586, 667-668): the two rows start `x` apart and
are swapped after each row; `lastrow` is the other one. -/
def thisrow (s : Ljp) (row : Nat) : Nat := if row % 2 = 0 then 0 else s.x
def lastrow (s : Ljp) (row : Nat) : Nat := if row % 2 = 0 then s.x else 0

/-- The prediction (lj92.c:530-566); `left` is the value of the previous turn. -/
def px (s : Ljp) (pred : Nat) (left : Int) (row col c : Nat) : Int :=
  let m := fun k => (s.rowcache k : Int)
  let this := thisrow s row
  let last := lastrow s row
  let colx := col * s.components
  let prev := (col - 1) * s.components
  if col = 0 ∧ row = 0 then 2 ^ (s.bits - 1)
  else if row = 0 then m (this + (prev + c))
  else if col = 0 then m (last + c)
  else match pred with
    | 0 => 0
    | 1 => m (this + (prev + c))
    | 2 => m (last + (colx + c))
    | 3 => m (last + (prev + c))
    | 4 => left + m (last + (colx + c)) - m (last + (prev + c))
    | 5 => left + (m (last + (colx + c)) - m (last + (prev + c))) / 2
    | 6 => m (last + (colx + c)) + (left - m (last + (prev + c))) / 2
    | _ => (left + m (last + (colx + c))) / 2

/-- The linearization table and its length, arguments of `lj92_decode` (lj92.c:688, 695-696). -/
structure Lin where
  table : Nat → Nat
  len : Nat

/-- `linear` (lj92.c:428-431, 442-445, 466-470, 486-490, 572-577). -/
def linear (lin : Option Lin) (left : Nat) : Nat :=
  match lin with
  | none => left
  | some l => l.table left

/-- The test `left>self->linlen` (lj92.c:467, 487, 574). -/
def beyond (lin : Option Lin) (left : Nat) : Bool :=
  match lin with
  | none => false
  | some l => decide (left > l.len)

/-- The body of the innermost loop (lj92.c:529-581); `left` is carried along. Values beyond the linearization table are an
error. -/
def body (ub : Int) (lin : Option Lin) (pred row col c : Nat) (v : Ljp × Int) : Option (Ljp × Int) :=
  let (s, left) := v
  let p := px s pred left row col c
  match nextdiff ub s with
  | none => none
  | some (s, diff) =>
    let left := ((p + diff).tmod 65536) % 65536
    let k := col * s.components + c
    if beyond lin left.toNat then none
    else some ({ s with rowcache := put s.rowcache (thisrow s row + k) left.toNat
                        image := put s.image (row * (s.x * s.components + s.skiplen) + k) (linear lin left.toNat) }, left)

/-- `parseScan` (lj92.c:507-593), without the branch to `parsePred6` for predictor 6 (which is in `Model.Lj92Pred6`). -/
def parseScan (ub : Int) (lin : Option Lin) (s : Ljp) : Option Ljp :=
  let compcount := s.data (s.scanstart + 2)
  let pred := s.data (s.scanstart + 3 + 2 * compcount)
  if pred > 7 ∨ pred = 6 then none
  else
    let s := { s with ix := s.scanstart + beh s.data s.scanstart, cnt := 0, b := 0 }
    (forN (fun row => forN (fun col => forN (fun c => body ub lin pred row col c) s.components) s.x) s.y (s, 0)).map (·.1)

/-- `lj92_decode` (lj92.c:686-700) without a linearization table: `target` is the memory of the caller. -/
def decode (ub : Int) (s : Ljp) (target : Nat → Nat) (skip : Nat) : Option (Nat → Nat) :=
  (parseScan ub none { s with image := target, skiplen := skip }).map (·.image)

end Model.Lj92
