/- Model of the decoder of liblj92/lj92.c compiled with SLOW_HUFF: Huffman codes are found by comparing with the largest code of each length, one
bit at a time, instead of with a look-up table. Conventions as in Model.Lj92; here in addition every access to an array that the slow path
allocates is checked, so that a result other than `none` says that none of them was left. -/
import Verif.Model.Lj92Pred6

set_option autoImplicit false

namespace Model.Lj92.Slow

/-- The tables of the slow path (lj92.c:55-61) that are kept: `maxcode`, `mincode`, `valptr` have seventeen entries, `huffval` has `nvals`. -/
structure Tab where
  maxcode : Nat → Int
  mincode : Nat → Int
  valptr : Nat → Int
  huffval : Nat → Nat
  nvals : Nat

/-- Lengths of the codes (lj92.c:112-142): the size of the array `huffsize` is counted first (`needed`), then the lengths are written, with a 0 at the
end; `hsix` is the next index. -/
def sizesNeeded (bits : Nat → Nat) : Option Nat :=
  forN (fun i n => forN (fun _ n => some (n + 1)) (bits (i + 1)) n) 16 1

def storeSize (needed v : Nat) (a : (Nat → Nat) × Nat) : Option ((Nat → Nat) × Nat) :=
  if a.2 < needed then some (put a.1 a.2 v, a.2 + 1) else none

def sizes (bits : Nat → Nat) (needed : Nat) : Option ((Nat → Nat) × Nat) :=
  (forN (fun i a => forN (fun _ a => storeSize needed (i + 1) a) (bits (i + 1)) a) 16 (fun _ => 0, 0)).bind (storeSize needed 0)

/-- The codes (lj92.c:144-184): the loop is run twice in C, once to count the codes, once to write them; here once, the result is the array and its
length. One turn of any of the inner loops per step, at most `fuel` steps. -/
def codes (huffsize : Nat → Nat) (needed : Nat) : Nat → Nat → Int → Nat → (Nat → Int) → Option ((Nat → Int) × Nat)
  | 0, _, _, _, _ => none
  | fuel + 1, k, code, si, a =>
    if k ≥ needed then none
    else if huffsize k = si then codes huffsize needed fuel (k + 1) (code + 1) si (fun j => if j = k then code else a j)
    else if huffsize k = 0 then some (a, k)
    else codes huffsize needed fuel k (code * 2) (si + 1) a

/-- One length in the table loop (lj92.c:199-215); `j` is the index of the next code. -/
def lengthStep (bits : Nat → Nat) (huffcode : Nat → Int) (n : Nat) (i : Nat) (v : Tab × Nat) : Option (Tab × Nat) :=
  let (t, j) := v
  if bits i ≠ 0 then
    if j + bits i - 1 < n then
      some ({ t with valptr := fun k => if k = i then j else t.valptr k
                     mincode := fun k => if k = i then huffcode j else t.mincode k
                     maxcode := fun k => if k = i then huffcode (j + bits i - 1) else t.maxcode k }, j + bits i - 1 + 1)
    else none
  else some ({ t with maxcode := fun k => if k = i then -1 else t.maxcode k }, j)

/-- `parseHuff` (lj92.c:88-215). A segment too short for its counts makes the size of the first `calloc` negative, which fails (line 96). `ix` is moved
past the segment. -/
def parseHuff (s : Ljp) : Option (Ljp × Tab) :=
  let data := put s.data (s.ix + 2) 0
  let hufflen := beh data s.ix
  if s.ix + hufflen ≥ s.datalen then none
  else if hufflen < 19 then none
  else
    let bits := fun k => data (s.ix + 2 + k)
    let huffval := fun k => if k < hufflen - 19 then data (s.ix + 19 + k) else 0
    (sizesNeeded bits).bind fun needed =>
    (sizes bits needed).bind fun (huffsize, _) =>
    (codes huffsize needed (needed + 20) 0 0 (huffsize 0) (fun _ => 0)).bind fun (huffcode, n) =>
    (forN (fun i => lengthStep bits huffcode n (i + 1)) 16
      (⟨fun _ => 0, fun _ => 0, fun _ => 0, huffval, hufflen - 19⟩, 0)).map fun (t, _) =>
      ({ s with data := data, ix := s.ix + hufflen }, t)

/-- `parseImage` (lj92.c:595-619); the tables come from the last DHT segment. -/
def parseImage : Nat → Ljp → Option Tab → Option (Ljp × Option Tab)
  | 0, _, _ => none
  | n + 1, s, t =>
    match find s with
    | none => none
    | some (s, m) =>
      if m = 0xc4 then (parseHuff s).bind fun (s, t) => parseImage n s (some t)
      else if m = 0xc3 then (parseSof3 s).bind fun s => parseImage n s t
      else if m = 0xfe then (parseBlock s).bind fun s => parseImage n s t
      else if m = 0xd9 then some (s, t)
      else if m = 0xda then some ({ s with scanstart := s.ix }, t)
      else (parseBlock s).bind fun s => parseImage n s t

/-- `lj92_open` with `findSoI` (lj92.c:621-626, 650-684). The fields `hufflut` and `huffbits` do not exist in this build. -/
def open' (data : Nat → Nat) (datalen : Nat) : Option (Ljp × Option Tab) :=
  let s : Ljp := { data := data, datalen := datalen, scanstart := 0, ix := 0, x := 0, y := 0, bits := 0, components := 0,
                   skiplen := 0, hufflut := fun _ => 0, huffbits := 0, cnt := 0, b := 0, image := fun _ => 0, rowcache := fun _ => 0 }
  match find s with
  | none => none
  | some (s, m) => if m = 0xd8 then parseImage datalen s none else none

/-- `nextbit` (lj92.c:285-301) on the fields `b`, `cnt`, `ix`: the bit and the new values. The byte after an FF byte is skipped. -/
def nextbit (data : Nat → Nat) (v : Nat × Nat × Nat) : Nat × (Nat × Nat × Nat) :=
  let (b, cnt, ix) := v
  let next := data ix
  let (b, cnt, ix) := if cnt = 0 then (next, 8, if next = 0xff then ix + 1 + 1 else ix + 1) else (b, cnt, ix)
  (b / 2 ^ 7, b * 2 % 2 ^ 8, cnt - 1, ix)

/-- The loop of `decode` (lj92.c:306-309): the length and the code found. -/
def search (t : Tab) (data : Nat → Nat) : Nat → Nat → Nat → Nat × Nat × Nat → Option (Nat × Nat × (Nat × Nat × Nat))
  | 0, _, _, _ => none
  | fuel + 1, i, code, v =>
    if i > 16 then none
    else if (code : Int) > t.maxcode i then
      let (bit, v) := nextbit data v
      search t data fuel (i + 1) (code * 2 + bit) v
    else some (i, code, v)

/-- `decode` (lj92.c:303-314). -/
def decodeClass (t : Tab) (data : Nat → Nat) (v : Nat × Nat × Nat) : Option (Nat × (Nat × Nat × Nat)) :=
  let (code, v) := nextbit data v
  match search t data 17 1 code v with
  | none => none
  | some (i, code, v) =>
    let j : Int := t.valptr i + code - t.mincode i
    if 0 ≤ j ∧ j < t.nvals then some (t.huffval j.toNat, v) else none

/-- `receive` (lj92.c:316-324). -/
def receive (data : Nat → Nat) : Nat → Nat × Nat × Nat → Nat × (Nat × Nat × Nat)
  | 0, v => (0, v)
  | n + 1, v =>
    let (r, v) := receive data n v
    let (bit, v) := nextbit data v
    (r * 2 + bit, v)

/-- `nextdiff` with `extend` (lj92.c:326-333, 338-342, 396). `1<<(t-1)` with `t = 0` is undefined in C; `ub` stands for whatever the machine gives. -/
def nextdiff (ub : Int) (t : Option Tab) (s : Ljp) : Option (Ljp × Int) :=
  match t with
  | none => none
  | some tab =>
    match decodeClass tab s.data (s.b, s.cnt, s.ix) with
    | none => none
    | some (t, v) =>
      let (diff, (b, cnt, ix)) := receive s.data t v
      let diff : Int := diff
      let vt : Int := if t = 0 then ub else 2 ^ (t - 1)
      let diff := if diff < vt then diff + (-2 ^ t + 1) else diff
      some ({ s with b := b, cnt := cnt, ix := ix }, diff)

/-- The body of the innermost loop (lj92.c:529-581), as `Model.Lj92.body`. -/
def body (ub : Int) (t : Option Tab) (lin : Option Lin) (pred row col c : Nat) (v : Ljp × Int) : Option (Ljp × Int) :=
  let (s, left) := v
  let p := px s pred left row col c
  match nextdiff ub t s with
  | none => none
  | some (s, diff) =>
    let left := ((p + diff).tmod 65536) % 65536
    let k := col * s.components + c
    if beyond lin left.toNat then none
    else some ({ s with rowcache := put s.rowcache (thisrow s row + k) left.toNat
                        image := put s.image (row * (s.x * s.components + s.skiplen) + k) (linear lin left.toNat) }, left)

/-- `parseScan` (lj92.c:507-593), without the branch to `parsePred6`. -/
def parseScan (ub : Int) (t : Option Tab) (lin : Option Lin) (s : Ljp) : Option Ljp :=
  let compcount := s.data (s.scanstart + 2)
  let pred := s.data (s.scanstart + 3 + 2 * compcount)
  if pred > 7 ∨ pred = 6 then none
  else
    let s := { s with ix := s.scanstart + beh s.data s.scanstart, cnt := 0, b := 0 }
    (forN (fun row => forN (fun col => forN (fun c => body ub t lin pred row col c) s.components) s.x) s.y (s, 0)).map (·.1)

/-! `parsePred6` (lj92.c:399-505), as in `Model.Lj92Pred6`. -/

def put6 (ub : Int) (t : Option Tab) (lin : Option Lin) (check : Bool) (row col : Nat) (p : Int) (v : P6) : Option P6 :=
  match nextdiff ub t v.s with
  | none => none
  | some (s, diff) =>
    let left := (((p + diff).tmod 65536) % 65536).toNat
    if check && beyond lin left then none
    else some { v with s := { s with rowcache := put s.rowcache (thisrow s row + col) left
                                     image := put s.image (v.out + v.c) (linear lin left) }
                       c := v.c + 1, left := left }

def rows6 (ub : Int) (t : Option Tab) (lin : Option Lin) (writelen pixels : Nat) : Nat → Nat → P6 → Option P6
  | 0, _, _ => none
  | n + 1, row, v =>
    if v.c < pixels then
      match put6 ub t lin true row 0 (v.s.rowcache (lastrow v.s row)) v with
      | none => none
      | some v =>
        if v.s.ix ≥ v.s.datalen then some v
        else
          match forN (fun k v =>
              let m := fun j => (v.s.rowcache (lastrow v.s row + j) : Int)
              (put6 ub t lin true row (k + 1) (m (k + 1) + ((v.left : Int) - m k) / 2) v).map (step6 writelen)) (v.s.x - 1) (step6 writelen v) with
          | none => none
          | some v => if v.s.ix ≥ v.s.datalen then some v else rows6 ub t lin writelen pixels n (row + 1) v
    else some v

def parsePred6 (ub : Int) (t : Option Tab) (lin : Option Lin) (writelen : Nat) (s : Ljp) : Option Ljp :=
  let s := { s with ix := s.scanstart + beh s.data s.scanstart, cnt := 0, b := 0 }
  match (put6 ub t lin false 0 0 (2 ^ (s.bits - 1)) ⟨s, 0, 0, writelen, 0⟩).bind inside with
  | none => none
  | some v =>
    match forN (fun k v => ((put6 ub t lin false 0 (k + 1) v.left v).bind inside).map (step6 writelen)) (s.x - 1) { v with write := v.write - 1 } with
    | none => none
    | some v =>
      match rows6 ub t lin writelen (s.y * s.x) (s.y + 1) 1 v with
      | none => none
      | some v => if v.c ≥ s.y * s.x then some v.s else none

/-- `parseScan` with its first branch (lj92.c:507-514). -/
def parseAny (ub : Int) (t : Option Tab) (lin : Option Lin) (writelen : Nat) (s : Ljp) : Option Ljp :=
  if s.data (s.scanstart + 3 + 2 * s.data (s.scanstart + 2)) = 6 then parsePred6 ub t lin writelen s else parseScan ub t lin s

/-- `lj92_decode` (lj92.c:686-700): `target` is the memory of the caller; the result is the memory afterwards, or nothing if an error is reported. -/
def decodeAny (ub : Int) (v : Ljp × Option Tab) (target : Nat → Nat) (writelen skip : Nat) (lin : Option Lin) : Option (Nat → Nat) :=
  (parseAny ub v.2 lin writelen { v.1 with image := target, skiplen := skip }).map (·.image)

end Model.Lj92.Slow
