/- Model of the encoder of liblj92/lj92.c. `malloc`/`calloc` are taken to succeed; `int` values stay below 2^31 and are
`Nat` or `Int`. `e[w++] = …` only ever appends, so the output buffer is the list of the bytes written and `w` its
length. `float` is IEEE single precision, round to nearest even. -/
import Verif.Model.Lj92

set_option autoImplicit false

namespace Model.Lj92.Enc
open Model.Lj92

/-- How a run may end without a file: LJ92_ERROR_ENCODER, or (never, as proved) a loop that does not end or an access
outside an array. -/
inductive Err where
  | encoder
  | bad
deriving DecidableEq, Repr

/-- The arguments of `lj92_encode` (lj92.c:1156-1159); `image` and `delinearize` are memory, `delinearizeLength` is unused. -/
structure Args where
  image : Nat → Nat
  width : Nat
  height : Nat
  bitdepth : Nat
  readLength : Nat
  skipLength : Nat
  delinearize : Option (Nat → Nat)

/-- `self->encodedLength` (lj92.c:1172). -/
def Args.encodedLength (a : Args) : Nat := a.width * a.height * 3 + 200

/-- The variables of the pixel loops of `frequencyScan` (lj92.c:733-745) and `writeBody` (lj92.c:1029-1045): index of
`pixel`, `scan`, the two rows `rows[0]`, `rows[1]`, `col`, `row`. -/
structure Cur where
  pixel : Nat
  scan : Int
  rows0 : Nat → Nat
  rows1 : Nat → Nat
  col : Nat
  row : Nat

def Cur.init (a : Args) : Cur := ⟨0, a.readLength, fun _ => 0, fun _ => 0, 0, 0⟩

/-- `Px` (lj92.c:761-768, 1051-1058), after `rows[1][col] = p`. -/
def predict (a : Args) (c : Cur) : Int :=
  if c.row = 0 ∧ c.col = 0 then 2 ^ (a.bitdepth - 1)
  else if c.row = 0 then c.rows1 (c.col - 1)
  else if c.col = 0 then c.rows0 c.col
  else c.rows0 c.col + ((c.rows1 (c.col - 1) : Int) - c.rows0 (c.col - 1)) / 2

/-- `32 - __builtin_clz(abs(diff))`, and 0 for 0 (lj92.c:771-772, 1061-1062). -/
def ssssOf (diff : Int) : Nat := if diff = 0 then 0 else 32 - (31 - Nat.log2 diff.natAbs)

/-- The pixel `p` into the row, prediction and difference (lj92.c:759-770, 1049-1060). -/
def diffOf (a : Args) (c : Cur) (p : Nat) : Cur × Int :=
  let c := { c with rows1 := put c.rows1 c.col p }
  (c, ((c.rows1 c.col : Int) - predict a c).tmod 65536)

/-- To the next pixel (lj92.c:775-785, 1123-1133). -/
def next (a : Args) (c : Cur) : Cur :=
  let c := { c with pixel := c.pixel + 1, scan := c.scan - 1, col := c.col + 1 }
  let c := if c.scan = 0 then { c with pixel := c.pixel + a.skipLength, scan := a.readLength } else c
  if c.col = a.width then { c with rows0 := c.rows1, rows1 := c.rows0, col := 0, row := c.row + 1 } else c

/-- `frequencyScan` (lj92.c:730-796): the histogram; the delinearization (lines 748-758) is commented out there. -/
def frequencyScan (a : Args) : Option (Cur × (Nat → Nat)) :=
  forN (fun _ (c, hist) =>
    let p := a.image c.pixel
    let (c, diff) := diffOf a c p
    let ssss := ssssOf diff
    some (next a c, put hist ssss (hist ssss + 1))) (a.width * a.height) (Cur.init a, fun _ => 0)

/-! ### Single precision -/

/-- The integer nearest to `n / d`, ties to the even one. -/
def rne (n d : Nat) : Nat :=
  let q := n / d
  let r := n % d
  if 2 * r < d then q else if d < 2 * r then q + 1 else if q % 2 = 0 then q else q + 1

/-- `n / d` rounded to 24 significant bits; exact for integers below 2^24. For `n / d` from 2^23 on this is the IEEE single
precision rounding (no overflow, no subnormal numbers). -/
def single (n d : Nat) : Nat :=
  let e := Nat.log2 (n / d) - 23
  rne n (d * 2 ^ e) * 2 ^ e

/-- The unit in which frequencies are counted is 2^-60: a frequency is at least 2^-31, so all of them are multiples. -/
def one : Nat := 2 ^ 60

/-- `freq[i] = (float)(self->hist[i])/totalpixels` with `float totalpixels = width * height` (lj92.c:804-806). -/
def freqOf (hist total : Nat) : Nat := if hist = 0 then 0 else single (single hist 1 * one) (single total 1)

/-! ### createEncodeTable -/

/-- `freq`, `codesize`, `others` (-1 is `none`) (lj92.c:799-801). -/
structure Tree where
  freq : Nat → Nat
  codesize : Nat → Nat
  others : Nat → Option Nat

/-- lj92.c:804-815. -/
def Tree.init (hist : Nat → Nat) (total : Nat) : Tree :=
  ⟨fun i => if i = 17 then one else if i < 17 then freqOf (hist i) total else 0, fun _ => 0, fun _ => none⟩

/-- `v1` (lj92.c:821-828): the last of the smallest positive frequencies up to 3.0. -/
def pick1 (freq : Nat → Nat) : Nat × Option Nat :=
  (List.range 18).foldl (fun (f, v) i => if freq i ≤ f ∧ 0 < freq i then (freq i, some i) else (f, v)) (3 * one, none)

/-- `v2` (lj92.c:832-840): the first of the smallest positive frequencies below 3.0 of the others. -/
def pick2 (freq : Nat → Nat) (v1 : Option Nat) : Nat × Option Nat :=
  (List.range 18).foldl (fun (f, v) i => if some i = v1 then (f, v) else if freq i < f ∧ 0 < freq i then (freq i, some i) else (f, v)) (3 * one, none)

/-- The two inner loops (lj92.c:846-850, 852-856): one more bit for `v` and everything linked from it; the end of the
chain is returned. -/
def lengthen (others : Nat → Option Nat) : Nat → (Nat → Nat) → Nat → Option ((Nat → Nat) × Nat)
  | 0, _, _ => none
  | n + 1, codesize, v =>
    let codesize := put codesize v (codesize v + 1)
    match others v with
    | none => some (codesize, v)
    | some v => lengthen others n codesize v

/-- One turn of the merge loop (lj92.c:820-857); `ok none`: done. -/
def mergeStep (t : Tree) : Except Err (Option Tree) :=
  let v1 := (pick1 t.freq).2
  match (pick2 t.freq v1).2 with
  | none => .ok none
  | some v2 =>
    match v1 with
    | none => .error .bad
    | some v1 =>
      let freq := put t.freq v1 (single (t.freq v1 + t.freq v2) 1)
      let freq := put freq v2 0
      match lengthen t.others 19 t.codesize v1 with
      | none => .error .bad
      | some (codesize, v) =>
        let others := fun k => if k = v then some v2 else t.others k
        match lengthen others 19 codesize v2 with
        | none => .error .bad
        | some (codesize, _) => .ok (some ⟨freq, codesize, others⟩)

/-- The merge loop (lj92.c:820-857). -/
def merge : Nat → Tree → Except Err Tree
  | 0, _ => .error .bad
  | n + 1, t =>
    match mergeStep t with
    | .error e => .error e
    | .ok none => .ok t
    | .ok (some t) => merge n t

/-- `bits` (lj92.c:858-864). -/
def countBits (codesize : Nat → Nat) : Nat → Int :=
  (List.range 18).foldl (fun bits i => if codesize i ≠ 0 then fun k => if k = codesize i then bits k + 1 else bits k else bits) fun _ => 0

/-- The search for `J` (lj92.c:875-878), from the value `j` on downwards. -/
def findJ (bits : Nat → Int) : Nat → Option Nat
  | 0 => if bits 0 ≤ 0 then none else some 0
  | j + 1 => if bits (j + 1) ≤ 0 then findJ bits j else some (j + 1)

/-- Array update. -/
def upd (a : Nat → Int) (k : Nat) (v : Int) : Nat → Int := fun j => if j = k then v else a j

/-- Removal of one code of the greatest length (lj92.c:888-891). -/
def dropOne (bits : Nat → Int) : Nat → Option (Nat → Int)
  | 0 => if bits 0 = 0 then none else some (upd bits 0 (bits 0 - 1))
  | i + 1 => if bits (i + 1) = 0 then dropOne bits i else some (upd bits (i + 1) (bits (i + 1) - 1))

/-- The adjustment (lj92.c:872-894). `I` is 17 until there are no codes of 17 bits; then it becomes 16 and the loop ends with
the removal. -/
def adjust : Nat → (Nat → Int) → Except Err (Nat → Int)
  | 0, _ => .error .bad
  | n + 1, bits =>
    if bits 17 > 0 then
      match findJ bits 15 with
      | none => .error .bad
      | some j =>
        let bits := upd bits 17 (bits 17 - 2)
        let bits := upd bits 16 (bits 16 + 1)
        let bits := upd bits (j + 1) (bits (j + 1) + 2)
        let bits := upd bits j (bits j - 1)
        adjust n bits
    else match dropOne bits 16 with
      | none => .error .bad
      | some bits => .ok bits

/-- `huffval` (lj92.c:900-914): the classes ordered by code size; entries past the end are 0. -/
def sortVals (codesize : Nat → Nat) : List Nat :=
  (List.range 32).foldl (fun l i => (List.range 17).foldl (fun l j => if codesize j = i + 1 then l ++ [j] else l) l) []

/-- `maxbits` (lj92.c:920-924). -/
def maxLen (bits : Nat → Int) : Nat → Nat
  | 0 => 0
  | n + 1 => if bits (n + 1) ≠ 0 then n + 1 else maxLen bits n

/-- The variables of the code loop (lj92.c:931-938): `codes` holds the pairs (`huffbits`, `huffenc`) written so far, `sym` is
its length; `hv` is not used. -/
structure Gen where
  i : Nat
  rv : Nat
  vl : Nat
  bitsused : Nat
  codes : List (Nat × Nat)

/-- One turn of the code loop (lj92.c:939-960). -/
def genStep (bits : Nat → Int) (maxb : Nat) (g : Gen) : Option Gen :=
  if g.i < 2 ^ maxb then
    if g.bitsused > maxb then none
    else if (g.vl : Int) ≥ bits g.bitsused then some { g with bitsused := g.bitsused + 1, vl := 0 }
    else if g.rv = 2 ^ (maxb - g.bitsused) then some { g with rv := 0, vl := g.vl + 1 }
    else some { g with codes := g.codes ++ [(g.bitsused, g.i / 2 ^ (maxb - g.bitsused))], i := g.i + 2 ^ (maxb - g.bitsused),
                       rv := 2 ^ (maxb - g.bitsused) }
  else none

/-- What `createEncodeTable` leaves in `lje`: `bits`, `huffval`, (`huffbits`, `huffenc`), `huffsym`. -/
structure Tab where
  bits : Nat → Int
  huffval : List Nat
  codes : List (Nat × Nat)
  huffsym : Nat → Nat

/-- `huffsym` (lj92.c:961-972). -/
def symbols (huffval : List Nat) (codes : List (Nat × Nat)) : Nat → Nat :=
  (List.range 18).foldl (fun sym i => if (codes.getD i (0, 0)).1 > 0 then put sym (huffval.getD i 0) i else sym) fun _ => 0

/-- `createEncodeTable` (lj92.c:798-977). The arrays have eighteen entries. -/
def createEncodeTable (hist : Nat → Nat) (total : Nat) : Except Err Tab :=
  match merge 19 (Tree.init hist total) with
  | .error e => .error e
  | .ok t =>
    match adjust 19 (countBits t.codesize) with
    | .error e => .error e
    | .ok bits =>
      let huffval := sortVals t.codesize
      let maxb := maxLen bits 16
      match whileN (genStep bits maxb) (2 ^ 18) ⟨0, 0, 0, 1, []⟩ with
      | none => .error .bad
      | some g => if g.codes.length ≤ 18 ∧ huffval.length ≤ 18 then .ok ⟨bits, huffval, g.codes, symbols huffval g.codes⟩ else .error .bad

/-! ### Output -/

/-- Conversion to `uint8_t`. -/
def u8 (n : Int) : Nat := (n % 256).toNat

/-- `writeHeader` (lj92.c:979-1017). -/
def writeHeader (a : Args) (t : Tab) : List Nat :=
  let count := ((List.range 17).map t.bits).sum
  [0xff, 0xd8, 0xff, 0xc4, 0, u8 (17 + 2 + count), 0] ++
  (List.range 16).map (fun i => u8 (t.bits (i + 1))) ++
  (List.range count.toNat).map (fun i => u8 (t.huffval.getD i 0)) ++
  [0xff, 0xc3, 0, 11, u8 a.bitdepth, u8 (a.height / 256 : Nat), u8 (a.height % 256 : Nat), u8 (a.width / 256 : Nat), u8 (a.width % 256 : Nat), 1, 0, 0x11, 0] ++
  [0xff, 0xda, 0, 8, 1, 0, 0, 6, 0, 0]

/-- `next`, `nextbits` and the bytes written (lj92.c:1042-1045). -/
structure Wr where
  next : Nat
  nextbits : Nat
  out : List Nat

/-- A full byte is written, with a zero byte after FF, unless the buffer is full (lj92.c:1087-1097, 1109-1119). -/
def flush (len : Nat) (s : Wr) : Except Err Wr :=
  if s.nextbits = 0 then
    if s.out.length ≥ len - 1 then .error .encoder
    else .ok ⟨0, 8, s.out ++ [s.next] ++ (if s.next = 0xff then [0] else [])⟩
  else .ok s

/-- The bit loops (lj92.c:1079-1098, 1101-1120): the low `n` bits of `v`, most significant first. The turns are limited to
`fuel`. -/
def emit (len : Nat) : Nat → Nat → Nat → Wr → Except Err Wr
  | fuel, v, n, s =>
    if n > 0 then
      match fuel with
      | 0 => .error .bad
      | fuel + 1 =>
        let usebits := if n > s.nextbits then s.nextbits else n
        let top := v >>> (n - usebits)
        match flush len ⟨(s.next ||| (top <<< (s.nextbits - usebits))) % 256, s.nextbits - usebits, s.out⟩ with
        | .error e => .error e
        | .ok s => emit len fuel (v % 2 ^ (n - usebits)) (n - usebits) s
    else .ok s

/-- The pixel value that is coded (lj92.c:1047-1048). -/
def Args.value (a : Args) (k : Nat) : Nat :=
  match a.delinearize with
  | none => a.image k
  | some f => f (a.image k)

/-- One pixel of `writeBody` (lj92.c:1047-1133). `diff` is not negative when its bits are written. -/
def bodyStep (a : Args) (t : Tab) (c : Cur) (s : Wr) : Except Err (Cur × Wr) :=
  let (c, diff) := diffOf a c (a.value c.pixel)
  let ssss := ssssOf diff
  let code := t.codes.getD (t.huffsym ssss) (0, 0)
  let vt : Int := if ssss > 0 then 2 ^ (ssss - 1) else 0
  let diff := if diff < vt then diff + (2 ^ ssss - 1) else diff
  match emit a.encodedLength 16 code.2 code.1 s with
  | .error e => .error e
  | .ok s =>
    match emit a.encodedLength 16 diff.toNat ssss s with
    | .error e => .error e
    | .ok s => .ok (next a c, s)

/-- The loop of `writeBody`. -/
def bodyLoop (a : Args) (t : Tab) : Nat → Cur × Wr → Except Err (Cur × Wr)
  | 0, v => .ok v
  | n + 1, v =>
    match bodyStep a t v.1 v.2 with
    | .error e => .error e
    | .ok v => bodyLoop a t n v

/-- `writeBody` (lj92.c:1026-1151): the bytes so far and those of the scan. -/
def writeBody (a : Args) (t : Tab) (out : List Nat) : Except Err (List Nat) :=
  match bodyLoop a t (a.width * a.height) (Cur.init a, ⟨0, 8, out⟩) with
  | .error e => .error e
  | .ok (_, s) => .ok (if s.nextbits < 8 then s.out ++ [s.next] ++ (if s.next = 0xff then [0] else []) else s.out)

/-- `lj92_encode` (lj92.c:1156-1206) with `writePost` (lj92.c:1019-1024): the bytes of the file. -/
def encode (a : Args) : Except Err (List Nat) :=
  match frequencyScan a with
  | none => .error .bad
  | some (_, hist) =>
    match createEncodeTable hist (a.width * a.height) with
    | .error e => .error e
    | .ok t =>
      match writeBody a t (writeHeader a t) with
      | .error e => .error e
      | .ok out => .ok (out ++ [0xff, 0xd9])

end Model.Lj92.Enc
