/- Model of the fast path for predictor 6 of the decoder of liblj92/lj92.c. Conventions as in Model.Lj92. -/
import Verif.Model.Lj92

set_option autoImplicit false

namespace Model.Lj92

/-- Variables of `parsePred6` (lj92.c:405-421): `out` is the offset of the pointer `out` from `image`; the pointers
`thisrow`, `lastrow` follow from the row number. -/
structure P6 where
  s : Ljp
  c : Nat
  out : Nat
  write : Int
  left : Nat

/-- One sample with prediction `p` (lj92.c:424-433, 438-447, 462-474, 481-492); in the rows after the first (`check`) values
beyond the linearization table are an error. -/
def put6 (ub : Int) (lin : Option Lin) (check : Bool) (row col : Nat) (p : Int) (v : P6) : Option P6 :=
  match nextdiff ub v.s with
  | none => none
  | some (s, diff) =>
    let left := (((p + diff).tmod 65536) % 65536).toNat
    if check && beyond lin left then none
    else some { v with s := { s with rowcache := put s.rowcache (thisrow s row + col) left
                                     image := put s.image (v.out + v.c) (linear lin left) }
                       c := v.c + 1, left := left }

/-- `if (--write==0)` (lj92.c:450-453, 477-480, 493-496). -/
def step6 (writelen : Nat) (v : P6) : P6 :=
  if v.write - 1 = 0 then { v with out := v.out + v.s.skiplen, write := writelen } else { v with write := v.write - 1 }

/-- `if (self->ix >= self->datalen) return ret` (lj92.c:434, 449). -/
def inside (v : P6) : Option P6 := if v.s.ix ≥ v.s.datalen then none else some v

/-- The rows after the first (lj92.c:460-502), from row `row` on; at most `fuel` turns. -/
def rows6 (ub : Int) (lin : Option Lin) (writelen pixels : Nat) : Nat → Nat → P6 → Option P6
  | 0, _, _ => none
  | n + 1, row, v =>
    if v.c < pixels then
      match put6 ub lin true row 0 (v.s.rowcache (lastrow v.s row)) v with
      | none => none
      | some v =>
        if v.s.ix ≥ v.s.datalen then some v
        else
          match forN (fun k v =>
              let m := fun j => (v.s.rowcache (lastrow v.s row + j) : Int)
              (put6 ub lin true row (k + 1) (m (k + 1) + ((v.left : Int) - m k) / 2) v).map (step6 writelen)) (v.s.x - 1) (step6 writelen v) with
          | none => none
          | some v => if v.s.ix ≥ v.s.datalen then some v else rows6 ub lin writelen pixels n (row + 1) v
    else some v

/-- `parsePred6` (lj92.c:399-505), for at least one sample per line; `none` is LJ92_ERROR_CORRUPT. The first sample is counted
in `write` without the test for zero (line 435). -/
def parsePred6 (ub : Int) (lin : Option Lin) (writelen : Nat) (s : Ljp) : Option Ljp :=
  let s := { s with ix := s.scanstart + beh s.data s.scanstart, cnt := 0, b := 0 }
  match (put6 ub lin false 0 0 (2 ^ (s.bits - 1)) ⟨s, 0, 0, writelen, 0⟩).bind inside with
  | none => none
  | some v =>
    match forN (fun k v => ((put6 ub lin false 0 (k + 1) v.left v).bind inside).map (step6 writelen)) (s.x - 1) { v with write := v.write - 1 } with
    | none => none
    | some v =>
      match rows6 ub lin writelen (s.y * s.x) (s.y + 1) 1 v with
      | none => none
      | some v => if v.c ≥ s.y * s.x then some v.s else none

/-- `parseScan` with the fast path (lj92.c:507-514). -/
def parseAny (ub : Int) (lin : Option Lin) (writelen : Nat) (s : Ljp) : Option Ljp :=
  if s.data (s.scanstart + 3 + 2 * s.data (s.scanstart + 2)) = 6 then parsePred6 ub lin writelen s else parseScan ub lin s

/-- `lj92_decode` (lj92.c:686-700): `target` is the memory of the caller; the result is the memory afterwards, or nothing if
an error is reported. -/
def decodeAny (ub : Int) (s : Ljp) (target : Nat → Nat) (writelen skip : Nat) (lin : Option Lin) : Option (Nat → Nat) :=
  (parseAny ub lin writelen { s with image := target, skiplen := skip }).map (·.image)

end Model.Lj92
