#!/usr/bin/env python3
"""Runs the Lean model on the test files shipped in /repo/test_files (three 4096x10 images of 12 bits and their reference
encodings) and compares, byte by byte:
  spec   Spec.encode, Spec.stuff      with  <image>_headerless_nofix.lj92, <image>_headerless.lj92
  cycle  the cycle model of the beta core, with random stalls on both sides, with  <image>_headerless.lj92
  dec    the model of liblj92's decoder on <image>_pure.lj92 (first two rows) with  <image>
A test of the model, not a proof.  Needs a finished `lake build`.  Usage: files.py [spec] [cycle] [dec]"""
import os,subprocess,sys,tempfile
P={}
P['spec']=r'''import Verif.Spec.Jpeg
import Verif.Spec.Bytes
open Spec
def px (b : List UInt8) : List Nat := match b with
  | a :: c :: d :: r => (a.toNat * 16 + c.toNat / 16) :: (c.toNat % 16 * 256 + d.toNat) :: px r
  | _ => []
partial def pxA (b : ByteArray) (i : Nat) (acc : Array Nat) : Array Nat :=
  if i + 2 < b.size then
    let a := (b.get! i).toNat; let c := (b.get! (i+1)).toNat; let d := (b.get! (i+2)).toNat
    pxA b (i+3) ((acc.push (a * 16 + c / 16)).push (c % 16 * 256 + d))
  else acc
partial def toBytes (l : Array Bool) (i : Nat) (acc : Array Nat) : Array Nat :=
  if i < l.size then
    toBytes l (i+8) (acc.push ((List.range 8).foldl (fun n k => 2*n + (if l.getD (i+k) false then 1 else 0)) 0))
  else acc
def main : IO Unit := do
  for f in ["random.raw12","IT8Chart15ms.raw12","portrait-gainx2-offset2047-20ms-01.raw12"] do
    let raw ← IO.FS.readBinFile s!"/repo/test_files/{f}"
    let l := (pxA raw 0 #[]).toList
    let bits := encode defaultTable 12 4096 l
    let bytes := toBytes bits.toArray 0 #[]
    let nofix ← IO.FS.readBinFile s!"/repo/test_files/{f}_headerless_nofix.lj92"
    let fix ← IO.FS.readBinFile s!"/repo/test_files/{f}_headerless.lj92"
    let exp := nofix.toList.map (·.toNat)
    let n := (List.range (min bytes.size exp.length)).find? (fun i => bytes[i]! != nofix[i]!.toNat)
    IO.println s!"{f}: pixels {l.length} bits {bits.length} bytes {bytes.size} file {exp.length} first mismatch {n}"
    let st := (stuff bytes.toList).toArray
    let n2 := (List.range (min st.size fix.size)).find? (fun i => st[i]! != fix[i]!.toNat)
    IO.println s!"  stuffed {st.size} file {fix.size} first mismatch {n2} tail {nofix.toList.drop (nofix.size-4)} mine {bytes.toList.drop (bytes.size-4)}"
'''
P['cycle']=r'''import Verif.Props.Core
import Verif.Model.Beta
open Model
partial def pxA (b : ByteArray) (i : Nat) (acc : Array Nat) : Array Nat :=
  if i + 2 < b.size then
    let a := (b.get! i).toNat; let c := (b.get! (i+1)).toNat; let d := (b.get! (i+2)).toNat
    pxA b (i+3) ((acc.push (a * 16 + c / 16)).push (c % 16 * 256 + d))
  else acc
partial def go (c : CoreCfg) (l : Array Nat) (n : Nat) (s : Cam) (p rnd cyc : Nat) (ws : Array (Nat × Bool)) : Array (Nat × Bool) × Nat :=
  let rnd := (rnd * 1103515245 + 12345) % 2147483648
  let v := decide (rnd / 65536 % 20 ≠ 0) && decide (p + 1 < n)
  let busy := decide (rnd / 1024 % 8 = 0)
  let i : CamIn := ⟨[l.getD p 0, l.getD (p+1) 0], v, busy⟩
  let o := s.out busy
  let ws := if o.valid && !busy then ws.push (o.data, o.endd) else ws
  if o.valid && !busy && o.endd then (ws, cyc)
  else if cyc > 300000 then (ws, cyc)
  else go c l n (s.betaStep c 6666000 i) (if v && !s.nready then p + 2 else p) rnd (cyc+1) ws
def main : IO Unit := do
  for f in ["random.raw12","IT8Chart15ms.raw12","portrait-gainx2-offset2047-20ms-01.raw12"] do
    let raw ← IO.FS.readBinFile s!"/repo/test_files/{f}"
    let l := pxA raw 0 #[]
    let fix ← IO.FS.readBinFile s!"/repo/test_files/{f}_headerless.lj92"
    let c : CoreCfg := { Props.betaCore with int1 := { Props.betaCore.int1 with W := 4096, H := 10 } }
    let (ws, cyc) := go c l 40960 (.init c) 0 1 0 #[]
    let body := (ws.toList.drop 8).take (ws.size - 16)
    let bytes := (body.flatMap fun w => [w.1 / 256, w.1 % 256]).toArray
    let n := (List.range bytes.size).find? fun i => bytes[i]! != (fix.get! i).toNat
    IO.println s!"{f} cycles {cyc} words {ws.size} first mismatch {n} of {bytes.size} bytes; head {ws.toList.take 9} tail {ws.toList.drop (ws.size - 9)} file there {(fix.toList.drop (bytes.size-2)).take 4}"
'''
P['dec']=r'''import Verif.Model.Lj92
open Model.Lj92
partial def pxA (b : ByteArray) (i : Nat) (acc : Array Nat) : Array Nat :=
  if i + 2 < b.size then
    let a := (b.get! i).toNat; let c := (b.get! (i+1)).toNat; let d := (b.get! (i+2)).toNat
    pxA b (i+3) ((acc.push (a * 16 + c / 16)).push (c % 16 * 256 + d))
  else acc
@[noinline] def look (a : Array Nat) : Nat → Nat := fun i => a.getD i 0
def main : IO Unit := do
  for f in ["random.raw12","IT8Chart15ms.raw12","portrait-gainx2-offset2047-20ms-01.raw12"] do
    let raw ← IO.FS.readBinFile s!"/repo/test_files/{f}"
    let l := pxA raw 0 #[]
    let file ← IO.FS.readBinFile s!"/repo/test_files/{f}_pure.lj92"
    match open' (fun i => if i < file.size then (file.get! i).toNat else 0) file.size (fun _ => 0) with
    | none => IO.println "open fails"
    | some s =>
      IO.println s!"{f}: open {s.x} {s.y} {s.bits} {s.components} huffbits {s.huffbits}"
      let lut := (List.range (2 ^ s.huffbits)).toArray.map s.hufflut
      IO.println s!"lut {lut.size}"
      (← IO.getStdout).flush
      let s := { s with hufflut := look lut, y := 2 }
      match decode 0 s (fun _ => 0) 0 with
      | none => IO.println "decode fails"
      | some img =>
        let n := (List.range 8192).find? (fun i => img i != l[i]!)
        IO.println s!"decode mismatch {n}"
'''
here=os.path.dirname(os.path.abspath(__file__))
for k in sys.argv[1:] or list(P):
    with tempfile.NamedTemporaryFile('w',suffix='.lean',delete=False) as f: f.write(P[k])
    print('==',k,flush=True)
    subprocess.run(f'ulimit -s unlimited; lake env lean --run {f.name}',shell=True,cwd=here+'/../lean')
    os.unlink(f.name)
