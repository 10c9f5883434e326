/- Model of migen_src/predictor_p1_c4_px4.py and migen_src/predictor_p1_c4_pix1_2.py. -/

set_option autoImplicit false

namespace Model

/-- Registers of `PredictorP1C4Px4` (predictor_p1_c4_px4.py:68-80, 96, 102). -/
structure Px4 where
  buffs : List Nat
  lbuffs : List Nat
  pixelsOut : List Nat
  predicsOut : List Nat
  valid : Bool
  endd : Bool
deriving DecidableEq, Repr

namespace Px4

/-- Reset values: buffers at mid range. -/
def init (bd : Nat) : Px4 :=
  { buffs := List.replicate 4 (2 ^ (bd - 1)), lbuffs := List.replicate 4 (2 ^ (bd - 1))
    pixelsOut := List.replicate 4 0, predicsOut := List.replicate 4 0, valid := false, endd := false }

/-- One clock edge (predictor_p1_c4_px4.py:104-126). -/
def step (s : Px4) (pixels : List Nat) (newRow valid endd : Bool) : Px4 :=
  { buffs := if valid then pixels else s.buffs
    lbuffs := if valid && newRow then pixels else s.lbuffs
    pixelsOut := if valid then pixels else s.pixelsOut
    predicsOut := if valid then (if newRow then s.lbuffs else s.buffs) else s.predicsOut
    valid := valid
    endd := endd }

end Px4

/-- Registers of `PredictorP1C4Pix12` (predictor_p1_c4_pix1_2.py:66-84, 100-112);
`new_row_latch` is combinational. -/
structure Pix12 where
  buffs : List (List Nat)
  lbuffs : List (List Nat)
  buffCtr : Nat
  lbuffCtr : Nat
  newRowReg : Bool
  pixelsOut : List Nat
  predicsOut : List Nat
  valid : Bool
  endd : Bool
  debugCounter : Nat
deriving DecidableEq, Repr

namespace Pix12

/-- Number of buffer groups (predictor_p1_c4_pix1_2.py:61). -/
def gb (ps : Nat) : Nat := 4 / ps

/-- Reset values. -/
def init (bd ps : Nat) : Pix12 :=
  { buffs := List.replicate (gb ps) (List.replicate ps (2 ^ (bd - 1)))
    lbuffs := List.replicate (gb ps) (List.replicate ps (2 ^ (bd - 1)))
    buffCtr := 0, lbuffCtr := 0, newRowReg := false
    pixelsOut := List.replicate ps 0, predicsOut := List.replicate ps 0
    valid := false, endd := false, debugCounter := 0 }

/-- One clock edge (predictor_p1_c4_pix1_2.py:114-160).  The counters are
`Signal(max=gb)`, which is log2(gb) bits for gb = 2, 4, so they wrap at `gb`. -/
def step (ps : Nat) (s : Pix12) (pixels : List Nat) (newRow valid endd : Bool) : Pix12 :=
  let latch := newRow || s.newRowReg
  { buffs := if valid then s.buffs.set s.buffCtr pixels else s.buffs
    lbuffs := if valid && latch then s.lbuffs.set s.lbuffCtr pixels else s.lbuffs
    buffCtr := if valid then (s.buffCtr + 1) % gb ps else s.buffCtr
    lbuffCtr := if valid && latch then (s.lbuffCtr + 1) % gb ps else s.lbuffCtr
    newRowReg := if valid && newRow then true
      else if valid && s.lbuffCtr == gb ps - 1 then false else s.newRowReg
    pixelsOut := if valid then pixels else s.pixelsOut
    predicsOut := if valid then
        (if latch then s.lbuffs.getD s.lbuffCtr [] else s.buffs.getD s.buffCtr [])
      else s.predicsOut
    valid := valid
    endd := endd
    debugCounter := if valid then (s.debugCounter + 1) % 2 ^ 32 else s.debugCounter }

end Pix12

/-- The predictor of the core: chosen by `pixels_per_cycle` (integration_1.py:37-40). -/
inductive Predictor
  | px4 (s : Px4)
  | pix12 (s : Pix12)
deriving DecidableEq, Repr

namespace Predictor

/-- Reset state (integration_1.py:37-40). -/
def init (bd ps : Nat) : Predictor :=
  if ps = 4 then .px4 (Px4.init bd) else .pix12 (Pix12.init bd ps)

/-- One clock edge of the selected predictor. -/
def step (ps : Nat) (p : Predictor) (pixels : List Nat) (newRow valid endd : Bool) : Predictor :=
  match p with
  | .px4 s => .px4 (s.step pixels newRow valid endd)
  | .pix12 s => .pix12 (s.step ps pixels newRow valid endd)

/-- Output wires of the selected predictor (integration_1.py:109-113). -/
def pixelsOut : Predictor → List Nat
  | .px4 s => s.pixelsOut
  | .pix12 s => s.pixelsOut

@[inherit_doc pixelsOut] def predicsOut : Predictor → List Nat
  | .px4 s => s.predicsOut
  | .pix12 s => s.predicsOut

@[inherit_doc pixelsOut] def valid : Predictor → Bool
  | .px4 s => s.valid
  | .pix12 s => s.valid

@[inherit_doc pixelsOut] def endd : Predictor → Bool
  | .px4 s => s.endd
  | .pix12 s => s.endd

end Predictor
end Model
