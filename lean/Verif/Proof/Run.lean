/- Running the pipeline on a list of cycles. -/
import Verif.Proof.Int1

set_option autoImplicit false

namespace Model
open Spec

/-- Induction on a list from its end. -/
theorem snoc_induction {α : Type} {P : List α → Prop} (h0 : P [])
    (h1 : ∀ l x, P l → P (l ++ [x])) (l : List α) : P l := by
  have : ∀ r : List α, P r.reverse := by
    intro r
    induction r with
    | nil => exact h0
    | cons x r ih => rw [List.reverse_cons]; exact h1 _ _ ih
  simpa using this l.reverse

/-- The last `L` items, youngest first, padded with `none`. -/
def window {α : Type} (L : Nat) (items : List (Option α)) : List (Option α) :=
  (items.reverse ++ List.replicate L none).take L

@[simp] theorem window_length {α : Type} (L : Nat) (items : List (Option α)) :
    (window L items).length = L := by simp [window]

theorem window_nil {α : Type} (L : Nat) : window L ([] : List (Option α)) = List.replicate L none := by
  simp [window]

theorem window_snoc {α : Type} (L : Nat) (items : List (Option α)) (x : Option α) :
    window L (items ++ [x]) = (x :: window L items).dropLast := by
  rw [List.dropLast_eq_take]
  simp only [List.length_cons, window_length, Nat.add_sub_cancel]
  unfold window
  rw [List.reverse_append, List.reverse_singleton, List.singleton_append, List.cons_append]
  cases L with
  | zero => simp
  | succ L =>
    rw [List.take_succ_cons, List.take_succ_cons, List.take_take]
    congr 2
    omega

theorem window_last {α : Type} (L : Nat) (items : List (Option α)) (hL : 0 < L)
    (hne : window L items ≠ []) :
    (window L items).getLast hne =
      if L ≤ items.length then items.getD (items.length - L) none else none := by
  rw [List.getLast_eq_getElem]
  simp only [window_length]
  unfold window
  rw [List.getElem_take]
  split
  · rename_i h
    rw [List.getElem_append_left (by simp; omega), List.getElem_reverse,
      List.getD_eq_getElem?_getD, List.getElem?_eq_getElem (by omega)]
    simp only [Option.getD_some]
    congr 1; omega
  · rw [List.getElem_append_right (by simp; omega)]
    simp

/-- One cycle of input to the pipeline. -/
structure StepIn where
  pixels : List Nat
  valid : Bool
deriving DecidableEq, Repr

/-- The pipeline from reset after the given cycles. -/
def runInt1 (c : Int1Cfg) (ins : List StepIn) : Int1 :=
  ins.foldl (fun s i => s.step c i.pixels i.valid) (Int1.init c)

/-- The pixels of all valid cycles, in order. -/
def acceptedPixels (ins : List StepIn) : List Nat :=
  ins.flatMap fun i => if i.valid then i.pixels else []

/-- Number of valid cycles. -/
def acceptedSteps (ins : List StepIn) : Nat := ins.countP (·.valid)

/-- Every valid cycle carries `ps` pixels of `bd` bits (port widths). -/
def WfIns (c : Int1Cfg) (ins : List StepIn) : Prop :=
  ∀ i ∈ ins, i.valid = true → i.pixels.length = c.ps ∧ ∀ x ∈ i.pixels, x < 2 ^ c.bd

/-- The item of each cycle. -/
def itemsOf (c : Int1Cfg) (C : Nat) (T : Table) (ins : List StepIn) : List Item :=
  (List.range ins.length).map fun n =>
    match ins[n]? with
    | none => none
    | some i => if i.valid then
        some (encodeFrom T c.bd c.W (acceptedPixels (ins.take n)) i.pixels,
          decide (acceptedSteps (ins.take (n + 1)) = C * c.H))
      else none

theorem itemsOf_snoc (c : Int1Cfg) (C : Nat) (T : Table) (ins : List StepIn) (i : StepIn) :
    itemsOf c C T (ins ++ [i]) = itemsOf c C T ins ++
      [if i.valid then some (encodeFrom T c.bd c.W (acceptedPixels ins) i.pixels,
          decide (acceptedSteps (ins ++ [i]) = C * c.H)) else none] := by
  unfold itemsOf
  rw [List.length_append, List.length_singleton, List.range_succ, List.map_append]
  congr 1
  · apply List.map_congr_left
    intro n hn
    have hn : n < ins.length := by simpa using hn
    rw [List.getElem?_append_left hn, List.take_append_of_le_length (by omega),
      List.take_append_of_le_length (by omega)]
  · simp only [List.map_cons, List.map_nil]
    rw [List.getElem?_append_right (by omega), List.take_left' rfl, List.take_of_length_le (by simp)]
    simp

theorem acceptedPixels_snoc (ins : List StepIn) (i : StepIn) :
    acceptedPixels (ins ++ [i]) = acceptedPixels ins ++ if i.valid then i.pixels else [] := by
  simp [acceptedPixels]

theorem acceptedSteps_snoc (ins : List StepIn) (i : StepIn) :
    acceptedSteps (ins ++ [i]) = acceptedSteps ins + if i.valid then 1 else 0 := by
  simp [acceptedSteps, List.countP_append, List.countP_cons]

theorem acceptedPixels_length {c : Int1Cfg} (l : List StepIn) (hw : WfIns c l) :
    (acceptedPixels l).length = c.ps * acceptedSteps l := by
  induction l with
  | nil => simp [acceptedPixels, acceptedSteps]
  | cons a l ih =>
    have := ih (fun j hj => hw j (by simp [hj]))
    have ha := hw a (by simp)
    simp only [acceptedPixels, List.flatMap_cons, List.length_append, acceptedSteps,
      List.countP_cons] at *
    rw [this]
    cases hav : a.valid with
    | false => simp
    | true => simp [(ha hav).1, Nat.mul_add]; omega

/-- After any list of cycles with no more steps than the frame has, the pipeline holds
exactly the last items. -/
theorem runInt1_rep {c : Int1Cfg} {C : Nat} {T : Table} (hok : Int1Ok c C T) (ins : List StepIn) :
    WfIns c ins → acceptedSteps ins ≤ C * c.H →
    Int1Rep c C T (acceptedPixels ins) (acceptedSteps ins)
      (window (5 + levels c.ps) (itemsOf c C T ins)) (runInt1 c ins) := by
  induction ins using snoc_induction with
  | h0 =>
    intro _ _
    have := int1Rep_init hok
    simpa [itemsOf, window_nil, acceptedPixels, acceptedSteps, runInt1] using this
  | h1 ins i ih =>
    intro hwf hle
    rw [acceptedSteps_snoc] at hle
    have ih := ih (fun j hj => hwf j (by simp [hj])) (by omega)
    have hrun : runInt1 c (ins ++ [i]) = (runInt1 c ins).step c i.pixels i.valid := by
      simp [runInt1]
    rw [hrun, itemsOf_snoc, window_snoc, acceptedPixels_snoc, acceptedSteps_snoc]
    cases hv : i.valid with
    | false => simpa using int1Rep_stall hok ih i.pixels
    | true =>
      obtain ⟨hp, hx⟩ := hwf i (by simp) hv
      have hk : acceptedSteps ins < C * c.H := by rw [hv] at hle; simp at hle; omega
      simpa [hv] using int1Rep_accept hok ih hp hx hk

end Model
