/- Integration2: no overflow, conservation of the marked stream. -/
import Verif.Model.Integration2
import Verif.Proof.Fifo
import Verif.Proof.VBits
import Verif.Proof.Int1

set_option autoImplicit false

namespace Model
open Spec

/-- The constructors' assertions and the frame legality, in terms of steps per row `C`. -/
structure CoreOk (c : CoreCfg) (C : Nat) (T : Table) : Prop where
  int1 : Int1Ok c.int1 C T
  table : ∀ s, s ≤ c.int1.bd → T s ≠ []
  depth : 25 ≤ c.depth
  conv1 : 1 ≤ c.conv
  convT : c.conv ≤ c.total
  cdepth : c.csteps + 3 < c.cdepth
  out : 0 < c.out
  buf : c.conv + c.out ≤ c.buf

/-- A pipeline item in the marked stream. -/
def itemFlat : Item → List (Option Bool)
  | none => []
  | some (bits, e) => bits.map some ++ if e then [none] else []

/-- Items in the pipeline, oldest first, as a marked stream. -/
def itsFlat (its : List Item) : List (Option Bool) := its.reverse.flatMap itemFlat

/-- The marked stream of an image of which `k` steps have been accepted. -/
def marked (T : Table) (bd W : Nat) (hist : List Nat) (complete : Bool) : List (Option Bool) :=
  (encode T bd W hist).map some ++ if complete then [none] else []

theorem itsFlat_shift (its : List Item) (h : its ≠ []) (it : Item) :
    itemFlat (its.getLast h) ++ itsFlat ((it :: its).dropLast) = itsFlat its ++ itemFlat it := by
  have e : its = its.dropLast ++ [its.getLast h] := (List.dropLast_concat_getLast h).symm
  have e2 : (it :: its).dropLast = it :: its.dropLast := by
    cases its with
    | nil => exact absurd rfl h
    | cons a l => rfl
  rw [e2]
  conv => rhs; rw [e]
  simp [itsFlat]

theorem count_shift (its : List Item) (h : its ≠ []) (it : Item) :
    ((it :: its).dropLast).countP Option.isSome + (its.getLast h).isSome.toNat =
      its.countP Option.isSome + it.isSome.toNat := by
  have e : its = its.dropLast ++ [its.getLast h] := (List.dropLast_concat_getLast h).symm
  have e2 : (it :: its).dropLast = it :: its.dropLast := by
    cases its with
    | nil => exact absurd rfl h
    | cons a l => rfl
  rw [e2]
  conv => rhs; rw [e]
  rw [List.countP_cons, List.countP_append, List.countP_singleton]
  cases (its.getLast h).isSome <;> cases it.isSome <;> simp <;> omega

theorem encodeFrom_ne_nil {T : Table} {bd W : Nat} {hist px : List Nat} (hbd : 0 < bd)
    (hT : ∀ s, s ≤ bd → T s ≠ []) (hp : px ≠ []) (hx : ∀ x ∈ px, x < 2 ^ bd)
    (hh : ∀ x ∈ hist, x < 2 ^ bd) : encodeFrom T bd W hist px ≠ [] := by
  cases px with
  | nil => exact absurd rfl hp
  | cons x m =>
    simp only [encodeFrom]
    intro h
    have h1 := (List.append_eq_nil_iff.1 h).1
    unfold pixelBits diffBits at h1
    have h2 := (List.append_eq_nil_iff.1 h1).1
    exact hT _ (cls_le (diff_bound (hx x (by simp)) (pred_lt hbd hh _))) h2

namespace Int2

/-- Everything in flight in `Integration2`, oldest first. -/
def pend (c : CoreCfg) (s : Int2) (its : List Item) : List (Option Bool) :=
  Code.flats c.conv (s.cfifo.contents c.cdepth) ++ s.conv.outFlat ++ s.conv.rest c.conv ++
    Code.flats c.total (s.pfifo.contents c.depth) ++ itsFlat its

/-- Invariant of `Integration2` after `k` accepted steps with pixels `hist`, whose
in-pipeline items are `its`, when the stream `sent` has been taken from it. -/
structure Inv (c : CoreCfg) (C : Nat) (T : Table) (hist : List Nat) (k : Nat) (its : List Item)
    (s : Int2) (sent : List (Option Bool)) : Prop where
  int1 : Int1Rep c.int1 C T hist k its s.int1
  itsLen : its.length = 5 + levels c.int1.ps
  itsNe : ∀ b e, some (b, e) ∈ its → b ≠ []
  kle : k ≤ C * c.int1.H
  endReg : s.nreadyEndReg = decide (k = C * c.int1.H)
  endN : s.nreadyEnd = decide (k = C * c.int1.H)
  pinv : s.pfifo.Inv c.depth
  pok : ∀ n ∈ s.pfifo.contents c.depth, (Code.unpack c.total n).Ok c.total
  pcount : s.pfifo.level + its.countP Option.isSome ≤ c.depth - 2
  pfull : s.pFull = false → s.pfifo.level ≤ c.depth - 10
  conv : s.conv.Inv c.total c.conv
  cinv : s.cfifo.Inv c.cdepth
  cok : ∀ n ∈ s.cfifo.contents c.cdepth, (Code.unpack c.conv n).Ok c.conv
  ccount : s.cfifo.level + s.conv.valid.toNat + s.conv.todo ≤ c.cdepth - 1
  cburst : s.conv.latch = true →
    s.cfifo.level + s.conv.valid.toNat ≤ c.cdepth - c.csteps + 2
  cfull : s.cFull = false → s.cfifo.level ≤ c.cdepth - c.csteps
  stream : sent ++ pend c s its = marked T c.int1.bd c.int1.W hist (decide (k = C * c.int1.H))

theorem levels_le {ps : Nat} (h : ps = 1 ∨ ps = 2 ∨ ps = 4) : levels ps ≤ 2 := by
  rcases h with h | h | h <;> subst h <;> decide

theorem inv_reset {c : CoreCfg} {C : Nat} {T : Table} (hok : CoreOk c C T)
    {m : Kept} (hm : m.Ok c) :
    Inv c C T [] 0 (List.replicate (5 + levels c.int1.ps) none) (reset c m) [] := by
  have hd := hok.depth
  have hcd := hok.cdepth
  obtain ⟨hpm, hcm, hrp⟩ := hm
  have hC : C * c.int1.H ≠ 0 := by
    have h1 := hok.int1.frame.C2
    have h2 := hok.int1.frame.H1
    exact Nat.mul_ne_zero (by omega) (by omega)
  have hlev : ∀ m d, (Fifo.reset m d).level = 0 := fun _ _ => rfl
  have hcnt : (List.replicate (5 + levels c.int1.ps) (none : Item)).countP Option.isSome = 0 := by
    rw [List.countP_eq_zero]
    intro a ha
    rw [List.eq_of_mem_replicate ha]; simp
  refine ⟨int1Rep_reset hok.int1 hrp, by simp, ?_, by omega, ?_, ?_, Fifo.inv_reset _ _ (by omega) hpm,
    by simp [reset], ?_, by simp [reset, hlev], Converter.inv_init _ _,
    Fifo.inv_reset _ _ (by omega) hcm, by simp [reset], ?_, by simp [reset, Converter.init],
    by simp [reset, hlev], ?_⟩
  · intro b e h
    have := List.eq_of_mem_replicate h
    cases this
  · simp only [reset]; symm; simpa using Ne.symm hC
  · simp only [reset]; symm; simpa using Ne.symm hC
  · simp only [reset, hlev, hcnt]; omega
  · simp [reset, hlev, Converter.init, Converter.todo]
  · have h1 : itsFlat (List.replicate (5 + levels c.int1.ps) none) = [] := by
      unfold itsFlat
      rw [List.flatMap_eq_nil_iff]
      intro x hx
      rw [List.reverse_replicate] at hx
      rw [List.eq_of_mem_replicate hx]; rfl
    simp [pend, reset, h1, Converter.init, Converter.outFlat, Converter.rest, Converter.remaining,
      marked, encode, Ne.symm hC]

/-- The item accepted in a cycle. -/
def newItem (c : CoreCfg) (C : Nat) (T : Table) (hist : List Nat) (k : Nat) (px : List Nat)
    (acc : Bool) : Item :=
  if acc then some (encodeFrom T c.int1.bd c.int1.W hist px, decide (k + 1 = C * c.int1.H)) else none

theorem outRep_code {w : Nat} {m : Merger} {it : Item} (h : OutRep w m it)
    (hne : ∀ b e, it = some (b, e) → b ≠ []) :
    m.valid = it.isSome ∧ (m.valid = true → Code.Ok w ⟨m.enc, m.ctr, m.endd⟩) ∧
    (if m.valid then Code.flat ⟨m.enc, m.ctr, m.endd⟩ else []) = itemFlat it := by
  cases it with
  | none => have : m.valid = false := h; simp [this, itemFlat]
  | some be =>
    obtain ⟨b, e⟩ := be
    obtain ⟨h1, h2, h3, h4, h5⟩ := h
    refine ⟨by simp [h1], fun _ => ⟨h3, ?_, h4⟩, by simp [h1, itemFlat, Code.flat, h2, h5]⟩
    have := hne b e rfl
    have hl := congrArg List.length h5
    simp only [toBits_length] at hl
    simp only [hl]
    exact List.length_pos_iff.2 this

/-- One edge of `Integration2`. -/
theorem step_ok {c : CoreCfg} {C : Nat} {T : Table} (hok : CoreOk c C T) {hist : List Nat} {k : Nat}
    {its : List Item} {s : Int2} {sent : List (Option Bool)} (h : Inv c C T hist k its s sent)
    {px : List Nat} {v : Bool} (latch : Bool)
    (hwf : v = true → px.length = c.int1.ps ∧ ∀ x ∈ px, x < 2 ^ c.int1.bd) :
    Inv c C T (hist ++ if v && !s.nready then px else []) (k + (v && !s.nready).toNat)
      ((newItem c C T hist k px (v && !s.nready) :: its).dropLast) (s.step c px v latch)
      (sent ++ if latch && s.cfifo.readable then (s.out c).flat else []) := by
  have hd := hok.depth
  have hcd := hok.cdepth
  have hbd := hok.int1.bd2
  have hlv := levels_le hok.int1.ps
  have hne : its ≠ [] := by
    intro hh; have := h.itsLen; rw [hh] at this; simp at this; omega
  -- acceptance
  have hacc : (v && !s.nready) = true → k < C * c.int1.H ∧ s.pFull = false := by
    intro ha
    simp only [Bool.and_eq_true, Bool.not_eq_true', nready, Bool.or_eq_false_iff] at ha
    obtain ⟨_, ⟨h1, h2⟩, _⟩ := ha
    rw [h.endN] at h2
    have := h.kle
    simp only [decide_eq_false_iff_not] at h2
    exact ⟨by omega, h1⟩
  have hone := int1_out hok.int1 h.int1 hne
  obtain ⟨w1, w2, w3⟩ := outRep_code (w := c.total) hone
    (fun b e he => h.itsNe b e (he ▸ List.getLast_mem hne))
  have hint1 : Int1Rep c.int1 C T (hist ++ if v && !s.nready then px else [])
      (k + (v && !s.nready).toNat)
      ((newItem c C T hist k px (v && !s.nready) :: its).dropLast) (s.step c px v latch).int1 := by
    simp only [step]
    cases ha : (v && !s.nready) with
    | false =>
      simpa [newItem] using int1Rep_stall hok.int1 h.int1 px
    | true =>
      have hv : v = true := by simp only [Bool.and_eq_true] at ha; exact ha.1
      obtain ⟨p1, p2⟩ := hwf hv
      simpa [newItem] using int1Rep_accept hok.int1 h.int1 p1 p2 (hacc ha).1
  -- pipeline FIFO
  have hplev : s.pfifo.level ≤ c.depth - 2 := by have := h.pcount; omega
  have hpw : s.pfifo.writable c.depth = true := Fifo.writable_of_level (by omega)
  have hpc : (s.step c px v latch).pfifo.contents c.depth =
      (s.pfifo.contents c.depth).drop (if s.pfifo.readable && s.conv.latch then 1 else 0) ++
        if (s.int1.out c.int1).valid then
          [Code.pack c.total ⟨(s.int1.out c.int1).enc, (s.int1.out c.int1).ctr, (s.int1.out c.int1).endd⟩]
        else [] := by
    simp only [step]
    rw [Fifo.contents_step h.pinv, hpw, Bool.true_and]
  have hplev' : (s.step c px v latch).pfifo.level ≤ s.pfifo.level + (s.int1.out c.int1).valid.toNat :=
    Fifo.level_step h.pinv _ _ _
  -- converter FIFO
  have hcw : s.conv.valid = true → s.cfifo.writable c.cdepth = true := by
    intro hv
    have := h.ccount
    rw [hv] at this
    simp only [Bool.toNat_true] at this
    exact Fifo.writable_of_level (by omega)
  have hcc : (s.step c px v latch).cfifo.contents c.cdepth =
      (s.cfifo.contents c.cdepth).drop (if s.cfifo.readable && latch then 1 else 0) ++
        if s.conv.valid then [Code.pack c.conv s.conv.out] else [] := by
    simp only [step]
    rw [Fifo.contents_step h.cinv]
    congr 1
    cases hv : s.conv.valid
    · simp
    · simp [hcw hv]
  have hclev' : (s.step c px v latch).cfifo.level ≤ s.cfifo.level + s.conv.valid.toNat :=
    Fifo.level_step h.cinv _ _ _
  -- converter
  have hcin : s.pfifo.readable = true → (Code.unpack c.total s.pfifo.dout).Ok c.total := by
    intro hr
    apply h.pok
    rw [Fifo.contents_readable hr]; simp
  obtain ⟨v1, v2⟩ := Converter.step_ok (total := c.total) hok.conv1 h.conv (cf := s.cFull) hcin
  refine ⟨hint1, ?_, ?_, ?_, ?_, ?_, Fifo.inv_step h.pinv _ _ _, ?_, ?_, ?_, v1,
    Fifo.inv_step h.cinv _ _ _, ?_, ?_, ?_, ?_, ?_⟩
  · simp [h.itsLen]
  · intro b e hm
    have hm := (List.dropLast_sublist _).subset hm
    rcases List.mem_cons.1 hm with hm | hm
    · unfold newItem at hm
      split at hm
      · rename_i ha
        have hv : v = true := by simp only [Bool.and_eq_true] at ha; exact ha.1
        obtain ⟨p1, p2⟩ := hwf hv
        simp only [Option.some.injEq, Prod.mk.injEq] at hm
        rw [hm.1]
        apply encodeFrom_ne_nil (by omega) hok.table ?_ p2 h.int1.hbound
        intro hh; rw [hh] at p1
        have := hok.int1.ps
        simp at p1; omega
      · cases hm
    · exact h.itsNe b e hm
  · cases ha : (v && !s.nready) with
    | false => simpa using h.kle
    | true => have := (hacc ha).1; simp; omega
  · -- nreadyEndReg
    simp only [step, Bool.and_assoc]
    cases ha : (v && !s.nready) with
    | false => simp [h.endReg]
    | true =>
      have hk := (hacc ha).1
      rw [(sigRep_flags hok.int1.frame h.int1.sig hk).2]
      simp only [Bool.and_true, Bool.toNat_true, h.endReg]
      have hne' : ¬ k = C * c.int1.H := by omega
      simp [hne']
  · simp only [step, Bool.and_assoc]
    cases ha : (v && !s.nready) with
    | false => simp [h.endReg]
    | true =>
      have hk := (hacc ha).1
      rw [(sigRep_flags hok.int1.frame h.int1.sig hk).2]
      simp only [Bool.and_true, Bool.toNat_true, h.endReg]
      have hne' : ¬ k = C * c.int1.H := by omega
      simp [hne']
  · -- pok
    intro n hn
    rw [hpc] at hn
    rcases List.mem_append.1 hn with hn | hn
    · exact h.pok n (List.mem_of_mem_drop hn)
    · split at hn
      · rename_i hv
        simp only [List.mem_singleton] at hn
        rw [hn, Code.unpack_pack (w2 hv)]
        exact w2 hv
      · simp at hn
  · -- pcount
    have hcs := count_shift its hne (newItem c C T hist k px (v && !s.nready))
    have hle := List.countP_le_length (p := Option.isSome) (l := its)
    have hpc := h.pcount
    have hil := h.itsLen
    rw [← w1] at hcs
    cases ha : (v && !s.nready) with
    | false =>
      rw [ha] at hcs
      have : (newItem c C T hist k px false).isSome.toNat = 0 := rfl
      omega
    | true =>
      rw [ha] at hcs
      have : (newItem c C T hist k px true).isSome.toNat = 1 := rfl
      have := h.pfull (hacc ha).2
      omega
  · -- pfull
    intro hf
    simp only [step, ge_iff_le, decide_eq_false_iff_not, Nat.not_le] at hf
    have : (s.int1.out c.int1).valid.toNat ≤ 1 := Bool.toNat_le _
    omega
  · -- cok
    intro n hn
    rw [hcc] at hn
    rcases List.mem_append.1 hn with hn | hn
    · exact h.cok n (List.mem_of_mem_drop hn)
    · split at hn
      · rename_i hv
        simp only [List.mem_singleton] at hn
        rw [hn, Code.unpack_pack (h.conv.out hv)]
        exact h.conv.out hv
      · simp at hn
  · exact (Converter.count_step (D := c.cdepth) (S := c.csteps) rfl hcd hok.conv1 h.conv h.ccount h.cburst
      h.cfull hclev').1
  · exact (Converter.count_step (D := c.cdepth) (S := c.csteps) rfl hcd hok.conv1 h.conv h.ccount h.cburst
      h.cfull hclev').2
  · -- cfull
    intro hf
    simp only [step, ge_iff_le, decide_eq_false_iff_not, Nat.not_le] at hf
    have : s.conv.valid.toNat ≤ 1 := Bool.toNat_le _
    omega
  · -- stream
    have hst := h.stream
    have hshift := itsFlat_shift its hne (newItem c C T hist k px (v && !s.nready))
    have hcpop : (if latch && s.cfifo.readable then (s.out c).flat else []) ++
        Code.flats c.conv ((s.cfifo.contents c.cdepth).drop (if s.cfifo.readable && latch then 1 else 0)) =
        Code.flats c.conv (s.cfifo.contents c.cdepth) := by
      cases hr : s.cfifo.readable <;> cases latch <;> simp
      rw [Fifo.contents_readable hr, Code.flats_cons]; rfl
    have hppop : (if s.conv.latch && s.pfifo.readable then (Code.unpack c.total s.pfifo.dout).flat else []) ++
        Code.flats c.total ((s.pfifo.contents c.depth).drop (if s.pfifo.readable && s.conv.latch then 1 else 0)) =
        Code.flats c.total (s.pfifo.contents c.depth) := by
      cases hr : s.pfifo.readable <;> cases s.conv.latch <;> simp
      rw [Fifo.contents_readable hr, Code.flats_cons]; simp
    have hcpush : Code.flats c.conv (if s.conv.valid then [Code.pack c.conv s.conv.out] else []) =
        s.conv.outFlat := by
      unfold Converter.outFlat
      cases hv : s.conv.valid
      · simp
      · simp [Code.flats_pack (h.conv.out hv)]
    have hppush : Code.flats c.total (if (s.int1.out c.int1).valid then
        [Code.pack c.total ⟨(s.int1.out c.int1).enc, (s.int1.out c.int1).ctr, (s.int1.out c.int1).endd⟩]
        else []) = itemFlat (its.getLast hne) := by
      rw [← w3]
      cases hv : (s.int1.out c.int1).valid
      · simp
      · simp [Code.flats_pack (w2 hv)]
    have hconv : (s.step c px v latch).conv = s.conv.step c.total c.conv
      (.unpack c.total s.pfifo.dout) s.pfifo.readable s.cFull := rfl
    have hnew : marked T c.int1.bd c.int1.W (hist ++ if v && !s.nready then px else [])
        (decide (k + (v && !s.nready).toNat = C * c.int1.H)) =
        marked T c.int1.bd c.int1.W hist (decide (k = C * c.int1.H)) ++
          itemFlat (newItem c C T hist k px (v && !s.nready)) := by
      cases ha : (v && !s.nready) with
      | false => simp [newItem, itemFlat]
      | true =>
        have hk := (hacc ha).1
        have hne' : ¬ k = C * c.int1.H := by omega
        simp [marked, newItem, itemFlat, encode_append hok.int1.W4, hne']
    rw [hnew, ← hst]
    unfold pend
    rw [hcc, hpc, Code.flats_append, Code.flats_append, hcpush, hppush, hconv]
    simp only [List.append_assoc] at *
    congr 1
    rw [← List.append_assoc, hcpop]
    congr 2
    rw [← List.append_assoc, v2]
    rw [hshift, ← hppop]
    simp only [List.append_assoc]

end Int2
end Model
