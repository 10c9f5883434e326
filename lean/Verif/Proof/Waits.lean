/- How long the core makes the producer wait: the backlog in front of the packer against the cycles in which the packer takes nothing. -/
import Verif.Proof.Speed

set_option autoImplicit false

namespace Model
open Spec

namespace Waits

variable {c : CoreCfg} {C : Nat} {T : Table}

theorem level_exact {depth : Nat} {s : Fifo} (h : s.Inv depth) (we : Bool) (din : Nat) (re : Bool) (hw : we = true → s.level + 1 < depth) :
    (s.step depth we din re).level + (s.readable && re).toNat = s.level + we.toNat := by
  rw [← Fifo.contents_length depth, Fifo.contents_step h, ← Fifo.contents_length depth, List.length_append, List.length_drop]
  have hr : s.readable = true → 1 ≤ (s.contents depth).length := by
    intro hr; rw [Fifo.contents_readable hr]; simp
  cases we with
  | false => cases hrd : s.readable <;> cases re <;> simp <;> (have := hr hrd; omega)
  | true =>
    rw [Fifo.writable_of_level (hw rfl)]
    cases hrd : s.readable <;> cases re <;> simp <;> (have := hr hrd; omega)

theorem not_readable {depth : Nat} {s : Fifo} (we : Bool) (din : Nat) (re : Bool) :
    (s.step depth we din re).readable = false → (s.step depth we din re).inner.level ≤ 1 := by
  simp only [Fifo.step, Fifo.innerRe, SyncFifo.step]
  by_cases h0 : s.inner.level = 0
  · intro _
    simp [SyncFifo.readable, h0]
    split <;> omega
  · have : s.inner.readable = true := by simp [SyncFifo.readable, h0]
    simp only [this, Bool.true_and]
    cases s.readable <;> cases re <;> simp

/-- Words inside the core in front of the packer. -/
def backlog (its : List Item) (s : Int2) : Nat :=
  its.countP Option.isSome + s.pfifo.level + s.conv.validReg.toNat + s.conv.valid.toNat + s.cfifo.level

/-- All words are short, and the converter is never far behind the pipeline unless its FIFO is nearly full. -/
structure Held (c : CoreCfg) (L : Nat) (its : List Item) (s : Int2) : Prop where
  its : ∀ b e, some (b, e) ∈ its → b.length ≤ L
  pw : ∀ n ∈ s.pfifo.contents c.depth, (Code.unpack c.total n).ctr ≤ L
  reg : s.conv.validReg = true → s.conv.reg.ctr ≤ L
  out : s.conv.valid = true → s.conv.out.ctr ≤ L
  cw : ∀ n ∈ s.cfifo.contents c.cdepth, (Code.unpack c.conv n).ctr ≤ L
  pr : s.pfifo.readable = false → s.pfifo.inner.level ≤ 1
  cr : s.cfifo.readable = false → s.cfifo.inner.level ≤ 1
  pf : s.pFull = true → c.depth ≤ s.pfifo.level + 11
  cf : s.cFull = true → c.cdepth ≤ s.cfifo.level + c.csteps + 1
  bv : s.conv.fsm = .burst → s.conv.validReg = false → s.pfifo.inner.level ≤ 2
  cv : match s.conv.fsm with
    | .idle => (s.conv.validReg = false ∧ s.pfifo.inner.level ≤ 1) ∨
        c.cdepth ≤ s.cfifo.level + s.conv.valid.toNat + c.csteps + (if s.cFull then 1 else 2)
    | .burstPrepare => s.pfifo.inner.level ≤ 2 ∨ c.cdepth ≤ s.cfifo.level + s.conv.valid.toNat + c.csteps + 3
    | .burst => s.pfifo.inner.level ≤ 2 ∨ c.cdepth ≤ s.cfifo.level + s.conv.valid.toNat + c.csteps + 4
    | .steps _ => False

theorem held_starved (hc : c.csteps + 7 ≤ c.cdepth) {L : Nat} {its : List Item} {s : Int2} (h : Held c L its s)
    (hr : s.cfifo.readable = false) : s.pfifo.level ≤ 3 ∧ s.cfifo.level ≤ 1 := by
  have h1 := h.cr hr
  have hl : s.cfifo.level = s.cfifo.inner.level := by simp [Fifo.level, hr]
  have h2 : s.pfifo.level ≤ s.pfifo.inner.level + 1 := by
    unfold Fifo.level; have := Bool.toNat_le s.pfifo.readable; omega
  have h3 := Bool.toNat_le s.conv.valid
  have hcv := h.cv
  refine ⟨?_, by omega⟩
  cases hf : s.conv.fsm <;> rw [hf] at hcv <;> simp only at hcv
  · split at hcv <;> omega
  · omega
  · omega

theorem held_step (hok : CoreOk c C T) {L : Nat} (hLc : L ≤ c.conv)
    {hist : List Nat} {k : Nat} {its : List Item} {s : Int2} {recv : List (Option Bool)}
    (h1 : Int2.Inv c C T hist k its s recv) (h : Held c L its s) (px : List Nat) (v latch : Bool)
    (hnew : (v && !s.nready) = true → (encodeFrom T c.int1.bd c.int1.W hist px).length ≤ L) :
    Held c L ((Int2.newItem c C T hist k px (v && !s.nready) :: its).dropLast) (s.step c px v latch) ∧
    backlog ((Int2.newItem c C T hist k px (v && !s.nready) :: its).dropLast) (s.step c px v latch) + (s.cfifo.readable && latch).toNat ≤
      backlog its s + (v && !s.nready).toNat := by
  have hd := hok.depth
  have hcd := hok.cdepth
  have hne : its ≠ [] := by
    intro hh; have := h1.itsLen; rw [hh] at this; simp at this; omega
  have hone := int1_out hok.int1 h1.int1 hne
  obtain ⟨w1, w2, w3⟩ := Int2.outRep_code (w := c.total) hone
    (fun b e he => h1.itsNe b e (he ▸ List.getLast_mem hne))
  -- items
  have hits : its.countP Option.isSome = its.dropLast.countP Option.isSome + (s.int1.out c.int1).valid.toNat := by
    conv => lhs; rw [← List.dropLast_concat_getLast hne]
    rw [List.countP_append, List.countP_singleton, w1]
    cases (its.getLast hne).isSome <;> rfl
  have hitsN : ((Int2.newItem c C T hist k px (v && !s.nready) :: its).dropLast).countP Option.isSome =
      its.dropLast.countP Option.isSome + (v && !s.nready).toNat := by
    rw [List.dropLast_cons_of_ne_nil hne, List.countP_cons]
    unfold Int2.newItem
    cases (v && !s.nready) <;> simp
  -- fifo levels
  have hpl := level_exact h1.pinv (s.int1.out c.int1).valid
    (Code.pack c.total ⟨(s.int1.out c.int1).enc, (s.int1.out c.int1).ctr, (s.int1.out c.int1).endd⟩) s.conv.latch (by
      intro hv
      have := h1.pcount
      rw [hits, hv] at this
      simp at this
      omega)
  have hcl := level_exact h1.cinv s.conv.valid (Code.pack c.conv s.conv.out) latch (by
      intro hv
      have := h1.ccount
      rw [hv] at this
      simp at this
      omega)
  have hpr : s.pfifo.readable = true → (Code.unpack c.total s.pfifo.dout).ctr ≤ L := by
    intro hr
    apply h.pw
    rw [Fifo.contents_readable hr]; simp
  have hlatch := h1.conv.latch
  have hprep := h1.conv.prep
  have hcv := h.cv
  have hpop := Bool.toNat_le (s.cfifo.readable && latch)
  have hvt := Bool.toNat_le s.conv.valid
  have hinner : s.conv.latch = true ∨ s.pfifo.readable = false →
      (s.pfifo.step c.depth (s.int1.out c.int1).valid
        (Code.pack c.total ⟨(s.int1.out c.int1).enc, (s.int1.out c.int1).ctr, (s.int1.out c.int1).endd⟩) s.conv.latch).inner.level ≤
        max s.pfifo.inner.level 1 := by
    intro hh
    by_cases hl : s.conv.latch = true
    · rw [hl]; exact Speed.inner_pop _ _
    · have hr : s.pfifo.readable = false := by
        rcases hh with hh | hh
        · exact absurd hh hl
        · exact hh
      have e : ∀ we din re, (s.pfifo.step c.depth we din re).inner = (s.pfifo.step c.depth we din true).inner := by
        intro we din re; simp [Fifo.step, Fifo.innerRe, hr]
      rw [e]
      exact Speed.inner_pop _ _
  have hany := Speed.inner_any (depth := c.depth) (s := s.pfifo) (s.int1.out c.int1).valid
        (Code.pack c.total ⟨(s.int1.out c.int1).enc, (s.int1.out c.int1).ctr, (s.int1.out c.int1).endd⟩) s.conv.latch
  -- the converter: what it does in one cycle
  have hconv : (s.step c px v latch).conv = s.conv.step c.total c.conv (.unpack c.total s.pfifo.dout) s.pfifo.readable s.cFull := rfl
  have hcF : (s.step c px v latch).cFull = decide (s.cfifo.level ≥ c.cdepth - c.csteps) := rfl
  have hpF : (s.step c px v latch).pFull = decide (s.pfifo.level ≥ c.depth - 10) := rfl
  have hpfi : (s.step c px v latch).pfifo = s.pfifo.step c.depth (s.int1.out c.int1).valid
        (Code.pack c.total ⟨(s.int1.out c.int1).enc, (s.int1.out c.int1).ctr, (s.int1.out c.int1).endd⟩) s.conv.latch := rfl
  have hcfi : (s.step c px v latch).cfifo = s.cfifo.step c.cdepth s.conv.valid (Code.pack c.conv s.conv.out) latch := rfl
  have hcfull : (s.step c px v latch).cFull = true → c.cdepth ≤ (s.step c px v latch).cfifo.level + c.csteps + 1 := by
    rw [hcF, hcfi]
    intro hh
    have := of_decide_eq_true hh
    omega
  refine ⟨⟨?_, ?_, ?_, ?_, ?_, ?_, ?_, ?_, hcfull, ?_, ?_⟩, ?_⟩
  · intro b e hm
    have hm := (List.dropLast_sublist _).subset hm
    rcases List.mem_cons.1 hm with hm | hm
    · unfold Int2.newItem at hm
      split at hm
      · rename_i ha
        simp only [Option.some.injEq, Prod.mk.injEq] at hm
        rw [hm.1]
        exact hnew ha
      · cases hm
    · exact h.its b e hm
  · intro n hn
    rw [hpfi, Fifo.contents_step h1.pinv] at hn
    rcases List.mem_append.1 hn with hn | hn
    · exact h.pw n (List.mem_of_mem_drop hn)
    · split at hn
      · rename_i hv
        simp only [Bool.and_eq_true] at hv
        simp only [List.mem_singleton] at hn
        obtain ⟨o1, o2⟩ := Speed.out_len hok h1 h.its hv.2
        rw [hn, Code.unpack_pack o1]
        exact o2
      · simp at hn
  · rw [hconv]
    simp only [Converter.step]
    cases hf : s.conv.fsm <;> rw [hf] at hcv <;> simp only at hcv ⊢
    · rw [Converter.tryBurst]
      split
      · exact h.reg
      · split <;> exact h.reg
    · intro hv; exact hpr hv
    · by_cases hv : s.conv.validReg = true
      · have hle := h.reg hv
        simp only [hv, if_true, if_pos (show s.conv.reg.ctr ≤ c.conv by omega)]
        split <;> (intro hv; exact hpr hv)
      · simp only [hv]
        intro hv; exact hpr hv
  · rw [hconv]
    simp only [Converter.step]
    cases hf : s.conv.fsm <;> rw [hf] at hcv <;> simp only at hcv ⊢
    · rw [Converter.tryBurst]
      split
      · simp
      · split <;> simp
    · simp
    · by_cases hv : s.conv.validReg = true
      · have hle := h.reg hv
        simp only [hv, if_true, if_pos (show s.conv.reg.ctr ≤ c.conv by omega)]
        split <;> (intro _; exact hle)
      · simp only [hv]
        simp
  · intro n hn
    rw [hcfi, Fifo.contents_step h1.cinv] at hn
    rcases List.mem_append.1 hn with hn | hn
    · exact h.cw n (List.mem_of_mem_drop hn)
    · split at hn
      · rename_i hv
        simp only [Bool.and_eq_true] at hv
        simp only [List.mem_singleton] at hn
        rw [hn, Code.unpack_pack (h1.conv.out hv.2)]
        exact h.out hv.2
      · simp at hn
  · exact not_readable _ _ _
  · exact not_readable _ _ _
  · rw [hpF, hpfi]
    intro hh
    have := of_decide_eq_true hh
    have := Bool.toNat_le (s.pfifo.readable && s.conv.latch)
    omega
  · rw [hconv, hpfi]
    simp only [Converter.step]
    cases hf : s.conv.fsm <;> rw [hf] at hcv hlatch <;> simp only at hcv hlatch ⊢
    · rw [Converter.tryBurst]
      by_cases hv : s.conv.validReg = true
      · simp only [hv]
        split
        · simp
        · split <;> simp
      · simp only [hv, Bool.false_and, Bool.false_eq_true, if_false]
        split <;> simp
    · intro _ hr
      have hr : s.pfifo.readable = false := hr
      have := hinner (Or.inr hr)
      have := h.pr hr
      omega
    · intro _ hr
      have hr' : s.pfifo.readable = false := by
        by_cases hv : s.conv.validReg = true
        · have hle := h.reg hv
          simp only [hv, if_true, if_pos (show s.conv.reg.ctr ≤ c.conv by omega)] at hr
          split at hr <;> exact hr
        · simp only [hv] at hr
          exact hr
      have := hinner (Or.inr hr')
      have := h.pr hr'
      omega
  · have hcfull' := hcfull
    rw [hcfi] at hcfull'
    rw [hconv, hpfi, hcfi]
    simp only [Converter.step]
    cases hf : s.conv.fsm <;> rw [hf] at hcv hlatch <;> simp only at hcv hlatch ⊢
    · rw [Converter.tryBurst]
      by_cases hcf : s.cFull = true
      · have := h.cf hcf
        simp only [hcf, Bool.not_true, Bool.and_false, Bool.false_eq_true, if_false]
        right
        split
        · have := hcfull' (by assumption)
          simp; omega
        · simp; omega
      · have hcf : s.cFull = false := by simpa using hcf
        simp only [hcf, Bool.not_false, Bool.and_true, Bool.false_eq_true, if_false] at hcv ⊢
        by_cases hv : s.conv.validReg = true
        · rw [if_pos hv]
          simp [hv] at hcv
          right
          simp; omega
        · have hv : s.conv.validReg = false := by simpa using hv
          simp only [hv, Bool.false_eq_true, if_false]
          by_cases hr : s.pfifo.readable = true
          · rw [if_pos hr]
            simp only
            rcases hcv with hcv | hcv
            · left; omega
            · right; simp; omega
          · have hr : s.pfifo.readable = false := by simpa using hr
            rw [if_neg (by simp [hr])]
            simp only
            left
            have := hinner (Or.inr hr)
            have := h.pr hr
            exact ⟨trivial, by omega⟩
    · have := hinner (Or.inl hlatch)
      rcases hcv with hcv | hcv
      · left; omega
      · right; simp; omega
    · have := hinner (Or.inl hlatch)
      by_cases hv : s.conv.validReg = true
      · have hle := h.reg hv
        simp only [hv, if_true, if_pos (show s.conv.reg.ctr ≤ c.conv by omega)]
        by_cases hcf : s.cFull = true
        · have := h.cf hcf
          simp only [hcf, if_true]
          right
          split <;> simp <;> omega
        · simp only [hcf, Bool.false_eq_true, if_false, Converter.regData, hf]
          rcases hcv with hcv | hcv
          · left; omega
          · right; simp; omega
      · have hv : s.conv.validReg = false := by simpa using hv
        have := h.bv hf hv
        simp only [hv, Bool.false_eq_true, if_false, Converter.regData, hf]
        left; omega
  · unfold backlog
    rw [hits, hitsN, hpfi, hcfi, hconv]
    have key : (s.conv.step c.total c.conv (.unpack c.total s.pfifo.dout) s.pfifo.readable s.cFull).validReg.toNat +
        (s.conv.step c.total c.conv (.unpack c.total s.pfifo.dout) s.pfifo.readable s.cFull).valid.toNat ≤
        s.conv.validReg.toNat + (s.pfifo.readable && s.conv.latch).toNat := by
      simp only [Converter.step]
      cases hf : s.conv.fsm <;> rw [hf] at hcv hlatch <;> simp only at hcv hlatch ⊢
      · rw [hlatch, Converter.tryBurst]
        split
        · simp
        · split <;> simp
      · rw [hlatch]
        simp [Converter.regData]
      · rw [hlatch]
        by_cases hv : s.conv.validReg = true
        · have hle := h.reg hv
          simp only [hv, if_true, if_pos (show s.conv.reg.ctr ≤ c.conv by omega)]
          split <;> simp [Converter.regData] <;> omega
        · have hv : s.conv.validReg = false := by simpa using hv
          simp [hv, Converter.regData]
    omega

theorem held_reset (m : Kept) (L : Nat) : Held c L (List.replicate (5 + levels c.int1.ps) none) (Int2.reset c m) := by
  refine ⟨?_, ?_, ?_, ?_, ?_, ?_, ?_, ?_, ?_, ?_, ?_⟩
  · intro b e h
    have := List.eq_of_mem_replicate h
    cases this
  all_goals simp [Int2.reset, Converter.init, Fifo.reset, SyncFifo.reset, Fifo.contents, SyncFifo.contents]

theorem backlog_reset (m : Kept) : backlog (List.replicate (5 + levels c.int1.ps) none) (Int2.reset c m) = 0 := by
  simp [backlog, Int2.reset, Converter.init, Fifo.reset, SyncFifo.reset, Fifo.level]

theorem vfast_mono {L buf B X X' : Nat} {s : VBits} (h : Speed.VFast L buf B X s) (hX : X' ≤ X) : Speed.VFast L buf B X' s := by
  obtain ⟨h1, h⟩ := h
  refine ⟨h1, ?_⟩
  cases hf : s.ifsm <;> rw [hf] at h <;> simp only at h ⊢
  · exact ⟨h.1, h.2.1, h.2.2.1, by have := h.2.2.2; omega⟩
  · exact ⟨h.1, h.2.1, by have := h.2.2; omega⟩
  · omega
  · exact ⟨h.1, by have := h.2; omega⟩

/-- The waiting so far: `S` refused cycles, `U` cycles without a latch. -/
structure Paid (c : CoreCfg) (L B S U : Nat) (its : List Item) (s : Int3) : Prop where
  held : Held c L its s.int2
  vb : Speed.VFast L c.buf B U s.vbits
  pay : S + max (backlog its s.int2) (12 + levels c.int1.ps) ≤ 12 + levels c.int1.ps + U

theorem paid_step (hok : CoreOk c C T) (hc : c.csteps + 7 ≤ c.cdepth) {L B S U : Nat} (hL : L ≤ c.out) (hLc : L ≤ c.conv)
    (hbuf : c.out + 2 * L ≤ c.buf + 1)
    {hist : List Nat} {k : Nat} {its : List Item} {s : Int3} {sent : List (Nat × Bool)} {recv : List (Option Bool)}
    (h1 : Int2.Inv c C T hist k its s.int2 recv) (h2 : VBits.Inv c.out c.conv c.buf s.vbits sent recv) (hk : k < C * c.int1.H)
    (h : Paid c L B S U its s) (i : CoreIn)
    (hnew : (i.valid && !s.nready) = true → (encodeFrom T c.int1.bd c.int1.W hist i.pixels).length ≤ L) :
    Paid c L (B + i.busy.toNat) (S + s.int2.pFull.toNat) (U + (!s.vbits.latch).toNat)
      ((Int2.newItem c C T hist k i.pixels (i.valid && !s.nready) :: its).dropLast) (s.step c i.pixels i.valid i.busy) := by
  obtain ⟨hl, hend⟩ := Speed.no_end h1 h2 hk
  obtain ⟨a1, a2⟩ := held_step hok hLc h1 h.held i.pixels i.valid s.vbits.latch hnew
  have hcnt := hl.count
  rw [h.vb.1] at hcnt
  simp only [if_true] at hcnt
  refine ⟨a1, ?_, ?_⟩
  · apply Speed.vfast_step hL hbuf h.vb hl.inp hcnt hend hl.outp.done
    · intro hr
      apply h.held.cw
      rw [Fifo.contents_readable hr]
      exact List.mem_cons_self
    · intro hlt
      rw [hlt]
      simp; omega
    · have := Bool.toNat_le (!s.vbits.latch)
      omega
  · have hp := h.pay
    have e : (s.step c i.pixels i.valid i.busy).int2 = s.int2.step c i.pixels i.valid s.vbits.latch := rfl
    have e2 : (i.valid && !s.nready) = (i.valid && !s.int2.nready) := rfl
    rw [e, e2]
    have hd := hok.depth
    have hlv := Int2.levels_le hok.int1.ps
    cases hpf : s.int2.pFull with
    | true =>
      have hacc : (i.valid && !s.int2.nready) = false := by simp [Int2.nready, hpf]
      rw [hacc] at a2 ⊢
      have hpl := h.held.pf hpf
      have hrd : s.int2.cfifo.readable = true := by
        cases hr : s.int2.cfifo.readable with
        | true => rfl
        | false =>
          have := (held_starved hc h.held hr).1
          omega
      have hbl : 13 + levels c.int1.ps ≤ backlog its s.int2 := by
        have hp2 : s.int2.pfifo.level ≤ s.int2.pfifo.inner.level + 1 := by
          unfold Fifo.level; have := Bool.toNat_le s.int2.pfifo.readable; omega
        have hcv := h.held.cv
        unfold backlog
        cases hf : s.int2.conv.fsm <;> rw [hf] at hcv <;> simp only at hcv
        · split at hcv <;> omega
        · omega
        · omega
      rw [hrd] at a2
      cases hla : s.vbits.latch <;> rw [hla] at a2 <;> simp at a2 ⊢ <;> omega
    | false =>
      have hle := Bool.toNat_le (i.valid && !s.int2.nready)
      cases hla : s.vbits.latch with
      | false =>
        rw [hla] at a2
        simp at a2 ⊢
        omega
      | true =>
        rw [hla] at a2
        cases hr : s.int2.cfifo.readable with
        | true => rw [hr] at a2; simp at a2 ⊢; omega
        | false =>
          have hs := held_starved hc h.held hr
          have hb : backlog its s.int2 ≤ 11 + levels c.int1.ps := by
            unfold backlog
            have := List.countP_le_length (p := Option.isSome) (l := its)
            rw [h1.itsLen] at this
            have := Bool.toNat_le s.int2.conv.validReg
            have := Bool.toNat_le s.int2.conv.valid
            omega
          simp at a2 ⊢
          omega

end Waits
end Model
