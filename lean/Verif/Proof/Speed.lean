/- The core at full speed: a bound on the backlog in terms of the cycles in which the receiver was busy. -/
import Verif.Proof.Live

set_option autoImplicit false

namespace Model
open Spec

namespace Speed

theorem inner_pop {depth : Nat} {s : Fifo} (we : Bool) (din : Nat) :
    (s.step depth we din true).inner.level ≤ max s.inner.level 1 := by
  simp only [Fifo.step, SyncFifo.step, Fifo.innerRe, Bool.or_true, Bool.and_true, Bool.and_self]
  cases hr : s.inner.readable
  · have : s.inner.level = 0 := by simpa [SyncFifo.readable] using hr
    simp [this]
    split <;> omega
  · have : s.inner.level ≠ 0 := by simpa [SyncFifo.readable] using hr
    cases s.inner.writable (depth - 1) && we <;> simp <;> omega

theorem inner_any {depth : Nat} {s : Fifo} (we : Bool) (din : Nat) (re : Bool) :
    (s.step depth we din re).inner.level ≤ s.inner.level + 1 := by
  simp only [Fifo.step, SyncFifo.step]
  split
  · omega
  · split <;> omega

/-- Input side of the packer with `X` words waiting behind it after `B` busy cycles. -/
def VFast (L buf B X : Nat) (s : VBits) : Prop :=
  s.start = true ∧
  match s.ifsm with
  | .input => s.validBf = true ∧ s.bf.ctr ≤ L ∧ (s.validReg = true → s.reg.ctr ≤ L) ∧
      X + (if buf < s.consum + L then 3 else 2) ≤ 1 + 4 * B
  | .cleanBuffer => s.reg.ctr ≤ L ∧ (s.validReg = true → s.bf.ctr ≤ L) ∧
      X + (if buf < s.consum + L then 5 else 1) ≤ 1 + 4 * B
  | .registerForBurst => X + (if buf < s.consum + L then 4 else 0) ≤ 1 + 4 * B
  | .burst => (s.validReg = true → s.reg.ctr ≤ L) ∧ X + (if buf < s.consum + L then 4 else 0) ≤ 1 + 4 * B

theorem vfast_le {L buf B X : Nat} {s : VBits} (h : VFast L buf B X s) : X ≤ 1 + 4 * B := by
  obtain ⟨_, h⟩ := h
  cases hf : s.ifsm <;> rw [hf] at h <;> simp only at h
  · have := h.2.2.2; omega
  · have := h.2.2; omega
  · omega
  · have := h.2; omega

theorem consum_next {out buf : Nat} {s : VBits} (hc : s.free + s.consum = buf)
    (he : s.endIn = false) (hd : s.ofsm ≠ .done) (hi : s.incBuff = true → s.reg.ctr ≤ s.free) (inp : Code) (v busy : Bool) :
    (s.step out buf inp v busy).consum + (if s.doOutput out busy then out else 0) =
      s.consum + (if s.incBuff then s.reg.ctr else 0) ∧
    (s.doOutput out busy = true → out ≤ s.consum) ∧
    (busy = false → out ≤ s.consum → s.doOutput out busy = true) := by
  have hdo : s.doOutput out busy = true → out ≤ s.consum := by
    unfold VBits.doOutput
    cases hf : s.ofsm <;> simp [he]
  refine ⟨?_, hdo, ?_⟩
  · simp only [VBits.step]
    have hlt := Code.lt_two_pow_bitsFor buf
    cases hi' : s.incBuff <;> cases hd' : s.doOutput out busy
    · simp
    · have := hdo hd'
      simp only [Bool.or_true, if_true, Bool.false_eq_true, if_false]
      rw [VBits.trunc_eq (n := s.consum - out) (by omega) (by omega)]
      omega
    · have := hi hi'
      simp only [Bool.true_or, if_true, Bool.false_eq_true, if_false]
      rw [VBits.trunc_eq (n := s.consum + s.reg.ctr) (by omega) (by omega)]
      omega
    · have := hi hi'
      have := hdo hd'
      simp only [Bool.true_or, if_true]
      rw [VBits.trunc_eq (n := s.consum + s.reg.ctr - out) (by omega) (by omega)]
      omega
  · intro hb ho
    unfold VBits.doOutput
    cases hf : s.ofsm
    · simp [ho]
    · simp [hb, ho]
    · exact absurd hf hd

theorem vfast_step {L out conv buf B X X' : Nat} (hL : L ≤ out) (hbuf : out + 2 * L ≤ buf + 1) {s : VBits}
    (h : VFast L buf B X s) (hin : VBits.InInv conv s) (hc : s.free + s.consum = buf)
    (he : s.endIn = false) (hd : s.ofsm ≠ .done) (inp : Code) (v busy : Bool) (hinp : v = true → inp.ctr ≤ L)
    (hX1 : s.latch = true → X' ≤ max X 1) (hX2 : X' ≤ X + 1) :
    VFast L buf (B + busy.toNat) X' (s.step out buf inp v busy) := by
  obtain ⟨hst, h⟩ := h
  have hi : s.incBuff = true → s.reg.ctr ≤ s.free := by
    unfold VBits.incBuff
    cases hf : s.ifsm
    · simp
    · intro _; exact (hin.clean hf).2.1
    · simp
    · simp
  obtain ⟨c1, c2, c3⟩ := consum_next (out := out) hc he hd hi inp v busy
  have c4 : (if s.doOutput out busy then out else 0) = 0 ∨ ((if s.doOutput out busy then out else 0) = out ∧ out ≤ s.consum) := by
    cases hdo : s.doOutput out busy
    · left; rfl
    · right; exact ⟨rfl, c2 hdo⟩
  have c5 : busy.toNat = 1 ∨ (busy.toNat = 0 ∧ (s.consum < out ∨ (if s.doOutput out busy then out else 0) = out)) := by
    cases busy
    · right
      refine ⟨rfl, ?_⟩
      by_cases ho : out ≤ s.consum
      · right; rw [c3 rfl ho]; rfl
      · left; omega
    · left; rfl
  clear c2 c3
  generalize (if s.doOutput out busy then out else 0) = δ at c1 c4 c5
  have hlat := hin.latch
  refine ⟨rfl, ?_⟩
  revert c1
  generalize hn : (s.step out buf inp v busy).consum = n
  intro c1
  have hif : (s.step out buf inp v busy).ifsm = (s.inStep inp v).ifsm := rfl
  have e1 : (s.step out buf inp v busy).validBf = (s.inStep inp v).validBf := rfl
  have e2 : (s.step out buf inp v busy).bf = (s.inStep inp v).bf := rfl
  have e3 : (s.step out buf inp v busy).validReg = (s.inStep inp v).validReg := rfl
  have e4 : (s.step out buf inp v busy).reg = (s.inStep inp v).reg := rfl
  rw [hif, e1, e2, e3, e4]
  cases hf : s.ifsm with
  | input =>
    rw [hf] at h hlat
    simp only at h hlat
    obtain ⟨h1, h2, h3, h4⟩ := h
    have hinc : s.incBuff = false := by simp [VBits.incBuff, hf]
    rw [hinc] at c1
    simp only [Bool.false_eq_true, if_false] at c1
    simp only [VBits.inStep, hf, h1, if_true]
    by_cases hle : s.bf.ctr ≤ s.free
    · simp only [if_pos hle]
      refine ⟨h2, h3, ?_⟩
      generalize busy.toNat = β at *; split at h4 <;> split <;> omega
    · simp only [if_neg hle, hf]
      refine ⟨h1, h2, h3, ?_⟩
      generalize busy.toNat = β at *; split at h4 <;> split <;> omega
  | cleanBuffer =>
    rw [hf] at h hlat
    simp only at h hlat
    obtain ⟨h1, h2, h3⟩ := h
    have hinc : s.incBuff = true := by simp [VBits.incBuff, hf]
    have hfr := hi hinc
    rw [hinc] at c1
    simp only [if_true] at c1
    have key : X' + (if buf < n + L then 4 else 0) ≤ 1 + 4 * (B + busy.toNat) := by
      generalize busy.toNat = β at *; split at h3 <;> split <;> omega
    cases hv : s.validReg
    · simp only [VBits.inStep, hf, hv, Bool.false_eq_true, if_false]
      exact key
    · simp only [VBits.inStep, hf, hv, if_true]
      exact ⟨fun _ => h2 hv, key⟩
  | registerForBurst =>
    rw [hf] at h hlat
    simp only at h hlat
    have hinc : s.incBuff = false := by simp [VBits.incBuff, hf]
    rw [hinc] at c1
    simp only [Bool.false_eq_true, if_false] at c1
    have hX := hX1 hlat
    simp only [VBits.inStep, hf]
    refine ⟨hinp, ?_⟩
    generalize busy.toNat = β at *; split at h <;> split <;> omega
  | burst =>
    rw [hf] at h hlat
    simp only at h hlat
    obtain ⟨h1, h2⟩ := h
    have hX := hX1 hlat
    cases hv : s.validReg with
    | false =>
      have hinc : s.incBuff = false := by simp [VBits.incBuff, hf, hv]
      rw [hinc] at c1
      simp only [Bool.false_eq_true, if_false] at c1
      simp only [VBits.inStep, hf, hv, Bool.false_eq_true, if_false]
      refine ⟨hinp, ?_⟩
      generalize busy.toNat = β at *; split at h2 <;> split <;> omega
    | true =>
      have hr := h1 hv
      by_cases hle : s.reg.ctr ≤ s.free
      · have hinc : s.incBuff = true := by simp [VBits.incBuff, hf, hv, hle]
        rw [hinc] at c1
        simp only [if_true] at c1
        simp only [VBits.inStep, hf, hv, if_true, if_pos hle]
        refine ⟨hinp, ?_⟩
        generalize busy.toNat = β at *; split at h2 <;> split <;> omega
      · have hinc : s.incBuff = false := by simp [VBits.incBuff, hf, hv]; omega
        rw [hinc] at c1
        simp only [Bool.false_eq_true, if_false] at c1
        simp only [VBits.inStep, hf, hv, if_true, if_neg hle]
        refine ⟨trivial, hr, hinp, ?_⟩
        generalize busy.toNat = β at *; split at h2 <;> split <;> omega

/-- Everything in the core is short and the backlog is small. -/
structure Fast (c : CoreCfg) (L B : Nat) (its : List Item) (s : Int3) : Prop where
  its : ∀ b e, some (b, e) ∈ its → b.length ≤ L
  pw : ∀ n ∈ s.int2.pfifo.contents c.depth, (Code.unpack c.total n).ctr ≤ L
  reg : s.int2.conv.validReg = true → s.int2.conv.reg.ctr ≤ L
  out : s.int2.conv.valid = true → s.int2.conv.out.ctr ≤ L
  cw : ∀ n ∈ s.int2.cfifo.contents c.cdepth, (Code.unpack c.conv n).ctr ≤ L
  pf : s.int2.pFull = false
  cf : s.int2.cFull = false
  cv : match s.int2.conv.fsm with
    | .idle => s.int2.conv.validReg = false ∧ s.int2.pfifo.inner.level ≤ 1
    | .burstPrepare => s.int2.pfifo.inner.level ≤ 2
    | .burst => s.int2.pfifo.inner.level ≤ 2
    | .steps _ => False
  vb : VFast L c.buf B s.int2.cfifo.inner.level s.vbits

variable {c : CoreCfg} {C : Nat} {T : Table}

theorem no_end {hist : List Nat} {k : Nat} {its : List Item} {s : Int3} {sent : List (Nat × Bool)} {recv : List (Option Bool)}
    (h1 : Int2.Inv c C T hist k its s.int2 recv) (h2 : VBits.Inv c.out c.conv c.buf s.vbits sent recv) (hk : k < C * c.int1.H) :
    VBits.Live c.out c.conv c.buf s.vbits sent recv ∧ s.vbits.endIn = false := by
  have hst := h1.stream
  have hkn : decide (k = C * c.int1.H) = false := by simp; omega
  rw [hkn] at hst
  have hno : (none : Option Bool) ∉ recv := by
    intro hh
    have : (none : Option Bool) ∈ marked T c.int1.bd c.int1.W hist false := by rw [← hst]; simp [hh]
    simp [marked] at this
  rcases h2 with h2 | h2
  · refine ⟨h2, ?_⟩
    cases he : s.vbits.endIn with
    | false => rfl
    | true =>
      have := h2.stream
      rw [he] at this
      exact absurd (by rw [← this]; simp) hno
  · obtain ⟨pre, n, j, bits, e1, e2, e3, e4, e5⟩ := h2.stream
    exact absurd (by rw [e4]; simp) hno

theorem out_len {hist : List Nat} {k : Nat} {its : List Item} {s : Int2} {recv : List (Option Bool)} {L : Nat} (hok : CoreOk c C T)
    (h : Int2.Inv c C T hist k its s recv) (hl : ∀ b e, some (b, e) ∈ its → b.length ≤ L) (hv : (s.int1.out c.int1).valid = true) :
    Code.Ok c.total ⟨(s.int1.out c.int1).enc, (s.int1.out c.int1).ctr, (s.int1.out c.int1).endd⟩ ∧ (s.int1.out c.int1).ctr ≤ L := by
  have hne : its ≠ [] := by
    intro hh; have := h.itsLen; rw [hh] at this; simp at this; omega
  have hone := int1_out hok.int1 h.int1 hne
  obtain ⟨w1, w2, w3⟩ := Int2.outRep_code (w := c.total) hone
    (fun b e he => h.itsNe b e (he ▸ List.getLast_mem hne))
  refine ⟨w2 hv, ?_⟩
  cases hg : its.getLast hne with
  | none =>
    rw [hg] at hone
    have : (s.int1.out c.int1).valid = false := hone
    rw [this] at hv; simp at hv
  | some be =>
    obtain ⟨b, e⟩ := be
    rw [hg] at hone
    obtain ⟨_, _, _, _, h5⟩ := hone
    have := congrArg List.length h5
    simp only [toBits_length] at this
    rw [this]
    exact hl b e (hg ▸ List.getLast_mem hne)

theorem fast_step (hok : CoreOk c C T) {L B : Nat} (hL : L ≤ c.out) (hLc : L ≤ c.conv) (hbuf : c.out + 2 * L ≤ c.buf + 1)
    {hist : List Nat} {k : Nat} {its : List Item} {s : Int3} {sent : List (Nat × Bool)} {recv : List (Option Bool)}
    (h1 : Int2.Inv c C T hist k its s.int2 recv) (h2 : VBits.Inv c.out c.conv c.buf s.vbits sent recv) (hk : k < C * c.int1.H)
    (h : Fast c L B its s) (i : CoreIn)
    (hnew : (i.valid && !s.nready) = true → (encodeFrom T c.int1.bd c.int1.W hist i.pixels).length ≤ L)
    (hB : 4 * B + 2 + c.csteps < c.cdepth) :
    Fast c L (B + i.busy.toNat) ((Int2.newItem c C T hist k i.pixels (i.valid && !s.nready) :: its).dropLast)
      (s.step c i.pixels i.valid i.busy) := by
  obtain ⟨hl, hend⟩ := no_end h1 h2 hk
  have hd := hok.depth
  have hX := vfast_le h.vb
  have hcl : s.int2.cfifo.level ≤ s.int2.cfifo.inner.level + 1 := by
    unfold Fifo.level; have := Bool.toNat_le s.int2.cfifo.readable; omega
  have hpl : s.int2.pfifo.level ≤ s.int2.pfifo.inner.level + 1 := by
    unfold Fifo.level; have := Bool.toNat_le s.int2.pfifo.readable; omega
  have hp2 : s.int2.pfifo.inner.level ≤ 2 := by
    have := h.cv
    cases hf : s.int2.conv.fsm <;> rw [hf] at this <;> simp only at this
    · omega
    · exact this
    · exact this
  have hpr : s.int2.pfifo.readable = true → (Code.unpack c.total s.int2.pfifo.dout).ctr ≤ L := by
    intro hr
    apply h.pw
    rw [Fifo.contents_readable hr]; simp
  have hcr : s.int2.cfifo.readable = true → (Code.unpack c.conv s.int2.cfifo.dout).ctr ≤ L := by
    intro hr
    apply h.cw
    rw [Fifo.contents_readable hr]; simp
  have hlatch := h1.conv.latch
  have hcv := h.cv
  refine ⟨?_, ?_, ?_, ?_, ?_, ?_, ?_, ?_, ?_⟩
  · intro b e hm
    have hm := (List.dropLast_sublist _).subset hm
    rcases List.mem_cons.1 hm with hm | hm
    · unfold Int2.newItem at hm
      split at hm
      · rename_i ha
        simp only [Option.some.injEq, Prod.mk.injEq] at hm
        rw [hm.1]
        exact hnew ha
      · cases hm
    · exact h.its b e hm
  · intro n hn
    simp only [Int3.step, Int2.step] at hn
    rw [Fifo.contents_step h1.pinv] at hn
    rcases List.mem_append.1 hn with hn | hn
    · exact h.pw n (List.mem_of_mem_drop hn)
    · split at hn
      · rename_i hv
        simp only [Bool.and_eq_true] at hv
        simp only [List.mem_singleton] at hn
        obtain ⟨o1, o2⟩ := out_len hok h1 h.its hv.2
        rw [hn, Code.unpack_pack o1]
        exact o2
      · simp at hn
  · simp only [Int3.step, Int2.step, Converter.step, h.cf]
    cases hf : s.int2.conv.fsm <;> rw [hf] at hcv <;> simp only at hcv ⊢
    · rw [Converter.tryBurst]
      simp only [hcv.1, Bool.false_and, Bool.false_eq_true, if_false]
      split <;> simp
    · intro hv; exact hpr hv
    · by_cases hv : s.int2.conv.validReg = true
      · have hle := h.reg hv
        simp only [hv, if_true, if_pos (show s.int2.conv.reg.ctr ≤ c.conv by omega), Bool.false_eq_true, if_false]
        intro hv; exact hpr hv
      · simp only [hv]
        intro hv; exact hpr hv
  · simp only [Int3.step, Int2.step, Converter.step, h.cf]
    cases hf : s.int2.conv.fsm <;> rw [hf] at hcv <;> simp only at hcv ⊢
    · rw [Converter.tryBurst]
      simp only [hcv.1, Bool.false_and, Bool.false_eq_true, if_false]
      split <;> simp
    · simp
    · by_cases hv : s.int2.conv.validReg = true
      · have hle := h.reg hv
        simp only [hv, if_true, if_pos (show s.int2.conv.reg.ctr ≤ c.conv by omega), Bool.false_eq_true, if_false]
        intro _; exact hle
      · simp only [hv]
        simp
  · intro n hn
    simp only [Int3.step, Int2.step] at hn
    rw [Fifo.contents_step h1.cinv] at hn
    rcases List.mem_append.1 hn with hn | hn
    · exact h.cw n (List.mem_of_mem_drop hn)
    · split at hn
      · rename_i hv
        simp only [Bool.and_eq_true] at hv
        simp only [List.mem_singleton] at hn
        rw [hn, Code.unpack_pack (h1.conv.out hv.2)]
        exact h.out hv.2
      · simp at hn
  · simp only [Int3.step, Int2.step, ge_iff_le, decide_eq_false_iff_not]
    omega
  · simp only [Int3.step, Int2.step, ge_iff_le, decide_eq_false_iff_not]
    omega
  · simp only [Int3.step, Int2.step, Converter.step, h.cf]
    cases hf : s.int2.conv.fsm <;> rw [hf] at hcv hlatch <;> simp only at hcv hlatch ⊢
    · rw [Converter.tryBurst]
      simp only [hcv.1, Bool.false_and, Bool.false_eq_true, if_false]
      have ha := inner_any (depth := c.depth) (s := s.int2.pfifo) (s.int2.int1.out c.int1).valid
        (Code.pack c.total ⟨(s.int2.int1.out c.int1).enc, (s.int2.int1.out c.int1).ctr, (s.int2.int1.out c.int1).endd⟩) s.int2.conv.latch
      by_cases hr : s.int2.pfifo.readable = true
      · simp only [hr, Bool.not_false, Bool.and_self, if_true]
        omega
      · have hr : s.int2.pfifo.readable = false := by simpa using hr
        simp only [hr, Bool.false_and, Bool.false_eq_true, if_false]
        refine ⟨trivial, ?_⟩
        rw [hlatch]
        have e : ∀ we din, (s.int2.pfifo.step c.depth we din false).inner = (s.int2.pfifo.step c.depth we din true).inner := by
          intro we din; simp [Fifo.step, Fifo.innerRe, hr]
        rw [e]
        have := inner_pop (depth := c.depth) (s := s.int2.pfifo) (s.int2.int1.out c.int1).valid
          (Code.pack c.total ⟨(s.int2.int1.out c.int1).enc, (s.int2.int1.out c.int1).ctr, (s.int2.int1.out c.int1).endd⟩)
        omega
    · rw [hlatch]
      have := inner_pop (depth := c.depth) (s := s.int2.pfifo) (s.int2.int1.out c.int1).valid
          (Code.pack c.total ⟨(s.int2.int1.out c.int1).enc, (s.int2.int1.out c.int1).ctr, (s.int2.int1.out c.int1).endd⟩)
      omega
    · rw [hlatch]
      have := inner_pop (depth := c.depth) (s := s.int2.pfifo) (s.int2.int1.out c.int1).valid
          (Code.pack c.total ⟨(s.int2.int1.out c.int1).enc, (s.int2.int1.out c.int1).ctr, (s.int2.int1.out c.int1).endd⟩)
      by_cases hv : s.int2.conv.validReg = true
      · have hle := h.reg hv
        simp only [hv, if_true, if_pos (show s.int2.conv.reg.ctr ≤ c.conv by omega), Bool.false_eq_true, if_false, Converter.regData, hf]
        omega
      · have hv : s.int2.conv.validReg = false := by simpa using hv
        simp only [hv, Bool.false_eq_true, if_false, Converter.regData, hf]
        omega
  · have hcnt := hl.count
    rw [h.vb.1] at hcnt
    simp only [if_true] at hcnt
    apply vfast_step hL hbuf h.vb hl.inp hcnt hend hl.outp.done
    · exact hcr
    · intro hlt
      simp only [Int3.step, Int2.step, hlt]
      exact inner_pop _ _
    · exact inner_any _ _ _

/-- The first cycle after reset. -/
theorem fast_first (hok : CoreOk c C T) (L : Nat) {m : Kept} (hm : m.Ok c) (hL : c.out + 2 * L ≤ c.buf + 1) (i : CoreIn) :
    Fast c L i.busy.toNat (List.replicate (5 + levels c.int1.ps) none) ((Int3.reset c m).step c i.pixels i.valid i.busy) := by
  have h1 : Int2.Inv c C T [] 0 (List.replicate (5 + levels c.int1.ps) none) (Int3.reset c m).int2 [] := Int2.inv_reset hok hm
  have hno : (((Int3.reset c m).int2).int1.out c.int1).valid = false := by
    have hne : List.replicate (5 + levels c.int1.ps) (none : Item) ≠ [] := by
      intro hh; have := congrArg List.length hh; simp at this
    have := int1_out hok.int1 h1.int1 hne
    have hl : (List.replicate (5 + levels c.int1.ps) (none : Item)).getLast hne = none := List.eq_of_mem_replicate (List.getLast_mem hne)
    rw [hl] at this
    exact this
  have ho := hok.out
  have hd := hok.depth
  have hcd := hok.cdepth
  have hpc : ((Int3.reset c m).int2).pfifo = .reset m.pm m.pd := rfl
  have hcc : ((Int3.reset c m).int2).cfifo = .reset m.cm m.cd := rfl
  have hcv : ((Int3.reset c m).int2).conv = .init := rfl
  have hvb : (Int3.reset c m).vbits = .init := rfl
  have hnil : ∀ n ∈ ((Int3.reset c m).step c i.pixels i.valid i.busy).int2.pfifo.contents c.depth, False := by
    intro n hn
    simp only [Int3.step, Int2.step, hno] at hn
    rw [Fifo.contents_step h1.pinv] at hn
    simp [Int3.reset, Int2.reset] at hn
  have hnil2 : ∀ n ∈ ((Int3.reset c m).step c i.pixels i.valid i.busy).int2.cfifo.contents c.cdepth, False := by
    intro n hn
    simp only [Int3.step, Int2.step] at hn
    rw [Fifo.contents_step h1.cinv] at hn
    simp [Int3.reset, Int2.reset, Converter.init] at hn
  refine ⟨?_, fun n hn => (hnil n hn).elim, ?_, ?_, fun n hn => (hnil2 n hn).elim, ?_, ?_, ?_, ?_⟩
  · intro b e h
    have := List.eq_of_mem_replicate h
    cases this
  · simp [Int3.step, Int2.step, hcv, hpc, Converter.step, Converter.init, Converter.tryBurst, Fifo.reset]
  · simp [Int3.step, Int2.step, hcv, hpc, Converter.step, Converter.init, Converter.tryBurst, Fifo.reset]
  · simp [Int3.step, Int2.step, hpc, Fifo.reset, Fifo.level, SyncFifo.reset]; omega
  · simp [Int3.step, Int2.step, hcc, Fifo.reset, Fifo.level, SyncFifo.reset]; omega
  · simp [Int3.step, Int2.step, hcv, hpc, hno, Converter.step, Converter.init, Converter.tryBurst, Fifo.reset, Fifo.step, SyncFifo.step, SyncFifo.reset, Fifo.innerRe, SyncFifo.readable]
  · simp only [Int3.step, hvb, VBits.step_init ho, VFast]
    simp only [Int2.step, hcc, hcv]
    simp [Fifo.reset, Fifo.step, SyncFifo.step, SyncFifo.reset, Fifo.innerRe, SyncFifo.readable, Converter.init, VBits.init]
    split <;> omega

end Speed
end Model
