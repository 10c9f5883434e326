/-
Property theorems C11-C20: FIFOs, converter, packer and the whole encoder core.
-/
import Verif.Proof.Core

set_option autoImplicit false

namespace Props
open Spec Model

/-! ### C11 the buffered FIFO -/

/-- One cycle of input of a FIFO. -/
structure FifoIn where
  we : Bool
  din : Nat
  re : Bool
deriving DecidableEq, Repr

def runFifo (depth : Nat) : Fifo → List FifoIn → Fifo
  | s, [] => s
  | s, i :: r => runFifo depth (s.step depth i.we i.din i.re) r

/-- Words taken in: written while writable. -/
def fifoIn (depth : Nat) : Fifo → List FifoIn → List Nat
  | _, [] => []
  | s, i :: r => (if i.we && s.writable depth then [i.din] else []) ++
      fifoIn depth (s.step depth i.we i.din i.re) r

/-- Words given out: shown on `dout` while readable and read. -/
def fifoOut (depth : Nat) : Fifo → List FifoIn → List Nat
  | _, [] => []
  | s, i :: r => (if i.re && s.readable then [s.dout] else []) ++
      fifoOut depth (s.step depth i.we i.din i.re) r

theorem fifo_run {depth : Nat} (ins : List FifoIn) : ∀ {s : Fifo}, s.Inv depth →
    fifoOut depth s ins ++ (runFifo depth s ins).contents depth = s.contents depth ++ fifoIn depth s ins ∧
    (runFifo depth s ins).Inv depth := by
  induction ins with
  | nil => intro s h; simpa [fifoOut, fifoIn, runFifo] using h
  | cons i r ih =>
    intro s h
    obtain ⟨h1, h2⟩ := ih (Fifo.inv_step h i.we i.din i.re)
    refine ⟨?_, h2⟩
    simp only [fifoOut, fifoIn, runFifo, List.append_assoc]
    rw [h1, Fifo.contents_step h]
    cases hr : s.readable <;> cases i.re <;> simp
    · simp [and_comm]
    · simp [and_comm]
    · simp [and_comm]
    · rw [Fifo.contents_readable hr]; simp [and_comm]

/-- C11: in every history from reset the words given out are, in order, the words taken in,
except the last `level` ones, which are still inside. -/
theorem C11_fifo_order (depth : Nat) (hd : 2 ≤ depth) (mem : List Nat) (d : Nat)
    (hm : mem.length = depth - 1) (ins : List FifoIn) :
    ∃ inside, fifoOut depth (.reset mem d) ins ++ inside = fifoIn depth (.reset mem d) ins ∧
      inside.length = (runFifo depth (.reset mem d) ins).level := by
  have h := fifo_run (depth := depth) ins (Fifo.inv_reset mem d (by omega) hm)
  refine ⟨_, by simpa using h.1, Fifo.contents_length _ _⟩

/-- C11: a word is refused only when the FIFO holds at least `depth - 1` words, and its level
never exceeds `depth`. -/
theorem C11_fifo_capacity (depth : Nat) (hd : 2 ≤ depth) (mem : List Nat) (d : Nat)
    (hm : mem.length = depth - 1) (ins : List FifoIn) :
    (runFifo depth (.reset mem d) ins).level ≤ depth ∧
    ((runFifo depth (.reset mem d) ins).writable depth = false →
      depth - 1 ≤ (runFifo depth (.reset mem d) ins).level) := by
  have h := (fifo_run (depth := depth) ins (Fifo.inv_reset mem d (by omega) hm)).2
  have hl := h.level
  refine ⟨?_, ?_⟩
  · unfold Fifo.level
    have := Bool.toNat_le (runFifo depth (.reset mem d) ins).readable
    omega
  · intro hw
    simp only [Fifo.writable, SyncFifo.writable, bne_eq_false_iff_eq] at hw
    unfold Fifo.level
    omega

/-- C11: a nonempty FIFO that is not read presents its oldest word one cycle later at the
latest and keeps presenting it. -/
theorem C11_fifo_presents (depth : Nat) (s : Fifo) (hl : 0 < s.level) (we : Bool) (din : Nat) :
    (s.step depth we din false).readable = true := by
  rw [Fifo.readable_step]
  unfold Fifo.level at hl
  cases hr : s.readable
  · rw [hr] at hl
    simp [SyncFifo.readable] at hl ⊢
    omega
  · rfl

example : fifoOut 4 (.init 4) [⟨true, 7, false⟩, ⟨true, 8, false⟩, ⟨true, 9, true⟩, ⟨false, 0, true⟩,
    ⟨false, 0, true⟩] = [7, 8, 9] := by decide

/-! ### Executions of the core -/

/-- Hypotheses common to the core theorems: legal configuration, table `T` loaded, prefix-free. -/
structure CoreSetup (c : CoreCfg) (T : Table) : Prop where
  legal : CoreLegal c
  mem : MemRep c.int1.bd c.int1.mem T
  table : PrefixFree T (c.int1.bd + 1)

/-- The default table satisfies them for every legal configuration. -/
theorem default_setup {c : CoreCfg} (h : CoreLegal c) (hm : c.int1.mem = initHuffTable c.int1.bd) :
    CoreSetup c defaultTable :=
  ⟨h, hm ▸ initHuffTable_rep h.frame.bd16,
    defaultTable_prefixFree.mono (by have := h.frame.bd16; omega)⟩

/-- The configuration of beta_integration.py with the frame of its register file. -/
def betaCore : CoreCfg :=
  { int1 := { bd := 12, ps := 2, W := 4096, H := 3072, mem := initHuffTable 12 }
    depth := 512, conv := 30, cdepth := 512, out := 16, buf := 77 }

/-- The default configuration of integration_3.py with a small frame. -/
def smallCore : CoreCfg :=
  { int1 := { bd := 12, ps := 4, W := 8, H := 2, mem := initHuffTable 12 }
    depth := 128, conv := 48, cdepth := 256, out := 32, buf := 144 }

example : CoreSetup betaCore defaultTable := default_setup (by decide) rfl
example : CoreSetup smallCore defaultTable := default_setup (by decide) rfl

variable {c : CoreCfg} {T : Table}

theorem CoreSetup.ok (h : CoreSetup c T) : CoreOk c (c.int1.W / c.int1.ps) T :=
  legal_coreOk h.legal h.mem h.table

/-! ### C12, C14 no overflow -/

/-- C12: in every reachable state, if the encoding pipeline presents a word, the FIFO behind it
has room. -/
theorem C12_pipeline_fifo_never_overflows (h : CoreSetup c T) {s : Int3} (hs : AfterReset c s)
    (ins : List CoreIn) (hwf : Int3.Wf c ins) :
    ((Int3.run c s ins).int2.int1.out c.int1).valid = true →
      (Int3.run c s ins).int2.pfifo.writable c.depth = true := by
  intro _
  obtain ⟨k, its, recv, hi, _⟩ := run_from_reset h.ok hs hwf
  have := hi.pcount
  have hd := h.legal.depth
  exact Fifo.writable_of_level (by omega)

/-- C14: in every reachable state, if the converter presents a piece, the FIFO behind it has room. -/
theorem C14_converter_fifo_never_overflows (h : CoreSetup c T) {s : Int3} (hs : AfterReset c s)
    (ins : List CoreIn) (hwf : Int3.Wf c ins) :
    (Int3.run c s ins).int2.conv.valid = true →
      (Int3.run c s ins).int2.cfifo.writable c.cdepth = true := by
  intro hv
  obtain ⟨k, its, recv, hi, _⟩ := run_from_reset h.ok hs hwf
  have := hi.ccount
  rw [hv] at this
  have hd := h.legal.cdepth
  simp only [Bool.toNat_true] at this
  exact Fifo.writable_of_level (by omega)

/-! ### C13 the converter -/

/-- One cycle of input of the converter: word of the FIFO before it, and the fullness of the one
behind. -/
structure ConvIn where
  code : Code
  valid : Bool
  full : Bool

def runConv (total conv : Nat) : Converter → List ConvIn → Converter
  | s, [] => s
  | s, i :: r => runConv total conv (s.step total conv i.code i.valid i.full) r

/-- Code words taken from the FIFO before the converter. -/
def convIn (total conv : Nat) : Converter → List ConvIn → List Code
  | _, [] => []
  | s, i :: r => (if s.latch && i.valid then [i.code] else []) ++
      convIn total conv (s.step total conv i.code i.valid i.full) r

/-- Pieces written to the FIFO behind the converter. -/
def convOut (total conv : Nat) : Converter → List ConvIn → List Code
  | _, [] => []
  | s, i :: r => (if s.valid then [s.out] else []) ++
      convOut total conv (s.step total conv i.code i.valid i.full) r

/-- Marked bit stream of code words: the bits of each word, with a mark after an end-flagged one. -/
def markedStream (l : List Code) : List (Option Bool) :=
  l.flatMap fun x => (toBits x.ctr x.enc).map some ++ if x.endd then [none] else []

theorem markedStream_append (a b : List Code) : markedStream (a ++ b) = markedStream a ++ markedStream b := by
  simp [markedStream]

theorem markedStream_ite (b : Bool) (x : Code) :
    markedStream (if b then [x] else []) = if b then x.flat else [] := by
  cases b <;> simp [markedStream, Code.flat]

theorem conv_run {total conv : Nat} (hc : 0 < conv) (ins : List ConvIn)
    (hin : ∀ i ∈ ins, i.valid = true → i.code.Ok total) : ∀ {s : Converter}, s.Inv total conv →
    markedStream (convOut total conv s ins) ++ ((runConv total conv s ins).outFlat ++
      (runConv total conv s ins).rest conv) = s.outFlat ++ s.rest conv ++
        markedStream (convIn total conv s ins) ∧
    (∀ p ∈ convOut total conv s ins, p.ctr ≤ conv ∧ 0 < p.ctr ∧ p.enc < 2 ^ p.ctr) := by
  induction ins with
  | nil => intro s h; simp [convOut, convIn, runConv, markedStream]
  | cons i r ih =>
    intro s h
    obtain ⟨v1, v2⟩ := Converter.step_ok hc h (cf := i.full) (hin i (by simp))
    obtain ⟨h1, h2⟩ := ih (fun j hj => hin j (by simp [hj])) v1
    refine ⟨?_, ?_⟩
    · simp only [convOut, convIn, runConv, markedStream_append, List.append_assoc]
      rw [h1, markedStream_ite, markedStream_ite, v2]
      simp [Converter.outFlat]
    · intro p hp
      simp only [convOut] at hp
      rcases List.mem_append.1 hp with hp | hp
      · split at hp
        · rename_i hv
          simp only [List.mem_singleton] at hp
          have := h.out hv
          rw [hp]; exact ⟨this.ctr, this.pos, this.enc⟩
        · simp at hp
      · exact h2 p hp

/-- C13: for every history of the two neighbouring FIFOs, every piece has at most `conv` bits,
and the bits (and end marks) of the pieces written followed by those still inside are exactly
the bits (and end marks) of the code words taken. -/
theorem C13_converter_keeps_stream (total conv : Nat) (hc : 1 ≤ conv) (ins : List ConvIn)
    (hin : ∀ i ∈ ins, i.valid = true →
      i.code.enc < 2 ^ i.code.ctr ∧ 0 < i.code.ctr ∧ i.code.ctr ≤ total) :
    (∃ inside, markedStream (convOut total conv .init ins) ++ inside =
      markedStream (convIn total conv .init ins)) ∧
    (∀ p ∈ convOut total conv .init ins, 0 < p.ctr ∧ p.ctr ≤ conv) := by
  obtain ⟨h1, h2⟩ := conv_run (total := total) hc ins
    (fun i hi hv => ⟨(hin i hi hv).1, (hin i hi hv).2.1, (hin i hi hv).2.2⟩) (Converter.inv_init total conv)
  refine ⟨⟨_, by simpa [Converter.init, Converter.outFlat, Converter.rest, Converter.remaining] using h1⟩, ?_⟩
  intro p hp
  exact ⟨(h2 p hp).2.1, (h2 p hp).1⟩

/-- Non-vacuity: a 10-bit word cut into pieces of at most 4 bits. -/
example : convOut 12 4 .init
    ((List.replicate 3 ⟨⟨0b1011001110, 10, true⟩, true, false⟩) ++
      List.replicate 4 ⟨⟨0, 0, false⟩, false, false⟩)
    = [⟨0b10, 2, false⟩, ⟨0b1100, 4, false⟩, ⟨0b1110, 4, true⟩,
       ⟨0b10, 2, false⟩] := by decide

/-! ### C15 the packer -/

/-- One cycle of input of the packer. -/
structure PackIn where
  code : Code
  valid : Bool
  busy : Bool

def runPack (out buf : Nat) : VBits → List PackIn → VBits
  | s, [] => s
  | s, i :: r => runPack out buf (s.step out buf i.code i.valid i.busy) r

/-- Pieces taken from the FIFO before the packer. -/
def packIn (out buf : Nat) : VBits → List PackIn → List Code
  | _, [] => []
  | s, i :: r => (if s.latch && i.valid then [i.code] else []) ++
      packIn out buf (s.step out buf i.code i.valid i.busy) r

/-- Words transferred to the consumer. -/
def packOut (out buf : Nat) : VBits → List PackIn → List (Nat × Bool)
  | _, [] => []
  | s, i :: r => (if s.valid && !i.busy then [(s.data, s.endd)] else []) ++
      packOut out buf (s.step out buf i.code i.valid i.busy) r

/-- No piece follows an end-flagged one. -/
def OneFrame (l : List Code) : Prop := ∀ a x b, l = a ++ x :: b → x.endd = true → b = []

theorem oneFrame_wellMarked {w : Nat} {l : List Code} (hl : ∀ x ∈ l, x.Ok w) (h : OneFrame l) :
    WellMarked (markedStream l) := by
  induction l with
  | nil => intro a b hab; simp [markedStream] at hab
  | cons x l ih =>
    have ih' := ih (fun y hy => hl y (by simp [hy])) (by
      intro a y b hab hy
      exact h (x :: a) y b (by rw [hab]; rfl) hy)
    intro a b hab
    cases hx : x.endd with
    | true =>
      have := h [] x l rfl hx
      subst this
      simp only [markedStream, List.flatMap_cons, hx, if_true, List.flatMap_nil, List.append_nil] at hab
      cases b using snoc_induction with
      | h0 => rfl
      | h1 b z _ =>
        exfalso
        have e : a ++ none :: (b ++ [z]) = (a ++ none :: b) ++ [z] := by simp
        rw [e] at hab
        have h3 := (List.append_inj' hab rfl).1
        have : (none : Option Bool) ∈ (toBits x.ctr x.enc).map some := by rw [h3]; simp
        simp at this
    | false =>
      simp only [markedStream, List.flatMap_cons, hx, Bool.false_eq_true, if_false, List.append_nil] at hab
      rw [List.append_eq_append_iff] at hab
      rcases hab with ⟨c, h1, h2⟩ | ⟨c, h1, h2⟩
      · exact ih' _ _ h2
      · cases c with
        | nil => exact ih' [] b (by simpa [markedStream] using h2.symm)
        | cons y c =>
          exfalso
          simp at h2
          have : (none : Option Bool) ∈ (toBits x.ctr x.enc).map some := by
            rw [h1, ← h2.1]; simp
          simp at this

theorem OneFrame.prefix {a b : List Code} (h : OneFrame (a ++ b)) : OneFrame a := by
  intro x y z hxy hy
  have := h x y (z ++ b) (by rw [hxy]; simp) hy
  simp at this; exact this.1

theorem pack_run {out conv buf : Nat} (ho : 0 < out) (hb : conv + out ≤ buf) (ins : List PackIn)
    (hin : ∀ i ∈ ins, i.valid = true → i.code.Ok conv) :
    ∀ {s : VBits} {got : List Code} {sent : List (Nat × Bool)}, (∀ x ∈ got, x.Ok conv) →
    s.Inv out conv buf sent (markedStream got) →
    OneFrame (got ++ packIn out buf s ins) →
    (runPack out buf s ins).Inv out conv buf (sent ++ packOut out buf s ins)
      (markedStream (got ++ packIn out buf s ins)) := by
  induction ins with
  | nil => intro s got sent _ h _; simpa [packIn, packOut, runPack] using h
  | cons i r ih =>
    intro s got sent hg h hone
    simp only [packIn, ← List.append_assoc] at hone
    have hg' : ∀ x ∈ got ++ (if s.latch && i.valid then [i.code] else []), x.Ok conv := by
      intro x hx
      rcases List.mem_append.1 hx with hx | hx
      · exact hg x hx
      · split at hx
        · rename_i hv
          simp only [List.mem_singleton] at hx
          simp only [Bool.and_eq_true] at hv
          rw [hx]; exact hin i (by simp) hv.2
        · simp at hx
    have hw := oneFrame_wellMarked hg' hone.prefix
    rw [markedStream_append, markedStream_ite] at hw
    have h1 := VBits.step_ok ho hb h (inp := i.code) (v := i.valid) (busy := i.busy) (hin i (by simp)) hw
    rw [← markedStream_ite, ← markedStream_append] at h1
    have := ih (fun j hj => hin j (by simp [hj])) hg' h1 hone
    simpa only [runPack, packIn, packOut, VBits.transfer, List.append_assoc] using this

/-- Plain bits of code words. -/
def codeBits (l : List Code) : List Bool := l.flatMap fun x => toBits x.ctr x.enc

theorem markedStream_bits {l : List Code} : (markedStream l).filterMap id = codeBits l := by
  induction l with
  | nil => rfl
  | cons x l ih =>
    simp only [markedStream, codeBits, List.flatMap_cons] at *
    rw [List.filterMap_append, ih]
    congr 1
    cases x.endd <;> simp

/-- C15, before the end: for every schedule, the bits of the words transferred before the first
end-flagged one are a prefix of the bits of the pieces taken. -/
theorem C15_packer_prefix (out conv buf : Nat) (ho : 1 ≤ out) (hb : conv + out ≤ buf) (ins : List PackIn)
    (hin : ∀ i ∈ ins, i.valid = true →
      i.code.enc < 2 ^ i.code.ctr ∧ 0 < i.code.ctr ∧ i.code.ctr ≤ conv)
    (hone : OneFrame (packIn out buf .init ins)) :
    wordBits out (beforeEnd (packOut out buf .init ins)) <+: codeBits (packIn out buf .init ins) := by
  have h := pack_run (got := []) (sent := []) ho hb ins
    (fun i hi hv => ⟨(hin i hi hv).1, (hin i hi hv).2.1, (hin i hi hv).2.2⟩) (by simp)
    (VBits.inv_init (out := out) (conv := conv) (buf := buf)) (by simpa using hone)
  simp only [List.nil_append] at h
  rcases h with h | h
  · have hs := congrArg (List.filterMap id) h.stream
    rw [markedStream_bits] at hs
    rw [Int3.beforeEnd_none h.sentEnd, ← hs]
    simp only [VBits.wordBits_append, List.map_append, List.filterMap_append, List.append_assoc]
    simp
  · obtain ⟨pre, n, k, bits, e1, e2, e3, e4, e5⟩ := h.stream
    have hb' := congrArg (List.filterMap id) e4
    rw [markedStream_bits] at hb'
    simp at hb'
    rw [e1, (Int3.upToEnd_pre e2).1, hb']
    have hl := congrArg List.length e5
    simp only [List.length_append, toBits_length, List.length_replicate] at hl
    have := congrArg (List.take (wordBits out pre).length) e5
    rw [List.take_left' rfl, List.take_append_of_le_length (by omega)] at this
    rw [this]
    exact List.take_prefix _ _

/-- C15, at the end: when an end-flagged word has been transferred, the last piece taken was
end-flagged, and the words up to the first end-flagged one are exactly the bits of all pieces
plus fewer than `out` zero bits. -/
theorem C15_packer_end (out conv buf : Nat) (ho : 1 ≤ out) (hb : conv + out ≤ buf) (ins : List PackIn)
    (hin : ∀ i ∈ ins, i.valid = true →
      i.code.enc < 2 ^ i.code.ctr ∧ 0 < i.code.ctr ∧ i.code.ctr ≤ conv)
    (hone : OneFrame (packIn out buf .init ins)) (w : Nat)
    (hw : (w, true) ∈ packOut out buf .init ins) :
    (∃ l x, packIn out buf .init ins = l ++ [x] ∧ x.endd = true) ∧
    ∃ k, k < out ∧ wordBits out (upToEnd (packOut out buf .init ins)) =
      codeBits (packIn out buf .init ins) ++ List.replicate k false := by
  have hok : ∀ i ∈ ins, i.valid = true → i.code.Ok conv :=
    fun i hi hv => ⟨(hin i hi hv).1, (hin i hi hv).2.1, (hin i hi hv).2.2⟩
  have h := pack_run (got := []) (sent := []) ho hb ins hok (by simp)
    (VBits.inv_init (out := out) (conv := conv) (buf := buf)) (by simpa using hone)
  simp only [List.nil_append] at h
  rcases h with h | h
  · have := h.sentEnd _ hw; simp at this
  · obtain ⟨pre, n, k, bits, e1, e2, e3, e4, e5⟩ := h.stream
    have hn : 0 < n := by
      rcases Nat.eq_zero_or_pos n with h0 | h0
      · subst h0
        rw [e1] at hw
        simp only [List.replicate_zero, List.append_nil] at hw
        have := e2 _ hw
        simp at this
      · exact h0
    refine ⟨?_, k, e3, ?_⟩
    · cases hp : packIn out buf .init ins using snoc_induction with
      | h0 => rw [hp] at e4; simp [markedStream] at e4
      | h1 l x _ =>
        refine ⟨l, x, rfl, ?_⟩
        rw [hp, markedStream_append] at e4
        have hx : markedStream [x] = (toBits x.ctr x.enc).map some ++ if x.endd then [none] else [] := by
          simp [markedStream]
        cases hxe : x.endd with
        | true => rfl
        | false =>
          exfalso
          rw [hx, hxe] at e4
          simp only [Bool.false_eq_true, if_false, List.append_nil] at e4
          have hin' : x ∈ packIn out buf .init ins := by rw [hp]; simp
          have hxok : 0 < x.ctr := by
            have hall : ∀ ins : List PackIn, (∀ i ∈ ins, i.valid = true → i.code.Ok conv) →
                ∀ s : VBits, ∀ x ∈ packIn out buf s ins, 0 < x.ctr := by
              intro ins
              induction ins with
              | nil => intro _ s x hx; simp [packIn] at hx
              | cons i r ih =>
                intro hi s x hx
                simp only [packIn] at hx
                rcases List.mem_append.1 hx with hx | hx
                · split at hx
                  · rename_i hv
                    simp only [Bool.and_eq_true] at hv
                    simp only [List.mem_singleton] at hx
                    rw [hx]; exact (hi i (by simp) hv.2).pos
                  · simp at hx
                · exact ih (fun j hj => hi j (by simp [hj])) _ x hx
            exact hall ins hok _ x hin'
          have hlast := congrArg List.getLast? e4
          have hne : toBits x.ctr x.enc ≠ [] := by
            intro hh; have := congrArg List.length hh; simp at this; omega
          simp only [List.getLast?_append, List.getLast?_singleton, Option.or_some, List.getLast?_map] at hlast
          cases hg : (toBits x.ctr x.enc).getLast? with
          | none => rw [List.getLast?_eq_none_iff] at hg; exact hne hg
          | some b => rw [hg] at hlast; simp at hlast
    · have hb' := congrArg (List.filterMap id) e4
      rw [markedStream_bits] at hb'
      simp at hb'
      rw [e1, (Int3.upToEnd_pre e2).2 hn, VBits.wordBits_append, hb', ← e5]
      simp [wordBits]

/-- Non-vacuity: pieces of 3, 4 and 4 bits packed into 8-bit words. -/
example : packOut 8 16 .init
    ([⟨⟨0, 0, false⟩, false, false⟩, ⟨⟨0b101, 3, false⟩, true, false⟩, ⟨⟨0b1100, 4, false⟩, true, false⟩,
      ⟨⟨0b0111, 4, true⟩, true, true⟩] ++ List.replicate 5 ⟨⟨0, 0, false⟩, false, false⟩)
    = [(0b10111000, false), (0b11100000, true)] := by decide

/-! ### C16-C20 the core -/

/-- C16: at every moment of every execution from reset, the bits of the words delivered before
the first end-flagged word are a prefix of the T.81 code of the pixels accepted so far. -/
theorem C16_output_is_prefix_of_code (h : CoreSetup c T) {s : Int3} (hs : AfterReset c s)
    (ins : List CoreIn) (hwf : Int3.Wf c ins) :
    wordBits c.out (beforeEnd (Int3.delivered c s ins)) <+:
      encode T c.int1.bd c.int1.W (Int3.accepted c s ins) := by
  obtain ⟨k, hi⟩ := run_from_reset h.ok hs hwf
  exact (Int3.facts h.ok hi).1

/-- C17: once an end-flagged word is delivered, exactly `W * H` pixels have been accepted and
the words up to the first end-flagged one are the code of the whole frame followed by fewer than
`out` zero bits; every word after it is a repetition of it. -/
theorem C17_complete_at_end (h : CoreSetup c T) {s : Int3} (hs : AfterReset c s)
    (ins : List CoreIn) (hwf : Int3.Wf c ins) (w : Nat) (hw : (w, true) ∈ Int3.delivered c s ins) :
    (Int3.accepted c s ins).length = c.int1.W * c.int1.H ∧
    (∃ j, j < c.out ∧ wordBits c.out (upToEnd (Int3.delivered c s ins)) =
      encode T c.int1.bd c.int1.W (Int3.accepted c s ins) ++ List.replicate j false) ∧
    ∃ n, Int3.delivered c s ins = upToEnd (Int3.delivered c s ins) ++ List.replicate n (w, true) := by
  obtain ⟨k, hi⟩ := run_from_reset h.ok hs hwf
  obtain ⟨hk, j, hj, hb, hn⟩ := (Int3.facts h.ok hi).2 w hw
  refine ⟨?_, ⟨j, hj, hb⟩, hn⟩
  rw [Int3.inv_len hi, hk, ← Nat.mul_assoc, Nat.mul_div_cancel' h.legal.frame.dvd]

/-- C18: decoding (predictor 1, four components, table `T`) the words delivered up to the
end-flagged one gives back exactly the accepted pixels, for bit depths up to 15. -/
theorem C18_image_recovered (h : CoreSetup c T) (hbd : c.int1.bd ≤ 15) {s : Int3} (hs : AfterReset c s)
    (ins : List CoreIn) (hwf : Int3.Wf c ins) (w : Nat) (hw : (w, true) ∈ Int3.delivered c s ins) :
    ∃ pad, decode T (c.int1.bd + 1) c.int1.bd c.int1.W (c.int1.W * c.int1.H) []
      (wordBits c.out (upToEnd (Int3.delivered c s ins))) = some (Int3.accepted c s ins, pad) := by
  obtain ⟨hl, ⟨j, hj, hb⟩, _⟩ := C17_complete_at_end h hs ins hwf w hw
  obtain ⟨k, hi⟩ := run_from_reset h.ok hs hwf
  refine ⟨List.replicate j false, ?_⟩
  have hbd2 := h.legal.frame.bd2
  rw [hb, ← hl]
  exact decode_encode h.table (by omega) (by omega) hbd h.legal.frame.W4 _ (Int3.inv_bound hi) _

/-- C18 for the default table. -/
theorem C18_image_recovered_default (h : CoreLegal c) (hm : c.int1.mem = initHuffTable c.int1.bd)
    (hbd : c.int1.bd ≤ 15) {s : Int3} (hs : AfterReset c s) (ins : List CoreIn) (hwf : Int3.Wf c ins)
    (w : Nat) (hw : (w, true) ∈ Int3.delivered c s ins) :
    ∃ pad, decode defaultTable (c.int1.bd + 1) c.int1.bd c.int1.W (c.int1.W * c.int1.H) []
      (wordBits c.out (upToEnd (Int3.delivered c s ins))) = some (Int3.accepted c s ins, pad) :=
  C18_image_recovered (default_setup h hm) hbd hs ins hwf w hw

/-- C19: never more than `W * H` pixels are accepted, and as soon as that many have been
accepted, `nready` is high. -/
theorem C19_no_pixel_after_frame (h : CoreSetup c T) {s : Int3} (hs : AfterReset c s)
    (ins : List CoreIn) (hwf : Int3.Wf c ins) :
    (Int3.accepted c s ins).length ≤ c.int1.W * c.int1.H ∧
    ((Int3.accepted c s ins).length = c.int1.W * c.int1.H → (Int3.run c s ins).nready = true) := by
  obtain ⟨k, hi⟩ := run_from_reset h.ok hs hwf
  have hl := Int3.inv_len hi
  obtain ⟨its, recv, h1, h2⟩ := hi
  have hW : c.int1.W * c.int1.H = c.int1.ps * (c.int1.W / c.int1.ps * c.int1.H) := by
    rw [← Nat.mul_assoc, Nat.mul_div_cancel' h.legal.frame.dvd]
  have hps := h.legal.frame.pixels
  refine ⟨?_, ?_⟩
  · rw [hl, hW]; exact Nat.mul_le_mul_left _ h1.kle
  · intro he
    rw [hl, hW] at he
    have hk : k = c.int1.W / c.int1.ps * c.int1.H := Nat.eq_of_mul_eq_mul_left (by omega) he
    have := h1.endN
    rw [hk] at this
    simp only [decide_true] at this
    simp [Int3.nready, Int2.nready, this]

theorem nready_counter (c : CoreCfg) (ins : List CoreIn) : ∀ s : Int3, s.int2.nreadyReset = false →
    s.int2.nreadyCtr + ins.length < 8 →
    (Int3.run c s ins).int2.nreadyReset = false ∧
      (Int3.run c s ins).int2.nreadyCtr = s.int2.nreadyCtr + ins.length := by
  induction ins with
  | nil => intro s h1 h2; exact ⟨h1, rfl⟩
  | cons i r ih =>
    intro s h1 h2
    simp only [List.length_cons] at h2
    have := ih (s.step c i.pixels i.valid i.busy)
      (by simp only [Int3.step, Int2.step]; rw [if_neg (by omega)]; exact h1)
      (by simp only [Int3.step, Int2.step]; rw [Nat.mod_eq_of_lt (by omega)]; omega)
    refine ⟨this.1, ?_⟩
    rw [show Int3.run c s (i :: r) = Int3.run c (s.step c i.pixels i.valid i.busy) r from rfl, this.2]
    simp only [Int3.step, Int2.step]
    rw [Nat.mod_eq_of_lt (by omega)]
    simp only [List.length_cons]; omega

/-- C19: the core is not ready in the first eight cycles after reset. -/
theorem C19_not_ready_after_reset (c : CoreCfg) {s : Int3} (hs : AfterReset c s) (ins : List CoreIn)
    (hn : ins.length < 8) : (Int3.run c s ins).nready = true := by
  obtain ⟨m, _, rfl⟩ := hs
  have := nready_counter c ins (Int3.reset c m) rfl (by simpa [Int3.reset, Int2.reset] using hn)
  simp [Int3.nready, Int2.nready, this.1]

/-- C20: a valid word that the consumer does not take is presented unchanged in the next cycle,
in every state. -/
theorem C20_word_stable (c : CoreCfg) {s0 : Int3} (hs : AfterReset c s0) (ins : List CoreIn)
    (pixels : List Nat) (v : Bool) :
    let s := Int3.run c s0 ins
    s.valid = true →
      (s.step c pixels v true).valid = true ∧ (s.step c pixels v true).data = s.data ∧
      (s.step c pixels v true).endd = s.endd := by
  intro s hv
  have hinv : ∀ (ins : List CoreIn) (s : Int3), (s.vbits.ofsm = .output → s.vbits.valid = false) →
      ((Int3.run c s ins).vbits.ofsm = .output → (Int3.run c s ins).vbits.valid = false) := by
    intro ins
    induction ins with
    | nil => intro s h; exact h
    | cons i r ih =>
      intro s h
      apply ih
      simp only [Int3.step, VBits.step, VBits.outStep]
      split
      · split <;> simp
      · cases hf : s.vbits.ofsm with
        | output => intro _; exact h hf
        | burst => cases i.busy <;> simp
        | done => simp
  have h0 : s.vbits.ofsm = .output → s.vbits.valid = false := by
    apply hinv
    obtain ⟨m, _, rfl⟩ := hs
    intro _; rfl
  have hv' : s.vbits.valid = true := hv
  simp only [Int3.valid, Int3.data, Int3.endd, Int3.step, VBits.step, VBits.outStep]
  cases hf : s.vbits.ofsm with
  | output => rw [h0 hf] at hv'; cases hv'
  | burst => simp [VBits.doOutput, hf, hv']
  | done => simp [VBits.doOutput, hf, hv']

/-- Non-vacuity of C17/C18: a small core (1 pixel per step, 4x2 frame, 4-bit pixels) that is
always offered pixels and never stalled delivers an end-flagged word. -/
def tinyCore : CoreCfg :=
  { int1 := { bd := 4, ps := 1, W := 4, H := 2, mem := initHuffTable 4 }
    depth := 25, conv := 10, cdepth := 12, out := 8, buf := 18 }

example : CoreSetup tinyCore defaultTable := default_setup (by decide) rfl

def tinyIns : List CoreIn := List.replicate 45 ⟨[5], true, false⟩

example : Int3.Wf tinyCore tinyIns := by
  intro i hi _
  rw [List.eq_of_mem_replicate hi]; decide

set_option maxRecDepth 20000 in
example : ((Int3.delivered tinyCore (Int3.init tinyCore) tinyIns).any (·.2)) = true := by decide +kernel

end Props
