/- Property theorems C83 (continued): the shipped netlists axihp_reader.v, axihp_writer.v and axihp_fifo.v, wired together as
beta_integration_fullaxi.py:108-177 wires them. -/
import Verif.Netlist.Alone.Burst
import Verif.Props.Reader
import Verif.Props.Writer

set_option autoImplicit false

namespace Props.NetBurst
open Netlist Model

/-! ### Reading -/

/-- axihp_reader.v in front of axihp_fifo.v. -/
structure Reads where
  rd : HpReaderV.top.S
  fifo : HpFifoV.top.S

/-- One cycle of the environment: control side, AXI slave, and whether the consumer reads the FIFO. -/
structure ReadsIn where
  enable : Bool
  addrEmpty : Bool
  addr : Nat
  arready : Bool
  rvalid : Bool
  rlast : Bool
  rresp : Nat
  rdata : Nat
  pop : Bool
  aclk : Bool

namespace Reads

/-- Both netlists with the initial values of the Verilog. -/
def init : Reads := ⟨HpReaderV.top.powerUp, HpFifoV.top.powerUp⟩

/-- One rising clock edge without reset, wired as beta_integration_fullaxi.py:108-130 (`data_full` is the negation of
`writable16`); the undriven input `replace` of the FIFO is 0. -/
def step (s : Reads) (i : ReadsIn) : Reads :=
  { rd := HpReaderV.top.step s.rd i.enable i.addrEmpty i.addr i.rvalid (!HpFifoV.top.writable16 s.fifo) i.rlast i.rresp i.rdata i.aclk
      false i.arready
    fifo := HpFifoV.top.step s.fifo false (HpReaderV.top.data_out s.rd i.rdata) i.pop false false
      (HpReaderV.top.data_enable s.rd i.rvalid) }

def run : Reads → List ReadsIn → Reads
  | s, [] => s
  | s, i :: r => run (s.step i) r

/-- The beats transferred on the AXI read data channel. -/
def beats : Reads → List ReadsIn → List Nat
  | _, [] => []
  | s, i :: r => (if HpReaderV.top.m_axi_ro__rready s.rd && i.rvalid then [i.rdata] else []) ++ beats (s.step i) r

/-- The words the consumer takes from the FIFO: `data_out` in the cycles with `readable` and `read`. -/
def popped : Reads → List ReadsIn → List Nat
  | _, [] => []
  | s, i :: r => (if HpFifoV.top.readable s.fifo && i.pop then [HpFifoV.top.data_out s.fifo] else []) ++ popped (s.step i) r

/-- The bursts requested: `araddr`, `arlen`, `arsize` and `arburst` in the cycles with `arvalid` and `arready`. -/
def bursts : Reads → List ReadsIn → List (Nat × Nat × Nat × Nat)
  | _, [] => []
  | s, i :: r => (if HpReaderV.top.m_axi_ro__arvalid s.rd && i.arready then
      [(HpReaderV.top.m_axi_ro__araddr s.rd i.addr, HpReaderV.top.m_axi_ro__arlen s.rd, HpReaderV.top.m_axi_ro__arsize s.rd,
        HpReaderV.top.m_axi_ro__arburst s.rd)] else []) ++ bursts (s.step i) r

/-- The slave, which owes `n` beats: it offers data only while it owes some, marks exactly the last of each 16 with `rlast`,
and owes 16 more for each burst. -/
def SlaveOk : Nat → Reads → List ReadsIn → Prop
  | _, _, [] => True
  | n, s, i :: r => (i.rvalid = true → 0 < n) ∧ i.rlast = (i.rvalid && n % 16 == 1) ∧
      SlaveOk (n + (if HpReaderV.top.m_axi_ro__arvalid s.rd && i.arready then 16 else 0)
        - (if HpReaderV.top.m_axi_ro__rready s.rd && i.rvalid then 1 else 0)) (s.step i) r

instance decSlaveOk : ∀ (n : Nat) (s : Reads) (is : List ReadsIn), Decidable (SlaveOk n s is)
  | _, _, [] => isTrue trivial
  | n, s, i :: r =>
    have := decSlaveOk (n + (if HpReaderV.top.m_axi_ro__arvalid s.rd && i.arready then 16 else 0)
        - (if HpReaderV.top.m_axi_ro__rready s.rd && i.rvalid then 1 else 0)) (s.step i) r
    by unfold SlaveOk; exact inferInstance

def abs (s : Reads) (d : Nat) : ReadSide := ⟨absHpReader s.rd, absHpFifo s.fifo d⟩

def inp (i : ReadsIn) : ReadSideIn := ⟨i.enable, i.addrEmpty, i.arready, i.rvalid, i.rlast, i.rdata, i.pop⟩

theorem hpFifo_inv_step {f : SyncFifo} (h : f.Inv 32) (we : Bool) (d : Nat) (e re : Bool) : (HpFifo.step f we d e re).Inv 32 :=
  SyncFifo.inv_step h _ _ _

theorem sim_step (s : Reads) (d : Nat) (i : ReadsIn) (ha : s.rd.active < 16) (hf : (absHpFifo s.fifo d).Inv 32) (hd : i.rdata < 2 ^ 64) :
    ∃ d', (s.step i).abs d' = (s.abs d).step (inp i) ∧ (s.step i).rd.active < 16 ∧ (absHpFifo (s.step i).fifo d').Inv 32 := by
  have e := hpReader_step s.rd i.enable i.addrEmpty i.addr i.rvalid (!HpFifoV.top.writable16 s.fifo) i.rlast i.rresp
      i.rdata i.aclk i.arready ha
  have ef := hpFifo_step s.fifo d (HpReaderV.top.data_enable s.rd i.rvalid) i.pop false i.rdata hd hf
  refine ⟨(if i.pop then s.fifo.u_fifo.storage.getD s.fifo.u_fifo.consume 0 else d), ?_, ?_, ?_⟩
  · refine congr (congrArg ReadSide.mk ?_) ?_
    · exact e
    · exact ef.trans (by rw [hpReader_dataEn]; rfl)
  · refine Nat.lt_of_le_of_lt (Nat.le_of_eq (congrArg HpReader.active e)) ?_
    show HpReader.active (HpReader.step _ _) < 16
    have ha' : (absHpReader s.rd).active < 16 := ha
    simp only [HpReader.step]
    repeat' split
    all_goals omega
  · exact Eq.mpr (congrArg (SyncFifo.Inv 32) ef) (hpFifo_inv_step hf _ _ _ _)

theorem sim_run : ∀ (is : List ReadsIn) (s : Reads) (d : Nat), s.rd.active < 16 → (absHpFifo s.fifo d).Inv 32 →
    (∀ i ∈ is, i.rdata < 2 ^ 64) →
    (∃ d', (run s is).abs d' = ReadSide.run (s.abs d) (is.map inp)) ∧ beats s is = ReadSide.beats (s.abs d) (is.map inp) ∧
    popped s is = ReadSide.popped (s.abs d) (is.map inp) ∧ (bursts s is).length = ReadSide.bursts (s.abs d) (is.map inp) ∧
    ∀ n, SlaveOk n s is → ReadSide.SlaveOk n (s.abs d) (is.map inp)
  | [], s, d, _, _, _ => ⟨⟨d, rfl⟩, rfl, rfl, rfl, fun _ _ => trivial⟩
  | i :: r, s, d, ha, hf, hd => by
    obtain ⟨d', e, ha', hf'⟩ := sim_step s d i ha hf (hd i (List.mem_cons_self ..))
    obtain ⟨h1, h2, h3, h4, h5⟩ := sim_run r (s.step i) d' ha' hf' (fun j hj => hd j (List.mem_cons_of_mem _ hj))
    rw [e] at h1 h2 h3 h4 h5
    refine ⟨h1, ?_, ?_, ?_, ?_⟩
    · exact congrArg (_ ++ ·) h2
    · exact congrArg (_ ++ ·) h3
    · simp only [bursts, List.length_append, h4, ReadSide.bursts, List.map_cons]
      congr 1
      show List.length (if (s.rd.arvalid && i.arready) = true then _ else _) = if (s.rd.arvalid && i.arready) = true then 1 else 0
      split <;> rfl
    · rintro n ⟨a, b, c⟩
      exact ⟨a, b, h5 _ c⟩

theorem init_inv : (absHpFifo init.fifo 0).Inv 32 := SyncFifo.inv_reset _ _ (by decide) (by rfl)

theorem abs_init : init.abs 0 = ReadSide.init := rfl

end Reads

/-- C83: the netlist of the reader in front of the netlist of its FIFO loses, repeats and reorders nothing: with any AXI slave
that answers bursts of 16 and any consumer, the words taken so far are the first of the beats transferred, and the
rest, at most 28 words, is what the FIFO's level counts. -/
theorem C83_reader_no_beat_lost (is : List ReadsIn) (hs : Reads.SlaveOk 0 .init is) (hd : ∀ i ∈ is, i.rdata < 2 ^ 64) :
    Reads.popped .init is <+: Reads.beats .init is ∧
    (Reads.beats .init is).length = (Reads.popped .init is).length + HpFifoV.top.fifo_level (Reads.run .init is).fifo ∧
    HpFifoV.top.fifo_level (Reads.run .init is).fifo ≤ 28 := by
  obtain ⟨⟨d', h1⟩, h2, h3, _, h5⟩ := Reads.sim_run is .init 0 (by decide) Reads.init_inv hd
  rw [Reads.abs_init] at h1 h2 h3 h5
  have hd' : ∀ i ∈ is.map Reads.inp, i.rdata < 2 ^ 64 := by
    intro i hi
    obtain ⟨j, hj, rfl⟩ := List.mem_map.1 hi
    exact hd j hj
  obtain ⟨c1, c2⟩ := C41_no_beat_lost _ (h5 0 hs) hd'
  have hl : HpFifoV.top.fifo_level (Reads.run .init is).fifo = (ReadSide.run .init (is.map Reads.inp)).fifo.level := by
    rw [← h1]; rfl
  rw [h2, h3, hl, ← c1]
  refine ⟨⟨_, rfl⟩, ?_, c2⟩
  rw [List.length_append]; simp [ReadSide.queue]

/-- C83: every burst the reader requests is for the address on its input, 16 beats long (`arlen` 15), of 8 bytes each, and
incrementing. -/
theorem C83_reader_bursts (is : List ReadsIn) : ∀ b ∈ Reads.bursts .init is, b.2 = (15, 3, 1) ∧ b.1 ∈ is.map ReadsIn.addr := by
  suffices ∀ s, ∀ b ∈ Reads.bursts s is, b.2 = (15, 3, 1) ∧ b.1 ∈ is.map ReadsIn.addr from this _
  induction is with
  | nil => intro s b hb; cases hb
  | cons i r ih =>
    intro s b hb
    rcases List.mem_append.1 hb with hb | hb
    · split at hb
      · rw [List.mem_singleton.1 hb]
        exact ⟨rfl, List.mem_cons_self ..⟩
      · cases hb
    · exact ⟨(ih _ b hb).1, List.mem_cons_of_mem _ (ih _ b hb).2⟩

/-- C83: the reader never has more than eight bursts under way, and never receives more than it asked for. -/
theorem C83_reader_outstanding (is : List ReadsIn) (hs : Reads.SlaveOk 0 .init is) (hd : ∀ i ∈ is, i.rdata < 2 ^ 64) :
    (Reads.beats .init is).length ≤ 16 * (Reads.bursts .init is).length ∧
    16 * (Reads.bursts .init is).length ≤ (Reads.beats .init is).length + 128 := by
  obtain ⟨_, h2, _, h4, h5⟩ := Reads.sim_run is .init 0 (by decide) Reads.init_inv hd
  rw [Reads.abs_init] at h2 h4 h5
  have hd' : ∀ i ∈ is.map Reads.inp, i.rdata < 2 ^ 64 := by
    intro i hi
    obtain ⟨j, hj, rfl⟩ := List.mem_map.1 hi
    exact hd j hj
  have := C41_outstanding _ (h5 0 hs) hd'
  rw [h2, h4]
  exact ⟨this.1, this.2.1⟩

/-- A run meeting the hypotheses: one burst of beats 100, 101, …, four of which are read. -/
def readDemo : List ReadsIn :=
  [⟨true, false, 0x1000, true, false, false, 0, 0, false, true⟩, ⟨false, true, 0x1000, true, false, false, 0, 0, false, true⟩,
   ⟨false, true, 0, true, false, false, 0, 0, false, true⟩] ++
  (List.range 16).map fun k => ⟨false, true, 0, true, true, k == 15, 0, 100 + k, k ≥ 12, true⟩

example : Reads.SlaveOk 0 .init readDemo ∧ Reads.beats .init readDemo = (List.range 16).map (100 + ·) ∧
    Reads.popped .init readDemo = [100, 101, 102, 103] ∧ Reads.bursts .init readDemo = [(0x1000, 15, 3, 1)] := by decide +kernel

/-! ### Writing -/

/-- axihp_writer.v behind axihp_fifo.v. -/
structure Writes where
  wr : HpWriterV.top.S
  fifo : HpFifoV.top.S

/-- One cycle of the environment: control side, AXI slave, and the producer's word for the FIFO. -/
structure WritesIn where
  enable : Bool
  addrEmpty : Bool
  addr : Nat
  awready : Bool
  wready : Bool
  bvalid : Bool
  bresp : Nat
  push : Bool
  word : Nat
  endd : Bool
  strobe : Nat
  aclk : Bool

namespace Writes

def init : Writes := ⟨HpWriterV.top.powerUp, HpFifoV.top.powerUp⟩

/-- One rising clock edge without reset, wired as beta_integration_fullaxi.py:157-175 (`data_empty` is the negation of
`readable16`, the FIFO is read by `data_enable`); the undriven input `replace` of the FIFO is 0. -/
def step (s : Writes) (i : WritesIn) : Writes :=
  { wr := HpWriterV.top.step s.wr i.enable i.addrEmpty i.addr i.wready (!HpFifoV.top.readable16 s.fifo) (HpFifoV.top.data_out s.fifo)
      i.bvalid i.bresp i.strobe i.aclk false i.awready
    fifo := HpFifoV.top.step s.fifo i.endd i.word (HpWriterV.top.data_enable s.wr i.wready) false false i.push }

def run : Writes → List WritesIn → Writes
  | s, [] => s
  | s, i :: r => run (s.step i) r

/-- The beats transferred on the AXI write data channel: `wdata` and `wlast` in the cycles with `wvalid` and `wready`. -/
def beats : Writes → List WritesIn → List (Nat × Bool)
  | _, [] => []
  | s, i :: r => (if HpWriterV.top.m_axi_wo__wvalid s.wr && i.wready then
      [(HpWriterV.top.m_axi_wo__wdata s.wr (HpFifoV.top.data_out s.fifo), HpWriterV.top.m_axi_wo__wlast s.wr)] else []) ++ beats (s.step i) r

/-- The words the FIFO accepts. -/
def pushed : Writes → List WritesIn → List Nat
  | _, [] => []
  | s, i :: r => (if HpFifoV.top.writable s.fifo && i.push then [i.word] else []) ++ pushed (s.step i) r

/-- The bursts requested: `awaddr`, `awlen`, `awsize` and `awburst` in the cycles with `awvalid` and `awready`. -/
def bursts : Writes → List WritesIn → List (Nat × Nat × Nat × Nat)
  | _, [] => []
  | s, i :: r => (if HpWriterV.top.m_axi_wo__awvalid s.wr && i.awready then
      [(HpWriterV.top.m_axi_wo__awaddr s.wr i.addr, HpWriterV.top.m_axi_wo__awlen s.wr, HpWriterV.top.m_axi_wo__awsize s.wr,
        HpWriterV.top.m_axi_wo__awburst s.wr)] else []) ++ bursts (s.step i) r

/-- The slave accepts a beat in the first cycle in which it is offered with `wlast`. -/
def LastTaken : Writes → List WritesIn → Prop
  | _, [] => True
  | s, i :: r => (HpWriterV.top.m_axi_wo__wvalid s.wr = true → HpWriterV.top.m_axi_wo__wlast s.wr = true → i.wready = true) ∧
      LastTaken (s.step i) r

instance decLastTaken : ∀ (s : Writes) (is : List WritesIn), Decidable (LastTaken s is)
  | _, [] => isTrue trivial
  | s, i :: r =>
    have := decLastTaken (s.step i) r
    by unfold LastTaken; exact inferInstance

def abs (s : Writes) (d : Nat) : WriteSide := ⟨absHpWriter s.wr, absHpFifo s.fifo d⟩

def inp (i : WritesIn) : WriteSideIn := ⟨i.enable, i.addrEmpty, i.awready, i.wready, i.bvalid, i.push, i.word, i.endd⟩

/-- The registers are within their four bits. -/
def Small (s : Writes) : Prop := s.wr.active < 16 ∧ s.wr.unconf < 16 ∧ s.wr.counter < 16

theorem sim_step (s : Writes) (d : Nat) (i : WritesIn) (ha : s.Small) (hf : (absHpFifo s.fifo d).Inv 32) (hd : i.word < 2 ^ 64) :
    ∃ d', (s.step i).abs d' = (s.abs d).step (inp i) ∧ (s.step i).Small ∧ (absHpFifo (s.step i).fifo d').Inv 32 := by
  obtain ⟨h1, h2, h3⟩ := ha
  have e := hpWriter_step s.wr i.enable i.addrEmpty i.addr i.wready (!HpFifoV.top.readable16 s.fifo) (HpFifoV.top.data_out s.fifo)
      i.bvalid i.bresp i.strobe i.aclk i.awready h1 h2 h3
  have ef := hpFifo_step s.fifo d i.push (HpWriterV.top.data_enable s.wr i.wready) i.endd i.word hd hf
  refine ⟨(if HpWriterV.top.data_enable s.wr i.wready then s.fifo.u_fifo.storage.getD s.fifo.u_fifo.consume 0 else d), ?_, ?_, ?_⟩
  · refine congr (congrArg WriteSide.mk ?_) ?_
    · exact e
    · exact ef.trans (by rw [hpWriter_dataEn]; rfl)
  · have h1 : (absHpWriter s.wr).active < 16 := h1
    have h2 : (absHpWriter s.wr).unconf < 16 := h2
    have h3 : (absHpWriter s.wr).counter < 16 := h3
    refine ⟨Nat.lt_of_le_of_lt (Nat.le_of_eq (congrArg HpWriter.active e)) ?_, Nat.lt_of_le_of_lt (Nat.le_of_eq (congrArg HpWriter.unconf e)) ?_,
      Nat.lt_of_le_of_lt (Nat.le_of_eq (congrArg HpWriter.counter e)) ?_⟩ <;> simp only [HpWriter.step] <;> repeat' split
    all_goals omega
  · exact Eq.mpr (congrArg (SyncFifo.Inv 32) ef) (Reads.hpFifo_inv_step hf _ _ _ _)

theorem sim_run : ∀ (is : List WritesIn) (s : Writes) (d : Nat), s.Small → (absHpFifo s.fifo d).Inv 32 →
    (∀ i ∈ is, i.word < 2 ^ 64) →
    (∃ d', (run s is).abs d' = WriteSide.run (s.abs d) (is.map inp)) ∧ beats s is = WriteSide.beats (s.abs d) (is.map inp) ∧
    pushed s is = WriteSide.pushed (s.abs d) (is.map inp) ∧ (bursts s is).length = WriteSide.bursts (s.abs d) (is.map inp) ∧
    (LastTaken s is → WriteSide.LastTaken (s.abs d) (is.map inp))
  | [], s, d, _, _, _ => ⟨⟨d, rfl⟩, rfl, rfl, rfl, fun _ => trivial⟩
  | i :: r, s, d, ha, hf, hd => by
    obtain ⟨d', e, ha', hf'⟩ := sim_step s d i ha hf (hd i (List.mem_cons_self ..))
    obtain ⟨h1, h2, h3, h4, h5⟩ := sim_run r (s.step i) d' ha' hf' (fun j hj => hd j (List.mem_cons_of_mem _ hj))
    rw [e] at h1 h2 h3 h4 h5
    refine ⟨h1, ?_, ?_, ?_, ?_⟩
    · exact congrArg (_ ++ ·) h2
    · exact congrArg (_ ++ ·) h3
    · simp only [bursts, List.length_append, h4, WriteSide.bursts, List.map_cons]
      congr 1
      show List.length (if (s.wr.awvalid && i.awready) = true then _ else _) = if (s.wr.awvalid && i.awready) = true then 1 else 0
      split <;> rfl
    · rintro ⟨a, c⟩
      exact ⟨a, h5 c⟩

theorem init_inv : (absHpFifo init.fifo 0).Inv 32 := SyncFifo.inv_reset _ _ (by decide) (by rfl)

theorem abs_init : init.abs 0 = WriteSide.init := rfl

end Writes

/-- C83: the defect of C42 is in the netlist: whatever slave and producer do, `wlast` is set on exactly the beats 16, 32, 48, …
counted from 0, one beat later than the bursts of 16 end. -/
theorem C83_writer_last_positions (is : List WritesIn) (hd : ∀ i ∈ is, i.word < 2 ^ 64) :
    (Writes.beats .init is).map Prod.snd =
      (List.range (Writes.beats .init is).length).map fun k => decide (0 < k) && k % 16 == 0 := by
  have h2 := (Writes.sim_run is .init 0 ⟨by decide, by decide, by decide⟩ Writes.init_inv hd).2.1
  rw [h2]
  exact C42_last_positions _

/-- C83: with a slave that takes each flagged beat at once, the netlist writes the producer's words in order, each once, with at
most a FIFO's content to follow, except that beat number 16 may be an additional word that nobody sent. -/
theorem C83_writer_data (is : List WritesIn) (hl : Writes.LastTaken .init is) (hd : ∀ i ∈ is, i.word < 2 ^ 64) :
    let out := (Writes.beats .init is).map Prod.fst
    let words := Writes.pushed .init is
    let left := HpFifoV.top.fifo_level (Writes.run .init is).fifo
    (out <+: words ∧ words.length = out.length + left) ∨
    (16 < out.length ∧ out.eraseIdx 16 <+: words ∧ words.length + 1 = out.length + left) := by
  obtain ⟨⟨d', h1⟩, h2, h3, _, h5⟩ := Writes.sim_run is .init 0 ⟨by decide, by decide, by decide⟩ Writes.init_inv hd
  rw [Writes.abs_init] at h1 h2 h3 h5
  have hd' : ∀ i ∈ is.map Writes.inp, i.word < 2 ^ 64 := by
    intro i hi
    obtain ⟨j, hj, rfl⟩ := List.mem_map.1 hi
    exact hd j hj
  have c := C42_data _ (h5 hl) hd'
  have hl : HpFifoV.top.fifo_level (Writes.run .init is).fifo = (WriteSide.run .init (is.map Writes.inp)).queue.length := by
    rw [← h1]; simp [WriteSide.queue]; rfl
  rw [h2, h3, hl]
  intro out words left
  rcases c with c | ⟨c1, c2⟩
  · exact .inl ⟨⟨_, c⟩, by rw [← List.length_append]; exact congrArg List.length c.symm⟩
  · refine .inr ⟨c1, ⟨_, c2⟩, ?_⟩
    have := congrArg List.length c2
    rw [List.length_append, List.length_eraseIdx, if_pos c1] at this
    show words.length + 1 = out.length + left
    have e : words.length = out.length - 1 + left := this.symm
    have : 16 < out.length := c1
    omega

/-- C83: the bursts requested are for the address on the input, 16 beats of 8 bytes, incrementing. -/
theorem C83_writer_bursts (is : List WritesIn) : ∀ b ∈ Writes.bursts .init is, b.2 = (15, 3, 1) ∧ b.1 ∈ is.map WritesIn.addr := by
  suffices ∀ s, ∀ b ∈ Writes.bursts s is, b.2 = (15, 3, 1) ∧ b.1 ∈ is.map WritesIn.addr from this _
  induction is with
  | nil => intro s b hb; cases hb
  | cons i r ih =>
    intro s b hb
    rcases List.mem_append.1 hb with hb | hb
    · split at hb
      · rw [List.mem_singleton.1 hb]
        exact ⟨rfl, List.mem_cons_self ..⟩
      · cases hb
    · exact ⟨(ih _ b hb).1, List.mem_cons_of_mem _ (ih _ b hb).2⟩

/-- C83: with such a slave the netlist never sends more than one beat beyond the bursts it requested. -/
theorem C83_writer_outstanding (is : List WritesIn) (hl : Writes.LastTaken .init is) (hd : ∀ i ∈ is, i.word < 2 ^ 64) :
    (Writes.beats .init is).length ≤ 16 * (Writes.bursts .init is).length + 1 := by
  obtain ⟨_, h2, _, h4, h5⟩ := Writes.sim_run is .init 0 ⟨by decide, by decide, by decide⟩ Writes.init_inv hd
  rw [Writes.abs_init] at h2 h4 h5
  have hd' : ∀ i ∈ is.map Writes.inp, i.word < 2 ^ 64 := by
    intro i hi
    obtain ⟨j, hj, rfl⟩ := List.mem_map.1 hi
    exact hd j hj
  rw [h2, h4]
  exact (C42_outstanding _ (h5 hl) hd').2.2

/-- An enabled cycle with an always ready slave. -/
def wcyc' (push : Bool) (word : Nat) : WritesIn := ⟨true, false, 0x2000, true, true, false, 0, push, word, false, 255, true⟩

/-- 40 words pushed at full speed, then 40 cycles more: both hypotheses are met and 33 words leave. -/
example : let is := (List.range 40).map (fun k => wcyc' true (100 + k)) ++ List.replicate 40 (wcyc' false 0)
    Writes.LastTaken .init is ∧ (Writes.beats .init is).map Prod.fst = (List.range 33).map (100 + ·) ∧
    (Writes.beats .init is).map Prod.snd = (List.range 33).map (fun k => k == 16 || k == 32) ∧
    HpFifoV.top.fifo_level (Writes.run .init is).fifo = 7 := by decide +kernel

/-- With exactly 16 words the second case occurs in the netlist as well: 17 beats, the last from an empty FIFO. -/
theorem C83_writer_underrun_limit :
    let is := (List.range 16).map (fun k => wcyc' true (100 + k)) ++ List.replicate 30 (wcyc' false 0)
    Writes.LastTaken .init is ∧ Writes.pushed .init is = (List.range 16).map (100 + ·) ∧
    (Writes.beats .init is).map Prod.fst = (List.range 16).map (100 + ·) ++ [0] := by decide +kernel

end Props.NetBurst
