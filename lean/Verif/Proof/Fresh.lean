/- The contents of memories and read registers after a reset have no influence on the core's outputs:
a bisimulation between states that agree on everything that is in use. -/
import Verif.Proof.Beta

set_option autoImplicit false

namespace Model

/-- FIFO states that differ only in unused storage and in an unused read register. -/
structure Fifo.Sim (depth : Nat) (a b : Fifo) : Prop where
  ia : a.Inv depth
  ib : b.Inv depth
  readable : a.readable = b.readable
  level : a.inner.level = b.inner.level
  contents : a.inner.contents (depth - 1) = b.inner.contents (depth - 1)
  dout : a.readable = true → a.dout = b.dout

theorem Fifo.sim_reset {depth : Nat} (h : 1 < depth) {m m' : List Nat} {d d' : Nat} (hm : m.length = depth - 1)
    (hm' : m'.length = depth - 1) : Fifo.Sim depth (.reset m d) (.reset m' d') :=
  ⟨Fifo.inv_reset m d h hm, Fifo.inv_reset m' d' h hm', rfl, rfl, by simp [reset], by simp [reset]⟩

theorem Fifo.sim_step {depth : Nat} {a b : Fifo} (h : Fifo.Sim depth a b) (we : Bool) {x y : Nat} (re : Bool)
    (hxy : we = true → x = y) : Fifo.Sim depth (a.step depth we x re) (b.step depth we y re) := by
  obtain ⟨h1, h2, h3, h4, h5, h6⟩ := h
  have hr : a.inner.readable = b.inner.readable := by simp [SyncFifo.readable, h4]
  have hw : a.inner.writable (depth - 1) = b.inner.writable (depth - 1) := by simp [SyncFifo.writable, h4]
  have hre : a.innerRe re = b.innerRe re := by simp [innerRe, hr, h3]
  refine ⟨Fifo.inv_step h1 _ _ _, Fifo.inv_step h2 _ _ _, ?_, ?_, ?_, ?_⟩
  · simp only [step, hre, h3]
  · simp only [step, SyncFifo.step, hre, hr, hw, h4]
  · simp only [step]
    rw [SyncFifo.contents_step h1, SyncFifo.contents_step h2, hre, hr, hw, h5]
    cases we
    · simp
    · rw [hxy rfl]
  · intro hrd
    simp only [step, dout, SyncFifo.step, hre]
    cases hi : b.innerRe re with
    | true =>
      simp only [if_true]
      have hb : b.inner.readable = true := by
        simp only [innerRe, Bool.and_eq_true] at hi; exact hi.1
      have ha : a.inner.readable = true := by rw [hr]; exact hb
      have c1 := SyncFifo.contents_cons h1 (by simpa [SyncFifo.readable] using ha)
      have c2 := SyncFifo.contents_cons h2 (by simpa [SyncFifo.readable] using hb)
      rw [h5, c2] at c1
      exact (List.cons.inj c1).1.symm
    | false =>
      simp only [Bool.false_eq_true, if_false]
      apply h6
      rw [step] at hrd
      simp only [hre, hi, Bool.false_eq_true, if_false] at hrd
      cases re <;> simp_all

/-- Converter states that agree except for an invalid input register. -/
def Converter.Sim (a b : Converter) : Prop := ∃ r, b = { a with reg := r } ∧ (a.validReg = true → r = a.reg)

theorem Converter.sim_step (total conv : Nat) {a b : Converter} (h : Converter.Sim a b) {x y : Code}
    (v full : Bool) (hxy : v = true → x = y) :
    Converter.Sim (a.step total conv x v full) (b.step total conv y v full) := by
  obtain ⟨r, rfl, hr⟩ := h
  obtain ⟨f, la, rg, vr, el, edl, ou, va⟩ := a
  simp only at hr
  have key : ∀ (a b : Converter), b = { a with reg := y } → a.reg = x → a.validReg = v → Converter.Sim a b := by
    intro a b h1 h2 h3
    exact ⟨y, h1, fun h => by rw [h2]; exact (hxy (h3 ▸ h)).symm⟩
  cases vr with
  | true =>
    have hr := hr rfl
    subst hr
    cases f with
    | idle => exact ⟨_, rfl, fun _ => rfl⟩
    | steps i => exact ⟨_, rfl, fun _ => rfl⟩
    | burstPrepare => exact key _ _ rfl rfl rfl
    | burst =>
      simp only [step, if_true, regData]
      split
      · split <;> exact key _ _ rfl rfl rfl
      · split <;> exact key _ _ rfl rfl rfl
  | false =>
    cases f with
    | idle =>
      simp only [step, tryBurst, Bool.false_and, Bool.false_eq_true, if_false]
      split <;> exact ⟨r, rfl, fun h => by cases h⟩
    | steps i =>
      simp only [step, tryBurst, Bool.false_and, Bool.false_eq_true, if_false]
      split
      · split <;> exact ⟨r, rfl, fun h => by cases h⟩
      · exact ⟨r, rfl, fun h => by cases h⟩
    | burstPrepare => exact key _ _ rfl rfl rfl
    | burst => exact key _ _ rfl rfl rfl

/-- Packer states that agree except for invalid registers.  In state CLEAN_BUFFER the two
registers are exchanged. -/
def VBits.Sim (a b : VBits) : Prop := ∃ r f, b = { a with reg := r, bf := f } ∧
  (if a.ifsm = .cleanBuffer then r = a.reg ∧ (a.validReg = true → f = a.bf)
   else (a.validReg = true → r = a.reg) ∧ (a.validBf = true → f = a.bf))

theorem VBits.sim_step (out buf : Nat) {a b : VBits} (h : VBits.Sim a b) {x y : Code} (v busy : Bool)
    (hxy : v = true → x = y) : VBits.Sim (a.step out buf x v busy) (b.step out buf y v busy) := by
  obtain ⟨r, f, rfl, hrf⟩ := h
  have hyx : v = true → y = x := fun h => (hxy h).symm
  obtain ⟨of, d, va, en, fs, la, bu, co, fr, st, ei, rg, vr, bf, vb⟩ := a
  cases fs with
  | input =>
    simp only [reduceCtorEq, if_false] at hrf
    obtain ⟨h1, h2⟩ := hrf
    cases vb with
    | true =>
      have h2 := h2 rfl
      subst h2
      by_cases hc : f.ctr ≤ fr
      · refine ⟨f, r, ?_, ?_⟩
        · simp [step, inStep, hc, incBuff, outStep, doOutput]
        · simp only [step, inStep, hc, if_true]
          exact ⟨trivial, h1⟩
      · refine ⟨r, f, ?_, ?_⟩
        · simp [step, inStep, hc, incBuff, outStep, doOutput]
        · simp only [step, inStep, hc, if_true, if_false, reduceCtorEq]
          exact ⟨h1, fun _ => trivial⟩
    | false =>
      refine ⟨r, f, ?_, ?_⟩
      · cases vr <;> simp [step, inStep, incBuff, outStep, doOutput]
      · cases vr
        · simp [step, inStep]
        · simpa [step, inStep] using h1
  | cleanBuffer =>
    simp only [if_true] at hrf
    obtain ⟨rfl, h2⟩ := hrf
    refine ⟨f, r, ?_, ?_⟩
    · cases vr <;> simp [step, inStep, incBuff, outStep, doOutput]
    · cases vr
      · simp [step, inStep]
      · simpa [step, inStep] using h2
  | registerForBurst =>
    simp only [reduceCtorEq, if_false] at hrf
    refine ⟨y, f, ?_, ?_⟩
    · simp [step, inStep, incBuff, outStep, doOutput]
    · simpa [step, inStep] using ⟨hyx, hrf.2⟩
  | burst =>
    simp only [reduceCtorEq, if_false] at hrf
    cases vr with
    | true =>
      have h1 := hrf.1 rfl
      subst h1
      refine ⟨y, r, ?_, ?_⟩
      · by_cases hc : r.ctr ≤ fr <;> simp [step, inStep, incBuff, outStep, doOutput, hc]
      · by_cases hc : r.ctr ≤ fr <;> simpa [step, inStep, hc] using hyx
    | false =>
      refine ⟨y, r, ?_, ?_⟩
      · simp [step, inStep, incBuff, outStep, doOutput]
      · simpa [step, inStep] using hyx

/-- Pipeline states that agree except for the table read port's register when it is not used. -/
def Int1.Sim (a b : Int1) : Prop := ∃ rp, b = { a with encode := { a.encode with rpData := rp } } ∧
  (a.encode.validLate = true → rp = a.encode.rpData)

theorem Int1.sim_step (c : Int1Cfg) {a b : Int1} (h : Int1.Sim a b) (px : List Nat) (v : Bool) :
    a.step c px v = b.step c px v := by
  obtain ⟨rp, rfl, hr⟩ := h
  simp only [step, Encode.step, mergeIn]
  cases hv : a.encode.validLate with
  | true => rw [hr hv]
  | false => simp

theorem Int1.sim_out (c : Int1Cfg) {a b : Int1} (h : Int1.Sim a b) : a.out c = b.out c := by
  obtain ⟨rp, rfl, hr⟩ := h
  rfl

/-- Core states that agree on everything in use. -/
structure Int3.Sim (c : CoreCfg) (a b : Int3) : Prop where
  int1 : Int1.Sim a.int2.int1 b.int2.int1
  pfifo : Fifo.Sim c.depth a.int2.pfifo b.int2.pfifo
  conv : Converter.Sim a.int2.conv b.int2.conv
  cfifo : Fifo.Sim c.cdepth a.int2.cfifo b.int2.cfifo
  ctl : a.int2.pFull = b.int2.pFull ∧ a.int2.cFull = b.int2.cFull ∧ a.int2.nreadyEndReg = b.int2.nreadyEndReg ∧
    a.int2.nreadyEnd = b.int2.nreadyEnd ∧ a.int2.nreadyReset = b.int2.nreadyReset ∧ a.int2.nreadyCtr = b.int2.nreadyCtr
  vbits : VBits.Sim a.vbits b.vbits

theorem Int3.sim_reset {c : CoreCfg} (hd : 1 < c.depth) (hcd : 1 < c.cdepth) {m m' : Kept} (hm : m.Ok c)
    (hm' : m'.Ok c) : Int3.Sim c (.reset c m) (.reset c m') :=
  ⟨⟨m'.rp, rfl, by simp [reset, Int2.reset, Int1.reset, Encode.reset]⟩,
   Fifo.sim_reset hd hm.pm hm'.pm, ⟨_, rfl, fun _ => rfl⟩, Fifo.sim_reset hcd hm.cm hm'.cm,
   ⟨rfl, rfl, rfl, rfl, rfl, rfl⟩, ⟨_, _, rfl, by simp [reset, VBits.init]⟩⟩

theorem Int3.sim_out {c : CoreCfg} {a b : Int3} (h : Int3.Sim c a b) :
    a.nready = b.nready ∧ a.data = b.data ∧ a.valid = b.valid ∧ a.endd = b.endd := by
  obtain ⟨_, _, _, _, ⟨h1, h2, h3, h4, h5, h6⟩, ⟨r, f, hb, _⟩⟩ := h
  refine ⟨by simp [nready, Int2.nready, h1, h4, h5], ?_, ?_, ?_⟩
  · show a.vbits.data = b.vbits.data
    rw [hb]
  · show a.vbits.valid = b.vbits.valid
    rw [hb]
  · show a.vbits.endd = b.vbits.endd
    rw [hb]

theorem Fifo.sim_level {depth : Nat} {a b : Fifo} (h : Fifo.Sim depth a b) : a.level = b.level := by
  simp [level, h.level, h.readable]

theorem Int3.sim_step {c : CoreCfg} {a b : Int3} (h : Int3.Sim c a b) (px : List Nat) (v busy : Bool) :
    Int3.Sim c (a.step c px v busy) (b.step c px v busy) := by
  obtain ⟨hn, _, _, _⟩ := Int3.sim_out h
  have hn' : a.int2.nready = b.int2.nready := hn
  have hlat : a.vbits.latch = b.vbits.latch := by
    obtain ⟨r, f, hb, _⟩ := h.vbits; rw [hb]
  have hcl : a.int2.conv.latch = b.int2.conv.latch ∧ a.int2.conv.valid = b.int2.conv.valid ∧
      a.int2.conv.out = b.int2.conv.out := by
    obtain ⟨r, hb, _⟩ := h.conv; rw [hb]; exact ⟨rfl, rfl, rfl⟩
  have hsig : a.int2.int1.signals = b.int2.int1.signals := by
    obtain ⟨rp, hb, _⟩ := h.int1; rw [hb]
  have hout := Int1.sim_out c.int1 h.int1
  obtain ⟨c1, c2, c3, c4, c5, c6⟩ := h.ctl
  refine ⟨?_, ?_, ?_, ?_, ?_, ?_⟩
  · simp only [step, Int2.step]
    rw [Int1.sim_step c.int1 h.int1, hn']
    exact ⟨_, rfl, fun _ => rfl⟩
  · simp only [step, Int2.step]
    rw [hout, hcl.1]
    exact Fifo.sim_step h.pfifo _ _ (fun _ => rfl)
  · simp only [step, Int2.step]
    rw [h.pfifo.readable, c2]
    apply Converter.sim_step _ _ h.conv
    intro hr
    rw [h.pfifo.dout (by rw [h.pfifo.readable]; exact hr)]
  · simp only [step, Int2.step]
    rw [hcl.2.1, hcl.2.2, hlat]
    exact Fifo.sim_step h.cfifo _ _ (fun _ => rfl)
  · simp only [step, Int2.step, hn', hsig, c3, c5, c6, Fifo.sim_level h.pfifo, Fifo.sim_level h.cfifo]
    exact ⟨trivial, trivial, trivial, trivial, trivial, trivial⟩
  · simp only [step, Int2.valid, Int2.out]
    rw [h.cfifo.readable]
    apply VBits.sim_step _ _ h.vbits
    intro hr
    rw [h.cfifo.dout (by rw [h.cfifo.readable]; exact hr)]

end Model
